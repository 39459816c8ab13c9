/-!
# Specification: the proleptic Gregorian calendar

Independent of the model of the code: nothing here is taken from `/repo`.
It is used (a) to state what correct dates are and (b) to state what is assumed about the `chrono`
crate (`Model/Chrono.lean`).
-/

namespace Cal

/-- Gregorian leap year rule (astronomical year numbering, year 0 and negative years allowed). -/
def isLeap (y : Int) : Bool :=
  (y % 4 == 0) && ((y % 100 != 0) || (y % 400 == 0))

/-- Length of month `m` (1..12) of year `y`; 0 for any other `m`. -/
def monthLen (y m : Int) : Int :=
  if m = 1 then 31
  else if m = 2 then (if isLeap y then 29 else 28)
  else if m = 3 then 31
  else if m = 4 then 30
  else if m = 5 then 31
  else if m = 6 then 30
  else if m = 7 then 31
  else if m = 8 then 31
  else if m = 9 then 30
  else if m = 10 then 31
  else if m = 11 then 30
  else if m = 12 then 31
  else 0

/-- Length of year `y`. -/
def yearLen (y : Int) : Int := if isLeap y then 366 else 365

/-- A date that exists. -/
def ValidDate (y m d : Int) : Prop :=
  1 ≤ m ∧ m ≤ 12 ∧ 1 ≤ d ∧ d ≤ monthLen y m

instance (y m d : Int) : Decidable (ValidDate y m d) := by unfold ValidDate; infer_instance

/-- A time of day that exists (no leap seconds). -/
def ValidTime (h mi s : Int) : Prop :=
  0 ≤ h ∧ h < 24 ∧ 0 ≤ mi ∧ mi < 60 ∧ 0 ≤ s ∧ s < 60

instance (h mi s : Int) : Decidable (ValidTime h mi s) := by unfold ValidTime; infer_instance

/-- The day after `(y, m, d)`. -/
def nextDay (y m d : Int) : Int × Int × Int :=
  if d < monthLen y m then (y, m, d + 1)
  else if m < 12 then (y, m + 1, 1)
  else (y + 1, 1, 1)

/-- Number of days in year `y` before month `m` begins. -/
def daysBeforeMonth (y m : Int) : Int :=
  if m ≤ 1 then 0
  else if m = 2 then 31
  else
    (if isLeap y then 1 else 0) +
    (if m = 3 then 59
     else if m = 4 then 90
     else if m = 5 then 120
     else if m = 6 then 151
     else if m = 7 then 181
     else if m = 8 then 212
     else if m = 9 then 243
     else if m = 10 then 273
     else if m = 11 then 304
     else 334)

/-- Number of days from 1 January of year 1 to 1 January of year `y`. -/
def daysBeforeYear (y : Int) : Int :=
  365 * (y - 1) + (y - 1) / 4 - (y - 1) / 100 + (y - 1) / 400

/-- Day number of a date: 1 January of year 1 is day 1.  `Lemmas/Calendar.lean` proves that this
is the day count: it goes up by exactly one from each date to the next (`dayNumber_nextDay`). -/
def dayNumber (y m d : Int) : Int :=
  daysBeforeYear y + daysBeforeMonth y m + d

/-- Seconds on the calendar timeline. -/
def instant (y m d h mi s : Int) : Int :=
  dayNumber y m d * 86400 + h * 3600 + mi * 60 + s

/-- Months on the calendar timeline. -/
def monthIndex (y m : Int) : Int := 12 * y + (m - 1)

/-- Day of the week, 0 = Monday .. 6 = Sunday. 1 January of year 1 was a Monday. -/
def weekday (y m d : Int) : Int := (dayNumber y m d - 1) % 7

end Cal
