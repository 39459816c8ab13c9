import Verif.Lemmas.AllYears
import Verif.Props.Adding
import Verif.Props.Subtracting

/-! Adding and subtracting years for *every* 64-bit amount: completes the partial theorems of C18 and
C23, which stop at years that fit in 32 bits, and makes the refutation of C27 general. -/

namespace Props
open Kairos Spec

private theorem mod32 {y Y k : Int} (h1 : -2147483648 ≤ Y) (h2 : Y ≤ 2147483647) (h : y = Y + k * 4294967296) :
    asI32 y = Y ∧ asI32 Y = Y := ⟨asI32_of h1 h2 h, asI32_id h1 h2⟩

/-- **C18, every amount.** Let `Y` be the 32-bit number that differs from `m.year + n` by a multiple
of 2^32. Adding `n` years panics exactly if the build is a debug build and `m.year + n` overflows 64
bits. Otherwise it is the same month, day and time in year `Y`; 29 February becomes 1 March if `Y`
is a common year; and it is an error exactly if `Y` is outside chrono's range.
(Partial: the year is only right modulo 2^32, see `C27_refuted_everywhere`.) -/
theorem C18_every_amount_partial (c : Cfg) (m : Moment) (hm : m.Valid c) (n Y k : Int)
    (hy1 : -2147483648 ≤ Y) (hy2 : Y ≤ 2147483647) (hY : m.year + n = Y + k * 4294967296) :
    calculate c (.moment m + .years n) =
      if c.profile = .debug ∧ ¬ (-9223372036854775808 ≤ m.year + n ∧ m.year + n ≤ 9223372036854775807) then
        .panic
      else if Y < c.minYear ∨ c.maxYear < Y then
        .err (.outOfBounds Y
          (if m.month = 2 ∧ m.day = 29 ∧ Cal.isLeap Y = false then 3 else m.month)
          m.hour m.hour m.minute m.second)
      else if m.month = 2 ∧ m.day = 29 ∧ Cal.isLeap Y = false then
        .ok (.moment { m with year := Y, month := 3, day := 1, nano := 0 })
      else .ok (.moment { m with year := Y, nano := 0 }) := by
  obtain ⟨e1, e2⟩ := mod32 hy1 hy2 hY
  have ey : m.year + (Y - m.year) = Y := by omega
  have h := C18_adding_years_partial c m hm (Y - m.year) (by omega) (by omega)
  rw [addYears_all c hm (Y - m.year) Y hy1 hy2 (by rw [ey, e2]),
    if_neg (by rw [ey]; unfold InI64; omega), ey] at h
  rw [addYears_all c hm n Y hy1 hy2 e1, h]
  rfl

example : calculate (std .debug) (.moment (at_ 2016 2 29 0 0 0) + .years 1) = .ok (.moment (at_ 2017 3 1 0 0 0)) :=
  (C18_every_amount_partial (std .debug) (at_ 2016 2 29 0 0 0) (by decide) 1 2017 0 (by decide) (by decide) (by decide)).trans (by decide +kernel)

/-- **C23, every amount.** The same for subtracting: with `Y` the 32-bit number that differs from
`m.year - n` by a multiple of 2^32, a panic exactly on 64-bit overflow in debug builds, and otherwise
the date in year `Y` if it exists and is in chrono's range, or else an error.
(Partial: the year is only right modulo 2^32, see `C27_refuted_everywhere`.) -/
theorem C23_every_amount_partial (c : Cfg) (m : Moment) (hm : m.Valid c) (n Y k : Int)
    (hy1 : -2147483648 ≤ Y) (hy2 : Y ≤ 2147483647) (hY : m.year - n = Y + k * 4294967296) :
    calculate c (.moment m - .years n) =
      if c.profile = .debug ∧ ¬ (-9223372036854775808 ≤ m.year - n ∧ m.year - n ≤ 9223372036854775807) then
        .panic
      else if c.minYear ≤ Y ∧ Y ≤ c.maxYear ∧ Cal.ValidDate Y m.month m.day
      then .ok (.moment { m with year := Y, nano := 0 })
      else .err (.outOfBounds Y m.month m.hour m.hour m.minute m.second) := by
  obtain ⟨e1, e2⟩ := mod32 hy1 hy2 hY
  have ey : m.year - (m.year - Y) = Y := by omega
  have h := C23_subtracting_years_partial c m hm (m.year - Y) (by omega) (by omega)
  rw [subYears_all c hm (m.year - Y) Y hy1 hy2 (by rw [ey, e2]),
    if_neg (by rw [ey]; unfold InI64; omega), ey] at h
  rw [subYears_all c hm n Y hy1 hy2 e1, h]
  rfl

example : calculate (std .debug) (.moment (at_ 2016 2 29 0 0 0) - .years 1) = .err (.outOfBounds 2015 2 0 0 0 0) :=
  (C23_every_amount_partial (std .debug) (at_ 2016 2 29 0 0 0) (by decide) 1 2015 0 (by decide) (by decide) (by decide)).trans (by decide +kernel)

/-- Every sum has such a `Y`. -/
theorem year_mod_exists (y : Int) : ∃ Y k : Int, -2147483648 ≤ Y ∧ Y ≤ 2147483647 ∧ y = Y + k * 4294967296 :=
  ⟨(y + 2147483648) % 4294967296 - 2147483648, (y + 2147483648) / 4294967296, by omega, by omega, by omega⟩

/-- **C27 refuted, in general**: whatever the moment, adding or subtracting any multiple of 2^32
years (small enough not to overflow 64 bits) succeeds and reports the same date and time. -/
theorem C27_refuted_everywhere (c : Cfg) (hc : Sane c) (m : Moment) (hm : m.Valid c) (k : Int)
    (hk1 : -2147483647 ≤ k) (hk2 : k ≤ 2147483647) :
    calculate c (.moment m + .years (k * 4294967296)) = .ok (.moment { m with nano := 0 }) ∧
    calculate c (.moment m - .years (k * 4294967296)) = .ok (.moment { m with nano := 0 }) := by
  have hm' := hm
  obtain ⟨a1, a2, hv, -⟩ := hm'
  unfold Sane at hc
  have hnf : ¬ (m.month = 2 ∧ m.day = 29 ∧ Cal.isLeap m.year = false) := by
    rintro ⟨h1, h2, h3⟩
    have := hv.2.2.2
    rw [h1, h2] at this
    simp [Cal.monthLen, h3] at this
  refine ⟨?_, ?_⟩
  · rw [C18_every_amount_partial c m hm (k * 4294967296) m.year k (by omega) (by omega) rfl,
      if_neg (by rintro ⟨-, h⟩; exact h (by omega)), if_neg (by omega), if_neg hnf]
  · rw [C23_every_amount_partial c m hm (k * 4294967296) m.year (-k) (by omega) (by omega) (by omega),
      if_neg (by rintro ⟨-, h⟩; exact h (by omega)), if_pos ⟨a1, a2, hv⟩]

example := C27_refuted_everywhere (std .debug) (sane_std _) (at_ 2016 2 29 12 0 0) (by decide) (-5) (by decide) (by decide)

/-- **C18 refuted.** 2^32 years after any moment is that moment, in whole seconds, not an error. -/
theorem C18_refuted (c : Cfg) (hc : Sane c) (m : Moment) (hm : m.Valid c) :
    calculate c (.moment m + .years 4294967296) = .ok (.moment { m with nano := 0 }) :=
  (C27_refuted_everywhere c hc m hm 1 (by decide) (by decide)).1

example := C18_refuted (std .debug) (sane_std _) (at_ 2016 2 29 12 0 0) (by decide)

/-- **C23 refuted.** 2^32 years before any moment is that moment, in whole seconds, not an error. -/
theorem C23_refuted (c : Cfg) (hc : Sane c) (m : Moment) (hm : m.Valid c) :
    calculate c (.moment m - .years 4294967296) = .ok (.moment { m with nano := 0 }) :=
  (C27_refuted_everywhere c hc m hm 1 (by decide) (by decide)).2

example := C23_refuted (std .debug) (sane_std _) (at_ 2016 2 29 12 0 0) (by decide)

example : calculate (std .debug) (.moment (at_ 2017 6 15 8 0 0) + .years 4294967296) = .ok (.moment (at_ 2017 6 15 8 0 0)) ∧
    calculate (std .release) (.moment (at_ 2017 6 15 8 0 0) - .years 4294967296) = .ok (.moment (at_ 2017 6 15 8 0 0)) := by
  decide +kernel

/-- **C27 (partial), exactly when.** Adding years succeeds exactly if the year modulo 2^32 is in
chrono's range (and nothing overflowed in a debug build) — so a result out of range is reported
unless it is more than about two billion years away. -/
theorem C27_success_partial (c : Cfg) (m : Moment) (hm : m.Valid c) (n Y k : Int)
    (hy1 : -2147483648 ≤ Y) (hy2 : Y ≤ 2147483647) (hY : m.year + n = Y + k * 4294967296) :
    (∃ r, calculate c (.moment m + .years n) = .ok r) ↔
      c.minYear ≤ Y ∧ Y ≤ c.maxYear ∧
      (c.profile = .debug → -9223372036854775808 ≤ m.year + n ∧ m.year + n ≤ 9223372036854775807) := by
  rw [C18_every_amount_partial c m hm n Y k hy1 hy2 hY]
  by_cases h1 : c.profile = .debug ∧ ¬ (-9223372036854775808 ≤ m.year + n ∧ m.year + n ≤ 9223372036854775807)
  · rw [if_pos h1]
    exact ⟨(nomatch ·), fun ⟨_, _, h⟩ => absurd (h h1.1) h1.2⟩
  · rw [if_neg h1]
    have h1' : c.profile = .debug → -9223372036854775808 ≤ m.year + n ∧ m.year + n ≤ 9223372036854775807 :=
      fun h => Classical.byContradiction fun h2 => h1 ⟨h, h2⟩
    by_cases h2 : Y < c.minYear ∨ c.maxYear < Y
    · rw [if_pos h2]
      exact ⟨fun ⟨r, h⟩ => (nomatch h), fun ⟨_, _, _⟩ => by omega⟩
    · rw [if_neg h2]
      refine ⟨fun _ => ⟨by omega, by omega, h1'⟩, fun _ => ?_⟩
      split <;> exact ⟨_, rfl⟩

example : calculate (std .debug) (.moment (at_ 2016 2 29 1 2 3) + .years (4294967296 + 1)) =
      .ok (.moment (at_ 2017 3 1 1 2 3)) ∧
    (2016 : Int) + (4294967296 + 1) = 2017 + 1 * 4294967296 ∧
    calculate (std .debug) (.moment (at_ 2016 2 29 1 2 3) + .years 9223372036854775807) = .panic ∧
    calculate (std .release) (.moment (at_ 2016 2 29 1 2 3) + .years 9223372036854775807) =
      .ok (.moment (at_ 2015 3 1 1 2 3)) ∧
    calculate (std .release) (.moment (at_ 2016 2 29 1 2 3) - .years (-9223372036854775807)) =
      .err (.outOfBounds 2015 2 1 1 2 3) := by decide +kernel

end Props
