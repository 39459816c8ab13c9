import Verif.Spec.Chain
import Verif.Model.Indicator

/-!
# The unit tests of `src/timetype.rs`, run on the model

These are tests of the model against the behaviour the repository itself asserts, not proofs of properties. Generated from the
test macros of `src/timetype.rs`; the line of each test is given.
-/

namespace Tests
open Kairos Spec

/-- The tests run in the debug profile. -/
abbrev c : Cfg := std .debug

/-- test_moment_plus_zero_seconds, 2112 -/
example : calculate c (TT.moment (at_ 2000 1 1 0 0 0) + (TT.seconds 0)) = .ok (.moment (at_ 2000 1 1 0 0 0)) := by decide +kernel
/-- test_moment_plus_seconds, 2119 -/
example : calculate c (TT.moment (at_ 2000 1 1 0 0 0) + (TT.seconds 1)) = .ok (.moment (at_ 2000 1 1 0 0 1)) := by decide +kernel
/-- test_moment_plus_too_much_seconds, 2126 -/
example : calculate c (TT.moment (at_ 2000 1 1 0 0 0) + (TT.seconds 62)) = .ok (.moment (at_ 2000 1 1 0 1 2)) := by decide +kernel
/-- test_moment_plus_minutes, 2133 -/
example : calculate c (TT.moment (at_ 2000 1 1 0 0 0) + (TT.minutes 2)) = .ok (.moment (at_ 2000 1 1 0 2 0)) := by decide +kernel
/-- test_moment_plus_too_much_minutes, 2140 -/
example : calculate c (TT.moment (at_ 2000 1 1 0 0 0) + (TT.minutes 65)) = .ok (.moment (at_ 2000 1 1 1 5 0)) := by decide +kernel
/-- test_moment_plus_minutes_in_seconds, 2147 -/
example : calculate c (TT.moment (at_ 2000 1 1 0 0 0) + (TT.seconds 62)) = .ok (.moment (at_ 2000 1 1 0 1 2)) := by decide +kernel
/-- test_moment_plus_months, 2154 -/
example : calculate c (TT.moment (at_ 2000 1 1 0 0 0) + (TT.months 14)) = .ok (.moment (at_ 2001 3 1 0 0 0)) := by decide +kernel
/-- test_moment_plus_years, 2161 -/
example : calculate c (TT.moment (at_ 2000 1 1 0 0 0) + (TT.years 62)) = .ok (.moment (at_ 2062 1 1 0 0 0)) := by decide +kernel
/-- test_moment_plus_more_than_one_year, 2168 -/
example : calculate c (TT.moment (at_ 2000 1 1 0 0 0) + (TT.years 1 + TT.months 1)) = .ok (.moment (at_ 2001 2 1 0 0 0)) := by decide +kernel
/-- test_moment_plus_more_than_one_month, 2175 -/
example : calculate c (TT.moment (at_ 2000 1 1 0 0 0) + (TT.months 1 + TT.days 1)) = .ok (.moment (at_ 2000 2 1 0 0 0)) := by decide +kernel
/-- test_moment_plus_more_than_one_day, 2187 -/
example : calculate c (TT.moment (at_ 2000 1 1 0 0 0) + (TT.days 1 + TT.hours 1)) = .ok (.moment (at_ 2000 1 2 1 0 0)) := by decide +kernel
/-- test_moment_plus_more_than_one_hour, 2194 -/
example : calculate c (TT.moment (at_ 2000 1 1 0 0 0) + (TT.hours 1 + TT.minutes 1)) = .ok (.moment (at_ 2000 1 1 1 1 0)) := by decide +kernel
/-- test_moment_plus_more_than_one_minute, 2201 -/
example : calculate c (TT.moment (at_ 2000 1 1 0 0 0) + (TT.minutes 1 + TT.seconds 1)) = .ok (.moment (at_ 2000 1 1 0 1 1)) := by decide +kernel
/-- test_moment_plus_invalid_months, 2208 -/
example : calculate c (TT.moment (at_ 2000 1 1 0 0 0) + (TT.months 13)) = .ok (.moment (at_ 2001 2 1 0 0 0)) := by decide +kernel
/-- test_moment_plus_invalid_days, 2215 -/
example : calculate c (TT.moment (at_ 2000 1 1 0 0 0) + (TT.days 31)) = .ok (.moment (at_ 2000 2 1 0 0 0)) := by decide +kernel
/-- test_moment_plus_invalid_hours, 2222 -/
example : calculate c (TT.moment (at_ 2000 1 1 0 0 0) + (TT.hours 25)) = .ok (.moment (at_ 2000 1 2 1 0 0)) := by decide +kernel
/-- test_moment_plus_invalid_minutes, 2229 -/
example : calculate c (TT.moment (at_ 2000 1 1 0 0 0) + (TT.minutes 61)) = .ok (.moment (at_ 2000 1 1 1 1 0)) := by decide +kernel
/-- test_moment_plus_invalid_seconds, 2236 -/
example : calculate c (TT.moment (at_ 2000 1 1 0 0 0) + (TT.seconds 61)) = .ok (.moment (at_ 2000 1 1 0 1 1)) := by decide +kernel
/-- test_moment_minus_nothing, 2243 -/
example : calculate c (TT.moment (at_ 2000 1 1 0 0 0) - (TT.seconds 0)) = .ok (.moment (at_ 2000 1 1 0 0 0)) := by decide +kernel
/-- test_moment_minus_seconds, 2250 -/
example : calculate c (TT.moment (at_ 2000 1 1 0 0 0) - (TT.seconds 1)) = .ok (.moment (at_ 1999 12 31 23 59 59)) := by decide +kernel
/-- test_moment_minus_months, 2257 -/
example : calculate c (TT.moment (at_ 2000 1 1 0 0 0) - (TT.months 12)) = .ok (.moment (at_ 1999 1 1 0 0 0)) := by decide +kernel
/-- test_moment_plus_more_than_one_minute_in_seconds, 2264 -/
example : calculate c (TT.moment (at_ 2000 1 1 0 0 0) + (TT.seconds 130)) = .ok (.moment (at_ 2000 1 1 0 2 10)) := by decide +kernel
/-- test_moment_plus_more_than_one_hour_in_minutes, 2271 -/
example : calculate c (TT.moment (at_ 2000 1 1 0 0 0) + (TT.minutes 130)) = .ok (.moment (at_ 2000 1 1 2 10 0)) := by decide +kernel
/-- test_moment_plus_more_than_one_day_in_hours_1, 2278 -/
example : calculate c (TT.moment (at_ 2000 1 1 0 0 0) + (TT.hours 50)) = .ok (.moment (at_ 2000 1 3 2 0 0)) := by decide +kernel
/-- test_moment_plus_more_than_one_day_in_hours_2, 2285 -/
example : calculate c (TT.moment (at_ 2000 1 1 0 0 0) + (TT.hours 170)) = .ok (.moment (at_ 2000 1 8 2 0 0)) := by decide +kernel
/-- test_moment_plus_more_than_one_month_in_days_1, 2292 -/
example : calculate c (TT.moment (at_ 2000 1 1 0 0 0) + (TT.days 80)) = .ok (.moment (at_ 2000 3 21 0 0 0)) := by decide +kernel
/-- test_moment_plus_more_than_one_month_in_days_2, 2299 -/
example : calculate c (TT.moment (at_ 2000 1 1 0 0 0) + (TT.days 120)) = .ok (.moment (at_ 2000 4 30 0 0 0)) := by decide +kernel
/-- test_moment_plus_more_than_one_month_in_days_3, 2306 -/
example : calculate c (TT.moment (at_ 2000 1 1 0 0 0) + (TT.days 150)) = .ok (.moment (at_ 2000 5 30 0 0 0)) := by decide +kernel
/-- test_moment_plus_more_than_one_year_in_months_1, 2313 -/
example : calculate c (TT.moment (at_ 2000 1 1 0 0 0) + (TT.months 15)) = .ok (.moment (at_ 2001 4 1 0 0 0)) := by decide +kernel
/-- test_moment_plus_more_than_one_year_in_months_2, 2320 -/
example : calculate c (TT.moment (at_ 2000 1 1 0 0 0) + (TT.months 25)) = .ok (.moment (at_ 2002 2 1 0 0 0)) := by decide +kernel
/-- test_moment_plus_more_than_one_year_in_months_3, 2327 -/
example : calculate c (TT.moment (at_ 2000 1 1 0 0 0) + (TT.months 78)) = .ok (.moment (at_ 2006 7 1 0 0 0)) := by decide +kernel
/-- test_moment_plus_more_than_one_year_in_months_4, 2334 -/
example : calculate c (TT.moment (at_ 2000 10 31 0 0 0) + (TT.months 4)) = .ok (.moment (at_ 2001 3 1 0 0 0)) := by decide +kernel
/-- test_moment_plus_more_than_one_year_in_months_5, 2341 -/
example : calculate c (TT.moment (at_ 2000 10 31 0 0 0) + (TT.months 5)) = .ok (.moment (at_ 2001 4 1 0 0 0)) := by decide +kernel
/-- test_moment_plus_more_than_one_year_in_months_6, 2348 -/
example : calculate c (TT.moment (at_ 2000 10 31 0 0 0) + (TT.months 4 + TT.months 1)) = .ok (.moment (at_ 2001 4 1 0 0 0)) := by decide +kernel
/-- test_moment_plus_zero_seconds, 2587 -/
example : calculate c (TT.endOfYear (TT.moment (at_ 2000 1 1 0 0 0) + (TT.seconds 0))) = .ok (.moment (at_ 2000 12 31 0 0 0)) := by decide +kernel
/-- test_moment_plus_seconds, 2594 -/
example : calculate c (TT.endOfYear (TT.moment (at_ 2000 1 1 0 0 0) + (TT.seconds 1))) = .ok (.moment (at_ 2000 12 31 0 0 0)) := by decide +kernel
/-- test_moment_plus_too_much_seconds, 2601 -/
example : calculate c (TT.endOfYear (TT.moment (at_ 2000 1 1 0 0 0) + (TT.seconds 62))) = .ok (.moment (at_ 2000 12 31 0 0 0)) := by decide +kernel
/-- test_moment_plus_minutes, 2608 -/
example : calculate c (TT.endOfYear (TT.moment (at_ 2000 1 1 0 0 0) + (TT.minutes 2))) = .ok (.moment (at_ 2000 12 31 0 0 0)) := by decide +kernel
/-- test_moment_plus_too_much_minutes, 2615 -/
example : calculate c (TT.endOfYear (TT.moment (at_ 2000 1 1 0 0 0) + (TT.minutes 65))) = .ok (.moment (at_ 2000 12 31 0 0 0)) := by decide +kernel
/-- test_moment_plus_minutes_in_seconds, 2622 -/
example : calculate c (TT.endOfYear (TT.moment (at_ 2000 1 1 0 0 0) + (TT.seconds 62))) = .ok (.moment (at_ 2000 12 31 0 0 0)) := by decide +kernel
/-- test_moment_plus_months, 2629 -/
example : calculate c (TT.endOfYear (TT.moment (at_ 2000 1 1 0 0 0) + (TT.months 14))) = .ok (.moment (at_ 2001 12 31 0 0 0)) := by decide +kernel
/-- test_moment_plus_years, 2636 -/
example : calculate c (TT.endOfYear (TT.moment (at_ 2000 1 1 0 0 0) + (TT.years 62))) = .ok (.moment (at_ 2062 12 31 0 0 0)) := by decide +kernel
/-- test_moment_plus_more_than_one_year, 2643 -/
example : calculate c (TT.endOfYear (TT.moment (at_ 2000 1 1 0 0 0) + (TT.years 1 + TT.months 1))) = .ok (.moment (at_ 2001 12 31 0 0 0)) := by decide +kernel
/-- test_moment_plus_more_than_one_month, 2650 -/
example : calculate c (TT.endOfYear (TT.moment (at_ 2000 1 1 0 0 0) + (TT.months 1 + TT.days 1))) = .ok (.moment (at_ 2000 12 31 0 0 0)) := by decide +kernel
/-- test_moment_plus_more_than_one_day, 2662 -/
example : calculate c (TT.endOfYear (TT.moment (at_ 2000 1 1 0 0 0) + (TT.days 1 + TT.hours 1))) = .ok (.moment (at_ 2000 12 31 0 0 0)) := by decide +kernel
/-- test_moment_plus_more_than_one_hour, 2669 -/
example : calculate c (TT.endOfYear (TT.moment (at_ 2000 1 1 0 0 0) + (TT.hours 1 + TT.minutes 1))) = .ok (.moment (at_ 2000 12 31 0 0 0)) := by decide +kernel
/-- test_moment_plus_more_than_one_minute, 2676 -/
example : calculate c (TT.endOfYear (TT.moment (at_ 2000 1 1 0 0 0) + (TT.minutes 1 + TT.seconds 1))) = .ok (.moment (at_ 2000 12 31 0 0 0)) := by decide +kernel
/-- test_moment_plus_invalid_months, 2683 -/
example : calculate c (TT.endOfYear (TT.moment (at_ 2000 1 1 0 0 0) + (TT.months 13))) = .ok (.moment (at_ 2001 12 31 0 0 0)) := by decide +kernel
/-- test_moment_plus_invalid_days, 2690 -/
example : calculate c (TT.endOfYear (TT.moment (at_ 2000 1 1 0 0 0) + (TT.days 31))) = .ok (.moment (at_ 2000 12 31 0 0 0)) := by decide +kernel
/-- test_moment_plus_invalid_hours, 2697 -/
example : calculate c (TT.endOfYear (TT.moment (at_ 2000 1 1 0 0 0) + (TT.hours 25))) = .ok (.moment (at_ 2000 12 31 0 0 0)) := by decide +kernel
/-- test_moment_plus_invalid_minutes, 2704 -/
example : calculate c (TT.endOfYear (TT.moment (at_ 2000 1 1 0 0 0) + (TT.minutes 61))) = .ok (.moment (at_ 2000 12 31 0 0 0)) := by decide +kernel
/-- test_moment_plus_invalid_seconds, 2711 -/
example : calculate c (TT.endOfYear (TT.moment (at_ 2000 1 1 0 0 0) + (TT.seconds 61))) = .ok (.moment (at_ 2000 12 31 0 0 0)) := by decide +kernel
/-- test_moment_minus_nothing, 2718 -/
example : calculate c (TT.endOfYear (TT.moment (at_ 2000 1 1 0 0 0) - (TT.seconds 0))) = .ok (.moment (at_ 2000 12 31 0 0 0)) := by decide +kernel
/-- test_moment_minus_seconds, 2725 -/
example : calculate c (TT.endOfYear (TT.moment (at_ 2000 1 1 0 0 0) - (TT.seconds 1))) = .ok (.moment (at_ 1999 12 31 0 0 0)) := by decide +kernel
/-- test_moment_minus_months, 2732 -/
example : calculate c (TT.endOfYear (TT.moment (at_ 2000 1 1 0 0 0) - (TT.months 12))) = .ok (.moment (at_ 1999 12 31 0 0 0)) := by decide +kernel
/-- test_moment_plus_zero_seconds, 2805 -/
example : calculate c (TT.endOfMonth (TT.moment (at_ 2000 1 1 0 0 0) + (TT.seconds 0))) = .ok (.moment (at_ 2000 1 31 0 0 0)) := by decide +kernel
/-- test_moment_plus_seconds, 2812 -/
example : calculate c (TT.endOfMonth (TT.moment (at_ 2000 1 1 0 0 0) + (TT.seconds 1))) = .ok (.moment (at_ 2000 1 31 0 0 0)) := by decide +kernel
/-- test_moment_plus_too_much_seconds, 2819 -/
example : calculate c (TT.endOfMonth (TT.moment (at_ 2000 1 1 0 0 0) + (TT.seconds 62))) = .ok (.moment (at_ 2000 1 31 0 0 0)) := by decide +kernel
/-- test_moment_plus_minutes, 2826 -/
example : calculate c (TT.endOfMonth (TT.moment (at_ 2000 1 1 0 0 0) + (TT.minutes 2))) = .ok (.moment (at_ 2000 1 31 0 0 0)) := by decide +kernel
/-- test_moment_plus_too_much_minutes, 2833 -/
example : calculate c (TT.endOfMonth (TT.moment (at_ 2000 1 1 0 0 0) + (TT.minutes 65))) = .ok (.moment (at_ 2000 1 31 0 0 0)) := by decide +kernel
/-- test_moment_plus_minutes_in_seconds, 2840 -/
example : calculate c (TT.endOfMonth (TT.moment (at_ 2000 1 1 0 0 0) + (TT.seconds 62))) = .ok (.moment (at_ 2000 1 31 0 0 0)) := by decide +kernel
/-- test_moment_plus_months, 2847 -/
example : calculate c (TT.endOfMonth (TT.moment (at_ 2000 1 1 0 0 0) + (TT.months 14))) = .ok (.moment (at_ 2001 3 31 0 0 0)) := by decide +kernel
/-- test_moment_plus_years, 2854 -/
example : calculate c (TT.endOfMonth (TT.moment (at_ 2000 1 1 0 0 0) + (TT.years 62))) = .ok (.moment (at_ 2062 1 31 0 0 0)) := by decide +kernel
/-- test_moment_plus_more_than_one_year, 2861 -/
example : calculate c (TT.endOfMonth (TT.moment (at_ 2000 1 1 0 0 0) + (TT.years 1 + TT.months 1))) = .ok (.moment (at_ 2001 2 28 0 0 0)) := by decide +kernel
/-- test_moment_plus_more_than_one_month, 2868 -/
example : calculate c (TT.endOfMonth (TT.moment (at_ 2000 1 1 0 0 0) + (TT.months 1 + TT.days 1))) = .ok (.moment (at_ 2000 2 29 0 0 0)) := by decide +kernel
/-- test_moment_plus_more_than_one_day, 2880 -/
example : calculate c (TT.endOfMonth (TT.moment (at_ 2000 1 1 0 0 0) + (TT.days 1 + TT.hours 1))) = .ok (.moment (at_ 2000 1 31 0 0 0)) := by decide +kernel
/-- test_moment_plus_more_than_one_hour, 2887 -/
example : calculate c (TT.endOfMonth (TT.moment (at_ 2000 1 1 0 0 0) + (TT.hours 1 + TT.minutes 1))) = .ok (.moment (at_ 2000 1 31 0 0 0)) := by decide +kernel
/-- test_moment_plus_more_than_one_minute, 2894 -/
example : calculate c (TT.endOfMonth (TT.moment (at_ 2000 1 1 0 0 0) + (TT.minutes 1 + TT.seconds 1))) = .ok (.moment (at_ 2000 1 31 0 0 0)) := by decide +kernel
/-- test_moment_plus_invalid_months, 2901 -/
example : calculate c (TT.endOfMonth (TT.moment (at_ 2000 1 1 0 0 0) + (TT.months 13))) = .ok (.moment (at_ 2001 2 28 0 0 0)) := by decide +kernel
/-- test_moment_plus_invalid_days, 2908 -/
example : calculate c (TT.endOfMonth (TT.moment (at_ 2000 1 1 0 0 0) + (TT.days 31))) = .ok (.moment (at_ 2000 2 29 0 0 0)) := by decide +kernel
/-- test_moment_plus_invalid_hours, 2915 -/
example : calculate c (TT.endOfMonth (TT.moment (at_ 2000 1 1 0 0 0) + (TT.hours 25))) = .ok (.moment (at_ 2000 1 31 0 0 0)) := by decide +kernel
/-- test_moment_plus_invalid_minutes, 2922 -/
example : calculate c (TT.endOfMonth (TT.moment (at_ 2000 1 1 0 0 0) + (TT.minutes 61))) = .ok (.moment (at_ 2000 1 31 0 0 0)) := by decide +kernel
/-- test_moment_plus_invalid_seconds, 2929 -/
example : calculate c (TT.endOfMonth (TT.moment (at_ 2000 1 1 0 0 0) + (TT.seconds 61))) = .ok (.moment (at_ 2000 1 31 0 0 0)) := by decide +kernel
/-- test_moment_minus_nothing, 2936 -/
example : calculate c (TT.endOfMonth (TT.moment (at_ 2000 1 1 0 0 0) - (TT.seconds 0))) = .ok (.moment (at_ 2000 1 31 0 0 0)) := by decide +kernel
/-- test_moment_minus_seconds, 2943 -/
example : calculate c (TT.endOfMonth (TT.moment (at_ 2000 1 1 0 0 0) - (TT.seconds 1))) = .ok (.moment (at_ 1999 12 31 0 0 0)) := by decide +kernel
/-- test_moment_minus_months, 2950 -/
example : calculate c (TT.endOfMonth (TT.moment (at_ 2000 1 1 0 0 0) - (TT.months 12))) = .ok (.moment (at_ 1999 1 31 0 0 0)) := by decide +kernel
/-- test_moment_plus_zero_seconds, 3024 -/
example : calculate c (TT.endOfDay (TT.moment (at_ 2000 1 1 0 0 0) + (TT.seconds 0))) = .ok (.moment (at_ 2000 1 1 23 59 59)) := by decide +kernel
/-- test_moment_plus_seconds, 3031 -/
example : calculate c (TT.endOfDay (TT.moment (at_ 2000 1 1 0 0 0) + (TT.seconds 1))) = .ok (.moment (at_ 2000 1 1 23 59 59)) := by decide +kernel
/-- test_moment_plus_too_much_seconds, 3038 -/
example : calculate c (TT.endOfDay (TT.moment (at_ 2000 1 1 0 0 0) + (TT.seconds 62))) = .ok (.moment (at_ 2000 1 1 23 59 59)) := by decide +kernel
/-- test_moment_plus_minutes, 3045 -/
example : calculate c (TT.endOfDay (TT.moment (at_ 2000 1 1 0 0 0) + (TT.minutes 2))) = .ok (.moment (at_ 2000 1 1 23 59 59)) := by decide +kernel
/-- test_moment_plus_too_much_minutes, 3052 -/
example : calculate c (TT.endOfDay (TT.moment (at_ 2000 1 1 0 0 0) + (TT.minutes 65))) = .ok (.moment (at_ 2000 1 1 23 59 59)) := by decide +kernel
/-- test_moment_plus_minutes_in_seconds, 3059 -/
example : calculate c (TT.endOfDay (TT.moment (at_ 2000 1 1 0 0 0) + (TT.seconds 62))) = .ok (.moment (at_ 2000 1 1 23 59 59)) := by decide +kernel
/-- test_moment_plus_months, 3066 -/
example : calculate c (TT.endOfDay (TT.moment (at_ 2000 1 1 0 0 0) + (TT.months 14))) = .ok (.moment (at_ 2001 3 1 23 59 59)) := by decide +kernel
/-- test_moment_plus_years, 3073 -/
example : calculate c (TT.endOfDay (TT.moment (at_ 2000 1 1 0 0 0) + (TT.years 62))) = .ok (.moment (at_ 2062 1 1 23 59 59)) := by decide +kernel
/-- test_moment_plus_more_than_one_year, 3080 -/
example : calculate c (TT.endOfDay (TT.moment (at_ 2000 1 1 0 0 0) + (TT.years 1 + TT.months 1))) = .ok (.moment (at_ 2001 2 1 23 59 59)) := by decide +kernel
/-- test_moment_plus_more_than_one_month, 3087 -/
example : calculate c (TT.endOfDay (TT.moment (at_ 2000 1 1 0 0 0) + (TT.months 1 + TT.days 1))) = .ok (.moment (at_ 2000 2 1 23 59 59)) := by decide +kernel
/-- test_moment_plus_more_than_one_day, 3099 -/
example : calculate c (TT.endOfDay (TT.moment (at_ 2000 1 1 0 0 0) + (TT.days 1 + TT.hours 1))) = .ok (.moment (at_ 2000 1 2 23 59 59)) := by decide +kernel
/-- test_moment_plus_more_than_one_hour, 3106 -/
example : calculate c (TT.endOfDay (TT.moment (at_ 2000 1 1 0 0 0) + (TT.hours 1 + TT.minutes 1))) = .ok (.moment (at_ 2000 1 1 23 59 59)) := by decide +kernel
/-- test_moment_plus_more_than_one_minute, 3113 -/
example : calculate c (TT.endOfDay (TT.moment (at_ 2000 1 1 0 0 0) + (TT.minutes 1 + TT.seconds 1))) = .ok (.moment (at_ 2000 1 1 23 59 59)) := by decide +kernel
/-- test_moment_plus_invalid_months, 3120 -/
example : calculate c (TT.endOfDay (TT.moment (at_ 2000 1 1 0 0 0) + (TT.months 13))) = .ok (.moment (at_ 2001 2 1 23 59 59)) := by decide +kernel
/-- test_moment_plus_invalid_days, 3127 -/
example : calculate c (TT.endOfDay (TT.moment (at_ 2000 1 1 0 0 0) + (TT.days 31))) = .ok (.moment (at_ 2000 2 1 23 59 59)) := by decide +kernel
/-- test_moment_plus_invalid_hours, 3134 -/
example : calculate c (TT.endOfDay (TT.moment (at_ 2000 1 1 0 0 0) + (TT.hours 25))) = .ok (.moment (at_ 2000 1 2 23 59 59)) := by decide +kernel
/-- test_moment_plus_invalid_minutes, 3141 -/
example : calculate c (TT.endOfDay (TT.moment (at_ 2000 1 1 0 0 0) + (TT.minutes 61))) = .ok (.moment (at_ 2000 1 1 23 59 59)) := by decide +kernel
/-- test_moment_plus_invalid_seconds, 3148 -/
example : calculate c (TT.endOfDay (TT.moment (at_ 2000 1 1 0 0 0) + (TT.seconds 61))) = .ok (.moment (at_ 2000 1 1 23 59 59)) := by decide +kernel
/-- test_moment_minus_nothing, 3155 -/
example : calculate c (TT.endOfDay (TT.moment (at_ 2000 1 1 0 0 0) - (TT.seconds 0))) = .ok (.moment (at_ 2000 1 1 23 59 59)) := by decide +kernel
/-- test_moment_minus_seconds, 3162 -/
example : calculate c (TT.endOfDay (TT.moment (at_ 2000 1 1 0 0 0) - (TT.seconds 1))) = .ok (.moment (at_ 1999 12 31 23 59 59)) := by decide +kernel
/-- test_moment_minus_months, 3169 -/
example : calculate c (TT.endOfDay (TT.moment (at_ 2000 1 1 0 0 0) - (TT.months 12))) = .ok (.moment (at_ 1999 1 1 23 59 59)) := by decide +kernel
/-- test_moment_plus_zero_seconds, 3242 -/
example : calculate c (TT.endOfHour (TT.moment (at_ 2000 1 1 0 0 0) + (TT.seconds 0))) = .ok (.moment (at_ 2000 1 1 0 59 59)) := by decide +kernel
/-- test_moment_plus_seconds, 3249 -/
example : calculate c (TT.endOfHour (TT.moment (at_ 2000 1 1 0 0 0) + (TT.seconds 1))) = .ok (.moment (at_ 2000 1 1 0 59 59)) := by decide +kernel
/-- test_moment_plus_too_much_seconds, 3256 -/
example : calculate c (TT.endOfHour (TT.moment (at_ 2000 1 1 0 0 0) + (TT.seconds 62))) = .ok (.moment (at_ 2000 1 1 0 59 59)) := by decide +kernel
/-- test_moment_plus_minutes, 3263 -/
example : calculate c (TT.endOfHour (TT.moment (at_ 2000 1 1 0 0 0) + (TT.minutes 2))) = .ok (.moment (at_ 2000 1 1 0 59 59)) := by decide +kernel
/-- test_moment_plus_too_much_minutes, 3270 -/
example : calculate c (TT.endOfHour (TT.moment (at_ 2000 1 1 0 0 0) + (TT.minutes 65))) = .ok (.moment (at_ 2000 1 1 1 59 59)) := by decide +kernel
/-- test_moment_plus_minutes_in_seconds, 3277 -/
example : calculate c (TT.endOfHour (TT.moment (at_ 2000 1 1 0 0 0) + (TT.seconds 62))) = .ok (.moment (at_ 2000 1 1 0 59 59)) := by decide +kernel
/-- test_moment_plus_months, 3284 -/
example : calculate c (TT.endOfHour (TT.moment (at_ 2000 1 1 0 0 0) + (TT.months 14))) = .ok (.moment (at_ 2001 3 1 0 59 59)) := by decide +kernel
/-- test_moment_plus_years, 3291 -/
example : calculate c (TT.endOfHour (TT.moment (at_ 2000 1 1 0 0 0) + (TT.years 62))) = .ok (.moment (at_ 2062 1 1 0 59 59)) := by decide +kernel
/-- test_moment_plus_more_than_one_year, 3298 -/
example : calculate c (TT.endOfHour (TT.moment (at_ 2000 1 1 0 0 0) + (TT.years 1 + TT.months 1))) = .ok (.moment (at_ 2001 2 1 0 59 59)) := by decide +kernel
/-- test_moment_plus_more_than_one_month, 3305 -/
example : calculate c (TT.endOfHour (TT.moment (at_ 2000 1 1 0 0 0) + (TT.months 1 + TT.days 1))) = .ok (.moment (at_ 2000 2 1 0 59 59)) := by decide +kernel
/-- test_moment_plus_more_than_one_day, 3317 -/
example : calculate c (TT.endOfHour (TT.moment (at_ 2000 1 1 0 0 0) + (TT.days 1 + TT.hours 1))) = .ok (.moment (at_ 2000 1 2 1 59 59)) := by decide +kernel
/-- test_moment_plus_more_than_one_hour, 3324 -/
example : calculate c (TT.endOfHour (TT.moment (at_ 2000 1 1 0 0 0) + (TT.hours 1 + TT.minutes 1))) = .ok (.moment (at_ 2000 1 1 1 59 59)) := by decide +kernel
/-- test_moment_plus_more_than_one_minute, 3331 -/
example : calculate c (TT.endOfHour (TT.moment (at_ 2000 1 1 0 0 0) + (TT.minutes 1 + TT.seconds 1))) = .ok (.moment (at_ 2000 1 1 0 59 59)) := by decide +kernel
/-- test_moment_plus_invalid_months, 3338 -/
example : calculate c (TT.endOfHour (TT.moment (at_ 2000 1 1 0 0 0) + (TT.months 13))) = .ok (.moment (at_ 2001 2 1 0 59 59)) := by decide +kernel
/-- test_moment_plus_invalid_days, 3345 -/
example : calculate c (TT.endOfHour (TT.moment (at_ 2000 1 1 0 0 0) + (TT.days 31))) = .ok (.moment (at_ 2000 2 1 0 59 59)) := by decide +kernel
/-- test_moment_plus_invalid_hours, 3352 -/
example : calculate c (TT.endOfHour (TT.moment (at_ 2000 1 1 0 0 0) + (TT.hours 25))) = .ok (.moment (at_ 2000 1 2 1 59 59)) := by decide +kernel
/-- test_moment_plus_invalid_minutes, 3359 -/
example : calculate c (TT.endOfHour (TT.moment (at_ 2000 1 1 0 0 0) + (TT.minutes 61))) = .ok (.moment (at_ 2000 1 1 1 59 59)) := by decide +kernel
/-- test_moment_plus_invalid_seconds, 3366 -/
example : calculate c (TT.endOfHour (TT.moment (at_ 2000 1 1 0 0 0) + (TT.seconds 61))) = .ok (.moment (at_ 2000 1 1 0 59 59)) := by decide +kernel
/-- test_moment_minus_nothing, 3373 -/
example : calculate c (TT.endOfHour (TT.moment (at_ 2000 1 1 0 0 0) - (TT.seconds 0))) = .ok (.moment (at_ 2000 1 1 0 59 59)) := by decide +kernel
/-- test_moment_minus_seconds, 3380 -/
example : calculate c (TT.endOfHour (TT.moment (at_ 2000 1 1 0 0 0) - (TT.seconds 1))) = .ok (.moment (at_ 1999 12 31 23 59 59)) := by decide +kernel
/-- test_moment_minus_months, 3387 -/
example : calculate c (TT.endOfHour (TT.moment (at_ 2000 1 1 0 0 0) - (TT.months 12))) = .ok (.moment (at_ 1999 1 1 0 59 59)) := by decide +kernel
/-- test_moment_plus_zero_seconds, 3460 -/
example : calculate c (TT.endOfMinute (TT.moment (at_ 2000 1 1 0 0 0) + (TT.seconds 0))) = .ok (.moment (at_ 2000 1 1 0 0 59)) := by decide +kernel
/-- test_moment_plus_seconds, 3467 -/
example : calculate c (TT.endOfMinute (TT.moment (at_ 2000 1 1 0 0 0) + (TT.seconds 1))) = .ok (.moment (at_ 2000 1 1 0 0 59)) := by decide +kernel
/-- test_moment_plus_too_much_seconds, 3474 -/
example : calculate c (TT.endOfMinute (TT.moment (at_ 2000 1 1 0 0 0) + (TT.seconds 62))) = .ok (.moment (at_ 2000 1 1 0 1 59)) := by decide +kernel
/-- test_moment_plus_minutes, 3481 -/
example : calculate c (TT.endOfMinute (TT.moment (at_ 2000 1 1 0 0 0) + (TT.minutes 2))) = .ok (.moment (at_ 2000 1 1 0 2 59)) := by decide +kernel
/-- test_moment_plus_too_much_minutes, 3488 -/
example : calculate c (TT.endOfMinute (TT.moment (at_ 2000 1 1 0 0 0) + (TT.minutes 65))) = .ok (.moment (at_ 2000 1 1 1 5 59)) := by decide +kernel
/-- test_moment_plus_minutes_in_seconds, 3495 -/
example : calculate c (TT.endOfMinute (TT.moment (at_ 2000 1 1 0 0 0) + (TT.seconds 62))) = .ok (.moment (at_ 2000 1 1 0 1 59)) := by decide +kernel
/-- test_moment_plus_months, 3502 -/
example : calculate c (TT.endOfMinute (TT.moment (at_ 2000 1 1 0 0 0) + (TT.months 14))) = .ok (.moment (at_ 2001 3 1 0 0 59)) := by decide +kernel
/-- test_moment_plus_years, 3509 -/
example : calculate c (TT.endOfMinute (TT.moment (at_ 2000 1 1 0 0 0) + (TT.years 62))) = .ok (.moment (at_ 2062 1 1 0 0 59)) := by decide +kernel
/-- test_moment_plus_more_than_one_year, 3516 -/
example : calculate c (TT.endOfMinute (TT.moment (at_ 2000 1 1 0 0 0) + (TT.years 1 + TT.months 1))) = .ok (.moment (at_ 2001 2 1 0 0 59)) := by decide +kernel
/-- test_moment_plus_more_than_one_month, 3523 -/
example : calculate c (TT.endOfMinute (TT.moment (at_ 2000 1 1 0 0 0) + (TT.months 1 + TT.days 1))) = .ok (.moment (at_ 2000 2 1 0 0 59)) := by decide +kernel
/-- test_moment_plus_more_than_one_day, 3535 -/
example : calculate c (TT.endOfMinute (TT.moment (at_ 2000 1 1 0 0 0) + (TT.days 1 + TT.hours 1))) = .ok (.moment (at_ 2000 1 2 1 0 59)) := by decide +kernel
/-- test_moment_plus_more_than_one_hour, 3542 -/
example : calculate c (TT.endOfMinute (TT.moment (at_ 2000 1 1 0 0 0) + (TT.hours 1 + TT.minutes 1))) = .ok (.moment (at_ 2000 1 1 1 1 59)) := by decide +kernel
/-- test_moment_plus_more_than_one_minute, 3549 -/
example : calculate c (TT.endOfMinute (TT.moment (at_ 2000 1 1 0 0 0) + (TT.minutes 1 + TT.seconds 1))) = .ok (.moment (at_ 2000 1 1 0 1 59)) := by decide +kernel
/-- test_moment_plus_invalid_months, 3556 -/
example : calculate c (TT.endOfMinute (TT.moment (at_ 2000 1 1 0 0 0) + (TT.months 13))) = .ok (.moment (at_ 2001 2 1 0 0 59)) := by decide +kernel
/-- test_moment_plus_invalid_days, 3563 -/
example : calculate c (TT.endOfMinute (TT.moment (at_ 2000 1 1 0 0 0) + (TT.days 31))) = .ok (.moment (at_ 2000 2 1 0 0 59)) := by decide +kernel
/-- test_moment_plus_invalid_hours, 3570 -/
example : calculate c (TT.endOfMinute (TT.moment (at_ 2000 1 1 0 0 0) + (TT.hours 25))) = .ok (.moment (at_ 2000 1 2 1 0 59)) := by decide +kernel
/-- test_moment_plus_invalid_minutes, 3577 -/
example : calculate c (TT.endOfMinute (TT.moment (at_ 2000 1 1 0 0 0) + (TT.minutes 61))) = .ok (.moment (at_ 2000 1 1 1 1 59)) := by decide +kernel
/-- test_moment_plus_invalid_seconds, 3584 -/
example : calculate c (TT.endOfMinute (TT.moment (at_ 2000 1 1 0 0 0) + (TT.seconds 61))) = .ok (.moment (at_ 2000 1 1 0 1 59)) := by decide +kernel
/-- test_moment_minus_nothing, 3591 -/
example : calculate c (TT.endOfMinute (TT.moment (at_ 2000 1 1 0 0 0) - (TT.seconds 0))) = .ok (.moment (at_ 2000 1 1 0 0 59)) := by decide +kernel
/-- test_moment_minus_seconds, 3598 -/
example : calculate c (TT.endOfMinute (TT.moment (at_ 2000 1 1 0 0 0) - (TT.seconds 1))) = .ok (.moment (at_ 1999 12 31 23 59 59)) := by decide +kernel
/-- test_moment_minus_months, 3605 -/
example : calculate c (TT.endOfMinute (TT.moment (at_ 2000 1 1 0 0 0) - (TT.months 12))) = .ok (.moment (at_ 1999 1 1 0 0 59)) := by decide +kernel
/-- test_addition_of_seconds, 1189 -/
example : (TT.seconds 0 + TT.seconds 1 : TT) = (TT.addition (TT.seconds 0) (TT.seconds 1)) := by decide
/-- test_addition_of_seconds_multiple, 1205 -/
example : (TT.seconds 0 + TT.seconds 1 + TT.seconds 2 : TT) = (TT.addition (TT.addition (TT.seconds 0) (TT.seconds 1)) (TT.seconds 2)) := by decide
/-- test_subtraction_of_seconds, 1228 -/
example : (TT.seconds 5 - TT.seconds 3 : TT) = (TT.subtraction (TT.seconds 5) (TT.seconds 3)) := by decide
/-- test_subtraction_of_seconds_multiple, 1244 -/
example : (TT.seconds 3 - TT.seconds 2 - TT.seconds 1 : TT) = (TT.subtraction (TT.subtraction (TT.seconds 3) (TT.seconds 2)) (TT.seconds 1)) := by decide
/-- test_addition_of_seconds_calculate, 1267 -/
example : (calculate c (TT.seconds 0 + TT.seconds 1) >>= TT.getSeconds c) = .ok (1) := by decide +kernel
/-- test_addition_of_seconds_multiple_calculate, 1280 -/
example : (calculate c (TT.seconds 0 + TT.seconds 1 + TT.seconds 2) >>= TT.getSeconds c) = .ok (3) := by decide +kernel
/-- test_subtraction_of_seconds_calculate, 1294 -/
example : (calculate c (TT.seconds 5 - TT.seconds 3) >>= TT.getSeconds c) = .ok (2) := by decide +kernel
/-- test_subtraction_of_seconds_multiple_calculate, 1307 -/
example : (calculate c (TT.seconds 3 - TT.seconds 2 - TT.seconds 1) >>= TT.getSeconds c) = .ok (0) := by decide +kernel
/-- test_addition_of_minutes, 1321 -/
example : (TT.minutes 0 + TT.minutes 1 : TT) = (TT.addition (TT.minutes 0) (TT.minutes 1)) := by decide
/-- test_addition_of_minutes_multiple, 1337 -/
example : (TT.minutes 0 + TT.minutes 1 + TT.minutes 2 : TT) = (TT.addition (TT.addition (TT.minutes 0) (TT.minutes 1)) (TT.minutes 2)) := by decide
/-- test_subtraction_of_minutes, 1360 -/
example : (TT.minutes 5 - TT.minutes 3 : TT) = (TT.subtraction (TT.minutes 5) (TT.minutes 3)) := by decide
/-- test_subtraction_of_minutes_multiple, 1376 -/
example : (TT.minutes 3 - TT.minutes 2 - TT.minutes 1 : TT) = (TT.subtraction (TT.subtraction (TT.minutes 3) (TT.minutes 2)) (TT.minutes 1)) := by decide
/-- test_addition_of_minutes_calculate, 1399 -/
example : (calculate c (TT.minutes 0 + TT.minutes 1) >>= TT.getMinutes c) = .ok (1) := by decide +kernel
/-- test_addition_of_minutes_multiple_calculate, 1412 -/
example : (calculate c (TT.minutes 0 + TT.minutes 1 + TT.minutes 2) >>= TT.getMinutes c) = .ok (3) := by decide +kernel
/-- test_subtraction_of_minutes_calculate, 1426 -/
example : (calculate c (TT.minutes 5 - TT.minutes 3) >>= TT.getMinutes c) = .ok (2) := by decide +kernel
/-- test_subtraction_of_minutes_multiple_calculate, 1439 -/
example : (calculate c (TT.minutes 3 - TT.minutes 2 - TT.minutes 1) >>= TT.getMinutes c) = .ok (0) := by decide +kernel
/-- test_addition_of_days, 1453 -/
example : (TT.days 0 + TT.days 1 : TT) = (TT.addition (TT.days 0) (TT.days 1)) := by decide
/-- test_addition_of_days_multiple, 1469 -/
example : (TT.days 0 + TT.days 1 + TT.days 2 : TT) = (TT.addition (TT.addition (TT.days 0) (TT.days 1)) (TT.days 2)) := by decide
/-- test_subtraction_of_days, 1492 -/
example : (TT.days 5 - TT.days 3 : TT) = (TT.subtraction (TT.days 5) (TT.days 3)) := by decide
/-- test_subtraction_of_days_multiple, 1508 -/
example : (TT.days 3 - TT.days 2 - TT.days 1 : TT) = (TT.subtraction (TT.subtraction (TT.days 3) (TT.days 2)) (TT.days 1)) := by decide
/-- test_addition_of_days_calculate, 1531 -/
example : (calculate c (TT.days 0 + TT.days 1) >>= TT.getDays c) = .ok (1) := by decide +kernel
/-- test_addition_of_days_multiple_calculate, 1544 -/
example : (calculate c (TT.days 0 + TT.days 1 + TT.days 2) >>= TT.getDays c) = .ok (3) := by decide +kernel
/-- test_subtraction_of_days_calculate, 1558 -/
example : (calculate c (TT.days 5 - TT.days 3) >>= TT.getDays c) = .ok (2) := by decide +kernel
/-- test_subtraction_of_days_multiple_calculate, 1571 -/
example : (calculate c (TT.days 3 - TT.days 2 - TT.days 1) >>= TT.getDays c) = .ok (0) := by decide +kernel
/-- test_addition_of_months, 1585 -/
example : (TT.months 0 + TT.months 1 : TT) = (TT.addition (TT.months 0) (TT.months 1)) := by decide
/-- test_addition_of_months_multiple, 1601 -/
example : (TT.months 0 + TT.months 1 + TT.months 2 : TT) = (TT.addition (TT.addition (TT.months 0) (TT.months 1)) (TT.months 2)) := by decide
/-- test_subtraction_of_months, 1624 -/
example : (TT.months 5 - TT.months 3 : TT) = (TT.subtraction (TT.months 5) (TT.months 3)) := by decide
/-- test_subtraction_of_months_multiple, 1640 -/
example : (TT.months 3 - TT.months 2 - TT.months 1 : TT) = (TT.subtraction (TT.subtraction (TT.months 3) (TT.months 2)) (TT.months 1)) := by decide
/-- test_addition_of_months_calculate, 1663 -/
example : (calculate c (TT.months 0 + TT.months 1) >>= TT.getMonths c) = .ok (1) := by decide +kernel
/-- test_addition_of_months_multiple_calculate, 1676 -/
example : (calculate c (TT.months 0 + TT.months 1 + TT.months 2) >>= TT.getMonths c) = .ok (3) := by decide +kernel
/-- test_subtraction_of_months_calculate, 1690 -/
example : (calculate c (TT.months 5 - TT.months 3) >>= TT.getMonths c) = .ok (2) := by decide +kernel
/-- test_subtraction_of_months_multiple_calculate, 1703 -/
example : (calculate c (TT.months 3 - TT.months 2 - TT.months 1) >>= TT.getMonths c) = .ok (0) := by decide +kernel
/-- test_addition_of_years, 1717 -/
example : (TT.years 0 + TT.years 1 : TT) = (TT.addition (TT.years 0) (TT.years 1)) := by decide
/-- test_addition_of_years_multiple, 1733 -/
example : (TT.years 0 + TT.years 1 + TT.years 2 : TT) = (TT.addition (TT.addition (TT.years 0) (TT.years 1)) (TT.years 2)) := by decide
/-- test_subtraction_of_years, 1756 -/
example : (TT.years 5 - TT.years 3 : TT) = (TT.subtraction (TT.years 5) (TT.years 3)) := by decide
/-- test_subtraction_of_years_multiple, 1772 -/
example : (TT.years 3 - TT.years 2 - TT.years 1 : TT) = (TT.subtraction (TT.subtraction (TT.years 3) (TT.years 2)) (TT.years 1)) := by decide
/-- test_addition_of_years_calculate, 1795 -/
example : (calculate c (TT.years 0 + TT.years 1) >>= TT.getYears c) = .ok (1) := by decide +kernel
/-- test_addition_of_years_multiple_calculate, 1808 -/
example : (calculate c (TT.years 0 + TT.years 1 + TT.years 2) >>= TT.getYears c) = .ok (3) := by decide +kernel
/-- test_subtraction_of_years_calculate, 1822 -/
example : (calculate c (TT.years 5 - TT.years 3) >>= TT.getYears c) = .ok (2) := by decide +kernel
/-- test_subtraction_of_years_multiple_calculate, 1835 -/
example : (calculate c (TT.years 3 - TT.years 2 - TT.years 1) >>= TT.getYears c) = .ok (0) := by decide +kernel
/-- test_addition_of_years_multiple_calculate_reverse_order, 1849 -/
example : (calculate c (TT.years 0 + (TT.years 1 + TT.years 2)) >>= TT.getYears c) = .ok (3) := by decide +kernel
/-- test_subtraction_of_years_multiple_calculate_reverse_order, 1863 -/
example : (calculate c (TT.years 3 - (TT.years 2 - TT.years 1)) >>= TT.getYears c) = .ok (2) := by decide +kernel
/-- test_subtraction_of_years_multiple_calculate_reverse_order_2, 1877 -/
example : (calculate c ((TT.years 10 - TT.years 1) - (TT.years 3 - TT.years 2)) >>= TT.getYears c) = .ok (8) := by decide +kernel
/-- test_add_then_sub, 1930 -/
example : (calculate c (TT.seconds 0 + TT.seconds 1 - TT.seconds 1) >>= TT.getSeconds c) = .ok (0) := by decide +kernel
/-- test_sub_then_add, 1940 -/
example : (calculate c (TT.seconds 1 - TT.seconds 1 + TT.seconds 0) >>= TT.getSeconds c) = .ok (0) := by decide +kernel
/-- test_add_moment_to_seconds, 1892 -/
example : ∃ a b, calculate c (TT.seconds 3 + TT.moment (at_ 2016 7 8 9 10 11)) = .err (.cannotAdd a b) :=
  ⟨.seconds 3, .moment (at_ 2016 7 8 9 10 11), by decide +kernel⟩
/-- test_subtract_moment_from_seconds, 1908 -/
example : ∃ a b, calculate c (TT.seconds 3 - TT.moment (at_ 2016 7 8 9 10 11)) = .err (.cannotSub a b) :=
  ⟨.seconds 3, .moment (at_ 2016 7 8 9 10 11), by decide +kernel⟩
/-- test_set_seconds_get_others, 1956 -/
example : (TT.getSeconds c (.seconds 59)) = .ok (59) := by decide +kernel
/-- test_set_seconds_get_others, 1956 -/
example : (TT.getMinutes c (.seconds 59)) = .ok (0) := by decide +kernel
/-- test_set_seconds_get_others, 1956 -/
example : (TT.getHours c (.seconds 59)) = .ok (0) := by decide +kernel
/-- test_set_seconds_get_others, 1956 -/
example : (TT.getDays c (.seconds 59)) = .ok (0) := by decide +kernel
/-- test_set_seconds_get_others, 1956 -/
example : (TT.getMonths c (.seconds 59)) = .ok (0) := by decide +kernel
/-- test_set_seconds_get_others, 1956 -/
example : (TT.getYears c (.seconds 59)) = .ok (0) := by decide +kernel
/-- test_set_minutes_get_others, 1968 -/
example : (TT.getSeconds c (.minutes 59)) = .ok (59 * 60) := by decide +kernel
/-- test_set_minutes_get_others, 1968 -/
example : (TT.getMinutes c (.minutes 59)) = .ok (59) := by decide +kernel
/-- test_set_minutes_get_others, 1968 -/
example : (TT.getHours c (.minutes 59)) = .ok (0) := by decide +kernel
/-- test_set_minutes_get_others, 1968 -/
example : (TT.getDays c (.minutes 59)) = .ok (0) := by decide +kernel
/-- test_set_minutes_get_others, 1968 -/
example : (TT.getMonths c (.minutes 59)) = .ok (0) := by decide +kernel
/-- test_set_minutes_get_others, 1968 -/
example : (TT.getYears c (.minutes 59)) = .ok (0) := by decide +kernel
/-- test_set_hours_get_others, 1980 -/
example : (TT.getSeconds c (.hours 59)) = .ok (59 * 60 * 60) := by decide +kernel
/-- test_set_hours_get_others, 1980 -/
example : (TT.getMinutes c (.hours 59)) = .ok (59 * 60) := by decide +kernel
/-- test_set_hours_get_others, 1980 -/
example : (TT.getHours c (.hours 59)) = .ok (59) := by decide +kernel
/-- test_set_hours_get_others, 1980 -/
example : (TT.getDays c (.hours 59)) = .ok (2) := by decide +kernel
/-- test_set_hours_get_others, 1980 -/
example : (TT.getMonths c (.hours 59)) = .ok (0) := by decide +kernel
/-- test_set_hours_get_others, 1980 -/
example : (TT.getYears c (.hours 59)) = .ok (0) := by decide +kernel
/-- test_set_days_get_others, 1992 -/
example : (TT.getSeconds c (.days 59)) = .ok (59 * 24 * 60 * 60) := by decide +kernel
/-- test_set_days_get_others, 1992 -/
example : (TT.getMinutes c (.days 59)) = .ok (59 * 24 * 60) := by decide +kernel
/-- test_set_days_get_others, 1992 -/
example : (TT.getHours c (.days 59)) = .ok (59 * 24) := by decide +kernel
/-- test_set_days_get_others, 1992 -/
example : (TT.getDays c (.days 59)) = .ok (59) := by decide +kernel
/-- test_set_days_get_others, 1992 -/
example : (TT.getMonths c (.days 59)) = .ok (1) := by decide +kernel
/-- test_set_days_get_others, 1992 -/
example : (TT.getYears c (.days 59)) = .ok (0) := by decide +kernel
/-- test_set_weeks_get_others, 2004 -/
example : (TT.weeks c 59 >>= TT.getSeconds c) = .ok (59 * 7 * 24 * 60 * 60) := by decide +kernel
/-- test_set_weeks_get_others, 2004 -/
example : (TT.weeks c 59 >>= TT.getMinutes c) = .ok (59 * 7 * 24 * 60) := by decide +kernel
/-- test_set_weeks_get_others, 2004 -/
example : (TT.weeks c 59 >>= TT.getHours c) = .ok (59 * 7 * 24) := by decide +kernel
/-- test_set_weeks_get_others, 2004 -/
example : (TT.weeks c 59 >>= TT.getDays c) = .ok (59 * 7) := by decide +kernel
/-- test_set_weeks_get_others, 2004 -/
example : (TT.weeks c 59 >>= TT.getMonths c) = .ok (13) := by decide +kernel
/-- test_set_weeks_get_others, 2004 -/
example : (TT.weeks c 59 >>= TT.getYears c) = .ok (1) := by decide +kernel
/-- test_set_months_get_others, 2016 -/
example : (TT.getSeconds c (.months 59)) = .ok (59 * 30 * 24 * 60 * 60) := by decide +kernel
/-- test_set_months_get_others, 2016 -/
example : (TT.getMinutes c (.months 59)) = .ok (59 * 30 * 24 * 60) := by decide +kernel
/-- test_set_months_get_others, 2016 -/
example : (TT.getHours c (.months 59)) = .ok (59 * 30 * 24) := by decide +kernel
/-- test_set_months_get_others, 2016 -/
example : (TT.getDays c (.months 59)) = .ok (59 * 30) := by decide +kernel
/-- test_set_months_get_others, 2016 -/
example : (TT.getMonths c (.months 59)) = .ok (59) := by decide +kernel
/-- test_set_months_get_others, 2016 -/
example : (TT.getYears c (.months 59)) = .ok (4) := by decide +kernel
/-- test_set_years_get_others, 2028 -/
example : (TT.getSeconds c (.years 59)) = .ok (59 * 12 * 30 * 24 * 60 * 60) := by decide +kernel
/-- test_set_years_get_others, 2028 -/
example : (TT.getMinutes c (.years 59)) = .ok (59 * 12 * 30 * 24 * 60) := by decide +kernel
/-- test_set_years_get_others, 2028 -/
example : (TT.getHours c (.years 59)) = .ok (59 * 12 * 30 * 24) := by decide +kernel
/-- test_set_years_get_others, 2028 -/
example : (TT.getDays c (.years 59)) = .ok (59 * 12 * 30) := by decide +kernel
/-- test_set_years_get_others, 2028 -/
example : (TT.getMonths c (.years 59)) = .ok (59 * 12) := by decide +kernel
/-- test_set_years_get_others, 2028 -/
example : (TT.getYears c (.years 59)) = .ok (59) := by decide +kernel
/-- 2403 -/
example : adjustTimesAdd c ⟨0, 1, 1, 0, 0, 62⟩ = (.ok ⟨0, 1, 1, 0, 1, 2⟩ : Out Parts) := by decide +kernel
/-- 2415 -/
example : adjustTimesAdd c ⟨0, 1, 1, 0, 62, 0⟩ = (.ok ⟨0, 1, 1, 1, 2, 0⟩ : Out Parts) := by decide +kernel
/-- 2427 -/
example : adjustTimesAdd c ⟨0, 1, 1, 26, 0, 0⟩ = (.ok ⟨0, 1, 2, 2, 0, 0⟩ : Out Parts) := by decide +kernel
/-- 2439 -/
example : adjustTimesAdd c ⟨0, 1, 32, 0, 0, 0⟩ = (.ok ⟨0, 2, 1, 0, 0, 0⟩ : Out Parts) := by decide +kernel
/-- 2451 -/
example : adjustTimesAdd c ⟨0, 14, 1, 0, 0, 0⟩ = (.ok ⟨1, 2, 1, 0, 0, 0⟩ : Out Parts) := by decide +kernel
/-- 2463 -/
example : adjustTimesSub c ⟨1 - 0, 1 - 1, 1 - 0, 0 - 0, 0 - 0, 0 - 0⟩ = (.ok ⟨0, 12, 1, 0, 0, 0⟩ : Out Parts) := by decide +kernel
/-- 2475 -/
example : adjustTimesAdd c ⟨2000 + 0, 1 + 0, 22 + 14, 0 + 0, 0 + 0, 0 + 0⟩ = (.ok ⟨2000, 2, 5, 0, 0, 0⟩ : Out Parts) := by decide +kernel
/-- 2484 -/
example : adjustTimesAdd c ⟨2000 + 0, 1 + 0, 22 + 28, 0 + 0, 0 + 0, 0 + 0⟩ = (.ok ⟨2000, 2, 19, 0, 0, 0⟩ : Out Parts) := by decide +kernel
/-- 2493 -/
example : adjustTimesAdd c ⟨2000 + 0, 2 + 0, 22 + 14, 0 + 0, 0 + 0, 0 + 0⟩ = (.ok ⟨2000, 3, 7, 0, 0, 0⟩ : Out Parts) := by decide +kernel
/-- 2502 -/
example : adjustTimesAdd c ⟨2000 + 0, 2 + 0, 22 + 28, 0 + 0, 0 + 0, 0 + 0⟩ = (.ok ⟨2000, 3, 21, 0, 0, 0⟩ : Out Parts) := by decide +kernel
/-- 2511 -/
example : adjustTimesAdd c ⟨2000 + 0, 3 + 0, 22 + 14, 0 + 0, 0 + 0, 0 + 0⟩ = (.ok ⟨2000, 4, 5, 0, 0, 0⟩ : Out Parts) := by decide +kernel
/-- test_is_a_1, 3626 -/
example : (TT.moment (at_ 2000 1 1 0 0 0)).isA .monday = .ok false := by decide +kernel
/-- test_is_a_2, 3632 -/
example : (TT.moment (at_ 2000 1 1 0 0 0)).isA .tuesday = .ok false := by decide +kernel
/-- test_is_a_3, 3638 -/
example : (TT.moment (at_ 2000 1 1 0 0 0)).isA .wednesday = .ok false := by decide +kernel
/-- test_is_a_4, 3644 -/
example : (TT.moment (at_ 2000 1 1 0 0 0)).isA .thursday = .ok false := by decide +kernel
/-- test_is_a_5, 3650 -/
example : (TT.moment (at_ 2000 1 1 0 0 0)).isA .friday = .ok false := by decide +kernel
/-- test_is_a_6, 3655 -/
example : (TT.moment (at_ 2000 1 1 0 0 0)).isA .saturday = .ok true := by decide +kernel
/-- test_is_a_7, 3661 -/
example : (TT.moment (at_ 2000 1 1 0 0 0)).isA .sunday = .ok false := by decide +kernel
/-- test_is_in_1, 3678 -/
example : (TT.moment (at_ 2000 1 1 0 0 0)).isIn .january = .ok true := by decide +kernel
/-- test_is_in_2, 3684 -/
example : (TT.moment (at_ 2000 1 1 0 0 0)).isIn .february = .ok false := by decide +kernel
/-- test_is_in_3, 3690 -/
example : (TT.moment (at_ 2000 1 1 0 0 0)).isIn .march = .ok false := by decide +kernel
/-- test_is_in_4, 3696 -/
example : (TT.moment (at_ 2000 1 1 0 0 0)).isIn .april = .ok false := by decide +kernel
/-- test_is_in_5, 3702 -/
example : (TT.moment (at_ 2000 1 1 0 0 0)).isIn .may = .ok false := by decide +kernel
/-- test_is_in_6, 3708 -/
example : (TT.moment (at_ 2000 1 1 0 0 0)).isIn .june = .ok false := by decide +kernel
/-- test_is_in_7, 3714 -/
example : (TT.moment (at_ 2000 1 1 0 0 0)).isIn .july = .ok false := by decide +kernel
/-- test_is_in_8, 3720 -/
example : (TT.moment (at_ 2000 1 1 0 0 0)).isIn .august = .ok false := by decide +kernel
/-- test_is_in_9, 3726 -/
example : (TT.moment (at_ 2000 1 1 0 0 0)).isIn .september = .ok false := by decide +kernel
/-- test_is_in_10, 3732 -/
example : (TT.moment (at_ 2000 1 1 0 0 0)).isIn .october = .ok false := by decide +kernel
/-- test_is_in_11, 3738 -/
example : (TT.moment (at_ 2000 1 1 0 0 0)).isIn .november = .ok false := by decide +kernel
/-- test_is_in_12, 3744 -/
example : (TT.moment (at_ 2000 1 1 0 0 0)).isIn .december = .ok false := by decide +kernel

end Tests
