{
 "claims": [
  {
   "property": "C01",
   "status": "proved",
   "theorems": [
    "Props.C01_calculate_returns",
    "Props.C01_rust_equations"
   ],
   "note": "Fuel bound linear in the size; equal to the Rust recursion equations."
  },
  {
   "property": "C02",
   "status": "proved",
   "theorems": [
    "Props.C02_result_evaluated"
   ],
   "note": ""
  },
  {
   "property": "C03",
   "status": "proved",
   "theorems": [
    "Props.C03_idempotent"
   ],
   "note": ""
  },
  {
   "property": "C04",
   "status": "proved",
   "theorems": [
    "Props.C04_amount_arithmetic",
    "Props.C04_amount_arithmetic_release",
    "Props.C04_wrapped_value",
    "Props.C04_finest_divides"
   ],
   "note": "Overflow-checked build exactly; wrapping build: the one i64 congruent modulo 2^64 (C04_wrapped_value)."
  },
  {
   "property": "C05",
   "status": "proved",
   "theorems": [
    "Props.C05_amounts_never_error",
    "Props.C05_amounts_succeed"
   ],
   "note": ""
  },
  {
   "property": "C06",
   "status": "proved",
   "theorems": [
    "Props.C06_no_moment_on_the_right",
    "Props.C06_plain_moment"
   ],
   "note": "Also for right operands that evaluate to a moment."
  },
  {
   "property": "C07",
   "status": "partial",
   "theorems": [
    "Props.C07_chain_partial",
    "Props.C07_long_chain_partial",
    "Props.C07_refuted",
    "Props.C07_refuted_all",
    "Props.C07_refuted_witness",
    "Props.C07_refuted_chains"
   ],
   "note": "False of the code: (m - a) + b always fails because add() swaps the operands of a subtraction on the left (C07_refuted_all, witness). The other three combinations are proved, for chains of any length."
  },
  {
   "property": "C08",
   "status": "proved",
   "theorems": [
    "Props.C08_amounts_combined_first",
    "Props.C08_right_operand_first"
   ],
   "note": ""
  },
  {
   "property": "C09",
   "status": "partial",
   "theorems": [
    "Props.C09_refuted",
    "Props.C09_refuted_witness",
    "Props.C09_outermost_partial"
   ],
   "note": "False of the code: an end-of marker as a direct operand never evaluates (C09_refuted). Proved: as outermost operation it uses the value of its argument."
  },
  {
   "property": "C10",
   "status": "proved",
   "theorems": [
    "Props.C10_end_of_year"
   ],
   "note": ""
  },
  {
   "property": "C11",
   "status": "proved",
   "theorems": [
    "Props.C11_end_of_month"
   ],
   "note": ""
  },
  {
   "property": "C12",
   "status": "proved",
   "theorems": [
    "Props.C12_end_of_day_hour_minute",
    "Props.C12_bounds"
   ],
   "note": ""
  },
  {
   "property": "C13",
   "status": "proved",
   "theorems": [
    "Props.C13_idempotent",
    "Props.C13_absorb"
   ],
   "note": ""
  },
  {
   "property": "C14",
   "status": "proved",
   "theorems": [
    "Props.C14_not_on_amounts",
    "Props.C14_errors_passed_on"
   ],
   "note": ""
  },
  {
   "property": "C15",
   "status": "proved",
   "theorems": [
    "Props.C15_results_are_dates",
    "Props.C15_computed",
    "Props.C15_whole_seconds"
   ],
   "note": ""
  },
  {
   "property": "C16",
   "status": "partial",
   "theorems": [
    "Props.C16_exact_iff_partial",
    "Props.C16_up_to_30_days_partial",
    "Props.C16_past_the_end_partial",
    "Props.C16_refuted",
    "Props.C16_within_the_year_partial",
    "Props.C16_beyond_the_year_partial",
    "Props.C16_refuted_far"
   ],
   "note": "False of the code beyond the first turn of the year (C16_refuted). Proved: exactly when it is right, always right up to 30 days, an error past the last year, and what the result is for every amount."
  },
  {
   "property": "C17",
   "status": "partial",
   "theorems": [
    "Props.C17_exact_iff_partial",
    "Props.C17_up_to_28th_partial",
    "Props.C17_refuted",
    "Props.C17_within_the_year_partial",
    "Props.C17_beyond_the_year_partial",
    "Props.C17_from_the_31st_partial",
    "Props.C17_refuted_far"
   ],
   "note": "False of the code for the 31st (C17_refuted) and beyond 2^32 years (C17_refuted_far). Proved: exactly when it is right; days up to 28 always; what the result is for every amount."
  },
  {
   "property": "C18",
   "status": "partial",
   "theorems": [
    "Props.C18_adding_years_partial",
    "Props.C18_every_amount_partial",
    "Props.C18_refuted"
   ],
   "note": "The statement is false beyond 32-bit years (C18_refuted, C27_refuted_everywhere). Proved as stated whenever the resulting year fits in 32 bits; and for every 64-bit amount a complete description of what happens instead (C18_every_amount_partial)."
  },
  {
   "property": "C19",
   "status": "proved",
   "theorems": [
    "Props.C19_zero"
   ],
   "note": ""
  },
  {
   "property": "C20",
   "status": "partial",
   "theorems": [
    "Props.C20_chain_partial",
    "Props.C20_forward_partial",
    "Props.C20_refuted"
   ],
   "note": "Proved for positive amounts of any unit up to 1.335e17 seconds (4.29 billion years; 2^32 years is the first counterexample), and for chains of any number of them (C20_chain_partial: at least one second per positive amount); false beyond (C20_refuted)."
  },
  {
   "property": "C21",
   "status": "partial",
   "theorems": [
    "Props.C21_months_of_31_partial",
    "Props.C21_window_partial",
    "Props.C21_exact_iff_partial",
    "Props.C21_exact_or_rejected_partial",
    "Props.C21_time_partial",
    "Props.C21_days_partial",
    "Props.C21_refuted",
    "Props.C21_two_months_rejected_partial"
   ],
   "note": "False of the code (C21_refuted: the 60th borrow, months shorter than 31 days). Proved: exactly when it is right (every n), the exact result of every amount below 2^32 (C21_time_partial, C21_days_partial), exact or rejected outside one value, always rejected from 63 days on (up to eleven million years); every 64-bit amount is rejected outside a window (C21_window_partial)."
  },
  {
   "property": "C22",
   "status": "partial",
   "theorems": [
    "Props.C22_every_amount_partial",
    "Props.C22_subtracting_months_partial",
    "Props.C22_refuted"
   ],
   "note": "Proved in full for n below 2^32; false beyond (C22_refuted); result described for every 64-bit n."
  },
  {
   "property": "C23",
   "status": "partial",
   "theorems": [
    "Props.C23_every_amount_partial",
    "Props.C23_refuted",
    "Props.C23_subtracting_years_partial"
   ],
   "note": "The statement is false beyond 32-bit years (C23_refuted, C27_refuted_everywhere). Proved as stated whenever the resulting year fits in 32 bits; and for every 64-bit amount a complete description of what happens instead (C23_every_amount_partial)."
  },
  {
   "property": "C24",
   "status": "partial",
   "theorems": [
    "Props.C24_round_trip_iff_partial",
    "Props.C24_round_trip_partial",
    "Props.C24_months_years_partial",
    "Props.C24_refuted",
    "Props.C24_every_month_iff_partial",
    "Props.C24_any_amount_iff_partial",
    "Props.C24_months_iff_partial",
    "Props.C24_years_iff_partial",
    "Props.C24_every_year_iff_partial"
   ],
   "note": "False of the code (C24_refuted). Proved: exactly when it holds, for every number of seconds, minutes, hours and days, and for every number of months and years (C24_every_month_iff_partial, up to the last that do not overflow)."
  },
  {
   "property": "C25",
   "status": "partial",
   "theorems": [
    "Props.C25_within_the_year_partial",
    "Props.C25_months_partial",
    "Props.C25_years_partial",
    "Props.C25_iff_partial",
    "Props.C25_grouping_partial",
    "Props.C25_refuted",
    "Props.C25_months_iff_partial"
   ],
   "note": "False of the code (C25_refuted). Exactly when the two agree, where all sums have results: for seconds to days (C25_iff_partial, amounts up to 4.29 billion years) and for months from any day (C25_months_iff_partial). Also proved for totals up to 30 days (any unit mix), for any second step if the first stays in the year, for months (day up to 28) and years (for 29 February: exactly when), in these cases with errors."
  },
  {
   "property": "C26",
   "status": "proved",
   "theorems": [
    "Props.C26_profiles_agree",
    "Props.C26_accessors",
    "Props.C26_constructors",
    "Props.C26_iterator",
    "Props.C26_user_iterator",
    "Props.C26_adaptors",
    "Props.C26_parse",
    "Props.C26_program"
   ],
   "note": ""
  },
  {
   "property": "C27",
   "status": "partial",
   "theorems": [
    "Props.C27_refuted",
    "Props.C27_refuted_everywhere",
    "Props.C27_success_partial",
    "Props.C27_years_partial"
   ],
   "note": "False of the code: any multiple of 2^32 years is silently no change at all, for every moment (C27_refuted_everywhere). Proved: reported whenever the resulting year fits in 32 bits; and exactly when adding years succeeds (C27_success_partial)."
  },
  {
   "property": "C28",
   "status": "partial",
   "theorems": [
    "Props.C28_refuted_everywhere",
    "Props.C28_refuted",
    "Props.C28_refuted_witness",
    "Props.C28_other_fields_partial",
    "Props.C28_every_field_partial"
   ],
   "note": "False of the code: the day field always repeats the hour (C28_refuted_everywhere, for every expression). Proved: the other fields, for years and for times of day in plain words (C28_other_fields_partial), and for every moment and amount which six numbers are named (C28_every_field_partial, against the closed forms of Spec/Reference.lean)."
  },
  {
   "property": "C29",
   "status": "proved",
   "theorems": [
    "Props.C29_get",
    "Props.C29_get_coarser",
    "Props.C29_get_overflow"
   ],
   "note": ""
  },
  {
   "property": "C30",
   "status": "proved",
   "theorems": [
    "Props.C30_name_word",
    "Props.C30_name_unit",
    "Props.C30_classes",
    "Props.C30_predicates",
    "Props.C30_get_moment",
    "Props.C30_get_non_amount",
    "Props.C30_name"
   ],
   "note": ""
  },
  {
   "property": "C31",
   "status": "proved",
   "theorems": [
    "Props.C31_one_weekday",
    "Props.C31_weekday",
    "Props.C31_next_day",
    "Props.C31_one_month",
    "Props.C31_not_a_moment"
   ],
   "note": ""
  },
  {
   "property": "C32",
   "status": "proved",
   "theorems": [
    "Props.C32_matchers",
    "Props.C32_not_a_moment"
   ],
   "note": ""
  },
  {
   "property": "C33",
   "status": "proved",
   "theorems": [
    "Props.C33_build",
    "Props.C33_every",
    "Props.C33_named",
    "Props.C33_first_item"
   ],
   "note": "weekly(n) needs 7n to be a 64-bit number; otherwise the checked build panics (proved)."
  },
  {
   "property": "C34",
   "status": "proved",
   "theorems": [
    "Props.C34_kth_item"
   ],
   "note": ""
  },
  {
   "property": "C35",
   "status": "proved",
   "theorems": [
    "Props.C35_monthly",
    "Props.C35_yearly"
   ],
   "note": "Months up to 24e9 and years up to 2e9 per step (beyond, 32-bit truncation of the year sets in: C36_refuted); years also backward."
  },
  {
   "property": "C36",
   "status": "partial",
   "theorems": [
    "Props.C36_strictly_forward_partial",
    "Props.C36_refuted"
   ],
   "note": "Proved for positive increments up to 1.335e17 seconds (4.29 billion years; 2^32 years is the first counterexample); false beyond (C36_refuted)."
  },
  {
   "property": "C37",
   "status": "partial",
   "theorems": [
    "Props.C37_errors_latch_partial",
    "Props.C37_refuted",
    "Props.C37_refuted_witness",
    "Props.C37_before_first_partial",
    "Props.C37_hidden_error_partial"
   ],
   "note": "Proved for iterators that have delivered their first item, for every history. False before that: after a failed skip, next returns Ok with an unevaluated expression (C37_refuted); that first next is the only call that escapes, and its expression gives the same error when calculated (C37_before_first_partial, C37_hidden_error_partial)."
  },
  {
   "property": "C38",
   "status": "proved",
   "theorems": [
    "Props.C38_skip_n",
    "Props.C38_skip_started"
   ],
   "note": "For successful skips on a fresh iterator (a failed one is C37_refuted); without condition on a started one."
  },
  {
   "property": "C39",
   "status": "partial",
   "theorems": [
    "Props.C39_rollback_partial",
    "Props.C39_refuted",
    "Props.C39_every_month_iff_partial",
    "Props.C39_rollback_iff_partial",
    "Props.C39_any_step_iff_partial",
    "Props.C39_months_iff_partial",
    "Props.C39_years_iff_partial",
    "Props.C39_every_year_iff_partial"
   ],
   "note": "False of the code (C39_refuted). Proved: exactly when it holds for every step in seconds, minutes, hours or days, and for every number of months and years (C39_every_month_iff_partial, up to the last that do not overflow)."
  },
  {
   "property": "C40",
   "status": "partial",
   "theorems": [
    "Props.C40_times_partial",
    "Props.C40_refuted",
    "Props.C40_negative_release_partial",
    "Props.C40_negative_debug_partial"
   ],
   "note": "Proved for 0 \u2264 n < 2^63, every iterator. False for negative n (C40_refuted): 2^64+n items in the wrapping build, 2^63-1 and then a panic in the checked one (C40_negative_*)."
  },
  {
   "property": "C41",
   "status": "proved",
   "theorems": [
    "Props.C41_until",
    "Props.C41_other_items",
    "Props.C41_only_before",
    "Props.C41_stays_ended",
    "Props.C41_not_fused"
   ],
   "note": "Every underlying iterator. Staying ended is proved for positive increments; UntilIter is not fused in general (C41_not_fused)."
  },
  {
   "property": "C42",
   "status": "partial",
   "theorems": [
    "Props.C42_until_ends_partial",
    "Props.C42_refuted"
   ],
   "note": "Proved for positive increments up to 1.335e17 seconds; false beyond (C42_refuted: 2^32 years)."
  },
  {
   "property": "C43",
   "status": "proved",
   "theorems": [
    "Props.C43_every",
    "Props.C43_without",
    "Props.C43_no_match_hangs",
    "Props.C43_yields"
   ],
   "note": "Every underlying iterator, every matcher, any number of calls."
  },
  {
   "property": "C44",
   "status": "partial",
   "theorems": [
    "Props.C44_filters_answer_partial",
    "Props.C44_refuted"
   ],
   "note": "Proved for positive increments up to 1.335e17 seconds; false beyond (C44_refuted: 2^32 years) and for zero increments."
  },
  {
   "property": "C45",
   "status": "proved",
   "theorems": [
    "Props.C45_user_iterator"
   ],
   "note": ""
  },
  {
   "property": "C46",
   "status": "proved",
   "theorems": [
    "Props.C46_value",
    "Props.C46_round_trip",
    "Props.C46_parse",
    "Props.C46_unambiguous"
   ],
   "note": "For parse as a whole: if the ISO 8601 parsers (a dependency, left open) do not recognise a date at the start of the text."
  },
  {
   "property": "C47",
   "status": "proved",
   "theorems": [
    "Props.C47_spellings",
    "Props.C47_no_others"
   ],
   "note": ""
  },
  {
   "property": "C48",
   "status": "proved",
   "theorems": [
    "Props.C48_aliases"
   ],
   "note": ""
  },
  {
   "property": "C49",
   "status": "partial",
   "theorems": [
    "Props.C49_left_to_right_partial",
    "Props.C49_refuted",
    "Props.C49_signs_partial"
   ],
   "note": "False of the code and of doc/language.md's grammar (C49_refuted: x - y - z is x - y + z). Proved for texts in which no minus is followed by a further operator, and for all texts: each amount counts negatively exactly if an odd number of minus signs stands before it (C49_signs_partial)."
  },
  {
   "property": "C50",
   "status": "proved",
   "theorems": [
    "Props.C50_value"
   ],
   "note": ""
  },
  {
   "property": "C51",
   "status": "proved",
   "theorems": [
    "Props.C51_numbers",
    "Props.C51_only_numbers",
    "Props.C51_leading_zeros"
   ],
   "note": ""
  },
  {
   "property": "C52",
   "status": "partial",
   "theorems": [
    "Props.C52_iterators_panic_iff_partial",
    "Props.C52_yesterday_panic_iff_partial",
    "Props.C52_no_date_panic_iff_partial",
    "Props.C52_outside_panic_iff_partial",
    "Props.C52_small_totals_partial",
    "Props.C52_amounts_panic_iff_partial",
    "Props.C52_dates_panic_iff_partial",
    "Props.C52_release_never_panics_partial",
    "Props.C52_refuted_weeks",
    "Props.C52_refuted",
    "Props.C52_short_texts_partial",
    "Props.C52_no_iterator_partial"
   ],
   "note": "False of the checked build: C52_refuted, C52_refuted_weeks. Proved for the wrapping build on every text; for every build on every text in which no amounts of more than 3.9e18 seconds are written together; and exactly when the checked build panics: for amount expressions, for dates, and for iterator texts in all four cases of the start date (it has a value; 'yesterday + ...'; it names no date; it lies outside the calendar)."
  },
  {
   "property": "C53",
   "status": "partial",
   "theorems": [
    "Props.C53_refuted",
    "Props.C53_refuted_everywhere",
    "Props.C53_whole_text_partial"
   ],
   "note": "False of the code: C53_refuted, for every amount text and every rest that does not continue it; nothing behind an amount is ever a reason for rejection (C53_refuted_everywhere). Proved: texts that as a whole are expressions are read as a whole."
  },
  {
   "property": "C54",
   "status": "proved",
   "theorems": [
    "Props.C54_iterator_text",
    "Props.C54_bad_start"
   ],
   "note": ""
  },
  {
   "property": "C55",
   "status": "proved",
   "theorems": [
    "Props.C55_definite",
    "Props.C55_rejects"
   ],
   "note": ""
  },
  {
   "property": "C56",
   "status": "partial",
   "theorems": [
    "Props.C56_today_partial",
    "Props.C56_tomorrow_partial",
    "Props.C56_yesterday_partial",
    "Props.C56_refuted"
   ],
   "note": "False for yesterday: C56_refuted. today and tomorrow proved; yesterday characterised exactly (error on 1 Mar/May/Jul/Oct/Dec, right otherwise)."
  },
  {
   "property": "C57",
   "status": "partial",
   "theorems": [
    "Props.C57_other_forms_partial",
    "Props.C57_calendar_dates_partial",
    "Props.C57_date_times_partial",
    "Props.C57_refuted_ordinal",
    "Props.C57_refuted_week"
   ],
   "note": "False of the code for ordinal dates (always one day late) and week dates (always 5 to 11 days late); calendar dates and date-times proved, and the exact expression the other forms become, with their errors (C57_other_forms_partial)."
  },
  {
   "property": "C58",
   "status": "proved",
   "theorems": [
    "Props.C58_different_forms",
    "Props.C58_same_form",
    "Props.C58_amounts",
    "Props.C58_total_order",
    "Props.C58_chronological"
   ],
   "note": ""
  },
  {
   "property": "C59",
   "status": "proved",
   "theorems": [
    "Props.C59_month_lengths",
    "Props.C59_observable"
   ],
   "note": ""
  },
  {
   "property": "C60",
   "status": "partial",
   "theorems": [
    "Props.C60_adding_negative_iff_partial",
    "Props.C60_adding_negative_every_partial",
    "Props.C60_subtracting_negative_every_partial",
    "Props.C60_subtracting_negative_iff_partial",
    "Props.C60_adding_negative_partial",
    "Props.C60_subtracting_negative_partial",
    "Props.C60_refuted"
   ],
   "note": "False of the code (C60_refuted). Proved: the outcome of adding any negative 64-bit number (C60_adding_negative_every_partial), exact or an error down to -3.7e14 seconds (C60_adding_negative_partial), and exactly when it succeeds (C60_adding_negative_iff_partial); exactly when subtracting succeeds and with what result, for every number that does not overflow (C60_subtracting_negative_every_partial, _iff_partial)."
  },
  {
   "property": "C61",
   "status": "proved",
   "theorems": [
    "Props.C61_release_never_panics",
    "Props.C61_iterators",
    "Props.C61_accessors",
    "Props.C61_program"
   ],
   "note": ""
  },
  {
   "property": "C62",
   "status": "proved",
   "theorems": [
    "Props.C62_only_the_grammar"
   ],
   "note": ""
  },
  {
   "property": "C63",
   "status": "proved",
   "theorems": [
    "Props.C63_checked_no_panic",
    "Props.C63_result_bounded",
    "Props.C63_bound_needed"
   ],
   "note": "With a witness that some bound is needed."
  },
  {
   "property": "C64",
   "status": "proved",
   "theorems": [
    "Props.C64_bad_date",
    "Props.C64_date_text",
    "Props.C64_value"
   ],
   "note": ""
  },
  {
   "property": "C65",
   "status": "proved",
   "theorems": [
    "Props.C65_only_dates_and_amounts",
    "Props.C65_only_iterators"
   ],
   "note": "The accepted part and its meaning; what follows it is ignored (C53)."
  },
  {
   "property": "C66",
   "status": "proved",
   "theorems": [
    "Props.C66_daily_weekday",
    "Props.C66_weekly_weekday"
   ],
   "note": ""
  },
  {
   "property": "C67",
   "status": "proved",
   "theorems": [
    "Props.C67_every_step",
    "Props.C67_without",
    "Props.C67_weeks",
    "Props.C67_daily_every"
   ],
   "note": ""
  },
  {
   "property": "C68",
   "status": "proved",
   "theorems": [
    "Props.C68_every_step",
    "Props.C68_monthly_every"
   ],
   "note": ""
  },
  {
   "property": "C69",
   "status": "proved",
   "theorems": [
    "Props.C69_after_year",
    "Props.C69_after_month",
    "Props.C69_after_day_hour_minute"
   ],
   "note": ""
  },
  {
   "property": "C70",
   "status": "proved",
   "theorems": [
    "Props.C70_times_times",
    "Props.C70_until_until",
    "Props.C70_every_every",
    "Props.C70_partition"
   ],
   "note": ""
  },
  {
   "property": "C71",
   "status": "proved",
   "theorems": [
    "Props.C71_bounded_filters_end"
   ],
   "note": ""
  },
  {
   "property": "C72",
   "status": "proved",
   "theorems": [
    "Props.C72_no_clock_word",
    "Props.C72_no_until",
    "Props.C72_rejection"
   ],
   "note": "Parsing as a whole, for every ISO 8601 implementation meeting IsoSane."
  },
  {
   "property": "C73",
   "status": "proved",
   "theorems": [
    "Props.C73_times",
    "Props.C73_unbounded",
    "Props.C73_until",
    "Props.C73_months",
    "Props.C73_years",
    "Props.C73_months_unbounded",
    "Props.C73_months_until",
    "Props.C73_years_unbounded",
    "Props.C73_years_until"
   ],
   "note": "From text to items: parse, construction and stepping together, for every kind of bound."
  },
  {
   "property": "C74",
   "status": "proved",
   "theorems": [
    "Props.C74_everything_is_printable",
    "Props.C74_prints_the_items",
    "Props.C74_times",
    "Props.C74_times_ends",
    "Props.C74_unbounded_exits",
    "Props.C74_until_ends",
    "Props.C74_amount_text",
    "Props.C74_date",
    "Props.C74_date_offset",
    "Props.C74_rejected",
    "Props.C74_bad_start",
    "Props.C74_exit_code",
    "Props.C74_months",
    "Props.C74_years",
    "Props.C74_until",
    "Props.C74_months_until",
    "Props.C74_years_until"
   ],
   "note": "About the model of examples/main.rs, where lines are data, not formatted text."
  },
  {
   "property": "C75",
   "status": "proved",
   "theorems": [
    "Props.C75_splitting",
    "Props.C75_trimmed",
    "Props.C75_single"
   ],
   "note": "About the model of examples/main.rs and of str::trim."
  },
  {
   "property": "C76",
   "status": "proved",
   "theorems": [
    "Props.C76_amounts",
    "Props.C76_moments",
    "Props.C76_no_kind",
    "Props.C76_values",
    "Props.C76_errors"
   ],
   "note": "A complete static characterisation, by induction over expressions."
  },
  {
   "property": "C77",
   "status": "proved",
   "theorems": [
    "Props.C77_values_combine",
    "Props.C77_failing_operand",
    "Props.C77_commutative",
    "Props.C77_commutative_expressions",
    "Props.C77_rearranged",
    "Props.C77_rearranged_release"
   ],
   "note": "C77_rearranged for the overflow-checked build, C77_rearranged_release for the wrapping one."
  },
  {
   "property": "C78",
   "status": "partial",
   "theorems": [
    "Props.C78_expressions_partial",
    "Props.C78_refuted",
    "Props.C78_refuted_witness",
    "Props.C78_iterators_partial"
   ],
   "note": "Refuted: 'yesterday + <amounts>' is accepted but can never be calculated (C78_refuted). Holds for all other texts."
  },
  {
   "property": "C79",
   "status": "partial",
   "theorems": [
    "Props.C79_one_in_each_month_partial",
    "Props.C79_refuted",
    "Props.C79_every_step_partial"
   ],
   "note": "False for every base on the 29th to 31st: exactly one month is left out, at most 23 months on, and from then on all items are on the 1st, 2nd or 3rd (C79_refuted, in general). Proved for bases up to the 28th; for any number of months per step and any base, C79_every_step_partial says what every item is, before and after the first step that cannot keep the day."
  },
  {
   "property": "C80",
   "status": "partial",
   "theorems": [
    "Props.C80_from_29_february_partial",
    "Props.C80_refuted"
   ],
   "note": "False: after the first common year all items are on 1 March (C80_refuted: for yearly(1) never 29 February again). Proved: the full description of every item, for every step."
  },
  {
   "property": "C81",
   "status": "partial",
   "theorems": [
    "Props.C81_adding_more_partial",
    "Props.C81_adding_longer_partial",
    "Props.C81_subtracting_more_partial",
    "Props.C81_refuted"
   ],
   "note": "Proved for every unit: adding 0 to 4.29 billion years, subtracting amounts of either sign below 2^32 (years: 2*10^9). False beyond (C81_refuted: 2^32 years is no change)."
  },
  {
   "property": "C82",
   "status": "partial",
   "theorems": [
    "Props.C82_months_iff_partial",
    "Props.C82_months_safe_partial",
    "Props.C82_years_iff_partial",
    "Props.C82_days_iff_partial",
    "Props.C82_late_iff_partial",
    "Props.C82_short_steps_partial",
    "Props.C82_same_year_partial",
    "Props.C82_refuted_days",
    "Props.C82_months_partial",
    "Props.C82_refuted",
    "Props.C82_refuted_years"
   ],
   "note": "Proved for up to 30 days, for any number of seconds, minutes, hours and days in one year, and for months on days up to the 28th. Exactly when the order is kept: months from any days (C82_months_iff_partial, and simple safe cases, C82_months_safe_partial), years (C82_years_iff_partial), seconds to days (C82_late_iff_partial, and simpler conditions by cases, C82_days_iff_partial). False for days across New Year (C82_refuted_days), months from the 31st (C82_refuted) and for years around 29 February, in general (C82_refuted_years)."
  },
  {
   "property": "C83",
   "status": "partial",
   "theorems": [
    "Props.C83_adding_same_length_partial",
    "Props.C83_weeks_partial",
    "Props.C83_adding_months_partial",
    "Props.C83_refuted_adding",
    "Props.C83_subtracting_12_months_partial",
    "Props.C83_subtracting_one_partial",
    "Props.C83_refuted_everywhere",
    "Props.C83_refuted_many",
    "Props.C83_refuted_subtracting",
    "Props.C83_adding_months_iff_partial",
    "Props.C83_refuted_many_months"
   ],
   "note": "Adding: proved for all amounts up to days; 12 k months and k years exactly when (C83_adding_months_iff_partial: not from a 31st, and from 29 February into leap years only). Subtracting: 12 months are a year for every moment, 24 or more months never (C83_refuted_many_months); 60 seconds, 60 minutes, 24 hours exactly if the component is not 0. Refuted on the 31st, 29 February, in general on every full minute and hour (C83_refuted_everywhere), and for every multiple k >= 2 of one unit, which is always an error (C83_refuted_many)."
  },
  {
   "property": "C84",
   "status": "proved",
   "theorems": [
    "Props.C84_until_count",
    "Props.C84_days_of_a_year",
    "Props.C84_until_months",
    "Props.C84_until_years"
   ],
   "note": "For steps of seconds, minutes, hours or days up to 30 days, of months from a day up to the 28th and of years from any day but 29 February; at chrono's last year the error is reported instead."
  },
  {
   "property": "C85",
   "status": "partial",
   "theorems": [
    "Props.C85_months_partial",
    "Props.C85_years_partial",
    "Props.C85_refuted_far",
    "Props.C85_exact_or_over_partial",
    "Props.C85_refuted"
   ],
   "note": "False of the code (C85_refuted): the iterator gives up at the start of the minute, hour, day or month, exactly as described there, and in months at the start of the year (C85_months_partial); steps of 2^32 days back are no steps at all (C85_refuted_far). Proved: what it does give is exact down to -2^32 days per step, once it fails it fails for good, and years are right down to the first year (C85_years_partial)."
  },
  {
   "property": "C86",
   "status": "partial",
   "theorems": [
    "Props.C86_explained_partial",
    "Props.C86_only_shapes_partial",
    "Props.C86_end_of_partial",
    "Props.C86_refuted_end_of",
    "Props.C86_refuted_order",
    "Props.C86_moment_right_partial",
    "Props.C86_iterators_partial"
   ],
   "note": "Proved: every error is of a known form whose right operand can never be used, for calculable shapes only OutOfBounds, end-of-year and end-of-month named correctly, iterators. Refuted: end_of_day, end_of_hour and end_of_minute of an amount are reported as end-of-month, and with an end-of marker on the left the operands are reported in the wrong order."
  },
  {
   "property": "C87",
   "status": "proved",
   "theorems": [
    "Props.C87_debug_expression",
    "Props.C87_debug_amount",
    "Props.C87_debug_moment",
    "Props.C87_lines_told_apart",
    "Props.C87_told_apart",
    "Props.C87_debug_told_apart",
    "Props.C87_amount",
    "Props.C87_moment",
    "Props.C87_other_years",
    "Props.C87_times_lines",
    "Props.C87_leap_inside_a_minute"
   ],
   "note": "Number formats of std and date formats of chrono are assumptions of Model/Display.lean."
  },
  {
   "property": "C88",
   "status": "proved",
   "theorems": [
    "Props.C88_other_texts",
    "Props.C88_debug_operands",
    "Props.C88_debug_others",
    "Props.C88_told_apart",
    "Props.C88_calculate_told_apart",
    "Props.C88_operation_text",
    "Props.C88_bounds_text"
   ],
   "note": "The error of nom, which is passed on, has no text in the model and is excluded."
  },
  {
   "property": "C89",
   "status": "partial",
   "theorems": [
    "Props.C89_refuted",
    "Props.C89_refuted_moments",
    "Props.C89_lower_case_partial"
   ],
   "note": "Refuted: no printed amount is accepted, since unit names are printed with a capital letter (C89_refuted), and a printed moment comes back as midnight of its day (C89_refuted_moments). Proved: the printed line in lower case gives every non-negative amount again (C89_lower_case_partial)."
  },
  {
   "property": "C90",
   "status": "proved",
   "theorems": [
    "Props.C90_rejected_iff",
    "Props.C90_blanks_before_amount",
    "Props.C90_blanks_before_date",
    "Props.C90_blanks_before_iterator",
    "Props.C90_every_text"
   ],
   "note": "C90_rejected_iff: of the texts that do not start with a blank exactly those starting with an amount or a date are accepted. C90_every_text: the same for texts with any blanks at their start, where also what is an iterator without the blanks is accepted, as the same iterator (C90_blanks_before_iterator). C90_blanks_before_amount, C90_blanks_before_date: the two cases by themselves."
  },
  {
   "property": "C91",
   "status": "partial",
   "theorems": [
    "Props.C91_depth_partial",
    "Props.C91_chains_partial",
    "Props.C91_chains_enough_partial",
    "Props.C91_refuted",
    "Props.C91_refuted_iterators",
    "Props.C91_day_rounds_partial",
    "Props.C91_month_rounds_partial"
   ],
   "note": "Refuted: for every depth there is an expression with a value that needs deeper calls (C91_refuted; a chain of k amounts needs more than k and at most 4k+3, C91_chains_partial, C91_chains_enough_partial), and a failed iterator's expression grows with every further call (C91_refuted_iterators). Proved: depth at most twice the size of the expression (C91_depth_partial), and how often the loops turn (C91_day_rounds_partial, C91_month_rounds_partial). Time is measured in rounds of the loops only."
  },
  {
   "property": "C92",
   "status": "proved",
   "theorems": [
    "Props.C92_adding",
    "Props.C92_adding_months",
    "Props.C92_subtracting",
    "Props.C92_expressions",
    "Props.C92_wrapped_days",
    "Props.C92_wrapped_months",
    "Props.C92_wrapped_months_31",
    "Props.C92_wrapped_time",
    "Props.C92_wrapped_subtracting",
    "Props.C92_wrapped_subtracting_days"
   ],
   "note": "C92_adding, C92_adding_months, C92_subtracting: exactly when the checked build panics; C92_expressions: the same for the values of whole expressions; C92_wrapped_days, _months, _months_31, _time: what adding does in the build without checks (years: C18_every_amount_partial); C92_wrapped_subtracting, C92_wrapped_subtracting_days: what subtracting does (years: C23_every_amount_partial)."
  },
  {
   "property": "C93",
   "status": "proved",
   "theorems": [
    "Props.C93_fits",
    "Props.C93_panics_iff",
    "Props.C93_small_fits",
    "Props.C93_adding",
    "Props.C93_subtracting"
   ],
   "note": "C93_fits, C93_panics_iff: with Spec.Fits as the condition; C93_small_fits: small amounts satisfy it; C93_adding, C93_subtracting: together with a moment."
  },
  {
   "property": "C94",
   "status": "proved",
   "theorems": [
    "Props.C94_total_order",
    "Props.C94_days_of_a_week",
    "Props.C94_months_of_a_year"
   ],
   "note": "C94_total_order, C94_days_of_a_week, C94_months_of_a_year."
  },
  {
   "property": "C95",
   "status": "partial",
   "theorems": [
    "Props.C95_negative_months_partial",
    "Props.C95_months_exact_or_error_partial",
    "Props.C95_years_partial",
    "Props.C95_refuted"
   ],
   "note": "False of the code (C95_refuted: three months before 31 March is 1 January of the same year). Proved: the outcome for every negative 64-bit number of months (C95_negative_months_partial); right or an error from the first 28 days of a month, right exactly if it stays in the year (C95_months_exact_or_error_partial); years (C95_years_partial, and C18_every_amount_partial for every number)."
  },
  {
   "property": "C96",
   "status": "partial",
   "theorems": [
    "Props.C96_refuted",
    "Props.C96_refuted_step",
    "Props.C96_refuted_bound",
    "Props.C96_refuted_end",
    "Props.C96_beginning_partial"
   ],
   "note": "False of the code at every place: what cannot be read as an offset or step is ignored and the date alone returned (C96_refuted, C96_refuted_step), what cannot be read as a bound is ignored and the iterator has no end (C96_refuted_bound), and whatever stands behind a bound is ignored (C96_refuted_end), in general. Proved: a text whose very beginning cannot be read is rejected; readable parts are used (C54, C64)."
  },
  {
   "property": "C97",
   "status": "partial",
   "theorems": [
    "Props.C97_refuted",
    "Props.C97_days_ago_partial",
    "Props.C97_refuted_month_ago"
   ],
   "note": "The code violates it: the README's first line is an error on every day, because adding to a subtraction swaps the operands (C97_refuted). The second line gives the end of that month or an OutOfBounds error, with exactly the condition for which (C97_days_ago_partial), for numbers of days that lead at most into the month before; further back the month can be wrong (C97_refuted_month_ago)."
  },
  {
   "property": "C98",
   "status": "partial",
   "theorems": [
    "Props.C98_refuted",
    "Props.C98_alias_partial"
   ],
   "note": "The code violates it: a step given by a number and a unit without the word every is ignored, together with everything behind it, and the text is the date alone (C98_refuted). Aliases work as described (C98_alias_partial); with every in front of it number unit works (C54)."
  },
  {
   "property": "C99",
   "status": "partial",
   "theorems": [
    "Props.C99_larger_partial",
    "Props.C99_refuted_smaller",
    "Props.C99_refuted_weeks"
   ],
   "note": "False of the code in two points: amounts in a smaller unit give zero exactly if they are less than one of the larger unit (C99_refuted_smaller), and four weeks do not make a month: n weeks count as 7n/30 months, which is n/4 for 24 numbers only (C99_refuted_weeks). The other rules are proved (C99_larger_partial; all pairs of units: C29)."
  },
  {
   "property": "C100",
   "status": "proved",
   "theorems": [
    "Props.C100_genuine",
    "Props.C100_told_apart"
   ],
   "note": "For every argument list, clock and number of rounds. The text of the one error that comes from nom is not modelled; Debug texts of errors as without RUST_BACKTRACE."
  },
  {
   "property": "C101",
   "status": "proved",
   "theorems": [
    "Props.C101_until_times",
    "Props.C101_until_filters",
    "Props.C101_forward",
    "Props.C101_ends_differ",
    "Props.C101_times_filters",
    "Props.C101_every_without"
   ],
   "note": "The values agree in every call, on every iterator with the stated order; C101_ends_differ describes where the order shows. times before a filter gives only a beginning (C101_times_filters), as it must."
  },
  {
   "property": "C102",
   "status": "proved",
   "theorems": [
    "Props.C102_resume",
    "Props.C102_until",
    "Props.C102_times"
   ],
   "note": ""
  },
  {
   "property": "C103",
   "status": "proved",
   "theorems": [
    "Props.C103_keeps_order",
    "Props.C103_same_period"
   ],
   "note": ""
  },
  {
   "property": "C104",
   "status": "partial",
   "theorems": [
    "Props.C104_adding_partial",
    "Props.C104_four_weeks_partial",
    "Props.C104_subtracting_partial",
    "Props.C104_refuted",
    "Props.C104_adding_iff_partial"
   ],
   "note": "False of the code (C104_refuted). Proved: adding any number of weeks exactly when (C104_adding_iff_partial), up to 51 weeks with the months spelled out, up to four weeks always; subtracting exactly when (up to 2^32 days)."
  },
  {
   "property": "C105",
   "status": "partial",
   "theorems": [
    "Props.C105_one_unit_partial",
    "Props.C105_two_units_partial",
    "Props.C105_refuted_amounts",
    "Props.C105_by_form_partial",
    "Props.C105_refuted_expressions"
   ],
   "note": "False of the code: the derived comparison goes by the form first. 3600 seconds are less than a minute, 60 seconds are not equal to a minute, and every expression still to be computed is later than every moment. Proved: amounts of one unit compare by length; for two units exactly when the result is right; amounts < moments < everything else."
  },
  {
   "property": "C106",
   "status": "partial",
   "theorems": [
    "Props.C106_endless_partial",
    "Props.C106_times_partial",
    "Props.C106_filters_partial",
    "Props.C106_until_partial",
    "Props.C106_refuted",
    "Props.C106_refuted_witness"
   ],
   "note": "False of the code: until(end) on any iterator that goes forward comes back with an OutOfBounds error when called often enough after its end (C106_refuted); with a negative step it yields items again (C41_not_fused). Proved: times and filters stay ended on anything that does; until on a forward iterator yields no item again."
  },
  {
   "property": "C107",
   "status": "proved",
   "theorems": [
    "Props.C107_off_by",
    "Props.C107_chains",
    "Props.C107_iterators",
    "Props.C107_subtracting",
    "Props.C107_subtracting_exactly",
    "Props.C107_exactly"
   ],
   "note": "The bounds of the code's months of 30 and years of 360 days against the calendar; met by the examples."
  },
  {
   "property": "C108",
   "status": "proved",
   "theorems": [
    "Props.C108_dates",
    "Props.C108_iterators",
    "Props.C108_kinds",
    "Props.C108_only_the_reading"
   ],
   "note": "The ISO 8601 parsers of the dependency are arbitrary functions; amount expressions alone: C46_unambiguous."
  },
  {
   "property": "C109",
   "status": "partial",
   "theorems": [
    "Props.C109_same_length_partial",
    "Props.C109_months_partial",
    "Props.C109_refuted",
    "Props.C109_first_step_iff_partial"
   ],
   "note": "Proved for seconds to days, any length from zero to the end of the integer type; for months and years from bases up to the 30th but 29 February. False for the others (C109_refuted): after one step the two agree exactly if the base is not on a 31st and a 29 February leads to a leap year (C109_first_step_iff_partial)."
  },
  {
   "property": "C110",
   "status": "proved",
   "theorems": [
    "Props.C110_adaptors_see_items"
   ],
   "note": ""
  },
  {
   "property": "C111",
   "status": "proved",
   "theorems": [
    "Props.C111_smaller_units",
    "Props.C111_iterators"
   ],
   "note": ""
  },
  {
   "property": "C112",
   "status": "partial",
   "theorems": [
    "Props.C112_iff_partial",
    "Props.C112_months_iff_partial",
    "Props.C112_years_iff_partial",
    "Props.C112_within_month_partial",
    "Props.C112_refuted",
    "Props.C112_every_month_iff_partial",
    "Props.C112_every_year_iff_partial"
   ],
   "note": "False of the code (C112_refuted). Proved: exactly when it holds, for every number of seconds, minutes, hours and days, and for every number of months and years (C112_every_month_iff_partial, up to the last that do not overflow)."
  },
  {
   "property": "C113",
   "status": "partial",
   "theorems": [
    "Props.C113_days_months_years_partial",
    "Props.C113_time_partial",
    "Props.C113_refuted",
    "Props.C113_time_iff_partial",
    "Props.C113_months_of_31_iff_partial"
   ],
   "note": "Proved for days, months and years (also where the dates reached are wrong), and for all units exactly when it holds (C113_time_iff_partial, C113_months_of_31_iff_partial); false otherwise (C113_refuted)."
  },
  {
   "property": "C114",
   "status": "proved",
   "theorems": [
    "Props.C114_expressions",
    "Props.C114_both",
    "Props.C114_errors",
    "Props.C114_iterators",
    "Props.C114_weekdays"
   ],
   "note": "Expressions, errors, iterators, weekdays and months."
  },
  {
   "property": "C115",
   "status": "proved",
   "theorems": [
    "Props.C115_position",
    "Props.C115_failure",
    "Props.C115_increment"
   ],
   "note": ""
  },
  {
   "property": "C116",
   "status": "partial",
   "theorems": [
    "Props.C116_counting_partial",
    "Props.C116_refuted",
    "Props.C116_months_partial",
    "Props.C116_years_partial",
    "Props.C116_every_position_iff_partial",
    "Props.C116_calls_partial"
   ],
   "note": "False of the code (C116_refuted: days over the end of a month; C79, C80: months from the 29th on, years from 29 February). Proved for increments of up to 59 seconds, 59 minutes or 23 hours, for any number of seconds to days exactly when every position is right (C116_every_position_iff_partial, C116_calls_partial), for months from bases up to the 28th (below 2^32 months), and for years from any day but 29 February (up to 2*10^9 years, of either sign)."
  },
  {
   "property": "C117",
   "status": "partial",
   "theorems": [
    "Props.C117_years_partial",
    "Props.C117_months_iff_partial",
    "Props.C117_months_partial",
    "Props.C117_refuted",
    "Props.C117_subtracting_partial",
    "Props.C117_days_partial",
    "Props.C117_subtracting_days_partial",
    "Props.C117_days_iff_partial",
    "Props.C117_subtracting_days_iff_partial"
   ],
   "note": "Refuted: from any 31 January the end of the month one month later is said to be 31 March, from any 31 December the last of February (C117_refuted). Proved: exactly when the end of a later month is right (the day exists in it, and not from a 31st over the turn of a year), always up to the 28th; years in either direction for years in 32 bits, from every day; subtracting months (fewer than 2^32) and years is right or an OutOfBounds error, and which; adding and subtracting days, hours and minutes: exactly when it is right, for every number of them (C117_days_iff_partial, C117_subtracting_days_iff_partial), and always up to 30 days added."
  },
  {
   "property": "C118",
   "status": "proved",
   "theorems": [
    "Props.C118_work_days",
    "Props.C118_complete"
   ],
   "note": "Spec/WorkDays.lean counts the working days by a formula and proves that it counts exactly the days from Monday to Friday."
  },
  {
   "property": "C119",
   "status": "proved",
   "theorems": [
    "Props.C119_component",
    "Props.C119_reachable",
    "Props.C119_no_single_amount"
   ],
   "note": ""
  },
  {
   "property": "C120",
   "status": "partial",
   "theorems": [
    "Props.C120_months_of_31_iff_partial",
    "Props.C120_steps_partial",
    "Props.C120_months_partial",
    "Props.C120_months_iff_partial",
    "Props.C120_years_partial",
    "Props.C120_refuted"
   ],
   "note": "False of the code (C120_refuted). Proved: amounts of any units, exactly when both ways lead to the same moment, where they have results; seconds to days, when both at once is the exact date, so is one after the other (apart from one number of hours); months, exactly when both ways have results and agree; years in full."
  },
  {
   "property": "C121",
   "status": "partial",
   "theorems": [
    "Props.C121_within_the_year_partial",
    "Props.C121_months_and_years_partial",
    "Props.C121_months_and_smaller_partial",
    "Props.C121_refuted",
    "Props.C121_iff_partial",
    "Props.C121_late_iff_partial",
    "Props.C121_months_iff_partial",
    "Props.C121_months_and_years_iff_partial"
   ],
   "note": "False of the code (C121_refuted). Proved for seconds to days: exactly when the order does not matter (C121_late_iff_partial; a simpler condition if one of the two alone stays in the year, C121_iff_partial); if each alone stays in the year, the same outcome always; two numbers of months, and months and years, from any day: exactly when (C121_months_iff_partial, C121_months_and_years_iff_partial), up to the 28th always; months and an amount of either sign of a smaller unit that changes only its own component, up to the 28th."
  },
  {
   "property": "C122",
   "status": "proved",
   "theorems": [
    "Props.C122_every",
    "Props.C122_without",
    "Props.C122_visited"
   ],
   "note": "Every positive step of any unit up to 4.29 billion years (beyond, iterators do not go forward: C36_refuted); the test is any test with an answer for every date."
  },
  {
   "property": "C123",
   "status": "proved",
   "theorems": [
    "Props.C123_every_between",
    "Props.C123_without_between"
   ],
   "note": "Every positive step of any unit up to 4.29 billion years; the test is any test with an answer for every date."
  },
  {
   "property": "C124",
   "status": "partial",
   "theorems": [
    "Props.C124_months_partial",
    "Props.C124_refuted",
    "Props.C124_years"
   ],
   "note": "Years: proved for every base. Months: proved for bases up to the 28th; false for every base from the 29th on, where the end of some month within 23 months is missed (C124_refuted, in general)."
  },
  {
   "property": "C125",
   "status": "proved",
   "theorems": [
    "Props.C125_same_value",
    "Props.C125_equal_parts",
    "Props.C125_part_without_value",
    "Props.C125_part_by_value",
    "Props.C125_kind_needed",
    "Props.C125_inside_out"
   ],
   "note": "C125_kind_needed shows why the converse excludes the shapes of C76 without a kind."
  },
  {
   "property": "C126",
   "status": "proved",
   "theorems": [
    "Props.C126_bytes",
    "Props.C126_no_loss",
    "Props.C126_bytes_injective"
   ],
   "note": "For every text and all ISO 8601 parsers that use up ASCII bytes only (C126_no_loss); the bytes are those of Lean's own UTF-8 encoding; different texts have different bytes (C126_bytes_injective)."
  },
  {
   "property": "C127",
   "status": "proved",
   "theorems": [
    "Props.C127_passed_on",
    "Props.C127_first_step",
    "Props.C127_one_operation"
   ],
   "note": "For the kinds of expressions that can be calculated (C76); the errors of the others are described in C86."
  },
  {
   "property": "C128",
   "status": "proved",
   "theorems": [
    "Props.C128_split",
    "Props.C128_sorted"
   ],
   "note": ""
  },
  {
   "property": "C129",
   "status": "proved",
   "theorems": [
    "Props.C129_distance",
    "Props.C129_months",
    "Props.C129_same_step",
    "Props.C129_same_start"
   ],
   "note": "Steps of seconds to days up to 30 days (beyond, steps are not exact: C16); months from days up to the 28th."
  },
  {
   "property": "C130",
   "status": "proved",
   "theorems": [
    "Props.C130_count",
    "Props.C130_weeks",
    "Props.C130_year",
    "Props.C130_month"
   ],
   "note": ""
  },
  {
   "property": "C131",
   "status": "partial",
   "theorems": [
    "Props.C131_plus_iff_partial",
    "Props.C131_months_partial",
    "Props.C131_years_partial",
    "Props.C131_refuted",
    "Props.C131_months_iff_partial",
    "Props.C131_leap_day_partial"
   ],
   "note": "False of the code (C131_refuted). Proved exactly when it holds: seconds to days (where additions are right, always so up to 30 days); months up to the 28th with errors, from any day where both ways have a result; years from 29 February; and years from any other day always, any outcome."
  },
  {
   "property": "C132",
   "status": "proved",
   "theorems": [
    "Props.C132_count",
    "Props.C132_weeks",
    "Props.C132_year"
   ],
   "note": ""
  },
  {
   "property": "C133",
   "status": "proved",
   "theorems": [
    "Props.C133_nth",
    "Props.C133_fifth"
   ],
   "note": ""
  },
  {
   "property": "C134",
   "status": "partial",
   "theorems": [
    "Props.C134_exact_iff_partial",
    "Props.C134_within_the_year_partial",
    "Props.C134_thirty_days_is_best",
    "Props.C134_refuted"
   ],
   "note": "False of the code: with steps of 516 days or more the second item is never right (C134_refuted), and every step longer than 30 days is wrong from some base (C134_thirty_days_is_best). Proved: exactly when the items are right, for every step (C134_exact_iff_partial); always as long as they stay in the year of the base."
  },
  {
   "property": "C135",
   "status": "proved",
   "theorems": [
    "Props.C135_sum_and_difference",
    "Props.C135_end_of",
    "Props.C135_every_expression",
    "Props.C135_iterators"
   ],
   "note": "The reference is Spec/Reference.lean (oneStep, reference, referenceItem), for both builds and with the fields and operands of every error: with overflow checks it names the overflows, without them it gives what comes out after the wrap."
  },
  {
   "property": "C136",
   "status": "proved",
   "theorems": [
    "Props.C136_sum",
    "Props.C136_difference",
    "Props.C136_end_of",
    "Props.C136_without_checks",
    "Props.C136_whole"
   ],
   "note": "C136_sum and C136_difference are equalities of outcomes, C136_whole combines them with the reference of C135 (Spec/Reference.lean, outcome)."
  },
  {
   "property": "C137",
   "status": "partial",
   "theorems": [
    "Props.C137_iff_partial",
    "Props.C137_days_months_years_partial",
    "Props.C137_chains_partial",
    "Props.C137_refuted"
   ],
   "note": "False of the code (C137_refuted). Proved: where both orders have results, days, months and years can be subtracted in either order, any number of them (C137_chains_partial); for two amounts of any units exactly when both orders lead to the same moment (C137_iff_partial)."
  },
  {
   "property": "C138",
   "status": "proved",
   "theorems": [
    "Props.C138_result",
    "Props.C138_linear",
    "Props.C138_finite",
    "Props.C138_lists",
    "Props.C138_all_calls",
    "Props.C138_made"
   ],
   "note": "Model/Traced.lean is the evaluator once more, with every call written down as it is made; C138_result proves that it returns what the model's evaluator returns, C138_linear bounds the calls written down, C138_finite shows that these are all of them. C138_lists, C138_all_calls and C138_made tie them to the lists of the calls each function makes itself (Model/Calls.lean). The rounds of the loops in src/util.rs are not counted here (C91)."
  },
  {
   "property": "C139",
   "status": "partial",
   "theorems": [
    "Props.C139_cut_off",
    "Props.C139_rounds_partial",
    "Props.C139_results_are_quick_partial",
    "Props.C139_years_partial",
    "Props.C139_days_partial",
    "Props.C139_months_partial",
    "Props.C139_refuted"
   ],
   "note": "Refuted: C139_refuted, C139_days_partial, C139_months_partial. Proved instead: the exact number of rounds of every addition with a result of up to three billion years (C139_rounds_partial), that additions with results are done after as many rounds as chrono has months (C139_results_are_quick_partial), years (C139_years_partial), and that the version with counted rounds is the code otherwise (C139_cut_off)."
  },
  {
   "property": "C140",
   "status": "partial",
   "theorems": [
    "Props.C140_enough_partial",
    "Props.C140_exactly_partial",
    "Props.C140_refuted",
    "Props.C140_calculating_partial"
   ],
   "note": "Refuted: C140_refuted (for every depth there is a text that needs more). Proved instead: the exact depth for every text of the grammar (C140_exactly_partial), a bound for every text whatsoever (C140_enough_partial), and that calculating nests more than 2k - 2 deep (C140_calculating_partial)."
  },
  {
   "property": "C141",
   "status": "proved",
   "theorems": [
    "Props.C141_every_expression",
    "Props.C141_kinds",
    "Props.C141_no_kind"
   ],
   "note": "Spec/Ending.lean is the specification: sumEnds and differenceEnds say how a sum or difference ends from how its operands end, oneStep (C135) what one operation on two values gives. C141_kinds: it agrees with the reference of C136 where that applies. C141_no_kind: without a kind there is no value."
  },
  {
   "property": "C142",
   "status": "proved",
   "theorems": [
    "Props.C142_every_text",
    "Props.C142_longest_word"
   ],
   "note": "No hypothesis on the text, the clock or the ISO 8601 parsers."
  },
  {
   "property": "C143",
   "status": "proved",
   "theorems": [
    "Props.C143_items",
    "Props.C143_times",
    "Props.C143_until"
   ],
   "note": ""
  },
  {
   "property": "C144",
   "status": "proved",
   "theorems": [
    "Props.C144_program"
   ],
   "note": "About the model of examples/main.rs, where lines are data, not formatted text (their texts: C87, C88, C100)."
  },
  {
   "property": "C145",
   "status": "proved",
   "theorems": [
    "Props.C145_calls",
    "Props.C145_never",
    "Props.C145_determined",
    "Props.C145_returns"
   ],
   "note": "The matcher answers every date; dates are all it is ever given. 'Never returns' is: not finished after any number of rounds."
  },
  {
   "property": "C146",
   "status": "proved",
   "theorems": [
    "Props.C146_amounts",
    "Props.C146_moments",
    "Props.C146_ends",
    "Props.C146_assignment",
    "Props.C146_increment",
    "Props.C146_adaptors",
    "Props.C146_filters"
   ],
   "note": ""
  },
  {
   "property": "C147",
   "status": "proved",
   "theorems": [
    "Props.C147_calls",
    "Props.C147_never",
    "Props.C147_determined",
    "Props.C147_returns"
   ],
   "note": "Every text that parses to an iterator, every chain of adaptors, every call. What a text says is given by Spec/Reader.lean, what a chain does by Spec/Pipeline.lean, and how they meet by Spec/PipelineText.lean."
  },
  {
   "property": "C148",
   "status": "proved",
   "theorems": [
    "Props.C148_calculate",
    "Props.C148_values",
    "Props.C148_failures",
    "Props.C148_iterators",
    "Props.C148_skip_rollback",
    "Props.C148_parse",
    "Props.C148_user_iterator",
    "Props.C148_program"
   ],
   "note": "Every function that depends on the range, and the program."
  },
  {
   "property": "C149",
   "status": "proved",
   "theorems": [
    "Props.C149_calculate",
    "Props.C149_same_value",
    "Props.C149_questions",
    "Props.C149_skip_rollback",
    "Props.C149_iterators",
    "Props.C149_later_items",
    "Props.C149_until_looks"
   ],
   "note": "For every expression, iterator and chain; the exception (until with a fraction) is shown to be one."
  },
  {
   "property": "C150",
   "status": "proved",
   "theorems": [
    "Props.C150_same_parser",
    "Props.C150_linear",
    "Props.C150_amounts",
    "Props.C150_size",
    "Props.C150_calculating"
   ],
   "note": "Steps are those of Model/NomCounted.lean, which returns what Model/Nom.lean returns (C150_same_parser). The time of iso8601's own parsers is a parameter."
  },
  {
   "property": "C151",
   "status": "proved",
   "theorems": [
    "Props.C151_result",
    "Props.C151_each_item",
    "Props.C151_after_failure"
   ],
   "note": "Calls of the functions of src/timetype.rs are counted (Model/IterTraced.lean, Model/Traced.lean); the rounds of the loops in src/util.rs are the subject of C139."
  },
  {
   "property": "C152",
   "status": "proved",
   "theorems": [
    "Props.C152_every_call"
   ],
   "note": "No hypothesis but that the start is a date and the step a 64-bit number of a unit. The panic of a checked build is one of the replies."
  },
  {
   "property": "C153",
   "status": "proved",
   "theorems": [
    "Props.C153_calculate",
    "Props.C153_parse",
    "Props.C153_iterators",
    "Props.C153_adaptors",
    "Props.C153_moved",
    "Props.C153_texts",
    "Props.C153_program"
   ],
   "note": "Theorems about the modules Source/*.lean generated from the Rust text (tools/), not about the hand-written model."
  },
  {
   "property": "C154",
   "status": "partial",
   "theorems": [
    "Props.C154_refuted",
    "Props.C154_until_iff_partial",
    "Props.C154_until_1_iff_partial",
    "Props.C154_until_2_iff_partial",
    "Props.C154_compile_skip_partial",
    "Props.C154_compile_partial",
    "Props.C154_today_partial"
   ],
   "note": "False: test_until fails on the first of March, May, July, October and December (C154_refuted). Proved: exactly when each of the three until tests passes (before the last of chrono's years); the other tests always pass."
  },
  {
   "property": "C155",
   "status": "partial",
   "theorems": [
    "Props.C155_joined_partial",
    "Props.C155_as_written_iff_partial",
    "Props.C155_dates_partial",
    "Props.C155_refuted"
   ],
   "note": "False if an odd number of minus signs stands in the first text: the operator then works as the opposite one (C155_refuted). Proved: what the text stands for in every case, and exactly when that is what is written."
  },
  {
   "property": "C156",
   "status": "proved",
   "theorems": [
    "Props.C156_calls",
    "Props.C156_never",
    "Props.C156_like_a_new_one",
    "Props.C156_returns"
   ],
   "note": ""
  },
  {
   "property": "C157",
   "status": "proved",
   "theorems": [
    "Props.C157_rewrites",
    "Props.C157_moved",
    "Props.C157_texts"
   ],
   "note": ""
  },
  {
   "property": "C158",
   "status": "proved",
   "theorems": [
    "Props.C158_resume",
    "Props.C158_same_adaptors",
    "Props.C158_times"
   ],
   "note": "Stated for the translated source; chains with any counts (C158_resume), none (C158_same_adaptors) and one put on last (C158_times)."
  },
  {
   "property": "C159",
   "status": "partial",
   "theorems": [
    "Props.C159_up_to_30_days_partial",
    "Props.C159_iff_partial",
    "Props.C159_months_partial",
    "Props.C159_years_partial",
    "Props.C159_refuted_years",
    "Props.C159_refuted_months",
    "Props.C159_refuted_days",
    "Props.C159_29_february_iff_partial",
    "Props.C159_months_kept_partial",
    "Props.C159_months_lost_partial"
   ],
   "note": "False of the code (C159_refuted_days, C159_refuted_months, C159_refuted_years: from 29 February in general). Proved: for k steps of up to 30 days together; for any k exactly when it holds (C159_iff_partial); months from days up to the 28th, and from any day as long as the shorter step keeps the day (C159_months_kept_partial), not after that while the longer one does (C159_months_lost_partial); years but from 29 February, and from there exactly when (C159_29_february_iff_partial)."
  },
  {
   "property": "C160",
   "status": "proved",
   "theorems": [
    "Props.C160_built",
    "Props.C160_resume"
   ],
   "note": "Stated for the translated source (C160_built, C160_resume)."
  },
  {
   "property": "C161",
   "status": "proved",
   "theorems": [
    "Props.C161_loop_ends",
    "Props.C161_none_iff",
    "Props.C161_texts"
   ],
   "note": "Stated for the translated source. Larger steps: C36_refuted, C42_refuted (2^32 years); step zero repeats the start for ever."
  },
  {
   "property": "C162",
   "status": "proved",
   "theorems": [
    "Props.C162_forever_iff",
    "Props.C162_zero_step"
   ],
   "note": "Stated for the translated source (C162_forever_iff for every step, C162_zero_step)."
  },
  {
   "property": "C163",
   "status": "proved",
   "theorems": [
    "Props.C163_blanks",
    "Props.C163_amounts",
    "Props.C163_at_the_end",
    "Props.C163_not_everywhere"
   ],
   "note": "C163_blanks for every text, C163_amounts for what is left; the ISO parsers are assumed to read no blanks (IsoWithoutBlanks, shown of the parser of the tests); C163_not_everywhere has the places where blanks matter."
  },
  {
   "property": "C164",
   "status": "proved",
   "theorems": [
    "Props.C164_backwards",
    "Props.C164_last"
   ],
   "note": "C164_backwards: the date or error at every position, from any date; C164_last: from the end of the month, that the first four calls are the last, last but one, \u2026 of the month, that every such day of the month is listed, and that there are never more than five dates."
  },
  {
   "property": "C165",
   "status": "proved",
   "theorems": [
    "Props.C165_weeks",
    "Props.C165_years"
   ],
   "note": "C165_weeks (weekdays and weeks), C165_years (months and years); both at every position."
  },
  {
   "property": "C166",
   "status": "proved",
   "theorems": [
    "Props.C166_found",
    "Props.C166_each_year",
    "Props.C166_at_most_three"
   ],
   "note": "C166_found: all such dates at all positions and the distance between them; C166_each_year, C166_at_most_three: how many there are in a year."
  },
  {
   "property": "C167",
   "status": "proved",
   "theorems": [
    "Props.C167_found",
    "Props.C167_from_29_february"
   ],
   "note": "C167_found, C167_from_29_february."
  },
  {
   "property": "C168",
   "status": "proved",
   "theorems": [
    "Props.C168_weekday",
    "Props.C168_month",
    "Props.C168_without_weekday",
    "Props.C168_without_month"
   ],
   "note": "C168_weekday, C168_month, C168_without_weekday, C168_without_month; that the bounds cannot be lowered is shown by the examples beside them (145 hours, 338 days, 25 hours, 32 days)."
  },
  {
   "property": "C169",
   "status": "proved",
   "theorems": [
    "Props.C169_months",
    "Props.C169_one_month",
    "Props.C169_one_month_back",
    "Props.C169_year"
   ],
   "note": "C169_months (every number of months), C169_one_month, C169_one_month_back, C169_year."
  },
  {
   "property": "C170",
   "status": "proved",
   "theorems": [
    "Props.C170_days"
   ],
   "note": "C170_days: first item, successor of each item, end of the range."
  },
  {
   "property": "C171",
   "status": "proved",
   "theorems": [
    "Props.C171_times"
   ],
   "note": "C171_times; that the steps must fill six days is shown by the last example (steps of five hours)."
  },
  {
   "property": "C172",
   "status": "proved",
   "theorems": [
    "Props.C172_backwards",
    "Props.C172_complete",
    "Props.C172_last",
    "Props.C172_first"
   ],
   "note": "C172_backwards is an exact description of every item; C172_complete says that no working day is left out or comes twice; C172_last and C172_first are about the first item, from the end and from the start of a month."
  }
 ]
}