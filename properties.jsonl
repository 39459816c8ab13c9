{"id": "C01", "title": "calculate always returns", "statement": "`TimeType::calculate` returns (a value, an error, or an overflow panic) on every expression: it never recurses forever, and its recursion depth is at most linear in the size of the expression.", "quantifier": "every expression tree built from the public constructors and operators, of any depth", "why_tests_cant": "Only finitely many trees can be tried; the evaluator feeds its own results back into itself, so termination is not syntactic.", "anchors": ["src/timetype.rs: do_calculate, add, sub, add_to_seconds, add_to_minutes, add_to_hours, add_to_days, add_to_months, add_to_years, add_to_moment, sub_from_seconds, sub_from_minutes, sub_from_hours, sub_from_days, sub_from_months, sub_from_years, sub_from_moment, end_of_year, end_of_month, end_of_day, end_of_hour, end_of_minute"]}
{"id": "C02", "title": "results are fully evaluated", "statement": "When `calculate` succeeds the result is a plain amount (seconds..years) or a plain moment; it never contains an unevaluated addition, subtraction or end-of node.", "quantifier": "every expression tree on which calculate succeeds", "why_tests_cant": "Needs induction over all trees.", "anchors": ["src/timetype.rs: do_calculate, add, sub, end_of_year, end_of_month, end_of_day, end_of_hour, end_of_minute"]}
{"id": "C03", "title": "calculate is idempotent", "statement": "Calculating the result of a successful `calculate` again succeeds and returns the identical value.", "quantifier": "every expression tree on which calculate succeeds", "why_tests_cant": "Ranges over all trees.", "anchors": ["src/timetype.rs: TimeType::calculate"]}
{"id": "C04", "title": "amount arithmetic is exact", "statement": "For an expression made only of amounts with + and -, of any shape, a successful `calculate` yields an amount whose `get_seconds` is the ordinary arithmetic value of the expression under 60s/min, 60min/h, 24h/day, 30d/month, 12mo/year, and its unit is the finest unit occurring in the expression.", "quantifier": "every finite tree of amounts with + and -, all i64 amounts, in runs without integer overflow", "why_tests_cant": "Unit-pair tables (72 arms) times unbounded nesting and all integers.", "anchors": ["src/timetype.rs: add, sub, add_to_seconds, add_to_minutes, add_to_hours, add_to_days, add_to_months, add_to_years, add_to_moment, sub_from_seconds, sub_from_minutes, sub_from_hours, sub_from_days, sub_from_months, sub_from_years, sub_from_moment, get_seconds"]}
{"id": "C05", "title": "amount arithmetic never errors", "statement": "For an expression made only of amounts, `calculate` never returns an error; and if the sum of the absolute sizes of its amounts, in seconds, fits in an i64, it does not overflow either, so it succeeds.", "quantifier": "every tree of amounts with + and -, both build profiles", "why_tests_cant": "Ranges over all trees and integers.", "anchors": ["src/timetype.rs: add, sub, add_to_seconds, add_to_minutes, add_to_hours, add_to_days, add_to_months, add_to_years, add_to_moment, sub_from_seconds, sub_from_minutes, sub_from_hours, sub_from_days, sub_from_months, sub_from_years, sub_from_moment"]}
{"id": "C06", "title": "a moment can only stand on the far left", "statement": "Adding or subtracting a moment on the right is always rejected: no expression `x + moment` or `x - moment` ever evaluates successfully, whatever x is.", "quantifier": "every left operand expression x and every moment", "why_tests_cant": "x ranges over all trees.", "anchors": ["src/timetype.rs: add, sub, add_to_moment, sub_from_seconds, sub_from_minutes, sub_from_hours, sub_from_days, sub_from_months, sub_from_years, sub_from_moment"]}
{"id": "C07", "title": "left-to-right chains starting from a moment", "statement": "`(m op1 a) op2 b` evaluates like doing `m op1 a` first and then `op2 b` on the resulting moment, for every combination of + and - (README: `TT::today() - TT::weeks(1) + TT::days(2)`).", "quantifier": "every moment m, amounts a and b, all four operator combinations", "why_tests_cant": "Ranges over all moments and amounts.", "anchors": ["README.md", "src/timetype.rs: add (Subtraction, other) arm, sub"]}
{"id": "C08", "title": "amounts on the right are combined first", "statement": "`m + e` and `m - e`, where e is an expression of amounts, give exactly what adding/subtracting the single amount `e.calculate()` gives; an error or overflow in e is passed on.", "quantifier": "every moment m and every tree of amounts e", "why_tests_cant": "Ranges over all trees.", "anchors": ["src/timetype.rs: add_to_moment, sub_from_moment"]}
{"id": "C09", "title": "end-of markers usable as operands", "statement": "An `end_of_*` expression can be used as an operand of + and - (e.g. `x.end_of_month() + days(1)`), its value being used.", "quantifier": "every expression with an end-of marker as a direct operand of + or -", "why_tests_cant": "Ranges over all trees.", "anchors": ["src/timetype.rs: add, sub EndOf* arms"]}
{"id": "C10", "title": "end_of_year", "statement": "If x evaluates to a moment, `x.end_of_year()` evaluates to 31 December 00:00:00 of the same year; it never fails on a moment.", "quantifier": "every expression evaluating to a moment in chrono's range", "why_tests_cant": "All years and dates.", "anchors": ["src/timetype.rs: end_of_year"]}
{"id": "C11", "title": "end_of_month", "statement": "If x evaluates to a moment, `x.end_of_month()` evaluates to 00:00:00 on the last calendar day (Gregorian leap rules) of the same month; it never fails on a moment, and no later day of that month exists.", "quantifier": "every expression evaluating to a moment in chrono's range", "why_tests_cant": "All years (including centuries and negative years) and months.", "anchors": ["src/timetype.rs: end_of_month", "src/util.rs: get_num_of_days_in_month, is_leap_year"]}
{"id": "C12", "title": "end_of_day / end_of_hour / end_of_minute", "statement": "If x evaluates to a moment, these evaluate to the last second of the same day, hour and minute; the result is never before x (ignoring sub-seconds), is less than one day/hour/minute after it, and they never fail on a moment.", "quantifier": "every expression evaluating to a moment", "why_tests_cant": "All moments.", "anchors": ["src/timetype.rs: end_of_day, end_of_hour, end_of_minute"]}
{"id": "C13", "title": "end-of markers are idempotent and absorb", "statement": "Applying the same end-of marker twice equals applying it once, for every expression (including failing ones); end_of_month after end_of_year equals end_of_year; end_of_hour and end_of_minute after end_of_day equal end_of_day; end_of_minute after end_of_hour equals end_of_hour.", "quantifier": "every expression", "why_tests_cant": "All trees, including ones that fail.", "anchors": ["src/timetype.rs: end_of_year, end_of_month, end_of_day, end_of_hour, end_of_minute"]}
{"id": "C14", "title": "end-of needs a moment", "statement": "If x evaluates to an amount, every `end_of_*` of x is an error; if x fails, `end_of_*` fails with the same error.", "quantifier": "every expression not evaluating to a moment, all five markers", "why_tests_cant": "All trees.", "anchors": ["src/timetype.rs: end_of_year, end_of_month, end_of_day, end_of_hour, end_of_minute"]}
{"id": "C15", "title": "successful results are real dates", "statement": "If every moment in an expression is a valid calendar date-time in chrono's range, then a moment returned by `calculate` is a valid calendar date-time in that range.", "quantifier": "every expression with valid moments", "why_tests_cant": "All trees and integers, including casts that truncate.", "anchors": ["src/timetype.rs: add_to_moment, sub_from_moment, end_of_year, end_of_month, end_of_day, end_of_hour, end_of_minute"]}
{"id": "C16", "title": "adding seconds, minutes, hours or days is exact", "statement": "For a non-negative amount n of seconds, minutes, hours or days, `m + n` is the date-time exactly that many units later on the Gregorian timeline (to whole seconds).", "quantifier": "every moment m and every non-negative n", "why_tests_cant": "All dates, crossing any number of months and years.", "anchors": ["src/timetype.rs: add_to_moment", "src/util.rs: adjust_times_add"]}
{"id": "C17", "title": "adding months", "statement": "`m + months(n)`, n >= 0, is n calendar months later on the same day of month and time of day; when the day of month is at most 28 this always holds (or the result is reported out of range).", "quantifier": "every moment and every n >= 0", "why_tests_cant": "All dates and all n.", "anchors": ["src/timetype.rs: add_to_moment Months arm", "src/util.rs: adjust_times_add"]}
{"id": "C18", "title": "adding years", "statement": "`m + years(n)` is the same month, day and time n years later, for n of either sign; 29 February rolls over to 1 March in a common year; years outside chrono's range are reported as an error.", "quantifier": "every moment and every n", "why_tests_cant": "All dates and all n.", "anchors": ["src/timetype.rs: add_to_moment Years arm", "src/util.rs: adjust_times_add"]}
{"id": "C19", "title": "adding or subtracting zero", "statement": "`m + 0` and `m - 0` (in any unit) are m, except that any sub-second part is dropped.", "quantifier": "every valid moment, six units", "why_tests_cant": "All moments.", "anchors": ["src/timetype.rs: add_to_moment, sub_from_moment"]}
{"id": "C20", "title": "adding a positive amount moves forward", "statement": "`m + a` for a positive amount a of any unit, when it succeeds, is a strictly later moment.", "quantifier": "every moment with whole seconds and every positive amount", "why_tests_cant": "All dates, all amounts.", "anchors": ["src/timetype.rs: add_to_moment", "src/util.rs: adjust_times_add"]}
{"id": "C21", "title": "subtracting seconds, minutes, hours, days is exact", "statement": "For a non-negative n, `m - n` units is the date-time exactly n units earlier on the Gregorian timeline.", "quantifier": "every moment m and every non-negative n", "why_tests_cant": "All dates and all n.", "anchors": ["src/timetype.rs: sub_from_moment", "src/util.rs: adjust_times_sub"]}
{"id": "C22", "title": "subtracting months", "statement": "`m - months(n)`, n >= 0, is n calendar months earlier on the same day of month, or an out-of-bounds error (if that day does not exist there, or the distance is too large); it is never a different date.", "quantifier": "every moment and every n >= 0", "why_tests_cant": "All dates and all n.", "anchors": ["src/timetype.rs: sub_from_moment Months arm", "src/util.rs: adjust_times_sub"]}
{"id": "C23", "title": "subtracting years", "statement": "`m - years(n)` is the same month, day and time n years earlier (n of either sign), or an out-of-bounds error exactly when that date does not exist or is out of chrono's range.", "quantifier": "every moment and every n", "why_tests_cant": "All dates and all n.", "anchors": ["src/timetype.rs: sub_from_moment Years arm", "src/util.rs: adjust_times_sub"]}
{"id": "C24", "title": "add then subtract returns to the start", "statement": "`(m + a) - a` is m again.", "quantifier": "every moment with whole seconds, every non-negative amount", "why_tests_cant": "All dates and amounts.", "anchors": ["src/timetype.rs: add_to_moment, sub_from_moment"]}
{"id": "C25", "title": "grouping does not matter for added amounts", "statement": "`(m + a) + b` and `m + (a + b)` give the same moment.", "quantifier": "every moment, all non-negative amounts a, b", "why_tests_cant": "All dates and amounts.", "anchors": ["src/timetype.rs: add, add_to_moment"]}
{"id": "C26", "title": "debug and release builds agree", "statement": "Whenever the overflow-checked (debug) build does not panic on an expression, the wrapping (release) build returns exactly the same value or error. The same holds for the accessors, the iterator constructors, the items of iterators under any pile of adaptors, `parse` and the command line program.", "quantifier": "every expression, value, iterator, text and command line", "why_tests_cant": "All trees and integers.", "anchors": ["src/timetype.rs: all arithmetic", "src/util.rs: adjust_times_add, adjust_times_sub"]}
{"id": "C27", "title": "out-of-range years are reported", "statement": "If adding or subtracting years leads outside the range of representable years, the result is an error, never a wrong date.", "quantifier": "every moment and amount", "why_tests_cant": "All i64 amounts; the code truncates i64 to i32.", "anchors": ["src/timetype.rs: add_to_moment, sub_from_moment (as i32 casts)"]}
{"id": "C28", "title": "out-of-bounds error carries the offending date", "statement": "The `OutOfBounds(y, mo, d, h, mi, s)` error from moment arithmetic reports the year, month, day, hour, minute and second that were computed.", "quantifier": "every moment and amount whose result is out of bounds", "why_tests_cant": "All inputs that fail.", "anchors": ["src/timetype.rs: add_to_moment, sub_from_moment ok_or(KEK::OutOfBounds(..))", "src/error.rs: OutOfBounds"]}
{"id": "C29", "title": "get_* conversions", "statement": "For an amount, get_seconds/minutes/hours/days/months/years is its size in seconds (60/60/24/30/12) divided by the size of the requested unit, truncated toward zero; converting to a coarser or equal unit can never overflow.", "quantifier": "every amount of every unit, all i64, six accessors", "why_tests_cant": "All integers, both signs; chains of truncating divisions.", "anchors": ["src/timetype.rs: get_seconds .. get_years"]}
{"id": "C30", "title": "classification of values", "statement": "Exactly one of is_a_amount / is_moment / is_addition / is_subtraction / (an end-of marker) holds for each value; get_moment is Some exactly for moments and returns that moment; get_* are 0 on non-amounts; name() tells the fourteen kinds apart and is for each the word its debug text begins with (for an amount its unit).", "quantifier": "every TimeType value", "why_tests_cant": "All trees.", "anchors": ["src/timetype.rs: is_a_amount, is_moment, is_addition, is_subtraction, get_seconds, get_minutes, get_hours, get_days, get_months, get_years, get_moment, name"]}
{"id": "C31", "title": "is_a and is_in", "statement": "For a moment exactly one weekday satisfies is_a, the one of the Gregorian calendar (1 January 2001 was a Monday), and exactly one month satisfies is_in; weekdays follow Monday..Sunday cyclically from each day to the next; on anything else both return an error.", "quantifier": "every moment and every non-moment value", "why_tests_cant": "All dates.", "anchors": ["src/timetype.rs: is_a, is_in", "src/indicator.rs: Day, Month"]}
{"id": "C32", "title": "matchers agree with is_a / is_in", "statement": "`Day::matches` and `Month::matches` return the same answer as is_a / is_in on moments and an error otherwise; the filter versions return the same answer on moments and false otherwise.", "quantifier": "every value, weekday and month", "why_tests_cant": "All trees.", "anchors": ["src/matcher.rs: Matcher for Day, Month, F", "src/indicator.rs: DayFilter, MonthFilter"]}
{"id": "C33", "title": "iterator construction", "statement": "`Iter::build` and `every` accept exactly plain amounts as increment and a plain moment as base, otherwise return an error; minutely/hourly/daily/weekly/monthly/yearly(n) equal every(n minutes/../7n days/..); the first item is always the base itself.", "quantifier": "every value used as base and as increment, all n", "why_tests_cant": "All trees and integers.", "anchors": ["src/iter.rs: Iter::build, extensions::*, Iterator for Iter"]}
{"id": "C34", "title": "k-th item of a sub-monthly iterator", "statement": "With an increment of n >= 0 seconds, minutes, hours or days of at most 30 days in total, the k-th item is exactly k increments after the base on the Gregorian timeline, for every k until the first error; errors occur only past chrono's last year.", "quantifier": "every base, every such increment, every k", "why_tests_cant": "Unbounded k, all bases.", "anchors": ["src/iter.rs: Iterator for Iter, skip", "src/util.rs: adjust_times_add"]}
{"id": "C35", "title": "k-th item of a monthly or yearly iterator", "statement": "With base day-of-month <= 28 and increment n >= 0 months (or years), the k-th item is exactly k*n months (years) after the base with day and time unchanged, for every k until the first error.", "quantifier": "every such base, every n up to two billion years, every k (far beyond, years are counted modulo 2^32, see C20)", "why_tests_cant": "Unbounded k.", "anchors": ["src/iter.rs: Iterator for Iter", "src/util.rs: adjust_times_add"]}
{"id": "C36", "title": "iterators move strictly forward", "statement": "With a positive increment, items of an iterator are strictly increasing in time.", "quantifier": "every base, positive increment, any two positions", "why_tests_cant": "Unbounded histories.", "anchors": ["src/iter.rs: Iterator for Iter"]}
{"id": "C37", "title": "errors latch", "statement": "Once next, skip or rollback of an iterator has returned an error, every later next, skip or rollback returns that same error.", "quantifier": "every iterator state reachable by any sequence of operations", "why_tests_cant": "All operation histories.", "anchors": ["src/iter.rs: skip, rollback, recalculate"]}
{"id": "C38", "title": "skip drops one item", "statement": "Calling skip n times, each time with success, and then next gives the item that the (n+1)-th next would have given, on a fresh iterator; on a started iterator, skip then next equals next then next (keeping the last).", "quantifier": "every iterator, every n", "why_tests_cant": "Unbounded n, all histories.", "anchors": ["src/iter.rs: skip, next"]}
{"id": "C39", "title": "rollback replays the last item", "statement": "After next returned an item, rollback followed by next returns the same item again.", "quantifier": "every iterator state after a successful next", "why_tests_cant": "All bases, increments and histories.", "anchors": ["src/iter.rs: rollback, next"]}
{"id": "C40", "title": "times(n)", "statement": "`times(n)` passes on exactly the first n items of the underlying iterator and then ends, staying ended.", "quantifier": "every iterator, every n", "why_tests_cant": "All iterators, all n, any number of calls.", "anchors": ["src/iter.rs: TimesIter"]}
{"id": "C41", "title": "until(end)", "statement": "`until(end)` passes on items unchanged as long as they are strictly before `end`, and ends at the first item at or after it; every moment it yields is before `end`; errors are passed on, and an item that is an amount becomes an error that names its unit.", "quantifier": "every underlying iterator, every end", "why_tests_cant": "All iterators and histories.", "anchors": ["src/iter.rs: UntilIter"]}
{"id": "C42", "title": "until on a forward iterator ends", "statement": "With a positive increment, `until(end)` yields only finitely many items: after finitely many calls it returns None or an error.", "quantifier": "every base, positive increment, end", "why_tests_cant": "Liveness; unbounded number of steps.", "anchors": ["src/iter.rs: UntilIter, Iter"]}
{"id": "C43", "title": "every/without filters", "statement": "`every(m)` yields exactly the matching items and `without(m)` exactly the non-matching items of the underlying iterator, in order, with errors passed on; `every(m).without(m)` never yields an item.", "quantifier": "every underlying iterator, every matcher, any number of calls", "why_tests_cant": "All iterators and matchers.", "anchors": ["src/iter.rs: FilterIter, WithoutIter"]}
{"id": "C44", "title": "filters on a forward iterator always answer", "statement": "With a positive increment, next on `every(m)`/`without(m)` over an iterator always returns (an item, or an error at the end of chrono's range); it never loops forever.", "quantifier": "every base, positive increment, matcher", "why_tests_cant": "Liveness.", "anchors": ["src/iter.rs: FilterIter::next loop"]}
{"id": "C45", "title": "parsed iterators behave like built ones", "statement": "A parsed iterator yields exactly what the plain iterator / times / until adaptor it was built from yields.", "quantifier": "every parsed iterator, any number of calls", "why_tests_cant": "All histories.", "anchors": ["src/parser/iterator.rs: UserIterator"]}
{"id": "C46", "title": "amount expressions round-trip", "statement": "Writing an amount expression as text in the documented grammar, with any unit spelling, any blanks where allowed, and parsing it gives back that expression.", "quantifier": "every amount expression of any length, all spellings, all numbers < 2^63 (weeks: the number of days < 2^63), all blank choices", "why_tests_cant": "Unbounded length and numbers.", "anchors": ["src/parser/timetype.rs: integer, unit_parser, amount_parser, amount_expr"]}
{"id": "C47", "title": "unit spellings", "statement": "Every documented unit spelling, in any position where it is not followed by a letter, is recognised as the documented unit and consumed entirely.", "quantifier": "every spelling, every following text", "why_tests_cant": "All continuations.", "anchors": ["doc/language.md", "src/parser/timetype.rs: unit_parser"]}
{"id": "C48", "title": "aliases", "statement": "secondly..yearly denote one of the unit, both as an amount and as an iterator step.", "quantifier": "every alias, every following text", "why_tests_cant": "All continuations.", "anchors": ["src/parser/timetype.rs: unit_alias, amount_parser", "src/parser/iterator.rs: iter_spec"]}
{"id": "C49", "title": "amount expressions read left to right", "statement": "The value of `a - b + c` in text is (a - b) + c.", "quantifier": "every amount expression", "why_tests_cant": "All lengths.", "anchors": ["src/parser/timetype.rs: amount_expr, AmountExpr::into_timetype"]}
{"id": "C50", "title": "parsed amount text evaluates to its grammar value", "statement": "Parsing the text of an amount expression and calculating it yields an amount whose get_seconds is the value given by the documented (right-nested) grammar.", "quantifier": "every amount expression whose numbers are small enough not to overflow", "why_tests_cant": "Unbounded length.", "anchors": ["src/parser/mod.rs: parse", "src/parser/timetype.rs: AmountExpr::into_timetype", "src/timetype.rs: calculate"]}
{"id": "C51", "title": "numbers are never silently truncated", "statement": "A number literal in text is read as exactly its decimal value, leading zeros included, and is rejected if it does not fit in 64-bit signed; it is never wrapped.", "quantifier": "every digit string of any length", "why_tests_cant": "Unbounded length.", "anchors": ["src/parser/timetype.rs: integer"]}
{"id": "C52", "title": "parse never panics", "statement": "`parser::parse` returns Ok or Err on every input string (the repository's fuzz target states this).", "quantifier": "every string", "why_tests_cant": "All strings.", "anchors": ["src/parser/mod.rs: parse", "fuzz/fuzz_targets/parse.rs", "src/parser/timetype.rs: into_timetype", "src/parser/iterator.rs: into_user_iterator"]}
{"id": "C53", "title": "parse consumes its whole input", "statement": "Text with trailing garbage is rejected.", "quantifier": "every valid text and every suffix", "why_tests_cant": "All strings.", "anchors": ["src/parser/mod.rs: parse (rest is ignored)"]}
{"id": "C54", "title": "iterator text", "statement": "`<date> <step> [until <date> | <n> times]` is parsed as the iterator starting at that date with that step and that bound.", "quantifier": "every step, every n, all blank choices", "why_tests_cant": "All numbers and spellings.", "anchors": ["src/parser/iterator.rs: iter_spec, until_spec, iterator, into_user_iterator"]}
{"id": "C55", "title": "parse always answers with a definite result", "statement": "`parse` returns for every input, and never returns the UnknownParserError (incomplete input) error.", "quantifier": "every string", "why_tests_cant": "All strings.", "anchors": ["src/parser/mod.rs: parse, do_parse"]}
{"id": "C56", "title": "today, yesterday, tomorrow", "statement": "`today`, `yesterday` and `tomorrow` denote the current moment and that moment minus / plus one day, followed by anything.", "quantifier": "every clock reading, every following text", "why_tests_cant": "All clock values.", "anchors": ["src/parser/timetype.rs: exact_date_parser, ExactDate::into_timetype"]}
{"id": "C57", "title": "ISO dates", "statement": "A calendar date (YMD) denotes midnight of that date and a date-time that time of day; impossible dates or times are OutOfBounds errors, never panics; an ordinal date YYYY-DDD denotes the DDD-th day of the year and a week date the ISO week day.", "quantifier": "every decoded ISO 8601 value", "why_tests_cant": "All dates.", "anchors": ["src/parser/timetype.rs: ExactDate::into_timetype"]}
{"id": "C58", "title": "ordering of values", "statement": "The derived ordering of TimeType is a total order, and restricted to moments it is chronological. Values of different forms compare as the forms are declared (seconds, minutes, hours, days, months, years, moments, sums, differences, then the markers from year to minute), two amounts of one unit as their numbers, two expressions of the same form as their parts, left one first.", "quantifier": "all values", "why_tests_cant": "All trees.", "anchors": ["src/timetype.rs: derive(PartialOrd, Ord) on TimeType"]}
{"id": "C59", "title": "leap years and month lengths", "statement": "The month length used by the library equals the Gregorian month length for every year that fits chrono's range and every month 1..12.", "quantifier": "every year and month", "why_tests_cant": "All years, negative included.", "anchors": ["src/util.rs: is_leap_year, get_num_of_days_in_month"]}
{"id": "C60", "title": "negative amounts are exact or rejected", "statement": "Adding a negative, or subtracting a negative, number of seconds, minutes, hours or days either gives exactly the right date-time or an OutOfBounds error, never a wrong date-time.", "quantifier": "every moment, every negative amount", "why_tests_cant": "All dates and amounts.", "anchors": ["src/util.rs: adjust_times_add, adjust_times_sub"]}
{"id": "C61", "title": "optimised builds never panic when calculating", "statement": "In a build without overflow checks, `calculate` returns a value or an error for every expression; it never panics. Neither do the accessors, the items of iterators, or the command line program.", "quantifier": "every expression, value, iterator and command line", "why_tests_cant": "All trees, all 64-bit amounts, all dates.", "anchors": ["src/timetype.rs: calculate, add_to_seconds, add_to_minutes, add_to_hours, add_to_days, add_to_months, add_to_years, add_to_moment, sub_from_seconds, sub_from_minutes, sub_from_hours, sub_from_days, sub_from_months, sub_from_years, sub_from_moment", "src/util.rs: adjust_times_add, adjust_times_sub"]}
{"id": "C62", "title": "the amount parser accepts only the documented grammar", "statement": "Whatever amount expression the parser returns is written, in the documented grammar, at the start of the input, and what it leaves over is the rest of the input.", "quantifier": "every input string", "why_tests_cant": "All strings.", "anchors": ["doc/language.md", "src/parser/timetype.rs: amount_expr"]}
{"id": "C63", "title": "the checked build does not panic on expressions of reasonable size", "statement": "With overflow checks on, `calculate` never panics on an expression whose moments are valid and whose amounts add up to at most 4*10^18 seconds (about 1.2*10^11 years).", "quantifier": "every expression of any shape and depth, any units and signs, within that total; every profile", "why_tests_cant": "All trees and amounts.", "anchors": ["src/timetype.rs: calculate, add_to_seconds, add_to_minutes, add_to_hours, add_to_days, add_to_months, add_to_years, add_to_moment, sub_from_seconds, sub_from_minutes, sub_from_hours, sub_from_days, sub_from_months, sub_from_years, sub_from_moment", "src/util.rs: adjust_times_add, adjust_times_sub"]}
{"id": "C64", "title": "date expression text", "statement": "`<date> [(+|-) <amount expression>]` is parsed as that date plus or minus that amount expression, and calculates like the date plus or minus the seconds the amount expression denotes.", "quantifier": "every date text, every amount expression of any length, all blank choices; for the value, amounts of less than 2^63 seconds in total", "why_tests_cant": "Unbounded length and numbers.", "anchors": ["src/parser/mod.rs: parse", "src/parser/timetype.rs: date, timetype, Date::into_timetype"]}
{"id": "C65", "title": "parse accepts nothing outside the grammar", "statement": "If `parse` returns Ok, then a part of the text from its start on is written in the documented grammar: an amount expression, a date expression, or an iterator, and the returned value is the meaning of that part (same date, offset, step and bound).", "quantifier": "every string, every clock reading, every ISO 8601 implementation whose parsers return a suffix of their input and correctly typed numbers", "why_tests_cant": "All strings; a test can only show that some strings are rejected.", "anchors": ["src/parser/mod.rs: parse", "src/parser/iterator.rs: iterator, iter_spec, until_spec", "src/parser/timetype.rs: date, exact_date_parser, amount_expr"]}
{"id": "C66", "title": "daily and weekly iterators keep the weekday arithmetic", "statement": "The item at position k of `daily(n)` (n up to 30) is k*n days after the base, at the same time of day and on the weekday that many days on; `weekly(n)` (n up to 4) stays on the weekday it starts on.", "quantifier": "every base, every such n, every k", "why_tests_cant": "Unbounded number of steps, across leap days and year ends.", "anchors": ["src/iter.rs: extensions::Iterator::daily, weekly, Iter::next", "src/indicator.rs: Day"]}
{"id": "C67", "title": "daily().every(weekday)", "statement": "`daily(1).every(day)` yields, one after the other, exactly the days with that weekday from the base on, the base included, each at the time of day of the base; past chrono's last year it yields OutOfBounds errors. No call looks at more than seven days. With n days per step (up to 30, not whole weeks) every seventh item from the first match on is given, and `without(day)` leaves out just these; with whole weeks per step every item or none matches, and if none does each call returns the OutOfBounds error.", "quantifier": "every base, weekday, number of days per step (0 to 30) and position", "why_tests_cant": "Unbounded number of items.", "anchors": ["src/iter.rs: FilterIter, Every", "src/matcher.rs: Matcher for Day", "src/indicator.rs: Day"]}
{"id": "C68", "title": "monthly().every(month)", "statement": "`monthly(1).every(month)` from a base on a day up to the 28th yields, one after the other, the same day and time in that month of each year from the first such month on; past chrono's last year it yields OutOfBounds errors. No call looks at more than twelve months. With n months per step it is every p-th item from the first match on, p = 12/gcd(n,12), and `without(month)` leaves out just these; if the month is never met, each call of `every` returns the OutOfBounds error and `without` leaves out nothing.", "quantifier": "every such base, month, number of months per step (1 to 24 thousand million) and position", "why_tests_cant": "Unbounded number of items.", "anchors": ["src/iter.rs: FilterIter, Every", "src/matcher.rs: Matcher for Month", "src/indicator.rs: Month"]}
{"id": "C69", "title": "after the end of a period comes the next period", "statement": "The day after end_of_year and end_of_month is the first day of the next year and month; the second after the end of the last day of the year or month, and after end_of_day, end_of_hour and end_of_minute, is the first second of the next year, month, day, hour and minute.", "quantifier": "every expression that evaluates to a moment, as long as the next period is within chrono's range", "why_tests_cant": "All dates, leap years and year ends.", "anchors": ["src/timetype.rs: end_of_year, end_of_month, end_of_day, end_of_hour, end_of_minute, calculate", "src/util.rs: get_num_of_days_in_month"]}
{"id": "C70", "title": "adaptors on adaptors", "statement": "`times(b).times(a)` stops after the smaller count; `until(a).until(b)` passes exactly what is before both dates, in either order; `every(f).every(g)` yields exactly the items passing both filters, in either order; `every(f)` and `without(f)` together yield each item exactly once.", "quantifier": "every iterator, counts, dates, filters and numbers of calls", "why_tests_cant": "All stackings and histories.", "anchors": ["src/iter.rs: TimesIter, UntilIter, FilterIter, WithoutIter", "src/matcher.rs: Matcher for F: Filter"]}
{"id": "C71", "title": "filters on a bounded iterator end", "statement": "On an iterator bounded by `times(n)`, each call on `every(m)`/`without(m)` looks at no more than n+1 items, even if none matches, and from the n-th call on the answer is None.", "quantifier": "every iterator, matcher, n and number of calls", "why_tests_cant": "Liveness for every n.", "anchors": ["src/iter.rs: TimesIter, FilterIter, WithoutIter"]}
{"id": "C72", "title": "what a text means does not depend on the clock unless it says so", "statement": "A text without the words today, yesterday and tomorrow is parsed to the same result whenever it is parsed; the clock is read a second time only for a text with the word until; whether the parser rejects a text never depends on the clock.", "quantifier": "every string, every pair of clock readings", "why_tests_cant": "All strings and all times of day; a test runs at one time.", "anchors": ["src/parser/mod.rs: parse", "src/parser/timetype.rs: ExactDate::into_timetype", "src/parser/iterator.rs: into_user_iterator"]}
{"id": "C73", "title": "iterator text yields the documented dates", "statement": "Parsing `<date> every <n> <unit>` with nothing, `<N> times` or `until <date>` behind it, and running the iterator, gives at position k the date k steps after the first one, for exactly N positions, or exactly as long as it is before the until date.", "quantifier": "every date text; every step up to 30 days, or of months from a day up to the 28th, or of years from any day but 29 February, months and years up to two billion years; every bound, all blank choices and every position", "why_tests_cant": "Unbounded number of items and texts.", "anchors": ["src/parser/mod.rs: parse", "src/parser/iterator.rs: iterator, into_user_iterator", "src/parser/iterator.rs: UserIterator", "src/iter.rs: Iter, TimesIter, UntilIter"]}
{"id": "C74", "title": "the command line program prints what was asked for", "statement": "The program prints the items of a parsed iterator in order, one line each, up to the first end or error; it can print every value it computes; `<date> every <n> <unit> <N> times` prints exactly those N dates and finishes, and `<date> every <n> <unit> until <date>` exactly the dates before the second one; with a step of at least a second, an unbounded iterator ends with an out-of-bounds error and status 1, and a bounded one ends.", "quantifier": "every argument list, clock reading and number of items; the exact dates for steps up to 30 days, months from days up to the 28th and years from any day but 29 February; ending for every step up to 4.29 billion years", "why_tests_cant": "Unbounded output, liveness.", "anchors": ["examples/main.rs: main, pretty_print", "src/parser/mod.rs: parse", "src/parser/iterator.rs: UserIterator"]}
{"id": "C75", "title": "arguments of the command line program", "statement": "It makes no difference whether the shell splits the text at a blank into several arguments, and the text handed to the parser is the arguments with blanks between them, without the white space at its ends (what Unicode counts as white space) and with nothing else missing.", "quantifier": "every list of arguments", "why_tests_cant": "All strings.", "anchors": ["examples/main.rs: main"]}
{"id": "C76", "title": "whether an expression can be calculated can be told from its shape", "statement": "An expression has the kind of an amount or of a moment, or none, told from its shape alone (amounts on the right; no end-of marker as an operand; no + directly on a difference that is a moment). With a kind, `calculate` gives a value of that kind, or OutOfBounds (moments only), or overflows; without a kind it never gives a value. `calculate` returns no errors but CannotAdd, CannotSub, CannotCalculateEndOfYearOn, CannotCalculateEndOfMonthOn and OutOfBounds.", "quantifier": "every expression of any shape and depth, both build profiles", "why_tests_cant": "All trees: the evaluator has 40 match arms that interact.", "anchors": ["src/timetype.rs: calculate, add, sub, add_to_seconds, add_to_minutes, add_to_hours, add_to_days, add_to_months, add_to_years, add_to_moment, sub_from_seconds, sub_from_minutes, sub_from_hours, sub_from_days, sub_from_months, sub_from_years, sub_from_moment, end_of_year, end_of_month, end_of_day, end_of_hour, end_of_minute"]}
{"id": "C77", "title": "values of operands combine", "statement": "The value of a sum or difference that has a kind is the sum or difference of the values of its operands; if an operand has no value the whole has none; amounts can be added in any order and grouping.", "quantifier": "every pair of expressions", "why_tests_cant": "All trees.", "anchors": ["src/timetype.rs: add, sub, do_calculate"]}
{"id": "C78", "title": "what parse returns can be calculated", "statement": "An expression returned by `parse` evaluates to an amount or a moment, or is out of bounds; a parsed iterator can be built or a date is out of bounds. No other error can follow from an accepted text.", "quantifier": "every string, clock reading and ISO 8601 implementation", "why_tests_cant": "All strings.", "anchors": ["src/parser/mod.rs: parse", "src/parser/timetype.rs: ExactDate::into_timetype, Date::into_timetype", "src/parser/iterator.rs: into_user_iterator", "src/timetype.rs: add"]}
{"id": "C79", "title": "monthly(1) has one item in each month", "statement": "A monthly iterator has exactly one item in each month from the base on, on the day of the base.", "quantifier": "every base, every position", "why_tests_cant": "All dates, unbounded sequences.", "anchors": ["src/iter.rs: monthly, Iter::next", "src/util.rs: adjust_times_add"]}
{"id": "C80", "title": "yearly from 29 February", "statement": "A yearly iterator from 29 February has one item in each n-th year: on 29 February if that is a leap year and on 1 March otherwise.", "quantifier": "every 29 February, every number of years either way, every position", "why_tests_cant": "All leap years, unbounded sequences.", "anchors": ["src/iter.rs: yearly, Iter::next", "src/util.rs: adjust_times_add"]}
{"id": "C81", "title": "a larger amount leads further", "statement": "Of two amounts of the same unit, adding the larger one leads to the later moment and subtracting the larger one to the earlier moment, whenever both succeed.", "quantifier": "every moment, every unit, every pair of amounts", "why_tests_cant": "All dates and amounts.", "anchors": ["src/timetype.rs: add_to_moment, sub_from_moment", "src/util.rs: adjust_times_add, adjust_times_sub"]}
{"id": "C82", "title": "adding the same amount keeps the order", "statement": "If one moment is before another, it still is after the same amount has been added to both.", "quantifier": "every pair of moments, every amount", "why_tests_cant": "All pairs of dates.", "anchors": ["src/timetype.rs: add_to_moment", "src/util.rs: adjust_times_add"]}
{"id": "C83", "title": "amounts of the same length have the same effect", "statement": "Adding or subtracting 60 seconds or one minute, 60 minutes or one hour, 24 hours or one day, 12 months or one year, and multiples of these, has the same outcome; `weeks(n)` is 7n days.", "quantifier": "every moment, every amount", "why_tests_cant": "All moments and multiples; both routines.", "anchors": ["src/timetype.rs: add_to_moment, sub_from_moment, weeks", "src/util.rs: adjust_times_add, adjust_times_sub"]}
{"id": "C84", "title": "how many items an iterator with an end date has", "statement": "An iterator with a fixed step and an end date has as many items as steps are needed to get from the start to the end (the distance divided by the step, rounded up; none if the end is not after the start), and then ends.", "quantifier": "every start and end on whole seconds, every positive step up to 30 days, every number of months from days up to the 28th and every number of years from days other than 29 February, both up to two billion years", "why_tests_cant": "All pairs of dates and steps; unbounded sequences.", "anchors": ["src/iter.rs: until, UntilIter::next, Iter::next", "src/timetype.rs: add_to_moment"]}
{"id": "C85", "title": "iterators that go backwards", "statement": "An iterator whose increment is a negative amount gives the dates before the base at exactly that spacing, until the dates leave the calendar.", "quantifier": "every base, every negative number of seconds, minutes, hours, days, months or years, every number of items", "why_tests_cant": "All bases, all increments and unbounded sequences; tests only iterate forwards.", "anchors": ["src/iter.rs: Iter::build, Iter::next", "src/timetype.rs: add_to_moment"]}
{"id": "C86", "title": "errors name what was wrong", "statement": "An error of `calculate` names the operation that failed and its operands in their order: CannotAdd and CannotSub name a right operand that can never be used like that, the end-of errors name the end-of operation and the amount it was applied to. For an expression of a kind that can be calculated the only error is OutOfBounds.", "quantifier": "every expression with valid moments, every iterator", "why_tests_cant": "All trees: which of the 40 match arms produces the error depends on the nesting.", "anchors": ["src/error.rs: ErrorKind", "src/timetype.rs: add, sub, add_to_seconds, add_to_minutes, add_to_hours, add_to_days, add_to_months, add_to_years, add_to_moment, sub_from_seconds, sub_from_minutes, sub_from_hours, sub_from_days, sub_from_months, sub_from_years, sub_from_moment, end_of_year, end_of_month, end_of_day, end_of_hour, end_of_minute"]}
{"id": "C87", "title": "printed results can be told apart", "statement": "Different values are printed differently by the program, to the nanosecond: an amount as its number and unit, a moment as year, month, day, hour, minute and second in this order with leading zeros. (Moments with a leap second that is not the last second of a minute are excluded: they print like the second after.) The debug text of expressions tells them apart as well; it is the word for the form and in parentheses the texts of the parts, left one first.", "quantifier": "every amount, every moment, every expression", "why_tests_cant": "All values: a test compares a few texts.", "anchors": ["examples/main.rs: pretty_print", "src/timetype.rs: derive(Debug) of TimeType"]}
{"id": "C88", "title": "error texts can be told apart", "statement": "Two errors with the same text are of the same kind and name the same operands and numbers; so the text of a failed `calculate` tells which error it was. Which text each error has, displayed and as debug text, is given as well.", "quantifier": "every pair of errors of the library, every pair of expressions that fail", "why_tests_cant": "All errors with all operands.", "anchors": ["src/error.rs: ErrorKind"]}
{"id": "C89", "title": "What the command-line program prints can be typed in again", "statement": "The line the command-line program prints for a result, given to parse as input, is read as that result: amounts as the same amount, moments as the same moment.", "quantifier": "every amount of every unit with any 64-bit number, every valid moment, every build profile, both readings of the clock, and every behaviour of the ISO 8601 parsers that reads a date up to the blank", "why_tests_cant": "Printed lines and accepted texts are defined in different crates (the example program, chrono's Display, the nom grammar); tests feed neither into the other. There are 2^64 amounts and far more moments.", "anchors": ["examples/main.rs: pretty_print", "src/parser/mod.rs: parse", "src/parser/timetype.rs: amount_parser, unit_parser, exact_date_parser"]}
{"id": "C90", "title": "Which texts are rejected", "statement": "`parse` rejects a text as no expression exactly if it begins neither with an amount (a number and a unit, or a word like daily) nor with a date (a keyword or an ISO 8601 date); whatever stands behind that first amount or date, the text is accepted. Blanks before a number or before an iterator do not matter; a date standing alone, or a word like daily, is rejected behind blanks.", "quantifier": "every text, with any blanks at its start; every current time and every behaviour of the ISO 8601 parser that is a parser of prefixes", "why_tests_cant": "Tests try a few accepted and a few rejected texts; that nothing behind the first amount or date can make a text be rejected, and that nothing else is accepted, is a statement about all texts.", "anchors": ["src/parser/mod.rs: parse", "src/parser/timetype.rs:timetype", "src/parser/iterator.rs:iterator"]}
{"id": "C91", "title": "Calculating needs little room", "statement": "Calculating an expression nests calls only to a fixed depth, and an iterator that has failed answers further calls with the same error without its state growing; the loops over months and years turn as often as the number of days and months asks for.", "quantifier": "every expression, every iterator that has failed once, every number of further calls, every year, month and day number", "why_tests_cant": "Tests use expressions of a few operators and never call a failed iterator thousands of times.", "anchors": ["src/timetype.rs:TimeType::calculate", "src/timetype.rs:add", "src/timetype.rs:sub", "src/iter.rs:Iter::next", "src/util.rs:adjust_times_add"]}
{"id": "C92", "title": "When arithmetic on moments overflows", "statement": "Adding an amount to a moment, or subtracting it, panics in a checked build exactly if the number of units does not fit into 64 bits when added to (subtracted from) the component of the moment that belongs to the unit - for months also if it is the largest number there is and the day is the 31st. No other step of the calculation can overflow. In a build without checks such an addition of seconds, minutes or hours is an error, but one of days or months can silently give an earlier day of the same month, or an earlier month of the same year; and such a subtraction is an error, but for days it can give the 31st of the month before.", "quantifier": "every valid moment, every unit, every 64-bit number, both build profiles; every sum and difference of expressions that stand for a moment and an amount", "why_tests_cant": "The overflowing numbers are the last few of 2^64; tests on them would have to know where the internal sums overflow.", "anchors": ["src/timetype.rs:add_to_moment", "src/timetype.rs:sub_from_moment", "src/util.rs:adjust_times_add", "src/util.rs:adjust_times_sub"]}
{"id": "C93", "title": "When calculations with amounts overflow", "statement": "A calculation with amounts only panics in a checked build exactly if at some addition or subtraction in it the value of one of its two sides, or of the result, expressed in the finest unit occurring there, does not fit into 64 bits. Otherwise the result is the exact number of finest units. Added to or subtracted from a moment such a calculation panics exactly if it panics itself, or if its result overflows the component of the moment that belongs to its finest unit.", "quantifier": "every expression built from amounts by adding and subtracting, with any grouping; every valid moment; the checked build", "why_tests_cant": "The bound is on intermediate values that depend on the grouping and on which units are mixed.", "anchors": ["src/timetype.rs:add_to_seconds", "src/timetype.rs:sub_from_seconds", "src/timetype.rs:add_to_years", "src/timetype.rs:add_to_moment", "src/timetype.rs:sub_from_moment"]}
{"id": "C94", "title": "Order of weekdays and months", "statement": "Weekdays and months are totally ordered, compatibly with equality. Within a week beginning on Monday the order of the weekdays of two moments is the order of their days, and within a year the order of their months is chronological.", "quantifier": "every two weekdays or months; every week and every two of its days; every two moments of one year", "why_tests_cant": "Tests compare a few pairs; the claim ties the order of the enumerations to the calendar for all weeks and years.", "anchors": ["src/indicator.rs:Day", "src/indicator.rs:Month", "src/timetype.rs:is_a", "src/timetype.rs:is_in"]}
{"id": "C95", "title": "adding negative months and years", "statement": "Adding a negative number of months (or years) to a moment gives the same day and time that many months (years) earlier, or an OutOfBounds error; never another date.", "quantifier": "every moment, every negative 64-bit number of months or years", "why_tests_cant": "All dates and all numbers; the unit tests add only positive amounts.", "anchors": ["src/timetype.rs: add_to_moment, Months and Years arms", "src/util.rs: adjust_times_add, get_num_of_days_in_month"]}
{"id": "C96", "title": "unreadable parts of a text are noticed", "statement": "If something behind the date of a text - its offset, its step, its bound, or what stands behind the bound - cannot be read, the text is rejected; it is never read as if that part were not there (a misspelt `until` must not give an iterator without end).", "quantifier": "every date expression, step, bound and rest of the text; every current time and every behaviour of the ISO 8601 parser", "why_tests_cant": "The rest of the text is arbitrary: tests can only try a few misspellings.", "anchors": ["src/parser/iterator.rs: iterator, iter_spec, until_spec", "src/parser/timetype.rs: date, timetype", "src/parser/mod.rs: parse, do_parse"]}
{"id": "C97", "title": "the README's examples do what they say", "statement": "`(today - weeks(1) + days(2)).end_of_month()` and `(today - days(5)).end_of_month()` both give the end of the month of the day five days ago (and likewise for any other number of days).", "quantifier": "every valid moment as today, every number of days from 0 to 27 more than the day of the month, any supported year range, both build profiles", "why_tests_cant": "The result depends on today's date: a test runs on one day, or on a few chosen ones.", "anchors": ["README.md: example of use", "src/timetype.rs: TimeType::calculate, add, sub, weeks, days, end_of_month"]}
{"id": "C98", "title": "iterators can be written as the language document says", "statement": "A date, with or without an offset, followed by an iter_spec of doc/language.md (an alias, or a number and a unit) and an optional until_spec, is read as the iterator from that date with that step and that bound.", "quantifier": "every date expression, number, unit spelling, alias, bound and spacing; every current time and every behaviour of the ISO 8601 parser", "why_tests_cant": "The texts are unbounded in number; the unit tests only use steps written with `every`.", "anchors": ["doc/language.md: iter_spec, iterator", "src/parser/iterator.rs: iter_spec, iterator", "src/parser/mod.rs: parse, do_parse"]}
{"id": "C99", "title": "the documented conversion rules", "statement": "As the documentation of TimeType says: asking an amount for a smaller unit multiplies by 60, 60, 24 or 12 (4 weeks make a month); asking for a larger unit gives zero, except that whole months in a number of weeks are counted.", "quantifier": "every pair of units, every 64-bit number, every number of weeks", "why_tests_cant": "64-bit numbers; the documentation's two rules for larger units contradict each other, which single examples do not show.", "anchors": ["src/timetype.rs: documentation of TimeType (lines 70-93), get_seconds, get_minutes, get_hours, get_days, get_months, get_years, weeks"]}
{"id": "C100", "title": "what the program prints is true and unambiguous", "statement": "Whatever arguments the command line program is given, and however long it runs, every line it prints is an amount with the name of its unit, a moment that exists in the calendar, or an error of the library in which only existing moments occur; it never shows an expression that was not calculated. The text of a line tells what it is: two runs, with any arguments and on any days, that print the same texts have found the same amounts, moments and errors.", "quantifier": "all argument lists, all clock readings, all numbers of printed items, both builds; behaviour of the ISO date parser only as far as its declared types", "why_tests_cant": "Tests run the program on a few argument lists; that no text at all leads to a nonexistent date or to two results with the same output needs a proof about the parser, the evaluator, the iterators and the text formats together.", "anchors": ["examples/main.rs: main, pretty_print", "src/parser/mod.rs: parse", "src/parser/iterator.rs: into_user_iterator", "src/timetype.rs: calculate", "src/error.rs: ErrorKind"]}
{"id": "C101", "title": "the order of adaptors", "statement": "`until(d)` and `times(n)` can be applied in either order: every call returns the same. On an iterator that goes forward in time, `until(d)` and `every(f)` (or `without(f)`) can be applied in either order: the same items are yielded in the same calls; only the end can differ, None if `until` comes first, and possibly an OutOfBounds error from the end of chrono's range if the filter comes first. `times(n).every(f)` yields a beginning of what `every(f).times(n)` yields. `every(f).without(g)` and `without(g).every(f)` yield the same items.", "quantifier": "every iterator (for until and filters: whose values are moments that do not go back in time, in particular every base and every positive increment up to 4.29 billion years), dates, counts, filters and numbers of calls", "why_tests_cant": "Tests compare a few adaptor piles on a few items; the claim is about all calls on all iterators, and how a pile ends shows only at the end of chrono's range.", "anchors": ["src/iter.rs: UntilIter::next, TimesIter::next, FilterIter::next, WithoutIter::next"]}
{"id": "C102", "title": "an iterator can be taken up again from any of its items", "statement": "If an iterator yielded a moment, an iterator built from that moment with the same increment yields what the first one yields from there on, position by position, errors included; also with the same end date, and with the count reduced by the number of items before.", "quantifier": "every base, increment (of either sign and any size), position and number of further calls", "why_tests_cant": "Tests look at single runs; the claim relates two runs of any length, also where the items are irregular (months from a 31st) or the run ends in an error.", "anchors": ["src/iter.rs: Iter::build, Iter::next, UntilIter::next, TimesIter::next"]}
{"id": "C103", "title": "end-of markers tell periods apart and keep the order", "statement": "Two moments have the same end_of_year (month, day, hour, minute) exactly if they lie in the same year (month, day, hour, minute), so that it can be used to group moments; and the end of the period of the earlier of two moments is never after that of the later one.", "quantifier": "every two expressions that evaluate to moments, each of the five markers", "why_tests_cant": "A test compares a few pairs; the claim is about all pairs of moments in chrono's range.", "anchors": ["src/timetype.rs: end_of_year, end_of_month, end_of_day, end_of_hour, end_of_minute, calculate"]}
{"id": "C104", "title": "whole weeks later or earlier it is the same weekday", "statement": "`m + weeks(n)` and `m - weeks(n)` fall on the weekday of m (as told by is_a), whenever they succeed.", "quantifier": "every moment and every n >= 0", "why_tests_cant": "Weekdays repeat, so that tests on a few dates pass although others are off by one to five days.", "anchors": ["src/timetype.rs: TimeType::weeks, is_a, add, sub, calculate"]}
{"id": "C105", "title": "comparing values by what they stand for", "statement": "Values compare (==, <, max, sorting) by what they stand for: amounts by their length, expressions by the moment they evaluate to.", "quantifier": "all pairs of amounts, and all pairs of a moment and an expression", "why_tests_cant": "All numbers and units, all expressions.", "anchors": ["src/timetype.rs: derive(PartialEq, Eq, PartialOrd, Ord) on TimeType"]}
{"id": "C106", "title": "an iterator that has ended stays ended", "statement": "Once a call of `next` on an iterator with adaptors (times, until, every, without) has returned None, every later call returns None.", "quantifier": "every iterator, all adaptors, any number of calls", "why_tests_cant": "Unbounded number of calls, all iterators and matchers.", "anchors": ["src/iter.rs: Iter, FilterIter, WithoutIter, UntilIter, TimesIter (next)"]}
{"id": "C107", "title": "how far additions and subtractions can be off", "statement": "Adding n >= 0 seconds, minutes, hours or days never leads to an earlier year and is right to the second up to a whole number of days: none if the year does not change, and k turns of the year later between 5(k-1)-1 and 6(k-1)+5 days too late. A chain of such additions, or an iterator that takes such steps, is at most k days early and 6k days late after k turns of the year, however many steps it takes. Subtracting seconds, minutes or hours, where it succeeds, leads at most one day too far back; subtracting days at most three days too little back.", "quantifier": "every moment, every amount up to 4.29 billion years (subtracting: eleven million), every chain of any length, every step of every iterator", "why_tests_cant": "The error accumulates over an unbounded number of steps; no sample bounds it.", "anchors": ["src/timetype.rs: add_to_moment, sub_from_moment", "src/util.rs: adjust_times_add, adjust_times_sub", "src/iter.rs: Iter (next)"]}
{"id": "C108", "title": "a text has one reading, and nothing else matters", "statement": "No text is written, in the documented grammar, for two different expressions: an amount expression, date expression or iterator can be told from its text (one week and seven days included), no text is both a date expression and an iterator, and none that does not start like an ISO date is both an amount expression and one of these. Two texts with the same reading, however blanks are set and units and numbers are spelt, are parsed to the same result.", "quantifier": "every text, every pair of readings, every pair of texts with one reading, every clock and build profile", "why_tests_cant": "Infinitely many texts; ambiguity of a grammar cannot be settled by samples.", "anchors": ["src/parser/mod.rs: parse, do_parse", "src/parser/iterator.rs: iterator, iter_spec, until_spec", "src/parser/timetype.rs: timetype, date, amount_expr", "doc/language.md"]}
{"id": "C109", "title": "iterators with steps of the same length", "statement": "Two iterators from the same base whose increments have the same length (60 seconds and one minute, 60 minutes and one hour, 24 hours and one day, 12 months and one year, and multiples of these) return the same at every call of next, errors included.", "quantifier": "every base, every pair of increments of the same length, every position", "why_tests_cant": "Unbounded number of steps; all bases.", "anchors": ["src/iter.rs: Iter (next)", "src/timetype.rs: add_to_moment", "src/util.rs: adjust_times_add"]}
{"id": "C110", "title": "adaptors see nothing but the items", "statement": "If two iterators, of whatever kind, return the same at every call of next, then they also do with times(n), until(end), every(matcher) and without(matcher) applied to them.", "quantifier": "every pair of iterators, every adaptor, count, end date and matcher, every position", "why_tests_cant": "Quantifies over all iterators and matchers and over unboundedly many calls.", "anchors": ["src/iter.rs: FilterIter, WithoutIter, UntilIter, TimesIter (next)"]}
{"id": "C111", "title": "smaller units are left alone", "statement": "Adding or subtracting minutes leaves the seconds of a moment alone, hours its minutes and seconds, days, months and years its time of day, whenever it succeeds. So all dates of an iterator that goes by days, months or years have the time of day of the base, and those of an hourly one its minutes and seconds.", "quantifier": "every moment, every unit, every number of either sign and any size, both build profiles; every item of every iterator", "why_tests_cant": "All 64-bit amounts, including those that wrap; unboundedly many steps.", "anchors": ["src/timetype.rs: add_to_moment, sub_from_moment", "src/util.rs: adjust_times_add, adjust_times_sub", "src/iter.rs: Iter (next)"]}
{"id": "C112", "title": "subtract then add returns to the start", "statement": "Subtracting a from m, calculating, and adding a to the result gives m again.", "quantifier": "every moment with whole seconds, every non-negative amount of every unit (years of either sign)", "why_tests_cant": "Depends on every date at which subtraction borrows and addition carries.", "anchors": ["src/timetype.rs: calculate, add_to_moment, sub_from_moment", "src/util.rs: adjust_times_add, adjust_times_sub"]}
{"id": "C113", "title": "subtracting the same amount keeps the order", "statement": "If one moment is before another, it still is after the same amount has been subtracted from both, whenever both succeed.", "quantifier": "every pair of moments, every amount", "why_tests_cant": "All pairs of moments.", "anchors": ["src/timetype.rs: sub_from_moment", "src/util.rs: adjust_times_sub"]}
{"id": "C114", "title": "the calendar repeats every 400 years", "statement": "Move all dates in an expression by the same multiple of 400 years, forwards or backwards. If the expression had a value, it then has the same value with its date moved the same way (amounts stay the same), or fails because a year is out of bounds, or, in debug builds only, overflows. An error other than a year out of bounds is not cured by the move. The same holds for every date of an iterator when its base is moved, and weekdays and months stay the same.", "quantifier": "every expression over valid moments, every multiple of 400 years, both build profiles; every iterator and every item", "why_tests_cant": "All expressions and all years; the unit tests use dates around 2016 and 2017 only.", "anchors": ["src/timetype.rs: calculate, add_to_moment, sub_from_moment, end_of_year, end_of_month, is_a, is_in", "src/util.rs: get_num_of_days_in_month, adjust_times_add, adjust_times_sub", "src/iter.rs: Iter"]}
{"id": "C115", "title": "any order of next, skip and rollback", "statement": "Take an iterator as built from a moment and an amount. After any sequence of calls of next, skip and rollback that all succeed, next returns the moment one gets from the base by adding the increment once for each skip and each next but the first, and subtracting it once for each rollback, in the order of the calls; the sequence fails exactly at the first such addition or subtraction that fails, with its error. The first next makes no step, wherever it stands. Whatever is called, increment() keeps returning what the iterator was built with.", "quantifier": "every base, every increment (any unit, size and sign), every sequence of calls", "why_tests_cant": "All sequences of three kinds of calls, of any length, including rollback or skip before the first next; a test can only try some.", "anchors": ["src/iter.rs: Iter::build, Iter::next, Iter::skip, Iter::rollback, Iter::recalculate"]}
{"id": "C116", "title": "an iterator can be moved forth and back like a counter", "statement": "After any sequence of successful calls of next, skip and rollback the item that next returns lies exactly k increments after the base (for months and years: in calendar months and years, on the same day and at the same time of day), where k is the number of steps forth minus the number of steps back.", "quantifier": "every base, every non-negative increment in any unit, every sequence of calls", "why_tests_cant": "All sequences of calls of any length, over ends of months and years and in any mixture of directions.", "anchors": ["src/iter.rs: Iter::next, Iter::skip, Iter::rollback", "src/timetype.rs: do_calculate, add_to_moment, sub_from_moment"]}
{"id": "C117", "title": "The end of a period some periods away", "statement": "end_of_year(m + years(n)), end_of_month(m + months(n)), end_of_day(m + days(n)), end_of_hour(m + hours(n)) and end_of_minute(m + minutes(n)) are the end of the year, month, day, hour or minute that is n periods after the one m lies in, and with subtraction the end of the one n periods before.", "quantifier": "all valid moments, all n, all five kinds of period", "why_tests_cant": "The result depends on the day within the period one starts from: tests with the middle of a month never see the shift by a month that starting on the 29th, 30th or 31st brings.", "anchors": ["src/timetype.rs: TimeType::calculate, add_to_moment, sub_from_moment, end_of_year, end_of_month, end_of_day, end_of_hour, end_of_minute"]}
{"id": "C118", "title": "working days", "statement": "daily(1).without(Saturday).without(Sunday) yields exactly the days from Monday to Friday, from the base on, in order, at the time of day of the base, until the end of chrono's range, where it returns an OutOfBounds error; the two filters can be applied in either order. No call looks at more than two items of the iterator below.", "quantifier": "every valid base on every weekday, every position, both orders of the filters", "why_tests_cant": "The position of an item depends on the weekday of the base and on how many weekends lie in between; tests look at one base and a few items.", "anchors": ["src/iter.rs: WithoutIter::next, Iter::next, extensions::Daily::daily", "src/matcher.rs: impl Matcher for Day", "src/indicator.rs: Day"]}
{"id": "C119", "title": "Every date can be reached from every other", "statement": "From every moment every date-time of chrono's range on a whole second, past or future, is the result of one expression: the moment and seven amounts added to it one after the other (days to the first of the month, months, years, days, hours, minutes, seconds, each of either sign). Each of these is exact because adding n units changes just the component of that unit whenever that gives a date-time of chrono's range. A single amount does not do: no non-negative number of seconds, minutes, hours, days or months leads from any moment to a 31st of a later year, as long as adding it does not overflow.", "quantifier": "all pairs of date-times of chrono's range (the target on a whole second), both profiles", "why_tests_cant": "unit tests only add a few amounts to a few dates; that any target can be reached from any start, through 29 February and the ends of months, is a statement about all pairs", "anchors": ["src/timetype.rs: add, sub, calculate"]}
{"id": "C120", "title": "grouping does not matter for subtracted amounts", "statement": "`(m - a) - b` and `m - (a + b)` give the same moment.", "quantifier": "every moment, all non-negative amounts a, b", "why_tests_cant": "Subtracting borrows component by component, so whether one step or two give the same depends on every date and on every pair of amounts.", "anchors": ["src/timetype.rs: sub, sub_from_moment"]}
{"id": "C121", "title": "the order of added amounts does not matter", "statement": "`m + a + b` and `m + b + a` give the same moment.", "quantifier": "every moment, all amounts a, b", "why_tests_cant": "All dates and pairs of amounts; tests add amounts in one order.", "anchors": ["src/timetype.rs: add, add_to_moment", "src/util.rs: adjust_times_add"]}
{"id": "C122", "title": "a filtered iterator finds everything", "statement": "Whatever the test – a weekday, a month or a test of one's own, as long as it decides every date – an iterator with a positive step filtered with every(test) yields only dates of the unfiltered iterator that pass the test, in order of time, and leaves none of them out, up to the end of chrono's range, where it reports OutOfBounds for good. without(test) yields in the same way exactly the dates that do not pass. For steps of seconds, minutes, hours or days (up to 30 days) the dates of the unfiltered iterator are all date-times of chrono's range at a whole number of steps after the start.", "quantifier": "every valid start, every positive step of any unit up to 4.29 billion years, every test that decides every date, every number of items", "why_tests_cant": "the tests look at the first few items for one weekday and one month; tests of one's own, tests that let almost nothing through and the end of the range are not covered", "anchors": ["src/iter.rs: FilterIter::next, WithoutIter::next, Iter::next", "src/matcher.rs: Matcher"]}
{"id": "C123", "title": "everything between two dates", "statement": "every(test).until(end) on an iterator with a positive step yields a finite list: in order of time exactly those dates of the iterator before end that pass the test, each once, and then no further date – the answer after the last is None, or an OutOfBounds error if the next date that passes would be past chrono's last year. until(end).every(test) yields the same list, and without(test) in the same way the dates that do not pass.", "quantifier": "every pair of valid start and end, every positive step of any unit up to 4.29 billion years, every test that decides every date, both orders of the adaptors", "why_tests_cant": "that nothing is left out, repeated or added between any two dates for any test is a statement about whole sequences; tests compare a few items", "anchors": ["src/iter.rs: FilterIter::next, WithoutIter::next, UntilIter::next, Iter::next", "src/matcher.rs: Matcher"]}
{"id": "C124", "title": "the ends of the months and years an iterator visits", "statement": "end_of_month applied to the items of monthly(n) gives, item by item, the end of the month of the base and of every n-th month after it; with n = 1 the ends of all months, with n = 3 those of every third. end_of_year applied to the items of yearly(n) gives the end of every n-th year in the same way.", "quantifier": "all valid bases, every number of months or years per step, every position up to the end of chrono's range", "why_tests_cant": "Whether a month end is missed depends on the day of the base and on how many months the iterator has gone; tests look at a few items from one base.", "anchors": ["src/iter.rs: Iter::next, extensions::Monthly::monthly, extensions::Yearly::yearly", "src/timetype.rs: end_of_month, end_of_year, calculate"]}
{"id": "C125", "title": "An expression can be calculated part by part", "statement": "If an expression has a value, every part of it, however deep inside, has a value, and replacing the part by its value (or by another expression with that value that may stand there) does not change the value of the whole. A part without a value leaves the whole without one. So calculate gives exactly what calculating from the inside out, one operation on values at a time, gives. The converse, that a part may be replaced by its value without making an expression calculable that was not, holds for all expressions but those that can never be calculated for their shape (C76).", "quantifier": "all expressions of any size and shape, every part of them, all moments and amounts, both build profiles", "why_tests_cant": "The number of shapes and positions is unbounded, and the evaluator takes different paths for a nested operand and for its value; tests try a few nestings.", "anchors": ["src/timetype.rs: TimeType::calculate, add, sub, do_calculate"]}
{"id": "C126", "title": "texts are read byte by byte, which makes no difference", "statement": "parse works on the bytes of its argument. For every text, whatever characters it contains, the outcome is the one that reading it character by character gives: no byte inside a character beyond ASCII is taken for a digit, blank, sign or letter, and reading never stops inside a character.", "quantifier": "all texts (any Unicode characters, any length), all clock readings, both build profiles, all ISO 8601 parsers that use up ASCII bytes only", "why_tests_cant": "tests use a handful of ASCII texts; the claim is about all sequences of Unicode characters", "anchors": ["src/parser/mod.rs: parse", "src/parser/timetype.rs: integer, unit_parser, amount_expr, date", "src/parser/iterator.rs: iterator, until_spec"]}
{"id": "C127", "title": "an error inside an expression is the error of the whole", "statement": "In an expression of a kind that can be calculated, the error of any part is the error of the whole, unchanged; in a chain of steps it is the error of the first step that fails. Conversely the error of such an expression is the error of one operation in it whose operands have values.", "quantifier": "every expression that has a kind, every part of it at any depth, both build profiles (overflow aside in the checked one)", "why_tests_cant": "tests look at a few expressions; the claim is about expressions of any shape and depth", "anchors": ["src/timetype.rs: TimeType::calculate, add, sub, end_of_year, end_of_month, end_of_day, end_of_hour, end_of_minute"]}
{"id": "C128", "title": "stretches of time can be split and sorted", "statement": "On an iterator with a positive step, until(e1) yields a beginning of what until(e2) yields, if e1 is not after e2: all of it before e1. The rest is what an iterator built from its first date, with the same step, yields until(e2): nothing is lost and nothing comes twice where two stretches of time meet. Of the dates before an end, every(test) yields those that pass and without(test) the others, in the same order: each date is yielded by exactly one of the two.", "quantifier": "every valid start, every two ends, every positive step of any unit up to 4.29 billion years, every test that decides every date", "why_tests_cant": "Unit tests split a few ranges; the claim is about all starts, ends, steps and tests.", "anchors": ["src/iter.rs: UntilIter::next, FilterIter::next, WithoutIter::next, Iter::next, Iter::build"]}
{"id": "C129", "title": "two iterators side by side", "statement": "Two iterators with the same step keep their distance: the items at the same position are as far apart as the starts (with months: as many months, from days up to the 28th). They have a date in common if and only if the starts are a whole number of steps apart. From the same start with steps of different lengths, an item of one is an item of the other if and only if the other gets there in a whole number of steps.", "quantifier": "all pairs of valid starts on whole seconds, all positive steps of seconds, minutes, hours or days up to 30 days, all numbers of months up to two billion years from days up to the 28th, every position", "why_tests_cant": "Concerns two runs of arbitrary length, for all starts and steps.", "anchors": ["src/iter.rs: Iter::next, Iter::build", "src/timetype.rs: add_to_moment"]}
{"id": "C130", "title": "how often a weekday occurs", "statement": "From a date until the same time N days later, daily(1).every(day) yields one date for each of these N days that has the weekday, and nothing else: W dates in W weeks; 52 in a year from 1 January, but 53 if the weekday is that of 1 January or, in a leap year, of 2 January; 4 in a month, but 5 if it is the weekday of one of the first days, as many as the month has more than 28.", "quantifier": "every valid start, every number of days, every weekday, every year and month of chrono's range", "why_tests_cant": "Counting over arbitrarily long stretches, for all starts; the tests look at a few items.", "anchors": ["src/iter.rs: FilterIter::next, UntilIter::next, extensions::daily", "src/matcher.rs: impl Matcher for indicator::Day"]}
{"id": "C131", "title": "adding a difference", "statement": "`m + (a - b)` and `m + a - b` give the same moment.", "quantifier": "every moment, all amounts a and b with b not more than a", "why_tests_cant": "All dates and amounts.", "anchors": ["src/timetype.rs: add, sub, add_to_moment, sub_from_moment"]}
{"id": "C132", "title": "how many working days there are", "statement": "From a date until the same time N days later, daily(1).without(Saturday).without(Sunday), the filters in either order, yields one date for each of these N days from Monday to Friday, and nothing else: 5 W dates in W weeks, and in a year from 1 January 260, and one more for each of 1 January and, in a leap year, 2 January that is not on a weekend.", "quantifier": "every valid start, every number of days, both orders of the filters", "why_tests_cant": "All dates and distances; the number depends on the weekday of the start and on leap years.", "anchors": ["src/iter.rs: WithoutIter, UntilIter, extensions::daily", "src/matcher.rs: Matcher for Day"]}
{"id": "C133", "title": "the n-th of a weekday in a month", "statement": "From the 1st of a month, the first four dates of daily(1).every(day) are the first to fourth of that weekday in the month: the one at position q is the only one with that weekday on the days 7 q + 1 to 7 q + 7. The next one is in the same month (on one of its last days) if and only if the weekday is that of one of the first days, as many as the month has more than 28.", "quantifier": "every month of chrono's range, every weekday, every time of day", "why_tests_cant": "All months; which weekdays come five times depends on the month length and on the weekday of the 1st.", "anchors": ["src/iter.rs: FilterIter, extensions::daily", "src/matcher.rs: Matcher for Day"]}
{"id": "C134", "title": "steps longer than 30 days", "statement": "An iterator whose step is any number of seconds, minutes, hours or days yields the dates that are exactly 0, 1, 2, ... steps after its base.", "quantifier": "every valid base, every non-negative step of seconds, minutes, hours or days, every position", "why_tests_cant": "Steps up to 30 days are always right (C34). Beyond that it depends on the year, the leap year and the date reached at every turn of the year; which bases and steps go wrong, and that no step longer than 30 days is safe from every base, cannot be settled by trying some.", "anchors": ["src/iter.rs: Iterator for Iter, skip", "src/util.rs: adjust_times_add", "src/timetype.rs: TimeType::calculate"]}
{"id": "C135", "title": "a complete reference for what calculate returns", "statement": "There is a reference without loops - integer division, the calendar, and the rules the library follows where it departs from the calendar - that tells for every operation on two finished values whether `calculate` returns a value, and which, an error, and which with all its fields, or an overflow panic; applied from the inside out it gives the value of every expression, and applied step after step every item of an iterator, the failing ones included. Nothing that `calculate` returns depends on anything else.", "quantifier": "every expression with existing moments and 64-bit amounts; every iterator from an existing moment; every position; with and without overflow checks", "why_tests_cant": "A reference agrees with the code on all inputs or it is no reference; tests compare the two on a sample of 2^64 amounts and of unboundedly deep expressions.", "anchors": ["src/timetype.rs::calculate", "src/timetype.rs::add_to_moment", "src/timetype.rs::sub_from_moment", "src/timetype.rs::adjust_times_add", "src/timetype.rs::adjust_times_sub", "src/iter.rs::Iter::next"]}
{"id": "C136", "title": "what is calculated first, and how a whole expression ends", "statement": "An expression of a kind that can be calculated ends exactly as its operations carried out one after the other on finished values: the left operand first, then the right one, then the operation itself, and an end-of marker after what it is applied to. The first operation that fails decides whether the whole ends with an error or with an overflow panic; what comes after it does not matter. The only exception is a sum minus a difference, `(x + y) - (z - w)`, where the right operand comes first; in a build without overflow checks the order cannot be observed. So the end of every such expression - value, error or overflow - is known from the closed-form reference for single operations, with the operands and fields the error names.", "quantifier": "every expression that has a kind, with existing moments and 64-bit amounts for the last part; both build profiles", "why_tests_cant": "The order in which parts are evaluated shows only in expressions with two failing parts, at any depth; tests try at most a few of them.", "anchors": ["src/timetype.rs: TimeType::calculate", "src/timetype.rs: add", "src/timetype.rs: sub"]}
{"id": "C137", "title": "the order of subtracted amounts does not matter", "statement": "`m - a - b` and `m - b - a` give the same moment.", "quantifier": "every moment, all non-negative amounts a and b of any units", "why_tests_cant": "Whether the order matters depends on where in its minute, hour, day and month the moment is; tests cover a few of these.", "anchors": ["src/timetype.rs: sub_from_moment, adjust_times_sub"]}
{"id": "C138", "title": "Evaluating an expression takes work linear in its size", "statement": "`calculate` on an expression built from k amounts, moments and operators makes at most 2k − 1 calls of the evaluation functions in all, itself included: no part is evaluated again and again, so there is no expression, however it is nested, whose evaluation takes a number of calls that is exponential (or even quadratic) in its length. The bound does not depend on the values of the amounts.", "quantifier": "every expression of any size and nesting, both overflow-check settings", "why_tests_cant": "A test evaluates a few expressions, mostly of two or three operators, where a quadratic or exponential evaluator is not noticeable; a bound for all nestings is a statement about every tree.", "anchors": ["src/timetype.rs: TimeType::calculate", "src/timetype.rs: do_calculate, add, sub, end_of_year … end_of_minute, add_to_seconds, add_to_minutes, add_to_hours, add_to_days, add_to_months, add_to_years, add_to_moment, sub_from_seconds, sub_from_minutes, sub_from_hours, sub_from_days, sub_from_months, sub_from_years, sub_from_moment"]}
{"id": "C139", "title": "How long an addition takes does not depend on the amount", "statement": "Adding an amount to a moment is done in a number of steps that does not depend on the amount, as subtracting is: in particular an amount that leads beyond all dates is reported as such at once. (It is not: days and months are carried by loops that turn once for every month or year, so adding 9·10^18 days turns more than 290 quadrillion times before it reports that there is no such date. What holds: the number of turns of an addition with a result is the number of months, and of years, between the start and the result, less the months or years added at a stroke; years need no loop but for one turn on 29 February.)", "quantifier": "every moment, unit and 64-bit amount, both overflow-check settings", "why_tests_cant": "A test with a large enough amount does not come back, so it is not written; and tests with small amounts cannot tell a loop from a division.", "anchors": ["src/util.rs: adjust_times_add", "src/timetype.rs: add_to_moment"]}
{"id": "C140", "title": "Reading a text needs little room", "statement": "Reading a text, and calculating what was read, takes a stack depth that does not depend on the text, so that no text can exhaust the stack. (It does not hold: the parser calls itself once for every amount after an operator, and calculating what was read nests twice as deep. A text of k amounts takes exactly k nested calls to read; one more than there are + and - in a text is always enough.)", "quantifier": "every text", "why_tests_cant": "A test with a short text never comes near the end of the stack, and how deep the calls nest is not observable in a test.", "anchors": ["src/parser/timetype.rs: amount_expr, amount_expr_next, AmountExpr::into_timetype", "src/timetype.rs: TimeType::calculate"]}
{"id": "C141", "title": "how every expression ends, also the ones without a value", "statement": "For every expression there is one ending, fixed by how it is written: the value, the error with exactly the operands it names, or the overflow. In particular for expressions that mix moments, amounts and end-of markers in ways that cannot be calculated: a moment right of a plus is an error before anything is calculated; an end-of marker left or right of an operator is named as written, not calculated, while the operand beside it is named with its value; an end-of marker on the left exchanges the operands the error names, and of two markers the one for the longer period is named last; a difference left of a plus changes places with what is right of it, so if it comes to a moment that is an error. Where the expression is of a kind that can be calculated this is the left-to-right reading.", "quantifier": "every expression with existing moments and 64-bit amounts, of any size and nesting; both build profiles", "why_tests_cant": "the shapes nest without bound, and which of several failures is reported and with which operands depends on the order of some thirty match arms", "anchors": ["src/timetype.rs: add, sub, TimeType::calculate", "src/error.rs: ErrorKind"]}
{"id": "C142", "title": "a complete reference for what parse returns", "statement": "For every text, parse returns what a reader says that takes the longest word at every place: an iterator if the text starts with one, else a date expression, else an amount expression, else the parse error; and then the value, the error or the panic that what was read stands for. What is left of the text is ignored.", "quantifier": "every text of any length, every implementation of the ISO 8601 parsers, every clock reading, both build profiles", "why_tests_cant": "There are infinitely many texts, most of them malformed, and a wrong order of alternatives in the parser shows only on some of them; tests try a few well-formed ones.", "anchors": ["src/parser/mod.rs: parse", "src/parser/timetype.rs: amount_parser, amount_expr, exact_date_parser, date, timetype", "src/parser/iterator.rs: iter_spec, until_spec, iterator, into_user_iterator"]}
{"id": "C143", "title": "a complete reference for the items of an iterator", "statement": "Call by call, what next returns on an iterator built from a moment and an amount: first the start, then always the previous item plus the step, as the reference of C135 says; once such an addition fails, this and every later call returns that error. With times(n) these are the first n items, with until(end) those before the end.", "quantifier": "every start, every step of any unit, size and sign, every position, n from 0, every end date, both build profiles", "why_tests_cant": "The states of an iterator are unbounded and depend on the whole history; a test looks at a few items of a few iterators.", "anchors": ["src/iter.rs: Iter::next, Iter::skip, Iter::recalculate, TimesIter::next, UntilIter::next"]}
{"id": "C144", "title": "a complete reference for the command line program", "statement": "Whatever its arguments are, the program prints exactly the lines that the references for texts (C142), expressions (C141) and iterators (C143) say, in that order, and ends as they say: it finishes, exits with code 1 after an error among the items, or panics on overflow.", "quantifier": "every list of arguments, every pair of clock readings, every sane implementation of the ISO 8601 parsers, any number of rounds", "why_tests_cant": "The program combines parsing, calculating and iterating; its inputs are all texts and it may run for ever.", "anchors": ["examples/main.rs: main, pretty_print", "src/parser/mod.rs: parse", "src/timetype.rs: calculate", "src/iter.rs: Iter::next"]}
{"id": "C145", "title": "a complete reference for iterators with adaptors", "statement": "For any chain of times, until, every and without on an iterator, in any order and with any arguments, there is a description of every call of next that does not mention the code: times passes on the first n calls (a negative n runs on until the counter overflows), until replaces dates that are not earlier than its end by None, a filter passes on everything but the dates it rejects, and if nothing more is to be passed on its call never returns. The program returns exactly that. On an iterator with a positive step every call of every chain returns.", "quantifier": "every start, step, chain of adaptors, weekday, month or filter of one's own, and every number of calls", "why_tests_cant": "there are infinitely many chains, and the interplay of adaptors (a filter behind an until, a times in front of a filter) and non-termination cannot be enumerated", "anchors": ["src/iter.rs: FilterIter::next, WithoutIter::next, UntilIter::next, TimesIter::next, Iter::next", "src/matcher.rs: Matcher for Day, Month, F"]}
{"id": "C146", "title": "constructors build what they are named after", "statement": "seconds, minutes, hours, days, months and years build an amount of that unit whose number can be read back; moment and today build that moment; end_of_year to end_of_minute of an expression that comes to a moment come to the end of the period they are named after; += and -= do what + and - do; increment() is the step an iterator was built with, whatever was called on it since; every, without and until build iterators with the matcher and the date that were passed; a weekday or month as a filter tests what is_a and is_in tell.", "quantifier": "every number, moment, expression, iterator, history of calls and matcher", "why_tests_cant": "numbers, expressions and histories of calls are unbounded", "anchors": ["src/timetype.rs: TimeType::{seconds,minutes,hours,days,months,years,moment,today,end_of_year,end_of_month,end_of_day,end_of_hour,end_of_minute}, AddAssign, SubAssign, IntoTimeType", "src/iter.rs: Iter::increment, EveryFilter, WithoutFilter, Until", "src/indicator.rs: DayFilter, MonthFilter"]}
{"id": "C147", "title": "A text that is parsed as an iterator, with any adaptors put on the iterator, produces exactly the items the text and the adaptors describe", "statement": "Parse a text that describes an iterator, then put times, until, every and without on the result, any number of them in any order. Each call of next returns the item, the error, the end or the panic that follows from the date, the step and the bound written in the text and from the adaptors: the bound in the text acts like one more adaptor, under the others. Where a call should run for ever it does. If the step written is positive and at most 4.29 billion years, every call returns.", "quantifier": "every text for which parse returns an iterator; every list of adaptors with arguments of their types; every call; both clock readings; both integer profiles; every instance of the iso8601 crate that returns numbers its types can hold", "why_tests_cant": "The texts, the chains and the calls are all unbounded, and the result depends on each of them at the same time.", "anchors": ["src/parser/mod.rs: parse", "src/parser/iterator.rs: UserIterator", "src/iter.rs: extensions"]}
{"id": "C148", "title": "a release of chrono with a wider range of years changes no result", "statement": "The range of years that chrono's dates can have differs between its releases. Building the library with a release that has a wider range changes no value, no panic and no error of calculate, of iterators with any adaptors, of skip and rollback, of parse and of the command line program. The only exceptions are the out-of-bounds errors that name a year which the narrower range does not have and the wider one has.", "quantifier": "every expression, iterator, chain of adaptors, text, clock reading and command line; every two ranges of years of which one lies within the other; both integer profiles", "why_tests_cant": "A test runs against one release of chrono.", "anchors": ["src/timetype.rs: calculate", "src/iter.rs: Iter, extensions", "src/parser/mod.rs: parse", "examples/main.rs: main"]}
{"id": "C149", "title": "Fractions of a second play no part", "statement": "The part of a date-time below the second has no influence on any calculation. Cutting the date-times of an expression to whole seconds changes no outcome, except that the date-times shown in it (an expression that is only a date-time, or the operands named in an error) are cut likewise; two expressions that differ in fractions only and are not just a date-time have the very same value. is_a, is_in and the matchers for weekdays and months do not look at the fraction. An iterator, alone or with any chain of adaptors that do not look at fractions themselves, returns the same items, errors and ends at the same calls for a start with or without a fraction, except that its first item keeps it; all later items have whole seconds. Only until with a date-time that has a fraction can tell a difference.", "quantifier": "all expressions, all iterators, all chains of adaptors, all call numbers, both build profiles", "why_tests_cant": "The fraction has a billion values in every date-time of an expression of any depth; a test can try a few.", "anchors": ["src/timetype.rs: do_calculate, add_to_moment, sub_from_moment, end_of_year, end_of_month, end_of_day, end_of_hour, end_of_minute, is_a, is_in", "src/iter.rs: Iter::next, FilterIter::next, WithoutIter::next, UntilIter::next, TimesIter::next", "src/matcher.rs: Matcher::matches"]}
{"id": "C150", "title": "Reading a text takes time linear in its length", "statement": "parse never falls into repeated backtracking: for a text of n characters, whatever it is, the number of elementary parsing steps (calls of nom's elementary parsers, plus one for each character they go past, those of alternatives tried and given up included) is at most (6k + 297) n + 6k + 835, where the date parsers of iso8601 take at most k steps per character left and k more; amounts alone take at most 94 n + 182. The expression returned has at most n + 11 nodes, and calculating it takes at most 2 n + 21 calls.", "quantifier": "all texts (of any characters and length), all clocks, both build profiles, all ISO date parsers that take time linear in their input", "why_tests_cant": "Backtracking that blows up shows only on texts of particular shapes and lengths; tests try a handful of short texts.", "anchors": ["src/parser/mod.rs: parse, do_parse", "src/parser/timetype.rs: integer, unit_parser, unit_alias, operator_parser, amount_parser, amount_expr, amount_expr_next, exact_date_parser, date, timetype", "src/parser/iterator.rs: iter_spec, until_spec, iterator"]}
{"id": "C151", "title": "The work of a call of next", "statement": "As long as no call of `next` on an iterator has failed, each call after the first makes exactly three calls of the evaluation functions, however many items were returned before (the first makes none): the iterator keeps nothing of its history. After a failure this is lost: the j-th further call makes j more, since the additions since the failure are gone through again every time, so that a loop that ignores errors takes time quadratic in the number of its rounds.", "quantifier": "every start, every step of any unit, size and sign, every position, every number of calls after a failure, both overflow-check settings", "why_tests_cant": "a test sees the items, not the work; that the work does not grow holds for all positions of all iterators, and its growth after a failure shows only in the time taken by millions of calls", "anchors": ["src/iter.rs: Iter::next, Iter::skip, Iter::recalculate", "src/timetype.rs: calculate, do_calculate, add, add_to_moment"]}
{"id": "C152", "title": "a complete reference for next, skip and rollback in any order", "statement": "For every sequence of calls of next, skip and rollback on an iterator, of any length and in any order, what each call returns is what a simple cursor says: it stands at a moment; skip, rollback and every next but the first add or subtract the step once, as the reference of C135 says; the first next returns what the iterator has in hand without moving or calculating. Once a step fails, that error is what every later call returns, except a first next, which still returns Ok: with the last moment and all the steps since then as an expression.", "quantifier": "every start, every step of any unit, size and sign, every finite sequence of the three calls, both build profiles", "why_tests_cant": "there are infinitely many sequences of calls; unit tests of skip and rollback try one or two calls that succeed", "anchors": ["src/iter.rs: Iter::next, Iter::skip, Iter::rollback, Iter::recalculate, Iter::build", "src/timetype.rs: calculate"]}
{"id": "C153", "title": "what the references say holds of the program text itself", "statement": "The functions of the crate and of its example program, as a translator reads them from the Rust files, do what the references of C141 (every expression), C142 (every text), C152 (next, skip and rollback in any order), C145 (chains of adaptors), C156 (adaptors on an iterator that has been moved), C147 (iterators read from a text, with adaptors) and C144 (the example program) say: calculate returns on every expression, with that value, error or overflow; parse gives that answer for every text; every call on an iterator, with or without adaptors, returns that item, error or end, panics, or never returns, as the reference has it; and main prints those lines, up to any number of rounds of its printing loop. No other bound on loops or recursion is part of the functions.", "quantifier": "every expression (valid dates, amounts of 64 bits), every text, every iterator and every finite sequence of calls, every chain of adaptors with any arguments and every position, every command line, both build profiles, every ISO date parser", "why_tests_cant": "a hand-written model can be wrong where its author misread the code, and tests cannot tell that a function and its model are equal on all inputs; nor can they observe that a call never returns", "anchors": ["src/timetype.rs: calculate, add, sub", "src/iter.rs: Iter, TimesIter, UntilIter, FilterIter, WithoutIter", "src/matcher.rs", "src/indicator.rs", "src/parser/mod.rs: parse", "src/parser/timetype.rs", "src/parser/iterator.rs", "examples/main.rs: main"]}
{"id": "C154", "title": "the crate's own tests that read the clock pass whenever they are run", "statement": "Some of the crate's tests use the current date (\"a baaaad use of state in a test\", says a comment). They pass whatever the clock shows: test_until, test_until_1, test_until_2, test_compile, test_compile_skip, test_expressions_to_date_3 and test_expressions_to_timetype_2.", "quantifier": "every date and time the clock can show (years within chrono's range), also with the clock moving on between two readings, both build profiles", "why_tests_cant": "a test run shows that the tests pass on one day", "anchors": ["src/iter.rs: test_until, test_until_1, test_until_2, test_compile, test_compile_skip", "src/parser/timetype.rs: test_expressions_to_date_3, test_expressions_to_timetype_2"]}
{"id": "C155", "title": "texts can be put together", "statement": "If a text of amounts stands for x seconds and another for y, then the first, a plus sign and the second is a text that stands for x + y, and with a minus sign for x - y. Behind a date with an offset, the same happens to the offset.", "quantifier": "every two texts of amounts of the documented grammar, any spelling and blanks, of at most 2^63 - 1 seconds in total, every date in front, both build profiles", "why_tests_cant": "The texts and the numbers in them are unbounded.", "anchors": ["src/parser/timetype.rs: amount_expr", "src/parser/timetype.rs: parse", "doc/language.md"]}
{"id": "C156", "title": "adaptors on an iterator that has been moved", "statement": "After any calls of next, skip and rollback on an iterator made from a date and a step, put any chain of times, until, every and without on it: every call of the whole returns what the chain makes of the items from where the iterator is then, a call that should run forever does run forever, and with a positive step every call returns. From a date it has reached the iterator goes on exactly like a new one: with that date if next has not been called yet, with the date one step on otherwise.", "quantifier": "Every valid date, step unit and count, every list of calls, every chain of adaptors, every call, both build profiles. Left out: the iterator was moved into an error before next was ever called (C152 says what comes then).", "why_tests_cant": "Tests put adaptors on fresh iterators only; the moves, the chains and the number of calls are without bound.", "anchors": ["src/iter.rs: Iter::skip, Iter::rollback, Times::times, Until::until, EveryFilter::every, WithoutFilter::without"]}
{"id": "C157", "title": "chains of adaptors can be rearranged and simplified", "statement": "In a chain of adaptors, at any place and any number of times: two filters can be swapped or joined into one, without(a) can be replaced by every(not a), a repeated every(a) left out, two counts replaced by the smaller, two dates by the earlier, and times and until swapped. Every call of next on the whole then returns the same as before: the same item, error or end; if one panics or never returns, so does the other.", "quantifier": "every iterator built from a date and a step (also moved by next, skip and rollback before) or read from a text, every chain and every rewriting of it, counts that are not negative where two are joined, every call, both build profiles", "why_tests_cant": "Chains, rewritings and calls are unbounded, and no test can observe that a call never returns.", "anchors": ["src/iter.rs: TimesIter::next, UntilIter::next, FilterIter::next, WithoutIter::next"]}
{"id": "C158", "title": "an iterator with adaptors can be taken up again from any of its items", "statement": "If an iterator with a chain of times, until, every and without returned a date, then building a new iterator from that date with the same step and putting the same adaptors on it gives, from its first call on, what the old one gives from that call on: the same items, errors, ends and panics. Counts have to be reduced by what was taken: a count put on last by the number of items before that date, one put on earlier by what had passed it.", "quantifier": "every valid start date, every step of one unit, every chain of adaptors with counts that are not negative, every call that returned a date, every later call, both build profiles", "why_tests_cant": "The chains, the item taken and the later calls are unbounded.", "anchors": ["src/iter.rs: TimesIter::next, UntilIter::next, FilterIter::next, WithoutIter::next, Iter::next"]}
{"id": "C159", "title": "every k-th item of an iterator", "statement": "Taking every k-th item of an iterator (positions 0, k, 2k, ...; step_by(k)) gives the items of the iterator from the same date with k times the step: every second item of daily(1) is daily(2).", "quantifier": "every valid start, every unit, every non-negative number of units per step (years: also negative), every k >= 1 and every position", "why_tests_cant": "Positions and k are unbounded, and the two ways to a date take different numbers of additions.", "anchors": ["src/iter.rs: Iter::next, Iter::skip", "src/timetype.rs: calculate", "src/util.rs: adjust_times_add"]}
{"id": "C160", "title": "an iterator read from a text is one that can be built", "statement": "If parse returns an iterator for a text, then building an iterator from the date the written start comes to, with the written step, and putting times(n) or until(date) on it as written, gives one that cannot be told from it: with any further adaptors on both, every call of next returns the same item, error or end, or both panic, or both never return. It can also be taken up again from any date it returned, by an iterator built from that date with the same step and adaptors, counts reduced by what was taken.", "quantifier": "every text for which parse returns an iterator, every chain of further adaptors, every call, both build profiles, every sane reading of ISO dates", "why_tests_cant": "The texts, the chains of adaptors and the calls are unbounded; tests compare a few items of a few texts.", "anchors": ["src/parser/mod.rs: parse", "src/parser/iterator.rs: Iterator::into_user_iterator, UserIterator", "src/iter.rs: Iter::build, TimesIter, UntilIter"]}
{"id": "C161", "title": "loops over iterators end", "statement": "A loop over an iterator with a positive step and any adaptors, built or read from a text, that stops at the first error ends after finitely many dates, each later than the one before; if it is an error that ends it, it says that the next date is out of range. A loop that goes on after errors (for x in it, it.filter_map(Result::ok)) ends exactly if times is among the adaptors, or until and a date that is not before its end reaches it; otherwise the error is repeated for ever, also with until.", "quantifier": "every valid start date, every positive step of one unit up to 4.29 billion years, every chain of adaptors with counts that are not negative, both build profiles; for texts every text for which parse returns an iterator with such a step", "why_tests_cant": "That a loop ends or does not, for every chain of adaptors, cannot be seen from finitely many calls.", "anchors": ["src/iter.rs: Iter::next, FilterIter::next, WithoutIter::next, UntilIter::next, TimesIter::next", "src/parser/iterator.rs: UserIterator"]}
{"id": "C162", "title": "when the command line program does not end", "statement": "The program goes on printing for ever exactly if its arguments are an iterator without a count that can be built and all of whose items are dates, before the end date if one was written; with any other arguments it ends. For a step of up to 4.29 billion years that is the case only if the step is zero, there is no count, and the start is before the end date if there is one.", "quantifier": "every list of arguments, every pair of clock readings, every sane implementation of the ISO 8601 parsers, both build profiles; the second part for every step up to 4.29 billion years", "why_tests_cant": "That a program does not end cannot be seen by running it.", "anchors": ["examples/main.rs: main", "src/parser/mod.rs: parse", "src/iter.rs: Iter::next"]}
{"id": "C163", "title": "which blanks and how many makes no difference", "statement": "For every text whatsoever, documented or not: replacing any run of blanks, tabs and line ends by any other such run changes nothing about what `parse` returns, and blanks at the end may be added and left out. Blanks may not be put inside a number or a word (`3 0 days` is rejected, `1 we ek` is read as `1 w`), and in front of a word like `daily` they make the text rejected.", "quantifier": "all texts and all ways of replacing their runs of blanks; all clocks, both profiles", "why_tests_cant": "a test tries a few texts with a few ways of writing blanks; that no parser looks at which blank it is or how many there are, at any place of any text, is a statement about all texts", "anchors": ["src/parser/mod.rs: parse", "src/parser/timetype.rs: integer, amount_parser, amount_expr, exact_date_parser, date", "src/parser/iterator.rs: iter_spec, until_spec, iterator"]}
{"id": "C164", "title": "the last of a weekday in a month", "statement": "daily(-1).every(day), counting back from a date, yields the days of that month with that weekday up to that date, the latest first, one a week, at the same time of day, and OutOfBounds errors from then on once the first of the month is passed. So from end_of_month of any date it yields all the days of the month with that weekday, starting with the last one: four or five of them, and no more dates.", "quantifier": "every sane clock and profile, every valid date, every weekday, every position in the sequence; for the second part every expression whose value is a date", "why_tests_cant": "A test shows one month and weekday; the claim is about the place of the last weekday in months of every length, starting on any day, and that nothing from the month before is ever yielded.", "anchors": ["src/iter.rs: Iter::next, FilterIter::next, extensions::daily", "src/matcher.rs: Matcher for Day", "src/timetype.rs: end_of_month, calculate, add"]}
{"id": "C165", "title": "a filter or a longer step", "statement": "Choosing one weekday out of daily steps and taking weekly steps from the first such day give the same dates: daily(n).every(day) and weekly(n) from its first date agree at every position (1 to 4 days per step). In the same way monthly(1).every(month), from a day up to the 28th, and yearly(1) from its first date agree. Past the last year chrono can represent both give OutOfBounds errors.", "quantifier": "every sane clock and profile, every valid start, every weekday or month, every number of days per step from 1 to 4, every position", "why_tests_cant": "A test compares a few items of two iterators; the claim is that two differently built iterators agree at all positions from all starts, up to the end of the range of dates.", "anchors": ["src/iter.rs: Iter::next, FilterIter::next", "src/matcher.rs: Matcher for Day, Matcher for Month", "src/timetype.rs: calculate"]}
{"id": "C166", "title": "a day of the month on a given weekday", "statement": "monthly(1).every(day) from a day of the month up to the 28th (Friday the 13th: from a 13th) yields exactly the dates on which that day of the month falls on that weekday, in order, at the same time of day, and OutOfBounds errors past the last year chrono can represent. Two of them are never more than fourteen months apart, so no call looks at more than fourteen months; there is at least one in every later year, and never more than three in a year.", "quantifier": "every sane clock and profile, every valid start on a day up to the 28th, every weekday, every position, every year of the range", "why_tests_cant": "A test finds the next Friday the 13th from one date; that there always is one within fourteen months, that none is left out, and that the search ends, depends on how the calendar repeats over all years.", "anchors": ["src/iter.rs: Iter::next, FilterIter::next, extensions::monthly", "src/matcher.rs: Matcher for Day"]}
{"id": "C167", "title": "a day of the year on a given weekday", "statement": "yearly(1).every(day) from any date but 29 February (birthdays on a Sunday) yields exactly the dates on which that day of the year falls on that weekday, in order, at the same time of day, and OutOfBounds errors past the last year chrono can represent. They are five to twelve years apart, so no call looks at more than twelve years. From 29 February the same holds with 1 March in all the years after the first, and no call looks at more than thirteen years.", "quantifier": "every sane clock and profile, every valid start, every weekday, every position", "why_tests_cant": "A test checks one birthday; that there is one within twelve years from any date, also over the ends of centuries that are not leap years, that none is left out and that the search ends is a claim about the whole 400-year cycle of the calendar.", "anchors": ["src/iter.rs: Iter::next, FilterIter::next, extensions::yearly", "src/matcher.rs: Matcher for Day"]}
{"id": "C168", "title": "how far a filter looks", "statement": "On an iterator with steps of seconds, minutes, hours or days, up to one day, every(day) never looks at more items per call than there are in six days, and one: as soon as N steps make six days, no call looks at more than N + 1 items. In the same way every(month), with steps up to 28 days, never looks further than 337 days. without(day), with steps up to six days, never looks further than one day, and without(month), with steps up to 28 days, never further than 31 days. The items yielded are all the items of the unfiltered iterator with that weekday, or in that month (for without: with another), and no other; at the end of the range of dates they are the errors of the unfiltered iterator.", "quantifier": "every sane clock and profile, every valid start, every unit from seconds to days, every such step, every weekday or month, every position", "why_tests_cant": "A test can time a call from some dates; that no call from any date searches longer, so that next of a filtered iterator returns promptly, is a claim about all dates and steps.", "anchors": ["src/iter.rs: FilterIter::next, WithoutIter::next, Iter::next", "src/matcher.rs: Matcher for Day, Matcher for Month"]}
{"id": "C169", "title": "months counted in days", "statement": "Adding months to a moment is adding days, also where the result is an error: one month is as many days as the month of the moment has, whatever the date; n months that lead no further than the January of the next year are the days of these months together; and every month after that counts as 30 days. One month back is always 31 days back, however long the month before is. Adding a year (but not from 29 February) and adding the days to the same date of the next year agree exactly for 1 to 30 January, for 1 to 30 March if the next year is a leap year, and for 1 April to 30 May if it is not.", "quantifier": "every sane clock and profile, every valid moment, every number of months up to 3*10^17", "why_tests_cant": "That two ways of writing the same distance give the same result or the same error on every date, including the rolled-over and the rejected ones, is a claim about all dates.", "anchors": ["src/timetype.rs: add_to_moment, sub_from_moment", "src/util.rs: adjust_times_add, adjust_times_sub"]}
{"id": "C170", "title": "the days of a month", "statement": "daily(1).every(month) yields the days of that month: first the start itself if it is in the month, or else the first of the next such month; after each day the next day of the month, after the last day of the month the first of the same month of the next year, all at the same time of day; and an OutOfBounds error when the range of dates is over. No call looks at more than 338 items.", "quantifier": "every sane clock and profile, every valid start, every month, every position", "why_tests_cant": "Tests look at a few items; that no day of the month is left out or repeated, in leap years too, over the whole range of dates, needs an argument about all positions.", "anchors": ["src/iter.rs: FilterIter::next, Iter::next, extensions::daily", "src/matcher.rs: Matcher for Month"]}
{"id": "C171", "title": "the times of a weekday", "statement": "With every(day) on an iterator whose steps, of seconds, minutes, hours or days, are at most a day long and fill six days (every hour, every 90 minutes), the first item is the start itself if it has the weekday; after each item comes the one a step later if that is still the same day, and otherwise the one a step and six days later, the first of that weekday a week later; and an OutOfBounds error when the range of dates is over. No call looks at more items than there are steps in six days, and one.", "quantifier": "every sane clock and profile, every valid start, every unit from seconds to days, every such step, every weekday, every position", "why_tests_cant": "Tests look at a few items; that no time of any such day is left out or repeated, for every step that fits, over the whole range of dates, needs an argument about all positions.", "anchors": ["src/iter.rs: FilterIter::next, Iter::next", "src/matcher.rs: Matcher for Day"]}
{"id": "C172", "title": "the first and the last working day of a month", "statement": "daily(-1).without(Saturday).without(Sunday), in either order, yields the working days counting back from a date, the date included, none left out, at the same time of day, until the first of the month is passed; every call after that is an OutOfBounds error. So from end_of_month of any date its first item is the last working day of the month, with only Saturdays and Sundays after it in the month; and daily(1).without(Saturday).without(Sunday) from the first of a month starts with the first working day, with only Saturdays and Sundays before it.", "quantifier": "every sane clock and profile, every valid date, every position in the sequence, both orders of the two exclusions; for the last working day every expression whose value is a date; for the first every valid first of a month", "why_tests_cant": "A test shows one month; the claim covers months ending and starting on every weekday and of every length, and that nothing from the month before is ever yielded.", "anchors": ["src/iter.rs: Iter::next, WithoutIter::next, extensions::daily", "src/matcher.rs: Matcher for Day", "src/timetype.rs: end_of_month, calculate, add"]}
