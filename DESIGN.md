# Formal model of Popog/kairos in Lean 4: design

The Rust source (`/repo/src`, and the program `/repo/examples/main.rs`) is modelled function by function in
`lean/Verif/Model/`. Every definition there cites the file and lines it models and names its simplifications.

* `Model/` – the code. `Spec/` – small specifications that do not mention the model's helpers (Gregorian calendar,
  amounts as numbers of seconds, sequences of calls, the grammar of texts, kinds of expressions).
* `Lemmas/` – proofs about the model. `Props/` – the property theorems listed in `MANIFEST.json`, named after their
  property (`C16_exact_iff_partial`), each with an `example` that a concrete case meets its hypotheses.
* `Source/` – the Rust functions once more, translated mechanically by `tools/rs2lean.py`, and proofs that the model
  written by hand equals the translation (`Source/Agree*.lean`).
* `Tests/` – the repository's own unit tests replayed on the model. They are plausibility tests, not proofs.

## How the code is modelled

* **Results.** `Out α = ok | err ErrorKind | panic | oof`. `Result::Err` is `err`, a Rust panic is `panic`.
  `oof` ("out of fuel") is not a behaviour of the code: recursive functions and `while` loops are written with fuel,
  and it is proved that `oof` never comes out of `calculate` (C01) or `parse` (C65).
* **Integers.** `i64` values are `Int`; every `+ - * abs` goes through `Cfg.chk`, which in the `debug` profile panics
  on overflow and in the `release` profile wraps (`Int.bmod _ 2^64`). `as i32` and `as u32` always truncate. `/` and
  `%` are `Int.tdiv` and `Int.tmod` (truncating, as in Rust).
* **Build profile and chrono range** are the fields of `Cfg`. Theorems quantify over all of them. chrono's year range
  differs between 0.4.x releases; theorems that need a bound on it take the hypothesis `Sane c` (`Spec/Chain.lean`).
* **chrono** is not part of the repository. `Model/Chrono.lean` states what is assumed of it:
  `from_ymd_opt`/`and_hms_opt` accept exactly valid proleptic Gregorian dates / times in range, the accessors return
  the components, `weekday` follows the day count, comparison is chronological.
* **Evaluator.** The mutually recursive `do_calculate`, `add`, `sub`, `add_to_*`, `sub_from_*`, `end_of_*` are
  written verbatim as non-recursive bodies that take "the recursive call" as a parameter. `run` ties the knot with
  fuel, and `exec_unfold` proves that the fuel-free `exec` satisfies exactly the Rust recursion equations.
* **Iterators** are state machines `next : σ → σ × Option (Out TimeType)`. The unbounded `loop` in
  `FilterIter`/`WithoutIter` has fuel that counts loop rounds; "never returns" is "oof for all fuel".
* **Parser.** nom 3 is not part of the repository. `Model/Nom.lean` states what is assumed of its macros (`tag! alt!
  alt_complete! opt! complete! ws! digit sp map_res! do_parse!`), with results `done | error | incomplete`; nom's
  error descriptions are dropped. Input is a list of characters; the code reads the bytes of the
  UTF-8 encoding, and C126 proves that running the same parsers on those bytes gives the same results.
* **iso8601**'s two parsers are parameters of the model (`Iso`). Where a theorem needs a fact about them it is the
  explicit hypothesis `IsoSane` (what they leave over is the end of their input, and their numbers have the declared
  types), `NoIso` (they do not accept the text in question), or in C163 `IsoWithoutBlanks` (which blanks a text has makes no difference to them); instances that satisfy it are given beside the theorems.
* **The clock** (`Local::now`) is a parameter: two arbitrary moments, read for the start date and, later, for the `until` date.
* **The program** (`examples/main.rs`) maps command line arguments to a list of printed lines, or to a run that
  prints forever; lines are symbolic there, their texts are in `Model/Display.lean`.
* **The interface.** `Model/Api.lean` has the public constructors, the methods `every`/`without`/`until`/`times` of the extension traits
  and the iterator objects they build (C146).
* **Work.** `Model/Traced.lean`, `Model/IterTraced.lean`, `Model/Rounds.lean`, `Model/NomCounted.lean` and `Model/ParserCounted.lean` are
  the evaluator, `next`, the loops and the parsers once more with a record of the calls, rounds and steps; they are proved to return the same.
* **Texts.** `Model/Display.lean` has the `Debug` text of `TimeType`, the `Display` and `Debug` texts of `ErrorKind` and what
  the program writes (as if `RUST_BACKTRACE` were not set). It assumes std's number formats and the date formats of chrono 0.4.

## Agreement with the source text

`tools/rs2lean.py`, `tools/nom2lean.py` and `tools/txt2lean.py` parse the Rust text and write the generated modules of `Source/`. They
know nothing of the model's function bodies: each Rust construct has one fixed rendering, described in `Source/Rust.lean`,
`Source/RustIter.lean`, `Source/RustParser.lean` and `Source/RustMain.lean`, and anything else is an error. Loops and recursion become `partial_fixpoint`
definitions, so no fuel and no termination argument enter the translation; the recursive parser is a parameter, proved to have exactly one solution.

| Rust | generated | theorems |
|---|---|---|
| `util.rs`: leap years, month lengths, the two carry loops | `Util` | `AgreeUtil`: `adjust_times_add_eq`, `adjust_times_sub_eq`, … |
| `timetype.rs`: constructors, accessors, `add`, `sub`, `end_of_*`, `calculate` | `TimeType` | `AgreeTimeType`: `…_eq`, `TimeType.calculate_eq` |
| `indicator.rs`, `matcher.rs`, `Iter::build`, `minutely` … `every` | `Indicator`, `Filter`, `Matcher`, `IterBuild` | `AgreeIterBuild`: `…_eq` |
| `recalculate`, `skip`, `rollback`, `next` of all iterators | `Iter`, `Adaptors` | `AgreeIter`: `…_eq`, `FilterIter.next_diverges`, `WithoutIter.next_diverges` |
| `parser/*.rs`: all `named!` parsers, `into_timetype`, `into_user_iterator`, `next`, `parse` | `Parser` | `AgreeParser`: `amount_expr_unique`, `parse_eq`, `UserIterator.next_eq`, … |
| `Debug` and `Display` texts, `pretty_print` | `Text` | `AgreeText`: `…_eq` |
| `main` of `examples/main.rs` | `Main` | `AgreeMain`: `main_eq` |

C153 states the references for the generated functions themselves.

For these functions the translators and their renderings are trusted instead of the reading of the text. Read by hand are still: the declarations of the
data types (the translators check variants, fields and types against the text), and the assumptions on
chrono, nom, iso8601 and std. To rerun: `cd lean && python3 ../tools/nom2lean.py`. `seeded/SOURCE.jsonl` has one line per edit of the Rust
text that was translated and built again to see the agreement theorems fail.
`seeded/SPEC.jsonl` has one line per edit of a definition in `lean/Verif/Spec`: if a specification could be changed without any theorem
failing, it would say nothing. Where a theorem still holds after the edit, the line says why.

## Not modelled

Backtraces in the `Debug` output of `failure::Error`, the texts of nom's errors, memory use and stack
depth limits, time taken beyond the number of calls (C138, C151), loop rounds (C91, C139; a loop of 2^60 rounds counts as terminating) and
parsing steps (C150), the fuzz harness itself (its claim is C52), chrono's, nom's and iso8601's own code.

## Trusted base

Lean 4.33.0's kernel; the axioms `propext`, `Classical.choice`, `Quot.sound` at most (table at the end); the reading
of the Rust source recorded in the comments of `Model/`; the assumptions on chrono, nom and iso8601 above. No `sorry`,
no own axioms, no `native_decide`, no `bv_decide`, no Mathlib. `decide +kernel` is used only for closed examples,
concrete refutation witnesses and tables that are finite as a whole.

## Testing the theorems against wrong programs

In a scratch copy a definition of the model is edited the way a realistic bug would, everything that depends on it is
rebuilt with proofs that no longer go through replaced by `sorry`, and each property theorem that now depends on
`sorry` counts as failed. `seeded/LOG.jsonl` has one line per attempt, except for
edits that do not type-check. A theorem that survived an edit that makes its
English claim false was tightened, which the log line names.

What a log line does and does not say. A theorem counts as failed if its proof, or one it uses, no longer goes through; that
is not a proof that its statement is false of the edited program. Some runs stopped early, and some modules were not compiled to the end
(time or memory limit). Theorems of such modules, and of modules importing them, are not counted as failed, and the
note of the line names the modules. Earlier versions of the log did count
them: 38 lines were corrected. Nine of these had no failure left (eight edits of how amounts are read, three of which are the
same edit against different claims, and one of the carry of hours). They were run again with the examples beside the theorems
taken out; then every module needed was compiled to the end, and theorems of the claims failed in all nine.

## Per property

| id | property | status | how it is modelled and proved |
|---|---|---|---|
| C01 | calculate always returns | proved | fuel evaluator never `oof` when fuel ≥ a linear function of size; induction on fuel with a weight measure |
| C02 | results are fully evaluated | proved | `calculate = ok v → v` leaf; recalculation; same induction |
| C03 | calculate is idempotent | proved | `calculate = ok v → v` leaf; recalculation; same induction |
| C04 | amount arithmetic is exact | proved | trees of amounts vs. integer semantics in seconds; structural induction on trees; 72-arm tables by cases |
| C05 | amount arithmetic never errors | proved | trees of amounts vs. integer semantics in seconds; structural induction on trees; 72-arm tables by cases |
| C06 | a moment can only stand on the far left | proved | `add x (moment m)`, `sub x (moment m)` never `ok`; equations, induction on weight |
| C07 | left-to-right chains starting from a moment | partial | chain equations; refutation for `(m - a) + b`; equations; refuted for all inputs, partial for other three |
| C08 | amounts on the right are combined first | proved | `add (moment m) e` = bind; equations |
| C09 | end-of markers usable as operands | partial | refuted: never `ok`; cases over all left operands |
| C10 | end_of_year | proved | equations of the five markers; rewriting with spec calendar |
| C11 | end_of_month | proved | equations of the five markers; rewriting with spec calendar |
| C12 | end_of_day / end_of_hour / end_of_minute | proved | equations of the five markers; rewriting with spec calendar |
| C13 | end-of markers are idempotent and absorb | proved | equations of the five markers; rewriting with spec calendar |
| C14 | end-of needs a moment | proved | equations of the five markers; rewriting with spec calendar |
| C15 | successful results are real dates | proved | invariant `Valid` of results; induction over execution |
| C16 | adding seconds, minutes, hours or days is exact | partial | closed form of `adjust_times_add` against the day-number calendar; exact exactly up to 30 January of the next year, refuted beyond; loop invariants; closed forms for every amount in Props/AllAmounts |
| C17 | adding months | partial | closed form of the month loop; loop invariants; closed forms for every amount in Props/AllAmounts |
| C18 | adding years | partial | closed form of the year arithmetic; as stated for 32-bit years, described completely for every 64-bit amount (truncation modulo 2^32) |
| C19 | adding or subtracting zero | proved | corollaries of closed forms; order lemmas |
| C20 | adding a positive amount moves forward | partial | corollaries of closed forms; order lemmas |
| C21 | subtracting seconds, minutes, hours, days is exact | partial | case analysis of the borrow chain of `adjust_times_sub`; C21 refuted at exact multiples and short months; omega |
| C22 | subtracting months | partial | case analysis of the borrow chain of `adjust_times_sub`; C21 refuted at exact multiples and short months; omega; closed forms for every amount in Props/AllAmounts |
| C23 | subtracting years | partial | as C18, for subtraction |
| C24 | add then subtract returns to the start | partial | refuted with witnesses; partial ranges proved; from C16, C21 |
| C25 | grouping does not matter for added amounts | partial | refuted with witnesses; exact condition for seconds to days from the closed form of addition (code's 30-day calendar) by comparing day counts; partial ranges for months and years; from C16, C21 |
| C26 | debug and release builds agree | proved | relation between `debug` and `release` runs; induction over execution |
| C27 | out-of-range years are reported | partial | refuted for every moment and every multiple of 2^32 years; success characterised by an iff |
| C28 | out-of-bounds error carries the offending date | partial | refuted with witnesses; exact/partial statements; casts |
| C29 | get_* conversions | proved | functions on leaves; cases, div lemmas |
| C30 | classification of values | proved | functions on leaves; cases, div lemmas |
| C31 | is_a and is_in | proved | functions on leaves; cases, div lemmas |
| C32 | matchers agree with is_a / is_in | proved | functions on leaves; cases, div lemmas |
| C33 | iterator construction | proved | iterator state machine; induction on k / on operation lists |
| C34 | k-th item of a sub-monthly iterator | proved | iterator state machine; induction on k / on operation lists |
| C35 | k-th item of a monthly or yearly iterator | proved | iterator state machine; induction on k / on operation lists |
| C36 | iterators move strictly forward | partial | iterator state machine; induction on k / on operation lists |
| C37 | errors latch | partial | iterator state machine; induction on k / on operation lists |
| C38 | skip drops one item | proved | iterator state machine; induction on k / on operation lists |
| C39 | rollback replays the last item | partial | iterator state machine; induction on k / on operation lists |
| C40 | times(n) | partial | adaptors over arbitrary state machines; induction on number of calls |
| C41 | until(end) | proved | adaptors over arbitrary state machines; induction on number of calls |
| C42 | until on a forward iterator ends | partial | adaptors over arbitrary state machines; induction on number of calls |
| C43 | every/without filters | proved | adaptors over arbitrary state machines; induction on number of calls |
| C44 | filters on a forward iterator always answer | partial | adaptors over arbitrary state machines; induction on number of calls |
| C45 | parsed iterators behave like built ones | proved | adaptors over arbitrary state machines; induction on number of calls |
| C46 | amount expressions round-trip | proved | printer/parser round trip over nom model; induction on expression / digits |
| C47 | unit spellings | proved | printer/parser round trip over nom model; induction on expression / digits |
| C48 | aliases | proved | printer/parser round trip over nom model; induction on expression / digits |
| C49 | amount expressions read left to right | partial | printer/parser round trip over nom model; induction on expression / digits |
| C50 | parsed amount text evaluates to its grammar value | proved | printer/parser round trip over nom model; induction on expression / digits |
| C51 | numbers are never silently truncated | proved | printer/parser round trip over nom model; induction on expression / digits |
| C52 | parse never panics | partial | refuted with witnesses; the panic condition read off the parse result, C93 for the calculation |
| C53 | parse consumes its whole input | partial | refuted with witnesses; C52 partial for bounded numbers; C05 plus parser |
| C54 | iterator text | proved | parser equations; rewriting |
| C55 | parse always answers with a definite result | proved | parser equations; rewriting |
| C56 | today, yesterday, tomorrow | partial | parser equations; rewriting |
| C57 | ISO dates | partial | parser equations; rewriting |
| C58 | ordering of values | proved | derived lexicographic order; structural induction |
| C59 | leap years and month lengths | proved | model vs. spec calendar; case split |
| C60 | negative amounts are exact or rejected | partial | closed forms for negative amounts; omega |
| C61 | optimised builds never panic when calculating | proved | `calculate` in the release profile is never `panic`; induction over execution |
| C62 | the amount parser accepts only the documented grammar | proved | inversion of the amount parser: an accepted text is a member of `Spec/Grammar` followed by the rest; induction on the fuel |
| C63 | the checked build does not panic on expressions of reasonable size | proved | size measure on expressions (`Spec/Total`); interval invariant carried through the evaluator |
| C64 | date expression text | proved | printer/parser round trip for date expressions over the nom model |
| C65 | parse accepts nothing outside the grammar | proved | inversion of the whole parser against `Spec/Accepted`; parse never `oof` |
| C66 | daily and weekly iterators keep the weekday arithmetic | proved | items of a daily/weekly iterator by closed form of n steps; weekday by day count |
| C67 | daily().every(weekday) | proved | filter over a daily iterator; periodicity of the weekday |
| C68 | monthly().every(month) | proved | filter over a monthly iterator; periodicity of the month |
| C69 | after the end of a period comes the next period | proved | `end_of_*` followed by one second; calendar spec |
| C70 | adaptors on adaptors | proved | filters over arbitrary state machines; induction on calls |
| C71 | filters on a bounded iterator end | proved | filter over an iterator that ends; induction on remaining items |
| C72 | what a text means does not depend on the clock unless it says so | proved | `parse` as a function of the clock; induction over the grammar inversion |
| C73 | iterator text yields the documented dates | proved | composition of the parser round trip with the iterator theorems |
| C74 | the command line program prints what was asked for | proved | main.rs as a function from arguments to output; composition with parser and iterator theorems |
| C75 | arguments of the command line program | proved | joining and trimming of arguments; list lemmas |
| C76 | whether an expression can be calculated can be told from its shape | proved | abstract interpretation `Spec/Kind` of expressions; soundness and completeness by induction over execution |
| C77 | values of operands combine | proved | `calculate (a + b)` as a function of the values of `a` and `b`; corollary of C76's invariant |
| C78 | what parse returns can be calculated | partial | kinds of everything the grammar can produce; refuted for `yesterday + …` |
| C79 | monthly(1) has one item in each month | partial | closed form of one monthly step by month number; invariant of the run before and after the one skipped month |
| C80 | yearly from 29 February | partial | invariant of the run: all years so far leap, or a common year met |
| C81 | a larger amount leads further | partial | closed forms of adding; lexicographic monotonicity of the borrow chain level by level; refuted with 2^32 years |
| C82 | adding the same amount keeps the order | partial | corollary of exactness (short steps, months up to the 28th); the exact conditions by comparing month and position in the month in the closed forms; refuted for every 29 February and for the 31st; seconds to days in general from the exact error of each sum (lateBy) |
| C83 | amounts of the same length have the same effect | partial | closed forms of adding and subtracting for the two amounts coincide; refuted with the general form of the difference |
| C84 | how many items an iterator with an end date has | proved | k-th item of the iterator (C34, C35) with the end test of `until` (C41); rounding of the division |
| C85 | iterators that go backwards | partial | induction over calls with C60's exact success condition; refuted for every base; months and years by the same induction with C95, steps of multiples of 2^32 days with C60_adding_negative_every_partial |
| C86 | errors name what was wrong | partial | invariant on the result of every call of the evaluator: values are evaluated, errors are of the listed form; refutations for all operands |
| C87 | printed results can be told apart | proved | unique decomposition of printed texts (digit strings end at the first other character), induction over expressions |
| C88 | error texts can be told apart | proved | the fixed words of an error determine its kind, then C87's decomposition; invariant that operands of errors contain only proper moments |
| C89 | What the command-line program prints can be typed in again | partial | the soundness of the grammar (C65) excludes every reading of a text with a capital letter after the number; for moments, the date before the blank is read and the rest is shown to be ignored |
| C90 | Which texts are rejected | proved | soundness of the grammar (C65) for texts that are accepted, and stepping the parser model through the first amount or date for the other direction; induction over the digits and blanks |
| C91 | Calculating needs little room | partial | the evaluator model takes the permitted depth of calls as an argument: induction over the chain for the lower bound, induction over depth (run_eq_exec) for the upper one; induction over the number of rounds for the loops |
| C92 | When arithmetic on moments overflows | proved | bounds on every intermediate value of adjust_times_add and adjust_times_sub, by induction over the rounds of the loops; the wrapped value is followed through the carries to the date that chrono is asked for Subtracting in the wrapping build: the component wraps to the smallest numbers there are; there abs, negation and the final subtraction wrap too, which leaves the component out of its range modulo 2^32, except for days with exactly 2^63. |
| C93 | When calculations with amounts overflow | proved | every cell of the amount tables in the checked build as one overflow check; structural induction on the expression; C92 for the moment |
| C94 | Order of weekdays and months | proved | finite tables of weekdays and months in full; day numbers modulo 7; the chronological order of C58 |
| C95 | adding negative months and years | partial | The closed form of adding months for a resulting month number of any sign: at least 1, the two loops run as for positive amounts; at most 0, the length function answers 30 for every such month, so that only a 31st moves on, and the month number goes through the cast to u32. Years by C18_every_amount_partial. |
| C96 | unreadable parts of a text are noticed | partial | the parsers of date, step and bound succeed only on texts of the grammar (converse lemmas of C65), so on anything else their optional parts answer nothing and leave the text over |
| C97 | the README's examples do what they say | partial | The evaluation of a sum whose left operand is a difference (C07), the closed form of subtracting days (C24's lemmas) and the value of end_of_month (C11), composed for an arbitrary moment. |
| C98 | iterators can be written as the language document says | partial | A step begins with a letter and an operator is not a digit, so behind the date neither an offset nor a step can be read, and C96's theorems give the date alone; aliases by C54. |
| C99 | the documented conversion rules | partial | From the exact value of every accessor (C29), by arithmetic of truncated division; the list of week numbers by decide below 60 and a linear estimate above. |
| C100 | what the program prints is true and unambiguous | proved | An invariant (only existing moments, only own errors) carried through parser, evaluator, iterators and adaptors to the printed lines; the texts of lines shown injective by reading them back from the left. |
| C101 | the order of adaptors | proved | The adaptors as state machines over any iterator. `until` and `times` are shown to commute call by call; for filters an induction over the calls: either both orders are in the same state with the same answer, or nothing before the date is left. `times` before a filter: the filter sees the same items up to n and nothing after. |
| C102 | an iterator can be taken up again from any of its items | proved | The state of an iterator after yielding a moment is that moment, the increment and the started flag; so it is the state of a fresh iterator after its first call. |
| C103 | end-of markers tell periods apart and keep the order | proved | From the closed forms of C10-C12; the order by the lexicographic order of components, which is that of instants. |
| C104 | whole weeks later or earlier it is the same weekday | partial | Refuted by witnesses. Exactly when it holds from the closed forms of C16 and C21 (months of 30 days after the first December, months of 31 days backwards): the error is less than seven days, so that the weekday is right only if the date is. |
| C105 | comparing values by what they stand for | partial | `TT.cmp` (derived Ord) is modelled by constructor rank and then the contents; the theorems are case analyses over the units, C19 gives for every moment an expression that stands for it and compares as later than any moment. |
| C106 | an iterator that has ended stays ended | partial | Position-by-position descriptions of the adaptors (C40, C41, the first hit of a filter) and the shape of a forward run: moments up to the end of chrono's range, the latched error from there on. |
| C107 | how far additions and subtractions can be off | proved | One addition: C16 within the year, the closed form of `adjust_times_add` beyond it (months of 30 days lag the calendar by -1 to 5 days, years of 360 days by 5 or 6). Chains and iterators by induction on the steps: crossing no new year costs nothing. Subtractions from the closed form of `adjust_times_sub`. The exact number of days (lateBy) from the closed form of the sum. The exact shortfall of subtractions (shortBy) from C21_time_partial and C21_days_partial. |
| C108 | a text has one reading, and nothing else matters | proved | The parser is a function that returns the reading it is given: uniqueness from the round trips of C46, C54 and C64, whose lemmas say which branch of the parser answers; equal results because only the reading is handed on. |
| C109 | iterators with steps of the same length | partial | C83 gives the same outcome for each single step; induction over the calls, with the latched error (C37) once a step has failed. |
| C110 | adaptors see nothing but the items | proved | Bisimulation: having the same items is kept by one call of each adaptor (for the filters by induction on the rounds of the loop). |
| C111 | smaller units are left alone | proved | Components that are already in range pass through both adjustments unchanged, whatever happens to the others; for iterators by induction, each item coming from the one before. |
| C112 | subtract then add returns to the start | partial | From the exactness criteria of C21 and C24 with the two moments exchanged; months and years from the closed forms C17, C18, C22, C23. |
| C113 | subtracting the same amount keeps the order | partial | Lexicographic comparison of the closed forms of both subtractions; seconds, minutes and hours from the bounds of C107. Exactly when for these from the two possible shifts of C21_time_partial. For all units at once from the calendar with months of 31 days. |
| C114 | the calendar repeats every 400 years | proved | Simulation between the two evaluations, by induction on the fuel of the evaluator: leap years, month lengths and the loops over months depend on the year only modulo 400, and 32-bit truncation of years commutes with the move up to multiples of 2^32. |
| C115 | any order of next, skip and rollback | proved | Induction over the history; the state of the iterator is a position, and each call either moves it by one calculation or fails like it. |
| C116 | an iterator can be moved forth and back like a counter | partial | C115, and exactness of a single small step forth (C16) and back (C21), by induction over the moves.. Any number of seconds to days: induction over the moves with the exact conditions of C16 and C21 |
| C117 | The end of a period some periods away | partial | Composition of the exact descriptions of adding and subtracting (C16 to C18, C22, C23) with those of the ends of periods (C10 to C12). The iffs for days, hours and minutes: smaller units are left alone (C111), so a wrong moment has a wrong end. |
| C118 | working days | proved | The items of daily(1) are k days after the base (C34); leaving out every seventh and then every sixth of what is left (lemma on filters at periodic positions), by cases on the weekday of the base. |
| C119 | Every date can be reached from every other | proved | One component at a time: exactness of small amounts of either sign (C16, C17, C18, C60, C95), chained by C07. The negative part from the descriptions of what adding beyond the year gives (C16, C17). |
| C120 | grouping does not matter for subtracted amounts | partial | The condition for exact subtraction (C21) put in terms of instants and the start of the month, which makes it monotone; C22 and C23 for months and years. Exactly when, for all units, from the calendar with months of 31 days (C21_months_of_31_partial). |
| C121 | the order of added amounts does not matter | partial | Both orders equal adding the sum (C25, C05); months and years by their closed forms (C17, C18); a change of a single component (C119).; exact condition from the closed form of addition (as C25) In general from the exact error of each sum (lateBy). |
| C122 | a filtered iterator finds everything | proved | An iterator with a positive step yields valid dates up to a position L and one and the same error from there on (C36, errors latch); lemma on filters with matching items at any positions: the filtered items are those at the positions that pass, found by a search that ends at L at the latest; completeness by induction on the item number. without is every with the opposite test. The dates visited: C34. |
| C123 | everything between two dates | proved | From C122 and C41 (until, item by item): the first call that yields no date is found by a bounded search (item q is at least q seconds after the start); the list of the items before it; lists in order of time with the same members are equal, so the list does not depend on the fuel. The other order by C101. |
| C124 | the ends of the months and years an iterator visits | partial | The items by C35, C79 and C80, the ends by C10 and C11. Refutation: C79_refuted names a month without an item; end_of_month leads to that month only from within it. |
| C125 | An expression can be calculated part by part | proved | Expressions with a hole; induction on the expression around the hole, each layer by C77 (values combine, failing operand) and calculate_endOf; the kind is kept when a part is replaced by its value. Inside out: induction on the expression. |
| C126 | texts are read byte by byte, which makes no difference | proved | the parser model run on the UTF-8 bytes of a text, simulation lemma for every combinator and parser; Lemmas/Utf8 |
| C127 | an error inside an expression is the error of the whole | proved | order of evaluation of sums and differences (`add_sem`, `sub_sem`); induction on the context of the part, and on the expression |
| C128 | stretches of time can be split and sorted | proved | Consequence of C123: lists in order of time are determined by their members; the rest by C102. |
| C129 | two iterators side by side | proved | From the exact position of every item (C34, C35, C122). |
| C130 | how often a weekday occurs | proved | From C67; the count of the specification, one day at a time, is brought into closed form by induction. |
| C131 | adding a difference | partial | refuted with witnesses; exact conditions from C16, C21, C17, C22, C18, C23 through C07 (chains) and C08 (amounts combined first) |
| C132 | how many working days there are | proved | items of C118 cut off by C41; working days counted one by one (`Spec/Yields`), closed form by induction on the number of days |
| C133 | the n-th of a weekday in a month | proved | items of C67; the date so many days after the 1st by injectivity of day numbers |
| C134 | steps longer than 30 days | partial | Each item is the value of the one before plus the step (C102); C16_exact_iff decides each step; induction over the positions. The sharp bound takes the base one step before a 31 January. |
| C135 | a complete reference for what calculate returns | proved | Spec/Reference.lean defines one operation on values in closed form (oneStep). Each arm is shown equal to calculate from the closed forms of C16-C18, C93, C95 and, for negative and wrapped numbers, from the carries and borrows written out (Lemmas/Reference.lean); C125 lifts it to whole expressions, with the invariant that all values are existing moments or 64-bit amounts; iterators by induction over the calls, with C136 for what follows a failing step. |
| C136 | what is calculated first, and how a whole expression ends | proved | Each arm of the library's add and sub for compound operands is unfolded (Lemmas/Kinds.lean); where the code evaluates the right operand first although the left one is a difference of amounts, both can only overflow, so the order is not visible; structural induction with C135 for C136_whole. |
| C137 | the order of subtracted amounts does not matter | partial | Every subtraction with a result is exact in a calendar in which all months have 31 days, apart from one unit above for one number of units (C21_months_of_31_partial); dates are ordered, and equal, as in the real calendar there. |
| C138 | Evaluating an expression takes work linear in its size | proved | The evaluator once more, in a monad that writes down the calls made (Model/Traced.lean), proved to return what the model's evaluator returns. The list of calls made by each evaluation function, as a function of what the calls return (Model/Calls.lean), proved to be what is written down; a weight (twice the size) that is at least one more than the total weight of the calls made, because values that come back are leaves; induction on the depth. |
| C139 | How long an addition takes does not depend on the amount | partial | add_to_moment with its two loops cut off after given numbers of rounds, proved to give the same results when done by then; induction on the rounds of each loop relates their number to the months and years between input and output; refuted with 31·(k+1) days for every k up to 297 quadrillion. |
| C140 | Reading a text needs little room | partial | The recursive parser with a bound on its nesting; the body uses the recursive parser only on input with fewer operators; results of the bounded parser have at most as many amounts as the bound; the round trip of C46 for the bounded parser; refuted with 1d+1d+…+1d. |
| C141 | how every expression ends, also the ones without a value | proved | independent total function from expressions to endings (value, error with operands, overflow); equations for every pair of operand shapes, then structural induction that also carries the left part of a compound right operand |
| C142 | a complete reference for what parse returns | proved | Spec/Reader.lean is a reader written as plain functions on lists of characters, with longest matches instead of ordered alternatives and without nom's errors. Each parser of the model is proved to read what it reads, by cases on the combinators; amount expressions by induction on the length of the text. |
| C143 | a complete reference for the items of an iterator | proved | Spec/Walk.lean gives the items as answers. Invariant of the iterator's state after k calls: its base is the last item or, after a failure, an expression that ends (C141) as the item does; by induction on k. times and until by C40 and C41. |
| C144 | a complete reference for the command line program | proved | Spec/Program.lean composes the references. What is read is shown to have 64-bit numbers and dates of the calendar, so that C141, C142 and C143 apply; the loop by induction on the rounds. |
| C145 | a complete reference for iterators with adaptors | proved | Spec/Pipeline.lean: responses (item, end, never), adaptors as functions or relations on sequences of responses. Soundness (as far as loops are followed) and convergence (with enough rounds) are carried from adaptor to adaptor by induction on the chain; for filters the k-th call is matched with the position that k kept ones precede. C143 gives the sequence to start from. |
| C146 | constructors build what they are named after | proved | Model/Api.lean has the functions that only put things together. The claims are reduced to those about the variants (C10-C12, C29, C32, C115); adaptor objects are shown to return, call by call, what the loops do that the other theorems are about. |
| C147 | A text that is parsed as an iterator, with any adaptors put on the iterator, produces exactly the items the text and the adaptors describe | proved | `Spec/PipelineText.lean` puts the written bound in front of the adaptors. The reading is that of C142, the typing of what is read comes from the lemmas behind C144, and C45 (what a parsed iterator is) with C110 (adaptors only see items) shows that the calls of the parsed iterator under adaptors are those of the chain of C145. Then C145's theorems apply. |
| C148 | a release of chrono with a wider range of years changes no result | proved | The range occurs in `from_ymd_opt` only. A relation between runs with the two ranges (the narrower run is an out-of-bounds error because of the range, or both are the same) is preserved by `?`, holds for each evaluation function, and so, by induction on depth, for `calculate`; then for iterators, adaptors, the parser's conversions and the program. |
| C149 | Fractions of a second play no part | proved | `whole` (Spec/Fraction.lean) cuts all date-times of an expression; the evaluator commutes with it, arm by arm and then by induction on the fuel (Lemmas/Fraction.lean); iterators and adaptors by a relation between the states of the two runs. |
| C150 | Reading a text takes time linear in its length | proved | Model/NomCounted.lean: nom's combinators with a count of steps; Model/ParserCounted.lean: all parsers of src/parser with them, proved to return the same. Bounds compose along the combinators; for amount_expr by induction on the levels, since an amount that was read is never read again and only the last attempt can fail. |
| C151 | The work of a call of next | proved | Model/IterTraced.lean is `next` with the calls made for it; C151_result: it returns the same. By induction over the calls the iterator's state is a moment and the step as long as nothing has failed (next_states), for which the calls are written out; after a failure the base is the sum of the last moment and j steps, and the calls of such a sum are counted by induction on j (piled_calls). |
| C152 | a complete reference for next, skip and rollback in any order | proved | A cursor (Spec/Moves.lean) that moves by the reference for one addition or subtraction (Spec/Reference.lean). Simulation: iterator and cursor stay alike under each of the three calls; for a moment in hand by C135, after a failure because adding to or subtracting from a sum or difference that fails fails the same way. Induction over the calls. |
| C153 | what the references say holds of the program text itself | proved | The agreement theorems of Source/Agree*.lean carry the reference theorems over to the generated functions. For adaptors a simulation (Lemmas/SourceChain.lean): each translated next follows the model's as soon as its number of rounds is enough, and does not return (least fixed point of loop) if no number is. |
| C154 | the crate's own tests that read the clock pass whenever they are run | partial | Each test as a proposition with the readings of the clock as parameters (Spec/OwnTests.lean). The three until tests from C34 (k-th item), C41 (until), C16 and C21 (the end date); test_compile_skip by induction on the number of days left; test_compile from C44. |
| C155 | texts can be put together | partial | The text with an operator in between is the text of the nested expression (induction on the first text); its value by induction, counting the minus signs of the text; C50 and C64. |
| C156 | adaptors on an iterator that has been moved | proved | A moved iterator is matched with the position of Spec/Moves.lean call by call (C152); from there the simulation of C143 carries over to the calls of next, and the chain of adaptors is put on as in C145. |
| C157 | chains of adaptors can be rearranged and simplified | proved | A filter of a filtered sequence is the filter by both tests (induction on the position, counting the calls passed on); the other rules call by call; rewriting within a chain by splitting the chain; then C153, for the translated adaptors. |
| C158 | an iterator with adaptors can be taken up again from any of its items | proved | Spec/Resumed.lean says which adaptors are the same up to reduced counts. A chain described from one of its items on is again a chain of the same adaptors (by induction over the chain; for filters by counting what was passed on before), the items of the plain iterator from one of them on are those of a new iterator, and C153 carries this to the translated source. |
| C159 | every k-th item of an iterator | partial | From the closed forms of the k-th item (C34, C35, C80) for both iterators; the exact criterion from that of C134 for the long step, as the short steps are always right. |
| C160 | an iterator read from a text is one that can be built | proved | Both iterators are described by the same chain of Spec/Pipeline.lean (C153_texts and C153_adaptors); taking it up again is C158 for the chain with the written bound first. |
| C161 | loops over iterators end | proved | By induction over the chain: its items are items of the plain iterator in the same order, an end comes from a count or from a date that reaches an until, and an end is passed on by every adaptor; with C36 for the plain iterator and C153 for the translated source. |
| C162 | when the command line program does not end | proved | From the reference for the program (C144, C153): the loop over the items is still running after any number of rounds exactly if all items are values; the items of a positive step run out (C36), those of a zero step are all the start (C19). |
| C163 | which blanks and how many makes no difference | proved | Two texts are related if they differ only in their runs of blanks (Spec/Respaced.lean). Every part of the reader of C142 takes related texts to the same reading and related rests; then C142. |
| C164 | the last of a weekday in a month | proved | Lemmas: the items of daily(-1) are exact while in the month and errors afterwards (C85), the filter picks one of every seven (`filter_periodic`); then the end of the month of C11. |
| C165 | a filter or a longer step | proved | The filter picks the items at k0 + 7 q (or k0 + 12 q) (`filter_periodic`); the iterator can be taken up again at k0 (C102); every seventh (twelfth) item of it is the longer step (C159, and C109 for 12 months and a year). |
| C166 | a day of the month on a given weekday | proved | Month beginnings in two successive years as a table over leap or not, month and weekday (complete, decided); the positions with the weekday listed by choice of the next one; `filter_positions`, and C35 for the items. |
| C167 | a day of the year on a given weekday | proved | The weekdays of New Year over a cycle of 400 years as a complete table, decided; a day of the year is a fixed number of days after a New Year; then as C166. |
| C168 | how far a filter looks | proved | A stretch at least as long as a step is never stepped over (`step_into`); the way to the next such weekday or month is at most 6 or 337 days (complete table of months and leap years, decided); `filter_positions`, C34 for the items. |
| C169 | months counted in days | proved | Number of days in `Spec/MonthDays.lean` (real month lengths up to December, 30 after that); both sides in closed form for every amount (C16, C17 within and beyond the year, from the 31st; C21 for the way back; C16_exact_iff for the year). |
| C170 | the days of a month | proved | The positions of the items in the month (C168_month), the items of the unfiltered iterator (C34), and that the named day is the least day of that month from there on (`Cal.dayNumber_lt_iff`). |
| C171 | the times of a weekday | proved | The positions of the items with the weekday (C168_weekday), the items of the unfiltered iterator (C34), and that the named instant is the least with the weekday from there on. |
| C172 | the first and the last working day of a month | proved | Spec/WorkDays.lean counts working days backwards (workDayBack) and proves that the count leaves none out. The items of daily(-1) are those of C164; the two exclusions are two uses of the lemma about leaving out one item of every period (7, then 6), and the arithmetic of the positions is shared with C118 (Lemmas/WorkDays.lean). The last and the first working day are position 0. |

## Where the code disagrees with a property

Each of these is a theorem, not an observation: the refutation quantifies over all inputs it concerns wherever
that was possible, and a `_partial` theorem says where the property does hold.

* **C07 left-to-right chains starting from a moment.** False of the code: (m - a) + b always fails because add() swaps the operands of a subtraction on the left (C07_refuted_all, witness). The other three combinations are proved, for chains of any length.
* **C09 end-of markers usable as operands.** False of the code: an end-of marker as a direct operand never evaluates (C09_refuted). Proved: as outermost operation it uses the value of its argument.
* **C16 adding seconds, minutes, hours or days is exact.** False of the code beyond the first turn of the year (C16_refuted). Proved: exactly when it is right, always right up to 30 days, an error past the last year, and what the result is for every amount.
* **C17 adding months.** False of the code for the 31st (C17_refuted) and beyond 2^32 years (C17_refuted_far). Proved: exactly when it is right; days up to 28 always; what the result is for every amount.
* **C18 adding years.** The statement is false beyond 32-bit years (C18_refuted, C27_refuted_everywhere). Proved as stated whenever the resulting year fits in 32 bits; and for every 64-bit amount a complete description of what happens instead (C18_every_amount_partial).
* **C20 adding a positive amount moves forward.** Proved for positive amounts of any unit up to 1.335e17 seconds (4.29 billion years; 2^32 years is the first counterexample), and for chains of any number of them (C20_chain_partial: at least one second per positive amount); false beyond (C20_refuted).
* **C21 subtracting seconds, minutes, hours, days is exact.** False of the code (C21_refuted: the 60th borrow, months shorter than 31 days). Proved: exactly when it is right (every n), the exact result of every amount below 2^32 (C21_time_partial, C21_days_partial), exact or rejected outside one value, always rejected from 63 days on (up to eleven million years); every 64-bit amount is rejected outside a window (C21_window_partial).
* **C22 subtracting months.** Proved in full for n below 2^32; false beyond (C22_refuted); result described for every 64-bit n.
* **C23 subtracting years.** The statement is false beyond 32-bit years (C23_refuted, C27_refuted_everywhere). Proved as stated whenever the resulting year fits in 32 bits; and for every 64-bit amount a complete description of what happens instead (C23_every_amount_partial).
* **C24 add then subtract returns to the start.** False of the code (C24_refuted). Proved: exactly when it holds, for every number of seconds, minutes, hours and days, and for every number of months and years (C24_every_month_iff_partial, up to the last that do not overflow).
* **C25 grouping does not matter for added amounts.** False of the code (C25_refuted). Exactly when the two agree, where all sums have results: for seconds to days (C25_iff_partial, amounts up to 4.29 billion years) and for months from any day (C25_months_iff_partial). Also proved for totals up to 30 days (any unit mix), for any second step if the first stays in the year, for months (day up to 28) and years (for 29 February: exactly when), in these cases with errors.
* **C27 out-of-range years are reported.** False of the code: any multiple of 2^32 years is silently no change at all, for every moment (C27_refuted_everywhere). Proved: reported whenever the resulting year fits in 32 bits; and exactly when adding years succeeds (C27_success_partial).
* **C28 out-of-bounds error carries the offending date.** False of the code: the day field always repeats the hour (C28_refuted_everywhere, for every expression). Proved: the other fields, for years and for times of day in plain words (C28_other_fields_partial), and for every moment and amount which six numbers are named (C28_every_field_partial, against the closed forms of Spec/Reference.lean).
* **C36 iterators move strictly forward.** Proved for positive increments up to 1.335e17 seconds (4.29 billion years; 2^32 years is the first counterexample); false beyond (C36_refuted).
* **C37 errors latch.** Proved for iterators that have delivered their first item, for every history. False before that: after a failed skip, next returns Ok with an unevaluated expression (C37_refuted); that first next is the only call that escapes, and its expression gives the same error when calculated (C37_before_first_partial, C37_hidden_error_partial).
* **C39 rollback replays the last item.** False of the code (C39_refuted). Proved: exactly when it holds for every step in seconds, minutes, hours or days, and for every number of months and years (C39_every_month_iff_partial, up to the last that do not overflow).
* **C40 times(n).** Proved for 0 ≤ n < 2^63, every iterator. False for negative n (C40_refuted): 2^64+n items in the wrapping build, 2^63-1 and then a panic in the checked one (C40_negative_*).
* **C42 until on a forward iterator ends.** Proved for positive increments up to 1.335e17 seconds; false beyond (C42_refuted: 2^32 years).
* **C44 filters on a forward iterator always answer.** Proved for positive increments up to 1.335e17 seconds; false beyond (C44_refuted: 2^32 years) and for zero increments.
* **C49 amount expressions read left to right.** False of the code and of doc/language.md's grammar (C49_refuted: x - y - z is x - y + z). Proved for texts in which no minus is followed by a further operator, and for all texts: each amount counts negatively exactly if an odd number of minus signs stands before it (C49_signs_partial).
* **C52 parse never panics.** False of the checked build: C52_refuted, C52_refuted_weeks. Proved for the wrapping build on every text; for every build on every text in which no amounts of more than 3.9e18 seconds are written together; and exactly when the checked build panics: for amount expressions, for dates, and for iterator texts in all four cases of the start date (it has a value; 'yesterday + ...'; it names no date; it lies outside the calendar).
* **C53 parse consumes its whole input.** False of the code: C53_refuted, for every amount text and every rest that does not continue it; nothing behind an amount is ever a reason for rejection (C53_refuted_everywhere). Proved: texts that as a whole are expressions are read as a whole.
* **C56 today, yesterday, tomorrow.** False for yesterday: C56_refuted. today and tomorrow proved; yesterday characterised exactly (error on 1 Mar/May/Jul/Oct/Dec, right otherwise).
* **C57 ISO dates.** False of the code for ordinal dates (always one day late) and week dates (always 5 to 11 days late); calendar dates and date-times proved, and the exact expression the other forms become, with their errors (C57_other_forms_partial).
* **C60 negative amounts are exact or rejected.** False of the code (C60_refuted). Proved: the outcome of adding any negative 64-bit number (C60_adding_negative_every_partial), exact or an error down to -3.7e14 seconds (C60_adding_negative_partial), and exactly when it succeeds (C60_adding_negative_iff_partial); exactly when subtracting succeeds and with what result, for every number that does not overflow (C60_subtracting_negative_every_partial, _iff_partial).
* **C78 what parse returns can be calculated.** Refuted: 'yesterday + <amounts>' is accepted but can never be calculated (C78_refuted). Holds for all other texts.
* **C79 monthly(1) has one item in each month.** False for every base on the 29th to 31st: exactly one month is left out, at most 23 months on, and from then on all items are on the 1st, 2nd or 3rd (C79_refuted, in general). Proved for bases up to the 28th; for any number of months per step and any base, C79_every_step_partial says what every item is, before and after the first step that cannot keep the day.
* **C80 yearly from 29 February.** False: after the first common year all items are on 1 March (C80_refuted: for yearly(1) never 29 February again). Proved: the full description of every item, for every step.
* **C81 a larger amount leads further.** Proved for every unit: adding 0 to 4.29 billion years, subtracting amounts of either sign below 2^32 (years: 2*10^9). False beyond (C81_refuted: 2^32 years is no change).
* **C82 adding the same amount keeps the order.** Proved for up to 30 days, for any number of seconds, minutes, hours and days in one year, and for months on days up to the 28th. Exactly when the order is kept: months from any days (C82_months_iff_partial, and simple safe cases, C82_months_safe_partial), years (C82_years_iff_partial), seconds to days (C82_late_iff_partial, and simpler conditions by cases, C82_days_iff_partial). False for days across New Year (C82_refuted_days), months from the 31st (C82_refuted) and for years around 29 February, in general (C82_refuted_years).
* **C83 amounts of the same length have the same effect.** Adding: proved for all amounts up to days; 12 k months and k years exactly when (C83_adding_months_iff_partial: not from a 31st, and from 29 February into leap years only). Subtracting: 12 months are a year for every moment, 24 or more months never (C83_refuted_many_months); 60 seconds, 60 minutes, 24 hours exactly if the component is not 0. Refuted on the 31st, 29 February, in general on every full minute and hour (C83_refuted_everywhere), and for every multiple k >= 2 of one unit, which is always an error (C83_refuted_many).
* **C85 iterators that go backwards.** False of the code (C85_refuted): the iterator gives up at the start of the minute, hour, day or month, exactly as described there, and in months at the start of the year (C85_months_partial); steps of 2^32 days back are no steps at all (C85_refuted_far). Proved: what it does give is exact down to -2^32 days per step, once it fails it fails for good, and years are right down to the first year (C85_years_partial).
* **C86 errors name what was wrong.** Proved: every error is of a known form whose right operand can never be used, for calculable shapes only OutOfBounds, end-of-year and end-of-month named correctly, iterators. Refuted: end_of_day, end_of_hour and end_of_minute of an amount are reported as end-of-month, and with an end-of marker on the left the operands are reported in the wrong order.
* **C89 What the command-line program prints can be typed in again.** Refuted: no printed amount is accepted, since unit names are printed with a capital letter (C89_refuted), and a printed moment comes back as midnight of its day (C89_refuted_moments). Proved: the printed line in lower case gives every non-negative amount again (C89_lower_case_partial).
* **C91 Calculating needs little room.** Refuted: for every depth there is an expression with a value that needs deeper calls (C91_refuted; a chain of k amounts needs more than k and at most 4k+3, C91_chains_partial, C91_chains_enough_partial), and a failed iterator's expression grows with every further call (C91_refuted_iterators). Proved: depth at most twice the size of the expression (C91_depth_partial), and how often the loops turn (C91_day_rounds_partial, C91_month_rounds_partial). Time is measured in rounds of the loops only.
* **C95 adding negative months and years.** False of the code (C95_refuted: three months before 31 March is 1 January of the same year). Proved: the outcome for every negative 64-bit number of months (C95_negative_months_partial); right or an error from the first 28 days of a month, right exactly if it stays in the year (C95_months_exact_or_error_partial); years (C95_years_partial, and C18_every_amount_partial for every number).
* **C96 unreadable parts of a text are noticed.** False of the code at every place: what cannot be read as an offset or step is ignored and the date alone returned (C96_refuted, C96_refuted_step), what cannot be read as a bound is ignored and the iterator has no end (C96_refuted_bound), and whatever stands behind a bound is ignored (C96_refuted_end), in general. Proved: a text whose very beginning cannot be read is rejected; readable parts are used (C54, C64).
* **C97 the README's examples do what they say.** The code violates it: the README's first line is an error on every day, because adding to a subtraction swaps the operands (C97_refuted). The second line gives the end of that month or an OutOfBounds error, with exactly the condition for which (C97_days_ago_partial), for numbers of days that lead at most into the month before; further back the month can be wrong (C97_refuted_month_ago).
* **C98 iterators can be written as the language document says.** The code violates it: a step given by a number and a unit without the word every is ignored, together with everything behind it, and the text is the date alone (C98_refuted). Aliases work as described (C98_alias_partial); with every in front of it number unit works (C54).
* **C99 the documented conversion rules.** False of the code in two points: amounts in a smaller unit give zero exactly if they are less than one of the larger unit (C99_refuted_smaller), and four weeks do not make a month: n weeks count as 7n/30 months, which is n/4 for 24 numbers only (C99_refuted_weeks). The other rules are proved (C99_larger_partial; all pairs of units: C29).
* **C104 whole weeks later or earlier it is the same weekday.** False of the code (C104_refuted). Proved: adding any number of weeks exactly when (C104_adding_iff_partial), up to 51 weeks with the months spelled out, up to four weeks always; subtracting exactly when (up to 2^32 days).
* **C105 comparing values by what they stand for.** False of the code: the derived comparison goes by the form first. 3600 seconds are less than a minute, 60 seconds are not equal to a minute, and every expression still to be computed is later than every moment. Proved: amounts of one unit compare by length; for two units exactly when the result is right; amounts < moments < everything else.
* **C106 an iterator that has ended stays ended.** False of the code: until(end) on any iterator that goes forward comes back with an OutOfBounds error when called often enough after its end (C106_refuted); with a negative step it yields items again (C41_not_fused). Proved: times and filters stay ended on anything that does; until on a forward iterator yields no item again.
* **C109 iterators with steps of the same length.** Proved for seconds to days, any length from zero to the end of the integer type; for months and years from bases up to the 30th but 29 February. False for the others (C109_refuted): after one step the two agree exactly if the base is not on a 31st and a 29 February leads to a leap year (C109_first_step_iff_partial).
* **C112 subtract then add returns to the start.** False of the code (C112_refuted). Proved: exactly when it holds, for every number of seconds, minutes, hours and days, and for every number of months and years (C112_every_month_iff_partial, up to the last that do not overflow).
* **C113 subtracting the same amount keeps the order.** Proved for days, months and years (also where the dates reached are wrong), and for all units exactly when it holds (C113_time_iff_partial, C113_months_of_31_iff_partial); false otherwise (C113_refuted).
* **C116 an iterator can be moved forth and back like a counter.** False of the code (C116_refuted: days over the end of a month; C79, C80: months from the 29th on, years from 29 February). Proved for increments of up to 59 seconds, 59 minutes or 23 hours, for any number of seconds to days exactly when every position is right (C116_every_position_iff_partial, C116_calls_partial), for months from bases up to the 28th (below 2^32 months), and for years from any day but 29 February (up to 2*10^9 years, of either sign).
* **C117 The end of a period some periods away.** Refuted: from any 31 January the end of the month one month later is said to be 31 March, from any 31 December the last of February (C117_refuted). Proved: exactly when the end of a later month is right (the day exists in it, and not from a 31st over the turn of a year), always up to the 28th; years in either direction for years in 32 bits, from every day; subtracting months (fewer than 2^32) and years is right or an OutOfBounds error, and which; adding and subtracting days, hours and minutes: exactly when it is right, for every number of them (C117_days_iff_partial, C117_subtracting_days_iff_partial), and always up to 30 days added.
* **C120 grouping does not matter for subtracted amounts.** False of the code (C120_refuted). Proved: amounts of any units, exactly when both ways lead to the same moment, where they have results; seconds to days, when both at once is the exact date, so is one after the other (apart from one number of hours); months, exactly when both ways have results and agree; years in full.
* **C121 the order of added amounts does not matter.** False of the code (C121_refuted). Proved for seconds to days: exactly when the order does not matter (C121_late_iff_partial; a simpler condition if one of the two alone stays in the year, C121_iff_partial); if each alone stays in the year, the same outcome always; two numbers of months, and months and years, from any day: exactly when (C121_months_iff_partial, C121_months_and_years_iff_partial), up to the 28th always; months and an amount of either sign of a smaller unit that changes only its own component, up to the 28th.
* **C124 the ends of the months and years an iterator visits.** Years: proved for every base. Months: proved for bases up to the 28th; false for every base from the 29th on, where the end of some month within 23 months is missed (C124_refuted, in general).
* **C131 adding a difference.** False of the code (C131_refuted). Proved exactly when it holds: seconds to days (where additions are right, always so up to 30 days); months up to the 28th with errors, from any day where both ways have a result; years from 29 February; and years from any other day always, any outcome.
* **C134 steps longer than 30 days.** False of the code: with steps of 516 days or more the second item is never right (C134_refuted), and every step longer than 30 days is wrong from some base (C134_thirty_days_is_best). Proved: exactly when the items are right, for every step (C134_exact_iff_partial); always as long as they stay in the year of the base.
* **C137 the order of subtracted amounts does not matter.** False of the code (C137_refuted). Proved: where both orders have results, days, months and years can be subtracted in either order, any number of them (C137_chains_partial); for two amounts of any units exactly when both orders lead to the same moment (C137_iff_partial).
* **C139 How long an addition takes does not depend on the amount.** Refuted: C139_refuted, C139_days_partial, C139_months_partial. Proved instead: the exact number of rounds of every addition with a result of up to three billion years (C139_rounds_partial), that additions with results are done after as many rounds as chrono has months (C139_results_are_quick_partial), years (C139_years_partial), and that the version with counted rounds is the code otherwise (C139_cut_off).
* **C140 Reading a text needs little room.** Refuted: C140_refuted (for every depth there is a text that needs more). Proved instead: the exact depth for every text of the grammar (C140_exactly_partial), a bound for every text whatsoever (C140_enough_partial), and that calculating nests more than 2k - 2 deep (C140_calculating_partial).
* **C154 the crate's own tests that read the clock pass whenever they are run.** False: test_until fails on the first of March, May, July, October and December (C154_refuted). Proved: exactly when each of the three until tests passes (before the last of chrono's years); the other tests always pass.
* **C155 texts can be put together.** False if an odd number of minus signs stands in the first text: the operator then works as the opposite one (C155_refuted). Proved: what the text stands for in every case, and exactly when that is what is written.
* **C159 every k-th item of an iterator.** False of the code (C159_refuted_days, C159_refuted_months, C159_refuted_years: from 29 February in general). Proved: for k steps of up to 30 days together; for any k exactly when it holds (C159_iff_partial); months from days up to the 28th, and from any day as long as the shorter step keeps the day (C159_months_kept_partial), not after that while the longer one does (C159_months_lost_partial); years but from 29 February, and from there exactly when (C159_29_february_iff_partial).

## Axioms of each property theorem

Measured with `#print axioms`. No axiom is declared in the project.

* `none` only: C30_name_word, C30_name_unit, C83_weeks_partial, C146_assignment.
* `propext` only: C04_finest_divides, C07_refuted_witness, C09_refuted_witness, C16_refuted, C17_refuted, C20_refuted, C21_refuted, C22_refuted, C24_refuted, C25_refuted, C26_profiles_agree, C26_accessors, C26_constructors, C26_adaptors, C27_refuted, C28_refuted_witness, C30_classes, C30_predicates, C30_get_moment, C30_get_non_amount, C31_not_a_moment, C32_not_a_moment, C33_build, C33_every, C33_named, C33_first_item, C36_refuted, C37_refuted, C37_refuted_witness, C38_skip_started, C39_refuted, C41_only_before, C41_not_fused, C45_user_iterator, C58_different_forms, C58_same_form, C58_amounts, C60_refuted, C61_release_never_panics, C61_iterators, C61_accessors, C63_bound_needed, C75_splitting, C81_refuted, C82_refuted_days, C82_refuted, C83_refuted_adding, C83_refuted_subtracting, C87_leap_inside_a_minute, C95_refuted, C97_refuted_month_ago, C104_refuted, C105_refuted_amounts, C105_by_form_partial, C106_endless_partial, C106_refuted_witness, C109_refuted, C112_refuted, C113_refuted, C115_increment, C116_refuted, C120_refuted, C121_refuted, C131_refuted, C137_refuted, C138_made, C146_moments, C146_increment, C146_adaptors, C146_filters, C149_questions, C149_until_looks, C154_refuted, C159_refuted_months, C159_refuted_days.
* `propext, Quot.sound` only: C15_results_are_dates, C15_computed, C15_whole_seconds, C26_iterator, C26_user_iterator, C31_one_weekday, C31_one_month, C32_matchers, C38_skip_n, C40_negative_release_partial, C43_every, C43_without, C43_no_match_hangs, C43_yields, C44_refuted, C70_every_every, C70_partition, C74_prints_the_items, C76_errors, C94_total_order, C101_until_times, C101_every_without, C102_resume, C102_until, C105_one_unit_partial, C106_filters_partial, C110_adaptors_see_items, C114_weekdays, C138_lists, C138_all_calls, C149_calculate, C149_skip_rollback, C149_later_items, C156_like_a_new_one.
* `propext, Classical.choice, Quot.sound`: all other 590 theorems named in MANIFEST.json.
