# qlab in Lean 4: design

Subject: nakashima-hikaru/qlab, read as text from `/repo`. Nothing is compiled or run there.
The model is in `lean/Verif/Model/`, specifications in `lean/Verif/Spec/`, helper lemmas in
`lean/Verif/Lemmas/`, property theorems in `lean/Verif/Props/`.

## Method

* Every Rust function becomes a total, computable Lean function. A panic is a value
  (`Rust.panic`), `Result` is `Except QLabError`, `Option` is `Option`. `&mut` becomes a returned value.
* Loops become structural or well-founded recursion. There is no fuel.
* Build profiles: integer arithmetic that can overflow takes a flag `oc`
  (`true`: overflow checks on, overflow panics; `false`: wraps).
* Calendars, day counts and interpolators are traits in Rust. They are parameters in the model,
  so the theorems about rolling, curves and bonds hold for every implementation.
* Numbers: the model is polymorphic in the value type and uses only the operations that
  `Value` (`crates/qlab-math/src/value.rs`) provides. Theorems about values are proved for exact
  arithmetic (an ordered field, or the real numbers where `exp` appears). Rounding of `f32`/`f64`
  is not part of those theorems; it is the subject of C71-C78. Structural theorems (which error, which panic, which index, which
  dates) are stated for an arbitrary value type, so they cover floats including NaN.
* Floating point (C71-C78): `Model/Float.lean` instantiates the value type with numbers of an arbitrary binary format:
  at least 24 significant bits, every operation the exact one followed by a rounding that is monotone, odd, idempotent,
  exact on small integers and of relative error at most `u = 2^-prec`. `Model/Binary.lean` constructs such formats
  (round to nearest, ties to even, 24 bits for `f32`, 53 for `f64`) and so shows the assumptions can be met. The exponent
  range is unbounded: overflow, underflow, infinities, NaN and the sign of zero are not modelled there. The library's
  `exp` is arbitrary; theorems that need it ordered or accurate say so in a hypothesis.
* IEEE 754 (C85-C91): `Model/Ieee.lean` instantiates the value type with the data of a binary interchange format: finite
  numbers with a sign bit, subnormal ones included, both infinities and one NaN. Results are the exact ones rounded to
  nearest, ties to even, infinite beyond the largest number, with the special cases of the standard. `f32` and `f64` are
  instances. The theorems of C71-C78 transfer where no overflow or underflow occurs; where it does, new theorems say what
  happens. `exp` is again arbitrary under hypotheses, which the correctly rounded one meets (`Lemmas/IeeeExp`).
* The shipped country calendars are translated by `tools/gen_calendars.py`, one Lean definition per
  Rust function, with file and line citations. The generated modules are committed.
* `Spec/Hebrew.lean`, `Spec/Islamic.lean`, `Spec/Equinox.lean`, `Spec/LunarFestivals.lean`, `Spec/SpringAutumn.lean` and
  `Spec/ThaiLunar.lean` (C123-C126, C133, C136, C140) state facts about other calendars from general knowledge, not from
  `/repo`: the rules of the Hebrew, the tabular Islamic and the Thai calendar, almanac formulas for the sun, and the dates
  of lunar festivals.  Sanity theorems
  (`C123_months`, `C123_new_year_weekday`, `C126_year`, `C125_tables`, `C136_tables`, `C140_every_year`) are beside them.
* `Spec/Closings.lean` (the single closings of the lunar-calendar countries, C66) is printed by
  `tools/gen_closings.py`, which evaluates the Rust conditions on every date of their years. It is a
  specification that a reader compares with published closings; the theorems of C66 do not trust the tool.

## Trusted base

* Lean's kernel. Axioms: at most `propext`, `Classical.choice`, `Quot.sound`
  (checked with `#print axioms`, see the end of this file).
* The reading of the Rust source as the Lean model, including the calendar translator.
* External code modelled by its documented contract, not by its source:
  `chrono 0.4.38` (`NaiveDate` range, `from_ymd_opt`, month/day arithmetic, weekday, `Display`),
  IEEE 754 arithmetic of `f32` and `f64` (`Model/Float` and `Model/Ieee`, see Method),
  `nalgebra` fixed-size matrix product, `num-traits` casts, `core::slice::partition_point`
  (modelled as the binary search of the standard library).

## Checks of the translation

* `COVERAGE.md` (printed by `tools/coverage.py`): every function of the code outside its tests, with the definitions of
  the model that cite it. None is missing.
* `Conformance/Calendars2023.lean` (printed by `tools/gen_conformance.py`): the model answers as the 39 year tables
  in the repository's calendar tests expect, on every day of 2023.
* `Conformance/Tests.lean`: the assertions of the unit tests in `crates/`, over exact rationals.
* `tools/bond_float.txt` (a Lean script, run by hand, not part of the build): `crates/qlab/tests/calculate_bond.rs`
  with the value type `Float`. The model prints 1314.5577192000126, the value noted in that test, to the last bit.

## Plan per property

| id | modelled | proof |
|----|----------|-------|
| C01 | `NaiveDate` as a valid y/m/d triple, `from_ymd` | case analysis against an independent `IsGregorianDay` |
| C02 | `leap_year`, `days_in_month` | arithmetic of the 4/100/400 rule |
| C03 | `serial_date` (days from CE) | monotone by components; successor by case analysis; surjective by explicit inverse |
| C04 | `Sub` | from C03 |
| C05 | `checked_add_days`, `checked_sub_days` | from the serial bijection |
| C06 | `succ_opt`, `pred_opt` | from the serial bijection |
| C07, C08 | `checked_add_months`, `checked_sub_months`, fallback branch | month index arithmetic |
| C09 | same | lexicographic order and month index |
| C10 | `checked_add_years` with the `oc` flag | case analysis |
| C11, C12 | `weekend_roll` | weekday arithmetic; witness for C12 |
| C13-C17 | `checked_roll` with an arbitrary calendar | well-founded induction on distance to the range end |
| C18 | `Act360`, `Act365` | field arithmetic |
| C19, C20 | `Thirty360` with the `oc` flag | modular arithmetic; exact panic domain |
| C21 | trait defaults and adapter | by cases |
| C22 | `JointCalendar` | boolean algebra; minimality of Following |
| C23, C24 | both Easter tables | whole table checked by the kernel against an independent computus, lifted to all years |
| C25, C26 | `business_days_between` | induction on the interval; witnesses |
| C27 | `last_day_of_month`, `end_of_month` | month arithmetic; well-founded induction |
| C28-C33 | all shipped calendars | symbolic evaluation of the translated predicates |
| C34 | `find_index_at_left_boundary` over the binary search | binary search invariant |
| C35, C36 | `Linear` | ordered-field algebra; witnesses |
| C37 | `CubicHermite` | `ring`/`field_simp`; `HasDerivAt` for slopes |
| C38 | `CatmullRom` | algebra; refutation for every grid on the last segment |
| C39 | the three constructors | induction on the point list |
| C40, C41 | `NaturalCubic` | algebra; witnesses in exact arithmetic |
| C42, C43 | `TridiagonalMatrix` | induction over the sweeps; exact characterisation |
| C44-C47 | `YieldCurve` | error-flow case analysis; `Real.exp` laws |
| C48-C51 | `Bond::new` and its two helpers | induction over the schedule loop; for C49 the exact day of every coupon, the largest that all months passed have |
| C52, C53 | `discounted_value` | induction over the flows |
| C54 | error conversion | case analysis |
| C55 | `Display` of dates | digit lemmas; lexicographic order of fixed-width digits; injectivity over all years |
| C56 | `CatmullRom` | one-sided derivatives of the segment polynomials; refutation on every grid; differentiable at a node iff its neighbours' ordinates agree; lines reproduced on the first segment, missed strictly inside every inner one unless level |
| C57 | `Hermite::try_new` | cases; refuted on the empty slice |
| C58-C60 | `YieldCurve` over the shipped interpolators | date order transported to year fractions; witnesses |
| C61, C62 | `Bond::new` | success domain of C51; weekend roll of C11; witnesses; the flow at maturity decides |
| C63, C64 | `Bond::new` and `discounted_value` on pairs of bonds | determinism of the schedule; linearity of the sum |
| C65 | `discounted_value`, `Bond::new` | witness over every curve; membership in the sum; weekday settlement from the weekend roll; converse by counting the days of the weekend |
| C66 | `is_business_day` of every shipped calendar; holiday vocabulary in `Spec/Holidays`, lists in `Spec/HolidayTables` and (generated) `Spec/Closings` | decide the vocabulary from year, month, day, weekday and distance from Easter; compare with the code by cases |
| C67, C68 | `France`, `UnitedStates` | witnesses; exact behaviour from the same decision |
| C69 | `impl Period for Days, Months, Years`, `checked_roll` | combine C05, C07, C10 with C13, C14 |
| C70 | all shipped calendars, `checked_roll` | from the exact holidays (C66): an over-approximation of when a holiday can fall (`Lemmas/HolidayRuns`), proved sound and evaluated by the kernel for all months, weekdays and listed years |
| C71, C75 | `Linear` over floating-point numbers (`Model/Float`) | products of factors `1 + d`, `abs d <= u`; refutation by evaluating `f64` (`Model/Binary`) |
| C72, C76 | the day counts over floating-point numbers | monotone and odd rounding; one or two roundings of a quotient; refutations in `f32`, `f64` |
| C73 | `discount_factor` over floating-point numbers | monotone rounding; hypotheses on `exp` |
| C74 | `discounted_value` over floating-point numbers | induction over the running total |
| C75, C78 | Hermite, Catmull-Rom and natural cubic splines over floating-point numbers | running error bounds (`Lemmas/FloatError`) against the same program over the reals, and against the cubic with the given end values and slopes; exact cancellation at the nodes; refutations in `f64` |
| C77 | `Bond::new` over floating-point numbers and over the reals | simulation: same branches, relative errors of each amount |
| C79-C81 | `YieldCurve` with each interpolator, `discounted_value` | discount factors in terms of interpolated yields; convexity of linear interpolation; superposition (C83) with a flat curve; refutations on a three-pillar grid; the exact value of both splines on flat data, and the signs of the weights of both splines (natural cubic: alternating signs carried through the elimination) |
| C82 | `discounted_value`, `discount_factor` | induction over the flows, multiplicativity (C46) |
| C83 | all four interpolators | segment formulas; linearity of both sweeps of the tridiagonal solver |
| C84 | `Display` of the errors (`Model/ErrorText`) | which errors can be returned (`Spec/ErrorText`); cancellation of prefixes and suffixes; dates contain no stop character |
| C85, C86 | all four interpolators over IEEE 754 data (`Model/Ieee`) | comparisons with NaN are false; the search ends at the first or behind the last node; acceptance is the absence of a strict descent |
| C87 | `Linear` over IEEE 754 data | below overflow and above underflow each operation agrees with `Model/Float`, so C71 transfers; refutations with the largest number |
| C88 | the day counts over IEEE 754 data | dates bound the integers, so nothing overflows; transfer of C72, C76 |
| C89 | `discount_factor` over IEEE 754 data, any `exp` with the hypotheses `IeeeExp`, `IeeeExpWithin` | monotone rounding with subnormal numbers (`Lemmas/IeeeRound`); refutation by `inf - inf` |
| C90 | `discounted_value` over IEEE 754 data | induction over the running total with an absolute term for underflow; refutation on the curve of C89 |
| C91 | `Bond::new` over IEEE 754 data, over `Model/Float` and over the reals | one simulation for any two number types (`bond_rel`); transfer of C77 |
| C92 | `YieldCurve::new`, `discount_factor`, `Bond::new` and `discounted_value` composed, over `Model/Float` and over the reals | simulation: rounded year fractions keep the order of dates, so both runs take the same segment; error of a quotient of rounded gaps, of the yield, of the exponent, of the sum |
| C93 | the same composition over `Model/Ieee` | every step is followed number for number by the run with an unbounded exponent, whose range is bounded by powers of two; the error bound is then C92's. Outcomes: comparisons of dates decide the search, so errors do not depend on yields |
| C94 | `NaturalCubic::try_fit`, `TridiagonalMatrix::solve` over `Model/Float` | induction over the forward sweep (pivots known to 12.5 units, multipliers at most 1/2 known to 8 units) and the backward sweep, whose errors contract |
| C95 | the interpolators in exact arithmetic | Bernstein-like forms of each segment; induction over the sweeps for the second derivatives |
| C96 | the interpolators over `Model/Ieee` | a calculus of approximations with a scale: each operation stays below the largest number, and gradual underflow adds at most one step of the smallest positive number, absorbed in the scale |
| C97 | curves with all three interpolators and bond prices over `Model/Float` | first the change of the exact interpolant when its nodes move by a relative error (for the natural cubic spline through the elimination), then the rounding errors of each spline (C78, C94) at the moved nodes, then the exponential and the sum as in C92 |
| C98 | curves with all three interpolators and bond prices, exact arithmetic | linearity of interpolation in the data (C83) makes exponents linear in the yields; Hölder's inequality by induction over the flows; C95 bounds the interpolated change |
| C99 | curves with all three interpolators and bond prices over `Model/Ieee` | the outcome through the order of the rounded times alone; the accuracy through C96 at the rounded times, the change of the exact interpolant when its nodes move (C92, C97), then product, difference, exponential and sum with absolute terms for underflow |
| C100 | `Date::checked_roll` by one day, any calendar | induction on the number of steps, counting business days in between |
| C101 | `checked_add_months`, `Thirty360`, bond schedules | month-length table over leap and common years, lifted by a lemma to every date |
| C102 | `Thirty360`, `Act360` | table of month offsets within a year, linear bounds on days before a year |
| C103 | `checked_add_years`, `weekday`, `Thirty360` | leap years repeat; serial numbers are linear over the cycle |
| C104 | `Linear::try_value`, `YieldCurve::discount_factor` over `Model/Ieee` | every operation rounds the exact extended-real result, and rounding is monotone |
| C105 | `Bond::try_new`, `Bond::discounted_value` over `Model/Ieee` | the same, by induction over the cash flows; NaN spreads through sums and products |
| C106 | `YieldCurve`, the three day counts, `Bond` at any value type | day counts see differences of serial numbers, 30/360 the fields modulo 400 years; induction over the loop of `Bond::new` |
| C107 | all interpolators, `YieldCurve::discount_factor` | segment by segment; the tridiagonal system scales as a whole |
| C108 | all interpolators | the search sees the abscissae only; segment formulas; for natural cubic splines a weighted bound on both sweeps of the tridiagonal solver |
| C109 | all interpolators, the tridiagonal solver, `Bond::new`, `Bond::discounted_value` over IEEE 754 data and over unbounded binary floating point | every operation respects a relation graded by dimension (time and money); the relation is carried through the code once, for any value type |
| C110 | all four interpolators in exact arithmetic | Rolle's theorem for the error of a chord and of a Hermite cubic; the other splines as a chord plus a bounded correction |
| C111 | `YieldCurve::new`, `YieldCurve::discount_factor`, `Bond::discounted_value` in exact arithmetic | C110 for the interpolated yields, carried through `exp` and the sum over the payments |
| C112 | `YieldCurve::discount_factor` in exact arithmetic | t y(t) is monotone on each segment when its two end slopes are not negative, then across segments by induction; witnesses on a grid of one, two and three years; the exact condition by one-day steps, whose change is linear in the day within a period |
| C113 | `YieldCurve::discount_factor` and `Bond::discounted_value` over `Ieee F` | sign symmetry (C109) makes the interpolated value of zero yields zero or NaN and C96 excludes NaN; a flat linear segment adds an exact zero; rounding and exp are monotone |
| C114 | `YieldCurve::discount_factor` over `Ieee F` | a factor that is neither tiny nor huge determines a finite exponent (monotone exp); time by yield at each date cancels in the telescoping sum; induction over the periods |
| C115 | `Bond::new` | total of the amounts by C50; the last coupon date by induction along the schedule (C48, C49); the gap is shorter than half a year (C101) |
| C116 | `business_days_between`, the shipped calendars, `JointCalendar`, repeated `checked_roll` | any seven consecutive serial numbers contain one of each residue mod 7; induction over the weeks; inclusion and exclusion for joint calendars |
| C117 | `checked_roll`, all conventions | both dates in one closed run have the same following and preceding business day, so a reversal needs different decisions, which needs different starting months |
| C118 | `Bond::new`, `discounted_value` | dates and period lengths do not depend on rate and face; the price is a sum linear in the amounts |
| C119 | `YieldCurve` on equal yields, `discounted_value` | C80 for every flow; the sum of exponentials is continuous and strictly decreasing, tends to zero and exceeds every bound; intermediate value theorem |
| C120 | `YieldCurve`, `discounted_value` | the discount factor to a pillar is exp (-r y) with r positive and independent of the yields, also for the last pillar of a Catmull-Rom spline; the price as a function of the last yield is a constant plus a sum of exponentials (C119) |
| C121 | all shipped calendars, `JointCalendar`, `checked_roll` | from the exact holidays (C66): for every month of 1901 to 2199 a table lists two days (`Lemmas/CommonDayTable`); the kernel checks them against the holidays of all calendars and the Easter tables, and checks the gaps between them; joint calendars by induction on how they are built |
| C122 | `Days`, `Months`, `Years`, `checked_roll` | months and years reduced to month numbers (C07, C10); a month of 28 to 31 days and a year of 365 or 366 by a table over month, day and leap year, then induction on the number of months; adjusted dates from C117 with equal starting dates |
| C123 | `israel.rs`; the Hebrew calendar (molad and postponements) as a specification | one table per year over the listed dates and the computed holidays, in both directions, decided by the kernel; lifted to dates by the injectivity of serial numbers; violated in 2038 |
| C124 | `japan.rs`; the almanac formula for the equinoxes as a specification | table over all days of March and September, 1980 to 2099, decided by the kernel and lifted to all dates; violated, the wrong years are listed exactly |
| C125 | `china.rs`, `hongkong.rs`, `southkorea.rs`, `taiwan.rs`, `singapore.rs`; the first days of the lunar years as a table | each listed day and offset decided by the kernel, lifted by the injectivity of serial numbers; violated by Singapore and Taiwan |
| C126 | `turkey.rs`; the tabular Islamic calendar as a specification | the year of a feast found from its serial number by division; every date from 2004 to 2034 decided by the kernel; violated in 2011, 2013 and 2015 |
| C127 | `Interpolator::try_fit` on an interpolator in any state | the state before a fit does not enter the result; induction over the sequence of fits |
| C128 | `NaturalCubic` over the reals, curves as functions with a continuous second derivative (Spec/Bending.lean) | integration by parts on every segment, summation over the segments; the terms at the points cancel if there is no kink; equality only if the second derivatives agree |
| C129 | `Linear`, `Hermite`, `CatmullRom`, `NaturalCubic` on reversed points | segment formulas; natural cubic splines by the uniqueness in C128 |
| C130 | `Linear`, `Hermite`, `CatmullRom`, `NaturalCubic` | segment formulas, each segment rises, and segments that rise make a curve that rises; the slope of a Hermite segment is a quadratic form in the distances from its ends, which gives the exact condition; natural cubic splines by the bound on the second derivatives from C95 |
| C131 | `Linear`, `Hermite`, `NaturalCubic`, `YieldCurve` with and without a further point | the two new segments are parts of the old one, the others stay; natural cubic splines by the uniqueness in C128 |
| C132 | `Linear`, `Hermite`, `CatmullRom`, `NaturalCubic` | the line of one segment is never above the others (linear); the slope never falls (Hermite), and comparing three close times gives the converse, which for Catmull-Rom forces all ordinates to be equal; for the natural cubic spline the smallest and the largest second derivative bound each other, tangents stay below, and the slope falls at the last point but two |
| C133 | `Singapore`, `Indonesia`, `India` | the tabular Islamic calendar of `Spec/Islamic.lean`; kernel check of every date, lifted by `forDates_date` |
| C134 | months, years, `Following`, `Preceding` | from the exact rules C07, C08, C10, C13, C14 |
| C135 | `Linear` | total variation adds up over segments; completing the square under the integral; slopes between their bounds |
| C136 | `HongKong`, `SouthKorea`, `China`, `Taiwan` | Ching Ming by the formula of the solar term, the others by tables checked against the length of the months; the calendar is evaluated on each day |
| C137 | `UnitedKingdom`, `Canada`, `NewZealand`, `business_days_between` | closed days by C66, decided with natural numbers and counted by the kernel for all the tabulated years; the count of business days by C25 |
| C138 | `Bond::new` | the loop run to a later date continues the shorter run; the first flow is changed in the same way whatever follows |
| C139 | `Bond::new`, `discounted_value` | dropping turns of the loop; the first period is regular if six months back from the next coupon is the coupon |
| C140 | `Thailand`, `Singapore` | the Thai lunar calendar as a recursion over the years, whose festivals are found in a table by the kernel and compared with the calendar; Vesak from the table of C136 |
| C141 | `Bond::new` | induction over the schedule of C48 with the distance of the months; totals from C50 |
| C142 | `YieldCurve`, `discounted_value` | powers of the discount factors of C98, one pillar at a time; derivative from C98 |

Properties whose English text is violated by the code (C12, C15, C20, C26, C33, C36, C38, C41, C42,
C49, C51, C56, C57, C59-C62, C65, C67, C68, C75, C76, C79-C81, C86, C87, C89-C91, C95, C110, C112, C115, C117, C123-C126, C128-C133, C136, C139, C140) get a theorem proving the violation with a concrete witness, and a theorem with the suffix
`_partial` giving the domain on which the property holds.

## Tests against wrong programs

`seeded/LOG.jsonl` records the edits tried and `seeded/README.md` how they were run. The scripted runs stop soon after the
first failure, so an entry shows that the named theorems catch the edit, not that every affected claim was checked.

## Not modelled

* `Debug` output, `Hash`, memory layout, performance, thread safety.
* Floating-point rounding in the value theorems up to C70 (see Method); overflow, underflow, infinities and the sign of
  zero in C71-C78 (they are in C85-C91). NaN payloads.
* `Default`/constructor boilerplate with no behaviour.
