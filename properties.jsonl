{"id": "C01", "title": "Date construction accepts exactly the Gregorian calendar", "statement": "Date::from_ymd(y,m,d) returns a date exactly when (y,m,d) is a day of the proleptic Gregorian calendar in the supported year range, and the returned date reports year()=y, month()=m, day()=d; two dates with the same components are equal.", "quantifier": "every i32 year, u32 month and u32 day", "why_tests_cant": "2^96 inputs; leap-year rule has period 400 years", "anchors": ["crates/qlab-time/src/date.rs::from_ymd", "crates/qlab-time/src/date.rs::year", "crates/qlab-time/src/date.rs::month", "crates/qlab-time/src/date.rs::day"]}
{"id": "C02", "title": "Leap years and month lengths follow the Gregorian rule", "statement": "leap_year() is true exactly when February of that year has a 29th day that from_ymd accepts, and the days-per-month table used for month-end fallback equals the number of days from_ymd accepts in that month.", "quantifier": "every date and every (month, leap) pair", "why_tests_cant": "unbounded years", "anchors": ["crates/qlab-time/src/date.rs::leap_year", "crates/qlab-time/src/date.rs::days_in_month"]}
{"id": "C03", "title": "serial_date is a strictly increasing consecutive numbering", "statement": "serial_date is strictly monotone (d1<d2 iff serial(d1)<serial(d2)), injective, equals 1 on 0001-01-01, and the serial of succ_opt(d) is serial(d)+1; every integer between the extreme serials is the serial of some date.", "quantifier": "every pair of representable dates", "why_tests_cant": "about 1.9e8 dates, pairs of them", "anchors": ["crates/qlab-time/src/date.rs::serial_date", "crates/qlab-time/src/date.rs::succ_opt"]}
{"id": "C04", "title": "Date subtraction is an exact signed day distance", "statement": "d2-d1 equals the difference of serial numbers; it is antisymmetric, additive over intermediate dates ((d3-d2)+(d2-d1)=d3-d1), zero only on equal dates, and positive exactly when d2>d1.", "quantifier": "all triples of dates", "why_tests_cant": "triples of dates are unbounded for testing", "anchors": ["crates/qlab-time/src/date.rs::Sub"]}
{"id": "C05", "title": "Adding and subtracting days", "statement": "checked_add_days(n) returns the date exactly n days later (r-d=n) whenever that date is representable and n<=i32::MAX and None otherwise; checked_sub_days is the exact inverse; consecutive additions add up.", "quantifier": "every date and every u64 day count", "why_tests_cant": "unbounded inputs crossing months, leap years and centuries", "anchors": ["crates/qlab-time/src/date.rs::checked_add_days", "crates/qlab-time/src/date.rs::checked_sub_days", "crates/qlab-time/src/period/days.rs"]}
{"id": "C06", "title": "Successor and predecessor", "statement": "succ_opt and pred_opt are mutually inverse, move by exactly one day, no date lies strictly between, and they return None only at the last/first representable date.", "quantifier": "every date", "why_tests_cant": "whole date range", "anchors": ["crates/qlab-time/src/date.rs::succ_opt", "crates/qlab-time/src/date.rs::pred_opt"]}
{"id": "C07", "title": "Adding months keeps the day or clamps to month end", "statement": "checked_add_months(n) lands in the month exactly n months later, on the same day of month or, if that month is shorter, on its last day; it returns None exactly when the target month is outside the supported range; the retry-from-own-month-end branch never changes the answer.", "quantifier": "every date and every u32 month count", "why_tests_cant": "month lengths x leap years x all offsets", "anchors": ["crates/qlab-time/src/date.rs::checked_add_months", "crates/qlab-time/src/period/months.rs"]}
{"id": "C08", "title": "Subtracting months keeps the day or clamps to month end", "statement": "checked_sub_months(n) lands in the month exactly n months earlier with the same clamping rule; for days 1..28 it is the exact inverse of checked_add_months(n).", "quantifier": "every date and every u32 month count", "why_tests_cant": "month lengths x leap years x all offsets", "anchors": ["crates/qlab-time/src/date.rs::checked_sub_months"]}
{"id": "C09", "title": "Month addition is monotone and composes for days up to 28", "statement": "If d1<=d2 then d1+n months <= d2+n months; n>=1 gives a strictly later date; for day<=28, adding a then b months equals adding a+b months; in general (d+a)+b <= d+(a+b).", "quantifier": "all date pairs and month counts", "why_tests_cant": "two-date, two-count relation", "anchors": ["crates/qlab-time/src/date.rs::checked_add_months"]}
{"id": "C10", "title": "Adding years", "statement": "checked_add_years(n) keeps month and day, except that 29 February moves to 28 February when the target year is not leap; None exactly when the target year is unsupported; for n>=0 it agrees with checked_add_months(12n); it panics exactly when overflow checks are on and year+n overflows i32.", "quantifier": "every date, every i32 year count, both build profiles", "why_tests_cant": "needs i32 extremes and all leap patterns", "anchors": ["crates/qlab-time/src/date.rs::checked_add_years", "crates/qlab-time/src/period/years.rs"]}
{"id": "C11", "title": "Weekend roll gives the next weekday", "statement": "weekend_roll returns the first Monday-to-Friday date on or after the date: never a weekend, at most two days later, unchanged on weekdays, idempotent, monotone; None only when that day is not representable.", "quantifier": "every date", "why_tests_cant": "whole range of dates", "anchors": ["crates/qlab-time/src/date.rs::weekend_roll"]}
{"id": "C12", "title": "Weekend roll stays in the month (documented) ", "statement": "The documentation of weekend_roll says that when rolling forward leaves the month the date is rolled back instead, so the result is in the same month as the argument. (The code never takes that branch: refuted, with the exact domain on which it holds.)", "quantifier": "every date", "why_tests_cant": "needs month-end weekends", "anchors": ["crates/qlab-time/src/date.rs::weekend_roll"]}
{"id": "C13", "title": "Following adjustment", "statement": "checked_roll with Following returns the first business day on or after the unadjusted date (every date strictly between is a holiday); None exactly when the unadjusted date does not exist or there is no business day from it to the end of the range; the search always terminates.", "quantifier": "every date, period, calendar (any business-day predicate)", "why_tests_cant": "quantifies over arbitrary calendars and arbitrarily long holiday runs", "anchors": ["crates/qlab-time/src/date.rs::checked_roll", "crates/qlab-time/src/date_rolling.rs"]}
{"id": "C14", "title": "Preceding adjustment", "statement": "checked_roll with Preceding returns the last business day on or before the unadjusted date, with the dual None condition and termination.", "quantifier": "every date, period, calendar", "why_tests_cant": "arbitrary calendars", "anchors": ["crates/qlab-time/src/date.rs::checked_roll"]}
{"id": "C15", "title": "Modified adjustments keep the month of the unadjusted date", "statement": "ModifiedFollowing returns the Following date unless that falls in a different month than the unadjusted date, in which case it returns the Preceding date (dually ModifiedPreceding). (The code compares with the month of the start date before the period is added: refuted by witness; proved when the period does not leave the month, together with the exact rule the code follows and the exact condition under which it agrees: the unadjusted date is a business day, or the Following date is in its month just when it has the month number of the start date.)", "quantifier": "every date, period, calendar", "why_tests_cant": "relation between three dates for arbitrary calendars", "anchors": ["crates/qlab-time/src/date.rs::checked_roll"]}
{"id": "C16", "title": "Every adjusted date is a business day and business days are fixed points", "statement": "For every rolling mode other than Unadjusted the returned date is a business day; if the unadjusted date is a business day Following and Preceding return it unchanged; Unadjusted never consults the calendar.", "quantifier": "every date, period, calendar, rolling mode", "why_tests_cant": "arbitrary calendars", "anchors": ["crates/qlab-time/src/date.rs::checked_roll"]}
{"id": "C17", "title": "Following and Preceding are monotone", "statement": "If the unadjusted date of d1 is not after that of d2, then the adjusted date of d1 is not after that of d2, for Following and for Preceding, and Preceding <= unadjusted <= Following.", "quantifier": "all pairs of dates, all calendars", "why_tests_cant": "pairs of dates and arbitrary calendars", "anchors": ["crates/qlab-time/src/date.rs::checked_roll"]}
{"id": "C18", "title": "Act/360 and Act/365 are exact, additive and antisymmetric", "statement": "day_count_fraction(d1,d2)*360 (365) equals d2-d1; the fraction is antisymmetric, additive over intermediate dates, strictly monotone in d2, zero on equal dates, and never errors for dates whose distance casts to the value type.", "quantifier": "all triples of dates", "why_tests_cant": "relation over triples", "anchors": ["crates/qlab-time/src/day_count/act_360.rs", "crates/qlab-time/src/day_count/act_365.rs"]}
{"id": "C19", "title": "30/360 errors exactly on reversed dates and equals the bond-basis count", "statement": "Thirty360 returns InvalidInput exactly when date1>date2; otherwise (with wrapping arithmetic) the count equals 360*(y2-y1)+30*(m2-m1)+(min(d2,30)-min(d1,30)); it is nonnegative, zero on equal dates, additive over ordered intermediate dates and monotone in date2.", "quantifier": "all ordered triples of dates", "why_tests_cant": "relation over triples; u32 wrap-around in intermediate terms", "anchors": ["crates/qlab-time/src/day_count/thirty_360.rs"]}
{"id": "C20", "title": "30/360 never panics on ordered dates", "statement": "For date1<=date2 the day count returns a value. (With overflow checks enabled the u32 subtraction panics exactly when month(date2)<month(date1): refuted for that profile, exact panic domain proved, and proved for wrapping builds.)", "quantifier": "all ordered pairs of dates and both build profiles", "why_tests_cant": "needs both build profiles over all pairs", "anchors": ["crates/qlab-time/src/day_count/thirty_360.rs"]}
{"id": "C21", "title": "is_holiday is the complement of is_business_day, through every layer", "statement": "For every calendar and date, is_holiday(d) is true exactly when is_business_day(d) is false, and the adapter used by Date gives the same answer as the wrapped calendar on the same day.", "quantifier": "every calendar implementation and date", "why_tests_cant": "arbitrary calendars", "anchors": ["crates/qlab-time/src/calendar.rs", "third-parties/calendar/src/lib.rs::is_holiday"]}
{"id": "C22", "title": "Joint calendars are the intersection of business days", "statement": "A joint calendar is open exactly when both parts are open; it is commutative, associative and idempotent in its answers, joining with another calendar can only remove business days, and Following under a joint calendar is never earlier than under either part.", "quantifier": "every pair/triple of calendars and every date", "why_tests_cant": "arbitrary calendars", "anchors": ["third-parties/calendar/src/jointcalendar.rs"]}
{"id": "C23", "title": "Easter Monday table is the Gregorian computus", "statement": "For every year 1901..2199 the tabulated western Easter Monday is the day after the Easter Sunday given by the Gregorian computus; in particular it is a Monday between 23 March and 26 April; a lookup outside 1901..2199 panics.", "quantifier": "every i32 year", "why_tests_cant": "the table has 299 hand-typed entries and is never tested as a whole", "anchors": ["third-parties/calendar/src/lib.rs::EASTER_MONDAY", "third-parties/calendar/src/lib.rs::easter_monday"]}
{"id": "C24", "title": "Orthodox Easter Monday table is the Julian computus", "statement": "For every year 1901..2199 the tabulated orthodox Easter Monday is the Gregorian date of the day after Julian-computus Easter Sunday; always a Monday; lookup outside the range panics.", "quantifier": "every i32 year", "why_tests_cant": "hand-typed table", "anchors": ["third-parties/calendar/src/lib.rs::ORTHODOX_EASTER_MONDAY", "third-parties/calendar/src/lib.rs::orthodox_easter_monday"]}
{"id": "C25", "title": "business_days_between counts business days", "statement": "When it returns, business_days_between(from,to,..) for from<to equals the number of business days in the half-open day interval selected by the flags, it is antisymmetric under swapping, additive over consecutive intervals, and bounded by the day distance.", "quantifier": "every calendar, pair of dates and flag combination", "why_tests_cant": "arbitrary calendars and unbounded intervals", "anchors": ["third-parties/calendar/src/lib.rs::business_days_between"]}
{"id": "C26", "title": "business_days_between honours its include flags and never panics", "statement": "include_first=true counts the first date if it is a business day, and equal dates give a count. (The code starts one day later when include_first is true, and panics on equal dates with the default flags: refuted by witnesses; exact behaviour proved.)", "quantifier": "every calendar, pair of dates and flags", "why_tests_cant": "edge cases on equal dates", "anchors": ["third-parties/calendar/src/lib.rs::business_days_between"]}
{"id": "C27", "title": "last_day_of_month / end_of_month", "statement": "last_day_of_month returns the last date of the month for every year below the maximum (it panics exactly in the last representable year); end_of_month returns the latest business day not after the last day of the month.", "quantifier": "every date and calendar", "why_tests_cant": "all months and arbitrary calendars", "anchors": ["third-parties/calendar/src/lib.rs::last_day_of_month", "third-parties/calendar/src/lib.rs::end_of_month"]}
{"id": "C28", "title": "Weekends are never business days in the shipped calendars", "statement": "In every shipped country calendar and market, Saturdays and Sundays are not business days, with the exact exceptions of Israel (Friday/Saturday weekend) and the Russian exchange working weekends.", "quantifier": "every shipped calendar/market and every representable date", "why_tests_cant": "40 calendars x all dates", "anchors": ["third-parties/calendar/src/*.rs::is_business_day"]}
{"id": "C29", "title": "Shipped calendars answer on every date of 1901..2199", "statement": "No shipped calendar panics on a date in 1901..2199; calendars that do not use Easter never panic on any representable date; Easter-based calendars panic on every date outside 1901..2199.", "quantifier": "every shipped calendar/market and every representable date", "why_tests_cant": "panic only shows on untested years", "anchors": ["third-parties/calendar/src/*.rs::is_business_day", "third-parties/calendar/src/lib.rs::easter_monday"]}
{"id": "C30", "title": "Fixed-date holidays are closed every year", "statement": "For each shipped calendar, the fixed-date holidays it documents without a year condition (New Year, Christmas, national days...) are not business days in any year of its range.", "quantifier": "every shipped calendar and every year", "why_tests_cant": "tests only cover 2023", "anchors": ["third-parties/calendar/src/*.rs::is_business_day"]}
{"id": "C31", "title": "Good Friday and Easter Monday closures follow Easter", "statement": "For each shipped calendar that documents Good Friday / Easter Monday / Ascension / Whit Monday / Corpus Christi closures without condition, the corresponding offset from computus Easter Sunday is not a business day in any year 1901..2199.", "quantifier": "every such calendar and year 1901..2199", "why_tests_cant": "movable feasts; tests only cover 2023", "anchors": ["third-parties/calendar/src/*.rs::is_business_day"]}
{"id": "C32", "title": "Market variants are ordered as documented", "statement": "Within one country, a market that adds holidays to a base market is open only when the base is (e.g. US SOFR within GovernmentBond, Australia Settlement within ASX, Canada TSX relative to Settlement, Germany exchanges), and the default market equals the documented variant.", "quantifier": "every date", "why_tests_cant": "all dates x market pairs", "anchors": ["third-parties/calendar/src/unitedstates.rs", "third-parties/calendar/src/australia.rs", "third-parties/calendar/src/germany.rs", "third-parties/calendar/src/canada.rs", "third-parties/calendar/src/unitedkingdom.rs", "third-parties/calendar/src/austria.rs", "third-parties/calendar/src/brazil.rs", "third-parties/calendar/src/france.rs", "third-parties/calendar/src/italy.rs", "third-parties/calendar/src/russia.rs"]}
{"id": "C33", "title": "Orthodox-country calendars close on Orthodox Easter", "statement": "The Ukrainian calendar documents Orthodox Easter Monday as a holiday. (The code uses the western table: refuted by witness, exact relation proved; Romania does use the orthodox table and is proved.)", "quantifier": "every year 1901..2199", "why_tests_cant": "tests cover one year", "anchors": ["third-parties/calendar/src/ukraine.rs", "third-parties/calendar/src/romania.rs"]}
{"id": "C34", "title": "Bracketing index search", "statement": "For points sorted by x, the index search returns i with x_i <= x <= x_{i+1} (x_0=x giving 0) when x lies within the range, OutOfLowerBound(x) exactly when x is below the first point or unordered with respect to it, OutOfUpperBound(x) exactly when x is above the last point, InsufficientPointsError(0) exactly on an empty list.", "quantifier": "every sorted point list and every x, including NaN-like x", "why_tests_cant": "unbounded lists", "anchors": ["crates/qlab-math/src/interpolation.rs::find_index_at_left_boundary"]}
{"id": "C35", "title": "Linear interpolation reproduces nodes and stays between neighbours", "statement": "On strictly increasing nodes try_value returns y_i at x_i, a value between the two neighbouring ordinates elsewhere, is exact on affine data, is monotone on monotone data and errors exactly outside [x_0,x_last].", "quantifier": "every strictly increasing node list with at least two points and every x", "why_tests_cant": "real-valued inputs, unbounded lists", "anchors": ["crates/qlab-math/src/interpolation/linear.rs"]}
{"id": "C36", "title": "Linear interpolation rejects unusable input instead of panicking", "statement": "try_fit/try_value report an error on unusable point sets and documented flat extrapolation beyond the last point. (try_fit accepts everything; a single point evaluated at its own abscissa panics; beyond the last point an error is returned: refuted by witnesses, panic domain characterised exactly.)", "quantifier": "every point list and x", "why_tests_cant": "edge-case point lists", "anchors": ["crates/qlab-math/src/interpolation/linear.rs"]}
{"id": "C37", "title": "Hermite spline matches values and slopes", "statement": "On strictly increasing nodes the Hermite interpolant returns y_i at x_i, has derivative m_i at x_i from both sides, reproduces every cubic polynomial exactly and errors exactly outside the range; construction fails with PointOrderError exactly on decreasing x.", "quantifier": "every strictly increasing node list and x", "why_tests_cant": "real-valued inputs", "anchors": ["crates/qlab-math/src/interpolation/spline/hermite.rs"]}
{"id": "C38", "title": "Catmull-Rom spline reproduces nodes and constants", "statement": "On strictly increasing nodes the interpolant returns y_i at x_i and reproduces constant data. (Refuted on the last segment for every grid: the final node value is scaled by 2-2*alpha with alpha<1/2; proved everywhere else, and constants other than zero are missed everywhere after the last node but one.)", "quantifier": "every strictly increasing node list of length >=3 and every x", "why_tests_cant": "real-valued inputs", "anchors": ["crates/qlab-math/src/interpolation/spline/catmull_rom.rs"]}
{"id": "C39", "title": "Spline constructors validate their input", "statement": "CatmullRom and NaturalCubic try_fit return InsufficientPointsError(n) exactly when n<3 and PointOrderError exactly when some x decreases; otherwise they succeed and keep the points; they never panic.", "quantifier": "every point list", "why_tests_cant": "unbounded lists", "anchors": ["crates/qlab-math/src/interpolation/spline/catmull_rom.rs::try_fit", "crates/qlab-math/src/interpolation/spline/natural_cubic.rs::try_fit", "crates/qlab-math/src/interpolation/spline/hermite.rs::try_new"]}
{"id": "C40", "title": "Natural cubic spline reproduces its nodes and is continuous", "statement": "On strictly increasing nodes the fitted natural cubic spline returns y_i at x_i, is continuous, has zero second derivative at both ends, and errors exactly outside the range.", "quantifier": "every strictly increasing node list of length >=3 and every x", "why_tests_cant": "real-valued inputs and a linear solve of unbounded size", "anchors": ["crates/qlab-math/src/interpolation/spline/natural_cubic.rs"]}
{"id": "C41", "title": "Natural cubic spline is twice continuously differentiable", "statement": "The fitted curve has continuous first derivative at interior nodes and reproduces straight lines. (Refuted: the three-point right-hand side drops a term and the solver skips a back-substitution step; straight lines are proved reproduced for four or more points, and the interior condition is characterised exactly; through three points of the same ordinate other than zero the curve has this value at the points only.)", "quantifier": "every strictly increasing node list", "why_tests_cant": "real-valued inputs, unbounded size", "anchors": ["crates/qlab-math/src/interpolation/spline/natural_cubic.rs", "crates/qlab-math/src/linear_algebra/tridiagonal_matrix.rs"]}
{"id": "C42", "title": "Tridiagonal solve solves the system", "statement": "For a tridiagonal matrix with nonzero pivots, solve(b) returns x with A x = b. (Refuted for size>=2 because back substitution skips the last-but-one row: proved exactly when it is still correct, and proved for size 1.)", "quantifier": "every size and every matrix with nonzero pivots", "why_tests_cant": "unbounded sizes, real entries", "anchors": ["crates/qlab-math/src/linear_algebra/tridiagonal_matrix.rs::solve"]}
{"id": "C43", "title": "Tridiagonal construction and product", "statement": "try_new succeeds exactly for shapes n, n-1, n-1; matrix-vector product returns None exactly on length mismatch and otherwise the dense matrix-vector product; it is linear in the vector.", "quantifier": "every size and entries", "why_tests_cant": "unbounded sizes", "anchors": ["crates/qlab-math/src/linear_algebra/tridiagonal_matrix.rs"]}
{"id": "C44", "title": "Yield curve construction", "statement": "YieldCurve::new returns InvalidInput on a length mismatch (its only check of its own; with Act/360 and Act/365 exactly then); otherwise it fits the interpolator to the pairs (day count fraction from settlement to maturity, yield) in order, and the first day-count failure or the fitting failure decides the result.", "quantifier": "every list of maturities and yields, day count and interpolator", "why_tests_cant": "arbitrary lists and plug-ins", "anchors": ["crates/qlab-termstructure/src/yield_curve.rs::new"]}
{"id": "C45", "title": "Discount factor input checks", "statement": "discount_factor(d1,d2) returns InvalidInput exactly when d2<d1 or d1 or d2 precedes settlement (shipped day counts); otherwise it returns a value or the error of the first failing day-count or interpolation step, and adds no panic of its own.", "quantifier": "all date pairs and curves", "why_tests_cant": "pairs of dates, arbitrary plug-ins", "anchors": ["crates/qlab-termstructure/src/yield_curve.rs::discount_factor"]}
{"id": "C46", "title": "Discount factors are positive, unit on equal dates and multiplicative", "statement": "Whenever defined: DF(d,d)=1, DF>0, DF(a,b)*DF(b,c)=DF(a,c), DF(settle,d)=exp(-t*y(t)); with nonnegative forward t2*y2>=t1*y1 it is at most 1.", "quantifier": "all ordered triples of dates and all curves", "why_tests_cant": "real-valued, arbitrary interpolators", "anchors": ["crates/qlab-termstructure/src/yield_curve.rs::discount_factor"]}
{"id": "C47", "title": "Curve reprices its pillars", "statement": "With linear or natural cubic interpolation on strictly increasing maturities the zero yield at a pillar maturity is the quoted yield, so DF(settle,pillar)=exp(-t*y).", "quantifier": "every strictly increasing pillar set", "why_tests_cant": "arbitrary pillar sets", "anchors": ["crates/qlab-termstructure/src/yield_curve.rs", "crates/qlab-math/src/interpolation/linear.rs"]}
{"id": "C48", "title": "Bond schedule is complete, ordered and terminates", "statement": "When construction succeeds, regular due dates start at the first coupon date, step by 12/frequency months, none exceeds the penultimate coupon date, the next one would, they are strictly increasing, and the last cash flow is at maturity; construction always terminates.", "quantifier": "every combination of dates, rate, face, frequency", "why_tests_cant": "unbounded schedules", "anchors": ["crates/qlab-instrument/src/bond.rs::new"]}
{"id": "C49", "title": "Bond schedule steps are anchored on the first coupon date", "statement": "The k-th due date is the first coupon date plus k periods. (Proved for days 1..28; refuted at month ends, where clamping accumulates. The day of the k-th due date is proved to be the largest day up to the first one's that the months of all due dates up to it have, so it is anchored exactly when each month passed has as many days as the anchored day needs.)", "quantifier": "every first coupon date and k", "why_tests_cant": "month-end drift needs specific histories", "anchors": ["crates/qlab-instrument/src/bond.rs::new"]}
{"id": "C50", "title": "Bond cash flow amounts", "statement": "Interior coupons equal rate*face/frequency; the first coupon is pro-rated by the actual first period in short and long cases; the last flow is face plus its pro-rated coupon; in the regular case amounts total face + n*coupon; payment dates are weekend-rolled due dates.", "quantifier": "all date combinations", "why_tests_cant": "three-way case split on both ends for all inputs", "anchors": ["crates/qlab-instrument/src/bond.rs::new", "crates/qlab-instrument/src/bond.rs::first_cash_flow", "crates/qlab-instrument/src/bond.rs::final_cash_flow"]}
{"id": "C51", "title": "Bond construction never panics", "statement": "Bond::new returns Ok or Err. (Refuted: it indexes an empty schedule when the first coupon date is after the penultimate date and the first period is irregular; exact panic domain proved.)", "quantifier": "all date combinations", "why_tests_cant": "panic only in unusual date orders", "anchors": ["crates/qlab-instrument/src/bond.rs::first_cash_flow"]}
{"id": "C52", "title": "Present value is the discounted sum of future flows", "statement": "discounted_value is the sum of DF(settlement,payment date)*amount over flows with due date after settlement; it is 0 when none remain, linear in the amounts, errors exactly when the curve errors on some remaining flow, and flows already due have no influence.", "quantifier": "every bond, curve and settlement date", "why_tests_cant": "arbitrary curves and schedules", "anchors": ["crates/qlab-instrument/src/bond.rs::discounted_value"]}
{"id": "C53", "title": "Present value bounds and monotonicity", "statement": "With nonnegative amounts the present value is nonnegative, is at most the undiscounted sum when all discount factors are at most one, and a curve with pointwise smaller discount factors gives a smaller value.", "quantifier": "every bond and pair of curves", "why_tests_cant": "pairs of curves", "anchors": ["crates/qlab-instrument/src/bond.rs::discounted_value"]}
{"id": "C54", "title": "Errors keep their cause", "statement": "An error raised by the interpolator during fitting or evaluation reaches the caller of YieldCurve and Bond as ComputeError::InterpolationError, and a day-count failure or an input failure is never reported as an interpolation error; no error path is turned into a value or a panic.", "quantifier": "every error path", "why_tests_cant": "arbitrary plug-ins", "anchors": ["crates/qlab-error/src/lib.rs", "crates/qlab-termstructure/src/yield_curve.rs", "crates/qlab-instrument/src/bond.rs"]}
{"id": "C55", "title": "Display of dates is injective", "statement": "Two different dates never display the same; for years 0..9999 the text is the ten-character YYYY-MM-DD and lexicographic order of the text is date order.", "quantifier": "every pair of dates", "why_tests_cant": "pairs of dates", "anchors": ["crates/qlab-time/src/date.rs::Display"]}
{"id": "C56", "title": "Catmull-Rom curve is smooth and exact on straight lines", "statement": "The interpolant has one slope at every interior node (the central difference of its neighbours) and reproduces straight lines. (Refuted: on every grid the slope from the right is smaller than the slope from the left whenever the neighbours' ordinates differ, and straight lines are not reproduced; both one-sided slopes are proved exactly, the spline is differentiable at an interior node exactly if the neighbours' ordinates agree, and on a sloping line it meets the line nowhere strictly inside an inner segment, while its first segment is the line.)", "quantifier": "every strictly increasing node list of length >=3, every interior node", "why_tests_cant": "slopes are limits; a kink is invisible at sampled points", "anchors": ["crates/qlab-math/src/interpolation/spline/catmull_rom.rs"]}
{"id": "C57", "title": "Hermite construction reports bad input as an error", "statement": "Hermite::try_new never panics: every input slice gives a spline or an InterpolationError. (Refuted: the empty slice panics; proved to be the only panic.)", "quantifier": "every slice of points, every value type", "why_tests_cant": "unbounded lists", "anchors": ["crates/qlab-math/src/interpolation/spline/hermite.rs::try_new"]}
{"id": "C58", "title": "Where a curve is defined", "statement": "A curve built with Act/360 or Act/365 and a shipped interpolator on strictly increasing maturities gives a discount factor between accepted dates exactly when the maturities cover d2 and, unless d1 is settlement, d1; otherwise the result is InterpolationError. There is no extrapolation, not even to the settlement date itself.", "quantifier": "every strictly increasing pillar set, every yields list, every pair of dates", "why_tests_cant": "all pairs of dates on arbitrary pillar sets", "anchors": ["crates/qlab-termstructure/src/yield_curve.rs::discount_factor", "crates/qlab-math/src/interpolation.rs::find_index_at_left_boundary"]}
{"id": "C59", "title": "Equal dates are rejected as documented", "statement": "discount_factor(d1,d2) returns InvalidInput when d1 is greater than or equal to d2, as its documentation says. (Refuted: equal dates are accepted and give 1; strictly reversed dates are proved to be rejected.)", "quantifier": "all date pairs and curves", "why_tests_cant": "all date pairs", "anchors": ["crates/qlab-termstructure/src/yield_curve.rs::discount_factor"]}
{"id": "C60", "title": "A Catmull-Rom curve reprices its pillars", "statement": "With Catmull-Rom interpolation on strictly increasing maturities DF(settle,pillar)=exp(-t*y) with the quoted yield. (The last pillar is repriced exactly if its quote is zero; proved at all others.)", "quantifier": "every strictly increasing pillar set", "why_tests_cant": "arbitrary pillar sets", "anchors": ["crates/qlab-termstructure/src/yield_curve.rs", "crates/qlab-math/src/interpolation/spline/catmull_rom.rs"]}
{"id": "C61", "title": "A bond with an inconsistent date order is refused", "statement": "Bond::new returns None unless issue < first coupon <= penultimate coupon < maturity. (Refuted: a bond maturing before its issue date is constructed; issue and maturity are never checked.)", "quantifier": "all four-tuples of dates", "why_tests_cant": "all orders of four dates", "anchors": ["crates/qlab-instrument/src/bond.rs::new"]}
{"id": "C62", "title": "Bond payments fall on weekdays", "statement": "Every cash flow is paid on a weekday, the first one on or after its due date. (Refuted for the flow at maturity, which is paid on the maturity date even on a weekend; proved for all earlier coupons. So all flows are paid on weekdays exactly if the bond matures on one.)", "quantifier": "every bond", "why_tests_cant": "every calendar date", "anchors": ["crates/qlab-instrument/src/bond.rs::new", "crates/qlab-instrument/src/bond.rs::final_cash_flow"]}
{"id": "C63", "title": "Price is proportional to face value", "statement": "Two bonds with equal terms whose face values differ by a factor have cash flows and present values that differ by that factor, on every curve and settlement date.", "quantifier": "all bonds, factors, curves and dates", "why_tests_cant": "pairs of bonds and arbitrary curves", "anchors": ["crates/qlab-instrument/src/bond.rs::new", "crates/qlab-instrument/src/bond.rs::discounted_value"]}
{"id": "C64", "title": "Price increases with the coupon rate", "statement": "For issue < first coupon, penultimate < maturity and nonnegative face value, a higher coupon rate gives the same dates and no smaller amounts and present value.", "quantifier": "all bonds, rates, curves and dates", "why_tests_cant": "pairs of bonds and arbitrary curves", "anchors": ["crates/qlab-instrument/src/bond.rs::new", "crates/qlab-instrument/src/bond.rs::discounted_value"]}
{"id": "C65", "title": "Every payment still to be made is in the price", "statement": "discounted_value includes every flow whose payment date is after settlement. (Refuted: a coupon due on a weekend and paid the next Monday is left out when settlement falls in between; proved for all flows due after settlement, and for all flows of a constructed bond when settlement falls on a weekday. The exact condition: no coupon is due on a weekend day on or one day before a settlement on that weekend.)", "quantifier": "every bond, curve and settlement date", "why_tests_cant": "every settlement date", "anchors": ["crates/qlab-instrument/src/bond.rs::discounted_value"]}
{"id": "C66", "title": "A shipped calendar is closed on its listed holidays and on nothing else", "statement": "For each of the shipped calendars and markets, is_business_day is false exactly on the weekly rest days and on the holidays of a published list: fixed dates, dates moved off a weekend, n-th and last weekdays of a month, feasts at a fixed distance from Easter, and single closings. Every other day is open.", "quantifier": "every calendar, market and date (1901..2199 where Easter is consulted)", "why_tests_cant": "every date of every year in 40 calendars; the shipped tests look at 2023 only", "anchors": ["third-parties/calendar/src/*.rs::is_business_day"]}
{"id": "C67", "title": "The French settlement calendar closes on Ascension and Whit Monday", "statement": "The settlement calendar of France, which documents Ascension and Pentecote as holidays, is closed on Ascension Day and on Whit Monday of every year. (Refuted: they are coded as 10 May and 21 May; proved: closed exactly when the feast falls on one of the fixed holidays.)", "quantifier": "every year from 1901 to 2199", "why_tests_cant": "the feasts move with Easter", "anchors": ["third-parties/calendar/src/france.rs::settlement_is_business_day"]}
{"id": "C68", "title": "The New York exchange closes on election days", "statement": "In the years for which presidential election days are documented as closings, the NYSE calendar is closed on the Tuesday after the first Monday of November. (Refuted: the code closes on the first Tuesday, so 8 November 1960 is open and 1 November 1960 closed; proved for all elections not on the 8th.)", "quantifier": "every year up to 1968 and 1972, 1976, 1980", "why_tests_cant": "only years in which the Tuesday is the 8th show it", "anchors": ["third-parties/calendar/src/unitedstates.rs::nyse_is_business_day"]}
{"id": "C69", "title": "Rolling by days, months and years", "statement": "checked_roll with Days(n), Months(n) or Years(n) starts from the date n days, n calendar months (clamped to the month end) or n years (29 February becoming 28) later: Unadjusted returns it, Following the first business day on or after it, Preceding the last on or before it.", "quantifier": "all dates, all n of each period, all calendars", "why_tests_cant": "the period, the month-end clamp and the calendar interact on every combination of inputs", "anchors": ["crates/qlab-time/src/date.rs::Date::checked_roll", "crates/qlab-time/src/period.rs::Period", "crates/qlab-time/src/period/days.rs::Days", "crates/qlab-time/src/period/months.rs::Months", "crates/qlab-time/src/period/years.rs::Years"]}
{"id": "C70", "title": "Rolling with a shipped calendar always succeeds, nearby", "statement": "Every shipped calendar has a business day among days 1-14 and another among days 15-28 of every month, so rolling an existing unadjusted date never panics or returns None, moves it by at most 30 days in every mode, and the modified conventions always have a date in the month of the unadjusted date.", "quantifier": "every shipped calendar and market option; every year it answers for (first and last year excluded for rolling backwards and forwards); every period and mode", "why_tests_cant": "long holiday runs (lunar new year, Eid, year end) meet weekends differently in every year", "anchors": ["third-parties/calendar/src", "crates/qlab-time/src/date.rs::Date::checked_roll"]}
{"id": "C71", "title": "Linear interpolation in floating point is accurate", "statement": "In any binary floating-point format with round-to-nearest and unit roundoff u (f32 and f64 among them), Linear::try_value between two nodes differs from the exact straight line by at most u times the value plus 6u times the rise. Between nodes with the same ordinate it is exact, and inside one segment it is monotone and never on the wrong side of the left ordinate.", "quantifier": "every format of at least 24 bits, every strictly increasing point list, every segment and abscissa (no overflow, underflow, NaN or infinity)", "why_tests_cant": "rounding differs on every combination of coordinates", "anchors": ["crates/qlab-math/src/interpolation/linear.rs::try_value", "crates/qlab-math/src/value.rs::Value"]}
{"id": "C72", "title": "Year fractions in floating point", "statement": "In floating point Act360, Act365 and Thirty360 fail exactly when they fail in exact arithmetic, and otherwise are within 3u of the exact fraction (within u when the day count is exactly representable). Act360 and Act365 never decrease in the end date, have the sign of the order of the dates, are zero exactly on equal dates, and change sign exactly when the dates are swapped.", "quantifier": "every format of at least 24 bits, all dates, both build profiles", "why_tests_cant": "every pair of dates rounds differently", "anchors": ["crates/qlab-time/src/day_count.rs", "crates/qlab-math/src/value.rs::Value"]}
{"id": "C73", "title": "Discount factors in floating point", "statement": "In floating point the discount factor between equal dates is exactly 1; with an ordered exp it is at most 1 and does not increase in the later date when the computed product of time and yield does not decrease; with an exp of relative error eps it lies between (1-eps) and (1+eps) times the exponential of the exact exponent moved by at most 3u times the two products of time and yield.", "quantifier": "every format of at least 24 bits, every interpolator, day count, curve and pair of dates; exp accurate to a stated relative error", "why_tests_cant": "rounding differs on every curve and date", "anchors": ["crates/qlab-termstructure/src/yield_curve.rs::discount_factor"]}
{"id": "C74", "title": "Bond prices in floating point", "statement": "The floating-point price is within ((1+u)^(n+1) - 1) times the sum of the absolute terms of the exact sum of discount factor times amount over the n remaining flows; it is not negative when no amount is; raising amounts or discount factors never lowers it.", "quantifier": "every format of at least 24 bits, every bond, curve, day count and settlement date", "why_tests_cant": "the error grows with the number of flows and differs on every bond", "anchors": ["crates/qlab-instrument/src/bond.rs::discounted_value"]}
{"id": "C75", "title": "In floating point interpolation passes through its nodes", "statement": "In floating point, evaluating at a node returns the ordinate given there, stays between neighbouring ordinates in a linear segment, and is monotone on monotone data. (Proved for Hermite at every node. Refuted in f64 for Linear: points (0,0), (7,29), (8,29) give more than 29 at 7 and 29 at 8; for CatmullRom: (0,1), (1,0.1), (2,0) give less than 0.1 at 1; for NaturalCubic: (0,1), (49,0), (98,0) give less than 1 at 0. Linear and CatmullRom are exact at the first node; NaturalCubic is within 3 unit roundoffs at both end nodes.)", "quantifier": "every format of at least 24 bits, every strictly increasing point list, every node", "why_tests_cant": "whether a node is hit exactly depends on how its coordinates round", "anchors": ["crates/qlab-math/src/interpolation/linear.rs::try_value", "crates/qlab-math/src/interpolation/spline/hermite.rs::try_value", "crates/qlab-math/src/interpolation/spline/catmull_rom.rs::try_value", "crates/qlab-math/src/interpolation/spline/natural_cubic.rs::try_value"]}
{"id": "C76", "title": "In floating point year fractions are strictly increasing and additive", "statement": "In floating point different end dates get different Act360 and Act365 fractions, and the fractions of two adjoining periods add up to the fraction of the whole. (Refuted: in f32 two dates 11796481 and 11796482 days away get the same fraction; in f64 1 day plus 4 days is more than 5 days. Proved: strict in every format of at least 29 bits, f64 included, and within 2^(prec-1) days otherwise; additive up to 8u.)", "quantifier": "every format of at least 24 bits, all dates", "why_tests_cant": "depends on how each fraction rounds", "anchors": ["crates/qlab-time/src/day_count/act360.rs", "crates/qlab-time/src/day_count/act365.rs"]}
{"id": "C77", "title": "Bond cash flows in floating point", "statement": "Bond::new in floating point panics or is refused exactly when it is with the exact values of the same rate and face value; otherwise every flow has the same dates and its amount is within 10u of the exact one (for the last flow within 10u of face value plus coupon).", "quantifier": "every format of at least 24 bits, all dates, rates and face values", "why_tests_cant": "rounding differs on every bond; short and long periods take different paths", "anchors": ["crates/qlab-instrument/src/bond.rs::new", "crates/qlab-instrument/src/bond.rs::first_cash_flow", "crates/qlab-instrument/src/bond.rs::final_cash_flow"]}
{"id": "C78", "title": "Hermite and Catmull-Rom splines in floating point are accurate", "statement": "In any binary floating-point format with round-to-nearest and unit roundoff u, a Hermite spline value differs from the value of the same spline computed exactly by at most 280 u S, where S bounds the two ordinates of the segment and the slopes times its width; a Catmull-Rom value by at most 430 u S, where S bounds the ordinates. The same bounds hold against the cubic polynomial with the given end values and slopes (for Catmull-Rom, on inner segments, the slopes of the code). Both evaluations succeed on the same inputs.", "quantifier": "every format of at least 24 bits, every strictly increasing point list, every abscissa in range (no overflow, underflow, NaN or infinity)", "why_tests_cant": "rounding differs on every combination of coordinates", "anchors": ["crates/qlab-math/src/interpolation/spline/hermite.rs::try_value", "crates/qlab-math/src/interpolation/spline/catmull_rom.rs::try_value"]}
{"id": "C79", "title": "Nonnegative yields never give a discount factor above one", "statement": "If no quoted yield is negative, no discount factor from the settlement date of the curve exceeds one; if all are positive, every later date has a discount factor below one. (Holds for linear interpolation in exact arithmetic; both splines overshoot, and in f64 linear interpolation does by a rounding error where yields fall to zero.)", "quantifier": "every curve built with Act/360 or Act/365, every list of pillars and nonnegative yields, every date the curve covers", "why_tests_cant": "between pillars the interpolated yield can leave the range of the quotes", "anchors": ["crates/qlab-termstructure/src/yield_curve.rs::YieldCurve::discount_factor", "crates/qlab-math/src/interpolation/linear.rs::try_value", "crates/qlab-math/src/interpolation/spline/catmull_rom.rs::try_value", "crates/qlab-math/src/interpolation/spline/natural_cubic.rs::try_fit"]}
{"id": "C80", "title": "A flat curve discounts at its yield", "statement": "If all quoted yields are equal to y, the discount factor between any two covered dates is exp(-y days/N), N being the year length of the day count. (Violated by the Catmull-Rom spline in its last period and by the natural cubic spline with three pillars; the dates on which they are wrong are proved exactly.)", "quantifier": "every curve built with Act/360 or Act/365, every grid of pillars, every yield, every pair of covered dates", "why_tests_cant": "must hold for all grids, yields and dates", "anchors": ["crates/qlab-termstructure/src/yield_curve.rs::YieldCurve::discount_factor", "crates/qlab-math/src/interpolation/linear.rs::try_value", "crates/qlab-math/src/interpolation/spline/catmull_rom.rs::try_value", "crates/qlab-math/src/interpolation/spline/natural_cubic.rs::try_fit"]}
{"id": "C81", "title": "Higher yields never raise a price", "statement": "Raising quoted yields never raises the price, on the settlement date of the curve, of a bond without negative flows; raising all yields by the same amount never raises the price on any settlement date, and multiplies each discount factor by exp(-shift days/N). (Holds for linear interpolation, the parallel shift also for the Catmull-Rom spline and for the natural cubic spline with four pillars, with three pillars on the settlement date of the curve only; single-pillar rises are violated by both splines, for Catmull-Rom exactly by the pillars next to the two around a date, for the natural cubic with signs that alternate from pillar to pillar.)", "quantifier": "every curve built with Act/360 or Act/365, every bond without negative flows, every rise of the yields", "why_tests_cant": "the price depends on all pillars, all flows and all dates", "anchors": ["crates/qlab-instrument/src/bond.rs::Bond::discounted_value", "crates/qlab-termstructure/src/yield_curve.rs::YieldCurve::discount_factor", "crates/qlab-math/src/interpolation/linear.rs::try_value", "crates/qlab-math/src/interpolation/spline/catmull_rom.rs::try_value", "crates/qlab-math/src/interpolation/spline/natural_cubic.rs::try_fit"]}
{"id": "C82", "title": "Prices carry forward between settlement dates", "statement": "The price on an earlier settlement date is the price on a later one times the discount factor between the dates, plus the earlier price of the flows falling due up to the later date; without such flows it is just the discounted later price.", "quantifier": "every curve, interpolator and shipped day count, every bond, every two settlement dates with a discount factor", "why_tests_cant": "a relation between two prices over all bonds, curves and dates", "anchors": ["crates/qlab-instrument/src/bond.rs::Bond::discounted_value", "crates/qlab-termstructure/src/yield_curve.rs::YieldCurve::discount_factor"]}
{"id": "C83", "title": "Interpolated values are linear in the data", "statement": "On one grid, if ordinates y give the value v and ordinates z the value w at a point, then ordinates a y + b z give a v + b w there: for linear, Catmull-Rom and natural cubic interpolation; for the Hermite spline with ordinates and slopes combined together.", "quantifier": "every strictly increasing grid, all data, every point, all a and b, exact arithmetic", "why_tests_cant": "superposition relates three different data sets on every grid", "anchors": ["crates/qlab-math/src/interpolation/linear.rs::try_value", "crates/qlab-math/src/interpolation/spline/catmull_rom.rs::try_value", "crates/qlab-math/src/interpolation/spline/natural_cubic.rs::try_fit", "crates/qlab-math/src/interpolation/spline/hermite.rs::try_value"]}
{"id": "C84", "title": "Error texts identify the error", "statement": "Two errors returned by the library that print the same text are the same error; interpolation errors print different texts if their values do; the texts of requests rejected for their dates tell exactly which dates were asked for.", "quantifier": "every error returned by a day count, the construction of a curve, a discount factor or a bond price; all dates, any interpolator", "why_tests_cant": "ranges over all pairs of failing calls", "anchors": ["crates/qlab-error/src/lib.rs::QLabError", "crates/qlab-error/src/lib.rs::ComputeError", "crates/qlab-error/src/lib.rs::InterpolationError", "crates/qlab-termstructure/src/yield_curve.rs::YieldCurve::discount_factor", "crates/qlab-time/src/day_count/thirty_360.rs::date_diff"]}
{"id": "C85", "title": "NaN and infinities are refused as points of evaluation", "statement": "Evaluating any interpolator at NaN returns the error for a point below the range carrying NaN; with finite abscissae, infinity is refused as above the range and minus infinity as below it. No value, no panic.", "quantifier": "every non-empty data set or fitted spline, f32 and f64 with all their data", "why_tests_cant": "the data set is arbitrary, NaN and infinities among the ordinates included", "anchors": ["crates/qlab-math/src/interpolation/linear.rs::try_value", "crates/qlab-math/src/interpolation/spline/catmull_rom.rs::try_value", "crates/qlab-math/src/interpolation/spline/natural_cubic.rs::try_value", "crates/qlab-math/src/interpolation/spline/hermite.rs::try_value", "crates/qlab-math/src/value.rs::Value"]}
{"id": "C86", "title": "Spline constructors accept only ordered abscissae, NaN included", "statement": "Points that a Catmull-Rom, natural cubic or Hermite spline accepts have abscissae that are numbers in non-decreasing order. (Refuted: comparisons with NaN hide a descent. Proved: the exact lists each constructor accepts, where neighbouring abscissae ascend or include a NaN.)", "quantifier": "all data sets over f32 and f64", "why_tests_cant": "NaN compares false with everything, so where it stands in the list decides; all positions in all lists", "anchors": ["crates/qlab-math/src/interpolation/spline/catmull_rom.rs::try_fit", "crates/qlab-math/src/interpolation/spline/natural_cubic.rs::try_fit", "crates/qlab-math/src/interpolation/spline/hermite.rs::try_new", "crates/qlab-math/src/value.rs::Value"]}
{"id": "C87", "title": "Linear interpolation of finite data is finite and accurate in f32 and f64", "statement": "With finite data and a point in range, the interpolated value is a finite number with the error bound of C71.", "quantifier": "all finite strictly increasing data sets and points in f32 and f64", "why_tests_cant": "overflow and underflow occur only for some data; the claim is over all of them", "anchors": ["crates/qlab-math/src/interpolation/linear.rs::try_value", "crates/qlab-math/src/value.rs::Value"]}
{"id": "C88", "title": "Year fractions in f32 and f64 never overflow", "statement": "Each day count fails in f32 and f64 exactly when it does in exact arithmetic; otherwise the fraction is a finite number with a relative error of at most three units of roundoff; comparisons of Act fractions are those of the dates.", "quantifier": "all pairs and triples of dates, f32 and f64", "why_tests_cant": "all pairs of about 190 million dates", "anchors": ["crates/qlab-time/src/day_count/act_360.rs::Act360", "crates/qlab-time/src/day_count/act_365.rs::Act365", "crates/qlab-time/src/day_count/thirty_360.rs::Thirty360", "crates/qlab-math/src/value.rs::Value"]}
{"id": "C89", "title": "Discount factors of a curve with finite yields are numbers in f32 and f64", "statement": "On a curve with finite yields a discount factor is never NaN or negative, is 1 from a day to itself, at most 1 when time times yield does not fall, smaller for larger time times yield, and accurate.", "quantifier": "every curve with finite yields, every interpolator and shipped day count, all dates, f32 and f64, every exp that is ordered or accurate", "why_tests_cant": "infinity minus infinity arises only for extreme yields; all curves", "anchors": ["crates/qlab-termstructure/src/yield_curve.rs::YieldCurve::discount_factor", "crates/qlab-math/src/value.rs::Value"]}
{"id": "C90", "title": "Prices of finite flows are numbers in f32 and f64", "statement": "The price of a bond with finite amounts on a curve with finite yields is a finite number close to the sum of discounted amounts, and not negative if no amount is.", "quantifier": "every bond with finite amounts, every curve with finite yields, all dates, f32 and f64", "why_tests_cant": "accumulated rounding, overflow and NaN over any number of flows", "anchors": ["crates/qlab-instrument/src/bond.rs::Bond::discounted_value", "crates/qlab-math/src/value.rs::Value"]}
{"id": "C91", "title": "Bond amounts in f32 and f64", "statement": "A bond is built, refused or panics in f32 and f64 exactly as in exact arithmetic, whatever rate and face value; with finite rate and face value every amount is a finite number close to the exact one.", "quantifier": "all dates, all rates and face values of f32 and f64, NaN and infinities included for the outcome", "why_tests_cant": "all schedules and all rates; overflow only at the extremes", "anchors": ["crates/qlab-instrument/src/bond.rs::Bond::new", "crates/qlab-math/src/value.rs::Value"]}
{"id": "C92", "title": "End-to-end accuracy of discount factors and prices from market data", "statement": "From maturities, yields and bond terms to a discount factor or price: floating-point arithmetic returns a value, the same error or no panic exactly where exact arithmetic does, and the value is within a stated relative error of the exact one.", "quantifier": "every list of increasing maturities from the settlement on, every list of yields, every bond with non-negative rate and face value, all dates less than 2^(prec-1) days from settlement (23000 years in f32, every date in f64), issue before the first coupon and the penultimate coupon before maturity for the accuracy of prices, every floating-point format and every accurate exp, linear interpolation under Act/360 or Act/365", "why_tests_cant": "rounding accumulates through year fractions, interpolation weights, yields, exponentials, amounts and the sum; the bound is over all curves and all numbers of flows", "anchors": ["crates/qlab-termstructure/src/yield_curve.rs::YieldCurve::new", "crates/qlab-termstructure/src/yield_curve.rs::YieldCurve::discount_factor", "crates/qlab-instrument/src/bond.rs::Bond::new", "crates/qlab-instrument/src/bond.rs::Bond::discounted_value", "crates/qlab-math/src/interpolation/linear.rs::Linear"]}
{"id": "C93", "title": "End-to-end accuracy and outcomes in f32 and f64 proper", "statement": "From maturities, yields and bond terms to a discount factor or price in f32 and f64, with overflow, underflow, infinities and NaN: the same errors as in exact arithmetic and no panic whatever the yields, rate and face value; and for yields, rate and face value of moderate magnitude the result is a finite number within a stated relative error of the exact one.", "quantifier": "outcomes: every list of increasing maturities and all dates less than 2^(prec-1) days from settlement (23000 years in f32, every date in f64), every list of yields, rate and face value, NaN and infinities included; accuracy: every list of yields, rate and face value that are zero or between 2^-k and 2^k, every date within 2^20 days of settlement, every exp that is accurate on bounded arguments, linear interpolation under Act/360 or Act/365", "why_tests_cant": "no sample of yields and dates shows that no step of the chain ever overflows, underflows or turns into NaN", "anchors": ["crates/qlab-termstructure/src/yield_curve.rs::YieldCurve::new", "crates/qlab-termstructure/src/yield_curve.rs::YieldCurve::discount_factor", "crates/qlab-instrument/src/bond.rs::Bond::new", "crates/qlab-instrument/src/bond.rs::Bond::discounted_value", "crates/qlab-math/src/interpolation/linear.rs::Linear"]}
{"id": "C94", "title": "Natural cubic splines in floating point are accurate", "statement": "A natural cubic spline evaluated in floating point differs from the spline computed exactly from the same points by at most a fixed multiple of the unit roundoff times the largest ordinate times the squared ratio of the longest to the shortest distance between neighbouring abscissae, however many points there are.", "quantifier": "every list of at least three points with strictly increasing abscissae, every point of evaluation in range, every floating-point format with an unbounded exponent (f32 and f64 while nothing overflows or underflows)", "why_tests_cant": "rounding errors of the elimination could grow with the number of points; no finite set of curves bounds them", "anchors": ["crates/qlab-math/src/interpolation/spline/natural_cubic.rs::NaturalCubic", "crates/qlab-math/src/linear_algebra/tridiagonal_matrix.rs::TridiagonalMatrix::solve"]}
{"id": "C95", "title": "How far interpolated values leave the range of the data", "statement": "An interpolated value never leaves the range of the ordinates by more than a stated multiple of that range: not at all for linear interpolation, a fifth of it for Catmull-Rom splines, 6/5 times the squared ratio of the longest to the shortest gap for natural cubic splines, and for Hermite splines a quarter of the largest change its slopes make over one segment. Discount factors then lie between those of two flat curves.", "quantifier": "every list of points with strictly increasing abscissae and every point of evaluation in range; for discount factors every settlement date, list of maturities and yields, and date", "why_tests_cant": "an overshoot depends on all ordinates and gaps together; no sample of curves shows the worst one", "anchors": ["crates/qlab-math/src/interpolation/linear.rs::Linear", "crates/qlab-math/src/interpolation/spline/catmull_rom.rs::CatmullRom", "crates/qlab-math/src/interpolation/spline/natural_cubic.rs::NaturalCubic", "crates/qlab-math/src/interpolation/spline/hermite.rs::Hermite", "crates/qlab-termstructure/src/yield_curve.rs::YieldCurve::discount_factor"]}
{"id": "C96", "title": "Interpolation in f32 and f64 is finite and accurate, overflow and underflow included", "statement": "Linear interpolation, Hermite splines and Catmull-Rom splines of finite f32 or f64 data give a finite number as long as ordinates, slopes over a segment and gaps stay a stated factor below the largest number of the format, however small they are, and natural cubic splines do so while gaps lie between 2^-k and 2^k and ordinates below 2^k (k = 22 for f32, 201 for f64); the value differs from the one exact arithmetic gives by at most a fixed multiple of the unit roundoff times the size of the data (for natural cubic splines also times the squared ratio of the longest to the shortest gap), plus multiples of the smallest positive number. At its nodes a Hermite spline returns the given ordinate.", "quantifier": "every list of finite points with strictly increasing abscissae, every finite point of evaluation in range, every IEEE 754 binary format with at least 24 bits of precision", "why_tests_cant": "overflow, gradual underflow and rounding depend on all the bits of all the data; tests use round numbers", "anchors": ["crates/qlab-math/src/interpolation/linear.rs::Linear", "crates/qlab-math/src/interpolation/spline/hermite.rs::Hermite", "crates/qlab-math/src/interpolation/spline/catmull_rom.rs::CatmullRom", "crates/qlab-math/src/interpolation/spline/natural_cubic.rs::NaturalCubic"]}
{"id": "C97", "title": "Discount factors and prices on spline curves computed from market data are accurate, and succeed or fail as in exact arithmetic", "statement": "For a curve made from maturities and yields with linear, Catmull-Rom or natural cubic interpolation, a discount factor or bond price computed with rounded arithmetic is an error or a panic exactly when it is one in exact arithmetic. When it is a number, it differs from the exact one by a relative error that is a fixed multiple of the unit roundoff times the largest yield, the time to maturity, how uneven the maturities are, and (natural cubic only) the squared ratio of the longest to the shortest gap; the error of the exponential function is added.", "quantifier": "every list of increasing maturities and every list of yields of that length, every date less than 2^(prec-1) days from settlement (23000 years in f32, every date in f64), every bond built by the library; for the accuracy of prices issue before the first coupon, the penultimate coupon before maturity and non-negative rate and face value; every rounded arithmetic with a unit roundoff small against the gaps (f32 and f64 in range)", "why_tests_cant": "year fractions, the curve fit, the evaluation, the exponential and the sum all round, and the year fractions move the nodes of the spline themselves; tests compare a few values within a tolerance", "anchors": ["crates/qlab-termstructure/src/yield_curve.rs::YieldCurve", "crates/qlab-math/src/interpolation/spline/catmull_rom.rs::CatmullRom", "crates/qlab-math/src/interpolation/spline/natural_cubic.rs::NaturalCubic", "crates/qlab-instrument/src/bond.rs::Bond"]}
{"id": "C98", "title": "How prices react to the yields: derivatives, convexity and bounded change", "statement": "On one grid of maturities, where yields y give the discount factor v and yields z give w, yields a y + b z give v^a w^b. Hence the price along a line of yields is a sum of exponentials: its derivative is the sum of amount times discount factor times the logarithm of the flow's discount factor in that direction, and under a parallel shift (linear interpolation, or natural cubic with four pillars) minus the time-weighted sum of the discounted flows. The price of a bond without negative flows is a log-convex, hence convex, function of the yields and lies above its first-order estimate. If no yield moves by more than delta, discount factors and prices change by at most the factor exp(L delta X) with L = 1, 2 or 1 + 12/5 (H/h)^2 for linear, Catmull-Rom and natural cubic interpolation.", "quantifier": "every curve built with Act/360 or Act/365 and a shipped interpolator, every two lists of yields, every bond and settlement date with a price, exact arithmetic", "why_tests_cant": "a statement about derivatives and about all pairs of yield lists; a finite difference in a test cannot tell a derivative from something close to it", "anchors": ["crates/qlab-termstructure/src/yield_curve.rs::YieldCurve::discount_factor", "crates/qlab-instrument/src/bond.rs::Bond::discounted_value", "crates/qlab-math/src/interpolation/spline/catmull_rom.rs::CatmullRom", "crates/qlab-math/src/interpolation/spline/natural_cubic.rs::NaturalCubic"]}
{"id": "C99", "title": "Prices in f32 and f64 with any of the three interpolators, overflow and underflow included", "statement": "A curve and a bond price in f32 or f64 return an error exactly where exact arithmetic does, the same one, and never panic, whatever the yields, rate and face value, NaN and infinities included. If the yields are finite (for linear and Catmull-Rom interpolation any finite numbers up to a bound near the largest, the smallest ones included; for natural cubic splines up to 2^k with 5k + 16 at most the largest exponent), discount factors are finite numbers within (1 +- eps) exp(+- delta) of the exact ones, with delta = C kappa u Y (t1 + t2) + 2 times the smallest positive number and C = 60, 725 or 2785 (H/h)^2; and prices of bonds with moderate rate and face value are finite numbers within X/(1-X) of the exact ones, with X = (n + 12) u + eps + 2 C kappa u Y T, as long as they fit in the format.", "quantifier": "every IEEE format with an exponent range like f32 or f64 or larger, every list of increasing maturities within 2870 years of settlement, every yield, rate, face value and bond schedule in the stated range, and every exp of relative error eps on the arguments that occur", "why_tests_cant": "the interplay of rounding, overflow and underflow over all inputs cannot be sampled; tests use a handful of everyday values", "anchors": ["crates/qlab-termstructure/src/yield_curve.rs::YieldCurve::discount_factor", "crates/qlab-instrument/src/bond.rs::Bond::discounted_value", "crates/qlab-math/src/interpolation/spline/catmull_rom.rs::CatmullRom", "crates/qlab-math/src/interpolation/spline/natural_cubic.rs::NaturalCubic", "crates/qlab-math/src/interpolation/linear.rs::Linear"]}
{"id": "C100", "title": "Moving ahead by business days", "statement": "Moving a date ahead n times to the next business day (checked_roll by one day, Following) reaches exactly the n-th business day after it: none is skipped and none visited twice. It agrees with business_days_between, steps add up, a later start never gives an earlier date; None exactly when fewer than n business days are left before the last date, a panic exactly when the calendar panics on a date before the n-th business day. With a shipped calendar, inside the years it answers for, n business days take at most 31 n days.", "quantifier": "every calendar, date and number of steps", "why_tests_cant": "a history of n calls for every n and every calendar, user-supplied ones included", "anchors": ["crates/qlab-time/src/date.rs::Date::checked_roll", "third-parties/calendar/src/calendar.rs::Calendar::business_days_between"]}
{"id": "C101", "title": "How long months, coupon periods and 30/360 months are", "statement": "Adding 1, 2, 3, 4, 6 or 12 months moves a date by 28-31, 59-62, 89-92, 120-123, 181-184 or 365-366 days. The 30/360 fraction from a date to the date n months later is n/12, up to 2/360 less when the date was cut to the end of February, and never more. Consecutive coupons fall due 181-184 days apart and are paid 179-186 days apart, exactly half a year apart under 30/360 when the first coupon date is not after the 28th.", "quantifier": "every date, every number of months, every bond and every pair of consecutive coupons before the last flow", "why_tests_cant": "depends on month lengths, leap years and month-end clamping over all years", "anchors": ["crates/qlab-time/src/date.rs::Date::checked_add_months", "crates/qlab-time/src/day_count/thirty_360.rs::Thirty360", "crates/qlab-instrument/src/bond.rs::Bond::try_new"]}
{"id": "C102", "title": "30/360 and actual/360 stay close", "statement": "For dates in order, the 30/360 count exceeds the actual number of days by at most 2, and falls short of it by at most 6 per calendar year touched; so the 30/360 fraction exceeds the actual/360 fraction by at most 2/360 and falls short of it by at most 6/360 per calendar year touched. Both bounds are attained within one year.", "quantifier": "every pair of dates in order (wrapping build; the build with overflow checks panics on the dates of C20)", "why_tests_cant": "a bound over all pairs of dates", "anchors": ["crates/qlab-time/src/day_count/thirty_360.rs::Thirty360", "crates/qlab-time/src/day_count/act_360.rs::Act360"]}
{"id": "C103", "title": "The calendar repeats", "statement": "Adding 400 years keeps month, day and weekday and is the same as adding 146097 days. From 1901 to 2099 adding 28 years does too, with 10227 days. Shifting two dates by the same number of months that keeps their days of the month leaves the 30/360 fraction between them unchanged.", "quantifier": "every date (years 1901-2071 for the 28-year cycle), both build profiles", "why_tests_cant": "a symmetry over all dates", "anchors": ["crates/qlab-time/src/date.rs::Date::checked_add_years", "crates/qlab-time/src/date.rs::Date::weekday", "crates/qlab-time/src/day_count/thirty_360.rs::Thirty360"]}
{"id": "C104", "title": "Linear interpolation keeps order within a segment in f32 and f64", "statement": "In f32 and f64, on a linear segment with finite data whose widths do not overflow, the computed value never lies on the wrong side of the left node and is monotone in the argument, with no rounding allowance; on a flat segment it is exact. Discount factors from settlement on a segment whose yields are not negative and do not fall lie between 0 and 1 and never increase with the date, even if a yield overflows. (On segments that fall a value may pass the right node: C75, C79.)", "quantifier": "every IEEE 754 binary format of at least 24 bits, every strictly increasing list of finite points, all arguments in a segment; every day count, curve and ordered exp", "why_tests_cant": "whether a rounding step breaks the order depends on every bit of the data", "anchors": ["crates/qlab-math/src/interpolation/linear.rs::try_value", "crates/qlab-termstructure/src/yield_curve.rs::YieldCurve::discount_factor"]}
{"id": "C105", "title": "Larger payments never lower a price in f32 and f64", "statement": "In f32 and f64, of two bonds with the same dates the one whose payments are nowhere smaller has no smaller price, on every curve, with no rounding allowance and with the same errors and panics; payments that are not negative have a price that is not negative; raising the coupon rate of a bond with a face value that is not negative lowers neither a payment nor the price. NaN is excepted.", "quantifier": "every IEEE 754 binary format of at least 24 bits, every bond, curve, interpolator, day count, settlement date and ordered exp, infinities included", "why_tests_cant": "rounding and overflow in sums of any length, for all data", "anchors": ["crates/qlab-instrument/src/bond.rs::Bond::discounted_value", "crates/qlab-instrument/src/bond.rs::Bond::try_new"]}
{"id": "C106", "title": "Only differences of dates matter to curves and prices", "statement": "Moving the settlement date, all maturities and all query dates by the same number of days leaves every discount factor unchanged, bit for bit and with the same errors and panics, with Act/360 and Act/365; with 30/360 the same holds for a move by 400 years (146097 days, a full cycle of the Gregorian calendar). A bond whose four dates are moved by 400 years has the same payments, each due and paid 146097 days later, and moving bond, curve and valuation date together leaves the price unchanged.", "quantifier": "every value type (exact numbers and floats, NaN included), every interpolator, all dates, yields and bonds", "why_tests_cant": "a statement about all pairs of shifted inputs", "anchors": ["crates/qlab-termstructure/src/yield_curve.rs::YieldCurve", "crates/qlab-time/src/day_count", "crates/qlab-instrument/src/bond.rs::Bond"]}
{"id": "C107", "title": "The unit and origin of time do not matter to interpolation", "statement": "Replacing all abscissae and the argument x by a x + b with a > 0 leaves the values of linear, Catmull-Rom and natural cubic interpolation unchanged, and so it does for Hermite interpolation when the slopes are divided by a. Hence with the same pillars the Act/365 discount factors are those of Act/360 to the power 360/365.", "quantifier": "all strictly increasing lists of points, all arguments, all a > 0 and b, in exact arithmetic; all curves and pairs of dates", "why_tests_cant": "a statement about all data and all changes of unit", "anchors": ["crates/qlab-math/src/interpolation", "crates/qlab-termstructure/src/yield_curve.rs::YieldCurve::discount_factor"]}
{"id": "C108", "title": "Interpolated values depend on nearby points", "statement": "A value of linear interpolation depends on the two nodes around the argument only, one of Hermite interpolation on these and their slopes, one of Catmull-Rom interpolation on these and the next node on each side; so it is at every value type, NaN included. A natural cubic spline depends on all points but ever less: a change of at most d in ordinates at least D nodes away from a segment changes values there by at most d (1 + 15/2 (H/h)^2) (2/3)^D, with H the length of the segment and h the smallest gap. Of four points or more, the last does not matter at all up to the last but two.", "quantifier": "all strictly increasing lists of points, all changes of points, all arguments", "why_tests_cant": "a statement about all pairs of data sets of any length", "anchors": ["crates/qlab-math/src/interpolation/linear.rs", "crates/qlab-math/src/interpolation/spline/catmull_rom.rs", "crates/qlab-math/src/interpolation/spline/hermite.rs", "crates/qlab-math/src/interpolation/spline/natural_cubic.rs"]}
{"id": "C109", "title": "Sign changes and powers of two are exact in floating point", "statement": "In f32 and f64, negating every ordinate (and, for Hermite splines, every slope) negates every interpolated value exactly, NaN staying NaN, with the same errors and panics; negating the face value of a bond negates its payments and keeps its dates; negating every payment negates the price. Away from overflow and underflow, multiplying the ordinates by a power of two multiplies every value by exactly that power, multiplying the abscissae and the argument by a power of two changes no value, and multiplying the face value or the payments by a power of two multiplies the payments and the price by exactly that power.", "quantifier": "for signs: all data of the format, infinities, NaN, overflow, underflow and unsorted points included; for powers of two: all numbers with an unbounded exponent range; all interpolators, day counts, curves, bonds and any exp", "why_tests_cant": "a statement about all pairs of inputs, bit for bit", "anchors": ["crates/qlab-math/src/interpolation", "crates/qlab-math/src/linear_algebra/tridiagonal_matrix.rs", "crates/qlab-instrument/src/bond.rs::Bond::new", "crates/qlab-instrument/src/bond.rs::Bond::discounted_value"]}
{"id": "C110", "title": "Interpolated values are close to the function behind the data", "statement": "If the points are samples of a function, an interpolated value is close to that function. Linear: within M/8 times the squared length of the segment where the second derivative is at most M, and within L/2 times its length where the function changes by at most L per unit. Hermite with the true slopes: within M/384 times the fourth power of the length, M bounding the fourth derivative. Natural cubic: within M/8 (1 + 24/5 H/h) H^2, and within (1/2 + 6/5 H/h) L H, for gaps from h to H. Catmull-Rom: within 3/4 L times the length. (Violated by Catmull-Rom in the last segment and by the natural cubic spline through three points, whose error does not shrink with the spacing. Catmull-Rom is off by a 24th of the spacing even on a straight line of slope 1.)", "quantifier": "every function with the stated bound, every strictly increasing list of samples, every point of every segment", "why_tests_cant": "ranges over all functions and all sample grids", "anchors": ["crates/qlab-math/src/interpolation/linear.rs::try_value", "crates/qlab-math/src/interpolation/spline/hermite.rs", "crates/qlab-math/src/interpolation/spline/catmull_rom.rs::try_value", "crates/qlab-math/src/interpolation/spline/natural_cubic.rs::try_value"]}
{"id": "C111", "title": "A curve built from quotes of a zero curve prices like that zero curve", "statement": "If the quoted yields are taken from a zero curve, the discount factor between two covered dates is that of the zero curve up to a factor exp(E X), where E is the bound that C110 gives for the interpolated yields (M H^2/8 or L H/2 for linear interpolation; 3/4 L H for Catmull-Rom up to the last pillar but one; M/8 (1 + 24/5 H/h) H^2 for the natural cubic spline with four pillars or more) and X the time from settlement to both dates added up; the price of a bond without negative flows is the value of its payments on the zero curve up to the same factor.", "quantifier": "every zero curve with the stated bound, every grid of maturities, Act/360 or Act/365, every pair of covered dates, every bond whose payments the curve covers", "why_tests_cant": "ranges over all zero curves, grids and bonds", "anchors": ["crates/qlab-termstructure/src/yield_curve.rs::YieldCurve::new", "crates/qlab-termstructure/src/yield_curve.rs::YieldCurve::discount_factor", "crates/qlab-instrument/src/bond.rs::Bond::discounted_value"]}
{"id": "C112", "title": "Discount factors fall with the date", "statement": "If no quoted yield is negative, the discount factor between two covered dates never exceeds one: waiting longer never makes a payment worth more. (Violated: linear interpolation of falling yields gives factors above one, and both splines give them even when the yields rise. Proved for linear interpolation when the first yield and the forward rates y + t y' at both ends of every period between maturities are not negative, in particular for positive yields that do not fall. For linear interpolation it holds exactly when the factor to the first maturity and those over the first and over the last day of every period between maturities do not exceed one.)", "quantifier": "every strictly increasing list of at least two maturities, every list of yields, Act/360 or Act/365, every pair of dates with a discount factor", "why_tests_cant": "ranges over all curves and pairs of dates; an arbitrage appears only between particular dates of particular curves", "anchors": ["crates/qlab-termstructure/src/yield_curve.rs::YieldCurve::discount_factor", "crates/qlab-math/src/interpolation/linear.rs::try_value"]}
{"id": "C113", "title": "Flat and zero curves in f32 and f64", "statement": "If all quoted yields are zero, every discount factor computed in f32 or f64 is exactly 1 with each of the three interpolators (or NaN, if dates or the day count make it so), and a price is the floating-point sum of the remaining payments. If all quoted yields are the same number, linear interpolation returns it exactly, discount factors lie on the right side of 1 and change monotonically when the period grows at either end, with no rounding allowance, and their relative error does not depend on how close the maturities are.", "quantifier": "every strictly increasing list of enough maturities, every yield below the overflow range, Act/360 or Act/365, every pair of covered dates, every exp that is monotone and exact at zero (accurate, for the error bound), every bond", "why_tests_cant": "ranges over all dates, yields and amounts; cancellation and rounding could break exactness at particular ones", "anchors": ["crates/qlab-termstructure/src/yield_curve.rs::YieldCurve::discount_factor", "crates/qlab-math/src/interpolation/linear.rs::try_value", "crates/qlab-math/src/interpolation/spline/catmull_rom.rs::try_value", "crates/qlab-math/src/interpolation/spline/natural_cubic.rs::try_value", "crates/qlab-instrument/src/bond.rs::discounted_value"]}
{"id": "C114", "title": "Chained discount factors in f32 and f64", "statement": "The discount factors a curve returns for consecutive periods multiply to the one it returns for the whole, up to the rounding of exp and of one subtraction each: whatever the day count, the interpolator and the quotes, since what the curve interpolates at a date enters both sides alike. No error of interpolation, however large, shows as an inconsistency between periods.", "quantifier": "every day count, every interpolator, every list of quotes, every list of dates after the settlement date, every exp that is monotone and accurate up to a bound; factors between exp(-L) and exp(L) for any L below that bound", "why_tests_cant": "ranges over all curves, quotes and schedules; an inconsistency appears only for particular dates", "anchors": ["crates/qlab-termstructure/src/yield_curve.rs::YieldCurve::discount_factor"]}
{"id": "C115", "title": "A bond pays interest for its whole life, once", "statement": "Every day from issue to maturity earns interest exactly once: each coupon pays for the time since the coupon before, so the total paid is the face value plus rate*face/2 for every half year between issue and maturity. (Refuted: the last coupon is always measured from the penultimate coupon date given, even when no coupon falls due on it, and up to 183 days earn nothing; proved when that date is a coupon date up to the 28th.)", "quantifier": "every issue, first coupon, penultimate coupon and maturity date, every rate and face value", "why_tests_cant": "whether days are lost depends on all four dates together; a few sample bonds on regular dates never show it", "anchors": ["crates/qlab-instrument/src/bond.rs::Bond::new"]}
{"id": "C116", "title": "How many business days a period has", "statement": "Every shipped calendar and market except the Russian exchange has at most five business days in a week; over N days at most 5(N/7) + min(N%7, 5). With weekends only, whole weeks have exactly five each and the rest loses at most two days. A joint calendar counts no more days than either part, and at least the sum of the parts less N. Moving ahead by business days takes a week for every five, exactly so for weekends only.", "quantifier": "every calendar and market, every pair of dates, both include flags, every pair of calendars joined, every number of business days ahead", "why_tests_cant": "counts over arbitrary periods and calendars; year tables of single years do not bound them", "anchors": ["third-parties/calendar/src/lib.rs::Calendar::business_days_between", "third-parties/calendar/src/weekendsonly.rs::WeekendsOnly", "third-parties/calendar/src/jointcalendar.rs::JointCalendar"]}
{"id": "C117", "title": "Adjustments keep the order of dates", "statement": "Moving a later date by the same period and adjusting it with any of the conventions never gives an earlier date than moving and adjusting an earlier date.", "quantifier": "every calendar, convention, pair of starting dates and pair of periods", "why_tests_cant": "needs pairs of dates in one run of closed days of an arbitrary calendar", "anchors": ["crates/qlab-time/src/date.rs::Date::checked_roll"]}
{"id": "C118", "title": "A bond trades at par at one coupon rate", "statement": "Before maturity, on a curve that prices a bond, the price is face value times (coupon rate times A plus P), with P the discount factor to maturity and A positive and the same for all rates and face values. So every price belongs to exactly one coupon rate; the price is the face value at exactly one rate, above it exactly for larger rates; that rate is positive exactly when P is below one. For a bond with regular periods it is 2 (1 - P) divided by the sum of the discount factors to the remaining payments.", "quantifier": "every bond schedule, coupon rate, face value, curve, interpolator, day count and settlement date before maturity", "why_tests_cant": "an identity between prices for all rates, schedules and curves", "anchors": ["crates/qlab-instrument/src/bond.rs::Bond::new", "crates/qlab-instrument/src/bond.rs::Bond::discounted_value"]}
{"id": "C119", "title": "Every price has exactly one flat yield", "statement": "On flat curves a bond is worth its remaining amounts discounted at the yield. When no remaining amount is negative and one is positive, every positive price is reached at exactly one yield, the price falls strictly as the yield rises, and it is the plain sum of the amounts exactly at yield zero.", "quantifier": "every bond, settlement date, set of pillars that reproduces a flat curve at the payment dates, Act/360 and Act/365, every positive price", "why_tests_cant": "existence and uniqueness over all real yields", "anchors": ["crates/qlab-instrument/src/bond.rs::Bond::discounted_value", "crates/qlab-termstructure/src/yield_curve.rs::YieldCurve::discount_factor"]}
{"id": "C120", "title": "A curve can be fitted to market prices in exactly one way", "statement": "For any positive numbers, one per pillar, there is exactly one list of yields with which the curve has these discount factors at its pillars, whatever the interpolator. With linear interpolation and the yields of all pillars but the last given, a bond without negative flows that is paid in part after the last but one pillar takes every price above the value of its earlier flows at exactly one last yield, and no other price.", "quantifier": "every list of increasing pillars after settlement, every list of positive discount factors, every bond and price, Act/360 and Act/365", "why_tests_cant": "existence and uniqueness over all real yields and all sets of pillars", "anchors": ["crates/qlab-termstructure/src/yield_curve.rs::YieldCurve::new", "crates/qlab-termstructure/src/yield_curve.rs::YieldCurve::discount_factor", "crates/qlab-instrument/src/bond.rs::Bond::discounted_value"]}
{"id": "C121", "title": "Joint calendars of shipped calendars always have a business day nearby", "statement": "In every month there is a day on which all the shipped calendars are open, and from any date there are at most 30 days to the next and to the previous such day. So with a joint calendar built from shipped calendars, in any number and nesting, rolling an existing unadjusted date never panics or returns None, moves it by at most 30 days in every mode, and the modified conventions always have a date in the month of the unadjusted date.", "quantifier": "every joint calendar of shipped calendars; every date from 1901 to 2199 (first and last year excluded for rolling backwards and forwards); every period and mode", "why_tests_cant": "the holidays of forty countries meet differently in every year, and joint calendars can be nested without bound", "anchors": ["third-parties/calendar/src", "third-parties/calendar/src/jointcalendar.rs::JointCalendar", "crates/qlab-time/src/date.rs::Date::checked_roll"]}
{"id": "C122", "title": "Longer tenors reach later dates", "statement": "From one date, a shorter period reaches an earlier date and a period that is not longer never a later one: between days, months or years, between months and years (12 months a year), between days and months (28 to 31 days a month) and between days and years (365 or 366). The same holds after adjusting with any convention and calendar, the modified ones included. If a period that is not negative leads past the last supported date, so does every longer one.", "quantifier": "every date, every pair of periods so compared, every calendar and every rolling convention", "why_tests_cant": "month ends are cut differently for every month and year, and the modified conventions turn back at month ends; no table of tenors covers every date and calendar", "anchors": ["crates/qlab-time/src/period.rs::Period", "crates/qlab-time/src/period/days.rs::Days", "crates/qlab-time/src/period/months.rs::Months", "crates/qlab-time/src/period/years.rs::Years", "crates/qlab-time/src/date.rs::Date::checked_roll"]}
{"id": "C123", "title": "The Israeli calendar follows the Hebrew calendar", "statement": "From 2013 to 2044 the calendar of Israel is closed exactly on Fridays, Saturdays and the holidays of the Hebrew calendar: Purim, first and seventh day of Passover, Memorial Day and Independence Day with their postponements, Shavuot, 9 Av, the new year, and Yom Kippur, Sukkot and Simchat Torah with the days before; up to 2020 also the days before Passover, its seventh day, Shavuot and the new year. (Violated in May 2038 only, where Independence Day is not postponed and is open.)", "quantifier": "every date from 2013 to 2044, and every date outside for the known absence of holidays", "why_tests_cant": "the listed dates are 32 separate tables; a test repeats a table, it does not compare it with the rules of the Hebrew calendar", "anchors": ["third-parties/calendar/src/israel.rs::Israel::is_business_day"]}
{"id": "C124", "title": "The Japanese calendar knows the equinoxes", "statement": "From 1980 to 2099 the calendar of Japan is closed on the days of the vernal and autumnal equinox, on the Monday after an equinox on a Sunday, and on the day between Respect for the Aged Day and the equinox; no other weekday of March is closed, and in September only Respect for the Aged Day. (Violated: 24 years have a wrong day in March, 34 in September; 22 September 2016 is open.)", "quantifier": "every day of March and September of every year from 1980 to 2099", "why_tests_cant": "the code knows the days from lists of ten years; tests cover one year", "anchors": ["third-parties/calendar/src/japan.rs::Japan::is_business_day", "third-parties/calendar/src/japan.rs::Japan::vernal_equinox_day", "third-parties/calendar/src/japan.rs::Japan::autumnal_equinox_day"]}
{"id": "C125", "title": "Calendars that keep the lunar new year, the Dragon Boat and the Mid-Autumn Festival are closed on them", "statement": "For every year of the tables, China is closed on the first five days of the lunar year, Hong Kong on the first three, South Korea on the first day and the days before and after, Taiwan on the first five, Singapore on the first two; the Mid-Autumn Festival is closed in China (since 2008), Taiwan, the day after it in Hong Kong, and with the days around it in South Korea; the Dragon Boat Festival in China (since 2008), Hong Kong and Taiwan. (Violated in 2010 by Taiwan and Singapore, which list dates a month too early, and by Singapore in four years more.)", "quantifier": "every lunar year from 2004 to the last listed one and every one of these days", "why_tests_cant": "each calendar has a table of its own, and a test of one of them cannot tell a date in the wrong month", "anchors": ["third-parties/calendar/src/china.rs::China::is_business_day", "third-parties/calendar/src/hongkong.rs::HongKong::is_business_day", "third-parties/calendar/src/southkorea.rs::SouthKorea::is_business_day", "third-parties/calendar/src/taiwan.rs::Taiwan::is_business_day", "third-parties/calendar/src/singapore.rs::Singapore::is_business_day"]}
{"id": "C126", "title": "The Turkish calendar follows the Islamic calendar", "statement": "From 2004 to 2034 the calendar of Turkey is closed on the first day of the feast of breaking the fast and of the feast of sacrifice; and every closed day is a Saturday or Sunday, a national day, or at most two days before and four days after the first day of a feast. (Violated: both feasts of 2011 and the second of 2015 are open, and the closings of October 2015 are a month late.)", "quantifier": "every date from 2004 to 2034", "why_tests_cant": "the dates are listed year by year; a test of one year cannot tell that another is a month off", "anchors": ["third-parties/calendar/src/turkey.rs::Turkey::is_business_day"]}
{"id": "C127", "title": "Fitting an interpolator again forgets the earlier data", "statement": "An interpolator fitted to several sets of points, one after the other, gives the values, errors and panics of one fitted to the last set only. One that was never fitted refuses every point of evaluation with the error for too few points. If a fit fails, the caller gets the error of the first set that cannot be fitted.", "quantifier": "every shipped interpolator, every sequence of fits, every set of points and every point of evaluation", "why_tests_cant": "histories have any length; a test fits once", "anchors": ["crates/qlab-math/src/interpolation.rs::Interpolator", "crates/qlab-math/src/interpolation/linear.rs::Linear", "crates/qlab-math/src/interpolation/spline/catmull_rom.rs::CatmullRom", "crates/qlab-math/src/interpolation/spline/natural_cubic.rs::NaturalCubic"]}
{"id": "C128", "title": "The natural cubic spline bends least", "statement": "Among all curves through the given points that have a continuous second derivative, the natural cubic spline is the only one with the smallest integral of the squared second derivative over the range of the points.", "quantifier": "every set of three or more points with increasing abscissae, and every curve through them", "why_tests_cant": "compares the result with every other curve; a test can compare it with a few", "anchors": ["crates/qlab-math/src/interpolation/spline/natural_cubic.rs::NaturalCubic", "crates/qlab-math/src/linear_algebra/tridiagonal_matrix.rs::TridiagonalMatrix"]}
{"id": "C129", "title": "Points read from the other side", "statement": "Interpolating points whose time axis is reversed gives the values of the original points at the mirrored times: for linear interpolation, for Hermite splines with the slopes' signs changed, for Catmull-Rom and for natural cubic splines.", "quantifier": "every set of points with increasing abscissae, every axis of reflection and every time in the range", "why_tests_cant": "a symmetry over all data; a test checks one data set", "anchors": ["crates/qlab-math/src/interpolation/linear.rs::Linear", "crates/qlab-math/src/interpolation/spline/hermite.rs::Hermite", "crates/qlab-math/src/interpolation/spline/catmull_rom.rs::CatmullRom", "crates/qlab-math/src/interpolation/spline/natural_cubic.rs::NaturalCubic"]}
{"id": "C130", "title": "Rising data give rising curves", "statement": "If the ordinates never fall from one point to the next, the interpolated curve never falls: a later time never gets a smaller value. Linear interpolation never falls exactly then. A Hermite spline never falls if its slopes are neither negative nor more than three times the slopes of the straight lines to the neighbouring points. It never falls exactly when on each segment neither end slope is negative and their sum is at most three times the slope of the straight line, or exceeds it by at most the root of their product.", "quantifier": "every set of points with increasing abscissae and every pair of times in the range", "why_tests_cant": "compares the values at all pairs of times for all data; a test samples a grid", "anchors": ["crates/qlab-math/src/interpolation/linear.rs::Linear", "crates/qlab-math/src/interpolation/spline/hermite.rs::Hermite", "crates/qlab-math/src/interpolation/spline/catmull_rom.rs::CatmullRom", "crates/qlab-math/src/interpolation/spline/natural_cubic.rs::NaturalCubic"]}
{"id": "C131", "title": "A point that is already on the curve changes nothing", "statement": "Adding a point that the interpolated curve already passes through (for a Hermite spline: with the slope it already has there) changes no value and no error. On a yield curve, adding a quote whose discount factor the curve already gives changes no discount factor.", "quantifier": "every set of points with increasing abscissae, every added point, every time, inside or outside the range", "why_tests_cant": "compares two curves at all times for all data; a test tries a few", "anchors": ["crates/qlab-math/src/interpolation/linear.rs::Linear", "crates/qlab-math/src/interpolation/spline/hermite.rs::Hermite", "crates/qlab-math/src/interpolation/spline/catmull_rom.rs::CatmullRom", "crates/qlab-math/src/interpolation/spline/natural_cubic.rs::NaturalCubic", "crates/qlab-termstructure/src/yield_curve.rs::YieldCurve"]}
{"id": "C132", "title": "Convex data give convex curves", "statement": "If the slopes of the straight lines between neighbouring points never fall, the interpolated curve is convex: no value lies above a straight line between two points of the curve. Linear interpolation is convex exactly then. A Hermite spline is convex exactly when on each segment, with slopes m0 and m1 at its ends and slope S of the straight line between them, 2 m0 + m1 <= 3 S <= m0 + 2 m1.", "quantifier": "every set of points with increasing abscissae and every pair of times in the range with every time between them", "why_tests_cant": "compares the values at all triples of times for all data; a test samples a grid", "anchors": ["crates/qlab-math/src/interpolation/linear.rs::Linear", "crates/qlab-math/src/interpolation/spline/hermite.rs::Hermite", "crates/qlab-math/src/interpolation/spline/catmull_rom.rs::CatmullRom", "crates/qlab-math/src/interpolation/spline/natural_cubic.rs::NaturalCubic"]}
{"id": "C133", "title": "Singapore, Indonesia and India keep the Islamic feasts", "statement": "In the years that the calendars of Singapore (2004 to 2023), Indonesia (2005 to 2014) and India (2005 to 2025) list, they are closed on each of the two feasts of the Islamic calendar: 1 Shawwal and 10 Dhu al-Hijja of the tabular calendar, or the day before it (India: or the day after it), since the moon decides.", "quantifier": "every date of these years that is a feast of the tabular Islamic calendar", "why_tests_cant": "compares long hand-written lists with an arithmetic calendar for each year; tests check a few days", "anchors": ["third-parties/calendar/src/singapore.rs::Singapore::is_business_day", "third-parties/calendar/src/indonesia.rs::Indonesia::is_business_day", "third-parties/calendar/src/india.rs::India::is_business_day"]}
{"id": "C134", "title": "Going forth and back by months, years and adjustments", "statement": "Adding n months and taking them away again, or the other way round, always succeeds, leads to a date of the same month at most three days before the start, to the start exactly when the first step kept the day of the month, and a third step leads to the same date as the first. Going n years away and back leads to the start, except from 29 February over a year that is not leap, which leads to 28 February. For every calendar, what Following makes of u is not after v exactly when u is not after what Preceding makes of v.", "quantifier": "every date, number of months or years, period and calendar, whenever the first step succeeds", "why_tests_cant": "relates two calls for all dates and all distances, with month ends, leap years and arbitrary calendars in between", "anchors": ["crates/qlab-time/src/date.rs::Date::checked_add_months", "crates/qlab-time/src/date.rs::Date::checked_sub_months", "crates/qlab-time/src/date.rs::Date::checked_add_years", "crates/qlab-time/src/date.rs::Date::checked_roll"]}
{"id": "C135", "title": "Linear interpolation takes the shortest way", "statement": "Among all curves through the points, linear interpolation moves up and down least: its total variation is the sum of the differences of neighbouring ordinates, and every other curve has at least that. It has the least integral of the square of its slope, and is the only curve with so small a one. It is as steep as the steepest straight line between neighbouring points, so no curve is less steep.", "quantifier": "every set of at least two points with increasing abscissae and every real function through them (for the second part: with a continuous slope from each point to the next)", "why_tests_cant": "quantifies over all functions through all data", "anchors": ["crates/qlab-math/src/interpolation/linear.rs::Linear"]}
{"id": "C136", "title": "Calendars that keep Ching Ming, Buddha's birthday and Chung Yeung are closed on them", "statement": "The Hong Kong calendar is closed on Ching Ming, Buddha's birthday and Chung Yeung, and if one of them is a Sunday, on the next weekday that is not a holiday of its own. The South Korean calendar is closed on Buddha's birthday. The Chinese (from 2008) and Taiwanese calendars are closed on Ching Ming.", "quantifier": "every date that is one of these festivals in the years the calendar lists (2004 to 2023, 2024 or 2026)", "why_tests_cant": "compares hand-typed tables of five calendars with the sun and the moon on every such day; a test checks the days its author looks up", "anchors": ["third-parties/calendar/src/hongkong.rs::HongKong", "third-parties/calendar/src/southkorea.rs::SouthKorea", "third-parties/calendar/src/china.rs::China", "third-parties/calendar/src/taiwan.rs::Taiwan"]}
{"id": "C137", "title": "No holiday is lost to a weekend or to another holiday", "statement": "In every year the British calendars are closed on exactly eight Mondays to Fridays, plus the extra days of 1999, 2002, 2011, 2012, 2022 and 2023; the Canadian calendar on ten, eleven since 2008 and twelve since 2021 (the exchange on one fewer); the New Zealand calendar since 2014 on eleven, with Matariki twelve, one fewer when ANZAC Day is kept on Easter Monday. The business days of the year are its Mondays to Fridays less these.", "quantifier": "all years from 1901 (New Zealand: 2014) to 2199 and all markets", "why_tests_cant": "depends on how Christmas, Boxing Day, New Year's Day, Easter and the moved days fall in each of 299 years; a test looks at some of them", "anchors": ["third-parties/calendar/src/unitedkingdom.rs::UnitedKingdom", "third-parties/calendar/src/canada.rs::Canada", "third-parties/calendar/src/newzealand.rs::NewZealand", "third-parties/calendar/src/lib.rs::Calendar::business_days_between"]}
{"id": "C138", "title": "Bonds that agree up to a date pay alike up to it", "statement": "Two bonds with the same issue date, first coupon date, frequency, rate and face value have exactly the same cash flows due up to the earlier of their penultimate coupon dates. Two bonds that differ only in the issue date have the same cash flows but for the amount of the first one.", "quantifier": "all dates, rates and face values of every number type, floats included", "why_tests_cant": "relates the outputs of two constructions of any length; a test compares two chosen bonds", "anchors": ["crates/qlab-instrument/src/bond.rs::Bond::new", "crates/qlab-instrument/src/bond.rs::Bond::first_cash_flow"]}
{"id": "C139", "title": "A seasoned bond is a new bond", "statement": "Once a coupon has been paid, what is left of a bond is the bond issued on the day of that coupon with the next coupon as its first: the same cash flows and, from then on, the same price on every curve.", "quantifier": "all bonds, coupons, settlement dates and curves, every number type", "why_tests_cant": "relates a bond to the bonds issued on each of its coupon dates; a test compares two chosen bonds", "anchors": ["crates/qlab-instrument/src/bond.rs::Bond::new", "crates/qlab-instrument/src/bond.rs::Bond::first_cash_flow", "crates/qlab-instrument/src/bond.rs::discounted_value"]}
{"id": "C140", "title": "Thailand and Singapore keep the Buddhist full moon days", "statement": "From 2000 to 2019 the Thai calendar is closed on Makha Bucha, on Visakha Bucha and on Asarnha Bucha (until 2006 on the day after it), and if one of them is a Saturday or Sunday, on the Monday after it. From 2004 to 2023 the Singapore calendar is closed on Vesak, and if it is a Sunday, on the Monday after it. (Violated: Thailand lists none of them for 2002 to 2004 and 2019; Singapore misses Vesak of 2011, 2015, 2017 and 2018, lists that of 2008 a day early and forgets the Monday in 2005.)", "quantifier": "every date of these years that is one of these days in the Thai lunar calendar or a week after the eighth of the fourth Chinese month", "why_tests_cant": "ranges over all festivals of twenty years; the unit tests compare the days of 2023", "anchors": ["third-parties/calendar/src/thailand.rs::is_business_day", "third-parties/calendar/src/singapore.rs::is_business_day"]}
{"id": "C141", "title": "How many payments a bond makes", "statement": "A regular bond of n years makes 2n payments, in total the face value and n times the yearly interest, on whatever day of the month its coupons are due. In general, besides the flow at maturity there is one coupon for the first coupon date and one for every six months from its month to the month of the penultimate coupon date; the last of them is missing if it would be due later in its month than the penultimate coupon date (exactly then for first coupons due by the 28th), and there are none if the first coupon date is after the penultimate one.", "quantifier": "every bond that can be constructed, of any length and with any dates", "why_tests_cant": "ranges over all dates and all numbers of years; a test builds one bond", "anchors": ["crates/qlab-instrument/src/bond.rs::Bond::new"]}
{"id": "C142", "title": "The effects of the single yields on a price add up", "statement": "A discount factor is the product, over the pillars, of its value on the curve with yield 1 at this pillar and 0 at the others, raised to the power of the quoted yield. So every price has a sensitivity to each single yield, and as the yields move in any direction the price changes at the rate of the sum of the sensitivities times the movements; in particular the effect of a parallel shift is the sum of the effects of the single yields.", "quantifier": "every list of increasing maturities, all yields and directions, every bond and settlement date with a price, Act/360 and Act/365, all three interpolators", "why_tests_cant": "ranges over all curves, all bonds and a continuum of directions; a derivative is a limit", "anchors": ["crates/qlab-termstructure/src/yield_curve.rs::YieldCurve", "crates/qlab-instrument/src/bond.rs::Bond::discounted_value"]}
