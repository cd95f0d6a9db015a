{
 "C12": "violated: a weekend at a month end rolls into another month (C12_refuted); the exact condition is proved",
 "C15": "violated: the Modified conventions compare with the unshifted date's month (C15_refuted, C15_refuted_general); the implemented rule and the domain where it agrees are proved; C15_modified_following_iff_partial and C15_modified_preceding_iff_partial give the exact condition",
 "C20": "violated with overflow checks (C20_refuted); the exact panic domain and the value outside it are proved",
 "C26": "violated: include_first skips the first date and equal dates panic with default flags; the exact domain of returning calls is proved",
 "C38": "violated on the last segment: every grid misses its last node unless the ordinate is zero (C38_refuted_last_node); nodes, constants, continuity and domain proved everywhere else; C38_constants_iff_partial says where constants are reproduced",
 "C56": "violated: kink at interior nodes (C56_refuted), straight lines not reproduced (C56_refuted_lines); the one-sided slopes are proved, C56_smooth_iff_partial says at which nodes the spline is differentiable, C56_lines_partial on which segments lines are reproduced",
 "C33": "violated for Ukraine, which follows Western Easter (C33_refuted); Romania proved, Ukraine's actual rule proved, with the exact condition under which Orthodox Easter Monday is closed",
 "C36": "violated: one point evaluated at its abscissa panics, and there is no flat extrapolation (C36_refuted_*); the panic domain is proved exactly",
 "C41": "violated: kinks at the last two interior nodes, and three points lose a term (C41_refuted_*); smoothness everywhere else, the exact condition, and straight lines for four or more points are proved; C41_three_constants_iff_partial says where three points of equal ordinate are",
 "C42": "violated for size two or more: the last-but-one back-substitution step is skipped (C42_refuted); residuals and the exact condition are proved",
 "C57": "violated: the empty slice panics (C57_refuted); proved to be the only panic",
 "C49": "violated at month ends: each date is stepped from the one before, so a clamped day stays clamped (C49_refuted); proved for first coupon days up to 28, and the month for all; C49_day_partial gives the exact day of every due date, C49_anchored_iff_partial and C49_months_iff_partial say exactly when all are anchored",
 "C51": "violated: an empty schedule with an irregular first period panics (C51_refuted); the success and panic domains are proved exactly",
 "C59": "violated: equal dates give 1 (C59_refuted); strictly reversed dates proved rejected",
 "C60": "violated at the last pillar (C60_refuted); all other pillars proved; C60_last_pillar_iff_partial: the last pillar is repriced exactly for a zero quote",
 "C61": "violated: issue and maturity are never checked (C61_refuted); the success domain is C51_success_iff_partial",
 "C62": "violated for the flow at maturity (C62_refuted); proved for every earlier coupon; C62_weekdays_iff_partial: all payments are on weekdays exactly if the maturity is",
 "C65": "violated for weekend coupons (C65_refuted); proved for flows due after settlement, and for every payment when settlement is on a weekday; C65_left_out_iff_partial gives the exact condition",
 "C67": "violated (C67_refuted): coded as fixed 10 and 21 May; the exact days on which the feasts are closed are proved",
 "C68": "violated for elections on 8 November (C68_refuted); proved for all others",
 "C71": "floating point is the standard rounding model of Model/Float (instances f32, f64 in Model/Binary); no overflow, underflow, NaN or infinity",
 "C72": "as C71",
 "C73": "as C71; what is needed of exp is a hypothesis (ExpOrdered, ExpWithin), shown to hold for the correctly rounded exp",
 "C74": "as C73",
 "C75": "violated in f64 by Linear, CatmullRom and NaturalCubic (C75_refuted_*); Hermite is exact at every node, Linear and CatmullRom at the first, NaturalCubic within 3u at the ends",
 "C76": "violated (C76_refuted_strict in f32, C76_refuted_additive in f64); strict from 29 bits on, additive up to 8u",
 "C77": "as C71",
 "C78": "floating point is the standard rounding model of Model/Float (instances f32, f64 in Model/Binary); no overflow, underflow, NaN or infinity",
 "C79": "violated by both splines (C79_refuted_*), and in f64 by linear interpolation where yields fall (C79_refuted_linear_f64); proved for linear interpolation in exact arithmetic, and for the splines when the yields lie close enough together; for Catmull-Rom up to a ratio of 1 + 3 sqrt(3) (C79_catmull_rom_sharp_partial)",
 "C80": "violated (C80_refuted_*): last period of Catmull-Rom, natural cubic with three pillars; proved elsewhere, with the exact dates (C80_catmull_rom_iff_partial, C80_natural_cubic_iff_partial)",
 "C81": "violated by both splines for single pillars (C81_refuted_*), exactly by the neighbouring pillars for Catmull-Rom (C81_pillar_iff_partial), by every second pillar for the natural cubic with four pillars or more outside the segment before the last but one (C81_natural_pillar_iff_partial), where the sign may change (C81_natural_sign_change), and with three pillars by the first alone, after the second (C81_natural_three_pillars_iff_partial); linear proved, parallel shifts also for Catmull-Rom and natural cubic, except three pillars and a later settlement date (C81_refuted_parallel)",
 "C84": "errors a caller constructs with a message of their own can share a text; those returned by the library cannot",
 "C85": "over the full IEEE 754 model (Model/Ieee): infinities, NaN, both zeros, subnormal numbers",
 "C86": "proved: accepted lists without NaN are in ascending order; refuted: all three constructors accept the abscissae 3, NaN, 1, in every format; C86_accepts_iff_partial and C86_hermite_accepts_iff_partial characterise the accepted lists",
 "C87": "proved for ordinates and abscissae that are zero or of moderate magnitude, everywhere but at the first node, and at the first node; refuted by overflow of a difference (NaN at a node) and by repeated abscissae",
 "C88": "the formats need exponents up to 40 only; f32 and f64 have 127 and 1023",
 "C89": "proved when time times yield stays below half the largest number; refuted: with the largest finite yield at all pillars the discount factor from a day to itself is NaN; what is needed of exp is a hypothesis, shown to hold for the correctly rounded exp",
 "C90": "proved when the terms stay below the largest number (accuracy) and when no infinite discount factor meets an amount of zero (sign); refuted on the curve of C89, where every price is NaN",
 "C91": "outcome proved for all data; amounts proved finite and accurate for rates and face values of moderate magnitude; refuted: rate 2 on the largest face value pays infinity",
 "C92": "over Model/Float (unbounded exponents), with the gap ratio of the maturities in the bound; dates less than 2^(p-1) days from settlement, which f64 always meets",
 "C93": "over Model/Ieee; k up to 48 (f32) and 886 (f64) for discount factors, for prices as large as the range of exp leaves room for (31 in f32 with arguments up to 6)",
 "C94": "over Model/Float (unbounded exponent); the constant is 2410 and does not depend on the number of points",
 "C95": "violated in the last segment of a Catmull-Rom spline and by natural cubic splines through three points; proved elsewhere, and with bounds in terms of the largest ordinate everywhere; the constant of Catmull-Rom is sqrt(3)/9 of the range and no smaller one will do (C95_catmull_rom_sharp_partial, C95_catmull_rom_best, likewise C95_catmull_rom_magnitude_best)",
 "C96": "over Model/Ieee; the constants are 6 (linear), 280 (Hermite), 430 (Catmull-Rom) and 2420 (natural cubic)",
 "C97": "over Model/Float; the constants are 725 and 1450 (Catmull-Rom) and 2800 and 5600 (natural cubic); the linear curve has its constants in C92",
 "C98": "all three interpolators; the duration formula needs an interpolator that reproduces constants",
 "C99": "all three interpolators; the outcome without any condition on the values, the accuracy for finite yields, maturities within 2^20 days of settlement and exp accurate on the arguments that occur",
 "C100": "the n-step operation is a caller's loop, defined at the top of the file from checked_roll alone",
 "C101": "ranges from a table of all month lengths",
 "C102": "wrapping build for the fractions",
 "C103": "no bound on the dates",
 "C104": "over Model/Ieee; asks of exp only that it is ordered, 1 at zero and never negative",
 "C105": "over Model/Ieee; comparison of results that are not NaN",
 "C106": "any value type; the bond moved by 400 years must exist",
 "C107": "exact arithmetic",
 "C108": "exact arithmetic, and any value type for linear and Catmull-Rom interpolation",
 "C109": "signs in the full IEEE 754 formats; powers of two with an unbounded exponent range",
 "C110": "violated by Catmull-Rom in the last segment and by the natural cubic spline through three points; proved everywhere else, the bounds for linear and Hermite interpolation being attained",
 "C111": "for linear interpolation, natural cubic splines with four pillars or more, and Catmull-Rom up to the last pillar but one",
 "C112": "violated by falling yields with linear interpolation and by both splines; proved for linear interpolation when forward rates are not negative, in particular for positive yields that do not fall; for linear interpolation exactly characterised by the factors over the first and last day of each period between maturities",
 "C113": "zero yields: exact with all interpolators; flat yields: linear interpolation",
 "C114": "error bound 2 (n + 1) (L + 1) u besides n + 1 errors of exp, n the number of periods",
 "C115": "violated when the penultimate coupon date is not itself a coupon date; exact condition and size of the gap proved",
 "C117": "Violated: the modified conventions compare with the month of the starting date, so two dates that move into the same weekend can be adjusted in opposite directions (C117_refuted_preceding, C117_refuted_following). Proved: exactly when the order is reversed, and that it is kept for starting dates in the same month and, for ModifiedFollowing, for periods up to about ten months.",
 "C123": "Violated on 9 and 11 May 2038; every other date from 2013 to 2044 is proved, and all dates outside.",
 "C124": "Violated; C124_wrong_years lists the wrong years exactly, all other years from 1980 to 2099 are proved.",
 "C125": "Violated by Singapore and Taiwan in the years listed by C125_refuted; China, Hong Kong and South Korea are proved.",
 "C126": "Violated on the days listed by C126_refuted and 28 October 2013; every other date from 2004 to 2034 is proved.",
 "C128": "Violated: three points on a straight line give a curve that bends (C128_refuted). Proved for all data for which the curve has no kink; C41 says which data these are.",
 "C129": "Linear interpolation and Hermite splines: proved. Violated by Catmull-Rom (different slopes from the two sides of a point) and natural cubic splines (last equation dropped). Proved for Catmull-Rom on inner segments whose ends have neighbours of equal ordinates, and for natural cubic splines without kinks.",
 "C130": "Linear interpolation and Hermite splines: proved, each with an exact condition. Violated by Catmull-Rom and natural cubic splines (rising points with a falling curve are given). Proved for Catmull-Rom up to the last but one point, with an exact condition on the points that holds if neighbouring slopes differ by a factor of at most three, and for natural cubic splines through four or more points if the slopes are nearly equal.",
 "C131": "Linear interpolation, Hermite splines and yield curves with linear interpolation: proved, and only points on the curve have this effect. Violated by Catmull-Rom (slopes depend on the neighbours) and natural cubic splines (last equation dropped). Proved for natural cubic splines if neither curve has a kink (C41).",
 "C132": "Linear interpolation and Hermite splines: proved, each with an exact condition. Natural cubic splines: proved convex up to the last point but two for data that bend evenly (second divided differences within a factor of two), and proved never convex on the whole range for such data. Violated by Catmull-Rom, which is convex up to the last but one of four or more points only if all ordinates are equal (three points: exactly on a straight line), and by natural cubic splines.",
 "C133": "Indonesia: proved. Violated by Singapore in 2011 and 2015 to 2018, for which nothing is listed, and by India in 2015 to 2018 and on 13 May 2021. All other feasts: proved.",
 "C134": "Proved for all dates, distances and calendars.",
 "C135": "Proved over the reals for every function through the points.",
 "C136": "The festivals themselves: proved for all calendars. Violated for the days that stand in for a Sunday in Hong Kong: 13 May 2019 and 6 April 2021 are business days. All other such Mondays are proved closed.",
 "C137": "The kernel counts every day of every year with the holiday lists that C66 proves exact.",
 "C138": "Every number type, floats included.",
 "C139": "Holds exactly when the coupon and the next one are due on the same day of the month, so for all bonds whose first coupon is due by the 28th. Violated otherwise: a coupon of 31 August followed by one of 29 February makes the remaining first period look short.",
 "C140": "Proved for every year that the calendars list, 2008 and 2005 (Monday) excepted for Singapore; these exceptions and the missing years are refuted.",
 "C141": "proved for all constructed bonds; the count without the last coupon is an equivalence for first coupons due by the 28th",
 "C142": "proved over the reals for all three interpolators"
}