import Verif.Spec.Dates

/-!
# Specification of the Japanese equinox holidays

The days are those of the astronomical almanac formula for 1980 to 2099.  A holiday on a Sunday is observed on the
Monday after, and a single day between two holidays is one too.
-/

namespace Qlab.Spec

/-- Day of March on which the vernal equinox falls, 1980 to 2099:
`⌊20.8431 + 0.242194 (y - 1980)⌋ - ⌊(y - 1980) / 4⌋`. -/
def vernalEquinox (y : Int) : Int := (20843100 + 242194 * (y - 1980)) / 1000000 - (y - 1980) / 4

/-- Day of September on which the autumnal equinox falls, 1980 to 2099:
`⌊23.2488 + 0.242194 (y - 1980)⌋ - ⌊(y - 1980) / 4⌋`. -/
def autumnalEquinox (y : Int) : Int := (23248800 + 242194 * (y - 1980)) / 1000000 - (y - 1980) / 4

/-- A Saturday or Sunday, the vernal equinox, or the Monday after one on a Sunday. -/
def HolidayInMarch (d : Date) : Prop :=
  d.weekday = .Sat ∨ d.weekday = .Sun ∨
  (d.day : Int) = vernalEquinox d.year ∨ ((d.day : Int) = vernalEquinox d.year + 1 ∧ d.weekday = .Mon)

instance (d : Date) : Decidable (HolidayInMarch d) := by unfold HolidayInMarch; infer_instance

/-- A Saturday or Sunday; the autumnal equinox or the Monday after one on a Sunday; Respect for the Aged Day, which
is the third Monday of September, before 2003 the 15th or the Monday after one on a Sunday; or the Tuesday between
the third Monday and the equinox. -/
def HolidayInSeptember (d : Date) : Prop :=
  d.weekday = .Sat ∨ d.weekday = .Sun ∨
  (d.day : Int) = autumnalEquinox d.year ∨ ((d.day : Int) = autumnalEquinox d.year + 1 ∧ d.weekday = .Mon) ∨
  (2003 ≤ d.year ∧ d.weekday = .Mon ∧ 15 ≤ d.day ∧ d.day ≤ 21) ∨
  (d.year < 2003 ∧ (d.day = 15 ∨ (d.day = 16 ∧ d.weekday = .Mon))) ∨
  (2003 ≤ d.year ∧ d.weekday = .Tue ∧ 16 ≤ d.day ∧ d.day ≤ 22 ∧ (d.day : Int) + 1 = autumnalEquinox d.year)

instance (d : Date) : Decidable (HolidayInSeptember d) := by unfold HolidayInSeptember; infer_instance

/-- The years from 1980 to 2099 in which `japan.rs` has a wrong day in March. -/
def wrongMarches : List Int :=
  [1981, 1982, 1985, 1986, 1987, 1989, 1990, 1991, 1995, 1998, 1999, 2002, 2003, 2006, 2007, 2010, 2031, 2035, 2043,
   2047, 2051, 2055, 2092, 2096]

/-- The years from 1980 to 2099 in which `japan.rs` has a wrong day in September. -/
def wrongSeptembers : List Int :=
  [2012, 2016, 2032, 2036, 2040, 2044, 2045, 2048, 2049, 2053, 2056, 2057, 2060, 2061, 2064, 2065, 2068, 2072, 2073,
   2076, 2077, 2078, 2081, 2082, 2084, 2085, 2088, 2089, 2090, 2092, 2093, 2094, 2096, 2098]

end Qlab.Spec
