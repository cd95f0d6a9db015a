import Mathlib.Data.Set.Card
import Verif.Spec.Dates
import Verif.Spec.Calendars

/-! # How many holidays a year has -/

namespace Qlab.Spec

/-- The number of Mondays to Fridays in year `y` on which the calendar is closed. -/
noncomputable def holidayCount (c : Calendar) (y : Int) : Nat :=
  Set.ncard {d : Date | d.year = y ∧ d.weekday ≠ .Sat ∧ d.weekday ≠ .Sun ∧ Closed c d}

/-- The holidays of a British year: New Year's Day, Good Friday, Easter Monday, the early May, the spring and the
summer bank holiday, Christmas and Boxing Day (or a day in lieu), and the extra ones: the millennium eve, the golden
and the diamond jubilee, the royal wedding and the coronation, and two in 2022 (platinum jubilee and funeral). -/
def britishHolidays (y : Int) : Nat :=
  if y = 2022 then 10 else if y = 1999 ∨ y = 2002 ∨ y = 2011 ∨ y = 2012 ∨ y = 2023 then 9 else 8

/-- The holidays of a Canadian year: ten (New Year's Day, Good Friday, Victoria Day, Canada Day, the Provincial
Holiday, Labour Day, Thanksgiving, Remembrance Day, Christmas and Boxing Day), from 2008 on Family Day, from 2021 on
the Day for Truth and Reconciliation; the Toronto exchange is open on Remembrance Day. -/
def canadianHolidays (mk : Option CanadaMarket) (y : Int) : Nat :=
  (if mk = some .TSX then 9 else 10) + (if 2008 ≤ y then 1 else 0) + (if 2021 ≤ y then 1 else 0)

/-- The holidays of a New Zealand year from 2014 on: eleven (New Year's Day and the day after, Anniversary Day,
Waitangi Day, Good Friday, Easter Monday, ANZAC Day, the monarch's birthday, Labour Day, Christmas and Boxing Day), and
Matariki from 2022 to 2052; in four years ANZAC Day (or the day in lieu) is Easter Monday. -/
def newZealandHolidays (y : Int) : Nat :=
  (if y = 2038 ∨ y = 2095 ∨ y = 2163 ∨ y = 2190 then 10 else 11) + (if 2022 ≤ y ∧ y ≤ 2052 then 1 else 0)

end Qlab.Spec
