import Verif.Spec.LunarFestivals

/-!
# Specification of the Thai lunar calendar

Months of 29 and 30 days in turn.  Some years have a thirtieth day in the seventh month, others a second eighth month.
Makha Bucha, Visakha Bucha and Asarnha Bucha are the full moons, the fifteenth days, of the third, the sixth and the
eighth month; in a year with two eighth months those of the fourth, the seventh and the second eighth.
-/

namespace Qlab.Spec.Thai

/-- The lengths of the months of a year. -/
inductive Kind where
  | plain | extraDay | extraMonth
  deriving DecidableEq

/-- The years from 2000 to 2019. -/
def kind (y : Int) : Kind :=
  if y ∈ [2002, 2004, 2007, 2010, 2012, 2015, 2018] then .extraMonth
  else if y ∈ [2000, 2005, 2009, 2016] then .extraDay
  else .plain

/-- Lengths of the months. -/
def months : Kind → List Nat
  | .plain => [29, 30, 29, 30, 29, 30, 29, 30, 29, 30, 29, 30]
  | .extraDay => [29, 30, 29, 30, 29, 30, 30, 30, 29, 30, 29, 30]
  | .extraMonth => [29, 30, 29, 30, 29, 30, 29, 30, 30, 29, 30, 29, 30]

/-- Serial number of the first day of the lunar year that begins in December 1999, and of those after it.  The first
day of the first of these years was 8 December 1999. -/
def newYear : Nat → Int
  | 0 => Date.serialDate ⟨1999, 12, 8, by decide⟩
  | n + 1 => newYear n + (months (kind (2000 + n))).sum

/-- Serial number of the full moon of month `i` (counted from 1) of the lunar year `y`. -/
def fullMoon (y : Int) (i : Nat) : Int :=
  newYear (y - 2000).toNat + ((months (kind y)).take (i - 1)).sum + 14

/-- The date is Makha Bucha. -/
def IsMakhaBucha (d : Date) : Prop :=
  Date.serialDate d = fullMoon d.year (if kind d.year = .extraMonth then 4 else 3)

/-- The date is Visakha Bucha. -/
def IsVisakhaBucha (d : Date) : Prop :=
  Date.serialDate d = fullMoon d.year (if kind d.year = .extraMonth then 7 else 6)

/-- Serial number of Asarnha Bucha. -/
def asarnhaBucha (y : Int) : Int := fullMoon y (if kind y = .extraMonth then 9 else 8)

/-- The date is the day kept for the Buddhist Lent: Asarnha Bucha, until 2006 the day after it, on which Lent begins. -/
def IsLentDay (d : Date) : Prop :=
  Date.serialDate d = asarnhaBucha d.year + if d.year ≤ 2006 then 1 else 0

/-- The date is a full moon day that the market keeps. -/
def IsFullMoonDay (d : Date) : Prop := IsMakhaBucha d ∨ IsVisakhaBucha d ∨ IsLentDay d

instance (d : Date) : Decidable (IsFullMoonDay d) := by
  unfold IsFullMoonDay IsMakhaBucha IsVisakhaBucha IsLentDay; infer_instance

/-- The calendar keeps `d`: it is closed on it, and if `d` is a Saturday or a Sunday, on the Monday after it. -/
def Keeps (c : Calendar) (d : Date) : Prop :=
  Closed c d ∧ (d.weekday = .Sat → ∀ e, DaysAfter d 2 2 e → Closed c e) ∧
    (d.weekday = .Sun → ∀ e, DaysAfter d 1 1 e → Closed c e)

end Qlab.Spec.Thai
