import Verif.Spec.Dates

/-!
# Specification of the two feasts of the Islamic calendar

The tabular calendar: months of 30 and 29 days in turn, and in eleven of every thirty years one day more at the end.
Feasts fixed by sight of the moon are at most a day or two away.  Days are serial numbers, in which 1 is Monday,
1 January of year 1.
-/

namespace Qlab.Spec.Islamic

/-- Serial number of day `d` of month `m` of year `h`.  1 Muharram of year 1 is Friday, 16 July 622 (Julian). -/
def day (h m d : Int) : Int := 227014 + 354 * (h - 1) + (11 * h + 3) / 30 + 29 * (m - 1) + m / 2 + d

/-- The feast of breaking the fast, 1 Shawwal. -/
def fitr (h : Int) : Int := day h 10 1

/-- The feast of sacrifice, 10 Dhu al-Hijja. -/
def adha (h : Int) : Int := day h 12 10

/-- First day of one of the two feasts. -/
def IsFeast (d : Date) : Prop := ∃ h : Int, Date.serialDate d = fitr h ∨ Date.serialDate d = adha h

/-- Not more than two days before and not more than four days after the first day of one of the two feasts. -/
def NearFeast (d : Date) : Prop := ∃ h : Int,
  (fitr h - 2 ≤ Date.serialDate d ∧ Date.serialDate d ≤ fitr h + 4) ∨
  (adha h - 2 ≤ Date.serialDate d ∧ Date.serialDate d ≤ adha h + 4)

/-- The calendar is closed on a day from `a` days before `d` to `b` days after it. -/
def ClosedNear (c : Calendar) (d : Date) (a b : Int) : Prop :=
  ∃ e : Date, Closed c e ∧ Date.serialDate d - a ≤ Date.serialDate e ∧ Date.serialDate e ≤ Date.serialDate d + b

/-- National days of Turkey: 1 January, 23 April, 1 and 19 May, 15 July since 2017, 30 August and 29 October. -/
def TurkishNationalDay (d : Date) : Prop :=
  (d.month, d.day) ∈ [(1, 1), (4, 23), (5, 1), (5, 19), (8, 30), (10, 29)] ∨
  (2017 ≤ d.year ∧ d.month = 7 ∧ d.day = 15)

instance (d : Date) : Decidable (TurkishNationalDay d) := by unfold TurkishNationalDay; infer_instance

end Qlab.Spec.Islamic
