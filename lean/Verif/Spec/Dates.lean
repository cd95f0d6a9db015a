import Verif.Model.Calendar
import Verif.Spec.Gregorian

/-!
# Specification vocabulary for dates, weekdays and business-day adjustment
-/

namespace Qlab.Spec

/-- What the result of adding years should be: same month and day, except that 29 February becomes
28 February in a year that is not leap. -/
def IsYearsLater (d : Date) (n : Int) (r : Date) : Prop :=
  r.year = d.year + n ∧ r.month = d.month ∧
  ((IsDay (d.year + n) d.month d.day ∧ r.day = d.day) ∨
   (¬ IsDay (d.year + n) d.month d.day ∧ d.month = 2 ∧ d.day = 29 ∧ r.day = 28))

/-- Monday to Friday. -/
def IsWorkday (d : Date) : Prop :=
  d.weekday = .Mon ∨ d.weekday = .Tue ∨ d.weekday = .Wed ∨ d.weekday = .Thu ∨ d.weekday = .Fri

/-- `r` is the first date on or after `d` with property `P`. -/
def IsFirstOnOrAfter (P : Date → Prop) (d r : Date) : Prop :=
  d ≤ r ∧ P r ∧ ∀ x, d ≤ x → x < r → ¬ P x

/-- `r` is the last date on or before `d` with property `P`. -/
def IsLastOnOrBefore (P : Date → Prop) (d r : Date) : Prop :=
  r ≤ d ∧ P r ∧ ∀ x, r < x → x ≤ d → ¬ P x

/-- The calendar answers "business day" on `d`. -/
def Open (c : Calendar) (d : Date) : Prop := c.isBusinessDay d = .ok true

/-- The calendar answers "not a business day" on `d`. -/
def Closed (c : Calendar) (d : Date) : Prop := c.isBusinessDay d = .ok false

/-- The calendar panics when asked about `d`. -/
def Crashes (c : Calendar) (d : Date) : Prop := c.isBusinessDay d = .panic

/-- `r` is the first business day on or after `d`, and the calendar answers on the way. -/
def IsFollowing (c : Calendar) (d r : Date) : Prop :=
  d ≤ r ∧ Open c r ∧ ∀ x, d ≤ x → x < r → Closed c x

/-- `r` is the last business day on or before `d`, and the calendar answers on the way. -/
def IsPreceding (c : Calendar) (d r : Date) : Prop :=
  r ≤ d ∧ Open c r ∧ ∀ x, r < x → x ≤ d → Closed c x

/-- Same calendar month (of the same year). -/
def SameMonth (a b : Date) : Prop := a.year = b.year ∧ a.month = b.month

/-- Market convention "modified following" for an unadjusted date `u`: the following business day,
unless that is in another month, in which case the preceding business day. -/
def IsModifiedFollowing (c : Calendar) (u r : Date) : Prop :=
  ∃ f, IsFollowing c u f ∧ ((SameMonth f u ∧ r = f) ∨ (¬ SameMonth f u ∧ IsPreceding c u r))

/-- Market convention "modified preceding". -/
def IsModifiedPreceding (c : Calendar) (u r : Date) : Prop :=
  ∃ f, IsPreceding c u f ∧ ((SameMonth f u ∧ r = f) ∨ (¬ SameMonth f u ∧ IsFollowing c u r))

/-- The bond-basis day count of the 30/360 rule, on integers. -/
def thirty360Days (a b : Date) : Int :=
  360 * (b.year - a.year) + 30 * ((b.month : Int) - a.month) +
    ((min b.day 30 : Nat) - (min a.day 30 : Nat) : Int)

end Qlab.Spec
