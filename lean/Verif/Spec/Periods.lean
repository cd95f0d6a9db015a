import Verif.Spec.Dates

/-! # Specification of the shipped periods -/

namespace Qlab.Spec

/-- `b` is `n` months after `a` (before it when `n` is negative): the same day of the month, or the last day of a
month that is too short. -/
def IsMonthsLater (n : Int) (a b : Date) : Prop :=
  monthNumber b.year b.month = monthNumber a.year a.month + n ∧ IsSameDayClamped a.day b.year b.month b.day

end Qlab.Spec
