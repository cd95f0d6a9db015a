import Verif.Model.ErrorText
import Verif.Model.Bond

/-! # Errors a caller can receive -/

namespace Qlab.Spec

/-- The error `e` is returned by a call of the library with a shipped day count: a day count fraction, the construction
of a yield curve, a discount factor, or the price of a bond; with any interpolator and any arguments. -/
inductive Returned (V : Type) [Zero V] [Neg V] [Add V] [Sub V] [Mul V] [Div V] [FromInt V] [HasExp V] : QLabError → Prop
  | dayCount {D : DayCount V} (hD : D = DayCount.act360 ∨ D = DayCount.act365 ∨ ∃ oc, D = DayCount.thirty360 oc)
      {a b : Date} {e : QLabError} (h : D a b = .ok (.error e)) : Returned V e
  | newCurve {D : DayCount V} (hD : D = DayCount.act360 ∨ D = DayCount.act365 ∨ ∃ oc, D = DayCount.thirty360 oc)
      {I : Interpolator V} {s : Date} {ms : List Date} {ys : List V} {e : QLabError}
      (h : YieldCurve.new D I s ms ys = .ok (.error e)) : Returned V e
  | discount {D : DayCount V} (hD : D = DayCount.act360 ∨ D = DayCount.act365 ∨ ∃ oc, D = DayCount.thirty360 oc)
      {I : Interpolator V} {c : YieldCurve V I} {a b : Date} {e : QLabError}
      (h : c.discountFactor D a b = .ok (.error e)) : Returned V e
  | price {D : DayCount V} (hD : D = DayCount.act360 ∨ D = DayCount.act365 ∨ ∃ oc, D = DayCount.thirty360 oc)
      {I : Interpolator V} {c : YieldCurve V I} {b : Bond V} {s : Date} {e : QLabError}
      (h : b.discountedValue D s c = .ok (.error e)) : Returned V e

end Qlab.Spec
