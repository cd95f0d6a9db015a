import Verif.Model.DayCount
import Verif.Model.Interpolation

/-! # Yield curves (`qlab_termstructure::yield_curve`) -/

namespace Qlab

/-- `YieldCurve<D, I>` (`crates/qlab-termstructure/src/yield_curve.rs:13-17`).  The day count is a type
parameter without a field, so it is an argument of the functions below. -/
structure YieldCurve (V : Type) (I : Interpolator V) where
  settlementDate : Date
  interpolator : I.State

namespace YieldCurve
variable {V : Type} {I : Interpolator V}

/-- `maturities.iter().map(..).collect::<Result<Vec<_>, _>>()`
(`crates/qlab-termstructure/src/yield_curve.rs:46-49`): stops at the first error. -/
def fractions (D : DayCount V) (settlementDate : Date) : List Date → Rust (QLabResult (List V))
  | [] => .ok (.ok [])
  | maturity :: rest => do
    match ← D settlementDate maturity with
    | .error e => return .error e
    | .ok t =>
      match ← fractions D settlementDate rest with
      | .error e => return .error e
      | .ok ts => return .ok (t :: ts)

/-- `YieldCurve::new` (`crates/qlab-termstructure/src/yield_curve.rs:36-61`). -/
def new (D : DayCount V) (I : Interpolator V) (settlementDate : Date) (maturities : List Date)
    (spotYields : List V) : Rust (QLabResult (YieldCurve V I)) :=
  if maturities.length ≠ spotYields.length then
    .ok (.error (.ofCompute (.invalidInput "maturities and spot_yields are different lengths")))
  else do
    match ← fractions D settlementDate maturities with
    | .error e => return .error e
    | .ok ts =>
      match ← I.tryFit I.default (ts.zip spotYields) with
      | .error e => return .error (.ofInterpolation e)
      | .ok interpolator => return .ok ⟨settlementDate, interpolator⟩

/-- `YieldCurve::yield_curve` (`crates/qlab-termstructure/src/yield_curve.rs:111-113`). -/
def yieldAt (self : YieldCurve V I) (t : V) : Rust (QLabResult V) := do
  match ← I.tryValue self.interpolator t with
  | .error e => return .error (.ofInterpolation e)
  | .ok y => return .ok y

/-- `YieldCurve::discount_factor` (`crates/qlab-termstructure/src/yield_curve.rs:84-108`). -/
def discountFactor [Neg V] [Sub V] [Mul V] [HasExp V] (D : DayCount V) (self : YieldCurve V I) (d1 d2 : Date) :
    Rust (QLabResult V) :=
  if d2 < d1 then
    .ok (.error (.ofCompute (.invalidInput
      s!"d1: {Date.display d1} must be smaller than d2: {Date.display d2}")))
  else if d1 < self.settlementDate ∨ d2 < self.settlementDate then
    .ok (.error (.ofCompute (.invalidInput
      s!"Either {Date.display d1} or {Date.display d2} exceeds settlement date: Date({Date.display self.settlementDate})")))
  else do
    match ← D self.settlementDate d2 with
    | .error e => return .error e
    | .ok t2 =>
      match ← self.yieldAt t2 with
      | .error e => return .error e
      | .ok y2 =>
        if d1 = self.settlementDate then return .ok (HasExp.exp (-t2 * y2))
        else
          match ← D self.settlementDate d1 with
          | .error e => return .error e
          | .ok t1 =>
            match ← self.yieldAt t1 with
            | .error e => return .error e
            | .ok y1 => return .ok (HasExp.exp (t1 * y1 - t2 * y2))

end YieldCurve

end Qlab
