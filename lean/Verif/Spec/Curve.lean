import Verif.Model.YieldCurve
import Verif.Spec.Interpolation

/-! # Specification vocabulary for yield curves -/

namespace Qlab.Spec

/-- The day count returns the fractions `ts` for the maturities `ms`, one each, in order. -/
def HasFractions {V : Type} (D : DayCount V) (settle : Date) (ms : List Date) (ts : List V) : Prop :=
  List.Forall₂ (fun m t => D settle m = .ok (.ok t)) ms ts

/-- What a caller sees: build a curve, then ask for the discount factor from `d1` to `d2`. -/
def curveDiscount {V : Type} [Neg V] [Sub V] [Mul V] [HasExp V] (D : DayCount V) (I : Interpolator V)
    (settle : Date) (ms : List Date) (ys : List V) (d1 d2 : Date) : Rust (QLabResult V) := do
  match ← YieldCurve.new D I settle ms ys with
  | .error e => return .error e
  | .ok curve => curve.discountFactor D d1 d2

/-- The error kinds of the interface. -/
def invalidInput (msg : String) : QLabError := .computeError (.invalidInput msg)

/-- The error reported for every interpolation failure. -/
def interpolationError : QLabError := .computeError .interpolationError

/-- The day counts shipped with the library.  `oc` is the overflow-check setting of the build. -/
def IsShippedDayCount {V : Type} [Div V] [FromInt V] (D : DayCount V) : Prop :=
  D = DayCount.act360 ∨ D = DayCount.act365 ∨ ∃ oc, D = DayCount.thirty360 oc

/-- `D` is Act/360 or Act/365, and `N` its year length. -/
def IsActual {V : Type} [Div V] [FromInt V] [OfNat V 360] [OfNat V 365] (D : DayCount V) (N : V) : Prop :=
  (D = DayCount.act360 ∧ N = 360) ∨ (D = DayCount.act365 ∧ N = 365)

/-- `I` is one of the interpolators shipped with the library, and `n` the number of points it needs. -/
def IsShippedInterpolator {V : Type} [Zero V] [One V] [Neg V] [Add V] [Sub V] [Mul V] [Div V] [FromInt V] [LT V]
    [DecidableLT V] [LE V] [DecidableLE V] (I : Interpolator V) (n : Nat) : Prop :=
  (I = Interpolator.linear V ∧ n = 2) ∨ (I = Interpolator.catmullRom V ∧ n = 3) ∨
  (I = Interpolator.naturalCubic V ∧ n = 3)

/-- `d` lies between two of the dates. -/
def Covers (ms : List Date) (d : Date) : Prop := (∃ m ∈ ms, m ≤ d) ∧ ∃ m ∈ ms, d ≤ m

end Qlab.Spec
