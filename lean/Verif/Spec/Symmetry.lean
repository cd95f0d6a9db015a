import Verif.Model.Ieee
import Verif.Spec.Interpolation

/-! # Specification vocabulary for symmetries -/

namespace Qlab.Spec

/-- Both calls panic, both return values related by `Y`, or both fail with the same kind of error, whose argument, if it
carries the abscissa asked for, is related by `X`. -/
def AnswerRel {V W : Type} (X : V → W → Prop) (Y : V → W → Prop) :
    Rust (Except (InterpolationError V) V) → Rust (Except (InterpolationError W) W) → Prop
  | .panic, .panic => True
  | .ok (.ok a), .ok (.ok b) => Y a b
  | .ok (.error .pointOrderError), .ok (.error .pointOrderError) => True
  | .ok (.error (.outOfLowerBound a)), .ok (.error (.outOfLowerBound b)) => X a b
  | .ok (.error (.outOfUpperBound a)), .ok (.error (.outOfUpperBound b)) => X a b
  | .ok (.error (.insufficientPointsError m)), .ok (.error (.insufficientPointsError n)) => m = n
  | _, _ => False

/-- Both calls panic, both fail with the same error, or both return values related by `R`. -/
def ResultRel {V W : Type} (R : V → W → Prop) : Rust (QLabResult V) → Rust (QLabResult W) → Prop
  | .panic, .panic => True
  | .ok (.error e), .ok (.error e') => e = e'
  | .ok (.ok v), .ok (.ok w) => R v w
  | _, _ => False

/-- `b` is exactly minus `a`: the opposite number, the opposite infinity, or NaN for NaN.  Zeros of both signs count as
the same number. -/
def IsMinus {F : IeeeFormat} (a b : Ieee F) : Prop := b.value = a.value.map fun u => -u

/-- `b` is exactly `2 ^ k` times `a`. -/
def IsTimes {A : FloatArith} (k : ℤ) (a b : Fl A) : Prop := b.val = 2 ^ k * a.val

/-- Rounding does not look at the exponent: that of binary formats with an unbounded exponent range. -/
def RoundsAlike (A : FloatArith) : Prop := ∀ (k : ℤ) (x : ℝ), A.fl (2 ^ k * x) = 2 ^ k * A.fl x

end Qlab.Spec
