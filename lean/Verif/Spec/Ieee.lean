import Verif.Model.Ieee
import Verif.Spec.Float
import Verif.Spec.Interpolation
import Verif.Spec.Curve

/-! # Specification vocabulary for IEEE 754 data -/

namespace Qlab.Spec

variable {F : IeeeFormat}

/-- `a` is the finite number `x`. -/
def IsNumber (a : Ieee F) (x : ℝ) : Prop := ∃ s h r, a = .fin s x h r

/-- `a` is a finite number: neither an infinity nor NaN. -/
def IsFinite (a : Ieee F) : Prop := ∃ x, IsNumber a x

/-- The number a finite datum stands for. -/
noncomputable def real : Ieee F → ℝ
  | .fin _ x _ _ => x
  | _ => 0

/-- The unit roundoff of the format. -/
noncomputable def roundoff (F : IeeeFormat) : ℝ := (1 / 2) ^ F.prec

/-- `a` is zero, or of a magnitude between `2 ^ -k` and `2 ^ k`. -/
def Moderate (k : Nat) (a : Ieee F) : Prop := ∃ x, IsNumber a x ∧ (x = 0 ∨ (2 : ℝ) ^ (-(k : ℤ)) ≤ |x| ∧ |x| ≤ 2 ^ (k : ℤ))

/-- What evaluating `ev` at NaN and at infinities gives, the latter if the abscissae are finite. -/
def RefusesNonfinite (finite : Prop) (ev : Ieee F → Rust (Except (InterpolationError (Ieee F)) (Ieee F))) : Prop :=
  ev .nan = .ok (.error (.outOfLowerBound .nan)) ∧
  (finite → ev (.inf false) = .ok (.error (.outOfUpperBound (.inf false))) ∧
    ev (.inf true) = .ok (.error (.outOfLowerBound (.inf true))))

/-- The distance between neighbouring subnormal numbers, the smallest positive number of the format. -/
noncomputable def smallest (F : IeeeFormat) : ℝ := 2 ^ F.bottom

/-- What is asked of the library's `exp` where order matters: NaN for NaN and for nothing else, 1 at zero, never negative,
never decreasing. -/
structure IeeeExp (F : IeeeFormat) [HasExp (Ieee F)] : Prop where
  nan : HasExp.exp (.nan : Ieee F) = .nan
  zero : ∀ a : Ieee F, IsNumber a 0 → HasExp.exp a = 1
  nonneg : ∀ a : Ieee F, a ≠ .nan → 0 ≤ HasExp.exp a
  mono : ∀ a b : Ieee F, a ≤ b → HasExp.exp a ≤ HasExp.exp b

/-- What is asked of the library's `exp` where accuracy matters: a finite result of relative error at most `ε` for
arguments up to `B`. -/
def IeeeExpWithin (F : IeeeFormat) [HasExp (Ieee F)] (B ε : ℝ) : Prop :=
  ∀ (a : Ieee F) (x : ℝ), IsNumber a x → |x| ≤ B → ∃ r, IsNumber (HasExp.exp a) r ∧ |r - Real.exp x| ≤ ε * Real.exp x

/-- `z` is the exact product of time and yield of the curve at date `d`, both finite: of the year fraction computed in the
format and the yield the curve uses there. -/
def FiniteTimesYield {I : Interpolator (Ieee F)} (D : DayCount (Ieee F)) (c : YieldCurve (Ieee F) I) (d : Date) (z : ℝ) :
    Prop :=
  ∃ t y τ η, D c.settlementDate d = .ok (.ok t) ∧ I.tryValue c.interpolator t = .ok (.ok y) ∧ IsNumber t τ ∧
    IsNumber y η ∧ z = τ * η

/-- The same for the start date of a discount factor, where the curve is not asked at its settlement date. -/
def StartTimesYield {I : Interpolator (Ieee F)} (D : DayCount (Ieee F)) (c : YieldCurve (Ieee F) I) (d : Date) (z : ℝ) :
    Prop :=
  (d = c.settlementDate ∧ z = 0) ∨ (d ≠ c.settlementDate ∧ FiniteTimesYield D c d z)

end Qlab.Spec
