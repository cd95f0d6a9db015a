import Verif.Spec.Smooth
import Mathlib.MeasureTheory.Integral.IntervalIntegral.Basic

/-! # How much a curve bends -/

namespace Qlab.Spec

open Set

/-- From `a` to `b` the curve `f` has a continuous second derivative, and `B` is the integral of its square. -/
def Bends (f : ℝ → ℝ) (a b B : ℝ) : Prop :=
  ∃ g, HasSecondDerivOn f g (Icc a b) ∧ ContinuousOn g (Icc a b) ∧ B = ∫ x in a..b, g x ^ 2

/-- `B` is the sum of what `f` bends from each point to the next one.  What happens at the points is not counted. -/
def BendsBetween (f : ℝ → ℝ) (pts : List (ℝ × ℝ)) (B : ℝ) : Prop :=
  ∃ b : Nat → ℝ, (∀ i, (hi : i + 1 < pts.length) → Bends f pts[i].1 pts[i + 1].1 (b i)) ∧
    B = ∑ i ∈ Finset.range (pts.length - 1), b i

end Qlab.Spec
