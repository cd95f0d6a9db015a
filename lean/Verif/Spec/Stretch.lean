import Verif.Spec.Smooth
import Mathlib.MeasureTheory.Integral.IntervalIntegral.Basic

/-! # How much a curve stretches -/

namespace Qlab.Spec

open Set

/-- From `a` to `b` the curve `f` has a continuous slope, and `B` is the integral of its square. -/
def Stretches (f : ℝ → ℝ) (a b B : ℝ) : Prop :=
  ∃ s, HasSlopeOn f s (Icc a b) ∧ ContinuousOn s (Icc a b) ∧ B = ∫ x in a..b, s x ^ 2

/-- `B` is the sum of what `f` stretches from each point to the next one. -/
def StretchesBetween (f : ℝ → ℝ) (pts : List (ℝ × ℝ)) (B : ℝ) : Prop :=
  ∃ b : Nat → ℝ, (∀ i, (hi : i + 1 < pts.length) → Stretches f pts[i].1 pts[i + 1].1 (b i)) ∧
    B = ∑ i ∈ Finset.range (pts.length - 1), b i

/-- Between any two places of `S` the curve `f` rises or falls on average by no more than `C` per unit. -/
def NoSteeper (f : ℝ → ℝ) (C : ℝ) (S : ℝ → Prop) : Prop := ∀ x z, S x → S z → |f x - f z| ≤ C * |x - z|

end Qlab.Spec
