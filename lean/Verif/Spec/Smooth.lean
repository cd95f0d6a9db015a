import Mathlib.Analysis.Calculus.Deriv.Basic

/-! # Specification: derivatives on a segment -/

namespace Qlab.Spec

/-- On `S` the function `f` has a slope, and that slope has slope `g`. -/
def HasSecondDerivOn (f g : ℝ → ℝ) (S : Set ℝ) : Prop :=
  ∃ s : ℝ → ℝ, ∀ x ∈ S, HasDerivWithinAt f (s x) S x ∧ HasDerivWithinAt s (g x) S x

/-- On `S` the function `f` has slope `s`. -/
def HasSlopeOn (f s : ℝ → ℝ) (S : Set ℝ) : Prop := ∀ x ∈ S, HasDerivWithinAt f (s x) S x

/-- `p` is a polynomial of degree at most three with value `y₀` and slope `m₀` at `x₀`, and value `y₁` and slope `m₁`
at `x₁`. -/
def CubicWithEnds (p : ℝ → ℝ) (x₀ y₀ m₀ x₁ y₁ m₁ : ℝ) : Prop :=
  (∃ a b c d : ℝ, ∀ x, p x = a + b * x + c * x ^ 2 + d * x ^ 3) ∧
  p x₀ = y₀ ∧ HasDerivAt p m₀ x₀ ∧ p x₁ = y₁ ∧ HasDerivAt p m₁ x₁

end Qlab.Spec
