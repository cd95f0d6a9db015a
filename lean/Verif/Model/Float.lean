import Mathlib.Data.Real.Basic
import Mathlib.Algebra.Order.Field.Basic
import Verif.Model.Value

/-!
# Floating-point value types

`impl Value for f32` and `impl Value for f64` (`crates/qlab-math/src/value.rs:24-26`).  The model is the usual
one of numerical analysis: each operation returns the exact result rounded to the nearest representable number.
Simplified: the exponent range is unbounded, so there is no overflow, no underflow, no infinity, no NaN, and no
negative zero.  `Verif.Model.Binary` gives the rounding functions of both formats.
-/

namespace Qlab

/-- Floating-point arithmetic of a type with `prec` significant bits: 24 for `f32`, 53 for `f64`.  The fields
are what IEEE 754 says of rounding to nearest (4.3.1) away from the ends of the exponent range.  `exp` is the
`exp` of the platform's mathematical library; nothing is assumed about it here except that its results are
floating-point numbers. -/
structure FloatArith where
  /-- number of significant bits -/
  prec : Nat
  prec_ge : 24 ≤ prec
  /-- rounding -/
  fl : ℝ → ℝ
  /-- relative error of rounding -/
  err : ∀ x, |fl x - x| ≤ (1 / 2) ^ prec * |x|
  mono : Monotone fl
  idem : ∀ x, fl (fl x) = fl x
  odd : ∀ x, fl (-x) = -fl x
  /-- integers of at most `prec` bits are representable -/
  int : ∀ n : ℤ, |n| ≤ 2 ^ prec → fl n = n
  exp : ℝ → ℝ
  exp_rep : ∀ x, fl (exp x) = exp x

/-- The numbers of a floating-point type: the reals that rounding leaves alone. -/
@[ext] structure Fl (A : FloatArith) where
  val : ℝ
  rep : A.fl val = val

namespace Fl
variable {A : FloatArith}

/-- The floating-point number closest to a real. -/
def round (A : FloatArith) (x : ℝ) : Fl A := ⟨A.fl x, A.idem x⟩

/-- `+`: the exact sum, rounded. -/
noncomputable instance : Add (Fl A) := ⟨fun a b => round A (a.val + b.val)⟩
/-- `-`: the exact difference, rounded. -/
noncomputable instance : Sub (Fl A) := ⟨fun a b => round A (a.val - b.val)⟩
/-- `*`: the exact product, rounded. -/
noncomputable instance : Mul (Fl A) := ⟨fun a b => round A (a.val * b.val)⟩
/-- `/`: the exact quotient, rounded.  Division by zero is not modelled: it gives zero here, and an infinity or a
NaN in Rust. -/
noncomputable instance : Div (Fl A) := ⟨fun a b => round A (a.val / b.val)⟩
/-- Unary minus is exact. -/
noncomputable instance : Neg (Fl A) := ⟨fun a => ⟨-a.val, by rw [A.odd, a.rep]⟩⟩
/-- `V::zero()`. -/
noncomputable instance : Zero (Fl A) := ⟨⟨0, by simpa using A.int 0 (by simp)⟩⟩
/-- `V::one()`. -/
noncomputable instance : One (Fl A) :=
  ⟨⟨1, by simpa using A.int 1 (by simpa using one_le_pow₀ (by norm_num : (1 : ℤ) ≤ 2))⟩⟩
/-- `V::from_i64` and its siblings: a primitive integer cast with `as`, which rounds to nearest and never fails
(`num_traits` 0.2.19 `src/cast.rs`). -/
noncomputable instance : FromInt (Fl A) := ⟨fun n => some (round A n)⟩
/-- `Real::exp`. -/
noncomputable instance : HasExp (Fl A) := ⟨fun a => ⟨A.exp a.val, A.exp_rep _⟩⟩

theorem val_injective : Function.Injective (val : Fl A → ℝ) := fun _ _ h => Fl.ext h

/-- `<`, `<=`: comparison of the numbers. -/
noncomputable instance : LinearOrder (Fl A) := LinearOrder.lift' val val_injective

end Fl

end Qlab
