import Mathlib.Tactic.Linarith
import Mathlib.Tactic.Ring
import Mathlib.Tactic.FieldSimp
import Mathlib.Tactic.NormNum
import Mathlib.Tactic.Positivity
import Mathlib.Tactic.Bound
import Verif.Model.Float
import Verif.Spec.Float

/-! # Facts about floating-point arithmetic -/

namespace Qlab

open Spec

namespace FloatArith
variable (A : FloatArith)

theorem unit_pos : 0 < unitRoundoff A := by unfold unitRoundoff; positivity

theorem unit_le : unitRoundoff A ≤ 1 / 16777216 := by
  unfold unitRoundoff
  calc ((1 : ℝ) / 2) ^ A.prec ≤ (1 / 2) ^ 24 := pow_le_pow_of_le_one (by norm_num) (by norm_num) A.prec_ge
    _ = _ := by norm_num

theorem err' (x : ℝ) : |A.fl x - x| ≤ unitRoundoff A * |x| := A.err x

theorem fl_zero : A.fl 0 = 0 := by simpa using A.int 0 (by simp)

/-- Rounding is multiplication by a factor close to 1. -/
theorem fl_factor (x : ℝ) : ∃ d : ℝ, |d| ≤ unitRoundoff A ∧ A.fl x = x * (1 + d) := by
  by_cases hx : x = 0
  · exact ⟨0, by simpa using (A.unit_pos).le, by rw [hx, A.fl_zero]; ring⟩
  · refine ⟨(A.fl x - x) / x, ?_, by field_simp; ring⟩
    rw [abs_div, div_le_iff₀ (abs_pos.2 hx)]
    exact A.err' x

theorem fl_nonneg {x : ℝ} (h : 0 ≤ x) : 0 ≤ A.fl x := by
  have := A.mono h
  rwa [A.fl_zero] at this

theorem fl_nonpos {x : ℝ} (h : x ≤ 0) : A.fl x ≤ 0 := by
  have := A.mono h
  rwa [A.fl_zero] at this

theorem fl_pos {x : ℝ} (h : 0 < x) : 0 < A.fl x := by
  have h1 := A.err' x
  have h2 := A.unit_le
  rw [abs_of_pos h, abs_le] at h1
  nlinarith

theorem fl_neg_of_neg {x : ℝ} (h : x < 0) : A.fl x < 0 := by
  have := A.fl_pos (neg_pos.2 h)
  rw [A.odd] at this
  linarith

theorem fl_eq_zero {x : ℝ} : A.fl x = 0 ↔ x = 0 := by
  constructor
  · intro h
    rcases lt_trichotomy x 0 with hx | hx | hx
    · exact absurd h (A.fl_neg_of_neg hx).ne
    · exact hx
    · exact absurd h (A.fl_pos hx).ne'
  · rintro rfl; exact A.fl_zero

end FloatArith

namespace Fl
variable {A : FloatArith}

theorem val_add (a b : Fl A) : (a + b).val = A.fl (a.val + b.val) := rfl
theorem val_sub (a b : Fl A) : (a - b).val = A.fl (a.val - b.val) := rfl
theorem val_mul (a b : Fl A) : (a * b).val = A.fl (a.val * b.val) := rfl
theorem val_div (a b : Fl A) : (a / b).val = A.fl (a.val / b.val) := rfl
theorem val_neg (a : Fl A) : (-a).val = -a.val := rfl
theorem val_zero : (0 : Fl A).val = 0 := rfl
theorem val_one : (1 : Fl A).val = 1 := rfl
theorem val_exp (a : Fl A) : (HasExp.exp a).val = A.exp a.val := rfl
theorem val_round (x : ℝ) : (Fl.round A x).val = A.fl x := rfl
theorem le_iff (a b : Fl A) : a ≤ b ↔ a.val ≤ b.val := Iff.rfl
theorem lt_iff (a b : Fl A) : a < b ↔ a.val < b.val := lt_iff_lt_of_le_iff_le (le_iff b a)
theorem fromInt_eq (n : Int) : FromInt.fromInt (V := Fl A) n = some (Fl.round A n) := rfl

theorem sub_self' (a : Fl A) : a - a = 0 := by
  ext; rw [val_sub, sub_self, A.fl_zero, val_zero]

theorem zero_mul' (a : Fl A) : 0 * a = 0 := by
  ext; rw [val_mul, val_zero, zero_mul, A.fl_zero]

theorem mul_zero' (a : Fl A) : a * 0 = 0 := by
  ext; rw [val_mul, val_zero, mul_zero, A.fl_zero]

theorem zero_div' (a : Fl A) : 0 / a = 0 := by
  ext; rw [val_div, val_zero, zero_div, A.fl_zero]

theorem add_zero' (a : Fl A) : a + 0 = a := by
  ext; rw [val_add, val_zero, add_zero, a.rep]

theorem zero_add' (a : Fl A) : 0 + a = a := by
  ext; rw [val_add, val_zero, zero_add, a.rep]

theorem one_mul' (a : Fl A) : 1 * a = a := by
  ext; rw [val_mul, val_one, one_mul, a.rep]

theorem mul_one' (a : Fl A) : a * 1 = a := by
  ext; rw [val_mul, val_one, mul_one, a.rep]

theorem neg_zero' : -(0 : Fl A) = 0 := by ext; rw [val_neg, val_zero, neg_zero]

theorem div_self' {a : Fl A} (h : a ≠ 0) : a / a = 1 := by
  have : a.val ≠ 0 := fun hc => h (Fl.ext hc)
  ext
  rw [val_div, div_self this]
  exact (1 : Fl A).rep

theorem sub_pos' {a b : Fl A} (h : a < b) : 0 < (b - a).val := A.fl_pos (sub_pos.2 ((lt_iff a b).1 h))

end Fl

end Qlab
