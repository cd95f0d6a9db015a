import Verif.Lemmas.IeeeRound
import Mathlib.Analysis.Complex.ExponentialBounds

/-!
# A correctly rounded `exp`

It meets `Spec.IeeeExp` and `Spec.IeeeExpWithin`, so the theorems with these hypotheses are not vacuous.
-/

namespace Qlab

open Spec

variable {F : IeeeFormat}

/-- The exponential function, correctly rounded. -/
@[reducible] noncomputable def roundedExp (F : IeeeFormat) : HasExp (Ieee F) where
  exp
    | .nan => .nan
    | .inf false => .inf false
    | .inf true => 0
    | .fin _ x _ _ => .ofReal F false (Real.exp x)

namespace Ieee

theorem le_posInf {a : Ieee F} (h : a ≠ .nan) : a ≤ .inf false := by
  obtain ⟨u, hu⟩ := value_of_ne_nan h
  exact ⟨u, ⊤, hu, rfl, le_top⟩

theorem ofReal_one : ofReal F false 1 = 1 := by
  have r1 : F.Representable 1 := rep_of_isNumber one_number
  unfold ofReal
  rw [dif_pos (by rw [r1.1]; exact r1.2)]
  change _ = Ieee.fin false 1 _ _
  congr 1
  · simp [signOf]
  · exact r1.1

theorem ofReal_pos_cases {x : ℝ} (h : 0 < x) (s : Bool) :
    IsNumber (ofReal F s x) (F.round x) ∨ (F.largest < F.round x ∧ ofReal F s x = .inf false) := by
  rcases le_or_gt |F.round x| F.largest with h1 | h1
  · exact Or.inl (ofReal_number h1)
  · right
    refine ⟨by rwa [abs_of_nonneg (F.round_nonneg h.le)] at h1, ?_⟩
    rw [ofReal_inf h1]
    unfold signOf
    rw [if_neg h.ne']
    congr 1
    simpa using h.le

end Ieee

theorem roundedExp_sound (F : IeeeFormat) : @IeeeExp F (roundedExp F) := by
  letI := roundedExp F
  have nonneg : ∀ a : Ieee F, a ≠ .nan → 0 ≤ HasExp.exp a := by
    intro a ha
    match a, ha with
    | .inf false, _ => exact Ieee.le_posInf (by intro h; cases h)
    | .inf true, _ => exact (Ieee.le_number Ieee.zero_number Ieee.zero_number).2 le_rfl
    | .fin s x h r, _ =>
      change 0 ≤ Ieee.ofReal F false (Real.exp x)
      rcases Ieee.ofReal_pos_cases (F := F) (Real.exp_pos x) false with h | ⟨-, h⟩
      · rw [Ieee.le_number Ieee.zero_number h]; exact F.round_nonneg (Real.exp_pos x).le
      · rw [h]; exact Ieee.le_posInf (by intro h; cases h)
  have nn : ∀ a : Ieee F, a ≠ .nan → HasExp.exp a ≠ .nan := by
    intro a ha h
    have := nonneg a ha
    rw [h] at this
    exact Ieee.not_le_nan this
  refine ⟨rfl, ?_, nonneg, ?_⟩
  · rintro a ⟨s, h, r, rfl⟩
    change Ieee.ofReal F false (Real.exp 0) = 1
    rw [Real.exp_zero]; exact Ieee.ofReal_one
  · intro a b hab
    match a, b, hab with
    | .nan, _, hab => exact absurd hab Ieee.not_nan_le
    | _, .nan, hab => exact absurd hab Ieee.not_le_nan
    | .inf true, b, hab =>
      refine nonneg b ?_
      rintro rfl
      exact Ieee.not_le_nan hab
    | a, .inf false, hab =>
      refine Ieee.le_posInf (nn a ?_)
      rintro rfl
      exact Ieee.not_nan_le hab
    | .inf false, .inf true, hab =>
      obtain ⟨u, v, h1, h2, h3⟩ := hab
      cases h1; cases h2
      exact absurd h3 (by simp)
    | .inf false, .fin s x h r, hab =>
      obtain ⟨u, v, h1, h2, h3⟩ := hab
      cases h1; cases h2
      exact absurd h3 (by simp)
    | .fin s x h r, .inf true, hab =>
      obtain ⟨u, v, h1, h2, h3⟩ := hab
      cases h1; cases h2
      exact absurd h3 (by simp)
    | .fin s x h r, .fin t y h' r', hab =>
      have hxy : x ≤ y := (Ieee.le_number ⟨_, _, _, rfl⟩ ⟨_, _, _, rfl⟩).1 hab
      have hm := F.round_mono (Real.exp_le_exp.2 hxy)
      change Ieee.ofReal F false (Real.exp x) ≤ Ieee.ofReal F false (Real.exp y)
      rcases Ieee.ofReal_pos_cases (F := F) (Real.exp_pos x) false with h1 | ⟨l1, h1⟩ <;>
        rcases Ieee.ofReal_pos_cases (F := F) (Real.exp_pos y) false with h2 | ⟨l2, h2⟩
      · rw [Ieee.le_number h1 h2]; exact hm
      · rw [h2]
        refine Ieee.le_posInf ?_
        obtain ⟨_, _, _, e⟩ := h1
        rw [e]; simp
      · have := (Ieee.rep_of_isNumber h2).2
        rw [abs_of_nonneg (F.round_nonneg (Real.exp_pos y).le)] at this
        linarith
      · rw [h1, h2]
        exact Ieee.le_posInf (by intro h; cases h)

/-- For arguments up to 60 the correctly rounded exponential is finite, of relative error at most the unit roundoff. -/
theorem roundedExp_within (F : IeeeFormat) (hF : 121 ≤ F.emax) : @IeeeExpWithin F (roundedExp F) 60 (roundoff F) := by
  letI := roundedExp F
  rintro a x ⟨s, h, r, rfl⟩ hx
  change ∃ r, IsNumber (Ieee.ofReal F false (Real.exp x)) r ∧ _
  have h60 : Real.exp 60 ≤ 2 ^ 120 := by
    have e : Real.exp 60 = Real.exp 1 ^ 60 := by rw [← Real.exp_nat_mul]; norm_num
    rw [e, show (2 : ℝ) ^ 120 = 4 ^ 60 by rw [show (4 : ℝ) = 2 ^ 2 by norm_num, ← pow_mul]]
    exact pow_le_pow_left₀ (Real.exp_pos 1).le (by have := Real.exp_one_lt_d9; linarith) 60
  have hx' := abs_le.1 hx
  have up : Real.exp x ≤ 2 ^ 120 := le_trans (Real.exp_le_exp.2 hx'.2) h60
  have down : (2 : ℝ) ^ (1 - (F.emax : ℤ)) ≤ |Real.exp x| := by
    rw [abs_of_pos (Real.exp_pos x)]
    have h1 : Real.exp (-60) ≤ Real.exp x := Real.exp_le_exp.2 hx'.1
    have h2 : (2 : ℝ) ^ (1 - (F.emax : ℤ)) ≤ 2 ^ (-120 : ℤ) := zpow_le_zpow_right₀ (by norm_num) (by omega)
    refine le_trans h2 (le_trans ?_ h1)
    rw [Real.exp_neg, zpow_neg]
    exact inv_anti₀ (Real.exp_pos _) (by exact_mod_cast h60)
  have hl : |Real.exp x| ≤ F.largest := by
    rw [abs_of_pos (Real.exp_pos x)]
    exact le_trans up (le_trans (pow_le_pow_right₀ (by norm_num) (by omega)) F.largest_ge)
  refine ⟨_, Ieee.ofReal_number (F.round_le_largest hl), ?_⟩
  rw [F.round_normal (Or.inr down)]
  have := F.arith.err' (Real.exp x)
  rwa [abs_of_pos (Real.exp_pos x)] at this

end Qlab
