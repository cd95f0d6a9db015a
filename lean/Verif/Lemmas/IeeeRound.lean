import Verif.Lemmas.IeeeRange

/-! # Rounding with subnormal numbers -/

namespace Qlab

open Spec

namespace IeeeFormat
variable (F : IeeeFormat)

theorem round_neg (x : ℝ) : F.round (-x) = -F.round x := by
  unfold round
  have : F.lastBit (-x) = F.lastBit x := by unfold lastBit; rw [Binary.lastBit_neg]
  rw [this, neg_div, Binary.nearestEven_neg]
  push_cast; ring

/-- Below the normal range, rounding is to multiples of the last bit of the subnormal numbers. -/
theorem round_subnormal {x : ℝ} (h : |x| < (2 : ℝ) ^ (1 - (F.emax : ℤ))) :
    F.round x = Binary.nearestEven (x / 2 ^ F.bottom) * 2 ^ F.bottom := by
  by_cases h0 : x = 0
  · subst h0
    rw [F.round_zero, zero_div, show Binary.nearestEven 0 = 0 by simpa using Binary.nearestEven_int 0]
    simp
  have hpos : 0 < |x| := abs_pos.2 h0
  have hl : Int.log 2 |x| < 1 - (F.emax : ℤ) := (Int.lt_zpow_iff_log_lt (b := 2) (by norm_num) hpos).1 (by
    push_cast; exact h)
  have hb : F.lastBit x = F.bottom := by
    refine max_eq_right ?_
    unfold bottom Binary.lastBit; omega
  unfold round
  rw [hb]

/-- Relative error for normal, absolute error for subnormal results. -/
theorem round_err (x : ℝ) : |F.round x - x| ≤ roundoff F * |x| + 2 ^ F.bottom / 2 := by
  have hb := Binary.zpow_pos' F.bottom
  have hu : 0 ≤ roundoff F * |x| := mul_nonneg (by unfold roundoff; positivity) (abs_nonneg _)
  rcases lt_or_ge |x| ((2 : ℝ) ^ (1 - (F.emax : ℤ))) with h | h
  · rw [F.round_subnormal h]
    have e := Binary.nearestEven_err (x / 2 ^ F.bottom)
    have e2 : (Binary.nearestEven (x / 2 ^ F.bottom) : ℝ) * 2 ^ F.bottom - x =
        (Binary.nearestEven (x / 2 ^ F.bottom) - x / 2 ^ F.bottom) * 2 ^ F.bottom := by
      rw [sub_mul, div_mul_cancel₀ _ hb.ne']
    rw [e2, abs_mul, abs_of_pos hb]
    have := mul_le_mul_of_nonneg_right e hb.le
    linarith
  · rw [F.round_normal (Or.inr h)]
    have := Binary.roundTo_err F.one_le_prec x
    have e : F.arith.fl x = Binary.roundTo F.prec x := rfl
    rw [e]
    unfold roundoff
    linarith

theorem pow_range (e : ℤ) (h1 : F.bottom ≤ e) : F.round (2 ^ e) = 2 ^ e := by
  have := F.round_rep 1 e (by simpa using one_le_pow₀ (by norm_num : (1 : ℤ) ≤ 2)) h1
  simpa using this

theorem round_mono : Monotone F.round := by
  have hb := Binary.zpow_pos' F.bottom
  have hT : F.round ((2 : ℝ) ^ (1 - (F.emax : ℤ))) = 2 ^ (1 - (F.emax : ℤ)) :=
    F.pow_range _ (by have := F.one_le_prec; unfold bottom; omega)
  have hT0 := Binary.zpow_pos' (1 - (F.emax : ℤ))
  -- subnormal results against the smallest normal number
  have small : ∀ x, |x| < (2 : ℝ) ^ (1 - (F.emax : ℤ)) → |F.round x| ≤ 2 ^ (1 - (F.emax : ℤ)) := by
    intro x hx
    have key : ∀ z, 0 ≤ z → z < (2 : ℝ) ^ (1 - (F.emax : ℤ)) → F.round z ≤ 2 ^ (1 - (F.emax : ℤ)) := by
      intro z h0 hz
      rw [F.round_subnormal (by rwa [abs_of_nonneg h0])]
      have e : (2 : ℝ) ^ (1 - (F.emax : ℤ)) = ((2 ^ (F.prec - 1) : ℤ) : ℝ) * 2 ^ F.bottom := by
        push_cast
        rw [← zpow_natCast, ← zpow_add₀ (by norm_num)]
        congr 1; have := F.one_le_prec; unfold bottom; omega
      rw [e] at hz ⊢
      refine mul_le_mul_of_nonneg_right ?_ hb.le
      have := Binary.nearestEven_mono ((div_le_iff₀ hb).2 hz.le)
      rw [Binary.nearestEven_int] at this
      exact_mod_cast this
    rcases le_total 0 x with h0 | h0
    · rw [abs_of_nonneg h0] at hx
      rw [abs_of_nonneg (F.round_nonneg h0)]
      exact key x h0 hx
    · rw [abs_of_nonpos h0] at hx
      rw [abs_of_nonpos (F.round_nonpos h0), ← F.round_neg]
      exact key _ (by linarith) hx
  have normal : ∀ x, (2 : ℝ) ^ (1 - (F.emax : ℤ)) ≤ x → 2 ^ (1 - (F.emax : ℤ)) ≤ F.round x := by
    intro x hx
    rw [F.round_normal (Or.inr (by rwa [abs_of_nonneg (le_trans hT0.le hx)]))]
    have := F.arith.mono hx
    rwa [Mag.fl_pow] at this
  intro x y hxy
  rcases lt_or_ge |x| ((2 : ℝ) ^ (1 - (F.emax : ℤ))) with hx | hx <;>
    rcases lt_or_ge |y| ((2 : ℝ) ^ (1 - (F.emax : ℤ))) with hy | hy
  · rw [F.round_subnormal hx, F.round_subnormal hy]
    refine mul_le_mul_of_nonneg_right ?_ hb.le
    exact_mod_cast Binary.nearestEven_mono (div_le_div_of_nonneg_right hxy hb.le)
  · have hy' : (2 : ℝ) ^ (1 - (F.emax : ℤ)) ≤ y := by
      rcases le_total 0 y with h0 | h0
      · rwa [abs_of_nonneg h0] at hy
      · rw [abs_of_nonpos h0] at hy
        have := (abs_lt.1 hx).1
        linarith
    exact le_trans (abs_le.1 (small x hx)).2 (normal y hy')
  · have hx' : (2 : ℝ) ^ (1 - (F.emax : ℤ)) ≤ -x := by
      rcases le_total 0 x with h0 | h0
      · rw [abs_of_nonneg h0] at hx
        have := (abs_lt.1 hy).2
        linarith
      · rwa [abs_of_nonpos h0] at hx
    have h1 := normal _ hx'
    rw [F.round_neg] at h1
    have := (abs_le.1 (small y hy)).1
    linarith
  · rw [F.round_normal (Or.inr hx), F.round_normal (Or.inr hy)]
    exact F.arith.mono hxy

theorem largest_pos : 0 < F.largest := lt_of_lt_of_le (by positivity) F.largest_ge

theorem largest_representable : F.Representable F.largest := by
  have h := F.largest_rep
  have hn : F.largest = 0 ∨ (2 : ℝ) ^ (1 - (F.emax : ℤ)) ≤ |F.largest| := by
    right
    rw [abs_of_pos F.largest_pos]
    refine le_trans ?_ F.largest_ge
    rw [← zpow_natCast]
    exact zpow_le_zpow_right₀ (by norm_num) (by have := F.emax_ge; have := F.prec_ge; omega)
  exact ⟨by rw [F.round_normal hn, h], by rw [abs_of_pos F.largest_pos]⟩

theorem round_le_largest {x : ℝ} (h : |x| ≤ F.largest) : |F.round x| ≤ F.largest := by
  have h' := abs_le.1 h
  have h1 := F.round_mono h'.1
  have h2 := F.round_mono h'.2
  rw [F.round_neg, F.largest_representable.1] at h1
  rw [F.largest_representable.1] at h2
  exact abs_le.2 ⟨h1, h2⟩

/-- Every representable number is a datum. -/
theorem exists_number {F : IeeeFormat} {x : ℝ} (h : F.Representable x) : ∃ a : Ieee F, IsNumber a x := by
  have := Ieee.ofReal_number (F := F) (s := false) (x := x) (by rw [h.1]; exact h.2)
  rw [h.1] at this
  exact ⟨_, this⟩

end IeeeFormat

namespace Ieee
variable {F : IeeeFormat} {a b : Ieee F} {x y : ℝ}

/-- A product of numbers that is not too large. -/
theorem mul_round (ha : IsNumber a x) (hb : IsNumber b y) (h : |x * y| ≤ F.largest) : IsNumber (a * b) (F.round (x * y)) := by
  obtain ⟨s, hs, r, rfl⟩ := ha
  obtain ⟨t, ht, r', rfl⟩ := hb
  exact ofReal_number (F.round_le_largest h)

/-- A quotient of numbers that is not too large. -/
theorem div_round (ha : IsNumber a x) (hb : IsNumber b y) (hy : y ≠ 0) (h : |x / y| ≤ F.largest) :
    IsNumber (a / b) (F.round (x / y)) := by
  obtain ⟨s, hs, r, rfl⟩ := ha
  obtain ⟨t, ht, r', rfl⟩ := hb
  change IsNumber (if y = 0 then _ else ofReal F (s ^^ t) (x / y)) _
  rw [if_neg hy]
  exact ofReal_number (F.round_le_largest h)

end Ieee

end Qlab
