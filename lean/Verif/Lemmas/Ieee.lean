import Verif.Lemmas.Float
import Verif.Spec.Ieee

/-! # Facts about IEEE 754 arithmetic -/

namespace Qlab

open Spec

namespace IeeeFormat
variable (F : IeeeFormat)

/-- The format with an unbounded exponent range. -/
noncomputable def arith : FloatArith := Binary.arith F.prec F.prec_ge

theorem one_le_prec : 1 ≤ F.prec := le_trans (by norm_num) F.prec_ge

theorem arith_fl (x : ℝ) : F.arith.fl x = Binary.roundTo F.prec x := rfl

theorem unit_arith : unitRoundoff F.arith = roundoff F := rfl

/-- In the normal range both roundings agree. -/
theorem round_normal {x : ℝ} (h : x = 0 ∨ (2 : ℝ) ^ (1 - (F.emax : ℤ)) ≤ |x|) : F.round x = F.arith.fl x := by
  rcases h with rfl | h
  · rw [F.round_zero, arith_fl, Binary.roundTo_zero]
  · have hpos : 0 < |x| := lt_of_lt_of_le (Binary.zpow_pos' _) h
    have hl : (1 - (F.emax : ℤ)) ≤ Int.log 2 |x| := (Int.zpow_le_iff_le_log (b := 2) (by norm_num) hpos).1 (by
      push_cast; exact h)
    have hb : F.lastBit x = Binary.lastBit F.prec x := by
      refine max_eq_left ?_
      unfold bottom Binary.lastBit; omega
    rw [arith_fl]
    unfold round Binary.roundTo
    rw [hb]

/-- Multiples of the last bit below the normal range are left alone by both roundings. -/
theorem round_small (k : ℤ) (h : |(k : ℝ) * 2 ^ F.bottom| ≤ (2 : ℝ) ^ (1 - (F.emax : ℤ))) :
    F.round (k * 2 ^ F.bottom) = k * 2 ^ F.bottom ∧ F.arith.fl (k * 2 ^ F.bottom) = k * 2 ^ F.bottom := by
  have hp := F.one_le_prec
  have hk : |k| ≤ 2 ^ F.prec := by
    rw [abs_mul, abs_of_pos (Binary.zpow_pos' _)] at h
    have e : (2 : ℝ) ^ (1 - (F.emax : ℤ)) = 2 ^ (F.prec - 1) * 2 ^ F.bottom := by
      rw [← zpow_natCast, ← zpow_add₀ (by norm_num)]
      congr 1; unfold bottom; omega
    rw [e] at h
    have h1 : |(k : ℝ)| ≤ 2 ^ (F.prec - 1) := le_of_mul_le_mul_right h (Binary.zpow_pos' _)
    have h2 : |k| ≤ 2 ^ (F.prec - 1) := by exact_mod_cast h1
    exact le_trans h2 (pow_le_pow_right₀ (by norm_num) (by omega))
  exact ⟨F.round_rep k _ hk le_rfl, Binary.roundTo_rep hp k _ hk⟩

/-- A number of the format is a multiple of the last bit of the subnormal numbers. -/
theorem multiple_of_rep {x : ℝ} (h : F.round x = x) : ∃ k : ℤ, x = k * 2 ^ F.bottom := by
  obtain ⟨k, e, hk, _, he, _⟩ := F.round_form x
  refine ⟨k * 2 ^ (e - F.bottom).toNat, ?_⟩
  have he' : ((e - F.bottom).toNat : ℤ) + F.bottom = e := by omega
  rw [h] at hk
  rw [hk]
  push_cast
  rw [mul_assoc, ← zpow_natCast, ← zpow_add₀ (by norm_num), he']

/-- Numbers of the format are numbers of the unbounded one. -/
theorem fl_of_rep {x : ℝ} (h : F.round x = x) : F.arith.fl x = x := by
  by_cases hx : x = 0 ∨ (2 : ℝ) ^ (1 - (F.emax : ℤ)) ≤ |x|
  · rw [← F.round_normal hx, h]
  · obtain ⟨k, hk⟩ := F.multiple_of_rep h
    have h2 := not_le.1 (not_or.1 hx).2
    rw [hk] at h2 ⊢
    exact (F.round_small k h2.le).2

/-- Sums of numbers of the format are rounded alike: they never underflow. -/
theorem round_add {x y : ℝ} (hx : F.round x = x) (hy : F.round y = y) : F.round (x + y) = F.arith.fl (x + y) := by
  by_cases h : x + y = 0 ∨ (2 : ℝ) ^ (1 - (F.emax : ℤ)) ≤ |x + y|
  · exact F.round_normal h
  · obtain ⟨k, hk⟩ := F.multiple_of_rep hx
    obtain ⟨l, hl⟩ := F.multiple_of_rep hy
    have h2 := not_le.1 (not_or.1 h).2
    have e : x + y = ((k + l : ℤ) : ℝ) * 2 ^ F.bottom := by rw [hk, hl]; push_cast; ring
    rw [e] at h2 ⊢
    obtain ⟨h3, h4⟩ := F.round_small (k + l) h2.le
    rw [h3, h4]

theorem largest_rep : F.arith.fl F.largest = F.largest := by
  have := Binary.roundTo_rep (p := F.prec) F.one_le_prec (2 ^ F.prec - 1) ((F.emax : ℤ) - F.prec + 1) (by
    have : (1 : ℤ) ≤ 2 ^ F.prec := one_le_pow₀ (by norm_num)
    rw [abs_of_nonneg (by omega)]; omega)
  rw [arith_fl]
  unfold largest
  exact_mod_cast this

theorem largest_ge : (2 : ℝ) ^ F.emax ≤ F.largest := by
  unfold largest
  have h : (2 : ℝ) ^ F.emax = 2 ^ (F.prec - 1) * 2 ^ ((F.emax : ℤ) - F.prec + 1) := by
    rw [← zpow_natCast, ← zpow_natCast, ← zpow_add₀ (by norm_num)]
    congr 1; have := F.one_le_prec; omega
  rw [h]
  refine mul_le_mul_of_nonneg_right ?_ (Binary.zpow_pos' _).le
  have : (2 : ℝ) ^ F.prec = 2 * 2 ^ (F.prec - 1) := by
    rw [← pow_succ']; congr 1; have := F.one_le_prec; omega
  rw [this]
  have := one_le_pow₀ (by norm_num : (1 : ℝ) ≤ 2) (n := F.prec - 1)
  linarith

theorem fl_le_largest {x : ℝ} (h : |x| ≤ F.largest) : |F.arith.fl x| ≤ F.largest := by
  rw [abs_le] at h ⊢
  constructor
  · have := F.arith.mono h.1
    rwa [F.arith.odd, F.largest_rep] at this
  · have := F.arith.mono h.2
    rwa [F.largest_rep] at this

end IeeeFormat

namespace Ieee
variable {F : IeeeFormat} {a b : Ieee F} {x y : ℝ}

theorem isNumber_inj (h : IsNumber a x) (h' : IsNumber a y) : x = y := by
  obtain ⟨_, _, _, rfl⟩ := h
  obtain ⟨_, _, _, h⟩ := h'
  injection h

theorem rep_of_isNumber (h : IsNumber a x) : F.Representable x := by
  obtain ⟨_, _, r, _⟩ := h
  exact r

theorem fl_of_isNumber (h : IsNumber a x) : F.arith.fl x = x := F.fl_of_rep (rep_of_isNumber h).1

theorem ofReal_number {s : Bool} (h : |F.round x| ≤ F.largest) : IsNumber (ofReal F s x) (F.round x) := by
  unfold ofReal
  rw [dif_pos h]
  exact ⟨_, _, _, rfl⟩

theorem ofReal_inf {s : Bool} (h : F.largest < |F.round x|) : ofReal F s x = .inf (signOf s x) := by
  unfold ofReal
  rw [dif_neg (not_le.2 h)]

theorem neg_number (h : IsNumber a x) : IsNumber (-a) (-x) := by
  obtain ⟨s, hs, r, rfl⟩ := h
  exact ⟨_, _, _, rfl⟩

/-- A sum of numbers, unless it is too large. -/
theorem add_number (ha : IsNumber a x) (hb : IsNumber b y) (h : |x + y| ≤ F.largest) :
    IsNumber (a + b) (F.arith.fl (x + y)) := by
  have e := F.round_add (rep_of_isNumber ha).1 (rep_of_isNumber hb).1
  obtain ⟨s, hs, r, rfl⟩ := ha
  obtain ⟨t, ht, r', rfl⟩ := hb
  have h2 := F.fl_le_largest h
  rw [← e] at h2 ⊢
  exact ofReal_number h2

/-- A difference of numbers, unless it is too large. -/
theorem sub_number (ha : IsNumber a x) (hb : IsNumber b y) (h : |x - y| ≤ F.largest) :
    IsNumber (a - b) (F.arith.fl (x - y)) := by
  rw [sub_eq_add_neg] at h ⊢
  exact add_number ha (neg_number hb) h

/-- A product of numbers, unless it is too large or too small. -/
theorem mul_number (ha : IsNumber a x) (hb : IsNumber b y) (h : |x * y| ≤ F.largest)
    (h' : x * y = 0 ∨ (2 : ℝ) ^ (1 - (F.emax : ℤ)) ≤ |x * y|) : IsNumber (a * b) (F.arith.fl (x * y)) := by
  obtain ⟨s, hs, r, rfl⟩ := ha
  obtain ⟨t, ht, r', rfl⟩ := hb
  have h2 := F.fl_le_largest h
  rw [← F.round_normal h'] at h2 ⊢
  exact ofReal_number h2

/-- A quotient of numbers, unless it is too large or too small. -/
theorem div_number (ha : IsNumber a x) (hb : IsNumber b y) (hy : y ≠ 0) (h : |x / y| ≤ F.largest)
    (h' : x / y = 0 ∨ (2 : ℝ) ^ (1 - (F.emax : ℤ)) ≤ |x / y|) : IsNumber (a / b) (F.arith.fl (x / y)) := by
  obtain ⟨s, hs, r, rfl⟩ := ha
  obtain ⟨t, ht, r', rfl⟩ := hb
  have h2 := F.fl_le_largest h
  rw [← F.round_normal h'] at h2 ⊢
  have e : (Ieee.fin s x hs r / Ieee.fin t y ht r' : Ieee F) = ofReal F (s ^^ t) (x / y) := by
    change div _ _ = _
    simp only [div]
    rw [if_neg hy]
  rw [e]
  exact ofReal_number h2

theorem zero_number : IsNumber (0 : Ieee F) 0 := ⟨_, _, _, rfl⟩
theorem one_number : IsNumber (1 : Ieee F) 1 := ⟨_, _, _, rfl⟩

theorem lt_number (ha : IsNumber a x) (hb : IsNumber b y) : a < b ↔ x < y := by
  obtain ⟨s, hs, r, rfl⟩ := ha
  obtain ⟨t, ht, r', rfl⟩ := hb
  change (∃ u v, some (x : EReal) = some u ∧ some (y : EReal) = some v ∧ u < v) ↔ _
  simp

theorem le_number (ha : IsNumber a x) (hb : IsNumber b y) : a ≤ b ↔ x ≤ y := by
  obtain ⟨s, hs, r, rfl⟩ := ha
  obtain ⟨t, ht, r', rfl⟩ := hb
  change (∃ u v, some (x : EReal) = some u ∧ some (y : EReal) = some v ∧ u ≤ v) ↔ _
  simp

theorem not_lt_nan : ¬ a < (.nan : Ieee F) := by rintro ⟨u, v, _, h, _⟩; cases h
theorem not_nan_lt : ¬ (.nan : Ieee F) < a := by rintro ⟨u, v, h, _⟩; cases h
theorem not_le_nan : ¬ a ≤ (.nan : Ieee F) := by rintro ⟨u, v, _, h, _⟩; cases h
theorem not_nan_le : ¬ (.nan : Ieee F) ≤ a := by rintro ⟨u, v, h, _⟩; cases h

theorem lt_irrefl (a : Ieee F) : ¬ a < a := by
  rintro ⟨u, v, h, h', hlt⟩
  rw [h] at h'
  injection h' with h'
  exact absurd (h' ▸ hlt) (_root_.lt_irrefl _)

theorem le_of_lt' {a b : Ieee F} (h : a < b) : a ≤ b := by
  obtain ⟨u, v, h1, h2, h3⟩ := h
  exact ⟨u, v, h1, h2, h3.le⟩

theorem le_trans' {a b c : Ieee F} (h : a ≤ b) (h' : b ≤ c) : a ≤ c := by
  obtain ⟨u, v, h1, h2, h3⟩ := h
  obtain ⟨v', w, h4, h5, h6⟩ := h'
  rw [h2] at h4
  injection h4 with h4
  exact ⟨u, w, h1, h5, h3.trans (h4 ▸ h6)⟩

theorem value_of_ne_nan {a : Ieee F} (h : a ≠ .nan) : ∃ u, a.value = some u := by
  cases a with
  | nan => exact absurd rfl h
  | inf s => exact ⟨_, rfl⟩
  | fin s x _ _ => exact ⟨_, rfl⟩

theorem le_of_not_lt {a b : Ieee F} (ha : a ≠ .nan) (hb : b ≠ .nan) (h : ¬ b < a) : a ≤ b := by
  obtain ⟨u, hu⟩ := value_of_ne_nan ha
  obtain ⟨v, hv⟩ := value_of_ne_nan hb
  exact ⟨u, v, hu, hv, not_lt.1 fun hlt => h ⟨v, u, hv, hu, hlt⟩⟩

theorem lt_posInf {a : Ieee F} {x : ℝ} (h : IsNumber a x) : a < .inf false := by
  obtain ⟨s, hs, r, rfl⟩ := h
  exact ⟨(x : EReal), ⊤, rfl, rfl, EReal.coe_lt_top x⟩

theorem not_lt_negInf {a : Ieee F} : ¬ a < .inf true := by
  rintro ⟨u, v, _, h, hlt⟩
  simp only [value, if_true, Option.some.injEq] at h
  subst h
  exact not_lt_bot hlt

theorem not_le_negInf {a : Ieee F} {x : ℝ} (h : IsNumber a x) : ¬ a ≤ .inf true := by
  obtain ⟨s, hs, r, rfl⟩ := h
  rintro ⟨u, v, h1, h, hle⟩
  simp only [value, if_true, Option.some.injEq] at h h1
  subst h h1
  exact absurd (le_bot_iff.1 hle) (EReal.coe_ne_bot x)

theorem nan_add (a : Ieee F) : (.nan : Ieee F) + a = .nan := rfl
theorem add_nan (a : Ieee F) : a + (.nan : Ieee F) = .nan := by cases a <;> rfl
theorem nan_sub (a : Ieee F) : (.nan : Ieee F) - a = .nan := rfl
theorem sub_nan (a : Ieee F) : a - (.nan : Ieee F) = .nan := by cases a <;> rfl
theorem nan_mul (a : Ieee F) : (.nan : Ieee F) * a = .nan := rfl
theorem mul_nan (a : Ieee F) : a * (.nan : Ieee F) = .nan := by cases a <;> rfl
theorem nan_div (a : Ieee F) : (.nan : Ieee F) / a = .nan := rfl
theorem div_nan (a : Ieee F) : a / (.nan : Ieee F) = .nan := by cases a <;> rfl

/-- A nonnegative finite integer is representable: casts of small integers are exact. -/
theorem fromInt_number (n : ℤ) (hn : |n| ≤ 2 ^ F.prec) :
    ∃ a : Ieee F, FromInt.fromInt (V := Ieee F) n = some a ∧ IsNumber a n := by
  have h := F.representable_int n hn
  have h2 : IsNumber (ofReal F false (n : ℝ)) (F.round n) := ofReal_number (by rw [h.1]; exact h.2)
  rw [h.1] at h2
  exact ⟨_, rfl, h2⟩

/-! ## The corresponding number with an unbounded exponent -/

/-- The number as one with an unbounded exponent (zero for NaN and infinities). -/
noncomputable def toFl : Ieee F → Fl F.arith
  | .nan => 0
  | .inf _ => 0
  | .fin _ x _ r => ⟨x, F.fl_of_rep r.1⟩

theorem toFl_val (h : IsNumber a x) : (toFl a).val = x := by
  obtain ⟨_, _, _, rfl⟩ := h
  rfl

theorem isNumber_toFl (h : IsFinite a) : IsNumber a (toFl a).val := by
  obtain ⟨x, hx⟩ := h
  rw [toFl_val hx]
  exact hx

theorem lt_toFl (ha : IsFinite a) (hb : IsFinite b) : a < b ↔ toFl a < toFl b := by
  rw [Fl.lt_iff]; exact lt_number (isNumber_toFl ha) (isNumber_toFl hb)

theorem le_toFl (ha : IsFinite a) (hb : IsFinite b) : a ≤ b ↔ toFl a ≤ toFl b := by
  rw [Fl.le_iff]; exact le_number (isNumber_toFl ha) (isNumber_toFl hb)

end Ieee

end Qlab
