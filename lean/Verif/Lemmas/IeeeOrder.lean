import Mathlib.Data.EReal.Inv
import Verif.Lemmas.IeeeRound

/-!
# Order and the operations of IEEE 754

Every operation that does not give NaN is a monotone rounding of the operation on extended reals.
-/

namespace Qlab

/-- The extended real an exact result is rounded to: an infinity beyond the largest number. -/
noncomputable def IeeeFormat.roundExt (F : IeeeFormat) : EReal → EReal
  | ⊥ => ⊥
  | ⊤ => ⊤
  | (x : ℝ) => open Classical in
    if |F.round x| ≤ F.largest then ((F.round x : ℝ) : EReal) else if x < 0 then ⊥ else ⊤

namespace IeeeFormat
variable (F : IeeeFormat)

theorem roundExt_bot : F.roundExt ⊥ = ⊥ := rfl
theorem roundExt_top : F.roundExt ⊤ = ⊤ := rfl
theorem roundExt_coe (x : ℝ) : F.roundExt x = open Classical in
    if |F.round x| ≤ F.largest then ((F.round x : ℝ) : EReal) else if x < 0 then ⊥ else ⊤ := rfl

theorem roundExt_mono : Monotone F.roundExt := by
  intro u v h
  induction u with
  | bot => exact bot_le
  | top => rw [top_le_iff.1 h]
  | coe x =>
    induction v with
    | bot => exact absurd (le_bot_iff.1 h) (EReal.coe_ne_bot x)
    | top => exact le_top
    | coe y =>
      have hxy : x ≤ y := by exact_mod_cast h
      have hr := F.round_mono hxy
      have hL := F.largest_pos
      rw [roundExt_coe, roundExt_coe]
      by_cases hx : |F.round x| ≤ F.largest
      · rw [if_pos hx]
        by_cases hy : |F.round y| ≤ F.largest
        · rw [if_pos hy]; exact_mod_cast hr
        · rw [if_neg hy]
          have hy0 : ¬ y < 0 := by
            intro h0
            apply hy
            have h1 := F.round_nonpos h0.le
            rw [abs_le] at hx ⊢
            exact ⟨by linarith [hx.1], by linarith⟩
          rw [if_neg hy0]; exact le_top
      · rw [if_neg hx]
        by_cases hx0 : x < 0
        · rw [if_pos hx0]; exact bot_le
        · rw [if_neg hx0]
          have hy0 : ¬ y < 0 := by linarith
          have hy : ¬ |F.round y| ≤ F.largest := by
            intro hy; apply hx
            have h1 := F.round_nonneg (not_lt.1 hx0)
            rw [abs_le] at hy ⊢
            exact ⟨by linarith, by linarith [hy.2]⟩
          rw [if_neg hy, if_neg hy0]

theorem roundExt_zero : F.roundExt 0 = 0 := by
  rw [← EReal.coe_zero, roundExt_coe, F.round_zero, abs_zero, if_pos F.largest_pos.le]

theorem roundExt_nonneg {u : EReal} (h : 0 ≤ u) : 0 ≤ F.roundExt u := by
  have := F.roundExt_mono h; rwa [roundExt_zero] at this

theorem roundExt_nonpos {u : EReal} (h : u ≤ 0) : F.roundExt u ≤ 0 := by
  have := F.roundExt_mono h; rwa [roundExt_zero] at this

theorem roundExt_neg (u : EReal) : F.roundExt (-u) = -F.roundExt u := by
  induction u with
  | bot => rfl
  | top => rfl
  | coe x =>
    rw [← EReal.coe_neg, roundExt_coe, roundExt_coe, F.round_neg, abs_neg]
    by_cases hx : |F.round x| ≤ F.largest
    · rw [if_pos hx, if_pos hx, EReal.coe_neg]
    · rw [if_neg hx, if_neg hx]
      have hx0 : x ≠ 0 := by rintro rfl; exact hx (by rw [F.round_zero, abs_zero]; exact F.largest_pos.le)
      rcases lt_or_gt_of_ne hx0 with h | h
      · rw [if_pos h, if_neg (by linarith)]; rfl
      · rw [if_pos (by linarith), if_neg (by linarith)]; rfl

end IeeeFormat

namespace Ieee
open Spec
variable {F : IeeeFormat} {a b c : Ieee F} {u v : EReal}

theorem le_iff_value (ha : a.value = some u) (hb : b.value = some v) : a ≤ b ↔ u ≤ v := by
  constructor
  · rintro ⟨u', v', h1, h2, h3⟩
    rw [ha] at h1; rw [hb] at h2; injection h1 with h1; injection h2 with h2; subst h1 h2; exact h3
  · intro h; exact ⟨u, v, ha, hb, h⟩

theorem lt_iff_value (ha : a.value = some u) (hb : b.value = some v) : a < b ↔ u < v := by
  constructor
  · rintro ⟨u', v', h1, h2, h3⟩
    rw [ha] at h1; rw [hb] at h2; injection h1 with h1; injection h2 with h2; subst h1 h2; exact h3
  · intro h; exact ⟨u, v, ha, hb, h⟩

theorem value_nan : (.nan : Ieee F).value = none := rfl
theorem value_number {x : ℝ} (h : IsNumber a x) : a.value = some (x : EReal) := by
  obtain ⟨_, _, _, rfl⟩ := h; rfl

/-- Numbers of the format are left alone. -/
theorem roundExt_value (h : a.value = some u) : F.roundExt u = u := by
  cases a with
  | nan => cases h
  | inf s => cases s <;> (injection h with h; subst h; rfl)
  | fin s x hs r =>
    injection h with h; subst h
    rw [IeeeFormat.roundExt_coe, r.1, if_pos r.2]

theorem value_ofReal (s : Bool) (x : ℝ) : (ofReal F s x).value = some (F.roundExt x) := by
  rw [IeeeFormat.roundExt_coe]
  by_cases h : |F.round x| ≤ F.largest
  · unfold ofReal; rw [dif_pos h, if_pos h]; rfl
  · have hx : x ≠ 0 := by rintro rfl; exact h (by rw [F.round_zero, abs_zero]; exact F.largest_pos.le)
    unfold ofReal; rw [dif_neg h, if_neg h]
    unfold signOf; rw [if_neg hx]
    by_cases h0 : x < 0 <;> simp [value, h0]

theorem value_neg (h : a.value = some u) : (-a).value = some (-u) := by
  cases a with
  | nan => cases h
  | inf s => cases s <;> (injection h with h; subst h; rfl)
  | fin s x hs r => injection h with h; subst h; rfl

theorem value_add (ha : a.value = some u) (hb : b.value = some v) (h : a + b ≠ .nan) :
    (a + b).value = some (F.roundExt (u + v)) := by
  cases a with
  | nan => cases ha
  | inf s =>
    cases b with
    | nan => cases hb
    | inf t =>
      injection ha with ha; injection hb with hb; subst ha hb
      cases s <;> cases t <;> first | rfl | exact absurd rfl h
    | fin t y ht r =>
      injection ha with ha; injection hb with hb; subst ha hb
      cases s
      · change some (⊤ : EReal) = some (F.roundExt (⊤ + (y : EReal))); rw [EReal.top_add_coe]; rfl
      · change some (⊥ : EReal) = some (F.roundExt (⊥ + (y : EReal))); rw [EReal.bot_add]; rfl
  | fin s x hs r =>
    cases b with
    | nan => cases hb
    | inf t =>
      injection ha with ha; injection hb with hb; subst ha hb
      cases t
      · change some (⊤ : EReal) = some (F.roundExt ((x : EReal) + ⊤)); rw [EReal.coe_add_top]; rfl
      · change some (⊥ : EReal) = some (F.roundExt ((x : EReal) + ⊥)); rw [EReal.add_bot]; rfl
    | fin t y ht r' =>
      injection ha with ha; injection hb with hb; subst ha hb
      rw [← EReal.coe_add]; exact value_ofReal _ _

theorem value_sub (ha : a.value = some u) (hb : b.value = some v) (h : a - b ≠ .nan) :
    (a - b).value = some (F.roundExt (u - v)) := by
  rw [sub_eq_add_neg]; exact value_add ha (value_neg hb) h

theorem value_ne_nan (h : a.value = some u) : a ≠ .nan := by rintro rfl; cases h

theorem sign_pos {s : Bool} {x : ℝ} (hs : SignFits s x) (hx : x ≠ 0) : s = decide (x < 0) := by
  unfold SignFits at hs
  cases s
  · simp only [Bool.false_eq_true, if_false] at hs
    simp [not_lt.2 hs]
  · simp only [if_true] at hs
    simp [lt_of_le_of_ne hs hx]

theorem value_mul (ha : a.value = some u) (hb : b.value = some v) (h : a * b ≠ .nan) :
    (a * b).value = some (F.roundExt (u * v)) := by
  cases a with
  | nan => cases ha
  | inf s =>
    cases b with
    | nan => cases hb
    | inf t =>
      injection ha with ha; injection hb with hb; subst ha hb
      cases s <;> cases t <;> rfl
    | fin t y ht r =>
      injection ha with ha; injection hb with hb; subst ha hb
      by_cases hy : y = 0
      · exact absurd (if_pos hy) h
      · have e : (.inf s : Ieee F) * .fin t y ht r = .inf (s ^^ t) := if_neg hy
        rw [e, sign_pos ht hy]
        rcases lt_or_gt_of_ne hy with h0 | h0
        · cases s
          · simp [value, h0, EReal.top_mul_coe_of_neg h0, F.roundExt_bot]
          · simp [value, h0, EReal.bot_mul_coe_of_neg h0, F.roundExt_top]
        · cases s
          · simp [value, not_lt.2 h0.le, EReal.top_mul_coe_of_pos h0, F.roundExt_top]
          · simp [value, not_lt.2 h0.le, EReal.bot_mul_coe_of_pos h0, F.roundExt_bot]
  | fin s x hs r =>
    cases b with
    | nan => cases hb
    | inf t =>
      injection ha with ha; injection hb with hb; subst ha hb
      by_cases hx : x = 0
      · exact absurd (if_pos hx) h
      · have e : (.fin s x hs r : Ieee F) * .inf t = .inf (s ^^ t) := if_neg hx
        rw [e, sign_pos hs hx]
        rcases lt_or_gt_of_ne hx with h0 | h0
        · cases t
          · simp [value, h0, EReal.coe_mul_top_of_neg h0, F.roundExt_bot]
          · simp [value, h0, EReal.coe_mul_bot_of_neg h0, F.roundExt_top]
        · cases t
          · simp [value, not_lt.2 h0.le, EReal.coe_mul_top_of_pos h0, F.roundExt_top]
          · simp [value, not_lt.2 h0.le, EReal.coe_mul_bot_of_pos h0, F.roundExt_bot]
    | fin t y ht r' =>
      injection ha with ha; injection hb with hb; subst ha hb
      rw [← EReal.coe_mul]; exact value_ofReal _ _

theorem value_div (ha : a.value = some u) (hb : b.value = some v) (hv : v ≠ 0) (h : a / b ≠ .nan) :
    (a / b).value = some (F.roundExt (u / v)) := by
  cases a with
  | nan => cases ha
  | inf s =>
    cases b with
    | nan => cases hb
    | inf t => exact absurd rfl h
    | fin t y ht r =>
      injection ha with ha; injection hb with hb; subst ha hb
      have hy : y ≠ 0 := by rintro rfl; exact hv rfl
      have e : (.inf s : Ieee F) / .fin t y ht r = .inf (s ^^ t) := rfl
      rw [e, sign_pos ht hy, div_eq_mul_inv, ← EReal.coe_inv]
      rcases lt_or_gt_of_ne hy with h0 | h0
      · have h1 : y⁻¹ < 0 := inv_lt_zero.2 h0
        cases s
        · simp [value, h0, EReal.top_mul_coe_of_neg h1, F.roundExt_bot]
        · simp [value, h0, EReal.bot_mul_coe_of_neg h1, F.roundExt_top]
      · have h1 : 0 < y⁻¹ := inv_pos.2 h0
        cases s
        · simp [value, not_lt.2 h0.le, EReal.top_mul_coe_of_pos h1, F.roundExt_top]
        · simp [value, not_lt.2 h0.le, EReal.bot_mul_coe_of_pos h1, F.roundExt_bot]
  | fin s x hs r =>
    cases b with
    | nan => cases hb
    | inf t =>
      injection ha with ha; injection hb with hb; subst ha hb
      have e : (.fin s x hs r : Ieee F) / .inf t = ofReal F (s ^^ t) 0 := rfl
      rw [e, value_ofReal]
      cases t <;> simp [EReal.div_eq_inv_mul]
    | fin t y ht r' =>
      injection ha with ha; injection hb with hb; subst ha hb
      have hy : y ≠ 0 := by rintro rfl; exact hv rfl
      have e : (.fin s x hs r : Ieee F) / .fin t y ht r' = ofReal F (s ^^ t) (x / y) := if_neg hy
      rw [e, ← EReal.coe_div]; exact value_ofReal _ _

/-! ## Monotonicity -/

theorem exists_value_of_le_left (h : a ≤ b) : ∃ u, a.value = some u := by obtain ⟨u, _, h, _⟩ := h; exact ⟨u, h⟩
theorem exists_value_of_le_right (h : a ≤ b) : ∃ u, b.value = some u := by obtain ⟨_, u, _, h, _⟩ := h; exact ⟨u, h⟩

theorem add_ne_nan (h : a + b ≠ .nan) : a ≠ .nan ∧ b ≠ .nan := by
  constructor
  · rintro rfl; exact h (nan_add b)
  · rintro rfl; exact h (add_nan a)

theorem sub_ne_nan (h : a - b ≠ .nan) : a ≠ .nan ∧ b ≠ .nan := by
  constructor
  · rintro rfl; exact h (nan_sub b)
  · rintro rfl; exact h (sub_nan a)

theorem mul_ne_nan (h : a * b ≠ .nan) : a ≠ .nan ∧ b ≠ .nan := by
  constructor
  · rintro rfl; exact h (nan_mul b)
  · rintro rfl; exact h (mul_nan a)

theorem div_ne_nan (h : a / b ≠ .nan) : a ≠ .nan ∧ b ≠ .nan := by
  constructor
  · rintro rfl; exact h (nan_div b)
  · rintro rfl; exact h (div_nan a)

/-- Sums keep order. -/
theorem add_le_add' {a' b' : Ieee F} (ha : a ≤ a') (hb : b ≤ b') (h : a + b ≠ .nan) (h' : a' + b' ≠ .nan) :
    a + b ≤ a' + b' := by
  obtain ⟨u, u', h1, h2, h3⟩ := ha
  obtain ⟨v, v', g1, g2, g3⟩ := hb
  exact (le_iff_value (value_add h1 g1 h) (value_add h2 g2 h')).2 (F.roundExt_mono (_root_.add_le_add h3 g3))

/-- Products of nonnegative data keep order. -/
theorem mul_le_mul' {a' b' : Ieee F} (ha : a ≤ a') (hb : b ≤ b') (h0 : 0 ≤ a) (h1 : 0 ≤ b) (h : a * b ≠ .nan)
    (h' : a' * b' ≠ .nan) : a * b ≤ a' * b' := by
  obtain ⟨u, u', e1, e2, e3⟩ := ha
  obtain ⟨v, v', g1, g2, g3⟩ := hb
  rw [le_iff_value (value_number zero_number) e1] at h0
  rw [le_iff_value (value_number zero_number) g1] at h1
  exact (le_iff_value (value_mul e1 g1 h) (value_mul e2 g2 h')).2
    (F.roundExt_mono (mul_le_mul e3 g3 (by exact_mod_cast h1) (le_trans (by exact_mod_cast h0) e3)))

theorem mul_nonneg' (h0 : 0 ≤ a) (h1 : 0 ≤ b) (h : a * b ≠ .nan) : 0 ≤ a * b := by
  obtain ⟨u, e1⟩ := exists_value_of_le_right h0
  obtain ⟨v, g1⟩ := exists_value_of_le_right h1
  rw [le_iff_value (value_number zero_number) e1] at h0
  rw [le_iff_value (value_number zero_number) g1] at h1
  rw [le_iff_value (value_number zero_number) (value_mul e1 g1 h)]
  exact_mod_cast F.roundExt_nonneg (mul_nonneg (by exact_mod_cast h0) (by exact_mod_cast h1))

theorem add_nonneg' (h0 : 0 ≤ a) (h1 : 0 ≤ b) (h : a + b ≠ .nan) : 0 ≤ a + b := by
  obtain ⟨u, e1⟩ := exists_value_of_le_right h0
  obtain ⟨v, g1⟩ := exists_value_of_le_right h1
  rw [le_iff_value (value_number zero_number) e1] at h0
  rw [le_iff_value (value_number zero_number) g1] at h1
  rw [le_iff_value (value_number zero_number) (value_add e1 g1 h)]
  exact_mod_cast F.roundExt_nonneg (_root_.add_nonneg (by exact_mod_cast h0) (by exact_mod_cast h1))

theorem div_nonneg' (h0 : 0 ≤ a) (h1 : 0 < b) (h : a / b ≠ .nan) : 0 ≤ a / b := by
  obtain ⟨u, e1⟩ := exists_value_of_le_right h0
  obtain ⟨v, g1⟩ := exists_value_of_le_right (le_of_lt' h1)
  rw [le_iff_value (value_number zero_number) e1] at h0
  rw [lt_iff_value (value_number zero_number) g1] at h1
  have h1' : (0 : EReal) < v := by exact_mod_cast h1
  rw [le_iff_value (value_number zero_number) (value_div e1 g1 h1'.ne' h)]
  exact_mod_cast F.roundExt_nonneg (EReal.div_nonneg (by exact_mod_cast h0) h1'.le)

/-- Quotients by a positive datum keep order. -/
theorem div_le_div' {a' : Ieee F} (ha : a ≤ a') (h1 : 0 < b) (h : a / b ≠ .nan) (h' : a' / b ≠ .nan) :
    a / b ≤ a' / b := by
  obtain ⟨u, u', e1, e2, e3⟩ := ha
  obtain ⟨v, g1⟩ := exists_value_of_le_right (le_of_lt' h1)
  rw [lt_iff_value (value_number zero_number) g1] at h1
  have h1' : (0 : EReal) < v := by exact_mod_cast h1
  exact (le_iff_value (value_div e1 g1 h1'.ne' h) (value_div e2 g1 h1'.ne' h')).2
    (F.roundExt_mono (EReal.div_le_div_right_of_nonneg h1'.le e3))

/-- Subtracting a number keeps order. -/
theorem sub_le_sub' {a' : Ieee F} (ha : a ≤ a') (hb : IsFinite b) : a - b ≤ a' - b := by
  obtain ⟨u, u', e1, e2, e3⟩ := ha
  obtain ⟨y, hy⟩ := hb
  have key : ∀ c : Ieee F, c ≠ .nan → c - b ≠ .nan := by
    obtain ⟨s, hs, r, rfl⟩ := hy
    intro c hc
    cases c with
    | nan => exact absurd rfl hc
    | inf t => rintro ⟨⟩
    | fin t x ht r' =>
      intro h
      have := value_ofReal (F := F) (t && !s) (x + -y)
      rw [show ofReal F (t && !s) (x + -y) = .nan from h] at this
      cases this
  have g1 := value_number hy
  refine (le_iff_value (value_sub e1 g1 (key _ (value_ne_nan e1))) (value_sub e2 g1 (key _ (value_ne_nan e2)))).2
    (F.roundExt_mono (EReal.sub_le_sub e3 le_rfl))

theorem sub_self_value (hb : IsFinite b) : (b - b).value = some 0 := by
  obtain ⟨y, hy⟩ := hb
  have h := sub_number hy hy (by rw [sub_self, abs_zero]; exact F.largest_pos.le)
  rw [sub_self] at h
  have h0 : F.arith.fl 0 = 0 := by simpa using F.arith.int 0 (by simp)
  rw [h0] at h
  exact value_number h

theorem zero_value : (0 : Ieee F).value = some 0 := value_number zero_number

theorem sub_nonneg' (hab : b ≤ a) (hb : IsFinite b) : 0 ≤ a - b := by
  obtain ⟨u, v, e1, e2, e3⟩ := sub_le_sub' hab hb
  rw [sub_self_value hb] at e1
  exact ⟨0, v, zero_value, e2, by injection e1 with e1; rw [e1]; exact e3⟩

/-- A difference of different numbers is not zero: underflow is gradual. -/
theorem sub_pos' (hab : b < a) (ha : IsFinite a) (hb : IsFinite b) : 0 < a - b := by
  obtain ⟨x, hx⟩ := ha
  obtain ⟨y, hy⟩ := hb
  have hlt := (lt_number hy hx).1 hab
  obtain ⟨k, hk⟩ := F.multiple_of_rep (rep_of_isNumber hx).1
  obtain ⟨l, hl⟩ := F.multiple_of_rep (rep_of_isNumber hy).1
  have hbot := Binary.zpow_pos' F.bottom
  have h1 : (2 : ℝ) ^ F.bottom ≤ x - y := by
    rw [hk, hl] at hlt ⊢
    have h2 : (l : ℝ) < k := lt_of_mul_lt_mul_right hlt hbot.le
    have h3 : (l : ℝ) + 1 ≤ k := by exact_mod_cast h2
    nlinarith
  have h2 : 0 < F.round (x - y) := by
    have := F.round_mono h1
    rw [F.pow_range _ le_rfl] at this
    linarith
  have e : (a - b).value = some (F.roundExt ((x - y : ℝ) : EReal)) := by
    obtain ⟨s, hs, r, rfl⟩ := hx
    obtain ⟨t, ht, r', rfl⟩ := hy
    have := value_ofReal (F := F) (s && !t) (x + -y)
    rw [← _root_.sub_eq_add_neg] at this
    exact this
  rw [lt_iff_value zero_value e, IeeeFormat.roundExt_coe]
  split
  · exact_mod_cast h2
  · rw [if_neg (by linarith)]; exact EReal.zero_lt_top

end Ieee

end Qlab
