import Mathlib.Analysis.SpecialFunctions.Exp
import Mathlib.Tactic.FieldSimp
import Mathlib.Tactic.Linarith
import Mathlib.Tactic.LinearCombination

/-! # Real inequalities for linear curves on rounded year fractions -/

namespace Qlab

/-- Position between two nodes when each abscissa `a` is replaced by some `x` within `u a` of it. -/
theorem ratio_error {u κ a₀ a₁ a x₀ x₁ x : ℝ} (hu : 0 < u) (hκ : 16 * u * κ ≤ 1) (h0 : 0 ≤ a₀) (h0a : a₀ ≤ a)
    (ha1 : a ≤ a₁) (h01 : a₀ < a₁) (hgap : a₁ ≤ κ * (a₁ - a₀)) (e0 : |x₀ - a₀| ≤ u * a₀) (e1 : |x₁ - a₁| ≤ u * a₁)
    (e : |x - a| ≤ u * a) :
    |(x - x₀) / (x₁ - x₀) - (a - a₀) / (a₁ - a₀)| ≤ 5 * u * κ := by
  have hb : 0 < a₁ - a₀ := by linarith
  generalize hbd : a₁ - a₀ = b at *
  have hm : u * a₁ ≤ u * κ * b := by
    have := mul_le_mul_of_nonneg_left hgap hu.le; linarith
  have hub : u * κ * b ≤ b / 16 := by
    have := mul_le_mul_of_nonneg_right hκ hb.le; linarith
  have hma : u * a ≤ u * a₁ := mul_le_mul_of_nonneg_left ha1 hu.le
  have hma0 : u * a₀ ≤ u * a₁ := mul_le_mul_of_nonneg_left h01.le hu.le
  obtain ⟨l0, r0⟩ := abs_le.1 e0
  obtain ⟨l1, r1⟩ := abs_le.1 e1
  obtain ⟨l, r⟩ := abs_le.1 e
  set m := u * κ * b with hmd
  have hm0 : 0 ≤ m := by
    have : 0 ≤ u * a₁ := mul_nonneg hu.le (by linarith)
    linarith
  have hden : 7 / 8 * b ≤ x₁ - x₀ := by linarith
  have hdp : 0 < x₁ - x₀ := by linarith
  -- write the difference over the common denominator
  set l' := (a - a₀) / b with hl
  have hl0 : 0 ≤ l' := div_nonneg (by linarith) hb.le
  have hl1 : l' ≤ 1 := (div_le_one hb).2 (by linarith)
  have hla : a - a₀ = l' * b := by rw [hl]; field_simp
  have key : (x - x₀) / (x₁ - x₀) - l' = ((x - x₀) - l' * (x₁ - x₀)) / (x₁ - x₀) := by field_simp
  rw [key, abs_div, abs_of_pos hdp, div_le_iff₀ hdp]
  have num : |(x - x₀) - l' * (x₁ - x₀)| ≤ 4 * m := by
    have e2 : (x - x₀) - l' * (x₁ - x₀) = ((x - a) - (x₀ - a₀)) - l' * ((x₁ - a₁) - (x₀ - a₀)) := by
      have : l' * (a₁ - a₀) = a - a₀ := by rw [hbd, hla]
      linear_combination -this
    have p1 : |(x - a) - (x₀ - a₀)| ≤ 2 * m := abs_le.2 ⟨by linarith, by linarith⟩
    have p2 : |(x₁ - a₁) - (x₀ - a₀)| ≤ 2 * m := abs_le.2 ⟨by linarith, by linarith⟩
    rw [e2]
    refine le_trans (abs_sub _ _) ?_
    rw [abs_mul, abs_of_nonneg hl0]
    have := mul_le_mul hl1 p2 (abs_nonneg _) (by norm_num)
    linarith
  refine le_trans num ?_
  have hκ0 : 0 ≤ u * κ := by
    by_contra hn
    have := mul_neg_of_neg_of_pos (not_le.1 hn) hb
    linarith
  have : 5 * u * κ * (7 / 8 * b) ≤ 5 * u * κ * (x₁ - x₀) :=
    mul_le_mul_of_nonneg_left hden (by linarith)
  have e3 : 5 * u * κ * (7 / 8 * b) = 35 / 8 * m := by rw [hmd]; ring
  linarith

/-- The yield interpolated on rounded year fractions, and its product with the rounded year fraction. -/
theorem yield_error {u κ Y a₀ a₁ a x₀ x₁ x y₀ y₁ w : ℝ} (hu : 0 < u) (hu1 : u ≤ 1 / 16777216) (hκ : 16 * u * κ ≤ 1)
    (h0 : 0 ≤ a₀) (h0a : a₀ ≤ a) (ha1 : a ≤ a₁) (h01 : a₀ < a₁) (hgap : a₁ ≤ κ * (a₁ - a₀))
    (e0 : |x₀ - a₀| ≤ u * a₀) (e1 : |x₁ - a₁| ≤ u * a₁) (e : |x - a| ≤ u * a) (hx0 : x₀ ≤ x) (hx1 : x ≤ x₁)
    (hx01 : x₀ < x₁) (hy0 : |y₀| ≤ Y) (hy1 : |y₁| ≤ Y)
    (hw : |w - (y₀ + (y₁ - y₀) * ((x - x₀) / (x₁ - x₀)))| ≤
      u * |y₀ + (y₁ - y₀) * ((x - x₀) / (x₁ - x₀))| + 6 * u * |y₁ - y₀|) :
    |w - (y₀ + (y₁ - y₀) / (a₁ - a₀) * (a - a₀))| ≤ 24 * κ * u * Y ∧ |w| ≤ 1.01 * Y ∧
      |y₀ + (y₁ - y₀) / (a₁ - a₀) * (a - a₀)| ≤ Y := by
  have hY : 0 ≤ Y := le_trans (abs_nonneg _) hy0
  have hr := ratio_error hu hκ h0 h0a ha1 h01 hgap e0 e1 e
  have hb : 0 < a₁ - a₀ := by linarith
  have hκ1 : 1 ≤ κ := by
    by_contra hn
    have := mul_lt_mul_of_pos_right (not_le.1 hn) hb
    linarith
  have conv : ∀ l : ℝ, 0 ≤ l → l ≤ 1 → |y₀ + (y₁ - y₀) * l| ≤ Y := by
    intro l hl0 hl1
    obtain ⟨p1, p2⟩ := abs_le.1 hy0
    obtain ⟨q1, q2⟩ := abs_le.1 hy1
    have e : y₀ + (y₁ - y₀) * l = (1 - l) * y₀ + l * y₁ := by ring
    rw [e, abs_le]
    constructor <;> nlinarith
  have hl0 : 0 ≤ (x - x₀) / (x₁ - x₀) := div_nonneg (by linarith) (by linarith)
  have hl1 : (x - x₀) / (x₁ - x₀) ≤ 1 := (div_le_one (by linarith)).2 (by linarith)
  have hm0 : 0 ≤ (a - a₀) / (a₁ - a₀) := div_nonneg (by linarith) hb.le
  have hm1 : (a - a₀) / (a₁ - a₀) ≤ 1 := (div_le_one hb).2 (by linarith)
  have hline : y₀ + (y₁ - y₀) / (a₁ - a₀) * (a - a₀) = y₀ + (y₁ - y₀) * ((a - a₀) / (a₁ - a₀)) := by ring
  rw [hline]
  have hrise : |y₁ - y₀| ≤ 2 * Y := le_trans (abs_sub _ _) (by linarith)
  have hL := conv _ hl0 hl1
  have hM := conv _ hm0 hm1
  generalize (x - x₀) / (x₁ - x₀) = l at *
  generalize (a - a₀) / (a₁ - a₀) = l' at *
  have b1 : |w - (y₀ + (y₁ - y₀) * l)| ≤ 13 * u * Y := by
    have t1 := mul_le_mul_of_nonneg_left hL hu.le
    have t2 := mul_le_mul_of_nonneg_left hrise hu.le
    linarith
  have b2 : |(y₀ + (y₁ - y₀) * l) - (y₀ + (y₁ - y₀) * l')| ≤ 10 * u * κ * Y := by
    have : (y₀ + (y₁ - y₀) * l) - (y₀ + (y₁ - y₀) * l') = (y₁ - y₀) * (l - l') := by ring
    rw [this, abs_mul]
    calc |y₁ - y₀| * |l - l'| ≤ (2 * Y) * (5 * u * κ) := mul_le_mul hrise hr (abs_nonneg _) (by linarith)
      _ = _ := by ring
  refine ⟨?_, ?_, hM⟩
  · have t := abs_add_le (w - (y₀ + (y₁ - y₀) * l)) ((y₀ + (y₁ - y₀) * l) - (y₀ + (y₁ - y₀) * l'))
    rw [sub_add_sub_cancel] at t
    have : u * Y * 1 ≤ u * Y * κ := mul_le_mul_of_nonneg_left hκ1 (by positivity)
    nlinarith
  · have t := abs_add_le (w - (y₀ + (y₁ - y₀) * l)) (y₀ + (y₁ - y₀) * l)
    rw [sub_add_cancel] at t
    have : u * Y ≤ 1 / 16777216 * Y := mul_le_mul_of_nonneg_right hu1 hY
    linarith

/-- Time times yield. -/
theorem times_yield_error {u κ Y a x y w : ℝ} (hu : 0 < u) (hu1 : u ≤ 1 / 16777216) (hκ1 : 1 ≤ κ) (ha : 0 ≤ a)
    (e : |x - a| ≤ u * a) (hw : |w - y| ≤ 24 * κ * u * Y) (hwY : |w| ≤ 1.01 * Y) (hy : |y| ≤ Y) :
    |x * w - a * y| ≤ 26 * κ * u * Y * a ∧ |x * w| ≤ 1.1 * Y * a := by
  have hY : 0 ≤ Y := le_trans (abs_nonneg _) hy
  constructor
  · have e1 : x * w - a * y = (x - a) * w + a * (w - y) := by ring
    rw [e1]
    refine le_trans (abs_add_le _ _) ?_
    rw [abs_mul, abs_mul, abs_of_nonneg ha]
    have t1 := mul_le_mul e hwY (abs_nonneg _) (by positivity)
    have t2 := mul_le_mul_of_nonneg_left hw ha
    have t3 : u * a * Y * 1 ≤ u * a * Y * κ := mul_le_mul_of_nonneg_left hκ1 (by positivity)
    have t4 : 0 ≤ u * a * Y * κ := by positivity
    nlinarith
  · rw [abs_mul]
    have hx : |x| ≤ (1 + u) * a := by
      have := abs_add_le (x - a) a
      rw [sub_add_cancel, abs_of_nonneg ha] at this
      linarith
    have t1 := mul_le_mul hx hwY (abs_nonneg _) (by positivity)
    have t2 : u * (a * Y) ≤ 1 / 16777216 * (a * Y) := mul_le_mul_of_nonneg_right hu1 (by positivity)
    nlinarith [mul_nonneg ha hY]

end Qlab
