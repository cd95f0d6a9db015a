import Verif.Lemmas.NaturalCubic
import Verif.Spec.Bending
import Mathlib.Analysis.Calculus.MeanValue
import Mathlib.MeasureTheory.Integral.IntervalIntegral.FundThmCalculus

/-! # Bending of cubic segments -/

namespace Qlab.NaturalCubic

open Set Spec

/-- The second derivative of a cubic segment. -/
noncomputable def line (x₀ m₀ x₁ m₁ x : ℝ) : ℝ := (x₁ - x) / (x₁ - x₀) * m₀ + (x - x₀) / (x₁ - x₀) * m₁

theorem line_continuous (x₀ m₀ x₁ m₁ : ℝ) : Continuous (line x₀ m₀ x₁ m₁) := by unfold line; fun_prop

theorem line_hasDerivAt (x₀ m₀ x₁ m₁ x : ℝ) :
    HasDerivAt (line x₀ m₀ x₁ m₁) ((m₁ - m₀) / (x₁ - x₀)) x := by
  have ha : HasDerivAt (fun z => x₁ - z) (-1) x := by simpa using (hasDerivAt_id x).const_sub x₁
  have hb : HasDerivAt (fun z => z - x₀) 1 x := (hasDerivAt_id x).sub_const x₀
  have := ((ha.div_const (x₁ - x₀)).mul_const m₀).add ((hb.div_const (x₁ - x₀)).mul_const m₁)
  refine this.congr_deriv ?_
  ring

variable {a b ya yb m₀ m₁ : ℝ} {f f1 f2 : ℝ → ℝ}

/-- What a curve with the same ends bends more than the cubic segment. -/
theorem bending_segment (hab : a < b) (hf : ∀ x ∈ Icc a b, HasDerivWithinAt f (f1 x) (Icc a b) x)
    (hf1 : ∀ x ∈ Icc a b, HasDerivWithinAt f1 (f2 x) (Icc a b) x) (hc : ContinuousOn f2 (Icc a b))
    (ha : f a = ya) (hb : f b = yb) :
    ∫ x in a..b, f2 x ^ 2 = (∫ x in a..b, line a m₀ b m₁ x ^ 2) + (∫ x in a..b, (f2 x - line a m₀ b m₁ x) ^ 2) +
      2 * (m₁ * (f1 b - cubicSlope a ya m₀ b yb m₁ b) - m₀ * (f1 a - cubicSlope a ya m₀ b yb m₁ a)) := by
  have hl := (line_continuous a m₀ b m₁).continuousOn (s := Icc a b)
  have key : ∫ x in a..b, line a m₀ b m₁ x * (f2 x - line a m₀ b m₁ x) =
      m₁ * (f1 b - cubicSlope a ya m₀ b yb m₁ b) - m₀ * (f1 a - cubicSlope a ya m₀ b yb m₁ a) := by
    let F := fun x => line a m₀ b m₁ x * (f1 x - cubicSlope a ya m₀ b yb m₁ x) -
      (m₁ - m₀) / (b - a) * (f x - cubic a ya m₀ b yb m₁ x)
    have hF : ∀ x ∈ Icc a b, HasDerivWithinAt F (line a m₀ b m₁ x * (f2 x - line a m₀ b m₁ x)) (Icc a b) x := by
      intro x hx
      have h1 := ((line_hasDerivAt a m₀ b m₁ x).hasDerivWithinAt (s := Icc a b)).mul
        ((hf1 x hx).sub (cubicSlope_hasDerivAt a ya m₀ b yb m₁ x).hasDerivWithinAt)
      have h2 := ((hf x hx).sub (cubic_hasDerivAt a ya m₀ b yb m₁ x).hasDerivWithinAt).const_mul ((m₁ - m₀) / (b - a))
      refine (h1.sub h2).congr_deriv ?_
      simp only [line, Pi.sub_apply]
      ring
    rw [intervalIntegral.integral_eq_sub_of_hasDerivAt_of_le (f := F) hab.le
      (fun x hx => (hF x hx).continuousWithinAt)
      (fun x hx => (hF x (Ioo_subset_Icc_self hx)).hasDerivAt (Icc_mem_nhds hx.1 hx.2))
      ((hl.mul (hc.sub hl)).intervalIntegrable_of_Icc hab.le)]
    have hne : b - a ≠ 0 := sub_ne_zero.2 (ne_of_gt hab)
    simp only [F, cubic_left _ _ _ _ hab, cubic_right _ _ _ _ hab, ha, hb, line, sub_self, mul_zero, sub_zero, zero_div,
      zero_mul, zero_add, add_zero, div_self hne, one_mul]
  have i1 : IntervalIntegrable (fun x => line a m₀ b m₁ x ^ 2) MeasureTheory.volume a b :=
    (hl.pow 2).intervalIntegrable_of_Icc hab.le
  have i2 : IntervalIntegrable (fun x => (f2 x - line a m₀ b m₁ x) ^ 2) MeasureTheory.volume a b :=
    ((hc.sub hl).pow 2).intervalIntegrable_of_Icc hab.le
  have i3 : IntervalIntegrable (fun x => 2 * (line a m₀ b m₁ x * (f2 x - line a m₀ b m₁ x))) MeasureTheory.volume a b :=
    (continuousOn_const.mul (hl.mul (hc.sub hl))).intervalIntegrable_of_Icc hab.le
  rw [← key, ← intervalIntegral.integral_const_mul, ← intervalIntegral.integral_add i1 i2,
    ← intervalIntegral.integral_add (i1.add i2) i3]
  refine intervalIntegral.integral_congr fun x _ => ?_
  ring

/-- Equal second derivatives and equal ends. -/
theorem eq_of_bending (hab : a < b) (hf : ∀ x ∈ Icc a b, HasDerivWithinAt f (f1 x) (Icc a b) x)
    (hf1 : ∀ x ∈ Icc a b, HasDerivWithinAt f1 (f2 x) (Icc a b) x) (hc : ContinuousOn f2 (Icc a b))
    (ha : f a = ya) (hb : f b = yb) (hz : ∫ x in a..b, (f2 x - line a m₀ b m₁ x) ^ 2 = 0) :
    ∀ x ∈ Icc a b, f x = cubic a ya m₀ b yb m₁ x := by
  have hl := (line_continuous a m₀ b m₁).continuousOn (s := Icc a b)
  have h2 : ∀ x ∈ Icc a b, f2 x = line a m₀ b m₁ x := by
    by_contra hne
    push Not at hne
    obtain ⟨c, hc1, hc2⟩ := hne
    exact absurd hz (ne_of_gt (intervalIntegral.integral_pos hab ((hc.sub hl).pow 2) (fun _ _ => sq_nonneg _)
      ⟨c, hc1, by have := sub_ne_zero.2 hc2; positivity⟩))
  have d1 : ∀ x ∈ Icc a b, HasDerivWithinAt (fun x => f1 x - cubicSlope a ya m₀ b yb m₁ x) 0 (Icc a b) x := by
    intro x hx
    refine ((hf1 x hx).sub (cubicSlope_hasDerivAt a ya m₀ b yb m₁ x).hasDerivWithinAt).congr_deriv ?_
    rw [h2 x hx]; simp only [line]; ring
  have right : ∀ {F : ℝ → ℝ} {x : ℝ}, x ∈ Ico a b → HasDerivWithinAt F 0 (Icc a b) x →
      HasDerivWithinAt F 0 (Ici x) x := by
    intro F x hx h
    exact (h.mono (Icc_subset_Icc_left hx.1)).mono_of_mem_nhdsWithin (Icc_mem_nhdsGE hx.2)
  have c1 := constant_of_has_deriv_right_zero (fun x hx => (d1 x hx).continuousWithinAt)
    (fun x hx => right hx (d1 x (Ico_subset_Icc_self hx)))
  set k := f1 a - cubicSlope a ya m₀ b yb m₁ a with hk
  have d0 : ∀ x ∈ Icc a b, HasDerivWithinAt (fun x => f x - cubic a ya m₀ b yb m₁ x - k * (x - a)) 0 (Icc a b) x := by
    intro x hx
    refine (((hf x hx).sub (cubic_hasDerivAt a ya m₀ b yb m₁ x).hasDerivWithinAt).sub
      ((((hasDerivAt_id x).sub_const a).const_mul k).hasDerivWithinAt)).congr_deriv ?_
    have := c1 x hx
    linarith
  have c0 := constant_of_has_deriv_right_zero (fun x hx => (d0 x hx).continuousWithinAt)
    (fun x hx => right hx (d0 x (Ico_subset_Icc_self hx)))
  have hk0 : k = 0 := by
    have := c0 b (right_mem_Icc.2 hab.le)
    rw [ha, hb, cubic_left _ _ _ _ hab, cubic_right _ _ _ _ hab] at this
    have h3 : k * (b - a) = 0 := by linarith
    exact (mul_eq_zero.1 h3).resolve_right (sub_ne_zero.2 (ne_of_gt hab))
  intro x hx
  have := c0 x hx
  rw [ha, cubic_left _ _ _ _ hab, hk0] at this
  linarith

/-- Summation by parts: without kinks the terms at the nodes cancel. -/
theorem sum_ends (M f1 sl sr : Nat → ℝ) (n : Nat) (h : ∀ j < n, sl j = sr (j + 1)) :
    ∑ i ∈ Finset.range (n + 1), (M (i + 1) * (f1 (i + 1) - sl i) - M i * (f1 i - sr i)) =
      M (n + 1) * (f1 (n + 1) - sl n) - M 0 * (f1 0 - sr 0) := by
  induction n with
  | zero => simp
  | succ n ih =>
    rw [Finset.sum_range_succ, ih fun j hj => h j (by omega), h n (by omega)]
    ring

/-- A slope on two neighbouring intervals. -/
theorem glue {a b c : ℝ} {F g1 g2 : ℝ → ℝ} (h1 : ∀ x ∈ Icc a b, HasDerivWithinAt F (g1 x) (Icc a b) x)
    (h2 : ∀ x ∈ Icc b c, HasDerivWithinAt F (g2 x) (Icc b c) x) (e : g1 b = g2 b) :
    ∀ x ∈ Icc a c, HasDerivWithinAt F (if x ≤ b then g1 x else g2 x) (Icc a c) x := by
  intro x hx
  rcases lt_trichotomy x b with h | h | h
  · rw [if_pos h.le]
    refine (h1 x ⟨hx.1, h.le⟩).mono_of_mem_nhdsWithin ?_
    filter_upwards [mem_nhdsWithin_of_mem_nhds (Iio_mem_nhds h), self_mem_nhdsWithin] with z hz1 hz2
    exact ⟨hz2.1, le_of_lt hz1⟩
  · subst h
    rw [if_pos (le_refl _)]
    have := h2 x ⟨le_refl _, hx.2⟩
    rw [← e] at this
    refine ((h1 x ⟨hx.1, le_refl _⟩).union this).mono fun z hz => ?_
    rcases le_total z x with h | h
    · exact .inl ⟨hz.1, h⟩
    · exact .inr ⟨h, hz.2⟩
  · rw [if_neg (not_le.2 h)]
    refine (h2 x ⟨h.le, hx.2⟩).mono_of_mem_nhdsWithin ?_
    filter_upwards [mem_nhdsWithin_of_mem_nhds (Ioi_mem_nhds h), self_mem_nhdsWithin] with z hz1 hz2
    exact ⟨le_of_lt hz1, hz2.2⟩

/-- `f` has slope `s` and second derivative `g` on the interval, and `g` is continuous there. -/
def Twice (f s g : ℝ → ℝ) (a b : ℝ) : Prop :=
  (∀ x ∈ Icc a b, HasDerivWithinAt f (s x) (Icc a b) x) ∧ (∀ x ∈ Icc a b, HasDerivWithinAt s (g x) (Icc a b) x) ∧
    ContinuousOn g (Icc a b)

theorem Twice.append {a b c : ℝ} {f s₁ g₁ s₂ g₂ : ℝ → ℝ} (hab : a ≤ b) (hbc : b ≤ c) (h1 : Twice f s₁ g₁ a b)
    (h2 : Twice f s₂ g₂ b c) (es : s₁ b = s₂ b) (eg : g₁ b = g₂ b) :
    ∃ s g, Twice f s g a c ∧ s c = s₂ c ∧ g c = g₂ c ∧
      ∫ x in a..c, g x ^ 2 = (∫ x in a..b, g₁ x ^ 2) + ∫ x in b..c, g₂ x ^ 2 := by
  let s := fun x => if x ≤ b then s₁ x else s₂ x
  let g := fun x => if x ≤ b then g₁ x else g₂ x
  have s1 : ∀ x ∈ Icc a b, s x = s₁ x := fun x hx => if_pos hx.2
  have s2 : ∀ x ∈ Icc b c, s x = s₂ x := by
    intro x hx
    rcases hx.1.eq_or_lt with h | h
    · rw [← h]; exact (if_pos (le_refl _)).trans es
    · exact if_neg (not_le.2 h)
  have g1 : ∀ x ∈ Icc a b, g x = g₁ x := fun x hx => if_pos hx.2
  have g2 : ∀ x ∈ Icc b c, g x = g₂ x := by
    intro x hx
    rcases hx.1.eq_or_lt with h | h
    · rw [← h]; exact (if_pos (le_refl _)).trans eg
    · exact if_neg (not_le.2 h)
  have cg1 : ContinuousOn g (Icc a b) := h1.2.2.congr g1
  have cg2 : ContinuousOn g (Icc b c) := h2.2.2.congr g2
  refine ⟨s, g, ⟨glue h1.1 h2.1 es, glue (F := s) ?_ ?_ eg, ?_⟩, s2 c ⟨hbc, le_refl _⟩, g2 c ⟨hbc, le_refl _⟩, ?_⟩
  · exact fun x hx => (h1.2.1 x hx).congr s1 (s1 x hx)
  · exact fun x hx => (h2.2.1 x hx).congr s2 (s2 x hx)
  · rw [← Icc_union_Icc_eq_Icc hab hbc]
    exact cg1.union_of_isClosed cg2 isClosed_Icc isClosed_Icc
  · have e1 : ∫ x in a..b, g x ^ 2 = ∫ x in a..b, g₁ x ^ 2 :=
      intervalIntegral.integral_congr fun x hx => by
        rw [uIcc_of_le hab] at hx
        simp only [g1 x hx]
    have e2 : ∫ x in b..c, g x ^ 2 = ∫ x in b..c, g₂ x ^ 2 :=
      intervalIntegral.integral_congr fun x hx => by
        rw [uIcc_of_le hbc] at hx
        simp only [g2 x hx]
    rw [← e1, ← e2]
    exact (intervalIntegral.integral_add_adjacent_intervals ((cg1.pow 2).intervalIntegrable_of_Icc hab)
      ((cg2.pow 2).intervalIntegrable_of_Icc hbc)).symm

end Qlab.NaturalCubic
