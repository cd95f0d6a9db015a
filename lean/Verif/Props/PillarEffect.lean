import Verif.Props.CurveShape

/-!
# Raising one yield of a Catmull-Rom curve (C81)
-/

namespace Qlab.Props

open Spec

section
variable {K : Type} [Field K] [LinearOrder K] [IsStrictOrderedRing K]

omit [LinearOrder K] [IsStrictOrderedRing K] in
theorem crFirst_add {x₀ y₀ x₁ y₁ x₂ y₂ x a b c : K} :
    crFirst x₀ (y₀ + a) x₁ (y₁ + b) x₂ (y₂ + c) x = crFirst x₀ y₀ x₁ y₁ x₂ y₂ x + crFirst x₀ a x₁ b x₂ c x := by
  unfold crFirst
  ring

omit [LinearOrder K] [IsStrictOrderedRing K] in
theorem crInner_add {xp yp x₀ y₀ x₁ y₁ x₂ y₂ x a b c d : K} :
    crInner xp (yp + a) x₀ (y₀ + b) x₁ (y₁ + c) x₂ (y₂ + d) x =
      crInner xp yp x₀ y₀ x₁ y₁ x₂ y₂ x + crInner xp a x₀ b x₁ c x₂ d x := by
  unfold crInner
  ring

omit [LinearOrder K] [IsStrictOrderedRing K] in
theorem crLast_add {xp yp x₀ y₀ x₁ y₁ x a b c : K} :
    crLast xp (yp + a) x₀ (y₀ + b) x₁ (y₁ + c) x = crLast xp yp x₀ y₀ x₁ y₁ x + crLast xp a x₀ b x₁ c x := by
  unfold crLast
  ring

/-- Relative place of a point strictly between two others. -/
theorem place {x₀ x₁ x : K} (h0 : x₀ < x) (h1 : x < x₁) : 0 < (x - x₀) / (x₁ - x₀) ∧ (x - x₀) / (x₁ - x₀) < 1 :=
  ⟨div_pos (by linarith) (by linarith), (div_lt_one (by linarith)).2 (by linarith)⟩

theorem crFirst_signs {x₀ x₁ x₂ x δ : K} (h0 : x₀ < x) (h1 : x < x₁) (h2 : x₁ < x₂) (hδ : 0 < δ) :
    0 < crFirst x₀ δ x₁ 0 x₂ 0 x ∧ 0 < crFirst x₀ 0 x₁ δ x₂ 0 x ∧ crFirst x₀ 0 x₁ 0 x₂ δ x < 0 ∧
      crFirst x₀ 0 x₁ 0 x₂ 0 x = 0 := by
  obtain ⟨t0, t1⟩ := place h0 h1
  have b0 : 0 < (x₁ - x₀) / ((x₁ - x₀) + (x₂ - x₁)) := div_pos (by linarith) (by linarith)
  have b1 : (x₁ - x₀) / ((x₁ - x₀) + (x₂ - x₁)) < 1 := (div_lt_one (by linarith)).2 (by linarith)
  unfold crFirst
  simp only
  generalize (x - x₀) / (x₁ - x₀) = t at *
  generalize (x₁ - x₀) / ((x₁ - x₀) + (x₂ - x₁)) = b at *
  have s : 0 < 1 - t := by linarith
  have s' : 0 < 1 - b := by linarith
  refine ⟨?_, ?_, ?_, by ring⟩
  · have : 0 < δ * ((1 - t) * (1 - t ^ 2 + t ^ 2 * b)) := by
      have : 0 < 1 - t ^ 2 := by nlinarith
      positivity
    nlinarith
  · have : 0 < δ * (t * (1 + t * (1 - t))) := by positivity
    nlinarith
  · have : 0 < δ * (b * t ^ 2 * (1 - t)) := by positivity
    nlinarith

theorem crInner_signs {xp x₀ x₁ x₂ x δ : K} (hp : xp < x₀) (h0 : x₀ < x) (h1 : x < x₁) (h2 : x₁ < x₂) (hδ : 0 < δ) :
    crInner xp δ x₀ 0 x₁ 0 x₂ 0 x < 0 ∧ 0 < crInner xp 0 x₀ δ x₁ 0 x₂ 0 x ∧ 0 < crInner xp 0 x₀ 0 x₁ δ x₂ 0 x ∧
      crInner xp 0 x₀ 0 x₁ 0 x₂ δ x < 0 ∧ crInner xp 0 x₀ 0 x₁ 0 x₂ 0 x = 0 := by
  obtain ⟨t0, t1⟩ := place h0 h1
  have a0 : 0 < (x₁ - x₀) / ((x₁ - x₀) + (x₁ - xp)) := div_pos (by linarith) (by linarith)
  have b0 : 0 < (x₁ - x₀) / ((x₁ - x₀) + (x₂ - x₁)) := div_pos (by linarith) (by linarith)
  unfold crInner
  simp only
  generalize (x - x₀) / (x₁ - x₀) = t at *
  generalize (x₁ - x₀) / ((x₁ - x₀) + (x₂ - x₁)) = b at *
  generalize (x₁ - x₀) / ((x₁ - x₀) + (x₁ - xp)) = a at *
  have s : 0 < 1 - t := by linarith
  refine ⟨?_, ?_, ?_, ?_, by ring⟩
  · have : 0 < δ * (a * t * (1 - t) ^ 2) := by positivity
    nlinarith
  · have : 0 < δ * ((1 - t) ^ 2 * (1 + 2 * t) + b * t ^ 2 * (1 - t)) := by positivity
    nlinarith
  · have : 0 < δ * (t ^ 2 * (1 + 2 * (1 - t)) + a * t * (1 - t) ^ 2) := by positivity
    nlinarith
  · have : 0 < δ * (b * t ^ 2 * (1 - t)) := by positivity
    nlinarith

theorem crLast_signs {xp x₀ x₁ x δ : K} (hp : xp < x₀) (h0 : x₀ < x) (h1 : x < x₁) (hδ : 0 < δ) :
    crLast xp δ x₀ 0 x₁ 0 x < 0 ∧ 0 < crLast xp 0 x₀ δ x₁ 0 x ∧ 0 < crLast xp 0 x₀ 0 x₁ δ x ∧
      crLast xp 0 x₀ 0 x₁ 0 x = 0 := by
  obtain ⟨t0, t1⟩ := place h0 h1
  have a0 : 0 < (x₁ - x₀) / ((x₁ - x₀) + (x₁ - xp)) := div_pos (by linarith) (by linarith)
  have a1 : (x₁ - x₀) / ((x₁ - x₀) + (x₁ - xp)) < 1 := (div_lt_one (by linarith)).2 (by linarith)
  unfold crLast
  simp only
  generalize (x - x₀) / (x₁ - x₀) = t at *
  generalize (x₁ - x₀) / ((x₁ - x₀) + (x₁ - xp)) = a at *
  have s : 0 < 1 - t := by linarith
  have s' : 0 < 1 - a := by linarith
  refine ⟨?_, ?_, ?_, by ring⟩
  · have : 0 < δ * (a * t * (1 - t) ^ 2) := by positivity
    nlinarith
  · have : 0 < δ * ((1 - t) * (1 + t * (1 - t))) := by positivity
    nlinarith
  · have : 0 < δ * (a * t * (1 - t) ^ 2 + 2 * t ^ 2 * (1 - a * t)) := by
      have : 0 < 1 - a * t := by nlinarith
      positivity
    nlinarith

omit [LinearOrder K] [IsStrictOrderedRing K] in
/-- A list in which one entry is raised. -/
theorem getElem_raise {ys : List K} {k : Nat} (hk : k < ys.length) {δ : K} {i : Nat}
    (hi : i < (ys.set k (ys[k] + δ)).length) :
    (ys.set k (ys[k] + δ))[i] = ys[i]'(by simpa using hi) + if k = i then δ else 0 := by
  rw [List.getElem_set]
  split_ifs with h
  · subst h; rfl
  · rw [add_zero]

theorem crSegment_raise {xs ys : List K} (hl : xs.length = ys.length) (hs : xs.Pairwise (· < ·)) (h3 : 3 ≤ xs.length)
    {k : Nat} (hk : k < ys.length) {δ : K} (hδ : 0 < δ) {j : Nat} (hj : j + 1 < xs.length) {x : K} (h0 : xs[j] < x)
    (h1 : x < xs[j + 1]) :
    ∃ e, crSegment (xs.zip (ys.set k (ys[k] + δ))) j (by simp; omega) (by simp; omega) x =
        crSegment (xs.zip ys) j (by simp; omega) (by simp; omega) x + e ∧
      (0 < e ↔ k = j ∨ k = j + 1) ∧ (e < 0 ↔ k + 1 = j ∨ k = j + 2) := by
  have pw := List.pairwise_iff_getElem.1 hs
  have hlen : (xs.zip ys).length = xs.length := by simp; omega
  have hlen' : (xs.zip (ys.set k (ys[k] + δ))).length = xs.length := by simp; omega
  unfold crSegment
  by_cases c0 : j = 0
  · subst c0
    have l2 := pw 1 2 (by omega) (by omega) (by omega)
    rw [dif_pos rfl, dif_pos rfl]
    simp only [List.getElem_zip, getElem_raise hk, crFirst_add]
    refine ⟨_, rfl, ?_⟩
    obtain ⟨s1, s2, s3, s4⟩ := crFirst_signs h0 h1 l2 hδ
    rcases (show k = 0 ∨ k = 1 ∨ k = 2 ∨ 3 ≤ k by omega) with rfl | rfl | rfl | h
    · simp [s1, s1.le]
    · simp [s2, s2.le]
    · simp [s3, s3.le]
    · simp only [show ¬ k = 0 by omega, show ¬ k = 1 by omega, show ¬ k = 2 by omega, if_false, Nat.zero_add, s4]
      simp
  · obtain ⟨i, rfl⟩ : ∃ i, j = i + 1 := ⟨j - 1, by omega⟩
    have l1 := pw i (i + 1) (by omega) (by omega) (by omega)
    rw [dif_neg c0, dif_neg c0]
    by_cases c1 : i + 1 + 2 = xs.length
    · rw [dif_pos (by omega), dif_pos (by omega)]
      simp only [List.getElem_zip, getElem_raise hk, crLast_add, Nat.add_sub_cancel]
      refine ⟨_, rfl, ?_⟩
      obtain ⟨s1, s2, s3, s4⟩ := crLast_signs l1 h0 h1 hδ
      rcases (show k = i ∨ k = i + 1 ∨ k = i + 2 ∨ k < i by omega) with rfl | rfl | rfl | h
      · simp [s1, s1.le, show ¬ k = k + 1 + 1 by omega, show ¬ k = k + 1 + 2 by omega]
      · simp [s2, s2.le]
      · simp [s3, s3.le]
      · simp only [show ¬ k = i by omega, show ¬ k = i + 1 by omega, show ¬ k = i + 1 + 1 by omega, if_false, s4]
        simp; omega
    · rw [dif_neg (by omega), dif_neg (by omega)]
      have l2 := pw (i + 2) (i + 3) (by omega) (by omega) (by omega)
      simp only [List.getElem_zip, getElem_raise hk, crInner_add, Nat.add_sub_cancel]
      refine ⟨_, rfl, ?_⟩
      obtain ⟨s1, s2, s3, s4, s5⟩ := crInner_signs l1 h0 h1 l2 hδ
      rcases (show k = i ∨ k = i + 1 ∨ k = i + 2 ∨ k = i + 3 ∨ (¬ k = i ∧ ¬ k = i + 1 ∧ ¬ k = i + 2 ∧ ¬ k = i + 3) by
        omega) with rfl | rfl | rfl | rfl | h
      · simp [s1, s1.le, show ¬ k = k + 1 + 1 by omega, show ¬ k = k + 1 + 2 by omega]
      · simp [s2, s2.le]
      · simp [s3, s3.le]
      · simp [s4, s4.le]
      · simp only [h.1, h.2.1, show ¬ k = i + 1 + 1 by omega, show ¬ k = i + 1 + 2 by omega, if_false, s5]
        simp; omega

end

/-- **C81.** Catmull-Rom spline, Act/360 or Act/365: which pillars move which discount factors.  Raising the yield of one
pillar lowers the discount factor to a date strictly between two pillars if it is one of these two, raises it if it is the
pillar before or after them, and leaves it alone otherwise. -/
theorem C81_pillar_iff_partial {D : DayCount ℝ} {N : ℝ} (hD : IsActual D N) (s : Date) (ms : List Date) (ys : List ℝ)
    (hlen : ms.length = ys.length) (hm : ms.Pairwise (· < ·)) (h3 : 3 ≤ ms.length) (k : Nat) (hk : k < ys.length) (δ : ℝ)
    (hδ : 0 < δ) (j : Nat) (hj : j + 1 < ms.length) (d : Date) (hd : s < d) (h0 : ms[j] < d) (h1 : d < ms[j + 1]) :
    ∃ v v', curveDiscount D (Interpolator.catmullRom ℝ) s ms ys s d = .ok (.ok v) ∧
      curveDiscount D (Interpolator.catmullRom ℝ) s ms (ys.set k (ys[k] + δ)) s d = .ok (.ok v') ∧
      (v' < v ↔ k = j ∨ k = j + 1) ∧ (v < v' ↔ k + 1 = j ∨ k = j + 2) := by
  have e0 : (ms.map fun m => (Date.sub m s : ℝ) / N)[j]'(by simp; omega) < (Date.sub d s : ℝ) / N := by
    simpa using (isActual_lt hD s _ _).2 h0
  have e1 : (Date.sub d s : ℝ) / N < (ms.map fun m => (Date.sub m s : ℝ) / N)[j + 1]'(by simpa using hj) := by
    simpa using (isActual_lt hD s _ _).2 h1
  obtain ⟨e, he, hp, hn⟩ := crSegment_raise (by simpa using hlen) (isActual_increasing hD s hm) (by simpa using h3) hk hδ
    (by simpa using hj) e0 e1
  have value : ∀ zs : List ℝ, (hz : ms.length = zs.length) → evaluate (Interpolator.catmullRom ℝ) (pillars N s ms zs)
      ((Date.sub d s : ℝ) / N) = .ok (.ok (crSegment (pillars N s ms zs) j (by simp [pillars]; omega)
        (by simp [pillars]; omega) ((Date.sub d s : ℝ) / N))) := by
    intro zs hz
    exact catmullRom_segment (pillars_increasing hD s hm zs) _ _ (by simpa [pillars] using e0.le)
      (by simpa [pillars] using e1.le)
  have form : ∀ zs : List ℝ, ms.length = zs.length → ∀ y, evaluate (Interpolator.catmullRom ℝ) (pillars N s ms zs)
      ((Date.sub d s : ℝ) / N) = .ok (.ok y) → curveDiscount D (Interpolator.catmullRom ℝ) s ms zs s d =
        .ok (.ok (Real.exp (-((Date.sub d s : ℝ) / N * y)))) := by
    intro zs hz y hy
    rw [curveDiscount_form hD (n := 3) (.inr (.inl ⟨rfl, rfl⟩)) hz hm h3]
    exact ⟨le_rfl, hd.le, y, hy, 0, by rw [zero_sub], .inl ⟨rfl, rfl⟩⟩
  have hpos := fraction_pos hD hd
  refine ⟨_, _, form ys hlen _ (value ys hlen), form _ (by simpa using hlen) _ (value _ (by simpa using hlen)), ?_, ?_⟩
  · rw [Real.exp_lt_exp, neg_lt_neg_iff, mul_lt_mul_iff_right₀ hpos, he, lt_add_iff_pos_right, hp]
  · rw [Real.exp_lt_exp, neg_lt_neg_iff, mul_lt_mul_iff_right₀ hpos, he, add_lt_iff_neg_left, hn]

/-- Pillars after 360, 720 and 1080 days: between the first two, raising the last yield raises the discount factor. -/
example : ∃ v v', curveDiscount DayCount.act360 (Interpolator.catmullRom ℝ) gridSettle gridMaturities [2, 3, 5] gridSettle
      gridMid1 = .ok (.ok v) ∧
    curveDiscount DayCount.act360 (Interpolator.catmullRom ℝ) gridSettle gridMaturities [2, 3, 5 + 1] gridSettle
      gridMid1 = .ok (.ok v') ∧ v < v' := by
  obtain ⟨v, v', h, h', -, hv⟩ := C81_pillar_iff_partial (N := 360) (.inl ⟨rfl, rfl⟩) gridSettle gridMaturities [2, 3, 5] rfl
    gridMaturities_increasing le_rfl 2 (by simp) 1 one_pos 0 (by simp [gridMaturities]) gridMid1 (by decide) (by decide)
    (by decide)
  exact ⟨v, v', h, h', hv.2 (.inr rfl)⟩

end Qlab.Props
