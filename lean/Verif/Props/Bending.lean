import Verif.Lemmas.Bending
import Verif.Props.NaturalCubic

/-!
# The natural cubic spline bends least (C128)

Among all curves through the points with a continuous second derivative, the natural cubic spline is the one with the
smallest integral of the squared second derivative.  The code's curve is that spline only where it has no kinks (C41).
-/

namespace Qlab.Props

open Spec Set NaturalCubic

section

variable {n : Nat} {p : Nat → ℝ × ℝ}

/-- Slope of the curve on segment `i`. -/
noncomputable def slopeOn (n : Nat) (p : Nat → ℝ × ℝ) (i : Nat) : ℝ → ℝ :=
  cubicSlope (p i).1 (p i).2 (curvature n p i) (p (i + 1)).1 (p (i + 1)).2 (curvature n p (i + 1))

/-- Second derivative of the curve on segment `i`. -/
noncomputable def secondOn (n : Nat) (p : Nat → ℝ × ℝ) (i : Nat) : ℝ → ℝ :=
  line (p i).1 (curvature n p i) (p (i + 1)).1 (curvature n p (i + 1))

theorem twice_segment (hn : 3 ≤ n) (hs : StrictlyIncreasing (tab n p)) {i : Nat} (hi : i + 1 < n) :
    Twice (naturalCurve (tab n p)) (slopeOn n p i) (secondOn n p i) (p i).1 (p (i + 1)).1 :=
  ⟨fun x hx => (cubic_hasDerivAt _ _ _ _ _ _ x).hasDerivWithinAt.congr
      (fun _ hz => naturalCurve_segment hn hs hi hz) (naturalCurve_segment hn hs hi hx),
    fun x _ => (cubicSlope_hasDerivAt _ _ _ _ _ _ x).hasDerivWithinAt, (line_continuous _ _ _ _).continuousOn⟩

theorem slope_joins (hs : StrictlyIncreasing (tab n p)) {j : Nat} (hj : j + 2 < n)
    (hk : kink p (curvature n p) j = 0) : slopeOn n p j (p (j + 1)).1 = slopeOn n p (j + 1) (p (j + 1)).1 := by
  have h0 := strict_tab hs (Nat.lt_succ_self j) (show j + 1 < n by omega)
  have h1 := strict_tab hs (Nat.lt_succ_self (j + 1)) (show j + 2 < n by omega)
  rw [kink_slopes p _ j (sub_ne_zero.2 (ne_of_gt h0)) (sub_ne_zero.2 (ne_of_gt h1)), sub_eq_zero] at hk
  exact hk.symm

theorem second_right (hs : StrictlyIncreasing (tab n p)) {i : Nat} (hi : i + 1 < n) :
    secondOn n p i (p (i + 1)).1 = curvature n p (i + 1) := by
  have h0 := strict_tab hs (Nat.lt_succ_self i) hi
  simp [secondOn, line, div_self (sub_ne_zero.2 (ne_of_gt h0))]

theorem second_left (hs : StrictlyIncreasing (tab n p)) {i : Nat} (hi : i + 1 < n) :
    secondOn n p i (p i).1 = curvature n p i := by
  have h0 := strict_tab hs (Nat.lt_succ_self i) hi
  simp [secondOn, line, div_self (sub_ne_zero.2 (ne_of_gt h0))]

/-- Without kinks the curve has a continuous second derivative on the whole range. -/
theorem twice_upto (hn : 3 ≤ n) (hs : StrictlyIncreasing (tab n p))
    (hk : ∀ j, j + 2 < n → kink p (curvature n p) j = 0) : ∀ k, k + 1 < n →
    ∃ s g, Twice (naturalCurve (tab n p)) s g (p 0).1 (p (k + 1)).1 ∧
      s (p (k + 1)).1 = slopeOn n p k (p (k + 1)).1 ∧ g (p (k + 1)).1 = curvature n p (k + 1) ∧
      ∫ x in (p 0).1..(p (k + 1)).1, g x ^ 2 =
        ∑ i ∈ Finset.range (k + 1), ∫ x in (p i).1..(p (i + 1)).1, secondOn n p i x ^ 2 := by
  intro k
  induction k with
  | zero =>
    intro h
    exact ⟨_, _, twice_segment hn hs h, rfl, second_right hs h, by simp⟩
  | succ k ih =>
    intro h
    obtain ⟨s, g, h1, h2, h3, h4⟩ := ih (by omega)
    have l0 : (p 0).1 ≤ (p (k + 1)).1 := le_of_lt (strict_tab hs (by omega) (by omega))
    have l1 : (p (k + 1)).1 ≤ (p (k + 2)).1 := le_of_lt (strict_tab hs (by omega) (by omega))
    obtain ⟨s', g', t1, t2, t3, t4⟩ := h1.append l0 l1 (twice_segment hn hs (i := k + 1) (by omega))
      (h2.trans (slope_joins hs (by omega) (hk k (by omega)))) (h3.trans (second_left hs (by omega)).symm)
    refine ⟨s', g', t1, t2, t3.trans (second_right hs (by omega)), ?_⟩
    rw [t4, h4]
    exact (Finset.sum_range_succ _ (k + 1)).symm

end

/-- **C128.** If the curve has a slope at every interior point then it has a continuous second derivative, no curve
through the points with a continuous second derivative bends less, and only the curve itself bends as little.  Missing
for the full property: data for which the curve has a kink, see C41. -/
theorem C128_least_partial (pts : List (ℝ × ℝ)) (hs : StrictlyIncreasing pts) (h3 : 3 ≤ pts.length)
    (hd : ∀ i, 0 < i → (hi : i + 1 < pts.length) → DifferentiableAt ℝ (naturalCurve pts) pts[i].1) :
    ∃ B, Bends (naturalCurve pts) pts[0].1 pts[pts.length - 1].1 B ∧
      ∀ (f : ℝ → ℝ) (C : ℝ), (∀ q ∈ pts, f q.1 = q.2) → Bends f pts[0].1 pts[pts.length - 1].1 C →
        B ≤ C ∧ (B = C → ∀ x, InRange pts x → f x = naturalCurve pts x) := by
  obtain ⟨n, p, hn, rfl⟩ := exists_tab pts (by intro hc; simp [hc] at h3)
  simp only [length_tab, getElem_tab] at h3 hd ⊢
  have hk : ∀ j, j + 2 < n → kink p (curvature n p) j = 0 := fun j hj =>
    (naturalCurve_differentiable h3 hs hj).1 (hd (j + 1) (by omega) (by omega))
  obtain ⟨m, rfl⟩ : ∃ m, n = m + 2 := ⟨n - 2, by omega⟩
  obtain ⟨s, g, ht, -, -, hB⟩ := twice_upto h3 hs hk m (by omega)
  rw [show m + 2 - 1 = m + 1 by omega]
  refine ⟨_, ⟨g, ⟨s, fun x hx => ⟨ht.1 x hx, ht.2.1 x hx⟩⟩, ht.2.2, rfl⟩, ?_⟩
  rintro f C hf ⟨f2, ⟨f1, hf1⟩, hc, rfl⟩
  have hlt : ∀ i, i < m + 1 → (p i).1 < (p (i + 1)).1 := fun i hi => strict_tab hs (Nat.lt_succ_self i) (by omega)
  have hle : ∀ {i j : Nat}, i ≤ j → j < m + 2 → (p i).1 ≤ (p j).1 := by
    intro i j hij hj
    rcases hij.eq_or_lt with h | h
    · rw [h]
    · exact le_of_lt (strict_tab hs h hj)
  have hsub : ∀ i, i < m + 1 → Icc (p i).1 (p (i + 1)).1 ⊆ Icc (p 0).1 (p (m + 1)).1 := fun i hi =>
    Icc_subset_Icc (hle (by omega) (by omega)) (hle (by omega) (by omega))
  have hnode : ∀ i, i < m + 2 → f (p i).1 = (p i).2 := by
    intro i hi
    have := List.getElem_mem (l := tab (m + 2) p) (n := i) (by simpa using hi)
    rw [getElem_tab] at this
    exact hf _ this
  have seg := fun i (hi : i < m + 1) => bending_segment (m₀ := curvature (m + 2) p i)
    (m₁ := curvature (m + 2) p (i + 1)) (hlt i hi)
    (fun x hx => ((hf1 x (hsub i hi hx)).1).mono (hsub i hi)) (fun x hx => ((hf1 x (hsub i hi hx)).2).mono (hsub i hi))
    (hc.mono (hsub i hi)) (hnode i (by omega)) (hnode (i + 1) (by omega))
  have hint : ∫ x in (p 0).1..(p (m + 1)).1, f2 x ^ 2 =
      ∑ i ∈ Finset.range (m + 1), ∫ x in (p i).1..(p (i + 1)).1, f2 x ^ 2 :=
    (intervalIntegral.sum_integral_adjacent_intervals (a := fun i => (p i).1) fun i hi =>
      ((hc.mono (hsub i hi)).pow 2).intervalIntegrable_of_Icc (hlt i hi).le).symm
  have hends := sum_ends (curvature (m + 2) p) (fun i => f1 (p i).1) (fun i => slopeOn (m + 2) p i (p (i + 1)).1)
    (fun i => slopeOn (m + 2) p i (p i).1) m (fun j hj => slope_joins hs (by omega) (hk j (by omega)))
  have hM : curvature (m + 2) p (m + 1) = 0 := curvature_last (n := m + 2) h3 p
  rw [hM, curvature_zero, zero_mul, zero_mul, sub_zero] at hends
  have total : ∫ x in (p 0).1..(p (m + 1)).1, f2 x ^ 2 = (∫ x in (p 0).1..(p (m + 1)).1, g x ^ 2) +
      ∑ i ∈ Finset.range (m + 1), ∫ x in (p i).1..(p (i + 1)).1, (f2 x - secondOn (m + 2) p i x) ^ 2 := by
    rw [hint, hB, Finset.sum_congr rfl fun i hi => seg i (Finset.mem_range.1 hi), Finset.sum_add_distrib,
      Finset.sum_add_distrib, ← Finset.mul_sum]
    have : ∑ i ∈ Finset.range (m + 1), (curvature (m + 2) p (i + 1) * (f1 (p (i + 1)).1 -
        cubicSlope (p i).1 (p i).2 (curvature (m + 2) p i) (p (i + 1)).1 (p (i + 1)).2 (curvature (m + 2) p (i + 1))
          (p (i + 1)).1) - curvature (m + 2) p i * (f1 (p i).1 -
        cubicSlope (p i).1 (p i).2 (curvature (m + 2) p i) (p (i + 1)).1 (p (i + 1)).2 (curvature (m + 2) p (i + 1))
          (p i).1)) = 0 := hends
    rw [this, mul_zero, add_zero]
    rfl
  have hnn : ∀ i ∈ Finset.range (m + 1), 0 ≤ ∫ x in (p i).1..(p (i + 1)).1, (f2 x - secondOn (m + 2) p i x) ^ 2 :=
    fun i hi => intervalIntegral.integral_nonneg (hlt i (Finset.mem_range.1 hi)).le fun _ _ => sq_nonneg _
  refine ⟨by rw [total]; linarith [Finset.sum_nonneg hnn], fun he x hx => ?_⟩
  have hz := (Finset.sum_eq_zero_iff_of_nonneg hnn).1 (by linarith)
  obtain ⟨i, hi, h0, h1⟩ := exists_bracket_raw hs (by simp) hx
  simp only [length_tab, getElem_tab] at hi h0 h1
  rw [naturalCurve_segment h3 hs hi ⟨h0, h1⟩]
  exact eq_of_bending (hlt i (by omega))
    (fun x hx => ((hf1 x (hsub i (by omega) hx)).1).mono (hsub i (by omega)))
    (fun x hx => ((hf1 x (hsub i (by omega) hx)).2).mono (hsub i (by omega)))
    (hc.mono (hsub i (by omega))) (hnode i (by omega)) (hnode (i + 1) (by omega))
    (hz i (Finset.mem_range.2 (by omega))) x ⟨h0, h1⟩

/-- Three points whose last ordinate is zero: the curve has a slope everywhere, and no curve through them bends
less. -/
example : ∃ B, Bends (naturalCurve [(0, 1), (1, 7), (3, 0)]) 0 3 B ∧
    ∀ (f : ℝ → ℝ) (C : ℝ), (∀ q ∈ [((0 : ℝ), (1 : ℝ)), (1, 7), (3, 0)], f q.1 = q.2) → Bends f 0 3 C → B ≤ C := by
  have hs : StrictlyIncreasing [((0 : ℝ), (1 : ℝ)), (1, 7), (3, 0)] := by unfold StrictlyIncreasing; norm_num
  obtain ⟨B, h1, h2⟩ := C128_least_partial [(0, 1), (1, 7), (3, 0)] hs (by simp) (by
    intro i h0 hi
    obtain rfl : i = 1 := by simp at hi; omega
    exact (C41_three_points_iff_partial 0 1 1 7 3 0 (by norm_num) (by norm_num)).2 rfl)
  exact ⟨B, h1, fun f C hf hC => (h2 f C hf hC).1⟩

/-- **C128 (violated).** Through three points of a straight line the curve bends, the straight line does not. -/
theorem C128_refuted : let pts : List (ℝ × ℝ) := [(0, 1), (1, 2), (2, 3)]
    (∃ B, BendsBetween (naturalCurve pts) pts B ∧ 0 < B) ∧
    ∃ f : ℝ → ℝ, (∀ q ∈ pts, f q.1 = q.2) ∧ Bends f 0 2 0 := by
  let p : Nat → ℝ × ℝ := fun i => ((i : ℝ), (i : ℝ) + 1)
  have he : tab 3 p = [(0, 1), (1, 2), (2, 3)] := by simp [tab, p, List.range_succ]; norm_num
  have hs : StrictlyIncreasing (tab 3 p) := by
    rw [he]; unfold StrictlyIncreasing; norm_num
  have hM : curvature 3 p 1 = -9 / 2 := by
    simp [curvature, second, solved, rhs, TridiagonalMatrix.rowProduct, mEnd, cMain, recip, bMain, gap, p]
    norm_num
  have hg := fun i (hi : i + 1 < 3) => twice_segment (le_refl 3) hs hi
  rw [← he]
  refine ⟨?_, fun x => x + 1, ?_, fun _ => 0, ⟨fun _ => 1, fun x _ => ⟨?_, ?_⟩⟩,
    continuousOn_const, by simp⟩
  · refine ⟨_, ⟨fun i => ∫ x in (p i).1..(p (i + 1)).1, secondOn 3 p i x ^ 2, fun i hi => ?_, rfl⟩, ?_⟩
    · simp only [length_tab, getElem_tab] at hi ⊢
      exact ⟨_, ⟨_, fun x hx => ⟨(hg i hi).1 x hx, (hg i hi).2.1 x hx⟩⟩, (hg i hi).2.2, rfl⟩
    · have pos : 0 < ∫ x in (p 0).1..(p 1).1, secondOn 3 p 0 x ^ 2 := by
        refine intervalIntegral.integral_pos (by simp [p])
          (((line_continuous _ _ _ _).pow 2).continuousOn) (fun _ _ => sq_nonneg _) ⟨1, by simp [p], ?_⟩
        have : secondOn 3 p 0 1 = -9 / 2 := by simp [secondOn, line, p, hM]
        rw [this]; norm_num
      have nn : 0 ≤ ∫ x in (p 1).1..(p 2).1, secondOn 3 p 1 x ^ 2 :=
        intervalIntegral.integral_nonneg (by simp [p]) fun _ _ => sq_nonneg _
      simp only [length_tab]
      rw [show 3 - 1 = 0 + 1 + 1 from rfl, Finset.sum_range_succ, Finset.sum_range_succ, Finset.sum_range_zero, zero_add]
      exact add_pos_of_pos_of_nonneg pos nn
  · rw [he]; simp; norm_num
  · exact ((hasDerivAt_id x).add_const 1).hasDerivWithinAt
  · exact hasDerivWithinAt_const _ _ _

end Qlab.Props
