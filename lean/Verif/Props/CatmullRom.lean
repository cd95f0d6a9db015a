import Verif.Lemmas.CatmullRom
import Mathlib.Tactic.NormNum

/-!
# Catmull-Rom spline (C38, C56)
-/

namespace Qlab.Props

open Spec

section
variable {K : Type} [Field K] [LinearOrder K] [FromInt K] [ExactCast K]

/-- **C38.** Every node but the last returns its ordinate.  Missing for the full property: the last node. -/
theorem C38_nodes_partial (pts : List (K × K)) (hs : StrictlyIncreasing pts) (h3 : 3 ≤ pts.length) (i : Nat)
    (hi : i + 1 < pts.length) :
    evaluate (Interpolator.catmullRom K) pts pts[i].1 = .ok (.ok pts[i].2) := by
  have hlt := List.pairwise_iff_getElem.1 hs i (i + 1) (by omega) hi (by omega)
  rw [catmullRom_segment hs h3 hi (le_refl _) (le_of_lt hlt), crSegment_left]

example : evaluate (Interpolator.catmullRom ℚ) [(0, 1), (1 / 2, 3), (1, 7)] (1 / 2) = .ok (.ok 3) :=
  C38_nodes_partial _ (by unfold StrictlyIncreasing; norm_num) (by simp) 1 (by simp)

/-- **C38.** Constant data are reproduced up to the last node but one.  Missing for the full property: the last
segment. -/
theorem C38_constants_partial (pts : List (K × K)) (hs : StrictlyIncreasing pts) (h3 : 3 ≤ pts.length) (c : K)
    (hc : ∀ p ∈ pts, p.2 = c) (x : K) (hx : InRange pts x) (hl : x ≤ pts[pts.length - 2].1) :
    evaluate (Interpolator.catmullRom K) pts x = .ok (.ok c) := by
  have pw := List.pairwise_iff_getElem.1 hs
  obtain ⟨i, hi, h0, h1⟩ := exists_bracket_raw hs (by omega) hx
  -- the bracket can be chosen before the last segment
  obtain ⟨i, hi, h0, h1⟩ : ∃ i, ∃ hi : i + 2 < pts.length, pts[i].1 ≤ x ∧ x ≤ pts[i + 1].1 := by
    by_cases hlast : i + 2 < pts.length
    · exact ⟨i, hlast, h0, h1⟩
    · have hi2 : i = pts.length - 2 := by omega
      have hxe : x = pts[i].1 := by subst hi2; exact le_antisymm hl h0
      obtain ⟨j, rfl⟩ : ∃ j, i = j + 1 := ⟨i - 1, by omega⟩
      exact ⟨j, by omega, by rw [hxe]; exact le_of_lt (pw j (j + 1) (by omega) (by omega) (by omega)),
        le_of_eq hxe⟩
  rw [catmullRom_segment hs h3 (by omega) h0 h1]
  have e : ∀ j (hj : j < pts.length), pts[j].2 = c := fun j hj => hc _ (List.getElem_mem hj)
  congr 2
  unfold crSegment
  split_ifs with ha hb
  · simp only [crFirst, e]; ring
  · omega
  · simp only [crInner, e]; ring

example : evaluate (Interpolator.catmullRom ℚ) [(0, 3), (1 / 2, 3), (1, 3)] (1 / 4) = .ok (.ok 3) :=
  C38_constants_partial _ (by unfold StrictlyIncreasing; norm_num) (by simp) 3 (by simp) (1 / 4)
    ⟨⟨(0, 3), by simp, by norm_num⟩, ⟨(1, 3), by simp, by norm_num⟩⟩ (by norm_num)

/-- **C38.** The value at the last node, exactly: the ordinate times `2 - 2α`, where
`α = h / (2h + h')` for the last two spacings `h` and `h'`. -/
theorem C38_last_node_value_partial (pts : List (K × K)) (hs : StrictlyIncreasing pts) (n : Nat)
    (hn : pts.length = n + 3) :
    let h := pts[n + 2].1 - pts[n + 1].1
    let h' := pts[n + 1].1 - pts[n].1
    evaluate (Interpolator.catmullRom K) pts pts[n + 2].1 =
      .ok (.ok ((2 - 2 * (h / (2 * h + h'))) * pts[n + 2].2)) := by
  have hlt := List.pairwise_iff_getElem.1 hs (n + 1) (n + 2) (by omega) (by omega) (by omega)
  have hne : pts[n + 2].1 - pts[n + 1].1 ≠ 0 := sub_ne_zero.2 (ne_of_gt hlt)
  intro h h'
  rw [catmullRom_segment hs (i := n + 1) (by omega) (by omega) (le_of_lt hlt) (le_refl _)]
  congr 2
  unfold crSegment
  have hd : (pts[n + 2].1 - pts[n + 1].1) + (pts[n + 2].1 - pts[n].1) = 2 * h + h' := by
    simp only [h, h']; ring
  rw [dif_neg (by omega), dif_pos (by omega)]
  simp only [Nat.add_sub_cancel, crLast]
  rw [show pts[n + 1 + 1].1 = pts[n + 2].1 from rfl, show pts[n + 1 + 1].2 = pts[n + 2].2 from rfl, hd,
    div_self hne]
  ring

example := C38_last_node_value_partial ([(0, 1), (1 / 2, 3), (1, 7)] : List (ℚ × ℚ))
  (by unfold StrictlyIncreasing; norm_num) 0 rfl

/-- **C38 (violated).** On every grid the last node is missed, unless its ordinate is zero. -/
theorem C38_refuted_last_node [IsStrictOrderedRing K] (pts : List (K × K)) (hs : StrictlyIncreasing pts)
    (h3 : 3 ≤ pts.length) (hy : pts[pts.length - 1].2 ≠ 0) :
    ∃ v, evaluate (Interpolator.catmullRom K) pts pts[pts.length - 1].1 = .ok (.ok v) ∧
      v ≠ pts[pts.length - 1].2 := by
  obtain ⟨n, hn⟩ : ∃ n, pts.length = n + 3 := ⟨pts.length - 3, by omega⟩
  have pw := List.pairwise_iff_getElem.1 hs
  have h1 := pw (n + 1) (n + 2) (by omega) (by omega) (by omega)
  have h2 := pw n (n + 1) (by omega) (by omega) (by omega)
  have := C38_last_node_value_partial pts hs n hn
  simp only at this
  have hidx : pts.length - 1 = n + 2 := by omega
  simp only [hidx] at hy ⊢
  refine ⟨_, this, ?_⟩
  intro hc
  have hpos : 0 < 2 * (pts[n + 2].1 - pts[n + 1].1) + (pts[n + 1].1 - pts[n].1) := by linarith
  have h4 : (2 - 2 * ((pts[n + 2].1 - pts[n + 1].1) /
      (2 * (pts[n + 2].1 - pts[n + 1].1) + (pts[n + 1].1 - pts[n].1)))) = 1 :=
    mul_right_cancel₀ hy (by rw [hc, one_mul])
  have h5 : (pts[n + 2].1 - pts[n + 1].1) /
      (2 * (pts[n + 2].1 - pts[n + 1].1) + (pts[n + 1].1 - pts[n].1)) < 1 / 2 := by
    rw [div_lt_div_iff₀ hpos two_pos]; linarith
  linarith

example : ∃ v, evaluate (Interpolator.catmullRom ℚ) [(0, 1), (1 / 2, 3), (1, 7)] 1 = .ok (.ok v) ∧ v ≠ 7 :=
  C38_refuted_last_node [(0, 1), (1 / 2, 3), (1, 7)] (by unfold StrictlyIncreasing; norm_num) (by simp) (by simp)

/-- **C38 (violated).** Constant data are not reproduced: the constant 1 on 0, 1, 2 gives 4/3 at 2. -/
theorem C38_refuted_constants :
    evaluate (Interpolator.catmullRom ℚ) [(0, 1), (1, 1), (2, 1)] 2 = .ok (.ok (4 / 3)) := by
  have hs : StrictlyIncreasing ([(0, 1), (1, 1), (2, 1)] : List (ℚ × ℚ)) := by
    unfold StrictlyIncreasing; norm_num
  have := C38_last_node_value_partial _ hs 0 rfl
  simp only [List.getElem_cons_succ, List.getElem_cons_zero] at this
  rw [this]
  norm_num

/-- **C38.** Evaluation fails exactly outside the range, with the bound error carrying `x`. -/
theorem C38_domain (pts : List (K × K)) (hs : StrictlyIncreasing pts) (h3 : 3 ≤ pts.length) (x : K) :
    (BelowAll pts x → evaluate (Interpolator.catmullRom K) pts x = .ok (.error (.outOfLowerBound x))) ∧
    (AboveAll pts x → evaluate (Interpolator.catmullRom K) pts x = .ok (.error (.outOfUpperBound x))) ∧
    (InRange pts x → ∃ v, evaluate (Interpolator.catmullRom K) pts x = .ok (.ok v)) := by
  refine ⟨(catmullRom_outside hs h3 x).1, (catmullRom_outside hs h3 x).2, fun hx => ?_⟩
  obtain ⟨i, hi, h0, h1⟩ := exists_bracket_raw hs (by omega) hx
  exact ⟨_, catmullRom_segment hs h3 hi h0 h1⟩

example : evaluate (Interpolator.catmullRom ℚ) [(0, 1), (1 / 2, 3), (1, 7)] 2 = .ok (.error (.outOfUpperBound 2)) :=
  (C38_domain _ (by unfold StrictlyIncreasing; norm_num) (by simp) 2).2.1 (by simp [AboveAll]; norm_num)

end

/-- The evaluated curve as a function on the reals (0 where nothing is returned). -/
noncomputable def catmullRomCurve (pts : List (ℝ × ℝ)) (x : ℝ) : ℝ :=
  match evaluate (Interpolator.catmullRom ℝ) pts x with
  | .ok (.ok v) => v
  | _ => 0

theorem catmullRomCurve_segment {pts : List (ℝ × ℝ)} (hs : StrictlyIncreasing pts) (h3 : 3 ≤ pts.length) {i : Nat}
    (hi : i + 1 < pts.length) {x : ℝ} (hx : x ∈ Set.Icc pts[i].1 pts[i + 1].1) :
    catmullRomCurve pts x = crSegment pts i hi h3 x := by
  simp only [catmullRomCurve, catmullRom_segment hs h3 hi hx.1 hx.2]

/-- **C38.** The curve is continuous on the whole range. -/
theorem C38_continuous (pts : List (ℝ × ℝ)) (hs : StrictlyIncreasing pts) (h3 : 3 ≤ pts.length) :
    ContinuousOn (catmullRomCurve pts) {x | InRange pts x} :=
  continuousOn_of_segments hs (by omega) _ (fun i hi => crSegment pts i hi h3)
    (fun i hi => crSegment_continuous pts i hi h3) (fun _ hi _ hx => catmullRomCurve_segment hs h3 hi hx)

example := C38_continuous [(0, 1), (1 / 2, 3), (1, 7)] (by unfold StrictlyIncreasing; norm_num) (by simp)

/-! ## C56 -/

/-- **C56.** The slope from the left at an interior node is the central difference of its neighbours, as the
Catmull-Rom construction prescribes.  Missing for the full property: the slope from the right. -/
theorem C56_left_slope_partial (pts : List (ℝ × ℝ)) (hs : StrictlyIncreasing pts) (i : Nat)
    (hi : i + 2 < pts.length) :
    HasDerivWithinAt (catmullRomCurve pts) ((pts[i + 2].2 - pts[i].2) / (pts[i + 2].1 - pts[i].1))
      (Set.Icc pts[i].1 pts[i + 1].1) pts[i + 1].1 := by
  have hlt := List.pairwise_iff_getElem.1 hs i (i + 1) (by omega) (by omega) (by omega)
  exact (crSegment_deriv_right pts hs i hi (by omega)).hasDerivWithinAt.congr
    (fun z hz => catmullRomCurve_segment hs (by omega) (by omega) hz)
    (catmullRomCurve_segment hs (by omega) (by omega) ⟨le_of_lt hlt, le_refl _⟩)

example := C56_left_slope_partial [(0, 1), (1 / 2, 3), (1, 7)] (by unfold StrictlyIncreasing; norm_num) 0 (by simp)

/-- **C56.** The slope from the right at an interior node: the same difference over a span that counts the
right spacing twice. -/
theorem C56_right_slope_partial (pts : List (ℝ × ℝ)) (hs : StrictlyIncreasing pts) (i : Nat)
    (hi : i + 2 < pts.length) :
    HasDerivWithinAt (catmullRomCurve pts)
      ((pts[i + 2].2 - pts[i].2) / ((pts[i + 2].1 - pts[i].1) + (pts[i + 2].1 - pts[i + 1].1)))
      (Set.Icc pts[i + 1].1 pts[i + 2].1) pts[i + 1].1 := by
  have hlt := List.pairwise_iff_getElem.1 hs (i + 1) (i + 2) (by omega) (by omega) (by omega)
  rw [add_comm (pts[i + 2].1 - pts[i].1)]
  exact (crSegment_deriv_left pts hs i hi (by omega)).hasDerivWithinAt.congr
    (fun z hz => catmullRomCurve_segment hs (by omega) (by omega) hz)
    (catmullRomCurve_segment hs (by omega) (by omega) ⟨le_refl _, le_of_lt hlt⟩)

example := C56_right_slope_partial [(0, 1), (1 / 2, 3), (1, 7)] (by unfold StrictlyIncreasing; norm_num) 0 (by simp)

/-- **C56 (violated).** On every grid the curve has a kink at each interior node whose neighbours have
different ordinates: it is not differentiable there. -/
theorem C56_refuted (pts : List (ℝ × ℝ)) (hs : StrictlyIncreasing pts) (i : Nat) (hi : i + 2 < pts.length)
    (hy : pts[i + 2].2 ≠ pts[i].2) : ¬ DifferentiableAt ℝ (catmullRomCurve pts) pts[i + 1].1 := by
  intro hd
  have pw := List.pairwise_iff_getElem.1 hs
  have h1 := pw i (i + 1) (by omega) (by omega) (by omega)
  have h2 := pw (i + 1) (i + 2) (by omega) (by omega) (by omega)
  have hl := (uniqueDiffOn_Icc h1 _ ⟨le_of_lt h1, le_refl _⟩).eq_deriv _ hd.hasDerivAt.hasDerivWithinAt
    (C56_left_slope_partial pts hs i hi)
  have hr := (uniqueDiffOn_Icc h2 _ ⟨le_refl _, le_of_lt h2⟩).eq_deriv _ hd.hasDerivAt.hasDerivWithinAt
    (C56_right_slope_partial pts hs i hi)
  rw [hl] at hr
  have hp1 : pts[i + 2].1 - pts[i].1 ≠ 0 := by
    intro hc; linarith
  have hp2 : (pts[i + 2].1 - pts[i].1) + (pts[i + 2].1 - pts[i + 1].1) ≠ 0 := by
    intro hc; linarith
  rw [div_eq_div_iff hp1 hp2] at hr
  have := mul_left_cancel₀ (sub_ne_zero.2 hy) hr
  linarith

example : ¬ DifferentiableAt ℝ (catmullRomCurve [(0, 1), (1 / 2, 3), (1, 7)]) (1 / 2) :=
  C56_refuted [(0, 1), (1 / 2, 3), (1, 7)] (by unfold StrictlyIncreasing; norm_num) 0 (by simp) (by simp)

/-- **C56.** The curve is differentiable at an interior node exactly when the neighbours of the node have the same
ordinate. -/
theorem C56_smooth_iff_partial (pts : List (ℝ × ℝ)) (hs : StrictlyIncreasing pts) (i : Nat) (hi : i + 2 < pts.length) :
    DifferentiableAt ℝ (catmullRomCurve pts) pts[i + 1].1 ↔ pts[i + 2].2 = pts[i].2 := by
  refine ⟨fun h => by_contra fun hy => C56_refuted pts hs i hi hy h, fun hy => ?_⟩
  have pw := List.pairwise_iff_getElem.1 hs
  have h1 := pw i (i + 1) (by omega) (by omega) (by omega)
  have h2 := pw (i + 1) (i + 2) (by omega) (by omega) (by omega)
  have hl := C56_left_slope_partial pts hs i hi
  have hr := C56_right_slope_partial pts hs i hi
  rw [hy, sub_self, zero_div] at hl hr
  have := hl.union hr
  rw [Set.Icc_union_Icc_eq_Icc h1.le h2.le] at this
  exact (this.hasDerivAt (Icc_mem_nhds h1 h2)).differentiableAt

example : DifferentiableAt ℝ (catmullRomCurve [(0, 7), (1 / 2, 3), (1, 7)]) (1 / 2) :=
  (C56_smooth_iff_partial [(0, 7), (1 / 2, 3), (1, 7)] (by unfold StrictlyIncreasing; norm_num) 0 (by simp)).2 (by simp)

/-- **C56 (violated).** Straight lines are not reproduced, even away from the last segment: `y = x` on
0, 1, 2, 3 gives a value other than 3/2 at 3/2. -/
theorem C56_refuted_lines :
    evaluate (Interpolator.catmullRom ℚ) [(0, 0), (1, 1), (2, 2), (3, 3)] (3 / 2) = .ok (.ok (35 / 24)) := by
  have hs : StrictlyIncreasing ([(0, 0), (1, 1), (2, 2), (3, 3)] : List (ℚ × ℚ)) := by
    unfold StrictlyIncreasing; norm_num
  rw [catmullRom_segment hs (by simp) (i := 1) (by simp) (by norm_num) (by norm_num)]
  simp [crSegment, crInner]
  norm_num

/-- The repository's own test value: (0,1), (1/2,1/2), (1,0) at 3/4 gives 13/48 = 0.2708333..., exactly. -/
example : StrictlyIncreasing ([(0, 1), (1 / 2, 1 / 2), (1, 0)] : List (ℚ × ℚ)) ∧
    evaluate (Interpolator.catmullRom ℚ) [(0, 1), (1 / 2, 1 / 2), (1, 0)] (3 / 4) = .ok (.ok (13 / 48)) := by
  have hs : StrictlyIncreasing ([(0, 1), (1 / 2, 1 / 2), (1, 0)] : List (ℚ × ℚ)) := by
    unfold StrictlyIncreasing; norm_num
  refine ⟨hs, ?_⟩
  rw [catmullRom_segment hs (by simp) (i := 1) (by simp) (by norm_num) (by norm_num)]
  simp [crSegment, crLast]
  norm_num

end Qlab.Props
