import Verif.Lemmas.Monotone
import Verif.Props.Overshoot

/-!
# Rising data (C130)
-/

namespace Qlab.Spec

/-- Where `P` holds, `curve` has a value, and a later argument never has a smaller one. -/
def NeverFalls {K : Type} [LE K] (curve : K → Rust (Except (InterpolationError K) K)) (P : K → Prop) : Prop :=
  ∀ x z, P x → P z → x ≤ z → ∃ v w, curve x = .ok (.ok v) ∧ curve z = .ok (.ok w) ∧ v ≤ w

/-- The slope of the straight line from point `i` to the next one. -/
def secant {K : Type} [Sub K] [Div K] (pts : List (K × K)) (i : Nat) (hi : i + 1 < pts.length) : K :=
  (pts[i + 1].2 - pts[i].2) / (pts[i + 1].1 - pts[i].1)

end Qlab.Spec

namespace Qlab.Props

open Spec NaturalCubic

variable {K : Type} [Field K] [LinearOrder K] [IsStrictOrderedRing K]

/-- A successful value. -/
def valueOf (r : Rust (Except (InterpolationError K) K)) : K :=
  match r with
  | .ok (.ok v) => v
  | _ => 0

omit [IsStrictOrderedRing K] in
/-- Segments that never fall make a curve that never falls. -/
theorem neverFalls_of_segments {W : Type} {pts : List (K × W)} (hs : StrictlyIncreasing pts) {m : Nat} (hm : m < pts.length)
    (curve : K → Rust (Except (InterpolationError K) K)) (S : ∀ i, i + 1 < pts.length → K → K)
    (hc : ∀ i (hi : i + 1 < pts.length), ∀ x, pts[i].1 ≤ x → x ≤ pts[i + 1].1 → curve x = .ok (.ok (S i hi x)))
    (hS : ∀ i (hi : i < m), ∀ x z, pts[i].1 ≤ x → x ≤ z → z ≤ pts[i + 1].1 →
      S i (by omega) x ≤ S i (by omega) z) (P : K → Prop)
    (hP : ∀ x, P x → ∃ i, ∃ hi : i < m, pts[i].1 ≤ x ∧ x ≤ pts[i + 1].1) : NeverFalls curve P := by
  intro x z hx hz hxz
  obtain ⟨i, hi, x0, x1⟩ := hP x hx
  obtain ⟨j, hj, z0, z1⟩ := hP z hz
  refine ⟨_, _, hc i (by omega) x x0 x1, hc j (by omega) z z0 z1, ?_⟩
  have := rising_of_segments hs hm (fun x => valueOf (curve x)) (fun i hi x z h0 h1 h2 => by
    simp only [hc i (by omega) x h0 (h1.trans h2), hc i (by omega) z (h0.trans h1) h2, valueOf]
    exact hS i hi x z h0 h1 h2) hi hj x0 x1 z0 z1 hxz
  simpa only [hc i (by omega) x x0 x1, hc j (by omega) z z0 z1, valueOf] using this

omit [Field K] [IsStrictOrderedRing K] in
theorem bracket_of_inRange {W : Type} {pts : List (K × W)} (hs : StrictlyIncreasing pts) (h2 : 2 ≤ pts.length) (x : K)
    (hx : InRange pts x) : ∃ i, ∃ hi : i < pts.length - 1, pts[i].1 ≤ x ∧ x ≤ pts[i + 1].1 := by
  obtain ⟨i, hi, h0, h1⟩ := exists_bracket_raw hs h2 hx
  exact ⟨i, by omega, h0, h1⟩

/-- **C130**: linear interpolation never falls if and only if the ordinates never fall. -/
theorem C130_linear (pts : List (K × K)) (hs : StrictlyIncreasing pts) (h2 : 2 ≤ pts.length) :
    NeverFalls (evaluate (Interpolator.linear K) pts) (InRange pts) ↔ pts.Pairwise fun p q => p.2 ≤ q.2 := by
  have pw := List.pairwise_iff_getElem.1 hs
  have seg : ∀ i (hi : i + 1 < pts.length), IsSegment pts i pts[i].1 pts[i].2 pts[i + 1].1 pts[i + 1].2 := by
    intro i hi
    exact ⟨List.getElem?_eq_getElem (by omega), List.getElem?_eq_getElem hi⟩
  have val : ∀ i (hi : i < pts.length), evaluate (Interpolator.linear K) pts pts[i].1 = .ok (.ok pts[i].2) := by
    intro i hi
    rcases Nat.lt_or_ge (i + 1) pts.length with h | h
    · rw [(linear_segment pts hs i _ _ _ _ pts[i].1 (seg i h) le_rfl (pw i (i + 1) _ _ (by omega)).le).2]
      simp
    · obtain ⟨j, rfl⟩ : ∃ j, i = j + 1 := ⟨i - 1, by omega⟩
      have hlt := pw j (j + 1) (by omega) hi (by omega)
      rw [(linear_segment pts hs j _ _ _ _ pts[j + 1].1 (seg j hi) hlt.le le_rfl).2,
        div_mul_cancel₀ _ (sub_ne_zero.2 hlt.ne')]
      simp
  constructor
  · intro h
    rw [List.pairwise_iff_getElem]
    intro i j hi hj hij
    obtain ⟨v, w, e1, e2, hvw⟩ := h pts[i].1 pts[j].1 ⟨⟨_, List.getElem_mem hi, le_rfl⟩, ⟨_, List.getElem_mem hi, le_rfl⟩⟩
      ⟨⟨_, List.getElem_mem hj, le_rfl⟩, ⟨_, List.getElem_mem hj, le_rfl⟩⟩ (pw i j hi hj hij).le
    rw [val i hi] at e1
    rw [val j hj] at e2
    simp only [Rust.ok.injEq, Except.ok.injEq] at e1 e2
    rw [e1, e2]
    exact hvw
  · intro h
    refine neverFalls_of_segments hs (m := pts.length - 1) (by omega) _ _
      (fun i hi x h0 h1 => (linear_segment pts hs i _ _ _ _ x (seg i hi) h0 h1).2) ?_ _ (bracket_of_inRange hs h2)
    intro i hi x z h0 h1 h2'
    have hy := List.pairwise_iff_getElem.1 h i (i + 1) (by omega) (by omega) (by omega)
    have hlt := pw i (i + 1) (by omega) (by omega) (by omega)
    have := mul_le_mul_of_nonneg_left (show x - pts[i].1 ≤ z - pts[i].1 by linarith)
      (div_nonneg (sub_nonneg.2 hy) (sub_nonneg.2 hlt.le))
    linarith

/-- Three rising points, and three that are not. -/
example : NeverFalls (evaluate (Interpolator.linear ℚ) [(0, 0), (1, 0), (2, 1)])
    (InRange [((0 : ℚ), (0 : ℚ)), (1, 0), (2, 1)]) :=
  (C130_linear [((0 : ℚ), (0 : ℚ)), (1, 0), (2, 1)] (by unfold StrictlyIncreasing; decide +kernel) (by decide)).2 (by decide +kernel)

example : ¬ NeverFalls (evaluate (Interpolator.linear ℚ) [(0, 0), (1, 2), (2, 1)])
    (InRange [((0 : ℚ), (0 : ℚ)), (1, 2), (2, 1)]) := fun h =>
  absurd ((C130_linear [((0 : ℚ), (0 : ℚ)), (1, 2), (2, 1)] (by unfold StrictlyIncreasing; decide +kernel) (by decide)).1 h) (by decide +kernel)

variable [FromInt K] [ExactCast K]

/-- **C130**: a Hermite spline never falls if the given slopes are not negative and at most three times the slopes of
the straight lines to the neighbouring points. -/
theorem C130_hermite (pts : List (K × K × K)) (hs : StrictlyIncreasing pts) (h2 : 2 ≤ pts.length)
    (h0 : ∀ p ∈ pts, 0 ≤ p.2.2)
    (h3 : ∀ i (hi : i + 1 < pts.length),
      pts[i].2.2 ≤ 3 * ((pts[i + 1].2.1 - pts[i].2.1) / (pts[i + 1].1 - pts[i].1)) ∧
      pts[i + 1].2.2 ≤ 3 * ((pts[i + 1].2.1 - pts[i].2.1) / (pts[i + 1].1 - pts[i].1))) :
    NeverFalls (evaluateHermite pts) (InRange pts) := by
  refine neverFalls_of_segments hs (m := pts.length - 1) (by omega) _ _
    (fun i hi x h0 h1 => hermite_segment hs hi h0 h1) ?_ _ (bracket_of_inRange hs h2)
  intro i hi x z hx hxz hz
  have hlt := List.pairwise_iff_getElem.1 hs i (i + 1) (by omega) (by omega) (by omega)
  have hG := sub_pos.2 hlt
  obtain ⟨ha, hb⟩ := h3 i (by omega)
  rw [mul_div_assoc', le_div_iff₀ hG] at ha hb
  exact hermiteCubic_rising hlt (h0 _ (List.getElem_mem _)) ha (h0 _ (List.getElem_mem _)) hb hx hxz hz

/-- Slopes 0, 3 and 0 at the points (0, 0), (1, 1), (2, 2). -/
example : NeverFalls (evaluateHermite [((0 : ℚ), 0, 0), (1, 1, 3), (2, 2, 0)])
    (InRange [((0 : ℚ), (0 : ℚ), (0 : ℚ)), (1, 1, 3), (2, 2, 0)]) := by
  refine C130_hermite _ (by unfold StrictlyIncreasing; decide +kernel) (by decide) (by decide +kernel) ?_
  intro i hi
  obtain rfl | rfl : i = 0 ∨ i = 1 := by simp only [List.length_cons, List.length_nil] at hi; omega
  all_goals norm_num

/-- **C130.** A Catmull-Rom spline through rising points never falls up to the last but one of them if the slope of
each straight line between neighbouring points is at most three times that of the next one and of the one before.
Missing for the full property: slopes that differ more, and the last segment, which misses its right end (C38). -/
theorem C130_catmull_rom_partial (pts : List (K × K)) (hs : StrictlyIncreasing pts) (h3 : 3 ≤ pts.length)
    (hr : pts.Pairwise fun p q => p.2 ≤ q.2)
    (hk : ∀ i (hi : i + 2 < pts.length), secant pts i (by omega) ≤ 3 * secant pts (i + 1) hi ∧
      secant pts (i + 1) hi ≤ 3 * secant pts i (by omega)) :
    NeverFalls (evaluate (Interpolator.catmullRom K) pts) fun x => pts[0].1 ≤ x ∧ x ≤ pts[pts.length - 2].1 := by
  have pw := List.pairwise_iff_getElem.1 hs
  have py := List.pairwise_iff_getElem.1 hr
  refine neverFalls_of_segments hs (m := pts.length - 2) (by omega) _ _
    (fun i hi x h0 h1 => catmullRom_segment hs h3 hi h0 h1) ?_ _ ?_
  · intro i hi x z hx hxz hz
    have hlt := pw i (i + 1) (by omega) (by omega) (by omega)
    have hlt2 := pw (i + 1) (i + 2) (by omega) (by omega) (by omega)
    have hy := py i (i + 1) (by omega) (by omega) (by omega)
    have hy2 := py (i + 1) (i + 2) (by omega) (by omega) (by omega)
    have hG := sub_pos.2 hlt
    have hG2 := sub_pos.2 hlt2
    have hn := (hk i (by omega)).2
    unfold secant at hn
    rw [mul_div_assoc', div_le_div_iff₀ hG2 hG] at hn
    have hd2 : 0 < pts[i + 1].1 - pts[i].1 + (pts[i + 2].1 - pts[i + 1].1) := by linarith
    have b0 : 0 ≤ (pts[i + 2].2 - pts[i].2) / (pts[i + 1].1 - pts[i].1 + (pts[i + 2].1 - pts[i + 1].1)) :=
      div_nonneg (by linarith) hd2.le
    have b3 : (pts[i + 2].2 - pts[i].2) / (pts[i + 1].1 - pts[i].1 + (pts[i + 2].1 - pts[i + 1].1)) *
        (pts[i + 1].1 - pts[i].1) ≤ 3 * (pts[i + 1].2 - pts[i].2) := by
      rw [div_mul_eq_mul_div, div_le_iff₀ hd2]
      nlinarith [mul_nonneg (sub_nonneg.2 hy) hG.le]
    unfold crSegment
    by_cases h0 : i = 0
    · subst h0
      rw [dif_pos rfl, dif_pos rfl, crFirst_eq hlt, crFirst_eq hlt]
      refine hermiteCubic_rising hlt (div_nonneg (by linarith) hG.le) ?_ b0 b3 hx hxz hz
      rw [div_mul_cancel₀ _ hG.ne']
      linarith
    · obtain ⟨j, rfl⟩ : ∃ j, i = j + 1 := ⟨i - 1, by omega⟩
      rw [dif_neg h0, dif_neg (by omega), dif_neg h0, dif_neg (by omega), crInner_eq, crInner_eq]
      simp only [Nat.add_sub_cancel]
      have hltp := pw j (j + 1) (by omega) (by omega) (by omega)
      have hyp := py j (j + 1) (by omega) (by omega) (by omega)
      have hGp := sub_pos.2 hltp
      have hp := (hk j (by omega)).1
      unfold secant at hp
      rw [mul_div_assoc', div_le_div_iff₀ hGp hG] at hp
      have hdp : 0 < pts[j + 1 + 1].1 - pts[j + 1].1 + (pts[j + 1 + 1].1 - pts[j].1) := by linarith
      refine hermiteCubic_rising hlt (div_nonneg (by linarith) hdp.le) ?_ b0 b3 hx hxz hz
      rw [div_mul_eq_mul_div, div_le_iff₀ hdp]
      nlinarith [mul_nonneg (sub_nonneg.2 hy) hG.le]
  · rintro x ⟨h0, h1⟩
    have hx : InRange pts x := ⟨⟨_, List.getElem_mem _, h0⟩, ⟨_, List.getElem_mem _, h1⟩⟩
    obtain ⟨i, hi, a, b⟩ := exists_bracket_raw hs (by omega) hx
    rcases Nat.lt_or_ge i (pts.length - 2) with h | h
    · exact ⟨i, h, a, b⟩
    · obtain ⟨j, hj⟩ : ∃ j, pts.length = j + 3 := ⟨pts.length - 3, by omega⟩
      have e : i = j + 1 := by omega
      subst e
      have h1' : x ≤ pts[j + 1].1 := by
        have : pts.length - 2 = j + 1 := by omega
        simpa only [this] using h1
      exact ⟨j, by omega, (pw j (j + 1) (by omega) (by omega) (by omega)).le.trans a, h1'⟩

/-- The slopes 1, 3 and 1. -/
example : NeverFalls (evaluate (Interpolator.catmullRom ℚ) [(0, 0), (1, 1), (2, 4), (3, 5)]) fun x => 0 ≤ x ∧ x ≤ 2 := by
  refine C130_catmull_rom_partial [(0, 0), (1, 1), (2, 4), (3, 5)] (by unfold StrictlyIncreasing; decide +kernel) (by decide)
    (by decide +kernel) ?_
  intro i hi
  obtain rfl | rfl : i = 0 ∨ i = 1 := by simp only [List.length_cons, List.length_nil] at hi; omega
  all_goals norm_num [secant]

/-- **C130.** A natural cubic spline through four or more points never falls if the slopes of the straight lines between
neighbouring points are nearly equal: all between `s` and `S`, with `12/5 (H / h) (S - s)` at most `s`, where `h` and
`H` bound the distances between neighbouring abscissae.  Missing for the full property: slopes that differ more, and
three points. -/
theorem C130_natural_cubic_partial (pts : List (K × K)) (hs : StrictlyIncreasing pts) (h4 : 4 ≤ pts.length)
    (s S h H : K) (hh : 0 < h)
    (hgap : ∀ i (hi : i + 1 < pts.length), h ≤ pts[i + 1].1 - pts[i].1 ∧ pts[i + 1].1 - pts[i].1 ≤ H)
    (hk : ∀ i (hi : i + 1 < pts.length), s ≤ secant pts i hi ∧ secant pts i hi ≤ S)
    (hc : 12 / 5 * (H / h) * (S - s) ≤ s) :
    NeverFalls (evaluate (Interpolator.naturalCubic K) pts) (InRange pts) := by
  obtain ⟨n, p, hn, rfl⟩ := exists_tab pts (by rintro rfl; simp at h4)
  have hbr := bracket_of_inRange hs (by omega)
  simp only [length_tab, getElem_tab, secant] at h4 hgap hk
  refine neverFalls_of_segments hs (m := (tab n p).length - 1) (by simp; omega) _
    (fun i _ x => cubic (p i).1 (p i).2 (curvature n p i) (p (i + 1)).1 (p (i + 1)).2 (curvature n p (i + 1)) x)
    (fun i hi x h0 h1 => NaturalCubic.segment (by omega) hs (by simpa using hi) (by simpa using h0) (by simpa using h1))
    ?_ _ hbr
  intro i hi x z hx hxz hz
  simp only [length_tab, getElem_tab] at hi hx hz
  have hb : ∀ k, k + 2 < n → |rhs n p k| ≤ S - s := by
    intro k hk'
    rw [rhs_eq h4 p hk' (ne_of_gt (gap_pos hs (by omega))) (ne_of_gt (gap_pos hs (by omega)))]
    have h1 := hk k (by omega)
    have h2 := hk (k + 1) (by omega)
    unfold chord
    rw [abs_le]
    constructor <;> linarith [h1.1, h1.2, h2.1, h2.2]
  have hcv := curvature_le (by omega) hh (fun k hk => (hgap k hk).1) hb
  have hlt := strict_tab hs (Nat.lt_succ_self i) (by omega)
  have hG := sub_pos.2 hlt
  have hSs : 0 ≤ S - s := (abs_nonneg _).trans (hb 0 (by omega))
  refine cubic_rises hlt (hcv i) (hcv (i + 1)) ?_ hx hxz hz
  have hsl := (hk i (by omega)).1
  rw [le_div_iff₀ hG] at hsl
  have hq : 0 ≤ (S - s) / h := div_nonneg hSs hh.le
  have h1 := mul_le_mul_of_nonneg_right (hgap i (by omega)).2 hq
  have e : 12 / 5 * (H / h) * (S - s) = 12 / 5 * (H * ((S - s) / h)) := by ring
  rw [e] at hc
  have h2 : 12 / 5 * (((p (i + 1)).1 - (p i).1) * ((S - s) / h)) ≤ s := by linarith
  have h3 := mul_le_mul_of_nonneg_right h2 hG.le
  have e2 : ((p (i + 1)).1 - (p i).1) ^ 2 / 2 * (24 / 5 * (S - s) / h) =
    12 / 5 * (((p (i + 1)).1 - (p i).1) * ((S - s) / h)) * ((p (i + 1)).1 - (p i).1) := by ring
  rw [e2]
  linarith

/-- The slopes 3, 4 and 3. -/
example : NeverFalls (evaluate (Interpolator.naturalCubic ℚ) [(0, 0), (1, 3), (2, 7), (3, 10)])
    (InRange [((0 : ℚ), (0 : ℚ)), (1, 3), (2, 7), (3, 10)]) := by
  refine C130_natural_cubic_partial [(0, 0), (1, 3), (2, 7), (3, 10)] (by unfold StrictlyIncreasing; decide +kernel)
    (by decide) 3 4 1 1 (by norm_num) ?_ ?_ (by norm_num) <;>
  · intro i hi
    obtain rfl | rfl | rfl : i = 0 ∨ i = 1 ∨ i = 2 := by
      simp only [List.length_cons, List.length_nil] at hi; omega
    all_goals norm_num [secant]

/-- **C130 (violated).** Through the rising points (0, 0), (1, 0), (2, 1) the Catmull-Rom spline falls from 0 to
-1/16. -/
theorem C130_refuted_catmull_rom :
    evaluate (Interpolator.catmullRom ℚ) [(0, 0), (1, 0), (2, 1)] 0 = .ok (.ok 0) ∧
      evaluate (Interpolator.catmullRom ℚ) [(0, 0), (1, 0), (2, 1)] (1 / 2) = .ok (.ok (-1 / 16)) :=
  ⟨by decide +kernel, by decide +kernel⟩

/-- **C130 (violated).** Through the rising points (0, 0), (1, 0), (2, 1), (3, 1) the natural cubic spline falls from 0
to -3/32. -/
theorem C130_refuted_natural_cubic :
    evaluate (Interpolator.naturalCubic ℚ) [(0, 0), (1, 0), (2, 1), (3, 1)] 0 = .ok (.ok 0) ∧
      evaluate (Interpolator.naturalCubic ℚ) [(0, 0), (1, 0), (2, 1), (3, 1)] (1 / 2) = .ok (.ok (-3 / 32)) :=
  ⟨by decide +kernel, by decide +kernel⟩

end Qlab.Props
