import Verif.Lemmas.Monotone
import Verif.Props.Hermite
import Verif.Props.Linear
import Verif.Lemmas.NaturalCubic
import Verif.Lemmas.CatmullRom
import Mathlib.Analysis.Convex.Deriv

/-!
# Convex data (C132)
-/

namespace Qlab.Spec

/-- Where `P` holds, `curve` has a value, and its graph is never above a straight line between two of its points. -/
def CurveIsConvex {K : Type} [Field K] [LinearOrder K] (curve : K → Rust (Except (InterpolationError K) K))
    (P : K → Prop) : Prop :=
  ∃ f : K → K, (∀ x, P x → curve x = .ok (.ok (f x))) ∧
    ∀ x z t, P x → P z → 0 ≤ t → t ≤ 1 → f ((1 - t) * x + t * z) ≤ (1 - t) * f x + t * f z

end Qlab.Spec

namespace Qlab.Props

open Spec

variable {K : Type} [Field K] [LinearOrder K] [IsStrictOrderedRing K]

/-- The straight line through two points. -/
def chordAt (p q : K × K) (x : K) : K := p.2 + (q.2 - p.2) / (q.1 - p.1) * (x - p.1)

/-- If slopes never fall, the line of one segment is never above that of another one on that one's side. -/
theorem chord_le {pts : List (K × K)} (hs : StrictlyIncreasing pts)
    (hc : ∀ i (hi : i + 2 < pts.length), (pts[i + 1].2 - pts[i].2) / (pts[i + 1].1 - pts[i].1) ≤
      (pts[i + 2].2 - pts[i + 1].2) / (pts[i + 2].1 - pts[i + 1].1)) :
    ∀ k i (hi : i + k + 1 < pts.length),
      (∀ x, pts[i + k].1 ≤ x → chordAt pts[i] pts[i + 1] x ≤ chordAt pts[i + k] pts[i + k + 1] x) ∧
      (∀ x, x ≤ pts[i + 1].1 → chordAt pts[i + k] pts[i + k + 1] x ≤ chordAt pts[i] pts[i + 1] x) := by
  have pw := List.pairwise_iff_getElem.1 hs
  have next : ∀ i (hi : i + 2 < pts.length), (∀ x, pts[i + 1].1 ≤ x → chordAt pts[i] pts[i + 1] x ≤
      chordAt pts[i + 1] pts[i + 2] x) ∧ (∀ x, x ≤ pts[i + 1].1 → chordAt pts[i + 1] pts[i + 2] x ≤
      chordAt pts[i] pts[i + 1] x) := by
    intro i hi
    have hn : pts[i + 1].1 - pts[i].1 ≠ 0 := sub_ne_zero.2 (pw i (i + 1) (by omega) (by omega) (by omega)).ne'
    have e : ∀ x, chordAt pts[i] pts[i + 1] x = pts[i + 1].2 +
        (pts[i + 1].2 - pts[i].2) / (pts[i + 1].1 - pts[i].1) * (x - pts[i + 1].1) := by
      intro x
      unfold chordAt
      field_simp
      ring
    constructor <;> intro x hx <;> rw [e] <;> unfold chordAt
    · have := mul_le_mul_of_nonneg_right (hc i hi) (sub_nonneg.2 hx)
      linarith
    · have := mul_le_mul_of_nonneg_right (hc i hi) (sub_nonneg.2 hx)
      linarith
  intro k
  induction k with
  | zero => exact fun i hi => ⟨fun x _ => le_rfl, fun x _ => le_rfl⟩
  | succ k ih =>
    intro i hi
    have h1 := ih i (by omega)
    have h2 := next (i + k) (by omega)
    have hle : pts[i + k].1 ≤ pts[i + (k + 1)].1 := (pw (i + k) (i + (k + 1)) (by omega) (by omega) (by omega)).le
    have hle' : pts[i + 1].1 ≤ pts[i + k + 1].1 := by
      rcases Nat.eq_zero_or_pos k with rfl | h
      · exact le_rfl
      · exact (pw (i + 1) (i + k + 1) (by omega) (by omega) (by omega)).le
    exact ⟨fun x hx => (h1.1 x (hle.trans hx)).trans (h2.1 x hx), fun x hx => (h2.2 x (hx.trans hle')).trans (h1.2 x hx)⟩

/-- **C132.** Linear interpolation: the curve is convex if and only if the slopes of the straight lines between
neighbouring points never fall. -/
theorem C132_linear (pts : List (K × K)) (hs : StrictlyIncreasing pts) (h2 : 2 ≤ pts.length) :
    CurveIsConvex (evaluate (Interpolator.linear K) pts) (InRange pts) ↔
      ∀ i (hi : i + 2 < pts.length), (pts[i + 1].2 - pts[i].2) / (pts[i + 1].1 - pts[i].1) ≤
        (pts[i + 2].2 - pts[i + 1].2) / (pts[i + 2].1 - pts[i + 1].1) := by
  have pw := List.pairwise_iff_getElem.1 hs
  have seg : ∀ i (hi : i + 1 < pts.length), ∀ x, pts[i].1 ≤ x → x ≤ pts[i + 1].1 →
      evaluate (Interpolator.linear K) pts x = .ok (.ok (chordAt pts[i] pts[i + 1] x)) := fun i hi x h0 h1 =>
    (linear_segment pts hs i _ _ _ _ x ⟨List.getElem?_eq_getElem (by omega), List.getElem?_eq_getElem hi⟩ h0 h1).2
  have inr : ∀ i (hi : i < pts.length), InRange pts pts[i].1 := fun i hi =>
    ⟨⟨_, List.getElem_mem hi, le_rfl⟩, ⟨_, List.getElem_mem hi, le_rfl⟩⟩
  constructor
  · rintro ⟨f, hf, hc⟩ i hi
    have node : ∀ i (hi : i < pts.length), f pts[i].1 = pts[i].2 := by
      intro i hi
      have h := C35_nodes pts hs h2 i pts[i].1 pts[i].2 (List.getElem?_eq_getElem hi)
      rw [hf _ (inr i hi)] at h
      simpa only [Rust.ok.injEq, Except.ok.injEq] using h
    have l0 := sub_pos.2 (pw i (i + 1) (by omega) (by omega) (by omega))
    have l1 := sub_pos.2 (pw (i + 1) (i + 2) (by omega) (by omega) (by omega))
    have hd : 0 < pts[i + 2].1 - pts[i].1 := by linarith
    have h := hc pts[i].1 pts[i + 2].1 ((pts[i + 1].1 - pts[i].1) / (pts[i + 2].1 - pts[i].1)) (inr i (by omega))
      (inr (i + 2) hi) (div_nonneg l0.le hd.le) ((div_le_one hd).2 (by linarith))
    have e : (1 - (pts[i + 1].1 - pts[i].1) / (pts[i + 2].1 - pts[i].1)) * pts[i].1 +
        (pts[i + 1].1 - pts[i].1) / (pts[i + 2].1 - pts[i].1) * pts[i + 2].1 = pts[i + 1].1 := by
      have := hd.ne'
      field_simp
      ring
    rw [e, node i (by omega), node (i + 1) (by omega), node (i + 2) hi] at h
    rw [div_le_div_iff₀ l0 l1]
    have e2 : (1 - (pts[i + 1].1 - pts[i].1) / (pts[i + 2].1 - pts[i].1)) * pts[i].2 +
        (pts[i + 1].1 - pts[i].1) / (pts[i + 2].1 - pts[i].1) * pts[i + 2].2 =
        ((pts[i + 2].1 - pts[i + 1].1) * pts[i].2 + (pts[i + 1].1 - pts[i].1) * pts[i + 2].2) /
          (pts[i + 2].1 - pts[i].1) := by
      have := hd.ne'
      field_simp
      ring
    rw [e2, le_div_iff₀ hd] at h
    nlinarith
  · intro hc
    refine ⟨fun x => match evaluate (Interpolator.linear K) pts x with | .ok (.ok v) => v | _ => 0, ?_, ?_⟩
    · intro x hx
      obtain ⟨i, hi, h0, h1⟩ := exists_bracket_raw hs h2 hx
      simp only [seg i hi x h0 h1]
    · intro x z t hx hz ht ht'
      have hy : InRange pts ((1 - t) * x + t * z) := by
        obtain ⟨⟨u, hu, hu'⟩, ⟨v, hv, hv'⟩⟩ := hx
        obtain ⟨⟨u', hu2, hu2'⟩, ⟨v', hv2, hv2'⟩⟩ := hz
        rcases le_total x z with h | h
        · exact ⟨⟨u, hu, by nlinarith⟩, ⟨v', hv2, by nlinarith⟩⟩
        · exact ⟨⟨u', hu2, by nlinarith⟩, ⟨v, hv, by nlinarith⟩⟩
      obtain ⟨i, hi, h0, h1⟩ := exists_bracket_raw hs h2 hy
      have above : ∀ w, InRange pts w → chordAt pts[i] pts[i + 1] w ≤
          (match evaluate (Interpolator.linear K) pts w with | .ok (.ok v) => v | _ => 0) := by
        intro w hw
        obtain ⟨j, hj, g0, g1⟩ := exists_bracket_raw hs h2 hw
        simp only [seg j hj w g0 g1]
        rcases le_total i j with h | h
        · obtain ⟨k, rfl⟩ := Nat.exists_eq_add_of_le h
          exact (chord_le hs hc k i hj).1 w g0
        · obtain ⟨k, rfl⟩ := Nat.exists_eq_add_of_le h
          exact (chord_le hs hc k j hi).2 w g1
      have e : chordAt pts[i] pts[i + 1] ((1 - t) * x + t * z) =
          (1 - t) * chordAt pts[i] pts[i + 1] x + t * chordAt pts[i] pts[i + 1] z := by
        unfold chordAt
        ring
      simp only [seg i hi _ h0 h1]
      rw [e]
      exact add_le_add (mul_le_mul_of_nonneg_left (above x hx) (sub_nonneg.2 ht'))
        (mul_le_mul_of_nonneg_left (above z hz) ht)

/-- The squares of 0, 1, 3 are convex data; the roots of 0, 1, 9 are not. -/
example : CurveIsConvex (evaluate (Interpolator.linear ℚ) [(0, 0), (1, 1), (3, 9)])
    (InRange [((0 : ℚ), (0 : ℚ)), (1, 1), (3, 9)]) := by
  refine (C132_linear [((0 : ℚ), (0 : ℚ)), (1, 1), (3, 9)] (by unfold StrictlyIncreasing; decide +kernel) (by decide)).2 ?_
  intro i hi
  obtain rfl : i = 0 := by simp only [List.length_cons, List.length_nil] at hi; omega
  norm_num

example : ¬ CurveIsConvex (evaluate (Interpolator.linear ℚ) [(0, 0), (1, 1), (9, 3)])
    (InRange [((0 : ℚ), (0 : ℚ)), (1, 1), (9, 3)]) := by
  intro h
  have := (C132_linear [((0 : ℚ), (0 : ℚ)), (1, 1), (9, 3)] (by unfold StrictlyIncreasing; decide +kernel) (by decide)).1 h
    0 (by simp)
  norm_num at this

/-- Slope of a Hermite segment. -/
noncomputable def hermiteSlope (x₀ y₀ m₀ x₁ y₁ m₁ x : ℝ) : ℝ :=
  (y₀ * (6 * ((x - x₀) / (x₁ - x₀)) ^ 2 - 6 * ((x - x₀) / (x₁ - x₀))) +
    m₀ * (x₁ - x₀) * (3 * ((x - x₀) / (x₁ - x₀)) ^ 2 - 4 * ((x - x₀) / (x₁ - x₀)) + 1) +
    y₁ * (-6 * ((x - x₀) / (x₁ - x₀)) ^ 2 + 6 * ((x - x₀) / (x₁ - x₀))) +
    m₁ * (x₁ - x₀) * (3 * ((x - x₀) / (x₁ - x₀)) ^ 2 - 2 * ((x - x₀) / (x₁ - x₀)))) / (x₁ - x₀)

/-- The slope of a segment never falls if the second derivatives at its ends are not negative. -/
theorem hermiteSlope_rising {x₀ y₀ m₀ x₁ y₁ m₁ : ℝ} (h : x₀ < x₁) (h0 : 2 * m₀ + m₁ ≤ 3 * ((y₁ - y₀) / (x₁ - x₀)))
    (h1 : 3 * ((y₁ - y₀) / (x₁ - x₀)) ≤ m₀ + 2 * m₁) {x z : ℝ} (hx : x₀ ≤ x) (hxz : x ≤ z) (hz : z ≤ x₁) :
    hermiteSlope x₀ y₀ m₀ x₁ y₁ m₁ x ≤ hermiteSlope x₀ y₀ m₀ x₁ y₁ m₁ z := by
  have hG := sub_pos.2 h
  have e : ∀ x, hermiteSlope x₀ y₀ m₀ x₁ y₁ m₁ x = m₀ + 2 * (3 * ((y₁ - y₀) / (x₁ - x₀)) - 2 * m₀ - m₁) *
      ((x - x₀) / (x₁ - x₀)) + 3 * (m₀ + m₁ - 2 * ((y₁ - y₀) / (x₁ - x₀))) * ((x - x₀) / (x₁ - x₀)) ^ 2 := by
    intro x
    have := hG.ne'
    unfold hermiteSlope
    field_simp
    ring
  rw [e, e]
  generalize hS : (y₁ - y₀) / (x₁ - x₀) = S at h0 h1 ⊢
  have a0 : 0 ≤ (x - x₀) / (x₁ - x₀) := div_nonneg (by linarith) hG.le
  have a1 : (x - x₀) / (x₁ - x₀) ≤ (z - x₀) / (x₁ - x₀) := div_le_div_of_nonneg_right (by linarith) hG.le
  have a2 : (z - x₀) / (x₁ - x₀) ≤ 1 := (div_le_one hG).2 (by linarith)
  generalize (x - x₀) / (x₁ - x₀) = u at a0 a1 ⊢
  generalize (z - x₀) / (x₁ - x₀) = v at a1 a2 ⊢
  have key : 0 ≤ (v - u) * (2 * (3 * S - 2 * m₀ - m₁) + 3 * (m₀ + m₁ - 2 * S) * (u + v)) := by
    refine mul_nonneg (by linarith) ?_
    have e2 : 2 * (3 * S - 2 * m₀ - m₁) + 3 * (m₀ + m₁ - 2 * S) * (u + v) =
        (2 - (u + v)) * (3 * S - 2 * m₀ - m₁) + (u + v) * (m₀ + 2 * m₁ - 3 * S) := by ring
    rw [e2]
    exact add_nonneg (mul_nonneg (by linarith) (by linarith)) (mul_nonneg (by linarith) (by linarith))
  nlinarith

/-- **C132.** A Hermite spline is convex if at every point the slope fits those of the straight lines: on each segment,
with slopes `m₀` and `m₁` at its ends and `S` of the straight line between them, `2 m₀ + m₁ ≤ 3 S ≤ m₀ + 2 m₁`. -/
theorem C132_hermite (pts : List (ℝ × ℝ × ℝ)) (hs : StrictlyIncreasing pts) (h2 : 2 ≤ pts.length)
    (hc : ∀ i (hi : i + 1 < pts.length),
      2 * pts[i].2.2 + pts[i + 1].2.2 ≤ 3 * ((pts[i + 1].2.1 - pts[i].2.1) / (pts[i + 1].1 - pts[i].1)) ∧
      3 * ((pts[i + 1].2.1 - pts[i].2.1) / (pts[i + 1].1 - pts[i].1)) ≤ pts[i].2.2 + 2 * pts[i + 1].2.2) :
    CurveIsConvex (evaluateHermite pts) (InRange pts) := by
  obtain ⟨f, hf, hn, -⟩ := C37_slopes pts hs h2
  have pw := List.pairwise_iff_getElem.1 hs
  have hD : {z | InRange pts z} = Set.Icc (pts[0]).1 (pts[pts.length - 1]).1 := inRange_subset hs (by omega)
  have hf' : ∀ i (hi : i + 1 < pts.length), ∀ x ∈ Set.Icc pts[i].1 pts[i + 1].1,
      f x = hermiteCubic pts[i].1 pts[i].2.1 pts[i].2.2 pts[i + 1].1 pts[i + 1].2.1 pts[i + 1].2.2 x := by
    intro i hi x hx
    have h := hf x ⟨⟨_, List.getElem_mem _, hx.1⟩, ⟨_, List.getElem_mem _, hx.2⟩⟩
    rw [hermite_segment hs hi hx.1 hx.2] at h
    simpa only [Rust.ok.injEq, Except.ok.injEq, eq_comm] using h
  have hd : ∀ i (hi : i + 1 < pts.length), ∀ x ∈ Set.Icc pts[i].1 pts[i + 1].1, HasDerivWithinAt f
      (hermiteSlope pts[i].1 pts[i].2.1 pts[i].2.2 pts[i + 1].1 pts[i + 1].2.1 pts[i + 1].2.2 x) {z | InRange pts z} x := by
    intro i hi x hx
    have hlt := pw i (i + 1) (by omega) hi (by omega)
    have hG := (sub_pos.2 hlt).ne'
    rcases hx.1.eq_or_lt with h | h
    · refine (h ▸ (hn pts[i].1 pts[i].2.1 pts[i].2.2 (List.getElem_mem _)).2).congr_deriv ?_
      rw [← h]
      unfold hermiteSlope
      field_simp
      ring
    rcases hx.2.eq_or_lt with h' | h'
    · refine (h'.symm ▸ (hn pts[i + 1].1 pts[i + 1].2.1 pts[i + 1].2.2 (List.getElem_mem _)).2).congr_deriv ?_
      rw [h']
      unfold hermiteSlope
      field_simp
      ring
    refine HasDerivAt.hasDerivWithinAt ?_
    refine (hermiteCubic_hasDerivAt pts[i].1 pts[i].2.1 pts[i].2.2 pts[i + 1].1 pts[i + 1].2.1 pts[i + 1].2.2 x).congr_of_eventuallyEq ?_
    filter_upwards [Ioo_mem_nhds h h'] with z hz
    exact hf' i hi z ⟨hz.1.le, hz.2.le⟩
  have h0n := pw 0 (pts.length - 1) (by omega) (by omega) (by omega)
  have hdw : ∀ i (hi : i + 1 < pts.length), ∀ x ∈ Set.Icc pts[i].1 pts[i + 1].1, derivWithin f {z | InRange pts z} x =
      hermiteSlope pts[i].1 pts[i].2.1 pts[i].2.2 pts[i + 1].1 pts[i + 1].2.1 pts[i + 1].2.2 x := by
    intro i hi x hx
    refine (hd i hi x hx).derivWithin ?_
    rw [hD]
    refine uniqueDiffOn_Icc h0n x ?_
    rw [← hD]
    exact ⟨⟨_, List.getElem_mem _, hx.1⟩, ⟨_, List.getElem_mem _, hx.2⟩⟩
  have hmono : MonotoneOn (derivWithin f {z | InRange pts z}) {z | InRange pts z} := by
    intro x hx z hz hxz
    obtain ⟨i, hi, x0, x1⟩ := exists_bracket_raw hs h2 hx
    obtain ⟨j, hj, z0, z1⟩ := exists_bracket_raw hs h2 hz
    refine rising_of_segments hs (m := pts.length - 1) (by omega) _ (fun i hi x z h0 h1 h2 => ?_) (by omega) (by omega)
      x0 x1 z0 z1 hxz
    rw [hdw i (by omega) x ⟨h0, h1.trans h2⟩, hdw i (by omega) z ⟨h0.trans h1, h2⟩]
    exact hermiteSlope_rising (pw i (i + 1) (by omega) (by omega) (by omega)) (hc i (by omega)).1 (hc i (by omega)).2 h0 h1 h2
  have hdiff : DifferentiableOn ℝ f {z | InRange pts z} := by
    intro x hx
    obtain ⟨i, hi, x0, x1⟩ := exists_bracket_raw hs h2 hx
    exact (hd i hi x ⟨x0, x1⟩).differentiableWithinAt
  have hconv : ConvexOn ℝ {z | InRange pts z} f := by
    refine MonotoneOn.convexOn_of_deriv (by rw [hD]; exact convex_Icc _ _) hdiff.continuousOn (hdiff.mono interior_subset) ?_
    intro x hx z hz hxz
    rw [← derivWithin_of_mem_nhds (mem_interior_iff_mem_nhds.1 hx), ← derivWithin_of_mem_nhds (mem_interior_iff_mem_nhds.1 hz)]
    exact hmono (interior_subset hx) (interior_subset hz) hxz
  refine ⟨f, hf, fun x z t hx hz ht ht' => ?_⟩
  simpa using hconv.2 hx hz (sub_nonneg.2 ht') ht (by ring)

/-- The points of the parabola `x²`, with its slopes. -/
example : CurveIsConvex (evaluateHermite ([(0, 0, 0), (1, 1, 2), (3, 9, 6)] : List (ℝ × ℝ × ℝ)))
    (InRange [((0 : ℝ), (0 : ℝ), (0 : ℝ)), (1, 1, 2), (3, 9, 6)]) := by
  refine C132_hermite _ (by unfold StrictlyIncreasing; norm_num) (by simp) ?_
  intro i hi
  obtain rfl | rfl : i = 0 ∨ i = 1 := by simp only [List.length_cons, List.length_nil] at hi; omega
  all_goals norm_num

/-- A value above the middle of two others. -/
theorem not_convex {curve : ℚ → Rust (Except (InterpolationError ℚ) ℚ)} {P : ℚ → Prop} {x y z u v w : ℚ}
    (hx : curve x = .ok (.ok u)) (hy : curve y = .ok (.ok v)) (hz : curve z = .ok (.ok w)) (px : P x) (py : P y) (pz : P z)
    (h : (1 - 1 / 2) * x + 1 / 2 * z = y) (hv : (u + w) / 2 < v) : ¬ CurveIsConvex curve P := by
  rintro ⟨f, hf, hc⟩
  have h1 := hc x z (1 / 2) px pz (by norm_num) (by norm_num)
  rw [hf _ px] at hx
  rw [hf _ py] at hy
  rw [hf _ pz] at hz
  simp only [Rust.ok.injEq, Except.ok.injEq] at hx hy hz
  rw [h, hx, hy, hz] at h1
  linarith

/-- **C132 (violated).** The data (0, 0), (1, 0), (2, 10), (3, 20) are convex: the slopes are 0, 10 and 10.  The natural
cubic spline through them is not. -/
theorem C132_refuted_natural_cubic : ¬ CurveIsConvex
    (evaluate (Interpolator.naturalCubic ℚ) [(0, 0), (1, 0), (2, 10), (3, 20)])
    (InRange [((0 : ℚ), (0 : ℚ)), (1, 0), (2, 10), (3, 20)]) := by
  have hr : ∀ x : ℚ, 0 ≤ x → x ≤ 3 → InRange [((0 : ℚ), (0 : ℚ)), (1, 0), (2, 10), (3, 20)] x := fun x h0 h1 =>
    ⟨⟨_, List.mem_cons_self, h0⟩, ⟨(3, 20), by simp, h1⟩⟩
  have e : evaluate (Interpolator.naturalCubic ℚ) [(0, 0), (1, 0), (2, 10), (3, 20)] (5 / 2) = .ok (.ok (61 / 4)) := by
    decide +kernel
  have e0 : evaluate (Interpolator.naturalCubic ℚ) [(0, 0), (1, 0), (2, 10), (3, 20)] 2 = .ok (.ok 10) := by
    decide +kernel
  have e1 : evaluate (Interpolator.naturalCubic ℚ) [(0, 0), (1, 0), (2, 10), (3, 20)] 3 = .ok (.ok 20) := by
    decide +kernel
  exact not_convex e0 e e1 (hr _ (by norm_num) (by norm_num)) (hr _ (by norm_num) (by norm_num))
    (hr _ (by norm_num) (by norm_num)) (by norm_num) (by norm_num)

/-- **C132 (violated).** The data (0, 0), (1, 0), (2, 10), (3, 20), (4, 30) are convex: the slopes are 0, 10, 10 and 10.
The Catmull-Rom spline through them is not, even before its last segment. -/
theorem C132_refuted_catmull_rom : ¬ CurveIsConvex
    (evaluate (Interpolator.catmullRom ℚ) [(0, 0), (1, 0), (2, 10), (3, 20), (4, 30)]) fun x => 0 ≤ x ∧ x ≤ 2 := by
  have e : evaluate (Interpolator.catmullRom ℚ) [(0, 0), (1, 0), (2, 10), (3, 20), (4, 30)] (15 / 8) =
      .ok (.ok (3325 / 384)) := by decide +kernel
  have e0 : evaluate (Interpolator.catmullRom ℚ) [(0, 0), (1, 0), (2, 10), (3, 20), (4, 30)] (7 / 4) =
      .ok (.ok (115 / 16)) := by decide +kernel
  have e1 : evaluate (Interpolator.catmullRom ℚ) [(0, 0), (1, 0), (2, 10), (3, 20), (4, 30)] 2 = .ok (.ok 10) := by
    decide +kernel
  exact not_convex e0 e e1 (by norm_num) (by norm_num) (by norm_num) (by norm_num) (by norm_num)

end Qlab.Props
