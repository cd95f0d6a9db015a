import Verif.Props.Convex
import Verif.Props.CatmullRom

/-!
# Which Hermite and Catmull-Rom splines are convex (C132)
-/

namespace Qlab

variable {K : Type} [Field K] [LinearOrder K] [IsStrictOrderedRing K]

/-- A polynomial that is not negative right of zero is not negative at zero. -/
theorem nonneg_of_small {a b c D : K} (hD : 0 < D) (h : ∀ d, 0 < d → d ≤ D → 0 ≤ a + b * d + c * d ^ 2) : 0 ≤ a := by
  by_contra ha
  rw [not_le] at ha
  have hM : 0 < |b| + |c| + 1 := by have := abs_nonneg b; have := abs_nonneg c; linarith
  have hq : 0 < -a / (2 * (|b| + |c| + 1)) := div_pos (by linarith) (by linarith)
  have h0 : 0 < min D (min 1 (-a / (2 * (|b| + |c| + 1)))) := lt_min hD (lt_min one_pos hq)
  have h1 := h _ h0 (min_le_left _ _)
  have h2 : min D (min 1 (-a / (2 * (|b| + |c| + 1)))) ≤ 1 := (min_le_right _ _).trans (min_le_left _ _)
  have h3 : min D (min 1 (-a / (2 * (|b| + |c| + 1)))) ≤ -a / (2 * (|b| + |c| + 1)) :=
    (min_le_right _ _).trans (min_le_right _ _)
  generalize min D (min 1 (-a / (2 * (|b| + |c| + 1)))) = d at h0 h1 h2 h3
  rw [le_div_iff₀ (by linarith)] at h3
  have e1 : b * d ≤ |b| * d := mul_le_mul_of_nonneg_right (le_abs_self b) h0.le
  have e2 : c * d ^ 2 ≤ |c| * d := by
    have : c * d ^ 2 ≤ |c| * d ^ 2 := mul_le_mul_of_nonneg_right (le_abs_self c) (by positivity)
    have : |c| * d ^ 2 ≤ |c| * d := mul_le_mul_of_nonneg_left (by nlinarith) (abs_nonneg c)
    linarith
  nlinarith

omit [LinearOrder K] [IsStrictOrderedRing K] in
/-- A Hermite segment by powers of the distance from its left end. -/
theorem hermiteCubic_from_left {x₀ y₀ m₀ x₁ y₁ m₁ : K} (h : x₁ - x₀ ≠ 0) (d : K) :
    hermiteCubic x₀ y₀ m₀ x₁ y₁ m₁ (x₀ + d) = y₀ + m₀ * d +
      (3 * ((y₁ - y₀) / (x₁ - x₀)) - 2 * m₀ - m₁) / (x₁ - x₀) * d ^ 2 +
      (m₀ + m₁ - 2 * ((y₁ - y₀) / (x₁ - x₀))) / (x₁ - x₀) ^ 2 * d ^ 3 := by
  simp only [hermiteCubic, add_sub_cancel_left]
  field_simp
  ring

omit [LinearOrder K] [IsStrictOrderedRing K] in
/-- A Hermite segment by powers of the distance from its right end. -/
theorem hermiteCubic_from_right {x₀ y₀ m₀ x₁ y₁ m₁ : K} (h : x₁ - x₀ ≠ 0) (d : K) :
    hermiteCubic x₀ y₀ m₀ x₁ y₁ m₁ (x₁ - d) = y₁ - m₁ * d +
      (m₀ + 2 * m₁ - 3 * ((y₁ - y₀) / (x₁ - x₀))) / (x₁ - x₀) * d ^ 2 -
      (m₀ + m₁ - 2 * ((y₁ - y₀) / (x₁ - x₀))) / (x₁ - x₀) ^ 2 * d ^ 3 := by
  have e : x₁ - d - x₀ = (x₁ - x₀) - d := by ring
  simp only [hermiteCubic, e]
  field_simp
  ring

/-- What the slopes of a convex Hermite segment satisfy. -/
theorem hermiteCubic_convex {x₀ y₀ m₀ x₁ y₁ m₁ : K} (h : x₀ < x₁)
    (hc : ∀ x d, 0 < d → x₀ ≤ x - d → x + d ≤ x₁ → 2 * hermiteCubic x₀ y₀ m₀ x₁ y₁ m₁ x ≤
      hermiteCubic x₀ y₀ m₀ x₁ y₁ m₁ (x - d) + hermiteCubic x₀ y₀ m₀ x₁ y₁ m₁ (x + d)) :
    2 * m₀ + m₁ ≤ 3 * ((y₁ - y₀) / (x₁ - x₀)) ∧ 3 * ((y₁ - y₀) / (x₁ - x₀)) ≤ m₀ + 2 * m₁ := by
  have hG := sub_pos.2 h
  constructor
  · have h1 : 0 ≤ (3 * ((y₁ - y₀) / (x₁ - x₀)) - 2 * m₀ - m₁) / (x₁ - x₀) := by
      refine nonneg_of_small (b := 3 * ((m₀ + m₁ - 2 * ((y₁ - y₀) / (x₁ - x₀))) / (x₁ - x₀) ^ 2)) (c := 0)
        (half_pos hG) fun d hd hd' => ?_
      have t := hc (x₀ + d) d hd (by linarith) (by linarith)
      rw [show x₀ + d - d = x₀ + 0 by ring, show x₀ + d + d = x₀ + 2 * d by ring, hermiteCubic_from_left hG.ne',
        hermiteCubic_from_left hG.ne', hermiteCubic_from_left hG.ne'] at t
      have hp : 0 < d ^ 2 := by positivity
      refine le_of_mul_le_mul_right ?_ hp
      nlinarith
    have := mul_nonneg h1 hG.le
    rw [div_mul_cancel₀ _ hG.ne'] at this
    linarith
  · have h1 : 0 ≤ (m₀ + 2 * m₁ - 3 * ((y₁ - y₀) / (x₁ - x₀))) / (x₁ - x₀) := by
      refine nonneg_of_small (b := -(3 * ((m₀ + m₁ - 2 * ((y₁ - y₀) / (x₁ - x₀))) / (x₁ - x₀) ^ 2))) (c := 0)
        (half_pos hG) fun d hd hd' => ?_
      have t := hc (x₁ - d) d hd (by linarith) (by linarith)
      rw [show x₁ - d + d = x₁ - 0 by ring, show x₁ - d - d = x₁ - 2 * d by ring, hermiteCubic_from_right hG.ne',
        hermiteCubic_from_right hG.ne', hermiteCubic_from_right hG.ne'] at t
      have hp : 0 < d ^ 2 := by positivity
      refine le_of_mul_le_mul_right ?_ hp
      nlinarith
    have := mul_nonneg h1 hG.le
    rw [div_mul_cancel₀ _ hG.ne'] at this
    linarith

/-- Where two Hermite segments of a convex curve meet, the slope does not fall. -/
theorem hermiteCubic_meet {x₀ y₀ m₀ x₁ y₁ m₁ m x₂ y₂ m₂ : K} (h : x₀ < x₁) (h' : x₁ < x₂)
    (hc : ∀ d, 0 < d → x₀ ≤ x₁ - d → x₁ + d ≤ x₂ → 2 * y₁ ≤
      hermiteCubic x₀ y₀ m₀ x₁ y₁ m₁ (x₁ - d) + hermiteCubic x₁ y₁ m x₂ y₂ m₂ (x₁ + d)) : m₁ ≤ m := by
  have hG := sub_pos.2 h
  have hG' := sub_pos.2 h'
  rw [← sub_nonneg]
  refine nonneg_of_small (b := (m₀ + 2 * m₁ - 3 * ((y₁ - y₀) / (x₁ - x₀))) / (x₁ - x₀) +
      (3 * ((y₂ - y₁) / (x₂ - x₁)) - 2 * m - m₂) / (x₂ - x₁))
    (c := (m + m₂ - 2 * ((y₂ - y₁) / (x₂ - x₁))) / (x₂ - x₁) ^ 2 -
      (m₀ + m₁ - 2 * ((y₁ - y₀) / (x₁ - x₀))) / (x₁ - x₀) ^ 2) (lt_min hG hG') fun d hd hd' => ?_
  have t := hc d hd (by linarith [min_le_left (x₁ - x₀) (x₂ - x₁)]) (by linarith [min_le_right (x₁ - x₀) (x₂ - x₁)])
  rw [hermiteCubic_from_right hG.ne', hermiteCubic_from_left hG'.ne'] at t
  refine le_of_mul_le_mul_right ?_ hd
  linarith

/-- The first three points of a convex Catmull-Rom spline. -/
theorem level {x₀ x₁ x₂ y₀ y₁ y₂ m : K} (l0 : x₀ < x₁) (l1 : x₁ < x₂)
    (c0 : 2 * ((y₁ - y₀) / (x₁ - x₀)) + (y₂ - y₀) / ((x₁ - x₀) + (x₂ - x₁)) ≤ 3 * ((y₁ - y₀) / (x₁ - x₀)) ∧
      3 * ((y₁ - y₀) / (x₁ - x₀)) ≤ (y₁ - y₀) / (x₁ - x₀) + 2 * ((y₂ - y₀) / ((x₁ - x₀) + (x₂ - x₁))))
    (meet : (y₂ - y₀) / ((x₁ - x₀) + (x₂ - x₁)) ≤ (y₂ - y₀) / ((x₂ - x₁) + (x₂ - x₀)))
    (c1 : 2 * ((y₂ - y₀) / ((x₂ - x₁) + (x₂ - x₀))) + m ≤ 3 * ((y₂ - y₁) / (x₂ - x₁)) ∧
      3 * ((y₂ - y₁) / (x₂ - x₁)) ≤ (y₂ - y₀) / ((x₂ - x₁) + (x₂ - x₀)) + 2 * m) : y₁ = y₀ ∧ y₂ = y₀ := by
  have G0 := sub_pos.2 l0
  have G1 := sub_pos.2 l1
  have e2 : (y₂ - y₀) / ((x₁ - x₀) + (x₂ - x₁)) = (y₁ - y₀) / (x₁ - x₀) := by linarith [c0.1, c0.2]
  rw [e2] at meet
  generalize hS : (y₁ - y₀) / (x₁ - x₀) = S at e2 meet
  rw [div_eq_iff G0.ne'] at hS
  rw [div_eq_iff (ne_of_gt (by linarith))] at e2
  have eS1 : (y₂ - y₁) / (x₂ - x₁) = S := by
    rw [div_eq_iff G1.ne']
    linarith
  rw [eS1] at c1
  generalize hw : (y₂ - y₀) / ((x₂ - x₁) + (x₂ - x₀)) = w at c1 meet
  rw [div_eq_iff (ne_of_gt (by linarith))] at hw
  have hwS : w = S := by linarith [c1.1, c1.2]
  rw [hwS, e2] at hw
  have hS0 : S = 0 := by
    have : S * (x₂ - x₁) = 0 := by linarith
    exact (mul_eq_zero.1 this).resolve_right G1.ne'
  rw [hS0, zero_mul] at hS e2
  exact ⟨by linarith, by linarith⟩

/-- After three points of equal ordinate comes a fourth. -/
theorem level_next {x₀ x₁ x₂ x₃ y y₃ : K} (l1 : x₁ < x₂) (l2 : x₂ < x₃)
    (c : 2 * ((y - y) / ((x₂ - x₁) + (x₂ - x₀))) + (y₃ - y) / ((x₂ - x₁) + (x₃ - x₂)) ≤ 3 * ((y - y) / (x₂ - x₁)) ∧
      3 * ((y - y) / (x₂ - x₁)) ≤ (y - y) / ((x₂ - x₁) + (x₂ - x₀)) + 2 * ((y₃ - y) / ((x₂ - x₁) + (x₃ - x₂)))) :
    y₃ = y := by
  rw [sub_self, zero_div, zero_div] at c
  have z : (y₃ - y) / ((x₂ - x₁) + (x₃ - x₂)) = 0 := by linarith [c.1, c.2]
  rw [div_eq_zero_iff] at z
  rcases z with z | z <;> linarith

end Qlab

namespace Qlab.Props

open Spec

variable {K : Type} [Field K] [LinearOrder K] [IsStrictOrderedRing K] [FromInt K] [ExactCast K]

omit [FromInt K] [ExactCast K] in
/-- Convexity at the middle of two times. -/
theorem middle_le {f : K → K} {P : K → Prop}
    (hc : ∀ x z t, P x → P z → 0 ≤ t → t ≤ 1 → f ((1 - t) * x + t * z) ≤ (1 - t) * f x + t * f z) {x d : K}
    (h0 : P (x - d)) (h1 : P (x + d)) : 2 * f x ≤ f (x - d) + f (x + d) := by
  have t := hc (x - d) (x + d) (1 / 2) h0 h1 (by norm_num) (by norm_num)
  rw [show (1 - 1 / 2) * (x - d) + 1 / 2 * (x + d) = x by ring] at t
  linarith

/-- **C132.** A Hermite spline is convex exactly when on each segment, with slopes `m₀` and `m₁` at its ends and `S` of
the straight line between them, `2 m₀ + m₁ ≤ 3 S ≤ m₀ + 2 m₁`. -/
theorem C132_hermite_exactly (pts : List (ℝ × ℝ × ℝ)) (hs : StrictlyIncreasing pts) (h2 : 2 ≤ pts.length) :
    CurveIsConvex (evaluateHermite pts) (InRange pts) ↔ ∀ i (hi : i + 1 < pts.length),
      2 * pts[i].2.2 + pts[i + 1].2.2 ≤ 3 * ((pts[i + 1].2.1 - pts[i].2.1) / (pts[i + 1].1 - pts[i].1)) ∧
      3 * ((pts[i + 1].2.1 - pts[i].2.1) / (pts[i + 1].1 - pts[i].1)) ≤ pts[i].2.2 + 2 * pts[i + 1].2.2 := by
  refine ⟨?_, C132_hermite pts hs h2⟩
  rintro ⟨f, hf, hc⟩ i hi
  have inr : ∀ x, pts[i].1 ≤ x → x ≤ pts[i + 1].1 → InRange pts x := fun x h0 h1 =>
    ⟨⟨_, List.getElem_mem _, h0⟩, ⟨_, List.getElem_mem _, h1⟩⟩
  have hf' : ∀ x, pts[i].1 ≤ x → x ≤ pts[i + 1].1 →
      f x = hermiteCubic pts[i].1 pts[i].2.1 pts[i].2.2 pts[i + 1].1 pts[i + 1].2.1 pts[i + 1].2.2 x := by
    intro x h0 h1
    have h := hf x (inr x h0 h1)
    rw [hermite_segment hs hi h0 h1] at h
    simpa only [Rust.ok.injEq, Except.ok.injEq, eq_comm] using h
  refine hermiteCubic_convex (List.pairwise_iff_getElem.1 hs i (i + 1) (by omega) hi (by omega)) fun x d hd h0 h1 => ?_
  rw [← hf' x (by linarith) (by linarith), ← hf' (x - d) h0 (by linarith), ← hf' (x + d) (by linarith) h1]
  exact middle_le hc (inr _ h0 (by linarith)) (inr _ (by linarith) h1)

/-- Slopes that are too flat for the parabola `x²`. -/
example : ¬ CurveIsConvex (evaluateHermite ([(0, 0, 0), (1, 1, 1), (2, 4, 3)] : List (ℝ × ℝ × ℝ)))
    (InRange [((0 : ℝ), (0 : ℝ), (0 : ℝ)), (1, 1, 1), (2, 4, 3)]) := by
  intro h
  have := ((C132_hermite_exactly _ (by unfold StrictlyIncreasing; norm_num) (by simp)).1 h 0 (by simp)).2
  norm_num at this

/-- The segments of a convex Catmull-Rom spline. -/
theorem catmullRom_convex_segments {pts : List (K × K)} (hs : StrictlyIncreasing pts) (h3 : 3 ≤ pts.length)
    (h : CurveIsConvex (evaluate (Interpolator.catmullRom K) pts) fun x => pts[0].1 ≤ x ∧ x ≤ pts[pts.length - 2].1) :
    ∃ f : K → K, (∀ i (hi : i + 2 < pts.length), ∀ x, pts[i].1 ≤ x → x ≤ pts[i + 1].1 →
        f x = crSegment pts i (by omega) h3 x) ∧
      ∀ x d, 0 < d → pts[0].1 ≤ x - d → x + d ≤ pts[pts.length - 2].1 → 2 * f x ≤ f (x - d) + f (x + d) := by
  have pw := List.pairwise_iff_getElem.1 hs
  have mono : ∀ i j (hi : i < pts.length) (hj : j < pts.length), i ≤ j → pts[i].1 ≤ pts[j].1 := by
    intro i j hi hj hij
    rcases Nat.eq_or_lt_of_le hij with rfl | hlt
    · exact le_rfl
    · exact (pw i j hi hj hlt).le
  obtain ⟨f, hf, hc⟩ := h
  refine ⟨f, fun i hi x h0 h1 => ?_, fun x d hd h0 h1 => ?_⟩
  · have e := hf x ⟨(mono 0 i (by omega) (by omega) (by omega)).trans h0,
      h1.trans (mono (i + 1) (pts.length - 2) (by omega) (by omega) (by omega))⟩
    rw [catmullRom_segment hs h3 (by omega) h0 h1] at e
    simpa only [Rust.ok.injEq, Except.ok.injEq, eq_comm] using e
  · exact middle_le hc ⟨h0, by linarith⟩ ⟨by linarith, h1⟩

/-- **C132 (violated).** A Catmull-Rom spline through four or more points is convex up to the last but one of them only
if all ordinates are equal. -/
theorem C132_refuted_catmull_rom_bent (pts : List (K × K)) (hs : StrictlyIncreasing pts) (h4 : 4 ≤ pts.length) :
    CurveIsConvex (evaluate (Interpolator.catmullRom K) pts) (fun x => pts[0].1 ≤ x ∧ x ≤ pts[pts.length - 2].1) ↔
      ∀ p ∈ pts, p.2 = pts[0].2 := by
  have pw := List.pairwise_iff_getElem.1 hs
  have mono : ∀ i j (hi : i < pts.length) (hj : j < pts.length), i ≤ j → pts[i].1 ≤ pts[j].1 := by
    intro i j hi hj hij
    rcases Nat.eq_or_lt_of_le hij with rfl | hlt
    · exact le_rfl
    · exact (pw i j hi hj hlt).le
  constructor
  · intro h
    obtain ⟨f, hf, hc⟩ := catmullRom_convex_segments hs (by omega) h
    -- the first segment
    have l0 := pw 0 1 (by omega) (by omega) (by omega)
    have l1 := pw 1 2 (by omega) (by omega) (by omega)
    have hf0 : ∀ x, pts[0].1 ≤ x → x ≤ pts[1].1 → f x = hermiteCubic pts[0].1 pts[0].2
        ((pts[1].2 - pts[0].2) / (pts[1].1 - pts[0].1)) pts[1].1 pts[1].2
        ((pts[2].2 - pts[0].2) / ((pts[1].1 - pts[0].1) + (pts[2].1 - pts[1].1))) x := by
      intro x h0 h1
      rw [hf 0 (by omega) x h0 h1]
      unfold crSegment
      rw [dif_pos rfl, crFirst_eq l0]
    -- the others
    have hfi : ∀ j (hj : j + 3 < pts.length), ∀ x, pts[j + 1].1 ≤ x → x ≤ pts[j + 2].1 → f x =
        hermiteCubic pts[j + 1].1 pts[j + 1].2
        ((pts[j + 2].2 - pts[j].2) / ((pts[j + 2].1 - pts[j + 1].1) + (pts[j + 2].1 - pts[j].1))) pts[j + 2].1 pts[j + 2].2
        ((pts[j + 3].2 - pts[j + 1].2) / ((pts[j + 2].1 - pts[j + 1].1) + (pts[j + 3].1 - pts[j + 2].1))) x := by
      intro j hj x h0 h1
      rw [hf (j + 1) (by omega) x h0 h1]
      unfold crSegment
      rw [dif_neg (by omega), dif_neg (by omega), crInner_eq]
      simp only [Nat.add_sub_cancel]
    have c0 := hermiteCubic_convex l0 (fun x d hd h0 h1 => by
      rw [← hf0 x (by linarith) (by linarith), ← hf0 (x - d) h0 (by linarith), ← hf0 (x + d) (by linarith) h1]
      exact hc x d hd h0 (h1.trans (mono 1 _ (by omega) (by omega) (by omega))))
    have ci := fun j (hj : j + 3 < pts.length) =>
      hermiteCubic_convex (pw (j + 1) (j + 2) (by omega) (by omega) (by omega)) (fun x d hd h0 h1 => by
        rw [← hfi j hj x (by linarith) (by linarith), ← hfi j hj (x - d) h0 (by linarith),
          ← hfi j hj (x + d) (by linarith) h1]
        exact hc x d hd ((mono 0 _ (by omega) (by omega) (by omega)).trans h0)
          (h1.trans (mono (j + 2) _ (by omega) (by omega) (by omega))))
    have meet : (pts[2].2 - pts[0].2) / ((pts[1].1 - pts[0].1) + (pts[2].1 - pts[1].1)) ≤
        (pts[2].2 - pts[0].2) / ((pts[2].1 - pts[1].1) + (pts[2].1 - pts[0].1)) := by
      have hf1 := hfi 0 (by omega)
      simp only [Nat.zero_add] at hf1
      refine hermiteCubic_meet (m₂ := (pts[3].2 - pts[1].2) / ((pts[2].1 - pts[1].1) + (pts[3].1 - pts[2].1)))
        (y₂ := pts[2].2) (y₁ := pts[1].2) (y₀ := pts[0].2) (m₀ := (pts[1].2 - pts[0].2) / (pts[1].1 - pts[0].1)) l0 l1 fun d hd h0 h1 => ?_
      rw [← hf0 (pts[1].1 - d) h0 (by linarith), ← hf1 (pts[1].1 + d) (by linarith) h1]
      have t := hc pts[1].1 d hd h0 (h1.trans (mono 2 _ (by omega) (by omega) (by omega)))
      have e : f pts[1].1 = pts[1].2 := by
        rw [hf 1 (by omega) _ le_rfl l1.le, crSegment_left]
      rwa [e] at t
    have c1 := ci 0 (by omega)
    simp only [Nat.zero_add] at c1
    obtain ⟨z1, z2⟩ := level l0 l1 c0 meet c1
    have all : ∀ k (hk : k + 2 < pts.length), pts[k].2 = pts[0].2 ∧ pts[k + 1].2 = pts[0].2 ∧ pts[k + 2].2 = pts[0].2 := by
      intro k
      induction k with
      | zero => exact fun _ => ⟨rfl, z1, z2⟩
      | succ j ih =>
        intro hk
        obtain ⟨a, b, c⟩ := ih (by omega)
        have t := ci j hk
        rw [c, a, b] at t
        exact ⟨b, c, level_next (pw (j + 1) (j + 2) (by omega) (by omega) (by omega))
          (pw (j + 2) (j + 3) (by omega) (by omega) (by omega)) t⟩
    intro p hp
    obtain ⟨k, hk, rfl⟩ := List.getElem_of_mem hp
    rcases Nat.lt_or_ge (k + 2) pts.length with h2 | h2
    · exact (all k h2).1
    · obtain ⟨n, hn⟩ : ∃ n, pts.length = n + 3 := ⟨pts.length - 3, by omega⟩
      obtain rfl | rfl : k = n + 1 ∨ k = n + 2 := by omega
      · exact (all n (by omega)).2.1
      · exact (all n (by omega)).2.2
  · intro h
    refine ⟨fun _ => pts[0].2, fun x hx => ?_, fun x z t _ _ _ _ => ?_⟩
    · exact C38_constants_partial pts hs (by omega) _ h x ⟨⟨_, List.getElem_mem _, hx.1⟩, ⟨_, List.getElem_mem _, hx.2⟩⟩ hx.2
    · exact le_of_eq (by ring)

/-- The points of the parabola `x²` at 0, 1, 2 and 3. -/
example : ¬ CurveIsConvex (evaluate (Interpolator.catmullRom ℚ) [(0, 0), (1, 1), (2, 4), (3, 9)]) fun x => 0 ≤ x ∧ x ≤ 2 := by
  intro h
  have := (C132_refuted_catmull_rom_bent [((0 : ℚ), (0 : ℚ)), (1, 1), (2, 4), (3, 9)]
    (by unfold StrictlyIncreasing; decide +kernel) (by decide)).1 h (1, 1) (by simp)
  norm_num at this

example : CurveIsConvex (evaluate (Interpolator.catmullRom ℚ) [(0, 5), (1, 5), (2, 5), (4, 5)]) fun x => 0 ≤ x ∧ x ≤ 2 :=
  (C132_refuted_catmull_rom_bent [((0 : ℚ), (5 : ℚ)), (1, 5), (2, 5), (4, 5)]
    (by unfold StrictlyIncreasing; decide +kernel) (by decide)).2 (by simp)

/-- **C132.** The part of a Catmull-Rom spline through three points up to the second one is convex exactly when the
points lie on a straight line. -/
theorem C132_catmull_rom_three_partial (p q r : K × K) (hs : StrictlyIncreasing [p, q, r]) :
    CurveIsConvex (evaluate (Interpolator.catmullRom K) [p, q, r]) (fun x => p.1 ≤ x ∧ x ≤ q.1) ↔
      (q.2 - p.2) / (q.1 - p.1) = (r.2 - q.2) / (r.1 - q.1) := by
  have pw := List.pairwise_iff_getElem.1 hs
  have l0 : p.1 < q.1 := pw 0 1 (by simp) (by simp) (by omega)
  have l1 : q.1 < r.1 := pw 1 2 (by simp) (by simp) (by omega)
  have G0 := sub_pos.2 l0
  have G1 := sub_pos.2 l1
  have seg : ∀ x, p.1 ≤ x → x ≤ q.1 → evaluate (Interpolator.catmullRom K) [p, q, r] x = .ok (.ok
      (hermiteCubic p.1 p.2 ((q.2 - p.2) / (q.1 - p.1)) q.1 q.2 ((r.2 - p.2) / ((q.1 - p.1) + (r.1 - q.1))) x)) := by
    intro x h0 h1
    rw [catmullRom_segment hs (by simp) (i := 0) (by simp) h0 h1]
    unfold crSegment
    rw [dif_pos rfl]
    exact congrArg (fun v => Rust.ok (Except.ok v)) (crFirst_eq l0)
  have line : (r.2 - p.2) / ((q.1 - p.1) + (r.1 - q.1)) = (q.2 - p.2) / (q.1 - p.1) ↔
      (q.2 - p.2) / (q.1 - p.1) = (r.2 - q.2) / (r.1 - q.1) := by
    rw [div_eq_div_iff (ne_of_gt (by linarith)) G0.ne', div_eq_div_iff G0.ne' G1.ne']
    constructor <;> intro h <;> linarith
  rw [← line]
  constructor
  · rintro ⟨f, hf, hc⟩
    have hf0 : ∀ x, p.1 ≤ x → x ≤ q.1 → f x = hermiteCubic p.1 p.2 ((q.2 - p.2) / (q.1 - p.1)) q.1 q.2
        ((r.2 - p.2) / ((q.1 - p.1) + (r.1 - q.1))) x := by
      intro x h0 h1
      have e := hf x ⟨h0, h1⟩
      rw [seg x h0 h1] at e
      simpa only [Rust.ok.injEq, Except.ok.injEq, eq_comm] using e
    have c := hermiteCubic_convex l0 (fun x d hd h0 h1 => by
      rw [← hf0 x (by linarith) (by linarith), ← hf0 (x - d) h0 (by linarith), ← hf0 (x + d) (by linarith) h1]
      exact middle_le hc ⟨h0, by linarith⟩ ⟨by linarith, h1⟩)
    linarith [c.1, c.2]
  · intro h
    refine ⟨fun x => p.2 + (q.2 - p.2) / (q.1 - p.1) * (x - p.1), fun x hx => ?_, fun x z t _ _ _ _ => le_of_eq (by ring)⟩
    rw [seg x hx.1 hx.2, h]
    congr 2
    have := hermiteCubic_from_left (x₀ := p.1) (y₀ := p.2) (m₀ := (q.2 - p.2) / (q.1 - p.1)) (x₁ := q.1) (y₁ := q.2)
      (m₁ := (q.2 - p.2) / (q.1 - p.1)) G0.ne' (x - p.1)
    rw [show p.1 + (x - p.1) = x by ring] at this
    rw [this]
    ring

example : CurveIsConvex (evaluate (Interpolator.catmullRom ℚ) [(0, 1), (1, 3), (3, 7)]) fun x => 0 ≤ x ∧ x ≤ 1 :=
  (C132_catmull_rom_three_partial ((0 : ℚ), (1 : ℚ)) (1, 3) (3, 7) (by unfold StrictlyIncreasing; decide +kernel)).2
    (by norm_num)

end Qlab.Props
