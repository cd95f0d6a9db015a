import Verif.Lemmas.NaturalBounds
import Verif.Props.CatmullRom
import Verif.Props.NaturalCubic
import Verif.Props.Linear

/-!
# How far interpolated values leave the range of the data (C95)
-/

namespace Qlab.Props

open Spec NaturalCubic

variable {K : Type} [Field K] [LinearOrder K] [IsStrictOrderedRing K]

/-- A cubic in Hermite form at position `t`: the end slopes, times the length, are `a` and `b`. -/
theorem hermite_form_near {y₀ y₁ a b t lo hi P Q : K} (t0 : 0 ≤ t) (t1 : t ≤ 1) (l0 : lo ≤ y₀) (u0 : y₀ ≤ hi)
    (l1 : lo ≤ y₁) (u1 : y₁ ≤ hi) (ha : |a| ≤ P) (hb : |b| ≤ Q) :
    lo - (t * (1 - t) ^ 2 * P + t ^ 2 * (1 - t) * Q) ≤
        y₀ * (2 * t ^ 3 - 3 * t ^ 2 + 1) + a * (t ^ 3 - 2 * t ^ 2 + t) + y₁ * (-2 * t ^ 3 + 3 * t ^ 2) +
          b * (t ^ 3 - t ^ 2) ∧
      y₀ * (2 * t ^ 3 - 3 * t ^ 2 + 1) + a * (t ^ 3 - 2 * t ^ 2 + t) + y₁ * (-2 * t ^ 3 + 3 * t ^ 2) +
          b * (t ^ 3 - t ^ 2) ≤ hi + (t * (1 - t) ^ 2 * P + t ^ 2 * (1 - t) * Q) := by
  have s0 : 0 ≤ 1 - t := by linarith
  have w0 : 0 ≤ 2 * t ^ 3 - 3 * t ^ 2 + 1 := by
    rw [show 2 * t ^ 3 - 3 * t ^ 2 + 1 = (1 - t) ^ 2 * (1 + 2 * t) by ring]; positivity
  have w1 : 0 ≤ -2 * t ^ 3 + 3 * t ^ 2 := by
    rw [show -2 * t ^ 3 + 3 * t ^ 2 = t ^ 2 * (1 + 2 * (1 - t)) by ring]; positivity
  have k1 : 0 ≤ t * (1 - t) ^ 2 := by positivity
  have k2 : 0 ≤ t ^ 2 * (1 - t) := by positivity
  have a' := abs_le.1 ha
  have b' := abs_le.1 hb
  have e1 := mul_le_mul_of_nonneg_right l0 w0
  have e2 := mul_le_mul_of_nonneg_right u0 w0
  have e3 := mul_le_mul_of_nonneg_right l1 w1
  have e4 := mul_le_mul_of_nonneg_right u1 w1
  have f1 := mul_le_mul_of_nonneg_left a'.1 k1
  have f2 := mul_le_mul_of_nonneg_left a'.2 k1
  have f3 := mul_le_mul_of_nonneg_left b'.1 k2
  have f4 := mul_le_mul_of_nonneg_left b'.2 k2
  constructor <;> nlinarith

theorem position_bounds {x₀ x₁ x : K} (hlt : x₀ < x₁) (h0 : x₀ ≤ x) (h1 : x ≤ x₁) :
    0 ≤ (x - x₀) / (x₁ - x₀) ∧ (x - x₀) / (x₁ - x₀) ≤ 1 := by
  have : 0 < x₁ - x₀ := by linarith
  exact ⟨div_nonneg (by linarith) this.le, by rw [div_le_one this]; linarith⟩

variable [FromInt K] [ExactCast K]

omit [FromInt K] [ExactCast K] in
/-- **C95.** A linearly interpolated value stays in the range of the data. -/
theorem C95_linear (pts : List (K × K)) (hs : StrictlyIncreasing pts) (h2 : 2 ≤ pts.length) (x : K)
    (hx : InRange pts x) (lo hi : K) (hd : ∀ p ∈ pts, lo ≤ p.2 ∧ p.2 ≤ hi) :
    ∃ v, evaluate (Interpolator.linear K) pts x = .ok (.ok v) ∧ lo ≤ v ∧ v ≤ hi := by
  obtain ⟨i, hi', h0, h1⟩ := exists_bracket_raw hs h2 hx
  obtain ⟨v, hv, -, hmin, hmax⟩ := C35_between pts hs i pts[i].1 pts[i].2 pts[i + 1].1 pts[i + 1].2 x
    ⟨by simp, by simp⟩ h0 h1
  have d0 := hd _ (List.getElem_mem (n := i) (by omega))
  have d1 := hd _ (List.getElem_mem hi')
  exact ⟨v, hv, le_trans (le_min d0.1 d1.1) hmin, le_trans hmax (max_le d0.2 d1.2)⟩

/-- **C95.** A Hermite spline leaves the range of its ordinates by at most a quarter of the largest change that a slope
alone would make over an adjacent segment. -/
theorem C95_hermite (pts : List (K × K × K)) (hs : StrictlyIncreasing pts) (h2 : 2 ≤ pts.length) (x : K)
    (hx : InRange pts x) (lo hi δ : K) (hd : ∀ p ∈ pts, lo ≤ p.2.1 ∧ p.2.1 ≤ hi)
    (hm : ∀ i (hi : i + 1 < pts.length), |pts[i].2.2| * (pts[i + 1].1 - pts[i].1) ≤ δ ∧
      |pts[i + 1].2.2| * (pts[i + 1].1 - pts[i].1) ≤ δ) :
    ∃ v, evaluateHermite pts x = .ok (.ok v) ∧ lo - δ / 4 ≤ v ∧ v ≤ hi + δ / 4 := by
  obtain ⟨i, hi', h0, h1⟩ := exists_bracket_raw hs h2 hx
  have hlt := List.pairwise_iff_getElem.1 hs i (i + 1) (by omega) hi' (by omega)
  refine ⟨_, hermite_segment hs hi' h0 h1, ?_⟩
  have d0 := hd _ (List.getElem_mem (n := i) (by omega))
  have d1 := hd _ (List.getElem_mem hi')
  obtain ⟨m0, m1⟩ := hm i hi'
  obtain ⟨t0, t1⟩ := position_bounds hlt h0 h1
  have hG : 0 < pts[i + 1].1 - pts[i].1 := sub_pos.2 hlt
  simp only [hermiteCubic]
  generalize (x - pts[i].1) / (pts[i + 1].1 - pts[i].1) = t at *
  have key := hermite_form_near t0 t1 d0.1 d0.2 d1.1 d1.2 (a := pts[i].2.2 * (pts[i + 1].1 - pts[i].1))
    (b := pts[i + 1].2.2 * (pts[i + 1].1 - pts[i].1)) (P := δ) (Q := δ) (by rw [abs_mul, abs_of_pos hG]; exact m0)
    (by rw [abs_mul, abs_of_pos hG]; exact m1)
  have hδ : 0 ≤ δ := le_trans (by positivity) m0
  have hq : t * (1 - t) ^ 2 * δ + t ^ 2 * (1 - t) * δ ≤ δ / 4 := by
    have := mul_nonneg hδ (sq_nonneg (t - 1 / 2))
    nlinarith
  constructor <;> linarith [key.1, key.2]

/-! ## Catmull-Rom -/

omit [FromInt K] [ExactCast K] in
theorem share_bounds {a b : K} (ha : 0 < a) (hb : 0 < b) : 0 ≤ a / (a + b) ∧ a / (a + b) ≤ 1 :=
  ⟨by positivity, by rw [div_le_one (by positivity)]; linarith⟩

omit [FromInt K] [ExactCast K] in
theorem crInner_near {xp yp x₀ y₀ x₁ y₁ x₂ y₂ x lo hi : K} (hp : xp < x₀) (hlt : x₀ < x₁) (h2 : x₁ < x₂) (h0 : x₀ ≤ x)
    (h1 : x ≤ x₁) (dp : lo ≤ yp ∧ yp ≤ hi) (d0 : lo ≤ y₀ ∧ y₀ ≤ hi) (d1 : lo ≤ y₁ ∧ y₁ ≤ hi) (d2 : lo ≤ y₂ ∧ y₂ ≤ hi) :
    lo - (hi - lo) / 5 ≤ crInner xp yp x₀ y₀ x₁ y₁ x₂ y₂ x ∧
      crInner xp yp x₀ y₀ x₁ y₁ x₂ y₂ x ≤ hi + (hi - lo) / 5 := by
  obtain ⟨t0, t1⟩ := position_bounds hlt h0 h1
  have hG : 0 < x₁ - x₀ := by linarith
  have ha0 : 0 ≤ (x₁ - x₀) / ((x₁ - x₀) + (x₁ - xp)) := div_nonneg hG.le (by linarith)
  have ha1 : (x₁ - x₀) / ((x₁ - x₀) + (x₁ - xp)) ≤ 1 / 2 := by
    rw [div_le_iff₀ (by linarith)]; linarith
  obtain ⟨hb0, hb1⟩ := share_bounds hG (show 0 < x₂ - x₁ by linarith)
  simp only [crInner]
  generalize (x - x₀) / (x₁ - x₀) = t at *
  generalize (x₁ - x₀) / ((x₁ - x₀) + (x₁ - xp)) = a at *
  generalize (x₁ - x₀) / ((x₁ - x₀) + (x₂ - x₁)) = b at *
  have hΔ : 0 ≤ hi - lo := by linarith [d0.1, d0.2]
  have hab : |a * (y₁ - yp)| ≤ (hi - lo) / 2 := by
    rw [abs_mul, abs_of_nonneg ha0]
    have : |y₁ - yp| ≤ hi - lo := abs_le.2 ⟨by linarith [d1.1, dp.2], by linarith [d1.2, dp.1]⟩
    calc a * |y₁ - yp| ≤ 1 / 2 * (hi - lo) := mul_le_mul ha1 this (abs_nonneg _) (by norm_num)
      _ = _ := by ring
  have hbb : |b * (y₂ - y₀)| ≤ hi - lo := by
    rw [abs_mul, abs_of_nonneg hb0]
    have : |y₂ - y₀| ≤ hi - lo := abs_le.2 ⟨by linarith [d2.1, d0.2], by linarith [d2.2, d0.1]⟩
    calc b * |y₂ - y₀| ≤ 1 * (hi - lo) := mul_le_mul hb1 this (abs_nonneg _) (by norm_num)
      _ = _ := by ring
  have key := hermite_form_near t0 t1 d0.1 d0.2 d1.1 d1.2 hab hbb
  have hc : t - t ^ 3 ≤ 2 / 5 := by nlinarith [mul_nonneg (sq_nonneg (t - 577 / 1000)) (show 0 ≤ t + 1154 / 1000 by linarith)]
  have hq : t * (1 - t) ^ 2 * ((hi - lo) / 2) + t ^ 2 * (1 - t) * (hi - lo) ≤ (hi - lo) / 5 := by
    have := mul_le_mul_of_nonneg_right hc hΔ
    linarith [show t * (1 - t) ^ 2 * ((hi - lo) / 2) + t ^ 2 * (1 - t) * (hi - lo) = (t - t ^ 3) * (hi - lo) / 2 by ring]
  have e : y₀ + t * a * (y₁ - yp) + t ^ 2 * (2 * a * yp + (b - 3) * y₀ + (3 - 2 * a) * y₁ - b * y₂) +
      t ^ 3 * (-a * yp + (2 - b) * y₀ + (-2 + a) * y₁ + b * y₂) =
      y₀ * (2 * t ^ 3 - 3 * t ^ 2 + 1) + a * (y₁ - yp) * (t ^ 3 - 2 * t ^ 2 + t) + y₁ * (-2 * t ^ 3 + 3 * t ^ 2) +
        b * (y₂ - y₀) * (t ^ 3 - t ^ 2) := by ring
  rw [e]
  constructor <;> linarith [key.1, key.2]

omit [FromInt K] [ExactCast K] in
theorem crFirst_near {x₀ y₀ x₁ y₁ x₂ y₂ x lo hi : K} (hlt : x₀ < x₁) (h2 : x₁ < x₂) (h0 : x₀ ≤ x)
    (h1 : x ≤ x₁) (d0 : lo ≤ y₀ ∧ y₀ ≤ hi) (d1 : lo ≤ y₁ ∧ y₁ ≤ hi) (d2 : lo ≤ y₂ ∧ y₂ ≤ hi) :
    lo - (hi - lo) / 5 ≤ crFirst x₀ y₀ x₁ y₁ x₂ y₂ x ∧ crFirst x₀ y₀ x₁ y₁ x₂ y₂ x ≤ hi + (hi - lo) / 5 := by
  obtain ⟨t0, t1⟩ := position_bounds hlt h0 h1
  have hG : 0 < x₁ - x₀ := by linarith
  obtain ⟨hb0, hb1⟩ := share_bounds hG (show 0 < x₂ - x₁ by linarith)
  simp only [crFirst]
  generalize (x - x₀) / (x₁ - x₀) = t at *
  generalize (x₁ - x₀) / ((x₁ - x₀) + (x₂ - x₁)) = b at *
  have hΔ : 0 ≤ hi - lo := by linarith [d0.1, d0.2]
  have s0 : 0 ≤ 1 - t := by linarith
  have hbb : |b * (y₂ - y₀)| ≤ hi - lo := by
    rw [abs_mul, abs_of_nonneg hb0]
    have : |y₂ - y₀| ≤ hi - lo := abs_le.2 ⟨by linarith [d2.1, d0.2], by linarith [d2.2, d0.1]⟩
    calc b * |y₂ - y₀| ≤ 1 * (hi - lo) := mul_le_mul hb1 this (abs_nonneg _) (by norm_num)
      _ = _ := by ring
  have e : y₀ + t * (y₁ - y₀) + (t ^ 3 - t ^ 2) * ((1 - b) * y₀ - y₁ + b * y₂) =
      (1 - t) ^ 2 * (1 + t) * y₀ + (1 - (1 - t) ^ 2 * (1 + t)) * y₁ - t ^ 2 * (1 - t) * (b * (y₂ - y₀)) := by ring
  have w0 : 0 ≤ (1 - t) ^ 2 * (1 + t) := by positivity
  have w1 : 0 ≤ 1 - (1 - t) ^ 2 * (1 + t) := by
    rw [show 1 - (1 - t) ^ 2 * (1 + t) = t * (1 + t * (1 - t)) by ring]; positivity
  have k : 0 ≤ t ^ 2 * (1 - t) := by positivity
  have k' : t ^ 2 * (1 - t) ≤ 1 / 5 := by
    nlinarith [mul_nonneg (sq_nonneg (t - 2 / 3)) (show 0 ≤ t + 1 / 3 by linarith)]
  have b' := abs_le.1 hbb
  have f3 := mul_le_mul_of_nonneg_left b'.1 k
  have f4 := mul_le_mul_of_nonneg_left b'.2 k
  have f5 := mul_le_mul_of_nonneg_right k' hΔ
  have e1 := mul_le_mul_of_nonneg_left d0.1 w0
  have e2 := mul_le_mul_of_nonneg_left d0.2 w0
  have e3 := mul_le_mul_of_nonneg_left d1.1 w1
  have e4 := mul_le_mul_of_nonneg_left d1.2 w1
  rw [e]
  constructor <;> linarith

/-- **C95.** Up to the last node but one, a Catmull-Rom spline leaves the range of its ordinates by at most a fifth of
that range.  Missing for the full property: the last segment, where it is violated (`C95_refuted_catmull_rom`). -/
theorem C95_catmull_rom_partial (pts : List (K × K)) (hs : StrictlyIncreasing pts) (h3 : 3 ≤ pts.length) (x : K)
    (hx : InRange pts x) (hl : x ≤ pts[pts.length - 2].1) (lo hi : K) (hd : ∀ p ∈ pts, lo ≤ p.2 ∧ p.2 ≤ hi) :
    ∃ v, evaluate (Interpolator.catmullRom K) pts x = .ok (.ok v) ∧ lo - (hi - lo) / 5 ≤ v ∧ v ≤ hi + (hi - lo) / 5 := by
  have pw := List.pairwise_iff_getElem.1 hs
  obtain ⟨i, hi', h0, h1⟩ := exists_bracket_raw hs (by omega) hx
  obtain ⟨i, hi', h0, h1⟩ : ∃ i, ∃ hi : i + 2 < pts.length, pts[i].1 ≤ x ∧ x ≤ pts[i + 1].1 := by
    by_cases hlast : i + 2 < pts.length
    · exact ⟨i, hlast, h0, h1⟩
    · have hi2 : i = pts.length - 2 := by omega
      subst hi2
      refine ⟨pts.length - 3, by omega, le_trans (le_of_lt (pw _ _ (by omega) (by omega) (by omega))) h0, ?_⟩
      simp only [show pts.length - 3 + 1 = pts.length - 2 by omega]
      exact hl
  have d : ∀ j (hj : j < pts.length), lo ≤ pts[j].2 ∧ pts[j].2 ≤ hi := fun j hj => hd _ (List.getElem_mem hj)
  refine ⟨_, catmullRom_segment hs h3 (by omega) h0 h1, ?_⟩
  unfold crSegment
  by_cases hz : i = 0
  · subst hz
    rw [dif_pos rfl]
    exact crFirst_near (pw 0 1 (by omega) (by omega) (by omega)) (pw 1 2 (by omega) (by omega) (by omega)) h0 h1
      (d 0 (by omega)) (d 1 (by omega)) (d 2 (by omega))
  · rw [dif_neg hz, dif_neg (by omega)]
    exact crInner_near (pw (i - 1) i (by omega) (by omega) (by omega)) (pw i (i + 1) (by omega) (by omega) (by omega))
      (pw (i + 1) (i + 2) (by omega) (by omega) (by omega)) h0 h1 (d (i - 1) (by omega)) (d i (by omega))
      (d (i + 1) (by omega)) (d (i + 2) (by omega))

/-- **C95 (violated).** Three points of height 1 give 4/3 at the last abscissa: a range of length 0, left by 1/3. -/
theorem C95_refuted_catmull_rom :
    ∃ v, evaluate (Interpolator.catmullRom ℚ) [(0, 1), (1, 1), (2, 1)] 2 = .ok (.ok v) ∧ 1 + (1 - 1) / 5 < v :=
  ⟨4 / 3, C38_refuted_constants, by norm_num⟩

omit [FromInt K] [ExactCast K] in
theorem crLast_near {xp yp x₀ y₀ x₁ y₁ x S : K} (hp : xp < x₀) (hlt : x₀ < x₁) (h0 : x₀ ≤ x) (h1 : x ≤ x₁)
    (dp : |yp| ≤ S) (d0 : |y₀| ≤ S) (d1 : |y₁| ≤ S) : |crLast xp yp x₀ y₀ x₁ y₁ x| ≤ 2 * S := by
  obtain ⟨t0, t1⟩ := position_bounds hlt h0 h1
  have ha0 : 0 ≤ (x₁ - x₀) / ((x₁ - x₀) + (x₁ - xp)) := div_nonneg (by linarith) (by linarith)
  have ha1 : (x₁ - x₀) / ((x₁ - x₀) + (x₁ - xp)) ≤ 1 / 2 := by
    rw [div_le_iff₀ (by linarith)]; linarith
  simp only [crLast]
  generalize (x - x₀) / (x₁ - x₀) = t at *
  generalize (x₁ - x₀) / ((x₁ - x₀) + (x₁ - xp)) = a at *
  have hS : 0 ≤ S := le_trans (abs_nonneg _) d0
  have s0 : 0 ≤ 1 - t := by linarith
  have r0 : 0 ≤ 1 - 2 * a := by linarith
  have c0 : 0 ≤ 1 - 2 * t ^ 2 + t ^ 3 := by
    rw [show 1 - 2 * t ^ 2 + t ^ 3 = (1 - t) * (1 + t * (1 - t)) by ring]; positivity
  have c1 : 0 ≤ t * (a * ((1 - t) * (1 + t)) + 2 * t * (1 - a)) := by
    have r1 : 0 ≤ 1 - a := by linarith
    positivity
  have cp : 0 ≤ a * t * (1 - t) ^ 2 := by positivity
  have e : y₀ + t * a * (y₁ - yp) + t ^ 2 * (2 * a * yp - 2 * y₀ + (2 - 2 * a) * y₁) + t ^ 3 * (-a * yp + y₀ - a * y₁) =
      (1 - 2 * t ^ 2 + t ^ 3) * y₀ + t * (a * ((1 - t) * (1 + t)) + 2 * t * (1 - a)) * y₁ -
        a * t * (1 - t) ^ 2 * yp := by ring
  rw [e]
  have sum : (1 - 2 * t ^ 2 + t ^ 3) + t * (a * ((1 - t) * (1 + t)) + 2 * t * (1 - a)) + a * t * (1 - t) ^ 2 ≤ 2 := by
    have z1 : 0 ≤ (1 - 2 * a) * (t * (1 - t)) := by positivity
    have z2 : 0 ≤ a * t ^ 2 := by positivity
    have z3 : 0 ≤ (1 - t) * (1 + t ^ 2) := by positivity
    nlinarith
  have y0 := abs_le.1 d0
  have y1 := abs_le.1 d1
  have yq := abs_le.1 dp
  have f1 := mul_le_mul_of_nonneg_left y0.1 c0
  have f2 := mul_le_mul_of_nonneg_left y0.2 c0
  have f3 := mul_le_mul_of_nonneg_left y1.1 c1
  have f4 := mul_le_mul_of_nonneg_left y1.2 c1
  have f5 := mul_le_mul_of_nonneg_left yq.1 cp
  have f6 := mul_le_mul_of_nonneg_left yq.2 cp
  have f7 := mul_le_mul_of_nonneg_right sum hS
  rw [abs_le]
  constructor <;> linarith

/-- **C95.** Over its whole range a Catmull-Rom spline is at most twice as large as its largest ordinate, whatever the
spacing of the points. -/
theorem C95_catmull_rom_magnitude (pts : List (K × K)) (hs : StrictlyIncreasing pts) (h3 : 3 ≤ pts.length) (x : K)
    (hx : InRange pts x) (S : K) (hS : ∀ p ∈ pts, |p.2| ≤ S) :
    ∃ v, evaluate (Interpolator.catmullRom K) pts x = .ok (.ok v) ∧ |v| ≤ 2 * S := by
  have pw := List.pairwise_iff_getElem.1 hs
  obtain ⟨i, hi', h0, h1⟩ := exists_bracket_raw hs (by omega) hx
  have d : ∀ j (hj : j < pts.length), -S ≤ pts[j].2 ∧ pts[j].2 ≤ S := fun j hj => abs_le.1 (hS _ (List.getElem_mem hj))
  have hS0 : 0 ≤ S := le_trans (abs_nonneg _) (hS _ (List.getElem_mem hi'))
  refine ⟨_, catmullRom_segment hs h3 (by omega) h0 h1, ?_⟩
  unfold crSegment
  by_cases hz : i = 0
  · subst hz
    rw [dif_pos rfl]
    have := crFirst_near (pw 0 1 (by omega) (by omega) (by omega)) (pw 1 2 (by omega) (by omega) (by omega)) h0 h1
      (d 0 (by omega)) (d 1 (by omega)) (d 2 (by omega))
    rw [abs_le]
    constructor <;> linarith [this.1, this.2]
  · rw [dif_neg hz]
    by_cases hl : i + 2 = pts.length
    · rw [dif_pos hl]
      exact crLast_near (pw (i - 1) i (by omega) (by omega) (by omega)) (pw i (i + 1) (by omega) (by omega) (by omega))
        h0 h1 (hS _ (List.getElem_mem _)) (hS _ (List.getElem_mem _)) (hS _ (List.getElem_mem _))
    · rw [dif_neg hl]
      have := crInner_near (pw (i - 1) i (by omega) (by omega) (by omega)) (pw i (i + 1) (by omega) (by omega) (by omega))
        (pw (i + 1) (i + 2) (by omega) (by omega) (by omega)) h0 h1 (d (i - 1) (by omega)) (d i (by omega))
        (d (i + 1) (by omega)) (d (i + 2) (by omega))
      rw [abs_le]
      constructor <;> linarith [this.1, this.2]

/-! ## Natural cubic -/

/-- Every segment, from a bound on the right-hand side. -/
theorem natural_near {n : Nat} (hn : 3 ≤ n) {p : Nat → K × K} (hs : StrictlyIncreasing (tab n p)) {x : K}
    (hx : InRange (tab n p) x) {lo hi h H R : K} (hd : ∀ k, k < n → lo ≤ (p k).2 ∧ (p k).2 ≤ hi) (hh : 0 < h)
    (hg : ∀ k, k + 1 < n → h ≤ gap p k ∧ gap p k ≤ H) (hb : ∀ k, k + 2 < n → |rhs n p k| ≤ R) :
    ∃ v, evaluate (Interpolator.naturalCubic K) (tab n p) x = .ok (.ok v) ∧
      lo - 3 / 5 * R * H ^ 2 / h ≤ v ∧ v ≤ hi + 3 / 5 * R * H ^ 2 / h := by
  obtain ⟨i, hi', h0, h1⟩ := exists_bracket_raw hs (by simpa using (by omega : 2 ≤ n)) hx
  simp only [length_tab, getElem_tab] at hi' h0 h1
  refine ⟨_, NaturalCubic.segment hn hs hi' h0 h1, ?_⟩
  have hc := curvature_le hn hh (fun k hk => (hg k hk).1) hb
  have d0 := hd i (by omega)
  have d1 := hd (i + 1) hi'
  have key := cubic_near (strict_tab hs (Nat.lt_succ_self i) hi') h0 h1 d0.1 d0.2 d1.1 d1.2 (hc i) (hc (i + 1))
  have hR : 0 ≤ R := le_trans (abs_nonneg _) (hb 0 (by omega))
  have g := hg i hi'
  have hsq : ((p (i + 1)).1 - (p i).1) ^ 2 ≤ H ^ 2 :=
    pow_le_pow_left₀ (le_trans hh.le g.1) g.2 2
  have hq : 0 ≤ R / h := by positivity
  have := mul_le_mul_of_nonneg_right hsq hq
  have e1 : 3 / 5 * R * H ^ 2 / h = 3 / 5 * (H ^ 2 * (R / h)) := by ring
  have e2 : ((p (i + 1)).1 - (p i).1) ^ 2 / 8 * (24 / 5 * R / h) =
      3 / 5 * (((p (i + 1)).1 - (p i).1) ^ 2 * (R / h)) := by ring
  rw [e2] at key
  rw [e1]
  constructor <;> linarith [key.1, key.2]

/-- **C95.** With four points or more, a natural cubic spline leaves the range of its ordinates by at most
`6/5 (H / h)²` times that range, where `h` and `H` bound the distances between neighbouring abscissae.  Missing for the
full property: three points, where it is violated (`C95_refuted_natural_cubic`). -/
theorem C95_natural_cubic_partial (pts : List (K × K)) (hs : StrictlyIncreasing pts) (h4 : 4 ≤ pts.length) (x : K)
    (hx : InRange pts x) (lo hi h H : K) (hd : ∀ p ∈ pts, lo ≤ p.2 ∧ p.2 ≤ hi) (hh : 0 < h)
    (hgap : ∀ i (hi : i + 1 < pts.length), h ≤ pts[i + 1].1 - pts[i].1 ∧ pts[i + 1].1 - pts[i].1 ≤ H) :
    ∃ v, evaluate (Interpolator.naturalCubic K) pts x = .ok (.ok v) ∧
      lo - 6 / 5 * (H / h) ^ 2 * (hi - lo) ≤ v ∧ v ≤ hi + 6 / 5 * (H / h) ^ 2 * (hi - lo) := by
  obtain ⟨n, p, hn, rfl⟩ := exists_tab pts (by rintro rfl; simp at h4)
  simp only [length_tab, getElem_tab] at h4 hgap
  have hd' : ∀ k, k < n → lo ≤ (p k).2 ∧ (p k).2 ≤ hi := fun k hk => hd _ (by
    rw [show p k = (tab n p)[k]'(by simpa using hk) by simp]; exact List.getElem_mem _)
  have hΔ : 0 ≤ hi - lo := by linarith [(hd' 0 (by omega)).1, (hd' 0 (by omega)).2]
  have hch : ∀ k, k + 1 < n → |chord p k| ≤ (hi - lo) / h := by
    intro k hk
    have g := (hgap k hk).1
    have d0 := hd' k (by omega)
    have d1 := hd' (k + 1) hk
    unfold chord
    rw [abs_div, abs_of_pos (lt_of_lt_of_le hh g)]
    exact div_le_div₀ hΔ (abs_le.2 ⟨by linarith, by linarith⟩) hh g
  have hb : ∀ k, k + 2 < n → |rhs n p k| ≤ 2 * ((hi - lo) / h) := by
    intro k hk
    rw [rhs_eq h4 p hk (ne_of_gt (gap_pos hs (by omega))) (ne_of_gt (gap_pos hs (by omega)))]
    have := abs_sub (chord p (k + 1)) (chord p k)
    linarith [hch k (by omega), hch (k + 1) (by omega)]
  obtain ⟨v, hv, h1, h2⟩ := natural_near (by omega) hs hx hd' hh hgap hb
  refine ⟨v, hv, ?_⟩
  have e : 3 / 5 * (2 * ((hi - lo) / h)) * H ^ 2 / h = 6 / 5 * (H / h) ^ 2 * (hi - lo) := by
    field_simp
    ring
  rw [e] at h1 h2
  exact ⟨h1, h2⟩

/-- **C95 (violated).** Three points of height 1: the spline through them is not constant. -/
theorem C95_refuted_natural_cubic :
    ∃ v, evaluate (Interpolator.naturalCubic ℚ) [(0, 1), (1, 1), (2, 1)] (1 / 2) = .ok (.ok v) ∧
      1 + 6 / 5 * (1 / 1) ^ 2 * (1 - 1) < v :=
  ⟨35 / 32, by decide +kernel, by norm_num⟩

/-- **C95.** In all cases a natural cubic spline is at most `1 + 12/5 (H / h)²` times as large as its largest
ordinate. -/
theorem C95_natural_cubic_magnitude (pts : List (K × K)) (hs : StrictlyIncreasing pts) (h3 : 3 ≤ pts.length) (x : K)
    (hx : InRange pts x) (S h H : K) (hS : ∀ p ∈ pts, |p.2| ≤ S) (hh : 0 < h)
    (hgap : ∀ i (hi : i + 1 < pts.length), h ≤ pts[i + 1].1 - pts[i].1 ∧ pts[i + 1].1 - pts[i].1 ≤ H) :
    ∃ v, evaluate (Interpolator.naturalCubic K) pts x = .ok (.ok v) ∧ |v| ≤ (1 + 12 / 5 * (H / h) ^ 2) * S := by
  obtain ⟨n, p, hn, rfl⟩ := exists_tab pts (by rintro rfl; simp at h3)
  simp only [length_tab, getElem_tab] at h3 hgap
  have hS' : ∀ k, k < n → |(p k).2| ≤ S := fun k hk => hS _ (by
    rw [show p k = (tab n p)[k]'(by simpa using hk) by simp]; exact List.getElem_mem _)
  have hS0 : 0 ≤ S := le_trans (abs_nonneg _) (hS' 0 (by omega))
  have hq : ∀ j k, j + 1 < n → k < n → |1 / gap p j * (p k).2| ≤ S / h := by
    intro j k hj hk
    have g := (hgap j hj).1
    rw [one_div, inv_mul_eq_div, abs_div, abs_of_pos (show 0 < gap p j from lt_of_lt_of_le hh g)]
    exact div_le_div₀ hS0 (hS' k hk) hh g
  have hb : ∀ k, k + 2 < n → |rhs n p k| ≤ 4 * (S / h) := by
    intro k hk
    by_cases h4 : 4 ≤ n
    · rw [rhs_eq h4 p hk (ne_of_gt (gap_pos hs (by omega))) (ne_of_gt (gap_pos hs (by omega)))]
      have e : chord p (k + 1) - chord p k = 1 / gap p (k + 1) * (p (k + 2)).2 - 1 / gap p (k + 1) * (p (k + 1)).2 -
          (1 / gap p k * (p (k + 1)).2 - 1 / gap p k * (p k).2) := by
        unfold chord gap; ring
      rw [e]
      have t1 := abs_sub (1 / gap p (k + 1) * (p (k + 2)).2 - 1 / gap p (k + 1) * (p (k + 1)).2)
        (1 / gap p k * (p (k + 1)).2 - 1 / gap p k * (p k).2)
      have t2 := abs_sub (1 / gap p (k + 1) * (p (k + 2)).2) (1 / gap p (k + 1) * (p (k + 1)).2)
      have t3 := abs_sub (1 / gap p k * (p (k + 1)).2) (1 / gap p k * (p k).2)
      linarith [hq (k + 1) (k + 2) (by omega) (by omega), hq (k + 1) (k + 1) (by omega) (by omega),
        hq k (k + 1) (by omega) (by omega), hq k k (by omega) (by omega)]
    · obtain rfl : n = 3 := by omega
      obtain rfl : k = 0 := by omega
      have e : rhs 3 p 0 = 1 / gap p 0 * (p 0).2 - (1 / gap p 0 * (p 1).2 + 1 / gap p 1 * (p 1).2) := by
        simp only [rhs, TridiagonalMatrix.rowProduct, mEnd, cMain, recip]
        norm_num
        ring
      rw [e]
      have t1 := abs_sub (1 / gap p 0 * (p 0).2) (1 / gap p 0 * (p 1).2 + 1 / gap p 1 * (p 1).2)
      have t2 := abs_add_le (1 / gap p 0 * (p 1).2) (1 / gap p 1 * (p 1).2)
      have : 0 ≤ S / h := by positivity
      linarith [hq 0 0 (by omega) (by omega), hq 0 1 (by omega) (by omega), hq 1 1 (by omega) (by omega)]
  obtain ⟨v, hv, h1, h2⟩ := natural_near h3 hs hx (lo := -S) (hi := S) (fun k hk => abs_le.1 (hS' k hk)) hh hgap hb
  refine ⟨v, hv, ?_⟩
  have e : 3 / 5 * (4 * (S / h)) * H ^ 2 / h = 12 / 5 * (H / h) ^ 2 * S := by
    field_simp
    ring
  rw [e] at h1 h2
  rw [abs_le]
  constructor <;> linarith

/-! ## Examples -/

/-- Four points in the range 0 .. 4, unevenly spaced. -/
def hilly : List (ℚ × ℚ) := [(0, 1), (1, 0), (3, 4), (4, 0)]

theorem hilly_increasing : StrictlyIncreasing hilly := by unfold StrictlyIncreasing hilly; norm_num
theorem hilly_range : ∀ p ∈ hilly, (0 : ℚ) ≤ p.2 ∧ p.2 ≤ 4 := by simp [hilly]
theorem hilly_two : InRange hilly 2 := ⟨⟨(0, 1), by simp [hilly], by norm_num⟩, ⟨(4, 0), by simp [hilly], by norm_num⟩⟩

theorem hilly_gaps : ∀ i (hi : i + 1 < hilly.length), (1 : ℚ) ≤ hilly[i + 1].1 - hilly[i].1 ∧
    hilly[i + 1].1 - hilly[i].1 ≤ 2 := by
  intro i hi
  have : i = 0 ∨ i = 1 ∨ i = 2 := by simp [hilly] at hi; omega
  rcases this with rfl | rfl | rfl <;> simp [hilly] <;> norm_num

example : ∃ v, evaluate (Interpolator.linear ℚ) hilly 2 = .ok (.ok v) ∧ 0 ≤ v ∧ v ≤ 4 :=
  C95_linear hilly hilly_increasing (by simp [hilly]) 2 hilly_two 0 4 hilly_range

example : ∃ v, evaluate (Interpolator.catmullRom ℚ) hilly 2 = .ok (.ok v) ∧ 0 - (4 - 0) / 5 ≤ v ∧ v ≤ 4 + (4 - 0) / 5 :=
  C95_catmull_rom_partial hilly hilly_increasing (by simp [hilly]) 2 hilly_two (by norm_num [hilly]) 0 4 hilly_range

/-- The range is left: just before the third node the Catmull-Rom spline through `(0, 0)`, `(1, 0)`, `(2, 1)`, `(3, 1)` is
below 0 in the first segment. -/
example : evaluate (Interpolator.catmullRom ℚ) [(0, 0), (1, 0), (2, 1), (3, 1)] (2 / 3) = .ok (.ok (-2 / 27)) := by
  decide +kernel

example : ∃ v, evaluate (Interpolator.catmullRom ℚ) hilly 2 = .ok (.ok v) ∧ |v| ≤ 2 * 4 :=
  C95_catmull_rom_magnitude hilly hilly_increasing (by simp [hilly]) 2 hilly_two 4 fun p hp => by
    have := hilly_range p hp
    rw [abs_le]; constructor <;> linarith [this.1, this.2]

example : ∃ v, evaluate (Interpolator.naturalCubic ℚ) hilly 2 = .ok (.ok v) ∧
    0 - 6 / 5 * (2 / 1) ^ 2 * (4 - 0) ≤ v ∧ v ≤ 4 + 6 / 5 * (2 / 1) ^ 2 * (4 - 0) :=
  C95_natural_cubic_partial hilly hilly_increasing (by simp [hilly]) 2 hilly_two 0 4 1 2 hilly_range one_pos hilly_gaps

example : ∃ v, evaluate (Interpolator.naturalCubic ℚ) hilly 2 = .ok (.ok v) ∧ |v| ≤ (1 + 12 / 5 * (2 / 1) ^ 2) * 4 :=
  C95_natural_cubic_magnitude hilly hilly_increasing (by simp [hilly]) 2 hilly_two 4 1 2 (fun p hp => by
    have := hilly_range p hp
    rw [abs_le]; constructor <;> linarith [this.1, this.2]) one_pos hilly_gaps

/-- A Hermite spline through (0, 0) and (2, 1) with slopes 3 and -1. -/
example : ∃ v, evaluateHermite ([(0, 0, 3), (2, 1, -1)] : List (ℚ × ℚ × ℚ)) 1 = .ok (.ok v) ∧
    0 - 6 / 4 ≤ v ∧ v ≤ 1 + 6 / 4 := by
  refine C95_hermite _ (by unfold StrictlyIncreasing; norm_num) (by simp) 1
    ⟨⟨_, List.mem_cons_self, by norm_num⟩, ⟨(2, 1, -1), by simp, by norm_num⟩⟩ 0 1 6 (by simp) ?_
  intro i hi
  have : i = 0 := by simp at hi; omega
  subst this
  norm_num

end Qlab.Props
