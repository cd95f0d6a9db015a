import Verif.Props.CurveOvershoot
import Mathlib.Analysis.Real.Sqrt

/-!
# The exact constant by which a Catmull-Rom spline leaves the range of its data (C95)
-/

namespace Qlab.Props

open Spec

/-- The largest value of `(t - t³) / 2` is `√3 / 9`. -/
theorem cubic_peak {t : ℝ} (h0 : 0 ≤ t) : t - t ^ 3 ≤ 2 * (√3 / 9) := by
  have h3 : √3 * √3 = 3 := Real.mul_self_sqrt (by norm_num)
  have hs : 0 ≤ √3 := Real.sqrt_nonneg 3
  have := mul_nonneg (sq_nonneg (t - √3 / 3)) (show 0 ≤ t + 2 * (√3 / 3) by positivity)
  nlinarith

theorem parabola_peak {t : ℝ} (h0 : 0 ≤ t) : t ^ 2 * (1 - t) ≤ √3 / 9 := by
  have hs : (17 : ℝ) / 10 ≤ √3 := Real.le_sqrt_of_sq_le (by norm_num)
  have := mul_nonneg (sq_nonneg (t - 2 / 3)) (show 0 ≤ t + 1 / 3 by linarith)
  nlinarith

theorem weights_near {yp y₀ y₁ y₂ lo hi p q w₀ w₁ c : ℝ} (dp : lo ≤ yp ∧ yp ≤ hi) (d0 : lo ≤ y₀ ∧ y₀ ≤ hi)
    (d1 : lo ≤ y₁ ∧ y₁ ≤ hi) (d2 : lo ≤ y₂ ∧ y₂ ≤ hi) (hp : 0 ≤ p) (hq : 0 ≤ q) (h0 : 0 ≤ w₀) (h1 : 0 ≤ w₁)
    (hs : w₀ + w₁ = 1 + p + q) (hc : p + q ≤ c) :
    lo - c * (hi - lo) ≤ w₀ * y₀ + w₁ * y₁ - p * yp - q * y₂ ∧ w₀ * y₀ + w₁ * y₁ - p * yp - q * y₂ ≤ hi + c * (hi - lo) := by
  have hΔ : 0 ≤ hi - lo := by linarith [d0.1, d0.2]
  have := mul_le_mul_of_nonneg_right hc hΔ
  have a1 := mul_le_mul_of_nonneg_left d0.1 h0
  have a2 := mul_le_mul_of_nonneg_left d0.2 h0
  have a3 := mul_le_mul_of_nonneg_left d1.1 h1
  have a4 := mul_le_mul_of_nonneg_left d1.2 h1
  have a5 := mul_le_mul_of_nonneg_left dp.1 hp
  have a6 := mul_le_mul_of_nonneg_left dp.2 hp
  have a7 := mul_le_mul_of_nonneg_left d2.1 hq
  have a8 := mul_le_mul_of_nonneg_left d2.2 hq
  have e1 : w₀ * lo + w₁ * lo = (1 + p + q) * lo := by rw [← add_mul, hs]
  have e2 : w₀ * hi + w₁ * hi = (1 + p + q) * hi := by rw [← add_mul, hs]
  constructor <;> nlinarith

theorem crInner_sharp {xp yp x₀ y₀ x₁ y₁ x₂ y₂ x lo hi : ℝ} (hp : xp < x₀) (hlt : x₀ < x₁) (h2 : x₁ < x₂) (h0 : x₀ ≤ x)
    (h1 : x ≤ x₁) (dp : lo ≤ yp ∧ yp ≤ hi) (d0 : lo ≤ y₀ ∧ y₀ ≤ hi) (d1 : lo ≤ y₁ ∧ y₁ ≤ hi) (d2 : lo ≤ y₂ ∧ y₂ ≤ hi) :
    lo - √3 / 9 * (hi - lo) ≤ crInner xp yp x₀ y₀ x₁ y₁ x₂ y₂ x ∧
      crInner xp yp x₀ y₀ x₁ y₁ x₂ y₂ x ≤ hi + √3 / 9 * (hi - lo) := by
  obtain ⟨t0, t1⟩ := position_bounds hlt h0 h1
  have hG : 0 < x₁ - x₀ := by linarith
  have ha0 : 0 ≤ (x₁ - x₀) / ((x₁ - x₀) + (x₁ - xp)) := div_nonneg hG.le (by linarith)
  have ha1 : (x₁ - x₀) / ((x₁ - x₀) + (x₁ - xp)) ≤ 1 / 2 := by
    rw [div_le_iff₀ (by linarith)]; linarith
  obtain ⟨hb0, hb1⟩ := share_bounds hG (show 0 < x₂ - x₁ by linarith)
  simp only [crInner]
  generalize (x - x₀) / (x₁ - x₀) = t at *
  generalize (x₁ - x₀) / ((x₁ - x₀) + (x₁ - xp)) = a at *
  generalize (x₁ - x₀) / ((x₁ - x₀) + (x₂ - x₁)) = b at *
  have s : 0 ≤ 1 - t := by linarith
  have hpk := cubic_peak t0
  have := weights_near (p := a * t * (1 - t) ^ 2) (q := b * t ^ 2 * (1 - t))
    (w₀ := (1 - t) ^ 2 * (1 + 2 * t) + b * t ^ 2 * (1 - t)) (w₁ := t ^ 2 * (1 + 2 * (1 - t)) + a * t * (1 - t) ^ 2)
    (c := √3 / 9) dp d0 d1 d2 (by positivity) (by positivity) (by positivity) (by positivity) (by ring) (by
      have e1 := mul_le_mul_of_nonneg_right ha1 (show 0 ≤ t * (1 - t) ^ 2 by positivity)
      have e2 := mul_le_mul_of_nonneg_right hb1 (show 0 ≤ t ^ 2 * (1 - t) by positivity)
      nlinarith)
  convert this using 2 <;> ring

theorem crFirst_sharp {x₀ y₀ x₁ y₁ x₂ y₂ x lo hi : ℝ} (hlt : x₀ < x₁) (h2 : x₁ < x₂) (h0 : x₀ ≤ x)
    (h1 : x ≤ x₁) (d0 : lo ≤ y₀ ∧ y₀ ≤ hi) (d1 : lo ≤ y₁ ∧ y₁ ≤ hi) (d2 : lo ≤ y₂ ∧ y₂ ≤ hi) :
    lo - √3 / 9 * (hi - lo) ≤ crFirst x₀ y₀ x₁ y₁ x₂ y₂ x ∧ crFirst x₀ y₀ x₁ y₁ x₂ y₂ x ≤ hi + √3 / 9 * (hi - lo) := by
  obtain ⟨t0, t1⟩ := position_bounds hlt h0 h1
  have hG : 0 < x₁ - x₀ := by linarith
  obtain ⟨hb0, hb1⟩ := share_bounds hG (show 0 < x₂ - x₁ by linarith)
  simp only [crFirst]
  generalize (x - x₀) / (x₁ - x₀) = t at *
  generalize (x₁ - x₀) / ((x₁ - x₀) + (x₂ - x₁)) = b at *
  have s : 0 ≤ 1 - t := by linarith
  have hpk := parabola_peak t0
  have := weights_near (p := 0) (q := b * t ^ 2 * (1 - t)) (w₀ := (1 - t) * (1 - t ^ 2 + t ^ 2 * b))
    (w₁ := t * (1 + t * (1 - t))) (c := √3 / 9) d0 d0 d1 d2 le_rfl (by positivity) (by
      have : 0 ≤ 1 - t ^ 2 := by nlinarith
      positivity) (by positivity) (by ring) (by
      have e2 := mul_le_mul_of_nonneg_right hb1 (show 0 ≤ t ^ 2 * (1 - t) by positivity)
      nlinarith)
  convert this using 2 <;> ring

/-- **C95.** Up to the last node but one, a Catmull-Rom spline over the real numbers leaves the range of its ordinates by
at most `√3 / 9` of that range.  Missing for the full property: the last segment, where it is violated
(`C95_refuted_catmull_rom`). -/
theorem C95_catmull_rom_sharp_partial (pts : List (ℝ × ℝ)) (hs : StrictlyIncreasing pts) (h3 : 3 ≤ pts.length) (x : ℝ)
    (hx : InRange pts x) (hl : x ≤ pts[pts.length - 2].1) (lo hi : ℝ) (hd : ∀ p ∈ pts, lo ≤ p.2 ∧ p.2 ≤ hi) :
    ∃ v, evaluate (Interpolator.catmullRom ℝ) pts x = .ok (.ok v) ∧ lo - √3 / 9 * (hi - lo) ≤ v ∧
      v ≤ hi + √3 / 9 * (hi - lo) := by
  have pw := List.pairwise_iff_getElem.1 hs
  obtain ⟨i, hi', h0, h1⟩ := exists_bracket_raw hs (by omega) hx
  obtain ⟨i, hi', h0, h1⟩ : ∃ i, ∃ hi : i + 2 < pts.length, pts[i].1 ≤ x ∧ x ≤ pts[i + 1].1 := by
    by_cases hlast : i + 2 < pts.length
    · exact ⟨i, hlast, h0, h1⟩
    · have hi2 : i = pts.length - 2 := by omega
      subst hi2
      refine ⟨pts.length - 3, by omega, le_trans (le_of_lt (pw _ _ (by omega) (by omega) (by omega))) h0, ?_⟩
      simp only [show pts.length - 3 + 1 = pts.length - 2 by omega]
      exact hl
  have d : ∀ j (hj : j < pts.length), lo ≤ pts[j].2 ∧ pts[j].2 ≤ hi := fun j hj => hd _ (List.getElem_mem hj)
  refine ⟨_, catmullRom_segment hs h3 (by omega) h0 h1, ?_⟩
  unfold crSegment
  by_cases hz : i = 0
  · subst hz
    rw [dif_pos rfl]
    exact crFirst_sharp (pw 0 1 (by omega) (by omega) (by omega)) (pw 1 2 (by omega) (by omega) (by omega)) h0 h1
      (d 0 (by omega)) (d 1 (by omega)) (d 2 (by omega))
  · rw [dif_neg hz, dif_neg (by omega)]
    exact crInner_sharp (pw (i - 1) i (by omega) (by omega) (by omega)) (pw i (i + 1) (by omega) (by omega) (by omega))
      (pw (i + 1) (i + 2) (by omega) (by omega) (by omega)) h0 h1 (d (i - 1) (by omega)) (d i (by omega))
      (d (i + 1) (by omega)) (d (i + 2) (by omega))

/-- Four points, at an abscissa of the second segment. -/
example : ∃ v, evaluate (Interpolator.catmullRom ℝ) [(0, 1), (1, 0), (2, 0), (3, 1)] (3 / 2) = .ok (.ok v) ∧
    0 - √3 / 9 * (1 - 0) ≤ v ∧ v ≤ 1 + √3 / 9 * (1 - 0) :=
  C95_catmull_rom_sharp_partial _ (by simp [StrictlyIncreasing]; norm_num) (by simp) _
    ⟨⟨(0, 1), by simp, by norm_num⟩, ⟨(3, 1), by simp, by norm_num⟩⟩ (by norm_num) 0 1 (by simp)

/-- **C95.** No smaller constant will do: for every `c < √3 / 9` there are four points with ordinates between 0 and 1 whose
spline falls below `-c`, before the last point but one. -/
theorem C95_catmull_rom_best (c : ℝ) (hc : c < √3 / 9) : ∃ (pts : List (ℝ × ℝ)) (hl : pts.length = 4) (x v : ℝ),
    StrictlyIncreasing pts ∧ (∀ p ∈ pts, 0 ≤ p.2 ∧ p.2 ≤ 1) ∧ x < pts[2].1 ∧
      evaluate (Interpolator.catmullRom ℝ) pts x = .ok (.ok v) ∧ v < 0 - c * (1 - 0) := by
  have h3 : √3 * √3 = 3 := Real.mul_self_sqrt (by norm_num)
  have hs : 0 < √3 := Real.sqrt_pos.2 (by norm_num)
  have hs1 : √3 < 3 := by nlinarith
  -- the distance of the outer points
  obtain ⟨ε, hε, hcε⟩ : ∃ ε : ℝ, 0 < ε ∧ c * (1 + ε) < √3 / 9 := by
    rcases le_or_gt c 0 with h | h
    · exact ⟨1, one_pos, by linarith⟩
    · refine ⟨(√3 / 9 - c) / (2 * c), by apply div_pos <;> linarith, ?_⟩
      have : c * (1 + (√3 / 9 - c) / (2 * c)) = (c + √3 / 9) / 2 := by field_simp; ring
      rw [this]
      linarith
  have inc : StrictlyIncreasing [(-ε, (1 : ℝ)), (0, 0), (1, 0), (1 + ε, 1)] := by
    simp [StrictlyIncreasing, hε]
    refine ⟨⟨?_, ?_⟩, ?_⟩ <;> linarith
  refine ⟨[(-ε, 1), (0, 0), (1, 0), (1 + ε, 1)], rfl, √3 / 3, _, inc, by simp, by simp; linarith,
    catmullRom_segment inc (by simp) (i := 1) (by simp) (by simp; positivity) (by simp; linarith), ?_⟩
  simp only [crSegment, List.length_cons, List.length_nil]
  norm_num
  simp only [crInner]
  have e1 : (1 - 0 : ℝ) / ((1 - 0) + (1 - -ε)) = 1 / (2 + ε) := by ring_nf
  have e2 : (1 - 0 : ℝ) / ((1 - 0) + (1 + ε - 1)) = 1 / (1 + ε) := by ring_nf
  rw [e1, e2]
  have ha : 1 / 2 * (1 / (1 + ε)) ≤ 1 / (2 + ε) := by
    rw [← mul_div_assoc, div_le_div_iff₀ (by positivity) (by positivity)]
    linarith
  have hb : c < √3 / 9 * (1 / (1 + ε)) := by
    rw [mul_one_div, lt_div_iff₀ (by positivity)]
    exact hcε
  generalize 1 / (2 + ε) = a at *
  generalize 1 / (1 + ε) = b at *
  have e : √3 ^ 3 = 3 * √3 := by rw [pow_succ, sq, h3]
  have e' : √3 ^ 2 = 3 := by rw [sq, h3]
  norm_num [div_pow, e, e']
  nlinarith [mul_le_mul_of_nonneg_right ha (show 0 ≤ √3 / 3 * (1 - √3 / 3) ^ 2 by positivity)]

/-- **C95.** Nor will less than twice the largest ordinate do over the whole range (`C95_catmull_rom_magnitude`): for every
`c < 2` there are three points with ordinates between 0 and 1 whose spline ends above `c`. -/
theorem C95_catmull_rom_magnitude_best (c : ℝ) (hc : c < 2) : ∃ (pts : List (ℝ × ℝ)) (x v : ℝ), pts.length = 3 ∧
    StrictlyIncreasing pts ∧ (∀ p ∈ pts, 0 ≤ p.2 ∧ p.2 ≤ 1) ∧ InRange pts x ∧
      evaluate (Interpolator.catmullRom ℝ) pts x = .ok (.ok v) ∧ c < v := by
  have hε : 0 < 2 / (2 - c) := by apply div_pos <;> linarith
  have inc : StrictlyIncreasing [(-(2 / (2 - c)), (0 : ℝ)), (0, 0), (1, 1)] := by
    simp only [StrictlyIncreasing, List.pairwise_cons, List.mem_cons, List.not_mem_nil, or_false, forall_eq_or_imp, forall_eq]
    refine ⟨⟨?_, ?_⟩, ?_, ?_⟩
    · linarith
    · linarith
    · norm_num
    · simp
  refine ⟨[(-(2 / (2 - c)), 0), (0, 0), (1, 1)], 1, _, rfl, inc, by simp, ⟨⟨(0, 0), by simp, by norm_num⟩, (1, 1), by simp,
    le_rfl⟩, catmullRom_segment inc (by simp) (i := 1) (by simp) (by simp) (by simp), ?_⟩
  simp only [crSegment, List.length_cons, List.length_nil]
  norm_num
  simp only [crLast]
  have e1 : (1 - 0 : ℝ) / ((1 - 0) + (1 - -(2 / (2 - c)))) = (2 - c) / (2 * (3 - c)) := by
    have : 2 - c ≠ 0 := by linarith
    have : 3 - c ≠ 0 := by linarith
    rw [div_eq_div_iff (by linarith) (by linarith)]
    field_simp
    ring
  rw [e1]
  have h : (2 - c) / (2 * (3 - c)) < (2 - c) / 2 := by
    apply div_lt_div_of_pos_left <;> linarith
  norm_num
  linarith

/-- **C79.** Catmull-Rom interpolation: when the highest yield is at most `1 + 3 √3` times the lowest, no discount factor
from settlement to a date up to the last maturity but one exceeds one.  Missing for the full property: wider ranges of
yields and later dates. -/
theorem C79_catmull_rom_sharp_partial {D : DayCount ℝ} {N : ℝ} (hD : IsActual D N) (s : Date) (ms : List Date) (ys : List ℝ)
    (hlen : ms.length = ys.length) (hm : ms.Pairwise (· < ·)) (h3 : 3 ≤ ms.length)
    (hy : ∀ y ∈ ys, ∀ z ∈ ys, y ≤ (1 + 3 * √3) * z) (d : Date) (hd : d ≤ ms[ms.length - 2]) (v : ℝ)
    (h : curveDiscount D (Interpolator.catmullRom ℝ) s ms ys s d = .ok (.ok v)) : v ≤ 1 := by
  obtain ⟨lo, hlo, hlo'⟩ := ys.toFinset.exists_min_image id ⟨ys[0]'(by omega), by simp⟩
  obtain ⟨hi, hhi, hhi'⟩ := ys.toFinset.exists_max_image id ⟨ys[0]'(by omega), by simp⟩
  simp only [List.mem_toFinset, id] at hlo hlo' hhi hhi'
  have hr : ∀ y ∈ ys, lo ≤ y ∧ y ≤ hi := fun y hy => ⟨hlo' y hy, hhi' y hy⟩
  obtain ⟨_, hsd, y, he, z, rfl, hz⟩ := (curveDiscount_form hD (.inr (.inl ⟨rfl, rfl⟩)) hlen hm h3).1 h
  obtain rfl : z = 0 := by
    rcases hz with ⟨_, h⟩ | ⟨h, _⟩
    · exact h
    · exact absurd rfl h
  have hinc := pillars_increasing hD s hm ys
  have hl : (pillars N s ms ys).length = ms.length := by simp [pillars]; omega
  obtain ⟨w, hw, h1, -⟩ := C95_catmull_rom_sharp_partial _ hinc (by omega) _
    (inRange_of_value (.inr (.inl ⟨rfl, rfl⟩)) hinc (by omega) he) (by
      simp only [hl, pillars, List.getElem_zip, List.getElem_map]
      have hN := isActual_pos hD
      have : Date.sub d s ≤ Date.sub ms[ms.length - 2] s := by
        have h1 := C04_sub_additive s d ms[ms.length - 2]
        have h2 : 0 ≤ Date.sub ms[ms.length - 2] d := by
          rcases eq_or_lt_of_le hd with h | h
          · rw [← h, (C04_sub_eq_zero d d).2 rfl]
          · exact ((C04_sub_pos _ _).2 h).le
        omega
      gcongr) lo hi (pillars_range hr)
  rw [he] at hw
  obtain rfl : y = w := by simpa using hw
  rw [zero_sub]
  refine Real.exp_le_one_iff.2 (neg_nonpos.2 (mul_nonneg (fraction_nonneg hD hsd) (le_trans ?_ h1)))
  have hb := mul_le_mul_of_nonneg_left (hy hi hhi lo hlo) (show 0 ≤ √3 / 9 by positivity)
  have e : √3 * √3 = 3 := Real.mul_self_sqrt (by norm_num)
  have e2 : √3 / 9 * ((1 + 3 * √3) * lo) = √3 / 9 * lo + lo := by linear_combination lo / 3 * e
  linarith

/-- Yields of 1, 6.1 and 2: more than six times the lowest. -/
example : ∃ v, curveDiscount DayCount.act360 (Interpolator.catmullRom ℝ) gridSettle gridMaturities [1, 6.1, 2] gridSettle
    gridMid1 = .ok (.ok v) ∧ v ≤ 1 := by
  obtain ⟨v, hv⟩ := (C58_domain (N := 360) (.inl ⟨rfl, rfl⟩) (.inr (.inl ⟨rfl, rfl⟩)) gridSettle gridMaturities
    [1, 6.1, 2] rfl (by unfold gridMaturities; decide) (by simp [gridMaturities]) gridSettle gridMid1 le_rfl
    (by decide)).1 ⟨⟨⟨_, List.mem_cons_self, by decide⟩, ⟨⟨2025, 12, 16, by decide⟩, by simp [gridMaturities], by decide⟩⟩,
      .inl rfl⟩
  refine ⟨v, hv, C79_catmull_rom_sharp_partial (N := 360) (.inl ⟨rfl, rfl⟩) gridSettle gridMaturities [1, 6.1, 2] rfl
    (by unfold gridMaturities; decide) (by simp [gridMaturities]) ?_ gridMid1 (by decide) v hv⟩
  have : (1.71 : ℝ) ≤ √3 := Real.le_sqrt_of_sq_le (by norm_num)
  simp only [List.mem_cons, List.not_mem_nil, or_false, forall_eq_or_imp, forall_eq]
  refine ⟨⟨?_, ?_, ?_⟩, ⟨?_, ?_, ?_⟩, ?_, ?_, ?_⟩ <;> linarith

end Qlab.Props
