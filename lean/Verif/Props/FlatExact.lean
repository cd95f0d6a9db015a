import Verif.Props.CurveShape

/-!
# Flat data and parallel shifts, exactly (C38, C41, C80, C81)

What the splines make of constant data on the segments on which they miss them, and what follows for flat curves and for
parallel shifts of the yields.
-/

namespace Qlab.Props

open Spec

/-! ## Catmull-Rom splines through points of equal ordinate -/

/-- Value at `x` of the Catmull-Rom spline through points of ordinate 1, the last three of them at `xp`, `x₀` and `x₁`. -/
def lastWeight {K : Type} [Field K] [LinearOrder K] (xp x₀ x₁ x : K) : K :=
  1 + max 0 ((x - x₀) / (x₁ - x₀)) ^ 3 * ((x₀ - xp) / ((x₁ - x₀) + (x₁ - xp)))

section
variable {K : Type} [Field K] [LinearOrder K] [IsStrictOrderedRing K]

theorem lastWeight_mono {xp x₀ x₁ x z : K} (hp : xp < x₀) (h : x₀ < x₁) (hx : x ≤ z) :
    lastWeight xp x₀ x₁ x ≤ lastWeight xp x₀ x₁ z := by
  unfold lastWeight
  have h1 : (x - x₀) / (x₁ - x₀) ≤ (z - x₀) / (x₁ - x₀) := div_le_div_of_nonneg_right (by linarith) (by linarith)
  have h2 : 0 ≤ (x₀ - xp) / ((x₁ - x₀) + (x₁ - xp)) := div_nonneg (by linarith) (by linarith)
  have h3 := pow_le_pow_left₀ (le_max_left 0 ((x - x₀) / (x₁ - x₀))) (max_le_max (le_refl (0 : K)) h1) 3
  have := mul_le_mul_of_nonneg_right h3 h2
  linarith

theorem lastWeight_eq_one {xp x₀ x₁ x : K} (hp : xp < x₀) (h : x₀ < x₁) : lastWeight xp x₀ x₁ x = 1 ↔ x ≤ x₀ := by
  unfold lastWeight
  have h2 : (x₀ - xp) / ((x₁ - x₀) + (x₁ - xp)) ≠ 0 := (div_pos (by linarith) (by linarith)).ne'
  rw [add_eq_left, mul_eq_zero, or_iff_left h2, pow_eq_zero_iff (by decide), max_eq_left_iff,
    div_le_iff₀ (by linarith), zero_mul, sub_nonpos]

theorem one_le_lastWeight {xp x₀ x₁ : K} (x : K) (hp : xp < x₀) (h : x₀ < x₁) : 1 ≤ lastWeight xp x₀ x₁ x := by
  have h2 : 0 ≤ (x₀ - xp) / ((x₁ - x₀) + (x₁ - xp)) := div_nonneg (by linarith) (by linarith)
  have := mul_nonneg (pow_nonneg (le_max_left 0 ((x - x₀) / (x₁ - x₀))) 3) h2
  unfold lastWeight
  linarith

theorem crLast_flat {xp x₀ x₁ c x : K} (hp : xp < x₀) (h : x₀ < x₁) (hx : x₀ ≤ x) :
    crLast xp c x₀ c x₁ c x = c * lastWeight xp x₀ x₁ x := by
  have e : 1 - 2 * ((x₁ - x₀) / ((x₁ - x₀) + (x₁ - xp))) = (x₀ - xp) / ((x₁ - x₀) + (x₁ - xp)) := by
    have : (x₁ - x₀) + (x₁ - xp) ≠ 0 := ne_of_gt (by linarith)
    rw [mul_div_assoc', one_sub_div this]
    congr 1
    ring
  unfold lastWeight crLast
  rw [max_eq_right (div_nonneg (by linarith) (by linarith)), ← e]
  ring

end

section
variable {K : Type} [Field K] [LinearOrder K] [IsStrictOrderedRing K] [FromInt K] [ExactCast K]

/-- The value of a Catmull-Rom spline through points of equal ordinate, everywhere. -/
theorem catmullRom_flat {pts : List (K × K)} (hs : StrictlyIncreasing pts) {n : Nat} (hn : pts.length = n + 3) {c : K}
    (hc : ∀ p ∈ pts, p.2 = c) {x : K} (hx : InRange pts x) :
    evaluate (Interpolator.catmullRom K) pts x = .ok (.ok (c * lastWeight pts[n].1 pts[n + 1].1 pts[n + 2].1 x)) := by
  have pw := List.pairwise_iff_getElem.1 hs
  have l1 := pw n (n + 1) (by omega) (by omega) (by omega)
  have l2 := pw (n + 1) (n + 2) (by omega) (by omega) (by omega)
  have e : ∀ j (hj : j < pts.length), pts[j].2 = c := fun j hj => hc _ (List.getElem_mem hj)
  rcases le_total x pts[n + 1].1 with h | h
  · rw [(lastWeight_eq_one l1 l2).2 h, mul_one]
    refine C38_constants_partial pts hs (by omega) c hc x hx ?_
    simp only [show pts.length - 2 = n + 1 by omega]
    exact h
  · have h1 : x ≤ pts[n + 2].1 := by
      obtain ⟨-, p, hp, hxp⟩ := hx
      obtain ⟨j, hj, rfl⟩ := List.mem_iff_getElem.1 hp
      rcases Nat.lt_or_ge j (n + 2) with hlt | hge
      · exact hxp.trans (pw j (n + 2) hj (by omega) hlt).le
      · obtain rfl : j = n + 2 := by omega
        exact hxp
    rw [catmullRom_segment hs (by omega) (i := n + 1) (by omega) h h1]
    unfold crSegment
    rw [dif_neg (by omega), dif_pos (by omega)]
    simp only [Nat.add_sub_cancel, e]
    rw [crLast_flat l1 l2 h]

/-- **C38.** Constant data are reproduced exactly up to the last node but one: after it only the constant zero is. -/
theorem C38_constants_iff_partial (pts : List (K × K)) (hs : StrictlyIncreasing pts) (h3 : 3 ≤ pts.length) (c : K)
    (hc : ∀ p ∈ pts, p.2 = c) (x : K) (hx : InRange pts x) :
    evaluate (Interpolator.catmullRom K) pts x = .ok (.ok c) ↔ c = 0 ∨ x ≤ pts[pts.length - 2].1 := by
  obtain ⟨n, hn⟩ : ∃ n, pts.length = n + 3 := ⟨pts.length - 3, by omega⟩
  have pw := List.pairwise_iff_getElem.1 hs
  have l1 := pw n (n + 1) (by omega) (by omega) (by omega)
  have l2 := pw (n + 1) (n + 2) (by omega) (by omega) (by omega)
  rw [catmullRom_flat hs hn hc hx, Rust.ok.injEq, Except.ok.injEq, mul_eq_left₀']
  simp only [show pts.length - 2 = n + 1 by omega]
  rw [lastWeight_eq_one l1 l2]
  exact or_comm
where
  mul_eq_left₀' {a b : K} : a * b = a ↔ b = 1 ∨ a = 0 := by
    rcases eq_or_ne a 0 with rfl | ha
    · simp
    · simp [ha]

end

example : evaluate (Interpolator.catmullRom ℚ) [(0, 3), (1 / 2, 3), (1, 3)] (1 / 2) = .ok (.ok 3) ∧
    evaluate (Interpolator.catmullRom ℚ) [(0, 3), (1 / 2, 3), (1, 3)] (3 / 4) ≠ .ok (.ok 3) := by
  have := fun x hx => C38_constants_iff_partial ([(0, 3), (1 / 2, 3), (1, 3)] : List (ℚ × ℚ))
    (by unfold StrictlyIncreasing; norm_num) (by simp) 3 (by simp) x hx
  refine ⟨(this _ ⟨⟨(0, 3), by simp, by norm_num⟩, ⟨(1, 3), by simp, by norm_num⟩⟩).2 (.inr (by norm_num)),
    (this _ ⟨⟨(0, 3), by simp, by norm_num⟩, ⟨(1, 3), by simp, by norm_num⟩⟩).not.2 (by norm_num)⟩

/-! ## Natural cubic splines through three points of equal ordinate -/

/-- Value at `x` of the natural cubic spline through three points of ordinate 1. -/
def threeWeight {K : Type} [Field K] [LinearOrder K] (x₀ x₁ x₂ x : K) : K :=
  if x ≤ x₁ then 1 + (x - x₀) * (x₁ - x) * (x - x₀ + (x₁ - x₀)) / ((x₁ - x₀) * (2 * (x₂ - x₁) * (x₂ - x₀)))
  else 1 + (x₂ - x) * (x - x₁) * (x₂ - x + (x₂ - x₁)) / ((x₂ - x₁) * (2 * (x₂ - x₁) * (x₂ - x₀)))

section
variable {K : Type} [Field K] [LinearOrder K] [IsStrictOrderedRing K]

theorem one_le_threeWeight {x₀ x₁ x₂ x : K} (h0 : x₀ < x₁) (h1 : x₁ < x₂) (hx : x₀ ≤ x) (hx' : x ≤ x₂) :
    1 ≤ threeWeight x₀ x₁ x₂ x := by
  have a0 := sub_pos.2 h0
  have a1 := sub_pos.2 h1
  have a2 := sub_pos.2 (h0.trans h1)
  have b0 := sub_nonneg.2 hx
  have b1 := sub_nonneg.2 hx'
  unfold threeWeight
  split_ifs with h
  · have := sub_nonneg.2 h
    exact le_add_of_nonneg_right (by positivity)
  · have := sub_nonneg.2 (not_le.1 h).le
    exact le_add_of_nonneg_right (by positivity)

theorem threeWeight_eq_one {x₀ x₁ x₂ x : K} (h0 : x₀ < x₁) (h1 : x₁ < x₂) (hx : x₀ ≤ x) (hx' : x ≤ x₂) :
    threeWeight x₀ x₁ x₂ x = 1 ↔ x = x₀ ∨ x = x₁ ∨ x = x₂ := by
  have a0 := (sub_pos.2 h0).ne'
  have a1 := (sub_pos.2 h1).ne'
  have a2 := (sub_pos.2 (h0.trans h1)).ne'
  unfold threeWeight
  split_ifs with h
  · have a3 : x - x₀ + (x₁ - x₀) ≠ 0 := ne_of_gt (by linarith)
    have a4 : x ≠ x₂ := ne_of_lt (by linarith)
    simp only [add_eq_left, div_eq_zero_iff, mul_eq_zero, a0, a1, a2, a3, a4, sub_eq_zero, or_false, OfNat.ofNat_ne_zero,
      eq_comm (a := x₁)]
  · have a3 : x₂ - x + (x₂ - x₁) ≠ 0 := ne_of_gt (by linarith [not_le.1 h])
    have a4 : x ≠ x₀ := ne_of_gt (by linarith [not_le.1 h])
    simp only [add_eq_left, div_eq_zero_iff, mul_eq_zero, a1, a2, a3, a4, sub_eq_zero, or_false, false_or,
      OfNat.ofNat_ne_zero]
    tauto

theorem cubic_three_left {x₀ x₁ x₂ c x m : K} (h0 : x₀ < x₁) (h1 : x₁ < x₂)
    (hm : m = -(3 * c) / ((x₂ - x₁) * (x₂ - x₀))) :
    NaturalCubic.cubic x₀ c 0 x₁ c m x =
      c * (1 + (x - x₀) * (x₁ - x) * (x - x₀ + (x₁ - x₀)) / ((x₁ - x₀) * (2 * (x₂ - x₁) * (x₂ - x₀)))) := by
  have a0 := (sub_pos.2 h0).ne'
  have a1 := (sub_pos.2 h1).ne'
  have a2 := (sub_pos.2 (h0.trans h1)).ne'
  subst hm
  unfold NaturalCubic.cubic
  field_simp
  ring

theorem cubic_three_right {x₀ x₁ x₂ c x m : K} (h0 : x₀ < x₁) (h1 : x₁ < x₂)
    (hm : m = -(3 * c) / ((x₂ - x₁) * (x₂ - x₀))) :
    NaturalCubic.cubic x₁ c m x₂ c 0 x =
      c * (1 + (x₂ - x) * (x - x₁) * (x₂ - x + (x₂ - x₁)) / ((x₂ - x₁) * (2 * (x₂ - x₁) * (x₂ - x₀)))) := by
  have a1 := (sub_pos.2 h1).ne'
  have a2 := (sub_pos.2 (h0.trans h1)).ne'
  subst hm
  unfold NaturalCubic.cubic
  field_simp
  ring

end

section
variable {K : Type} [Field K] [LinearOrder K] [IsStrictOrderedRing K] [FromInt K] [ExactCast K]

/-- The value of a natural cubic spline through three points of equal ordinate, everywhere. -/
theorem naturalCubic_flat_three {x₀ x₁ x₂ : K} (c : K) (h0 : x₀ < x₁) (h1 : x₁ < x₂) {x : K} (hx : x₀ ≤ x)
    (hx' : x ≤ x₂) : evaluate (Interpolator.naturalCubic K) [(x₀, c), (x₁, c), (x₂, c)] x =
      .ok (.ok (c * threeWeight x₀ x₁ x₂ x)) := by
  let p : Nat → K × K := fun i => if i = 0 then (x₀, c) else if i = 1 then (x₁, c) else (x₂, c)
  have he : tab 3 p = [(x₀, c), (x₁, c), (x₂, c)] := by simp [tab, p, List.range_succ]
  have p0 : p 0 = (x₀, c) := rfl
  have p1 : p 1 = (x₁, c) := rfl
  have p2 : p 2 = (x₂, c) := rfl
  have hs : StrictlyIncreasing (tab 3 p) := by
    rw [he]; unfold StrictlyIncreasing; simp [h0, h1, h0.trans h1]
  have hM := NaturalCubic.kink_three hs
  have hz := NaturalCubic.curvature_zero 3 p
  have hl : NaturalCubic.curvature 3 p 2 = 0 := NaturalCubic.curvature_last (le_refl 3) p
  simp only [NaturalCubic.kink, NaturalCubic.gap, NaturalCubic.chord, hz, hl, Nat.reduceAdd, p0, p1, p2,
    sub_self, zero_div, mul_zero, zero_add, add_zero] at hM
  have a1 := (sub_pos.2 h1).ne'
  have a2 := (sub_pos.2 (h0.trans h1)).ne'
  have hM' : NaturalCubic.curvature 3 p 1 = -(3 * c) / ((x₂ - x₁) * (x₂ - x₀)) := by
    have : (x₁ - x₀ + (x₂ - x₁)) / 3 * NaturalCubic.curvature 3 p 1 = -(c / (x₂ - x₁)) := by linarith
    rw [show x₁ - x₀ + (x₂ - x₁) = x₂ - x₀ by ring] at this
    field_simp at this ⊢
    linear_combination this
  unfold threeWeight
  split_ifs with h
  · have := NaturalCubic.segment (le_refl 3) hs (i := 0) (by omega) (x := x) hx h
    rw [he, hz, p0, p1] at this
    rw [this, cubic_three_left h0 h1 hM']
  · have := NaturalCubic.segment (le_refl 3) hs (i := 1) (by omega) (x := x) (not_le.1 h).le hx'
    rw [he, p1, p2, hl] at this
    rw [this, cubic_three_right h0 h1 hM']

/-- **C41.** Three points of the same ordinate `c`: between them the natural cubic spline has this value only if `c = 0`. -/
theorem C41_three_constants_iff_partial (x₀ x₁ x₂ c : K) (h0 : x₀ < x₁) (h1 : x₁ < x₂) (x : K) (hx : x₀ ≤ x)
    (hx' : x ≤ x₂) : evaluate (Interpolator.naturalCubic K) [(x₀, c), (x₁, c), (x₂, c)] x = .ok (.ok c) ↔
      c = 0 ∨ x = x₀ ∨ x = x₁ ∨ x = x₂ := by
  rw [naturalCubic_flat_three c h0 h1 hx hx', Rust.ok.injEq, Except.ok.injEq,
    C38_constants_iff_partial.mul_eq_left₀', threeWeight_eq_one h0 h1 hx hx', or_comm]

end

example : evaluate (Interpolator.naturalCubic ℚ) [(0, 5), (1, 5), (4, 5)] 2 ≠ .ok (.ok 5) :=
  (C41_three_constants_iff_partial 0 1 4 5 (by norm_num) (by norm_num) 2 (by norm_num) (by norm_num)).not.2 (by norm_num)

/-! ## Flat curves -/

section
variable {I : Interpolator ℝ} {D : DayCount ℝ} {N : ℝ}

/-- A discount factor from the settlement date of the curve. -/
theorem discount_from_settlement (hD : IsActual D N) {n : Nat} (hI : IsShippedInterpolator I n) {s : Date} {ms : List Date}
    {ys : List ℝ} (hlen : ms.length = ys.length) (hm : ms.Pairwise (· < ·)) (hn : n ≤ ms.length) {d : Date} (hd : s < d)
    {w y : ℝ} (hw : evaluate I (pillars N s ms ys) ((Date.sub d s : ℝ) / N) = .ok (.ok w)) :
    curveDiscount D I s ms ys s d = .ok (.ok (Real.exp (-((Date.sub d s : ℝ) / N * y)))) ↔ w = y := by
  rw [curveDiscount_form hD hI hlen hm hn]
  have hp := fraction_pos hD hd
  constructor
  · rintro ⟨-, -, y2, h2, z1, e, h⟩
    rw [hw] at h2
    obtain rfl := Except.ok.inj (Rust.ok.inj h2)
    obtain rfl : z1 = 0 := by
      rcases h with ⟨-, h⟩ | ⟨h, -⟩
      · exact h
      · exact absurd rfl h
    have e := Real.exp_injective e
    exact (mul_left_cancel₀ hp.ne' (by linarith)).symm
  · rintro rfl
    exact ⟨le_rfl, hd.le, w, hw, 0, by rw [zero_sub], .inl ⟨rfl, rfl⟩⟩

/-- **C80.** Catmull-Rom spline, Act/360 or Act/365, every quoted yield equal to `y`: the discount factor from the
settlement date to a later date of the curve is `exp (-(days / N) y)` exactly up to the last pillar but one, and after it
only if `y = 0`. -/
theorem C80_catmull_rom_iff_partial (hD : IsActual D N) (s : Date) (ms : List Date) (ys : List ℝ)
    (hlen : ms.length = ys.length) (hm : ms.Pairwise (· < ·)) (h3 : 3 ≤ ms.length) (y : ℝ) (hy : ∀ z ∈ ys, z = y)
    (d : Date) (hd : s < d) (hc : Covers ms d) :
    curveDiscount D (Interpolator.catmullRom ℝ) s ms ys s d = .ok (.ok (Real.exp (-((Date.sub d s : ℝ) / N * y)))) ↔
      y = 0 ∨ d ≤ ms[ms.length - 2] := by
  have hinc := pillars_increasing hD s hm ys
  have hl : (pillars N s ms ys).length = ms.length := by simp [pillars]; omega
  have hyp : ∀ p ∈ pillars N s ms ys, p.2 = y := fun p hp => hy _ (List.of_mem_zip hp).2
  have hr : InRange (pillars N s ms ys) ((Date.sub d s : ℝ) / N) := (inRange_iff_covers hD s ms ys hlen d).2 hc
  have key := C38_constants_iff_partial _ hinc (by omega) y hyp _ hr
  obtain ⟨n, hn⟩ : ∃ n, ms.length = n + 3 := ⟨ms.length - 3, by omega⟩
  have hv := catmullRom_flat hinc (n := n) (by omega) hyp hr
  rw [hv, Rust.ok.injEq, Except.ok.injEq] at key
  rw [discount_from_settlement hD (n := 3) (.inr (.inl ⟨rfl, rfl⟩)) hlen hm h3 hd hv, key]
  simp only [hl, pillars, List.getElem_zip, List.getElem_map]
  rw [← not_lt, isActual_lt hD, not_lt]

/-- **C80.** Natural cubic spline with three pillars, every quoted yield equal to `y`: the discount factor from the
settlement date to a later date of the curve is `exp (-(days / N) y)` at the pillars, and elsewhere only if `y = 0`. -/
theorem C80_natural_cubic_iff_partial (hD : IsActual D N) (s m₀ m₁ m₂ : Date) (h0 : m₀ < m₁) (h1 : m₁ < m₂) (y : ℝ)
    (d : Date) (hd : s < d) (hl : m₀ ≤ d) (hr : d ≤ m₂) :
    curveDiscount D (Interpolator.naturalCubic ℝ) s [m₀, m₁, m₂] [y, y, y] s d =
      .ok (.ok (Real.exp (-((Date.sub d s : ℝ) / N * y)))) ↔ y = 0 ∨ d = m₀ ∨ d = m₁ ∨ d = m₂ := by
  have lt : ∀ a b, ((Date.sub a s : ℝ) / N < (Date.sub b s : ℝ) / N) ↔ a < b := isActual_lt hD s
  have le : ∀ a b, ((Date.sub a s : ℝ) / N ≤ (Date.sub b s : ℝ) / N) ↔ a ≤ b := fun a b => by
    rw [← not_lt, lt, not_lt]
  have eq : ∀ a b, ((Date.sub a s : ℝ) / N = (Date.sub b s : ℝ) / N) ↔ a = b := fun a b => by
    rw [le_antisymm_iff, le, le, ← le_antisymm_iff]
  have hm : [m₀, m₁, m₂].Pairwise (· < ·) := by simp [h0, h1, h0.trans h1]
  have hv := naturalCubic_flat_three y ((lt _ _).2 h0) ((lt _ _).2 h1) ((le _ _).2 hl) ((le _ _).2 hr)
  have key := C41_three_constants_iff_partial _ _ _ y ((lt _ _).2 h0) ((lt _ _).2 h1) _ ((le _ _).2 hl) ((le _ _).2 hr)
  rw [hv, Rust.ok.injEq, Except.ok.injEq] at key
  rw [discount_from_settlement hD (n := 3) (.inr (.inr ⟨rfl, rfl⟩)) (ys := [y, y, y]) rfl hm le_rfl hd hv, key, eq, eq, eq]

/-- **C60.** The last pillar of a Catmull-Rom curve is repriced exactly if its yield is zero. -/
theorem C60_last_pillar_iff_partial (hD : IsActual D N) (s : Date) (ms : List Date) (ys : List ℝ)
    (hlen : ms.length = ys.length) (hm : ms.Pairwise (· < ·)) (n : Nat) (hn : ms.length = n + 3) (hs : s < ms[n + 2]) :
    curveDiscount D (Interpolator.catmullRom ℝ) s ms ys s ms[n + 2] =
      .ok (.ok (Real.exp (-((Date.sub ms[n + 2] s : ℝ) / N * ys[n + 2])))) ↔ ys[n + 2] = 0 := by
  have hinc := pillars_increasing hD s hm ys
  have hl : (pillars N s ms ys).length = n + 3 := by simp [pillars]; omega
  have pw := List.pairwise_iff_getElem.1 hinc
  have l1 := pw n (n + 1) (by omega) (by omega) (by omega)
  have l2 := pw (n + 1) (n + 2) (by omega) (by omega) (by omega)
  have hv := C38_last_node_value_partial _ hinc n hl
  have ha : (pillars N s ms ys)[n + 2].1 - (pillars N s ms ys)[n + 1].1 < (2 * ((pillars N s ms ys)[n + 2].1 -
      (pillars N s ms ys)[n + 1].1) + ((pillars N s ms ys)[n + 1].1 - (pillars N s ms ys)[n].1)) / 2 := by linarith
  have hb : (2 - 2 * (((pillars N s ms ys)[n + 2].1 - (pillars N s ms ys)[n + 1].1) / (2 * ((pillars N s ms ys)[n + 2].1 -
      (pillars N s ms ys)[n + 1].1) + ((pillars N s ms ys)[n + 1].1 - (pillars N s ms ys)[n].1)))) ≠ 1 := by
    have : ((pillars N s ms ys)[n + 2].1 - (pillars N s ms ys)[n + 1].1) / (2 * ((pillars N s ms ys)[n + 2].1 -
      (pillars N s ms ys)[n + 1].1) + ((pillars N s ms ys)[n + 1].1 - (pillars N s ms ys)[n].1)) < 1 / 2 := by
      rw [div_lt_iff₀ (by linarith)]; linarith
    intro h
    linarith
  simp only at hv
  rw [show (pillars N s ms ys)[n + 2].1 = (Date.sub ms[n + 2] s : ℝ) / N by simp [pillars],
    show (pillars N s ms ys)[n + 2].2 = ys[n + 2] by simp [pillars]] at hv
  rw [show (pillars N s ms ys)[n + 2].1 = (Date.sub ms[n + 2] s : ℝ) / N by simp [pillars]] at hb
  rw [discount_from_settlement hD (n := 3) (.inr (.inl ⟨rfl, rfl⟩)) hlen hm (by omega) hs hv, mul_eq_right₀']
  exact or_iff_right hb
where
  mul_eq_right₀' {a b : ℝ} : a * b = b ↔ a = 1 ∨ b = 0 := by
    rcases eq_or_ne b 0 with rfl | hb
    · simp
    · simp [hb]

example : curveDiscount DayCount.act360 (Interpolator.catmullRom ℝ) gridSettle gridMaturities [2, 3, 0] gridSettle
    ⟨2025, 12, 16, by decide⟩ = .ok (.ok (Real.exp (-((Date.sub ⟨2025, 12, 16, by decide⟩ gridSettle : ℝ) / 360 * 0)))) :=
  (C60_last_pillar_iff_partial (.inl ⟨rfl, rfl⟩) gridSettle gridMaturities [2, 3, 0] rfl gridMaturities_increasing 0 rfl
    (by decide)).2 rfl

/-- A flat curve over pillars after 360, 720 and 1080 days, 540 days from settlement: right with the Catmull-Rom spline,
wrong with the natural cubic one. -/
example : curveDiscount DayCount.act360 (Interpolator.catmullRom ℝ) gridSettle gridMaturities [1, 1, 1] gridSettle
      gridMid1 = .ok (.ok (Real.exp (-((Date.sub gridMid1 gridSettle : ℝ) / 360 * 1)))) ∧
    curveDiscount DayCount.act360 (Interpolator.naturalCubic ℝ) gridSettle gridMaturities [1, 1, 1] gridSettle
      gridMid1 ≠ .ok (.ok (Real.exp (-((Date.sub gridMid1 gridSettle : ℝ) / 360 * 1)))) := by
  constructor
  · refine (C80_catmull_rom_iff_partial (.inl ⟨rfl, rfl⟩) gridSettle gridMaturities _ rfl gridMaturities_increasing
      (by simp [gridMaturities]) 1 (by simp) _ (by decide) ?_).2 (.inr (by decide))
    exact ⟨⟨_, List.mem_cons_self, by decide⟩, ⟨⟨2025, 12, 16, by decide⟩, by simp [gridMaturities], by decide⟩⟩
  · exact (C80_natural_cubic_iff_partial (.inl ⟨rfl, rfl⟩) gridSettle _ _ _ (by decide) (by decide) 1 gridMid1
      (by decide) (by decide) (by decide)).not.2 (by simp [gridMid1])

/-! ## Parallel shifts -/

/-- Yields shifted by `δ`: the interpolated yield changes by what the interpolator makes of the constant `δ`. -/
theorem shifted_value (hD : IsActual D N) {n : Nat} (hI : IsShippedInterpolator I n) {s : Date} {ms : List Date}
    {ys : List ℝ} (hlen : ms.length = ys.length) (hm : ms.Pairwise (· < ·)) (hn : n ≤ ms.length) {δ t y z : ℝ}
    (hy : evaluate I (pillars N s ms ys) t = .ok (.ok y))
    (hz : evaluate I (pillars N s ms (List.replicate ms.length δ)) t = .ok (.ok z)) :
    evaluate I (pillars N s ms (ys.map (· + δ))) t = .ok (.ok (y + z)) := by
  have hc : List.zipWith (fun y z => 1 * y + 1 * z) ys (List.replicate ms.length δ) = ys.map (· + δ) := by
    apply List.ext_getElem
    · simp [hlen]
    · intro i _ _; simp
  have := C83_combination hI _ ys (List.replicate ms.length δ) (by simpa using hlen) (by simp) (by simpa using hn)
    (isActual_increasing hD s hm) 1 1 _ y z hy hz
  rw [hc] at this
  simpa using this

/-- Discount factors under a parallel shift, when the shift grows with time in the zero rates. -/
theorem shifted_discount (hD : IsActual D N) {n : Nat} (hI : IsShippedInterpolator I n) {s : Date} {ms : List Date}
    {ys : List ℝ} (hlen : ms.length = ys.length) (hm : ms.Pairwise (· < ·)) (hn : n ≤ ms.length) {δ : ℝ} (hδ : 0 ≤ δ)
    {w : ℝ → ℝ} {d1 d2 : Date} (hw : ∀ d, Covers ms d → evaluate I (pillars N s ms (List.replicate ms.length δ))
      ((Date.sub d s : ℝ) / N) = .ok (.ok (δ * w ((Date.sub d s : ℝ) / N))))
    (hpos : 0 ≤ w ((Date.sub d2 s : ℝ) / N)) (hmono : d1 = s ∨ w ((Date.sub d1 s : ℝ) / N) ≤ w ((Date.sub d2 s : ℝ) / N))
    {v v' : ℝ} (h : curveDiscount D I s ms ys d1 d2 = .ok (.ok v))
    (h' : curveDiscount D I s ms (ys.map (· + δ)) d1 d2 = .ok (.ok v')) : v' ≤ v := by
  obtain ⟨hs, hd, y2, hy2, z1, rfl, hz⟩ := (curveDiscount_form hD hI hlen hm hn).1 h
  obtain ⟨-, -, y2', hy2', z1', rfl, hz'⟩ := (curveDiscount_form hD hI (by simpa using hlen) hm hn).1 h'
  have sh : ∀ d y y', evaluate I (pillars N s ms ys) ((Date.sub d s : ℝ) / N) = .ok (.ok y) →
      evaluate I (pillars N s ms (ys.map (· + δ))) ((Date.sub d s : ℝ) / N) = .ok (.ok y') →
      y' = y + δ * w ((Date.sub d s : ℝ) / N) := by
    intro d y y' hy hy'
    have hr := inRange_of_value hI (pillars_increasing hD s hm ys) (by simp [pillars]; omega) hy
    have hcov : Covers ms d := (inRange_iff_covers hD s ms ys hlen d).1 hr
    have := shifted_value hD hI hlen hm hn hy (hw d hcov)
    rw [hy'] at this
    exact Except.ok.inj (Rust.ok.inj this)
  obtain rfl := sh d2 y2 y2' hy2 hy2'
  rw [Real.exp_le_exp]
  have t1 : 0 ≤ (Date.sub d1 s : ℝ) / N := fraction_nonneg hD hs
  have t2 : 0 ≤ (Date.sub d2 s : ℝ) / N := fraction_nonneg hD (hs.trans hd)
  have t12 : (Date.sub d1 s : ℝ) / N ≤ (Date.sub d2 s : ℝ) / N := by
    rw [← not_lt, isActual_lt hD, not_lt]; exact hd
  have p2 := mul_nonneg t2 (mul_nonneg hδ hpos)
  rcases hz with ⟨e, rfl⟩ | ⟨e, y1, hy1, rfl⟩
  · rcases hz' with ⟨-, rfl⟩ | ⟨e', -⟩
    · linarith
    · exact absurd e e'
  · rcases hz' with ⟨e', -⟩ | ⟨-, y1', hy1', rfl⟩
    · exact absurd e' e
    · obtain rfl := sh d1 y1 y1' hy1 hy1'
      have hm' := hmono.resolve_left e
      have := (mul_le_mul_of_nonneg_left (mul_le_mul_of_nonneg_left hm' hδ) t1).trans
        (mul_le_mul_of_nonneg_right t12 (mul_nonneg hδ hpos))
      linarith

/-- **C81.** Catmull-Rom spline, Act/360 or Act/365: raising all yields by the same amount never raises the price of a bond
without negative flows, on any settlement date, the last period included.  Missing for the full property: single
yields, where it is violated (`C81_refuted_catmull_rom`). -/
theorem C81_parallel_catmull_rom_partial (hD : IsActual D N) (s : Date) (ms : List Date) (ys : List ℝ)
    (hlen : ms.length = ys.length) (hm : ms.Pairwise (· < ·)) (h3 : 3 ≤ ms.length) (δ : ℝ) (hδ : 0 ≤ δ) (b : Bond ℝ)
    (settle : Date) (hb : ∀ g ∈ remaining b settle, 0 ≤ g.paymentAmount) (v v' : ℝ)
    (hv : curvePrice D (Interpolator.catmullRom ℝ) s ms ys b settle = .ok (.ok v))
    (hv' : curvePrice D (Interpolator.catmullRom ℝ) s ms (ys.map (· + δ)) b settle = .ok (.ok v')) : v' ≤ v := by
  obtain ⟨c, hc, hv⟩ := curvePrice_eq_ok.1 hv
  obtain ⟨c', hc', hv'⟩ := curvePrice_eq_ok.1 hv'
  refine C53_monotone D D settle c' c b v' v hv' hv hb fun g _ df' df h' h => ?_
  have hle : settle ≤ g.paymentDate := ((C45_value_iff D c _ _ _).1 h).2.1
  obtain ⟨n, hn⟩ : ∃ n, ms.length = n + 3 := ⟨ms.length - 3, by omega⟩
  have hinc := pillars_increasing hD s hm (List.replicate ms.length δ)
  have hl : (pillars N s ms (List.replicate ms.length δ)).length = n + 3 := by simp [pillars]; omega
  have pw := List.pairwise_iff_getElem.1 hinc
  have l1 := pw n (n + 1) (by omega) (by omega) (by omega)
  have l2 := pw (n + 1) (n + 2) (by omega) (by omega) (by omega)
  refine shifted_discount hD (n := 3) (.inr (.inl ⟨rfl, rfl⟩)) hlen hm h3 hδ (w := lastWeight _ _ _) (d1 := settle)
    (d2 := g.paymentDate) (fun d hd => catmullRom_flat hinc hl ?_ ?_) ?_ (.inr (lastWeight_mono l1 l2 ?_))
    (by unfold curveDiscount; rw [hc]; exact h) (by unfold curveDiscount; rw [hc']; exact h')
  · exact fun p hp => (List.mem_replicate.1 (List.of_mem_zip hp).2).2
  · exact (inRange_iff_covers hD s ms _ (by simp) d).2 hd
  · exact zero_le_one.trans (one_le_lastWeight _ l1 l2)
  · rw [← not_lt, isActual_lt hD, not_lt]; exact hle

/-- **C81.** Natural cubic spline with three pillars: raising all yields by the same amount never raises the price, at the
settlement date of the curve, of a bond without negative flows.  Missing for the full property: later settlement dates,
where it is violated (`C81_refuted_parallel`), and single yields. -/
theorem C81_parallel_three_partial (hD : IsActual D N) (s m₀ m₁ m₂ : Date) (h0 : m₀ < m₁) (h1 : m₁ < m₂) (y₀ y₁ y₂ δ : ℝ)
    (hδ : 0 ≤ δ) (b : Bond ℝ) (hb : ∀ g ∈ remaining b s, 0 ≤ g.paymentAmount) (v v' : ℝ)
    (hv : curvePrice D (Interpolator.naturalCubic ℝ) s [m₀, m₁, m₂] [y₀, y₁, y₂] b s = .ok (.ok v))
    (hv' : curvePrice D (Interpolator.naturalCubic ℝ) s [m₀, m₁, m₂] [y₀ + δ, y₁ + δ, y₂ + δ] b s = .ok (.ok v')) :
    v' ≤ v := by
  obtain ⟨c, hc, hv⟩ := curvePrice_eq_ok.1 hv
  obtain ⟨c', hc', hv'⟩ := curvePrice_eq_ok.1 hv'
  refine C53_monotone D D s c' c b v' v hv' hv hb fun g _ df' df h' h => ?_
  have hm : [m₀, m₁, m₂].Pairwise (· < ·) := by simp [h0, h1, h0.trans h1]
  have lt : ∀ a b, ((Date.sub a s : ℝ) / N < (Date.sub b s : ℝ) / N) ↔ a < b := isActual_lt hD s
  have le : ∀ a b, ((Date.sub a s : ℝ) / N ≤ (Date.sub b s : ℝ) / N) ↔ a ≤ b := fun a b => by
    rw [← not_lt, lt, not_lt]
  have cov : ∀ d, Covers [m₀, m₁, m₂] d → m₀ ≤ d ∧ d ≤ m₂ := by
    rintro d ⟨⟨a, ha, had⟩, ⟨e, he, hed⟩⟩
    simp only [List.mem_cons, List.not_mem_nil, or_false] at ha he
    constructor
    · rcases ha with rfl | rfl | rfl
      · exact had
      · exact h0.le.trans had
      · exact (h0.trans h1).le.trans had
    · rcases he with rfl | rfl | rfl
      · exact hed.trans (h0.trans h1).le
      · exact hed.trans h1.le
      · exact hed
  have hd' : curveDiscount D (Interpolator.naturalCubic ℝ) s [m₀, m₁, m₂] [y₀, y₁, y₂] s g.paymentDate = .ok (.ok df) := by
    unfold curveDiscount; rw [hc]; exact h
  obtain ⟨-, -, y2, hy2, -⟩ := (curveDiscount_form hD (n := 3) (.inr (.inr ⟨rfl, rfl⟩)) rfl hm le_rfl).1 hd'
  have hr := inRange_of_value (n := 3) (.inr (.inr ⟨rfl, rfl⟩)) (pillars_increasing hD s hm [y₀, y₁, y₂]) le_rfl hy2
  obtain ⟨g0, g1⟩ := cov _ ((inRange_iff_covers hD s [m₀, m₁, m₂] [y₀, y₁, y₂] rfl g.paymentDate).1 hr)
  refine shifted_discount hD (n := 3) (.inr (.inr ⟨rfl, rfl⟩)) rfl hm le_rfl hδ (w := threeWeight ((Date.sub m₀ s : ℝ) / N)
    ((Date.sub m₁ s : ℝ) / N) ((Date.sub m₂ s : ℝ) / N)) (d1 := s)
    (d2 := g.paymentDate) (fun d hd => ?_) ?_ (.inl rfl) hd' (ys := [y₀, y₁, y₂])
    (by unfold curveDiscount; simp only [List.map_cons, List.map_nil]; rw [hc']; exact h')
  · exact naturalCubic_flat_three δ ((lt _ _).2 h0) ((lt _ _).2 h1) ((le _ _).2 (cov d hd).1) ((le _ _).2 (cov d hd).2)
  · exact zero_le_one.trans (one_le_threeWeight ((lt _ _).2 h0) ((lt _ _).2 h1) ((le _ _).2 g0) ((le _ _).2 g1))

end

/-- A settlement date 3600 days before the first pillar of `gridMaturities`. -/
def earlySettle : Date := ⟨2014, 2, 17, by decide⟩

theorem early_pillars (y : ℝ) : pillars 360 earlySettle gridMaturities [y, y, y] = [(10, y), (11, y), (12, y)] := by
  have h1 : Date.sub ⟨2023, 12, 27, by decide⟩ earlySettle = 3600 := by decide +kernel
  have h2 : Date.sub ⟨2024, 12, 21, by decide⟩ earlySettle = 3960 := by decide +kernel
  have h3 : Date.sub ⟨2025, 12, 16, by decide⟩ earlySettle = 4320 := by decide +kernel
  simp only [pillars, gridMaturities, List.map_cons, List.map_nil, h1, h2, h3, List.zip_cons_cons, List.zip_nil_left]
  norm_num

/-- **C81 (violated).** Natural cubic spline with pillars after ten, eleven and twelve years: raising all yields from 0 to
`y` raises the price, half a year before the last pillar, of a payment on the last pillar. -/
theorem C81_refuted_parallel (y : ℝ) (hy : 0 < y) : ∃ v v',
    curvePrice DayCount.act360 (Interpolator.naturalCubic ℝ) earlySettle gridMaturities [0, 0, 0]
      (zeroBond ⟨2025, 12, 16, by decide⟩) gridMid2 = .ok (.ok v) ∧
    curvePrice DayCount.act360 (Interpolator.naturalCubic ℝ) earlySettle gridMaturities [y, y, y]
      (zeroBond ⟨2025, 12, 16, by decide⟩) gridMid2 = .ok (.ok v') ∧ v < v' := by
  have t1 : (Date.sub gridMid2 earlySettle : ℝ) / 360 = 23 / 2 := by
    rw [show Date.sub gridMid2 earlySettle = 4140 by decide +kernel]; norm_num
  have t2 : (Date.sub ⟨2025, 12, 16, by decide⟩ earlySettle : ℝ) / 360 = 12 := by
    rw [show Date.sub ⟨2025, 12, 16, by decide⟩ earlySettle = 4320 by decide +kernel]; norm_num
  have w1 : threeWeight (10 : ℝ) 11 12 (23 / 2) = 35 / 32 := by unfold threeWeight; norm_num
  have w2 : threeWeight (10 : ℝ) 11 12 12 = 1 := by unfold threeWeight; norm_num
  have key : ∀ z : ℝ, curvePrice DayCount.act360 (Interpolator.naturalCubic ℝ) earlySettle gridMaturities [z, z, z]
      (zeroBond ⟨2025, 12, 16, by decide⟩) gridMid2 = .ok (.ok (Real.exp (23 / 2 * (z * (35 / 32)) - 12 * (z * 1)))) := by
    intro z
    refine zeroBond_price (by decide) ?_
    rw [curveDiscount_form (N := 360) (n := 3) (.inl ⟨rfl, rfl⟩) (.inr (.inr ⟨rfl, rfl⟩)) rfl gridMaturities_increasing
      le_rfl, early_pillars, t1, t2]
    refine ⟨by decide, by decide, _, naturalCubic_flat_three z (by norm_num) (by norm_num) (by norm_num) (by norm_num),
      _, ?_, .inr ⟨by decide, _, naturalCubic_flat_three z (by norm_num) (by norm_num) (by norm_num) (by norm_num), rfl⟩⟩
    rw [w1, w2]
  refine ⟨_, _, key 0, key y, Real.exp_lt_exp.2 ?_⟩
  linarith

/-- The hypotheses of the two theorems on parallel shifts are met by a payment between the first two pillars. -/
example : (∃ v v', curvePrice DayCount.act360 (Interpolator.catmullRom ℝ) gridSettle gridMaturities [2, 3, 5]
      (zeroBond gridMid1) gridSettle = .ok (.ok v) ∧
    curvePrice DayCount.act360 (Interpolator.catmullRom ℝ) gridSettle gridMaturities ([2, 3, 5].map (· + 1))
      (zeroBond gridMid1) gridSettle = .ok (.ok v') ∧ v' ≤ v) ∧
    ∃ v v', curvePrice DayCount.act360 (Interpolator.naturalCubic ℝ) gridSettle gridMaturities [2, 3, 5]
      (zeroBond gridMid1) gridSettle = .ok (.ok v) ∧
    curvePrice DayCount.act360 (Interpolator.naturalCubic ℝ) gridSettle gridMaturities [2 + 1, 3 + 1, 5 + 1]
      (zeroBond gridMid1) gridSettle = .ok (.ok v') ∧ v' ≤ v := by
  have hb : ∀ g ∈ remaining (zeroBond gridMid1) gridSettle, 0 ≤ g.paymentAmount := by
    intro g hg
    have := (List.mem_filter.1 hg).1
    simp only [zeroBond, List.mem_singleton] at this
    simp [this]
  constructor
  · have p1 := zeroBond_price (by decide) (grid_discount (.inr (.inl ⟨rfl, rfl⟩)) 2 3 5 _ _ gridMid1 (by decide) grid_mid1
      (grid_catmullRom 2 3 5))
    have p2 := zeroBond_price (by decide) (grid_discount (.inr (.inl ⟨rfl, rfl⟩)) (2 + 1) (3 + 1) (5 + 1) _ _ gridMid1
      (by decide) grid_mid1 (grid_catmullRom _ _ _))
    exact ⟨_, _, p1, p2, C81_parallel_catmull_rom_partial (.inl ⟨rfl, rfl⟩) _ _ _ rfl gridMaturities_increasing le_rfl 1
      zero_le_one _ _ hb _ _ p1 p2⟩
  · have p1 := zeroBond_price (by decide) (grid_discount (.inr (.inr ⟨rfl, rfl⟩)) 2 3 5 _ _ gridMid1 (by decide) grid_mid1
      (grid_naturalCubic 2 3 5).1)
    have p2 := zeroBond_price (by decide) (grid_discount (.inr (.inr ⟨rfl, rfl⟩)) (2 + 1) (3 + 1) (5 + 1) _ _ gridMid1
      (by decide) grid_mid1 (grid_naturalCubic _ _ _).1)
    exact ⟨_, _, p1, p2, C81_parallel_three_partial (.inl ⟨rfl, rfl⟩) _ _ _ _ (by decide) (by decide) 2 3 5 1 zero_le_one _ hb
      _ _ p1 p2⟩

end Qlab.Props
