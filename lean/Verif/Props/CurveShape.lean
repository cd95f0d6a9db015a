import Verif.Props.BondValue
import Verif.Props.Superposition

/-!
# Shape of curves and prices (C79-C82)

Nonnegative yields, flat curves, rising yields, and prices on two settlement dates.
-/

namespace Qlab.Props

open Spec

section
variable {I : Interpolator ℝ} {D : DayCount ℝ} {N : ℝ}

/-- The points a curve is fitted to, with Act/360 or Act/365. -/
noncomputable abbrev pillars (N : ℝ) (s : Date) (ms : List Date) (ys : List ℝ) : List (ℝ × ℝ) :=
  (ms.map fun m => (Date.sub m s : ℝ) / N).zip ys

theorem pillars_increasing (hD : IsActual D N) (s : Date) {ms : List Date} (hm : ms.Pairwise (· < ·)) (ys : List ℝ) :
    StrictlyIncreasing (pillars N s ms ys) := strictlyIncreasing_zip (isActual_increasing hD s hm) ys

/-- A discount factor in terms of interpolated yields. -/
theorem curveDiscount_form (hD : IsActual D N) {n : Nat} (hI : IsShippedInterpolator I n) {s : Date} {ms : List Date}
    {ys : List ℝ} (hlen : ms.length = ys.length) (hm : ms.Pairwise (· < ·)) (hn : n ≤ ms.length) {d1 d2 : Date} {v : ℝ} :
    curveDiscount D I s ms ys d1 d2 = .ok (.ok v) ↔ s ≤ d1 ∧ d1 ≤ d2 ∧
      ∃ y2, evaluate I (pillars N s ms ys) ((Date.sub d2 s : ℝ) / N) = .ok (.ok y2) ∧
      ∃ z1, v = Real.exp (z1 - (Date.sub d2 s : ℝ) / N * y2) ∧ ((d1 = s ∧ z1 = 0) ∨
        (d1 ≠ s ∧ ∃ y1, evaluate I (pillars N s ms ys) ((Date.sub d1 s : ℝ) / N) = .ok (.ok y1) ∧
          z1 = (Date.sub d1 s : ℝ) / N * y1)) := by
  have hf := isActual_fractions hD s ms
  obtain ⟨st, hst, hev⟩ := fit_ok hI (pillars_increasing hD s hm ys) (by simp [pillars]; omega)
  have e2 : D s d2 = _ := isActual_eq hD s d2
  have e1 : D s d1 = _ := isActual_eq hD s d1
  unfold curveDiscount
  rw [(C44_fit D I s ms _ ys hlen hf).1 st hst]
  simp only [Rust.ok_bind, hev]
  rw [C45_value_iff]
  simp only [e1, e2, Rust.ok.injEq, Except.ok.injEq]
  constructor
  · rintro ⟨hs, hd, t2, y2, rfl, hy2, ⟨rfl, rfl⟩ | ⟨hne, t1, y1, rfl, hy1, rfl⟩⟩
    · exact ⟨hs, hd, y2, hy2, 0, by rw [zero_sub, neg_mul]; rfl, .inl ⟨rfl, rfl⟩⟩
    · exact ⟨hs, hd, y2, hy2, _, rfl, .inr ⟨hne, y1, hy1, rfl⟩⟩
  · rintro ⟨hs, hd, y2, hy2, z1, rfl, ⟨rfl, rfl⟩ | ⟨hne, y1, hy1, rfl⟩⟩
    · exact ⟨hs, hd, _, y2, rfl, hy2, .inl ⟨rfl, by rw [zero_sub, neg_mul]; rfl⟩⟩
    · exact ⟨hs, hd, _, y2, rfl, hy2, .inr ⟨hne, _, y1, rfl, hy1, rfl⟩⟩

theorem fraction_nonneg (hD : IsActual D N) {s d : Date} (h : s ≤ d) : 0 ≤ (Date.sub d s : ℝ) / N := by
  refine div_nonneg ?_ (isActual_pos hD).le
  rcases eq_or_lt_of_le h with rfl | h
  · simp [C04_sub_serial]
  · exact_mod_cast ((C04_sub_pos s d).2 h).le

theorem fraction_pos (hD : IsActual D N) {s d : Date} (h : s < d) : 0 < (Date.sub d s : ℝ) / N :=
  div_pos (by exact_mod_cast (C04_sub_pos s d).2 h) (isActual_pos hD)

/-- A value of the linear interpolator lies between two of the ordinates. -/
theorem linear_value_between {pts : List (ℝ × ℝ)} (hs : StrictlyIncreasing pts) (h2 : 2 ≤ pts.length) {x v : ℝ}
    (h : evaluate (Interpolator.linear ℝ) pts x = .ok (.ok v)) :
    ∃ i x₀ y₀ x₁ y₁, IsSegment pts i x₀ y₀ x₁ y₁ ∧ x₀ ≤ x ∧ x ≤ x₁ ∧ x₀ < x₁ ∧
      v * (x₁ - x₀) = y₀ * (x₁ - x) + y₁ * (x - x₀) := by
  have hb : ¬ BelowAll pts x := fun hb => by rw [(C35_domain pts hs h2 x).1 hb] at h; simp at h
  have ha : ¬ AboveAll pts x := fun ha => by rw [(C35_domain pts hs h2 x).2.1 ha] at h; simp at h
  obtain ⟨i, x₀, y₀, x₁, y₁, hseg, h0, h1⟩ := exists_segment pts hs h2 x hb ha
  obtain ⟨w, hw, e, _⟩ := C35_between pts hs i x₀ y₀ x₁ y₁ x hseg h0 h1
  rw [h] at hw
  obtain rfl : v = w := by simpa using hw
  exact ⟨i, x₀, y₀, x₁, y₁, hseg, h0, h1, (linear_segment pts hs i _ _ _ _ x hseg h0 h1).1, e⟩

/-! ## C79 -/

/-- **C79.** Linear interpolation, Act/360 or Act/365: if no yield is negative, no discount factor from settlement
exceeds one; if all are positive, a later date has a discount factor below one.  Missing for the full property: the
two splines. -/
theorem C79_linear_partial (hD : IsActual D N) (s : Date) (ms : List Date) (ys : List ℝ) (hlen : ms.length = ys.length)
    (hm : ms.Pairwise (· < ·)) (h2 : 2 ≤ ms.length) (d : Date) (v : ℝ)
    (h : curveDiscount D (Interpolator.linear ℝ) s ms ys s d = .ok (.ok v)) :
    ((∀ y ∈ ys, 0 ≤ y) → v ≤ 1) ∧ ((∀ y ∈ ys, 0 < y) → s < d → v < 1) := by
  obtain ⟨_, hd, y2, hy2, z1, rfl, hz⟩ := (curveDiscount_form hD (.inl ⟨rfl, rfl⟩) hlen hm h2).1 h
  have hz0 : z1 = 0 := by
    rcases hz with ⟨_, h⟩ | ⟨h, _⟩
    · exact h
    · exact absurd rfl h
  obtain ⟨i, x₀, y₀, x₁, y₁, ⟨g0, g1⟩, h0, h1, hlt, e⟩ :=
    linear_value_between (pillars_increasing hD s hm ys) (by simp [pillars]; omega) hy2
  have m0 : y₀ ∈ ys := (List.of_mem_zip (List.mem_of_getElem? g0)).2
  have m1 : y₁ ∈ ys := (List.of_mem_zip (List.mem_of_getElem? g1)).2
  have hp : 0 < x₁ - x₀ := sub_pos.2 hlt
  rw [hz0, zero_sub]
  constructor
  · intro hy
    rw [Real.exp_le_one_iff, neg_nonpos]
    refine mul_nonneg (fraction_nonneg hD hd) (nonneg_of_mul_nonneg_left ?_ hp)
    rw [e]
    exact add_nonneg (mul_nonneg (hy _ m0) (by linarith)) (mul_nonneg (hy _ m1) (by linarith))
  · intro hy hsd
    rw [Real.exp_lt_one_iff, neg_lt_zero]
    refine mul_pos (fraction_pos hD hsd) ((mul_pos_iff_of_pos_right hp).1 ?_)
    rw [e]
    rcases eq_or_lt_of_le h0 with hh | hh
    · rw [← hh]; nlinarith [hy _ m0]
    · exact add_pos_of_nonneg_of_pos (mul_nonneg (hy _ m0).le (by linarith)) (mul_pos (hy _ m1) (by linarith))

/-- A settlement date with pillars 360, 720 and 1080 days later. -/
def gridSettle : Date := ⟨2023, 1, 1, by decide⟩
/-- The pillars. -/
def gridMaturities : List Date := [⟨2023, 12, 27, by decide⟩, ⟨2024, 12, 21, by decide⟩, ⟨2025, 12, 16, by decide⟩]
/-- 540 days after settlement. -/
def gridMid1 : Date := ⟨2024, 6, 24, by decide⟩
/-- 900 days after settlement. -/
def gridMid2 : Date := ⟨2025, 6, 19, by decide⟩

theorem gridMaturities_increasing : gridMaturities.Pairwise (· < ·) := by unfold gridMaturities; decide

theorem grid_pillars (a b c : ℝ) :
    pillars 360 gridSettle gridMaturities [a, b, c] = [(1, a), (2, b), (3, c)] := by
  have h1 : Date.sub ⟨2023, 12, 27, by decide⟩ gridSettle = 360 := by decide +kernel
  have h2 : Date.sub ⟨2024, 12, 21, by decide⟩ gridSettle = 720 := by decide +kernel
  have h3 : Date.sub ⟨2025, 12, 16, by decide⟩ gridSettle = 1080 := by decide +kernel
  simp only [pillars, gridMaturities, List.map_cons, List.map_nil, h1, h2, h3, List.zip_cons_cons, List.zip_nil_left]
  norm_num

theorem grid_mid1 : (Date.sub gridMid1 gridSettle : ℝ) / 360 = 3 / 2 := by
  rw [show Date.sub gridMid1 gridSettle = 540 by decide +kernel]; norm_num

theorem grid_mid2 : (Date.sub gridMid2 gridSettle : ℝ) / 360 = 5 / 2 := by
  rw [show Date.sub gridMid2 gridSettle = 900 by decide +kernel]; norm_num

theorem grid_increasing (a b c : ℝ) : StrictlyIncreasing [(1, a), (2, b), ((3 : ℝ), c)] := by
  unfold StrictlyIncreasing; simp; norm_num

theorem grid_catmullRom (a b c : ℝ) : evaluate (Interpolator.catmullRom ℝ) [(1, a), (2, b), (3, c)] (3 / 2) =
    .ok (.ok ((7 * a + 10 * b - c) / 16)) := by
  rw [catmullRom_segment (grid_increasing a b c) (i := 0) (by simp) (by simp) (by norm_num) (by norm_num)]
  simp only [crSegment, dite_true, crFirst, List.getElem_cons_zero, List.getElem_cons_succ]
  congr 2
  norm_num
  ring

theorem grid_naturalCubic (a b c : ℝ) :
    evaluate (Interpolator.naturalCubic ℝ) [(1, a), (2, b), (3, c)] (3 / 2) =
      .ok (.ok ((a + b) / 2 - 3 / 32 * (a - 2 * b))) ∧
    evaluate (Interpolator.naturalCubic ℝ) [(1, a), (2, b), (3, c)] (5 / 2) =
      .ok (.ok ((b + c) / 2 - 3 / 32 * (a - 2 * b))) := by
  let p : Nat → ℝ × ℝ := fun i => if i = 0 then (1, a) else if i = 1 then (2, b) else (3, c)
  have he : tab 3 p = [(1, a), (2, b), (3, c)] := by simp [tab, p, List.range_succ]
  have hs : StrictlyIncreasing (tab 3 p) := he ▸ grid_increasing a b c
  have hM := NaturalCubic.kink_three hs
  have hg0 : NaturalCubic.gap p 0 = 1 := by simp [NaturalCubic.gap, p]; norm_num
  have hg1 : NaturalCubic.gap p 1 = 1 := by simp [NaturalCubic.gap, p]; norm_num
  have hc0 : NaturalCubic.chord p 0 = b - a := by simp [NaturalCubic.chord, p]; norm_num
  have hc1 : NaturalCubic.chord p 1 = c - b := by simp [NaturalCubic.chord, p]; norm_num
  have h0 := NaturalCubic.curvature_zero 3 p
  have h2 : NaturalCubic.curvature 3 p 2 = 0 := NaturalCubic.curvature_last (le_refl 3) p
  simp only [NaturalCubic.kink, hg0, hg1, hc0, hc1, h0, h2, Nat.zero_add] at hM
  have hM' : NaturalCubic.curvature 3 p 1 = 3 / 2 * (a - 2 * b) := by
    simp only [p, if_neg (show ¬ (2 : Nat) = 0 by decide), if_neg (show ¬ (2 : Nat) = 1 by decide)] at hM ⊢
    linarith
  constructor
  · have := NaturalCubic.segment (le_refl 3) hs (i := 0) (by omega) (x := 3 / 2) (by simp [p]; norm_num)
      (by simp [p]; norm_num)
    rw [he, h0, hM'] at this
    rw [this]
    congr 2
    simp [p, NaturalCubic.cubic]
    ring
  · have := NaturalCubic.segment (le_refl 3) hs (i := 1) (by omega) (x := 5 / 2) (by simp [p]; norm_num)
      (by simp [p]; norm_num)
    rw [he, h2, hM'] at this
    rw [this]
    congr 2
    simp [p, NaturalCubic.cubic]
    ring

theorem grid_discount {I : Interpolator ℝ} {n : Nat} (hI : IsShippedInterpolator I n) (a b c t y : ℝ) (d : Date)
    (hd : gridSettle ≤ d) (ht : (Date.sub d gridSettle : ℝ) / 360 = t)
    (hy : evaluate I [(1, a), (2, b), (3, c)] t = .ok (.ok y)) :
    curveDiscount DayCount.act360 I gridSettle gridMaturities [a, b, c] gridSettle d = .ok (.ok (Real.exp (-(t * y)))) := by
  have hn : n ≤ gridMaturities.length := by
    rcases hI with ⟨_, rfl⟩ | ⟨_, rfl⟩ | ⟨_, rfl⟩ <;> simp [gridMaturities]
  rw [curveDiscount_form (N := 360) (.inl ⟨rfl, rfl⟩) hI rfl gridMaturities_increasing hn, grid_pillars, ht]
  exact ⟨le_rfl, hd, y, hy, 0, by rw [zero_sub], .inl ⟨rfl, rfl⟩⟩

/-- **C79 (violated).** Yields 0, 0 and 1 after one, two and three years: the Catmull-Rom spline gives a discount factor
above one between the first two pillars. -/
theorem C79_refuted_catmull_rom :
    ∃ v, curveDiscount DayCount.act360 (Interpolator.catmullRom ℝ) gridSettle gridMaturities [0, 0, 1] gridSettle gridMid1 =
      .ok (.ok v) ∧ 1 < v :=
  ⟨_, grid_discount (.inr (.inl ⟨rfl, rfl⟩)) 0 0 1 _ _ gridMid1 (by decide) grid_mid1 (grid_catmullRom 0 0 1),
    Real.one_lt_exp_iff.2 (by norm_num)⟩

/-- **C79 (violated).** Yields 1, 0 and 0: the natural cubic spline gives a discount factor above one between the last
two pillars. -/
theorem C79_refuted_natural_cubic :
    ∃ v, curveDiscount DayCount.act360 (Interpolator.naturalCubic ℝ) gridSettle gridMaturities [1, 0, 0] gridSettle gridMid2 =
      .ok (.ok v) ∧ 1 < v :=
  ⟨_, grid_discount (.inr (.inr ⟨rfl, rfl⟩)) 1 0 0 _ _ gridMid2 (by decide) grid_mid2 (grid_naturalCubic 1 0 0).2,
    Real.one_lt_exp_iff.2 (by norm_num)⟩

/-- The hypotheses of `C79_linear_partial` are met. -/
example : ∃ v, curveDiscount DayCount.act365 (Interpolator.linear ℝ) exSettle exMaturities exYields exSettle
    ⟨2024, 8, 1, by decide⟩ = .ok (.ok v) ∧ v < 1 := by
  obtain ⟨v, hv⟩ := (C58_domain (N := 365) (.inr ⟨rfl, rfl⟩) (.inl ⟨rfl, rfl⟩) exSettle exMaturities exYields rfl
    exMaturities_increasing (by simp [exMaturities]) exSettle ⟨2024, 8, 1, by decide⟩ le_rfl (by decide)).1
    ⟨⟨⟨_, List.mem_cons_self, by decide⟩, ⟨⟨2024, 11, 7, by decide⟩, by simp [exMaturities], by decide⟩⟩, .inl rfl⟩
  refine ⟨v, hv, (C79_linear_partial (N := 365) (.inr ⟨rfl, rfl⟩) exSettle exMaturities exYields rfl
    exMaturities_increasing (by simp [exMaturities]) _ v hv).2 ?_ (by decide)⟩
  intro y hy
  simp only [exYields, List.mem_cons, List.not_mem_nil, or_false] at hy
  rcases hy with rfl | rfl | rfl <;> norm_num

/-! ## C80 -/

theorem flat_value (hD : IsActual D N) (s : Date) (ms : List Date) (ys : List ℝ) (hlen : ms.length = ys.length)
    (hm : ms.Pairwise (· < ·)) (y : ℝ) (hy : ∀ z ∈ ys, z = y) (d2 : Date)
    (hI : (I = Interpolator.linear ℝ ∧ 2 ≤ ms.length) ∨ (I = Interpolator.naturalCubic ℝ ∧ 4 ≤ ms.length) ∨
      (I = Interpolator.catmullRom ℝ ∧ ∃ h : 3 ≤ ms.length, d2 ≤ ms[ms.length - 2])) (d : Date) (hdd : d ≤ d2)
    (hc : Covers ms d) : evaluate I (pillars N s ms ys) ((Date.sub d s : ℝ) / N) = .ok (.ok y) := by
  have hinc := pillars_increasing hD s hm ys
  have hl : (pillars N s ms ys).length = ms.length := by simp [pillars]; omega
  have hyp : ∀ p ∈ pillars N s ms ys, p.2 = y := fun p hp => hy _ (List.of_mem_zip hp).2
  have hr : InRange (pillars N s ms ys) ((Date.sub d s : ℝ) / N) := (inRange_iff_covers hD s ms ys hlen d).2 hc
  rcases hI with ⟨rfl, hn⟩ | ⟨rfl, hn⟩ | ⟨rfl, hn, hlast⟩
  · have := C35_affine _ hinc (by omega) 0 y (fun p hp => by rw [hyp p hp]; ring) ((Date.sub d s : ℝ) / N)
      (fun hb => by obtain ⟨⟨p, hp, h⟩, _⟩ := hr; exact absurd (hb p hp) (not_lt.2 h))
      (fun ha => by obtain ⟨_, ⟨p, hp, h⟩⟩ := hr; exact absurd (ha p hp) (not_lt.2 h))
    simpa using this
  · have := C41_lines_partial _ hinc (by omega) y 0 (fun p hp => by rw [hyp p hp]; ring) _ hr
    simpa using this
  · refine C38_constants_partial _ hinc (by omega) y hyp _ hr ?_
    simp only [hl, pillars, List.getElem_zip, List.getElem_map]
    exact not_lt.1 fun hlt => absurd (le_trans hdd hlast) (not_le.2 ((isActual_lt hD s _ _).1 hlt))

/-- **C80.** With Act/360 or Act/365 and every quoted yield equal to `y`, the discount factor between two dates of the
curve is `exp (-(days / N) y)`: for linear interpolation, for the natural cubic spline with four pillars or more, and
for the Catmull-Rom spline up to the last pillar but one.  Missing for the full property: the natural cubic spline
with three pillars, and the last period of the Catmull-Rom spline. -/
theorem C80_flat_partial (hD : IsActual D N) (s : Date) (ms : List Date) (ys : List ℝ) (hlen : ms.length = ys.length)
    (hm : ms.Pairwise (· < ·)) (y : ℝ) (hy : ∀ z ∈ ys, z = y) (d1 d2 : Date) (hs : s ≤ d1) (hd : d1 ≤ d2)
    (h2 : Covers ms d2) (h1 : d1 = s ∨ Covers ms d1)
    (hI : (I = Interpolator.linear ℝ ∧ 2 ≤ ms.length) ∨ (I = Interpolator.naturalCubic ℝ ∧ 4 ≤ ms.length) ∨
      (I = Interpolator.catmullRom ℝ ∧ ∃ h : 3 ≤ ms.length, d2 ≤ ms[ms.length - 2])) :
    curveDiscount D I s ms ys d1 d2 = .ok (.ok (Real.exp (-((Date.sub d2 d1 : ℝ) / N * y)))) := by
  have key := fun d hdd hc => flat_value hD s ms ys hlen hm y hy d2 hI d hdd hc
  obtain ⟨n, hn, hn'⟩ : ∃ n, IsShippedInterpolator I n ∧ n ≤ ms.length := by
    rcases hI with ⟨h, hn⟩ | ⟨h, hn⟩ | ⟨h, hn, _⟩
    · exact ⟨2, .inl ⟨h, rfl⟩, hn⟩
    · exact ⟨3, .inr (.inr ⟨h, rfl⟩), by omega⟩
    · exact ⟨3, .inr (.inl ⟨h, rfl⟩), hn⟩
  rw [curveDiscount_form hD hn hlen hm hn']
  refine ⟨hs, hd, y, key d2 le_rfl h2, (Date.sub d1 s : ℝ) / N * y, ?_, ?_⟩
  · congr 1
    have : (Date.sub d2 d1 : ℝ) = Date.sub d2 s - Date.sub d1 s := by
      simp only [C04_sub_serial]; push_cast; ring
    rw [this]; ring
  · by_cases hds : d1 = s
    · left
      refine ⟨hds, ?_⟩
      simp [hds, C04_sub_serial]
    · exact .inr ⟨hds, y, key d1 hd (h1.resolve_left hds), rfl⟩

/-- **C80 (violated).** On every flat curve with a nonzero yield, the Catmull-Rom spline misprices the last pillar. -/
theorem C80_refuted_catmull_rom (hD : IsActual D N) (s : Date) (ms : List Date) (hm : ms.Pairwise (· < ·)) (n : Nat)
    (hn : ms.length = n + 3) (y : ℝ) (hy : y ≠ 0) (hs : s < ms[n + 2]) :
    ∃ v, curveDiscount D (Interpolator.catmullRom ℝ) s ms (List.replicate (n + 3) y) s ms[n + 2] = .ok (.ok v) ∧
      v ≠ Real.exp (-((Date.sub ms[n + 2] s : ℝ) / N * y)) := by
  have hf := isActual_fractions hD s ms
  have := C60_refuted (ys := List.replicate (n + 3) y) (by simp [hn]) hf (isActual_increasing hD s hm) n hn hs.le
    (by simpa using (fraction_pos hD hs).ne') (by simpa using hy)
  simpa using this

example := C80_refuted_catmull_rom (D := DayCount.act365) (N := 365) (.inr ⟨rfl, rfl⟩) exSettle exMaturities
  exMaturities_increasing 0 rfl 0.03 (by norm_num) (by decide)

/-- **C80 (violated).** A flat curve with yield 1 and three pillars: the natural cubic spline discounts 18 months as if
the yield were `35/32`. -/
theorem C80_refuted_natural_cubic :
    curveDiscount DayCount.act360 (Interpolator.naturalCubic ℝ) gridSettle gridMaturities [1, 1, 1] gridSettle gridMid1 =
      .ok (.ok (Real.exp (-(3 / 2 * (35 / 32))))) := by
  have := grid_discount (.inr (.inr ⟨rfl, rfl⟩)) 1 1 1 _ _ gridMid1 (by decide) grid_mid1 (grid_naturalCubic 1 1 1).1
  rw [this]
  norm_num

/-- The hypotheses of `C80_flat_partial` are met, here by the Catmull-Rom spline. -/
example : curveDiscount DayCount.act360 (Interpolator.catmullRom ℝ) gridSettle gridMaturities [0.03, 0.03, 0.03]
    ⟨2024, 1, 1, by decide⟩ gridMid1 =
      .ok (.ok (Real.exp (-((Date.sub gridMid1 ⟨2024, 1, 1, by decide⟩ : ℝ) / 360 * 0.03)))) := by
  refine C80_flat_partial (.inl ⟨rfl, rfl⟩) gridSettle gridMaturities _ rfl gridMaturities_increasing 0.03 (by simp) _ _
    (by decide) (by decide) ?_ (.inr ?_) (.inr (.inr ⟨rfl, by simp [gridMaturities], by decide⟩))
  · exact ⟨⟨_, List.mem_cons_self, by decide⟩, ⟨⟨2025, 12, 16, by decide⟩, by simp [gridMaturities], by decide⟩⟩
  · exact ⟨⟨_, List.mem_cons_self, by decide⟩, ⟨⟨2025, 12, 16, by decide⟩, by simp [gridMaturities], by decide⟩⟩

/-! ## C81 -/

/-- **C81.** Linear interpolation, Act/360 or Act/365: raising any of the quoted yields never raises the price, at the
settlement date of the curve, of a bond without negative flows.  Missing for the full property: the two splines. -/
theorem C81_linear_partial (hD : IsActual D N) (s : Date) (ms : List Date) (ys ys' : List ℝ)
    (hlen : ms.length = ys.length) (hy : List.Forall₂ (· ≤ ·) ys ys') (hm : ms.Pairwise (· < ·)) (h2 : 2 ≤ ms.length)
    (b : Bond ℝ) (hb : ∀ g ∈ remaining b s, 0 ≤ g.paymentAmount) (v v' : ℝ)
    (hv : curvePrice D (Interpolator.linear ℝ) s ms ys b s = .ok (.ok v))
    (hv' : curvePrice D (Interpolator.linear ℝ) s ms ys' b s = .ok (.ok v')) : v' ≤ v := by
  have hlen' : ms.length = ys'.length := hlen.trans hy.length_eq
  have key : ∀ d df df', curveDiscount D (Interpolator.linear ℝ) s ms ys s d = .ok (.ok df) →
      curveDiscount D (Interpolator.linear ℝ) s ms ys' s d = .ok (.ok df') → df' ≤ df := by
    intro d df df' h h'
    obtain ⟨_, hd, y, hyv, z, rfl, hz⟩ := (curveDiscount_form hD (.inl ⟨rfl, rfl⟩) hlen hm h2).1 h
    obtain ⟨_, _, y', hyv', z', rfl, hz'⟩ := (curveDiscount_form hD (.inl ⟨rfl, rfl⟩) hlen' hm h2).1 h'
    have e : z = 0 := by
      rcases hz with ⟨_, h⟩ | ⟨h, _⟩
      · exact h
      · exact absurd rfl h
    have e' : z' = 0 := by
      rcases hz' with ⟨_, h⟩ | ⟨h, _⟩
      · exact h
      · exact absurd rfl h
    obtain ⟨i, x₀, y₀, x₁, y₁, ⟨g0, g1⟩, h0, h1, hlt, he⟩ :=
      linear_value_between (pillars_increasing hD s hm ys) (by simp [pillars]; omega) hyv
    have hi0 := (List.getElem?_eq_some_iff.1 g0)
    have hi1 := (List.getElem?_eq_some_iff.1 g1)
    obtain ⟨k0, k0'⟩ := hi0
    obtain ⟨k1, k1'⟩ := hi1
    simp only [pillars, List.length_zip, List.length_map, List.getElem_zip, List.getElem_map, Prod.mk.injEq] at k0 k0' k1 k1'
    have hs' : IsSegment (pillars N s ms ys') i x₀ (ys'[i]'(by omega)) x₁ (ys'[i + 1]'(by omega)) := by
      constructor
      · rw [List.getElem?_eq_getElem (by simp [pillars]; omega)]
        simp only [pillars, List.getElem_zip, List.getElem_map, k0'.1]
      · rw [List.getElem?_eq_getElem (by simp [pillars]; omega)]
        simp only [pillars, List.getElem_zip, List.getElem_map, k1'.1]
    obtain ⟨w, hw, ew, _⟩ := C35_between _ (pillars_increasing hD s hm ys') i _ _ _ _ _ hs' h0 h1
    rw [hyv'] at hw
    obtain rfl : y' = w := by simpa using hw
    have q0 : y₀ ≤ ys'[i]'(by omega) := by rw [← k0'.2]; exact hy.get _ _
    have q1 : y₁ ≤ ys'[i + 1]'(by omega) := by rw [← k1'.2]; exact hy.get _ _
    have hyy : y ≤ y' := by
      refine le_of_mul_le_mul_right ?_ (sub_pos.2 hlt)
      rw [he, ew]
      have := mul_le_mul_of_nonneg_right q0 (sub_nonneg.2 h1)
      have := mul_le_mul_of_nonneg_right q1 (sub_nonneg.2 h0)
      linarith
    rw [e, e', Real.exp_le_exp]
    have := mul_le_mul_of_nonneg_left hyy (fraction_nonneg hD hd)
    linarith
  unfold curvePrice at hv hv'
  unfold curveDiscount at key
  rw [Rust.bind_eq_ok] at hv hv'
  obtain ⟨r, hr, hv⟩ := hv
  obtain ⟨r', hr', hv'⟩ := hv'
  match r, r' with
  | .error _, _ => simp at hv
  | .ok _, .error _ => simp at hv'
  | .ok c, .ok c' =>
    simp only [hr, hr', Rust.ok_bind] at key
    exact C53_monotone D D s c' c b v' v hv' hv hb fun g _ df df' h h' => key _ _ _ h' h

/-- **C81.** A parallel shift of the yields by `δ` multiplies the discount factor between two dates of the curve by
`exp (-(days / N) δ)`: for linear interpolation, for the natural cubic spline with four pillars or more, and for the
Catmull-Rom spline up to the last pillar but one.  Missing for the full property: the natural cubic spline with three
pillars, and the last period of the Catmull-Rom spline. -/
theorem C81_shift_partial (hD : IsActual D N) (s : Date) (ms : List Date) (ys : List ℝ) (hlen : ms.length = ys.length)
    (hm : ms.Pairwise (· < ·)) (δ : ℝ) (d1 d2 : Date)
    (hI : (I = Interpolator.linear ℝ ∧ 2 ≤ ms.length) ∨ (I = Interpolator.naturalCubic ℝ ∧ 4 ≤ ms.length) ∨
      (I = Interpolator.catmullRom ℝ ∧ ∃ h : 3 ≤ ms.length, d2 ≤ ms[ms.length - 2])) (v : ℝ)
    (h : curveDiscount D I s ms ys d1 d2 = .ok (.ok v)) :
    curveDiscount D I s ms (ys.map (· + δ)) d1 d2 = .ok (.ok (v * Real.exp (-((Date.sub d2 d1 : ℝ) / N * δ)))) := by
  obtain ⟨n, hn, hn'⟩ : ∃ n, IsShippedInterpolator I n ∧ n ≤ ms.length := by
    rcases hI with ⟨h, hn⟩ | ⟨h, hn⟩ | ⟨h, hn, _⟩
    · exact ⟨2, .inl ⟨h, rfl⟩, hn⟩
    · exact ⟨3, .inr (.inr ⟨h, rfl⟩), by omega⟩
    · exact ⟨3, .inr (.inl ⟨h, rfl⟩), hn⟩
  obtain ⟨hs, hd, y2, hy2, z1, rfl, hz⟩ := (curveDiscount_form hD hn hlen hm hn').1 h
  have hc : List.zipWith (fun y z => 1 * y + 1 * z) ys (List.replicate ms.length δ) = ys.map (· + δ) := by
    apply List.ext_getElem
    · simp [hlen]
    · intro i _ _; simp
  have key : ∀ d, d ≤ d2 → ∀ y, evaluate I (pillars N s ms ys) ((Date.sub d s : ℝ) / N) = .ok (.ok y) →
      evaluate I (pillars N s ms (ys.map (· + δ))) ((Date.sub d s : ℝ) / N) = .ok (.ok (y + δ)) := by
    intro d hdd y hy
    have hr := inRange_of_value hn (pillars_increasing hD s hm ys) (by simp [pillars]; omega) hy
    have hcov : Covers ms d := (inRange_iff_covers hD s ms ys hlen d).1 hr
    have hflat := flat_value hD s ms (List.replicate ms.length δ) (by simp) hm δ
      (fun z hz => (List.mem_replicate.1 hz).2) d2 hI d hdd hcov
    have := C83_combination hn _ ys (List.replicate ms.length δ) (by simpa using hlen) (by simp) (by simpa using hn')
      (isActual_increasing hD s hm) 1 1 _ y δ hy hflat
    rw [hc] at this
    simpa using this
  rw [curveDiscount_form hD hn (by simpa using hlen) hm hn']
  have hsub : (Date.sub d2 d1 : ℝ) = Date.sub d2 s - Date.sub d1 s := by
    simp only [C04_sub_serial]; push_cast; ring
  refine ⟨hs, hd, _, key d2 le_rfl y2 hy2, z1 + (Date.sub d1 s : ℝ) / N * δ, ?_, ?_⟩
  · rw [← Real.exp_add, hsub]
    congr 1
    ring
  · rcases hz with ⟨e, rfl⟩ | ⟨e, y1, hy1, rfl⟩
    · left
      refine ⟨e, ?_⟩
      simp [e, C04_sub_serial]
    · exact .inr ⟨e, _, key d1 hd y1 hy1, by ring⟩

example (v : ℝ) (h : curveDiscount DayCount.act365 (Interpolator.linear ℝ) exSettle exMaturities exYields exSettle
    ⟨2024, 8, 1, by decide⟩ = .ok (.ok v)) := C81_shift_partial (N := 365) (.inr ⟨rfl, rfl⟩) _ _ _ rfl
  exMaturities_increasing 0.001 _ _ (.inl ⟨rfl, by decide⟩) v h

theorem curvePrice_eq_ok {s settle : Date} {ms : List Date} {ys : List ℝ} {b : Bond ℝ} {v : ℝ} :
    curvePrice D I s ms ys b settle = .ok (.ok v) ↔ ∃ c, YieldCurve.new D I s ms ys = .ok (.ok c) ∧
      b.discountedValue D settle c = .ok (.ok v) := by
  unfold curvePrice
  rw [Rust.bind_eq_ok]
  constructor
  · rintro ⟨r, hr, h⟩
    match r with
    | .error _ => simp at h
    | .ok c => exact ⟨c, hr, h⟩
  · rintro ⟨c, hc, h⟩
    exact ⟨_, hc, h⟩

/-- **C81.** Raising all yields by the same amount never raises the price of a bond without negative flows, on any
settlement date: for linear interpolation, and for the natural cubic spline with four pillars or more.  Missing for the
full property: the natural cubic spline with three pillars, and the Catmull-Rom spline. -/
theorem C81_parallel_partial (hD : IsActual D N) (s : Date) (ms : List Date) (ys : List ℝ)
    (hlen : ms.length = ys.length) (hm : ms.Pairwise (· < ·)) (δ : ℝ) (hδ : 0 ≤ δ)
    (hI : (I = Interpolator.linear ℝ ∧ 2 ≤ ms.length) ∨ (I = Interpolator.naturalCubic ℝ ∧ 4 ≤ ms.length))
    (b : Bond ℝ) (settle : Date) (hb : ∀ g ∈ remaining b settle, 0 ≤ g.paymentAmount) (v v' : ℝ)
    (hv : curvePrice D I s ms ys b settle = .ok (.ok v))
    (hv' : curvePrice D I s ms (ys.map (· + δ)) b settle = .ok (.ok v')) : v' ≤ v := by
  obtain ⟨c, hc, hv⟩ := curvePrice_eq_ok.1 hv
  obtain ⟨c', hc', hv'⟩ := curvePrice_eq_ok.1 hv'
  refine C53_monotone D D settle c' c b v' v hv' hv hb fun g _ df' df h' h => ?_
  have e := C81_shift_partial hD s ms ys hlen hm δ settle g.paymentDate
    (hI.imp id fun h => Or.inl h) df (by unfold curveDiscount; rw [hc]; exact h)
  have e' : curveDiscount D I s ms (ys.map (· + δ)) settle g.paymentDate = .ok (.ok df') := by
    unfold curveDiscount; rw [hc']; exact h'
  rw [e'] at e
  obtain rfl := Except.ok.inj (Rust.ok.inj e)
  refine mul_le_of_le_one_right (C46_positive D c _ _ _ h).le ?_
  rw [Real.exp_le_one_iff, neg_nonpos]
  have hle : settle ≤ g.paymentDate := ((C45_value_iff D c _ _ _).1 h).2.1
  exact mul_nonneg (fraction_nonneg hD hle) hδ

/-- A bond paying 1 on one date. -/
noncomputable def zeroBond (d : Date) : Bond ℝ := ⟨"", [⟨d, d, 1⟩]⟩

theorem zeroBond_price {s settle d : Date} {ms : List Date} {ys : List ℝ} {v : ℝ} (hd : settle < d)
    (h : curveDiscount D I s ms ys settle d = .ok (.ok v)) :
    curvePrice D I s ms ys (zeroBond d) settle = .ok (.ok v) := by
  unfold curveDiscount at h
  rw [Rust.bind_eq_ok] at h
  obtain ⟨r, hr, h⟩ := h
  match r with
  | .error _ => simp at h
  | .ok c =>
    refine curvePrice_eq_ok.2 ⟨c, hr, ?_⟩
    simp only at h
    simp only [Bond.discountedValue, zeroBond, Bond.pvLoop, if_pos hd, h, Rust.ok_bind]
    simp

/-- **C81 (violated).** Catmull-Rom spline: raising the yield of the last pillar raises the price of a payment between the
first two pillars. -/
theorem C81_refuted_catmull_rom :
    ∃ v v', curvePrice DayCount.act360 (Interpolator.catmullRom ℝ) gridSettle gridMaturities [0, 0, 0] (zeroBond gridMid1)
        gridSettle = .ok (.ok v) ∧
      curvePrice DayCount.act360 (Interpolator.catmullRom ℝ) gridSettle gridMaturities [0, 0, 1] (zeroBond gridMid1)
        gridSettle = .ok (.ok v') ∧ v < v' :=
  ⟨_, _, zeroBond_price (by decide)
      (grid_discount (.inr (.inl ⟨rfl, rfl⟩)) 0 0 0 _ _ gridMid1 (by decide) grid_mid1 (grid_catmullRom 0 0 0)),
    zeroBond_price (by decide)
      (grid_discount (.inr (.inl ⟨rfl, rfl⟩)) 0 0 1 _ _ gridMid1 (by decide) grid_mid1 (grid_catmullRom 0 0 1)),
    Real.exp_lt_exp.2 (by norm_num)⟩

/-- **C81 (violated).** Natural cubic spline: raising the yield of the first pillar raises the price of a payment between
the last two. -/
theorem C81_refuted_natural_cubic :
    ∃ v v', curvePrice DayCount.act360 (Interpolator.naturalCubic ℝ) gridSettle gridMaturities [0, 0, 0] (zeroBond gridMid2)
        gridSettle = .ok (.ok v) ∧
      curvePrice DayCount.act360 (Interpolator.naturalCubic ℝ) gridSettle gridMaturities [1, 0, 0] (zeroBond gridMid2)
        gridSettle = .ok (.ok v') ∧ v < v' :=
  ⟨_, _, zeroBond_price (by decide)
      (grid_discount (.inr (.inr ⟨rfl, rfl⟩)) 0 0 0 _ _ gridMid2 (by decide) grid_mid2 (grid_naturalCubic 0 0 0).2),
    zeroBond_price (by decide)
      (grid_discount (.inr (.inr ⟨rfl, rfl⟩)) 1 0 0 _ _ gridMid2 (by decide) grid_mid2 (grid_naturalCubic 1 0 0).2),
    Real.exp_lt_exp.2 (by norm_num)⟩

/-- The hypotheses of `C81_linear_partial` are met: a one-period bond, and a rise of one yield. -/
example : ∃ v v', curvePrice DayCount.act365 (Interpolator.linear ℝ) exSettle exMaturities exYields
      (zeroBond ⟨2024, 8, 1, by decide⟩) exSettle = .ok (.ok v) ∧
    curvePrice DayCount.act365 (Interpolator.linear ℝ) exSettle exMaturities [0.02, 0.0219, 0.03]
      (zeroBond ⟨2024, 8, 1, by decide⟩) exSettle = .ok (.ok v') ∧ v' ≤ v := by
  have hdom : ∀ ys : List ℝ, ys.length = 3 → ∃ v, curveDiscount DayCount.act365 (Interpolator.linear ℝ) exSettle
      exMaturities ys exSettle ⟨2024, 8, 1, by decide⟩ = .ok (.ok v) := fun ys hl =>
    (C58_domain (N := 365) (.inr ⟨rfl, rfl⟩) (.inl ⟨rfl, rfl⟩) exSettle exMaturities ys (by simp [hl, exMaturities])
      exMaturities_increasing (by simp [exMaturities]) exSettle ⟨2024, 8, 1, by decide⟩ le_rfl (by decide)).1
    ⟨⟨⟨_, List.mem_cons_self, by decide⟩, ⟨⟨2024, 11, 7, by decide⟩, by simp [exMaturities], by decide⟩⟩, .inl rfl⟩
  obtain ⟨v, hv⟩ := hdom exYields rfl
  obtain ⟨v', hv'⟩ := hdom [0.02, 0.0219, 0.03] rfl
  have hp := zeroBond_price (by decide) hv
  have hp' := zeroBond_price (by decide) hv'
  refine ⟨v, v', hp, hp', C81_linear_partial (N := 365) (.inr ⟨rfl, rfl⟩) exSettle exMaturities exYields _ rfl ?_
    exMaturities_increasing (by simp [exMaturities]) _ ?_ v v' hp hp'⟩
  · unfold exYields
    exact .cons le_rfl (.cons le_rfl (.cons (by norm_num) .nil))
  · intro g hg
    have := (List.mem_filter.1 hg).1
    simp only [zeroBond, List.mem_singleton] at this
    rw [this]
    norm_num

/-! ## C82 -/

/-- **C82.** Prices on two settlement dates: the earlier price is the later one times the discount factor between the
dates, plus the earlier price of the flows that fall due up to the later date. -/
theorem C82_carry (hD : IsShippedDayCount D) (c : YieldCurve ℝ I) (b : Bond ℝ) (s1 s2 : Date) (u v2 w : ℝ)
    (hu : c.discountFactor D s1 s2 = .ok (.ok u)) (h2 : b.discountedValue D s2 c = .ok (.ok v2))
    (hw : (Bond.mk b.bondId (b.bondCashFlows.filter fun g => g.dueDate ≤ s2)).discountedValue D s1 c = .ok (.ok w)) :
    b.discountedValue D s1 c = .ok (.ok (u * v2 + w)) := by
  have h0 := C46_day_counts hD c.settlementDate
  have h12 : s1 ≤ s2 := ((C45_value_iff D c _ _ _).1 hu).2.1
  suffices H : ∀ (l : List (BondCashFlow ℝ)) (p1 p2 v2 w : ℝ), Bond.pvLoop D s2 c p2 l = .ok (.ok v2) →
      Bond.pvLoop D s1 c p1 (l.filter fun g => g.dueDate ≤ s2) = .ok (.ok w) →
      Bond.pvLoop D s1 c (u * p2 + p1) l = .ok (.ok (u * v2 + w)) by
    have := H b.bondCashFlows 0 0 v2 w h2 hw
    simpa [Bond.discountedValue] using this
  intro l
  induction l with
  | nil =>
    intro p1 p2 v2 w h hw
    simp only [Bond.pvLoop, List.filter_nil, Rust.ok.injEq, Except.ok.injEq] at h hw ⊢
    rw [h, hw]
  | cons g l ih =>
    intro p1 p2 v2 w h hw
    by_cases hg : g.dueDate ≤ s2
    · rw [Bond.pvLoop, if_neg (not_lt.2 hg)] at h
      rw [List.filter_cons_of_pos (by simpa using hg), Bond.pvLoop] at hw
      rw [Bond.pvLoop]
      by_cases hs : s1 < g.dueDate
      · rw [if_pos hs, Rust.bind_eq_ok] at hw
        obtain ⟨r, hr, hw⟩ := hw
        match r with
        | .error _ => simp at hw
        | .ok df =>
          rw [if_pos hs, hr]
          have := ih _ _ _ _ h hw
          simpa [add_assoc] using this
      · rw [if_neg hs] at hw ⊢
        exact ih _ _ _ _ h hw
    · rw [Bond.pvLoop, if_pos (not_le.1 hg), Rust.bind_eq_ok] at h
      rw [List.filter_cons_of_neg (by simpa using hg)] at hw
      obtain ⟨r, hr, h⟩ := h
      match r with
      | .error _ => simp at h
      | .ok df =>
        rw [Bond.pvLoop, if_pos (lt_of_le_of_lt h12 (not_le.1 hg)), C46_multiplicative D c h0 _ _ _ _ _ hu hr]
        have := ih p1 _ _ _ h hw
        simp only [Rust.ok_bind]
        rw [show u * p2 + p1 + u * df * g.paymentAmount = u * (p2 + df * g.paymentAmount) + p1 by ring]
        exact this

/-- **C82.** If no flow falls due after the first date and up to the second, the earlier price is the later one
discounted. -/
theorem C82_no_flow (hD : IsShippedDayCount D) (c : YieldCurve ℝ I) (b : Bond ℝ) (s1 s2 : Date) (u v2 : ℝ)
    (hu : c.discountFactor D s1 s2 = .ok (.ok u)) (h2 : b.discountedValue D s2 c = .ok (.ok v2))
    (hb : ∀ g ∈ b.bondCashFlows, g.dueDate ≤ s1 ∨ s2 < g.dueDate) :
    b.discountedValue D s1 c = .ok (.ok (u * v2)) := by
  have := C82_carry hD c b s1 s2 u v2 0 hu h2 (C52_none_left D _ s1 c fun g hg => by
    simp only [List.mem_filter, decide_eq_true_eq] at hg
    exact (hb g hg.1).resolve_right (not_lt.2 hg.2))
  simpa using this

/-- A bond, a curve and two dates meeting the hypotheses of C82: one coupon falls due between the dates. -/
example : ∃ (c : YieldCurve ℝ (Interpolator.linear ℝ)) (u v2 w : ℝ),
    YieldCurve.new DayCount.act360 (Interpolator.linear ℝ) gridSettle gridMaturities [0.02, 0.03, 0.04] = .ok (.ok c) ∧
    c.discountFactor DayCount.act360 gridSettle gridMid1 = .ok (.ok u) ∧
    (Bond.mk "" [⟨⟨2024, 1, 1, by decide⟩, ⟨2024, 1, 1, by decide⟩, 5⟩, ⟨gridMid2, gridMid2, 105⟩]).discountedValue
      DayCount.act360 gridMid1 c = .ok (.ok v2) ∧
    (Bond.mk "" [⟨⟨2024, 1, 1, by decide⟩, ⟨2024, 1, 1, by decide⟩, 5⟩]).discountedValue
      DayCount.act360 gridSettle c = .ok (.ok w) ∧
    (Bond.mk "" [⟨⟨2024, 1, 1, by decide⟩, ⟨2024, 1, 1, by decide⟩, 5⟩, ⟨gridMid2, gridMid2, 105⟩]).discountedValue
      DayCount.act360 gridSettle c = .ok (.ok (u * v2 + w)) := by
  have dom := fun d1 d2 h1 h2 => (C58_domain (N := 360) (.inl ⟨rfl, rfl⟩) (.inl ⟨rfl, rfl⟩) gridSettle gridMaturities
    [0.02, 0.03, 0.04] rfl gridMaturities_increasing (by simp [gridMaturities]) d1 d2 h1 h2).1
  have cov : ∀ d, (⟨2023, 12, 27, by decide⟩ : Date) ≤ d → d ≤ ⟨2025, 12, 16, by decide⟩ → Covers gridMaturities d :=
    fun d h1 h2 => ⟨⟨_, List.mem_cons_self, h1⟩, ⟨⟨2025, 12, 16, by decide⟩, by simp [gridMaturities], h2⟩⟩
  obtain ⟨u, hu⟩ := dom gridSettle gridMid1 le_rfl (by decide) ⟨cov _ (by decide) (by decide), .inl rfl⟩
  obtain ⟨x, hx⟩ := dom gridMid1 gridMid2 (by decide) (by decide)
    ⟨cov _ (by decide) (by decide), .inr (cov _ (by decide) (by decide))⟩
  obtain ⟨y, hy⟩ := dom gridSettle ⟨2024, 1, 1, by decide⟩ le_rfl (by decide) ⟨cov _ (by decide) (by decide), .inl rfl⟩
  unfold curveDiscount at hu hx hy
  cases hc : YieldCurve.new DayCount.act360 (Interpolator.linear ℝ) gridSettle gridMaturities [0.02, 0.03, 0.04] with
  | panic => rw [hc] at hu; simp at hu
  | ok r =>
    cases r with
    | error e => rw [hc] at hu; simp at hu
    | ok c =>
      rw [hc] at hu hx hy
      simp only [Rust.ok_bind] at hu hx hy
      have h2 : (Bond.mk "" [⟨⟨2024, 1, 1, by decide⟩, ⟨2024, 1, 1, by decide⟩, 5⟩, ⟨gridMid2, gridMid2, 105⟩]).discountedValue
          DayCount.act360 gridMid1 c = .ok (.ok (0 + x * 105)) := by
        simp only [Bond.discountedValue, Bond.pvLoop, hx]
        rw [if_neg (by decide), if_pos (by decide)]
        rfl
      have h1 : (Bond.mk "" [⟨⟨2024, 1, 1, by decide⟩, ⟨2024, 1, 1, by decide⟩, 5⟩]).discountedValue
          DayCount.act360 gridSettle c = .ok (.ok (0 + y * 5)) := by
        simp only [Bond.discountedValue, Bond.pvLoop, hy]
        rw [if_pos (by decide)]
        rfl
      refine ⟨c, u, _, _, rfl, hu, h2, h1, C82_carry (.inl rfl) c _ _ _ u _ _ hu h2 ?_⟩
      rw [List.filter_cons_of_pos (by decide), List.filter_cons_of_neg (by decide), List.filter_nil]
      exact h1

end

/-- A parallel shift of one percent lowers the price. -/
example : ∃ v v', curvePrice DayCount.act365 (Interpolator.linear ℝ) exSettle exMaturities exYields
      (zeroBond ⟨2024, 8, 1, by decide⟩) exSettle = .ok (.ok v) ∧
    curvePrice DayCount.act365 (Interpolator.linear ℝ) exSettle exMaturities (exYields.map (· + 0.01))
      (zeroBond ⟨2024, 8, 1, by decide⟩) exSettle = .ok (.ok v') ∧ v' ≤ v := by
  have hdom : ∀ ys : List ℝ, ys.length = 3 → ∃ v, curveDiscount DayCount.act365 (Interpolator.linear ℝ) exSettle
      exMaturities ys exSettle ⟨2024, 8, 1, by decide⟩ = .ok (.ok v) := fun ys hl =>
    (C58_domain (N := 365) (.inr ⟨rfl, rfl⟩) (.inl ⟨rfl, rfl⟩) exSettle exMaturities ys (by simp [hl, exMaturities])
      exMaturities_increasing (by simp [exMaturities]) exSettle ⟨2024, 8, 1, by decide⟩ le_rfl (by decide)).1
    ⟨⟨⟨_, List.mem_cons_self, by decide⟩, ⟨⟨2024, 11, 7, by decide⟩, by simp [exMaturities], by decide⟩⟩, .inl rfl⟩
  obtain ⟨v, hv⟩ := hdom exYields rfl
  obtain ⟨v', hv'⟩ := hdom (exYields.map (· + 0.01)) rfl
  have hp := zeroBond_price (by decide) hv
  have hp' := zeroBond_price (by decide) hv'
  refine ⟨v, v', hp, hp', C81_parallel_partial (N := 365) (.inr ⟨rfl, rfl⟩) exSettle exMaturities exYields rfl
    exMaturities_increasing 0.01 (by norm_num) (.inl ⟨rfl, by simp [exMaturities]⟩) _ _ ?_ v v' hp hp'⟩
  intro g hg
  have := (List.mem_filter.1 hg).1
  simp [zeroBond] at this
  rw [this]
  norm_num

end Qlab.Props
