import Verif.Props.CurveShape

/-!
# Discount factors fall with the date where forward rates are not negative (C112)
-/

namespace Qlab.Spec

/-- Slope of the yield from pillar `i` to the next one, per year of `N` days. -/
noncomputable def yieldSlope (N : ℝ) (ms : List Date) (ys : List ℝ) (i : Nat) (hi : i + 1 < ms.length)
    (hlen : ms.length = ys.length) : ℝ :=
  (ys[i + 1] - ys[i]) / ((Date.sub ms[i + 1] ms[i] : ℝ) / N)

/-- Forward rates `y + t y'` at the two ends of the period from pillar `i` to the next one. -/
noncomputable def forwardsAt (N : ℝ) (s : Date) (ms : List Date) (ys : List ℝ) (i : Nat) (hi : i + 1 < ms.length)
    (hlen : ms.length = ys.length) : ℝ × ℝ :=
  (ys[i] + (Date.sub ms[i] s : ℝ) / N * yieldSlope N ms ys i hi hlen,
   ys[i + 1] + (Date.sub ms[i + 1] s : ℝ) / N * yieldSlope N ms ys i hi hlen)

end Qlab.Spec

namespace Qlab.Props

open Spec

section
variable {D : DayCount ℝ} {N : ℝ}

theorem segment_of (pts : List (ℝ × ℝ)) {i : Nat} (hi : i + 1 < pts.length) :
    IsSegment pts i pts[i].1 pts[i].2 pts[i + 1].1 pts[i + 1].2 := ⟨by simp, by simp⟩

/-- `x` times the interpolated value, within a segment. -/
theorem product_segment {x₀ y₀ x₁ y₁ u w : ℝ} (hlt : x₀ < x₁) (hu : x₀ ≤ u) (huw : u ≤ w) (hw : w ≤ x₁)
    (f0 : 0 ≤ y₀ + x₀ * ((y₁ - y₀) / (x₁ - x₀))) (f1 : 0 ≤ y₁ + x₁ * ((y₁ - y₀) / (x₁ - x₀))) :
    u * (y₀ + (y₁ - y₀) / (x₁ - x₀) * (u - x₀)) ≤ w * (y₀ + (y₁ - y₀) / (x₁ - x₀) * (w - x₀)) ∧
      (0 < y₀ + x₀ * ((y₁ - y₀) / (x₁ - x₀)) → 0 < y₁ + x₁ * ((y₁ - y₀) / (x₁ - x₀)) → u < w →
        u * (y₀ + (y₁ - y₀) / (x₁ - x₀) * (u - x₀)) < w * (y₀ + (y₁ - y₀) / (x₁ - x₀) * (w - x₀))) := by
  have hG : 0 < x₁ - x₀ := by linarith
  set m := (y₁ - y₀) / (x₁ - x₀) with hm
  have hy : y₁ = y₀ + m * (x₁ - x₀) := by rw [hm]; field_simp; ring
  set c := (u + w) / 2 with hc
  have c0 : 0 ≤ c - x₀ := by rw [hc]; linarith
  have c1 : 0 ≤ x₁ - c := by rw [hc]; linarith
  have e : w * (y₀ + m * (w - x₀)) - u * (y₀ + m * (u - x₀)) = (w - u) * (y₀ + m * (c - x₀) + c * m) := by
    rw [hc]; ring
  have k : (x₁ - x₀) * (y₀ + m * (c - x₀) + c * m) = (x₁ - c) * (y₀ + x₀ * m) + (c - x₀) * (y₁ + x₁ * m) := by
    rw [hy]; ring
  constructor
  · have h1 : 0 ≤ (x₁ - x₀) * (y₀ + m * (c - x₀) + c * m) := by
      rw [k]; exact add_nonneg (mul_nonneg c1 f0) (mul_nonneg c0 f1)
    have := mul_nonneg (show 0 ≤ w - u by linarith) (nonneg_of_mul_nonneg_right h1 hG)
    linarith
  · intro g0 g1 huw
    have h1 : 0 < (x₁ - x₀) * (y₀ + m * (c - x₀) + c * m) := by
      rw [k]
      rcases eq_or_lt_of_le c0 with h | h
      · have : 0 < x₁ - c := by linarith
        rw [← h, zero_mul, add_zero]; exact mul_pos this g0
      · exact add_pos_of_nonneg_of_pos (mul_nonneg c1 f0) (mul_pos h g1)
    have := mul_pos (show 0 < w - u by linarith) ((pos_iff_pos_of_mul_pos h1).1 hG)
    linarith

/-- `x` times the interpolated value, anywhere. -/
theorem product_monotone {pts : List (ℝ × ℝ)} (hs : StrictlyIncreasing pts) (h2 : 2 ≤ pts.length)
    (hf : ∀ i (hi : i + 1 < pts.length),
      0 ≤ pts[i].2 + pts[i].1 * ((pts[i + 1].2 - pts[i].2) / (pts[i + 1].1 - pts[i].1)) ∧
      0 ≤ pts[i + 1].2 + pts[i + 1].1 * ((pts[i + 1].2 - pts[i].2) / (pts[i + 1].1 - pts[i].1)))
    {u w y v : ℝ} (huw : u ≤ w) (hy : evaluate (Interpolator.linear ℝ) pts u = .ok (.ok y))
    (hv : evaluate (Interpolator.linear ℝ) pts w = .ok (.ok v)) :
    u * y ≤ w * v ∧ ((∀ i (hi : i + 1 < pts.length),
      0 < pts[i].2 + pts[i].1 * ((pts[i + 1].2 - pts[i].2) / (pts[i + 1].1 - pts[i].1)) ∧
      0 < pts[i + 1].2 + pts[i + 1].1 * ((pts[i + 1].2 - pts[i].2) / (pts[i + 1].1 - pts[i].1))) → u < w →
        u * y < w * v) := by
  have ru := inRange_of_value (.inl ⟨rfl, rfl⟩) hs h2 hy
  have rw' := inRange_of_value (.inl ⟨rfl, rfl⟩) hs h2 hv
  have pw := List.pairwise_iff_getElem.1 hs
  obtain ⟨j, hj, j0, j1⟩ := exists_bracket_raw hs h2 rw'
  -- induction on the segment of the larger argument
  have key : ∀ j (hj : j + 1 < pts.length) w v, pts[j].1 ≤ w → w ≤ pts[j + 1].1 → u ≤ w →
      evaluate (Interpolator.linear ℝ) pts w = .ok (.ok v) → u * y ≤ w * v ∧ ((∀ i (hi : i + 1 < pts.length),
      0 < pts[i].2 + pts[i].1 * ((pts[i + 1].2 - pts[i].2) / (pts[i + 1].1 - pts[i].1)) ∧
      0 < pts[i + 1].2 + pts[i + 1].1 * ((pts[i + 1].2 - pts[i].2) / (pts[i + 1].1 - pts[i].1))) → u < w →
        u * y < w * v) := by
    intro j
    induction j with
    | zero =>
      intro hj w v j0 j1 huw hv
      have hu0 : pts[0].1 ≤ u := by
        obtain ⟨p, hp, h⟩ := ru.1
        obtain ⟨k, hk, rfl⟩ := List.getElem_of_mem hp
        rcases Nat.eq_zero_or_pos k with rfl | hk0
        · exact h
        · exact le_trans (le_of_lt (pw 0 k (by omega) hk hk0)) h
      have hseg : IsSegment pts 0 pts[0].1 pts[0].2 pts[0 + 1].1 pts[0 + 1].2 := ⟨by simp, by simp⟩
      obtain ⟨hlt, eu⟩ := linear_segment pts hs 0 _ _ _ _ u hseg hu0 (huw.trans j1)
      obtain ⟨-, ew⟩ := linear_segment pts hs 0 _ _ _ _ w hseg j0 j1
      obtain rfl := Except.ok.inj (Rust.ok.inj (hy.symm.trans eu))
      obtain rfl := Except.ok.inj (Rust.ok.inj (hv.symm.trans ew))
      have := product_segment hlt hu0 huw j1 (hf 0 hj).1 (hf 0 hj).2
      exact ⟨this.1, fun hp h => this.2 (hp 0 hj).1 (hp 0 hj).2 h⟩
    | succ j ih =>
      intro hj w v j0 j1 huw hv
      have hseg : IsSegment pts (j + 1) pts[j + 1].1 pts[j + 1].2 pts[j + 1 + 1].1 pts[j + 1 + 1].2 :=
        ⟨by simp, by simp⟩
      obtain ⟨hlt, ew⟩ := linear_segment pts hs (j + 1) _ _ _ _ w hseg j0 j1
      obtain rfl := Except.ok.inj (Rust.ok.inj (hv.symm.trans ew))
      by_cases hu : pts[j + 1].1 ≤ u
      · obtain ⟨-, eu⟩ := linear_segment pts hs (j + 1) _ _ _ _ u hseg hu (huw.trans j1)
        obtain rfl := Except.ok.inj (Rust.ok.inj (hy.symm.trans eu))
        have := product_segment hlt hu huw j1 (hf (j + 1) hj).1 (hf (j + 1) hj).2
        exact ⟨this.1, fun hp h => this.2 (hp (j + 1) hj).1 (hp (j + 1) hj).2 h⟩
      · have hu := not_le.1 hu
        obtain ⟨-, en⟩ := linear_segment pts hs (j + 1) _ _ _ _ pts[j + 1].1 hseg le_rfl hlt.le
        have a := ih (by omega) pts[j + 1].1 _ (le_of_lt (pw j (j + 1) (by omega) (by omega) (by omega))) le_rfl hu.le en
        have b := product_segment hlt le_rfl j0 j1 (hf (j + 1) hj).1 (hf (j + 1) hj).2
        exact ⟨a.1.trans b.1, fun hp _ => lt_of_lt_of_le (a.2 hp hu) b.1⟩
  exact key j hj w v j0 j1 huw hv

theorem sub_fractions (N : ℝ) (s a b : Date) : (Date.sub b s : ℝ) / N - (Date.sub a s : ℝ) / N = (Date.sub b a : ℝ) / N := by
  rw [← sub_div]
  congr 1
  simp only [C04_sub_serial]; push_cast; ring

/-- **C112.** Linear interpolation, Act/360 or Act/365: if the first yield and the forward rates at both ends of every
period between pillars are not negative, no discount factor between two dates exceeds one; if they are positive, it is
below one for different dates.  Missing for the full property: curves with a negative forward rate, where it is violated
(`C112_refuted_linear`), and the two splines. -/
theorem C112_linear_partial (hD : IsActual D N) (s : Date) (ms : List Date) (ys : List ℝ) (hlen : ms.length = ys.length)
    (hm : ms.Pairwise (· < ·)) (h2 : 2 ≤ ms.length) (hy : (0 : ℝ) ≤ ys[0])
    (hf : ∀ i (hi : i + 1 < ms.length), 0 ≤ (forwardsAt N s ms ys i hi hlen).1 ∧ 0 ≤ (forwardsAt N s ms ys i hi hlen).2)
    (d1 d2 : Date) (v : ℝ) (h : curveDiscount D (Interpolator.linear ℝ) s ms ys d1 d2 = .ok (.ok v)) :
    v ≤ 1 ∧ ((0 : ℝ) < ys[0] → (∀ i (hi : i + 1 < ms.length), 0 < (forwardsAt N s ms ys i hi hlen).1 ∧
      0 < (forwardsAt N s ms ys i hi hlen).2) → d1 < d2 → v < 1) := by
  obtain ⟨hs, hd, y2, e2, z1, rfl, hz⟩ := (curveDiscount_form hD (.inl ⟨rfl, rfl⟩) hlen hm h2).1 h
  have hinc := pillars_increasing hD s hm ys
  have hl : (pillars N s ms ys).length = ms.length := by simp [pillars]; omega
  have conv : ∀ i (hi : i + 1 < (pillars N s ms ys).length), forwardsAt N s ms ys i (by omega) hlen =
      ((pillars N s ms ys)[i].2 + (pillars N s ms ys)[i].1 * (((pillars N s ms ys)[i + 1].2 - (pillars N s ms ys)[i].2) /
        ((pillars N s ms ys)[i + 1].1 - (pillars N s ms ys)[i].1)),
      (pillars N s ms ys)[i + 1].2 + (pillars N s ms ys)[i + 1].1 * (((pillars N s ms ys)[i + 1].2 -
        (pillars N s ms ys)[i].2) / ((pillars N s ms ys)[i + 1].1 - (pillars N s ms ys)[i].1))) := by
    intro i hi
    simp only [pillars, List.getElem_zip, List.getElem_map, forwardsAt, yieldSlope, sub_fractions]
  have mono := @product_monotone (pillars N s ms ys) hinc (by omega) fun i hi => by
    have := hf i (by omega)
    rw [conv i hi] at this
    exact this
  have strict : (∀ i (hi : i + 1 < ms.length), 0 < (forwardsAt N s ms ys i hi hlen).1 ∧
      0 < (forwardsAt N s ms ys i hi hlen).2) → ∀ i (hi : i + 1 < (pillars N s ms ys).length), _ :=
    fun g i (hi : i + 1 < (pillars N s ms ys).length) => by
      have := g i (by omega)
      rw [conv i hi] at this
      exact this
  have hd' : (Date.sub d1 s : ℝ) / N ≤ (Date.sub d2 s : ℝ) / N := by
    have := fraction_nonneg hD hd
    rw [← sub_fractions N s] at this
    linarith
  have hdlt : d1 < d2 → (Date.sub d1 s : ℝ) / N < (Date.sub d2 s : ℝ) / N := fun hlt => by
    have := fraction_pos hD hlt
    rw [← sub_fractions N s] at this
    linarith
  suffices hk : z1 ≤ (Date.sub d2 s : ℝ) / N * y2 ∧ ((0 : ℝ) < ys[0] → (∀ i (hi : i + 1 < ms.length),
      0 < (forwardsAt N s ms ys i hi hlen).1 ∧ 0 < (forwardsAt N s ms ys i hi hlen).2) → d1 < d2 →
      z1 < (Date.sub d2 s : ℝ) / N * y2) by
    exact ⟨Real.exp_le_one_iff.2 (by linarith [hk.1]), fun a b c => Real.exp_lt_one_iff.2 (by linarith [hk.2 a b c])⟩
  rcases hz with ⟨rfl, rfl⟩ | ⟨-, y1, e1, rfl⟩
  · have t1 : (Date.sub d1 d1 : ℝ) / N = 0 := by simp [C04_sub_serial]
    rw [t1] at hd' hdlt
    have hr := inRange_of_value (.inl ⟨rfl, rfl⟩) hinc (by omega) e2
    obtain ⟨i, hi, h0, h1⟩ := exists_bracket_raw hinc (by omega) hr
    have first : (pillars N d1 ms ys)[0].1 ≤ (Date.sub d2 d1 : ℝ) / N := by
      rcases Nat.eq_zero_or_pos i with rfl | hp
      · exact h0
      · exact le_trans (le_of_lt (List.pairwise_iff_getElem.1 hinc 0 i (by omega) (by omega) hp)) h0
    have y0 : (pillars N d1 ms ys)[0].2 = ys[0] := by simp [pillars]
    rcases le_or_gt (pillars N d1 ms ys)[0].1 0 with hneg | hpos
    · have hr0 : InRange (pillars N d1 ms ys) 0 :=
        ⟨⟨_, List.getElem_mem (by omega), hneg⟩, ⟨_, List.getElem_mem hi, hd'.trans h1⟩⟩
      obtain ⟨k, hk, k0, k1⟩ := exists_bracket_raw hinc (by omega) hr0
      obtain ⟨-, ev⟩ := linear_segment _ hinc k _ _ _ _ 0 (segment_of _ hk) k0 k1
      have := mono hd' ev e2
      rw [zero_mul] at this
      exact ⟨this.1, fun _ b c => this.2 (strict b) (hdlt c)⟩
    · obtain ⟨hlt, ev⟩ := linear_segment _ hinc 0 _ _ _ _ (pillars N d1 ms ys)[0].1 (segment_of _ (i := 0)
        (by omega)) le_rfl (le_of_lt (List.pairwise_iff_getElem.1 hinc 0 1 (by omega) (by omega) (by omega)))
      rw [sub_self, mul_zero, add_zero, y0] at ev
      have := (mono first ev e2).1
      exact ⟨le_trans (mul_nonneg hpos.le hy) this, fun a _ _ => lt_of_lt_of_le (mul_pos hpos a) this⟩
  · exact ⟨(mono hd' e1 e2).1, fun _ b c => (mono hd' e1 e2).2 (strict b) (hdlt c)⟩

/-- **C112.** Linear interpolation, pillars not before settlement: if the yields are positive and never fall from one pillar
to the next, every discount factor between two different dates is below one. -/
theorem C112_rising_partial (hD : IsActual D N) (s : Date) (ms : List Date) (ys : List ℝ) (hlen : ms.length = ys.length)
    (hm : ms.Pairwise (· < ·)) (h2 : 2 ≤ ms.length) (hs : ∀ m ∈ ms, s ≤ m) (hy : ∀ y ∈ ys, 0 < y)
    (hr : ∀ i (hi : i + 1 < ms.length), ys[i] ≤ ys[i + 1]) (d1 d2 : Date) (hd : d1 < d2) (v : ℝ)
    (h : curveDiscount D (Interpolator.linear ℝ) s ms ys d1 d2 = .ok (.ok v)) : v < 1 := by
  have key : ∀ i (hi : i + 1 < ms.length), 0 < (forwardsAt N s ms ys i hi hlen).1 ∧
      0 < (forwardsAt N s ms ys i hi hlen).2 := by
    intro i hi
    have hlt := fraction_pos hD (List.pairwise_iff_getElem.1 hm i (i + 1) (by omega) hi (by omega))
    have m0 : 0 ≤ yieldSlope N ms ys i hi hlen := div_nonneg (by linarith [hr i hi]) hlt.le
    exact ⟨add_pos_of_pos_of_nonneg (hy _ (List.getElem_mem _)) (mul_nonneg (fraction_nonneg hD (hs _ (List.getElem_mem _))) m0),
      add_pos_of_pos_of_nonneg (hy _ (List.getElem_mem _)) (mul_nonneg (fraction_nonneg hD (hs _ (List.getElem_mem _))) m0)⟩
  have h0 : (0 : ℝ) < ys[0] := hy _ (List.getElem_mem _)
  exact (C112_linear_partial hD s ms ys hlen hm h2 h0.le (fun i hi => ⟨(key i hi).1.le, (key i hi).2.le⟩) d1 d2 v h).2 h0
    key hd

end

/-! ## Where it fails -/

/-- A discount factor between two dates of the grid. -/
theorem grid_forward {I : Interpolator ℝ} {n : Nat} (hI : IsShippedInterpolator I n) (a b c t1 y1 t2 y2 : ℝ) (d1 d2 : Date)
    (h1 : gridSettle < d1) (hd : d1 ≤ d2) (e1 : (Date.sub d1 gridSettle : ℝ) / 360 = t1)
    (e2 : (Date.sub d2 gridSettle : ℝ) / 360 = t2)
    (hy1 : evaluate I [(1, a), (2, b), (3, c)] t1 = .ok (.ok y1))
    (hy2 : evaluate I [(1, a), (2, b), (3, c)] t2 = .ok (.ok y2)) :
    curveDiscount DayCount.act360 I gridSettle gridMaturities [a, b, c] d1 d2 =
      .ok (.ok (Real.exp (t1 * y1 - t2 * y2))) := by
  have hn : n ≤ gridMaturities.length := by
    rcases hI with ⟨_, rfl⟩ | ⟨_, rfl⟩ | ⟨_, rfl⟩ <;> simp [gridMaturities]
  rw [curveDiscount_form (N := 360) (.inl ⟨rfl, rfl⟩) hI rfl gridMaturities_increasing hn, grid_pillars, e1, e2]
  exact ⟨h1.le, hd, y2, hy2, _, rfl, .inr ⟨(ne_of_lt h1).symm, y1, hy1, rfl⟩⟩

theorem grid_linear (a b c x : ℝ) (h0 : 1 ≤ x) (h1 : x ≤ 2) :
    evaluate (Interpolator.linear ℝ) [(1, a), (2, b), (3, c)] x = .ok (.ok (a + (b - a) * (x - 1))) := by
  rw [(linear_segment _ (grid_increasing a b c) 0 1 a 2 b x ⟨rfl, rfl⟩ h0 h1).2]
  norm_num

/-- **C112 (violated).** Yields 1, 0 and 0 after one, two and three years: with linear interpolation a discount factor from
the first to the second pillar is `e`. -/
theorem C112_refuted_linear :
    ∃ v, curveDiscount DayCount.act360 (Interpolator.linear ℝ) gridSettle gridMaturities [1, 0, 0]
      ⟨2023, 12, 27, by decide⟩ ⟨2024, 12, 21, by decide⟩ = .ok (.ok v) ∧ 1 < v := by
  refine ⟨_, grid_forward (.inl ⟨rfl, rfl⟩) 1 0 0 1 _ 2 _ _ _ (by decide) (by decide) ?_ ?_
    (grid_linear _ _ _ _ (by norm_num) (by norm_num)) (grid_linear _ _ _ _ (by norm_num) (by norm_num)), ?_⟩
  · rw [show Date.sub ⟨2023, 12, 27, by decide⟩ gridSettle = 360 by decide +kernel]; norm_num
  · rw [show Date.sub ⟨2024, 12, 21, by decide⟩ gridSettle = 720 by decide +kernel]; norm_num
  · rw [Real.one_lt_exp_iff]; norm_num

/-- **C112 (violated).** Rising yields 0, 0 and 1: with a Catmull-Rom spline the discount factor from the first pillar to the
middle of the period is above one. -/
theorem C112_refuted_catmull_rom :
    ∃ v, curveDiscount DayCount.act360 (Interpolator.catmullRom ℝ) gridSettle gridMaturities [0, 0, 1]
      ⟨2023, 12, 27, by decide⟩ gridMid1 = .ok (.ok v) ∧ 1 < v := by
  refine ⟨_, grid_forward (.inr (.inl ⟨rfl, rfl⟩)) 0 0 1 1 0 _ _ _ _ (by decide) (by decide) ?_ grid_mid1 ?_
    (grid_catmullRom 0 0 1), ?_⟩
  · rw [show Date.sub ⟨2023, 12, 27, by decide⟩ gridSettle = 360 by decide +kernel]; norm_num
  · rw [catmullRom_segment (grid_increasing 0 0 1) (i := 0) (by simp) (by simp) (by norm_num) (by norm_num)]
    simp [crSegment, crFirst]
  · rw [Real.one_lt_exp_iff]; norm_num

theorem grid_natural_last (a b c x : ℝ) (h0 : 2 ≤ x) (h1 : x ≤ 3) :
    evaluate (Interpolator.naturalCubic ℝ) [(1, a), (2, b), (3, c)] x =
      .ok (.ok (b * (3 - x) + c * (x - 2) - ((3 - x) - (3 - x) ^ 3) * (a - 2 * b) / 4)) := by
  let p : Nat → ℝ × ℝ := fun i => if i = 0 then (1, a) else if i = 1 then (2, b) else (3, c)
  have he : tab 3 p = [(1, a), (2, b), (3, c)] := by simp [tab, p, List.range_succ]
  have hs : StrictlyIncreasing (tab 3 p) := he ▸ grid_increasing a b c
  have hM := NaturalCubic.kink_three hs
  have hg0 : NaturalCubic.gap p 0 = 1 := by simp [NaturalCubic.gap, p]; norm_num
  have hg1 : NaturalCubic.gap p 1 = 1 := by simp [NaturalCubic.gap, p]; norm_num
  have hc0 : NaturalCubic.chord p 0 = b - a := by simp [NaturalCubic.chord, p]; norm_num
  have hc1 : NaturalCubic.chord p 1 = c - b := by simp [NaturalCubic.chord, p]; norm_num
  have hk0 := NaturalCubic.curvature_zero 3 p
  have hk2 : NaturalCubic.curvature 3 p 2 = 0 := NaturalCubic.curvature_last (le_refl 3) p
  simp only [NaturalCubic.kink, hg0, hg1, hc0, hc1, hk0, hk2, Nat.zero_add] at hM
  have hM' : NaturalCubic.curvature 3 p 1 = 3 / 2 * (a - 2 * b) := by
    simp only [p, if_neg (show ¬ (2 : Nat) = 0 by decide), if_neg (show ¬ (2 : Nat) = 1 by decide)] at hM ⊢
    linarith
  have := NaturalCubic.segment (le_refl 3) hs (i := 1) (by omega) (x := x) (by simpa [p] using h0) (by simpa [p] using h1)
  rw [he, hk2, hM'] at this
  rw [this]
  congr 2
  simp [p, NaturalCubic.cubic]
  ring

/-- **C112 (violated).** Rising yields 0, 1 and 1: with a natural cubic spline the discount factor over the last 36 days is
above one. -/
theorem C112_refuted_natural_cubic :
    ∃ v, curveDiscount DayCount.act360 (Interpolator.naturalCubic ℝ) gridSettle gridMaturities [0, 1, 1]
      ⟨2025, 11, 10, by decide⟩ ⟨2025, 12, 16, by decide⟩ = .ok (.ok v) ∧ 1 < v := by
  refine ⟨_, grid_forward (.inr (.inr ⟨rfl, rfl⟩)) 0 1 1 (29 / 10) _ 3 _ _ _ (by decide) (by decide) ?_ ?_
    (grid_natural_last 0 1 1 _ (by norm_num) (by norm_num)) (grid_natural_last 0 1 1 _ (by norm_num) (by norm_num)), ?_⟩
  · rw [show Date.sub ⟨2025, 11, 10, by decide⟩ gridSettle = 1044 by decide +kernel]; norm_num
  · rw [show Date.sub ⟨2025, 12, 16, by decide⟩ gridSettle = 1080 by decide +kernel]; norm_num
  · rw [Real.one_lt_exp_iff]; norm_num

/-! ## Examples -/

theorem grid_has_value (a b c : ℝ) (d1 d2 : Date) (h1 : gridSettle ≤ d1) (h2 : d1 ≤ d2) (c2 : Covers gridMaturities d2)
    (c1 : d1 = gridSettle ∨ Covers gridMaturities d1) :
    ∃ v, curveDiscount DayCount.act360 (Interpolator.linear ℝ) gridSettle gridMaturities [a, b, c] d1 d2 = .ok (.ok v) :=
  (C58_domain (N := 360) (.inl ⟨rfl, rfl⟩) (.inl ⟨rfl, rfl⟩) gridSettle gridMaturities [a, b, c] rfl
    gridMaturities_increasing (by simp [gridMaturities]) d1 d2 h1 h2).1 ⟨c2, c1⟩

/-- Mildly falling yields 3 %, 2.5 % and 2 %: forward rates 2.5 %, 1.5 % and 0.5 %. -/
example : ∃ v, curveDiscount DayCount.act360 (Interpolator.linear ℝ) gridSettle gridMaturities [0.03, 0.025, 0.02] gridMid1
    gridMid2 = .ok (.ok v) ∧ v < 1 := by
  obtain ⟨v, hv⟩ := grid_has_value 0.03 0.025 0.02 gridMid1 gridMid2 (by decide) (by decide) (by unfold Covers; decide)
    (.inr (by unfold Covers; decide))
  have key : ∀ i (hi : i + 1 < gridMaturities.length),
      0 < (forwardsAt 360 gridSettle gridMaturities [0.03, 0.025, 0.02] i hi rfl).1 ∧
      0 < (forwardsAt 360 gridSettle gridMaturities [0.03, 0.025, 0.02] i hi rfl).2 := by
    intro i hi
    simp only [gridMaturities, List.length_cons, List.length_nil] at hi
    have a1 : Date.sub ⟨2023, 12, 27, by decide⟩ gridSettle = 360 := by decide +kernel
    have a2 : Date.sub ⟨2024, 12, 21, by decide⟩ gridSettle = 720 := by decide +kernel
    have a3 : Date.sub ⟨2025, 12, 16, by decide⟩ gridSettle = 1080 := by decide +kernel
    have b1 : Date.sub ⟨2024, 12, 21, by decide⟩ ⟨2023, 12, 27, by decide⟩ = 360 := by decide +kernel
    have b2 : Date.sub ⟨2025, 12, 16, by decide⟩ ⟨2024, 12, 21, by decide⟩ = 360 := by decide +kernel
    obtain rfl | rfl : i = 0 ∨ i = 1 := by omega
    · simp [forwardsAt, yieldSlope, gridMaturities, a1, a2, b1]; norm_num
    · simp [forwardsAt, yieldSlope, gridMaturities, a2, a3, b2]; norm_num
  exact ⟨v, hv, (C112_linear_partial (N := 360) (.inl ⟨rfl, rfl⟩) gridSettle gridMaturities [0.03, 0.025, 0.02] rfl
    gridMaturities_increasing (by simp [gridMaturities]) (by norm_num) (fun i hi => ⟨(key i hi).1.le, (key i hi).2.le⟩) _ _ v
    hv).2 (by norm_num) key (by decide)⟩

/-- Rising yields 1 %, 2 % and 3 %, from settlement. -/
example : ∃ v, curveDiscount DayCount.act360 (Interpolator.linear ℝ) gridSettle gridMaturities [0.01, 0.02, 0.03] gridSettle
    gridMid2 = .ok (.ok v) ∧ v < 1 := by
  obtain ⟨v, hv⟩ := grid_has_value 0.01 0.02 0.03 gridSettle gridMid2 (by decide) (by decide) (by unfold Covers; decide)
    (.inl rfl)
  refine ⟨v, hv, C112_rising_partial (N := 360) (.inl ⟨rfl, rfl⟩) gridSettle gridMaturities [0.01, 0.02, 0.03] rfl
    gridMaturities_increasing (by simp [gridMaturities]) (by decide) ?_ ?_ _ _ (by decide) v hv⟩
  · intro y hy
    simp only [List.mem_cons, List.not_mem_nil, or_false] at hy
    rcases hy with rfl | rfl | rfl <;> norm_num
  · intro i hi
    simp only [gridMaturities, List.length_cons, List.length_nil] at hi
    obtain rfl | rfl : i = 0 ∨ i = 1 := by omega
    all_goals simp; norm_num

end Qlab.Props
