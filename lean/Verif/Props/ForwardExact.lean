import Verif.Props.Forward
import Verif.Props.Monotone

/-!
# The days that decide whether discount factors fall (C112)
-/

namespace Qlab.Props

open Spec

section
variable {D : DayCount ℝ} {N : ℝ}

/-- A product of a number of days and a linear function of it that rises on the first and on the last day of a period
rises on every day between. -/
theorem product_days {a b : ℝ} {p q : ℤ} (h0 : (p : ℝ) * (a + b * (p - p)) ≤ ((p + 1 : ℤ) : ℝ) * (a + b * ((p + 1 : ℤ) - p)))
    (h1 : ((q - 1 : ℤ) : ℝ) * (a + b * ((q - 1 : ℤ) - p)) ≤ (q : ℝ) * (a + b * (q - p))) {n m : ℤ} (hp : p ≤ n) (hnm : n ≤ m)
    (hq : m ≤ q) : (n : ℝ) * (a + b * (n - p)) ≤ (m : ℝ) * (a + b * (m - p)) := by
  have step : ∀ k : ℤ, p ≤ k → k < q → (k : ℝ) * (a + b * (k - p)) ≤ ((k + 1 : ℤ) : ℝ) * (a + b * ((k + 1 : ℤ) - p)) := by
    intro k hk0 hk1
    have c0 : (p : ℝ) ≤ k := by exact_mod_cast hk0
    have c1 : (k : ℝ) ≤ q - 1 := by exact_mod_cast (show k ≤ q - 1 by omega)
    push_cast at h0 h1 ⊢
    have d0 : 0 ≤ a + b * (p + 1) := by linarith
    have d1 : 0 ≤ a - b * p + b * (2 * (q - 1) + 1) := by linarith
    have : 0 ≤ a - b * p + b * (2 * k + 1) := by
      rcases le_total 0 b with hb | hb
      · have := mul_le_mul_of_nonneg_left c0 hb
        linarith
      · have := mul_le_mul_of_nonpos_left c1 hb
        linarith
    linarith
  induction m, hnm using Int.leInduction with
  | base => exact le_rfl
  | succ m hnm ih => exact (ih (by omega)).trans (step m (by omega) (by omega))

theorem days_le (s : Date) {a b : Date} (h : a ≤ b) : Date.sub a s ≤ Date.sub b s := by
  rw [NaiveDate.le_iff_serial] at h
  simp only [C04_sub_serial, Date.serialDate]
  omega

/-- A date before another has a next day. -/
theorem day_after {a b : Date} (h : a < b) : ∃ u, Date.sub u a = 1 := by
  cases hu : Date.succOpt a with
  | none => exact absurd ((C06_succ_none a).1 hu b) (not_le.2 h)
  | some u =>
    rw [C06_succ_eq_add_one] at hu
    exact ⟨u, (C05_add_days _ _ 1).1 hu⟩

theorem day_before {a b : Date} (h : a < b) : ∃ u, Date.sub b u = 1 := by
  cases hu : Date.predOpt b with
  | none => exact absurd ((C06_pred_none b).1 hu a) (not_le.2 h)
  | some u =>
    rw [← C06_succ_pred_inverse, C06_succ_eq_add_one] at hu
    exact ⟨u, (C05_add_days _ _ 1).1 hu⟩

/-- **C112.** Linear interpolation, Act/360 or Act/365: no discount factor exceeds one exactly when the one from
settlement to the first maturity does not, and those over the first day and over the last day of every period between
maturities do not. -/
theorem C112_linear_exactly_partial (hD : IsActual D N) (s : Date) (ms : List Date) (ys : List ℝ)
    (hlen : ms.length = ys.length) (hm : ms.Pairwise (· < ·)) (h2 : 2 ≤ ms.length) (hs : s ≤ ms[0]) :
    (∀ d1 d2 v, curveDiscount D (Interpolator.linear ℝ) s ms ys d1 d2 = .ok (.ok v) → v ≤ 1) ↔
      (∀ v, curveDiscount D (Interpolator.linear ℝ) s ms ys s ms[0] = .ok (.ok v) → v ≤ 1) ∧
      ∀ i (hi : i + 1 < ms.length),
        (∀ d v, Date.sub d ms[i] = 1 →
          curveDiscount D (Interpolator.linear ℝ) s ms ys ms[i] d = .ok (.ok v) → v ≤ 1) ∧
        (∀ d v, Date.sub ms[i + 1] d = 1 →
          curveDiscount D (Interpolator.linear ℝ) s ms ys d ms[i + 1] = .ok (.ok v) → v ≤ 1) := by
  refine ⟨fun h => ⟨fun v => h _ _ v, fun i hi => ⟨fun d v _ => h _ _ v, fun d v _ => h _ _ v⟩⟩, ?_⟩
  rintro ⟨hfirst, hdays⟩ d1 d2 v hv
  have hN := isActual_pos hD
  have pm := List.pairwise_iff_getElem.1 hm
  have hinc := pillars_increasing hD s hm ys
  have hl : (pillars N s ms ys).length = ms.length := by simp [pillars]; omega
  have form := fun d1 d2 v => curveDiscount_form (s := s) (d1 := d1) (d2 := d2) (v := v) hD
    (.inl ⟨rfl, rfl⟩ : IsShippedInterpolator (Interpolator.linear ℝ) 2) hlen hm h2
  let g : Date → ℝ := fun d => (Date.sub d s : ℝ) * valueOf (evaluate (Interpolator.linear ℝ) (pillars N s ms ys)
    ((Date.sub d s : ℝ) / N))
  have seg : ∀ i (hi : i + 1 < ms.length), ∀ d, ms[i] ≤ d → d ≤ ms[i + 1] →
      evaluate (Interpolator.linear ℝ) (pillars N s ms ys) ((Date.sub d s : ℝ) / N) = .ok (.ok
        (ys[i] + (ys[i + 1] - ys[i]) / ((Date.sub ms[i + 1] s : ℝ) - Date.sub ms[i] s) *
          ((Date.sub d s : ℝ) - Date.sub ms[i] s))) := by
    intro i hi d h0 h1
    have e0 : (pillars N s ms ys)[i]'(by omega) = ((Date.sub ms[i] s : ℝ) / N, ys[i]) := by simp [pillars]
    have e1 : (pillars N s ms ys)[i + 1]'(by omega) = ((Date.sub ms[i + 1] s : ℝ) / N, ys[i + 1]) := by simp [pillars]
    have hg := segment_of (pillars N s ms ys) (i := i) (by omega)
    rw [e0, e1] at hg
    have hle : ∀ a b : Date, a ≤ b → (Date.sub a s : ℝ) / N ≤ (Date.sub b s : ℝ) / N := by
      intro a b hab
      have := fraction_nonneg hD hab
      have e := sub_fractions N s a b
      linarith
    rw [(linear_segment _ hinc i _ _ _ _ _ hg (hle _ _ h0) (hle _ _ h1)).2]
    congr 3
    have := hN.ne'
    have : ((Date.sub ms[i + 1] s : ℝ) - Date.sub ms[i] s) ≠ 0 := by
      have a := fraction_pos hD (pm i (i + 1) (by omega) hi (by omega))
      rw [← sub_fractions N s, ← sub_div] at a
      exact (div_pos_iff_of_pos_right hN |>.1 a).ne'
    field_simp
  -- factors between covered dates
  have val : ∀ i (hi : i + 1 < ms.length), ∀ d, ms[i] ≤ d → d ≤ ms[i + 1] → ∀ j (hj : j + 1 < ms.length), ∀ e, ms[j] ≤ e →
      e ≤ ms[j + 1] → d ≤ e → curveDiscount D (Interpolator.linear ℝ) s ms ys d e = .ok (.ok (Real.exp ((g d - g e) / N))) := by
    intro i hi d h0 h1 j hj e k0 k1 hde
    have hsd : s ≤ d := by
      refine hs.trans (le_trans ?_ h0)
      rcases Nat.eq_zero_or_pos i with rfl | h
      · exact le_rfl
      · exact (pm 0 i (by omega) (by omega) h).le
    rw [form]
    refine ⟨hsd, hde, _, seg j hj e k0 k1, g d / N, ?_, ?_⟩
    · congr 1
      simp only [g, seg j hj e k0 k1, valueOf]
      ring
    · by_cases h : d = s
      · refine .inl ⟨h, ?_⟩
        simp only [g, h]
        simp [C04_sub_serial]
      · refine .inr ⟨h, _, seg i hi d h0 h1, ?_⟩
        simp only [g, seg i hi d h0 h1, valueOf]
        ring
  -- the product rises within each period
  have rise : ∀ i (hi : i < ms.length - 1), ∀ d e, ms[i] ≤ d → d ≤ e → e ≤ ms[i + 1] → g d ≤ g e := by
    intro i hi d e h0 h1 h2
    have hi' : i + 1 < ms.length := by omega
    have hlt := pm i (i + 1) (by omega) hi' (by omega)
    have hpos := (C04_sub_pos _ _).2 hlt
    have le_of : ∀ a b : Date, a ≤ b → ms[i] ≤ a → b ≤ ms[i + 1] → (∀ v,
        curveDiscount D (Interpolator.linear ℝ) s ms ys a b = .ok (.ok v) → v ≤ 1) → g a ≤ g b := by
      intro a b hab ha hb h
      have := h _ (val i hi' a ha (hab.trans hb) i hi' b (ha.trans hab) hb hab)
      rw [Real.exp_le_one_iff] at this
      have := (div_nonpos_iff.1 this).resolve_left (fun h => absurd h.2 (not_le.2 hN))
      linarith [this.1]
    have gq : ∀ a, ms[i] ≤ a → a ≤ ms[i + 1] → g a = (Date.sub a s : ℝ) * (ys[i] + (ys[i + 1] - ys[i]) /
        ((Date.sub ms[i + 1] s : ℝ) - Date.sub ms[i] s) * ((Date.sub a s : ℝ) - Date.sub ms[i] s)) := by
      intro a ha hb
      simp only [g, seg i hi' a ha hb, valueOf]
    obtain ⟨u, hu⟩ := day_after hlt
    obtain ⟨w, hw⟩ := day_before hlt
    have eu : Date.sub u s = Date.sub ms[i] s + 1 := by simp only [C04_sub_serial] at *; omega
    have ew : Date.sub w s = Date.sub ms[i + 1] s - 1 := by simp only [C04_sub_serial] at *; omega
    have u0 : ms[i] ≤ u := by rw [NaiveDate.le_iff_serial]; simp only [C04_sub_serial] at *; unfold Date.serialDate at *; omega
    have u1 : u ≤ ms[i + 1] := by rw [NaiveDate.le_iff_serial]; simp only [C04_sub_serial] at *; unfold Date.serialDate at *; omega
    have w0 : ms[i] ≤ w := by rw [NaiveDate.le_iff_serial]; simp only [C04_sub_serial] at *; unfold Date.serialDate at *; omega
    have w1 : w ≤ ms[i + 1] := by rw [NaiveDate.le_iff_serial]; simp only [C04_sub_serial] at *; unfold Date.serialDate at *; omega
    have a0 := le_of _ _ u0 le_rfl u1 fun v => (hdays i hi').1 u v hu
    have a1 := le_of _ _ w1 w0 le_rfl fun v => (hdays i hi').2 w v hw
    rw [gq _ le_rfl hlt.le, gq _ u0 u1, eu] at a0
    rw [gq _ hlt.le le_rfl, gq _ w0 w1, ew] at a1
    rw [gq _ h0 (h1.trans h2), gq _ (h0.trans h1) h2]
    exact product_days a0 a1 (days_le s h0) (days_le s h1) (days_le s h2)
  have bracket : ∀ d y, evaluate (Interpolator.linear ℝ) (pillars N s ms ys) ((Date.sub d s : ℝ) / N) = .ok (.ok y) →
      ∃ i, ∃ hi : i + 1 < ms.length, ms[i] ≤ d ∧ d ≤ ms[i + 1] := by
    intro d y hy
    have hr := inRange_of_value (.inl ⟨rfl, rfl⟩) hinc (by omega) hy
    obtain ⟨⟨m, hm0, c0⟩, m', hm1, c1⟩ := (inRange_iff_covers hD s ms ys hlen d).1 hr
    obtain ⟨i, hi, h0, h1⟩ := exists_bracket_raw (pts := ms.map fun m => (m, ())) (List.pairwise_map.2 hm) (by simpa using h2)
      (x := d) ⟨⟨(m, ()), List.mem_map_of_mem hm0, c0⟩, (m', ()), List.mem_map_of_mem hm1, c1⟩
    simp only [List.getElem_map] at h0 h1
    exact ⟨i, by simpa using hi, h0, h1⟩
  have rises : ∀ i (hi : i + 1 < ms.length), ∀ d, ms[i] ≤ d → d ≤ ms[i + 1] → ∀ j (hj : j + 1 < ms.length), ∀ e, ms[j] ≤ e →
      e ≤ ms[j + 1] → d ≤ e → g d ≤ g e := by
    intro i hi d h0 h1 j hj e k0 k1 hde
    have := rising_of_segments (pts := ms.map fun m => (m, ())) (List.pairwise_map.2 hm) (m := ms.length - 1)
      (by simp; omega) g (fun i hi x z a b c => rise i hi x z (by simpa using a) b (by simpa using c)) (x := d) (z := e)
      (i := i) (j := j) (by omega) (by omega)
    simp only [List.getElem_map] at this
    exact this h0 h1 k0 k1 hde
  obtain ⟨hsd, hde, y2, hy2, z1, rfl, hz⟩ := (form _ _ _).1 hv
  obtain ⟨j, hj, k0, k1⟩ := bracket d2 y2 hy2
  have g2 : g d2 / N = (Date.sub d2 s : ℝ) / N * y2 := by
    simp only [g, hy2, valueOf]
    ring
  rw [← g2, Real.exp_le_one_iff, sub_nonpos]
  rcases hz with ⟨rfl, rfl⟩ | ⟨-, y1, hy1, rfl⟩
  · refine div_nonneg ?_ hN.le
    have v0 : curveDiscount D (Interpolator.linear ℝ) d1 ms ys d1 ms[0] = .ok (.ok (Real.exp (-(g ms[0] / N)))) := by
      rw [form]
      refine ⟨le_rfl, hs, _, seg 0 (by omega) ms[0] le_rfl (pm 0 1 (by omega) (by omega) (by omega)).le, 0, ?_, .inl ⟨rfl, rfl⟩⟩
      congr 1
      simp only [g, seg 0 (by omega) ms[0] le_rfl (pm 0 1 (by omega) (by omega) (by omega)).le, valueOf]
      ring
    have a := hfirst _ v0
    rw [Real.exp_le_one_iff, neg_nonpos] at a
    have b := rises 0 (by omega) ms[0] le_rfl (pm 0 1 (by omega) (by omega) (by omega)).le j hj d2 k0 k1 (by
      refine le_trans ?_ k0
      rcases Nat.eq_zero_or_pos j with rfl | h
      · exact le_rfl
      · exact (pm 0 j (by omega) (by omega) h).le)
    have c := mul_nonneg a hN.le
    rw [div_mul_cancel₀ _ hN.ne'] at c
    linarith
  · obtain ⟨i, hi, h0, h1⟩ := bracket d1 y1 hy1
    have g1 : g d1 / N = (Date.sub d1 s : ℝ) / N * y1 := by
      simp only [g, hy1, valueOf]
      ring
    rw [← g1]
    exact div_le_div_of_nonneg_right (rises i hi d1 h0 h1 j hj d2 k0 k1 hde) hN.le

end

/-- Rising yields 1 %, 2 % and 3 % pass on all these days; 1, 0 and 0 do not. -/
example : (∀ d v, Date.sub d ⟨2023, 12, 27, by decide⟩ = 1 → curveDiscount DayCount.act360 (Interpolator.linear ℝ) gridSettle
    gridMaturities [0.01, 0.02, 0.03] ⟨2023, 12, 27, by decide⟩ d = .ok (.ok v) → v ≤ 1) ∧
    ¬ ((∀ v, curveDiscount DayCount.act360 (Interpolator.linear ℝ) gridSettle gridMaturities [1, 0, 0] gridSettle
        gridMaturities[0] = .ok (.ok v) → v ≤ 1) ∧ ∀ i (hi : i + 1 < gridMaturities.length),
        (∀ d v, Date.sub d gridMaturities[i] = 1 → curveDiscount DayCount.act360 (Interpolator.linear ℝ) gridSettle gridMaturities
          [1, 0, 0] gridMaturities[i] d = .ok (.ok v) → v ≤ 1) ∧
        (∀ d v, Date.sub gridMaturities[i + 1] d = 1 → curveDiscount DayCount.act360 (Interpolator.linear ℝ) gridSettle
          gridMaturities [1, 0, 0] d gridMaturities[i + 1] = .ok (.ok v) → v ≤ 1)) := by
  constructor
  · refine (((C112_linear_exactly_partial (N := 360) (.inl ⟨rfl, rfl⟩) gridSettle gridMaturities [0.01, 0.02, 0.03] rfl
      gridMaturities_increasing (by simp [gridMaturities]) (by decide)).1 fun d1 d2 v h => ?_).2 0 (by simp [gridMaturities])).1
    have hd := ((curveDiscount_form (N := 360) (.inl ⟨rfl, rfl⟩) (.inl ⟨rfl, rfl⟩ : IsShippedInterpolator (Interpolator.linear ℝ) 2) rfl
      gridMaturities_increasing (by simp [gridMaturities])).1 h)
    rcases eq_or_lt_of_le hd.2.1 with rfl | hd
    · obtain ⟨-, -, y2, e2, z1, rfl, ⟨rfl, rfl⟩ | ⟨-, y1, e1, rfl⟩⟩ := hd
      · simp [C04_sub_serial]
      · rw [e1] at e2
        obtain rfl : y1 = y2 := by simpa using e2
        simp
    refine (C112_rising_partial (N := 360) (.inl ⟨rfl, rfl⟩) gridSettle gridMaturities [0.01, 0.02, 0.03] rfl
      gridMaturities_increasing (by simp [gridMaturities]) (by decide) ?_ ?_ _ _ hd v h).le
    · intro y hy
      simp only [List.mem_cons, List.not_mem_nil, or_false] at hy
      rcases hy with rfl | rfl | rfl <;> norm_num
    · intro i hi
      simp only [gridMaturities, List.length_cons, List.length_nil] at hi
      obtain rfl | rfl : i = 0 ∨ i = 1 := by omega
      · norm_num
      · norm_num
  · intro h
    obtain ⟨v, hv, h1⟩ := C112_refuted_linear
    exact absurd ((C112_linear_exactly_partial (N := 360) (.inl ⟨rfl, rfl⟩) gridSettle gridMaturities [1, 0, 0] rfl
      gridMaturities_increasing (by simp [gridMaturities]) (by decide)).2 h _ _ v hv) (not_le.2 h1)

end Qlab.Props
