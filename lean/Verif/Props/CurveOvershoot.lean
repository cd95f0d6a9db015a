import Verif.Props.Overshoot
import Verif.Props.CurveShape

/-!
# Bounds on the discount factors of a curve from the range of its yields (C79, C95)
-/

namespace Qlab.Props

open Spec

section
variable {I : Interpolator ℝ} {D : DayCount ℝ} {N : ℝ}

theorem inRange_of_not {pts : List (ℝ × ℝ)} {x : ℝ} (hb : ¬ BelowAll pts x) (ha : ¬ AboveAll pts x) : InRange pts x := by
  simp only [BelowAll, AboveAll, not_forall, not_lt] at hb ha
  obtain ⟨p, hp, h1⟩ := hb
  obtain ⟨q, hq, h2⟩ := ha
  exact ⟨⟨p, hp, h1⟩, ⟨q, hq, h2⟩⟩

/-- The discount factor from settlement lies between two exponentials when the interpolated yield lies between two
rates. -/
theorem discount_between (hD : IsActual D N) {n : Nat} (hI : IsShippedInterpolator I n) {s : Date} {ms : List Date}
    {ys : List ℝ} (hlen : ms.length = ys.length) (hm : ms.Pairwise (· < ·)) (hn : n ≤ ms.length) {d : Date} {v lo hi : ℝ}
    (h : curveDiscount D I s ms ys s d = .ok (.ok v))
    (hy : ∀ y, evaluate I (pillars N s ms ys) ((Date.sub d s : ℝ) / N) = .ok (.ok y) → lo ≤ y ∧ y ≤ hi) :
    Real.exp (-((Date.sub d s : ℝ) / N * hi)) ≤ v ∧ v ≤ Real.exp (-((Date.sub d s : ℝ) / N * lo)) := by
  obtain ⟨_, hd, y2, hy2, z1, rfl, hz⟩ := (curveDiscount_form hD hI hlen hm hn).1 h
  have hz0 : z1 = 0 := by
    rcases hz with ⟨_, h⟩ | ⟨h, _⟩
    · exact h
    · exact absurd rfl h
  obtain ⟨h1, h2⟩ := hy y2 hy2
  have ht := fraction_nonneg hD hd
  rw [hz0, zero_sub]
  exact ⟨Real.exp_le_exp.2 (neg_le_neg (mul_le_mul_of_nonneg_left h2 ht)),
    Real.exp_le_exp.2 (neg_le_neg (mul_le_mul_of_nonneg_left h1 ht))⟩

theorem pillars_range {s : Date} {ms : List Date} {ys : List ℝ} {lo hi : ℝ} (hy : ∀ y ∈ ys, lo ≤ y ∧ y ≤ hi) :
    ∀ p ∈ pillars N s ms ys, lo ≤ p.2 ∧ p.2 ≤ hi := fun _ hp => hy _ (List.of_mem_zip hp).2

/-- **C95.** Linear interpolation, Act/360 or Act/365: every discount factor from settlement lies between those of the
flat curves at the highest and the lowest yield. -/
theorem C95_discount_linear (hD : IsActual D N) (s : Date) (ms : List Date) (ys : List ℝ)
    (hlen : ms.length = ys.length) (hm : ms.Pairwise (· < ·)) (h2 : 2 ≤ ms.length) (lo hi : ℝ)
    (hy : ∀ y ∈ ys, lo ≤ y ∧ y ≤ hi) (d : Date) (v : ℝ)
    (h : curveDiscount D (Interpolator.linear ℝ) s ms ys s d = .ok (.ok v)) :
    Real.exp (-((Date.sub d s : ℝ) / N * hi)) ≤ v ∧ v ≤ Real.exp (-((Date.sub d s : ℝ) / N * lo)) := by
  refine discount_between hD (.inl ⟨rfl, rfl⟩) hlen hm h2 h fun y he => ?_
  have hinc := pillars_increasing hD s hm ys
  have hl : 2 ≤ (pillars N s ms ys).length := by simp [pillars]; omega
  have dom := C35_domain _ hinc hl ((Date.sub d s : ℝ) / N)
  have hb : ¬ BelowAll (pillars N s ms ys) ((Date.sub d s : ℝ) / N) := fun hb => by rw [dom.1 hb] at he; simp at he
  have ha : ¬ AboveAll (pillars N s ms ys) ((Date.sub d s : ℝ) / N) := fun ha => by rw [dom.2.1 ha] at he; simp at he
  obtain ⟨w, hw, h1, h2⟩ := C95_linear _ hinc hl _ (inRange_of_not hb ha) lo hi (pillars_range hy)
  rw [he] at hw
  obtain rfl : y = w := by simpa using hw
  exact ⟨h1, h2⟩

/-- **C95.** Catmull-Rom interpolation, up to the last maturity but one: the same with rates a fifth of the range of
yields further out.  Missing for the full property: dates after the last maturity but one. -/
theorem C95_discount_catmull_rom_partial (hD : IsActual D N) (s : Date) (ms : List Date) (ys : List ℝ)
    (hlen : ms.length = ys.length) (hm : ms.Pairwise (· < ·)) (h3 : 3 ≤ ms.length) (lo hi : ℝ)
    (hy : ∀ y ∈ ys, lo ≤ y ∧ y ≤ hi) (d : Date) (hd : d ≤ ms[ms.length - 2]) (v : ℝ)
    (h : curveDiscount D (Interpolator.catmullRom ℝ) s ms ys s d = .ok (.ok v)) :
    Real.exp (-((Date.sub d s : ℝ) / N * (hi + (hi - lo) / 5))) ≤ v ∧
      v ≤ Real.exp (-((Date.sub d s : ℝ) / N * (lo - (hi - lo) / 5))) := by
  refine discount_between hD (.inr (.inl ⟨rfl, rfl⟩)) hlen hm h3 h fun y he => ?_
  have hinc := pillars_increasing hD s hm ys
  have hl : (pillars N s ms ys).length = ms.length := by simp [pillars]; omega
  have dom := C38_domain _ hinc (by omega) ((Date.sub d s : ℝ) / N)
  have hb : ¬ BelowAll (pillars N s ms ys) ((Date.sub d s : ℝ) / N) := fun hb => by rw [dom.1 hb] at he; simp at he
  have ha : ¬ AboveAll (pillars N s ms ys) ((Date.sub d s : ℝ) / N) := fun ha => by rw [dom.2.1 ha] at he; simp at he
  obtain ⟨w, hw, h1, h2⟩ := C95_catmull_rom_partial _ hinc (by omega) _ (inRange_of_not hb ha) (by
    simp only [hl, pillars, List.getElem_zip, List.getElem_map]
    have hN := isActual_pos hD
    have : Date.sub d s ≤ Date.sub ms[ms.length - 2] s := by
      have h1 := C04_sub_additive s d ms[ms.length - 2]
      have h2 : 0 ≤ Date.sub ms[ms.length - 2] d := by
        rcases eq_or_lt_of_le hd with h | h
        · rw [← h, (C04_sub_eq_zero d d).2 rfl]
        · exact ((C04_sub_pos _ _).2 h).le
      omega
    gcongr) lo hi (pillars_range hy)
  rw [he] at hw
  obtain rfl : y = w := by simpa using hw
  exact ⟨h1, h2⟩

/-- **C95.** Natural cubic interpolation with four maturities or more: the same with rates `6/5 (H / h)²` times the
range of yields further out, where `h` and `H` bound the number of days between neighbouring maturities.  Missing for
the full property: three maturities. -/
theorem C95_discount_natural_cubic_partial (hD : IsActual D N) (s : Date) (ms : List Date) (ys : List ℝ)
    (hlen : ms.length = ys.length) (hm : ms.Pairwise (· < ·)) (h4 : 4 ≤ ms.length) (lo hi h H : ℝ)
    (hy : ∀ y ∈ ys, lo ≤ y ∧ y ≤ hi) (hh : 0 < h)
    (hgap : ∀ i (hi : i + 1 < ms.length), h ≤ (Date.sub ms[i + 1] ms[i] : ℝ) ∧ (Date.sub ms[i + 1] ms[i] : ℝ) ≤ H)
    (d : Date) (v : ℝ) (hv : curveDiscount D (Interpolator.naturalCubic ℝ) s ms ys s d = .ok (.ok v)) :
    Real.exp (-((Date.sub d s : ℝ) / N * (hi + 6 / 5 * (H / h) ^ 2 * (hi - lo)))) ≤ v ∧
      v ≤ Real.exp (-((Date.sub d s : ℝ) / N * (lo - 6 / 5 * (H / h) ^ 2 * (hi - lo)))) := by
  refine discount_between hD (.inr (.inr ⟨rfl, rfl⟩)) hlen hm (by omega) hv fun y he => ?_
  have hinc := pillars_increasing hD s hm ys
  have hl : (pillars N s ms ys).length = ms.length := by simp [pillars]; omega
  have dom := C40_domain _ hinc (by omega) ((Date.sub d s : ℝ) / N)
  have hb : ¬ BelowAll (pillars N s ms ys) ((Date.sub d s : ℝ) / N) := fun hb => by rw [dom.1 hb] at he; simp at he
  have ha : ¬ AboveAll (pillars N s ms ys) ((Date.sub d s : ℝ) / N) := fun ha => by rw [dom.2.1 ha] at he; simp at he
  have hN := isActual_pos hD
  obtain ⟨w, hw, h1, h2⟩ := C95_natural_cubic_partial _ hinc (by omega) _ (inRange_of_not hb ha) lo hi (h / N) (H / N)
    (pillars_range hy) (by positivity) (fun i hi' => by
      have g := hgap i (by omega)
      have e : (pillars N s ms ys)[i + 1].1 - (pillars N s ms ys)[i].1 =
          (Date.sub (ms[i + 1]'(by omega)) (ms[i]'(by omega)) : ℝ) / N := by
        simp only [pillars, List.getElem_zip, List.getElem_map]
        rw [← sub_div]
        congr 1
        have := C04_sub_additive s (ms[i]'(by omega)) (ms[i + 1]'(by omega))
        have : (Date.sub (ms[i + 1]'(by omega)) (ms[i]'(by omega)) : ℝ) + Date.sub (ms[i]'(by omega)) s =
          Date.sub (ms[i + 1]'(by omega)) s := by exact_mod_cast this
        linarith
      rw [e]
      exact ⟨by gcongr; exact g.1, by gcongr; exact g.2⟩)
  rw [he] at hw
  obtain rfl : y = w := by simpa using hw
  rw [div_div_div_cancel_right₀ hN.ne'] at h1 h2
  exact ⟨h1, h2⟩

/-- **C79.** Catmull-Rom interpolation: when the highest yield is at most six times the lowest, no discount factor from
settlement to a date up to the last maturity but one exceeds one.  Missing for the full property: wider ranges of
yields and later dates. -/
theorem C79_catmull_rom_partial (hD : IsActual D N) (s : Date) (ms : List Date) (ys : List ℝ)
    (hlen : ms.length = ys.length) (hm : ms.Pairwise (· < ·)) (h3 : 3 ≤ ms.length)
    (hy : ∀ y ∈ ys, ∀ z ∈ ys, y ≤ 6 * z) (d : Date) (hd : d ≤ ms[ms.length - 2]) (v : ℝ)
    (h : curveDiscount D (Interpolator.catmullRom ℝ) s ms ys s d = .ok (.ok v)) : v ≤ 1 := by
  obtain ⟨lo, hlo, hlo'⟩ := ys.toFinset.exists_min_image id ⟨ys[0]'(by omega), by simp⟩
  obtain ⟨hi, hhi, hhi'⟩ := ys.toFinset.exists_max_image id ⟨ys[0]'(by omega), by simp⟩
  simp only [List.mem_toFinset, id] at hlo hlo' hhi hhi'
  have key := (C95_discount_catmull_rom_partial hD s ms ys hlen hm h3 lo hi (fun y hy => ⟨hlo' y hy, hhi' y hy⟩) d hd v
    h).2
  obtain ⟨_, hsd, -⟩ := (curveDiscount_form hD (.inr (.inl ⟨rfl, rfl⟩)) hlen hm h3).1 h
  refine le_trans key (Real.exp_le_one_iff.2 (neg_nonpos.2 (mul_nonneg (fraction_nonneg hD hsd) ?_)))
  linarith [hy hi hhi lo hlo]

/-- **C79.** Natural cubic interpolation with four maturities or more, neighbours between `h` and `H` days apart: when
the yields differ by at most a stated fraction of the lowest, no discount factor from settlement exceeds one.  Missing
for the full property: wider ranges of yields and three maturities. -/
theorem C79_natural_cubic_partial (hD : IsActual D N) (s : Date) (ms : List Date) (ys : List ℝ)
    (hlen : ms.length = ys.length) (hm : ms.Pairwise (· < ·)) (h4 : 4 ≤ ms.length) (h H : ℝ) (hh : 0 < h)
    (hgap : ∀ i (hi : i + 1 < ms.length), h ≤ (Date.sub ms[i + 1] ms[i] : ℝ) ∧ (Date.sub ms[i + 1] ms[i] : ℝ) ≤ H)
    (hy : ∀ y ∈ ys, ∀ z ∈ ys, 6 / 5 * (H / h) ^ 2 * (y - z) ≤ z) (d : Date) (v : ℝ)
    (hv : curveDiscount D (Interpolator.naturalCubic ℝ) s ms ys s d = .ok (.ok v)) : v ≤ 1 := by
  obtain ⟨lo, hlo, hlo'⟩ := ys.toFinset.exists_min_image id ⟨ys[0]'(by omega), by simp⟩
  obtain ⟨hi, hhi, hhi'⟩ := ys.toFinset.exists_max_image id ⟨ys[0]'(by omega), by simp⟩
  simp only [List.mem_toFinset, id] at hlo hlo' hhi hhi'
  have key := (C95_discount_natural_cubic_partial hD s ms ys hlen hm h4 lo hi h H
    (fun y hy => ⟨hlo' y hy, hhi' y hy⟩) hh hgap d v hv).2
  obtain ⟨_, hsd, -⟩ := (curveDiscount_form hD (.inr (.inr ⟨rfl, rfl⟩)) hlen hm (by omega)).1 hv
  refine le_trans key (Real.exp_le_one_iff.2 (neg_nonpos.2 (mul_nonneg (fraction_nonneg hD hsd) ?_)))
  linarith [hy hi hhi lo hlo]

end

/-! ## Examples -/

/-- Yields of 1 %, 5 % and 2 %: a Catmull-Rom curve on the grid of 360-day steps. -/
example : ∃ v, curveDiscount DayCount.act360 (Interpolator.catmullRom ℝ) gridSettle gridMaturities [0.01, 0.05, 0.02]
    gridSettle gridMid1 = .ok (.ok v) ∧ v ≤ 1 := by
  obtain ⟨v, hv⟩ := (C58_domain (N := 360) (.inl ⟨rfl, rfl⟩) (.inr (.inl ⟨rfl, rfl⟩)) gridSettle gridMaturities
    [0.01, 0.05, 0.02] rfl (by unfold gridMaturities; decide) (by simp [gridMaturities]) gridSettle gridMid1 le_rfl
    (by decide)).1 ⟨⟨⟨_, List.mem_cons_self, by decide⟩, ⟨⟨2025, 12, 16, by decide⟩, by simp [gridMaturities], by decide⟩⟩,
      .inl rfl⟩
  refine ⟨v, hv, C79_catmull_rom_partial (N := 360) (.inl ⟨rfl, rfl⟩) gridSettle gridMaturities [0.01, 0.05, 0.02] rfl
    (by unfold gridMaturities; decide) (by simp [gridMaturities]) ?_ gridMid1 (by decide) v hv⟩
  simp only [List.mem_cons, List.not_mem_nil, or_false, forall_eq_or_imp, forall_eq]
  norm_num

/-- Four maturities 360 days apart. -/
def fourMaturities : List Date :=
  [⟨2023, 12, 27, by decide⟩, ⟨2024, 12, 21, by decide⟩, ⟨2025, 12, 16, by decide⟩, ⟨2026, 12, 11, by decide⟩]

/-- Yields of 2 %, 3 %, 2.5 % and 3.5 % on a natural cubic curve. -/
example : ∃ v, curveDiscount DayCount.act360 (Interpolator.naturalCubic ℝ) gridSettle fourMaturities
    [0.02, 0.03, 0.025, 0.035] gridSettle gridMid1 = .ok (.ok v) ∧ v ≤ 1 := by
  obtain ⟨v, hv⟩ := (C58_domain (N := 360) (.inl ⟨rfl, rfl⟩) (.inr (.inr ⟨rfl, rfl⟩)) gridSettle fourMaturities
    [0.02, 0.03, 0.025, 0.035] rfl (by unfold fourMaturities; decide) (by simp [fourMaturities]) gridSettle gridMid1
    le_rfl (by decide)).1 ⟨⟨⟨_, List.mem_cons_self, by decide⟩, ⟨⟨2026, 12, 11, by decide⟩, by simp [fourMaturities],
      by decide⟩⟩, .inl rfl⟩
  refine ⟨v, hv, C79_natural_cubic_partial (N := 360) (.inl ⟨rfl, rfl⟩) gridSettle fourMaturities
    [0.02, 0.03, 0.025, 0.035] rfl (by unfold fourMaturities; decide) (by simp [fourMaturities]) 360 360 (by norm_num) ?_
    ?_ gridMid1 v hv⟩
  · intro i hi
    have : i = 0 ∨ i = 1 ∨ i = 2 := by simp [fourMaturities] at hi; omega
    have e : Date.sub fourMaturities[i + 1] fourMaturities[i] = 360 := by
      rcases this with rfl | rfl | rfl <;> decide +kernel +revert
    rw [e]
    norm_num
  · simp only [List.mem_cons, List.not_mem_nil, or_false, forall_eq_or_imp, forall_eq]
    norm_num

/-- The bounds for yields between 1% and 5%, met by all three interpolators. -/
example : ∃ v w z,
    curveDiscount DayCount.act360 (Interpolator.linear ℝ) gridSettle gridMaturities [0.01, 0.05, 0.02] gridSettle
      gridMid1 = .ok (.ok v) ∧ v ≤ Real.exp (-((Date.sub gridMid1 gridSettle : ℝ) / (360 : Int) * 0.01)) ∧
    curveDiscount DayCount.act360 (Interpolator.catmullRom ℝ) gridSettle gridMaturities [0.01, 0.05, 0.02] gridSettle
      gridMid1 = .ok (.ok w) ∧
      w ≤ Real.exp (-((Date.sub gridMid1 gridSettle : ℝ) / (360 : Int) * (0.01 - (0.05 - 0.01) / 5))) ∧
    curveDiscount DayCount.act360 (Interpolator.naturalCubic ℝ) gridSettle fourMaturities [0.02, 0.03, 0.025, 0.035]
      gridSettle gridMid1 = .ok (.ok z) ∧
      z ≤ Real.exp (-((Date.sub gridMid1 gridSettle : ℝ) / (360 : Int) * (0.02 - 6 / 5 * (360 / 360) ^ 2 * (0.035 - 0.02)))) := by
  have hy : ∀ y ∈ ([0.01, 0.05, 0.02] : List ℝ), (0.01 : ℝ) ≤ y ∧ y ≤ 0.05 := by
    simp only [List.mem_cons, List.not_mem_nil, or_false, forall_eq_or_imp, forall_eq]
    norm_num
  have hinc : gridMaturities.Pairwise (· < ·) := by unfold gridMaturities; decide
  have hinc4 : fourMaturities.Pairwise (· < ·) := by unfold fourMaturities; decide
  have cov : Covers gridMaturities gridMid1 :=
    ⟨⟨_, List.mem_cons_self, by decide⟩, ⟨⟨2025, 12, 16, by decide⟩, by simp [gridMaturities], by decide⟩⟩
  have cov4 : Covers fourMaturities gridMid1 :=
    ⟨⟨_, List.mem_cons_self, by decide⟩, ⟨⟨2026, 12, 11, by decide⟩, by simp [fourMaturities], by decide⟩⟩
  obtain ⟨v, hv⟩ := (C58_domain (N := 360) (.inl ⟨rfl, rfl⟩) (.inl ⟨rfl, rfl⟩) gridSettle gridMaturities
    [0.01, 0.05, 0.02] rfl hinc (by simp [gridMaturities]) gridSettle gridMid1 le_rfl (by decide)).1 ⟨cov, .inl rfl⟩
  obtain ⟨w, hw⟩ := (C58_domain (N := 360) (.inl ⟨rfl, rfl⟩) (.inr (.inl ⟨rfl, rfl⟩)) gridSettle gridMaturities
    [0.01, 0.05, 0.02] rfl hinc (by simp [gridMaturities]) gridSettle gridMid1 le_rfl (by decide)).1 ⟨cov, .inl rfl⟩
  obtain ⟨z, hz⟩ := (C58_domain (N := 360) (.inl ⟨rfl, rfl⟩) (.inr (.inr ⟨rfl, rfl⟩)) gridSettle fourMaturities
    [0.02, 0.03, 0.025, 0.035] rfl hinc4 (by simp [fourMaturities]) gridSettle gridMid1 le_rfl (by decide)).1
      ⟨cov4, .inl rfl⟩
  refine ⟨v, w, z, hv, ?_, hw, ?_, hz, ?_⟩
  · exact (C95_discount_linear (N := 360) (.inl ⟨rfl, rfl⟩) _ _ _ rfl hinc (by simp [gridMaturities]) 0.01 0.05 hy _ v
      hv).2
  · exact (C95_discount_catmull_rom_partial (N := 360) (.inl ⟨rfl, rfl⟩) _ _ _ rfl hinc (by simp [gridMaturities]) 0.01
      0.05 hy _ (by decide) w hw).2
  · refine (C95_discount_natural_cubic_partial (N := 360) (.inl ⟨rfl, rfl⟩) _ _ _ rfl hinc4 (by simp [fourMaturities])
      0.02 0.035 360 360 ?_ (by norm_num) ?_ _ z hz).2
    · simp only [List.mem_cons, List.not_mem_nil, or_false, forall_eq_or_imp, forall_eq]
      norm_num
    · intro i hi
      have : i = 0 ∨ i = 1 ∨ i = 2 := by simp [fourMaturities] at hi; omega
      have e : Date.sub fourMaturities[i + 1] fourMaturities[i] = 360 := by
        rcases this with rfl | rfl | rfl <;> decide +kernel +revert
      rw [e]
      norm_num

end Qlab.Props
