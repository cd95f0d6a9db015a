import Verif.Props.Accuracy
import Verif.Props.Risk

/-!
# Closeness of discount factors and prices to those of the zero curve the quotes come from (C111)
-/

namespace Qlab.Spec

/-- Years of `N` days from `s` to `d`. -/
noncomputable def yearsBetween (N : ℝ) (s d : Date) : ℝ := (Date.sub d s : ℝ) / N

/-- The yields quoted for the maturities `ms` by a market with zero curve `z`. -/
noncomputable def quotesOf (z : ℝ → ℝ) (N : ℝ) (s : Date) (ms : List Date) : List ℝ := ms.map fun m => z (yearsBetween N s m)

/-- The discount factor of the zero curve itself. -/
noncomputable def zeroDiscount (z : ℝ → ℝ) (N : ℝ) (s d1 d2 : Date) : ℝ :=
  Real.exp (yearsBetween N s d1 * z (yearsBetween N s d1) - yearsBetween N s d2 * z (yearsBetween N s d2))

/-- Neighbouring maturities are from `h` to `H` years apart. -/
def SpacedWithin (N : ℝ) (ms : List Date) (h H : ℝ) : Prop :=
  ∀ i (hi : i + 1 < ms.length), h ≤ yearsBetween N ms[i] ms[i + 1] ∧ yearsBetween N ms[i] ms[i + 1] ≤ H

/-- Up to the date `last`, the yields that `I` interpolates between the quotes are within `E` of the zero curve. -/
def IsYieldError (I : Interpolator ℝ) (N : ℝ) (s : Date) (ms : List Date) (z : ℝ → ℝ) (last : Date) (E : ℝ) : Prop :=
  ∃ a b h H, (∀ m ∈ ms, a ≤ yearsBetween N s m ∧ yearsBetween N s m ≤ b) ∧ SpacedWithin N ms h H ∧ 0 < h ∧
    ((I = Interpolator.linear ℝ ∧ 2 ≤ ms.length ∧ ∃ g M, HasSecondDerivOn z g (Set.Icc a b) ∧
        (∀ u ∈ Set.Icc a b, |g u| ≤ M) ∧ E = M * H ^ 2 / 8) ∨
      (I = Interpolator.linear ℝ ∧ 2 ≤ ms.length ∧ ∃ L, ChangesAtMost z L a b ∧ E = L * H / 2) ∨
      (I = Interpolator.catmullRom ℝ ∧ (∃ _ : 3 ≤ ms.length, last ≤ ms[ms.length - 2]) ∧
        ∃ L, ChangesAtMost z L a b ∧ E = 3 / 4 * (L * H)) ∨
      (I = Interpolator.naturalCubic ℝ ∧ 4 ≤ ms.length ∧ ∃ g M, HasSecondDerivOn z g (Set.Icc a b) ∧
        (∀ u ∈ Set.Icc a b, |g u| ≤ M) ∧ E = M / 8 * (1 + 24 / 5 * (H / h)) * H ^ 2))

end Qlab.Spec

namespace Qlab.Props

open Spec

section
variable {I : Interpolator ℝ} {D : DayCount ℝ} {N : ℝ}

theorem yieldError_shipped {s : Date} {ms : List Date} {z : ℝ → ℝ} {last : Date} {E : ℝ}
    (hE : IsYieldError I N s ms z last E) : ∃ n, IsShippedInterpolator I n ∧ n ≤ ms.length := by
  obtain ⟨a, b, h, H, -, -, -, ⟨h, hn, -⟩ | ⟨h, hn, -⟩ | ⟨h, ⟨hn, -⟩, -⟩ | ⟨h, hn, -⟩⟩ := hE
  · exact ⟨2, .inl ⟨h, rfl⟩, hn⟩
  · exact ⟨2, .inl ⟨h, rfl⟩, hn⟩
  · exact ⟨3, .inr (.inl ⟨h, rfl⟩), hn⟩
  · exact ⟨3, .inr (.inr ⟨h, rfl⟩), by omega⟩

theorem quotes_length (z : ℝ → ℝ) (N : ℝ) (s : Date) (ms : List Date) : ms.length = (quotesOf z N s ms).length := by
  simp [quotesOf]

theorem pillar_eq (z : ℝ → ℝ) (N : ℝ) (s : Date) (ms : List Date) :
    pillars N s ms (quotesOf z N s ms) = ms.map fun m => (yearsBetween N s m, z (yearsBetween N s m)) := by
  unfold pillars quotesOf
  rw [List.zip_map']
  rfl

/-- Interpolated yields. -/
theorem yield_error (hD : IsActual D N) {s : Date} {ms : List Date} (hm : ms.Pairwise (· < ·)) {z : ℝ → ℝ}
    {last d : Date} {E : ℝ} (hE : IsYieldError I N s ms z last E) (hd : d ≤ last) {y : ℝ}
    (hy : evaluate I (pillars N s ms (quotesOf z N s ms)) (yearsBetween N s d) = .ok (.ok y)) : |y - z (yearsBetween N s d)| ≤ E := by
  obtain ⟨n, hI, hn⟩ := yieldError_shipped hE
  have hinc := pillars_increasing hD s hm (quotesOf z N s ms)
  have hN := isActual_pos hD
  rw [pillar_eq] at hy hinc
  obtain ⟨a, b, h, H, hab, hg, hh, hE⟩ := hE
  set pts := ms.map fun m => (yearsBetween N s m, z (yearsBetween N s m)) with hpts
  have hl : pts.length = ms.length := by simp [hpts]
  have hr := inRange_of_value hI hinc (by omega) hy
  have hp : SampledFrom z a b pts := by
    intro p hp
    obtain ⟨m, hm, rfl⟩ := List.mem_map.1 hp
    exact ⟨(hab m hm).1, (hab m hm).2, rfl⟩
  have hgap : ∀ i (hi : i + 1 < pts.length), h ≤ pts[i + 1].1 - pts[i].1 ∧ pts[i + 1].1 - pts[i].1 ≤ H := by
    intro i hi
    have := hg i (by omega)
    have e : pts[i + 1].1 - pts[i].1 = yearsBetween N ms[i] ms[i + 1] := by
      simp only [hpts, List.getElem_map, yearsBetween]
      rw [← sub_div]
      congr 1
      simp only [C04_sub_serial]; push_cast; ring
    rwa [e]
  have key : ∀ {v : ℝ} {B : ℝ}, (∃ v, evaluate I pts (yearsBetween N s d) = .ok (.ok v) ∧ |v - z (yearsBetween N s d)| ≤ B) →
      |y - z (yearsBetween N s d)| ≤ B := by
    rintro - B ⟨v, hv, hb⟩
    obtain rfl := Except.ok.inj (Rust.ok.inj (hy.symm.trans hv))
    exact hb
  have len2 : 2 ≤ pts.length := by
    rcases hI with ⟨-, rfl⟩ | ⟨-, rfl⟩ | ⟨-, rfl⟩ <;> omega
  have hseg : ∀ i (hi : i + 1 < pts.length), IsSegment pts i pts[i].1 pts[i].2 pts[i + 1].1 pts[i + 1].2 :=
    fun i hi => ⟨by simp, by simp⟩
  obtain ⟨i, hi, h0, h1⟩ := exists_bracket_raw hinc len2 hr
  have hlt := List.pairwise_iff_getElem.1 hinc i (i + 1) (by omega) hi (by omega)
  have rate : ∀ {L : ℝ}, ChangesAtMost z L a b → 0 ≤ L := by
    intro L hL
    have m0 := hp _ (List.getElem_mem (show i < pts.length by omega))
    have m1 := hp _ (List.getElem_mem hi)
    have := le_trans (abs_nonneg _) (hL _ _ m0.1 hlt.le m1.2.1)
    exact nonneg_of_mul_nonneg_left this (by linarith)
  have sq : (pts[i + 1].1 - pts[i].1) ^ 2 ≤ H ^ 2 := pow_le_pow_left₀ (by linarith) (hgap i hi).2 2
  rcases hE with ⟨rfl, -, g, M, hz, hM, rfl⟩ | ⟨rfl, -, L, hL, rfl⟩ | ⟨rfl, ⟨h3, hlast⟩, L, hL, rfl⟩ | ⟨rfl, h4, g, M, hz, hM, rfl⟩
  · obtain ⟨v, hv, -, hb⟩ := C110_linear z g M a b hz hM pts hp hinc i _ _ _ _ _ (hseg i (by omega)) h0 h1
    have m0 := hp _ (List.getElem_mem (show i < pts.length by omega))
    have M0 : 0 ≤ M := le_trans (abs_nonneg _) (hM _ ⟨m0.1, m0.2.1⟩)
    refine key (v := 0) ⟨v, hv, hb.trans ?_⟩
    have := mul_le_mul_of_nonneg_left sq M0
    linarith
  · obtain ⟨v, hv, hb⟩ := C110_linear_rate z L a b hL pts hp hinc i _ _ _ _ _ (hseg i (by omega)) h0 h1
    refine key (v := 0) ⟨v, hv, hb.trans ?_⟩
    have := mul_le_mul_of_nonneg_left (hgap i hi).2 (rate hL)
    linarith
  · obtain ⟨i, hi', h0, h1⟩ : ∃ i, ∃ hi : i + 2 < pts.length, pts[i].1 ≤ yearsBetween N s d ∧ yearsBetween N s d ≤ pts[i + 1].1 := by
      by_cases hlast' : i + 2 < pts.length
      · exact ⟨i, hlast', h0, h1⟩
      · have hi2 : i = pts.length - 2 := by omega
        subst hi2
        refine ⟨pts.length - 3, by omega, le_trans (le_of_lt (List.pairwise_iff_getElem.1 hinc _ _ (by omega) (by omega)
          (by omega))) h0, ?_⟩
        simp only [show pts.length - 3 + 1 = pts.length - 2 by omega]
        have e : pts[pts.length - 2].1 = yearsBetween N s ms[ms.length - 2] := by simp [hpts]
        rw [e]
        have := fraction_nonneg hD (hd.trans hlast)
        have e' : (Date.sub ms[ms.length - 2] d : ℝ) / N = yearsBetween N s ms[ms.length - 2] - yearsBetween N s d := by
          unfold yearsBetween
          rw [← sub_div]
          congr 1
          simp only [C04_sub_serial]; push_cast; ring
        linarith
    obtain ⟨v, hv, hb⟩ := C110_catmull_rom_rate_partial z L a b hL pts hp hinc i hi' _ _ _ _ _ (hseg i (by omega)) h0 h1
    refine key (v := 0) ⟨v, hv, hb.trans ?_⟩
    have := mul_le_mul_of_nonneg_left (hgap i (by omega)).2 (rate hL)
    linarith
  · exact key (v := 0) (C110_natural_cubic_partial z g M a b hz hM pts hp hinc (by omega) h H hh hgap _ hr)

/-- **C111.** A discount factor from quotes of a zero curve is that of the zero curve up to the factor `exp (E X)`, where
`E` bounds the error of the interpolated yields and `X` is the sum of the times from settlement to the two dates. -/
theorem C111_discount (hD : IsActual D N) (s : Date) (ms : List Date) (hm : ms.Pairwise (· < ·)) (z : ℝ → ℝ)
    (last : Date) (E : ℝ) (hE : IsYieldError I N s ms z last E) (d1 d2 : Date) (hs : s ≤ d1) (hd : d1 ≤ d2)
    (hl : d2 ≤ last) (c2 : Covers ms d2) (c1 : d1 = s ∨ Covers ms d1) :
    ∃ v X, curveDiscount D I s ms (quotesOf z N s ms) d1 d2 = .ok (.ok v) ∧ X = yearsBetween N s d1 + yearsBetween N s d2 ∧
      Real.exp (-(E * X)) * zeroDiscount z N s d1 d2 ≤ v ∧ v ≤ Real.exp (E * X) * zeroDiscount z N s d1 d2 := by
  obtain ⟨n, hI, hn⟩ := yieldError_shipped hE
  have hlen := quotes_length z N s ms
  obtain ⟨v, hv⟩ := (C58_domain hD hI s ms _ hlen hm hn d1 d2 hs hd).1 ⟨c2, c1⟩
  obtain ⟨-, -, y, ey, p, rfl, hp⟩ := (curveDiscount_form hD hI hlen hm hn).1 hv
  have t2 : 0 ≤ yearsBetween N s d2 := fraction_nonneg hD (hs.trans hd)
  have t1 : 0 ≤ yearsBetween N s d1 := fraction_nonneg hD hs
  have b2 := yield_error hD hm hE hl ey
  have k2 : |yearsBetween N s d2 * (y - z (yearsBetween N s d2))| ≤ E * yearsBetween N s d2 := by
    rw [abs_mul, abs_of_nonneg t2, mul_comm]; exact mul_le_mul_of_nonneg_right b2 t2
  have k1 : |p - yearsBetween N s d1 * z (yearsBetween N s d1)| ≤ E * yearsBetween N s d1 := by
    rcases hp with ⟨rfl, rfl⟩ | ⟨-, y1, e1, rfl⟩
    · have : yearsBetween N d1 d1 = 0 := by simp [yearsBetween, C04_sub_serial]
      rw [this]; simp
    · have b1 := yield_error hD hm hE (hd.trans hl) e1
      rw [show (Date.sub d1 s : ℝ) / N = yearsBetween N s d1 from rfl, ← mul_sub, abs_mul, abs_of_nonneg t1, mul_comm]
      exact mul_le_mul_of_nonneg_right b1 t1
  refine ⟨_, _, hv, rfl, ?_⟩
  rw [show (Date.sub d2 s : ℝ) / N = yearsBetween N s d2 from rfl]
  unfold zeroDiscount
  rw [← Real.exp_add, ← Real.exp_add]
  have k1' := abs_le.1 k1
  have k2' := abs_le.1 k2
  exact ⟨Real.exp_le_exp.2 (by linarith), Real.exp_le_exp.2 (by linarith)⟩

/-- **C111.** The price of a bond without negative flows is the value of its payments on the zero curve up to the factor
`exp (E X)`, where `X` bounds the time from the curve's settlement to the bond's plus that to the payment. -/
theorem C111_price (hD : IsActual D N) (s : Date) (ms : List Date) (hm : ms.Pairwise (· < ·)) (z : ℝ → ℝ)
    (last : Date) (E : ℝ) (h0 : 0 ≤ E) (hE : IsYieldError I N s ms z last E) (b : Bond ℝ) (settle : Date)
    (hs : s ≤ settle) (c1 : settle = s ∨ Covers ms settle)
    (hb : ∀ g ∈ remaining b settle, 0 ≤ g.paymentAmount ∧ settle ≤ g.paymentDate ∧ g.paymentDate ≤ last ∧
      Covers ms g.paymentDate) (X : ℝ)
    (hX : ∀ g ∈ remaining b settle, yearsBetween N s settle + yearsBetween N s g.paymentDate ≤ X) :
    ∃ v V, curvePrice D I s ms (quotesOf z N s ms) b settle = .ok (.ok v) ∧
      V = ((remaining b settle).map fun g => zeroDiscount z N s settle g.paymentDate * g.paymentAmount).sum ∧
      Real.exp (-(E * X)) * V ≤ v ∧ v ≤ Real.exp (E * X) * V := by
  obtain ⟨n, hI, hn⟩ := yieldError_shipped hE
  have hlen := quotes_length z N s ms
  suffices h : ∃ ws, FlowDiscounts D I s ms (quotesOf z N s ms) b settle ws ∧
      Real.exp (-(E * X)) * ((remaining b settle).map fun g => zeroDiscount z N s settle g.paymentDate *
        g.paymentAmount).sum ≤ (List.zipWith (fun df g => df * g.paymentAmount) ws (remaining b settle)).sum ∧
      (List.zipWith (fun df g => df * g.paymentAmount) ws (remaining b settle)).sum ≤
        Real.exp (E * X) * ((remaining b settle).map fun g => zeroDiscount z N s settle g.paymentDate *
        g.paymentAmount).sum by
    obtain ⟨ws, hws, h1, h2⟩ := h
    exact ⟨_, _, (price_iff hD hI hlen hn hm).2 ⟨ws, hws, rfl⟩, rfl, h1, h2⟩
  unfold FlowDiscounts
  generalize remaining b settle = l at *
  induction l with
  | nil => exact ⟨[], .nil, by simp⟩
  | cons g l ih =>
    obtain ⟨ws, hws, i1, i2⟩ := ih (fun g hg => hb g (by simp [hg])) (fun g hg => hX g (by simp [hg]))
    obtain ⟨hg, g1, g2, g3⟩ := hb g (by simp)
    obtain ⟨w, Y, hw, rfl, j1, j2⟩ := C111_discount hD s ms hm z last E hE settle g.paymentDate hs g1 g2 g3 c1
    have hY := mul_le_mul_of_nonneg_left (hX g (by simp)) h0
    have z0 : 0 < zeroDiscount z N s settle g.paymentDate := Real.exp_pos _
    have k1 := le_trans (mul_le_mul_of_nonneg_right (Real.exp_le_exp.2 (neg_le_neg hY)) z0.le) j1
    have k2 := j2.trans (mul_le_mul_of_nonneg_right (Real.exp_le_exp.2 hY) z0.le)
    have k1' := mul_le_mul_of_nonneg_right k1 hg
    have k2' := mul_le_mul_of_nonneg_right k2 hg
    refine ⟨w :: ws, .cons hw hws, ?_, ?_⟩
    · simp only [List.zipWith_cons_cons, List.sum_cons, List.map_cons]
      linarith
    · simp only [List.zipWith_cons_cons, List.sum_cons, List.map_cons]
      linarith

end

/-! ## Pillars after 1, 2 and 3 yearsBetween, quotes from the zero curve `t² / 100`, a payment after a year and a half -/

theorem grid_years : (gridMaturities.map fun m => yearsBetween 360 gridSettle m) = [1, 2, 3] := by
  have := congrArg (List.map Prod.fst) (grid_pillars 0 0 0)
  simpa [pillars, yearsBetween, gridMaturities] using this

theorem grid_yield_error :
    IsYieldError (Interpolator.linear ℝ) 360 gridSettle gridMaturities (fun u => u ^ 2 / 100) gridMid1 (1 / 400) := by
  refine ⟨1, 3, 1, 1, ?_, ?_, one_pos, .inl ⟨rfl, by decide, fun _ => 2 / 100, 2 / 100, ?_, ?_, by norm_num⟩⟩
  · intro m hm
    have : yearsBetween 360 gridSettle m ∈ gridMaturities.map fun m => yearsBetween 360 gridSettle m := List.mem_map_of_mem hm
    rw [grid_years] at this
    simp only [List.mem_cons, List.not_mem_nil, or_false] at this
    rcases this with h | h | h <;> rw [h] <;> norm_num
  · intro i hi
    simp only [gridMaturities, List.length_cons, List.length_nil] at hi
    obtain rfl | rfl : i = 0 ∨ i = 1 := by omega
    · have : Date.sub ⟨2024, 12, 21, by decide⟩ ⟨2023, 12, 27, by decide⟩ = 360 := by decide +kernel
      simp [gridMaturities, yearsBetween, this]
    · have : Date.sub ⟨2025, 12, 16, by decide⟩ ⟨2024, 12, 21, by decide⟩ = 360 := by decide +kernel
      simp [gridMaturities, yearsBetween, this]
  · obtain ⟨t, ht⟩ := square_second (Set.Icc 1 3)
    exact ⟨fun u => t u / 100, fun u hu => ⟨(ht u hu).1.div_const 100, (ht u hu).2.div_const 100⟩⟩
  · intro u _
    norm_num

example : ∃ v V, curvePrice DayCount.act360 (Interpolator.linear ℝ) gridSettle gridMaturities
      (quotesOf (fun u => u ^ 2 / 100) 360 gridSettle gridMaturities) (zeroBond gridMid1) gridSettle = .ok (.ok v) ∧
    V = ((remaining (zeroBond gridMid1) gridSettle).map fun g =>
      zeroDiscount (fun u => u ^ 2 / 100) 360 gridSettle gridSettle g.paymentDate * g.paymentAmount).sum ∧
    Real.exp (-(1 / 400 * (3 / 2))) * V ≤ v ∧ v ≤ Real.exp (1 / 400 * (3 / 2)) * V := by
  have e : remaining (zeroBond gridMid1) gridSettle = [⟨gridMid1, gridMid1, 1⟩] := by
    simp only [remaining, zeroBond]
    rw [List.filter_cons_of_pos (by decide), List.filter_nil]
  refine C111_price (N := 360) (.inl ⟨rfl, rfl⟩) gridSettle gridMaturities gridMaturities_increasing _ gridMid1 _
    (by norm_num) grid_yield_error _ gridSettle (le_refl _) (.inl rfl) ?_ _ ?_
  · intro g hg
    rw [e] at hg
    obtain rfl := List.mem_singleton.1 hg
    exact ⟨zero_le_one, by decide, le_refl _, by unfold Covers; decide⟩
  · intro g hg
    rw [e] at hg
    obtain rfl := List.mem_singleton.1 hg
    have : yearsBetween 360 gridSettle gridSettle = 0 := by simp [yearsBetween, C04_sub_serial]
    rw [this, yearsBetween, grid_mid1]
    norm_num

example : ∃ v X, curveDiscount DayCount.act360 (Interpolator.linear ℝ) gridSettle gridMaturities
      (quotesOf (fun u => u ^ 2 / 100) 360 gridSettle gridMaturities) gridSettle gridMid1 = .ok (.ok v) ∧
    X = yearsBetween 360 gridSettle gridSettle + yearsBetween 360 gridSettle gridMid1 ∧
    Real.exp (-(1 / 400 * X)) * zeroDiscount (fun u => u ^ 2 / 100) 360 gridSettle gridSettle gridMid1 ≤ v ∧
    v ≤ Real.exp (1 / 400 * X) * zeroDiscount (fun u => u ^ 2 / 100) 360 gridSettle gridSettle gridMid1 :=
  C111_discount (N := 360) (.inl ⟨rfl, rfl⟩) gridSettle gridMaturities gridMaturities_increasing _ gridMid1 _
    grid_yield_error gridSettle gridMid1 (le_refl _) (by decide) (le_refl _) (by unfold Covers; decide) (.inl rfl)

end Qlab.Props
