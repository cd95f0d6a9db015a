import Verif.Props.Monotone
import Verif.Spec.Stretch
import Mathlib.Analysis.Calculus.MeanValue
import Mathlib.MeasureTheory.Integral.IntervalIntegral.FundThmCalculus
import Mathlib.Topology.EMetricSpace.BoundedVariation

/-!
# Linear interpolation takes the shortest way (C135)

Among all curves through the points it moves up and down least, has the least square of the slope and the least
steepest rise.
-/

namespace Qlab.Props

open Set Spec

/-- The interpolated curve as a function on the reals (0 where nothing is returned). -/
noncomputable def linearCurve (pts : List (ℝ × ℝ)) (x : ℝ) : ℝ :=
  match evaluate (Interpolator.linear ℝ) pts x with
  | .ok (.ok v) => v
  | _ => 0

namespace Stretch

variable {pts : List (ℝ × ℝ)}

/-- Slope of segment `i`. -/
noncomputable def slope (pts : List (ℝ × ℝ)) (i : Nat) (hi : i + 1 < pts.length) : ℝ :=
  (pts[i + 1].2 - pts[i].2) / (pts[i + 1].1 - pts[i].1)

theorem lt (hs : StrictlyIncreasing pts) (i : Nat) (hi : i + 1 < pts.length) : pts[i].1 < pts[i + 1].1 :=
  List.pairwise_iff_getElem.1 hs i (i + 1) (by omega) hi (by omega)

theorem segment (hs : StrictlyIncreasing pts) (i : Nat) (hi : i + 1 < pts.length) {x : ℝ}
    (hx : x ∈ Icc pts[i].1 pts[i + 1].1) :
    linearCurve pts x = pts[i].2 + slope pts i hi * (x - pts[i].1) := by
  have := (linear_segment pts hs i _ _ _ _ x ⟨List.getElem?_eq_getElem (by omega), List.getElem?_eq_getElem hi⟩
    hx.1 hx.2).2
  unfold linearCurve
  rw [this]; rfl

theorem slope_mul (hs : StrictlyIncreasing pts) (i : Nat) (hi : i + 1 < pts.length) :
    slope pts i hi * (pts[i + 1].1 - pts[i].1) = pts[i + 1].2 - pts[i].2 :=
  div_mul_cancel₀ _ (sub_ne_zero.2 (ne_of_gt (lt hs i hi)))

theorem nodes (hs : StrictlyIncreasing pts) (i : Nat) (hi : i + 1 < pts.length) :
    linearCurve pts pts[i].1 = pts[i].2 ∧ linearCurve pts pts[i + 1].1 = pts[i + 1].2 := by
  have h := lt hs i hi
  refine ⟨?_, ?_⟩
  · rw [segment hs i hi ⟨le_rfl, h.le⟩]; simp
  · rw [segment hs i hi ⟨h.le, le_rfl⟩, slope_mul hs i hi]; ring

theorem range_eq (hs : StrictlyIncreasing pts) (h2 : 2 ≤ pts.length) :
    {x | InRange pts x} = Icc pts[0].1 pts[pts.length - 1].1 := by
  have le : ∀ i j (hi : i < pts.length) (hj : j < pts.length), i ≤ j → pts[i].1 ≤ pts[j].1 := by
    intro i j hi hj h
    rcases Nat.lt_or_ge i j with h' | h'
    · exact (List.pairwise_iff_getElem.1 hs i j hi hj h').le
    · obtain rfl : i = j := by omega
      exact le_rfl
  ext x
  constructor
  · rintro ⟨⟨p, hp, h⟩, ⟨q, hq, h'⟩⟩
    obtain ⟨i, hi, rfl⟩ := List.getElem_of_mem hp
    obtain ⟨j, hj, rfl⟩ := List.getElem_of_mem hq
    exact ⟨(le 0 i (by omega) hi (by omega)).trans h, h'.trans (le j _ hj (by omega) (by omega))⟩
  · rintro ⟨h, h'⟩
    exact ⟨⟨_, List.getElem_mem (by omega), h⟩, ⟨_, List.getElem_mem (by omega), h'⟩⟩

/-- On one segment the curve moves only by the difference of its ends. -/
theorem variation_segment (hs : StrictlyIncreasing pts) (i : Nat) (hi : i + 1 < pts.length) :
    eVariationOn (linearCurve pts) (Icc pts[i].1 pts[i + 1].1) = edist pts[i + 1].2 pts[i].2 := by
  have h := lt hs i hi
  have ml : pts[i].1 ∈ Icc pts[i].1 pts[i + 1].1 := ⟨le_rfl, h.le⟩
  have mr : pts[i + 1].1 ∈ Icc pts[i].1 pts[i + 1].1 := ⟨h.le, le_rfl⟩
  obtain ⟨n0, n1⟩ := nodes hs i hi
  refine le_antisymm ?_ ?_
  · rcases le_total 0 (slope pts i hi) with g | g
    · have hm : MonotoneOn (linearCurve pts) (Icc pts[i].1 pts[i + 1].1) := by
        intro x hx z hz hxz
        rw [segment hs i hi hx, segment hs i hi hz]
        have := mul_le_mul_of_nonneg_left hxz g
        linarith
      have := (hm.eVariationOn_eq ml mr).le
      rw [inter_self, n0, n1] at this
      refine this.trans ?_
      rw [edist_dist]
      exact ENNReal.ofReal_le_ofReal (le_abs_self _)
    · have hm : MonotoneOn (fun x => -linearCurve pts x) (Icc pts[i].1 pts[i + 1].1) := by
        intro x hx z hz hxz
        simp only
        rw [segment hs i hi hx, segment hs i hi hz]
        have := mul_le_mul_of_nonpos_left hxz g
        linarith
      have := (hm.eVariationOn_eq ml mr).le
      rw [inter_self, n0, n1] at this
      have e : eVariationOn (fun x => -linearCurve pts x) (Icc pts[i].1 pts[i + 1].1) =
          eVariationOn (linearCurve pts) (Icc pts[i].1 pts[i + 1].1) := by
        unfold eVariationOn
        simp only [edist_neg_neg]
      rw [e] at this
      refine this.trans ?_
      rw [edist_dist]
      refine ENNReal.ofReal_le_ofReal ?_
      rw [Real.dist_eq]
      exact le_trans (by linarith) (neg_le_abs _)
  · have := eVariationOn.edist_le (linearCurve pts) mr ml
    rwa [n0, n1] at this

/-- A curve through the points moves at least as much as they do. -/
theorem variation_ge (hs : StrictlyIncreasing pts) (f : ℝ → ℝ) (hf : ∀ q ∈ pts, f q.1 = q.2) (i : Nat)
    (hi : i + 1 < pts.length) : edist pts[i + 1].2 pts[i].2 ≤ eVariationOn f (Icc pts[i].1 pts[i + 1].1) := by
  have h := lt hs i hi
  have := eVariationOn.edist_le f (x := pts[i + 1].1) (y := pts[i].1) (s := Icc pts[i].1 pts[i + 1].1)
    ⟨h.le, le_rfl⟩ ⟨le_rfl, h.le⟩
  rwa [hf _ (List.getElem_mem _), hf _ (List.getElem_mem _)] at this

theorem first_le (hs : StrictlyIncreasing pts) (k : Nat) (hk : k < pts.length) : pts[0].1 ≤ pts[k].1 := by
  rcases Nat.eq_zero_or_pos k with rfl | h
  · exact le_rfl
  · exact (List.pairwise_iff_getElem.1 hs 0 k (by omega) hk h).le

theorem variation_split (hs : StrictlyIncreasing pts) (f : ℝ → ℝ) (k : Nat) (hk : k + 1 < pts.length) :
    eVariationOn f (Icc pts[0].1 pts[k].1) + eVariationOn f (Icc pts[k].1 pts[k + 1].1) =
      eVariationOn f (Icc pts[0].1 pts[k + 1].1) := by
  have := eVariationOn.Icc_add_Icc f (s := univ) (first_le hs k (by omega)) (lt hs k hk).le (mem_univ _)
  simpa only [univ_inter] using this

/-- On a segment: the square of the slope of any curve against that of the straight line. -/
theorem stretch_segment (hs : StrictlyIncreasing pts) (i : Nat) (hi : i + 1 < pts.length) {f s : ℝ → ℝ}
    (hf : ∀ q ∈ pts, f q.1 = q.2) (h1 : HasSlopeOn f s (Icc pts[i].1 pts[i + 1].1))
    (hc : ContinuousOn s (Icc pts[i].1 pts[i + 1].1)) :
    ∫ x in pts[i].1..pts[i + 1].1, s x ^ 2 = slope pts i hi ^ 2 * (pts[i + 1].1 - pts[i].1) +
      ∫ x in pts[i].1..pts[i + 1].1, (s x - slope pts i hi) ^ 2 := by
  have hab := lt hs i hi
  have key : ∫ x in pts[i].1..pts[i + 1].1, s x = pts[i + 1].2 - pts[i].2 := by
    rw [intervalIntegral.integral_eq_sub_of_hasDerivAt_of_le (f := f) hab.le
      (fun x hx => (h1 x hx).continuousWithinAt)
      (fun x hx => (h1 x (Ioo_subset_Icc_self hx)).hasDerivAt (Icc_mem_nhds hx.1 hx.2))
      (hc.intervalIntegrable_of_Icc hab.le), hf _ (List.getElem_mem _), hf _ (List.getElem_mem _)]
  have i1 : IntervalIntegrable (fun x => (s x - slope pts i hi) ^ 2) MeasureTheory.volume pts[i].1 pts[i + 1].1 :=
    ((hc.sub continuousOn_const).pow 2).intervalIntegrable_of_Icc hab.le
  have i2 : IntervalIntegrable (fun x => 2 * slope pts i hi * s x) MeasureTheory.volume pts[i].1 pts[i + 1].1 :=
    (continuousOn_const.mul hc).intervalIntegrable_of_Icc hab.le
  have i3 : IntervalIntegrable (fun _ => slope pts i hi ^ 2) MeasureTheory.volume pts[i].1 pts[i + 1].1 :=
    intervalIntegrable_const
  have e : ∀ x, s x ^ 2 = (s x - slope pts i hi) ^ 2 + (2 * slope pts i hi * s x - slope pts i hi ^ 2) := by
    intro x; ring
  rw [intervalIntegral.integral_congr (g := fun x => (s x - slope pts i hi) ^ 2 +
    (2 * slope pts i hi * s x - slope pts i hi ^ 2)) (fun x _ => e x),
    intervalIntegral.integral_add i1 (i2.sub i3), intervalIntegral.integral_sub i2 i3,
    intervalIntegral.integral_const_mul, key, intervalIntegral.integral_const, smul_eq_mul, ← slope_mul hs i hi]
  ring

/-- Only the straight line has as little. -/
theorem eq_of_stretch (hs : StrictlyIncreasing pts) (i : Nat) (hi : i + 1 < pts.length) {f s : ℝ → ℝ}
    (hf : ∀ q ∈ pts, f q.1 = q.2) (h1 : HasSlopeOn f s (Icc pts[i].1 pts[i + 1].1))
    (hc : ContinuousOn s (Icc pts[i].1 pts[i + 1].1))
    (hz : ∫ x in pts[i].1..pts[i + 1].1, (s x - slope pts i hi) ^ 2 = 0) :
    ∀ x ∈ Icc pts[i].1 pts[i + 1].1, f x = linearCurve pts x := by
  have hab := lt hs i hi
  have h2 : ∀ x ∈ Icc pts[i].1 pts[i + 1].1, s x = slope pts i hi := by
    by_contra hne
    push Not at hne
    obtain ⟨c, hc1, hc2⟩ := hne
    exact absurd hz (ne_of_gt (intervalIntegral.integral_pos hab ((hc.sub continuousOn_const).pow 2)
      (fun _ _ => sq_nonneg _) ⟨c, hc1, by have := sub_ne_zero.2 hc2; positivity⟩))
  have d : ∀ x ∈ Icc pts[i].1 pts[i + 1].1,
      HasDerivWithinAt (fun x => f x - slope pts i hi * (x - pts[i].1)) 0 (Icc pts[i].1 pts[i + 1].1) x := by
    intro x hx
    refine ((h1 x hx).sub ((((hasDerivAt_id x).sub_const pts[i].1).const_mul
      (slope pts i hi)).hasDerivWithinAt)).congr_deriv ?_
    rw [h2 x hx]; ring
  have c := constant_of_has_deriv_right_zero (fun x hx => (d x hx).continuousWithinAt)
    (fun x hx => ((d x (Ico_subset_Icc_self hx)).mono (Icc_subset_Icc_left hx.1)).mono_of_mem_nhdsWithin
      (Icc_mem_nhdsGE hx.2))
  intro x hx
  have := c x hx
  rw [segment hs i hi hx]
  simp only [sub_self, mul_zero, sub_zero] at this
  rw [hf _ (List.getElem_mem _)] at this
  linarith

theorem stretch_self (hs : StrictlyIncreasing pts) (i : Nat) (hi : i + 1 < pts.length) :
    Stretches (linearCurve pts) pts[i].1 pts[i + 1].1 (slope pts i hi ^ 2 * (pts[i + 1].1 - pts[i].1)) := by
  refine ⟨fun _ => slope pts i hi, fun x hx => ?_, continuousOn_const, ?_⟩
  · have : HasDerivAt (fun x => pts[i].2 + slope pts i hi * (x - pts[i].1)) (slope pts i hi) x := by
      refine (((hasDerivAt_id x).sub_const pts[i].1).const_mul (slope pts i hi) |>.const_add pts[i].2).congr_deriv ?_
      ring
    exact this.hasDerivWithinAt.congr (fun _ hz => segment hs i hi hz) (segment hs i hi hx)
  · rw [intervalIntegral.integral_const, smul_eq_mul]; ring

end Stretch

open Stretch

/-- **C135.** Linear interpolation moves up and down as much as the points do, and every curve through the points moves
at least as much (`eVariationOn` is the total variation). -/
theorem C135_variation (pts : List (ℝ × ℝ)) (hs : StrictlyIncreasing pts) (h2 : 2 ≤ pts.length) :
    eVariationOn (linearCurve pts) {x | InRange pts x} =
      ∑ i : Fin (pts.length - 1), edist (pts[i.1 + 1]'(by omega)).2 (pts[i.1]'(by omega)).2 ∧
    ∀ f : ℝ → ℝ, (∀ q ∈ pts, f q.1 = q.2) →
      eVariationOn (linearCurve pts) {x | InRange pts x} ≤ eVariationOn f {x | InRange pts x} := by
  rw [range_eq hs h2]
  constructor
  · have : ∀ k (hk : k < pts.length), eVariationOn (linearCurve pts) (Icc pts[0].1 pts[k].1) =
        ∑ i : Fin k, edist (pts[i.1 + 1]'(by omega)).2 (pts[i.1]'(by omega)).2 := by
      intro k
      induction k with
      | zero => intro hk; simp [eVariationOn.subsingleton]
      | succ k ih =>
        intro hk
        rw [← variation_split hs _ k hk, ih (by omega), variation_segment hs k hk, Fin.sum_univ_castSucc]
        rfl
    exact this _ _
  · intro f hf
    have : ∀ k (hk : k < pts.length), eVariationOn (linearCurve pts) (Icc pts[0].1 pts[k].1) ≤
        eVariationOn f (Icc pts[0].1 pts[k].1) := by
      intro k
      induction k with
      | zero => intro hk; simp [eVariationOn.subsingleton]
      | succ k ih =>
        intro hk
        rw [← variation_split hs _ k hk, ← variation_split hs f k hk, variation_segment hs k hk]
        exact add_le_add (ih (by omega)) (variation_ge hs f hf k hk)
    exact this _ _

/-- Through (0, 1), (1, 7), (3, 0) every curve moves by at least 6 + 7. -/
example (f : ℝ → ℝ) (hf : ∀ q ∈ [((0 : ℝ), (1 : ℝ)), (1, 7), (3, 0)], f q.1 = q.2) :
    ENNReal.ofReal 6 + ENNReal.ofReal 7 ≤ eVariationOn f {x | InRange [((0 : ℝ), (1 : ℝ)), (1, 7), (3, 0)] x} := by
  obtain ⟨h1, h2⟩ := C135_variation [((0 : ℝ), (1 : ℝ)), (1, 7), (3, 0)]
    (by unfold StrictlyIncreasing; norm_num) (by simp)
  refine le_trans ?_ (h2 f hf)
  rw [h1]
  simp [Fin.sum_univ_succ, edist_dist, Real.dist_eq]
  norm_num

/-- **C135.** From each point to the next the slope of linear interpolation is constant.  No curve through the points
that has a continuous slope from each point to the next has a smaller integral of the square of its slope, and only
linear interpolation has as small a one. -/
theorem C135_stretch (pts : List (ℝ × ℝ)) (hs : StrictlyIncreasing pts) (h2 : 2 ≤ pts.length) :
    ∃ B, StretchesBetween (linearCurve pts) pts B ∧
      ∀ (f : ℝ → ℝ) (C : ℝ), (∀ q ∈ pts, f q.1 = q.2) → StretchesBetween f pts C →
        B ≤ C ∧ (B = C → ∀ x, InRange pts x → f x = linearCurve pts x) := by
  let b : Nat → ℝ := fun i => if hi : i + 1 < pts.length then slope pts i hi ^ 2 * (pts[i + 1].1 - pts[i].1) else 0
  refine ⟨_, ⟨b, fun i hi => ?_, rfl⟩, ?_⟩
  · simp only [b, dif_pos hi]; exact stretch_self hs i hi
  · rintro f C hf ⟨c, hc, rfl⟩
    have step : ∀ i, (hi : i + 1 < pts.length) → b i ≤ c i ∧
        (b i = c i → ∀ x ∈ Icc pts[i].1 pts[i + 1].1, f x = linearCurve pts x) := by
      intro i hi
      obtain ⟨s, g1, g2, g3⟩ := hc i hi
      have e := stretch_segment hs i hi hf g1 g2
      have nn : 0 ≤ ∫ x in pts[i].1..pts[i + 1].1, (s x - slope pts i hi) ^ 2 :=
        intervalIntegral.integral_nonneg (lt hs i hi).le fun _ _ => sq_nonneg _
      simp only [b, dif_pos hi]
      refine ⟨by linarith, fun h => eq_of_stretch hs i hi hf g1 g2 (by linarith)⟩
    have hle : ∀ i ∈ Finset.range (pts.length - 1), b i ≤ c i := fun i hi =>
      (step i (by rw [Finset.mem_range] at hi; omega)).1
    refine ⟨Finset.sum_le_sum hle, fun h x hx => ?_⟩
    obtain ⟨i, hi, h0, h1⟩ := bracket_of_inRange hs h2 x hx
    exact (step i (by omega)).2 ((Finset.sum_eq_sum_iff_of_le hle).1 h i (Finset.mem_range.2 hi)) x ⟨h0, h1⟩

/-- A curve through (0, 0), (1, 1), (2, 0) as little stretched as linear interpolation has the value 1/2 at 1/2. -/
example (f : ℝ → ℝ) (hf : ∀ q ∈ [((0 : ℝ), (0 : ℝ)), (1, 1), (2, 0)], f q.1 = q.2)
    (h : ∀ B, StretchesBetween (linearCurve [((0 : ℝ), (0 : ℝ)), (1, 1), (2, 0)]) [((0 : ℝ), (0 : ℝ)), (1, 1), (2, 0)] B →
      StretchesBetween f [((0 : ℝ), (0 : ℝ)), (1, 1), (2, 0)] B) : f (1 / 2) = 1 / 2 := by
  have hs : StrictlyIncreasing [((0 : ℝ), (0 : ℝ)), (1, 1), (2, 0)] := by unfold StrictlyIncreasing; norm_num
  obtain ⟨B, h1, h2⟩ := C135_stretch _ hs (by simp)
  rw [(h2 f B hf (h B h1)).2 rfl (1 / 2) ⟨⟨(0, 0), by simp, by norm_num⟩, ⟨(1, 1), by simp, by norm_num⟩⟩,
    segment hs 0 (by simp) (by simp; norm_num)]
  simp [Stretch.slope]

/-- **C135.** Linear interpolation is no steeper than the points are.  So no curve through the points is less steep. -/
theorem C135_steepness (pts : List (ℝ × ℝ)) (hs : StrictlyIncreasing pts) (h2 : 2 ≤ pts.length) (C : ℝ) :
    (NoSteeper (linearCurve pts) C (InRange pts) ↔
      ∀ i (hi : i + 1 < pts.length), |pts[i + 1].2 - pts[i].2| ≤ C * (pts[i + 1].1 - pts[i].1)) ∧
    ∀ f : ℝ → ℝ, (∀ q ∈ pts, f q.1 = q.2) → NoSteeper f C (InRange pts) →
      NoSteeper (linearCurve pts) C (InRange pts) := by
  have mem : ∀ i (hi : i < pts.length), InRange pts pts[i].1 := fun i hi =>
    ⟨⟨_, List.getElem_mem hi, le_rfl⟩, ⟨_, List.getElem_mem hi, le_rfl⟩⟩
  have points : ∀ f : ℝ → ℝ, (∀ q ∈ pts, f q.1 = q.2) → NoSteeper f C (InRange pts) →
      ∀ i (hi : i + 1 < pts.length), |pts[i + 1].2 - pts[i].2| ≤ C * (pts[i + 1].1 - pts[i].1) := by
    intro f hf h i hi
    have := h _ _ (mem (i + 1) hi) (mem i (by omega))
    rwa [hf _ (List.getElem_mem _), hf _ (List.getElem_mem _),
      abs_of_pos (sub_pos.2 (lt hs i hi))] at this
  have curve : (∀ i (hi : i + 1 < pts.length), |pts[i + 1].2 - pts[i].2| ≤ C * (pts[i + 1].1 - pts[i].1)) →
      NoSteeper (linearCurve pts) C (InRange pts) := by
    intro h
    have sl : ∀ i (hi : i + 1 < pts.length), -C ≤ slope pts i hi ∧ slope pts i hi ≤ C := by
      intro i hi
      have pos := sub_pos.2 (lt hs i hi)
      obtain ⟨a, b⟩ := abs_le.1 (h i hi)
      unfold Stretch.slope
      exact ⟨by rw [le_div_iff₀ pos]; linarith, by rw [div_le_iff₀ pos]; linarith⟩
    have one : ∀ x z, InRange pts x → InRange pts z → x ≤ z →
        |linearCurve pts x - linearCurve pts z| ≤ C * (z - x) := by
      intro x z hx hz hxz
      obtain ⟨i, hi, x0, x1⟩ := bracket_of_inRange hs h2 x hx
      obtain ⟨j, hj, z0, z1⟩ := bracket_of_inRange hs h2 z hz
      have up := rising_of_segments hs (m := pts.length - 1) (by omega) (fun x => C * x - linearCurve pts x)
        (fun k hk x z h0 h1 h3 => by
          rw [segment hs k (by omega) ⟨h0, h1.trans h3⟩, segment hs k (by omega) ⟨h0.trans h1, h3⟩]
          nlinarith [mul_nonneg (sub_nonneg.2 h1) (sub_nonneg.2 (sl k (by omega)).2)]) hi hj x0 x1 z0 z1 hxz
      have dn := rising_of_segments hs (m := pts.length - 1) (by omega) (fun x => C * x + linearCurve pts x)
        (fun k hk x z h0 h1 h3 => by
          rw [segment hs k (by omega) ⟨h0, h1.trans h3⟩, segment hs k (by omega) ⟨h0.trans h1, h3⟩]
          nlinarith [mul_nonneg (sub_nonneg.2 h1) (neg_le_iff_add_nonneg.1 (sl k (by omega)).1)]) hi hj x0 x1 z0 z1 hxz
      exact abs_le.2 ⟨by linarith, by linarith⟩
    intro x z hx hz
    rcases le_total x z with g | g
    · rw [abs_sub_comm x z, abs_of_nonneg (sub_nonneg.2 g)]; exact one x z hx hz g
    · rw [abs_sub_comm, abs_of_nonneg (sub_nonneg.2 g)]; exact one z x hz hx g
  have through : ∀ q ∈ pts, linearCurve pts q.1 = q.2 := by
    intro q hq
    obtain ⟨i, hi, rfl⟩ := List.getElem_of_mem hq
    rcases Nat.lt_or_ge (i + 1) pts.length with g | g
    · exact (nodes hs i g).1
    · obtain ⟨k, rfl⟩ : ∃ k, i = k + 1 := ⟨i - 1, by omega⟩
      exact (nodes hs k hi).2
  exact ⟨⟨points _ through, curve⟩, fun f hf h => curve (points f hf h)⟩

/-- Through (0, 1), (1, 7), (3, 0) linear interpolation never rises or falls by more than 6 per unit. -/
example : NoSteeper (linearCurve [((0 : ℝ), (1 : ℝ)), (1, 7), (3, 0)]) 6
    (InRange [((0 : ℝ), (1 : ℝ)), (1, 7), (3, 0)]) := by
  refine ((C135_steepness _ (by unfold StrictlyIncreasing; norm_num) (by simp) 6).1).2 fun i hi => ?_
  obtain rfl | rfl : i = 0 ∨ i = 1 := by simp only [List.length_cons, List.length_nil] at hi; omega
  · norm_num
  · norm_num [abs_le]

end Qlab.Props
