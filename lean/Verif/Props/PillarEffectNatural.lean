import Verif.Lemmas.Cardinal
import Verif.Props.PillarEffect
import Verif.Props.CurveOvershoot

/-!
# Raising one yield of a natural cubic curve (C81)
-/

namespace Qlab

namespace NaturalCubic

section
variable {K : Type} [Field K] [LinearOrder K] [IsStrictOrderedRing K]

/-- The signs alternate from one row to the next. -/
theorem cardinal_of {n k : Nat} (hn : 4 ≤ n) {p : Nat → K × K} (hg : ∀ i, i + 1 < n → 0 < gap p i) {δ : K}
    (hp : ∀ i, (p i).2 = if i = k then δ else 0) :
    Cardinal n k δ (gap p) (TridiagonalMatrix.piv (bSide 6 p) (bMain 3 p) (bSide 6 p))
      (TridiagonalMatrix.sweepC (bSide 6 p) (bMain 3 p) (bSide 6 p)) (fun i => (-1) ^ (i + k) * rhs n p i)
      (fun i => (-1) ^ (i + k) * TridiagonalMatrix.sweepY (bSide 6 p) (bMain 3 p) (bSide 6 p) (rhs n p) i)
      (fun i => (-1) ^ (i + k) * TridiagonalMatrix.sweepX (bSide 6 p) (bMain 3 p) (bSide 6 p) (rhs n p) (n - 4) i) := by
  have hP : ∀ i, i + 2 < n → TridiagonalMatrix.piv (bSide 6 p) (bMain 3 p) (bSide 6 p) i ≠ 0 := by
    intro i hi
    have := piv_ge hg i hi
    have := hg i (by omega)
    have := hg (i + 1) (by omega)
    apply ne_of_gt
    linarith
  refine ⟨hg, fun i hi => piv_ge hg i hi, rfl, ?_, ?_, ?_, ?_, ?_, ?_, ?_⟩
  · intro i hi
    rw [TridiagonalMatrix.piv_succ]
    rfl
  · intro i hi
    exact TridiagonalMatrix.piv_mul_sweepC _ _ _ (hP i hi)
  · intro i hi
    have g0 := hg i (by omega)
    have g1 := hg (i + 1) (by omega)
    rw [rhs_eq hn p hi g0.ne' g1.ne']
    unfold chord
    rw [hp, hp, hp, show (p (i + 1)).1 - (p i).1 = gap p i from rfl,
      show (p (i + 1 + 1)).1 - (p (i + 1)).1 = gap p (i + 1) from rfl]
    by_cases c2 : i + 2 = k
    · subst c2
      rw [if_pos rfl, if_neg (by omega), if_neg (by omega), if_pos rfl,
        Even.neg_one_pow ⟨i + 1, by omega⟩]
      simp
    · by_cases c1 : i + 1 = k
      · subst c1
        rw [if_neg (by omega), if_pos rfl, if_neg (by omega), if_neg c2, if_pos rfl, Odd.neg_one_pow ⟨i, by omega⟩]
        ring
      · by_cases c0 : i = k
        · subst c0
          rw [if_neg (by omega), if_neg (by omega), if_pos rfl, if_neg c2, if_neg c1, if_pos rfl,
            Even.neg_one_pow ⟨i, by omega⟩]
          ring
        · rw [if_neg c2, if_neg c1, if_neg c0, if_neg c2, if_neg c1, if_neg c0]
          simp
  · have := TridiagonalMatrix.piv_mul_sweepY_zero (bSide 6 p) (bMain 3 p) (bSide 6 p) (rhs n p) (hP 0 (by omega))
    rw [← this]
    ring
  · intro i hi
    have := TridiagonalMatrix.piv_mul_sweepY_succ (bSide 6 p) (bMain 3 p) (bSide 6 p) (rhs n p) (hP (i + 1) (by omega))
    rw [show (gap p (i + 1) / 6 : K) = bSide 6 p i from rfl, show i + 1 + k = i + k + 1 by omega, pow_succ]
    linear_combination (-(-1) ^ (i + k)) * this
  · intro i hi
    rw [TridiagonalMatrix.sweepX_lt _ _ _ _ (show i < n - 4 by omega), show i + 1 + k = i + k + 1 by omega, pow_succ]
    ring
  · intro i hi
    rw [TridiagonalMatrix.sweepX_ge _ _ _ _ (show n - 4 ≤ i by omega)]

/-- Where the spline through zeros but for one ordinate is positive and where it is negative. -/
theorem cardinal_sign {n k : Nat} (hn : 4 ≤ n) {p : Nat → K × K} (hg : ∀ i, i + 1 < n → 0 < gap p i) {δ : K}
    (hδ : 0 < δ) (hk : k < n) (hp : ∀ i, (p i).2 = if i = k then δ else 0) {j : Nat} (hj : j + 1 < n) (h3 : j + 3 ≠ n)
    {x : K} (h0 : (p j).1 < x) (h1 : x < (p (j + 1)).1) :
    let e := cubic (p j).1 (p j).2 (curvature n p j) (p (j + 1)).1 (p (j + 1)).2 (curvature n p (j + 1)) x
    ((k + 1 = n ∧ j + 3 < n) → e = 0) ∧
    (¬ (k + 1 = n ∧ j + 3 < n) → (k ≤ j ∧ Even (j - k) ∨ j < k ∧ Odd (k - j)) → 0 < e) ∧
    (¬ (k + 1 = n ∧ j + 3 < n) → (k ≤ j ∧ Odd (j - k) ∨ j < k ∧ Even (k - j)) → e < 0) := by
  have H := cardinal_of hn hg hp
  generalize TridiagonalMatrix.piv (bSide 6 p) (bMain 3 p) (bSide 6 p) = P at H
  generalize TridiagonalMatrix.sweepC (bSide 6 p) (bMain 3 p) (bSide 6 p) = c at H
  generalize (fun i => (-1) ^ (i + k) * TridiagonalMatrix.sweepY (bSide 6 p) (bMain 3 p) (bSide 6 p) (rhs n p) i) = Y at H
  generalize (fun i => (-1) ^ (i + k) * rhs n p i) = B at H
  generalize hX : (fun i => (-1) ^ (i + k) *
    TridiagonalMatrix.sweepX (bSide 6 p) (bMain 3 p) (bSide 6 p) (rhs n p) (n - 4) i) = X at H
  have sq : ∀ m : Nat, ((-1 : K) ^ m) * (-1) ^ m = 1 := fun m => by rw [← mul_pow]; simp
  have node : ∀ i, i + 2 < n → curvature n p (i + 1) = (-1) ^ (i + k) * X i := by
    intro i hi
    rw [curvature_succ p hi, solved, if_neg (by omega), ← hX]
    simp only
    rw [← mul_assoc, sq, one_mul]
  have left : curvature n p j = -(-1) ^ (j + k) * (if j = 0 then 0 else X (j - 1)) := by
    rcases j with _ | i
    · rw [if_pos rfl, mul_zero]; exact curvature_zero n p
    · rw [node i (by omega), if_neg (by omega), Nat.add_sub_cancel, show i + 1 + k = i + k + 1 by omega, pow_succ]
      ring
  have right : curvature n p (j + 1) = (-1) ^ (j + k) * (if j + 2 = n then 0 else X j) := by
    split_ifs with h
    · rw [show j + 1 = n - 1 by omega, curvature_last (by omega), mul_zero]
    · exact node j (by omega)
  intro e
  have hw : gap p j = (p (j + 1)).1 - (p j).1 := rfl
  have he : e = (if j = k then δ else 0) * (gap p j - (x - (p j).1)) / gap p j +
      (if j + 1 = k then δ else 0) * (x - (p j).1) / gap p j +
      (-1) ^ (j + k) * ((if j = 0 then 0 else X (j - 1)) * bend (gap p j) (gap p j - (x - (p j).1)) -
        (if j + 2 = n then 0 else X j) * bend (gap p j) (x - (p j).1)) := by
    show cubic _ _ _ _ _ _ _ = _
    rw [cubic_bend (h0.trans h1), left, right, hp, hp, ← hw,
      show (p (j + 1)).1 - x = gap p j - (x - (p j).1) by rw [hw]; ring]
    ring
  rw [he]
  clear_value e
  clear he
  have u0 : 0 < x - (p j).1 := by linarith
  have u1 : x - (p j).1 < gap p j := by rw [hw]; linarith
  generalize x - (p j).1 = u at *
  clear left right node hX
  rcases Nat.lt_or_ge k j with hkj | hkj
  · -- after the node
    rw [if_neg (by omega), if_neg (by omega), if_neg (by omega)]
    simp only [zero_mul, zero_div, zero_add]
    have hA := H.curv_pos hδ (j - 1) (by omega) (.inl (by omega))
    have hB : 2 * (if j + 2 = n then 0 else X j) ≤ X (j - 1) := by
      split_ifs with h
      · rw [mul_zero]; exact hA.le
      · have := H.halves hδ (j - 1) (by omega) (by omega)
        rwa [show j - 1 + 1 = j by omega] at this
    have F := bend_pos u0 u1 hA hB
    refine ⟨fun h => absurd h (by omega), fun _ h => ?_, fun _ h => ?_⟩
    · obtain ⟨-, m, hm⟩ := h.resolve_right (by omega)
      rw [Even.neg_one_pow ⟨m + k, by omega⟩, one_mul]
      exact F
    · obtain ⟨-, m, hm⟩ := h.resolve_right (by omega)
      rw [Odd.neg_one_pow ⟨m + k, by omega⟩, neg_one_mul]
      exact neg_neg_of_pos F
  · rcases hkj.eq_or_lt with hkj | hkj
    · -- just after the node
      subst hkj
      rw [if_pos rfl, if_neg (show ¬ j + 1 = j by omega), zero_mul, zero_div, add_zero, Even.neg_one_pow ⟨j, rfl⟩, one_mul]
      have hA : 0 ≤ (if j = 0 then 0 else X (j - 1)) := by
        split_ifs
        · exact le_rfl
        · exact H.curv_nonneg hδ _ (by omega)
      have F := bend_left (B := if j + 2 = n then 0 else X j) u0 u1 hδ hA (by
        split_ifs with h1 h2 h2
        · positivity
        · have := H.curv_nonneg hδ (j - 1) (by omega)
          have := H.gap j (by omega)
          positivity
        · simpa [h2] using H.after hδ (by omega)
        · simpa [h2] using H.after hδ (by omega))
      refine ⟨fun h => absurd h (by omega), fun _ _ => F, fun _ h => ?_⟩
      obtain ⟨-, m, hm⟩ := h.resolve_right (by omega)
      omega
    · rw [if_neg (show ¬ j = k by omega)]
      rcases Nat.lt_or_ge (j + 1) k with hkj' | hkj'
      · -- far before the node
        rw [if_neg (show ¬ j + 1 = k by omega), if_neg (show ¬ j + 2 = n by omega)]
        simp only [zero_mul, zero_div, zero_add]
        have hA : 2 * (if j = 0 then 0 else X (j - 1)) ≤ X j := by
          split_ifs with h
          · rw [mul_zero]; exact H.curv_nonneg hδ _ (by omega)
          · have := H.far_before hδ (j - 1) (by omega) (by omega)
            rwa [show j - 1 + 1 = j by omega] at this
        have hA0 : 0 ≤ (if j = 0 then 0 else X (j - 1)) := by
          split_ifs
          · exact le_rfl
          · exact H.curv_nonneg hδ _ (by omega)
        have F : k + 1 < n → _ := fun h => bend_neg u0 u1 (H.curv_pos hδ j (by omega) (.inr h)) hA
        refine ⟨fun h => ?_, fun hl h => ?_, fun hl h => ?_⟩
        · have z := H.curv_zero hδ j h.2 h.1
          rw [z] at hA ⊢
          have : (if j = 0 then 0 else X (j - 1)) = 0 := le_antisymm (by linarith) hA0
          rw [this]
          simp
        · obtain ⟨-, m, hm⟩ := h.resolve_left (by omega)
          rw [Odd.neg_one_pow ⟨m + j, by omega⟩, neg_one_mul]
          exact neg_pos.2 (F (by omega))
        · obtain ⟨-, m, hm⟩ := h.resolve_left (by omega)
          rw [Even.neg_one_pow ⟨m + j, by omega⟩, one_mul]
          exact F (by omega)
      · -- just before the node
        obtain rfl : k = j + 1 := by omega
        rw [if_pos rfl, zero_mul, zero_div, zero_add, Odd.neg_one_pow ⟨j, by omega⟩, neg_one_mul]
        have hB : 0 ≤ (if j + 2 = n then 0 else X j) := by
          split_ifs
          · exact le_rfl
          · exact H.curv_nonneg hδ _ (by omega)
        have F := bend_right (A := if j = 0 then 0 else X (j - 1)) u0 u1 hδ hB (by
          have gj := H.gap j (by omega)
          by_cases h2 : j = 0
          · rw [if_pos h2]; positivity
          · have := H.before hδ (j - 1) (by omega) (by omega)
            rw [show j - 1 + 1 = j by omega] at this
            rw [if_neg h2]
            by_cases h1 : j + 2 = n
            · rw [if_pos h1]
              rwa [if_neg (by omega)] at this
            · rw [if_neg h1]
              rwa [if_pos (by omega)] at this)
        rw [← sub_eq_add_neg]
        refine ⟨fun h => absurd h (by omega), fun _ _ => F, fun _ h => ?_⟩
        obtain ⟨-, m, hm⟩ := h.resolve_left (by omega)
        omega

set_option linter.unusedSimpArgs false in
/-- With three points, where the last ordinate is left out of the right-hand side. -/
theorem cardinal_three {k : Nat} {p : Nat → K × K} (g0 : 0 < gap p 0) (g1 : 0 < gap p 1) {δ : K} (hδ : 0 < δ) (hk : k < 3)
    (hp : ∀ i, (p i).2 = if i = k then δ else 0) {j : Nat} (hj : j + 1 < 3) {x : K} (h0 : (p j).1 < x)
    (h1 : x < (p (j + 1)).1) :
    let e := cubic (p j).1 (p j).2 (curvature 3 p j) (p (j + 1)).1 (p (j + 1)).2 (curvature 3 p (j + 1)) x
    ((k = 2 ∧ j = 0) → e = 0) ∧ (k = j ∨ k = j + 1 → 0 < e) ∧ (k + 1 = j → e < 0) := by
  have m : curvature 3 p 1 = (((if 2 = k then δ else 0) - (if 1 = k then δ else 0)) / gap p 1 -
      ((if 1 = k then δ else 0) - (if 0 = k then δ else 0)) / gap p 0 - (if 2 = k then δ else 0) / gap p 1) /
      ((gap p 0 + gap p 1) / 3) := by
    rw [curvature_succ p (k := 0) (by omega), solved, if_pos rfl, rhs_three p g0.ne' g1.ne', bMain, ← hp, ← hp, ← hp]
    rfl
  intro e
  have hh := sub_pos.2 (h0.trans h1)
  have u0 : 0 < x - (p j).1 := by linarith
  have u1 : 0 < (p (j + 1)).1 - x := by linarith
  have hb : ∀ u, 0 < u → u < gap p j → 0 < bend (gap p j) u := by
    intro u ha hb
    have : 0 < gap p j := ha.trans hb
    have : 0 < gap p j ^ 2 - u ^ 2 := by nlinarith
    unfold bend
    positivity
  have hb0 := hb (x - (p j).1) u0 (by unfold gap; linarith)
  have hb1 := hb ((p (j + 1)).1 - x) u1 (by unfold gap; linarith)
  have he : e = (if j = k then δ else 0) * ((p (j + 1)).1 - x) / gap p j + (if j + 1 = k then δ else 0) * (x - (p j).1) / gap p j -
      curvature 3 p j * bend (gap p j) ((p (j + 1)).1 - x) - curvature 3 p (j + 1) * bend (gap p j) (x - (p j).1) := by
    show cubic _ _ _ _ _ _ _ = _
    rw [cubic_bend (h0.trans h1), hp, hp]
    rfl
  rw [he]
  clear_value e
  clear he
  have z0 := curvature_zero 3 p
  have z2 : curvature 3 p 2 = 0 := curvature_last (by omega) p
  have n21 : ¬ (2 : Nat) = 1 := by omega
  have n20 : ¬ (2 : Nat) = 0 := by omega
  have n10 : ¬ (1 : Nat) = 0 := by omega
  have n01 : ¬ (0 : Nat) = 1 := by omega
  have n12 : ¬ (1 : Nat) = 2 := by omega
  have n02 : ¬ (0 : Nat) = 2 := by omega
  have hs : 0 < (gap p 0 + gap p 1) / 3 := by linarith
  rcases (show j = 0 ∨ j = 1 by omega) with rfl | rfl
  · have hw : (p (0 + 1)).1 - x = gap p 0 - (x - (p 0).1) := by unfold gap; ring
    rw [z0, zero_mul, sub_zero, Nat.zero_add, m]
    rcases (show k = 0 ∨ k = 1 ∨ k = 2 by omega) with rfl | rfl | rfl
    · refine ⟨by simp, fun _ => ?_, by simp⟩
      have := bend_left (h := gap p 0) (u := x - (p 0).1) (A := 0)
        (B := δ / gap p 0 / ((gap p 0 + gap p 1) / 3)) u0 (by rw [← sub_pos, ← hw]; exact u1) hδ le_rfl (by
          rw [zero_div, add_zero, div_div, div_le_div_iff₀ (by positivity) (by positivity)]
          nlinarith [mul_pos hδ g0, mul_pos (mul_pos hδ g0) g1])
      rw [← hw] at this
      simp only [n21, n20, n10, n01, n12, n02, Nat.reduceAdd, if_true, if_false]
      convert this using 1
      ring
    · refine ⟨by simp, fun _ => ?_, by simp⟩
      have : 0 < δ * (x - (p 0).1) / gap p 0 + (δ / gap p 1 + δ / gap p 0) / ((gap p 0 + gap p 1) / 3) * bend (gap p 0) (x - (p 0).1) := by
        positivity
      simp only [n21, n20, n10, n01, n12, n02, Nat.reduceAdd, if_true, if_false]
      convert this using 1
      ring
    · refine ⟨fun _ => by simp, by simp, by simp⟩
  · rw [z2, zero_mul, sub_zero, m]
    have hw : (p (1 + 1)).1 - x = gap p 1 - (x - (p 1).1) := by unfold gap; ring
    rcases (show k = 0 ∨ k = 1 ∨ k = 2 by omega) with rfl | rfl | rfl
    · refine ⟨by simp, by simp, fun _ => ?_⟩
      have : 0 < δ / gap p 0 / ((gap p 0 + gap p 1) / 3) * bend (gap p 1) ((p (1 + 1)).1 - x) := by positivity
      simp only [n21, n20, n10, n01, n12, n02, Nat.reduceAdd, if_true, if_false]
      rw [← neg_pos]
      convert this using 1
      ring
    · refine ⟨by simp, fun _ => ?_, by simp⟩
      have : 0 < δ * ((p (1 + 1)).1 - x) / gap p 1 +
        (δ / gap p 1 + δ / gap p 0) / ((gap p 0 + gap p 1) / 3) * bend (gap p 1) ((p (1 + 1)).1 - x) := by positivity
      simp only [n21, n20, n10, n01, n12, n02, Nat.reduceAdd, if_true, if_false]
      convert this using 1
      ring
    · refine ⟨by simp, fun _ => ?_, by simp⟩
      have : 0 < δ * (x - (p 1).1) / gap p 1 := by positivity
      simpa using this

end

end NaturalCubic

namespace Props

open Spec

/-- Raising one yield adds the spline through zeros but for one ordinate. -/
theorem natural_raise {D : DayCount ℝ} {N : ℝ} (hD : IsActual D N) (s : Date) (ms : List Date)
    (ys : List ℝ) (hlen : ms.length = ys.length) (hm : ms.Pairwise (· < ·)) (h3 : 3 ≤ ms.length) (k : Nat)
    (hk : k < ys.length) (δ : ℝ) (j : Nat) (hj : j + 1 < ms.length) (d : Date) (hd : s < d) (h0 : ms[j] < d)
    (h1 : d < ms[j + 1]) :
    ∃ (p : Nat → ℝ × ℝ) (x v v' : ℝ), (∀ i, i + 1 < ms.length → 0 < NaturalCubic.gap p i) ∧
      (∀ i, (p i).2 = if i = k then δ else 0) ∧ (p j).1 < x ∧ x < (p (j + 1)).1 ∧
      curveDiscount D (Interpolator.naturalCubic ℝ) s ms ys s d = .ok (.ok v) ∧
      curveDiscount D (Interpolator.naturalCubic ℝ) s ms (ys.set k (ys[k] + δ)) s d = .ok (.ok v') ∧
      (v' < v ↔ 0 < NaturalCubic.cubic (p j).1 (p j).2 (NaturalCubic.curvature ms.length p j) (p (j + 1)).1 (p (j + 1)).2
        (NaturalCubic.curvature ms.length p (j + 1)) x) ∧
      (v < v' ↔ NaturalCubic.cubic (p j).1 (p j).2 (NaturalCubic.curvature ms.length p j) (p (j + 1)).1 (p (j + 1)).2
        (NaturalCubic.curvature ms.length p (j + 1)) x < 0) := by
  have e0 : (ms.map fun m => (Date.sub m s : ℝ) / N).getD j 0 < (Date.sub d s : ℝ) / N := by
    rw [List.getD_eq_getElem?_getD, List.getElem?_eq_getElem (by simp; omega)]
    simpa using (isActual_lt hD s _ _).2 h0
  have e1 : (Date.sub d s : ℝ) / N < (ms.map fun m => (Date.sub m s : ℝ) / N).getD (j + 1) 0 := by
    rw [List.getD_eq_getElem?_getD, List.getElem?_eq_getElem (by simpa using hj)]
    simpa using (isActual_lt hD s _ _).2 h1
  have hxs := isActual_increasing hD s hm
  have hpos := fraction_pos hD hd
  have form : ∀ zs : List ℝ, ms.length = zs.length → ∀ y, evaluate (Interpolator.naturalCubic ℝ) (pillars N s ms zs)
      ((Date.sub d s : ℝ) / N) = .ok (.ok y) → curveDiscount D (Interpolator.naturalCubic ℝ) s ms zs s d =
        .ok (.ok (Real.exp (-((Date.sub d s : ℝ) / N * y)))) := by
    intro zs hz y hy
    rw [curveDiscount_form hD (n := 3) (.inr (.inr ⟨rfl, rfl⟩)) hz hm h3]
    exact ⟨le_rfl, hd.le, y, hy, 0, by rw [zero_sub], .inl ⟨rfl, rfl⟩⟩
  have incr : ∀ zs, StrictlyIncreasing (pillars N s ms zs) := pillars_increasing hD s hm
  unfold pillars at form incr
  generalize (Date.sub d s : ℝ) / N = x at *
  have hxl : (ms.map fun m => (Date.sub m s : ℝ) / N).length = ms.length := by simp
  generalize (ms.map fun m => (Date.sub m s : ℝ) / N) = xs at *
  clear h0 h1
  rw [← hxl] at hlen h3 hj form ⊢
  have gx : ∀ i (hi : i < xs.length), xs.getD i 0 = xs[i] := fun i hi => by simp [List.getElem?_eq_getElem hi]
  have value : ∀ zs : List ℝ, xs.length = zs.length → evaluate (Interpolator.naturalCubic ℝ) (xs.zip zs) x =
      .ok (.ok (NaturalCubic.cubic (xs.getD j 0) (zs.getD j 0)
        (NaturalCubic.curvature xs.length (fun i => (xs.getD i 0, zs.getD i 0)) j) (xs.getD (j + 1) 0) (zs.getD (j + 1) 0)
        (NaturalCubic.curvature xs.length (fun i => (xs.getD i 0, zs.getD i 0)) (j + 1)) x)) := by
    intro zs hz
    have hs := incr zs
    rw [zip_eq_tab xs zs hz] at hs ⊢
    exact NaturalCubic.segment h3 hs hj e0.le e1.le
  have hz : xs.length = ((List.replicate xs.length (0 : ℝ)).set k δ).length := by simp
  have hzk : ∀ i, ((List.replicate xs.length (0 : ℝ)).set k δ).getD i 0 = if i = k then δ else 0 := by
    intro i
    rw [List.getD_eq_getElem?_getD, List.getElem?_set]
    rcases eq_or_ne k i with rfl | h
    · simp [show k < xs.length by omega]
    · rw [if_neg h, if_neg h.symm, List.getElem?_replicate]
      split_ifs <;> rfl
  have hv := value ys hlen
  have hw := value _ hz
  have hc := C83_combination (.inr (.inr ⟨rfl, rfl⟩)) xs ys _ hlen hz h3 hxs 1 1 x _ _ hv hw
  have hl : List.zipWith (fun y z => 1 * y + 1 * z) ys ((List.replicate xs.length (0 : ℝ)).set k δ) =
      ys.set k (ys[k] + δ) := by
    apply List.ext_getElem
    · simp; omega
    · intro i h1 h2
      rw [getElem_raise hk, List.getElem_zipWith, List.getElem_set]
      split_ifs <;> simp
  rw [hl, one_mul, one_mul] at hc
  refine ⟨fun i => (xs.getD i 0, ((List.replicate xs.length (0 : ℝ)).set k δ).getD i 0), x, _, _, fun i hi => ?_, hzk, e0,
    e1, form ys hlen _ hv, form _ (by simpa using hlen) _ hc, ?_, ?_⟩
  · have := List.pairwise_iff_getElem.1 hxs i (i + 1) (by omega) hi (by omega)
    simp only [NaturalCubic.gap, gx i (by omega), gx (i + 1) hi]
    linarith
  · rw [Real.exp_lt_exp, neg_lt_neg_iff, mul_lt_mul_iff_right₀ hpos, lt_add_iff_pos_right]
  · rw [Real.exp_lt_exp, neg_lt_neg_iff, mul_lt_mul_iff_right₀ hpos, add_lt_iff_neg_left]

/-- **C81.** Natural cubic spline through four or more pillars, Act/360 or Act/365: which pillars move which discount
factors, and which way.  Between pillars `j` and `j + 1`, raising a yield lowers the discount factor if the pillar is one of
these two, raises it if the pillar is the next on either side, lowers it if it is the next after that, and so on in turn.
The last pillar has no effect before the last but two, against the natural spline.  The segment before the last but one pillar
(`j + 3 = n`) is left out: the sign may change inside it. -/
theorem C81_natural_pillar_iff_partial {D : DayCount ℝ} {N : ℝ} (hD : IsActual D N) (s : Date) (ms : List Date)
    (ys : List ℝ) (hlen : ms.length = ys.length) (hm : ms.Pairwise (· < ·)) (h4 : 4 ≤ ms.length) (k : Nat)
    (hk : k < ys.length) (δ : ℝ) (hδ : 0 < δ) (j : Nat) (hj : j + 1 < ms.length) (hj3 : j + 3 ≠ ms.length) (d : Date)
    (hd : s < d) (h0 : ms[j] < d) (h1 : d < ms[j + 1]) :
    ∃ v v', curveDiscount D (Interpolator.naturalCubic ℝ) s ms ys s d = .ok (.ok v) ∧
      curveDiscount D (Interpolator.naturalCubic ℝ) s ms (ys.set k (ys[k] + δ)) s d = .ok (.ok v') ∧
      (v' < v ↔ ¬ (k + 1 = ms.length ∧ j + 3 < ms.length) ∧ (k ≤ j ∧ Even (j - k) ∨ j < k ∧ Odd (k - j))) ∧
      (v < v' ↔ ¬ (k + 1 = ms.length ∧ j + 3 < ms.length) ∧ (k ≤ j ∧ Odd (j - k) ∨ j < k ∧ Even (k - j))) := by
  obtain ⟨p, x, v, v', hg, hp, p0, p1, hv, hv', lt, gt⟩ := natural_raise hD s ms ys hlen hm (by omega) k hk δ j hj d hd h0 h1
  obtain ⟨c0, cp, cn⟩ := NaturalCubic.cardinal_sign h4 hg hδ (by omega) hp hj hj3 p0 p1
  refine ⟨v, v', hv, hv', lt.trans ?_, gt.trans ?_⟩
  · refine ⟨fun h => ?_, fun h => cp h.1 h.2⟩
    by_cases hc : k + 1 = ms.length ∧ j + 3 < ms.length
    · exact absurd (c0 hc) h.ne'
    · refine ⟨hc, ?_⟩
      by_contra hb
      refine absurd (cn hc ?_) (not_lt.2 h.le)
      rw [not_or, not_and, not_and, Nat.not_even_iff_odd, Nat.not_odd_iff_even] at hb
      rcases Nat.lt_or_ge j k with hjk | hjk
      · exact .inr ⟨hjk, hb.2 hjk⟩
      · exact .inl ⟨hjk, hb.1 hjk⟩
  · refine ⟨fun h => ?_, fun h => cn h.1 h.2⟩
    by_cases hc : k + 1 = ms.length ∧ j + 3 < ms.length
    · exact absurd (c0 hc) h.ne
    · refine ⟨hc, ?_⟩
      by_contra hb
      refine absurd (cp hc ?_) (not_lt.2 h.le)
      rw [not_or, not_and, not_and, Nat.not_even_iff_odd, Nat.not_odd_iff_even] at hb
      rcases Nat.lt_or_ge j k with hjk | hjk
      · exact .inr ⟨hjk, hb.2 hjk⟩
      · exact .inl ⟨hjk, hb.1 hjk⟩

/-- Pillars after 360, 720, 1080 and 1440 days: between the first two, raising the third yield raises the discount factor
and raising the fourth does nothing. -/
example : (∃ v v', curveDiscount DayCount.act360 (Interpolator.naturalCubic ℝ) gridSettle fourMaturities [2, 3, 5, 4]
      gridSettle gridMid1 = .ok (.ok v) ∧
    curveDiscount DayCount.act360 (Interpolator.naturalCubic ℝ) gridSettle fourMaturities [2, 3, 5 + 1, 4] gridSettle
      gridMid1 = .ok (.ok v') ∧ v < v') ∧
    ∃ v, curveDiscount DayCount.act360 (Interpolator.naturalCubic ℝ) gridSettle fourMaturities [2, 3, 5, 4]
      gridSettle gridMid1 = .ok (.ok v) ∧
    curveDiscount DayCount.act360 (Interpolator.naturalCubic ℝ) gridSettle fourMaturities [2, 3, 5, 4 + 1] gridSettle
      gridMid1 = .ok (.ok v) := by
  constructor
  · obtain ⟨v, v', h, h', -, hv⟩ := C81_natural_pillar_iff_partial (N := 360) (.inl ⟨rfl, rfl⟩) gridSettle fourMaturities
      [2, 3, 5, 4] rfl (by decide) le_rfl 2 (by simp) 1 one_pos 0 (by simp [fourMaturities]) (by simp [fourMaturities])
      gridMid1 (by decide) (by decide) (by decide)
    exact ⟨v, v', h, h', hv.2 (by simp [fourMaturities])⟩
  · obtain ⟨v, v', h, h', h1, h2⟩ := C81_natural_pillar_iff_partial (N := 360) (.inl ⟨rfl, rfl⟩) gridSettle fourMaturities
      [2, 3, 5, 4] rfl (by decide) le_rfl 3 (by simp) 1 one_pos 0 (by simp [fourMaturities]) (by simp [fourMaturities])
      gridMid1 (by decide) (by decide) (by decide)
    have : v = v' := le_antisymm (not_lt.1 fun h => (h1.1 h).1 (by simp [fourMaturities]))
      (not_lt.1 fun h => (h2.1 h).1 (by simp [fourMaturities]))
    exact ⟨v, h, this ▸ h'⟩

/-- **C81.** Natural cubic spline through three pillars: raising a yield lowers the discount factor between two pillars
exactly if the pillar is one of these two, and raises it exactly if it is the first and the date is after the second. -/
theorem C81_natural_three_pillars_iff_partial {D : DayCount ℝ} {N : ℝ} (hD : IsActual D N) (s : Date) (ms : List Date)
    (ys : List ℝ) (hlen : ms.length = ys.length) (hm : ms.Pairwise (· < ·)) (h3 : ms.length = 3) (k : Nat)
    (hk : k < ys.length) (δ : ℝ) (hδ : 0 < δ) (j : Nat) (hj : j + 1 < ms.length) (d : Date) (hd : s < d) (h0 : ms[j] < d)
    (h1 : d < ms[j + 1]) :
    ∃ v v', curveDiscount D (Interpolator.naturalCubic ℝ) s ms ys s d = .ok (.ok v) ∧
      curveDiscount D (Interpolator.naturalCubic ℝ) s ms (ys.set k (ys[k] + δ)) s d = .ok (.ok v') ∧
      (v' < v ↔ k = j ∨ k = j + 1) ∧ (v < v' ↔ k + 1 = j) := by
  obtain ⟨p, x, v, v', hg, hp, p0, p1, hv, hv', lt, gt⟩ := natural_raise hD s ms ys hlen hm h3.ge k hk δ j hj d hd h0 h1
  rw [h3] at lt gt
  obtain ⟨c0, cp, cn⟩ := NaturalCubic.cardinal_three (hg 0 (by omega)) (hg 1 (by omega)) hδ (by omega) hp (by omega) p0 p1
  refine ⟨v, v', hv, hv', lt.trans ⟨fun h => ?_, cp⟩, gt.trans ⟨fun h => ?_, cn⟩⟩
  · by_contra hb
    rcases (show k + 1 = j ∨ (k = 2 ∧ j = 0) by omega) with hc | hc
    · exact absurd (cn hc) (not_lt.2 h.le)
    · exact absurd (c0 hc) h.ne'
  · by_contra hb
    rcases (show (k = j ∨ k = j + 1) ∨ (k = 2 ∧ j = 0) by omega) with hc | hc
    · exact absurd (cp hc) (not_lt.2 h.le)
    · exact absurd (c0 hc) h.ne

/-- Pillars after 360, 720 and 1080 days: between the last two, raising the first yield raises the discount factor. -/
example : ∃ v v', curveDiscount DayCount.act360 (Interpolator.naturalCubic ℝ) gridSettle gridMaturities [2, 3, 5] gridSettle
      gridMid2 = .ok (.ok v) ∧
    curveDiscount DayCount.act360 (Interpolator.naturalCubic ℝ) gridSettle gridMaturities [2 + 1, 3, 5] gridSettle
      gridMid2 = .ok (.ok v') ∧ v < v' := by
  obtain ⟨v, v', h, h', -, hv⟩ := C81_natural_three_pillars_iff_partial (N := 360) (.inl ⟨rfl, rfl⟩) gridSettle
    gridMaturities [2, 3, 5] rfl gridMaturities_increasing rfl 0 (by simp) 1 one_pos 1 (by simp [gridMaturities]) gridMid2
    (by decide) (by decide) (by decide)
  exact ⟨v, v', h, h', hv.2 rfl⟩

/-- Pillars 10, 20, 100 and 110 days after 1 January 2023. -/
def bunchedMaturities : List Date :=
  [⟨2023, 1, 11, by decide⟩, ⟨2023, 1, 21, by decide⟩, ⟨2023, 4, 11, by decide⟩, ⟨2023, 4, 21, by decide⟩]

/-- The points at these pillars when the first yield is `a` and the others are zero. -/
noncomputable def bunched (a : ℝ) (i : Nat) : ℝ × ℝ :=
  if i = 0 then (1 / 36, a) else if i = 1 then (1 / 18, 0) else if i = 2 then (5 / 18, 0) else (11 / 36, 0)

theorem bunched_curvature (a : ℝ) : NaturalCubic.curvature 4 (bunched a) 1 = 432 * a ∧
    NaturalCubic.curvature 4 (bunched a) 2 = -(432 * 36 / 65) * a := by
  rw [NaturalCubic.curvature_succ _ (k := 0) (by omega), NaturalCubic.curvature_succ _ (k := 1) (by omega)]
  unfold NaturalCubic.solved
  rw [if_neg (by omega), if_neg (by omega), TridiagonalMatrix.sweepX_ge _ _ _ _ (by omega),
    TridiagonalMatrix.sweepX_ge _ _ _ _ (by omega)]
  simp only [TridiagonalMatrix.sweepY, TridiagonalMatrix.sweepC, NaturalCubic.bSide, NaturalCubic.bMain, NaturalCubic.rhs,
    TridiagonalMatrix.rowProduct, NaturalCubic.mEnd, NaturalCubic.cSide, NaturalCubic.cMain, NaturalCubic.recip,
    NaturalCubic.gap, bunched]
  norm_num
  constructor <;> ring

theorem bunched_value (a x : ℝ) (h0 : 1 / 18 ≤ x) (h1 : x ≤ 5 / 18) :
    evaluate (Interpolator.naturalCubic ℝ) [(1 / 36, a), (1 / 18, 0), (5 / 18, 0), (11 / 36, 0)] x =
      .ok (.ok (NaturalCubic.cubic (1 / 18) 0 (432 * a) (5 / 18) 0 (-(432 * 36 / 65) * a) x)) := by
  have e : [(1 / 36, a), (1 / 18, 0), (5 / 18, 0), (11 / 36, 0)] = tab 4 (bunched a) := by
    simp [tab, List.range_succ, bunched]
  have hs : StrictlyIncreasing (tab 4 (bunched a)) := by
    rw [← e]
    simp [StrictlyIncreasing]
    norm_num
  rw [e, NaturalCubic.segment (by omega) hs (i := 1) (by omega) (by simpa [bunched] using h0) (by simpa [bunched] using h1)]
  have := bunched_curvature a
  simp only [this]
  simp [bunched]

/-- **C81.** In the segment left out above the sign may change.  Pillars after 10, 20, 100 and 110 days, all yields zero:
raising the first yield raises the discount factor to day 60 and lowers the one to day 98, both between the second and the
third pillar. -/
theorem C81_natural_sign_change : ∃ v₀ v₁ w₀ w₁,
    curveDiscount DayCount.act360 (Interpolator.naturalCubic ℝ) ⟨2023, 1, 1, by decide⟩ bunchedMaturities [0, 0, 0, 0]
      ⟨2023, 1, 1, by decide⟩ ⟨2023, 3, 2, by decide⟩ = .ok (.ok v₀) ∧
    curveDiscount DayCount.act360 (Interpolator.naturalCubic ℝ) ⟨2023, 1, 1, by decide⟩ bunchedMaturities [1, 0, 0, 0]
      ⟨2023, 1, 1, by decide⟩ ⟨2023, 3, 2, by decide⟩ = .ok (.ok v₁) ∧ v₀ < v₁ ∧
    curveDiscount DayCount.act360 (Interpolator.naturalCubic ℝ) ⟨2023, 1, 1, by decide⟩ bunchedMaturities [0, 0, 0, 0]
      ⟨2023, 1, 1, by decide⟩ ⟨2023, 4, 9, by decide⟩ = .ok (.ok w₀) ∧
    curveDiscount DayCount.act360 (Interpolator.naturalCubic ℝ) ⟨2023, 1, 1, by decide⟩ bunchedMaturities [1, 0, 0, 0]
      ⟨2023, 1, 1, by decide⟩ ⟨2023, 4, 9, by decide⟩ = .ok (.ok w₁) ∧ w₁ < w₀ := by
  have hp : ∀ a : ℝ, pillars (360 : ℝ) ⟨2023, 1, 1, by decide⟩ bunchedMaturities [a, 0, 0, 0] =
      [(1 / 36, a), (1 / 18, 0), (5 / 18, 0), (11 / 36, 0)] := by
    intro a
    have e1 : Date.sub ⟨2023, 1, 11, by decide⟩ ⟨2023, 1, 1, by decide⟩ = 10 := by decide +kernel
    have e2 : Date.sub ⟨2023, 1, 21, by decide⟩ ⟨2023, 1, 1, by decide⟩ = 20 := by decide +kernel
    have e3 : Date.sub ⟨2023, 4, 11, by decide⟩ ⟨2023, 1, 1, by decide⟩ = 100 := by decide +kernel
    have e4 : Date.sub ⟨2023, 4, 21, by decide⟩ ⟨2023, 1, 1, by decide⟩ = 110 := by decide +kernel
    simp only [pillars, bunchedMaturities, List.map_cons, List.map_nil, e1, e2, e3, e4]
    norm_num
  have form : ∀ (a : ℝ) (d : Date) (x : ℝ), (Date.sub d ⟨2023, 1, 1, by decide⟩ : ℝ) / 360 = x →
      ⟨2023, 1, 1, by decide⟩ ≤ d → 1 / 18 ≤ x → x ≤ 5 / 18 →
      curveDiscount DayCount.act360 (Interpolator.naturalCubic ℝ) ⟨2023, 1, 1, by decide⟩ bunchedMaturities [a, 0, 0, 0]
        ⟨2023, 1, 1, by decide⟩ d = .ok (.ok (Real.exp (-(x *
          NaturalCubic.cubic (1 / 18) 0 (432 * a) (5 / 18) 0 (-(432 * 36 / 65) * a) x)))) := by
    intro a d x hx hd h0 h1
    rw [curveDiscount_form (N := 360) (.inl ⟨rfl, by norm_num⟩) (n := 3) (.inr (.inr ⟨rfl, rfl⟩)) rfl
      (by unfold bunchedMaturities; decide) (by simp [bunchedMaturities]), hp, hx]
    exact ⟨le_rfl, hd, _, bunched_value a x h0 h1, 0, by rw [zero_sub], .inl ⟨rfl, rfl⟩⟩
  have d1 : (Date.sub ⟨2023, 3, 2, by decide⟩ ⟨2023, 1, 1, by decide⟩ : ℝ) / 360 = 1 / 6 := by
    rw [show Date.sub ⟨2023, 3, 2, by decide⟩ ⟨2023, 1, 1, by decide⟩ = 60 by decide +kernel]; norm_num
  have d2 : (Date.sub ⟨2023, 4, 9, by decide⟩ ⟨2023, 1, 1, by decide⟩ : ℝ) / 360 = 49 / 180 := by
    rw [show Date.sub ⟨2023, 4, 9, by decide⟩ ⟨2023, 1, 1, by decide⟩ = 98 by decide +kernel]; norm_num
  refine ⟨_, _, _, _, form 0 _ _ d1 (by decide) (by norm_num) (by norm_num), form 1 _ _ d1 (by decide) (by norm_num)
    (by norm_num), ?_, form 0 _ _ d2 (by decide) (by norm_num) (by norm_num), form 1 _ _ d2 (by decide) (by norm_num)
    (by norm_num), ?_⟩
  · rw [Real.exp_lt_exp]
    unfold NaturalCubic.cubic
    norm_num
  · rw [Real.exp_lt_exp]
    unfold NaturalCubic.cubic
    norm_num

end Props

end Qlab
