import Verif.Props.Convex
import Verif.Props.Monotone

/-!
# Convex data and the natural cubic spline (C132)
-/

namespace Qlab

open Spec (StrictlyIncreasing)

variable {K : Type} [Field K] [LinearOrder K] [IsStrictOrderedRing K]

/-- Pieces that lie above their tangents, and that meet with a slope that does not fall, lie above each other's
tangents. -/
theorem tangent_le (x : Nat → K) (m : Nat) (hx : ∀ i, i < m → x i ≤ x (i + 1)) (F D : Nat → K → K)
    (h1 : ∀ i, i < m → ∀ y w, x i ≤ y → y ≤ x (i + 1) → x i ≤ w → w ≤ x (i + 1) → F i y + D i y * (w - y) ≤ F i w)
    (h2 : ∀ i, i + 1 < m → F i (x (i + 1)) = F (i + 1) (x (i + 1)) ∧ D i (x (i + 1)) ≤ D (i + 1) (x (i + 1))) :
    ∀ k i, i + k < m →
      (∀ y w, x i ≤ y → y ≤ x (i + 1) → x (i + k) ≤ w → w ≤ x (i + k + 1) → F i y + D i y * (w - y) ≤ F (i + k) w) ∧
      (∀ y w, x (i + k) ≤ y → y ≤ x (i + k + 1) → x i ≤ w → w ≤ x (i + 1) →
        F (i + k) y + D (i + k) y * (w - y) ≤ F i w) := by
  have mono : ∀ i, i < m → ∀ y w, x i ≤ y → y ≤ w → w ≤ x (i + 1) → D i y ≤ D i w := by
    intro i hi y w hy hyw hw
    rcases hyw.eq_or_lt with rfl | hlt
    · exact le_rfl
    have a := h1 i hi y w hy (hyw.trans hw) (hy.trans hyw) hw
    have b := h1 i hi w y (hy.trans hyw) hw hy (hyw.trans hw)
    by_contra hc
    have := mul_lt_mul_of_pos_right (not_le.1 hc) (sub_pos.2 hlt)
    linarith
  have xm : ∀ k i, i + k ≤ m → x i ≤ x (i + k) := by
    intro k
    induction k with
    | zero => exact fun i _ => le_rfl
    | succ k ih => exact fun i hi => (ih i (by omega)).trans (hx (i + k) (by omega))
  intro k
  induction k with
  | zero => exact fun i hi => ⟨fun y w a b c d => h1 i hi y w a b c d, fun y w a b c d => h1 i hi y w a b c d⟩
  | succ k ih =>
    intro i hi
    constructor
    · intro y w a b c d
      have hk : i + 1 + k = i + (k + 1) := by omega
      have hc : x (i + 1) ≤ w := by
        have := xm k (i + 1) (by omega)
        rw [hk] at this
        exact this.trans c
      have t := (ih (i + 1) (by omega)).1 (x (i + 1)) w le_rfl (hx _ (by omega)) (by rwa [hk]) (by rwa [hk])
      have t1 := h1 i (by omega) y (x (i + 1)) a b (a.trans b) le_rfl
      have t2 := mono i (by omega) y (x (i + 1)) a b le_rfl
      have t3 := h2 i (by omega)
      have t4 := mul_le_mul_of_nonneg_right (t2.trans t3.2) (sub_nonneg.2 hc)
      rw [hk] at t
      linarith [t3.1]
    · intro y w a b c d
      have hw : w ≤ x (i + k + 1) := by
        have := xm k (i + 1) (by omega)
        rw [show i + 1 + k = i + k + 1 by omega] at this
        exact d.trans this
      have t := (ih i (by omega)).2 (x (i + k + 1)) w (hx _ (by omega)) le_rfl c d
      have t1 := h1 (i + (k + 1)) (by omega) y (x (i + k + 1)) a b le_rfl (a.trans b)
      have t2 := mono (i + (k + 1)) (by omega) (x (i + k + 1)) y le_rfl a b
      have t3 := h2 (i + k) (by omega)
      have t4 := mul_le_mul_of_nonneg_right (t3.2.trans t2) (sub_nonneg.2 hw)
      have e : F (i + k + 1) (x (i + k + 1)) = F (i + (k + 1)) (x (i + k + 1)) := rfl
      linarith [t3.1]

namespace NaturalCubic

/-- Slope of a segment. -/
def slopeAt (x₀ y₀ m₀ x₁ y₁ m₁ x : K) : K :=
  -((x₁ - x) ^ 2 / 2 / (x₁ - x₀) * m₀) + (x - x₀) ^ 2 / 2 / (x₁ - x₀) * m₁ -
    (y₀ / (x₁ - x₀) - (x₁ - x₀) / 6 * m₀) + (y₁ / (x₁ - x₀) - (x₁ - x₀) / 6 * m₁)

/-- A segment with second derivatives that are not negative lies above its tangents. -/
theorem cubic_tangent {x₀ y₀ m₀ x₁ y₁ m₁ y w : K} (h : x₀ < x₁) (h0 : 0 ≤ m₀) (h1 : 0 ≤ m₁) (hy0 : x₀ ≤ y)
    (hy1 : y ≤ x₁) (hw0 : x₀ ≤ w) (hw1 : w ≤ x₁) :
    cubic x₀ y₀ m₀ x₁ y₁ m₁ y + slopeAt x₀ y₀ m₀ x₁ y₁ m₁ y * (w - y) ≤ cubic x₀ y₀ m₀ x₁ y₁ m₁ w := by
  have hG := sub_pos.2 h
  have e : cubic x₀ y₀ m₀ x₁ y₁ m₁ w - (cubic x₀ y₀ m₀ x₁ y₁ m₁ y + slopeAt x₀ y₀ m₀ x₁ y₁ m₁ y * (w - y)) =
      (w - y) ^ 2 / 6 / (x₁ - x₀) * ((2 * (x₁ - y) + (x₁ - w)) * m₀ + (2 * (y - x₀) + (w - x₀)) * m₁) := by
    have := hG.ne'
    unfold cubic slopeAt
    field_simp
    ring
  have : 0 ≤ (w - y) ^ 2 / 6 / (x₁ - x₀) * ((2 * (x₁ - y) + (x₁ - w)) * m₀ + (2 * (y - x₀) + (w - x₀)) * m₁) :=
    mul_nonneg (by positivity) (add_nonneg (mul_nonneg (by linarith) h0) (mul_nonneg (by linarith) h1))
  linarith

/-- The kink is the difference of the one-sided slopes. -/
theorem kink_slopeAt (p : Nat → K × K) (M : Nat → K) (j : Nat) (h0 : gap p j ≠ 0) (h1 : gap p (j + 1) ≠ 0) :
    kink p M j =
      slopeAt (p (j + 1)).1 (p (j + 1)).2 (M (j + 1)) (p (j + 2)).1 (p (j + 2)).2 (M (j + 2)) (p (j + 1)).1 -
      slopeAt (p j).1 (p j).2 (M j) (p (j + 1)).1 (p (j + 1)).2 (M (j + 1)) (p (j + 1)).1 := by
  simp only [kink, slopeAt, chord]
  rw [show (p (j + 1)).1 - (p j).1 = gap p j from rfl, show (p (j + 1 + 1)).1 - (p (j + 1)).1 = gap p (j + 1) from rfl,
    show (p (j + 1 + 1)).2 = (p (j + 2)).2 from rfl]
  field_simp
  ring

/-- The second derivatives of a natural cubic spline whose second divided differences are at most twice as large as the
smallest one. -/
theorem weights_nonneg {M : Nat → K} {N : Nat} {lam d : Nat → K} {δ : K} (hδ : 0 ≤ δ)
    (hl : ∀ k, k < N → 0 ≤ lam k ∧ lam k ≤ 1) (hd : ∀ k, k < N → δ ≤ d k ∧ d k ≤ 2 * δ)
    (he : ∀ k, k < N → lam k * M k + 2 * M (k + 1) + (1 - lam k) * M (k + 2) = 6 * d k) (h0 : M 0 = 0)
    (h1 : M (N + 1) = 0) (i : Nat) (hi : i ≤ N + 1) : 0 ≤ M i ∧ M i ≤ 6 * δ := by
  obtain ⟨a, ha, hmin⟩ := (Finset.range (N + 2)).exists_min_image M ⟨0, by simp⟩
  obtain ⟨b, hb, hmax⟩ := (Finset.range (N + 2)).exists_max_image M ⟨0, by simp⟩
  simp only [Finset.mem_range] at ha hb hmin hmax
  have low : 0 ≤ M a := by
    by_contra hc
    rw [not_le] at hc
    obtain ⟨k, rfl⟩ : ∃ k, a = k + 1 := ⟨a - 1, by
      rcases a with _ | a
      · rw [h0] at hc; exact absurd hc (lt_irrefl _)
      · omega⟩
    have hk : k < N := by
      by_contra h
      rw [show k + 1 = N + 1 by omega, h1] at hc
      exact lt_irrefl _ hc
    have hbM : M b ≤ 6 * δ - M (k + 1) / 2 := by
      rcases b with _ | b
      · rw [h0]
        linarith
      · by_cases hbN : b < N
        · have e := he b hbN
          have l := hl b hbN
          have t1 := mul_le_mul_of_nonneg_left (hmin b (by omega)) l.1
          have t2 := mul_le_mul_of_nonneg_left (hmin (b + 2) (by omega)) (sub_nonneg.2 l.2)
          have := (hd b hbN).2
          linarith
        · rw [show b + 1 = N + 1 by omega, h1]
          linarith
    have e := he k hk
    have l := hl k hk
    have t1 := mul_le_mul_of_nonneg_left (hmax k (by omega)) l.1
    have t2 := mul_le_mul_of_nonneg_left (hmax (k + 2) (by omega)) (sub_nonneg.2 l.2)
    have := (hd k hk).1
    linarith
  have all : ∀ j, j ≤ N + 1 → 0 ≤ M j := fun j hj => low.trans (hmin j (by omega))
  refine ⟨all i hi, ?_⟩
  rcases i with _ | i
  · rw [h0]
    linarith
  · by_cases hN : i < N
    · have e := he i hN
      have l := hl i hN
      have t1 := mul_nonneg l.1 (all i (by omega))
      have t2 := mul_nonneg (sub_nonneg.2 l.2) (all (i + 2) (by omega))
      have := (hd i hN).2
      linarith
    · rw [show i + 1 = N + 1 by omega, h1]
      linarith

/-- The second derivatives at all points but the last two. -/
theorem curvature_nonneg {n : Nat} (hn : 4 ≤ n) {p : Nat → K × K} (hs : StrictlyIncreasing (tab n p)) {δ : K}
    (hδ : 0 ≤ δ) (hd : ∀ k, k + 3 < n → δ ≤ (chord p (k + 1) - chord p k) / ((p (k + 2)).1 - (p k).1) ∧
      (chord p (k + 1) - chord p k) / ((p (k + 2)).1 - (p k).1) ≤ 2 * δ) (i : Nat) (hi : i + 2 < n) :
    0 ≤ curvature n p i ∧ curvature n p i ≤ 6 * δ := by
  have eg : ∀ k, (p (k + 2)).1 - (p k).1 = gap p k + gap p (k + 1) := fun k => by unfold gap; ring
  have h := weights_nonneg (M := fun j => if j + 2 < n then curvature n p j else 0) (N := n - 3)
    (lam := fun k => gap p k / (gap p k + gap p (k + 1)))
    (d := fun k => (chord p (k + 1) - chord p k) / ((p (k + 2)).1 - (p k).1)) hδ ?_
    (fun k hk => hd k (by omega)) ?_ ?_ ?_ i (by omega)
  · simpa only [if_pos hi] using h
  · intro k hk
    have h0 := gap_pos hs (i := k) (by omega)
    have h1 := gap_pos hs (i := k + 1) (by omega)
    exact ⟨div_nonneg h0.le (by linarith), (div_le_one (by linarith)).2 (by linarith)⟩
  · intro k hk
    have h0 := gap_pos hs (i := k) (by omega)
    have h1 := gap_pos hs (i := k + 1) (by omega)
    have hk' := kink_eq hn hs (k := k) (by omega)
    have hne : gap p k + gap p (k + 1) ≠ 0 := by positivity
    simp only [eg]
    rw [if_pos (by omega), if_pos (by omega)]
    rw [if_neg (show ¬ k + 3 = n by omega)] at hk'
    have key : chord p (k + 1) - chord p k = gap p k / 6 * curvature n p k +
        (gap p k + gap p (k + 1)) / 3 * curvature n p (k + 1) +
        gap p (k + 1) / 6 * (if k + 2 + 2 < n then curvature n p (k + 2) else 0) := by
      by_cases h4 : k + 4 = n
      · rw [if_pos h4, show n - 2 = k + 2 by omega] at hk'
        rw [if_neg (by omega)]
        unfold kink bSide at hk'
        linarith
      · rw [if_neg h4] at hk'
        rw [if_pos (by omega)]
        unfold kink at hk'
        linarith
    rw [key]
    field_simp
    ring
  · simp only [curvature_zero, ite_self]
  · simp only [if_neg (show ¬ n - 3 + 1 + 2 < n by omega)]

end NaturalCubic

namespace Spec

/-- The second divided difference of three neighbouring points: the change of the slope, divided by the distance. -/
def secondDifference (pts : List (K × K)) (i : Nat) (hi : i + 2 < pts.length) : K :=
  ((pts[i + 2].2 - pts[i + 1].2) / (pts[i + 2].1 - pts[i + 1].1) -
    (pts[i + 1].2 - pts[i].2) / (pts[i + 1].1 - pts[i].1)) / (pts[i + 2].1 - pts[i].1)

end Spec

namespace Props

open Spec NaturalCubic

variable [FromInt K] [ExactCast K]

/-- **C132.** A natural cubic spline through four or more points is convex up to the last point but two if the second
divided differences of the points, the last one left out, are between `δ` and `2 δ`.  Missing for the full property:
data that bend less evenly, the last two segments, and three points; there the property does not hold. -/
theorem C132_natural_cubic_partial (pts : List (K × K)) (hs : StrictlyIncreasing pts) (h4 : 4 ≤ pts.length) (δ : K)
    (hd : ∀ i (hi : i + 3 < pts.length), δ ≤ secondDifference pts i (by omega) ∧
      secondDifference pts i (by omega) ≤ 2 * δ) :
    CurveIsConvex (evaluate (Interpolator.naturalCubic K) pts)
      fun x => pts[0].1 ≤ x ∧ x ≤ pts[pts.length - 3].1 := by
  obtain ⟨n, p, hn, rfl⟩ := exists_tab pts (by rintro rfl; simp at h4)
  simp only [length_tab, getElem_tab, secondDifference] at h4 hd
  simp only [length_tab, getElem_tab]
  have hδ : 0 ≤ δ := by have := hd 0 (by omega); linarith [this.1, this.2]
  have hcv := curvature_nonneg h4 hs hδ hd
  have hx : ∀ i, i < n - 3 → (p i).1 ≤ (p (i + 1)).1 := fun i hi => (strict_tab hs (Nat.lt_succ_self i) (show i + 1 < n by omega)).le
  have seg : ∀ i, i < n - 3 → ∀ x, (p i).1 ≤ x → x ≤ (p (i + 1)).1 → evaluate (Interpolator.naturalCubic K) (tab n p) x =
      .ok (.ok (cubic (p i).1 (p i).2 (curvature n p i) (p (i + 1)).1 (p (i + 1)).2 (curvature n p (i + 1)) x)) :=
    fun i hi x h0 h1 => NaturalCubic.segment (by omega) hs (by omega) h0 h1
  have tan := tangent_le (fun i => (p i).1) (n - 3) hx
    (fun i => cubic (p i).1 (p i).2 (curvature n p i) (p (i + 1)).1 (p (i + 1)).2 (curvature n p (i + 1)))
    (fun i => slopeAt (p i).1 (p i).2 (curvature n p i) (p (i + 1)).1 (p (i + 1)).2 (curvature n p (i + 1)))
    (fun i hi y w a b c d => cubic_tangent (strict_tab hs (Nat.lt_succ_self i) (show i + 1 < n by omega)) (hcv i (by omega)).1
      (hcv (i + 1) (by omega)).1 a b c d)
    (fun i hi => by
      have h0 := strict_tab hs (Nat.lt_succ_self i) (show i + 1 < n by omega)
      have h1 := strict_tab hs (Nat.lt_succ_self (i + 1)) (show i + 2 < n by omega)
      refine ⟨?_, ?_⟩
      · rw [cubic_right _ _ _ _ h0, cubic_left _ _ _ _ h1]
      · have hk := kink_eq h4 hs (k := i) (by omega)
        rw [if_neg (by omega), if_neg (by omega), kink_slopeAt _ _ _ (sub_pos.2 h0).ne' (sub_pos.2 h1).ne'] at hk
        linarith)
  have br : ∀ m x, m ≤ n - 3 → 0 < m → (p 0).1 ≤ x → x ≤ (p m).1 → ∃ i, i < m ∧ (p i).1 ≤ x ∧ x ≤ (p (i + 1)).1 := by
    intro m x
    induction m with
    | zero => exact fun _ h => absurd h (lt_irrefl _)
    | succ m ih =>
      intro hm _ h0 h1
      rcases le_total (p m).1 x with h | h
      · exact ⟨m, by omega, h, h1⟩
      · rcases Nat.eq_zero_or_pos m with rfl | hm0
        · exact ⟨0, by omega, h0, h1⟩
        · obtain ⟨i, hi, a, b⟩ := ih (by omega) hm0 h0 h
          exact ⟨i, by omega, a, b⟩
  refine ⟨fun x => match evaluate (Interpolator.naturalCubic K) (tab n p) x with | .ok (.ok v) => v | _ => 0, ?_, ?_⟩
  · rintro x ⟨h0, h1⟩
    obtain ⟨i, hi, a, b⟩ := br (n - 3) x le_rfl (by omega) h0 h1
    simp only [seg i hi x a b]
  · rintro x z t ⟨x0, x1⟩ ⟨z0, z1⟩ ht ht'
    have hy0 : (p 0).1 ≤ (1 - t) * x + t * z := by nlinarith
    have hy1 : (1 - t) * x + t * z ≤ (p (n - 3)).1 := by nlinarith
    obtain ⟨i, hi, a, b⟩ := br (n - 3) _ le_rfl (by omega) hy0 hy1
    have above : ∀ w, (p 0).1 ≤ w → w ≤ (p (n - 3)).1 →
        cubic (p i).1 (p i).2 (curvature n p i) (p (i + 1)).1 (p (i + 1)).2 (curvature n p (i + 1)) ((1 - t) * x + t * z) +
        slopeAt (p i).1 (p i).2 (curvature n p i) (p (i + 1)).1 (p (i + 1)).2 (curvature n p (i + 1))
          ((1 - t) * x + t * z) * (w - ((1 - t) * x + t * z)) ≤
        (match evaluate (Interpolator.naturalCubic K) (tab n p) w with | .ok (.ok v) => v | _ => 0) := by
      intro w w0 w1
      obtain ⟨j, hj, c, d⟩ := br (n - 3) w le_rfl (by omega) w0 w1
      simp only [seg j hj w c d]
      rcases le_total i j with h | h
      · obtain ⟨k, rfl⟩ := Nat.exists_eq_add_of_le h
        exact (tan k i hj).1 _ w a b c d
      · obtain ⟨k, rfl⟩ := Nat.exists_eq_add_of_le h
        exact (tan k j hi).2 _ w a b c d
    simp only [seg i hi _ a b]
    have u := mul_le_mul_of_nonneg_left (above x x0 x1) (sub_nonneg.2 ht')
    have v := mul_le_mul_of_nonneg_left (above z z0 z1) ht
    generalize slopeAt (p i).1 (p i).2 (curvature n p i) (p (i + 1)).1 (p (i + 1)).2 (curvature n p (i + 1))
          ((1 - t) * x + t * z) = s at u v
    linarith

/-- The points of the parabola `x²` at 0, 1, 2, 4, 5: all second divided differences are one. -/
example : CurveIsConvex (evaluate (Interpolator.naturalCubic ℚ) [(0, 0), (1, 1), (2, 4), (4, 16), (5, 25)])
    fun x => 0 ≤ x ∧ x ≤ 2 := by
  refine C132_natural_cubic_partial [(0, 0), (1, 1), (2, 4), (4, 16), (5, 25)]
    (by unfold StrictlyIncreasing; decide +kernel) (by decide) 1 ?_
  intro i hi
  obtain rfl | rfl : i = 0 ∨ i = 1 := by simp only [List.length_cons, List.length_nil] at hi; omega
  all_goals norm_num [secondDifference]

/-- Where the slope falls from one segment to the next, the curve is not convex. -/
theorem not_convex_of_kink {n : Nat} (hn : 4 ≤ n) {p : Nat → K × K} (hs : StrictlyIncreasing (tab n p)) {j : Nat}
    (hj : j + 2 < n) (hk : kink p (curvature n p) j < 0) :
    ¬ CurveIsConvex (evaluate (Interpolator.naturalCubic K) (tab n p)) (InRange (tab n p)) := by
  rintro ⟨f, hf, hc⟩
  have h0 := gap_pos hs (i := j) (by omega)
  have h1 := gap_pos hs (i := j + 1) (by omega)
  have mem : ∀ i, i < n → p i ∈ tab n p := fun i hi => by
    have h := List.getElem_mem (l := tab n p) (n := i) (by simpa using hi)
    rwa [getElem_tab] at h
  have inr : ∀ x, (p j).1 ≤ x → x ≤ (p (j + 2)).1 → InRange (tab n p) x := fun x a b =>
    ⟨⟨_, mem j (by omega), a⟩, ⟨_, mem (j + 2) hj, b⟩⟩
  set M := curvature n p with hM
  set B := |M (j + 1)| + |M (j + 1) - M j| + |M (j + 2) - M (j + 1)| + 1 with hB
  have hBpos : 0 < B := by positivity
  set e := min (min (gap p j) (gap p (j + 1))) (-kink p M j / (2 * B)) with he
  have e0 : 0 < e := lt_min (lt_min h0 h1) (div_pos (by linarith) (by linarith))
  have e1 : e ≤ gap p j := (min_le_left _ _).trans (min_le_left _ _)
  have e2 : e ≤ gap p (j + 1) := (min_le_left _ _).trans (min_le_right _ _)
  have e3 : e * (2 * B) ≤ -kink p M j := (le_div_iff₀ (by linarith)).1 (min_le_right _ _)
  have g0 : (p (j + 1)).1 - (p j).1 = gap p j := rfl
  have g1 : (p (j + 2)).1 - (p (j + 1)).1 = gap p (j + 1) := rfl
  have v : ∀ i, i + 1 < n → ∀ x, (p i).1 ≤ x → x ≤ (p (i + 1)).1 → InRange (tab n p) x →
      f x = cubic (p i).1 (p i).2 (M i) (p (i + 1)).1 (p (i + 1)).2 (M (i + 1)) x := by
    intro i hi x a b hr
    have h := hf x hr
    rw [NaturalCubic.segment (by omega) hs hi a b] at h
    simpa only [Rust.ok.injEq, Except.ok.injEq, eq_comm] using h
  have rl := inr ((p (j + 1)).1 - e) (by linarith) (by linarith)
  have rr := inr ((p (j + 1)).1 + e) (by linarith) (by linarith)
  have h := hc ((p (j + 1)).1 - e) ((p (j + 1)).1 + e) (1 / 2) rl rr (by norm_num) (by norm_num)
  rw [show (1 - 1 / 2) * ((p (j + 1)).1 - e) + 1 / 2 * ((p (j + 1)).1 + e) = (p (j + 1)).1 by ring,
    v j (by omega) _ (by linarith) (by linarith) rl, v (j + 1) hj _ (by linarith) (by linarith) rr,
    v j (by omega) (p (j + 1)).1 (by linarith) le_rfl (inr _ (by linarith) (by linarith)),
    cubic_right _ _ _ _ (sub_pos.1 (g0 ▸ h0))] at h
  have key : cubic (p j).1 (p j).2 (M j) (p (j + 1)).1 (p (j + 1)).2 (M (j + 1)) ((p (j + 1)).1 - e) +
      cubic (p (j + 1)).1 (p (j + 1)).2 (M (j + 1)) (p (j + 1 + 1)).1 (p (j + 1 + 1)).2 (M (j + 1 + 1)) ((p (j + 1)).1 + e) -
      2 * (p (j + 1)).2 = e * kink p M j + e ^ 2 * (M (j + 1) - (M (j + 1) - M j) / 6 * (e / gap p j) +
        (M (j + 2) - M (j + 1)) / 6 * (e / gap p (j + 1))) := by
    have x0 : (p j).1 = (p (j + 1)).1 - gap p j := by rw [← g0]; ring
    have x2 : (p (j + 1 + 1)).1 = (p (j + 1)).1 + gap p (j + 1) := by rw [← g1]; ring
    unfold cubic kink chord
    rw [x2, x0]
    have n0 := h0.ne'
    have n1 := h1.ne'
    generalize gap p j = G at *
    generalize gap p (j + 1) = H at *
    simp only [show j + 1 + 1 = j + 2 from rfl, sub_sub_cancel, add_sub_cancel_left]
    field_simp
    ring
  have b1 : e / gap p j ≤ 1 := (div_le_one h0).2 e1
  have b2 : e / gap p (j + 1) ≤ 1 := (div_le_one h1).2 e2
  have b1' : 0 ≤ e / gap p j := by positivity
  have b2' : 0 ≤ e / gap p (j + 1) := by positivity
  have t1 : -((M (j + 1) - M j) / 6 * (e / gap p j)) ≤ |M (j + 1) - M j| := by
    have := neg_abs_le (M (j + 1) - M j)
    have := abs_nonneg (M (j + 1) - M j)
    nlinarith
  have t2 : (M (j + 2) - M (j + 1)) / 6 * (e / gap p (j + 1)) ≤ |M (j + 2) - M (j + 1)| := by
    have := le_abs_self (M (j + 2) - M (j + 1))
    have := abs_nonneg (M (j + 2) - M (j + 1))
    nlinarith
  have t3 := le_abs_self (M (j + 1))
  have t4 : M (j + 1) - (M (j + 1) - M j) / 6 * (e / gap p j) + (M (j + 2) - M (j + 1)) / 6 * (e / gap p (j + 1)) ≤ B := by
    rw [hB]; linarith
  have t5 := mul_le_mul_of_nonneg_left t4 (sq_nonneg e)
  have t6 := mul_le_mul_of_nonneg_left e3 e0.le
  have t7 : 0 < e ^ 2 * B := by positivity
  linarith

/-- **C132 (violated).** However evenly the data bend - all second divided differences between `δ` and `2 δ` for some
positive `δ`, as for the points of any parabola that opens upwards - the natural cubic spline through four or more points
is not convex: its slope falls at the last point but two. -/
theorem C132_refuted_natural_cubic_bent (pts : List (K × K)) (hs : StrictlyIncreasing pts) (h4 : 4 ≤ pts.length) (δ : K)
    (hδ : 0 < δ)
    (hd : ∀ i (hi : i + 2 < pts.length), δ ≤ secondDifference pts i hi ∧ secondDifference pts i hi ≤ 2 * δ) :
    ¬ CurveIsConvex (evaluate (Interpolator.naturalCubic K) pts) (InRange pts) := by
  obtain ⟨n, p, hn, rfl⟩ := exists_tab pts (by rintro rfl; simp at h4)
  simp only [length_tab, getElem_tab, secondDifference] at h4 hd
  obtain ⟨m, rfl⟩ : ∃ m, n = m + 4 := ⟨n - 4, by omega⟩
  have hcv := curvature_nonneg h4 hs hδ.le (fun i hi => hd i (by omega)) (m + 1) (by omega)
  have h0 := gap_pos hs (i := m) (by omega)
  have h1 := gap_pos hs (i := m + 1) (by omega)
  have h2 := gap_pos hs (i := m + 2) (by omega)
  have hl := kink_eq h4 hs (k := m + 1) (by omega)
  rw [if_neg (by omega), if_pos (by omega)] at hl
  have hz := curvature_last (n := m + 4) (by omega) p
  have hp : 0 < curvature (m + 4) p (m + 2) := by
    have hdm := (hd (m + 1) (by omega)).1
    rw [show (p (m + 1 + 2)).1 - (p (m + 1)).1 = gap p (m + 1) + gap p (m + 2) by unfold gap; ring,
      le_div_iff₀ (by linarith)] at hdm
    have hc := sweepC_le (n := m + 4) (p := p) (fun k hk => gap_pos hs hk) m (by omega)
    have hf : lastFactor (m + 4) p ≤ gap p (m + 1) / 6 * (1 / 2) := by
      unfold lastFactor
      rw [show m + 4 - 4 = m by omega]
      unfold bSide
      exact mul_le_mul_of_nonneg_left ((le_abs_self _).trans hc) (by linarith)
    unfold kink at hl
    rw [show m + 4 - 2 = m + 2 by omega, show m + 1 + 2 = m + 4 - 1 by omega, hz, show m + 1 + 1 = m + 2 from rfl] at hl
    have hch : chord p (m + 2) - chord p (m + 1) = ((p (m + 1 + 2)).2 - (p (m + 1 + 1)).2) /
        ((p (m + 1 + 2)).1 - (p (m + 1 + 1)).1) - ((p (m + 1 + 1)).2 - (p (m + 1)).2) /
        ((p (m + 1 + 1)).1 - (p (m + 1)).1) := rfl
    rw [← hch] at hdm
    by_contra hneg
    rw [not_lt] at hneg
    have q1 := mul_le_mul_of_nonneg_left hcv.2 (show 0 ≤ gap p (m + 1) / 6 by linarith)
    have q2 : 0 ≤ ((gap p (m + 1) + gap p (m + 2)) / 3 - lastFactor (m + 4) p) * -curvature (m + 4) p (m + 2) :=
      mul_nonneg (by linarith) (by linarith)
    have q3 := mul_pos h2 hδ
    nlinarith
  refine not_convex_of_kink h4 hs (j := m) (by omega) ?_
  rw [kink_eq h4 hs (by omega), if_pos rfl, if_neg (by omega), show m + 4 - 2 = m + 2 by omega]
  have := mul_pos (bSide_pos hs (k := m) (by omega)) hp
  linarith

/-- The points of the parabola `x²` at 0, 1, 2, 4, 5 once more. -/
example : ¬ CurveIsConvex (evaluate (Interpolator.naturalCubic ℚ) [(0, 0), (1, 1), (2, 4), (4, 16), (5, 25)])
    (InRange [((0 : ℚ), (0 : ℚ)), (1, 1), (2, 4), (4, 16), (5, 25)]) := by
  refine C132_refuted_natural_cubic_bent [(0, 0), (1, 1), (2, 4), (4, 16), (5, 25)]
    (by unfold StrictlyIncreasing; decide +kernel) (by decide) 1 (by norm_num) ?_
  intro i hi
  obtain rfl | rfl | rfl : i = 0 ∨ i = 1 ∨ i = 2 := by simp only [List.length_cons, List.length_nil] at hi; omega
  all_goals norm_num [secondDifference]

end Props
end Qlab
