import Verif.Lemmas.Interpolation
import Mathlib.Tactic.Linarith
import Mathlib.Algebra.Order.Field.Rat
import Mathlib.Tactic.NormNum

/-!
# Index search and linear interpolation (C34, C35, C36)
-/

namespace Qlab.Props

open Spec

/-! ## C34 -/

section C34
variable {V P : Type} [HasX P V]

/-- **C34.** On points sorted by abscissa, index `i` is found exactly when `x` lies in `(x_i, x_{i+1}]`, or `i`
is `0` and `x` is the first abscissa. -/
theorem C34_found_iff [LinearOrder V] (points : List P)
    (hs : points.Pairwise fun p q => HasX.x p ≤ HasX.x q) (x : V) (i : Nat) :
    findIndexAtLeftBoundary points x = .ok i ↔
      (∃ hi : i + 1 < points.length, HasX.x points[i] < x ∧ x ≤ HasX.x points[i + 1]) ∨
      (i = 0 ∧ ∃ h : 0 < points.length, x = HasX.x points[0]) := by
  constructor
  · intro h
    match points, h with
    | p :: ps, h =>
      rcases position_cases hs (by simp) x with hc | hc | ⟨j, hj, hc⟩ | hc
      · rw [findIndex_lower hs hc] at h; cases h
      · right
        have hc' : x = HasX.x p := hc
        subst hc'
        rw [findIndex_first hs] at h
        cases h
        exact ⟨rfl, by simp, rfl⟩
      · rw [findIndex_bracket hs hj hc.1 hc.2] at h
        cases h
        exact Or.inl ⟨hj, hc⟩
      · rw [findIndex_upper hs (by simp) hc] at h; cases h
  · rintro (⟨hi, h1, h2⟩ | ⟨rfl, h, hx⟩)
    · exact findIndex_bracket hs hi h1 h2
    · match points, h, hx with
      | p :: ps, _, hx =>
        have hx' : x = HasX.x p := hx
        subst hx'
        exact findIndex_first hs

/-- **C34.** The lower-bound error is returned exactly below the first abscissa, and carries `x`. -/
theorem C34_lower_iff [LinearOrder V] (points : List P)
    (hs : points.Pairwise fun p q => HasX.x p ≤ HasX.x q) (x z : V) :
    findIndexAtLeftBoundary points x = .error (.outOfLowerBound z) ↔
      z = x ∧ ∃ h : 0 < points.length, x < HasX.x points[0] := by
  constructor
  · intro h
    match points, h with
    | p :: ps, h =>
      rcases position_cases hs (by simp) x with hc | hc | ⟨j, hj, hc⟩ | hc
      · rw [findIndex_lower hs hc] at h; cases h; exact ⟨rfl, by simp, hc⟩
      · have hc' : x = HasX.x p := hc
        subst hc'
        rw [findIndex_first hs] at h; cases h
      · rw [findIndex_bracket hs hj hc.1 hc.2] at h; cases h
      · rw [findIndex_upper hs (by simp) hc] at h; cases h
  · rintro ⟨rfl, h, hx⟩
    match points, h, hx with
    | p :: ps, _, hx => exact findIndex_lower hs hx

/-- **C34.** The upper-bound error is returned exactly above the last abscissa, and carries `x`. -/
theorem C34_upper_iff [LinearOrder V] (points : List P)
    (hs : points.Pairwise fun p q => HasX.x p ≤ HasX.x q) (x z : V) :
    findIndexAtLeftBoundary points x = .error (.outOfUpperBound z) ↔
      z = x ∧ ∃ h : 0 < points.length, HasX.x points[points.length - 1] < x := by
  constructor
  · intro h
    match points, h with
    | p :: ps, h =>
      rcases position_cases hs (by simp) x with hc | hc | ⟨j, hj, hc⟩ | hc
      · rw [findIndex_lower hs hc] at h; cases h
      · have hc' : x = HasX.x p := hc
        subst hc'
        rw [findIndex_first hs] at h; cases h
      · rw [findIndex_bracket hs hj hc.1 hc.2] at h; cases h
      · rw [findIndex_upper hs (by simp) hc] at h; cases h; exact ⟨rfl, by simp, hc⟩
  · rintro ⟨rfl, h, hx⟩
    exact findIndex_upper hs h hx

/-- **C34.** For any value type and any points (sorted or not): the insufficient-points error is returned
exactly on the empty list, with count 0; the order error never; and a found index is in range. -/
theorem C34_any_points [LT V] [DecidableLT V] [LE V] [DecidableLE V] (points : List P) (x : V) :
    (∀ n, findIndexAtLeftBoundary points x = .error (.insufficientPointsError n) ↔ points = [] ∧ n = 0) ∧
    findIndexAtLeftBoundary points x ≠ .error .pointOrderError ∧
    (∀ i, findIndexAtLeftBoundary points x = .ok i → i < points.length) ∧
    (∀ z, (findIndexAtLeftBoundary points x = .error (.outOfLowerBound z) ∨
      findIndexAtLeftBoundary points x = .error (.outOfUpperBound z)) → z = x) := by
  refine ⟨?_, ?_, fun i h => (findIndex_eq_ok h).1, ?_⟩
  · intro n
    unfold findIndexAtLeftBoundary
    cases points with
    | nil => simp [eq_comm]
    | cons p ps => simp only; split_ifs <;> simp
  · unfold findIndexAtLeftBoundary
    cases points with
    | nil => simp
    | cons p ps => simp only; split_ifs <;> simp
  · intro z
    unfold findIndexAtLeftBoundary
    cases points with
    | nil => simp
    | cons p ps =>
      simp only
      split_ifs <;> simp [eq_comm]

/-- On points in no order at all an index that is found is in range. -/
example (i : Nat) (h : findIndexAtLeftBoundary ([⟨3, 0⟩, ⟨1, 0⟩, ⟨2, 5⟩] : List (Point2D ℚ)) (3 / 2) = .ok i) : i < 3 :=
  (C34_any_points _ _).2.2.1 i h

/-- **C34.** An `x` that compares with no point (a NaN) is reported as below the range, whatever the points. -/
theorem C34_unordered [LT V] [DecidableLT V] [LE V] [DecidableLE V] (points : List P) (x : V)
    (hne : points ≠ []) (hlt : ∀ p ∈ points, ¬ HasX.x p < x) (hle : ∀ p ∈ points, ¬ HasX.x p ≤ x) :
    findIndexAtLeftBoundary points x = .error (.outOfLowerBound x) := by
  match points, hne with
  | p :: ps, _ =>
    rw [findIndex_of_cut p ps x 0 (by omega)]
    · rw [if_neg (fun h => hle p (by simp) h.2), if_pos rfl]
    · intro i hi
      have := hlt _ (List.getElem_mem hi)
      simp [this]

/-- **C34.** The two binary searches shipped by the standard library over time agree wherever the result of
`partition_point` is specified, so the search does not depend on the compiler version. -/
theorem C34_std_versions_agree {α : Type} (pred : α → Bool) (l : List α) (k : Nat) (hk : k ≤ l.length)
    (h : ∀ i, (hi : i < l.length) → (pred l[i] = true ↔ i < k)) :
    partitionPoint pred l = k ∧ partitionPointBranchless pred l = k :=
  ⟨partitionPoint_eq pred l k hk h, partitionPointBranchless_eq pred l k hk h⟩

/-- Three points with a repeated abscissa: `2` is found at index 1, `0` is below, `9` above. -/
example : let pts : List (Point2D Nat) := [⟨1, 7⟩, ⟨1, 8⟩, ⟨4, 9⟩]
    pts.Pairwise (fun p q => HasX.x p ≤ HasX.x q) ∧
    findIndexAtLeftBoundary pts 2 = .ok 1 ∧ findIndexAtLeftBoundary pts 1 = .ok 0 ∧
    findIndexAtLeftBoundary pts 0 = .error (.outOfLowerBound 0) ∧
    findIndexAtLeftBoundary pts 9 = .error (.outOfUpperBound 9) := by
  have hs : ([⟨1, 7⟩, ⟨1, 8⟩, ⟨4, 9⟩] : List (Point2D Nat)).Pairwise
      (fun p q => (HasX.x p : Nat) ≤ HasX.x q) := by simp [HasX.x]
  refine ⟨hs, ?_, ?_, ?_, ?_⟩
  · exact (C34_found_iff _ hs 2 1).2 (Or.inl ⟨by simp, by decide, by decide⟩)
  · exact (C34_found_iff _ hs 1 0).2 (Or.inr ⟨rfl, by simp, rfl⟩)
  · exact (C34_lower_iff _ hs 0 0).2 ⟨rfl, by simp, by decide⟩
  · exact (C34_upper_iff _ hs 9 9).2 ⟨rfl, by simp, by decide⟩

/-- A value type with a NaN: a NaN abscissa is reported as below the range. -/
example : findIndexAtLeftBoundary ([⟨.num 1, .num 2⟩, ⟨.num 3, .num 4⟩] : List (Point2D NanNat)) .nan =
    .error (.outOfLowerBound .nan) := by
  apply C34_unordered
  · simp
  · intro p _; generalize (HasX.x p : NanNat) = a; rintro ⟨⟩
  · intro p _; generalize (HasX.x p : NanNat) = a; rintro ⟨⟩

end C34

/-! ## C35 -/

section C35
variable {K : Type} [Field K] [LinearOrder K] [IsStrictOrderedRing K]

omit [IsStrictOrderedRing K] in
/-- **C35.** At a node the value is the node's ordinate. -/
theorem C35_nodes (pts : List (K × K)) (hs : StrictlyIncreasing pts) (h2 : 2 ≤ pts.length) (i : Nat) (x y : K)
    (h : pts[i]? = some (x, y)) : evaluate (Interpolator.linear K) pts x = .ok (.ok y) := by
  obtain ⟨hi, hxy⟩ := List.getElem?_eq_some_iff.1 h
  by_cases hlast : i + 1 < pts.length
  · have hseg : IsSegment pts i x y pts[i + 1].1 pts[i + 1].2 := ⟨h, by simp⟩
    have hle : x ≤ pts[i + 1].1 := by
      have := List.pairwise_iff_getElem.1 hs i (i + 1) hi hlast (by omega)
      rw [hxy] at this; exact le_of_lt this
    have := (linear_segment pts hs i _ _ _ _ x hseg (le_refl _) hle).2
    rw [this]; simp
  · have hii : i - 1 + 1 = i := by omega
    have hi2 : i - 1 < pts.length := by omega
    have hseg : IsSegment pts (i - 1) pts[i - 1].1 pts[i - 1].2 x y :=
      ⟨by simp [hi2], by rw [hii]; exact h⟩
    have hlt : pts[i - 1].1 < x := by
      have := List.pairwise_iff_getElem.1 hs (i - 1) i hi2 hi (by omega)
      rw [hxy] at this; exact this
    have := (linear_segment pts hs (i - 1) _ _ _ _ x hseg (le_of_lt hlt) (le_refl _)).2
    rw [this, div_mul_cancel₀ _ (by intro hc; rw [sub_eq_zero] at hc; rw [hc] at hlt; exact lt_irrefl _ hlt)]
    congr 2; ring

example : evaluate (Interpolator.linear ℚ) [(1, 2), (3, 4), (5, 0)] 3 = .ok (.ok 4) :=
  C35_nodes _ (by unfold StrictlyIncreasing; norm_num) (by simp) 1 3 4 rfl

/-- **C35.** Between two neighbouring nodes the value is the convex combination of their ordinates with the
weights given by the distances; in particular it lies between them. -/
theorem C35_between (pts : List (K × K)) (hs : StrictlyIncreasing pts) (i : Nat) (x₀ y₀ x₁ y₁ x : K)
    (h : IsSegment pts i x₀ y₀ x₁ y₁) (h0 : x₀ ≤ x) (h1 : x ≤ x₁) :
    ∃ v, evaluate (Interpolator.linear K) pts x = .ok (.ok v) ∧
      v * (x₁ - x₀) = y₀ * (x₁ - x) + y₁ * (x - x₀) ∧ min y₀ y₁ ≤ v ∧ v ≤ max y₀ y₁ := by
  obtain ⟨hlt, hv⟩ := linear_segment pts hs i _ _ _ _ x h h0 h1
  refine ⟨_, hv, ?_, ?_, ?_⟩
  · have hne : x₁ - x₀ ≠ 0 := (sub_pos.2 hlt).ne'
    field_simp
    ring
  all_goals
    have hpos : 0 < x₁ - x₀ := sub_pos.2 hlt
    have ht0 : 0 ≤ (x - x₀) / (x₁ - x₀) := div_nonneg (sub_nonneg.2 h0) hpos.le
    have ht1 : (x - x₀) / (x₁ - x₀) ≤ 1 := (div_le_one hpos).2 (by linarith)
    have he : (y₁ - y₀) / (x₁ - x₀) * (x - x₀) = (y₁ - y₀) * ((x - x₀) / (x₁ - x₀)) := by ring
    rw [he]
    generalize (x - x₀) / (x₁ - x₀) = t at *
  · rcases le_total y₀ y₁ with hy | hy
    · rw [min_eq_left hy]; nlinarith [mul_nonneg (sub_nonneg.2 hy) ht0]
    · rw [min_eq_right hy]; nlinarith [mul_nonneg (sub_nonneg.2 hy) (sub_nonneg.2 ht1)]
  · rcases le_total y₀ y₁ with hy | hy
    · rw [max_eq_right hy]; nlinarith [mul_nonneg (sub_nonneg.2 hy) (sub_nonneg.2 ht1)]
    · rw [max_eq_left hy]; nlinarith [mul_nonneg (sub_nonneg.2 hy) ht0]

/-- **C35.** Exact on affine data: if all nodes lie on `a*x + b`, so does every value in the range. -/
theorem C35_affine (pts : List (K × K)) (hs : StrictlyIncreasing pts) (h2 : 2 ≤ pts.length) (a b : K)
    (hab : ∀ p ∈ pts, p.2 = a * p.1 + b) (x : K) (hb : ¬ BelowAll pts x) (ha : ¬ AboveAll pts x) :
    evaluate (Interpolator.linear K) pts x = .ok (.ok (a * x + b)) := by
  obtain ⟨i, x₀, y₀, x₁, y₁, hseg, h0, h1⟩ := exists_segment pts hs h2 x hb ha
  obtain ⟨hlt, hv⟩ := linear_segment pts hs i _ _ _ _ x hseg h0 h1
  have e0 := hab _ (List.mem_of_getElem? hseg.1)
  have e1 := hab _ (List.mem_of_getElem? hseg.2)
  simp only at e0 e1
  have hne : x₁ - x₀ ≠ 0 := (sub_pos.2 hlt).ne'
  rw [hv, e0, e1]
  congr 2
  field_simp
  ring

example : evaluate (Interpolator.linear ℚ) [(1, 2), (3, 6), (5, 10)] 4 = .ok (.ok (2 * 4 + 0)) :=
  C35_affine _ (by unfold StrictlyIncreasing; norm_num) (by simp) 2 0 (by simp; norm_num) 4
    (fun h => absurd (h (1, 2) (by simp)) (by norm_num [HasX.x])) (fun h => absurd (h (5, 10) (by simp)) (by norm_num [HasX.x]))

omit [IsStrictOrderedRing K] in
/-- **C35.** The value is defined exactly on the range: outside, the bound error is returned. -/
theorem C35_domain (pts : List (K × K)) (hs : StrictlyIncreasing pts) (h2 : 2 ≤ pts.length) (x : K) :
    (BelowAll pts x → evaluate (Interpolator.linear K) pts x = .ok (.error (.outOfLowerBound x))) ∧
    (AboveAll pts x → evaluate (Interpolator.linear K) pts x = .ok (.error (.outOfUpperBound x))) ∧
    (¬ BelowAll pts x → ¬ AboveAll pts x → ∃ v, evaluate (Interpolator.linear K) pts x = .ok (.ok v)) := by
  have hs' : (pts.map fun p => (⟨p.1, p.2⟩ : Point2D K)).Pairwise
      fun p q => (HasX.x p : K) ≤ HasX.x q := pairwise_map_point.2 (hs.imp le_of_lt)
  refine ⟨fun hb => ?_, fun ha => ?_, fun hb ha => ?_⟩
  · rw [evaluate_linear]
    unfold Linear.tryValue
    have := (C34_lower_iff _ hs' x x).2 ⟨rfl, by simp; omega, by
      simp only [List.getElem_map]
      exact hb _ (List.getElem_mem (by omega))⟩
    simp only [this]
  · rw [evaluate_linear]
    unfold Linear.tryValue
    have := (C34_upper_iff _ hs' x x).2 ⟨rfl, by simp; omega, by
      simp only [List.getElem_map]
      exact ha _ (List.getElem_mem (by simp; omega))⟩
    simp only [this]
  · obtain ⟨i, x₀, y₀, x₁, y₁, hseg, h0, h1⟩ := exists_segment pts hs h2 x hb ha
    exact ⟨_, (linear_segment pts hs i _ _ _ _ x hseg h0 h1).2⟩

example : evaluate (Interpolator.linear ℚ) [(1, 2), (3, 4), (5, 0)] 0 = .ok (.error (.outOfLowerBound 0)) :=
  (C35_domain _ (by unfold StrictlyIncreasing; norm_num) (by simp) 0).1 (by simp [BelowAll])

/-- **C35.** Monotone data give a monotone interpolant. -/
theorem C35_monotone (pts : List (K × K)) (hs : StrictlyIncreasing pts) (h2 : 2 ≤ pts.length)
    (hm : pts.Pairwise fun p q => p.2 ≤ q.2) (x z u v : K) (hxz : x ≤ z)
    (hx : evaluate (Interpolator.linear K) pts x = .ok (.ok u))
    (hz : evaluate (Interpolator.linear K) pts z = .ok (.ok v)) : u ≤ v := by
  have dom : ∀ t w, evaluate (Interpolator.linear K) pts t = .ok (.ok w) → ¬ BelowAll pts t ∧ ¬ AboveAll pts t := by
    intro t w h
    constructor
    · intro hb; rw [(C35_domain pts hs h2 t).1 hb] at h; cases h
    · intro ha; rw [(C35_domain pts hs h2 t).2.1 ha] at h; cases h
  obtain ⟨i, a₀, b₀, a₁, b₁, hi, hi0, hi1⟩ := exists_segment pts hs h2 x (dom x u hx).1 (dom x u hx).2
  obtain ⟨j, c₀, d₀, c₁, d₁, hj, hj0, hj1⟩ := exists_segment pts hs h2 z (dom z v hz).1 (dom z v hz).2
  obtain ⟨u', hu', -, hul, huu⟩ := C35_between pts hs i _ _ _ _ x hi hi0 hi1
  obtain ⟨v', hv', -, hvl, hvu⟩ := C35_between pts hs j _ _ _ _ z hj hj0 hj1
  rw [hu'] at hx; cases hx
  rw [hv'] at hz; cases hz
  obtain ⟨li0, ei0⟩ := List.getElem?_eq_some_iff.1 hi.1
  obtain ⟨li1, ei1⟩ := List.getElem?_eq_some_iff.1 hi.2
  obtain ⟨lj0, ej0⟩ := List.getElem?_eq_some_iff.1 hj.1
  obtain ⟨lj1, ej1⟩ := List.getElem?_eq_some_iff.1 hj.2
  have pw := List.pairwise_iff_getElem.1 hs
  have mw := List.pairwise_iff_getElem.1 hm
  have hb01 : b₀ ≤ b₁ := by have := mw i (i + 1) li0 li1 (by omega); rw [ei0, ei1] at this; exact this
  have hd01 : d₀ ≤ d₁ := by have := mw j (j + 1) lj0 lj1 (by omega); rw [ej0, ej1] at this; exact this
  rw [min_eq_left hb01] at hul
  rw [max_eq_right hb01] at huu
  rw [min_eq_left hd01] at hvl
  rw [max_eq_right hd01] at hvu
  rcases Nat.lt_trichotomy i j with hij | hij | hij
  · -- different segments, in order
    have : b₁ ≤ d₀ := by
      rcases Nat.lt_or_ge (i + 1) j with h | h
      · have := mw (i + 1) j li1 lj0 h; rw [ei1, ej0] at this; exact this
      · have : j = i + 1 := by omega
        subst this
        rw [ei1] at ej0; cases ej0; exact le_refl _
    exact le_trans huu (le_trans this hvl)
  · subst hij
    rw [ei0] at ej0; cases ej0
    rw [ei1] at ej1; cases ej1
    obtain ⟨hlt, hu2⟩ := linear_segment pts hs i _ _ _ _ x hi hi0 hi1
    obtain ⟨-, hv2⟩ := linear_segment pts hs i _ _ _ _ z hi hj0 hj1
    rw [hu'] at hu2; cases hu2
    rw [hv'] at hv2; cases hv2
    have hk : 0 ≤ (b₁ - b₀) / (a₁ - a₀) := div_nonneg (sub_nonneg.2 hb01) (sub_pos.2 hlt).le
    have := mul_le_mul_of_nonneg_left (sub_le_sub_right hxz a₀) hk
    linarith
  · -- `z` lies in an earlier segment, so both are the shared node
    have hca : c₁ ≤ a₀ := by
      rcases Nat.lt_or_ge (j + 1) i with h | h
      · have := pw (j + 1) i lj1 li0 h; rw [ej1, ei0] at this; exact le_of_lt this
      · have : i = j + 1 := by omega
        subst this
        rw [ej1] at ei0; cases ei0; exact le_refl _
    have hxz' : x = z := le_antisymm hxz (le_trans hj1 (le_trans hca hi0))
    subst hxz'
    rw [hu'] at hv'; cases hv'; exact le_refl _

/-- Three strictly increasing nodes; the documentation example: the value at 2 between (1,2) and (3,4) is 3. -/
example : StrictlyIncreasing ([(1, 2), (3, 4), (5, 0)] : List (ℚ × ℚ)) ∧
    evaluate (Interpolator.linear ℚ) [(1, 2), (3, 4), (5, 0)] 2 = .ok (.ok 3) := by
  have hs : StrictlyIncreasing ([(1, 2), (3, 4), (5, 0)] : List (ℚ × ℚ)) := by
    unfold StrictlyIncreasing; norm_num
  refine ⟨hs, ?_⟩
  have := (linear_segment _ hs 0 1 2 3 4 2 ⟨rfl, rfl⟩ (by norm_num) (by norm_num)).2
  rw [this]; norm_num

end C35

/-! ## C36 -/

section C36

/-- **C36 (violated).** A single point evaluated at its own abscissa panics, for every value type in which
`x ≤ x` and not `x < x`. -/
theorem C36_refuted_panic : ∃ (pts : List (ℚ × ℚ)) (x : ℚ), evaluate (Interpolator.linear ℚ) pts x = .panic := by
  refine ⟨[(1, 2)], 1, ?_⟩
  rw [evaluate_linear]
  unfold Linear.tryValue
  have : findIndexAtLeftBoundary ([⟨1, 2⟩] : List (Point2D ℚ)) 1 = .ok 0 :=
    findIndex_first (p := (⟨1, 2⟩ : Point2D ℚ)) (by simp)
  simp only [List.map, this]
  rfl

/-- **C36 (violated).** The documentation promises the last ordinate beyond the last point; on every strictly
increasing node list an error is returned there instead. -/
theorem C36_refuted_flat_extrapolation {K : Type} [Field K] [LinearOrder K] [IsStrictOrderedRing K]
    (pts : List (K × K)) (hs : StrictlyIncreasing pts) (h2 : 2 ≤ pts.length) (x : K) (ha : AboveAll pts x) :
    evaluate (Interpolator.linear K) pts x = .ok (.error (.outOfUpperBound x)) :=
  (C35_domain pts hs h2 x).2.1 ha

example : evaluate (Interpolator.linear ℚ) [(1, 2), (3, 4), (5, 0)] 6 = .ok (.error (.outOfUpperBound 6)) :=
  C36_refuted_flat_extrapolation _ (by unfold StrictlyIncreasing; norm_num) (by simp) 6
    (by simp [AboveAll]; norm_num)

/-- **C36.** `try_fit` accepts every input, and evaluation panics exactly when there is a single point and `x`
is equal to its abscissa (`x₀ ≤ x` and not `x₀ < x`), for every value type including floats; otherwise a value
or an error is returned.  Missing for the full property: an error instead of that panic, and flat
extrapolation. -/
theorem C36_panic_iff_partial {V : Type} [Add V] [Sub V] [Mul V] [Div V] [LT V] [DecidableLT V] [LE V]
    [DecidableLE V] (pts : List (V × V)) (x : V) :
    (∃ s, (Interpolator.linear V).tryFit (Interpolator.linear V).default pts = .ok (.ok s)) ∧
    (evaluate (Interpolator.linear V) pts x = .panic ↔
      ∃ p, pts = [p] ∧ p.1 ≤ x ∧ ¬ p.1 < x) := by
  refine ⟨⟨_, rfl⟩, ?_⟩
  rw [evaluate_linear]
  unfold Linear.tryValue
  constructor
  · intro h
    split at h
    · cases h
    · rename_i pos hf
      obtain ⟨h1, h2⟩ := findIndex_eq_ok hf
      rcases h2 with h2 | ⟨rfl, hl, p, hp, hp1, hp2⟩
      · rw [Rust.index_of_lt h1, Rust.index_of_lt h2] at h
        cases h
      · match pts, hp with
        | [q], hp =>
          simp only [List.map, List.cons.injEq, and_true] at hp
          subst hp
          exact ⟨q, rfl, hp1, hp2⟩
  · rintro ⟨p, rfl, hp1, hp2⟩
    have : findIndexAtLeftBoundary ([⟨p.1, p.2⟩] : List (Point2D V)) x = .ok 0 := by
      rw [findIndex_of_cut _ _ x 0 (by omega)]
      · rw [if_pos ⟨rfl, hp1⟩]
      · intro i hi
        have : i = 0 := by simp at hi; omega
        subst this
        simp only [List.getElem_cons_zero, decide_eq_true_eq, Nat.lt_irrefl, iff_false]
        exact hp2
    simp only [List.map, this]
    rfl

/-- Two points, evaluated anywhere, never panic: here on integers with truncating division. -/
example : evaluate (Interpolator.linear Int) [(0, 0), (2, 4)] 5 = .ok (.error (.outOfUpperBound 5)) ∧
    evaluate (Interpolator.linear Int) [(0, 0), (2, 4)] 1 = .ok (.ok 2) ∧
    evaluate (Interpolator.linear Int) [(3, 0)] 3 = .panic ∧
    evaluate (Interpolator.linear Int) [] 3 = .ok (.error (.insufficientPointsError 0)) := by
  decide +kernel

end C36

end Qlab.Props
