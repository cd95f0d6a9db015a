import Verif.Lemmas.NaturalCubic
import Verif.Spec.Smooth
import Mathlib.Tactic.NormNum

/-!
# Spline construction (C39, C57) and the natural cubic spline (C40, C41)
-/

namespace Qlab.Props

open Spec

/-! ## C39 -/

/-- **C39.** `CatmullRom::try_fit` in all cases: too few points, decreasing abscissae, success with the points
kept in order.  It never panics.  Any value type, floats included. -/
theorem C39_catmull_rom {V : Type} [LT V] [DecidableLT V] (hirr : ∀ a : V, ¬ a < a) (s : CatmullRom V)
    (pts : List (V × V)) :
    (pts.length < 3 → s.tryFit pts = .ok (.error (.insufficientPointsError pts.length))) ∧
    (3 ≤ pts.length → ¬ NeverDecreasing pts → s.tryFit pts = .ok (.error .pointOrderError)) ∧
    (3 ≤ pts.length → NeverDecreasing pts →
      ∃ t, s.tryFit pts = .ok (.ok t) ∧ t.points.map (fun p => (p.x, p.y)) = pts) := by
  unfold CatmullRom.tryFit
  refine ⟨fun h => by rw [if_pos h], fun h hd => ?_, fun h hd => ?_⟩
  all_goals
    rw [if_neg (by omega)]
    match pts, h, hd with
    | p :: ps, h, hd =>
      obtain ⟨h1, h2⟩ := CatmullRom.collect_eq p.1 p.2 (p :: ps)
      rw [neverDecreasing_cons_self' _ _ (hirr _)] at h1 h2
      simp only [Rust.index_of_lt (l := p :: ps) (i := 0) (by simp), List.getElem_cons_zero, Rust.ok_bind]
      first
        | simp [h2 hd]
        | simp [h1 hd, Function.comp_def]

/-- **C39.** `NaturalCubic::try_fit` in all cases.  It never panics as long as 3 and 6 can be cast.  Any value
type, floats included. -/
theorem C39_natural_cubic {V : Type} [Zero V] [One V] [Neg V] [Add V] [Sub V] [Mul V] [Div V] [FromInt V] [LT V]
    [DecidableLT V] (hirr : ∀ a : V, ¬ a < a) (hc : ∀ n : Int, (FromInt.fromInt (V := V) n).isSome)
    (s : NaturalCubic V) (pts : List (V × V)) :
    (pts.length < 3 → s.tryFit pts = .ok (.error (.insufficientPointsError pts.length))) ∧
    (3 ≤ pts.length → ¬ NeverDecreasing pts → s.tryFit pts = .ok (.error .pointOrderError)) ∧
    (3 ≤ pts.length → NeverDecreasing pts →
      ∃ t, s.tryFit pts = .ok (.ok t) ∧ t.points.map (fun p => (p.coordinate.x, p.coordinate.y)) = pts) := by
  have cast : ∀ n : Int, ∃ v, fromI8 V n = .ok v := by
    intro n
    obtain ⟨v, hv⟩ := Option.isSome_iff_exists.1 (hc n)
    exact ⟨v, by unfold fromI8; rw [hv]; rfl⟩
  obtain ⟨six, h6⟩ := cast 6
  obtain ⟨three, h3⟩ := cast 3
  refine ⟨fun h => by unfold NaturalCubic.tryFit; rw [if_pos h], fun h hd => ?_, fun h hd => ?_⟩
  · obtain ⟨n, p, hn, rfl⟩ := exists_tab pts (by intro hc; simp [hc] at h)
    exact (NaturalCubic.tryFit_cases hirr h6 h3 (by omega) p s).2 hd
  · obtain ⟨n, p, hn, rfl⟩ := exists_tab pts (by intro hc; simp [hc] at h)
    refine ⟨_, (NaturalCubic.tryFit_cases hirr h6 h3 (by omega) p s).1 hd, ?_⟩
    simp [tab, Point2DWithSlope.new]

/-- Three increasing points are accepted, a decreasing one is rejected; also with a NaN, which compares false. -/
example : NeverDecreasing ([(0, 1), (1, 2), (3, 0)] : List (ℚ × ℚ)) ∧
    ¬ NeverDecreasing ([(0, 1), (2, 2), (1, 0)] : List (ℚ × ℚ)) ∧
    NeverDecreasing [(NanNat.num 3, 0), (NanNat.nan, 1), (NanNat.num 1, 2)] ∧ (∀ a : NanNat, ¬ a < a) := by
  refine ⟨by unfold NeverDecreasing; norm_num, by unfold NeverDecreasing; norm_num, ?_, ?_⟩
  · unfold NeverDecreasing
    refine List.isChain_cons_cons.2 ⟨?_, List.isChain_cons_cons.2 ⟨?_, by simp⟩⟩ <;> rintro ⟨⟩
  · rintro a ⟨h⟩; omega

/-! ## C57 -/

/-- **C57 (violated).** `Hermite::try_new` panics on an empty slice, for every value type. -/
theorem C57_refuted {V : Type} [Zero V] [One V] [Neg V] [FromInt V] [LT V] [DecidableLT V] :
    Hermite.tryNew ([] : List (V × V × V)) = .panic := rfl

/-- **C57.** That is the only panic, as long as casts succeed.  Missing for the full property: an error for the
empty slice. -/
theorem C57_panics_iff_partial {V : Type} [Zero V] [One V] [Neg V] [FromInt V] [LT V] [DecidableLT V]
    (hc : ∀ n : Int, (FromInt.fromInt (V := V) n).isSome) (pts : List (V × V × V)) :
    Hermite.tryNew pts = .panic ↔ pts = [] := by
  have cast : ∀ n : Int, ∃ v, fromI8 V n = .ok v := by
    intro n
    obtain ⟨v, hv⟩ := Option.isSome_iff_exists.1 (hc n)
    exact ⟨v, by unfold fromI8; rw [hv]; rfl⟩
  obtain ⟨a, ha⟩ := cast 2
  obtain ⟨b, hb⟩ := cast (-2)
  obtain ⟨c, hc'⟩ := cast (-3)
  obtain ⟨d, hd⟩ := cast 3
  match pts with
  | [] => exact ⟨fun _ => rfl, fun _ => rfl⟩
  | p :: ps =>
    unfold Hermite.tryNew
    simp only [Rust.index_of_lt (l := p :: ps) (i := 0) (by simp), List.getElem_cons_zero, Rust.ok_bind]
    cases Hermite.collect p.1 (p :: ps) <;> simp [ha, hb, hc', hd]

example := C57_panics_iff_partial (V := ℚ) (fun _ => rfl) [(0, 1, 2), (1, 7, 0), (1, 2, 0)]

/-! ## C40 -/

section C40
variable {K : Type} [Field K] [LinearOrder K] [FromInt K] [ExactCast K]

/-- **C40.** At every node the value is the node's ordinate. -/
theorem C40_nodes (pts : List (K × K)) (hs : StrictlyIncreasing pts) (h3 : 3 ≤ pts.length) (x y : K)
    (h : (x, y) ∈ pts) : evaluate (Interpolator.naturalCubic K) pts x = .ok (.ok y) := by
  obtain ⟨n, p, hn, rfl⟩ := exists_tab pts (by intro hc; simp [hc] at h3)
  obtain ⟨i, hi, he⟩ := List.getElem_of_mem h
  rw [getElem_tab] at he
  simp only [length_tab] at hi h3
  rw [show x = (p i).1 by rw [he], show y = (p i).2 by rw [he]]
  by_cases hlast : i + 1 < n
  · have hlt := NaturalCubic.strict_tab hs (Nat.lt_succ_self i) hlast
    rw [NaturalCubic.segment h3 hs hlast (le_refl _) (le_of_lt hlt), NaturalCubic.cubic_left _ _ _ _ hlt]
  · obtain ⟨j, rfl⟩ : ∃ j, i = j + 1 := ⟨i - 1, by omega⟩
    have hlt := NaturalCubic.strict_tab hs (Nat.lt_succ_self j) hi
    rw [NaturalCubic.segment h3 hs hi (le_of_lt hlt) (le_refl _), NaturalCubic.cubic_right _ _ _ _ hlt]

example : evaluate (Interpolator.naturalCubic ℚ) [(0, 1), (1, 7), (3, 2)] 3 = .ok (.ok 2) :=
  C40_nodes _ (by unfold StrictlyIncreasing; norm_num) (by simp) 3 2 (by simp)

/-- **C40.** Evaluation fails exactly outside the range, with the bound error carrying `x`. -/
theorem C40_domain (pts : List (K × K)) (hs : StrictlyIncreasing pts) (h3 : 3 ≤ pts.length) (x : K) :
    (BelowAll pts x → evaluate (Interpolator.naturalCubic K) pts x = .ok (.error (.outOfLowerBound x))) ∧
    (AboveAll pts x → evaluate (Interpolator.naturalCubic K) pts x = .ok (.error (.outOfUpperBound x))) ∧
    (InRange pts x → ∃ v, evaluate (Interpolator.naturalCubic K) pts x = .ok (.ok v)) := by
  have hx := exists_bracket_raw hs (by omega) (x := x)
  obtain ⟨n, p, hn, rfl⟩ := exists_tab pts (by intro hc; simp [hc] at h3)
  simp only [length_tab] at h3
  refine ⟨(NaturalCubic.outside h3 hs x).1, (NaturalCubic.outside h3 hs x).2, fun h => ?_⟩
  obtain ⟨i, hi, h0, h1⟩ := hx h
  simp only [getElem_tab, length_tab] at h0 h1 hi
  exact ⟨_, NaturalCubic.segment h3 hs hi h0 h1⟩

example : evaluate (Interpolator.naturalCubic ℚ) [(0, 1), (1, 7), (3, 2)] 4 = .ok (.error (.outOfUpperBound 4)) :=
  (C40_domain _ (by unfold StrictlyIncreasing; norm_num) (by simp) 4).2.1 (by simp [AboveAll]; norm_num)

end C40

/-- The evaluated curve as a function on the reals (0 where nothing is returned). -/
noncomputable def naturalCurve (pts : List (ℝ × ℝ)) (x : ℝ) : ℝ :=
  match evaluate (Interpolator.naturalCubic ℝ) pts x with
  | .ok (.ok v) => v
  | _ => 0

theorem naturalCurve_segment {n : Nat} (hn : 3 ≤ n) {p : Nat → ℝ × ℝ} (hs : StrictlyIncreasing (tab n p)) {i : Nat}
    (hi : i + 1 < n) {x : ℝ} (hx : x ∈ Set.Icc (p i).1 (p (i + 1)).1) :
    naturalCurve (tab n p) x = NaturalCubic.cubic (p i).1 (p i).2 (NaturalCubic.curvature n p i)
      (p (i + 1)).1 (p (i + 1)).2 (NaturalCubic.curvature n p (i + 1)) x := by
  simp only [naturalCurve, NaturalCubic.segment hn hs hi hx.1 hx.2]

/-- **C40.** The curve is continuous on the whole range. -/
theorem C40_continuous (pts : List (ℝ × ℝ)) (hs : StrictlyIncreasing pts) (h3 : 3 ≤ pts.length) :
    ContinuousOn (naturalCurve pts) {x | InRange pts x} := by
  obtain ⟨n, p, hn, rfl⟩ := exists_tab pts (by intro hc; simp [hc] at h3)
  simp only [length_tab] at h3
  refine continuousOn_of_segments hs (by simpa using (by omega : 2 ≤ n)) _
    (fun i _ => NaturalCubic.cubic (p i).1 (p i).2 (NaturalCubic.curvature n p i)
      (p (i + 1)).1 (p (i + 1)).2 (NaturalCubic.curvature n p (i + 1)))
    (fun i _ => NaturalCubic.cubic_continuous _ _ _ _ _ _) ?_
  intro i hi x hx
  simp only [getElem_tab, length_tab] at hx hi
  exact naturalCurve_segment h3 hs hi hx

example := C40_continuous [(0, 1), (1, 7), (3, 2)] (by unfold StrictlyIncreasing; norm_num) (by simp)

theorem naturalCurve_second {n : Nat} (hn : 3 ≤ n) {p : Nat → ℝ × ℝ} (hs : StrictlyIncreasing (tab n p)) {i : Nat}
    (hi : i + 1 < n) : HasSecondDerivOn (naturalCurve (tab n p))
      (fun x => ((p (i + 1)).1 - x) / ((p (i + 1)).1 - (p i).1) * NaturalCubic.curvature n p i +
        (x - (p i).1) / ((p (i + 1)).1 - (p i).1) * NaturalCubic.curvature n p (i + 1))
      (Set.Icc (p i).1 (p (i + 1)).1) := by
  refine ⟨NaturalCubic.cubicSlope (p i).1 (p i).2 (NaturalCubic.curvature n p i)
      (p (i + 1)).1 (p (i + 1)).2 (NaturalCubic.curvature n p (i + 1)), fun x hx =>
    ⟨?_, (NaturalCubic.cubicSlope_hasDerivAt _ _ _ _ _ _ x).hasDerivWithinAt⟩⟩
  exact (NaturalCubic.cubic_hasDerivAt _ _ _ _ _ _ x).hasDerivWithinAt.congr
    (fun z hz => naturalCurve_segment hn hs hi hz) (naturalCurve_segment hn hs hi hx)

/-- **C40.** On every segment the curve has a second derivative, which is linear in `x`; its values `M` at the
nodes are shared by neighbouring segments, so the second derivative is continuous, and it is zero at both ends. -/
theorem C40_second_derivative (pts : List (ℝ × ℝ)) (hs : StrictlyIncreasing pts) (h3 : 3 ≤ pts.length) :
    ∃ M : Nat → ℝ, M 0 = 0 ∧ M (pts.length - 1) = 0 ∧
      ∀ i, (hi : i + 1 < pts.length) → HasSecondDerivOn (naturalCurve pts)
        (fun x => (pts[i + 1].1 - x) / (pts[i + 1].1 - pts[i].1) * M i +
          (x - pts[i].1) / (pts[i + 1].1 - pts[i].1) * M (i + 1)) (Set.Icc pts[i].1 pts[i + 1].1) := by
  obtain ⟨n, p, hn, rfl⟩ := exists_tab pts (by intro hc; simp [hc] at h3)
  simp only [length_tab, getElem_tab] at h3 ⊢
  exact ⟨NaturalCubic.curvature n p, NaturalCubic.curvature_zero n p, NaturalCubic.curvature_last h3 p,
    fun i hi => naturalCurve_second h3 hs hi⟩

example := C40_second_derivative [(0, 1), (1, 7), (3, 2)] (by unfold StrictlyIncreasing; norm_num) (by simp)

/-! ## C41 -/

/-- Differentiability at an interior node is the absence of a kink. -/
theorem naturalCurve_differentiable {n : Nat} (hn : 3 ≤ n) {p : Nat → ℝ × ℝ} (hs : StrictlyIncreasing (tab n p))
    {j : Nat} (hj : j + 2 < n) : DifferentiableAt ℝ (naturalCurve (tab n p)) (p (j + 1)).1 ↔
      NaturalCubic.kink p (NaturalCubic.curvature n p) j = 0 := by
  have h0 := NaturalCubic.strict_tab hs (Nat.lt_succ_self j) (show j + 1 < n by omega)
  have h1 := NaturalCubic.strict_tab hs (Nat.lt_succ_self (j + 1)) (show j + 2 < n by omega)
  have hl : HasDerivWithinAt (naturalCurve (tab n p)) _ (Set.Icc (p j).1 (p (j + 1)).1) (p (j + 1)).1 :=
    (NaturalCubic.cubic_hasDerivAt _ _ _ _ _ _ (p (j + 1)).1).hasDerivWithinAt.congr
      (fun z hz => naturalCurve_segment hn hs (by omega) hz)
      (naturalCurve_segment hn hs (by omega) ⟨le_of_lt h0, le_refl _⟩)
  have hr : HasDerivWithinAt (naturalCurve (tab n p)) _ (Set.Icc (p (j + 1)).1 (p (j + 2)).1) (p (j + 1)).1 :=
    (NaturalCubic.cubic_hasDerivAt _ _ _ _ _ _ (p (j + 1)).1).hasDerivWithinAt.congr
      (fun z hz => naturalCurve_segment hn hs (by omega) hz)
      (naturalCurve_segment hn hs (by omega) ⟨le_refl _, le_of_lt h1⟩)
  rw [NaturalCubic.kink_slopes p _ j (sub_ne_zero.2 (ne_of_gt h0)) (sub_ne_zero.2 (ne_of_gt h1)), sub_eq_zero]
  constructor
  · intro hd
    have e1 := (uniqueDiffOn_Icc h0 _ ⟨le_of_lt h0, le_refl _⟩).eq_deriv _ hd.hasDerivAt.hasDerivWithinAt hl
    have e2 := (uniqueDiffOn_Icc h1 _ ⟨le_refl _, le_of_lt h1⟩).eq_deriv _ hd.hasDerivAt.hasDerivWithinAt hr
    rw [← e1, ← e2]
  · intro he
    rw [he] at hr
    have := hasDerivWithinAt_glue (lo := (p j).1) (hi := (p (j + 2)).1) (fun _ => ⟨_, h0, hl⟩) (fun _ => ⟨_, h1, hr⟩)
    exact (this.hasDerivAt (Icc_mem_nhds h0 h1)).differentiableAt

/-- **C41.** Four points or more: the curve is differentiable at every interior node except possibly the last
two, and differentiable at those exactly when its second derivative vanishes at the last interior node.
Missing for the full property: differentiability at the last two interior nodes. -/
theorem C41_smooth_iff_partial (pts : List (ℝ × ℝ)) (hs : StrictlyIncreasing pts) (n : Nat)
    (hn : pts.length = n + 4) :
    (∀ j, (hj : j < n) → DifferentiableAt ℝ (naturalCurve pts) pts[j + 1].1) ∧
    ∃ m : ℝ, (∃ g, HasSecondDerivOn (naturalCurve pts) g (Set.Icc pts[n + 2].1 pts[n + 3].1) ∧ g pts[n + 2].1 = m) ∧
      (DifferentiableAt ℝ (naturalCurve pts) pts[n + 1].1 ↔ m = 0) ∧
      (DifferentiableAt ℝ (naturalCurve pts) pts[n + 2].1 ↔ m = 0) := by
  obtain ⟨n', p, hn', rfl⟩ := exists_tab pts (by intro hc; simp [hc] at hn)
  simp only [length_tab] at hn
  subst hn
  simp only [getElem_tab]
  have key : ∀ j, j < n + 2 → _ := fun j (hj : j < n + 2) =>
    naturalCurve_differentiable (p := p) (show 3 ≤ n + 4 by omega) hs (show j + 2 < n + 4 by omega)
  have hk : ∀ j, j < n + 2 → _ := fun j (hj : j < n + 2) =>
    NaturalCubic.kink_eq (n := n + 4) (by omega) hs (k := j) (by omega)
  refine ⟨fun j hj => ?_, NaturalCubic.curvature (n + 4) p (n + 2), ⟨_, naturalCurve_second (by omega) hs
    (show n + 2 + 1 < n + 4 by omega), ?_⟩, ?_, ?_⟩
  · rw [key j (by omega), hk j (by omega), if_neg (by omega), if_neg (by omega), add_zero]
  · have h1 := NaturalCubic.strict_tab hs (Nat.lt_succ_self (n + 2)) (show n + 3 < n + 4 by omega)
    have hne : (p (n + 2 + 1)).1 - (p (n + 2)).1 ≠ 0 := sub_ne_zero.2 (ne_of_gt h1)
    simp only [sub_self, zero_div, zero_mul, add_zero, div_self hne, one_mul]
  · rw [key n (by omega), hk n (by omega), if_pos rfl, if_neg (by omega), add_zero, neg_eq_zero,
      show n + 4 - 2 = n + 2 by omega, mul_eq_zero]
    have := NaturalCubic.bSide_pos hs (k := n) (by omega)
    constructor
    · rintro (h | h)
      · exact absurd h (ne_of_gt this)
      · exact h
    · exact Or.inr
  · rw [key (n + 1) (by omega), hk (n + 1) (by omega), if_neg (by omega), if_pos (by omega), zero_add, neg_eq_zero,
      show n + 4 - 2 = n + 2 by omega, mul_eq_zero]
    have := NaturalCubic.lastFactor_pos (n := n + 4) (by omega) hs
    constructor
    · rintro (h | h)
      · exact absurd h (ne_of_gt this)
      · exact h
    · exact Or.inr

example := C41_smooth_iff_partial [(0, 1), (1, 7), (3, 2), (4, 4), (6, 0)] (by unfold StrictlyIncreasing; norm_num) 1 rfl

/-- **C41.** Three points: differentiable at the middle node exactly when the last ordinate is zero.  Missing
for the full property: all other data. -/
theorem C41_three_points_iff_partial (x₀ y₀ x₁ y₁ x₂ y₂ : ℝ) (h0 : x₀ < x₁) (h1 : x₁ < x₂) :
    DifferentiableAt ℝ (naturalCurve [(x₀, y₀), (x₁, y₁), (x₂, y₂)]) x₁ ↔ y₂ = 0 := by
  let p : Nat → ℝ × ℝ := fun i => if i = 0 then (x₀, y₀) else if i = 1 then (x₁, y₁) else (x₂, y₂)
  have hs : StrictlyIncreasing (tab 3 p) := by
    unfold StrictlyIncreasing
    simp [tab, p, List.range_succ, h0, h1, lt_trans h0 h1]
  have he : tab 3 p = [(x₀, y₀), (x₁, y₁), (x₂, y₂)] := by simp [tab, p, List.range_succ]
  have := naturalCurve_differentiable (le_refl 3) hs (show 0 + 2 < 3 by omega)
  rw [he, NaturalCubic.kink_three hs] at this
  rw [show (p (0 + 1)).1 = x₁ by simp [p], show (p 2).2 = y₂ by simp [p], div_eq_zero_iff] at this
  rw [this]
  have hg := NaturalCubic.gap_pos hs (i := 1) (by omega)
  constructor
  · rintro (h | h)
    · exact h
    · exact absurd h (ne_of_gt hg)
  · exact Or.inl

example : ¬ DifferentiableAt ℝ (naturalCurve [(0, 1), (1, 7), (3, 2)]) 1 :=
  fun h => absurd ((C41_three_points_iff_partial _ _ _ _ _ _ (by norm_num) (by norm_num)).1 h) (by norm_num)

/-- **C41 (violated).** Three points with a nonzero last ordinate give a kink, even on a straight line. -/
theorem C41_refuted_three_points : ¬ DifferentiableAt ℝ (naturalCurve [(0, 1), (1, 2), (2, 3)]) 1 := by
  rw [C41_three_points_iff_partial 0 1 1 2 2 3 (by norm_num) (by norm_num)]
  norm_num

/-- **C41.** Four points or more: straight lines are reproduced.  Missing for the full property: three points. -/
theorem C41_lines_partial {K : Type} [Field K] [LinearOrder K] [IsStrictOrderedRing K] [FromInt K] [ExactCast K]
    (pts : List (K × K)) (hs : StrictlyIncreasing pts) (h4 : 4 ≤ pts.length) (a b : K)
    (hl : ∀ p ∈ pts, p.2 = a + b * p.1) (x : K) (hx : InRange pts x) :
    evaluate (Interpolator.naturalCubic K) pts x = .ok (.ok (a + b * x)) := by
  obtain ⟨i, hi, h0, h1⟩ := exists_bracket_raw hs (by omega) hx
  obtain ⟨n, p, hn, rfl⟩ := exists_tab pts (by intro hc; simp [hc] at h4)
  simp only [length_tab, getElem_tab] at h4 hi h0 h1
  have hl' : ∀ j, j < n → (p j).2 = a + b * (p j).1 := by
    intro j hj
    have := hl _ (List.getElem_mem (l := tab n p) (n := j) (by simpa using hj))
    simpa using this
  rw [NaturalCubic.segment (by omega) hs hi h0 h1, NaturalCubic.curvature_line h4 hs a b hl',
    NaturalCubic.curvature_line h4 hs a b hl', hl' i (by omega), hl' (i + 1) hi]
  have hne : (p (i + 1)).1 - (p i).1 ≠ 0 := ne_of_gt (NaturalCubic.gap_pos hs hi)
  congr 2
  simp only [NaturalCubic.cubic]
  field_simp
  ring

/-- **C41 (violated).** Three points on the line `1 + x` give 57/32 at 1/2 instead of 3/2. -/
theorem C41_refuted_lines :
    evaluate (Interpolator.naturalCubic ℚ) [(0, 1), (1, 2), (2, 3)] (1 / 2) = .ok (.ok (57 / 32)) := by
  decide +kernel

/-- **C41 (violated).** Four points with a kink at the second node. -/
theorem C41_refuted_four_points : ¬ DifferentiableAt ℝ (naturalCurve [(0, 0), (1, 0), (2, 0), (3, 1)]) 1 := by
  let p : Nat → ℝ × ℝ := fun i => if i = 0 then (0, 0) else if i = 1 then (1, 0) else if i = 2 then (2, 0) else (3, 1)
  have hs : StrictlyIncreasing (tab 4 p) := by
    unfold StrictlyIncreasing
    simp [tab, p, List.range_succ]
    norm_num
  have he : tab 4 p = [(0, 0), (1, 0), (2, 0), (3, 1)] := by simp [tab, p, List.range_succ]
  have := naturalCurve_differentiable (show 3 ≤ 4 by omega) hs (show 0 + 2 < 4 by omega)
  rw [he, NaturalCubic.kink_eq (le_refl 4) hs (by omega), if_pos rfl, if_neg (by omega)] at this
  rw [show (p (0 + 1)).1 = 1 by simp [p]] at this
  rw [this, add_zero, neg_eq_zero, mul_eq_zero]
  rintro (h | h)
  · exact absurd h (ne_of_gt (NaturalCubic.bSide_pos hs (k := 0) (by omega)))
  · rw [show 4 - 2 = 1 + 1 from rfl, NaturalCubic.curvature_succ p (by omega)] at h
    simp [NaturalCubic.solved, TridiagonalMatrix.sweepX, TridiagonalMatrix.sweepY, TridiagonalMatrix.sweepC,
      NaturalCubic.bSide, NaturalCubic.bMain, NaturalCubic.rhs, NaturalCubic.gap, NaturalCubic.cMain,
      NaturalCubic.cSide, NaturalCubic.mEnd, NaturalCubic.recip, TridiagonalMatrix.rowProduct, p] at h
    norm_num at h

/-- Four nodes meeting the hypotheses, on the line `1 + x`. -/
example : evaluate (Interpolator.naturalCubic ℚ) [(0, 1), (1, 2), (2, 3), (4, 5)] (5 / 2) = .ok (.ok (7 / 2)) := by
  have hs : StrictlyIncreasing ([(0, 1), (1, 2), (2, 3), (4, 5)] : List (ℚ × ℚ)) := by
    unfold StrictlyIncreasing; norm_num
  rw [C41_lines_partial _ hs (by simp) 1 1 (by simp; norm_num) (5 / 2)
    ⟨⟨(0, 1), by simp, by norm_num⟩, ⟨(4, 5), by simp, by norm_num⟩⟩]
  norm_num

end Qlab.Props
