import Verif.Lemmas.Splines

/-! # Hermite segments -/

namespace Qlab

open Spec

theorem not_belowAll_of_inRange {V W : Type} [LinearOrder V] {pts : List (V × W)} {x : V} (h : InRange pts x) :
    ¬ BelowAll pts x ∧ ¬ AboveAll pts x := by
  obtain ⟨⟨p, hp, h1⟩, ⟨q, hq, h2⟩⟩ := h
  exact ⟨fun hb => absurd (hb p hp) (not_lt.2 h1), fun ha => absurd (ha q hq) (not_lt.2 h2)⟩

theorem inRange_or {V W : Type} [LinearOrder V] (pts : List (V × W)) (x : V) :
    BelowAll pts x ∨ AboveAll pts x ∨ InRange pts x := by
  by_cases hb : BelowAll pts x
  · exact Or.inl hb
  by_cases ha : AboveAll pts x
  · exact Or.inr (Or.inl ha)
  unfold BelowAll at hb
  unfold AboveAll at ha
  push Not at hb ha
  exact Or.inr (Or.inr ⟨hb, ha⟩)

/-- Bracket of raw points around a point of the range. -/
theorem exists_bracket_raw {V W : Type} [LinearOrder V] {pts : List (V × W)} (hs : StrictlyIncreasing pts)
    (h2 : 2 ≤ pts.length) {x : V} (hx : InRange pts x) :
    ∃ i, ∃ hi : i + 1 < pts.length, pts[i].1 ≤ x ∧ x ≤ pts[i + 1].1 := by
  have := not_belowAll_of_inRange hx
  exact exists_bracket (P := V × W) hs h2 x this.1 this.2

/-- Brackets open on one side. -/
theorem exists_bracket_left {V W : Type} [LinearOrder V] {pts : List (V × W)} (hs : StrictlyIncreasing pts)
    (h2 : 2 ≤ pts.length) {x : V} (hx : InRange pts x) (hlo : pts[0].1 < x) :
    ∃ i, ∃ hi : i + 1 < pts.length, pts[i].1 < x ∧ x ≤ pts[i + 1].1 := by
  obtain ⟨i, hi, h0, h1⟩ := exists_bracket_raw hs h2 hx
  rcases lt_or_eq_of_le h0 with h | h
  · exact ⟨i, hi, h, h1⟩
  · have hi0 : i ≠ 0 := by intro hc; subst hc; rw [h] at hlo; exact lt_irrefl _ hlo
    obtain ⟨j, rfl⟩ : ∃ j, i = j + 1 := ⟨i - 1, by omega⟩
    refine ⟨j, by omega, ?_, le_of_eq h.symm⟩
    rw [← h]
    exact List.pairwise_iff_getElem.1 hs j (j + 1) (by omega) (by omega) (by omega)

theorem exists_bracket_right {V W : Type} [LinearOrder V] {pts : List (V × W)} (hs : StrictlyIncreasing pts)
    (h2 : 2 ≤ pts.length) {x : V} (hx : InRange pts x) (hhi : x < pts[pts.length - 1].1) :
    ∃ i, ∃ hi : i + 1 < pts.length, pts[i].1 ≤ x ∧ x < pts[i + 1].1 := by
  obtain ⟨i, hi, h0, h1⟩ := exists_bracket_raw hs h2 hx
  rcases lt_or_eq_of_le h1 with h | h
  · exact ⟨i, hi, h0, h⟩
  · have hi0 : i + 2 < pts.length := by
      by_contra hc
      have : i + 1 = pts.length - 1 := by omega
      simp only [this] at h
      rw [h] at hhi; exact lt_irrefl _ hhi
    refine ⟨i + 1, hi0, le_of_eq h.symm, ?_⟩
    rw [h]
    exact List.pairwise_iff_getElem.1 hs (i + 1) (i + 2) (by omega) (by omega) (by omega)

theorem inRange_subset {W : Type} {pts : List (ℝ × W)} (hs : StrictlyIncreasing pts) (h2 : 1 ≤ pts.length) :
    {z | InRange pts z} = Set.Icc (pts[0]).1 (pts[pts.length - 1]).1 := by
  have pw := List.pairwise_iff_getElem.1 hs
  ext z
  constructor
  · rintro ⟨⟨p, hp, h1⟩, ⟨q, hq, h2'⟩⟩
    obtain ⟨j, hj, rfl⟩ := List.getElem_of_mem hp
    obtain ⟨k, hk, rfl⟩ := List.getElem_of_mem hq
    constructor
    · rcases Nat.eq_zero_or_pos j with h0 | h0
      · subst h0; exact h1
      · exact le_trans (le_of_lt (pw 0 j (by omega) hj h0)) h1
    · rcases Nat.lt_or_ge k (pts.length - 1) with h0 | h0
      · exact le_trans h2' (le_of_lt (pw k (pts.length - 1) hk (by omega) h0))
      · have : k = pts.length - 1 := by omega
        subst this; exact h2'
  · rintro ⟨h1, h2'⟩
    exact ⟨⟨_, List.getElem_mem _, h1⟩, ⟨_, List.getElem_mem _, h2'⟩⟩

/-- A function that is a continuous function on each closed segment is continuous on the range. -/
theorem continuousOn_of_segments {W : Type} {pts : List (ℝ × W)} (hs : StrictlyIncreasing pts)
    (h2 : 2 ≤ pts.length) (f : ℝ → ℝ) (S : ∀ i, i + 1 < pts.length → ℝ → ℝ) (hS : ∀ i hi, Continuous (S i hi))
    (hf : ∀ i (hi : i + 1 < pts.length), ∀ x ∈ Set.Icc pts[i].1 pts[i + 1].1, f x = S i hi x) :
    ContinuousOn f {z | InRange pts z} := by
  intro x hx
  have hsub := inRange_subset hs (by omega)
  have h1 : ContinuousWithinAt f (Set.Icc (pts[0]).1 x) x := by
    by_cases h : (pts[0]).1 < x
    · obtain ⟨i, hi, ha, hb⟩ := exists_bracket_left hs h2 hx h
      have hc : ContinuousWithinAt f (Set.Icc pts[i].1 x) x :=
        ((hS i hi).continuousWithinAt).congr (fun z hz => hf i hi z ⟨hz.1, le_trans hz.2 hb⟩)
          (hf i hi x ⟨le_of_lt ha, hb⟩)
      refine hc.mono_of_mem_nhdsWithin ?_
      filter_upwards [mem_nhdsWithin_of_mem_nhds (Ioi_mem_nhds ha), self_mem_nhdsWithin] with z hz1 hz2
      exact ⟨le_of_lt hz1, hz2.2⟩
    · exact ((Set.subsingleton_Icc_of_ge (not_lt.1 h)).finite.continuousOn f).continuousWithinAt
        ⟨by rw [hsub] at hx; exact hx.1, le_refl _⟩
  have h2' : ContinuousWithinAt f (Set.Icc x (pts[pts.length - 1]).1) x := by
    by_cases h : x < (pts[pts.length - 1]).1
    · obtain ⟨i, hi, ha, hb⟩ := exists_bracket_right hs h2 hx h
      have hc : ContinuousWithinAt f (Set.Icc x pts[i + 1].1) x :=
        ((hS i hi).continuousWithinAt).congr (fun z hz => hf i hi z ⟨le_trans ha hz.1, hz.2⟩)
          (hf i hi x ⟨ha, le_of_lt hb⟩)
      refine hc.mono_of_mem_nhdsWithin ?_
      filter_upwards [mem_nhdsWithin_of_mem_nhds (Iio_mem_nhds hb), self_mem_nhdsWithin] with z hz1 hz2
      exact ⟨hz2.1, le_of_lt hz1⟩
    · exact ((Set.subsingleton_Icc_of_ge (not_lt.1 h)).finite.continuousOn f).continuousWithinAt
        ⟨le_refl _, by rw [hsub] at hx; exact hx.2⟩
  rw [hsub]
  refine (h1.union h2').mono ?_
  intro z hz
  rcases le_total z x with h | h
  · exact Or.inl ⟨hz.1, h⟩
  · exact Or.inr ⟨h, hz.2⟩

/-- The cubic with values `y₀`, `y₁` and slopes `m₀`, `m₁` at the ends of a segment. -/
def hermiteCubic {K : Type} [Field K] (x₀ y₀ m₀ x₁ y₁ m₁ x : K) : K :=
  let h := x₁ - x₀
  let t := (x - x₀) / h
  y₀ * (2 * t ^ 3 - 3 * t ^ 2 + 1) + m₀ * h * (t ^ 3 - 2 * t ^ 2 + t) + y₁ * (-2 * t ^ 3 + 3 * t ^ 2) +
    m₁ * h * (t ^ 3 - t ^ 2)

section
variable {K : Type} [Field K] [LinearOrder K]

omit [LinearOrder K] in
theorem hermiteCubic_left (x₀ y₀ m₀ x₁ y₁ m₁ : K) : hermiteCubic x₀ y₀ m₀ x₁ y₁ m₁ x₀ = y₀ := by
  simp [hermiteCubic]

theorem hermiteCubic_right (x₀ y₀ m₀ x₁ y₁ m₁ : K) (h : x₀ < x₁) : hermiteCubic x₀ y₀ m₀ x₁ y₁ m₁ x₁ = y₁ := by
  have hne : x₁ - x₀ ≠ 0 := sub_ne_zero.2 (ne_of_gt h)
  simp only [hermiteCubic, div_self hne]
  ring

variable [FromInt K] [ExactCast K]

omit [LinearOrder K] in
theorem fromI8_exact (n : Int) : fromI8 K n = .ok (n : K) := by
  unfold fromI8; rw [ExactCast.fromInt_eq]; rfl

theorem evaluateHermite_eq {pts : List (K × K × K)} (hne : pts ≠ []) (hs : NeverDecreasing pts) (x : K) :
    evaluateHermite pts x = Hermite.tryValue ⟨pts.map fun p => Point2DWithSlope.new p.1 p.2.1 p.2.2,
      ⟨⟨2, -2, 1, 1⟩, ⟨-3, 3, -2, -1⟩, ⟨0, 0, 1, 0⟩, ⟨1, 0, 0, 0⟩⟩⟩ x := by
  match pts, hne with
  | p :: ps, _ =>
    have hc := (Hermite.collect_eq p.1 p.2 (p :: ps)).1 ((neverDecreasing_cons_self p ps).2 hs)
    unfold evaluateHermite Hermite.tryNew
    simp only [Rust.index_of_lt (l := p :: ps) (i := 0) (by simp), List.getElem_cons_zero, Rust.ok_bind, hc,
      fromI8_exact, Rust.pure_eq]
    norm_num

/-- Value on a closed bracket. -/
theorem hermite_segment {pts : List (K × K × K)} (hs : StrictlyIncreasing pts) {i : Nat}
    (hi : i + 1 < pts.length) {x : K} (h0 : pts[i].1 ≤ x) (h1 : x ≤ pts[i + 1].1) :
    evaluateHermite pts x = .ok (.ok (hermiteCubic pts[i].1 pts[i].2.1 pts[i].2.2
      pts[i + 1].1 pts[i + 1].2.1 pts[i + 1].2.2 x)) := by
  have hne : pts ≠ [] := by intro hc; subst hc; simp at hi
  rw [evaluateHermite_eq hne (neverDecreasing_of_strict hs)]
  unfold Hermite.tryValue
  have pw := List.pairwise_iff_getElem.1 hs
  have hs' : (pts.map fun p => Point2DWithSlope.new p.1 p.2.1 p.2.2).Pairwise
      fun p q => (HasX.x p : K) < HasX.x q := by
    rw [List.pairwise_map]; exact hs
  have hx : ∀ j (hj : j < pts.length),
      (HasX.x ((pts.map fun p => Point2DWithSlope.new p.1 p.2.1 p.2.2)[j]'(by simpa using hj)) : K) = pts[j].1 := by
    intro j hj; simp only [List.getElem_map]; rfl
  have key : ∀ j (hj : j + 1 < pts.length),
      (do
        let point ← Rust.index (pts.map fun p => Point2DWithSlope.new p.1 p.2.1 p.2.2) j
        let nextPoint ← Rust.index (pts.map fun p => Point2DWithSlope.new p.1 p.2.1 p.2.2) (j + 1)
        let h := nextPoint.coordinate.x - point.coordinate.x
        let delta := (x - point.coordinate.x) / h
        let delta2 := delta * delta
        let delta3 := delta2 * delta
        let d : Vec4 K := ⟨delta3, delta2, delta, 1⟩
        let f : Vec4 K := ⟨point.coordinate.y, nextPoint.coordinate.y, point.dydx * h, nextPoint.dydx * h⟩
        return .ok ((d.mulMat ⟨⟨2, -2, 1, 1⟩, ⟨-3, 3, -2, -1⟩, ⟨0, 0, 1, 0⟩, ⟨1, 0, 0, 0⟩⟩).dot f) :
          Rust (Except (InterpolationError K) K)) =
      .ok (.ok (hermiteCubic pts[j].1 pts[j].2.1 pts[j].2.2 pts[j + 1].1 pts[j + 1].2.1 pts[j + 1].2.2 x)) := by
    intro j hj
    rw [Rust.index_of_lt (by simp; omega), Rust.index_of_lt (by simpa using hj)]
    simp only [List.getElem_map, Point2DWithSlope.new, Rust.ok_bind, Rust.pure_eq, Vec4.mulMat, Vec4.dot]
    congr 2
    simp only [hermiteCubic]
    ring
  rcases findIndex_closed hs' (i := i) (x := x) (by simpa using hi) (by rw [hx i (by omega)]; exact h0)
    (by rw [hx (i + 1) hi]; exact h1) with hf | ⟨hpos, hxe, hf⟩
  · simp only [hf]
    exact key i hi
  · simp only [hf]
    rw [hx i (by omega)] at hxe
    obtain ⟨j, rfl⟩ : ∃ j, i = j + 1 := ⟨i - 1, by omega⟩
    simp only [Nat.add_sub_cancel]
    refine (key j (by omega)).trans ?_
    rw [hxe, hermiteCubic_left, hermiteCubic_right _ _ _ _ _ _ (pw j (j + 1) (by omega) (by omega) (by omega))]

end

/-! ## Calculus -/

theorem hermiteCubic_hasDerivAt (x₀ y₀ m₀ x₁ y₁ m₁ x : ℝ) :
    HasDerivAt (hermiteCubic x₀ y₀ m₀ x₁ y₁ m₁)
      ((y₀ * (6 * ((x - x₀) / (x₁ - x₀)) ^ 2 - 6 * ((x - x₀) / (x₁ - x₀))) +
        m₀ * (x₁ - x₀) * (3 * ((x - x₀) / (x₁ - x₀)) ^ 2 - 4 * ((x - x₀) / (x₁ - x₀)) + 1) +
        y₁ * (-6 * ((x - x₀) / (x₁ - x₀)) ^ 2 + 6 * ((x - x₀) / (x₁ - x₀))) +
        m₁ * (x₁ - x₀) * (3 * ((x - x₀) / (x₁ - x₀)) ^ 2 - 2 * ((x - x₀) / (x₁ - x₀)))) / (x₁ - x₀)) x := by
  have ht : HasDerivAt (fun z => (z - x₀) / (x₁ - x₀)) (1 / (x₁ - x₀)) x :=
    ((hasDerivAt_id x).sub_const x₀).div_const _
  have h3 := ht.pow 3
  have h2 := ht.pow 2
  have := ((((h3.const_mul 2).sub (h2.const_mul 3)).add_const 1).const_mul y₀).add
    (((h3.sub (h2.const_mul 2)).add ht).const_mul (m₀ * (x₁ - x₀)))
  have := (this.add (((h3.const_mul (-2)).add (h2.const_mul 3)).const_mul y₁)).add
    ((h3.sub h2).const_mul (m₁ * (x₁ - x₀)))
  refine this.congr_deriv ?_
  simp only [Nat.cast_ofNat]
  ring

end Qlab
