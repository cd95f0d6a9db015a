import Verif.Lemmas.Interpolation
import Verif.Lemmas.Exact
import Mathlib.Analysis.Calculus.Deriv.Basic
import Mathlib.Analysis.Calculus.Deriv.Add
import Mathlib.Analysis.Calculus.Deriv.Mul
import Mathlib.Analysis.Calculus.Deriv.Pow
import Mathlib.Topology.Order.OrderClosed

/-! # Shared lemmas for the splines -/

namespace Qlab

open Spec

/-- The abscissa of a raw point. -/
instance {V W : Type} : HasX (V × W) V := ⟨Prod.fst⟩

/-! ## Constructors -/

section collect
variable {V : Type} [LT V] [DecidableLT V]

theorem Hermite.collect_eq (t : V) (y : V × V) (pts : List (V × V × V)) :
    (NeverDecreasing ((t, y) :: pts) →
      Hermite.collect t pts = .ok (pts.map fun p => Point2DWithSlope.new p.1 p.2.1 p.2.2)) ∧
    (¬ NeverDecreasing ((t, y) :: pts) → Hermite.collect t pts = .error .pointOrderError) := by
  unfold NeverDecreasing
  induction pts generalizing t y with
  | nil => simp [Hermite.collect]
  | cons p ps ih =>
    obtain ⟨x, z⟩ := p
    have ih := ih x z
    simp only [List.isChain_cons_cons, Hermite.collect]
    by_cases hx : x < t
    · simp [hx]
    · simp only [hx, not_false_eq_true, true_and, if_false]
      constructor
      · intro h; rw [ih.1 h]; rfl
      · intro h; rw [ih.2 h]

theorem CatmullRom.collect_eq (t y : V) (pts : List (V × V)) :
    (NeverDecreasing ((t, y) :: pts) → CatmullRom.collect t pts = .ok (pts.map fun p => ⟨p.1, p.2⟩)) ∧
    (¬ NeverDecreasing ((t, y) :: pts) → CatmullRom.collect t pts = .error .pointOrderError) := by
  unfold NeverDecreasing
  induction pts generalizing t y with
  | nil => simp [CatmullRom.collect]
  | cons p ps ih =>
    obtain ⟨x, z⟩ := p
    have ih := ih x z
    simp only [List.isChain_cons_cons, CatmullRom.collect]
    by_cases hx : x < t
    · simp [hx]
    · simp only [hx, not_false_eq_true, true_and, if_false]
      constructor
      · intro h; rw [ih.1 h]; rfl
      · intro h; rw [ih.2 h]

theorem NaturalCubic.collect_eq (t y : V) (pts : List (V × V)) (ds : List V) (hl : pts.length = ds.length) :
    (NeverDecreasing ((t, y) :: pts) →
      NaturalCubic.collect t (pts.zip ds) =
        .ok ((pts.zip ds).map fun p => Point2DWithSlope.new p.1.1 p.1.2 p.2)) ∧
    (¬ NeverDecreasing ((t, y) :: pts) → NaturalCubic.collect t (pts.zip ds) = .error .pointOrderError) := by
  unfold NeverDecreasing
  induction pts generalizing t y ds with
  | nil => simp [NaturalCubic.collect]
  | cons p ps ih =>
    cases ds with
    | nil => simp at hl
    | cons d ds =>
    obtain ⟨x, z⟩ := p
    have ih := ih x z ds (by simpa using hl)
    simp only [List.zip_cons_cons, List.isChain_cons_cons, NaturalCubic.collect]
    by_cases hx : x < t
    · simp [hx]
    · simp only [hx, not_false_eq_true, true_and, if_false]
      constructor
      · intro h; rw [ih.1 h]; rfl
      · intro h; rw [ih.2 h]

end collect

theorem neverDecreasing_of_strict {V W : Type} [LinearOrder V] {pts : List (V × W)} (h : StrictlyIncreasing pts) :
    NeverDecreasing pts :=
  (List.Pairwise.imp (fun h => not_lt.2 (le_of_lt h)) h).isChain

theorem neverDecreasing_cons_self' {V W : Type} [LT V] (p : V × W) (ps : List (V × W)) (h : ¬ p.1 < p.1) :
    NeverDecreasing (p :: p :: ps) ↔ NeverDecreasing (p :: ps) := by
  unfold NeverDecreasing
  rw [List.isChain_cons_cons]
  simp [h]

theorem neverDecreasing_cons_self {V W : Type} [Preorder V] (p : V × W) (ps : List (V × W)) :
    NeverDecreasing (p :: p :: ps) ↔ NeverDecreasing (p :: ps) :=
  neverDecreasing_cons_self' p ps (lt_irrefl _)

/-! ## Brackets -/

/-- Every `x` in the range lies in some closed bracket. -/
theorem exists_bracket {V P : Type} [HasX P V] [LinearOrder V] {points : List P}
    (hs : points.Pairwise fun p q => HasX.x p < HasX.x q) (h2 : 2 ≤ points.length) (x : V)
    (hb : ¬ ∀ p ∈ points, x < HasX.x p) (ha : ¬ ∀ p ∈ points, HasX.x p < x) :
    ∃ i, ∃ hi : i + 1 < points.length, HasX.x points[i] ≤ x ∧ x ≤ HasX.x points[i + 1] := by
  have pw := List.pairwise_iff_getElem.1 hs
  rcases position_cases (hs.imp le_of_lt) (by omega) x with hc | hc | ⟨j, hj, hc⟩ | hc
  · exfalso; apply hb
    intro p hp
    obtain ⟨j, hj, rfl⟩ := List.getElem_of_mem hp
    rcases Nat.eq_zero_or_pos j with h0 | h0
    · subst h0; exact hc
    · exact lt_trans hc (pw 0 j (by omega) hj h0)
  · exact ⟨0, by omega, le_of_eq hc.symm, hc ▸ le_of_lt (pw 0 1 (by omega) (by omega) (by omega))⟩
  · exact ⟨j, hj, le_of_lt hc.1, hc.2⟩
  · exfalso; apply ha
    intro p hp
    obtain ⟨j, hj, rfl⟩ := List.getElem_of_mem hp
    rcases Nat.lt_or_ge j (points.length - 1) with h0 | h0
    · exact lt_trans (pw j (points.length - 1) hj (by omega) h0) hc
    · have : j = points.length - 1 := by omega
      subst this; exact hc

/-! ## Gluing derivatives -/

/-- One-sided derivatives that agree give the derivative within the whole range. -/
theorem hasDerivWithinAt_glue {f : ℝ → ℝ} {m lo hi x : ℝ}
    (hl : lo < x → ∃ a, a < x ∧ HasDerivWithinAt f m (Set.Icc a x) x)
    (hr : x < hi → ∃ b, x < b ∧ HasDerivWithinAt f m (Set.Icc x b) x) :
    HasDerivWithinAt f m (Set.Icc lo hi) x := by
  have h1 : HasDerivWithinAt f m (Set.Icc lo x) x := by
    by_cases h : lo < x
    · obtain ⟨a, ha, hd⟩ := hl h
      refine hd.mono_of_mem_nhdsWithin ?_
      have : Set.Ioi a ∈ nhds x := Ioi_mem_nhds ha
      filter_upwards [mem_nhdsWithin_of_mem_nhds this, self_mem_nhdsWithin] with z hz1 hz2
      exact ⟨le_of_lt hz1, hz2.2⟩
    · exact hasDerivWithinAt_iff_hasFDerivWithinAt.2 (HasFDerivWithinAt.of_subsingleton
        (Set.subsingleton_Icc_of_ge (not_lt.1 h)))
  have h2 : HasDerivWithinAt f m (Set.Icc x hi) x := by
    by_cases h : x < hi
    · obtain ⟨b, hb, hd⟩ := hr h
      refine hd.mono_of_mem_nhdsWithin ?_
      have : Set.Iio b ∈ nhds x := Iio_mem_nhds hb
      filter_upwards [mem_nhdsWithin_of_mem_nhds this, self_mem_nhdsWithin] with z hz1 hz2
      exact ⟨hz2.1, le_of_lt hz1⟩
    · exact hasDerivWithinAt_iff_hasFDerivWithinAt.2 (HasFDerivWithinAt.of_subsingleton
        (Set.subsingleton_Icc_of_ge (not_lt.1 h)))
  refine (h1.union h2).mono ?_
  intro z hz
  rcases le_total z x with h | h
  · exact Or.inl ⟨hz.1, h⟩
  · exact Or.inr ⟨h, hz.2⟩

end Qlab
