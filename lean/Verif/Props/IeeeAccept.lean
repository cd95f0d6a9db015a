import Verif.Props.IeeeLinear

/-!
# Which lists the spline constructors accept in floating point (C86)
-/

namespace Qlab.Props

open Spec

variable {F : IeeeFormat}

/-- No descent between neighbours: they ascend, or one of them is NaN. -/
theorem neverDecreasing_iff {W : Type} (pts : List (Ieee F × W)) : NeverDecreasing pts ↔
    pts.IsChain fun p q => p.1 = .nan ∨ q.1 = .nan ∨ p.1 ≤ q.1 := by
  have e : ∀ a b : Ieee F, ¬ b < a ↔ a = .nan ∨ b = .nan ∨ a ≤ b := by
    intro a b
    constructor
    · intro h
      by_cases ha : a = .nan
      · exact .inl ha
      · by_cases hb : b = .nan
        · exact .inr (.inl hb)
        · exact .inr (.inr (Ieee.le_of_not_lt ha hb h))
    · rintro (rfl | rfl | h)
      · exact Ieee.not_lt_nan
      · exact Ieee.not_nan_lt
      · rintro ⟨u, v, h1, h2, h3⟩
        obtain ⟨u', v', h1', h2', h3'⟩ := h
        rw [h1] at h2'; rw [h2] at h1'
        cases h1'; cases h2'
        exact absurd h3 (not_lt.2 h3')
  unfold NeverDecreasing
  simp only [e]

/-- **C86.** Catmull-Rom and natural cubic splines accept exactly the lists of at least three points whose neighbouring
abscissae ascend or include a NaN. -/
theorem C86_accepts_iff_partial (pts : List (Ieee F × Ieee F)) :
    ((∃ s, CatmullRom.default.tryFit pts = .ok (.ok s)) ↔
      3 ≤ pts.length ∧ pts.IsChain fun p q => p.1 = .nan ∨ q.1 = .nan ∨ p.1 ≤ q.1) ∧
    ((∃ s, NaturalCubic.default.tryFit pts = .ok (.ok s)) ↔
      3 ≤ pts.length ∧ pts.IsChain fun p q => p.1 = .nan ∨ q.1 = .nan ∨ p.1 ≤ q.1) := by
  rw [← neverDecreasing_iff]
  constructor
  · obtain ⟨c1, c2, c3⟩ := C39_catmull_rom Ieee.lt_irrefl CatmullRom.default pts
    constructor
    · rintro ⟨s, h⟩
      rcases lt_or_ge pts.length 3 with h3 | h3
      · rw [c1 h3] at h; cases h
      · refine ⟨h3, by_contra fun hd => ?_⟩
        rw [c2 h3 hd] at h; cases h
    · rintro ⟨h3, hd⟩
      obtain ⟨t, ht, -⟩ := c3 h3 hd
      exact ⟨t, ht⟩
  · obtain ⟨c1, c2, c3⟩ := C39_natural_cubic Ieee.lt_irrefl (fun _ => rfl) NaturalCubic.default pts
    constructor
    · rintro ⟨s, h⟩
      rcases lt_or_ge pts.length 3 with h3 | h3
      · rw [c1 h3] at h; cases h
      · refine ⟨h3, by_contra fun hd => ?_⟩
        rw [c2 h3 hd] at h; cases h
    · rintro ⟨h3, hd⟩
      obtain ⟨t, ht, -⟩ := c3 h3 hd
      exact ⟨t, ht⟩

/-- **C86.** Hermite splines accept exactly the nonempty lists of this kind. -/
theorem C86_hermite_accepts_iff_partial (pts : List (Ieee F × Ieee F × Ieee F)) :
    (∃ s, Hermite.tryNew pts = .ok (.ok s)) ↔
      pts ≠ [] ∧ pts.IsChain fun p q => p.1 = .nan ∨ q.1 = .nan ∨ p.1 ≤ q.1 := by
  rw [← neverDecreasing_iff]
  match pts with
  | [] => exact iff_of_false (fun ⟨s, h⟩ => by cases h) (by simp)
  | p :: ps =>
    obtain ⟨c1, c2⟩ := Hermite.collect_eq p.1 p.2 (p :: ps)
    rw [neverDecreasing_cons_self' _ _ (Ieee.lt_irrefl _)] at c1 c2
    unfold Hermite.tryNew
    simp only [Rust.index_of_lt (l := p :: ps) (i := 0) (by simp), List.getElem_cons_zero, Rust.ok_bind]
    constructor
    · rintro ⟨s, h⟩
      refine ⟨by simp, by_contra fun hd => ?_⟩
      rw [c2 hd] at h; cases h
    · rintro ⟨-, hd⟩
      simp only [c1 hd, fromI8, FromInt.fromInt, Rust.unwrap, Rust.pure_eq, Rust.ok_bind]
      exact ⟨_, rfl⟩

/-- The abscissae 1, NaN, 0 are accepted, 1, 0, NaN are not. -/
example : (∃ s, CatmullRom.default.tryFit [((1 : Ieee .binary64), (0 : Ieee .binary64)), (.nan, 0), (0, 0)] = .ok (.ok s)) ∧
    ¬ ∃ s, CatmullRom.default.tryFit [((1 : Ieee .binary64), (0 : Ieee .binary64)), (0, 0), (.nan, 0)] = .ok (.ok s) := by
  have h0 : (0 : Ieee .binary64) ≠ .nan := fun h => by
    have := zero_lt_one' (F := .binary64); rw [h] at this; exact Ieee.not_nan_lt this
  have h1 : (1 : Ieee .binary64) ≠ .nan := fun h => by
    have := zero_lt_one' (F := .binary64); rw [h] at this; exact Ieee.not_lt_nan this
  rw [(C86_accepts_iff_partial _).1, (C86_accepts_iff_partial _).1, ← neverDecreasing_iff, ← neverDecreasing_iff]
  unfold NeverDecreasing
  simp only [List.isChain_cons_cons, Ieee.not_lt_nan, Ieee.not_nan_lt, zero_lt_one', not_true, not_false_eq_true]
  simp

end Qlab.Props
