import Verif.Lemmas.Search
import Verif.Spec.Interpolation
import Mathlib.Tactic.FieldSimp
import Mathlib.Tactic.Ring

/-! # From the bracketing index to interpolated values -/

namespace Qlab

open Spec

@[simp] theorem Rust.index_of_lt {α : Type} {l : List α} {i : Nat} (h : i < l.length) :
    Rust.index l i = .ok l[i] := by
  unfold Rust.index; rw [List.getElem?_eq_getElem h]; rfl

theorem Rust.index_of_eq {α : Type} {l : List α} {i : Nat} {a : α} (h : l[i]? = some a) :
    Rust.index l i = .ok a := by
  unfold Rust.index; rw [h]; rfl

theorem Rust.index_of_ge {α : Type} {l : List α} {i : Nat} (h : l.length ≤ i) :
    Rust.index l i = .panic := by
  unfold Rust.index; rw [List.getElem?_eq_none h]; rfl

section

variable {V P : Type} [HasX P V] [LinearOrder V]

/-- On strictly increasing points, the search in a closed bracket returns that bracket, or the one before
when `x` is its left end. -/
theorem findIndex_closed {points : List P} (hs : points.Pairwise fun p q => HasX.x p < HasX.x q) {x : V}
    {i : Nat} (hi : i + 1 < points.length) (h1 : HasX.x points[i] ≤ x) (h2 : x ≤ HasX.x points[i + 1]) :
    findIndexAtLeftBoundary points x = .ok i ∨
      (0 < i ∧ x = HasX.x points[i] ∧ findIndexAtLeftBoundary points x = .ok (i - 1)) := by
  have hs' : points.Pairwise fun p q => HasX.x p ≤ HasX.x q := hs.imp le_of_lt
  rcases lt_or_eq_of_le h1 with hlt | heq
  · exact Or.inl (findIndex_bracket hs' hi hlt h2)
  · rcases Nat.eq_zero_or_pos i with h0 | h0
    · left
      subst h0
      match points, hi, heq, hs' with
      | p :: ps, hi, heq, hs' =>
        simp only [List.getElem_cons_zero] at heq
        rw [← heq]
        exact findIndex_first hs'
    · right
      refine ⟨h0, heq.symm, ?_⟩
      have hlt : HasX.x points[i - 1] < x := by
        rw [← heq]
        exact List.pairwise_iff_getElem.1 hs (i - 1) i (by omega) (by omega) (by omega)
      have hii : i - 1 + 1 = i := by omega
      refine findIndex_bracket hs' (by omega) hlt ?_
      simp only [hii]
      exact le_of_eq heq.symm

end

/-- Fitting keeps the order of the abscissae. -/
theorem pairwise_map_point {V : Type} {r : V → V → Prop} {pts : List (V × V)} :
    (pts.map fun p => (⟨p.1, p.2⟩ : Point2D V)).Pairwise (fun p q => r (HasX.x p) (HasX.x q)) ↔
      pts.Pairwise fun p q => r p.1 q.1 := by
  rw [List.pairwise_map]; rfl

theorem evaluate_linear {V : Type} [Add V] [Sub V] [Mul V] [Div V] [LT V] [DecidableLT V] [LE V] [DecidableLE V]
    (pts : List (V × V)) (x : V) :
    evaluate (Interpolator.linear V) pts x =
      Linear.tryValue ⟨pts.map fun p => ⟨p.1, p.2⟩⟩ x := rfl

section
variable {K : Type} [Field K] [LinearOrder K]

/-- Value on a closed segment. -/
theorem linear_segment (pts : List (K × K)) (hs : StrictlyIncreasing pts) (i : Nat) (x₀ y₀ x₁ y₁ x : K)
    (h : IsSegment pts i x₀ y₀ x₁ y₁) (h0 : x₀ ≤ x) (h1 : x ≤ x₁) :
    x₀ < x₁ ∧ evaluate (Interpolator.linear K) pts x = .ok (.ok (y₀ + (y₁ - y₀) / (x₁ - x₀) * (x - x₀))) := by
  obtain ⟨ha, hb⟩ := h
  obtain ⟨hi0, ha'⟩ := List.getElem?_eq_some_iff.1 ha
  obtain ⟨hi1, hb'⟩ := List.getElem?_eq_some_iff.1 hb
  have hlt : x₀ < x₁ := by
    have := List.pairwise_iff_getElem.1 hs i (i + 1) hi0 hi1 (by omega)
    rw [ha', hb'] at this; exact this
  refine ⟨hlt, ?_⟩
  have hs' : (pts.map fun p => (⟨p.1, p.2⟩ : Point2D K)).Pairwise
      fun p q => (HasX.x p : K) < HasX.x q := pairwise_map_point.2 hs
  rw [evaluate_linear]
  unfold Linear.tryValue
  have hx0 : (HasX.x ((pts.map fun p => (⟨p.1, p.2⟩ : Point2D K))[i]'(by simpa using hi0)) : K) = x₀ := by
    simp only [List.getElem_map, ha']; rfl
  have hx1 : (HasX.x ((pts.map fun p => (⟨p.1, p.2⟩ : Point2D K))[i + 1]'(by simpa using hi1)) : K) = x₁ := by
    simp only [List.getElem_map, hb']; rfl
  rcases findIndex_closed hs' (i := i) (x := x) (by simpa using hi1) (by rw [hx0]; exact h0)
    (by rw [hx1]; exact h1) with hf | ⟨hpos, hxe, hf⟩
  · simp only [hf]
    rw [Rust.index_of_lt (by simpa using hi0), Rust.index_of_lt (by simpa using hi1)]
    simp [ha', hb']
  · simp only [hf]
    have hii : i - 1 + 1 = i := by omega
    have hi2 : i - 1 < pts.length := by omega
    rw [Rust.index_of_lt (by simpa using hi2), hii, Rust.index_of_lt (by simpa using hi0)]
    have hprev : (pts[i - 1]).1 < x₀ := by
      have := List.pairwise_iff_getElem.1 hs (i - 1) i hi2 hi0 (by omega)
      rw [ha'] at this; exact this
    rw [hx0] at hxe
    have hne : x₀ - pts[i - 1].1 ≠ 0 := by
      intro hc; rw [sub_eq_zero] at hc; rw [hc] at hprev; exact lt_irrefl _ hprev
    simp only [List.getElem_map, ha', Rust.ok_bind, Rust.pure_eq, hxe, sub_self, mul_zero, add_zero]
    rw [div_mul_cancel₀ _ hne]
    congr 2
    ring

omit [Field K] in
/-- Every `x` in the range lies in some segment. -/
theorem exists_segment (pts : List (K × K)) (hs : StrictlyIncreasing pts) (h2 : 2 ≤ pts.length) (x : K)
    (hb : ¬ BelowAll pts x) (ha : ¬ AboveAll pts x) :
    ∃ i x₀ y₀ x₁ y₁, IsSegment pts i x₀ y₀ x₁ y₁ ∧ x₀ ≤ x ∧ x ≤ x₁ := by
  have hs' : (pts.map fun p => (⟨p.1, p.2⟩ : Point2D K)).Pairwise
      fun p q => (HasX.x p : K) ≤ HasX.x q := pairwise_map_point.2 (hs.imp le_of_lt)
  have hx : ∀ i (hi : i < pts.length),
      (HasX.x ((pts.map fun p => (⟨p.1, p.2⟩ : Point2D K))[i]'(by simpa using hi)) : K) = pts[i].1 := by
    intro i hi; simp only [List.getElem_map]; rfl
  have seg : ∀ i (hi : i + 1 < pts.length), IsSegment pts i pts[i].1 pts[i].2 pts[i + 1].1 pts[i + 1].2 := by
    intro i hi; exact ⟨by simp, by simp⟩
  have pw := List.pairwise_iff_getElem.1 hs
  rcases position_cases hs' (by simp; omega) x with hc | hc | ⟨j, hj, hc⟩ | hc
  · rw [hx 0 (by omega)] at hc
    exfalso; apply hb
    intro p hp
    obtain ⟨j, hj, rfl⟩ := List.getElem_of_mem hp
    rcases Nat.eq_zero_or_pos j with h0 | h0
    · subst h0; exact hc
    · exact lt_trans hc (pw 0 j (by omega) hj h0)
  · rw [hx 0 (by omega)] at hc
    exact ⟨0, _, _, _, _, seg 0 (by omega), le_of_eq hc.symm,
      hc ▸ le_of_lt (pw 0 1 (by omega) (by omega) (by omega))⟩
  · have hj' : j + 1 < pts.length := by simpa using hj
    rw [hx j (by omega), hx (j + 1) hj'] at hc
    exact ⟨j, _, _, _, _, seg j hj', le_of_lt hc.1, hc.2⟩
  · have hl : (pts.map fun p => (⟨p.1, p.2⟩ : Point2D K)).length - 1 = pts.length - 1 := by simp
    simp only [hl] at hc
    rw [hx (pts.length - 1) (by omega)] at hc
    exfalso; apply ha
    intro p hp
    obtain ⟨j, hj, rfl⟩ := List.getElem_of_mem hp
    rcases Nat.lt_or_ge j (pts.length - 1) with h0 | h0
    · exact lt_trans (pw j (pts.length - 1) hj (by omega) h0) hc
    · have : j = pts.length - 1 := by omega
      subst this; exact hc

end

end Qlab
