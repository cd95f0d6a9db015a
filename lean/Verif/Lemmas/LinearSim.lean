import Verif.Lemmas.IeeeRange
import Verif.Lemmas.LinearCurve

/-!
# Linear interpolation over two number types

Evaluation looks at the abscissae only to find the segment, so lists that compare alike are evaluated on the same
segment.
-/

namespace Qlab

open Spec

section
variable {V W P Q : Type} [HasX P V] [HasX Q W] [LT V] [DecidableLT V] [LE V] [DecidableLE V] [LT W] [DecidableLT W]
  [LE W] [DecidableLE W]

/-- The search only looks at comparisons. -/
theorem findIndex_congr (l : List P) (l' : List Q) (x : V) (x' : W) (hlen : l.length = l'.length)
    (hlt : ∀ (i : Nat) p q, l[i]? = some p → l'[i]? = some q → (HasX.x p < x ↔ HasX.x q < x'))
    (hle : ∀ (i : Nat) p q, l[i]? = some p → l'[i]? = some q → (HasX.x p ≤ x ↔ HasX.x q ≤ x')) :
    (∃ i, findIndexAtLeftBoundary l x = .ok i ∧ findIndexAtLeftBoundary l' x' = .ok i) ∨
    (∃ e e', findIndexAtLeftBoundary l x = .error e ∧ findIndexAtLeftBoundary l' x' = .error e') := by
  match l, l' with
  | [], [] => exact .inr ⟨_, _, rfl, rfl⟩
  | [], _ :: _ => simp at hlen
  | _ :: _, [] => simp at hlen
  | p :: ps, q :: qs =>
    have hpp : partitionPoint (fun p => decide (HasX.x p < x)) (p :: ps) =
        partitionPoint (fun q => decide (HasX.x q < x')) (q :: qs) := by
      unfold partitionPoint
      rw [hlen]
      refine binarySearchLoop_congr _ _ _ _ (fun i => ?_) _ _
      cases hi : (p :: ps)[i]? with
      | none =>
        rw [List.getElem?_eq_none_iff, hlen, ← List.getElem?_eq_none_iff] at hi
        rw [hi]; rfl
      | some r =>
        obtain ⟨h, -⟩ := List.getElem?_eq_some_iff.1 hi
        have hi' : (q :: qs)[i]? = some (q :: qs)[i] := List.getElem?_eq_getElem (by omega)
        rw [hi']
        simp only [Option.map_some, Option.getD_some, decide_eq_decide]
        exact hlt i r _ hi hi'
    have h0 := hle 0 p q rfl rfl
    have hl : ps.length = qs.length := by simpa using hlen
    unfold findIndexAtLeftBoundary
    simp only [← hpp, h0, List.length_cons, hl]
    generalize partitionPoint (fun p => decide (HasX.x p < x)) (p :: ps) = k
    split_ifs <;> simp

end

/-- Evaluation on the same segment, or the same kind of failure. -/
theorem linear_sim {V W : Type} [Add V] [Sub V] [Mul V] [Div V] [LT V] [DecidableLT V] [LE V] [DecidableLE V]
    [Add W] [Sub W] [Mul W] [Div W] [LT W] [DecidableLT W] [LE W] [DecidableLE W] (pts : List (V × V))
    (pts' : List (W × W)) (x : V) (x' : W) (hlen : pts.length = pts'.length)
    (hlt : ∀ (i : Nat) p q, pts[i]? = some p → pts'[i]? = some q → (p.1 < x ↔ q.1 < x'))
    (hle : ∀ (i : Nat) p q, pts[i]? = some p → pts'[i]? = some q → (p.1 ≤ x ↔ q.1 ≤ x')) :
    (∃ i x₀ y₀ x₁ y₁ x₀' y₀' x₁' y₁', IsSegment pts i x₀ y₀ x₁ y₁ ∧ IsSegment pts' i x₀' y₀' x₁' y₁' ∧
      evaluate (Interpolator.linear V) pts x = .ok (.ok (y₀ + (y₁ - y₀) / (x₁ - x₀) * (x - x₀))) ∧
      evaluate (Interpolator.linear W) pts' x' = .ok (.ok (y₀' + (y₁' - y₀') / (x₁' - x₀') * (x' - x₀')))) ∨
    (∃ e e', evaluate (Interpolator.linear V) pts x = .ok (.error e) ∧
      evaluate (Interpolator.linear W) pts' x' = .ok (.error e')) ∨
    (evaluate (Interpolator.linear V) pts x = .panic ∧ evaluate (Interpolator.linear W) pts' x' = .panic) := by
  rw [evaluate_linear, evaluate_linear]
  unfold Linear.tryValue
  rcases findIndex_congr (pts.map fun p => (⟨p.1, p.2⟩ : Point2D V)) (pts'.map fun p => (⟨p.1, p.2⟩ : Point2D W)) x x'
      (by simpa using hlen) (by
    intro i p q hp hq
    rw [List.getElem?_map, Option.map_eq_some_iff] at hp hq
    obtain ⟨p, hp, rfl⟩ := hp
    obtain ⟨q, hq, rfl⟩ := hq
    exact hlt i p q hp hq) (by
    intro i p q hp hq
    rw [List.getElem?_map, Option.map_eq_some_iff] at hp hq
    obtain ⟨p, hp, rfl⟩ := hp
    obtain ⟨q, hq, rfl⟩ := hq
    exact hle i p q hp hq) with ⟨i, h1, h2⟩ | ⟨e, e', h1, h2⟩
  · rw [h1, h2]
    simp only
    have idx : ∀ {U : Type} (l : List (U × U)) (i : Nat), (∃ q, l[i]? = some q ∧
        Rust.index (l.map fun p => (⟨p.1, p.2⟩ : Point2D U)) i = .ok ⟨q.1, q.2⟩) ∨
        (l.length ≤ i ∧ Rust.index (l.map fun p => (⟨p.1, p.2⟩ : Point2D U)) i = .panic) := by
      intro U l i
      rcases Nat.lt_or_ge i l.length with h | h
      · exact .inl ⟨l[i], List.getElem?_eq_getElem h, Rust.index_of_eq (by simp)⟩
      · exact .inr ⟨h, by unfold Rust.index; rw [List.getElem?_eq_none (by simpa using h)]; rfl⟩
    rcases idx pts i with ⟨p, e1, e2⟩ | ⟨e1, e2⟩
    · rcases idx pts' i with ⟨p', e1', e2'⟩ | ⟨e1', e2'⟩
      · rcases idx pts (i + 1) with ⟨q, f1, f2⟩ | ⟨f1, f2⟩
        · rcases idx pts' (i + 1) with ⟨q', f1', f2'⟩ | ⟨f1', f2'⟩
          · exact .inl ⟨i, _, _, _, _, _, _, _, _, ⟨e1, f1⟩, ⟨e1', f1'⟩, by rw [e2, f2]; rfl, by rw [e2', f2']; rfl⟩
          · obtain ⟨h, -⟩ := List.getElem?_eq_some_iff.1 f1
            omega
        · rcases idx pts' (i + 1) with ⟨q', f1', f2'⟩ | ⟨f1', f2'⟩
          · obtain ⟨h, -⟩ := List.getElem?_eq_some_iff.1 f1'
            omega
          · exact .inr (.inr ⟨by rw [e2, f2]; rfl, by rw [e2', f2']; rfl⟩)
      · obtain ⟨h, -⟩ := List.getElem?_eq_some_iff.1 e1
        omega
    · rcases idx pts' i with ⟨p', e1', e2'⟩ | ⟨e1', e2'⟩
      · obtain ⟨h, -⟩ := List.getElem?_eq_some_iff.1 e1'
        omega
      · exact .inr (.inr ⟨by rw [e2]; rfl, by rw [e2']; rfl⟩)
  · rw [h1, h2]
    exact .inr (.inl ⟨_, _, rfl, rfl⟩)

end Qlab
