import Verif.Model.Interpolation
import Mathlib.Order.Basic
import Mathlib.Order.Defs.LinearOrder

/-! # Binary search and the bracketing index -/

namespace Qlab

variable {α : Type}

theorem binarySearchLoop_bounds (pred : α → Bool) (l : List α) (left right : Nat) (h : left ≤ right) :
    left ≤ binarySearchLoop pred l left right ∧ binarySearchLoop pred l left right ≤ right := by
  induction left, right using binarySearchLoop.induct pred l with
  | case1 left right hlt mid hp ih =>
    have hm : mid = left + (right - left) / 2 := rfl
    rw [binarySearchLoop, if_pos hlt]
    simp only [← hm, hp, if_true]
    have := ih (by omega)
    omega
  | case2 left right hlt mid hp ih =>
    have hm : mid = left + (right - left) / 2 := rfl
    rw [binarySearchLoop, if_pos hlt]
    simp only [← hm, hp]
    have := ih (by omega)
    simp only [Bool.false_eq_true, if_false]
    omega
  | case3 left right hlt =>
    rw [binarySearchLoop, if_neg hlt]
    omega

theorem binarySearchLoop_eq (pred : α → Bool) (l : List α) (k : Nat)
    (hk : ∀ i, (hi : i < l.length) → (pred l[i] = true ↔ i < k)) (left right : Nat)
    (h1 : left ≤ k) (h2 : k ≤ right) (h3 : right ≤ l.length) :
    binarySearchLoop pred l left right = k := by
  induction left, right using binarySearchLoop.induct pred l with
  | case1 left right hlt mid hp ih =>
    have hm : mid = left + (right - left) / 2 := rfl
    rw [binarySearchLoop, if_pos hlt]
    have hml : mid < l.length := by omega
    have hpm : mid < k := by
      rw [List.getElem?_eq_getElem hml] at hp
      exact (hk mid hml).1 (by simpa using hp)
    simp only [← hm, hp, if_true]
    exact ih (by omega) h2 h3
  | case2 left right hlt mid hp ih =>
    have hm : mid = left + (right - left) / 2 := rfl
    rw [binarySearchLoop, if_pos hlt]
    have hml : mid < l.length := by omega
    have hpm : ¬ mid < k := by
      rw [List.getElem?_eq_getElem hml] at hp
      exact fun hc => hp (by simpa using (hk mid hml).2 hc)
    simp only [← hm, hp]
    simp only [Bool.false_eq_true, if_false]
    exact ih h1 (by omega) (by omega)
  | case3 left right hlt =>
    rw [binarySearchLoop, if_neg hlt]
    omega

theorem partitionPoint_le (pred : α → Bool) (l : List α) : partitionPoint pred l ≤ l.length :=
  (binarySearchLoop_bounds pred l 0 l.length (Nat.zero_le _)).2

theorem partitionPoint_eq (pred : α → Bool) (l : List α) (k : Nat) (h : k ≤ l.length)
    (hk : ∀ i, (hi : i < l.length) → (pred l[i] = true ↔ i < k)) : partitionPoint pred l = k :=
  binarySearchLoop_eq pred l k hk 0 l.length (Nat.zero_le _) h (Nat.le_refl _)

theorem branchlessLoop_eq (pred : α → Bool) (l : List α) (k : Nat)
    (hk : ∀ i, (hi : i < l.length) → (pred l[i] = true ↔ i < k)) (base size : Nat) (hs : 1 ≤ size)
    (h1 : base = 0 ∨ base < k) (h2 : k ≤ base + size) (h3 : base + size ≤ l.length) :
    branchlessLoop pred l base size = k - 1 := by
  induction base, size using branchlessLoop.induct pred l with
  | case1 base size hlt half mid base' ih =>
    have hh : half = size / 2 := rfl
    have hm : mid = base + half := rfl
    have hml : mid < l.length := by omega
    have hb' : base' = if (l[mid]?.map pred).getD false then mid else base := rfl
    rw [branchlessLoop, if_pos hlt]
    change branchlessLoop pred l base' (size - half) = k - 1
    have hcase : (mid < k ∧ base' = mid) ∨ (¬ mid < k ∧ base' = base) := by
      rw [List.getElem?_eq_getElem hml] at hb'
      by_cases hc : mid < k
      · left; exact ⟨hc, by rw [hb']; simp [(hk mid hml).2 hc]⟩
      · right
        have : ¬ pred l[mid] = true := fun hp => hc ((hk mid hml).1 hp)
        exact ⟨hc, by rw [hb']; simp [this]⟩
    rcases hcase with ⟨hc, hb⟩ | ⟨hc, hb⟩
    · exact ih (by omega) (by omega) (by omega) (by omega)
    · exact ih (by omega) (by omega) (by omega) (by omega)
  | case2 base size hlt =>
    rw [branchlessLoop, if_neg hlt]
    omega

theorem partitionPointBranchless_eq (pred : α → Bool) (l : List α) (k : Nat) (h : k ≤ l.length)
    (hk : ∀ i, (hi : i < l.length) → (pred l[i] = true ↔ i < k)) : partitionPointBranchless pred l = k := by
  unfold partitionPointBranchless
  by_cases hl : l.length = 0
  · rw [if_pos hl]; omega
  · rw [if_neg hl]
    have hb := branchlessLoop_eq pred l k hk 0 l.length (by omega) (Or.inl rfl) (by omega) (by omega)
    simp only [hb]
    have hkl : k - 1 < l.length := by omega
    rw [List.getElem?_eq_getElem hkl]
    by_cases hc : k = 0
    · have : ¬ pred l[k-1] = true := fun hp => by have := (hk _ hkl).1 hp; omega
      simp [this]; omega
    · have : pred l[k-1] = true := (hk _ hkl).2 (by omega)
      simp [this]; omega

/-- Every sorted list has a cut position for each `x`. -/
theorem exists_cut {V P : Type} [HasX P V] [LinearOrder V] (points : List P)
    (hs : points.Pairwise fun p q => HasX.x p ≤ HasX.x q) (x : V) :
    ∃ k, k ≤ points.length ∧
      ∀ i, (hi : i < points.length) → (decide (HasX.x points[i] < x) = true ↔ i < k) := by
  induction points with
  | nil => exact ⟨0, by simp, by intro i hi; simp at hi⟩
  | cons p ps ih =>
    rw [List.pairwise_cons] at hs
    obtain ⟨k, hk, h⟩ := ih hs.2
    by_cases hp : HasX.x p < x
    · refine ⟨k + 1, by simp; omega, ?_⟩
      intro i hi
      cases i with
      | zero => simp [hp]
      | succ i =>
        have hi' : i < ps.length := by simp at hi; omega
        have := h i hi'
        simp only [List.getElem_cons_succ]
        rw [this]; omega
    · refine ⟨0, by simp, ?_⟩
      intro i hi
      cases i with
      | zero => simp [hp]
      | succ i =>
        have hi' : i < ps.length := by simp at hi; omega
        have hle := hs.1 ps[i] (List.getElem_mem hi')
        simp only [List.getElem_cons_succ, decide_eq_true_eq, Nat.not_lt_zero, iff_false]
        exact fun hc => hp (lt_of_le_of_lt hle hc)

/-- The four outcomes of the index search in terms of the cut position. -/
theorem findIndex_of_cut {V P : Type} [HasX P V] [LT V] [DecidableLT V] [LE V] [DecidableLE V]
    (p : P) (ps : List P) (x : V) (k : Nat) (hk : k ≤ (p :: ps).length)
    (h : ∀ i, (hi : i < (p :: ps).length) → (decide (HasX.x (p :: ps)[i] < x) = true ↔ i < k)) :
    findIndexAtLeftBoundary (p :: ps) x =
      if k = 0 ∧ HasX.x p ≤ x then .ok 0
      else if k = 0 then .error (.outOfLowerBound x)
      else if k = (p :: ps).length then .error (.outOfUpperBound x)
      else .ok (k - 1) := by
  unfold findIndexAtLeftBoundary
  simp only [partitionPoint_eq (fun p => decide (HasX.x p < x)) _ k hk h]

theorem findIndex_eq_ok {V P : Type} [HasX P V] [LT V] [DecidableLT V] [LE V] [DecidableLE V]
    {points : List P} {x : V} {i : Nat} (h : findIndexAtLeftBoundary points x = .ok i) :
    i < points.length ∧ (i + 1 < points.length ∨
      (i = 0 ∧ points.length = 1 ∧ ∃ p, points = [p] ∧ HasX.x p ≤ x ∧ ¬ HasX.x p < x)) := by
  unfold findIndexAtLeftBoundary at h
  match points, h with
  | p :: ps, h =>
    have hle := partitionPoint_le (fun p => decide (HasX.x p < x)) (p :: ps)
    simp only at h
    generalize hpos : partitionPoint (fun p => decide (HasX.x p < x)) (p :: ps) = pos at h hle
    split at h
    · rename_i hc
      cases h
      refine ⟨by simp, ?_⟩
      cases ps with
      | nil =>
        right
        refine ⟨rfl, rfl, p, rfl, hc.2, ?_⟩
        intro hlt
        have := partitionPoint_eq (fun p => decide (HasX.x p < x)) [p] 1 (by simp) (by
          intro i hi
          have : i = 0 := by simp at hi; omega
          subst this
          simp [hlt])
        omega
      | cons q qs => left; simp
    · split at h
      · cases h
      · split at h
        · cases h
        · cases h
          have : pos < (p :: ps).length := by omega
          constructor
          · omega
          · left; omega

section LinearOrder

variable {V P : Type} [HasX P V] [LinearOrder V]

/-- The cut of a sorted list at a known bracket. -/
theorem cut_of_bracket {points : List P} (hs : points.Pairwise fun p q => HasX.x p ≤ HasX.x q) {x : V} {k : Nat}
    (hkl : k ≤ points.length) (h1 : ∀ j, (hj : j < points.length) → j + 1 = k → HasX.x points[j] < x)
    (h2 : (hk : k < points.length) → x ≤ HasX.x points[k]) :
    ∀ i, (hi : i < points.length) → (decide (HasX.x points[i] < x) = true ↔ i < k) := by
  intro i hi
  rw [decide_eq_true_eq]
  rw [List.pairwise_iff_getElem] at hs
  constructor
  · intro h
    by_contra hc
    have hk : k < points.length := by omega
    rcases Nat.lt_or_ge k i with hki | hki
    · exact absurd (lt_of_le_of_lt (le_trans (h2 hk) (hs k i hk hi hki)) h) (lt_irrefl _)
    · have : i = k := by omega
      subst this
      exact absurd (lt_of_le_of_lt (h2 hk) h) (lt_irrefl _)
  · intro hik
    obtain ⟨j, rfl⟩ : ∃ j, k = j + 1 := ⟨k - 1, by omega⟩
    have hj : j < points.length := by omega
    have hx := h1 j hj rfl
    rcases Nat.lt_or_ge i j with hij | hij
    · exact lt_of_le_of_lt (hs i j hi hj hij) hx
    · have : i = j := by omega
      subst this; exact hx

/-- Search result strictly inside a bracket. -/
theorem findIndex_bracket {points : List P} (hs : points.Pairwise fun p q => HasX.x p ≤ HasX.x q) {x : V} {i : Nat}
    (hi : i + 1 < points.length) (h1 : HasX.x points[i] < x) (h2 : x ≤ HasX.x points[i + 1]) :
    findIndexAtLeftBoundary points x = .ok i := by
  have hc := cut_of_bracket hs (x := x) (k := i + 1) (by omega)
    (by intro j hj hjk; have : j = i := by omega
        subst this; exact h1) (fun _ => h2)
  match points, hi, hc with
  | p :: ps, hi, hc =>
    rw [findIndex_of_cut p ps x (i + 1) (by omega) hc]
    rw [if_neg (by omega), if_neg (by omega), if_neg (by omega)]
    rfl

/-- Search result at the first point. -/
theorem findIndex_first {p : P} {ps : List P} (hs : (p :: ps).Pairwise fun p q => HasX.x p ≤ HasX.x q) :
    findIndexAtLeftBoundary (p :: ps) (HasX.x p : V) = .ok 0 := by
  have hc := cut_of_bracket hs (x := HasX.x p) (k := 0) (by omega)
    (by intro j hj hjk; omega) (fun _ => le_refl _)
  rw [findIndex_of_cut p ps _ 0 (by omega) hc]
  rw [if_pos ⟨rfl, le_refl _⟩]

theorem findIndex_lower {p : P} {ps : List P} (hs : (p :: ps).Pairwise fun p q => HasX.x p ≤ HasX.x q) {x : V}
    (h : x < HasX.x p) : findIndexAtLeftBoundary (p :: ps) x = .error (.outOfLowerBound x) := by
  have hc := cut_of_bracket hs (x := x) (k := 0) (by omega)
    (by intro j hj hjk; omega) (fun _ => le_of_lt h)
  rw [findIndex_of_cut p ps _ 0 (by omega) hc]
  rw [if_neg (by intro hh; exact absurd (lt_of_le_of_lt hh.2 h) (lt_irrefl _)), if_pos rfl]

theorem findIndex_lower' {points : List P} (hs : points.Pairwise fun p q => HasX.x p ≤ HasX.x q) {x : V}
    (hne : 0 < points.length) (h : x < HasX.x points[0]) :
    findIndexAtLeftBoundary points x = .error (.outOfLowerBound x) := by
  match points, hne, h with
  | p :: ps, _, h => exact findIndex_lower hs h

theorem findIndex_upper {points : List P} (hs : points.Pairwise fun p q => HasX.x p ≤ HasX.x q) {x : V}
    (hne : 0 < points.length) (h : HasX.x points[points.length - 1] < x) :
    findIndexAtLeftBoundary points x = .error (.outOfUpperBound x) := by
  have hc := cut_of_bracket hs (x := x) (k := points.length) (by omega)
    (by intro j hj hjk; have : j = points.length - 1 := by omega
        subst this; exact h) (fun hh => absurd hh (by omega))
  match points, hne, hc with
  | p :: ps, hne, hc =>
    rw [findIndex_of_cut p ps x _ (by omega) hc]
    rw [if_neg (by simp), if_neg (by simp), if_pos rfl]

/-- On a sorted nonempty list, `x` is below the first point, at the first point, in a bracket, or above. -/
theorem position_cases {points : List P} (hs : points.Pairwise fun p q => HasX.x p ≤ HasX.x q)
    (hne : 0 < points.length) (x : V) :
    x < HasX.x points[0] ∨ x = HasX.x points[0] ∨
    (∃ i, ∃ hi : i + 1 < points.length, HasX.x points[i] < x ∧ x ≤ HasX.x points[i + 1]) ∨
    HasX.x points[points.length - 1] < x := by
  obtain ⟨k, hk, h⟩ := exists_cut points hs x
  rcases Nat.eq_zero_or_pos k with h0 | h0
  · have := h 0 hne
    rw [decide_eq_true_eq] at this
    have hn : ¬ HasX.x points[0] < x := fun hc => by have := this.1 hc; omega
    rcases lt_or_eq_of_le (not_lt.1 hn) with hlt | heq
    · exact Or.inl hlt
    · exact Or.inr (Or.inl heq)
  · rcases Nat.lt_or_ge k points.length with hlt | hge
    · refine Or.inr (Or.inr (Or.inl ⟨k - 1, by omega, ?_, ?_⟩))
      · have := (h (k - 1) (by omega)).2 (by omega)
        exact of_decide_eq_true this
      · have := h k hlt
        rw [decide_eq_true_eq] at this
        have hkk : k - 1 + 1 = k := by omega
        simp only [hkk]
        exact not_lt.1 fun hc => absurd (this.1 hc) (by omega)
    · refine Or.inr (Or.inr (Or.inr ?_))
      have := (h (points.length - 1) (by omega)).2 (by omega)
      exact of_decide_eq_true this

end LinearOrder

end Qlab
