import Verif.Model.NaturalCubic
import Verif.Lemmas.Interpolation

/-! # Loops over index ranges and vectors given by a function -/

namespace Qlab

/-- A loop whose `i`-th state is `F i` ends in state `F hi`. -/
theorem forRange_eq {S : Type} (F : Nat → S) (body : Nat → S → Rust S) {lo hi : Nat} (hle : lo ≤ hi)
    (h : ∀ i, lo ≤ i → i < hi → body i (F i) = .ok (F (i + 1))) :
    Rust.forRange lo hi body (F lo) = .ok (F hi) := by
  obtain ⟨n, rfl⟩ := Nat.exists_eq_add_of_le hle
  unfold Rust.forRange
  rw [Nat.add_sub_cancel_left]
  clear hle
  induction n generalizing lo with
  | zero => rfl
  | succ n ih =>
    rw [List.range'_succ, List.foldlM_cons, h lo (le_refl _) (by omega)]
    have := ih (lo := lo + 1) (fun i h1 h2 => h i (by omega) (by omega))
    rw [show lo + 1 + n = lo + (n + 1) by omega] at this
    exact this

/-- A downward loop. -/
theorem forRangeRev_eq {S : Type} (F : Nat → S) (body : Nat → S → Rust S) (hi : Nat)
    (h : ∀ i, i < hi → body i (F (i + 1)) = .ok (F i)) :
    Rust.forRangeRev 0 hi body (F hi) = .ok (F 0) := by
  unfold Rust.forRangeRev
  rw [Nat.sub_zero]
  induction hi with
  | zero => rfl
  | succ n ih =>
    rw [show List.range' 0 (n + 1) = List.range' 0 n ++ [n] by
      rw [← List.range_eq_range', ← List.range_eq_range', List.range_succ],
      List.reverse_append, List.reverse_singleton, List.singleton_append, List.foldlM_cons,
      h n (by omega)]
    exact ih (fun i hi => h i (by omega))

/-- The vector `f 0, …, f (n-1)`. -/
def tab {V : Type} (n : Nat) (f : Nat → V) : List V := (List.range n).map f

section
variable {V : Type}

@[simp] theorem length_tab (n : Nat) (f : Nat → V) : (tab n f).length = n := by simp [tab]

@[simp] theorem getElem_tab (n : Nat) (f : Nat → V) (i : Nat) (h : i < (tab n f).length) : (tab n f)[i] = f i := by
  simp [tab]

theorem index_tab {n : Nat} (f : Nat → V) {i : Nat} (h : i < n) : Rust.index (tab n f) i = .ok (f i) := by
  rw [Rust.index_of_lt (by simpa using h)]; simp

theorem setIndex_tab {n : Nat} (f : Nat → V) {i : Nat} (h : i < n) (a : V) :
    Rust.setIndex (tab n f) i a = .ok (tab n fun j => if j = i then a else f j) := by
  unfold Rust.setIndex
  rw [if_pos (by simpa using h)]
  congr 1
  apply List.ext_getElem
  · simp
  · intro j h1 h2
    rw [List.getElem_set]
    simp only [getElem_tab, eq_comm]

theorem tab_succ (n : Nat) (f : Nat → V) : tab (n + 1) f = tab n f ++ [f n] := by
  simp [tab, List.range_succ]

theorem tab_congr {n : Nat} {f g : Nat → V} (h : ∀ i, i < n → f i = g i) : tab n f = tab n g := by
  apply List.ext_getElem
  · simp
  · intro i h1 h2
    simp only [length_tab] at h1
    simp [h i h1]

theorem eq_tab (l : List V) (a : V) : l = tab l.length fun i => l.getD i a := by
  apply List.ext_getElem
  · simp
  · intro i h1 h2
    simp [h1]

theorem tab_eq_ofFn (n : Nat) (f : Nat → V) : tab n f = List.ofFn fun i : Fin n => f i := by
  apply List.ext_getElem
  · simp
  · intro i h1 h2; simp

theorem ofFn_eq_tab {n : Nat} (f : Fin n → V) (a : V) :
    List.ofFn f = tab n fun i => if h : i < n then f ⟨i, h⟩ else a := by
  apply List.ext_getElem
  · simp
  · intro i h1 h2
    have : i < n := by simpa using h1
    simp [this]

end

end Qlab
