import Verif.Lemmas.Tridiagonal
import Mathlib.Algebra.Order.Field.Basic
import Mathlib.Algebra.Order.Group.Abs
import Mathlib.Tactic.Linarith
import Mathlib.Tactic.NormNum
import Mathlib.LinearAlgebra.Matrix.Notation

/-!
# Tridiagonal systems (C42, C43)
-/

namespace Qlab.Props

open Spec TridiagonalMatrix

/-! ## C43 -/

section C43

/-- **C43.** A matrix is built exactly from diagonals of fitting lengths, and keeps them. -/
theorem C43_shape {V : Type} (u d l : List V) :
    (Shaped u d l → tryNew u d l = .ok ⟨u, d, l, d.length⟩) ∧
    (¬ Shaped u d l → tryNew u d l = .error .matrixShapeError) := by
  unfold Shaped tryNew
  constructor
  · intro h; rw [if_neg]; omega
  · intro h; rw [if_pos]; omega

/-- **C43.** The product returns `None` exactly when the vector has the wrong length; it never panics.  Any
value type. -/
theorem C43_product_length {V : Type} [Add V] [Mul V] (u d l v : List V) (hs : Shaped u d l)
    (A : TridiagonalMatrix V) (hA : tryNew u d l = .ok A) :
    (v.length ≠ d.length → A.mul v = .ok none) ∧
    (v.length = d.length → ∃ w, w.length = d.length ∧ A.mul v = .ok (some w)) := by
  rw [(C43_shape u d l).1 hs] at hA
  obtain rfl := Except.ok.inj hA
  constructor
  · intro h; simp [mul, h]
  · intro h
    cases hd : d with
    | nil => have := hs.1; simp [hd] at this
    | cons a d' =>
      have hu : u.length = d.length - 1 := by have := hs.1; omega
      have hl : l.length = d.length - 1 := by have := hs.2; omega
      rw [← hd]
      have := mul_eq (fun i => l.getD i a) (fun i => d.getD i a) (fun i => u.getD i a) (fun i => v.getD i a) d.length
      rw [← eq_tab d, show tab (d.length - 1) (fun i => u.getD i a) = u by rw [← hu, ← eq_tab],
        show tab (d.length - 1) (fun i => l.getD i a) = l by rw [← hl, ← eq_tab],
        show tab d.length (fun i => v.getD i a) = v by rw [← h, ← eq_tab]] at this
      exact ⟨_, length_tab _ _, this⟩

example : (⟨[1, 2], [3, 4, 5], [6, 7], 3⟩ : TridiagonalMatrix ℚ).mul [1, 1] = .ok none :=
  (C43_product_length [1, 2] [3, 4, 5] [6, 7] [1, 1] ⟨rfl, rfl⟩ _ rfl).1 (by decide)

variable {K : Type} [Field K]

/-- **C43.** On vectors of the right length it is the product with the dense matrix. -/
theorem C43_product (u d l : List K) (hs : Shaped u d l) (A : TridiagonalMatrix K) (hA : tryNew u d l = .ok A)
    (v : Fin d.length → K) : A.mul (List.ofFn v) = .ok (some (List.ofFn ((dense u d l).mulVec v))) := by
  rw [(C43_shape u d l).1 hs] at hA
  obtain rfl := Except.ok.inj hA
  have hu : u.length = d.length - 1 := by have := hs.1; omega
  have hl : l.length = d.length - 1 := by have := hs.2; omega
  have := mul_eq (fun i => l.getD i 0) (fun i => d.getD i 0) (fun i => u.getD i 0)
    (fun i => if h : i < d.length then v ⟨i, h⟩ else 0) d.length
  rw [← eq_tab d, show tab (d.length - 1) (fun i => u.getD i 0) = u by rw [← hu, ← eq_tab],
    show tab (d.length - 1) (fun i => l.getD i 0) = l by rw [← hl, ← eq_tab], ← ofFn_eq_tab] at this
  rw [this, tab_eq_ofFn]
  congr 3
  funext i
  rw [sum_dense u d l v (fun i => if h : i < d.length then v ⟨i, h⟩ else 0) (by intro j; simp) i]

example := C43_product (K := ℚ) [1, 2] [3, 4, 5] [6, 7] ⟨rfl, rfl⟩ _ rfl ![1, 1, 1]

/-- **C43.** The product is linear in the vector. -/
theorem C43_linear (u d l : List K) (hs : Shaped u d l) (A : TridiagonalMatrix K) (hA : tryNew u d l = .ok A)
    (v w : Fin d.length → K) (c : K) :
    ∃ r s : Fin d.length → K, A.mul (List.ofFn v) = .ok (some (List.ofFn r)) ∧ A.mul (List.ofFn w) = .ok (some (List.ofFn s)) ∧
      A.mul (List.ofFn (c • v + w)) = .ok (some (List.ofFn (c • r + s))) := by
  refine ⟨_, _, C43_product u d l hs A hA v, C43_product u d l hs A hA w, ?_⟩
  rw [C43_product u d l hs A hA, Matrix.mulVec_add, Matrix.mulVec_smul]

/-- A 3x3 product. -/
example : ∃ A, tryNew ([1, 2] : List ℚ) [3, 4, 5] [6, 7] = .ok A ∧ A.mul [1, 1, 1] = .ok (some [4, 12, 12]) := by
  refine ⟨⟨[1, 2], [3, 4, 5], [6, 7], 3⟩, rfl, ?_⟩
  decide +kernel

end C43

/-! ## C42 -/

section C42

/-- **C42.** `solve` returns a vector, without panicking, for every right-hand side of the right length; any value
type, whatever the pivots. -/
theorem C42_returns {V : Type} [Sub V] [Mul V] [Div V] (u d l b : List V) (hs : Shaped u d l)
    (A : TridiagonalMatrix V) (hA : tryNew u d l = .ok A) (hb : b.length = d.length) :
    ∃ x, x.length = d.length ∧ A.solve b = .ok x := by
  rw [(C43_shape u d l).1 hs] at hA
  obtain rfl := Except.ok.inj hA
  unfold solve
  cases hd : d with
  | nil => have := hs.1; simp [hd] at this
  | cons a d' =>
    rw [← hd]
    have hu : u.length = d.length - 1 := by have := hs.1; omega
    have hl : l.length = d.length - 1 := by have := hs.2; omega
    have hpos : 0 < d.length := by rw [hd]; simp
    by_cases h1 : d.length = 1
    · simp only [h1, if_true]
      rw [Rust.index_of_lt (show 0 < b.length by omega), Rust.index_of_lt (show 0 < d.length by omega)]
      exact ⟨[b[0] / d[0]], by simp, rfl⟩
    · simp only [h1, if_false]
      have := thomas_eq (fun i => l.getD i a) (fun i => d.getD i a) (fun i => u.getD i a) (fun i => b.getD i a)
        d.length d.length (by omega) (le_refl _)
      rw [← eq_tab d, show tab (d.length - 1) (fun i => u.getD i a) = u by rw [← hu, ← eq_tab],
        show tab (d.length - 1) (fun i => l.getD i a) = l by rw [← hl, ← eq_tab],
        show tab d.length (fun i => b.getD i a) = b by rw [← hb, ← eq_tab]] at this
      exact ⟨_, length_tab _ _, this⟩

example := C42_returns ([1, 2] : List ℚ) [0, 4, 5] [6, 7] [1, 2, 3] ⟨rfl, rfl⟩ _ rfl rfl

theorem forwardStep_length {V : Type} [Sub V] [Mul V] [Div V] {n : Nat} {lo di up : List V} {ix : Nat}
    {s s' : List V × List V} (h : forwardStep n lo di up ix s = .ok s') :
    ix < s.2.length ∧ s'.2.length = s.2.length := by
  unfold forwardStep at h
  simp only [Rust.setIndex] at h
  have fin : ∀ {x : List V} {v : V} {sc : List V},
      (if ix < s.2.length then Rust.ok (s.2.set ix v) else .panic) = .ok x → Rust.ok (sc, x) = .ok s' →
      ix < s.2.length ∧ s'.2.length = s.2.length := by
    intro x v sc hs h
    split at hs
    · rename_i hlt
      obtain rfl := Rust.ok.inj hs
      obtain rfl := Rust.ok.inj h
      exact ⟨hlt, by simp⟩
    · cases hs
  split at h
  · simp only [Rust.pure_eq, Rust.ok_bind, Rust.bind_eq_ok] at h
    obtain ⟨_, _, _, _, _, _, _, _, _, _, _, _, _, _, _, _, _, _, x, hs, h⟩ := h
    exact fin hs h
  · simp only [Rust.pure_eq, Rust.ok_bind, Rust.bind_eq_ok] at h
    obtain ⟨_, _, _, _, _, _, _, _, _, _, x, hs, h⟩ := h
    exact fin hs h

theorem foldlM_forward {V : Type} [Sub V] [Mul V] [Div V] {n : Nat} {lo di up : List V} (is : List Nat)
    {s s' : List V × List V} (h : is.foldlM (fun s i => forwardStep n lo di up i s) s = .ok s') :
    ∀ i ∈ is, i < s.2.length := by
  induction is generalizing s with
  | nil => simp
  | cons i is ih =>
    rw [List.foldlM_cons, Rust.bind_eq_ok] at h
    obtain ⟨t, ht, h⟩ := h
    obtain ⟨h1, h2⟩ := forwardStep_length ht
    intro j hj
    rcases List.mem_cons.1 hj with rfl | hj
    · exact h1
    · rw [← h2]; exact ih h j hj

/-- **C42.** A right-hand side longer than the matrix: the entries it has too many are not used.  They come back
unchanged after the answer, except for a 1x1 matrix, which drops them.  Any value type. -/
theorem C42_extra {V : Type} [Sub V] [Mul V] [Div V] (u d l b : List V) (hs : Shaped u d l)
    (A : TridiagonalMatrix V) (hA : tryNew u d l = .ok A) (hb : d.length ≤ b.length) :
    ∃ x, x.length = d.length ∧ A.solve (b.take d.length) = .ok x ∧
      A.solve b = .ok (if d.length = 1 then x else x ++ b.drop d.length) := by
  rw [(C43_shape u d l).1 hs] at hA
  obtain rfl := Except.ok.inj hA
  unfold solve
  cases hd : d with
  | nil => have := hs.1; simp [hd] at this
  | cons a d' =>
    rw [← hd]
    have hu : u.length = d.length - 1 := by have := hs.1; omega
    have hl : l.length = d.length - 1 := by have := hs.2; omega
    have hpos : 0 < d.length := by rw [hd]; simp
    by_cases h1 : d.length = 1
    · simp only [h1, if_true]
      rw [Rust.index_of_lt (show 0 < b.length by omega), Rust.index_of_lt (show 0 < d.length by omega),
        Rust.index_of_lt (show 0 < (b.take 1).length by rw [List.length_take]; omega), List.getElem_take]
      exact ⟨[b[0] / d[0]], by simp, rfl, rfl⟩
    · simp only [h1, if_false]
      have key := fun k hk => thomas_eq (fun i => l.getD i a) (fun i => d.getD i a) (fun i => u.getD i a) (fun i => b.getD i a)
        d.length k (by omega) hk
      rw [← eq_tab d, show tab (d.length - 1) (fun i => u.getD i a) = u by rw [← hu, ← eq_tab],
        show tab (d.length - 1) (fun i => l.getD i a) = l by rw [← hl, ← eq_tab]] at key
      have e1 := key d.length le_rfl
      have e2 := key b.length hb
      rw [← eq_tab b] at e2
      rw [show tab d.length (fun i => b.getD i a) = b.take d.length by
        apply List.ext_getElem
        · simp; omega
        · intro i h1 h2
          have : i < b.length := by simp at h2; omega
          simp [this]] at e1
      refine ⟨_, length_tab _ _, e1, ?_⟩
      rw [e2]
      congr 1
      apply List.ext_getElem
      · simp; omega
      · intro i h2 h3
        rw [getElem_tab, List.getElem_append]
        rw [length_tab] at h2
        by_cases hi : i < d.length
        · rw [if_pos hi, dif_pos (by simpa using hi), getElem_tab, if_pos hi]
        · rw [if_neg hi, dif_neg (by simpa using hi), List.getElem_drop, List.getD_eq_getElem?_getD, List.getElem?_eq_getElem h2, Option.getD_some]
          congr 1
          simp
          omega

/-- An equation too many: the first two are solved, the third right-hand side is passed through. -/
example : ∃ x : List ℚ, x.length = 2 ∧ (⟨[1], [2, 3], [1], 2⟩ : TridiagonalMatrix ℚ).solve [3, 4] = .ok x ∧
    (⟨[1], [2, 3], [1], 2⟩ : TridiagonalMatrix ℚ).solve [3, 4, 7] = .ok (x ++ [7]) := by
  obtain ⟨x, h1, h2, h3⟩ := C42_extra ([1] : List ℚ) [2, 3] [1] [3, 4, 7] ⟨rfl, rfl⟩ _ rfl (by decide)
  exact ⟨x, h1, h2, h3⟩

/-- **C42.** `solve` panics exactly when the right-hand side is shorter than the matrix; any value type, whatever
the pivots. -/
theorem C42_panic_iff {V : Type} [Sub V] [Mul V] [Div V] (u d l b : List V) (hs : Shaped u d l)
    (A : TridiagonalMatrix V) (hA : tryNew u d l = .ok A) : A.solve b = .panic ↔ b.length < d.length := by
  constructor
  · intro h
    by_contra hle
    obtain ⟨x, -, -, hx⟩ := C42_extra u d l b hs A hA (not_lt.1 hle)
    rw [h] at hx
    cases hx
  · intro hlt
    rw [(C43_shape u d l).1 hs] at hA
    obtain rfl := Except.ok.inj hA
    cases hr : solve ⟨u, d, l, d.length⟩ b with
    | panic => rfl
    | ok x =>
      exfalso
      unfold solve at hr
      simp only at hr
      split at hr
      · rw [Rust.bind_eq_ok] at hr
        obtain ⟨b0, h0, -⟩ := hr
        have : b = [] := List.length_eq_zero_iff.1 (by omega)
        subst this
        cases h0
      · rename_i h1
        unfold thomas at hr
        simp only [Rust.bind_eq_ok] at hr
        obtain ⟨_, _, _, _, _, h0, y, hy, s, hf, -⟩ := hr
        have hlen : y.length = b.length := by
          unfold Rust.setIndex at hy
          split at hy
          · obtain rfl := Rust.ok.inj hy; simp
          · cases hy
        have := foldlM_forward _ hf (d.length - 1) (by
          have := hs.1
          rw [List.mem_range'_1]; omega)
        simp only at this
        omega

/-- Right-hand sides of length 1, 2 and 3 for a 2x2 matrix. -/
example : ∃ A : TridiagonalMatrix ℚ, tryNew [1] [2, 4] [1] = .ok A ∧ A.solve [3] = .panic ∧
    A.solve [6, 10] = .ok [3, 2] ∧ A.solve [6, 10, 7] = .ok [3, 2, 7] := by
  refine ⟨_, rfl, ?_, ?_, ?_⟩ <;> decide +kernel

variable {K : Type} [Field K]

theorem pivot_eq_piv (u d l : List K) (i : Nat) :
    pivot u d l i = piv (fun i => l.getD i 0) (fun i => d.getD i 0) (fun i => u.getD i 0) i := by
  induction i with
  | zero => rfl
  | succ i ih => simp only [pivot, piv, ih]

/-- **C42.** A 1x1 system is solved. -/
theorem C42_size_one (d b : K) (hd : d ≠ 0) (A : TridiagonalMatrix K) (hA : tryNew [] [d] [] = .ok A) :
    ∃ x, A.solve [b] = .ok [x] ∧ d * x = b := by
  rw [(C43_shape [] [d] []).1 ⟨rfl, rfl⟩] at hA
  obtain rfl := Except.ok.inj hA
  exact ⟨b / d, rfl, by field_simp⟩

example : ∃ x, (⟨[], [4], [], 1⟩ : TridiagonalMatrix ℚ).solve [2] = .ok [x] ∧ 4 * x = 2 :=
  C42_size_one 4 2 (by norm_num) _ rfl

/-- **C42.** Larger systems with nonzero pivots: all rows but the last two are satisfied, and the last two are
missed by exactly the skipped back-substitution term.  Missing for the full property: the last two rows. -/
theorem C42_rows_partial (u d l : List K) (n : Nat) (hn : d.length = n + 2) (hs : Shaped u d l)
    (hp : NonzeroPivots u d l) (A : TridiagonalMatrix K) (hA : tryNew u d l = .ok A) (b : Fin d.length → K) :
    ∃ x : Fin d.length → K, A.solve (List.ofFn b) = .ok (List.ofFn x) ∧
      (∀ i, i.val < n → (dense u d l).mulVec x i = b i) ∧
      (dense u d l).mulVec x ⟨n, by omega⟩ = b ⟨n, by omega⟩ + u.getD n 0 * x ⟨n + 1, by omega⟩ ∧
      (dense u d l).mulVec x ⟨n + 1, by omega⟩ =
        b ⟨n + 1, by omega⟩ + l.getD n 0 * (u.getD n 0 / pivot u d l n) * x ⟨n + 1, by omega⟩ := by
  rw [(C43_shape u d l).1 hs] at hA
  obtain rfl := Except.ok.inj hA
  have hu : u.length = d.length - 1 := by have := hs.1; omega
  have hl : l.length = d.length - 1 := by have := hs.2; omega
  set b' : Nat → K := fun i => if h : i < d.length then b ⟨i, h⟩ else 0 with hb'
  have := thomas_eq (fun i => l.getD i 0) (fun i => d.getD i 0) (fun i => u.getD i 0) b'
    d.length d.length (by omega) (le_refl _)
  rw [← eq_tab d, show tab (d.length - 1) (fun i => u.getD i 0) = u by rw [← hu, ← eq_tab],
    show tab (d.length - 1) (fun i => l.getD i 0) = l by rw [← hl, ← eq_tab],
    show tab d.length b' = List.ofFn b from (ofFn_eq_tab b 0).symm, tab_eq_ofFn] at this
  have hres := residual (fun i => l.getD i 0) (fun i => d.getD i 0) (fun i => u.getD i 0) b' d.length n
    (by omega) (fun i hi => by rw [← pivot_eq_piv]; exact hp i hi)
  have hm : ∀ i : Fin d.length, b' i = b i := by intro i; simp [hb']
  have e2 : d.length - 2 = n := by omega
  have hlast : sweepX (fun i => l.getD i 0) (fun i => d.getD i 0) (fun i => u.getD i 0) b' n (n + 1) =
      sweepY (fun i => l.getD i 0) (fun i => d.getD i 0) (fun i => u.getD i 0) b' (n + 1) :=
    sweepX_ge _ _ _ _ (by omega)
  refine ⟨fun i => sweepX (fun i => l.getD i 0) (fun i => d.getD i 0) (fun i => u.getD i 0) b' n i, ?_, ?_, ?_, ?_⟩
  · unfold solve
    rw [if_neg (by simp only []; omega), this]
    congr 2
    funext i
    simp [e2]
  · intro i hi
    rw [sum_dense u d l _ _ (fun _ => rfl), hres i i.2 (by omega), if_neg (by omega), if_neg (by omega), hm]
    ring
  · rw [sum_dense u d l _ _ (fun _ => rfl), hres n (by omega) (by omega), if_pos ⟨rfl, by omega⟩, if_neg (by omega),
      hm ⟨n, by omega⟩, ← hlast]
    ring
  · rw [sum_dense u d l _ _ (fun _ => rfl), hres (n + 1) (by omega) (by omega), if_neg (by omega), if_pos rfl,
      hm ⟨n + 1, by omega⟩, ← hlast, sweepC_eq, ← pivot_eq_piv]
    ring

example := C42_rows_partial (K := ℚ) [1, 1] [4, 4, 4] [1, 1] 1 rfl ⟨rfl, rfl⟩
  (by intro i hi; simp only [List.length_cons, List.length_nil] at hi
      obtain rfl | rfl | rfl : i = 0 ∨ i = 1 ∨ i = 2 := by omega
      all_goals decide +kernel) _ rfl ![5, 6, 7]

/-- **C42.** When the answer is nevertheless right: exactly when the last superdiagonal entry or the last
component of the answer is zero.  Missing for the full property: all other systems. -/
theorem C42_solves_iff_partial (u d l : List K) (n : Nat) (hn : d.length = n + 2) (hs : Shaped u d l)
    (hp : NonzeroPivots u d l) (A : TridiagonalMatrix K) (hA : tryNew u d l = .ok A) (b : Fin d.length → K) :
    ∃ x : Fin d.length → K, A.solve (List.ofFn b) = .ok (List.ofFn x) ∧
      ((dense u d l).mulVec x = b ↔ u.getD n 0 = 0 ∨ x ⟨n + 1, by omega⟩ = 0) := by
  obtain ⟨x, hx, h1, h2, h3⟩ := C42_rows_partial u d l n hn hs hp A hA b
  refine ⟨x, hx, fun h => ?_, fun h => ?_⟩
  · rw [h] at h2
    exact mul_eq_zero.1 (left_eq_add.1 h2)
  · funext i
    rcases Nat.lt_trichotomy i.val n with hi | hi | hi
    · exact h1 i hi
    · obtain ⟨i, hi'⟩ := i
      simp only at hi; subst hi
      rw [h2]
      rcases h with h | h <;> rw [h] <;> ring
    · have : i = ⟨n + 1, by omega⟩ := by apply Fin.ext; have := i.2; simp only []; omega
      rw [this, h3]
      rcases h with h | h <;> rw [h] <;> ring

example := C42_solves_iff_partial (K := ℚ) [1, 1] [4, 4, 4] [1, 1] 1 rfl ⟨rfl, rfl⟩
  (by intro i hi; simp only [List.length_cons, List.length_nil] at hi
      obtain rfl | rfl | rfl : i = 0 ∨ i = 1 ∨ i = 2 := by omega
      all_goals decide +kernel) _ rfl ![5, 6, 7]

/-- **C42 (violated).** A regular 2x2 system that is not solved: rows (2,1), (1,2) with right-hand side (3,3)
has the solution (1,1), and (3/2,1) is returned. -/
theorem C42_refuted : ∃ A : TridiagonalMatrix ℚ, tryNew [1] [2, 2] [1] = .ok A ∧ NonzeroPivots (K := ℚ) [1] [2, 2] [1] ∧
    A.mul [1, 1] = .ok (some [3, 3]) ∧ A.solve [3, 3] = .ok [3 / 2, 1] := by
  refine ⟨⟨[1], [2, 2], [1], 2⟩, rfl, ?_, by decide +kernel, by decide +kernel⟩
  intro i hi
  simp only [List.length_cons, List.length_nil] at hi
  obtain rfl | rfl : i = 0 ∨ i = 1 := by omega
  · decide +kernel
  · decide +kernel

/-- **C42.** Strictly row-dominant matrices, such as those of the spline, have nonzero pivots. -/
theorem C42_dominant_pivots [LinearOrder K] [IsStrictOrderedRing K] (u d l : List K)
    (h0 : |u.getD 0 0| < |d.getD 0 0|)
    (hd : ∀ i, i + 1 < d.length → |l.getD i 0| + |u.getD (i + 1) 0| < |d.getD (i + 1) 0|) : NonzeroPivots u d l := by
  have key : ∀ i, i < d.length → |u.getD i 0| < |pivot u d l i| := by
    intro i
    induction i with
    | zero => intro _; exact h0
    | succ i ih =>
      intro hi
      have ih := ih (by omega)
      have hr : |u.getD i 0 / pivot u d l i| ≤ 1 := by
        rw [abs_div]
        exact div_le_one_of_le₀ (le_of_lt ih) (abs_nonneg _)
      have h1 : |l.getD i 0 * (u.getD i 0 / pivot u d l i)| ≤ |l.getD i 0| := by
        rw [abs_mul]
        exact mul_le_of_le_one_right (abs_nonneg _) hr
      have h2 := abs_sub_abs_le_abs_sub (d.getD (i + 1) 0) (l.getD i 0 * (u.getD i 0 / pivot u d l i))
      have h3 := hd i hi
      simp only [pivot]
      linarith
  intro i hi
  exact abs_pos.1 (lt_of_le_of_lt (abs_nonneg _) (key i hi))

/-- A 3x3 system meeting the hypotheses; here the last component of the answer is 0, so it is solved. -/
example : NonzeroPivots (K := ℚ) [1, 1] [4, 4, 4] [1, 1] ∧
    ∃ A : TridiagonalMatrix ℚ, tryNew [1, 1] [4, 4, 4] [1, 1] = .ok A ∧ A.solve [5, 5, 1] = .ok [1, 1, 0] ∧
      A.mul [1, 1, 0] = .ok (some [5, 5, 1]) := by
  refine ⟨C42_dominant_pivots _ _ _ (by decide +kernel) ?_, ⟨[1, 1], [4, 4, 4], [1, 1], 3⟩, rfl,
    by decide +kernel, by decide +kernel⟩
  intro i hi
  simp only [List.length_cons, List.length_nil] at hi
  obtain rfl | rfl : i = 0 ∨ i = 1 := by omega
  · decide +kernel
  · decide +kernel

end C42

end Qlab.Props
