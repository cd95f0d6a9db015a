import Verif.Lemmas.Loops
import Verif.Spec.Tridiagonal
import Mathlib.Tactic.Ring
import Mathlib.Tactic.FieldSimp
import Mathlib.Tactic.LinearCombination
import Mathlib.Algebra.BigOperators.Ring.Finset

/-! # The tridiagonal product and the Thomas sweep in closed form -/

namespace Qlab

open Spec

namespace TridiagonalMatrix
variable {V : Type}

/-! ## Closed forms, for any value type -/

section sweep
variable [Sub V] [Mul V] [Div V] (lo di up b : Nat → V)

/-- Scaled superdiagonal after the forward sweep. -/
def sweepC : Nat → V
  | 0 => up 0 / di 0
  | i + 1 => up (i + 1) / (di (i + 1) - lo i * sweepC i)

/-- Right-hand side after the forward sweep. -/
def sweepY : Nat → V
  | 0 => b 0 / di 0
  | i + 1 => (b (i + 1) - lo i * sweepY i) / (di (i + 1) - lo i * sweepC lo di up i)

/-- Entry `i` of the result when the backward sweep starts at `m - 1`. -/
def sweepX (m i : Nat) : V :=
  if _h : i < m then sweepY lo di up b i - sweepC lo di up i * sweepX m (i + 1) else sweepY lo di up b i
termination_by m - i

theorem forward_eq (n k : Nat) (hn : 2 ≤ n) (hk : n ≤ k) :
    Rust.forRange 1 n (forwardStep n (tab (n - 1) lo) (tab n di) (tab (n - 1) up))
      ([up 0 / di 0], tab k fun j => if j = 0 then b 0 / di 0 else b j) =
    .ok (tab (n - 1) (sweepC lo di up), tab k fun j => if j < n then sweepY lo di up b j else b j) := by
  have := forRange_eq (S := List V × List V)
    (fun i => (tab (min i (n - 1)) (sweepC lo di up), tab k fun j => if j < i then sweepY lo di up b j else b j))
    (forwardStep n (tab (n - 1) lo) (tab n di) (tab (n - 1) up)) (lo := 1) (hi := n) (by omega) ?_
  · rw [show min n (n - 1) = n - 1 by omega, show min 1 (n - 1) = 0 + 1 by omega, tab_succ] at this
    rw [← this]
    congr 2
    apply tab_congr
    intro j _
    rcases j with _ | j
    · simp [sweepY]
    · simp
  · rintro i h1 h2
    obtain ⟨j, rfl⟩ : ∃ j, i = j + 1 := ⟨i - 1, by omega⟩
    unfold forwardStep
    by_cases hi : j + 1 < n - 1
    · have e1 : min (j + 1) (n - 1) = j + 1 := by omega
      have e2 : min (j + 1 + 1) (n - 1) = j + 1 + 1 := by omega
      simp only [hi, if_true, Nat.add_sub_cancel, e1, e2, index_tab up hi, index_tab di h2,
        index_tab lo (show j < n - 1 by omega), index_tab (sweepC lo di up) (show j < j + 1 by omega),
        Rust.ok_bind, Rust.pure_eq]
      rw [show tab (j + 1) (sweepC lo di up) ++ [up (j + 1) / (di (j + 1) - lo j * sweepC lo di up j)] =
        tab (j + 1 + 1) (sweepC lo di up) from (tab_succ _ _).symm]
      rw [index_tab _ (show j + 1 < k by omega), index_tab _ (show j < k by omega),
        index_tab (sweepC lo di up) (show j < j + 1 + 1 by omega)]
      simp only [Rust.ok_bind]
      rw [setIndex_tab _ (show j + 1 < k by omega)]
      simp only [Rust.ok_bind]
      congr 2
      apply tab_congr
      intro l _
      by_cases hl : l = j + 1
      · subst hl; simp [sweepY]
      · simp only [hl, if_false]
        by_cases h3 : l < j + 1 <;> simp [h3] <;> omega
    · have e1 : min (j + 1) (n - 1) = j + 1 := by omega
      have e2 : min (j + 1 + 1) (n - 1) = j + 1 := by omega
      simp only [hi, if_false, Nat.add_sub_cancel, e1, e2, index_tab di h2,
        index_tab lo (show j < n - 1 by omega), index_tab (sweepC lo di up) (show j < j + 1 by omega),
        Rust.ok_bind, Rust.pure_eq]
      rw [index_tab _ (show j + 1 < k by omega), index_tab _ (show j < k by omega)]
      simp only [Rust.ok_bind]
      rw [setIndex_tab _ (show j + 1 < k by omega)]
      simp only [Rust.ok_bind]
      congr 2
      apply tab_congr
      intro l _
      by_cases hl : l = j + 1
      · subst hl; simp [sweepY]
      · simp only [hl, if_false]
        by_cases h3 : l < j + 1 <;> simp [h3] <;> omega

theorem thomas_eq (n k : Nat) (hn : 2 ≤ n) (hk : n ≤ k) :
    thomas n (tab (n - 1) lo) (tab n di) (tab (n - 1) up) (tab k b) =
      .ok (tab k fun j => if j < n then sweepX lo di up b (n - 2) j else b j) := by
  unfold thomas
  rw [index_tab up (by omega), index_tab di (by omega), index_tab b (by omega)]
  simp only [Rust.ok_bind]
  rw [setIndex_tab _ (by omega)]
  simp only [Rust.ok_bind]
  rw [show (fun j => if j = 0 then b 0 / di 0 else b j) = fun j => if j = 0 then b 0 / di 0 else b j from rfl,
    forward_eq lo di up b n k hn hk]
  simp only [Rust.ok_bind]
  have := forRangeRev_eq (S := List V)
    (fun i => tab k fun j => if j < n then (if i ≤ j then sweepX lo di up b (n - 2) j else sweepY lo di up b j)
      else b j) (backwardStep (tab (n - 1) (sweepC lo di up))) (n - 2) ?_
  · rw [show (fun j => if j < n then sweepY lo di up b j else b j) =
      fun j => if j < n then (if n - 2 ≤ j then sweepX lo di up b (n - 2) j else sweepY lo di up b j) else b j by
      funext j
      by_cases hj : n - 2 ≤ j
      · rw [sweepX]; simp [hj, Nat.not_lt.2 hj]
      · simp [hj], this]
    simp
  · intro i hi
    unfold backwardStep
    rw [index_tab _ (show i < n - 1 by omega), index_tab _ (show i + 1 < k by omega),
      index_tab _ (show i < k by omega)]
    simp only [Rust.ok_bind]
    rw [setIndex_tab _ (show i < k by omega)]
    congr 1
    apply tab_congr
    intro j _
    by_cases hj : j = i
    · subst hj
      simp only [if_true, show j < n by omega, show j + 1 < n by omega, le_refl, show ¬ j + 1 ≤ j by omega, if_false]
      conv => rhs; rw [sweepX]
      rw [dif_pos hi]
    · simp only [hj, if_false]
      by_cases h2 : i + 1 ≤ j
      · simp [h2, show i ≤ j by omega]
      · simp [h2, show ¬ i ≤ j by omega]

end sweep

section mul
variable [Add V] [Mul V] (lo di up v : Nat → V)

/-- Row `i` of the product, in the order the code adds. -/
def rowProduct (n i : Nat) : V :=
  let t := di i * v i
  let t := if i + 1 < n then t + up i * v (i + 1) else t
  if i > 0 then t + lo (i - 1) * v (i - 1) else t

theorem mul_eq (n : Nat) :
    mul ⟨tab (n - 1) up, tab n di, tab (n - 1) lo, n⟩ (tab n v) =
      .ok (some (tab n (rowProduct lo di up v n))) := by
  unfold mul
  simp only [length_tab, ne_eq, not_true_eq_false, if_false]
  have := forRange_eq (S := List V) (fun i => tab i (rowProduct lo di up v n))
    (mulStep ⟨tab (n - 1) up, tab n di, tab (n - 1) lo, n⟩ (tab n v)) (lo := 0) (hi := n) (by omega) ?_
  · rw [show ([] : List V) = tab 0 (rowProduct lo di up v n) from rfl, this]
    rfl
  · intro i _ hi
    unfold mulStep
    simp only []
    rw [index_tab di hi, index_tab v hi]
    simp only [Rust.ok_bind]
    rw [tab_succ]
    by_cases h1 : i + 1 < n
    · simp only [h1, if_true, index_tab up (show i < n - 1 by omega), index_tab v h1, Rust.ok_bind, Rust.pure_eq]
      by_cases h2 : i > 0
      · simp only [h2, if_true, index_tab lo (show i - 1 < n - 1 by omega), index_tab v (show i - 1 < n by omega),
          Rust.ok_bind, rowProduct, h1]
      · simp only [h2, if_false, rowProduct, h1, if_true]
    · simp only [h1, if_false, Rust.ok_bind, Rust.pure_eq]
      by_cases h2 : i > 0
      · simp only [h2, if_true, index_tab lo (show i - 1 < n - 1 by omega), index_tab v (show i - 1 < n by omega),
          Rust.ok_bind, rowProduct, h1, if_false]
      · simp only [h2, if_false, rowProduct, h1]

end mul

/-! ## Over a field -/

section field
variable {K : Type} [Field K]

theorem sum_dense (u d l : List K) (v : Fin d.length → K) (v' : Nat → K) (hv : ∀ j, v j = v' j) (i : Fin d.length) :
    ((dense u d l).mulVec v) i =
      rowProduct (fun i => l.getD i 0) (fun i => d.getD i 0) (fun i => u.getD i 0) v' d.length i := by
  obtain ⟨i, hi⟩ := i
  unfold Matrix.mulVec dotProduct
  have e : ∀ j : Fin d.length, dense u d l ⟨i, hi⟩ j * v j =
      (fun j : Nat => (if j = i then d.getD i 0 * v' i else 0) +
        ((if j = i + 1 then u.getD i 0 * v' (i + 1) else 0) +
        if i = j + 1 then l.getD (i - 1) 0 * v' (i - 1) else 0)) j.val := by
    rintro ⟨j, hj⟩
    simp only [dense, hv, Fin.mk.injEq, Fin.getElem_fin]
    by_cases h1 : j = i
    · subst h1
      simp [hi]
    · by_cases h2 : j = i + 1
      · subst h2; simp; omega
      · by_cases h3 : i = j + 1
        · subst h3; simp [show ¬ j = j + 1 + 1 by omega]
        · simp [h1, h2, h3]
  rw [Finset.sum_congr rfl (fun j _ => e j), Fin.sum_univ_eq_sum_range
    (fun j : Nat => (if j = i then d.getD i 0 * v' i else 0) +
        ((if j = i + 1 then u.getD i 0 * v' (i + 1) else 0) +
        if i = j + 1 then l.getD (i - 1) 0 * v' (i - 1) else 0)), Finset.sum_add_distrib, Finset.sum_add_distrib,
    Finset.sum_ite_eq', Finset.sum_ite_eq']
  have e3 : ∑ j ∈ Finset.range d.length, (if i = j + 1 then l.getD (i - 1) 0 * v' (i - 1) else 0) =
      if 0 < i then l.getD (i - 1) 0 * v' (i - 1) else 0 := by
    rcases i with _ | i
    · simp
    · simp only [Nat.add_right_cancel_iff, Finset.sum_ite_eq, Finset.mem_range]
      simp [show i < d.length by omega]
  rw [e3]
  simp only [Finset.mem_range, hi, if_true, rowProduct]
  by_cases h1 : i + 1 < d.length <;> by_cases h2 : 0 < i <;> (simp [h1, h2]; try ring)

variable (lo di up b : Nat → K)

/-- Pivots in function form. -/
def piv : Nat → K
  | 0 => di 0
  | i + 1 => di (i + 1) - lo i * (up i / piv i)

theorem sweepC_eq (i : Nat) : sweepC lo di up i = up i / piv lo di up i := by
  induction i with
  | zero => rfl
  | succ i ih => simp only [sweepC, piv, ih]

theorem piv_mul_sweepC {i : Nat} (h : piv lo di up i ≠ 0) : piv lo di up i * sweepC lo di up i = up i := by
  rw [sweepC_eq]; field_simp

theorem piv_mul_sweepY_zero (h : piv lo di up 0 ≠ 0) : piv lo di up 0 * sweepY lo di up b 0 = b 0 := by
  simp only [piv, sweepY] at *; field_simp

theorem piv_mul_sweepY_succ {i : Nat} (h : piv lo di up (i + 1) ≠ 0) :
    piv lo di up (i + 1) * sweepY lo di up b (i + 1) = b (i + 1) - lo i * sweepY lo di up b i := by
  simp only [sweepY, sweepC_eq]
  rw [show di (i + 1) - lo i * (up i / piv lo di up i) = piv lo di up (i + 1) from rfl]
  field_simp

theorem piv_succ (i : Nat) : piv lo di up (i + 1) = di (i + 1) - lo i * sweepC lo di up i := by
  rw [sweepC_eq]; rfl

theorem sweepX_lt {m i : Nat} (h : i < m) :
    sweepX lo di up b m i = sweepY lo di up b i - sweepC lo di up i * sweepX lo di up b m (i + 1) := by
  rw [sweepX, dif_pos h]

theorem sweepX_ge {m i : Nat} (h : m ≤ i) : sweepX lo di up b m i = sweepY lo di up b i := by
  rw [sweepX, dif_neg (by omega)]

/-- The residual in every row of the sweep with cut-off `m`: rows up to `m` hold when the pivot is nonzero,
apart from the term to the right of the cut-off. -/
theorem residual (n m : Nat) (hm : m + 1 ≤ n) (hp : ∀ i, i < n → piv lo di up i ≠ 0) (i : Nat) (hi : i < n)
    (hm2 : n ≤ m + 2) :
    rowProduct lo di up (sweepX lo di up b m) n i =
      b i + (if i = m ∧ i + 1 < n then up i * sweepY lo di up b (m + 1) else 0) +
        (if i = m + 1 then lo m * sweepC lo di up m * sweepY lo di up b (m + 1) else 0) := by
  unfold rowProduct
  rcases i with _ | i
  · have h0 := piv_mul_sweepY_zero lo di up b (hp 0 hi)
    have h1 := piv_mul_sweepC lo di up (hp 0 hi)
    rcases Nat.lt_or_ge 0 m with hc | hc
    · rw [sweepX_lt lo di up b hc]
      simp only [show 0 + 1 < n by omega, if_true, show ¬ (0 > 0) by omega, if_false, show ¬ (0 = m) by omega,
        show ¬ (0 = m + 1) by omega, false_and]
      simp only [show piv lo di up 0 = di 0 from rfl] at h0 h1
      linear_combination h0 - sweepX lo di up b m (0 + 1) * h1
    · have hm0 : m = 0 := by omega
      subst hm0
      rw [sweepX_ge lo di up b (le_refl 0), sweepX_ge lo di up b (show 0 ≤ 0 + 1 by omega)]
      simp only [show ¬ (0 > 0) by omega, if_false, true_and, show ¬ (0 = 0 + 1) by omega]
      simp only [show piv lo di up 0 = di 0 from rfl] at h0 h1
      split_ifs
      · linear_combination h0
      · linear_combination h0
  · have h0 := piv_mul_sweepY_succ lo di up b (hp (i + 1) hi)
    have h1 := piv_mul_sweepC lo di up (hp (i + 1) hi)
    have h2 := piv_succ lo di up i
    simp only [show i + 1 > 0 by omega, if_true, Nat.add_sub_cancel]
    rcases Nat.lt_trichotomy (i + 1) m with hc | hc | hc
    · rw [sweepX_lt lo di up b (show i < m by omega), sweepX_lt lo di up b hc]
      simp only [show i + 1 + 1 < n by omega, if_true, show ¬ (i + 1 = m) by omega, show ¬ (i + 1 = m + 1) by omega,
        false_and, if_false]
      linear_combination h0 - sweepX lo di up b m (i + 1 + 1) * h1 -
        (sweepY lo di up b (i + 1) - sweepC lo di up (i + 1) * sweepX lo di up b m (i + 1 + 1)) * h2
    · subst hc
      rw [sweepX_lt lo di up b (show i < i + 1 by omega), sweepX_ge lo di up b (le_refl (i + 1)),
        sweepX_ge lo di up b (show i + 1 ≤ i + 1 + 1 by omega)]
      simp only [true_and, show ¬ (i + 1 = i + 1 + 1) by omega, if_false]
      split_ifs
      · linear_combination h0 - sweepY lo di up b (i + 1) * h2
      · linear_combination h0 - sweepY lo di up b (i + 1) * h2
    · have : i = m := by omega
      subst this
      rw [sweepX_ge lo di up b (le_refl i), sweepX_ge lo di up b (show i ≤ i + 1 by omega)]
      simp only [show ¬ (i + 1 + 1 < n) by omega, if_false, show ¬ (i + 1 = i) by omega, false_and, if_true]
      linear_combination h0 - sweepY lo di up b (i + 1) * h2

end field

end TridiagonalMatrix

end Qlab
