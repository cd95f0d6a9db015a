import Verif.Lemmas.NaturalCubic
import Mathlib.Tactic.Linarith

/-! # Bounds on the pivots, the second derivatives and the values of the natural cubic spline -/

namespace Qlab

namespace NaturalCubic

variable {K : Type} [Field K] [LinearOrder K] [IsStrictOrderedRing K] {n : Nat} {p : Nat → K × K}

/-- The pivots of the elimination stay away from zero. -/
theorem piv_ge (hg : ∀ k, k + 1 < n → 0 < gap p k) (i : Nat) (hi : i + 2 < n) :
    gap p i / 4 + gap p (i + 1) / 3 ≤ TridiagonalMatrix.piv (bSide 6 p) (bMain 3 p) (bSide 6 p) i := by
  induction i with
  | zero =>
    have h0 := hg 0 (by omega)
    simp only [TridiagonalMatrix.piv, bMain]
    linarith
  | succ i ih =>
    have h0 := hg i (by omega)
    have h1 := hg (i + 1) (by omega)
    have hp := ih (by omega)
    set P := TridiagonalMatrix.piv (bSide 6 p) (bMain 3 p) (bSide 6 p) i with hP
    have hpos : 0 < P := by linarith
    simp only [TridiagonalMatrix.piv, ← hP, bMain, bSide]
    have hr : gap p (i + 1) / 6 / P ≤ 1 / 2 := by
      rw [div_le_iff₀ hpos]; linarith
    have := mul_le_mul_of_nonneg_left hr (show 0 ≤ gap p (i + 1) / 6 by linarith)
    linarith

/-- The multipliers of the elimination are at most one half. -/
theorem sweepC_le (hg : ∀ k, k + 1 < n → 0 < gap p k) (i : Nat) (hi : i + 2 < n) :
    |TridiagonalMatrix.sweepC (bSide 6 p) (bMain 3 p) (bSide 6 p) i| ≤ 1 / 2 := by
  have h0 := hg i (by omega)
  have h1 := hg (i + 1) (by omega)
  have hp := piv_ge hg i hi
  rw [TridiagonalMatrix.sweepC_eq, abs_div]
  set P := TridiagonalMatrix.piv (bSide 6 p) (bMain 3 p) (bSide 6 p) i
  have hpos : 0 < P := by linarith
  rw [abs_of_pos hpos, div_le_iff₀ hpos, bSide, abs_of_pos (by linarith)]
  linarith

/-- The right-hand side after the forward sweep. -/
theorem sweepY_le {b : Nat → K} {h R : K} (hh : 0 < h) (hg : ∀ k, k + 1 < n → h ≤ gap p k)
    (hb : ∀ k, k + 2 < n → |b k| ≤ R) (i : Nat) (hi : i + 2 < n) :
    |TridiagonalMatrix.sweepY (bSide 6 p) (bMain 3 p) (bSide 6 p) b i| ≤ 12 / 5 * R / h := by
  have hgp : ∀ k, k + 1 < n → 0 < gap p k := fun k hk => lt_of_lt_of_le hh (hg k hk)
  have hR : 0 ≤ R := le_trans (abs_nonneg _) (hb i hi)
  have hB : 0 ≤ 12 / 5 * R / h := by positivity
  have hRB : R = 5 / 12 * h * (12 / 5 * R / h) := by field_simp
  induction i with
  | zero =>
    have h0 := hg 0 (by omega)
    have h1 := hg 1 (by omega)
    have hd : 5 / 12 * h ≤ bMain 3 p 0 := by unfold bMain; linarith [show 0 + 1 = 1 from rfl]
    have hpos : 0 < bMain 3 p 0 := by linarith
    simp only [TridiagonalMatrix.sweepY]
    rw [abs_div, abs_of_pos hpos, div_le_iff₀ hpos]
    have := hb 0 hi
    have := mul_le_mul_of_nonneg_right hd hB
    linarith
  | succ i ih =>
    have h1 := hg (i + 1) (by omega)
    have h2 := hg (i + 1 + 1) (by omega)
    have hp := piv_ge hgp (i + 1) hi
    have hy := ih (by omega)
    simp only [TridiagonalMatrix.sweepY]
    rw [← TridiagonalMatrix.piv_succ]
    set P := TridiagonalMatrix.piv (bSide 6 p) (bMain 3 p) (bSide 6 p) (i + 1)
    have hpos : 0 < P := by linarith
    rw [abs_div, abs_of_pos hpos, div_le_iff₀ hpos]
    have t := abs_sub (b (i + 1)) (bSide 6 p i * TridiagonalMatrix.sweepY (bSide 6 p) (bMain 3 p) (bSide 6 p) b i)
    rw [abs_mul, show |bSide 6 p i| = gap p (i + 1) / 6 from abs_of_pos (show 0 < gap p (i + 1) / 6 by linarith)] at t
    have t1 := mul_le_mul_of_nonneg_left hy (show 0 ≤ gap p (i + 1) / 6 by linarith)
    have t2 := hb (i + 1) hi
    have t3 := mul_le_mul_of_nonneg_left (show gap p (i + 1) / 6 + 5 / 12 * h ≤ P by linarith) hB
    linarith

/-- The entries after the backward sweep. -/
theorem sweepX_le {b : Nat → K} {h R : K} (hh : 0 < h) (hg : ∀ k, k + 1 < n → h ≤ gap p k)
    (hb : ∀ k, k + 2 < n → |b k| ≤ R) (m : Nat) (hm : m + 2 < n) (i : Nat) (hi : i + 2 < n) :
    |TridiagonalMatrix.sweepX (bSide 6 p) (bMain 3 p) (bSide 6 p) b m i| ≤ 24 / 5 * R / h := by
  have hR : 0 ≤ R := le_trans (abs_nonneg _) (hb i hi)
  have hB : 0 ≤ R / h := by positivity
  have e1 : 12 / 5 * R / h = 12 / 5 * (R / h) := by ring
  have e2 : 24 / 5 * R / h = 24 / 5 * (R / h) := by ring
  have key : ∀ d i, m - i = d → i + 2 < n →
      |TridiagonalMatrix.sweepX (bSide 6 p) (bMain 3 p) (bSide 6 p) b m i| ≤ 24 / 5 * R / h := by
    intro d
    induction d with
    | zero =>
      intro i hd hi
      rw [TridiagonalMatrix.sweepX_ge _ _ _ _ (show m ≤ i by omega)]
      have := sweepY_le hh hg hb i hi
      linarith
    | succ d ih =>
      intro i hd hi
      rw [TridiagonalMatrix.sweepX_lt _ _ _ _ (show i < m by omega)]
      have hy := sweepY_le hh hg hb i hi
      have hc := sweepC_le (fun k hk => lt_of_lt_of_le hh (hg k hk)) i hi
      have hx := ih (i + 1) (by omega) (by omega)
      have t := abs_sub (TridiagonalMatrix.sweepY (bSide 6 p) (bMain 3 p) (bSide 6 p) b i)
        (TridiagonalMatrix.sweepC (bSide 6 p) (bMain 3 p) (bSide 6 p) i *
          TridiagonalMatrix.sweepX (bSide 6 p) (bMain 3 p) (bSide 6 p) b m (i + 1))
      rw [abs_mul] at t
      have t1 := mul_le_mul hc hx (abs_nonneg _) (by norm_num)
      linarith
  exact key _ i rfl hi

/-- The second derivatives. -/
theorem curvature_le {h R : K} (hn : 3 ≤ n) (hh : 0 < h) (hg : ∀ k, k + 1 < n → h ≤ gap p k)
    (hb : ∀ k, k + 2 < n → |rhs n p k| ≤ R) (i : Nat) : |curvature n p i| ≤ 24 / 5 * R / h := by
  have hR : 0 ≤ R := le_trans (abs_nonneg _) (hb 0 (by omega))
  have hB : 0 ≤ R / h := by positivity
  have e1 : 12 / 5 * R / h = 12 / 5 * (R / h) := by ring
  have e2 : 24 / 5 * R / h = 24 / 5 * (R / h) := by ring
  unfold curvature second
  by_cases h0 : i = 0
  · rw [if_pos h0, abs_zero, e2]; positivity
  · rw [if_neg h0]
    by_cases h1 : i + 1 < n
    · rw [if_pos h1]
      unfold solved
      by_cases hn3 : n = 3
      · rw [if_pos hn3]
        have := sweepY_le hh hg hb 0 (by omega)
        simp only [TridiagonalMatrix.sweepY] at this
        linarith
      · rw [if_neg hn3]
        exact sweepX_le hh hg hb (n - 4) (by omega) (i - 1) (by omega)
    · rw [if_neg h1, abs_zero, e2]; positivity

omit [LinearOrder K] in
/-- A segment as its chord plus a correction. -/
theorem cubic_eq_chord [CharZero K] {x₀ y₀ m₀ x₁ y₁ m₁ x : K} (hne : x₁ - x₀ ≠ 0) :
    cubic x₀ y₀ m₀ x₁ y₁ m₁ x = ((x₁ - x) / (x₁ - x₀) * y₀ + (x - x₀) / (x₁ - x₀) * y₁) -
      (x₁ - x₀) ^ 2 / 6 * (((x₁ - x) / (x₁ - x₀) - ((x₁ - x) / (x₁ - x₀)) ^ 3) * m₀ +
        ((x - x₀) / (x₁ - x₀) - ((x - x₀) / (x₁ - x₀)) ^ 3) * m₁) := by
  unfold cubic
  field_simp
  ring

/-- A segment leaves the range of its end points by at most one eighth of the square of its length times the largest
second derivative. -/
theorem cubic_near {x₀ y₀ m₀ x₁ y₁ m₁ x lo hi M : K} (hlt : x₀ < x₁) (h0 : x₀ ≤ x) (h1 : x ≤ x₁) (l0 : lo ≤ y₀)
    (u0 : y₀ ≤ hi) (l1 : lo ≤ y₁) (u1 : y₁ ≤ hi) (hm0 : |m₀| ≤ M) (hm1 : |m₁| ≤ M) :
    lo - (x₁ - x₀) ^ 2 / 8 * M ≤ cubic x₀ y₀ m₀ x₁ y₁ m₁ x ∧
      cubic x₀ y₀ m₀ x₁ y₁ m₁ x ≤ hi + (x₁ - x₀) ^ 2 / 8 * M := by
  have hG : 0 < x₁ - x₀ := by linarith
  rw [cubic_eq_chord hG.ne']
  set s := (x₁ - x) / (x₁ - x₀) with hs
  set t := (x - x₀) / (x₁ - x₀) with ht
  have hst : s + t = 1 := by rw [hs, ht]; field_simp; ring
  have hs0 : 0 ≤ s := div_nonneg (by linarith) hG.le
  have ht0 : 0 ≤ t := div_nonneg (by linarith) hG.le
  have hM : 0 ≤ M := le_trans (abs_nonneg _) hm0
  have es : s = 1 - t := by linarith
  have a0 : 0 ≤ s - s ^ 3 := by
    have : s - s ^ 3 = s * t * (1 + s) := by rw [es]; ring
    rw [this]; positivity
  have a1 : 0 ≤ t - t ^ 3 := by
    have : t - t ^ 3 = t * s * (1 + t) := by rw [es]; ring
    rw [this]; positivity
  have a2 : (s - s ^ 3) + (t - t ^ 3) ≤ 3 / 4 := by
    have : (s - s ^ 3) + (t - t ^ 3) = 3 / 4 - 3 * (t - 1 / 2) ^ 2 := by rw [es]; ring
    rw [this]
    have := sq_nonneg (t - 1 / 2)
    linarith
  have c : |(s - s ^ 3) * m₀ + (t - t ^ 3) * m₁| ≤ 3 / 4 * M := by
    have t1 := abs_add_le ((s - s ^ 3) * m₀) ((t - t ^ 3) * m₁)
    rw [abs_mul, abs_mul, abs_of_nonneg a0, abs_of_nonneg a1] at t1
    have t2 := mul_le_mul_of_nonneg_left hm0 a0
    have t3 := mul_le_mul_of_nonneg_left hm1 a1
    have t4 := mul_le_mul_of_nonneg_right a2 hM
    linarith
  have c2 := abs_le.1 c
  have q : 0 ≤ (x₁ - x₀) ^ 2 / 6 := by positivity
  have d1 := mul_le_mul_of_nonneg_left c2.1 q
  have d2 := mul_le_mul_of_nonneg_left c2.2 q
  have f1 := mul_le_mul_of_nonneg_left l0 hs0
  have f2 := mul_le_mul_of_nonneg_left u0 hs0
  have f3 := mul_le_mul_of_nonneg_left l1 ht0
  have f4 := mul_le_mul_of_nonneg_left u1 ht0
  have g1 : s * lo + t * lo = lo := by rw [← add_mul, hst, one_mul]
  have g2 : s * hi + t * hi = hi := by rw [← add_mul, hst, one_mul]
  constructor <;> linarith

end NaturalCubic

end Qlab
