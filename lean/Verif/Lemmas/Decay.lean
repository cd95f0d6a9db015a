import Verif.Lemmas.NaturalBounds

/-! # Weighted bounds on the natural cubic spline: distant ordinates count little -/

namespace Qlab

namespace NaturalCubic

variable {K : Type} [Field K] [LinearOrder K] [IsStrictOrderedRing K] {n : Nat} {p : Nat → K × K} {w : Nat → K}

/-- The right-hand side after the forward sweep, weighted. -/
theorem sweepY_weighted {b : Nat → K} {h Q : K} (hh : 0 < h) (hg : ∀ k, k + 1 < n → h ≤ gap p k) (hQ : 0 ≤ Q)
    (hw : ∀ k, 0 < w k) (hw1 : ∀ k, w k ≤ 3 / 2 * w (k + 1)) (hb : ∀ k, k + 2 < n → |b k| ≤ Q * h * w k)
    (i : Nat) (hi : i + 2 < n) :
    |TridiagonalMatrix.sweepY (bSide 6 p) (bMain 3 p) (bSide 6 p) b i| ≤ 3 * (Q * w i) := by
  have hgp : ∀ k, k + 1 < n → 0 < gap p k := fun k hk => lt_of_lt_of_le hh (hg k hk)
  have hW : ∀ k, 0 ≤ Q * w k := fun k => mul_nonneg hQ (hw k).le
  induction i with
  | zero =>
    have h0 := hg 0 (by omega)
    have h1 := hg 1 (by omega)
    have hd : 2 / 3 * h ≤ bMain 3 p 0 := by unfold bMain; linarith [show 0 + 1 = 1 from rfl]
    have hpos : 0 < bMain 3 p 0 := by linarith
    simp only [TridiagonalMatrix.sweepY]
    rw [abs_div, abs_of_pos hpos, div_le_iff₀ hpos]
    have t1 := hb 0 hi
    have t2 := mul_le_mul_of_nonneg_left hd (hW 0)
    have t3 := mul_nonneg (hW 0) hh.le
    linarith
  | succ i ih =>
    have h1 := hg (i + 1) (by omega)
    have h2 := hg (i + 1 + 1) (by omega)
    have hp := piv_ge hgp (i + 1) hi
    have hy := ih (by omega)
    simp only [TridiagonalMatrix.sweepY]
    rw [← TridiagonalMatrix.piv_succ]
    set P := TridiagonalMatrix.piv (bSide 6 p) (bMain 3 p) (bSide 6 p) (i + 1)
    have hpos : 0 < P := by linarith
    rw [abs_div, abs_of_pos hpos, div_le_iff₀ hpos]
    have t := abs_sub (b (i + 1)) (bSide 6 p i * TridiagonalMatrix.sweepY (bSide 6 p) (bMain 3 p) (bSide 6 p) b i)
    rw [abs_mul, show |bSide 6 p i| = gap p (i + 1) / 6 from abs_of_pos (show 0 < gap p (i + 1) / 6 by linarith)] at t
    have hy' : |TridiagonalMatrix.sweepY (bSide 6 p) (bMain 3 p) (bSide 6 p) b i| ≤ 9 / 2 * (Q * w (i + 1)) := by
      have := mul_le_mul_of_nonneg_left (hw1 i) hQ
      linarith
    have t1 := mul_le_mul_of_nonneg_left hy' (show 0 ≤ gap p (i + 1) / 6 by linarith)
    have t2 := hb (i + 1) hi
    have t3 := mul_le_mul_of_nonneg_left (show gap p (i + 1) / 4 + h / 3 ≤ P by linarith) (hW (i + 1))
    linarith

/-- The entries after the backward sweep, weighted. -/
theorem sweepX_weighted {b : Nat → K} {h Q : K} (hh : 0 < h) (hg : ∀ k, k + 1 < n → h ≤ gap p k) (hQ : 0 ≤ Q)
    (hw : ∀ k, 0 < w k) (hw1 : ∀ k, w k ≤ 3 / 2 * w (k + 1)) (hw2 : ∀ k, w (k + 1) ≤ 3 / 2 * w k)
    (hb : ∀ k, k + 2 < n → |b k| ≤ Q * h * w k) (m : Nat) (hm : m + 2 < n) (i : Nat) (hi : i + 2 < n) :
    |TridiagonalMatrix.sweepX (bSide 6 p) (bMain 3 p) (bSide 6 p) b m i| ≤ 12 * (Q * w i) := by
  have hW : ∀ k, 0 ≤ Q * w k := fun k => mul_nonneg hQ (hw k).le
  have key : ∀ d i, m - i = d → i + 2 < n →
      |TridiagonalMatrix.sweepX (bSide 6 p) (bMain 3 p) (bSide 6 p) b m i| ≤ 12 * (Q * w i) := by
    intro d
    induction d with
    | zero =>
      intro i hd hi
      rw [TridiagonalMatrix.sweepX_ge _ _ _ _ (show m ≤ i by omega)]
      have := sweepY_weighted hh hg hQ hw hw1 hb i hi
      have := hW i
      linarith
    | succ d ih =>
      intro i hd hi
      rw [TridiagonalMatrix.sweepX_lt _ _ _ _ (show i < m by omega)]
      have hy := sweepY_weighted hh hg hQ hw hw1 hb i hi
      have hc := sweepC_le (fun k hk => lt_of_lt_of_le hh (hg k hk)) i hi
      have hx := ih (i + 1) (by omega) (by omega)
      have t := abs_sub (TridiagonalMatrix.sweepY (bSide 6 p) (bMain 3 p) (bSide 6 p) b i)
        (TridiagonalMatrix.sweepC (bSide 6 p) (bMain 3 p) (bSide 6 p) i *
          TridiagonalMatrix.sweepX (bSide 6 p) (bMain 3 p) (bSide 6 p) b m (i + 1))
      rw [abs_mul] at t
      have t1 := mul_le_mul hc hx (abs_nonneg _) (by norm_num)
      have t2 := mul_le_mul_of_nonneg_left (hw2 i) hQ
      linarith
  exact key _ i rfl hi

/-- The second derivatives, weighted. -/
theorem curvature_weighted {h δ : K} (hn : 3 ≤ n) (hh : 0 < h) (hg : ∀ k, k + 1 < n → h ≤ gap p k) (hδ : 0 ≤ δ)
    (hw : ∀ k, 0 < w k) (hw1 : ∀ k, w k ≤ 3 / 2 * w (k + 1)) (hw2 : ∀ k, w (k + 1) ≤ 3 / 2 * w k)
    (hy : ∀ k, k < n → |(p k).2| ≤ δ * w k) (i : Nat) : |curvature n p i| ≤ 60 * (δ / h ^ 2 * w i) := by
  have hB : ∀ k, 0 ≤ δ / h ^ 2 * w k := fun k => mul_nonneg (by positivity) (hw k).le
  have hgp : ∀ k, k + 1 < n → 0 < gap p k := fun k hk => lt_of_lt_of_le hh (hg k hk)
  have hQ : 0 ≤ 5 * (δ / h ^ 2) := by positivity
  have hdiv : ∀ (u g B : K), h ≤ g → |u| ≤ B → |u / g| ≤ B / h := by
    intro u g B h1 h2
    have hgp : 0 < g := lt_of_lt_of_le hh h1
    rw [abs_div, abs_of_pos hgp]
    exact div_le_div₀ (le_trans (abs_nonneg _) h2) h2 hh h1
  have hb : ∀ k, k + 2 < n → |rhs n p k| ≤ 5 * (δ / h ^ 2) * h * w (k + 1) := by
    intro k hk
    have g0 := hg k (by omega)
    have g1 := hg (k + 1) (by omega)
    have p0 := hgp k (by omega)
    have p1 := hgp (k + 1) (by omega)
    have y0 := hdiv _ _ _ g0 (hy k (by omega))
    have y1 := hdiv _ _ _ g0 (hy (k + 1) (by omega))
    have y1' := hdiv _ _ _ g1 (hy (k + 1) (by omega))
    have y2 := hdiv _ _ _ g1 (hy (k + 2) (by omega))
    have e : 5 * (δ / h ^ 2) * h * w (k + 1) = 5 * (δ * w (k + 1) / h) := by field_simp
    have e0 : δ * w k / h ≤ 3 / 2 * (δ * w (k + 1) / h) := by
      rw [mul_div_assoc', div_le_div_iff_of_pos_right hh]
      have := mul_le_mul_of_nonneg_left (hw1 k) hδ
      linarith
    have e2 : δ * w (k + 2) / h ≤ 3 / 2 * (δ * w (k + 1) / h) := by
      rw [mul_div_assoc', div_le_div_iff_of_pos_right hh]
      have := mul_le_mul_of_nonneg_left (hw2 (k + 1)) hδ
      linarith
    rw [e]
    obtain ⟨a1, a2⟩ := abs_le.1 y0
    obtain ⟨b1, b2⟩ := abs_le.1 y1
    obtain ⟨c1, c2⟩ := abs_le.1 y1'
    obtain ⟨d1, d2⟩ := abs_le.1 y2
    by_cases hn3 : n = 3
    · subst hn3
      obtain rfl : k = 0 := by omega
      rw [rhs_three p p0.ne' p1.ne']
      have ec : chord p 1 - chord p 0 - (p 2).2 / gap p 1 = (p 0).2 / gap p 0 - (p 1).2 / gap p 0 - (p 1).2 / gap p 1 := by
        simp only [chord]
        rw [show (p (0 + 1)).1 - (p 0).1 = gap p 0 from rfl, show (p (1 + 1)).1 - (p 1).1 = gap p 1 from rfl]
        ring
      have hnn : 0 ≤ δ * w (0 + 1) / h := div_nonneg (mul_nonneg hδ (hw _).le) hh.le
      simp only [Nat.zero_add] at *
      rw [ec]
      exact abs_le.2 ⟨by linarith, by linarith⟩
    · rw [rhs_eq (by omega) p hk p0.ne' p1.ne']
      have ec : chord p (k + 1) - chord p k =
          (p (k + 2)).2 / gap p (k + 1) - (p (k + 1)).2 / gap p (k + 1) - (p (k + 1)).2 / gap p k + (p k).2 / gap p k := by
        simp only [chord]
        rw [show (p (k + 1)).1 - (p k).1 = gap p k from rfl, show (p (k + 1 + 1)).1 - (p (k + 1)).1 = gap p (k + 1) from rfl]
        ring
      rw [ec]
      exact abs_le.2 ⟨by linarith, by linarith⟩
  unfold curvature second
  by_cases h0 : i = 0
  · rw [if_pos h0, abs_zero]; have := hB i; linarith
  · rw [if_neg h0]
    by_cases h1 : i + 1 < n
    · rw [if_pos h1]
      have ei : i - 1 + 1 = i := by omega
      unfold solved
      by_cases hn3 : n = 3
      · rw [if_pos hn3]
        have := sweepY_weighted (w := fun k => w (k + 1)) hh hg hQ (fun k => hw _) (fun k => hw1 _) hb 0 (by omega)
        simp only [TridiagonalMatrix.sweepY] at this
        obtain rfl : i = 1 := by omega
        have := hB 1
        simp only [Nat.zero_add] at *
        linarith
      · rw [if_neg hn3]
        have := sweepX_weighted (w := fun k => w (k + 1)) hh hg hQ (fun k => hw _) (fun k => hw1 _) (fun k => hw2 _) hb
          (n - 4) (by omega) (i - 1) (by omega)
        simp only [ei] at this
        linarith
    · rw [if_neg h1, abs_zero]; have := hB i; linarith

end NaturalCubic

end Qlab
