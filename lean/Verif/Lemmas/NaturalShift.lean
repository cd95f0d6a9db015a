import Verif.Lemmas.NaturalBounds
import Mathlib.Data.Real.Basic

/-! # Natural cubic splines on slightly moved abscissae -/

namespace Qlab

namespace NaturalCubic

/-! ## Single steps in real numbers -/

/-- A pivot of the elimination. -/
theorem piv_step {θ d d' e e' P P' : ℝ} (hθ : 0 ≤ θ) (hθ1 : θ ≤ 1 / 100) (he : 0 < e) (hP : 0 < P) (heP : e ≤ P / 2)
    (hd : 2 * e ≤ d) (ed : |d' - d| ≤ θ * d) (ee : |e' - e| ≤ θ * e) (eP : |P' - P| ≤ 4 * θ * P) :
    |(d' - e' * (e' / P')) - (d - e * (e / P))| ≤ 4 * θ * (d - e * (e / P)) := by
  obtain ⟨a1, a2⟩ := abs_le.1 ee
  obtain ⟨b1, b2⟩ := abs_le.1 eP
  have m1 := mul_le_mul_of_nonneg_right hθ1 he.le
  have m2 := mul_le_mul_of_nonneg_right hθ1 hP.le
  have hP' : 0 < P' := by linarith
  have he' : 0 < e' := by linarith
  set z := e * (e / P) with hz
  have hz0 : 0 ≤ z := by positivity
  have hzd : z ≤ d / 4 := by
    have : e / P ≤ 1 / 2 := by rw [div_le_iff₀ hP]; linarith
    have := mul_le_mul_of_nonneg_left this he.le
    linarith
  have hdz : |e' * (e' / P') - z| ≤ 6.6 * θ * z := by
    have e1 : e' * (e' / P') - z = ((e' ^ 2 - e ^ 2) * P - e ^ 2 * (P' - P)) / (P' * P) := by
      rw [hz]; field_simp; ring
    have e2 : 6.6 * θ * z = 6.6 * θ * e ^ 2 * P' / (P' * P) := by
      rw [hz]; field_simp
    rw [e1, e2, abs_div, abs_of_pos (mul_pos hP' hP)]
    refine div_le_div_of_nonneg_right ?_ (mul_pos hP' hP).le
    have t1 : |e' ^ 2 - e ^ 2| ≤ 2.01 * θ * e ^ 2 := by
      rw [show e' ^ 2 - e ^ 2 = (e' - e) * (e' + e) by ring, abs_mul, abs_of_pos (by linarith : 0 < e' + e)]
      have := mul_le_mul ee (show e' + e ≤ 2.01 * e by linarith) (by linarith) (by positivity)
      linarith
    have t2 := mul_le_mul_of_nonneg_right t1 hP.le
    have t3 := mul_le_mul_of_nonneg_left eP (sq_nonneg e)
    have t4 : |(e' ^ 2 - e ^ 2) * P - e ^ 2 * (P' - P)| ≤ 2.01 * θ * e ^ 2 * P + e ^ 2 * (4 * θ * P) := by
      refine le_trans (abs_sub _ _) ?_
      rw [abs_mul, abs_mul, abs_of_pos hP, abs_of_nonneg (sq_nonneg e)]
      linarith
    have t5 : 6.6 * θ * e ^ 2 * (0.96 * P) ≤ 6.6 * θ * e ^ 2 * P' :=
      mul_le_mul_of_nonneg_left (by linarith) (by positivity)
    have t6 : 0 ≤ θ * e ^ 2 * P := by positivity
    linarith
  have e3 : (d' - e' * (e' / P')) - (d - z) = (d' - d) - (e' * (e' / P') - z) := by ring
  rw [e3]
  refine le_trans (abs_sub _ _) ?_
  have f1 := mul_le_mul_of_nonneg_left hzd hθ
  have f2 : 0 ≤ θ * d := le_trans (abs_nonneg _) ed
  linarith

/-- A multiplier of the elimination. -/
theorem mult_step {θ e e' P P' : ℝ} (hθ : 0 ≤ θ) (hθ1 : θ ≤ 1 / 100) (he : 0 < e) (hP : 0 < P) (heP : e ≤ P / 2)
    (ee : |e' - e| ≤ θ * e) (eP : |P' - P| ≤ 4 * θ * P) : |e' / P' - e / P| ≤ 2.62 * θ ∧ |e' / P'| ≤ 0.527 := by
  obtain ⟨a1, a2⟩ := abs_le.1 ee
  obtain ⟨b1, b2⟩ := abs_le.1 eP
  have m1 := mul_le_mul_of_nonneg_right hθ1 he.le
  have m2 := mul_le_mul_of_nonneg_right hθ1 hP.le
  have hP' : 0.96 * P ≤ P' := by linarith
  have hP0 : 0 < P' := by linarith
  have he' : 0 < e' := by linarith
  constructor
  · have e1 : e' / P' - e / P = ((e' - e) * P - e * (P' - P)) / (P' * P) := by field_simp; ring
    rw [e1, abs_div, abs_of_pos (mul_pos hP0 hP), div_le_iff₀ (mul_pos hP0 hP)]
    refine le_trans (abs_sub _ _) ?_
    rw [abs_mul, abs_mul, abs_of_pos hP, abs_of_pos he]
    have t1 := mul_le_mul_of_nonneg_right ee hP.le
    have t2 := mul_le_mul_of_nonneg_left eP he.le
    have t3 : θ * (e * P) ≤ θ * (P / 2 * P) := mul_le_mul_of_nonneg_left (mul_le_mul_of_nonneg_right heP hP.le) hθ
    have t4 : θ * (0.96 * P * P) ≤ θ * (P' * P) := mul_le_mul_of_nonneg_left (mul_le_mul_of_nonneg_right hP' hP.le) hθ
    have t5 : 0 ≤ θ * (P * P) := by positivity
    linarith
  · rw [abs_of_pos (div_pos he' hP0), div_le_iff₀ hP0]
    linarith

/-- An entry of the forward sweep. -/
theorem sweep_step {θ M h b b' e e' P P' Y Y' Z Z' : ℝ} (hθ : 0 ≤ θ) (hθ1 : θ ≤ 1 / 100) (hM : 0 ≤ M) (he : 0 ≤ e)
    (hP : 0 < P) (heP : e ≤ 2 / 3 * P) (hhP : h ≤ 12 / 7 * P) (eb : |b' - b| ≤ 0.43 * θ * h * M)
    (ee : |e' - e| ≤ θ * e) (eP : |P' - P| ≤ 4 * θ * P) (hY : |Y| ≤ M) (hZ : |(b - e * Y) / P| ≤ M)
    (eY : |Y' - Y| ≤ 19 * θ * M) (hz : Z = (b - e * Y) / P) (hz' : Z' = (b' - e' * Y') / P') :
    |Z' - Z| ≤ 19 * θ * M := by
  obtain ⟨b1, b2⟩ := abs_le.1 eP
  obtain ⟨a1, a2⟩ := abs_le.1 ee
  have m2 := mul_le_mul_of_nonneg_right hθ1 hP.le
  have m1 := mul_le_mul_of_nonneg_right hθ1 he
  have hP' : 0.96 * P ≤ P' := by linarith
  have hP0 : 0 < P' := by linarith
  have k1 : (Z' - Z) * P' = (b' - b) - (e' - e) * Y - e' * (Y' - Y) - (P' - P) * Z := by
    rw [hz, hz']; field_simp; ring
  rw [← hz] at hZ
  have hk : |Z' - Z| * P' ≤ 0.43 * θ * h * M + θ * e * M + 1.01 * e * (19 * θ * M) + 4 * θ * P * M := by
    rw [show |Z' - Z| * P' = |(Z' - Z) * P'| by rw [abs_mul, abs_of_pos hP0], k1]
    have s1 := abs_sub ((b' - b) - (e' - e) * Y - e' * (Y' - Y)) ((P' - P) * Z)
    have s2 := abs_sub ((b' - b) - (e' - e) * Y) (e' * (Y' - Y))
    have s3 := abs_sub (b' - b) ((e' - e) * Y)
    rw [abs_mul] at s1 s2 s3
    have r1 := mul_le_mul ee hY (abs_nonneg _) (by positivity)
    have r2 := mul_le_mul eP hZ (abs_nonneg _) (by positivity)
    have he' : |e'| ≤ 1.01 * e := abs_le.2 ⟨by linarith, by linarith⟩
    have r3 := mul_le_mul he' eY (abs_nonneg _) (by positivity)
    linarith
  have n1 : θ * M * h ≤ θ * M * (12 / 7 * P) := mul_le_mul_of_nonneg_left hhP (by positivity)
  have n2 : θ * M * e ≤ θ * M * (2 / 3 * P) := mul_le_mul_of_nonneg_left heP (by positivity)
  have n3 : 0 ≤ θ * M * P := by positivity
  have n4 : 19 * θ * M * (0.96 * P) ≤ 19 * θ * M * P' := mul_le_mul_of_nonneg_left hP' (by positivity)
  have : |Z' - Z| * P' ≤ 19 * θ * M * P' := by linarith
  exact le_of_mul_le_mul_right this hP0

/-! ## The sweeps -/

variable {n : Nat} {p q : Nat → ℝ × ℝ} {θ : ℝ}

theorem side_shift (hg : ∀ k, k + 1 < n → |gap p k - gap q k| ≤ θ * gap q k) {k : Nat} (hk : k + 2 < n) :
    |bSide 6 p k - bSide 6 q k| ≤ θ * bSide 6 q k := by
  have := hg (k + 1) (by omega)
  unfold bSide
  rw [← sub_div, abs_div, abs_of_pos (by norm_num : (0 : ℝ) < 6), ← mul_div_assoc]
  exact div_le_div_of_nonneg_right this (by norm_num)

theorem main_shift (hg : ∀ k, k + 1 < n → |gap p k - gap q k| ≤ θ * gap q k) {k : Nat} (hk : k + 2 < n) :
    |bMain 3 p k - bMain 3 q k| ≤ θ * bMain 3 q k := by
  have h0 := hg k (by omega)
  have h1 := hg (k + 1) (by omega)
  unfold bMain
  rw [← sub_div, abs_div, abs_of_pos (by norm_num : (0 : ℝ) < 3), ← mul_div_assoc]
  refine div_le_div_of_nonneg_right ?_ (by norm_num)
  have := abs_add_le (gap p k - gap q k) (gap p (k + 1) - gap q (k + 1))
  rw [show gap p k - gap q k + (gap p (k + 1) - gap q (k + 1)) = gap p k + gap p (k + 1) - (gap q k + gap q (k + 1)) by
    ring] at this
  linarith

theorem piv_shift (hθ : 0 ≤ θ) (hθ1 : θ ≤ 1 / 100) (hq : ∀ k, k + 1 < n → 0 < gap q k)
    (hg : ∀ k, k + 1 < n → |gap p k - gap q k| ≤ θ * gap q k) (i : Nat) (hi : i + 2 < n) :
    |TridiagonalMatrix.piv (bSide 6 p) (bMain 3 p) (bSide 6 p) i -
      TridiagonalMatrix.piv (bSide 6 q) (bMain 3 q) (bSide 6 q) i| ≤
      4 * θ * TridiagonalMatrix.piv (bSide 6 q) (bMain 3 q) (bSide 6 q) i := by
  induction i with
  | zero =>
    have := main_shift hg hi
    have := abs_nonneg (bMain 3 p 0 - bMain 3 q 0)
    simp only [TridiagonalMatrix.piv]
    linarith
  | succ i ih =>
    have h0 := hq i (by omega)
    have h1 := hq (i + 1) (by omega)
    have h2 := hq (i + 1 + 1) (by omega)
    have hp := piv_ge hq i (by omega)
    have he : bSide 6 q i = gap q (i + 1) / 6 := rfl
    have hd : bMain 3 q (i + 1) = (gap q (i + 1) + gap q (i + 1 + 1)) / 3 := rfl
    simp only [TridiagonalMatrix.piv]
    exact piv_step hθ hθ1 (by rw [he]; linarith) (by linarith) (by rw [he]; linarith) (by rw [he, hd]; linarith)
      (main_shift hg hi) (side_shift hg (by omega)) (ih (by omega))

theorem sweepC_shift (hθ : 0 ≤ θ) (hθ1 : θ ≤ 1 / 100) (hq : ∀ k, k + 1 < n → 0 < gap q k)
    (hg : ∀ k, k + 1 < n → |gap p k - gap q k| ≤ θ * gap q k) (i : Nat) (hi : i + 2 < n) :
    |TridiagonalMatrix.sweepC (bSide 6 p) (bMain 3 p) (bSide 6 p) i -
      TridiagonalMatrix.sweepC (bSide 6 q) (bMain 3 q) (bSide 6 q) i| ≤ 2.62 * θ ∧
    |TridiagonalMatrix.sweepC (bSide 6 p) (bMain 3 p) (bSide 6 p) i| ≤ 0.527 := by
  have h0 := hq i (by omega)
  have h1 := hq (i + 1) (by omega)
  have hp := piv_ge hq i hi
  have he : bSide 6 q i = gap q (i + 1) / 6 := rfl
  rw [TridiagonalMatrix.sweepC_eq, TridiagonalMatrix.sweepC_eq]
  exact mult_step hθ hθ1 (by rw [he]; linarith) (by linarith) (by rw [he]; linarith) (side_shift hg hi)
    (piv_shift hθ hθ1 hq hg i hi)

theorem sweepY_shift {b b' : Nat → ℝ} {h R : ℝ} (hθ : 0 ≤ θ) (hθ1 : θ ≤ 1 / 100) (hh : 0 < h)
    (hq : ∀ k, k + 1 < n → h ≤ gap q k) (hg : ∀ k, k + 1 < n → |gap p k - gap q k| ≤ θ * gap q k)
    (hb : ∀ k, k + 2 < n → |b k| ≤ R) (hbb : ∀ k, k + 2 < n → |b' k - b k| ≤ 1.02 * θ * R) (i : Nat) (hi : i + 2 < n) :
    |TridiagonalMatrix.sweepY (bSide 6 p) (bMain 3 p) (bSide 6 p) b' i -
      TridiagonalMatrix.sweepY (bSide 6 q) (bMain 3 q) (bSide 6 q) b i| ≤ 19 * θ * (12 / 5 * R / h) := by
  have hqp : ∀ k, k + 1 < n → 0 < gap q k := fun k hk => lt_of_lt_of_le hh (hq k hk)
  have hR : 0 ≤ R := le_trans (abs_nonneg _) (hb i hi)
  have hM : 0 ≤ 12 / 5 * R / h := by positivity
  have hRM : R = 5 / 12 * h * (12 / 5 * R / h) := by field_simp
  have hbb' : ∀ k, k + 2 < n → |b' k - b k| ≤ 0.43 * θ * h * (12 / 5 * R / h) := by
    intro k hk
    have h1 := hbb k hk
    have h2 : 0.43 * θ * h * (12 / 5 * R / h) = 1.032 * θ * R := by field_simp; ring
    rw [h2]
    have : 0 ≤ θ * R := by positivity
    linarith
  induction i with
  | zero =>
    have h0 := hq 0 (by omega)
    have h1 := hq 1 (by omega)
    have hd : bMain 3 q 0 = (gap q 0 + gap q 1) / 3 := rfl
    have hy := sweepY_le hh hq hb 0 hi
    simp only [TridiagonalMatrix.sweepY] at hy ⊢
    have hm := main_shift hg hi
    exact sweep_step (e := 0) (e' := 0) (Y := 0) (Y' := 0) (h := h) (b := b 0) (b' := b' 0) (P := bMain 3 q 0)
      (P' := bMain 3 p 0) hθ hθ1 hM (le_refl _) (by rw [hd]; linarith)
      (by rw [hd]; linarith) (by rw [hd]; linarith) (hbb' 0 hi) (by simp)
      (by have := abs_nonneg (bMain 3 p 0 - bMain 3 q 0); linarith) (by simpa using hM) (by simpa using hy)
      (by simp only [sub_self, abs_zero]; positivity) (by simp) (by simp)
  | succ i ih =>
    have h1 := hq (i + 1) (by omega)
    have h2 := hq (i + 1 + 1) (by omega)
    have hp := piv_ge hqp (i + 1) hi
    have he : bSide 6 q i = gap q (i + 1) / 6 := rfl
    have hY := sweepY_le hh hq hb i (by omega)
    have hy := sweepY_le hh hq hb (i + 1) hi
    have hs := piv_shift hθ hθ1 hqp hg (i + 1) hi
    have e1 : ∀ (s : Nat → ℝ × ℝ) (c : Nat → ℝ), TridiagonalMatrix.sweepY (bSide 6 s) (bMain 3 s) (bSide 6 s) c (i + 1) =
        (c (i + 1) - bSide 6 s i * TridiagonalMatrix.sweepY (bSide 6 s) (bMain 3 s) (bSide 6 s) c i) /
          TridiagonalMatrix.piv (bSide 6 s) (bMain 3 s) (bSide 6 s) (i + 1) := by
      intro s c
      rw [TridiagonalMatrix.piv_succ]
      rfl
    refine sweep_step (h := h) hθ hθ1 hM (by rw [he]; linarith) ?_ ?_ ?_ (hbb' (i + 1) hi) (side_shift hg (by omega)) hs hY
      ?_ (ih (by omega)) (e1 q b) (e1 p b')
    · linarith
    · rw [he]; linarith
    · linarith
    · rw [← e1]; exact hy

theorem sweepX_shift {b b' : Nat → ℝ} {h R : ℝ} (hθ : 0 ≤ θ) (hθ1 : θ ≤ 1 / 100) (hh : 0 < h)
    (hq : ∀ k, k + 1 < n → h ≤ gap q k) (hg : ∀ k, k + 1 < n → |gap p k - gap q k| ≤ θ * gap q k)
    (hb : ∀ k, k + 2 < n → |b k| ≤ R) (hbb : ∀ k, k + 2 < n → |b' k - b k| ≤ 1.02 * θ * R) (m : Nat) (hm : m + 2 < n)
    (i : Nat) (hi : i + 2 < n) :
    |TridiagonalMatrix.sweepX (bSide 6 p) (bMain 3 p) (bSide 6 p) b' m i -
      TridiagonalMatrix.sweepX (bSide 6 q) (bMain 3 q) (bSide 6 q) b m i| ≤ 52 * θ * (12 / 5 * R / h) := by
  have hqp : ∀ k, k + 1 < n → 0 < gap q k := fun k hk => lt_of_lt_of_le hh (hq k hk)
  have hR : 0 ≤ R := le_trans (abs_nonneg _) (hb i hi)
  have hM : 0 ≤ θ * (12 / 5 * R / h) := by positivity
  have key : ∀ d i, m - i = d → i + 2 < n →
      |TridiagonalMatrix.sweepX (bSide 6 p) (bMain 3 p) (bSide 6 p) b' m i -
        TridiagonalMatrix.sweepX (bSide 6 q) (bMain 3 q) (bSide 6 q) b m i| ≤ 52 * θ * (12 / 5 * R / h) := by
    intro d
    induction d with
    | zero =>
      intro i hd hi
      rw [TridiagonalMatrix.sweepX_ge _ _ _ _ (show m ≤ i by omega),
        TridiagonalMatrix.sweepX_ge _ _ _ _ (show m ≤ i by omega)]
      have := sweepY_shift hθ hθ1 hh hq hg hb hbb i hi
      linarith
    | succ d ih =>
      intro i hd hi
      rw [TridiagonalMatrix.sweepX_lt _ _ _ _ (show i < m by omega),
        TridiagonalMatrix.sweepX_lt _ _ _ _ (show i < m by omega)]
      have hy := sweepY_shift hθ hθ1 hh hq hg hb hbb i hi
      obtain ⟨hc1, hc2⟩ := sweepC_shift hθ hθ1 hqp hg i hi
      have hx := ih (i + 1) (by omega) (by omega)
      have hX := sweepX_le hh hq hb m hm (i + 1) (by omega)
      generalize TridiagonalMatrix.sweepX (bSide 6 p) (bMain 3 p) (bSide 6 p) b' m (i + 1) = X' at *
      generalize TridiagonalMatrix.sweepX (bSide 6 q) (bMain 3 q) (bSide 6 q) b m (i + 1) = X at *
      generalize TridiagonalMatrix.sweepC (bSide 6 p) (bMain 3 p) (bSide 6 p) i = C' at *
      generalize TridiagonalMatrix.sweepC (bSide 6 q) (bMain 3 q) (bSide 6 q) i = C at *
      generalize TridiagonalMatrix.sweepY (bSide 6 p) (bMain 3 p) (bSide 6 p) b' i = Y' at *
      generalize TridiagonalMatrix.sweepY (bSide 6 q) (bMain 3 q) (bSide 6 q) b i = Y at *
      have e : Y' - C' * X' - (Y - C * X) = (Y' - Y) - ((C' - C) * X + C' * (X' - X)) := by ring
      rw [e]
      have t1 := abs_sub (Y' - Y) ((C' - C) * X + C' * (X' - X))
      have t2 := abs_add_le ((C' - C) * X) (C' * (X' - X))
      rw [abs_mul, abs_mul] at t2
      have t3 := mul_le_mul hc1 hX (abs_nonneg _) (by positivity)
      have t4 := mul_le_mul hc2 hx (abs_nonneg _) (by norm_num)
      have e2 : 2.62 * θ * (24 / 5 * R / h) = 5.24 * (θ * (12 / 5 * R / h)) := by ring
      linarith
  exact key _ i rfl hi

/-- A reciprocal gap times an ordinate. -/
theorem quotient_shift {θ g G y S h : ℝ} (hθ : 0 ≤ θ) (hθ1 : θ ≤ 1 / 100) (hh : 0 < h) (hG : h ≤ G) (hg : |g - G| ≤ θ * G)
    (hy : |y| ≤ S) : |1 / g * y - 1 / G * y| ≤ 1.02 * θ * (S / h) ∧ |1 / G * y| ≤ S / h := by
  have hS : 0 ≤ S := le_trans (abs_nonneg _) hy
  have hG0 : 0 < G := by linarith
  obtain ⟨a1, a2⟩ := abs_le.1 hg
  have m := mul_le_mul_of_nonneg_right hθ1 hG0.le
  have hg0 : 0.99 * G ≤ g := by linarith
  have hgp : 0 < g := by linarith
  constructor
  · have e : 1 / g * y - 1 / G * y = -((g - G) * y / (g * G)) := by field_simp; ring
    rw [e, abs_neg, abs_div, abs_mul, abs_of_pos (mul_pos hgp hG0), div_le_iff₀ (mul_pos hgp hG0)]
    have t1 := mul_le_mul hg hy (abs_nonneg _) (by positivity)
    have t2 : θ * (S / h) * (0.99 * G * h) ≤ θ * (S / h) * (g * G) :=
      mul_le_mul_of_nonneg_left (mul_le_mul hg0 hG hh.le hgp.le) (by positivity)
    have e2 : θ * (S / h) * (0.99 * G * h) = 0.99 * (θ * G * S) := by field_simp
    have : 0 ≤ θ * G * S := by positivity
    linarith
  · rw [one_div, inv_mul_eq_div, abs_div, abs_of_pos hG0]
    exact div_le_div₀ hS hy hh hG

/-- The right-hand sides. -/
theorem rhs_shift {S h : ℝ} (hn : 3 ≤ n) (hθ : 0 ≤ θ) (hθ1 : θ ≤ 1 / 100) (hh : 0 < h)
    (hq : ∀ k, k + 1 < n → h ≤ gap q k) (hg : ∀ k, k + 1 < n → |gap p k - gap q k| ≤ θ * gap q k)
    (hy : ∀ k, k < n → (p k).2 = (q k).2) (hS : ∀ k, k < n → |(q k).2| ≤ S) (k : Nat) (hk : k + 2 < n) :
    |rhs n q k| ≤ 4 * (S / h) ∧ |rhs n p k - rhs n q k| ≤ 1.02 * θ * (4 * (S / h)) := by
  have hS0 : 0 ≤ S := le_trans (abs_nonneg _) (hS 0 (by omega))
  have hqp : ∀ k, k + 1 < n → 0 < gap q k := fun k hk => lt_of_lt_of_le hh (hq k hk)
  have hpp : ∀ k, k + 1 < n → 0 < gap p k := fun k hk => by
    have h1 := hqp k hk
    obtain ⟨a1, a2⟩ := abs_le.1 (hg k hk)
    have m := mul_le_mul_of_nonneg_right hθ1 h1.le
    linarith
  have hQ : ∀ j k, j + 1 < n → k < n → |1 / gap p j * (q k).2 - 1 / gap q j * (q k).2| ≤ 1.02 * θ * (S / h) ∧
      |1 / gap q j * (q k).2| ≤ S / h := fun j k hj hk =>
    quotient_shift hθ hθ1 hh (hq j hj) (hg j hj) (hS k hk)
  have hz : 0 ≤ S / h := by positivity
  have hz' : 0 ≤ 1.02 * θ * (S / h) := by positivity
  by_cases h4 : 4 ≤ n
  · have e : ∀ s : Nat → ℝ × ℝ, (∀ k, k + 1 < n → 0 < gap s k) → rhs n s k =
        1 / gap s (k + 1) * (s (k + 2)).2 - 1 / gap s (k + 1) * (s (k + 1)).2 -
          (1 / gap s k * (s (k + 1)).2 - 1 / gap s k * (s k).2) := by
      intro s hs
      rw [rhs_eq h4 s hk (ne_of_gt (hs k (by omega))) (ne_of_gt (hs (k + 1) (by omega)))]
      unfold chord gap; ring
    obtain ⟨a1, a2⟩ := hQ (k + 1) (k + 2) (by omega) (by omega)
    obtain ⟨b1, b2⟩ := hQ (k + 1) (k + 1) (by omega) (by omega)
    obtain ⟨c1, c2⟩ := hQ k (k + 1) (by omega) (by omega)
    obtain ⟨d1, d2⟩ := hQ k k (by omega) (by omega)
    rw [e p hpp, e q hqp, hy (k + 2) hk, hy (k + 1) (by omega), hy k (by omega)]
    rw [abs_le] at a1 a2 b1 b2 c1 c2 d1 d2
    exact ⟨abs_le.2 ⟨by linarith, by linarith⟩, abs_le.2 ⟨by linarith, by linarith⟩⟩
  · obtain rfl : n = 3 := by omega
    obtain rfl : k = 0 := by omega
    have e : ∀ s : Nat → ℝ × ℝ, rhs 3 s 0 =
        1 / gap s 0 * (s 0).2 - (1 / gap s 0 * (s 1).2 + 1 / gap s 1 * (s 1).2) := by
      intro s
      simp only [rhs, TridiagonalMatrix.rowProduct, mEnd, cMain, recip]
      norm_num
      ring
    obtain ⟨a1, a2⟩ := hQ 0 0 (by omega) (by omega)
    obtain ⟨b1, b2⟩ := hQ 0 1 (by omega) (by omega)
    obtain ⟨c1, c2⟩ := hQ 1 1 (by omega) (by omega)
    rw [e p, e q, hy 0 (by omega), hy 1 (by omega)]
    rw [abs_le] at a1 a2 b1 b2 c1 c2
    exact ⟨abs_le.2 ⟨by linarith, by linarith⟩, abs_le.2 ⟨by linarith, by linarith⟩⟩

/-- The second derivatives. -/
theorem curvature_shift {S h : ℝ} (hn : 3 ≤ n) (hθ : 0 ≤ θ) (hθ1 : θ ≤ 1 / 100) (hh : 0 < h)
    (hq : ∀ k, k + 1 < n → h ≤ gap q k) (hg : ∀ k, k + 1 < n → |gap p k - gap q k| ≤ θ * gap q k)
    (hy : ∀ k, k < n → (p k).2 = (q k).2) (hS : ∀ k, k < n → |(q k).2| ≤ S) (i : Nat) :
    |curvature n p i - curvature n q i| ≤ 500 * θ * (S / h ^ 2) ∧ |curvature n q i| ≤ 19.2 * (S / h ^ 2) := by
  have hS0 : 0 ≤ S := le_trans (abs_nonneg _) (hS 0 (by omega))
  have hb := fun k hk => (rhs_shift hn hθ hθ1 hh hq hg hy hS k hk).1
  have hbb := fun k hk => (rhs_shift hn hθ hθ1 hh hq hg hy hS k hk).2
  have hM : 0 ≤ θ * (S / h ^ 2) := by positivity
  have e1 : 12 / 5 * (4 * (S / h)) / h = 9.6 * (S / h ^ 2) := by field_simp; ring
  have e2 : 24 / 5 * (4 * (S / h)) / h = 19.2 * (S / h ^ 2) := by field_simp; ring
  refine ⟨?_, by rw [← e2]; exact curvature_le hn hh hq hb i⟩
  unfold curvature second
  by_cases h0 : i = 0
  · rw [if_pos h0, if_pos h0, sub_zero, abs_zero]; linarith
  · rw [if_neg h0, if_neg h0]
    by_cases h1 : i + 1 < n
    · rw [if_pos h1, if_pos h1]
      unfold solved
      by_cases hn3 : n = 3
      · rw [if_pos hn3, if_pos hn3]
        have := sweepY_shift hθ hθ1 hh hq hg hb hbb 0 (by omega)
        simp only [TridiagonalMatrix.sweepY, e1] at this
        linarith
      · rw [if_neg hn3, if_neg hn3]
        have := sweepX_shift hθ hθ1 hh hq hg hb hbb (n - 4) (by omega) (i - 1) (by omega)
        rw [e1] at this
        linarith
    · rw [if_neg h1, if_neg h1, sub_zero, abs_zero]; linarith

/-! ## The segments -/

theorem bump {t : ℝ} (h0 : 0 ≤ t) (h1 : t ≤ 1) : 0 ≤ t - t ^ 3 ∧ (1 - t) - (1 - t) ^ 3 + (t - t ^ 3) ≤ 3 / 4 := by
  constructor
  · have : t - t ^ 3 = t * (1 - t) * (1 + t) := by ring
    rw [this]
    have : 0 ≤ 1 - t := by linarith
    positivity
  · have : (1 - t) - (1 - t) ^ 3 + (t - t ^ 3) = 3 / 4 - 3 * (t - 1 / 2) ^ 2 := by ring
    rw [this]
    have := sq_nonneg (t - 1 / 2)
    linarith

theorem bump_shift {s t : ℝ} (s0 : 0 ≤ s) (s1 : s ≤ 1) (t0 : 0 ≤ t) (t1 : t ≤ 1) :
    |(s - s ^ 3) - (t - t ^ 3)| ≤ 2 * |s - t| := by
  have e : (s - s ^ 3) - (t - t ^ 3) = (s - t) * (1 - (s ^ 2 + s * t + t ^ 2)) := by ring
  rw [e, abs_mul, mul_comm]
  refine mul_le_mul_of_nonneg_right ?_ (abs_nonneg _)
  have p1 : s ^ 2 ≤ 1 := pow_le_one₀ s0 s1
  have p2 : t ^ 2 ≤ 1 := pow_le_one₀ t0 t1
  have p3 : s * t ≤ 1 := mul_le_one₀ s1 t0 t1
  have p4 : 0 ≤ s * t := mul_nonneg s0 t0
  have p5 := sq_nonneg s
  have p6 := sq_nonneg t
  exact abs_le.2 ⟨by linarith, by linarith⟩

/-- A segment in terms of its relative position. -/
theorem segment_shift {θ S W y₀ y₁ m₀ m₁ m₀' m₁' t t' G g : ℝ} (hθ : 0 ≤ θ) (hθ1 : θ ≤ 1 / 100) (hG : 0 < G)
    (hg : |g - G| ≤ θ * G) (t0 : 0 ≤ t) (t1 : t ≤ 1) (t0' : 0 ≤ t') (t1' : t' ≤ 1) (ht : |t' - t| ≤ 2.5 * θ)
    (h0 : |y₀| ≤ S) (h1 : |y₁| ≤ S) (b0 : |m₀| ≤ 19.2 * W) (b1 : |m₁| ≤ 19.2 * W)
    (e0 : |m₀' - m₀| ≤ 500 * θ * W) (e1 : |m₁' - m₁| ≤ 500 * θ * W) :
    |(((1 - t') * y₀ + t' * y₁) - g ^ 2 / 6 * (((1 - t') - (1 - t') ^ 3) * m₀' + (t' - t' ^ 3) * m₁')) -
      (((1 - t) * y₀ + t * y₁) - G ^ 2 / 6 * (((1 - t) - (1 - t) ^ 3) * m₀ + (t - t ^ 3) * m₁))| ≤
      5 * θ * S + 102 * θ * (G ^ 2 * W) := by
  have hS : 0 ≤ S := le_trans (abs_nonneg _) h0
  have hW : 0 ≤ W := by have := le_trans (abs_nonneg _) b0; linarith
  obtain ⟨a1, -⟩ := bump t0 t1
  obtain ⟨a1', a2'⟩ := bump t0' t1'
  have a2 := (bump t0 t1).2
  obtain ⟨c1, -⟩ := bump (show 0 ≤ 1 - t by linarith) (by linarith)
  obtain ⟨c1', -⟩ := bump (show 0 ≤ 1 - t' by linarith) (by linarith)
  have r1 := bump_shift t0' t1' t0 t1
  have r2 := bump_shift (show 0 ≤ 1 - t' by linarith) (by linarith) (show 0 ≤ 1 - t by linarith) (by linarith)
  rw [show (1 - t') - (1 - t) = -(t' - t) by ring, abs_neg] at r2
  generalize (1 - t') - (1 - t') ^ 3 = s' at *
  generalize (1 - t) - (1 - t) ^ 3 = s at *
  generalize t' - t' ^ 3 = w' at *
  generalize t - t ^ 3 = w at *
  have k1 : |((1 - t') * y₀ + t' * y₁) - ((1 - t) * y₀ + t * y₁)| ≤ 5 * θ * S := by
    rw [show ((1 - t') * y₀ + t' * y₁) - ((1 - t) * y₀ + t * y₁) = (t' - t) * (y₁ - y₀) by ring, abs_mul]
    have := mul_le_mul ht (le_trans (abs_sub y₁ y₀) (add_le_add h1 h0)) (abs_nonneg _) (by positivity)
    linarith
  have k2 : |s * m₀ + w * m₁| ≤ 14.4 * W := by
    refine le_trans (abs_add_le _ _) ?_
    rw [abs_mul, abs_mul, abs_of_nonneg c1, abs_of_nonneg a1]
    have q1 := mul_le_mul_of_nonneg_left b0 c1
    have q2 := mul_le_mul_of_nonneg_left b1 a1
    have q3 := mul_le_mul_of_nonneg_right a2 hW
    linarith
  have k3 : |(s' * m₀' + w' * m₁') - (s * m₀ + w * m₁)| ≤ 567 * θ * W := by
    have e : (s' * m₀' + w' * m₁') - (s * m₀ + w * m₁) =
        (s' * (m₀' - m₀) + w' * (m₁' - m₁)) + ((s' - s) * m₀ + (w' - w) * m₁) := by ring
    rw [e]
    have u1 := abs_add_le (s' * (m₀' - m₀) + w' * (m₁' - m₁)) ((s' - s) * m₀ + (w' - w) * m₁)
    have u2 := abs_add_le (s' * (m₀' - m₀)) (w' * (m₁' - m₁))
    have u3 := abs_add_le ((s' - s) * m₀) ((w' - w) * m₁)
    rw [abs_mul, abs_mul, abs_of_nonneg c1', abs_of_nonneg a1'] at u2
    rw [abs_mul, abs_mul] at u3
    have v1 := mul_le_mul_of_nonneg_left e0 c1'
    have v2 := mul_le_mul_of_nonneg_left e1 a1'
    have v3 := mul_le_mul (r2.trans (show 2 * |t' - t| ≤ 5 * θ by linarith)) b0 (abs_nonneg _) (by positivity)
    have v4 := mul_le_mul (r1.trans (show 2 * |t' - t| ≤ 5 * θ by linarith)) b1 (abs_nonneg _) (by positivity)
    have v5 := mul_le_mul_of_nonneg_right a2' (show 0 ≤ 500 * θ * W by positivity)
    linarith
  generalize s' * m₀' + w' * m₁' = B' at *
  generalize s * m₀ + w * m₁ = B at *
  obtain ⟨g1, g2⟩ := abs_le.1 hg
  have m := mul_le_mul_of_nonneg_right hθ1 hG.le
  have hg0 : 0 < g := by linarith
  have k4 : |g ^ 2 - G ^ 2| ≤ 2.01 * θ * G ^ 2 := by
    rw [show g ^ 2 - G ^ 2 = (g - G) * (g + G) by ring, abs_mul, abs_of_pos (by linarith : 0 < g + G)]
    have := mul_le_mul hg (show g + G ≤ 2.01 * G by linarith) (by linarith) (by positivity)
    linarith
  have k5 : g ^ 2 ≤ 1.0201 * G ^ 2 := by
    have := pow_le_pow_left₀ hg0.le (show g ≤ 1.01 * G by linarith) 2
    linarith
  have e : (((1 - t') * y₀ + t' * y₁) - g ^ 2 / 6 * B') - (((1 - t) * y₀ + t * y₁) - G ^ 2 / 6 * B) =
      (((1 - t') * y₀ + t' * y₁) - ((1 - t) * y₀ + t * y₁)) -
        (g ^ 2 * (B' - B) + (g ^ 2 - G ^ 2) * B) / 6 := by ring
  rw [e]
  refine le_trans (abs_sub _ _) (add_le_add k1 ?_)
  rw [abs_div, abs_of_pos (by norm_num : (0 : ℝ) < 6)]
  have f1 := abs_add_le (g ^ 2 * (B' - B)) ((g ^ 2 - G ^ 2) * B)
  rw [abs_mul, abs_mul, abs_of_nonneg (sq_nonneg g)] at f1
  have f2 := mul_le_mul k5 k3 (abs_nonneg _) (by positivity)
  have f3 := mul_le_mul k4 k2 (abs_nonneg _) (by positivity)
  rw [div_le_iff₀ (by norm_num)]
  have : 0 ≤ θ * (G ^ 2 * W) := by positivity
  linarith

/-- A segment of the spline when every gap `G` changes by at most `θ G` and the relative position by `2.5 θ`. -/
theorem cubic_shift' {S h H : ℝ} (hn : 3 ≤ n) (hθ : 0 ≤ θ) (hθ1 : θ ≤ 1 / 100) (hh : 0 < h)
    (hq : ∀ k, k + 1 < n → h ≤ gap q k ∧ gap q k ≤ H) (hg : ∀ k, k + 1 < n → |gap p k - gap q k| ≤ θ * gap q k)
    (hy : ∀ k, k < n → (p k).2 = (q k).2) (hS : ∀ k, k < n → |(q k).2| ≤ S) (i : Nat) (hi : i + 1 < n) {x a : ℝ}
    (x0 : (p i).1 ≤ x) (x1 : x ≤ (p (i + 1)).1) (a0 : (q i).1 ≤ a) (a1 : a ≤ (q (i + 1)).1)
    (ht : |(x - (p i).1) / ((p (i + 1)).1 - (p i).1) - (a - (q i).1) / ((q (i + 1)).1 - (q i).1)| ≤ 2.5 * θ) :
    |cubic (p i).1 (p i).2 (curvature n p i) (p (i + 1)).1 (p (i + 1)).2 (curvature n p (i + 1)) x -
      cubic (q i).1 (q i).2 (curvature n q i) (q (i + 1)).1 (q (i + 1)).2 (curvature n q (i + 1)) a| ≤
      107 * θ * S * (H / h) ^ 2 := by
  have hq1 := fun k hk => (hq k hk).1
  have hG : 0 < gap q i := lt_of_lt_of_le hh (hq i hi).1
  have hS0 : 0 ≤ S := le_trans (abs_nonneg _) (hS 0 (by omega))
  obtain ⟨g1, g2⟩ := abs_le.1 (hg i hi)
  have m := mul_le_mul_of_nonneg_right hθ1 hG.le
  have hg0 : 0 < gap p i := by linarith
  obtain ⟨c0, d0⟩ := curvature_shift hn hθ hθ1 hh hq1 hg hy hS i
  obtain ⟨c1, d1⟩ := curvature_shift hn hθ hθ1 hh hq1 hg hy hS (i + 1)
  have ep : (p (i + 1)).1 - (p i).1 = gap p i := rfl
  have eq : (q (i + 1)).1 - (q i).1 = gap q i := rfl
  rw [cubic_eq_chord (by rw [ep]; exact hg0.ne'), cubic_eq_chord (by rw [eq]; exact hG.ne'), hy i (by omega), hy (i + 1) hi]
  rw [ep, eq] at ht ⊢
  have sp : ((p (i + 1)).1 - x) / gap p i = 1 - (x - (p i).1) / gap p i := by
    rw [eq_sub_iff_add_eq, ← add_div, div_eq_one_iff_eq hg0.ne', ← ep]; ring
  have sq : ((q (i + 1)).1 - a) / gap q i = 1 - (a - (q i).1) / gap q i := by
    rw [eq_sub_iff_add_eq, ← add_div, div_eq_one_iff_eq hG.ne', ← eq]; ring
  rw [sp, sq]
  have key := segment_shift (W := S / h ^ 2) hθ hθ1 hG (hg i hi) (div_nonneg (by linarith) hG.le)
    ((div_le_one hG).2 (by linarith)) (div_nonneg (by linarith) hg0.le) ((div_le_one hg0).2 (by linarith)) ht
    (hS i (by omega)) (hS (i + 1) hi) d0 d1 c0 c1
  refine le_trans key ?_
  have e : gap q i ^ 2 * (S / h ^ 2) = S * (gap q i / h) ^ 2 := by field_simp
  have l1 : 1 ≤ gap q i / h := by rw [le_div_iff₀ hh]; linarith [(hq i hi).1]
  have l2 : gap q i / h ≤ H / h := div_le_div_of_nonneg_right (hq i hi).2 hh.le
  have l3 : (gap q i / h) ^ 2 ≤ (H / h) ^ 2 := pow_le_pow_left₀ (by linarith) l2 2
  have l4 : 1 ≤ (H / h) ^ 2 := by nlinarith
  rw [e]
  have r1 := mul_le_mul_of_nonneg_left l3 (show 0 ≤ 102 * θ * S by positivity)
  have r2 := mul_le_mul_of_nonneg_left l4 (show 0 ≤ 5 * θ * S by positivity)
  linarith

/-- The values of the spline, from the points. -/
theorem evaluate_shift {θ S h H : ℝ} (hθ : 0 ≤ θ) (hθ1 : θ ≤ 1 / 100) (hh : 0 < h) {pts pts' : List (ℝ × ℝ)}
    (hs : Spec.StrictlyIncreasing pts) (hs' : Spec.StrictlyIncreasing pts') (h3 : 3 ≤ pts.length)
    (hlen : pts.length = pts'.length)
    (hgap : ∀ j (hj : j + 1 < pts'.length), h ≤ pts'[j + 1].1 - pts'[j].1 ∧ pts'[j + 1].1 - pts'[j].1 ≤ H)
    (hg : ∀ j (hj : j + 1 < pts.length) (hj' : j + 1 < pts'.length),
      |(pts[j + 1].1 - pts[j].1) - (pts'[j + 1].1 - pts'[j].1)| ≤ θ * (pts'[j + 1].1 - pts'[j].1))
    (hy : ∀ j (hj : j < pts.length) (hj' : j < pts'.length), pts[j].2 = pts'[j].2 ∧ |pts'[j].2| ≤ S) {i : Nat}
    (hi : i + 1 < pts.length) (hi' : i + 1 < pts'.length) {x a : ℝ} (x0 : pts[i].1 ≤ x) (x1 : x ≤ pts[i + 1].1)
    (a0 : pts'[i].1 ≤ a) (a1 : a ≤ pts'[i + 1].1)
    (ht : |(x - pts[i].1) / (pts[i + 1].1 - pts[i].1) - (a - pts'[i].1) / (pts'[i + 1].1 - pts'[i].1)| ≤ 2.5 * θ)
    {w w' : ℝ} (hw : Spec.evaluate (Interpolator.naturalCubic ℝ) pts x = .ok (.ok w))
    (hw' : Spec.evaluate (Interpolator.naturalCubic ℝ) pts' a = .ok (.ok w')) :
    |w - w'| ≤ 107 * θ * S * (H / h) ^ 2 := by
  obtain ⟨n, p, hn, rfl⟩ := exists_tab pts (by rintro rfl; simp at h3)
  obtain ⟨n', q, hn', rfl⟩ := exists_tab pts' (by rintro rfl; simp at hi')
  simp only [length_tab] at hlen
  subst hlen
  simp only [length_tab, getElem_tab] at h3 hgap hg hy hi x0 x1 a0 a1 ht
  rw [segment h3 hs hi x0 x1] at hw
  rw [segment h3 hs' hi a0 a1] at hw'
  have hw : cubic (p i).1 (p i).2 (curvature n p i) (p (i + 1)).1 (p (i + 1)).2 (curvature n p (i + 1)) x = w := by
    simpa using hw
  have hw' : cubic (q i).1 (q i).2 (curvature n q i) (q (i + 1)).1 (q (i + 1)).2 (curvature n q (i + 1)) a = w' := by
    simpa using hw'
  rw [← hw, ← hw']
  exact cubic_shift' h3 hθ hθ1 hh (fun k hk => hgap k hk) (fun k hk => hg k hk hk)
    (fun k hk => (hy k hk hk).1) (fun k hk => (hy k hk hk).2) i hi x0 x1 a0 a1 ht

end NaturalCubic

end Qlab
