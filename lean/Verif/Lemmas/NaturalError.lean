import Verif.Props.FloatNodes
import Verif.Lemmas.NaturalBounds

/-! # Rounding errors of the natural cubic spline: the linear system and its solution -/

namespace Qlab.Props

open Spec NaturalCubic

variable {A : FloatArith}

/-! ## Products, quotients and sums with separate scales -/

theorem Fl.mul_comm' (x y : Fl A) : x * y = y * x := by
  ext; rw [Fl.val_mul, Fl.val_mul, mul_comm]

/-- A product of two approximations on different scales. -/
theorem Approx.mul_scales {T S : ℝ} {x y : Fl A} {X Y B C e f : ℝ} (hx : Approx T x X B e) (hy : Approx S y Y C f)
    (hT : 0 ≤ T) (hS : 0 ≤ S) (h1 : Small B e) (h2 : Small C f) :
    Approx (T * S) (x * y) (X * Y) (B * C) (e * C + B * f + B * C + 0.1) := by
  obtain ⟨b0, b1, e0, e1⟩ := h1
  obtain ⟨c0, c1, f0, f1⟩ := h2
  have hx' := hx.abs_le
  have hy' := hy.abs_le
  obtain ⟨hx1, hx2⟩ := hx
  obtain ⟨hy1, hy2⟩ := hy
  have hu := A.unit_pos
  have hu1 := A.unit_le
  have hTS : 0 ≤ T * S := mul_nonneg hT hS
  have heu : e * unitRoundoff A ≤ 0.0001 := by nlinarith
  have hfu : f * unitRoundoff A ≤ 0.0001 := by nlinarith
  have hef : e * (f * unitRoundoff A) ≤ 0.05 := by nlinarith
  refine ⟨?_, by rw [abs_mul]; calc |X| * |Y| ≤ B * T * (C * S) := mul_le_mul hx2 hy2 (abs_nonneg _) (by positivity)
                 _ = _ := by ring⟩
  have k1 : |x.val * y.val - X * Y| ≤ (e * C + B * f + 0.05) * unitRoundoff A * (T * S) := by
    have t := abs_add_le ((x.val - X) * y.val) (X * (y.val - Y))
    rw [show (x.val - X) * y.val + X * (y.val - Y) = x.val * y.val - X * Y by ring, abs_mul, abs_mul] at t
    have t1 : |x.val - X| * |y.val| ≤ e * unitRoundoff A * T * ((C + f * unitRoundoff A) * S) :=
      mul_le_mul hx1 hy' (abs_nonneg _) (by positivity)
    have t2 : |X| * |y.val - Y| ≤ B * T * (f * unitRoundoff A * S) := mul_le_mul hx2 hy1 (abs_nonneg _) (by positivity)
    have t3 : e * (f * unitRoundoff A) * (unitRoundoff A * (T * S)) ≤ 0.05 * (unitRoundoff A * (T * S)) :=
      mul_le_mul_of_nonneg_right hef (by positivity)
    calc |x.val * y.val - X * Y| ≤ _ := t
      _ ≤ e * unitRoundoff A * T * ((C + f * unitRoundoff A) * S) + B * T * (f * unitRoundoff A * S) := add_le_add t1 t2
      _ = (e * C + B * f) * unitRoundoff A * (T * S) + e * (f * unitRoundoff A) * (unitRoundoff A * (T * S)) := by ring
      _ ≤ (e * C + B * f) * unitRoundoff A * (T * S) + 0.05 * (unitRoundoff A * (T * S)) := by linarith
      _ = _ := by ring
  have k2 : |x.val * y.val| ≤ (B * C + 0.01) * (T * S) := by
    rw [abs_mul]
    have t1 : |x.val| * |y.val| ≤ (B + e * unitRoundoff A) * T * ((C + f * unitRoundoff A) * S) :=
      mul_le_mul hx' hy' (abs_nonneg _) (by positivity)
    have t2 : (B + e * unitRoundoff A) * (C + f * unitRoundoff A) ≤ B * C + 0.01 := by
      have r1 : B * (f * unitRoundoff A) ≤ 32 * 0.0001 := mul_le_mul b1 hfu (by positivity) (by norm_num)
      have r2 : e * unitRoundoff A * C ≤ 0.0001 * 32 := mul_le_mul heu c1 c0 (by norm_num)
      have r3 : e * unitRoundoff A * (f * unitRoundoff A) ≤ 0.0001 * 0.0001 :=
        mul_le_mul heu hfu (by positivity) (by norm_num)
      linarith [show (B + e * unitRoundoff A) * (C + f * unitRoundoff A) =
        B * C + B * (f * unitRoundoff A) + e * unitRoundoff A * C + e * unitRoundoff A * (f * unitRoundoff A) by ring]
    have t3 := mul_le_mul_of_nonneg_right t2 hTS
    calc |x.val| * |y.val| ≤ _ := t1
      _ = (B + e * unitRoundoff A) * (C + f * unitRoundoff A) * (T * S) := by ring
      _ ≤ _ := t3
  have k3 := round_step (A := A) hTS k1 k2 (le_refl _)
  rw [Fl.val_mul]
  refine le_trans k3 (mul_le_mul_of_nonneg_right (mul_le_mul_of_nonneg_right ?_ hu.le) hTS)
  linarith

/-- A quotient by a positive number known to a small relative error. -/
theorem Approx.div_close {P W : ℝ} {x y : Fl A} {X B e k : ℝ} (hx : Approx (P * W) x X B e) (hy : CloseTo k y P)
    (hP : 0 < P) (hW : 0 ≤ W) (h1 : Small B e) (hk : 0 ≤ k) (hk' : k ≤ 50) :
    Approx W (x / y) (X / P) B (e + k * B + B + 0.1) := by
  obtain ⟨b0, b1, e0, e1⟩ := h1
  obtain ⟨t, ht, et⟩ := hy.factor hk
  have hu := A.unit_pos
  have hu1 := A.unit_le
  have hku : k * unitRoundoff A ≤ 0.00001 := by nlinarith
  have heu : e * unitRoundoff A ≤ 0.0001 := by nlinarith
  have htt := _root_.abs_le.1 ht
  have htp : 0 < t := by linarith
  have hyv : y.val = P * t := et
  have hB : |X / P| ≤ B * W := by
    rw [abs_div, abs_of_pos hP, div_le_iff₀ hP]
    linarith [hx.2]
  refine ⟨?_, hB⟩
  have hx' := hx.abs_le
  -- the exact quotient of the computed numbers
  have q1 : |x.val / y.val - X / P| ≤ (e + k * B + 0.05) * unitRoundoff A * W := by
    have e1' : x.val / y.val - X / P = ((x.val - X) / P - (t - 1) * (X / P)) / t := by
      rw [hyv]; field_simp; ring
    rw [e1', abs_div, abs_of_pos htp, div_le_iff₀ htp]
    have a1 : |(x.val - X) / P| ≤ e * unitRoundoff A * W := by
      rw [abs_div, abs_of_pos hP, div_le_iff₀ hP]
      linarith [hx.1]
    have a2 : |(t - 1) * (X / P)| ≤ k * unitRoundoff A * (B * W) := by
      rw [abs_mul]
      exact mul_le_mul ht hB (abs_nonneg _) (by positivity)
    have a3 := abs_sub ((x.val - X) / P) ((t - 1) * (X / P))
    have a4 : (e + k * B) * unitRoundoff A * W * (k * unitRoundoff A) ≤ 0.03 * (unitRoundoff A * W) := by
      have : (e + k * B) * (k * unitRoundoff A) ≤ 2100 * 0.00001 := by
        apply mul_le_mul _ hku (by positivity) (by norm_num)
        have : k * B ≤ 50 * 32 := mul_le_mul hk' b1 b0 (by norm_num)
        linarith
      calc _ = (e + k * B) * (k * unitRoundoff A) * (unitRoundoff A * W) := by ring
        _ ≤ 2100 * 0.00001 * (unitRoundoff A * W) := mul_le_mul_of_nonneg_right this (by positivity)
        _ ≤ _ := by nlinarith [mul_nonneg hu.le hW]
    have a5 : (e + k * B + 0.05) * unitRoundoff A * W * (1 - k * unitRoundoff A) ≤
        (e + k * B + 0.05) * unitRoundoff A * W * t :=
      mul_le_mul_of_nonneg_left (by linarith) (by positivity)
    have a6 : 0.05 * unitRoundoff A * W * (k * unitRoundoff A) ≤ 0.01 * (unitRoundoff A * W) := by
      have := mul_nonneg hu.le hW
      nlinarith
    nlinarith
  have q2 : |x.val / y.val| ≤ (B + 0.01) * W := by
    have := abs_add_le (x.val / y.val - X / P) (X / P)
    rw [sub_add_cancel] at this
    have r : (e + k * B + 0.05) * unitRoundoff A * W ≤ 0.01 * W := by
      refine mul_le_mul_of_nonneg_right ?_ hW
      have : k * B ≤ 50 * 32 := mul_le_mul hk' b1 b0 (by norm_num)
      nlinarith
    linarith
  have k3 := round_step (A := A) hW q1 q2 (le_refl _)
  rw [Fl.val_div]
  refine le_trans k3 (mul_le_mul_of_nonneg_right (mul_le_mul_of_nonneg_right ?_ hu.le) hW)
  linarith

/-- A sum, with larger error constants than `Approx.add`. -/
theorem Approx.add_large {S : ℝ} {x y : Fl A} {X Y B C e f : ℝ} (hx : Approx S x X B e) (hy : Approx S y Y C f)
    (hS : 0 ≤ S) (_hB : 0 ≤ B) (_hC : 0 ≤ C) (he : 0 ≤ e) (he' : e ≤ 10000) (hf : 0 ≤ f) (hf' : f ≤ 10000) :
    Approx S (x + y) (X + Y) (B + C) (e + f + B + C + 0.1) := by
  have hx' := hx.abs_le
  have hy' := hy.abs_le
  obtain ⟨hx1, hx2⟩ := hx
  obtain ⟨hy1, hy2⟩ := hy
  have hu := A.unit_pos
  have hu1 := A.unit_le
  have heu : e * unitRoundoff A ≤ 0.001 := by nlinarith
  have hfu : f * unitRoundoff A ≤ 0.001 := by nlinarith
  refine ⟨?_, by have := abs_add_le X Y; linarith⟩
  have k1 : |x.val + y.val - (X + Y)| ≤ (e + f) * unitRoundoff A * S := by
    have t := abs_add_le (x.val - X) (y.val - Y)
    rw [show (x.val - X) + (y.val - Y) = x.val + y.val - (X + Y) by ring] at t
    linarith
  have k2 : |x.val + y.val| ≤ (B + C + 0.01) * S := by
    have t := abs_add_le x.val y.val
    have t1 := mul_le_mul_of_nonneg_right (add_le_add heu hfu) hS
    nlinarith
  have k3 := round_step (A := A) hS k1 k2 (le_refl _)
  rw [Fl.val_add]
  refine le_trans k3 (mul_le_mul_of_nonneg_right (mul_le_mul_of_nonneg_right ?_ hu.le) hS)
  linarith

/-- Change of scale. -/
theorem Approx.rescale {S S' : ℝ} {x : Fl A} {X B e B' e' : ℝ} (h : Approx S x X B e) (hB : B * S ≤ B' * S')
    (he : e * S ≤ e' * S') : Approx S' x X B' e' := by
  refine ⟨le_trans h.1 ?_, le_trans h.2 hB⟩
  have hu := A.unit_pos
  calc e * unitRoundoff A * S = unitRoundoff A * (e * S) := by ring
    _ ≤ unitRoundoff A * (e' * S') := mul_le_mul_of_nonneg_left he hu.le
    _ = _ := by ring

theorem Approx.closeTo {P : ℝ} {x : Fl A} {B e : ℝ} (h : Approx P x P B e) (hP : 0 ≤ P) : CloseTo e x P := by
  unfold CloseTo
  rw [abs_of_nonneg hP]
  exact h.1

/-! ## The matrix -/

section system
variable {six three : Fl A} {n : Nat} {p : Nat → Fl A × Fl A} {q : Nat → ℝ × ℝ}

theorem gap_close (hq : ∀ i, q i = ((p i).1.val, (p i).2.val)) (k : Nat) : CloseTo 1 (gap p k) (gap q k) := by
  unfold gap
  rw [hq, hq]
  exact closeTo_sub _ _

theorem bSide_close (hq : ∀ i, q i = ((p i).1.val, (p i).2.val)) (h6 : six.val = 6) (k : Nat) :
    CloseTo 2.01 (bSide six p k) (bSide 6 q k) := by
  have h := CloseTo.refl six
  rw [h6] at h
  exact ((gap_close hq (k + 1)).div h (by norm_num) (by norm_num) (by norm_num) (by norm_num)).mono (by norm_num)

theorem bMain_close (hq : ∀ i, q i = ((p i).1.val, (p i).2.val)) (h3 : three.val = 3) {k : Nat} (h0 : 0 < gap q k)
    (h1 : 0 < gap q (k + 1)) : CloseTo 3.01 (bMain three p k) (bMain 3 q k) := by
  have h := CloseTo.refl three
  rw [h3] at h
  exact (((gap_close hq k).add (gap_close hq (k + 1)) (by norm_num) (by norm_num) (by positivity)).div h (by norm_num)
    (by norm_num) (by norm_num) (by norm_num)).mono (by norm_num)

theorem recip_close (hq : ∀ i, q i = ((p i).1.val, (p i).2.val)) (k : Nat) :
    CloseTo 2.01 (recip (gap p k)) (recip (gap q k)) := by
  have h := CloseTo.refl (1 : Fl A)
  rw [Fl.val_one] at h
  exact (h.div (gap_close hq k) (by norm_num) (by norm_num) (by norm_num) (by norm_num)).mono (by norm_num)

theorem CloseTo.neg {k : ℝ} {x : Fl A} {w : ℝ} (h : CloseTo k x w) : CloseTo k (-x) (-w) := by
  unfold CloseTo at *
  rw [Fl.val_neg, abs_neg, show -x.val - -w = -(x.val - w) by ring, abs_neg]
  exact h

theorem cMain_close (hq : ∀ i, q i = ((p i).1.val, (p i).2.val)) {k : Nat} (h0 : 0 < gap q k)
    (h1 : 0 < gap q (k + 1)) : CloseTo 3.02 (cMain p k) (cMain q k) := by
  have := ((recip_close hq k).add (recip_close hq (k + 1)) (by norm_num) (by norm_num)
    (by unfold recip; positivity)).mono (l := 3.02) (by norm_num)
  exact this.neg

/-! ## The pivots -/

/-- The multipliers and the pivots of the elimination. -/
theorem sweep_close (hq : ∀ i, q i = ((p i).1.val, (p i).2.val)) (h6 : six.val = 6) (h3 : three.val = 3)
    (hg : ∀ k, k + 1 < n → 0 < gap q k) (i : Nat) (hi : i + 2 < n) :
    Approx 1 (TridiagonalMatrix.sweepC (bSide six p) (bMain three p) (bSide six p) i)
        (TridiagonalMatrix.sweepC (bSide 6 q) (bMain 3 q) (bSide 6 q) i) (1 / 2) 8 ∧
      (i + 3 < n → CloseTo 12.5
        (bMain three p (i + 1) - bSide six p i * TridiagonalMatrix.sweepC (bSide six p) (bMain three p) (bSide six p) i)
        (TridiagonalMatrix.piv (bSide 6 q) (bMain 3 q) (bSide 6 q) (i + 1))) := by
  have second : ∀ i, i + 3 < n → Approx 1 (TridiagonalMatrix.sweepC (bSide six p) (bMain three p) (bSide six p) i)
        (TridiagonalMatrix.sweepC (bSide 6 q) (bMain 3 q) (bSide 6 q) i) (1 / 2) 8 → CloseTo 12.5
        (bMain three p (i + 1) - bSide six p i * TridiagonalMatrix.sweepC (bSide six p) (bMain three p) (bSide six p) i)
        (TridiagonalMatrix.piv (bSide 6 q) (bMain 3 q) (bSide 6 q) (i + 1)) := by
    intro i hi hc
    have h1 := hg (i + 1) (by omega)
    have h2 := hg (i + 2) (by omega)
    have hp := piv_ge hg (i + 1) (by omega)
    have hps := TridiagonalMatrix.piv_succ (bSide 6 q) (bMain 3 q) (bSide 6 q) i
    set P := TridiagonalMatrix.piv (bSide 6 q) (bMain 3 q) (bSide 6 q) (i + 1) with hP
    have hpos : 0 < P := by linarith [show i + 1 + 1 = i + 2 from rfl]
    have hL : Approx P (bSide six p i) (bSide 6 q i) (2 / 3) (2.01 * (2 / 3)) := by
      refine (bSide_close hq h6 i).approx (by norm_num) ?_
      unfold bSide
      rw [abs_of_pos (by positivity)]
      linarith
    have hD : Approx P (bMain three p (i + 1)) (bMain 3 q (i + 1)) (4 / 3) (3.01 * (4 / 3)) := by
      refine (bMain_close hq h3 h1 h2).approx (by norm_num) ?_
      unfold bMain
      rw [abs_of_pos (by positivity)]
      linarith [show i + 1 + 1 = i + 2 from rfl]
    have hm := hc.mul hL hpos.le (by norm_num [Small]) (by norm_num [Small])
    rw [Fl.mul_comm', mul_comm (TridiagonalMatrix.sweepC _ _ _ i)] at hm
    have hs := hD.sub hm hpos.le (by norm_num [Small]) (by norm_num [Small])
    rw [← hps] at hs
    exact (hs.closeTo hpos.le).mono (by norm_num)
  have first : Approx 1 (TridiagonalMatrix.sweepC (bSide six p) (bMain three p) (bSide six p) i)
        (TridiagonalMatrix.sweepC (bSide 6 q) (bMain 3 q) (bSide 6 q) i) (1 / 2) 8 := by
    induction i with
    | zero =>
      have h0 := hg 0 (by omega)
      have h1 := hg 1 (by omega)
      have hp := piv_ge hg 0 hi
      have hd := (bMain_close (k := 0) hq h3 h0 h1).mono (l := 12.5) (by norm_num)
      set P := TridiagonalMatrix.piv (bSide 6 q) (bMain 3 q) (bSide 6 q) 0 with hP
      have hpos : 0 < P := by linarith [show 0 + 1 = 1 from rfl]
      have hU : Approx (P * 1) (bSide six p 0) (bSide 6 q 0) (1 / 2) (2.01 * (1 / 2)) := by
        refine (bSide_close hq h6 0).approx (by norm_num) ?_
        unfold bSide
        rw [abs_of_pos (by positivity)]
        linarith
      exact (hU.div_close hd hpos zero_le_one (by norm_num [Small]) (by norm_num) (by norm_num)).mono zero_le_one
        (by norm_num) (by norm_num)
    | succ i ih =>
      have hd := second i (by omega) (ih (by omega))
      have h1 := hg (i + 1) (by omega)
      have h2 := hg (i + 2) (by omega)
      have hp := piv_ge hg (i + 1) hi
      have hps := TridiagonalMatrix.sweepC_eq (bSide 6 q) (bMain 3 q) (bSide 6 q) (i + 1)
      rw [hps]
      set P := TridiagonalMatrix.piv (bSide 6 q) (bMain 3 q) (bSide 6 q) (i + 1) with hP
      have hpos : 0 < P := by linarith [show i + 1 + 1 = i + 2 from rfl]
      have hU : Approx (P * 1) (bSide six p (i + 1)) (bSide 6 q (i + 1)) (1 / 2) (2.01 * (1 / 2)) := by
        refine (bSide_close hq h6 (i + 1)).approx (by norm_num) ?_
        unfold bSide
        rw [abs_of_pos (by positivity)]
        linarith
      simp only [TridiagonalMatrix.sweepC]
      exact (hU.div_close hd hpos zero_le_one (by norm_num [Small]) (by norm_num) (by norm_num)).mono zero_le_one
        (by norm_num) (by norm_num)
  exact ⟨first, fun h => second i h first⟩

/-! ## The right-hand side -/

theorem rhs_close (hq : ∀ i, q i = ((p i).1.val, (p i).2.val)) {S h : ℝ} (hh : 0 < h) (hS0 : 0 ≤ S)
    (hg : ∀ k, k + 1 < n → h ≤ gap q k) (hS : ∀ k, k < n → |(p k).2.val| ≤ S) (k : Nat) (hk : k + 2 < n) :
    Approx (1 / h * S) (rhs n p k) (rhs n q k) 4 22 := by
  have hSh : 0 ≤ 1 / h * S := by positivity
  have hR : ∀ k, k + 1 < n → Approx (1 / h) (recip (gap p k)) (recip (gap q k)) 1 (2.01 * 1) := by
    intro k hk
    refine (recip_close hq k).approx (by norm_num) ?_
    have := hg k hk
    unfold recip
    rw [abs_of_pos (by have : 0 < gap q k := by linarith
                       positivity), one_mul]
    exact one_div_le_one_div_of_le hh this
  have hY : ∀ k, k < n → Approx S (p k).2 (q k).2 1 0 := by
    intro k hk
    rw [hq]
    exact Approx.exact _ (by simpa using hS k hk)
  have hdiag : Approx (1 / h * S) (cMain p k * (p (k + 1)).2) (cMain q k * (q (k + 1)).2) 2 8.2 := by
    have h0 := hg k (by omega)
    have h1 := hg (k + 1) (by omega)
    have hc : Approx (1 / h) (cMain p k) (cMain q k) 2 (3.02 * 2) := by
      refine (cMain_close hq (by linarith) (by linarith)).approx (by norm_num) ?_
      have a0 := one_div_le_one_div_of_le hh h0
      have a1 := one_div_le_one_div_of_le hh h1
      have b0 : 0 < 1 / gap q k := one_div_pos.2 (by linarith)
      have b1 : 0 < 1 / gap q (k + 1) := one_div_pos.2 (by linarith)
      unfold cMain recip
      rw [abs_neg, abs_of_pos (by linarith)]
      linarith
    refine (hc.mul_scales (hY (k + 1) (by omega)) (by positivity) hS0 (by norm_num [Small]) (by norm_num [Small])).mono
      hSh (by norm_num) (by norm_num)
  have hside : ∀ j k, j + 1 < n → k < n →
      Approx (1 / h * S) (recip (gap p j) * (p k).2) (recip (gap q j) * (q k).2) 1 3.2 := by
    intro j k hj hk
    exact ((hR j hj).mul_scales (hY k hk) (by positivity) hS0 (by norm_num [Small]) (by norm_num [Small])).mono hSh
      (by norm_num) (by norm_num)
  have hend : ∀ j k, j + 1 < n → k < n → Approx (1 / h * S) ((p k).2 / gap p j) ((q k).2 / gap q j) 1 2.01 := by
    intro j k hj hk
    have hc : CloseTo 2.01 ((p k).2 / gap p j) ((q k).2 / gap q j) := by
      have := (CloseTo.refl (p k).2).div (gap_close hq j) (by norm_num) (by norm_num) (by norm_num) (by norm_num)
      rw [hq k]
      exact this.mono (by norm_num)
    have hb : |(q k).2 / gap q j| ≤ 1 * (1 / h * S) := by
      have h0 := hg j hj
      have h1 := hS k hk
      rw [hq k, abs_div, abs_of_pos (show 0 < gap q j by linarith), div_le_iff₀ (by linarith)]
      calc |(p k).2.val| ≤ S := h1
        _ = 1 / h * S * h := by field_simp
        _ ≤ 1 / h * S * gap q j := mul_le_mul_of_nonneg_left h0 hSh
        _ = _ := by ring
    simpa using hc.approx (by norm_num) hb
  have hsm : ∀ {B e : ℝ}, 0 ≤ B → B ≤ 32 → 0 ≤ e → e ≤ 500 → Small B e := fun a b c d => ⟨a, b, c, d⟩
  unfold rhs TridiagonalMatrix.rowProduct mEnd cSide
  dsimp only
  rcases k with _ | k
  · simp only [show ¬ 0 > 0 by omega, if_false, if_true]
    by_cases h4 : 0 + 1 < n - 2
    · simp only [h4, if_true]
      have t1 := hdiag.add (hside (0 + 1) (0 + 1 + 1) (by omega) (by omega)) hSh (by norm_num [Small]) (by norm_num [Small])
      have t2 := t1.add (hend 0 0 (by omega) (by omega)) hSh (by norm_num [Small]) (by norm_num [Small])
      exact t2.mono hSh (by norm_num) (by norm_num)
    · simp only [h4, if_false]
      have t2 := hdiag.add (hend 0 0 (by omega) (by omega)) hSh (by norm_num [Small]) (by norm_num [Small])
      exact t2.mono hSh (by norm_num) (by norm_num)
  · simp only [show k + 1 > 0 by omega, if_true, Nat.add_sub_cancel, show ¬ k + 1 = 0 by omega, if_false]
    by_cases hl : k + 1 + 3 = n
    · simp only [show ¬ k + 1 + 1 < n - 2 by omega, if_false, hl, if_true]
      have t1 := hdiag.add (hside (k + 1) (k + 1) (by omega) (by omega)) hSh (by norm_num [Small]) (by norm_num [Small])
      have t2 := t1.add (hend (k + 1 + 1) (k + 1 + 2) (by omega) (by omega)) hSh (by norm_num [Small])
        (by norm_num [Small])
      exact t2.mono hSh (by norm_num) (by norm_num)
    · simp only [show k + 1 + 1 < n - 2 by omega, if_true, hl, if_false]
      have t1 := hdiag.add (hside (k + 1 + 1) (k + 1 + 1 + 1) (by omega) (by omega)) hSh (by norm_num [Small])
        (by norm_num [Small])
      have t2 := t1.add (hside (k + 1) (k + 1) (by omega) (by omega)) hSh (by norm_num [Small]) (by norm_num [Small])
      rw [Fl.add_zero', add_zero]
      exact t2.mono hSh (by norm_num) (by norm_num)

/-! ## The solution -/

/-- The right-hand side on the scale of a pivot. -/
theorem rhs_scaled (hq : ∀ i, q i = ((p i).1.val, (p i).2.val)) {S h : ℝ} (hh : 0 < h) (hS0 : 0 ≤ S)
    (hg : ∀ k, k + 1 < n → h ≤ gap q k) (hS : ∀ k, k < n → |(p k).2.val| ≤ S) (k : Nat) (hk : k + 2 < n) :
    Approx (TridiagonalMatrix.piv (bSide 6 q) (bMain 3 q) (bSide 6 q) k * (21 * S / h ^ 2)) (rhs n p k) (rhs n q k)
      (1 / 3) 1.8 := by
  have hp := piv_ge (fun k hk => lt_of_lt_of_le hh (hg k hk)) k hk
  have h0 := hg k (by omega)
  have h1 := hg (k + 1) (by omega)
  set P := TridiagonalMatrix.piv (bSide 6 q) (bMain 3 q) (bSide 6 q) k
  have hP : 7 / 12 * h ≤ P := by linarith
  have key : 1 / h * S ≤ 0.0817 * (P * (21 * S / h ^ 2)) := by
    have : 7 / 12 * h * (21 * S / h ^ 2) ≤ P * (21 * S / h ^ 2) := mul_le_mul_of_nonneg_right hP (by positivity)
    have e : 7 / 12 * h * (21 * S / h ^ 2) = 12.25 * (1 / h * S) := by field_simp; ring
    have : 0 ≤ 1 / h * S := by positivity
    linarith
  have hn : 0 ≤ P * (21 * S / h ^ 2) := mul_nonneg (by linarith) (by positivity)
  exact (rhs_close hq hh hS0 hg hS k hk).rescale (by linarith) (by linarith)

theorem sweepY_close (hq : ∀ i, q i = ((p i).1.val, (p i).2.val)) (h6 : six.val = 6) (h3 : three.val = 3) {S h : ℝ}
    (hh : 0 < h) (hS0 : 0 ≤ S) (hg : ∀ k, k + 1 < n → h ≤ gap q k) (hS : ∀ k, k < n → |(p k).2.val| ≤ S) (i : Nat)
    (hi : i + 2 < n) :
    Approx (21 * S / h ^ 2) (TridiagonalMatrix.sweepY (bSide six p) (bMain three p) (bSide six p) (rhs n p) i)
      (TridiagonalMatrix.sweepY (bSide 6 q) (bMain 3 q) (bSide 6 q) (rhs n q) i) 1 56 := by
  have hgp : ∀ k, k + 1 < n → 0 < gap q k := fun k hk => lt_of_lt_of_le hh (hg k hk)
  have hW : 0 ≤ 21 * S / h ^ 2 := by positivity
  induction i with
  | zero =>
    have h0 := hgp 0 (by omega)
    have h1 := hgp 1 (by omega)
    have hp := piv_ge hgp 0 hi
    have hd := (bMain_close (k := 0) hq h3 h0 h1).mono (l := 12.5) (by norm_num)
    have hr := rhs_scaled hq hh hS0 hg hS 0 hi
    set P := TridiagonalMatrix.piv (bSide 6 q) (bMain 3 q) (bSide 6 q) 0 with hP
    have hpos : 0 < P := by linarith [show 0 + 1 = 1 from rfl]
    exact (hr.div_close hd hpos hW (by norm_num [Small]) (by norm_num) (by norm_num)).mono hW
      (by norm_num) (by norm_num)
  | succ i ih =>
    have hd := (sweep_close hq h6 h3 hgp i (by omega)).2 (by omega)
    have h1 := hgp (i + 1) (by omega)
    have h2 := hgp (i + 2) (by omega)
    have hp := piv_ge hgp (i + 1) hi
    have hr := rhs_scaled hq hh hS0 hg hS (i + 1) hi
    have hy := ih (by omega)
    simp only [TridiagonalMatrix.sweepY]
    rw [← TridiagonalMatrix.piv_succ (bSide 6 q) (bMain 3 q) (bSide 6 q) i]
    set P := TridiagonalMatrix.piv (bSide 6 q) (bMain 3 q) (bSide 6 q) (i + 1) with hP
    have hpos : 0 < P := by linarith [show i + 1 + 1 = i + 2 from rfl]
    have hL : Approx P (bSide six p i) (bSide 6 q i) (2 / 3) (2.01 * (2 / 3)) := by
      refine (bSide_close hq h6 i).approx (by norm_num) ?_
      unfold bSide
      rw [abs_of_pos (by positivity)]
      linarith
    have hm := hL.mul_scales hy hpos.le hW (by norm_num [Small]) (by norm_num [Small])
    have hs := hr.sub hm (mul_nonneg hpos.le hW) (by norm_num [Small]) (by norm_num [Small])
    exact (hs.div_close hd hpos hW (by norm_num [Small]) (by norm_num) (by norm_num)).mono hW
      (by norm_num) (by norm_num)

theorem sweepX_close (hq : ∀ i, q i = ((p i).1.val, (p i).2.val)) (h6 : six.val = 6) (h3 : three.val = 3) {S h : ℝ}
    (hh : 0 < h) (hS0 : 0 ≤ S) (hg : ∀ k, k + 1 < n → h ≤ gap q k) (hS : ∀ k, k < n → |(p k).2.val| ≤ S) (m : Nat)
    (hm : m + 2 < n) (i : Nat) (hi : i + 2 < n) :
    Approx (21 * S / h ^ 2) (TridiagonalMatrix.sweepX (bSide six p) (bMain three p) (bSide six p) (rhs n p) m i)
      (TridiagonalMatrix.sweepX (bSide 6 q) (bMain 3 q) (bSide 6 q) (rhs n q) m i) 2 151 := by
  have hW : 0 ≤ 21 * S / h ^ 2 := by positivity
  have key : ∀ d i, m - i = d → i + 2 < n →
      Approx (21 * S / h ^ 2) (TridiagonalMatrix.sweepX (bSide six p) (bMain three p) (bSide six p) (rhs n p) m i)
      (TridiagonalMatrix.sweepX (bSide 6 q) (bMain 3 q) (bSide 6 q) (rhs n q) m i) 2 151 := by
    intro d
    induction d with
    | zero =>
      intro i hd hi
      rw [TridiagonalMatrix.sweepX_ge _ _ _ _ (show m ≤ i by omega),
        show TridiagonalMatrix.sweepX (bSide six p) (bMain three p) (bSide six p) (rhs n p) m i =
          TridiagonalMatrix.sweepY (bSide six p) (bMain three p) (bSide six p) (rhs n p) i by
          rw [TridiagonalMatrix.sweepX, dif_neg (by omega)]]
      exact (sweepY_close hq h6 h3 hh hS0 hg hS i hi).mono hW (by norm_num) (by norm_num)
    | succ d ih =>
      intro i hd hi
      rw [TridiagonalMatrix.sweepX_lt _ _ _ _ (show i < m by omega),
        show TridiagonalMatrix.sweepX (bSide six p) (bMain three p) (bSide six p) (rhs n p) m i =
          TridiagonalMatrix.sweepY (bSide six p) (bMain three p) (bSide six p) (rhs n p) i -
            TridiagonalMatrix.sweepC (bSide six p) (bMain three p) (bSide six p) i *
              TridiagonalMatrix.sweepX (bSide six p) (bMain three p) (bSide six p) (rhs n p) m (i + 1) by
          rw [TridiagonalMatrix.sweepX, dif_pos (show i < m by omega)]]
      have hy := sweepY_close hq h6 h3 hh hS0 hg hS i hi
      have hc := (sweep_close hq h6 h3 (fun k hk => lt_of_lt_of_le hh (hg k hk)) i hi).1
      have hx := ih (i + 1) (by omega) (by omega)
      have hmul := hc.mul hx hW (by norm_num [Small]) (by norm_num [Small])
      exact (hy.sub hmul hW (by norm_num [Small]) (by norm_num [Small])).mono hW (by norm_num) (by norm_num)
  exact key _ i rfl hi

theorem second_close (hq : ∀ i, q i = ((p i).1.val, (p i).2.val)) (h6 : six.val = 6) (h3 : three.val = 3) {S h : ℝ}
    (hn : 3 ≤ n) (hh : 0 < h) (hS0 : 0 ≤ S) (hg : ∀ k, k + 1 < n → h ≤ gap q k)
    (hS : ∀ k, k < n → |(p k).2.val| ≤ S) (i : Nat) :
    Approx (21 * S / h ^ 2) (second six three n p i) (second 6 3 n q i) 2 151 := by
  have hW : 0 ≤ 21 * S / h ^ 2 := by positivity
  unfold second
  by_cases h0 : i = 0
  · rw [if_pos h0, if_pos h0]
    exact (approx_zero _).mono hW (by norm_num) (by norm_num)
  · rw [if_neg h0, if_neg h0]
    by_cases h1 : i + 1 < n
    · rw [if_pos h1, if_pos h1]
      unfold solved
      by_cases hn3 : n = 3
      · rw [if_pos hn3, if_pos hn3]
        exact (sweepY_close hq h6 h3 hh hS0 hg hS 0 (by omega)).mono hW (by norm_num) (by norm_num)
      · rw [if_neg hn3, if_neg hn3]
        exact sweepX_close hq h6 h3 hh hS0 hg hS (n - 4) (by omega) (i - 1) (by omega)
    · rw [if_neg h1, if_neg h1]
      exact (approx_zero _).mono hW (by norm_num) (by norm_num)

end system

/-! ## One segment -/

/-- The value in a segment of length `G ≥ h`, from second derivatives of size `21 S / h²`. -/
theorem naturalExpr_close {six x₀ y₀ m₀ x₁ y₁ m₁ x : Fl A} {M₀ M₁ S h : ℝ} (h6 : six.val = 6) (hh : 0 < h)
    (hG : h ≤ x₁.val - x₀.val) (h0 : x₀.val ≤ x.val) (h1 : x.val ≤ x₁.val) (hy0 : |y₀.val| ≤ S) (hy1 : |y₁.val| ≤ S)
    (hm0 : Approx (21 * S / h ^ 2) m₀ M₀ 2 151) (hm1 : Approx (21 * S / h ^ 2) m₁ M₁ 2 151) :
    |(naturalExpr six x₀ y₀ m₀ x₁ y₁ m₁ x).val - naturalExpr 6 x₀.val y₀.val M₀ x₁.val y₁.val M₁ x.val| ≤
      2410 * unitRoundoff A * S * ((x₁.val - x₀.val) / h) ^ 2 := by
  have hS0 : 0 ≤ S := le_trans (abs_nonneg _) hy0
  have hW : 0 ≤ 21 * S / h ^ 2 := by positivity
  set W := 21 * S / h ^ 2 with hWd
  set G := x₁.val - x₀.val with hGd
  have hGp : 0 < G := by linarith
  have hGc : CloseTo 1 (x₁ - x₀) G := closeTo_sub _ _
  have h6c : CloseTo 0 six 6 := by rw [← h6]; exact CloseTo.refl _
  set T := G * (G / 6 * W) with hT
  have hT0 : 0 ≤ T := by positivity
  have hyG : ∀ y : ℝ, |y| ≤ S → |y / G| ≤ 0.2858 * (G / 6 * W) := by
    intro y hy
    rw [abs_div, abs_of_pos hGp, div_le_iff₀ hGp]
    have e : S = W * h ^ 2 / 21 := by rw [hWd]; field_simp
    have hsq : h ^ 2 ≤ G ^ 2 := by gcongr
    have := mul_le_mul_of_nonneg_left hsq hW
    have hp : 0 ≤ W * G ^ 2 := by positivity
    calc |y| ≤ S := hy
      _ ≤ 0.2858 * (W * G ^ 2) / 6 := by rw [e]; linarith
      _ = _ := by ring
  -- the cubic terms
  have cubic : ∀ (a : Fl A) (α : ℝ), CloseTo 1 a α → 0 ≤ α → α ≤ G → ∀ (m : Fl A) (M : ℝ), Approx W m M 2 151 →
      Approx T (a * a * a / six / (x₁ - x₀) * m) (α * α * α / 6 / G * M) 2 169.2 := by
    intro a α ha hα0 hα m M hm
    have c1 := ha.mul ha (by norm_num) (by norm_num) (by norm_num) (by norm_num)
    have c2 := c1.mul ha (by norm_num) (by norm_num) (by norm_num) (by norm_num)
    have c3 := c2.div h6c (by norm_num) (by norm_num) (by norm_num) (by norm_num)
    have c4 := (c3.div hGc (by norm_num) (by norm_num) (by norm_num) (by norm_num)).mono (l := 8.02) (by norm_num)
    have hb : |α * α * α / 6 / G| ≤ 1 * (G * (G / 6)) := by
      rw [abs_of_nonneg (by positivity), div_le_iff₀ hGp]
      have : α * α * α ≤ G * G * G := by gcongr
      linarith
    have c5 := (c4.approx (by norm_num) hb).mul_scales hm (by positivity) hW (by norm_num [Small]) (by norm_num [Small])
    rw [mul_assoc] at c5
    exact c5.mono hT0 (by norm_num) (by norm_num)
  -- the linear terms
  have linear : ∀ (a : Fl A) (α : ℝ), CloseTo 1 a α → 0 ≤ α → α ≤ G → ∀ (m : Fl A) (M : ℝ), Approx W m M 2 151 →
      ∀ y : Fl A, |y.val| ≤ S →
      Approx T (a * (y / (x₁ - x₀) - (x₁ - x₀) / six * m)) (α * (y.val / G - G / 6 * M)) 2.286 165 := by
    intro a α ha hα0 hα m M hm y hy
    have d1 := ((CloseTo.refl y).div hGc (by norm_num) (by norm_num) (by norm_num) (by norm_num)).mono (l := 2.01)
      (by norm_num)
    have d2 := d1.approx (by norm_num) (hyG _ hy)
    have d3 := (hGc.div h6c (by norm_num) (by norm_num) (by norm_num) (by norm_num)).mono (l := 2.01) (by norm_num)
    have hb : |G / 6| ≤ 1 * (G / 6) := by rw [abs_of_nonneg (by positivity), one_mul]
    have d4 := (d3.approx (by norm_num) hb).mul_scales hm (by positivity) hW (by norm_num [Small]) (by norm_num [Small])
    have d5 := d2.sub d4 (by positivity) (by norm_num [Small]) (by norm_num [Small])
    have ha' := ha.approx (S := G) (B := 1) (by norm_num) (by rw [abs_of_nonneg hα0]; linarith)
    have d6 := ha'.mul_scales d5 hGp.le (by positivity) (by norm_num [Small]) (by norm_num [Small])
    exact d6.mono hT0 (by norm_num) (by norm_num)
  have cA : CloseTo 1 (x₁ - x) (x₁.val - x.val) := closeTo_sub _ _
  have cB : CloseTo 1 (x - x₀) (x.val - x₀.val) := closeTo_sub _ _
  have t1 := cubic _ _ cA (by linarith) (by linarith) m₀ M₀ hm0
  have t2 := cubic _ _ cB (by linarith) (by linarith) m₁ M₁ hm1
  have t3 := linear _ _ cA (by linarith) (by linarith) m₀ M₀ hm0 y₀ hy0
  have t4 := linear _ _ cB (by linarith) (by linarith) m₁ M₁ hm1 y₁ hy1
  have s1 := t1.add_large t2 hT0 (by norm_num) (by norm_num) (by norm_num) (by norm_num) (by norm_num) (by norm_num)
  have s2 := s1.add_large t3 hT0 (by norm_num) (by norm_num) (by norm_num) (by norm_num) (by norm_num) (by norm_num)
  have s3 := s2.add_large t4 hT0 (by norm_num) (by norm_num) (by norm_num) (by norm_num) (by norm_num) (by norm_num)
  have fin := (s3.mono (B' := 9) (e' := 688) hT0 (by norm_num) (by norm_num)).1
  have hu := A.unit_pos
  have eT : T = 3.5 * (S * (G / h) ^ 2) := by
    rw [hT, hWd]; field_simp; ring
  rw [eT] at fin
  have hq : 0 ≤ unitRoundoff A * (S * (G / h) ^ 2) := by positivity
  unfold naturalExpr
  refine le_trans fin ?_
  linarith

end Qlab.Props
