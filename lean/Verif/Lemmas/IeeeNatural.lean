import Verif.Lemmas.NaturalError
import Verif.Lemmas.IeeeError

/-! # Rounding errors of the natural cubic spline in IEEE 754 arithmetic, overflow and underflow included -/

namespace Qlab.Props

open Spec NaturalCubic

variable {F : IeeeFormat}

/-! ## Products, quotients and sums with separate scales -/

namespace IApprox
variable {S T : ℝ} {a b : Ieee F} {X Y B C e f : ℝ}

theorem mul_scales (ha : IApprox T a X B e) (hb : IApprox S b Y C f) (hT : 0 ≤ T) (hS : 0 ≤ S) (hTS : InScale F (T * S))
    (h1 : Small B e) (h2 : Small C f) : IApprox (T * S) (a * b) (X * Y) (B * C) (e * C + B * f + B * C + 0.11) := by
  obtain ⟨x, hx, ax⟩ := ha
  obtain ⟨y, hy, ay⟩ := hb
  have m1 := ax.small_le hT h1
  have m2 := ay.small_le hS h2
  have h3 := (ax.mul_scales ay hT hS h1 h2).underflow (z := x.val * y.val) hTS rfl
  refine ⟨rounded F (x.val * y.val), Ieee.mul_round hx hy (hTS.fits ?_), h3.mono hTS.pos.le le_rfl (by linarith)⟩
  rw [abs_mul]
  obtain ⟨b0, b1, -, -⟩ := h1
  obtain ⟨c0, c1, -, -⟩ := h2
  have m3 : |y.val| ≤ 33 * S := le_trans m2 (mul_le_mul_of_nonneg_right (by linarith) hS)
  have m4 : |x.val| ≤ 33 * T := le_trans m1 (mul_le_mul_of_nonneg_right (by linarith) hT)
  have := hTS.pos
  calc |x.val| * |y.val| ≤ 33 * T * (33 * S) := mul_le_mul m4 m3 (abs_nonneg _) (by positivity)
    _ ≤ 2048 * (T * S) := by nlinarith

theorem rescale {S' B' e' : ℝ} (h : IApprox S a X B e) (hB : B * S ≤ B' * S') (he : e * S ≤ e' * S') :
    IApprox S' a X B' e' := by
  obtain ⟨x, hx, ax⟩ := h
  exact ⟨x, hx, ax.rescale hB he⟩

theorem add_large (ha : IApprox S a X B e) (hb : IApprox S b Y C f) (hS : InScale F S) (hB : 0 ≤ B) (hB' : B ≤ 100)
    (hC : 0 ≤ C) (hC' : C ≤ 100) (he : 0 ≤ e) (he' : e ≤ 10000) (hf : 0 ≤ f) (hf' : f ≤ 10000) :
    IApprox S (a + b) (X + Y) (B + C) (e + f + B + C + 0.1) := by
  obtain ⟨x, hx, ax⟩ := ha
  obtain ⟨y, hy, ay⟩ := hb
  have hS0 := hS.pos.le
  refine ⟨x + y, Ieee.add_number hx hy (hS.fits ?_), ax.add_large ay hS0 hB hC he he' hf hf'⟩
  have hu := F.arith.unit_le
  have hu0 := F.arith.unit_pos
  have m1 := ax.abs_le
  have m2 := ay.abs_le
  have k1 : (B + e * unitRoundoff F.arith) * S ≤ 200 * S := mul_le_mul_of_nonneg_right (by nlinarith) hS0
  have k2 : (C + f * unitRoundoff F.arith) * S ≤ 200 * S := mul_le_mul_of_nonneg_right (by nlinarith) hS0
  have := abs_add_le x.val y.val
  linarith

/-- Adding zero changes nothing but a sign of zero. -/
theorem add_zero (ha : IApprox S a X B e) : IApprox S (a + 0) X B e := by
  obtain ⟨x, hx, ax⟩ := ha
  have := Ieee.add_number hx (Ieee.zero_number (F := F)) (by rw [_root_.add_zero]; exact (Ieee.rep_of_isNumber hx).2)
  rw [_root_.add_zero, Ieee.fl_of_isNumber hx] at this
  exact ⟨x, this, ax⟩

end IApprox

/-- The datum is a number within `k` units of roundoff of `w`, relative to `w`. -/
def IClose (k : ℝ) (a : Ieee F) (w : ℝ) : Prop := ∃ x : Fl F.arith, IsNumber a x.val ∧ CloseTo k x w

namespace IClose
variable {k l : ℝ} {a b : Ieee F} {v w : ℝ}

theorem mono (h : IClose k a w) (hkl : k ≤ l) : IClose l a w := by
  obtain ⟨x, hx, h⟩ := h
  exact ⟨x, hx, h.mono hkl⟩

theorem neg (h : IClose k a w) : IClose k (-a) (-w) := by
  obtain ⟨x, hx, h⟩ := h
  exact ⟨-x, Ieee.neg_number hx, h.neg⟩

theorem exact (h : IsNumber a w) : IClose 0 a w := ⟨⟨w, Ieee.fl_of_isNumber h⟩, h, CloseTo.refl (A := F.arith) ⟨w, _⟩⟩

theorem sub (ha : IsNumber a v) (hb : IsNumber b w) (h : |v - w| ≤ F.largest) : IClose 1 (a - b) (v - w) :=
  ⟨(⟨v, Ieee.fl_of_isNumber ha⟩ : Fl F.arith) - ⟨w, Ieee.fl_of_isNumber hb⟩, Ieee.sub_number ha hb h, closeTo_sub _ _⟩

theorem approx {S B : ℝ} (h : IClose k a w) (hk : 0 ≤ k) (hw : |w| ≤ B * S) : IApprox S a w B (k * B) := by
  obtain ⟨x, hx, h⟩ := h
  exact ⟨x, hx, h.approx hk hw⟩

theorem abs_le (h : IClose k a w) (hk : k ≤ 50) {x : Fl F.arith} (hx : IsNumber a x.val) : |x.val| ≤ 1.001 * |w| := by
  obtain ⟨x', hx', h⟩ := h
  rw [Ieee.isNumber_inj hx hx']
  unfold CloseTo at h
  have hu := F.arith.unit_pos
  have hu1 := F.arith.unit_le
  have t := abs_add_le (x'.val - w) w
  rw [sub_add_cancel] at t
  have : k * unitRoundoff F.arith * |w| ≤ 0.001 * |w| := mul_le_mul_of_nonneg_right (by nlinarith) (abs_nonneg _)
  linarith

theorem add (ha : IClose k a v) (hb : IClose k b w) (hk : 0 ≤ k) (hk' : k ≤ 8) (hv : 0 ≤ v) (hw : 0 ≤ w)
    (hS : InScale F (v + w)) : IClose (k + 1.001) (a + b) (v + w) := by
  obtain ⟨x, hx, ax⟩ := id ha
  obtain ⟨y, hy, ay⟩ := id hb
  have m1 := ha.abs_le (by linarith) hx
  have m2 := hb.abs_le (by linarith) hy
  rw [abs_of_nonneg hv] at m1
  rw [abs_of_nonneg hw] at m2
  refine ⟨x + y, Ieee.add_number hx hy (hS.fits ?_), ax.add ay hk hk' (mul_nonneg hv hw)⟩
  have := abs_add_le x.val y.val
  linarith

/-- A positive number is close to another exactly if it approximates it on its own scale. -/
theorem of_approx {P B e : ℝ} (h : IApprox P a P B e) (hP : 0 ≤ P) : IClose e a P := by
  obtain ⟨x, hx, ax⟩ := h
  exact ⟨x, hx, ax.closeTo hP⟩

end IClose

/-- A quotient by a positive number known to a small relative error. -/
theorem IApprox.div_close {P W : ℝ} {a b : Ieee F} {X B e k : ℝ} (ha : IApprox (P * W) a X B e) (hb : IClose k b P)
    (hP : 0 < P) (hW : InScale F W) (h1 : Small B e) (hk : 0 ≤ k) (hk' : k ≤ 50) :
    IApprox W (a / b) (X / P) B (e + k * B + B + 0.11) := by
  obtain ⟨x, hx, ax⟩ := ha
  obtain ⟨y, hy, cy⟩ := hb
  have hW0 := hW.pos
  have h3 := (ax.div_close cy hP hW0.le h1 hk hk').underflow (z := x.val / y.val) hW rfl
  obtain ⟨t, ht, et⟩ := cy.factor hk
  have hu := F.arith.unit_pos
  have hu1 := F.arith.unit_le
  have htt := _root_.abs_le.1 ht
  have htp : 0.99 ≤ t := by nlinarith
  have hyp : 0 < y.val := by rw [et]; positivity
  refine ⟨rounded F (x.val / y.val), Ieee.div_round hx hy hyp.ne' (hW.fits ?_), h3.mono hW0.le le_rfl (by linarith)⟩
  rw [abs_div, abs_of_pos hyp, div_le_iff₀ hyp]
  have m1 := ax.small_le (by positivity) h1
  obtain ⟨b0, b1, -, -⟩ := h1
  have hPW : 0 < P * W := by positivity
  have : (B + 0.0001) * (P * W) ≤ 33 * (P * W) := mul_le_mul_of_nonneg_right (by linarith) hPW.le
  rw [et, show 2048 * W * (P * t) = 2048 * (P * W) * t by ring]
  have : 2048 * (P * W) * 0.99 ≤ 2048 * (P * W) * t := mul_le_mul_of_nonneg_left htp (by positivity)
  linarith

/-- A positive quotient. -/
theorem IClose.div {k l : ℝ} {a b : Ieee F} {v w : ℝ} (ha : IClose k a v) (hb : IClose l b w) (hk : 0 ≤ k) (hk' : k ≤ 8)
    (hl : 0 ≤ l) (hl' : l ≤ 8) (hv : 0 < v) (hw : 0 < w) (hS : InScale F (v / w)) :
    IClose (k + 1.001 * l + 1.003) (a / b) (v / w) := by
  obtain ⟨x, hx, ax⟩ := ha
  obtain ⟨y, hy, ay⟩ := hb
  have hq : 0 < v / w := div_pos hv hw
  have h2 := ax.div ay hk hk' hl hl'
  have h3 := (h2.approx (S := v / w) (B := 1) (by positivity) (by rw [abs_of_pos hq, one_mul])).underflow
    (z := x.val / y.val) hS rfl
  obtain ⟨s, hs, es⟩ := ax.factor hk
  obtain ⟨t, ht, et⟩ := ay.factor hl
  have hu := F.arith.unit_pos
  have hu1 := F.arith.unit_le
  have hss := _root_.abs_le.1 hs
  have htt := _root_.abs_le.1 ht
  have hs1 : s ≤ 1.01 := by nlinarith
  have hs0 : 0 ≤ s := by nlinarith
  have ht0 : 0.99 ≤ t := by nlinarith
  have hyp : 0 < y.val := by rw [et]; positivity
  refine ⟨rounded F (x.val / y.val), Ieee.div_round hx hy hyp.ne' (hS.fits ?_),
    (h3.closeTo hq.le).mono (by linarith)⟩
  rw [es, et, mul_div_mul_comm, abs_mul, abs_of_pos hq, mul_comm]
  refine mul_le_mul_of_nonneg_right ?_ hq.le
  rw [abs_div, abs_of_nonneg hs0, abs_of_nonneg (by linarith), div_le_iff₀ (by linarith)]
  linarith

/-! ## The range of the data -/

/-- Distances between `1 / κ` and `κ`, and a scale of ordinates in the same range. -/
structure Bounds (F : IeeeFormat) (κ S h : ℝ) : Prop where
  one_le : 1 ≤ κ
  scale : ∀ T, 1 ≤ 8 * κ ^ 3 * T → T ≤ 32 * κ ^ 5 → InScale F T
  hpos : 0 < h
  h_ge : 1 ≤ κ * h
  h_le : h ≤ κ
  S_ge : 1 ≤ κ * S
  S_le : S ≤ κ

theorem bounds_of {k : ℕ} {S h : ℝ} (hk : 5 * k + 16 ≤ F.emax) (h1 : (2 : ℝ) ^ (-(k : ℤ)) ≤ h) (h2 : h ≤ 2 ^ k)
    (h3 : (2 : ℝ) ^ (-(k : ℤ)) ≤ S) (h4 : S ≤ 2 ^ k) : Bounds F (2 ^ k) S h := by
  have hκ : (0 : ℝ) < 2 ^ k := by positivity
  have inv : ∀ x : ℝ, (2 : ℝ) ^ (-(k : ℤ)) ≤ x → 1 ≤ 2 ^ k * x := by
    intro x hx
    calc (1 : ℝ) = 2 ^ k * 2 ^ (-(k : ℤ)) := by rw [zpow_neg, zpow_natCast, mul_inv_cancel₀ hκ.ne']
      _ ≤ _ := mul_le_mul_of_nonneg_left hx hκ.le
  refine ⟨one_le_pow₀ (by norm_num), fun T h5 h6 => ⟨?_, ?_⟩, lt_of_lt_of_le (Binary.zpow_pos' _) h1, inv _ h1, h2,
    inv _ h3, h4⟩
  · have e : (8 : ℝ) * (2 ^ k) ^ 3 = 2 ^ ((3 * k + 3 : ℕ) : ℤ) := by
      rw [zpow_natCast, pow_add, ← pow_mul, mul_comm k 3]; ring
    have hp := Binary.zpow_pos' ((3 * k + 3 : ℕ) : ℤ)
    rw [e] at h5
    calc (2 : ℝ) ^ (12 - (F.emax : ℤ)) ≤ 2 ^ (-((3 * k + 3 : ℕ) : ℤ)) :=
          zpow_le_zpow_right₀ (by norm_num) (by push_cast; omega)
      _ = 1 / 2 ^ ((3 * k + 3 : ℕ) : ℤ) := by rw [zpow_neg, one_div]
      _ ≤ T := by rw [div_le_iff₀ hp]; linarith
  · have e : (32 : ℝ) * (2 ^ k) ^ 5 = 2 ^ ((5 * k + 5 : ℕ) : ℤ) := by
      rw [zpow_natCast, pow_add, ← pow_mul, mul_comm k 5]; ring
    rw [e] at h6
    exact le_trans h6 (zpow_le_zpow_right₀ (by norm_num) (by push_cast; omega))

namespace Bounds
variable {κ S h : ℝ} (b : Bounds F κ S h)
include b

theorem S_pos : 0 < S := by
  have := b.S_ge
  have := b.one_le
  by_contra hc
  push Not at hc
  nlinarith

/-- Numbers between `1 / (8 κ)` and `8 κ`. -/
theorem scale_one {T : ℝ} (h1 : 1 ≤ 8 * κ * T) (h2 : T ≤ 8 * κ) : InScale F T := by
  have hκ := b.one_le
  have hT : 0 < T := by by_contra hc; push Not at hc; nlinarith
  refine b.scale T ?_ ?_
  · have : κ ≤ κ ^ 3 := le_self_pow₀ hκ (by norm_num)
    nlinarith
  · have : κ ≤ κ ^ 5 := le_self_pow₀ hκ (by norm_num)
    linarith

/-- Numbers between `1 / (8 κ²)` and `8 κ²`. -/
theorem scale_two {T : ℝ} (h1 : 1 ≤ 8 * κ ^ 2 * T) (h2 : T ≤ 8 * κ ^ 2) : InScale F T := by
  have hκ := b.one_le
  have hT : 0 < T := by by_contra hc; push Not at hc; nlinarith [sq_nonneg κ]
  refine b.scale T ?_ ?_
  · have : κ ^ 2 ≤ κ ^ 3 := pow_le_pow_right₀ hκ (by norm_num)
    nlinarith
  · have : κ ^ 2 ≤ κ ^ 5 := pow_le_pow_right₀ hκ (by norm_num)
    linarith

theorem fits {x : ℝ} (hx : |x| ≤ κ) : |x| ≤ F.largest :=
  (b.scale_one (T := κ) (by nlinarith [b.one_le]) (by linarith [b.one_le])).fits (by linarith [b.one_le])

theorem inv_h : InScale F (1 / h) := by
  have h0 := b.hpos
  refine b.scale_one ?_ ?_
  · rw [← mul_div_assoc, le_div_iff₀ h0]; linarith [b.h_le, b.one_le]
  · rw [div_le_iff₀ h0]; linarith [b.h_ge]

theorem W_scale : InScale F (21 * S / h ^ 2) := by
  have h0 := b.hpos
  have hκ := b.one_le
  have h2 : h ^ 2 ≤ κ ^ 2 := pow_le_pow_left₀ h0.le b.h_le 2
  refine b.scale _ ?_ ?_
  · rw [← mul_div_assoc, le_div_iff₀ (by positivity)]
    have : κ ^ 2 * 1 ≤ κ ^ 2 * (κ * S) := mul_le_mul_of_nonneg_left b.S_ge (by positivity)
    nlinarith
  · rw [div_le_iff₀ (by positivity)]
    have h3 : 1 ≤ (κ * h) ^ 2 := one_le_pow₀ b.h_ge
    have h4 : κ ≤ κ ^ 3 := le_self_pow₀ hκ (by norm_num)
    have h5 : κ ^ 3 * 1 ≤ κ ^ 3 * (κ * h) ^ 2 := mul_le_mul_of_nonneg_left h3 (by positivity)
    have : 32 * κ ^ 5 * h ^ 2 = 32 * (κ ^ 3 * (κ * h) ^ 2) := by ring
    have := b.S_le
    linarith

theorem Sh_scale : InScale F (1 / h * S) := by
  have h0 := b.hpos
  have hκ := b.one_le
  rw [one_div, inv_mul_eq_div]
  refine b.scale_two ?_ ?_
  · rw [← mul_div_assoc, le_div_iff₀ h0]
    have : κ * 1 ≤ κ * (κ * S) := mul_le_mul_of_nonneg_left b.S_ge (by linarith)
    nlinarith [b.h_le]
  · rw [div_le_iff₀ h0]
    have : κ * 1 ≤ κ * (κ * h) := mul_le_mul_of_nonneg_left b.h_ge (by linarith)
    nlinarith [b.S_le]

/-- Squares and cubes of a distance. -/
theorem gap_scales {G : ℝ} (hGp : 0 < G) (hG1 : 1 ≤ κ * G) (hGκ : G ≤ κ) : InScale F (G * G) ∧ InScale F (G * G * G) ∧
    InScale F (G * (G * (G / 6))) ∧ InScale F (G * (G / 6)) := by
  have hκ := b.one_le
  have k3 : κ ^ 3 ≤ κ ^ 5 := pow_le_pow_right₀ hκ (by norm_num)
  have g2 : 1 ≤ κ ^ 2 * G ^ 2 := by rw [← mul_pow]; exact one_le_pow₀ hG1
  have g3 : 1 ≤ κ ^ 3 * G ^ 3 := by rw [← mul_pow]; exact one_le_pow₀ hG1
  have u2 : G ^ 2 ≤ κ ^ 2 := pow_le_pow_left₀ hGp.le hGκ 2
  have u3 : G ^ 3 ≤ κ ^ 3 := pow_le_pow_left₀ hGp.le hGκ 3
  have p2 : 0 < κ ^ 2 := by positivity
  have p3 : 0 < κ ^ 3 := by positivity
  have e2 : G * G = G ^ 2 := by ring
  have e3 : G * G * G = G ^ 3 := by ring
  have e3' : G * (G * (G / 6)) = G ^ 3 / 6 := by ring
  have e2' : G * (G / 6) = G ^ 2 / 6 := by ring
  rw [e3', e2', e3, e2]
  exact ⟨b.scale_two (by linarith) (by linarith), b.scale _ (by linarith) (by linarith),
    b.scale _ (by linarith) (by linarith), b.scale_two (by linarith) (by linarith)⟩

theorem value_scales {G : ℝ} (hG : h ≤ G) (hGκ : G ≤ κ) :
    InScale F (3.5 * (S * (G / h) ^ 2)) ∧ InScale F (3.5 * (S * G / h ^ 2)) := by
  have hh := b.hpos
  have hκ := b.one_le
  have hS0 := b.S_pos
  have hGp : 0 < G := by linarith
  have k1 : κ ≤ κ ^ 3 := le_self_pow₀ hκ (by norm_num)
  have k2 : κ ^ 2 ≤ κ ^ 3 := pow_le_pow_right₀ hκ (by norm_num)
  have k4 : κ ^ 4 ≤ κ ^ 5 := pow_le_pow_right₀ hκ (by norm_num)
  have hGh : 1 ≤ G / h := by rw [le_div_iff₀ hh]; linarith
  have hGh2 : 1 ≤ (G / h) ^ 2 := one_le_pow₀ hGh
  have hGhκ : G / h ≤ κ ^ 2 := by
    rw [div_le_iff₀ hh]
    have := mul_le_mul_of_nonneg_left b.h_ge (show 0 ≤ κ by linarith)
    nlinarith
  have p5 : 0 < κ ^ 5 := by positivity
  constructor
  · have t1 : S * 1 ≤ S * (G / h) ^ 2 := mul_le_mul_of_nonneg_left hGh2 hS0.le
    refine b.scale _ ?_ ?_
    · have := b.S_ge
      have t2 := mul_le_mul_of_nonneg_left t1 (show 0 ≤ κ by linarith)
      have t3 : κ * (S * (G / h) ^ 2) ≤ κ ^ 3 * (S * (G / h) ^ 2) := mul_le_mul_of_nonneg_right k1 (by positivity)
      linarith
    · have t2 : (G / h) ^ 2 ≤ (κ ^ 2) ^ 2 := pow_le_pow_left₀ (by positivity) hGhκ 2
      have t3 : S * (G / h) ^ 2 ≤ κ * (κ ^ 2) ^ 2 := mul_le_mul b.S_le t2 (by positivity) (by linarith)
      have : κ * (κ ^ 2) ^ 2 = κ ^ 5 := by ring
      linarith
  · have e3 : S * G / h ^ 2 = S / h * (G / h) := by field_simp
    have t0 : 1 ≤ κ ^ 2 * (S / h) := by
      rw [← mul_div_assoc, le_div_iff₀ hh]
      have := mul_le_mul_of_nonneg_left b.S_ge (show 0 ≤ κ by linarith)
      nlinarith [b.h_le]
    have t1 : S / h ≤ κ ^ 2 := by
      rw [div_le_iff₀ hh]
      have := mul_le_mul_of_nonneg_left b.h_ge (show 0 ≤ κ by linarith)
      nlinarith [b.S_le]
    have t2 : S / h * 1 ≤ S / h * (G / h) := mul_le_mul_of_nonneg_left hGh (by positivity)
    rw [e3]
    refine b.scale _ ?_ ?_
    · have t3 := mul_le_mul_of_nonneg_left t2 (show 0 ≤ κ ^ 2 by positivity)
      have t4 : κ ^ 2 * (S / h * (G / h)) ≤ κ ^ 3 * (S / h * (G / h)) := mul_le_mul_of_nonneg_right k2 (by positivity)
      linarith
    · have t3 : S / h * (G / h) ≤ κ ^ 2 * κ ^ 2 := mul_le_mul t1 hGhκ (by positivity) (by positivity)
      have : κ ^ 2 * κ ^ 2 = κ ^ 4 := by ring
      linarith

end Bounds

/-! ## The matrix -/

/-- Nodes with the real values `q`, at least `h` and at most `κ` apart, with ordinates of at most `S`. -/
structure Nodes (F : IeeeFormat) (κ S h : ℝ) (six three : Ieee F) (n : Nat) (p : Nat → Ieee F × Ieee F)
    (q : Nat → ℝ × ℝ) : Prop where
  bounds : Bounds F κ S h
  six : IsNumber six 6
  three : IsNumber three 3
  x : ∀ i, i < n → IsNumber (p i).1 (q i).1
  y : ∀ i, i < n → IsNumber (p i).2 (q i).2
  gap_ge : ∀ k, k + 1 < n → h ≤ gap q k
  gap_le : ∀ k, k + 1 < n → gap q k ≤ κ
  y_le : ∀ k, k < n → |(q k).2| ≤ S

namespace Nodes
variable {κ S h : ℝ} {six three : Ieee F} {n : Nat} {p : Nat → Ieee F × Ieee F} {q : Nat → ℝ × ℝ}
  (N : Nodes F κ S h six three n p q)
include N

theorem gap_pos (k : Nat) (hk : k + 1 < n) : 0 < gap q k := lt_of_lt_of_le N.bounds.hpos (N.gap_ge k hk)

theorem one_le_gap (k : Nat) (hk : k + 1 < n) : 1 ≤ κ * gap q k := by
  have := N.bounds.h_ge
  have := mul_le_mul_of_nonneg_left (N.gap_ge k hk) (le_trans zero_le_one N.bounds.one_le)
  linarith

theorem gap_close (k : Nat) (hk : k + 1 < n) : IClose 1 (gap p k) (gap q k) := by
  have h0 := N.gap_pos k hk
  exact IClose.sub (N.x _ hk) (N.x _ (by omega)) (N.bounds.fits (by
    change |gap q k| ≤ κ
    rw [abs_of_pos h0]; exact N.gap_le k hk))

theorem bSide_close (k : Nat) (hk : k + 2 < n) : IClose 2.01 (bSide six p k) (bSide 6 q k) := by
  have h0 := N.gap_pos (k + 1) (by omega)
  have h1 := N.one_le_gap (k + 1) (by omega)
  have h2 := N.gap_le (k + 1) (by omega)
  have hκ := N.bounds.one_le
  exact ((N.gap_close (k + 1) (by omega)).div (IClose.exact N.six) (by norm_num) (by norm_num) (by norm_num)
    (by norm_num) h0 (by norm_num) (N.bounds.scale_one (by linarith) (by linarith))).mono (by norm_num)

theorem bMain_close (k : Nat) (hk : k + 2 < n) : IClose 3.01 (bMain three p k) (bMain 3 q k) := by
  have h0 := N.gap_pos k (by omega)
  have h1 := N.gap_pos (k + 1) (by omega)
  have h2 := N.one_le_gap k (by omega)
  have h3 := N.one_le_gap (k + 1) (by omega)
  have h4 := N.gap_le k (by omega)
  have h5 := N.gap_le (k + 1) (by omega)
  have hκ := N.bounds.one_le
  have s1 := (N.gap_close k (by omega)).add (N.gap_close (k + 1) (by omega)) (by norm_num) (by norm_num) h0.le h1.le
    (N.bounds.scale_one (by linarith) (by linarith))
  exact (s1.div (IClose.exact N.three) (by norm_num) (by norm_num) (by norm_num) (by norm_num) (by linarith)
    (by norm_num) (N.bounds.scale_one (by linarith) (by linarith))).mono (by norm_num)

theorem recip_close (k : Nat) (hk : k + 1 < n) : IClose 2.01 (recip (gap p k)) (recip (gap q k)) := by
  have h0 := N.gap_pos k hk
  have h2 := N.one_le_gap k hk
  have h4 := N.gap_le k hk
  have hκ := N.bounds.one_le
  exact ((IClose.exact Ieee.one_number).div (N.gap_close k hk) (by norm_num) (by norm_num) (by norm_num) (by norm_num)
    one_pos h0 (N.bounds.scale_one (by rw [← mul_div_assoc, le_div_iff₀ h0]; linarith)
      (by rw [div_le_iff₀ h0]; linarith))).mono (by norm_num)

theorem cMain_close (k : Nat) (hk : k + 2 < n) : IClose 3.02 (cMain p k) (cMain q k) := by
  have h0 := N.gap_pos k (by omega)
  have h1 := N.gap_pos (k + 1) (by omega)
  have h2 := N.one_le_gap k (by omega)
  have h3 := N.one_le_gap (k + 1) (by omega)
  have h4 := N.gap_le k (by omega)
  have h5 := N.gap_le (k + 1) (by omega)
  have hκ := N.bounds.one_le
  have a0 : 1 / gap q k ≤ κ := by rw [div_le_iff₀ h0]; linarith
  have a1 : 1 / gap q (k + 1) ≤ κ := by rw [div_le_iff₀ h1]; linarith
  have b0 : 0 < 1 / gap q k := one_div_pos.2 h0
  have b1 : 0 < 1 / gap q (k + 1) := one_div_pos.2 h1
  have c0 : 1 ≤ κ * (1 / gap q k) := by rw [mul_one_div, le_div_iff₀ h0]; linarith
  have := ((N.recip_close k (by omega)).add (N.recip_close (k + 1) (by omega)) (by norm_num) (by norm_num) b0.le b1.le
    (N.bounds.scale_one (by unfold recip; nlinarith) (by unfold recip; linarith))).mono (l := 3.02) (by norm_num)
  exact this.neg

/-! ## The pivots -/

theorem piv_ge' (i : Nat) (hi : i + 2 < n) :
    7 / 12 * h ≤ TridiagonalMatrix.piv (bSide 6 q) (bMain 3 q) (bSide 6 q) i := by
  have := piv_ge N.gap_pos i hi
  have := N.gap_ge i (by omega)
  have := N.gap_ge (i + 1) (by omega)
  linarith

theorem piv_le (i : Nat) (hi : i + 2 < n) :
    TridiagonalMatrix.piv (bSide 6 q) (bMain 3 q) (bSide 6 q) i ≤ 3 / 4 * κ := by
  have h1 := N.gap_le i (by omega)
  have h2 := N.gap_le (i + 1) (by omega)
  have hκ := N.bounds.one_le
  rcases i with _ | i
  · simp only [TridiagonalMatrix.piv, bMain]
    linarith
  · rw [TridiagonalMatrix.piv_succ]
    have hc := sweepC_le N.gap_pos i (by omega)
    have g := N.gap_pos (i + 1) (by omega)
    have hb : 0 < bSide 6 q i := by unfold bSide; positivity
    have hb' : bSide 6 q i ≤ κ / 6 := by unfold bSide; linarith
    have t := neg_abs_le (TridiagonalMatrix.sweepC (bSide 6 q) (bMain 3 q) (bSide 6 q) i)
    have hm : bMain 3 q (i + 1) ≤ 2 / 3 * κ := by
      unfold bMain; linarith
    nlinarith

theorem piv_pos (i : Nat) (hi : i + 2 < n) : 0 < TridiagonalMatrix.piv (bSide 6 q) (bMain 3 q) (bSide 6 q) i := by
  have := N.piv_ge' i hi
  have := N.bounds.hpos
  linarith

theorem piv_scale (i : Nat) (hi : i + 2 < n) :
    InScale F (TridiagonalMatrix.piv (bSide 6 q) (bMain 3 q) (bSide 6 q) i) := by
  have h1 := N.piv_ge' i hi
  have h2 := N.piv_le i hi
  have hκ := N.bounds.one_le
  have := N.bounds.h_ge
  have := mul_le_mul_of_nonneg_left h1 (le_trans zero_le_one hκ)
  exact N.bounds.scale_one (by linarith) (by linarith)

theorem pivW_scale (i : Nat) (hi : i + 2 < n) :
    InScale F (TridiagonalMatrix.piv (bSide 6 q) (bMain 3 q) (bSide 6 q) i * (21 * S / h ^ 2)) := by
  have h1 := N.piv_ge' i hi
  have h2 := N.piv_le i hi
  have h3 := N.piv_pos i hi
  set P := TridiagonalMatrix.piv (bSide 6 q) (bMain 3 q) (bSide 6 q) i
  have hκ := N.bounds.one_le
  have h0 := N.bounds.hpos
  have hS := N.bounds.S_pos
  have hSg := N.bounds.S_ge
  have hSl := N.bounds.S_le
  have hhg := N.bounds.h_ge
  have hhl := N.bounds.h_le
  refine N.bounds.scale _ ?_ ?_
  · have k1 : 7 / 12 * h * (21 * S / h ^ 2) ≤ P * (21 * S / h ^ 2) := mul_le_mul_of_nonneg_right h1 (by positivity)
    have e : 7 / 12 * h * (21 * S / h ^ 2) = 12.25 * (S / h) := by field_simp; ring
    have k2 : 1 ≤ κ ^ 2 * (S / h) := by
      rw [← mul_div_assoc, le_div_iff₀ h0]
      have := mul_le_mul_of_nonneg_left hSg (show 0 ≤ κ by linarith)
      nlinarith
    have k3 : κ ^ 2 ≤ κ ^ 3 := pow_le_pow_right₀ hκ (by norm_num)
    have k4 : 0 < S / h := by positivity
    have k5 := mul_le_mul_of_nonneg_right k3 k4.le
    rw [e] at k1
    have k6 : 0 < κ ^ 3 := by positivity
    have k7 := mul_le_mul_of_nonneg_left k1 k6.le
    linarith
  · have k1 : 21 * S / h ^ 2 ≤ 21 * κ ^ 3 := by
      rw [div_le_iff₀ (by positivity)]
      have h3 : 1 ≤ (κ * h) ^ 2 := one_le_pow₀ hhg
      have h5 : κ * 1 ≤ κ * (κ * h) ^ 2 := mul_le_mul_of_nonneg_left h3 (by positivity)
      have : 21 * κ ^ 3 * h ^ 2 = 21 * (κ * (κ * h) ^ 2) := by ring
      linarith
    have k2 : P * (21 * S / h ^ 2) ≤ 3 / 4 * κ * (21 * κ ^ 3) := mul_le_mul h2 k1 (by positivity) (by positivity)
    have k3 : κ ^ 4 ≤ κ ^ 5 := pow_le_pow_right₀ hκ (by norm_num)
    have k4 : 0 < κ ^ 4 := by positivity
    have e : 3 / 4 * κ * (21 * κ ^ 3) = 15.75 * κ ^ 4 := by ring
    linarith

/-- The multipliers and the pivots of the elimination. -/
theorem sweep_close (i : Nat) (hi : i + 2 < n) :
    IApprox 1 (TridiagonalMatrix.sweepC (bSide six p) (bMain three p) (bSide six p) i)
        (TridiagonalMatrix.sweepC (bSide 6 q) (bMain 3 q) (bSide 6 q) i) (1 / 2) 8 ∧
      (i + 3 < n → IClose 12.5
        (bMain three p (i + 1) - bSide six p i * TridiagonalMatrix.sweepC (bSide six p) (bMain three p) (bSide six p) i)
        (TridiagonalMatrix.piv (bSide 6 q) (bMain 3 q) (bSide 6 q) (i + 1))) := by
  have second : ∀ i, i + 3 < n → IApprox 1 (TridiagonalMatrix.sweepC (bSide six p) (bMain three p) (bSide six p) i)
        (TridiagonalMatrix.sweepC (bSide 6 q) (bMain 3 q) (bSide 6 q) i) (1 / 2) 8 → IClose 12.5
        (bMain three p (i + 1) - bSide six p i * TridiagonalMatrix.sweepC (bSide six p) (bMain three p) (bSide six p) i)
        (TridiagonalMatrix.piv (bSide 6 q) (bMain 3 q) (bSide 6 q) (i + 1)) := by
    intro i hi hc
    have h1 := N.gap_pos (i + 1) (by omega)
    have h2 := N.gap_pos (i + 2) (by omega)
    have hp := piv_ge N.gap_pos (i + 1) (by omega)
    have hps := TridiagonalMatrix.piv_succ (bSide 6 q) (bMain 3 q) (bSide 6 q) i
    have hsc := N.piv_scale (i + 1) (by omega)
    set P := TridiagonalMatrix.piv (bSide 6 q) (bMain 3 q) (bSide 6 q) (i + 1) with hP
    have hpos : 0 < P := by linarith [show i + 1 + 1 = i + 2 from rfl]
    have hL : IApprox P (bSide six p i) (bSide 6 q i) (2 / 3) (2.01 * (2 / 3)) := by
      refine (N.bSide_close i (by omega)).approx (by norm_num) ?_
      unfold bSide
      rw [abs_of_pos (by positivity)]
      linarith
    have hD : IApprox P (bMain three p (i + 1)) (bMain 3 q (i + 1)) (4 / 3) (3.01 * (4 / 3)) := by
      refine (N.bMain_close (i + 1) (by omega)).approx (by norm_num) ?_
      unfold bMain
      rw [abs_of_pos (by positivity)]
      linarith [show i + 1 + 1 = i + 2 from rfl]
    have hm := hL.mul_scales hc hpos.le zero_le_one (by rwa [mul_one]) (by norm_num [Small]) (by norm_num [Small])
    rw [mul_one P] at hm
    have hs := hD.sub hm hsc (by norm_num [Small]) (by norm_num [Small])
    rw [← hps] at hs
    exact (IClose.of_approx hs hpos.le).mono (by norm_num)
  have first : IApprox 1 (TridiagonalMatrix.sweepC (bSide six p) (bMain three p) (bSide six p) i)
        (TridiagonalMatrix.sweepC (bSide 6 q) (bMain 3 q) (bSide 6 q) i) (1 / 2) 8 := by
    induction i with
    | zero =>
      have h0 := N.gap_pos 0 (by omega)
      have h1 := N.gap_pos 1 (by omega)
      have hp := piv_ge N.gap_pos 0 hi
      have hd := (N.bMain_close 0 (by omega)).mono (l := 12.5) (by norm_num)
      set P := TridiagonalMatrix.piv (bSide 6 q) (bMain 3 q) (bSide 6 q) 0 with hP
      have hpos : 0 < P := by linarith [show 0 + 1 = 1 from rfl]
      have hU : IApprox (P * 1) (bSide six p 0) (bSide 6 q 0) (1 / 2) (2.01 * (1 / 2)) := by
        refine (N.bSide_close 0 (by omega)).approx (by norm_num) ?_
        unfold bSide
        rw [abs_of_pos (by positivity)]
        linarith
      exact (hU.div_close hd hpos inScale_one (by norm_num [Small]) (by norm_num) (by norm_num)).mono zero_le_one
        (by norm_num) (by norm_num)
    | succ i ih =>
      have hd := second i (by omega) (ih (by omega))
      have h1 := N.gap_pos (i + 1) (by omega)
      have h2 := N.gap_pos (i + 2) (by omega)
      have hp := piv_ge N.gap_pos (i + 1) hi
      have hps := TridiagonalMatrix.sweepC_eq (bSide 6 q) (bMain 3 q) (bSide 6 q) (i + 1)
      rw [hps]
      set P := TridiagonalMatrix.piv (bSide 6 q) (bMain 3 q) (bSide 6 q) (i + 1) with hP
      have hpos : 0 < P := by linarith [show i + 1 + 1 = i + 2 from rfl]
      have hU : IApprox (P * 1) (bSide six p (i + 1)) (bSide 6 q (i + 1)) (1 / 2) (2.01 * (1 / 2)) := by
        refine (N.bSide_close (i + 1) (by omega)).approx (by norm_num) ?_
        unfold bSide
        rw [abs_of_pos (by positivity)]
        linarith
      simp only [TridiagonalMatrix.sweepC]
      exact (hU.div_close hd hpos inScale_one (by norm_num [Small]) (by norm_num) (by norm_num)).mono zero_le_one
        (by norm_num) (by norm_num)
  exact ⟨first, fun h => second i h first⟩

/-! ## The right-hand side -/

theorem rhs_close (k : Nat) (hk : k + 2 < n) : IApprox (1 / h * S) (rhs n p k) (rhs n q k) 4 22 := by
  have hh := N.bounds.hpos
  have hS0 := N.bounds.S_pos.le
  have hsc := N.bounds.Sh_scale
  have hSh : 0 ≤ 1 / h * S := hsc.pos.le
  have hR : ∀ k, k + 1 < n → IApprox (1 / h) (recip (gap p k)) (recip (gap q k)) 1 (2.01 * 1) := by
    intro k hk
    refine (N.recip_close k hk).approx (by norm_num) ?_
    have := N.gap_ge k hk
    unfold recip
    rw [abs_of_pos (by have : 0 < gap q k := by linarith
                       positivity), one_mul]
    exact one_div_le_one_div_of_le hh this
  have hY : ∀ k, k < n → IApprox S (p k).2 (q k).2 1 0 := by
    intro k hk
    exact IApprox.exact (N.y k hk) (by simpa using N.y_le k hk)
  have hdiag : IApprox (1 / h * S) (cMain p k * (p (k + 1)).2) (cMain q k * (q (k + 1)).2) 2 8.2 := by
    have h0 := N.gap_ge k (by omega)
    have h1 := N.gap_ge (k + 1) (by omega)
    have hc : IApprox (1 / h) (cMain p k) (cMain q k) 2 (3.02 * 2) := by
      refine (N.cMain_close k hk).approx (by norm_num) ?_
      have a0 := one_div_le_one_div_of_le hh h0
      have a1 := one_div_le_one_div_of_le hh h1
      have b0 : 0 < 1 / gap q k := one_div_pos.2 (by linarith)
      have b1 : 0 < 1 / gap q (k + 1) := one_div_pos.2 (by linarith)
      unfold cMain recip
      rw [abs_neg, abs_of_pos (by linarith)]
      linarith
    refine (hc.mul_scales (hY (k + 1) (by omega)) (by positivity) hS0 hsc (by norm_num [Small])
      (by norm_num [Small])).mono hSh (by norm_num) (by norm_num)
  have hside : ∀ j k, j + 1 < n → k < n →
      IApprox (1 / h * S) (recip (gap p j) * (p k).2) (recip (gap q j) * (q k).2) 1 3.2 := by
    intro j k hj hk
    exact ((hR j hj).mul_scales (hY k hk) (by positivity) hS0 hsc (by norm_num [Small]) (by norm_num [Small])).mono hSh
      (by norm_num) (by norm_num)
  have hend : ∀ j k, j + 1 < n → k < n → IApprox (1 / h * S) ((p k).2 / gap p j) ((q k).2 / gap q j) 1 2.2 := by
    intro j k hj hk
    have g := N.gap_pos j hj
    have hy : IApprox (gap q j * (1 / h * S)) (p k).2 (q k).2 1 0 := by
      refine IApprox.exact (N.y k hk) ?_
      calc |(q k).2| ≤ S := N.y_le k hk
        _ = h * (1 / h * S) := by field_simp
        _ ≤ gap q j * (1 / h * S) := mul_le_mul_of_nonneg_right (N.gap_ge j hj) hSh
        _ = _ := by ring
    exact (hy.div_close (N.gap_close j hj) g hsc (by norm_num [Small]) (by norm_num) (by norm_num)).mono hSh
      (by norm_num) (by norm_num)
  unfold rhs TridiagonalMatrix.rowProduct mEnd cSide
  dsimp only
  rcases k with _ | k
  · simp only [show ¬ 0 > 0 by omega, if_false, if_true]
    by_cases h4 : 0 + 1 < n - 2
    · simp only [h4, if_true]
      have t1 := hdiag.add (hside (0 + 1) (0 + 1 + 1) (by omega) (by omega)) hsc (by norm_num [Small]) (by norm_num [Small])
      have t2 := t1.add (hend 0 0 (by omega) (by omega)) hsc (by norm_num [Small]) (by norm_num [Small])
      exact t2.mono hSh (by norm_num) (by norm_num)
    · simp only [h4, if_false]
      have t2 := hdiag.add (hend 0 0 (by omega) (by omega)) hsc (by norm_num [Small]) (by norm_num [Small])
      exact t2.mono hSh (by norm_num) (by norm_num)
  · simp only [show k + 1 > 0 by omega, if_true, Nat.add_sub_cancel, show ¬ k + 1 = 0 by omega, if_false]
    by_cases hl : k + 1 + 3 = n
    · simp only [show ¬ k + 1 + 1 < n - 2 by omega, if_false, hl, if_true]
      have t1 := hdiag.add (hside (k + 1) (k + 1) (by omega) (by omega)) hsc (by norm_num [Small]) (by norm_num [Small])
      have t2 := t1.add (hend (k + 1 + 1) (k + 1 + 2) (by omega) (by omega)) hsc (by norm_num [Small])
        (by norm_num [Small])
      exact t2.mono hSh (by norm_num) (by norm_num)
    · simp only [show k + 1 + 1 < n - 2 by omega, if_true, hl, if_false]
      have t1 := hdiag.add (hside (k + 1 + 1) (k + 1 + 1 + 1) (by omega) (by omega)) hsc (by norm_num [Small])
        (by norm_num [Small])
      have t2 := t1.add (hside (k + 1) (k + 1) (by omega) (by omega)) hsc (by norm_num [Small]) (by norm_num [Small])
      rw [add_zero (_ + _ : ℝ)]
      exact t2.add_zero.mono hSh (by norm_num) (by norm_num)

/-! ## The solution -/

/-- The right-hand side on the scale of a pivot. -/
theorem rhs_scaled (k : Nat) (hk : k + 2 < n) :
    IApprox (TridiagonalMatrix.piv (bSide 6 q) (bMain 3 q) (bSide 6 q) k * (21 * S / h ^ 2)) (rhs n p k) (rhs n q k)
      (1 / 3) 1.8 := by
  have hh := N.bounds.hpos
  have hS0 := N.bounds.S_pos.le
  have hP := N.piv_ge' k hk
  set P := TridiagonalMatrix.piv (bSide 6 q) (bMain 3 q) (bSide 6 q) k
  have key : 1 / h * S ≤ 0.0817 * (P * (21 * S / h ^ 2)) := by
    have : 7 / 12 * h * (21 * S / h ^ 2) ≤ P * (21 * S / h ^ 2) := mul_le_mul_of_nonneg_right hP (by positivity)
    have e : 7 / 12 * h * (21 * S / h ^ 2) = 12.25 * (1 / h * S) := by field_simp; ring
    have : 0 ≤ 1 / h * S := by positivity
    linarith
  have hn : 0 ≤ P * (21 * S / h ^ 2) := mul_nonneg (by linarith) (by positivity)
  exact (N.rhs_close k hk).rescale (by linarith) (by linarith)

theorem sweepY_close (i : Nat) (hi : i + 2 < n) :
    IApprox (21 * S / h ^ 2) (TridiagonalMatrix.sweepY (bSide six p) (bMain three p) (bSide six p) (rhs n p) i)
      (TridiagonalMatrix.sweepY (bSide 6 q) (bMain 3 q) (bSide 6 q) (rhs n q) i) 1 56 := by
  have hWs := N.bounds.W_scale
  have hW := hWs.pos.le
  induction i with
  | zero =>
    have hd := (N.bMain_close 0 hi).mono (l := 12.5) (by norm_num)
    have hr := N.rhs_scaled 0 hi
    have hpos := N.piv_pos 0 hi
    set P := TridiagonalMatrix.piv (bSide 6 q) (bMain 3 q) (bSide 6 q) 0 with hP
    exact (hr.div_close hd hpos hWs (by norm_num [Small]) (by norm_num) (by norm_num)).mono hW
      (by norm_num) (by norm_num)
  | succ i ih =>
    have hd := (N.sweep_close i (by omega)).2 (by omega)
    have h1 := N.gap_pos (i + 1) (by omega)
    have h2 := N.gap_pos (i + 2) (by omega)
    have hp := piv_ge N.gap_pos (i + 1) hi
    have hr := N.rhs_scaled (i + 1) hi
    have hy := ih (by omega)
    have hPW := N.pivW_scale (i + 1) hi
    simp only [TridiagonalMatrix.sweepY]
    rw [← TridiagonalMatrix.piv_succ (bSide 6 q) (bMain 3 q) (bSide 6 q) i]
    set P := TridiagonalMatrix.piv (bSide 6 q) (bMain 3 q) (bSide 6 q) (i + 1) with hP
    have hpos : 0 < P := by linarith [show i + 1 + 1 = i + 2 from rfl]
    have hL : IApprox P (bSide six p i) (bSide 6 q i) (2 / 3) (2.01 * (2 / 3)) := by
      refine (N.bSide_close i (by omega)).approx (by norm_num) ?_
      unfold bSide
      rw [abs_of_pos (by positivity)]
      linarith
    have hm := hL.mul_scales hy hpos.le hW hPW (by norm_num [Small]) (by norm_num [Small])
    have hs := hr.sub hm hPW (by norm_num [Small]) (by norm_num [Small])
    exact (hs.div_close hd hpos hWs (by norm_num [Small]) (by norm_num) (by norm_num)).mono hW
      (by norm_num) (by norm_num)

theorem sweepX_close (m : Nat) (hm : m + 2 < n) (i : Nat) (hi : i + 2 < n) :
    IApprox (21 * S / h ^ 2) (TridiagonalMatrix.sweepX (bSide six p) (bMain three p) (bSide six p) (rhs n p) m i)
      (TridiagonalMatrix.sweepX (bSide 6 q) (bMain 3 q) (bSide 6 q) (rhs n q) m i) 2 151 := by
  have hWs := N.bounds.W_scale
  have hW := hWs.pos.le
  have key : ∀ d i, m - i = d → i + 2 < n →
      IApprox (21 * S / h ^ 2) (TridiagonalMatrix.sweepX (bSide six p) (bMain three p) (bSide six p) (rhs n p) m i)
      (TridiagonalMatrix.sweepX (bSide 6 q) (bMain 3 q) (bSide 6 q) (rhs n q) m i) 2 151 := by
    intro d
    induction d with
    | zero =>
      intro i hd hi
      rw [TridiagonalMatrix.sweepX_ge _ _ _ _ (show m ≤ i by omega),
        show TridiagonalMatrix.sweepX (bSide six p) (bMain three p) (bSide six p) (rhs n p) m i =
          TridiagonalMatrix.sweepY (bSide six p) (bMain three p) (bSide six p) (rhs n p) i by
          rw [TridiagonalMatrix.sweepX, dif_neg (by omega)]]
      exact (N.sweepY_close i hi).mono hW (by norm_num) (by norm_num)
    | succ d ih =>
      intro i hd hi
      rw [TridiagonalMatrix.sweepX_lt _ _ _ _ (show i < m by omega),
        show TridiagonalMatrix.sweepX (bSide six p) (bMain three p) (bSide six p) (rhs n p) m i =
          TridiagonalMatrix.sweepY (bSide six p) (bMain three p) (bSide six p) (rhs n p) i -
            TridiagonalMatrix.sweepC (bSide six p) (bMain three p) (bSide six p) i *
              TridiagonalMatrix.sweepX (bSide six p) (bMain three p) (bSide six p) (rhs n p) m (i + 1) by
          rw [TridiagonalMatrix.sweepX, dif_pos (show i < m by omega)]]
      have hy := N.sweepY_close i hi
      have hc := (N.sweep_close i hi).1
      have hx := ih (i + 1) (by omega) (by omega)
      have hmul := hc.mul hx hWs (by norm_num [Small]) (by norm_num [Small])
      exact (hy.sub hmul hWs (by norm_num [Small]) (by norm_num [Small])).mono hW (by norm_num) (by norm_num)
  exact key _ i rfl hi

theorem second_close (hn : 3 ≤ n) (i : Nat) :
    IApprox (21 * S / h ^ 2) (second six three n p i) (second 6 3 n q i) 2 151 := by
  have hW := N.bounds.W_scale.pos.le
  unfold second
  by_cases h0 : i = 0
  · rw [if_pos h0, if_pos h0]
    exact (IApprox.zero _).mono hW (by norm_num) (by norm_num)
  · rw [if_neg h0, if_neg h0]
    by_cases h1 : i + 1 < n
    · rw [if_pos h1, if_pos h1]
      unfold solved
      by_cases hn3 : n = 3
      · rw [if_pos hn3, if_pos hn3]
        exact (N.sweepY_close 0 (by omega)).mono hW (by norm_num) (by norm_num)
      · rw [if_neg hn3, if_neg hn3]
        exact N.sweepX_close (n - 4) (by omega) (i - 1) (by omega)
    · rw [if_neg h1, if_neg h1]
      exact (IApprox.zero _).mono hW (by norm_num) (by norm_num)

end Nodes

/-! ## One segment -/

/-- The value in a segment of length `G ≥ h`, from second derivatives of size `21 S / h²`. -/
theorem naturalExpr_iapprox {κ S h : ℝ} (b : Bounds F κ S h) {six x₀ y₀ m₀ x₁ y₁ m₁ x : Ieee F}
    {a₀ b₀ M₀ a₁ b₁ M₁ z : ℝ} (h6 : IsNumber six 6) (n0 : IsNumber x₀ a₀) (n1 : IsNumber x₁ a₁) (nz : IsNumber x z)
    (ny0 : IsNumber y₀ b₀) (ny1 : IsNumber y₁ b₁) (hG : h ≤ a₁ - a₀) (hGκ : a₁ - a₀ ≤ κ) (h0 : a₀ ≤ z) (h1 : z ≤ a₁)
    (hy0 : |b₀| ≤ S) (hy1 : |b₁| ≤ S) (hm0 : IApprox (21 * S / h ^ 2) m₀ M₀ 2 151)
    (hm1 : IApprox (21 * S / h ^ 2) m₁ M₁ 2 151) :
    ∃ r, IsNumber (naturalExpr six x₀ y₀ m₀ x₁ y₁ m₁ x) r ∧
      |r - naturalExpr 6 a₀ b₀ M₀ a₁ b₁ M₁ z| ≤ 2420 * roundoff F * S * ((a₁ - a₀) / h) ^ 2 := by
  have hh := b.hpos
  have hκ := b.one_le
  have hS0 := b.S_pos
  have hWs := b.W_scale
  have hW := hWs.pos
  set W := 21 * S / h ^ 2 with hWd
  set G := a₁ - a₀ with hGd
  have hGp : 0 < G := by linarith
  have hG1 : 1 ≤ κ * G := by
    have := b.h_ge
    have := mul_le_mul_of_nonneg_left hG (show 0 ≤ κ by linarith)
    linarith
  have hGc : IClose 1 (x₁ - x₀) G := IClose.sub n1 n0 (b.fits (by rw [abs_of_pos hGp]; exact hGκ))
  have h6c : IClose 0 six 6 := IClose.exact h6
  obtain ⟨s2, s3, s3', s2'⟩ := b.gap_scales hGp hG1 hGκ
  have e1 : G / 6 * W = 3.5 * (S * G / h ^ 2) := by rw [hWd]; field_simp; ring
  have e2 : G * (G / 6 * W) = 3.5 * (S * (G / h) ^ 2) := by rw [e1]; field_simp
  have hGh2 : 1 ≤ (G / h) ^ 2 := one_le_pow₀ (by rw [le_div_iff₀ hh]; linarith)
  obtain ⟨sT, sL⟩ := b.value_scales hG hGκ
  rw [← e1] at sL
  rw [← e2] at sT
  set T := G * (G / 6 * W) with hT
  have hT0 := sT.pos.le
  -- the cubic terms
  have cubic : ∀ (a : Ieee F) (α : ℝ), IClose 1 a α → 0 ≤ α → α ≤ G → ∀ (m : Ieee F) (M : ℝ), IApprox W m M 2 151 →
      IApprox T (a * a * a / six / (x₁ - x₀) * m) (α * α * α / 6 / G * M) 2 170 := by
    intro a α ha hα0 hα m M hm
    have c0 := ha.approx (S := G) (B := 1) (by norm_num) (by rw [abs_of_nonneg hα0]; linarith)
    have c1 := c0.mul_scales c0 hGp.le hGp.le s2 (by norm_num [Small]) (by norm_num [Small])
    have c2 := c1.mul_scales c0 s2.pos.le hGp.le s3 (by norm_num [Small]) (by norm_num [Small])
    rw [show G * G * G = 6 * (G * (G * (G / 6))) by ring] at c2
    have c3 := c2.div_close h6c (by norm_num) s3' (by norm_num [Small]) (by norm_num) (by norm_num)
    have c4 := c3.div_close hGc hGp s2' (by norm_num [Small]) (by norm_num) (by norm_num)
    have c5 := c4.mul_scales hm s2'.pos.le hW.le (by rw [mul_assoc]; exact sT) (by norm_num [Small])
      (by norm_num [Small])
    rw [mul_assoc] at c5
    exact c5.mono hT0 (by norm_num) (by norm_num)
  -- the linear terms
  have linear : ∀ (a : Ieee F) (α : ℝ), IClose 1 a α → 0 ≤ α → α ≤ G → ∀ (m : Ieee F) (M : ℝ), IApprox W m M 2 151 →
      ∀ (y : Ieee F) (r : ℝ), IsNumber y r → |r| ≤ S →
      IApprox T (a * (y / (x₁ - x₀) - (x₁ - x₀) / six * m)) (α * (r / G - G / 6 * M)) 2.286 165 := by
    intro a α ha hα0 hα m M hm y r hyr hr
    have d1 : IApprox (G * (G / 6 * W)) y r 0.2858 0 := IApprox.exact hyr (by
      rw [← hT, e2]
      have := mul_le_mul_of_nonneg_left hGh2 hS0.le
      linarith)
    have d2 := d1.div_close hGc hGp sL (by norm_num [Small]) (by norm_num) (by norm_num)
    have d3 := hGc.div h6c (by norm_num) (by norm_num) (by norm_num) (by norm_num) hGp (by norm_num)
      (b.scale_one (by linarith) (by linarith))
    have hb : |G / 6| ≤ 1 * (G / 6) := by rw [abs_of_nonneg (by positivity), one_mul]
    have d4 := (d3.approx (by norm_num) hb).mul_scales hm (by positivity) hW.le sL (by norm_num [Small])
      (by norm_num [Small])
    have d5 := d2.sub d4 sL (by norm_num [Small]) (by norm_num [Small])
    have ha' := ha.approx (S := G) (B := 1) (by norm_num) (by rw [abs_of_nonneg hα0]; linarith)
    have d6 := ha'.mul_scales d5 hGp.le sL.pos.le sT (by norm_num [Small]) (by norm_num [Small])
    exact d6.mono hT0 (by norm_num) (by norm_num)
  have cA : IClose 1 (x₁ - x) (a₁ - z) := IClose.sub n1 nz (b.fits (by rw [abs_of_nonneg (by linarith)]; linarith))
  have cB : IClose 1 (x - x₀) (z - a₀) := IClose.sub nz n0 (b.fits (by rw [abs_of_nonneg (by linarith)]; linarith))
  have t1 := cubic _ _ cA (by linarith) (by linarith) m₀ M₀ hm0
  have t2 := cubic _ _ cB (by linarith) (by linarith) m₁ M₁ hm1
  have t3 := linear _ _ cA (by linarith) (by linarith) m₀ M₀ hm0 y₀ b₀ ny0 hy0
  have t4 := linear _ _ cB (by linarith) (by linarith) m₁ M₁ hm1 y₁ b₁ ny1 hy1
  have q1 := t1.add_large t2 sT (by norm_num) (by norm_num) (by norm_num) (by norm_num) (by norm_num) (by norm_num)
    (by norm_num) (by norm_num)
  have q2 := q1.add_large t3 sT (by norm_num) (by norm_num) (by norm_num) (by norm_num) (by norm_num) (by norm_num)
    (by norm_num) (by norm_num)
  have q3 := q2.add_large t4 sT (by norm_num) (by norm_num) (by norm_num) (by norm_num) (by norm_num) (by norm_num)
    (by norm_num) (by norm_num)
  obtain ⟨v, hv, av⟩ := q3
  refine ⟨v.val, hv, ?_⟩
  have fin := (av.mono (B' := 9) (e' := 690) hT0 (by norm_num) (by norm_num)).1
  have hu := F.arith.unit_pos
  rw [e2] at fin
  rw [← F.unit_arith]
  have hq : 0 ≤ unitRoundoff F.arith * (S * (G / h) ^ 2) := by positivity
  unfold naturalExpr
  refine le_trans fin ?_
  linarith

end Qlab.Props
