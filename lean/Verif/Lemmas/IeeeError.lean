import Verif.Lemmas.IeeeRound
import Verif.Props.FloatSplines

/-! # Error calculus for IEEE 754 arithmetic, underflow included -/

namespace Qlab.Props

open Spec

variable {F : IeeeFormat}

/-- A scale of magnitudes in which the calculus works: results a thousand times larger do not overflow, and an underflow
is negligible against a rounding error. -/
def InScale (F : IeeeFormat) (S : ℝ) : Prop :=
  (2 : ℝ) ^ (12 - (F.emax : ℤ)) ≤ S ∧ S ≤ 2 ^ ((F.emax : ℤ) - 11)

/-- The datum is a number that approximates `X` to `e` units of roundoff times `S`, and `X` is at most `B` times `S`. -/
def IApprox (S : ℝ) (a : Ieee F) (X B e : ℝ) : Prop := ∃ x : Fl F.arith, IsNumber a x.val ∧ Approx S x X B e

theorem InScale.pos {S : ℝ} (h : InScale F S) : 0 < S := lt_of_lt_of_le (Binary.zpow_pos' _) h.1

theorem inScale_one : InScale F 1 := by
  have h1 := F.prec_ge
  have h2 := F.emax_ge
  constructor
  · calc (2 : ℝ) ^ (12 - (F.emax : ℤ)) ≤ 2 ^ (0 : ℤ) := zpow_le_zpow_right₀ (by norm_num) (by omega)
      _ = 1 := zpow_zero _
  · calc (1 : ℝ) = 2 ^ (0 : ℤ) := (zpow_zero _).symm
      _ ≤ 2 ^ ((F.emax : ℤ) - 11) := zpow_le_zpow_right₀ (by norm_num) (by omega)

/-- An underflow is negligible. -/
theorem InScale.tiny {S : ℝ} (h : InScale F S) : (2 : ℝ) ^ F.bottom ≤ 0.001 * roundoff F * S := by
  have e : (2 : ℝ) ^ F.bottom = 1 / 1024 * roundoff F * 2 ^ (12 - (F.emax : ℤ)) := by
    have : roundoff F = (2 : ℝ) ^ (-(F.prec : ℤ)) := by
      unfold roundoff; rw [one_div, inv_pow, zpow_neg, zpow_natCast]
    rw [this, show (1 : ℝ) / 1024 = 2 ^ (-10 : ℤ) by norm_num, ← zpow_add₀ (by norm_num), ← zpow_add₀ (by norm_num)]
    congr 1
    unfold IeeeFormat.bottom; ring
  have hu : 0 < roundoff F := by unfold roundoff; positivity
  rw [e]
  have := mul_le_mul_of_nonneg_left h.1 (by positivity : 0 ≤ 1 / 1024 * roundoff F)
  have h2 : 1 / 1024 * roundoff F * S ≤ 0.001 * roundoff F * S := by
    have := h.pos
    have : 0 ≤ roundoff F * S := by positivity
    nlinarith
  linarith

/-- What is at most `2048 S` does not overflow. -/
theorem InScale.fits {S x : ℝ} (h : InScale F S) (hx : |x| ≤ 2048 * S) : |x| ≤ F.largest := by
  refine le_trans hx (le_trans ?_ F.largest_ge)
  calc 2048 * S ≤ 2048 * 2 ^ ((F.emax : ℤ) - 11) := mul_le_mul_of_nonneg_left h.2 (by norm_num)
    _ = 2 ^ F.emax := by
      rw [show (2048 : ℝ) = 2 ^ (11 : ℤ) by norm_num, ← zpow_add₀ (by norm_num), ← zpow_natCast]
      congr 1; ring

/-- Both roundings are within one subnormal step. -/
theorem round_near_fl (z : ℝ) : |F.round z - F.arith.fl z| ≤ 2 ^ F.bottom := by
  rcases lt_or_ge |z| ((2 : ℝ) ^ (1 - (F.emax : ℤ))) with h | h
  · have h1 : |F.round z - z| ≤ 2 ^ F.bottom / 2 := by
      have hb := Binary.zpow_pos' F.bottom
      rw [F.round_subnormal h]
      have e := Binary.nearestEven_err (z / 2 ^ F.bottom)
      have e2 : (Binary.nearestEven (z / 2 ^ F.bottom) : ℝ) * 2 ^ F.bottom - z =
          (Binary.nearestEven (z / 2 ^ F.bottom) - z / 2 ^ F.bottom) * 2 ^ F.bottom := by
        rw [sub_mul, div_mul_cancel₀ _ hb.ne']
      rw [e2, abs_mul, abs_of_pos hb]
      have := mul_le_mul_of_nonneg_right e hb.le
      linarith
    have h2 : |F.arith.fl z - z| ≤ 2 ^ F.bottom / 2 := by
      refine le_trans (F.arith.err' z) ?_
      have e : (2 : ℝ) ^ F.bottom / 2 = unitRoundoff F.arith * 2 ^ (1 - (F.emax : ℤ)) := by
        have : unitRoundoff F.arith = (2 : ℝ) ^ (-(F.prec : ℤ)) := by
          rw [F.unit_arith]; unfold roundoff; rw [one_div, inv_pow, zpow_neg, zpow_natCast]
        rw [this, div_eq_mul_inv, ← zpow_neg_one, ← zpow_add₀ (by norm_num), ← zpow_add₀ (by norm_num)]
        congr 1
        unfold IeeeFormat.bottom; ring
      rw [e]
      exact mul_le_mul_of_nonneg_left h.le F.arith.unit_pos.le
    have := abs_sub (F.round z - z) (F.arith.fl z - z)
    rw [sub_sub_sub_cancel_right] at this
    linarith
  · rw [F.round_normal (Or.inr h), sub_self, abs_zero]
    exact (Binary.zpow_pos' _).le

/-- A rounded result as a number of the unbounded format. -/
noncomputable def rounded (F : IeeeFormat) (z : ℝ) : Fl F.arith := ⟨F.round z, F.fl_of_rep (F.round_idem z)⟩

/-- Replacing the unbounded rounding of a result by the one with underflow. -/
theorem Approx.underflow {S z X B e : ℝ} {y : Fl F.arith} (hS : InScale F S) (hy : y.val = F.arith.fl z)
    (h : Approx S y X B e) : Approx S (rounded F z) X B (e + 0.001) := by
  refine ⟨?_, h.2⟩
  have h1 := round_near_fl (F := F) z
  have h2 := hS.tiny
  have h3 := h.1
  rw [hy] at h3
  have := abs_add_le (F.round z - F.arith.fl z) (F.arith.fl z - X)
  rw [sub_add_sub_cancel] at this
  change |F.round z - X| ≤ _
  rw [F.unit_arith] at h3 ⊢
  nlinarith

namespace IApprox
variable {S : ℝ} {a b : Ieee F} {X Y B C e f : ℝ}

theorem mono {B' e' : ℝ} (h : IApprox S a X B e) (hS : 0 ≤ S) (hB : B ≤ B') (he : e ≤ e') : IApprox S a X B' e' := by
  obtain ⟨x, hx, h⟩ := h
  exact ⟨x, hx, h.mono hS hB he⟩

theorem neg (h : IApprox S a X B e) : IApprox S (-a) (-X) B e := by
  obtain ⟨x, hx, h⟩ := h
  exact ⟨-x, Ieee.neg_number hx, h.neg⟩

theorem exact {x : ℝ} (ha : IsNumber a x) (h : |x| ≤ B * S) : IApprox S a x B 0 :=
  ⟨⟨x, Ieee.fl_of_isNumber ha⟩, ha, Approx.exact (A := F.arith) ⟨x, Ieee.fl_of_isNumber ha⟩ h⟩

theorem one : IApprox 1 (1 : Ieee F) 1 1 0 := ⟨1, Ieee.one_number, approx_one⟩

theorem zero (S : ℝ) : IApprox S (0 : Ieee F) 0 0 0 := ⟨0, Ieee.zero_number, approx_zero S⟩

/-- Magnitude of an approximation with constants in range. -/
theorem _root_.Qlab.Props.Approx.small_le {A : FloatArith} {x : Fl A} (h : Approx S x X B e) (hS : 0 ≤ S) (h1 : Small B e) :
    |x.val| ≤ (B + 0.0001) * S := by
  refine le_trans h.abs_le (mul_le_mul_of_nonneg_right ?_ hS)
  obtain ⟨-, -, e0, e1⟩ := h1
  have := A.unit_le
  have := A.unit_pos
  nlinarith

theorem add (ha : IApprox S a X B e) (hb : IApprox S b Y C f) (hS : InScale F S) (h1 : Small B e) (h2 : Small C f) :
    IApprox S (a + b) (X + Y) (B + C) (e + f + B + C + 0.1) := by
  obtain ⟨x, hx, ax⟩ := ha
  obtain ⟨y, hy, ay⟩ := hb
  have hS0 := hS.pos.le
  have m1 := ax.small_le hS0 h1
  have m2 := ay.small_le hS0 h2
  refine ⟨x + y, Ieee.add_number hx hy (hS.fits ?_), ax.add ay hS0 h1 h2⟩
  have := abs_add_le x.val y.val
  obtain ⟨b0, b1, -, -⟩ := h1
  obtain ⟨c0, c1, -, -⟩ := h2
  nlinarith

theorem sub (ha : IApprox S a X B e) (hb : IApprox S b Y C f) (hS : InScale F S) (h1 : Small B e) (h2 : Small C f) :
    IApprox S (a - b) (X - Y) (B + C) (e + f + B + C + 0.1) := by
  rw [sub_eq_add_neg X Y]
  exact ha.add hb.neg hS h1 h2

theorem mul (ha : IApprox 1 a X B e) (hb : IApprox S b Y C f) (hS : InScale F S) (h1 : Small B e) (h2 : Small C f) :
    IApprox S (a * b) (X * Y) (B * C) (e * C + B * f + B * C + 0.11) := by
  obtain ⟨x, hx, ax⟩ := ha
  obtain ⟨y, hy, ay⟩ := hb
  have hS0 := hS.pos.le
  have m1 := ax.small_le zero_le_one h1
  have m2 := ay.small_le hS0 h2
  have h3 := (ax.mul ay hS0 h1 h2).underflow (z := x.val * y.val) hS rfl
  refine ⟨rounded F (x.val * y.val), Ieee.mul_round hx hy (hS.fits ?_), h3.mono hS0 le_rfl (by linarith)⟩
  rw [abs_mul]
  obtain ⟨b0, b1, -, -⟩ := h1
  obtain ⟨c0, c1, -, -⟩ := h2
  rw [mul_one] at m1
  have m3 : |y.val| ≤ 33 * S := le_trans m2 (mul_le_mul_of_nonneg_right (by linarith) hS0)
  have m4 : |x.val| ≤ 33 := by linarith
  calc |x.val| * |y.val| ≤ 33 * (33 * S) := mul_le_mul m4 m3 (abs_nonneg _) (by norm_num)
    _ ≤ 2048 * S := by nlinarith

theorem int (n : ℤ) (h : |n| ≤ 100) {a : Ieee F} (ha : FromInt.fromInt (V := Ieee F) n = some a) :
    IApprox 1 a (n : ℝ) (|n| : ℤ) 0 := by
  obtain ⟨b, hb, hn⟩ := Ieee.fromInt_number (F := F) n (le_trans h (le_trans (by norm_num)
    (pow_le_pow_right₀ (by norm_num) F.prec_ge : (2 : ℤ) ^ 24 ≤ 2 ^ F.prec)))
  rw [ha] at hb
  obtain rfl := Option.some.inj hb
  exact exact hn (by push_cast; simp)

/-- One entry of a product of vectors. -/
theorem dot (hS : InScale F S) {u v : Vec4 (Ieee F)} {U V : Vec4 ℝ} {a b c d a' b' c' d' : ℝ}
    {p q r s p' q' r' s' : ℝ}
    (h1 : IApprox 1 u.a U.a a p) (h2 : IApprox 1 u.b U.b b q) (h3 : IApprox 1 u.c U.c c r) (h4 : IApprox 1 u.d U.d d s)
    (g1 : IApprox S v.a V.a a' p') (g2 : IApprox S v.b V.b b' q') (g3 : IApprox S v.c V.c c' r')
    (g4 : IApprox S v.d V.d d' s') {B e : ℝ}
    (hs : (Small a p ∧ Small b q ∧ Small c r ∧ Small d s) ∧ (Small a' p' ∧ Small b' q' ∧ Small c' r' ∧ Small d' s'))
    (hB : a * a' + b * b' + c * c' + d * d' ≤ B) (hB' : B ≤ 32)
    (he : (p * a' + a * p') + (q * b' + b * q') + (r * c' + c * r') + (s * d' + d * s') + 3 * (a * a') + 3 * (b * b') +
      2 * (c * c') + (d * d') + (a * a' + b * b' + c * c' + d * d') + 0.8 ≤ e) (he' : e ≤ 500) :
    IApprox S (u.dot v) (U.dot V) B e := by
  obtain ⟨⟨s1, s2, s3, s4⟩, t1, t2, t3, t4⟩ := hs
  have m1 := h1.mul g1 hS s1 t1
  have m2 := h2.mul g2 hS s2 t2
  have m3 := h3.mul g3 hS s3 t3
  have m4 := h4.mul g4 hS s4 t4
  obtain ⟨s10, s11, s12, s13⟩ := s1
  obtain ⟨s20, s21, s22, s23⟩ := s2
  obtain ⟨s30, s31, s32, s33⟩ := s3
  obtain ⟨s40, s41, s42, s43⟩ := s4
  obtain ⟨t10, t11, t12, t13⟩ := t1
  obtain ⟨t20, t21, t22, t23⟩ := t2
  obtain ⟨t30, t31, t32, t33⟩ := t3
  obtain ⟨t40, t41, t42, t43⟩ := t4
  have n1 : 0 ≤ a * a' := by positivity
  have n2 : 0 ≤ b * b' := by positivity
  have n3 : 0 ≤ c * c' := by positivity
  have n4 : 0 ≤ d * d' := by positivity
  have o1 : 0 ≤ p * a' + a * p' := by positivity
  have o2 : 0 ≤ q * b' + b * q' := by positivity
  have o3 : 0 ≤ r * c' + c * r' := by positivity
  have o4 : 0 ≤ s * d' + d * s' := by positivity
  have z1 := m2.add m1 hS (by constructor <;> [linarith; refine ⟨?_, ?_, ?_⟩ <;> linarith])
    (by constructor <;> [linarith; refine ⟨?_, ?_, ?_⟩ <;> linarith])
  have z2 := m3.add z1 hS (by constructor <;> [linarith; refine ⟨?_, ?_, ?_⟩ <;> linarith])
    (by constructor <;> [linarith; refine ⟨?_, ?_, ?_⟩ <;> linarith])
  have z3 := m4.add z2 hS (by constructor <;> [linarith; refine ⟨?_, ?_, ?_⟩ <;> linarith])
    (by constructor <;> [linarith; refine ⟨?_, ?_, ?_⟩ <;> linarith])
  exact z3.mono hS.pos.le (by linarith) (by linarith)

end IApprox

end Qlab.Props
