import Verif.Props.FloatFlows

/-! # Error calculus for longer floating-point computations -/

namespace Qlab.Props

open Spec

variable {A : FloatArith}

/-- `x` approximates `X` to `e` units of roundoff times `S`, and `X` is at most `B` times `S`. -/
def Approx (S : ℝ) (x : Fl A) (X B e : ℝ) : Prop := |x.val - X| ≤ e * unitRoundoff A * S ∧ |X| ≤ B * S

/-- The range of constants in which the slack of `0.1` covers the terms of second order. -/
def Small (B e : ℝ) : Prop := 0 ≤ B ∧ B ≤ 32 ∧ 0 ≤ e ∧ e ≤ 500

theorem Approx.mono {S : ℝ} {x : Fl A} {X B e B' e' : ℝ} (h : Approx S x X B e) (hS : 0 ≤ S) (hB : B ≤ B')
    (he : e ≤ e') : Approx S x X B' e' := by
  have hu := A.unit_pos
  refine ⟨le_trans h.1 ?_, le_trans h.2 ?_⟩ <;> gcongr

theorem Approx.abs_le {S : ℝ} {x : Fl A} {X B e : ℝ} (h : Approx S x X B e) :
    |x.val| ≤ (B + e * unitRoundoff A) * S := by
  have := abs_add_le (x.val - X) X
  rw [sub_add_cancel] at this
  linarith [h.1, h.2]

/-- Rounding a result. -/
theorem round_step {S x X B e f : ℝ} (hS : 0 ≤ S) (h : |x - X| ≤ e * unitRoundoff A * S)
    (hx : |x| ≤ (B + f) * S) (hf : f ≤ 0.01) :
    |A.fl x - X| ≤ (e + B + 0.01) * unitRoundoff A * S := by
  have h1 := A.err' x
  have hu := A.unit_pos
  have h2 : unitRoundoff A * |x| ≤ unitRoundoff A * ((B + 0.01) * S) :=
    mul_le_mul_of_nonneg_left (le_trans hx (mul_le_mul_of_nonneg_right (by linarith) hS)) hu.le
  have h3 := abs_add_le (A.fl x - x) (x - X)
  rw [sub_add_sub_cancel] at h3
  nlinarith

theorem Approx.mul {S : ℝ} {x y : Fl A} {X Y B C e f : ℝ} (hx : Approx 1 x X B e) (hy : Approx S y Y C f) (hS : 0 ≤ S)
    (h1 : Small B e) (h2 : Small C f) : Approx S (x * y) (X * Y) (B * C) (e * C + B * f + B * C + 0.1) := by
  obtain ⟨b0, b1, e0, e1⟩ := h1
  obtain ⟨c0, c1, f0, f1⟩ := h2
  have hx' := hx.abs_le
  have hy' := hy.abs_le
  obtain ⟨hx1, hx2⟩ := hx
  obtain ⟨hy1, hy2⟩ := hy
  rw [mul_one] at hx1 hx2 hx'
  have hu := A.unit_pos
  have hu1 := A.unit_le
  have heu : e * unitRoundoff A ≤ 0.0001 := by nlinarith
  have hfu : f * unitRoundoff A ≤ 0.0001 := by nlinarith
  have hef : e * (f * unitRoundoff A) ≤ 0.05 := by nlinarith
  refine ⟨?_, by rw [abs_mul]; calc |X| * |Y| ≤ B * (C * S) := mul_le_mul hx2 hy2 (abs_nonneg _) b0
                 _ = _ := by ring⟩
  have k1 : |x.val * y.val - X * Y| ≤ (e * C + B * f + 0.05) * unitRoundoff A * S := by
    have t := abs_add_le ((x.val - X) * y.val) (X * (y.val - Y))
    rw [show (x.val - X) * y.val + X * (y.val - Y) = x.val * y.val - X * Y by ring, abs_mul, abs_mul] at t
    have t1 : |x.val - X| * |y.val| ≤ e * unitRoundoff A * ((C + f * unitRoundoff A) * S) :=
      mul_le_mul hx1 hy' (abs_nonneg _) (by positivity)
    have t2 : |X| * |y.val - Y| ≤ B * (f * unitRoundoff A * S) := mul_le_mul hx2 hy1 (abs_nonneg _) b0
    have t3 : e * (f * unitRoundoff A) * (unitRoundoff A * S) ≤ 0.05 * (unitRoundoff A * S) :=
      mul_le_mul_of_nonneg_right hef (by positivity)
    nlinarith
  have k2 : |x.val * y.val| ≤ (B * C + 0.01) * S := by
    rw [abs_mul]
    have t1 : |x.val| * |y.val| ≤ (B + e * unitRoundoff A) * ((C + f * unitRoundoff A) * S) :=
      mul_le_mul hx' hy' (abs_nonneg _) (by positivity)
    have t2 : (B + e * unitRoundoff A) * (C + f * unitRoundoff A) ≤ B * C + 0.01 := by
      have r1 : B * (f * unitRoundoff A) ≤ 32 * 0.0001 := mul_le_mul b1 hfu (by positivity) (by norm_num)
      have r2 : e * unitRoundoff A * C ≤ 0.0001 * 32 := mul_le_mul heu c1 c0 (by norm_num)
      have r3 : e * unitRoundoff A * (f * unitRoundoff A) ≤ 0.0001 * 0.0001 :=
        mul_le_mul heu hfu (by positivity) (by norm_num)
      nlinarith
    have t3 := mul_le_mul_of_nonneg_right t2 hS
    nlinarith
  have k3 := round_step (A := A) hS k1 k2 (le_refl _)
  rw [Fl.val_mul]
  refine le_trans k3 (mul_le_mul_of_nonneg_right (mul_le_mul_of_nonneg_right ?_ hu.le) hS)
  linarith

theorem Approx.add {S : ℝ} {x y : Fl A} {X Y B C e f : ℝ} (hx : Approx S x X B e) (hy : Approx S y Y C f) (hS : 0 ≤ S)
    (h1 : Small B e) (h2 : Small C f) : Approx S (x + y) (X + Y) (B + C) (e + f + B + C + 0.1) := by
  obtain ⟨b0, b1, e0, e1⟩ := h1
  obtain ⟨c0, c1, f0, f1⟩ := h2
  have hx' := hx.abs_le
  have hy' := hy.abs_le
  obtain ⟨hx1, hx2⟩ := hx
  obtain ⟨hy1, hy2⟩ := hy
  have hu := A.unit_pos
  have hu1 := A.unit_le
  have heu : e * unitRoundoff A ≤ 0.0001 := by nlinarith
  have hfu : f * unitRoundoff A ≤ 0.0001 := by nlinarith
  refine ⟨?_, by have := abs_add_le X Y; linarith⟩
  have k1 : |x.val + y.val - (X + Y)| ≤ (e + f) * unitRoundoff A * S := by
    have t := abs_add_le (x.val - X) (y.val - Y)
    rw [show (x.val - X) + (y.val - Y) = x.val + y.val - (X + Y) by ring] at t
    linarith
  have k2 : |x.val + y.val| ≤ (B + C + 0.01) * S := by
    have t := abs_add_le x.val y.val
    have t1 := mul_le_mul_of_nonneg_right (add_le_add heu hfu) hS
    nlinarith
  have k3 := round_step (A := A) hS k1 k2 (le_refl _)
  rw [Fl.val_add]
  refine le_trans k3 (mul_le_mul_of_nonneg_right (mul_le_mul_of_nonneg_right ?_ hu.le) hS)
  linarith

theorem Approx.neg {S : ℝ} {x : Fl A} {X B e : ℝ} (hx : Approx S x X B e) : Approx S (-x) (-X) B e := by
  refine ⟨?_, by rw [abs_neg]; exact hx.2⟩
  rw [Fl.val_neg, show -x.val - -X = -(x.val - X) by ring, abs_neg]
  exact hx.1

theorem Fl.sub_eq_add_neg' (x y : Fl A) : x - y = x + -y := by
  ext
  rw [Fl.val_sub, Fl.val_add, Fl.val_neg, sub_eq_add_neg]

theorem Approx.sub {S : ℝ} {x y : Fl A} {X Y B C e f : ℝ} (hx : Approx S x X B e) (hy : Approx S y Y C f) (hS : 0 ≤ S)
    (h1 : Small B e) (h2 : Small C f) : Approx S (x - y) (X - Y) (B + C) (e + f + B + C + 0.1) := by
  rw [Fl.sub_eq_add_neg', sub_eq_add_neg]
  exact hx.add hy.neg hS h1 h2

theorem Approx.exact {S : ℝ} (x : Fl A) {B : ℝ} (h : |x.val| ≤ B * S) : Approx S x x.val B 0 := by
  refine ⟨by simp, h⟩

theorem approx_one : Approx 1 (1 : Fl A) 1 1 0 := by
  refine ⟨by simp [Fl.val_one], by norm_num⟩

theorem approx_zero (S : ℝ) : Approx S (0 : Fl A) 0 0 0 := by
  refine ⟨by simp [Fl.val_zero], by simp⟩

theorem round_small (n : ℤ) (h : |n| ≤ 100) : A.fl (n : ℝ) = n :=
  A.int n (le_trans h (le_trans (by norm_num) (pow_le_pow_right₀ (by norm_num) A.prec_ge : (2 : ℤ) ^ 24 ≤ 2 ^ A.prec)))

theorem approx_int (n : ℤ) (h : |n| ≤ 100) : Approx 1 (Fl.round A (n : ℝ)) (n : ℝ) (|n| : ℤ) 0 := by
  refine ⟨?_, by push_cast; simp⟩
  rw [Fl.val_round, round_small n h]; simp

theorem CloseTo.approx {k : ℝ} {x : Fl A} {w : ℝ} (h : CloseTo k x w) {S B : ℝ} (hk : 0 ≤ k) (hw : |w| ≤ B * S) :
    Approx S x w B (k * B) := by
  refine ⟨le_trans h ?_, hw⟩
  have hu := A.unit_pos
  calc k * unitRoundoff A * |w| ≤ k * unitRoundoff A * (B * S) := mul_le_mul_of_nonneg_left hw (by positivity)
    _ = _ := by ring

/-- One entry of a product of vectors. -/
theorem Approx.dot {S : ℝ} (hS : 0 ≤ S) {u v : Vec4 (Fl A)} {U V : Vec4 ℝ} {a b c d a' b' c' d' : ℝ}
    {p q r s p' q' r' s' : ℝ}
    (h1 : Approx 1 u.a U.a a p) (h2 : Approx 1 u.b U.b b q) (h3 : Approx 1 u.c U.c c r) (h4 : Approx 1 u.d U.d d s)
    (g1 : Approx S v.a V.a a' p') (g2 : Approx S v.b V.b b' q') (g3 : Approx S v.c V.c c' r')
    (g4 : Approx S v.d V.d d' s') {B e : ℝ}
    (hs : (Small a p ∧ Small b q ∧ Small c r ∧ Small d s) ∧ (Small a' p' ∧ Small b' q' ∧ Small c' r' ∧ Small d' s'))
    (hB : a * a' + b * b' + c * c' + d * d' ≤ B) (hB' : B ≤ 32)
    (he : (p * a' + a * p') + (q * b' + b * q') + (r * c' + c * r') + (s * d' + d * s') + 3 * (a * a') + 3 * (b * b') +
      2 * (c * c') + (d * d') + (a * a' + b * b' + c * c' + d * d') + 0.7 ≤ e) (he' : e ≤ 500) :
    Approx S (u.dot v) (U.dot V) B e := by
  obtain ⟨⟨s1, s2, s3, s4⟩, t1, t2, t3, t4⟩ := hs
  have m1 := h1.mul g1 hS s1 t1
  have m2 := h2.mul g2 hS s2 t2
  have m3 := h3.mul g3 hS s3 t3
  have m4 := h4.mul g4 hS s4 t4
  obtain ⟨s10, s11, s12, s13⟩ := s1
  obtain ⟨s20, s21, s22, s23⟩ := s2
  obtain ⟨s30, s31, s32, s33⟩ := s3
  obtain ⟨s40, s41, s42, s43⟩ := s4
  obtain ⟨t10, t11, t12, t13⟩ := t1
  obtain ⟨t20, t21, t22, t23⟩ := t2
  obtain ⟨t30, t31, t32, t33⟩ := t3
  obtain ⟨t40, t41, t42, t43⟩ := t4
  have n1 : 0 ≤ a * a' := by positivity
  have n2 : 0 ≤ b * b' := by positivity
  have n3 : 0 ≤ c * c' := by positivity
  have n4 : 0 ≤ d * d' := by positivity
  have o1 : 0 ≤ p * a' + a * p' := by positivity
  have o2 : 0 ≤ q * b' + b * q' := by positivity
  have o3 : 0 ≤ r * c' + c * r' := by positivity
  have o4 : 0 ≤ s * d' + d * s' := by positivity
  have z1 := m2.add m1 hS (by constructor <;> [linarith; refine ⟨?_, ?_, ?_⟩ <;> linarith])
    (by constructor <;> [linarith; refine ⟨?_, ?_, ?_⟩ <;> linarith])
  have z2 := m3.add z1 hS (by constructor <;> [linarith; refine ⟨?_, ?_, ?_⟩ <;> linarith])
    (by constructor <;> [linarith; refine ⟨?_, ?_, ?_⟩ <;> linarith])
  have z3 := m4.add z2 hS (by constructor <;> [linarith; refine ⟨?_, ?_, ?_⟩ <;> linarith])
    (by constructor <;> [linarith; refine ⟨?_, ?_, ?_⟩ <;> linarith])
  exact z3.mono hS (by linarith) (by linarith)

/-! ## Quotients of differences -/

theorem near_inv_unit {t k : ℝ} (hk : 0 ≤ k) (hk' : k ≤ 8) (ht : |t - 1| ≤ k * unitRoundoff A) :
    |1 / t - 1| ≤ 1.001 * k * unitRoundoff A := by
  have hu := A.unit_pos
  have hu1 := A.unit_le
  have h := abs_le.1 ht
  have hku : k * unitRoundoff A ≤ 0.0001 := by nlinarith
  have hpos : 0 < t := by linarith
  rw [show 1 / t - 1 = -(t - 1) / t by field_simp; ring, abs_div, abs_neg, abs_of_pos hpos, div_le_iff₀ hpos]
  nlinarith [mul_nonneg hk hu.le]

theorem CloseTo.div {k l : ℝ} {x y : Fl A} {v w : ℝ} (hx : CloseTo k x v) (hy : CloseTo l y w) (hk : 0 ≤ k)
    (hk' : k ≤ 8) (hl : 0 ≤ l) (hl' : l ≤ 8) : CloseTo (k + 1.001 * l + 1.002) (x / y) (v / w) := by
  obtain ⟨s, hs, es⟩ := hx.factor hk
  obtain ⟨t, ht, et⟩ := hy.factor hl
  obtain ⟨d, hd, ed⟩ := A.fl_factor (x.val / y.val)
  have h1 := near_mul_unit A.unit_pos A.unit_le hk (by linarith) (by linarith) (by linarith) hs
    (near_inv_unit hl hl' ht)
  have h2 := near_mul_unit (y := 1 + d) (b := 1) A.unit_pos A.unit_le (by linarith) (by linarith) (by norm_num)
    (by norm_num) h1 (by simpa using hd)
  refine closeTo_of_factor (t := s * (1 / t) * (1 + d)) ?_ (by rw [Fl.val_div, ed, es, et]; ring)
  refine le_trans h2 (mul_le_mul_of_nonneg_right (by linarith) A.unit_pos.le)

theorem closeTo_sub (x y : Fl A) : CloseTo 1 (x - y) (x.val - y.val) := by
  unfold CloseTo
  rw [Fl.val_sub, one_mul]
  exact A.err' _

/-- The position within a segment. -/
theorem approx_position {x₀ x₁ x : Fl A} (h0 : x₀ ≤ x) (h1 : x ≤ x₁) (hlt : x₀ < x₁) :
    Approx 1 ((x - x₀) / (x₁ - x₀)) ((x.val - x₀.val) / (x₁.val - x₀.val)) 1 3.01 := by
  rw [Fl.le_iff] at h0 h1
  rw [Fl.lt_iff] at hlt
  have h := ((closeTo_sub x x₀).div (closeTo_sub x₁ x₀) (by norm_num) (by norm_num) (by norm_num) (by norm_num)).mono
    (l := 3.01) (by norm_num)
  have hpos : 0 < x₁.val - x₀.val := by linarith
  have := h.approx (S := 1) (B := 1) (by norm_num) (by
    rw [abs_of_nonneg (div_nonneg (by linarith) hpos.le), mul_one, div_le_one hpos]; linarith)
  simpa using this

/-- `h / (h + k)` for two positive differences. -/
theorem approx_share {a b c d : Fl A} (h1 : b < a) (h2 : d < c) :
    Approx 1 ((a - b) / ((a - b) + (c - d))) ((a.val - b.val) / ((a.val - b.val) + (c.val - d.val))) 1 4.1 := by
  rw [Fl.lt_iff] at h1 h2
  have p1 : 0 < a.val - b.val := by linarith
  have p2 : 0 < c.val - d.val := by linarith
  have hs := (closeTo_sub a b).add (closeTo_sub c d) (by norm_num) (by norm_num) (by positivity)
  have h := ((closeTo_sub a b).div hs (by norm_num) (by norm_num) (by norm_num) (by norm_num)).mono
    (l := 4.1) (by norm_num)
  have := h.approx (S := 1) (B := 1) (by norm_num) (by
    rw [abs_of_nonneg (div_nonneg p1.le (by linarith)), mul_one, div_le_one (by linarith)]; linarith)
  simpa using this

end Qlab.Props
