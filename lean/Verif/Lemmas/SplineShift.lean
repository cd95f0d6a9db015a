import Verif.Lemmas.CatmullRom
import Verif.Lemmas.RatioError

/-! # Catmull-Rom splines on slightly moved abscissae -/

namespace Qlab

/-- The share of one length in the sum of two, both lengths known up to `2 u κ`. -/
theorem share_error {u κ g q g' q' : ℝ} (hκ : 16 * u * κ ≤ 1) (hg : 0 < g) (hq : 0 < q)
    (eg : |g' - g| ≤ 2 * u * κ * g) (eq : |q' - q| ≤ 2 * u * κ * q) :
    |g' / (g' + q') - g / (g + q)| ≤ 2 * u * κ ∧ 0 ≤ g' / (g' + q') ∧ g' / (g' + q') ≤ 1 := by
  have hk : 0 ≤ u * κ := by
    by_contra hn
    have : 2 * u * κ * g < 0 := by nlinarith
    linarith [abs_nonneg (g' - g)]
  set θ := 2 * u * κ with hθ
  have hθ0 : 0 ≤ θ := by linarith
  have hθ1 : θ ≤ 1 / 8 := by linarith
  obtain ⟨a1, a2⟩ := abs_le.1 eg
  obtain ⟨b1, b2⟩ := abs_le.1 eq
  have mg : θ * g ≤ 1 / 8 * g := mul_le_mul_of_nonneg_right hθ1 hg.le
  have mq : θ * q ≤ 1 / 8 * q := mul_le_mul_of_nonneg_right hθ1 hq.le
  have hg' : 0 < g' := by linarith
  have hq' : 0 < q' := by linarith
  have hs : 0 < g + q := by linarith
  have hs' : 0 < g' + q' := by linarith
  refine ⟨?_, by positivity, by rw [div_le_one hs']; linarith⟩
  have e : g' / (g' + q') - g / (g + q) = ((g' - g) * q - g * (q' - q)) / ((g' + q') * (g + q)) := by
    field_simp
    ring
  rw [e, abs_div, abs_of_pos (mul_pos hs' hs), div_le_iff₀ (mul_pos hs' hs)]
  have n1 : |(g' - g) * q - g * (q' - q)| ≤ 2 * θ * (g * q) := by
    refine le_trans (abs_sub _ _) ?_
    rw [abs_mul, abs_mul, abs_of_pos hq, abs_of_pos hg]
    have t1 := mul_le_mul_of_nonneg_right eg hq.le
    have t2 := mul_le_mul_of_nonneg_left eq hg.le
    linarith
  have n2 : 7 / 8 * (g + q) ≤ g' + q' := by linarith
  have n3 : θ * (7 / 8 * (g + q) * (g + q)) ≤ θ * ((g' + q') * (g + q)) :=
    mul_le_mul_of_nonneg_left (mul_le_mul_of_nonneg_right n2 hs.le) hθ0
  have n4 : 0 ≤ θ * (g - q) ^ 2 := by positivity
  have n5 : 0 ≤ θ * (g * q) := by positivity
  nlinarith

/-- Values of two cubics at two positions. -/
theorem cubic_shift {y c₁ c₂ c₃ d₁ d₂ d₃ t t' C₁ C₂ C₃ e₁ e₂ e₃ : ℝ} (t0 : 0 ≤ t) (t1 : t ≤ 1) (t0' : 0 ≤ t')
    (t1' : t' ≤ 1) (h1 : |c₁| ≤ C₁) (h2 : |c₂| ≤ C₂) (h3 : |c₃| ≤ C₃) (k1 : |c₁ - d₁| ≤ e₁) (k2 : |c₂ - d₂| ≤ e₂)
    (k3 : |c₃ - d₃| ≤ e₃) :
    |(y + t * c₁ + t ^ 2 * c₂ + t ^ 3 * c₃) - (y + t' * d₁ + t' ^ 2 * d₂ + t' ^ 3 * d₃)| ≤
      (C₁ + 2 * C₂ + 3 * C₃) * |t - t'| + (e₁ + e₂ + e₃) := by
  have e : (y + t * c₁ + t ^ 2 * c₂ + t ^ 3 * c₃) - (y + t' * d₁ + t' ^ 2 * d₂ + t' ^ 3 * d₃) =
      (t - t') * (c₁ + (t + t') * c₂ + (t ^ 2 + t * t' + t' ^ 2) * c₃) +
        (t' * (c₁ - d₁) + t' ^ 2 * (c₂ - d₂) + t' ^ 3 * (c₃ - d₃)) := by ring
  rw [e]
  refine le_trans (abs_add_le _ _) ?_
  have q2 : t' ^ 2 ≤ 1 := pow_le_one₀ t0' t1'
  have q3 : t' ^ 3 ≤ 1 := pow_le_one₀ t0' t1'
  have p2 : t ^ 2 ≤ 1 := pow_le_one₀ t0 t1
  have p3 : t * t' ≤ 1 := mul_le_one₀ t1 t0' t1'
  have p4 : 0 ≤ t * t' := mul_nonneg t0 t0'
  refine add_le_add ?_ ?_
  · rw [abs_mul, mul_comm]
    refine mul_le_mul_of_nonneg_right ?_ (abs_nonneg _)
    refine le_trans (abs_add_le _ _) (add_le_add (le_trans (abs_add_le _ _) (add_le_add h1 ?_)) ?_)
    · rw [abs_mul, abs_of_nonneg (by linarith : 0 ≤ t + t')]
      exact mul_le_mul (by linarith) h2 (abs_nonneg _) (by norm_num)
    · rw [abs_mul, abs_of_nonneg (by positivity)]
      exact mul_le_mul (by linarith) h3 (abs_nonneg _) (by norm_num)
  · have bd : ∀ a x b : ℝ, 0 ≤ a → a ≤ 1 → |x| ≤ b → |a * x| ≤ b := by
      intro a x b ha ha1 hx
      rw [abs_mul, abs_of_nonneg ha]
      have := mul_le_mul_of_nonneg_right ha1 (abs_nonneg x)
      linarith
    exact le_trans (abs_add_le _ _) (add_le_add (le_trans (abs_add_le _ _)
      (add_le_add (bd _ _ _ t0' t1' k1) (bd _ _ _ (by positivity) q2 k2))) (bd _ _ _ (by positivity) q3 k3))

/-- An interior segment. -/
theorem inner_shift {yp y₀ y₁ y₂ S t t' a a' b b' : ℝ} (hp : |yp| ≤ S) (h0 : |y₀| ≤ S) (h1 : |y₁| ≤ S) (h2 : |y₂| ≤ S)
    (t0 : 0 ≤ t) (t1 : t ≤ 1) (t0' : 0 ≤ t') (t1' : t' ≤ 1) (a0 : 0 ≤ a) (a1 : a ≤ 1) (b0 : 0 ≤ b) (b1 : b ≤ 1) :
    |(y₀ + t * a * (y₁ - yp) + t ^ 2 * (2 * a * yp + (b - 3) * y₀ + (3 - 2 * a) * y₁ - b * y₂) +
        t ^ 3 * (-a * yp + (2 - b) * y₀ + (-2 + a) * y₁ + b * y₂)) -
      (y₀ + t' * a' * (y₁ - yp) + t' ^ 2 * (2 * a' * yp + (b' - 3) * y₀ + (3 - 2 * a') * y₁ - b' * y₂) +
        t' ^ 3 * (-a' * yp + (2 - b') * y₀ + (-2 + a') * y₁ + b' * y₂))| ≤
      (50 * |t - t'| + 8 * |a - a'| + 4 * |b - b'|) * S := by
  have hS : 0 ≤ S := le_trans (abs_nonneg _) hp
  have d1 : |y₁ - yp| ≤ 2 * S := le_trans (abs_sub _ _) (by linarith)
  have d2 : |y₂ - y₀| ≤ 2 * S := le_trans (abs_sub _ _) (by linarith)
  have d3 : |y₁ - y₀| ≤ 2 * S := le_trans (abs_sub _ _) (by linarith)
  have A1 : |a * (y₁ - yp)| ≤ 2 * S := by
    rw [abs_mul, abs_of_nonneg a0]
    have := mul_le_mul a1 d1 (abs_nonneg _) (by norm_num)
    linarith
  have B1 : |b * (y₂ - y₀)| ≤ 2 * S := by
    rw [abs_mul, abs_of_nonneg b0]
    have := mul_le_mul b1 d2 (abs_nonneg _) (by norm_num)
    linarith
  have A2 : |(a - a') * (y₁ - yp)| ≤ 2 * |a - a'| * S := by
    rw [abs_mul]
    have := mul_le_mul_of_nonneg_left d1 (abs_nonneg (a - a'))
    linarith
  have B2 : |(b - b') * (y₂ - y₀)| ≤ 2 * |b - b'| * S := by
    rw [abs_mul]
    have := mul_le_mul_of_nonneg_left d2 (abs_nonneg (b - b'))
    linarith
  have key := cubic_shift (y := y₀) (c₁ := a * (y₁ - yp))
    (c₂ := 3 * (y₁ - y₀) - 2 * (a * (y₁ - yp)) - b * (y₂ - y₀))
    (c₃ := a * (y₁ - yp) + b * (y₂ - y₀) - 2 * (y₁ - y₀)) (d₁ := a' * (y₁ - yp))
    (d₂ := 3 * (y₁ - y₀) - 2 * (a' * (y₁ - yp)) - b' * (y₂ - y₀))
    (d₃ := a' * (y₁ - yp) + b' * (y₂ - y₀) - 2 * (y₁ - y₀)) (C₁ := 2 * S) (C₂ := 12 * S) (C₃ := 8 * S)
    (e₁ := 2 * |a - a'| * S) (e₂ := 4 * |a - a'| * S + 2 * |b - b'| * S) (e₃ := 2 * |a - a'| * S + 2 * |b - b'| * S)
    t0 t1 t0' t1' A1
    (by
      obtain ⟨p1, p2⟩ := abs_le.1 A1
      obtain ⟨q1, q2⟩ := abs_le.1 B1
      obtain ⟨r1, r2⟩ := abs_le.1 d3
      exact abs_le.2 ⟨by linarith, by linarith⟩)
    (by
      obtain ⟨p1, p2⟩ := abs_le.1 A1
      obtain ⟨q1, q2⟩ := abs_le.1 B1
      obtain ⟨r1, r2⟩ := abs_le.1 d3
      exact abs_le.2 ⟨by linarith, by linarith⟩)
    (by rw [← sub_mul]; exact A2)
    (by
      obtain ⟨p1, p2⟩ := abs_le.1 A2
      obtain ⟨q1, q2⟩ := abs_le.1 B2
      exact abs_le.2 ⟨by linarith, by linarith⟩)
    (by
      obtain ⟨p1, p2⟩ := abs_le.1 A2
      obtain ⟨q1, q2⟩ := abs_le.1 B2
      exact abs_le.2 ⟨by linarith, by linarith⟩)
  refine le_trans (le_of_eq ?_) (key.trans (le_of_eq ?_))
  · congr 1
    ring
  · ring

/-- The last segment. -/
theorem last_shift {yp y₀ y₁ S t t' a a' : ℝ} (hp : |yp| ≤ S) (h0 : |y₀| ≤ S) (h1 : |y₁| ≤ S)
    (t0 : 0 ≤ t) (t1 : t ≤ 1) (t0' : 0 ≤ t') (t1' : t' ≤ 1) (a0 : 0 ≤ a) (a1 : a ≤ 1) :
    |(y₀ + t * a * (y₁ - yp) + t ^ 2 * (2 * a * yp - 2 * y₀ + (2 - 2 * a) * y₁) + t ^ 3 * (-a * yp + y₀ - a * y₁)) -
      (y₀ + t' * a' * (y₁ - yp) + t' ^ 2 * (2 * a' * yp - 2 * y₀ + (2 - 2 * a') * y₁) +
        t' ^ 3 * (-a' * yp + y₀ - a' * y₁))| ≤ (50 * |t - t'| + 8 * |a - a'|) * S := by
  have hS : 0 ≤ S := le_trans (abs_nonneg _) hp
  have d1 : |y₁ - yp| ≤ 2 * S := le_trans (abs_sub _ _) (by linarith)
  have d2 : |yp + y₁| ≤ 2 * S := le_trans (abs_add_le _ _) (by linarith)
  have d3 : |y₁ - y₀| ≤ 2 * S := le_trans (abs_sub _ _) (by linarith)
  have A1 : |a * (y₁ - yp)| ≤ 2 * S := by
    rw [abs_mul, abs_of_nonneg a0]
    have := mul_le_mul a1 d1 (abs_nonneg _) (by norm_num)
    linarith
  have B1 : |a * (yp + y₁)| ≤ 2 * S := by
    rw [abs_mul, abs_of_nonneg a0]
    have := mul_le_mul a1 d2 (abs_nonneg _) (by norm_num)
    linarith
  have A2 : |(a - a') * (y₁ - yp)| ≤ 2 * |a - a'| * S := by
    rw [abs_mul]
    have := mul_le_mul_of_nonneg_left d1 (abs_nonneg (a - a'))
    linarith
  have B2 : |(a - a') * (yp + y₁)| ≤ 2 * |a - a'| * S := by
    rw [abs_mul]
    have := mul_le_mul_of_nonneg_left d2 (abs_nonneg (a - a'))
    linarith
  have key := cubic_shift (y := y₀) (c₁ := a * (y₁ - yp)) (c₂ := 2 * (y₁ - y₀) - 2 * (a * (y₁ - yp)))
    (c₃ := y₀ - a * (yp + y₁)) (d₁ := a' * (y₁ - yp)) (d₂ := 2 * (y₁ - y₀) - 2 * (a' * (y₁ - yp)))
    (d₃ := y₀ - a' * (yp + y₁)) (C₁ := 2 * S) (C₂ := 8 * S) (C₃ := 3 * S)
    (e₁ := 2 * |a - a'| * S) (e₂ := 4 * |a - a'| * S) (e₃ := 2 * |a - a'| * S)
    t0 t1 t0' t1' A1
    (by
      obtain ⟨p1, p2⟩ := abs_le.1 A1
      obtain ⟨r1, r2⟩ := abs_le.1 d3
      exact abs_le.2 ⟨by linarith, by linarith⟩)
    (by
      obtain ⟨p1, p2⟩ := abs_le.1 B1
      obtain ⟨r1, r2⟩ := abs_le.1 h0
      exact abs_le.2 ⟨by linarith, by linarith⟩)
    (by rw [← sub_mul]; exact A2)
    (by
      obtain ⟨p1, p2⟩ := abs_le.1 A2
      exact abs_le.2 ⟨by linarith, by linarith⟩)
    (by
      obtain ⟨p1, p2⟩ := abs_le.1 B2
      exact abs_le.2 ⟨by linarith, by linarith⟩)
  have hle : (2 * S + 2 * (8 * S) + 3 * (3 * S)) * |t - t'| + (2 * |a - a'| * S + 4 * |a - a'| * S + 2 * |a - a'| * S) ≤
      (50 * |t - t'| + 8 * |a - a'|) * S := by
    have := mul_nonneg hS (abs_nonneg (t - t'))
    linarith
  refine le_trans (le_of_eq ?_) (key.trans hle)
  congr 1
  ring

/-- The first segment. -/
theorem first_shift {y₀ y₁ y₂ S t t' b b' : ℝ} (h0 : |y₀| ≤ S) (h1 : |y₁| ≤ S) (h2 : |y₂| ≤ S)
    (t0 : 0 ≤ t) (t1 : t ≤ 1) (t0' : 0 ≤ t') (t1' : t' ≤ 1) (b0 : 0 ≤ b) (b1 : b ≤ 1) :
    |(y₀ + t * (y₁ - y₀) + (t ^ 3 - t ^ 2) * ((1 - b) * y₀ - y₁ + b * y₂)) -
      (y₀ + t' * (y₁ - y₀) + (t' ^ 3 - t' ^ 2) * ((1 - b') * y₀ - y₁ + b' * y₂))| ≤
      (50 * |t - t'| + 4 * |b - b'|) * S := by
  have hS : 0 ≤ S := le_trans (abs_nonneg _) h0
  have d2 : |y₂ - y₀| ≤ 2 * S := le_trans (abs_sub _ _) (by linarith)
  have d3 : |y₁ - y₀| ≤ 2 * S := le_trans (abs_sub _ _) (by linarith)
  have B1 : |b * (y₂ - y₀)| ≤ 2 * S := by
    rw [abs_mul, abs_of_nonneg b0]
    have := mul_le_mul b1 d2 (abs_nonneg _) (by norm_num)
    linarith
  have B2 : |(b - b') * (y₂ - y₀)| ≤ 2 * |b - b'| * S := by
    rw [abs_mul]
    have := mul_le_mul_of_nonneg_left d2 (abs_nonneg (b - b'))
    linarith
  have key := cubic_shift (y := y₀) (c₁ := y₁ - y₀) (c₂ := (y₁ - y₀) - b * (y₂ - y₀))
    (c₃ := b * (y₂ - y₀) - (y₁ - y₀)) (d₁ := y₁ - y₀) (d₂ := (y₁ - y₀) - b' * (y₂ - y₀))
    (d₃ := b' * (y₂ - y₀) - (y₁ - y₀)) (C₁ := 2 * S) (C₂ := 4 * S) (C₃ := 4 * S)
    (e₁ := 0) (e₂ := 2 * |b - b'| * S) (e₃ := 2 * |b - b'| * S)
    t0 t1 t0' t1' d3
    (by
      obtain ⟨p1, p2⟩ := abs_le.1 B1
      obtain ⟨r1, r2⟩ := abs_le.1 d3
      exact abs_le.2 ⟨by linarith, by linarith⟩)
    (by
      obtain ⟨p1, p2⟩ := abs_le.1 B1
      obtain ⟨r1, r2⟩ := abs_le.1 d3
      exact abs_le.2 ⟨by linarith, by linarith⟩)
    (by simp)
    (by
      obtain ⟨p1, p2⟩ := abs_le.1 B2
      exact abs_le.2 ⟨by linarith, by linarith⟩)
    (by
      obtain ⟨p1, p2⟩ := abs_le.1 B2
      exact abs_le.2 ⟨by linarith, by linarith⟩)
  have hle : (2 * S + 2 * (4 * S) + 3 * (4 * S)) * |t - t'| + (0 + 2 * |b - b'| * S + 2 * |b - b'| * S) ≤
      (50 * |t - t'| + 4 * |b - b'|) * S := by
    have := mul_nonneg hS (abs_nonneg (t - t'))
    linarith
  refine le_trans (le_of_eq ?_) (key.trans hle)
  congr 1
  ring

/-- A segment of the spline when every abscissa `a` moves by at most `u a` and no node lies more than `κ` times as far
from zero as from the node before it. -/
theorem crSegment_shift {u κ S : ℝ} (hu : 0 < u) (hκ : 16 * u * κ ≤ 1) {pts pts' : List (ℝ × ℝ)} {i : Nat}
    (hi : i + 1 < pts.length) (hi' : i + 1 < pts'.length) (h3 : 3 ≤ pts.length) (h3' : 3 ≤ pts'.length)
    (hlen : pts.length = pts'.length)
    (hx : ∀ j (h : j < pts.length) (h' : j < pts'.length), |pts[j].1 - pts'[j].1| ≤ u * pts'[j].1 ∧
      pts[j].2 = pts'[j].2 ∧ |pts'[j].2| ≤ S ∧ 0 ≤ pts'[j].1)
    (hg : ∀ j (h : j + 1 < pts.length) (h' : j + 1 < pts'.length), pts[j].1 < pts[j + 1].1 ∧
      pts'[j].1 < pts'[j + 1].1 ∧ pts'[j + 1].1 ≤ κ * (pts'[j + 1].1 - pts'[j].1))
    {x a : ℝ} (hxa : |x - a| ≤ u * a) (x0 : pts[i].1 ≤ x) (x1 : x ≤ pts[i + 1].1) (a0 : pts'[i].1 ≤ a)
    (a1 : a ≤ pts'[i + 1].1) :
    |crSegment pts i hi h3 x - crSegment pts' i hi' h3' a| ≤ 274 * κ * u * S := by
  have hS : 0 ≤ S := le_trans (abs_nonneg _) (hx i (by omega) (by omega)).2.2.1
  have hgap : ∀ j k (hk : k < j) (h : j < pts.length) (h' : j < pts'.length), pts'[k].1 ≤ pts'[j].1 →
      pts'[j].1 ≤ κ * (pts'[j].1 - pts'[j - 1].1) → pts'[k].1 ≤ pts'[j - 1].1 → 0 ≤ κ →
      |(pts[j].1 - pts[k].1) - (pts'[j].1 - pts'[k].1)| ≤ 2 * u * κ * (pts'[j].1 - pts'[k].1) := by
    intro j k hk h h' hle hkap hle' hκ0
    have e1 := (hx j h h').1
    have e2 := (hx k (by omega) (by omega)).1
    have e3 : (pts[j].1 - pts[k].1) - (pts'[j].1 - pts'[k].1) = (pts[j].1 - pts'[j].1) - (pts[k].1 - pts'[k].1) := by ring
    rw [e3]
    refine le_trans (abs_sub _ _) ?_
    have f1 := mul_le_mul_of_nonneg_left hle hu.le
    have f2 := mul_le_mul_of_nonneg_left hkap hu.le
    have f3 : u * (κ * (pts'[j].1 - pts'[j - 1].1)) ≤ u * (κ * (pts'[j].1 - pts'[k].1)) :=
      mul_le_mul_of_nonneg_left (mul_le_mul_of_nonneg_left (by linarith) hκ0) hu.le
    linarith
  obtain ⟨g1, g2, g3⟩ := hg i hi hi'
  obtain ⟨e0, y0, s0, n0⟩ := hx i (by omega) (by omega)
  obtain ⟨e1, y1, s1, n1⟩ := hx (i + 1) hi hi'
  have hκ0 : 0 ≤ κ := by
    by_contra hn
    have := mul_neg_of_neg_of_pos (not_le.1 hn) (sub_pos.2 g2)
    linarith
  have ht := ratio_error hu hκ n0 a0 a1 g2 g3 e0 e1 hxa
  have tb : 0 ≤ (x - pts[i].1) / (pts[i + 1].1 - pts[i].1) ∧ (x - pts[i].1) / (pts[i + 1].1 - pts[i].1) ≤ 1 :=
    ⟨div_nonneg (by linarith) (by linarith), (div_le_one (by linarith)).2 (by linarith)⟩
  have tb' : 0 ≤ (a - pts'[i].1) / (pts'[i + 1].1 - pts'[i].1) ∧ (a - pts'[i].1) / (pts'[i + 1].1 - pts'[i].1) ≤ 1 :=
    ⟨div_nonneg (by linarith) (by linarith), (div_le_one (by linarith)).2 (by linarith)⟩
  have gg := hgap (i + 1) i (by omega) hi hi' g2.le (by simpa using g3) (by simp) hκ0
  have hP : 0 ≤ u * κ * S := by positivity
  have fin : ∀ X Y Z P : ℝ, X ≤ 5 * u * κ → Y ≤ 2 * u * κ → Z ≤ 2 * u * κ → P ≤ (50 * X + 8 * Y + 4 * Z) * S →
      P ≤ 274 * κ * u * S := by
    intro X Y Z P hX hY hZ h
    have : (50 * X + 8 * Y + 4 * Z) * S ≤ (50 * (5 * u * κ) + 8 * (2 * u * κ) + 4 * (2 * u * κ)) * S :=
      mul_le_mul_of_nonneg_right (by linarith) hS
    linarith
  have hz : (0 : ℝ) ≤ 2 * u * κ := by positivity
  unfold crSegment
  by_cases hi0 : i = 0
  · subst hi0
    rw [dif_pos rfl, dif_pos rfl]
    obtain ⟨g1', g2', g3'⟩ := hg 1 (by omega) (by omega)
    obtain ⟨-, y2, s2, -⟩ := hx 2 (by omega) (by omega)
    have q := hgap 2 1 (by omega) (by omega) (by omega) g2'.le (by simpa using g3') (by simp) hκ0
    obtain ⟨b1, b2, b3⟩ := share_error hκ (sub_pos.2 g2) (sub_pos.2 g2') gg q
    simp only [Nat.zero_add] at *
    unfold crFirst
    rw [y0, y1, y2]
    refine fin _ 0 _ _ ht hz b1 ?_
    rw [mul_zero, add_zero]
    exact first_shift s0 s1 s2 tb.1 tb.2 tb'.1 tb'.2 b2 b3
  · obtain ⟨k, rfl⟩ : ∃ k, i = k + 1 := ⟨i - 1, by omega⟩
    rw [dif_neg hi0, dif_neg hi0]
    obtain ⟨g1', g2', g3'⟩ := hg k (by omega) (by omega)
    obtain ⟨-, yp, sp, -⟩ := hx k (by omega) (by omega)
    have q := hgap (k + 1 + 1) k (by omega) hi hi' (by linarith) (by simpa using g3) (by simpa using g2'.le) hκ0
    obtain ⟨b1, b2, b3⟩ := share_error hκ (sub_pos.2 g2) (show 0 < pts'[k + 1 + 1].1 - pts'[k].1 by linarith) gg q
    by_cases hl : k + 1 + 2 = pts.length
    · rw [dif_pos hl, dif_pos (by omega)]
      simp only [Nat.add_sub_cancel] at *
      unfold crLast
      rw [y0, y1, yp]
      refine fin _ _ 0 _ ht b1 hz ?_
      rw [mul_zero, add_zero]
      exact last_shift sp s0 s1 tb.1 tb.2 tb'.1 tb'.2 b2 b3
    · rw [dif_neg hl, dif_neg (by omega)]
      obtain ⟨h1', h2', h3''⟩ := hg (k + 1 + 1) (by omega) (by omega)
      obtain ⟨-, y2, s2, -⟩ := hx (k + 1 + 2) (by omega) (by omega)
      have r := hgap (k + 1 + 2) (k + 1 + 1) (by omega) (by omega) (by omega) h2'.le (by simpa using h3'') (by simp) hκ0
      obtain ⟨c1, c2, c3⟩ := share_error hκ (sub_pos.2 g2) (sub_pos.2 h2') gg r
      simp only [Nat.add_sub_cancel] at *
      unfold crInner
      rw [y0, y1, yp, y2]
      refine fin _ _ _ _ ht b1 c1 ?_
      exact inner_shift sp s0 s1 s2 tb.1 tb.2 tb'.1 tb'.2 b2 b3 c2 c3

end Qlab
