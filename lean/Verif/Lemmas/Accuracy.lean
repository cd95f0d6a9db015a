import Verif.Spec.Smooth
import Verif.Lemmas.Hermite
import Mathlib.Analysis.Calculus.LocalExtr.Rolle
import Mathlib.Analysis.Calculus.Deriv.Pow
import Mathlib.Tactic.FieldSimp
import Mathlib.Tactic.Linarith

/-! # Errors of interpolation on one segment -/

namespace Qlab

open Spec Set

variable {a b : ℝ}

/-- Rolle's theorem inside an interval. -/
theorem rolle {f s : ℝ → ℝ} (hf : HasSlopeOn f s (Icc a b)) {u v : ℝ} (hu : a ≤ u) (hv : v ≤ b) (huv : u < v)
    (h : f u = f v) : ∃ c, u < c ∧ c < v ∧ s c = 0 := by
  obtain ⟨c, hc, h0⟩ := exists_hasDerivAt_eq_zero (f := f) (f' := s) huv
    (fun y hy => ((hf y ⟨hu.trans hy.1, hy.2.trans hv⟩).continuousWithinAt).mono (Icc_subset_Icc hu hv)) h
    (fun y hy => (hf y ⟨hu.trans hy.1.le, hy.2.le.trans hv⟩).hasDerivAt
      (Icc_mem_nhds (lt_of_le_of_lt hu hy.1) (lt_of_lt_of_le hy.2 hv)))
  exact ⟨c, hc.1, hc.2, h0⟩

/-- Slopes subtract. -/
theorem HasSlopeOn.sub_of {f s p q : ℝ → ℝ} {S : Set ℝ} (hf : HasSlopeOn f s S) (hp : ∀ x, HasDerivAt p (q x) x) :
    HasSlopeOn (fun x => f x - p x) (fun x => s x - q x) S :=
  fun x hx => (hf x hx).sub (hp x).hasDerivWithinAt

/-- The error of a chord. -/
theorem chord_error {f g : ℝ → ℝ} (hf : HasSecondDerivOn f g (Icc a b)) {x₀ x₁ x : ℝ} (ha : a ≤ x₀) (hb : x₁ ≤ b)
    (hlt : x₀ < x₁) (h0 : x₀ ≤ x) (h1 : x ≤ x₁) :
    ∃ c, x₀ ≤ c ∧ c ≤ x₁ ∧
      f x - (f x₀ + (f x₁ - f x₀) / (x₁ - x₀) * (x - x₀)) = -(g c / 2 * ((x - x₀) * (x₁ - x))) := by
  have hG : x₁ - x₀ ≠ 0 := by linarith
  rcases eq_or_lt_of_le h0 with rfl | h0
  · exact ⟨x₀, le_rfl, hlt.le, by ring⟩
  rcases eq_or_lt_of_le h1 with rfl | h1
  · refine ⟨x₀, le_rfl, hlt.le, ?_⟩
    field_simp
    ring
  obtain ⟨s, hs⟩ := hf
  set m := (f x₁ - f x₀) / (x₁ - x₀) with hm
  set k := (f x - (f x₀ + m * (x - x₀))) / ((x - x₀) * (x - x₁)) with hk
  have hne : (x - x₀) * (x - x₁) ≠ 0 := mul_ne_zero (by linarith) (by linarith)
  have d1 : ∀ u, HasDerivAt (fun u => f x₀ + m * (u - x₀) + k * ((u - x₀) * (u - x₁)))
      (m + k * ((u - x₁) + (u - x₀))) u := by
    intro u
    have e0 := (hasDerivAt_id u).sub_const x₀
    have e1 := (hasDerivAt_id u).sub_const x₁
    have := ((e0.const_mul m).const_add (f x₀)).add ((e0.mul e1).const_mul k)
    exact this.congr_deriv (by simp)
  have d2 : ∀ u, HasDerivAt (fun u => m + k * ((u - x₁) + (u - x₀))) (2 * k) u := by
    intro u
    have e0 := (hasDerivAt_id u).sub_const x₀
    have e1 := (hasDerivAt_id u).sub_const x₁
    have := ((e1.add e0).const_mul k).const_add m
    exact this.congr_deriv (by ring)
  have s1 : HasSlopeOn f s (Icc a b) := fun u hu => (hs u hu).1
  have s2 : HasSlopeOn s g (Icc a b) := fun u hu => (hs u hu).2
  have r1 := HasSlopeOn.sub_of s1 d1
  have r2 := HasSlopeOn.sub_of s2 d2
  have z0 : f x₀ - (f x₀ + m * (x₀ - x₀) + k * ((x₀ - x₀) * (x₀ - x₁))) = 0 := by ring
  have z1 : f x₁ - (f x₀ + m * (x₁ - x₀) + k * ((x₁ - x₀) * (x₁ - x₁))) = 0 := by
    rw [hm]; field_simp; ring
  have zx : f x - (f x₀ + m * (x - x₀) + k * ((x - x₀) * (x - x₁))) = 0 := by
    rw [hk, div_mul_cancel₀ _ hne]; ring
  obtain ⟨c1, l1, u1, k1⟩ := rolle r1 ha (by linarith) h0 (by simp only [z0, zx])
  obtain ⟨c2, l2, u2, k2⟩ := rolle r1 (by linarith) hb h1 (by simp only [z1, zx])
  obtain ⟨c, l, u, kc⟩ := rolle r2 (by linarith) (by linarith) (show c1 < c2 by linarith) (by simp only [k1, k2])
  refine ⟨c, by linarith, by linarith, ?_⟩
  have : g c = 2 * k := by linarith
  rw [this]
  linear_combination zx

/-- The error of a cubic with the right values and slopes at both ends. -/
theorem cubic_error {f f1 f2 f3 f4 : ℝ → ℝ} (s1 : HasSlopeOn f f1 (Icc a b)) (s2 : HasSlopeOn f1 f2 (Icc a b))
    (s3 : HasSlopeOn f2 f3 (Icc a b)) (s4 : HasSlopeOn f3 f4 (Icc a b)) {x₀ x₁ x : ℝ} (ha : a ≤ x₀) (hb : x₁ ≤ b)
    (hlt : x₀ < x₁) (h0 : x₀ ≤ x) (h1 : x ≤ x₁) :
    ∃ c, x₀ ≤ c ∧ c ≤ x₁ ∧
      f x - hermiteCubic x₀ (f x₀) (f1 x₀) x₁ (f x₁) (f1 x₁) x = f4 c / 24 * ((x - x₀) * (x₁ - x)) ^ 2 := by
  rcases eq_or_lt_of_le h0 with rfl | h0
  · exact ⟨x₀, le_rfl, hlt.le, by rw [hermiteCubic_left]; ring⟩
  rcases eq_or_lt_of_le h1 with rfl | h1
  · exact ⟨x₀, le_rfl, hlt.le, by rw [hermiteCubic_right _ _ _ _ _ _ hlt]; ring⟩
  have hG : x₁ - x₀ ≠ 0 := by linarith
  set G := x₁ - x₀ with hGdef
  set d := (f x₁ - f x₀) / G with hd
  set A := (3 * d - 2 * f1 x₀ - f1 x₁) / G with hA
  set B := (f1 x₀ + f1 x₁ - 2 * d) / G ^ 2 with hB
  have hH : ∀ u, hermiteCubic x₀ (f x₀) (f1 x₀) x₁ (f x₁) (f1 x₁) u =
      f x₀ + f1 x₀ * (u - x₀) + A * (u - x₀) ^ 2 + B * (u - x₀) ^ 3 := by
    intro u
    simp only [hermiteCubic, hA, hB, hd, ← hGdef]
    field_simp
    ring
  rw [hH]
  set k := (f x - (f x₀ + f1 x₀ * (x - x₀) + A * (x - x₀) ^ 2 + B * (x - x₀) ^ 3)) / ((x - x₀) * (x - x₁)) ^ 2 with hk
  have hne : ((x - x₀) * (x - x₁)) ^ 2 ≠ 0 := pow_ne_zero _ (mul_ne_zero (by linarith) (by linarith))
  have e0 : ∀ u, HasDerivAt (fun u : ℝ => u - x₀) 1 u := fun u => (hasDerivAt_id u).sub_const x₀
  have e1 : ∀ u, HasDerivAt (fun u : ℝ => u - x₁) 1 u := fun u => (hasDerivAt_id u).sub_const x₁
  have d1 : ∀ u, HasDerivAt (fun u => f x₀ + f1 x₀ * (u - x₀) + A * (u - x₀) ^ 2 + B * (u - x₀) ^ 3 +
      k * ((u - x₀) * (u - x₁)) ^ 2)
      (f1 x₀ + 2 * A * (u - x₀) + 3 * B * (u - x₀) ^ 2 +
        k * (2 * ((u - x₀) * (u - x₁) ^ 2) + 2 * ((u - x₀) ^ 2 * (u - x₁)))) u := by
    intro u
    have := (((((e0 u).const_mul (f1 x₀)).const_add (f x₀)).add (((e0 u).pow 2).const_mul A)).add
      (((e0 u).pow 3).const_mul B)).add ((((e0 u).mul (e1 u)).pow 2).const_mul k)
    exact this.congr_deriv (by simp; ring)
  have d2 : ∀ u, HasDerivAt (fun u => f1 x₀ + 2 * A * (u - x₀) + 3 * B * (u - x₀) ^ 2 +
        k * (2 * ((u - x₀) * (u - x₁) ^ 2) + 2 * ((u - x₀) ^ 2 * (u - x₁))))
      (2 * A + 6 * B * (u - x₀) + k * (2 * (u - x₁) ^ 2 + 8 * ((u - x₀) * (u - x₁)) + 2 * (u - x₀) ^ 2)) u := by
    intro u
    have := ((((e0 u).const_mul (2 * A)).const_add (f1 x₀)).add (((e0 u).pow 2).const_mul (3 * B))).add
      (((((e0 u).mul ((e1 u).pow 2)).const_mul 2).add ((((e0 u).pow 2).mul (e1 u)).const_mul 2)).const_mul k)
    exact this.congr_deriv (by simp; ring)
  have d3 : ∀ u, HasDerivAt (fun u => 2 * A + 6 * B * (u - x₀) +
        k * (2 * (u - x₁) ^ 2 + 8 * ((u - x₀) * (u - x₁)) + 2 * (u - x₀) ^ 2))
      (6 * B + k * (12 * (u - x₁) + 12 * (u - x₀))) u := by
    intro u
    have := (((e0 u).const_mul (6 * B)).const_add (2 * A)).add
      ((((((e1 u).pow 2).const_mul 2).add (((e0 u).mul (e1 u)).const_mul 8)).add
        (((e0 u).pow 2).const_mul 2)).const_mul k)
    exact this.congr_deriv (by push_cast; ring)
  have d4 : ∀ u, HasDerivAt (fun u => 6 * B + k * (12 * (u - x₁) + 12 * (u - x₀))) (24 * k) u := by
    intro u
    have := ((((e1 u).const_mul 12).add ((e0 u).const_mul 12)).const_mul k).const_add (6 * B)
    exact this.congr_deriv (by ring)
  have r1 := HasSlopeOn.sub_of s1 d1
  have r2 := HasSlopeOn.sub_of s2 d2
  have r3 := HasSlopeOn.sub_of s3 d3
  have r4 := HasSlopeOn.sub_of s4 d4
  have z0 : f x₀ - (f x₀ + f1 x₀ * (x₀ - x₀) + A * (x₀ - x₀) ^ 2 + B * (x₀ - x₀) ^ 3 +
      k * ((x₀ - x₀) * (x₀ - x₁)) ^ 2) = 0 := by ring
  have z1 : f x₁ - (f x₀ + f1 x₀ * (x₁ - x₀) + A * (x₁ - x₀) ^ 2 + B * (x₁ - x₀) ^ 3 +
      k * ((x₁ - x₀) * (x₁ - x₁)) ^ 2) = 0 := by
    have := hH x₁
    rw [hermiteCubic_right _ _ _ _ _ _ hlt] at this
    linear_combination this
  have zx : f x - (f x₀ + f1 x₀ * (x - x₀) + A * (x - x₀) ^ 2 + B * (x - x₀) ^ 3 +
      k * ((x - x₀) * (x - x₁)) ^ 2) = 0 := by
    rw [hk, div_mul_cancel₀ _ hne]; ring
  have w0 : f1 x₀ - (f1 x₀ + 2 * A * (x₀ - x₀) + 3 * B * (x₀ - x₀) ^ 2 +
        k * (2 * ((x₀ - x₀) * (x₀ - x₁) ^ 2) + 2 * ((x₀ - x₀) ^ 2 * (x₀ - x₁)))) = 0 := by ring
  have w1 : f1 x₁ - (f1 x₀ + 2 * A * (x₁ - x₀) + 3 * B * (x₁ - x₀) ^ 2 +
        k * (2 * ((x₁ - x₀) * (x₁ - x₁) ^ 2) + 2 * ((x₁ - x₀) ^ 2 * (x₁ - x₁)))) = 0 := by
    rw [← hGdef, hA, hB]
    field_simp
    ring
  obtain ⟨p1, l1, u1, k1⟩ := rolle r1 ha (by linarith) h0 (by simp only [z0, zx])
  obtain ⟨p2, l2, u2, k2⟩ := rolle r1 (by linarith) hb h1 (by simp only [z1, zx])
  obtain ⟨q1, l3, u3, k3⟩ := rolle r2 ha (by linarith) l1 (by simp only [k1, w0])
  obtain ⟨q2, l4, u4, k4⟩ := rolle r2 (by linarith) (by linarith) (show p1 < p2 by linarith) (by simp only [k1, k2])
  obtain ⟨q3, l5, u5, k5⟩ := rolle r2 (by linarith) hb u2 (by simp only [k2, w1])
  obtain ⟨t1, l6, u6, k6⟩ := rolle r3 (by linarith) (by linarith) (show q1 < q2 by linarith) (by simp only [k3, k4])
  obtain ⟨t2, l7, u7, k7⟩ := rolle r3 (by linarith) (by linarith) (show q2 < q3 by linarith) (by simp only [k4, k5])
  obtain ⟨c, l8, u8, k8⟩ := rolle r4 (by linarith) (by linarith) (show t1 < t2 by linarith) (by simp only [k6, k7])
  refine ⟨c, by linarith, by linarith, ?_⟩
  have : f4 c = 24 * k := by linarith
  rw [this]
  linear_combination zx

/-- The product of the distances to both ends. -/
theorem product_le {x₀ x₁ x : ℝ} (h0 : x₀ ≤ x) (h1 : x ≤ x₁) :
    0 ≤ (x - x₀) * (x₁ - x) ∧ (x - x₀) * (x₁ - x) ≤ (x₁ - x₀) ^ 2 / 4 :=
  ⟨mul_nonneg (by linarith) (by linarith), by nlinarith [sq_nonneg (x₀ + x₁ - 2 * x)]⟩

end Qlab
