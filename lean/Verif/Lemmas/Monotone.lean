import Verif.Lemmas.CatmullRom
import Verif.Lemmas.NaturalBounds

/-! # Rising segments -/

namespace Qlab

open Spec

variable {K : Type} [Field K] [LinearOrder K] [IsStrictOrderedRing K]

omit [Field K] [IsStrictOrderedRing K] in
/-- A function that never falls on the first `m` segments never falls on all of them together. -/
theorem rising_of_segments {W L : Type} [Preorder L] {pts : List (K × W)} (hs : StrictlyIncreasing pts) {m : Nat}
    (hm : m < pts.length) (f : K → L)
    (hf : ∀ i (hi : i < m), ∀ x z, pts[i].1 ≤ x → x ≤ z → z ≤ pts[i + 1].1 → f x ≤ f z)
    {x z : K} {i j : Nat} (hi : i < m) (hj : j < m) (hx0 : pts[i].1 ≤ x) (hx1 : x ≤ pts[i + 1].1)
    (hz0 : pts[j].1 ≤ z) (hz1 : z ≤ pts[j + 1].1) (hxz : x ≤ z) : f x ≤ f z := by
  have pw := List.pairwise_iff_getElem.1 hs
  have nodes : ∀ k (hk : i + 1 + k < pts.length), i + k < m → f pts[i + 1].1 ≤ f pts[i + 1 + k].1 := by
    intro k
    induction k with
    | zero => intro _ _; exact le_rfl
    | succ k ih =>
      intro hk hkm
      refine (ih (by omega) (by omega)).trans ?_
      exact hf (i + 1 + k) (by omega) _ _ le_rfl (pw _ _ (by omega) (by omega) (by omega)).le le_rfl
  rcases Nat.lt_trichotomy i j with h | h | h
  · obtain ⟨k, rfl⟩ : ∃ k, j = i + 1 + k := ⟨j - (i + 1), by omega⟩
    exact (hf i hi _ _ hx0 hx1 le_rfl).trans ((nodes k (by omega) (by omega)).trans (hf _ hj _ _ le_rfl hz0 hz1))
  · subst h
    exact hf i hi _ _ hx0 hxz hz1
  · have : pts[j + 1].1 ≤ pts[i].1 := by
      rcases Nat.eq_or_lt_of_le (show j + 1 ≤ i by omega) with e | e
      · subst e; exact le_rfl
      · exact (pw _ _ (by omega) (by omega) e).le
    rw [le_antisymm hxz (hz1.trans (this.trans hx0))]

/-- The cubic with rise `d` and end slopes `a`, `b` never falls if these are between 0 and `3 d`. -/
theorem cubic_rising {d a b t s : K} (a0 : 0 ≤ a) (a3 : a ≤ 3 * d) (b0 : 0 ≤ b) (b3 : b ≤ 3 * d) (t0 : 0 ≤ t)
    (hts : t ≤ s) (s1 : s ≤ 1) :
    d * (3 * t ^ 2 - 2 * t ^ 3) + a * (t ^ 3 - 2 * t ^ 2 + t) + b * (t ^ 3 - t ^ 2) ≤
      d * (3 * s ^ 2 - 2 * s ^ 3) + a * (s ^ 3 - 2 * s ^ 2 + s) + b * (s ^ 3 - s ^ 2) := by
  have cube : ∀ u v : K, u ≤ v → u ^ 3 ≤ v ^ 3 := fun u v h => (Odd.strictMono_pow (by decide)).monotone h
  have p00 : 3 * t ^ 2 - 2 * t ^ 3 ≤ 3 * s ^ 2 - 2 * s ^ 3 := by
    have e : 3 * s ^ 2 - 2 * s ^ 3 - (3 * t ^ 2 - 2 * t ^ 3) =
        (s - t) * (3 * (s + t) - 2 * (s ^ 2 + s * t + t ^ 2)) := by ring
    have h : 0 ≤ 3 * (s + t) - 2 * (s ^ 2 + s * t + t ^ 2) := by nlinarith
    nlinarith [mul_nonneg (sub_nonneg.2 hts) h]
  have p03 := cube t s hts
  have p30 := cube (1 - s) (1 - t) (by linarith)
  have p33 := cube (2 * t - 1) (2 * s - 1) (by linarith)
  have e30 : 1 - (1 - t) ^ 3 ≤ 1 - (1 - s) ^ 3 := by linarith
  rcases le_total (a + b) (3 * d) with h | h
  · have h1 := mul_le_mul_of_nonneg_left p00 (show 0 ≤ 3 * d - a - b by linarith)
    have h2 := mul_le_mul_of_nonneg_left e30 a0
    have h3 := mul_le_mul_of_nonneg_left p03 b0
    nlinarith
  · have h1 := mul_le_mul_of_nonneg_left p33 (show 0 ≤ a + b - 3 * d by linarith)
    have h2 := mul_le_mul_of_nonneg_left e30 (show 0 ≤ 3 * d - b by linarith)
    have h3 := mul_le_mul_of_nonneg_left p03 (show 0 ≤ 3 * d - a by linarith)
    nlinarith

theorem hermiteCubic_rising {x₀ y₀ m₀ x₁ y₁ m₁ x z : K} (hlt : x₀ < x₁) (h0 : 0 ≤ m₀)
    (h0' : m₀ * (x₁ - x₀) ≤ 3 * (y₁ - y₀)) (h1 : 0 ≤ m₁) (h1' : m₁ * (x₁ - x₀) ≤ 3 * (y₁ - y₀)) (hx : x₀ ≤ x)
    (hxz : x ≤ z) (hz : z ≤ x₁) : hermiteCubic x₀ y₀ m₀ x₁ y₁ m₁ x ≤ hermiteCubic x₀ y₀ m₀ x₁ y₁ m₁ z := by
  have hG : 0 < x₁ - x₀ := sub_pos.2 hlt
  have := cubic_rising (d := y₁ - y₀) (a := m₀ * (x₁ - x₀)) (b := m₁ * (x₁ - x₀)) (t := (x - x₀) / (x₁ - x₀))
    (s := (z - x₀) / (x₁ - x₀)) (mul_nonneg h0 hG.le) h0' (mul_nonneg h1 hG.le) h1' (div_nonneg (by linarith) hG.le)
    (div_le_div_of_nonneg_right (by linarith) hG.le) ((div_le_one hG).2 (by linarith))
  simp only [hermiteCubic]
  linarith

omit [IsStrictOrderedRing K] in
/-- The first segment of a Catmull-Rom spline is a cubic with known end slopes. -/
theorem crFirst_eq {x₀ y₀ x₁ y₁ x₂ y₂ x : K} (h : x₀ < x₁) : crFirst x₀ y₀ x₁ y₁ x₂ y₂ x =
    hermiteCubic x₀ y₀ ((y₁ - y₀) / (x₁ - x₀)) x₁ y₁ ((y₂ - y₀) / ((x₁ - x₀) + (x₂ - x₁))) x := by
  have hne : x₁ - x₀ ≠ 0 := sub_ne_zero.2 h.ne'
  simp only [crFirst, hermiteCubic, div_mul_cancel₀ _ hne]
  ring

omit [LinearOrder K] [IsStrictOrderedRing K] in
/-- So is an inner one. -/
theorem crInner_eq {xp yp x₀ y₀ x₁ y₁ x₂ y₂ x : K} : crInner xp yp x₀ y₀ x₁ y₁ x₂ y₂ x =
    hermiteCubic x₀ y₀ ((y₁ - yp) / ((x₁ - x₀) + (x₁ - xp))) x₁ y₁ ((y₂ - y₀) / ((x₁ - x₀) + (x₂ - x₁))) x := by
  simp only [crInner, hermiteCubic]
  ring

namespace NaturalCubic

/-- A cubic segment rises where its chord is steep enough for its second derivatives. -/
theorem cubic_rises {x₀ y₀ m₀ x₁ y₁ m₁ x z M : K} (hlt : x₀ < x₁) (hm0 : |m₀| ≤ M) (hm1 : |m₁| ≤ M)
    (hc : (x₁ - x₀) ^ 2 / 2 * M ≤ y₁ - y₀) (hx : x₀ ≤ x) (hxz : x ≤ z) (hz : z ≤ x₁) :
    cubic x₀ y₀ m₀ x₁ y₁ m₁ x ≤ cubic x₀ y₀ m₀ x₁ y₁ m₁ z := by
  have hG : 0 < x₁ - x₀ := sub_pos.2 hlt
  rw [cubic_eq_chord hG.ne', cubic_eq_chord hG.ne']
  have es : ∀ u, (x₁ - u) / (x₁ - x₀) = 1 - (u - x₀) / (x₁ - x₀) := fun u => by field_simp; ring
  simp only [es]
  have t0 : 0 ≤ (x - x₀) / (x₁ - x₀) := div_nonneg (by linarith) hG.le
  have ts : (x - x₀) / (x₁ - x₀) ≤ (z - x₀) / (x₁ - x₀) := div_le_div_of_nonneg_right (by linarith) hG.le
  have s1 : (z - x₀) / (x₁ - x₀) ≤ 1 := (div_le_one hG).2 (by linarith)
  generalize (x - x₀) / (x₁ - x₀) = t at *
  generalize (z - x₀) / (x₁ - x₀) = s at *
  have hM : 0 ≤ M := (abs_nonneg _).trans hm0
  have key : (1 - (t ^ 2 + t * s + s ^ 2)) * m₁ - (1 - ((1 - t) ^ 2 + (1 - t) * (1 - s) + (1 - s) ^ 2)) * m₀ ≤
      3 * M := by
    have hr0 : 0 ≤ t ^ 2 + t * s + s ^ 2 := by nlinarith
    have hr3 : t ^ 2 + t * s + s ^ 2 ≤ 3 := by nlinarith
    have hq0 : 0 ≤ (1 - t) ^ 2 + (1 - t) * (1 - s) + (1 - s) ^ 2 := by nlinarith
    have hq3 : (1 - t) ^ 2 + (1 - t) * (1 - s) + (1 - s) ^ 2 ≤ 3 := by nlinarith
    have hqr : t ^ 2 + t * s + s ^ 2 + ((1 - t) ^ 2 + (1 - t) * (1 - s) + (1 - s) ^ 2) ≤ 5 := by nlinarith
    generalize t ^ 2 + t * s + s ^ 2 = r at *
    generalize (1 - t) ^ 2 + (1 - t) * (1 - s) + (1 - s) ^ 2 = q at *
    have h1 := abs_mul (1 - r) m₁
    have h2 := abs_mul (1 - q) m₀
    have h3 := mul_le_mul_of_nonneg_left hm1 (abs_nonneg (1 - r))
    have h4 := mul_le_mul_of_nonneg_left hm0 (abs_nonneg (1 - q))
    have h5 : |1 - r| + |1 - q| ≤ 3 := by
      rcases abs_cases (1 - r) with ⟨e, _⟩ | ⟨e, _⟩ <;> rcases abs_cases (1 - q) with ⟨e', _⟩ | ⟨e', _⟩ <;>
        rw [e, e'] <;> linarith
    have h6 := mul_le_mul_of_nonneg_right h5 hM
    have h7 := le_abs_self ((1 - r) * m₁)
    have h8 := neg_abs_le ((1 - q) * m₀)
    linarith
  have hG2 : 0 ≤ (x₁ - x₀) ^ 2 / 6 := by positivity
  have h1 := mul_le_mul_of_nonneg_left key hG2
  have h2 : 0 ≤ y₁ - y₀ - (x₁ - x₀) ^ 2 / 6 *
      ((1 - (t ^ 2 + t * s + s ^ 2)) * m₁ - (1 - ((1 - t) ^ 2 + (1 - t) * (1 - s) + (1 - s) ^ 2)) * m₀) := by linarith
  have h3 := mul_nonneg (sub_nonneg.2 ts) h2
  linarith

end NaturalCubic

end Qlab
