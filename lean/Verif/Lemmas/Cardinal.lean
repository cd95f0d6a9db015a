import Verif.Lemmas.NaturalBounds
import Mathlib.Algebra.Ring.Parity
import Mathlib.Tactic.FieldSimp
import Mathlib.Tactic.Ring
import Mathlib.Tactic.Positivity

/-! # Signs of the natural cubic spline whose ordinates are zero but for one -/

namespace Qlab

namespace NaturalCubic

section scalar
variable {K : Type} [Field K] [LinearOrder K] [IsStrictOrderedRing K]

/-- Weight of the second derivatives in a segment of width `h`, at distance `u` from the other end. -/
def bend (h u : K) : K := u * (h ^ 2 - u ^ 2) / (6 * h)

theorem cubic_bend {x₀ y₀ m₀ x₁ y₁ m₁ x : K} (h : x₀ < x₁) : cubic x₀ y₀ m₀ x₁ y₁ m₁ x =
    y₀ * (x₁ - x) / (x₁ - x₀) + y₁ * (x - x₀) / (x₁ - x₀) - m₀ * bend (x₁ - x₀) (x₁ - x) - m₁ * bend (x₁ - x₀) (x - x₀) := by
  have : x₁ - x₀ ≠ 0 := by linarith [sub_pos.2 h]
  unfold cubic bend
  field_simp
  ring

theorem bend_diff {h u A B : K} (hh : 0 < h) : A * bend h (h - u) - B * bend h u =
    u * (h - u) / (6 * h) * (A * (2 * h - u) - B * (h + u)) := by
  unfold bend
  field_simp
  ring

theorem bend_pos {h u A B : K} (h0 : 0 < u) (h1 : u < h) (hA : 0 < A) (hB : 2 * B ≤ A) :
    0 < A * bend h (h - u) - B * bend h u := by
  have hh : 0 < h := h0.trans h1
  rw [bend_diff hh]
  have : 0 < h - u := by linarith
  refine mul_pos (by positivity) ?_
  nlinarith

theorem bend_neg {h u A B : K} (h0 : 0 < u) (h1 : u < h) (hB : 0 < B) (hA : 2 * A ≤ B) :
    A * bend h (h - u) - B * bend h u < 0 := by
  have hh : 0 < h := h0.trans h1
  rw [bend_diff hh]
  have : 0 < h - u := by linarith
  refine mul_neg_of_pos_of_neg (by positivity) ?_
  nlinarith

theorem bend_left {h u A B δ : K} (h0 : 0 < u) (h1 : u < h) (hδ : 0 < δ) (hA : 0 ≤ A) (hB : B ≤ 3 * δ / h ^ 2 + A / 2) :
    0 < δ * (h - u) / h + (A * bend h (h - u) - B * bend h u) := by
  have hh : 0 < h := h0.trans h1
  rw [bend_diff hh]
  have hs : 0 < h - u := by linarith
  have e : δ * (h - u) / h + u * (h - u) / (6 * h) * (A * (2 * h - u) - B * (h + u)) =
      (h - u) / h * (δ + u / 6 * (A * (2 * h - u) - B * (h + u))) := by
    field_simp
  rw [e]
  refine mul_pos (by positivity) ?_
  have hB' := mul_le_mul_of_nonneg_right hB (show 0 ≤ u / 6 * (h + u) by positivity)
  have key : 0 < δ - 3 * δ / h ^ 2 * (u / 6 * (h + u)) := by
    have : δ - 3 * δ / h ^ 2 * (u / 6 * (h + u)) = δ / (2 * h ^ 2) * ((h - u) * (2 * h + u)) := by
      field_simp
      ring
    rw [this]
    positivity
  have key2 : 0 ≤ A * (u * (h - u)) := by positivity
  nlinarith

theorem bend_right {h u A B δ : K} (h0 : 0 < u) (h1 : u < h) (hδ : 0 < δ) (hB : 0 ≤ B) (hA : A ≤ 3 * δ / h ^ 2 + B / 2) :
    0 < δ * u / h - (A * bend h (h - u) - B * bend h u) := by
  have := bend_left (h := h) (u := h - u) (A := B) (B := A) (by linarith) (by linarith) hδ hB hA
  rw [sub_sub_cancel] at this
  linarith

end scalar

section sequences
variable {K : Type} [Field K] [LinearOrder K] [IsStrictOrderedRing K]

/-- Elimination for one ordinate `δ` at node `k`, all signs made positive. -/
structure Cardinal (n k : Nat) (δ : K) (g P c B Y X : Nat → K) : Prop where
  gap : ∀ i, i + 1 < n → 0 < g i
  pivot : ∀ i, i + 2 < n → g i / 4 + g (i + 1) / 3 ≤ P i
  first : P 0 = (g 0 + g 1) / 3
  next : ∀ i, i + 3 < n → P (i + 1) = (g (i + 1) + g (i + 2)) / 3 - g (i + 1) / 6 * c i
  mult : ∀ i, i + 2 < n → P i * c i = g (i + 1) / 6
  rhs : ∀ i, i + 2 < n → B i = if i + 2 = k then δ / g (i + 1) else if i + 1 = k then δ / g i + δ / g (i + 1) else
    if i = k then δ / g i else 0
  start : P 0 * Y 0 = B 0
  sweep : ∀ i, i + 3 < n → P (i + 1) * Y (i + 1) = B (i + 1) + g (i + 1) / 6 * Y i
  back : ∀ i, i + 4 < n → X i = Y i + c i * X (i + 1)
  stop : ∀ i, n ≤ i + 4 → X i = Y i

namespace Cardinal
variable {n k : Nat} {δ : K} {g P c B Y X : Nat → K}

theorem piv_pos (H : Cardinal n k δ g P c B Y X) {i : Nat} (hi : i + 2 < n) : 0 < P i := by
  have := H.pivot i hi
  have := H.gap i (by omega)
  have := H.gap (i + 1) (by omega)
  linarith

theorem mult_bounds (H : Cardinal n k δ g P c B Y X) {i : Nat} (hi : i + 2 < n) : 0 < c i ∧ 2 * c i < 1 := by
  have h1 := H.pivot i hi
  have h2 := H.gap i (by omega)
  have h3 := H.gap (i + 1) (by omega)
  have h4 := H.piv_pos hi
  have h5 := H.mult i hi
  constructor
  · by_contra hc
    have := mul_nonpos_of_nonneg_of_nonpos h4.le (not_lt.1 hc)
    linarith
  · by_contra hc
    have := mul_le_mul_of_nonneg_left (not_lt.1 hc) h4.le
    linarith

theorem rhs_nonneg (H : Cardinal n k δ g P c B Y X) (hδ : 0 < δ) {i : Nat} (hi : i + 2 < n) : 0 ≤ B i := by
  have h2 := H.gap i (by omega)
  have h3 := H.gap (i + 1) (by omega)
  rw [H.rhs i hi]
  split_ifs <;> positivity

omit [IsStrictOrderedRing K] in
theorem rhs_zero (H : Cardinal n k δ g P c B Y X) {i : Nat} (hi : i + 2 < n) (h : i + 2 < k ∨ k < i) : B i = 0 := by
  rw [H.rhs i hi, if_neg (by omega), if_neg (by omega), if_neg (by omega)]

theorem sweep_signs (H : Cardinal n k δ g P c B Y X) (hδ : 0 < δ) (i : Nat) (hi : i + 2 < n) :
    0 ≤ Y i ∧ (i + 2 < k → Y i = 0) ∧ (k ≤ i + 2 → 0 < Y i) := by
  have hP := H.piv_pos hi
  have h2 := H.gap i (by omega)
  have h3 := H.gap (i + 1) (by omega)
  have zero : P i * Y i = 0 → Y i = 0 := fun h => (mul_eq_zero.1 h).resolve_left hP.ne'
  have pos : 0 < P i * Y i → 0 < Y i := fun h => pos_of_mul_pos_right h hP.le
  have fin : (i + 2 < k → P i * Y i = 0) → (k ≤ i + 2 → 0 < P i * Y i) →
      0 ≤ Y i ∧ (i + 2 < k → Y i = 0) ∧ (k ≤ i + 2 → 0 < Y i) := by
    intro ha hb
    refine ⟨?_, fun h => zero (ha h), fun h => pos (hb h)⟩
    rcases Nat.lt_or_ge (i + 2) k with h | h
    · exact (zero (ha h)).ge
    · exact (pos (hb h)).le
  induction i with
  | zero =>
    refine fin (fun h => ?_) fun h => ?_
    · rw [H.start, H.rhs_zero hi (.inl h)]
    · rw [H.start, H.rhs 0 hi]
      have : k = 2 ∨ k = 1 ∨ k = 0 := by omega
      rcases this with rfl | rfl | rfl
      · simpa using div_pos hδ h3
      · simpa using add_pos (div_pos hδ h2) (div_pos hδ h3)
      · simpa using div_pos hδ h2
  | succ i ih =>
    have hi' : i + 2 < n := by omega
    have g0 := H.gap i (by omega)
    obtain ⟨i1, i2, i3⟩ := ih hi' (H.piv_pos hi') g0 h2 (fun h => (mul_eq_zero.1 h).resolve_left (H.piv_pos hi').ne')
      (fun h => pos_of_mul_pos_right h (H.piv_pos hi').le) (fun ha hb => by
        refine ⟨?_, fun h => (mul_eq_zero.1 (ha h)).resolve_left (H.piv_pos hi').ne', fun h =>
          pos_of_mul_pos_right (hb h) (H.piv_pos hi').le⟩
        rcases Nat.lt_or_ge (i + 2) k with h | h
        · exact ((mul_eq_zero.1 (ha h)).resolve_left (H.piv_pos hi').ne').ge
        · exact (pos_of_mul_pos_right (hb h) (H.piv_pos hi').le).le)
    have hB := H.rhs_nonneg hδ hi
    refine fin (fun h => ?_) fun h => ?_
    · rw [H.sweep i (by omega), H.rhs_zero hi (.inl h), i2 (by omega), mul_zero, add_zero]
    · rw [H.sweep i (by omega)]
      rcases Nat.lt_or_ge (i + 2) k with h' | h'
      · have e : i + 1 + 2 = k := by omega
        rw [H.rhs (i + 1) hi, if_pos e, i2 h', mul_zero, add_zero]
        exact div_pos hδ h3
      · have := mul_pos (show 0 < g (i + 1) / 6 by linarith) (i3 h')
        linarith

theorem curv_nonneg (H : Cardinal n k δ g P c B Y X) (hδ : 0 < δ) (i : Nat) (hi : i + 2 < n) : 0 ≤ X i := by
  rcases Nat.lt_or_ge (i + 4) n with h | h
  · rw [H.back i h]
    have := H.curv_nonneg hδ (i + 1) (by omega)
    exact add_nonneg (H.sweep_signs hδ i hi).1 (mul_nonneg (H.mult_bounds hi).1.le this)
  · rw [H.stop i h]; exact (H.sweep_signs hδ i hi).1
termination_by n - i

theorem curv_pos (H : Cardinal n k δ g P c B Y X) (hδ : 0 < δ) (i : Nat) (hi : i + 2 < n) (hk : k ≤ i + 2 ∨ k + 1 < n) :
    0 < X i := by
  have hs := H.sweep_signs hδ i hi
  rcases Nat.lt_or_ge (i + 4) n with h | h
  · rw [H.back i h]
    have hc := (H.mult_bounds hi).1
    rcases Nat.lt_or_ge (i + 2) k with h' | h'
    · have := H.curv_pos hδ (i + 1) (by omega) (.inr (by omega))
      exact add_pos_of_nonneg_of_pos hs.1 (mul_pos hc this)
    · exact add_pos_of_pos_of_nonneg (hs.2.2 h') (mul_nonneg hc.le (H.curv_nonneg hδ (i + 1) (by omega)))
  · rw [H.stop i h]; exact hs.2.2 (by omega)
termination_by n - i

theorem curv_zero (H : Cardinal n k δ g P c B Y X) (hδ : 0 < δ) (i : Nat) (hi : i + 3 < n) (hk : k + 1 = n) : X i = 0 := by
  have hs := (H.sweep_signs hδ i (by omega)).2.1 (by omega)
  rcases Nat.lt_or_ge (i + 4) n with h | h
  · rw [H.back i h, hs, H.curv_zero hδ (i + 1) (by omega) hk, mul_zero, add_zero]
  · rw [H.stop i h, hs]
termination_by n - i

/-- The row of node `i + 1`, up to the last but one. -/
theorem row (H : Cardinal n k δ g P c B Y X) (i : Nat) (hi : i + 4 ≤ n) :
    (g i + g (i + 1)) / 3 * X i = B i + (if i = 0 then 0 else g i / 6 * X (i - 1)) +
      g (i + 1) / 6 * (if i + 4 < n then X (i + 1) else 0) := by
  have hX : X i = Y i + c i * (if i + 4 < n then X (i + 1) else 0) := by
    split_ifs with h
    · exact H.back i h
    · rw [H.stop i (by omega), mul_zero, add_zero]
  have hm := H.mult i (by omega)
  rcases i with _ | i
  · have := H.start
    have hf := H.first
    rw [if_pos rfl, ← hm, ← hf, hX]
    linear_combination this
  · have hs := H.sweep i (by omega)
    have hn := H.next i (by omega)
    have hb := H.back i (by omega)
    rw [if_neg (by omega), Nat.add_sub_cancel, ← hm, hb]
    generalize (if i + 1 + 4 < n then X (i + 1 + 1) else 0) = z at *
    rw [hX]
    have e : (g (i + 1) + g (i + 1 + 1)) / 3 = P (i + 1) + g (i + 1) / 6 * c i := by rw [hn]; ring
    rw [e]
    linear_combination hs

/-- Away from the node the second derivatives fall by half at each step, up to the last but two. -/
theorem halves (H : Cardinal n k δ g P c B Y X) (hδ : 0 < δ) (i : Nat) (hi : i + 5 ≤ n) (hk : k ≤ i) :
    2 * X (i + 1) ≤ X i := by
  have hr := H.row (i + 1) (by omega)
  rw [H.rhs_zero (by omega) (.inr (by omega)), if_neg (by omega), Nat.add_sub_cancel, zero_add] at hr
  have g1 := H.gap (i + 1) (by omega)
  have g2 := H.gap (i + 2) (by omega)
  have x1 := H.curv_nonneg hδ (i + 1) (by omega)
  have hz : 2 * (if i + 1 + 4 < n then X (i + 1 + 1) else 0) ≤ X (i + 1) := by
    split_ifs with h
    · exact H.halves hδ (i + 1) (by omega) (by omega)
    · linarith
  generalize (if i + 1 + 4 < n then X (i + 1 + 1) else 0) = z at *
  rw [show i + 1 + 1 = i + 2 from rfl] at hr
  have h1 := mul_le_mul_of_nonneg_left hz g2.le
  have h2 := mul_nonneg g2.le x1
  by_contra hc
  have h3 := mul_lt_mul_of_pos_left (not_le.1 hc) g1
  linarith
termination_by n - i

/-- In the segment after the node. -/
theorem after (H : Cardinal n k δ g P c B Y X) (hδ : 0 < δ) (hk : k + 4 ≤ n) :
    X k ≤ 3 * δ / g k ^ 2 + (if k = 0 then 0 else X (k - 1)) / 2 := by
  have hr := H.row k hk
  rw [H.rhs k (by omega), if_neg (by omega), if_neg (by omega), if_pos rfl] at hr
  have g1 := H.gap k (by omega)
  have g2 := H.gap (k + 1) (by omega)
  have x1 := H.curv_nonneg hδ k (by omega)
  have hz : 2 * (if k + 4 < n then X (k + 1) else 0) ≤ X k := by
    split_ifs with h
    · exact H.halves hδ k (by omega) le_rfl
    · linarith
  generalize (if k + 4 < n then X (k + 1) else 0) = z at *
  have e : (if k = 0 then 0 else g k / 6 * X (k - 1)) = g k / 6 * (if k = 0 then 0 else X (k - 1)) := by
    split_ifs <;> simp
  rw [e] at hr
  generalize (if k = 0 then 0 else X (k - 1)) = A at *
  have h1 := mul_le_mul_of_nonneg_left hz g2.le
  have h2 := mul_nonneg g2.le x1
  have h3 : g k / 3 * X k ≤ δ / g k + g k / 6 * A := by linarith
  have h4 : g k / 3 * (3 * δ / g k ^ 2 + A / 2) = δ / g k + g k / 6 * A := by
    field_simp
    ring
  rw [← h4] at h3
  exact le_of_mul_le_mul_left h3 (by linarith)

/-- In the segment before the node. -/
theorem before (H : Cardinal n k δ g P c B Y X) (hδ : 0 < δ) (i : Nat) (hi : i + 2 < n) (hk : i + 2 = k) :
    X i ≤ 3 * δ / g (i + 1) ^ 2 + (if i + 4 < n then X (i + 1) else 0) / 2 := by
  have hP := H.pivot i hi
  have g1 := H.gap i (by omega)
  have g2 := H.gap (i + 1) (by omega)
  have hY : P i * Y i = δ / g (i + 1) := by
    rcases i with _ | i
    · rw [H.start, H.rhs 0 hi, if_pos hk]
    · rw [H.sweep i (by omega), H.rhs _ hi, if_pos hk, (H.sweep_signs hδ i (by omega)).2.1 (by omega), mul_zero, add_zero]
  have y0 := (H.sweep_signs hδ i hi).1
  have h1 : Y i ≤ 3 * δ / g (i + 1) ^ 2 := by
    have e : g (i + 1) / 3 * (3 * δ / g (i + 1) ^ 2) = δ / g (i + 1) := by field_simp
    have : g (i + 1) / 3 * Y i ≤ P i * Y i := mul_le_mul_of_nonneg_right (by linarith) y0
    rw [hY, ← e] at this
    exact le_of_mul_le_mul_left this (by linarith)
  split_ifs with h
  · rw [H.back i h]
    have hc := H.mult_bounds hi
    have := mul_le_mul_of_nonneg_right hc.2.le (H.curv_nonneg hδ (i + 1) (by omega))
    linarith
  · rw [H.stop i (by omega)]
    linarith

/-- Further before the node. -/
theorem far_before (H : Cardinal n k δ g P c B Y X) (hδ : 0 < δ) (i : Nat) (hi : i + 4 < n) (hk : i + 2 < k) :
    2 * X i ≤ X (i + 1) := by
  rw [H.back i hi, (H.sweep_signs hδ i (by omega)).2.1 hk, zero_add]
  have hc := H.mult_bounds (i := i) (by omega)
  have := mul_le_mul_of_nonneg_right hc.2.le (H.curv_nonneg hδ (i + 1) (by omega))
  linarith

end Cardinal

end sequences

end NaturalCubic

end Qlab
