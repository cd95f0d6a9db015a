import Verif.Props.CatmullRom
import Verif.Lemmas.Monotone

/-!
# Catmull-Rom splines through points of a straight line (C56)
-/

namespace Qlab.Props

open Spec

section
variable {K : Type} [Field K] [LinearOrder K] [IsStrictOrderedRing K] [FromInt K] [ExactCast K]

omit [IsStrictOrderedRing K] [FromInt K] [ExactCast K] in
/-- A cubic through two points of a line that leaves the first with another slope. -/
theorem hermiteCubic_line {a b x₀ x₁ m x : K} (h : x₀ < x₁) : hermiteCubic x₀ (a + b * x₀) m x₁ (a + b * x₁) b x =
    a + b * x + (m - b) * (x₁ - x₀) * ((x - x₀) / (x₁ - x₀) * (1 - (x - x₀) / (x₁ - x₀)) ^ 2) := by
  have hne : x₁ - x₀ ≠ 0 := sub_ne_zero.2 h.ne'
  have e : x = x₀ + (x - x₀) / (x₁ - x₀) * (x₁ - x₀) := by rw [div_mul_cancel₀ _ hne]; ring
  have : hermiteCubic x₀ (a + b * x₀) m x₁ (a + b * x₁) b x = a + b * (x₀ + (x - x₀) / (x₁ - x₀) * (x₁ - x₀)) +
      (m - b) * (x₁ - x₀) * ((x - x₀) / (x₁ - x₀) * (1 - (x - x₀) / (x₁ - x₀)) ^ 2) := by
    simp only [hermiteCubic]
    ring
  rw [this, ← e]

omit [FromInt K] [ExactCast K] in
/-- An inner segment that starts with the slope of the code stays off a line that is not level. -/
theorem off_line {a b w x₀ x₁ x : K} (hw : w < x₀) (h0 : x₀ < x) (h1 : x < x₁) :
    a + b * x + ((a + b * x₁ - (a + b * w)) / ((x₁ - x₀) + (x₁ - w)) - b) * (x₁ - x₀) *
      ((x - x₀) / (x₁ - x₀) * (1 - (x - x₀) / (x₁ - x₀)) ^ 2) = a + b * x ↔ b = 0 := by
  have t0 : 0 < (x - x₀) / (x₁ - x₀) := div_pos (by linarith) (by linarith)
  have t1 : (x - x₀) / (x₁ - x₀) < 1 := (div_lt_one (by linarith)).2 (by linarith)
  have hne : (x₁ - x₀) + (x₁ - w) ≠ 0 := ne_of_gt (by linarith)
  have e : (a + b * x₁ - (a + b * w)) / ((x₁ - x₀) + (x₁ - w)) - b = -b * ((x₁ - x₀) / ((x₁ - x₀) + (x₁ - w))) := by
    rw [mul_div_assoc', div_sub' hne]
    congr 1
    ring
  have p1 : (x₁ - x₀) / ((x₁ - x₀) + (x₁ - w)) ≠ 0 := div_ne_zero (ne_of_gt (by linarith)) hne
  have p2 : (1 - (x - x₀) / (x₁ - x₀)) ^ 2 ≠ 0 := pow_ne_zero 2 (ne_of_gt (by linarith))
  have p3 : x₁ - x₀ ≠ 0 := ne_of_gt (by linarith)
  rw [add_eq_left, e]
  simp [p1, p2, p3, t0.ne']

/-- **C56.** Points of a straight line with slope `b`: between the first two of them the Catmull-Rom spline is the line.
Between two inner ones it is the line only if `b = 0`; it meets the line nowhere strictly between the points otherwise. -/
theorem C56_lines_partial (pts : List (K × K)) (hs : StrictlyIncreasing pts) (h3 : 3 ≤ pts.length) (a b : K)
    (hl : ∀ p ∈ pts, p.2 = a + b * p.1) :
    (∀ x, pts[0].1 ≤ x → x ≤ pts[1].1 → evaluate (Interpolator.catmullRom K) pts x = .ok (.ok (a + b * x))) ∧
    ∀ j (hj : j + 3 < pts.length), ∀ x, pts[j + 1].1 < x → x < pts[j + 2].1 →
      (evaluate (Interpolator.catmullRom K) pts x = .ok (.ok (a + b * x)) ↔ b = 0) := by
  have pw := List.pairwise_iff_getElem.1 hs
  have hy : ∀ i (hi : i < pts.length), pts[i].2 = a + b * pts[i].1 := fun i hi => hl _ (List.getElem_mem hi)
  have sl : ∀ i j (hi : i < pts.length) (hj : j < pts.length), i < j →
      (pts[j].2 - pts[i].2) / (pts[j].1 - pts[i].1) = b := by
    intro i j hi hj hij
    have := pw i j hi hj hij
    rw [hy i hi, hy j hj, div_eq_iff (ne_of_gt (by linarith))]
    ring
  constructor
  · intro x h0 h1
    have l0 := pw 0 1 (by omega) (by omega) (by omega)
    rw [catmullRom_segment hs h3 (i := 0) (by omega) h0 h1]
    unfold crSegment
    rw [dif_pos rfl, crFirst_eq l0, show (pts[1].1 - pts[0].1) + (pts[2].1 - pts[1].1) = pts[2].1 - pts[0].1 by ring,
      sl 0 1 (by omega) (by omega) (by omega), sl 0 2 (by omega) (by omega) (by omega), hy 0 (by omega), hy 1 (by omega),
      hermiteCubic_line l0, sub_self, zero_mul, zero_mul, add_zero]
  · intro j hj x h0 h1
    have l1 := pw j (j + 1) (by omega) (by omega) (by omega)
    have l2 := pw (j + 1) (j + 2) (by omega) (by omega) (by omega)
    rw [catmullRom_segment hs h3 (i := j + 1) (by omega) h0.le h1.le]
    unfold crSegment
    rw [dif_neg (by omega), dif_neg (by omega), crInner_eq]
    simp only [Nat.add_sub_cancel]
    rw [show (pts[j + 1 + 1].1 - pts[j + 1].1) + (pts[j + 1 + 2].1 - pts[j + 1 + 1].1) = pts[j + 3].1 - pts[j + 1].1 by ring,
      sl (j + 1) (j + 1 + 2) (by omega) (by omega) (by omega), hy (j + 1) (by omega), hy (j + 1 + 1) (by omega),
      hermiteCubic_line l2, hy j (by omega)]
    rw [Rust.ok.injEq, Except.ok.injEq]
    exact off_line l1 h0 h1

end

/-- The points 0, 1, 2, 3 of `y = x`: the spline has 1/2 at 1/2, but not 3/2 at 3/2. -/
example : evaluate (Interpolator.catmullRom ℚ) [(0, 0), (1, 1), (2, 2), (3, 3)] (1 / 2) = .ok (.ok (1 / 2)) ∧
    evaluate (Interpolator.catmullRom ℚ) [(0, 0), (1, 1), (2, 2), (3, 3)] (3 / 2) ≠ .ok (.ok (3 / 2)) := by
  have := C56_lines_partial ([(0, 0), (1, 1), (2, 2), (3, 3)] : List (ℚ × ℚ)) (by unfold StrictlyIncreasing; norm_num)
    (by simp) 0 1 (by simp)
  refine ⟨?_, ?_⟩
  · have := this.1 (1 / 2) (by norm_num) (by norm_num)
    rw [zero_add, one_mul] at this
    exact this
  · have := (this.2 0 (by simp) (3 / 2) (by norm_num) (by norm_num)).not.2 one_ne_zero
    rw [zero_add, one_mul] at this
    exact this

end Qlab.Props
