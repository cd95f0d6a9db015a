import Verif.Lemmas.Hermite
import Mathlib.Tactic.Linarith
import Mathlib.Tactic.FunProp

/-! # Catmull-Rom segments -/

namespace Qlab

open Spec

/-- Value of the first segment, with `t` the position in the segment. -/
def crFirst {K : Type} [Field K] (x₀ y₀ x₁ y₁ x₂ y₂ x : K) : K :=
  let t := (x - x₀) / (x₁ - x₀)
  let b := (x₁ - x₀) / ((x₁ - x₀) + (x₂ - x₁))
  y₀ + t * (y₁ - y₀) + (t ^ 3 - t ^ 2) * ((1 - b) * y₀ - y₁ + b * y₂)

/-- Value of the last segment. -/
def crLast {K : Type} [Field K] (xp yp x₀ y₀ x₁ y₁ x : K) : K :=
  let t := (x - x₀) / (x₁ - x₀)
  let a := (x₁ - x₀) / ((x₁ - x₀) + (x₁ - xp))
  y₀ + t * a * (y₁ - yp) + t ^ 2 * (2 * a * yp - 2 * y₀ + (2 - 2 * a) * y₁) + t ^ 3 * (-a * yp + y₀ - a * y₁)

/-- Value of an interior segment. -/
def crInner {K : Type} [Field K] (xp yp x₀ y₀ x₁ y₁ x₂ y₂ x : K) : K :=
  let t := (x - x₀) / (x₁ - x₀)
  let a := (x₁ - x₀) / ((x₁ - x₀) + (x₁ - xp))
  let b := (x₁ - x₀) / ((x₁ - x₀) + (x₂ - x₁))
  y₀ + t * a * (y₁ - yp) + t ^ 2 * (2 * a * yp + (b - 3) * y₀ + (3 - 2 * a) * y₁ - b * y₂) +
    t ^ 3 * (-a * yp + (2 - b) * y₀ + (-2 + a) * y₁ + b * y₂)

/-- Value of segment `i` of the spline through `pts`. -/
def crSegment {K : Type} [Field K] (pts : List (K × K)) (i : Nat) (hi : i + 1 < pts.length)
    (h3 : 3 ≤ pts.length) (x : K) : K :=
  if h0 : i = 0 then
    crFirst (pts[0]).1 (pts[0]).2 (pts[1]).1 (pts[1]).2 (pts[2]).1 (pts[2]).2 x
  else if hl : i + 2 = pts.length then
    crLast pts[i - 1].1 pts[i - 1].2 pts[i].1 pts[i].2 pts[i + 1].1 pts[i + 1].2 x
  else
    crInner pts[i - 1].1 pts[i - 1].2 pts[i].1 pts[i].2 pts[i + 1].1 pts[i + 1].2
      (pts[i + 2]'(by omega)).1 (pts[i + 2]'(by omega)).2 x

section
variable {K : Type} [Field K] [LinearOrder K]

omit [LinearOrder K] in
theorem crSegment_left (pts : List (K × K)) (i : Nat) (hi : i + 1 < pts.length) (h3 : 3 ≤ pts.length) :
    crSegment pts i hi h3 pts[i].1 = pts[i].2 := by
  unfold crSegment
  split_ifs with h0 hl
  · subst h0; simp [crFirst]
  · simp [crLast]
  · simp [crInner]

/-- The right end value, except on the last segment. -/
theorem crSegment_right (pts : List (K × K)) (hs : StrictlyIncreasing pts) (i : Nat) (hi : i + 2 < pts.length)
    (h3 : 3 ≤ pts.length) : crSegment pts i (by omega) h3 pts[i + 1].1 = pts[i + 1].2 := by
  have hlt := List.pairwise_iff_getElem.1 hs i (i + 1) (by omega) (by omega) (by omega)
  have hne : pts[i + 1].1 - pts[i].1 ≠ 0 := sub_ne_zero.2 (ne_of_gt hlt)
  unfold crSegment
  split_ifs with h0 hl
  · subst h0
    simp only [crFirst, div_self hne, Nat.zero_add]; ring
  · omega
  · simp only [crInner, div_self hne]; ring

variable [FromInt K] [ExactCast K]

omit [ExactCast K] in
theorem evaluate_catmullRom_eq {pts : List (K × K)} (h3 : 3 ≤ pts.length) (hs : NeverDecreasing pts) (x : K) :
    evaluate (Interpolator.catmullRom K) pts x = CatmullRom.tryValue ⟨pts.map fun p => ⟨p.1, p.2⟩⟩ x := by
  match pts, h3, hs with
  | p :: ps, h3, hs =>
    have hc := (CatmullRom.collect_eq p.1 p.2 (p :: ps)).1 ((neverDecreasing_cons_self p ps).2 hs)
    unfold evaluate Interpolator.catmullRom CatmullRom.tryFit
    simp only [if_neg (show ¬ (p :: ps).length < 3 by omega),
      Rust.index_of_lt (l := p :: ps) (i := 0) (by simp), List.getElem_cons_zero, Rust.ok_bind, hc, Rust.pure_eq]

/-- What is computed once the index is known. -/
theorem catmullRom_of_index {pts : List (K × K)} (h3 : 3 ≤ pts.length) {i : Nat} (hi : i + 1 < pts.length) {x : K}
    (hf : findIndexAtLeftBoundary (pts.map fun p => (⟨p.1, p.2⟩ : Point2D K)) x = .ok i) :
    CatmullRom.tryValue ⟨pts.map fun p => ⟨p.1, p.2⟩⟩ x = .ok (.ok (crSegment pts i hi h3 x)) := by
  have idx : ∀ j (hj : j < pts.length), Rust.index (pts.map fun p => (⟨p.1, p.2⟩ : Point2D K)) j =
      .ok ⟨pts[j].1, pts[j].2⟩ := by
    intro j hj
    rw [Rust.index_of_lt (by simpa using hj)]
    simp
  unfold CatmullRom.tryValue crSegment
  simp only [hf, idx i (by omega), idx (i + 1) hi, Rust.ok_bind, List.length_map]
  by_cases h0 : i = 0
  · subst h0
    simp only [idx 2 (by omega), Rust.ok_bind, Rust.pure_eq, if_true, dif_pos, Nat.zero_add, Vec4.dot,
      Mat4.mulVec, crFirst]
    congr 2
    ring
  · simp only [h0, if_false, dite_false]
    by_cases hl : i + 2 = pts.length
    · simp only [hl, if_true, dite_true, idx (i - 1) (by omega), Rust.ok_bind, fromI8_exact, Rust.pure_eq,
        Vec4.dot, Mat4.mulVec, crLast]
      congr 2
      push_cast
      ring
    · simp only [hl, if_false, dite_false, idx (i - 1) (by omega), idx (i + 2) (by omega), Rust.ok_bind,
        fromI8_exact, Rust.pure_eq, Vec4.dot, Mat4.mulVec, crInner]
      congr 2
      push_cast
      ring

/-- Value on a closed bracket. -/
theorem catmullRom_segment {pts : List (K × K)} (hs : StrictlyIncreasing pts) (h3 : 3 ≤ pts.length) {i : Nat}
    (hi : i + 1 < pts.length) {x : K} (h0 : pts[i].1 ≤ x) (h1 : x ≤ pts[i + 1].1) :
    evaluate (Interpolator.catmullRom K) pts x = .ok (.ok (crSegment pts i hi h3 x)) := by
  rw [evaluate_catmullRom_eq h3 (neverDecreasing_of_strict hs)]
  have hs' : (pts.map fun p => (⟨p.1, p.2⟩ : Point2D K)).Pairwise
      fun p q => (HasX.x p : K) < HasX.x q := pairwise_map_point.2 hs
  have hx : ∀ j (hj : j < pts.length),
      (HasX.x ((pts.map fun p => (⟨p.1, p.2⟩ : Point2D K))[j]'(by simpa using hj)) : K) = pts[j].1 := by
    intro j hj; simp only [List.getElem_map]; rfl
  rcases findIndex_closed hs' (i := i) (x := x) (by simpa using hi) (by rw [hx i (by omega)]; exact h0)
    (by rw [hx (i + 1) hi]; exact h1) with hf | ⟨hpos, hxe, hf⟩
  · exact catmullRom_of_index h3 hi hf
  · rw [hx i (by omega)] at hxe
    obtain ⟨j, rfl⟩ : ∃ j, i = j + 1 := ⟨i - 1, by omega⟩
    simp only [Nat.add_sub_cancel] at hf
    rw [catmullRom_of_index h3 (by omega) hf, hxe, crSegment_left, crSegment_right pts hs j (by omega) h3]

omit [ExactCast K] in
/-- Errors outside the range. -/
theorem catmullRom_outside {pts : List (K × K)} (hs : StrictlyIncreasing pts) (h3 : 3 ≤ pts.length) (x : K) :
    (BelowAll pts x → evaluate (Interpolator.catmullRom K) pts x = .ok (.error (.outOfLowerBound x))) ∧
    (AboveAll pts x → evaluate (Interpolator.catmullRom K) pts x = .ok (.error (.outOfUpperBound x))) := by
  have hs' : (pts.map fun p => (⟨p.1, p.2⟩ : Point2D K)).Pairwise
      fun p q => (HasX.x p : K) ≤ HasX.x q := pairwise_map_point.2 (hs.imp le_of_lt)
  have hpos : 0 < pts.length := by omega
  constructor
  · intro hb
    rw [evaluate_catmullRom_eq h3 (neverDecreasing_of_strict hs)]
    unfold CatmullRom.tryValue
    have : findIndexAtLeftBoundary (pts.map fun p => (⟨p.1, p.2⟩ : Point2D K)) x = .error (.outOfLowerBound x) := by
      refine findIndex_lower' hs' (by simpa using hpos) ?_
      simp only [List.getElem_map]
      exact hb _ (List.getElem_mem hpos)
    simp only [this]
  · intro ha
    rw [evaluate_catmullRom_eq h3 (neverDecreasing_of_strict hs)]
    unfold CatmullRom.tryValue
    have : findIndexAtLeftBoundary (pts.map fun p => (⟨p.1, p.2⟩ : Point2D K)) x = .error (.outOfUpperBound x) := by
      refine findIndex_upper hs' (by simpa using hpos) ?_
      simp only [List.getElem_map]
      exact ha _ (List.getElem_mem (by simp; omega))
    simp only [this]

end

end Qlab

namespace Qlab

open Spec

/-! ## Calculus -/

/-- Derivative of a cubic in the segment position. -/
theorem hasDerivAt_cubic_position (c₀ c₁ c₂ c₃ p h x : ℝ) :
    HasDerivAt (fun z => c₀ + c₁ * ((z - p) / h) + c₂ * ((z - p) / h) ^ 2 + c₃ * ((z - p) / h) ^ 3)
      ((c₁ + 2 * c₂ * ((x - p) / h) + 3 * c₃ * ((x - p) / h) ^ 2) / h) x := by
  have ht : HasDerivAt (fun z => (z - p) / h) (1 / h) x := ((hasDerivAt_id x).sub_const p).div_const _
  have := ((((ht.const_mul c₁).const_add c₀).add ((ht.pow 2).const_mul c₂))).add ((ht.pow 3).const_mul c₃)
  refine this.congr_deriv ?_
  simp only [Nat.cast_ofNat]
  ring

theorem crSegment_continuous (pts : List (ℝ × ℝ)) (i : Nat) (hi : i + 1 < pts.length) (h3 : 3 ≤ pts.length) :
    Continuous (crSegment pts i hi h3) := by
  unfold crSegment
  split_ifs
  · unfold crFirst; fun_prop
  · unfold crLast; fun_prop
  · unfold crInner; fun_prop

/-- Slope at the left end of every segment but the first. -/
theorem crSegment_deriv_left (pts : List (ℝ × ℝ)) (hs : StrictlyIncreasing pts) (i : Nat) (hi : i + 2 < pts.length)
    (h3 : 3 ≤ pts.length) :
    HasDerivAt (crSegment pts (i + 1) hi h3)
      ((pts[i + 2].2 - pts[i].2) / ((pts[i + 2].1 - pts[i + 1].1) + (pts[i + 2].1 - pts[i].1))) pts[i + 1].1 := by
  have pw := List.pairwise_iff_getElem.1 hs
  have hlt := pw (i + 1) (i + 2) (by omega) (by omega) (by omega)
  have hne : pts[i + 2].1 - pts[i + 1].1 ≠ 0 := sub_ne_zero.2 (ne_of_gt hlt)
  have hlt2 := pw i (i + 1) (by omega) (by omega) (by omega)
  have hpos : 0 < (pts[i + 2].1 - pts[i + 1].1) + (pts[i + 2].1 - pts[i].1) := by linarith
  by_cases hl : i + 1 + 2 = pts.length
  · have he : crSegment pts (i + 1) hi h3 = crLast pts[i].1 pts[i].2 pts[i + 1].1 pts[i + 1].2 pts[i + 2].1
        pts[i + 2].2 := by
      funext z; unfold crSegment; simp [hl]
    rw [he]
    have := hasDerivAt_cubic_position pts[i + 1].2
      ((pts[i + 2].1 - pts[i + 1].1) / ((pts[i + 2].1 - pts[i + 1].1) + (pts[i + 2].1 - pts[i].1)) *
        (pts[i + 2].2 - pts[i].2))
      (2 * ((pts[i + 2].1 - pts[i + 1].1) / ((pts[i + 2].1 - pts[i + 1].1) + (pts[i + 2].1 - pts[i].1))) * pts[i].2
        - 2 * pts[i + 1].2 +
        (2 - 2 * ((pts[i + 2].1 - pts[i + 1].1) / ((pts[i + 2].1 - pts[i + 1].1) + (pts[i + 2].1 - pts[i].1)))) *
          pts[i + 2].2)
      (-((pts[i + 2].1 - pts[i + 1].1) / ((pts[i + 2].1 - pts[i + 1].1) + (pts[i + 2].1 - pts[i].1))) * pts[i].2
        + pts[i + 1].2 -
        ((pts[i + 2].1 - pts[i + 1].1) / ((pts[i + 2].1 - pts[i + 1].1) + (pts[i + 2].1 - pts[i].1))) * pts[i + 2].2)
      pts[i + 1].1 (pts[i + 2].1 - pts[i + 1].1) pts[i + 1].1
    refine HasDerivAt.congr_of_eventuallyEq (this.congr_deriv ?_) (Filter.Eventually.of_forall fun z => ?_)
    · simp only [sub_self, zero_div]
      field_simp
      ring
    · simp only [crLast]; ring
  · have he : crSegment pts (i + 1) hi h3 = crInner pts[i].1 pts[i].2 pts[i + 1].1 pts[i + 1].2 pts[i + 2].1
        pts[i + 2].2 (pts[i + 3]'(by omega)).1 (pts[i + 3]'(by omega)).2 := by
      funext z; unfold crSegment; simp [hl]
    rw [he]
    generalize (pts[i + 3]'(by omega)).1 = x₃
    generalize (pts[i + 3]'(by omega)).2 = y₃
    have := hasDerivAt_cubic_position pts[i + 1].2
      ((pts[i + 2].1 - pts[i + 1].1) / ((pts[i + 2].1 - pts[i + 1].1) + (pts[i + 2].1 - pts[i].1)) *
        (pts[i + 2].2 - pts[i].2))
      (2 * ((pts[i + 2].1 - pts[i + 1].1) / ((pts[i + 2].1 - pts[i + 1].1) + (pts[i + 2].1 - pts[i].1))) * pts[i].2
        + ((pts[i + 2].1 - pts[i + 1].1) / ((pts[i + 2].1 - pts[i + 1].1) + (x₃ - pts[i + 2].1)) - 3) * pts[i + 1].2 +
        (3 - 2 * ((pts[i + 2].1 - pts[i + 1].1) / ((pts[i + 2].1 - pts[i + 1].1) + (pts[i + 2].1 - pts[i].1)))) *
          pts[i + 2].2 - (pts[i + 2].1 - pts[i + 1].1) / ((pts[i + 2].1 - pts[i + 1].1) + (x₃ - pts[i + 2].1)) * y₃)
      (-((pts[i + 2].1 - pts[i + 1].1) / ((pts[i + 2].1 - pts[i + 1].1) + (pts[i + 2].1 - pts[i].1))) * pts[i].2
        + (2 - (pts[i + 2].1 - pts[i + 1].1) / ((pts[i + 2].1 - pts[i + 1].1) + (x₃ - pts[i + 2].1))) * pts[i + 1].2 +
        (-2 + (pts[i + 2].1 - pts[i + 1].1) / ((pts[i + 2].1 - pts[i + 1].1) + (pts[i + 2].1 - pts[i].1)))
          * pts[i + 2].2 + (pts[i + 2].1 - pts[i + 1].1) / ((pts[i + 2].1 - pts[i + 1].1) + (x₃ - pts[i + 2].1)) * y₃)
      pts[i + 1].1 (pts[i + 2].1 - pts[i + 1].1) pts[i + 1].1
    refine HasDerivAt.congr_of_eventuallyEq (this.congr_deriv ?_) (Filter.Eventually.of_forall fun z => ?_)
    · simp only [sub_self, zero_div]
      field_simp
      ring
    · simp only [crInner]; ring

/-- Slope at the right end of every segment but the last: the central difference. -/
theorem crSegment_deriv_right (pts : List (ℝ × ℝ)) (hs : StrictlyIncreasing pts) (i : Nat)
    (hi : i + 2 < pts.length) (h3 : 3 ≤ pts.length) :
    HasDerivAt (crSegment pts i (by omega) h3)
      ((pts[i + 2].2 - pts[i].2) / (pts[i + 2].1 - pts[i].1)) pts[i + 1].1 := by
  have pw := List.pairwise_iff_getElem.1 hs
  have hlt := pw i (i + 1) (by omega) (by omega) (by omega)
  have hne : pts[i + 1].1 - pts[i].1 ≠ 0 := sub_ne_zero.2 (ne_of_gt hlt)
  have hlt2 := pw i (i + 2) (by omega) (by omega) (by omega)
  have hne2 : pts[i + 2].1 - pts[i].1 ≠ 0 := sub_ne_zero.2 (ne_of_gt hlt2)
  have hb : (pts[i + 1].1 - pts[i].1) + (pts[i + 2].1 - pts[i + 1].1) = pts[i + 2].1 - pts[i].1 := by ring
  by_cases h0 : i = 0
  · subst h0
    have he : crSegment pts 0 (by omega) h3 = crFirst (pts[0]).1 (pts[0]).2 (pts[1]).1 (pts[1]).2 (pts[2]).1
        (pts[2]).2 := by
      funext z; unfold crSegment; simp
    rw [he]
    simp only [Nat.zero_add] at *
    have := hasDerivAt_cubic_position (pts[0]).2 ((pts[1]).2 - (pts[0]).2)
      (-((1 - ((pts[1]).1 - (pts[0]).1) / ((pts[2]).1 - (pts[0]).1)) * (pts[0]).2 - (pts[1]).2 +
        ((pts[1]).1 - (pts[0]).1) / ((pts[2]).1 - (pts[0]).1) * (pts[2]).2))
      ((1 - ((pts[1]).1 - (pts[0]).1) / ((pts[2]).1 - (pts[0]).1)) * (pts[0]).2 - (pts[1]).2 +
        ((pts[1]).1 - (pts[0]).1) / ((pts[2]).1 - (pts[0]).1) * (pts[2]).2)
      (pts[0]).1 ((pts[1]).1 - (pts[0]).1) (pts[1]).1
    refine HasDerivAt.congr_of_eventuallyEq (this.congr_deriv ?_) (Filter.Eventually.of_forall fun z => ?_)
    · rw [div_self hne]
      field_simp
      ring
    · simp only [crFirst, hb]; ring
  · obtain ⟨j, rfl⟩ : ∃ j, i = j + 1 := ⟨i - 1, by omega⟩
    have he : crSegment pts (j + 1) (by omega) h3 = crInner pts[j].1 pts[j].2 pts[j + 1].1 pts[j + 1].2
        pts[j + 1 + 1].1 pts[j + 1 + 1].2 pts[j + 1 + 2].1 pts[j + 1 + 2].2 := by
      funext z; unfold crSegment; simp [show j + 1 + 2 ≠ pts.length by omega]
    rw [he]
    generalize hA : (pts[j + 1 + 1].1 - pts[j + 1].1) /
      ((pts[j + 1 + 1].1 - pts[j + 1].1) + (pts[j + 1 + 1].1 - pts[j].1)) = A
    have := hasDerivAt_cubic_position pts[j + 1].2 (A * (pts[j + 1 + 1].2 - pts[j].2))
      (2 * A * pts[j].2 + ((pts[j + 1 + 1].1 - pts[j + 1].1) / (pts[j + 1 + 2].1 - pts[j + 1].1) - 3) * pts[j + 1].2 +
        (3 - 2 * A) * pts[j + 1 + 1].2 -
        (pts[j + 1 + 1].1 - pts[j + 1].1) / (pts[j + 1 + 2].1 - pts[j + 1].1) * pts[j + 1 + 2].2)
      (-A * pts[j].2 + (2 - (pts[j + 1 + 1].1 - pts[j + 1].1) / (pts[j + 1 + 2].1 - pts[j + 1].1)) * pts[j + 1].2 +
        (-2 + A) * pts[j + 1 + 1].2 +
        (pts[j + 1 + 1].1 - pts[j + 1].1) / (pts[j + 1 + 2].1 - pts[j + 1].1) * pts[j + 1 + 2].2)
      pts[j + 1].1 (pts[j + 1 + 1].1 - pts[j + 1].1) pts[j + 1 + 1].1
    refine HasDerivAt.congr_of_eventuallyEq (this.congr_deriv ?_) (Filter.Eventually.of_forall fun z => ?_)
    · rw [div_self hne]
      field_simp
      ring
    · simp only [crInner, hb, hA]; ring

end Qlab
