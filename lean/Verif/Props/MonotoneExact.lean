import Verif.Props.ConvexExact
import Verif.Props.Monotone

/-!
# Which Hermite and Catmull-Rom splines never fall (C130)
-/

namespace Qlab.Spec

/-- The slopes `m₀` and `m₁` at the ends of a segment fit to the slope `S` of the straight line between them: neither is
negative, and their sum is at most `3 S` or exceeds it by at most the root of their product. -/
def SlopesFit {K : Type} [Field K] [LinearOrder K] (m₀ m₁ S : K) : Prop :=
  0 ≤ m₀ ∧ 0 ≤ m₁ ∧ (m₀ + m₁ ≤ 3 * S ∨ (m₀ + m₁ - 3 * S) ^ 2 ≤ m₀ * m₁)

end Qlab.Spec

namespace Qlab

open Spec

variable {K : Type} [Field K] [LinearOrder K] [IsStrictOrderedRing K]

/-- A quadratic form that is not negative for arguments that are not negative. -/
theorem form_nonneg {m₀ m₁ S : K} (h : SlopesFit m₀ m₁ S) {a b : K} (ha : 0 ≤ a) (hb : 0 ≤ b) :
    0 ≤ m₀ * a ^ 2 + 2 * (3 * S - m₀ - m₁) * (a * b) + m₁ * b ^ 2 := by
  obtain ⟨h0, h1, h2⟩ := h
  rcases h2 with h2 | h2
  · have t1 := mul_nonneg h0 (sq_nonneg a)
    have t2 := mul_nonneg (show 0 ≤ 3 * S - m₀ - m₁ by linarith) (mul_nonneg ha hb)
    have t3 := mul_nonneg h1 (sq_nonneg b)
    linarith
  · rcases h0.eq_or_lt with e | e
    · subst e
      rw [zero_mul] at h2
      have := pow_eq_zero_iff (two_ne_zero) |>.1 (le_antisymm h2 (sq_nonneg (0 + m₁ - 3 * S)))
      have e : 3 * S - 0 - m₁ = 0 := by linarith
      rw [e]
      have := mul_nonneg h1 (sq_nonneg b)
      linarith
    · have t : 0 ≤ m₀ * (m₀ * a ^ 2 + 2 * (3 * S - m₀ - m₁) * (a * b) + m₁ * b ^ 2) := by
        have e1 : m₀ * (m₀ * a ^ 2 + 2 * (3 * S - m₀ - m₁) * (a * b) + m₁ * b ^ 2) =
            (m₀ * a + (3 * S - m₀ - m₁) * b) ^ 2 + (m₀ * m₁ - (m₀ + m₁ - 3 * S) ^ 2) * b ^ 2 := by ring
        rw [e1]
        exact add_nonneg (sq_nonneg _) (mul_nonneg (by linarith) (sq_nonneg _))
      exact nonneg_of_mul_nonneg_right t e

/-- The converse. -/
theorem slopesFit_of_form {m₀ m₁ S : K} (h0 : 0 ≤ m₀) (h1 : 0 ≤ m₁)
    (h : ∀ a b, 0 < a → 0 ≤ b → 0 ≤ m₀ * a ^ 2 + 2 * (3 * S - m₀ - m₁) * (a * b) + m₁ * b ^ 2) : SlopesFit m₀ m₁ S := by
  refine ⟨h0, h1, ?_⟩
  by_contra hc
  rw [not_or, not_le, not_le] at hc
  obtain ⟨hc, hn⟩ := hc
  have hp : 0 < m₀ + m₁ - 3 * S := by linarith
  rcases h0.eq_or_lt with e | e
  · subst e
    have t := h (m₁ + 1) (0 + m₁ - 3 * S) (by linarith) hp.le
    have e1 : 0 * (m₁ + 1) ^ 2 + 2 * (3 * S - 0 - m₁) * ((m₁ + 1) * (0 + m₁ - 3 * S)) + m₁ * (0 + m₁ - 3 * S) ^ 2 =
        -((0 + m₁ - 3 * S) ^ 2 * (m₁ + 2)) := by ring
    rw [e1] at t
    have : 0 < (0 + m₁ - 3 * S) ^ 2 * (m₁ + 2) := mul_pos (by positivity) (by linarith)
    linarith
  · have t := h (m₀ + m₁ - 3 * S) m₀ hp h0
    have e1 : m₀ * (m₀ + m₁ - 3 * S) ^ 2 + 2 * (3 * S - m₀ - m₁) * ((m₀ + m₁ - 3 * S) * m₀) + m₁ * m₀ ^ 2 =
        m₀ * (m₀ * m₁ - (m₀ + m₁ - 3 * S) ^ 2) := by ring
    rw [e1] at t
    have := nonneg_of_mul_nonneg_right t e
    linarith

/-- A Hermite segment never falls exactly when its slopes fit. -/
theorem hermiteCubic_rising_iff {x₀ y₀ m₀ x₁ y₁ m₁ : K} (hlt : x₀ < x₁) :
    (∀ x z, x₀ ≤ x → x ≤ z → z ≤ x₁ → hermiteCubic x₀ y₀ m₀ x₁ y₁ m₁ x ≤ hermiteCubic x₀ y₀ m₀ x₁ y₁ m₁ z) ↔
      SlopesFit m₀ m₁ ((y₁ - y₀) / (x₁ - x₀)) := by
  have hG := sub_pos.2 hlt
  constructor
  · intro h
    have at_u : ∀ u, 0 ≤ u → u < x₁ - x₀ → 0 ≤ m₀ + 2 * ((3 * ((y₁ - y₀) / (x₁ - x₀)) - 2 * m₀ - m₁) / (x₁ - x₀)) * u +
        3 * ((m₀ + m₁ - 2 * ((y₁ - y₀) / (x₁ - x₀))) / (x₁ - x₀) ^ 2) * u ^ 2 := by
      intro u hu0 hu1
      refine nonneg_of_small (b := (3 * ((y₁ - y₀) / (x₁ - x₀)) - 2 * m₀ - m₁) / (x₁ - x₀) +
          3 * ((m₀ + m₁ - 2 * ((y₁ - y₀) / (x₁ - x₀))) / (x₁ - x₀) ^ 2) * u)
        (c := (m₀ + m₁ - 2 * ((y₁ - y₀) / (x₁ - x₀))) / (x₁ - x₀) ^ 2) (sub_pos.2 hu1) fun d hd hd' => ?_
      have t := h (x₀ + u) (x₀ + (u + d)) (by linarith) (by linarith) (by linarith)
      rw [hermiteCubic_from_left hG.ne', hermiteCubic_from_left hG.ne'] at t
      refine le_of_mul_le_mul_right ?_ hd
      linarith
    refine slopesFit_of_form ?_ ?_ fun a b ha hb => ?_
    · have := at_u 0 le_rfl hG
      linarith
    · refine nonneg_of_small (b := -((m₀ + 2 * m₁ - 3 * ((y₁ - y₀) / (x₁ - x₀))) / (x₁ - x₀)))
        (c := (m₀ + m₁ - 2 * ((y₁ - y₀) / (x₁ - x₀))) / (x₁ - x₀) ^ 2) hG fun d hd hd' => ?_
      have t := h (x₁ - d) (x₁ - 0) (by linarith) (by linarith) (by linarith)
      rw [hermiteCubic_from_right hG.ne', hermiteCubic_from_right hG.ne'] at t
      refine le_of_mul_le_mul_right ?_ hd
      linarith
    · have hab : 0 < a + b := by linarith
      have t := at_u ((x₁ - x₀) * b / (a + b)) (div_nonneg (mul_nonneg hG.le hb) hab.le)
        (by rw [div_lt_iff₀ hab]; nlinarith)
      have hn := hG.ne'
      have hn' := hab.ne'
      generalize (y₁ - y₀) / (x₁ - x₀) = S at t ⊢
      generalize x₁ - x₀ = g at t hn
      have e : m₀ + 2 * ((3 * S - 2 * m₀ - m₁) / g) * (g * b / (a + b)) +
          3 * ((m₀ + m₁ - 2 * S) / g ^ 2) * (g * b / (a + b)) ^ 2 =
          (m₀ * a ^ 2 + 2 * (3 * S - m₀ - m₁) * (a * b) + m₁ * b ^ 2) / (a + b) ^ 2 := by
        field_simp
        ring
      rw [e] at t
      have := mul_nonneg t (sq_nonneg (a + b))
      rwa [div_mul_cancel₀ _ (pow_ne_zero 2 hn')] at this
  · intro h x z hx hxz hz
    obtain ⟨u, rfl⟩ : ∃ u, x = x₀ + u := ⟨x - x₀, by ring⟩
    obtain ⟨v, rfl⟩ : ∃ v, z = x₀ + v := ⟨z - x₀, by ring⟩
    have f1 := form_nonneg h (a := x₁ - x₀ - u) (b := u) (by linarith) (by linarith)
    have f2 := form_nonneg h (a := 2 * (x₁ - x₀) - u - v) (b := u + v) (by linarith) (by linarith)
    have f3 := form_nonneg h (a := x₁ - x₀ - v) (b := v) (by linarith) (by linarith)
    rw [hermiteCubic_from_left hG.ne', hermiteCubic_from_left hG.ne']
    generalize (y₁ - y₀) / (x₁ - x₀) = S at f1 f2 f3 ⊢
    rw [← sub_nonneg]
    generalize hg : x₁ - x₀ = g at f1 f2 f3 hG ⊢
    have e : y₀ + m₀ * v + (3 * S - 2 * m₀ - m₁) / g * v ^ 2 + (m₀ + m₁ - 2 * S) / g ^ 2 * v ^ 3 -
        (y₀ + m₀ * u + (3 * S - 2 * m₀ - m₁) / g * u ^ 2 + (m₀ + m₁ - 2 * S) / g ^ 2 * u ^ 3) =
        (v - u) / (6 * g ^ 2) * ((m₀ * (g - u) ^ 2 + 2 * (3 * S - m₀ - m₁) * ((g - u) * u) + m₁ * u ^ 2) +
          (m₀ * (2 * g - u - v) ^ 2 + 2 * (3 * S - m₀ - m₁) * ((2 * g - u - v) * (u + v)) + m₁ * (u + v) ^ 2) +
          (m₀ * (g - v) ^ 2 + 2 * (3 * S - m₀ - m₁) * ((g - v) * v) + m₁ * v ^ 2)) := by
      have := hG.ne'
      field_simp
      ring
    rw [e]
    exact mul_nonneg (div_nonneg (by linarith) (by positivity)) (by linarith)

end Qlab

namespace Qlab.Props

open Spec

variable {K : Type} [Field K] [LinearOrder K] [IsStrictOrderedRing K] [FromInt K] [ExactCast K]

omit [Field K] [IsStrictOrderedRing K] [FromInt K] [ExactCast K] in
/-- Segments of a curve that never falls. -/
theorem segment_of_neverFalls {curve : K → Rust (Except (InterpolationError K) K)} {P : K → Prop}
    (h : NeverFalls curve P) {H : K → K} {x₀ x₁ : K} (hP : ∀ x, x₀ ≤ x → x ≤ x₁ → P x)
    (hH : ∀ x, x₀ ≤ x → x ≤ x₁ → curve x = .ok (.ok (H x))) (x z : K) (hx : x₀ ≤ x) (hxz : x ≤ z) (hz : z ≤ x₁) :
    H x ≤ H z := by
  obtain ⟨v, w, e1, e2, hvw⟩ := h x z (hP x hx (hxz.trans hz)) (hP z (hx.trans hxz) hz) hxz
  rw [hH x hx (hxz.trans hz)] at e1
  rw [hH z (hx.trans hxz) hz] at e2
  simp only [Rust.ok.injEq, Except.ok.injEq] at e1 e2
  rw [e1, e2]
  exact hvw

/-- **C130.** A Hermite spline never falls exactly when on each segment no slope is negative and the sum of the slopes
at its ends is at most three times that of the straight line, or exceeds it by at most the root of their product. -/
theorem C130_hermite_exactly (pts : List (K × K × K)) (hs : StrictlyIncreasing pts) (h2 : 2 ≤ pts.length) :
    NeverFalls (evaluateHermite pts) (InRange pts) ↔ ∀ i (hi : i + 1 < pts.length),
      SlopesFit pts[i].2.2 pts[i + 1].2.2 ((pts[i + 1].2.1 - pts[i].2.1) / (pts[i + 1].1 - pts[i].1)) := by
  have pw := List.pairwise_iff_getElem.1 hs
  constructor
  · intro h i hi
    exact (hermiteCubic_rising_iff (pw i (i + 1) (by omega) hi (by omega))).1
      (segment_of_neverFalls h (fun x h0 h1 => ⟨⟨_, List.getElem_mem _, h0⟩, ⟨_, List.getElem_mem _, h1⟩⟩)
        fun x h0 h1 => hermite_segment hs hi h0 h1)
  · intro h
    exact neverFalls_of_segments hs (m := pts.length - 1) (by omega) _ _
      (fun i hi x h0 h1 => hermite_segment hs hi h0 h1)
      (fun i hi => (hermiteCubic_rising_iff (pw i (i + 1) (by omega) (by omega) (by omega))).2 (h i (by omega)))
      _ (bracket_of_inRange hs h2)

/-- From (0, 0) to (1, 1): the slopes 1 and 4 fit although the second is more than three times the slope of the line;
the slopes 0 and 4 do not. -/
example : NeverFalls (evaluateHermite [((0 : ℚ), 0, 1), (1, 1, 4)]) (InRange [((0 : ℚ), (0 : ℚ), (1 : ℚ)), (1, 1, 4)]) := by
  refine (C130_hermite_exactly _ (by unfold StrictlyIncreasing; decide +kernel) (by decide)).2 ?_
  intro i hi
  obtain rfl : i = 0 := by simp only [List.length_cons, List.length_nil] at hi; omega
  norm_num [SlopesFit]

example : ¬ NeverFalls (evaluateHermite [((0 : ℚ), 0, 0), (1, 1, 4)]) (InRange [((0 : ℚ), (0 : ℚ), (0 : ℚ)), (1, 1, 4)]) := by
  intro h
  have := (C130_hermite_exactly _ (by unfold StrictlyIncreasing; decide +kernel) (by decide)).1 h 0 (by decide)
  norm_num [SlopesFit] at this

/-- **C130.** A Catmull-Rom spline never falls up to the last but one of its points exactly when the slopes with which it
leaves and reaches each of them fit to the straight line between them.  The slopes are those of C56: the first segment
starts with that of its straight line, the others with that of the line from the point before to the next one, divided by
the distance and once more the length of the segment. -/
theorem C130_catmull_rom_exactly_partial (pts : List (K × K)) (hs : StrictlyIncreasing pts) (h3 : 3 ≤ pts.length) :
    NeverFalls (evaluate (Interpolator.catmullRom K) pts) (fun x => pts[0].1 ≤ x ∧ x ≤ pts[pts.length - 2].1) ↔
      SlopesFit (secant pts 0 (by omega)) ((pts[2].2 - pts[0].2) / (pts[2].1 - pts[0].1)) (secant pts 0 (by omega)) ∧
      ∀ j (hj : j + 3 < pts.length),
        SlopesFit ((pts[j + 2].2 - pts[j].2) / ((pts[j + 2].1 - pts[j].1) + (pts[j + 2].1 - pts[j + 1].1)))
          ((pts[j + 3].2 - pts[j + 1].2) / (pts[j + 3].1 - pts[j + 1].1)) (secant pts (j + 1) (by omega)) := by
  have pw := List.pairwise_iff_getElem.1 hs
  have mono : ∀ i j (hi : i < pts.length) (hj : j < pts.length), i ≤ j → pts[i].1 ≤ pts[j].1 := by
    intro i j hi hj hij
    rcases Nat.eq_or_lt_of_le hij with rfl | hlt
    · exact le_rfl
    · exact (pw i j hi hj hlt).le
  have l0 := pw 0 1 (by omega) (by omega) (by omega)
  have first : ∀ x, crSegment pts 0 (by omega) h3 x = hermiteCubic pts[0].1 pts[0].2 (secant pts 0 (by omega)) pts[1].1 pts[1].2
      ((pts[2].2 - pts[0].2) / (pts[2].1 - pts[0].1)) x := by
    intro x
    unfold crSegment
    rw [dif_pos rfl, crFirst_eq l0, show (pts[1].1 - pts[0].1) + (pts[2].1 - pts[1].1) = pts[2].1 - pts[0].1 by ring]
    rfl
  have inner : ∀ j (hj : j + 3 < pts.length), ∀ x, crSegment pts (j + 1) (by omega) h3 x =
      hermiteCubic pts[j + 1].1 pts[j + 1].2
        ((pts[j + 2].2 - pts[j].2) / ((pts[j + 2].1 - pts[j].1) + (pts[j + 2].1 - pts[j + 1].1))) pts[j + 2].1 pts[j + 2].2
        ((pts[j + 3].2 - pts[j + 1].2) / (pts[j + 3].1 - pts[j + 1].1)) x := by
    intro j hj x
    unfold crSegment
    rw [dif_neg (by omega), dif_neg (by omega), crInner_eq]
    simp only [Nat.add_sub_cancel]
    rw [show (pts[j + 1 + 1].1 - pts[j + 1].1) + (pts[j + 1 + 2].1 - pts[j + 1 + 1].1) = pts[j + 3].1 - pts[j + 1].1 by ring,
      add_comm (pts[j + 1 + 1].1 - pts[j + 1].1)]
  have segs : NeverFalls (evaluate (Interpolator.catmullRom K) pts) (fun x => pts[0].1 ≤ x ∧ x ≤ pts[pts.length - 2].1) ↔
      ∀ i (hi : i + 2 < pts.length), ∀ x z, pts[i].1 ≤ x → x ≤ z → z ≤ pts[i + 1].1 →
        crSegment pts i (by omega) h3 x ≤ crSegment pts i (by omega) h3 z := by
    constructor
    · intro h i hi
      exact segment_of_neverFalls h (fun x h0 h1 => ⟨(mono 0 i (by omega) (by omega) (by omega)).trans h0,
        h1.trans (mono (i + 1) _ (by omega) (by omega) (by omega))⟩) fun x h0 h1 => catmullRom_segment hs h3 (by omega) h0 h1
    · intro h
      refine neverFalls_of_segments hs (m := pts.length - 2) (by omega) _ _
        (fun i hi x h0 h1 => catmullRom_segment hs h3 hi h0 h1) (fun i hi => h i (by omega)) _ ?_
      rintro x ⟨h0, h1⟩
      have hx : InRange pts x := ⟨⟨_, List.getElem_mem _, h0⟩, ⟨_, List.getElem_mem _, h1⟩⟩
      obtain ⟨i, hi, a, b⟩ := exists_bracket_raw hs (by omega) hx
      rcases Nat.lt_or_ge i (pts.length - 2) with h | h
      · exact ⟨i, h, a, b⟩
      · obtain ⟨j, hj⟩ : ∃ j, pts.length = j + 3 := ⟨pts.length - 3, by omega⟩
        have e : i = j + 1 := by omega
        subst e
        have h1' : x ≤ pts[j + 1].1 := by
          have : pts.length - 2 = j + 1 := by omega
          simpa only [this] using h1
        exact ⟨j, by omega, (pw j (j + 1) (by omega) (by omega) (by omega)).le.trans a, h1'⟩
  rw [segs]
  constructor
  · intro h
    refine ⟨(hermiteCubic_rising_iff l0).1 fun x z a b c => ?_, fun j hj =>
      (hermiteCubic_rising_iff (pw (j + 1) (j + 2) (by omega) (by omega) (by omega))).1 fun x z a b c => ?_⟩
    · have := h 0 (by omega) x z a b c
      rwa [first, first] at this
    · have := h (j + 1) (by omega) x z a b c
      rwa [inner j hj, inner j hj] at this
  · rintro ⟨h0, h1⟩ i hi x z a b c
    rcases i with _ | j
    · rw [first, first]
      exact (hermiteCubic_rising_iff l0).2 h0 x z a b c
    · rw [inner j (by omega), inner j (by omega)]
      exact (hermiteCubic_rising_iff (pw (j + 1) (j + 2) (by omega) (by omega) (by omega))).2 (h1 j (by omega)) x z a b c

/-- The slopes 1, 4 and 4 of the straight lines are too different for C130_catmull_rom_partial; the curve never falls. -/
example : NeverFalls (evaluate (Interpolator.catmullRom ℚ) [(0, 0), (1, 1), (2, 5), (3, 9)]) fun x => 0 ≤ x ∧ x ≤ 2 := by
  refine (C130_catmull_rom_exactly_partial [(0, 0), (1, 1), (2, 5), (3, 9)] (by unfold StrictlyIncreasing; decide +kernel)
    (by decide)).2 ⟨?_, fun j hj => ?_⟩
  · norm_num [SlopesFit, secant]
  · obtain rfl : j = 0 := by simp only [List.length_cons, List.length_nil] at hj; omega
    norm_num [SlopesFit, secant]

/-- One flat step before a rise makes it fall. -/
example : ¬ NeverFalls (evaluate (Interpolator.catmullRom ℚ) [(0, 0), (1, 0), (2, 1)]) fun x => 0 ≤ x ∧ x ≤ 1 := by
  intro h
  have := ((C130_catmull_rom_exactly_partial [(0, 0), (1, 0), (2, 1)] (by unfold StrictlyIncreasing; decide +kernel)
    (by decide)).1 h).1
  norm_num [SlopesFit, secant] at this

end Qlab.Props
