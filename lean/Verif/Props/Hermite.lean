import Verif.Lemmas.Hermite
import Mathlib.Tactic.NormNum

/-!
# Hermite spline (C37) 
-/

namespace Qlab.Props

open Spec

/-- **C37.** Construction fails with the order error exactly when some abscissa is smaller than the one
before; otherwise it succeeds.  Any value type, floats included, whose integer casts succeed and whose order
is irreflexive. -/
theorem C37_construction {V : Type} [Zero V] [One V] [Neg V] [FromInt V] [LT V] [DecidableLT V]
    (hirr : ∀ a : V, ¬ a < a) (hc : ∀ n : Int, (FromInt.fromInt (V := V) n).isSome) (pts : List (V × V × V)) (hne : pts ≠ []) :
    (Hermite.tryNew pts = .ok (.error .pointOrderError) ↔ ¬ NeverDecreasing pts) ∧
    ((∃ s, Hermite.tryNew pts = .ok (.ok s)) ↔ NeverDecreasing pts) := by
  have cast : ∀ n : Int, ∃ v, fromI8 V n = .ok v := by
    intro n
    obtain ⟨v, hv⟩ := Option.isSome_iff_exists.1 (hc n)
    exact ⟨v, by unfold fromI8; rw [hv]; rfl⟩
  obtain ⟨a, ha⟩ := cast 2
  obtain ⟨b, hb⟩ := cast (-2)
  obtain ⟨c, hc'⟩ := cast (-3)
  obtain ⟨d, hd⟩ := cast 3
  match pts, hne with
  | p :: ps, _ =>
    obtain ⟨h1, h2⟩ := Hermite.collect_eq p.1 p.2 (p :: ps)
    rw [neverDecreasing_cons_self' _ _ (hirr _)] at h1 h2
    unfold Hermite.tryNew
    simp only [Rust.index_of_lt (l := p :: ps) (i := 0) (by simp), List.getElem_cons_zero, Rust.ok_bind]
    by_cases hn : NeverDecreasing (p :: ps)
    · simp [h1 hn, ha, hb, hc', hd, hn]
    · simp [h2 hn, hn]

example := C37_construction (V := ℚ) (fun a => lt_irrefl a) (fun _ => rfl) [(0, 0, -1), (1, 0, 2), (1, 6, 11)] (by simp)

section
variable {K : Type} [Field K] [LinearOrder K] [FromInt K] [ExactCast K]

/-- **C37.** At a node the value is the node's ordinate. -/
theorem C37_nodes (pts : List (K × K × K)) (hs : StrictlyIncreasing pts) (h2 : 2 ≤ pts.length) (x y m : K)
    (h : (x, y, m) ∈ pts) : evaluateHermite pts x = .ok (.ok y) := by
  obtain ⟨i, hi, he⟩ := List.getElem_of_mem h
  have pw := List.pairwise_iff_getElem.1 hs
  by_cases hlast : i + 1 < pts.length
  · have hlt := pw i (i + 1) hi hlast (by omega)
    have := hermite_segment hs hlast (x := pts[i].1) (le_refl _) (le_of_lt hlt)
    rw [hermiteCubic_left, he] at this
    exact this
  · obtain ⟨j, rfl⟩ : ∃ j, i = j + 1 := ⟨i - 1, by omega⟩
    have hlt := pw j (j + 1) (by omega) hi (by omega)
    have := hermite_segment hs hi (x := pts[j + 1].1) (le_of_lt hlt) (le_refl _)
    rw [hermiteCubic_right _ _ _ _ _ _ hlt, he] at this
    exact this

example : evaluateHermite ([(0, 0, -1), (1, 0, 2), (2, 6, 11)] : List (ℚ × ℚ × ℚ)) 2 = .ok (.ok 6) :=
  C37_nodes _ (by unfold StrictlyIncreasing; norm_num) (by simp) 2 6 11 (by simp)

/-- **C37.** Every cubic is reproduced: if ordinates and slopes come from `a x³ + b x² + c x + d`, so does every
value in the range. -/
theorem C37_cubics (pts : List (K × K × K)) (hs : StrictlyIncreasing pts) (h2 : 2 ≤ pts.length) (a b c d : K)
    (hp : ∀ p ∈ pts, p.2.1 = a * p.1 ^ 3 + b * p.1 ^ 2 + c * p.1 + d ∧
      p.2.2 = 3 * a * p.1 ^ 2 + 2 * b * p.1 + c) (x : K) (hx : InRange pts x) :
    evaluateHermite pts x = .ok (.ok (a * x ^ 3 + b * x ^ 2 + c * x + d)) := by
  obtain ⟨i, hi, h0, h1⟩ := exists_bracket_raw hs h2 hx
  have hlt := List.pairwise_iff_getElem.1 hs i (i + 1) (by omega) hi (by omega)
  have hne : pts[i + 1].1 - pts[i].1 ≠ 0 := sub_ne_zero.2 (ne_of_gt hlt)
  rw [hermite_segment hs hi h0 h1]
  obtain ⟨e1, e2⟩ := hp _ (List.getElem_mem (n := i) (by omega))
  obtain ⟨e3, e4⟩ := hp _ (List.getElem_mem (n := i + 1) (by omega))
  rw [e1, e2, e3, e4]
  congr 2
  simp only [hermiteCubic]
  field_simp
  ring

/-- **C37.** Outside the range the bound errors are returned. -/
theorem C37_domain (pts : List (K × K × K)) (hs : StrictlyIncreasing pts) (h2 : 2 ≤ pts.length) (x : K) :
    (BelowAll pts x → evaluateHermite pts x = .ok (.error (.outOfLowerBound x))) ∧
    (AboveAll pts x → evaluateHermite pts x = .ok (.error (.outOfUpperBound x))) ∧
    (InRange pts x → ∃ v, evaluateHermite pts x = .ok (.ok v)) := by
  have hne : pts ≠ [] := by intro hc; subst hc; simp at h2
  have hs' : (pts.map fun p => Point2DWithSlope.new p.1 p.2.1 p.2.2).Pairwise
      fun p q => (HasX.x p : K) ≤ HasX.x q := by
    rw [List.pairwise_map]; exact hs.imp le_of_lt
  refine ⟨fun hb => ?_, fun ha => ?_, fun hx => ?_⟩
  · rw [evaluateHermite_eq hne (neverDecreasing_of_strict hs)]
    unfold Hermite.tryValue
    have hpos : 0 < pts.length := by omega
    have : findIndexAtLeftBoundary (pts.map fun p => Point2DWithSlope.new p.1 p.2.1 p.2.2) x =
        .error (.outOfLowerBound x) := by
      refine findIndex_lower' hs' (by simpa using hpos) ?_
      simp only [List.getElem_map]
      exact hb _ (List.getElem_mem hpos)
    simp only [this]
  · rw [evaluateHermite_eq hne (neverDecreasing_of_strict hs)]
    unfold Hermite.tryValue
    have : findIndexAtLeftBoundary (pts.map fun p => Point2DWithSlope.new p.1 p.2.1 p.2.2) x =
        .error (.outOfUpperBound x) := by
      refine findIndex_upper hs' (by simp; omega) ?_
      simp only [List.getElem_map]
      exact ha _ (List.getElem_mem (by simp; omega))
    simp only [this]
  · obtain ⟨i, hi, h0, h1⟩ := exists_bracket_raw hs h2 hx
    exact ⟨_, hermite_segment hs hi h0 h1⟩

example : evaluateHermite ([(0, 0, -1), (1, 0, 2), (2, 6, 11)] : List (ℚ × ℚ × ℚ)) 3 = .ok (.error (.outOfUpperBound 3)) :=
  (C37_domain _ (by unfold StrictlyIncreasing; norm_num) (by simp) 3).2.1 (by simp [AboveAll]; norm_num)

end

/-- **C37.** Over the reals the evaluated curve is a cubic on each segment, passes through every node and has
the given slope there, from both sides. -/
theorem C37_slopes (pts : List (ℝ × ℝ × ℝ)) (hs : StrictlyIncreasing pts) (h2 : 2 ≤ pts.length) :
    ∃ f : ℝ → ℝ, (∀ x, InRange pts x → evaluateHermite pts x = .ok (.ok (f x))) ∧
      (∀ x y m, (x, y, m) ∈ pts → f x = y ∧ HasDerivWithinAt f m {z | InRange pts z} x) ∧
      (∀ i, (hi : i + 1 < pts.length) → ∃ a b c d : ℝ, ∀ x ∈ Set.Icc pts[i].1 pts[i + 1].1,
        f x = a + b * x + c * x ^ 2 + d * x ^ 3) := by
  let f : ℝ → ℝ := fun x => match evaluateHermite pts x with | .ok (.ok v) => v | _ => 0
  have pw := List.pairwise_iff_getElem.1 hs
  have hf : ∀ i (hi : i + 1 < pts.length), ∀ x ∈ Set.Icc pts[i].1 pts[i + 1].1,
      f x = hermiteCubic pts[i].1 pts[i].2.1 pts[i].2.2 pts[i + 1].1 pts[i + 1].2.1 pts[i + 1].2.2 x := by
    intro i hi x hx
    simp only [f, hermite_segment hs hi hx.1 hx.2]
  have hsub : {z | InRange pts z} ⊆ Set.Icc (pts[0]).1 (pts[pts.length - 1]).1 :=
    le_of_eq (inRange_subset hs (by omega))
  refine ⟨f, ?_, ?_, ?_⟩
  · intro x hx
    obtain ⟨v, hv⟩ := (C37_domain pts hs h2 x).2.2 hx
    simp only [f, hv]
  · intro x y m hm
    have hv := C37_nodes pts hs h2 x y m hm
    refine ⟨by simp only [f, hv], ?_⟩
    obtain ⟨i, hi, he⟩ := List.getElem_of_mem hm
    have ex : x = pts[i].1 := by rw [he]
    have em : m = pts[i].2.2 := by rw [he]
    refine (hasDerivWithinAt_glue (lo := (pts[0]).1) (hi := (pts[pts.length - 1]).1) ?_ ?_).mono hsub
    · intro hlo
      have hi0 : i ≠ 0 := by
        intro hc; subst hc; rw [ex] at hlo; exact lt_irrefl _ hlo
      obtain ⟨j, rfl⟩ : ∃ j, i = j + 1 := ⟨i - 1, by omega⟩
      have hlt := pw j (j + 1) (by omega) hi (by omega)
      refine ⟨pts[j].1, by rw [ex]; exact hlt, ?_⟩
      have hd := (hermiteCubic_hasDerivAt pts[j].1 pts[j].2.1 pts[j].2.2 pts[j + 1].1 pts[j + 1].2.1
        pts[j + 1].2.2 x).hasDerivWithinAt (s := Set.Icc pts[j].1 x)
      have hne : pts[j + 1].1 - pts[j].1 ≠ 0 := sub_ne_zero.2 (ne_of_gt hlt)
      refine (hd.congr (fun z hz => hf j hi z (by rw [← ex]; exact hz)) (hf j hi x ?_)).congr_deriv ?_
      · rw [ex]; exact ⟨le_of_lt hlt, le_refl _⟩
      · rw [em, ex, div_self hne]; field_simp; ring
    · intro hhi
      have hi0 : i + 1 < pts.length := by
        by_contra hc
        have : i = pts.length - 1 := by omega
        subst this; rw [ex] at hhi; exact lt_irrefl _ hhi
      have hlt := pw i (i + 1) hi hi0 (by omega)
      refine ⟨pts[i + 1].1, by rw [ex]; exact hlt, ?_⟩
      have hd := (hermiteCubic_hasDerivAt pts[i].1 pts[i].2.1 pts[i].2.2 pts[i + 1].1 pts[i + 1].2.1
        pts[i + 1].2.2 x).hasDerivWithinAt (s := Set.Icc x pts[i + 1].1)
      have hne : pts[i + 1].1 - pts[i].1 ≠ 0 := sub_ne_zero.2 (ne_of_gt hlt)
      refine (hd.congr (fun z hz => hf i hi0 z (by rw [← ex]; exact hz)) (hf i hi0 x ?_)).congr_deriv ?_
      · rw [ex]; exact ⟨le_refl _, le_of_lt hlt⟩
      · rw [em, ex, sub_self, zero_div]; field_simp; ring
  · intro i hi
    have hlt := pw i (i + 1) (by omega) hi (by omega)
    have hne : pts[i + 1].1 - pts[i].1 ≠ 0 := sub_ne_zero.2 (ne_of_gt hlt)
    generalize hh : pts[i + 1].1 - pts[i].1 = h at hne
    -- coefficients in powers of `x - x₀`
    let A := pts[i].2.1
    let B := pts[i].2.2
    let C := (3 * (pts[i + 1].2.1 - A) / h - 2 * B - pts[i + 1].2.2) / h
    let D := (2 * (A - pts[i + 1].2.1) / h + B + pts[i + 1].2.2) / h ^ 2
    let p := pts[i].1
    refine ⟨A - B * p + C * p ^ 2 - D * p ^ 3, B - 2 * C * p + 3 * D * p ^ 2, C - 3 * D * p, D, ?_⟩
    intro x hx
    rw [hf i hi x hx]
    simp only [hermiteCubic, hh, A, B, C, D, p]
    field_simp
    ring

/-- Three nodes of the cubic `x³ - x` with their slopes: the value at 3/2 is 15/8. -/
example : StrictlyIncreasing ([(0, 0, -1), (1, 0, 2), (2, 6, 11)] : List (ℚ × ℚ × ℚ)) ∧
    evaluateHermite ([(0, 0, -1), (1, 0, 2), (2, 6, 11)] : List (ℚ × ℚ × ℚ)) (3 / 2) = .ok (.ok (15 / 8)) := by
  have hs : StrictlyIncreasing ([(0, 0, -1), (1, 0, 2), (2, 6, 11)] : List (ℚ × ℚ × ℚ)) := by
    unfold StrictlyIncreasing; norm_num
  refine ⟨hs, ?_⟩
  rw [C37_cubics _ hs (by simp) 1 0 (-1) 0 (by simp; norm_num) (3 / 2)
    ⟨⟨(0, 0, -1), by simp, by norm_num⟩, ⟨(2, 6, 11), by simp, by norm_num⟩⟩]
  norm_num

end Qlab.Props
