import Verif.Lemmas.IeeeRound
import Verif.Props.FloatLinear
import Verif.Props.NaturalCubic
import Verif.Props.Linear

/-!
# Interpolation in the formats of IEEE 754 (C85, C86, C87)
-/

namespace Qlab.Props

open Spec

variable {F : IeeeFormat}

/-- Numbers with few bits are representable. -/
theorem representable_dyadic (k : ℤ) (n : Nat) (hk : |k| ≤ 2 ^ F.prec) (hn : n ≤ F.prec) :
    F.Representable (k * 2 ^ (-(n : ℤ))) := by
  have h := F.round_rep k (-(n : ℤ)) hk (by have := F.emax_ge; unfold IeeeFormat.bottom; have := F.prec_ge; omega)
  refine ⟨h, le_trans ?_ (F.representable_int k hk).2⟩
  rw [abs_mul]
  refine mul_le_of_le_one_right (abs_nonneg _) ?_
  rw [abs_of_pos (by positivity), zpow_neg, zpow_natCast]
  exact inv_le_one_of_one_le₀ (one_le_pow₀ (by norm_num))

/-- The data 0, 1 are finite. -/
theorem finite_zero_one : IsFinite (0 : Ieee F) ∧ IsFinite (1 : Ieee F) :=
  ⟨⟨0, Ieee.zero_number⟩, ⟨1, Ieee.one_number⟩⟩

theorem zero_lt_one' : (0 : Ieee F) < 1 := (Ieee.lt_number Ieee.zero_number Ieee.one_number).2 (by norm_num)

/-- Three sorted nodes every spline accepts: 0, 1, 1. -/
theorem neverDecreasing_example {W : Type} (u v w : W) : NeverDecreasing [((0 : Ieee F), u), (1, v), (1, w)] := by
  unfold NeverDecreasing
  refine List.isChain_cons_cons.2 ⟨?_, List.isChain_cons_cons.2 ⟨Ieee.lt_irrefl _, by simp⟩⟩
  rw [Ieee.lt_number Ieee.one_number Ieee.zero_number]; norm_num

/-! ## Evaluation at NaN and at infinities (C85) -/

section
variable {P : Type} [HasX P (Ieee F)]

/-- The search refuses NaN and infinities. -/
theorem findIndex_nonfinite (points : List P) (hne : points ≠ []) :
    findIndexAtLeftBoundary points (.nan : Ieee F) = .error (.outOfLowerBound .nan) ∧
    ((∀ p ∈ points, IsFinite (HasX.x p)) →
      findIndexAtLeftBoundary points (.inf false : Ieee F) = .error (.outOfUpperBound (.inf false)) ∧
      findIndexAtLeftBoundary points (.inf true : Ieee F) = .error (.outOfLowerBound (.inf true))) := by
  refine ⟨C34_unordered points _ hne (fun _ _ => Ieee.not_lt_nan) (fun _ _ => Ieee.not_le_nan), fun hf => ⟨?_, ?_⟩⟩
  · match points, hne with
    | p :: ps, _ =>
      rw [findIndex_of_cut p ps _ (p :: ps).length le_rfl, if_neg (by simp), if_neg (by simp), if_pos rfl]
      intro i hi
      obtain ⟨x, hx⟩ := hf _ (List.getElem_mem hi)
      simp only [Ieee.lt_posInf hx, decide_true, true_iff]
      exact hi
  · refine C34_unordered points _ hne (fun _ _ => Ieee.not_lt_negInf) (fun p hp => ?_)
    obtain ⟨x, hx⟩ := hf p hp
    exact Ieee.not_le_negInf hx

end

/-- **C85.** Linear interpolation refuses NaN and infinities. -/
theorem C85_linear (pts : List (Ieee F × Ieee F)) (hne : pts ≠ []) :
    RefusesNonfinite (∀ p ∈ pts, IsFinite p.1) (evaluate (Interpolator.linear (Ieee F)) pts) := by
  obtain ⟨h1, h2⟩ := findIndex_nonfinite (pts.map fun p => (⟨p.1, p.2⟩ : Point2D (Ieee F))) (by simpa using hne)
  refine ⟨?_, fun hf => ?_⟩
  · rw [evaluate_linear]; unfold Linear.tryValue; rw [h1]
  · obtain ⟨h3, h4⟩ := h2 (by
      intro p hp
      obtain ⟨q, hq, rfl⟩ := List.mem_map.1 hp
      exact hf q hq)
    constructor
    · rw [evaluate_linear]; unfold Linear.tryValue; rw [h3]
    · rw [evaluate_linear]; unfold Linear.tryValue; rw [h4]

example : evaluate (Interpolator.linear (Ieee .binary64)) [(0, 1), (1, 0)] .nan = .ok (.error (.outOfLowerBound .nan)) ∧
    evaluate (Interpolator.linear (Ieee .binary64)) [(0, 1), (1, 0)] (.inf false) =
      .ok (.error (.outOfUpperBound (.inf false))) :=
  have h := C85_linear [((0 : Ieee .binary64), (1 : Ieee .binary64)), (1, 0)] (by simp)
  ⟨h.1, (h.2 (by simp [finite_zero_one])).1⟩

/-- **C85.** A fitted Catmull-Rom spline refuses NaN and infinities. -/
theorem C85_catmull_rom (pts : List (Ieee F × Ieee F)) (s : CatmullRom (Ieee F))
    (h : CatmullRom.default.tryFit pts = .ok (.ok s)) : RefusesNonfinite (∀ p ∈ pts, IsFinite p.1) s.tryValue := by
  obtain ⟨c1, c2, c3⟩ := C39_catmull_rom Ieee.lt_irrefl CatmullRom.default pts
  have h3 : 3 ≤ pts.length := by by_contra hc; rw [c1 (by omega)] at h; cases h
  have hd : NeverDecreasing pts := by by_contra hc; rw [c2 h3 hc] at h; cases h
  obtain ⟨t, ht, hp⟩ := c3 h3 hd
  rw [h] at ht
  obtain rfl := Except.ok.inj (Rust.ok.inj ht)
  have hne : s.points ≠ [] := by intro hc; rw [hc] at hp; subst hp; simp at h3
  obtain ⟨h1, h2⟩ := findIndex_nonfinite s.points hne
  refine ⟨by unfold CatmullRom.tryValue; rw [h1], fun hf => ?_⟩
  obtain ⟨h3, h4⟩ := h2 (by
    intro p hp'
    exact hf (p.x, p.y) (hp ▸ List.mem_map_of_mem (f := fun p : Point2D (Ieee F) => (p.x, p.y)) hp'))
  exact ⟨by unfold CatmullRom.tryValue; rw [h3], by unfold CatmullRom.tryValue; rw [h4]⟩

example : ∃ s, CatmullRom.default.tryFit [((0 : Ieee .binary64), (1 : Ieee .binary64)), (1, 0), (1, 1)] = .ok (.ok s) ∧
    s.tryValue (.inf false) = .ok (.error (.outOfUpperBound (.inf false))) := by
  obtain ⟨t, ht, _⟩ := (C39_catmull_rom Ieee.lt_irrefl CatmullRom.default
    [((0 : Ieee .binary64), (1 : Ieee .binary64)), (1, 0), (1, 1)]).2.2 (by simp) (neverDecreasing_example _ _ _)
  exact ⟨t, ht, ((C85_catmull_rom _ t ht).2 (by simp [finite_zero_one])).1⟩

/-- **C85.** A fitted natural cubic spline refuses NaN and infinities. -/
theorem C85_natural_cubic (pts : List (Ieee F × Ieee F)) (s : NaturalCubic (Ieee F))
    (h : NaturalCubic.default.tryFit pts = .ok (.ok s)) : RefusesNonfinite (∀ p ∈ pts, IsFinite p.1) s.tryValue := by
  obtain ⟨c1, c2, c3⟩ := C39_natural_cubic Ieee.lt_irrefl (fun _ => rfl) NaturalCubic.default pts
  have h3 : 3 ≤ pts.length := by by_contra hc; rw [c1 (by omega)] at h; cases h
  have hd : NeverDecreasing pts := by by_contra hc; rw [c2 h3 hc] at h; cases h
  obtain ⟨t, ht, hp⟩ := c3 h3 hd
  rw [h] at ht
  obtain rfl := Except.ok.inj (Rust.ok.inj ht)
  have hne : s.points ≠ [] := by intro hc; rw [hc] at hp; subst hp; simp at h3
  obtain ⟨h1, h2⟩ := findIndex_nonfinite s.points hne
  refine ⟨by unfold NaturalCubic.tryValue; rw [h1], fun hf => ?_⟩
  obtain ⟨h3, h4⟩ := h2 (by
    intro p hp'
    exact hf (p.coordinate.x, p.coordinate.y) (hp ▸ List.mem_map_of_mem
      (f := fun p : Point2DWithSlope (Ieee F) => (p.coordinate.x, p.coordinate.y)) hp'))
  exact ⟨by unfold NaturalCubic.tryValue; rw [h3], by unfold NaturalCubic.tryValue; rw [h4]⟩

example : ∃ s, NaturalCubic.default.tryFit [((0 : Ieee .binary64), (1 : Ieee .binary64)), (1, 0), (1, 1)] = .ok (.ok s) ∧
    s.tryValue (.inf true) = .ok (.error (.outOfLowerBound (.inf true))) := by
  obtain ⟨t, ht, _⟩ := (C39_natural_cubic Ieee.lt_irrefl (fun _ => rfl) NaturalCubic.default
    [((0 : Ieee .binary64), (1 : Ieee .binary64)), (1, 0), (1, 1)]).2.2 (by simp) (neverDecreasing_example _ _ _)
  exact ⟨t, ht, ((C85_natural_cubic _ t ht).2 (by simp [finite_zero_one])).2⟩

/-- **C85.** A Hermite spline refuses NaN and infinities. -/
theorem C85_hermite (pts : List (Ieee F × Ieee F × Ieee F)) (s : Hermite (Ieee F))
    (h : Hermite.tryNew pts = .ok (.ok s)) : RefusesNonfinite (∀ p ∈ pts, IsFinite p.1) s.tryValue := by
  match pts, h with
  | [], h => cases h
  | p :: ps, h =>
    obtain ⟨c1, c2⟩ := Hermite.collect_eq p.1 p.2 (p :: ps)
    have hs : s.points = (p :: ps).map fun p => Point2DWithSlope.new p.1 p.2.1 p.2.2 := by
      unfold Hermite.tryNew at h
      simp only [Rust.index_of_lt (l := p :: ps) (i := 0) (by simp), List.getElem_cons_zero, Rust.ok_bind] at h
      by_cases hd : NeverDecreasing (p :: p :: ps)
      · rw [c1 hd] at h
        simp only [fromI8, FromInt.fromInt, Rust.unwrap, Rust.ok_bind, Rust.pure_eq, Rust.ok.injEq, Except.ok.injEq] at h
        rw [← h]
      · rw [c2 hd] at h; cases h
    have hne : s.points ≠ [] := by rw [hs]; simp
    obtain ⟨h1, h2⟩ := findIndex_nonfinite s.points hne
    refine ⟨by unfold Hermite.tryValue; rw [h1], fun hf => ?_⟩
    obtain ⟨h3, h4⟩ := h2 (by
      intro q hq
      rw [hs] at hq
      obtain ⟨r, hr, rfl⟩ := List.mem_map.1 hq
      exact hf r hr)
    exact ⟨by unfold Hermite.tryValue; rw [h3], by unfold Hermite.tryValue; rw [h4]⟩

example : ∃ s, Hermite.tryNew [((0 : Ieee .binary64), (1 : Ieee .binary64), 0), (1, 0, 1)] = .ok (.ok s) ∧
    s.tryValue .nan = .ok (.error (.outOfLowerBound .nan)) := by
  have hd : NeverDecreasing [((0 : Ieee .binary64), (1 : Ieee .binary64), (0 : Ieee .binary64)), (1, 0, 1)] := by
    unfold NeverDecreasing
    refine List.isChain_cons_cons.2 ⟨?_, by simp⟩
    rw [Ieee.lt_number Ieee.one_number Ieee.zero_number]; norm_num
  have h : ∃ s, Hermite.tryNew [((0 : Ieee .binary64), (1 : Ieee .binary64), 0), (1, 0, 1)] = .ok (.ok s) := by
    obtain ⟨c1, -⟩ := Hermite.collect_eq (0 : Ieee .binary64) ((1, 0) : Ieee .binary64 × Ieee .binary64) [(0, 1, 0), (1, 0, 1)]
    rw [neverDecreasing_cons_self' _ _ (Ieee.lt_irrefl _)] at c1
    unfold Hermite.tryNew
    simp only [Rust.index_of_lt (l := [((0 : Ieee .binary64), ((1 : Ieee .binary64), (0 : Ieee .binary64))), (1, (0, 1))])
      (i := 0) (by simp), List.getElem_cons_zero, Rust.ok_bind, c1 hd, fromI8, FromInt.fromInt, Rust.unwrap, Rust.pure_eq]
    exact ⟨_, rfl⟩
  obtain ⟨s, hs⟩ := h
  exact ⟨s, hs, (C85_hermite _ s hs).1⟩

/-! ## Accepted grids are sorted, without NaN (C86) -/

theorem sorted_of_neverDecreasing {W : Type} : ∀ (pts : List (Ieee F × W)), (∀ p ∈ pts, p.1 ≠ .nan) → NeverDecreasing pts →
    pts.Pairwise fun p q => p.1 ≤ q.1 := by
  intro pts hn hd
  have h1 : pts.IsChain fun p q => p.1 ≤ q.1 := by
    unfold NeverDecreasing at hd
    induction pts with
    | nil => simp
    | cons p ps ih =>
      cases ps with
      | nil => simp
      | cons q qs =>
        rw [List.isChain_cons_cons] at hd ⊢
        exact ⟨Ieee.le_of_not_lt (hn p (by simp)) (hn q (by simp)) hd.1, ih (fun r hr => hn r (by simp [hr])) hd.2⟩
  have : IsTrans (Ieee F × W) fun p q => p.1 ≤ q.1 := ⟨fun _ _ _ h h' => Ieee.le_trans' h h'⟩
  exact List.isChain_iff_pairwise.1 h1

/-- **C86.** A grid without NaN that a spline constructor accepts is in ascending order.  Missing for the full property:
grids with NaN. -/
theorem C86_sorted_partial (pts : List (Ieee F × Ieee F)) (hn : ∀ p ∈ pts, p.1 ≠ .nan)
    (h : (∃ s, CatmullRom.default.tryFit pts = .ok (.ok s)) ∨ ∃ s, NaturalCubic.default.tryFit pts = .ok (.ok s)) :
    pts.Pairwise fun p q => p.1 ≤ q.1 := by
  refine sorted_of_neverDecreasing pts hn ?_
  by_contra hd
  rcases h with ⟨s, h⟩ | ⟨s, h⟩
  · obtain ⟨c1, c2, _⟩ := C39_catmull_rom Ieee.lt_irrefl CatmullRom.default pts
    rcases lt_or_ge pts.length 3 with h3 | h3
    · rw [c1 h3] at h; cases h
    · rw [c2 h3 hd] at h; cases h
  · obtain ⟨c1, c2, _⟩ := C39_natural_cubic Ieee.lt_irrefl (fun _ => rfl) NaturalCubic.default pts
    rcases lt_or_ge pts.length 3 with h3 | h3
    · rw [c1 h3] at h; cases h
    · rw [c2 h3 hd] at h; cases h

example : ∃ s, NaturalCubic.default.tryFit [((0 : Ieee .binary64), (1 : Ieee .binary64)), (1, 0), (.inf false, 1)] = .ok (.ok s) := by
  obtain ⟨t, ht, _⟩ := (C39_natural_cubic Ieee.lt_irrefl (fun _ => rfl) NaturalCubic.default
    [((0 : Ieee .binary64), (1 : Ieee .binary64)), (1, 0), (.inf false, 1)]).2.2 (by simp) (by
      unfold NeverDecreasing
      refine List.isChain_cons_cons.2 ⟨?_, List.isChain_cons_cons.2 ⟨?_, by simp⟩⟩
      · rw [Ieee.lt_number Ieee.one_number Ieee.zero_number]; norm_num
      · intro h
        exact absurd (Ieee.lt_posInf Ieee.one_number) (fun h' => by
          obtain ⟨u, v, e1, e2, e3⟩ := h
          obtain ⟨u', v', f1, f2, f3⟩ := h'
          rw [e1] at f2; rw [e2] at f1
          cases f1; cases f2
          exact absurd e3 (not_lt.2 f3.le)))
  exact ⟨t, ht⟩

/-- **C86.** The same for Hermite splines. -/
theorem C86_hermite_partial (pts : List (Ieee F × Ieee F × Ieee F)) (hn : ∀ p ∈ pts, p.1 ≠ .nan) (s : Hermite (Ieee F))
    (h : Hermite.tryNew pts = .ok (.ok s)) : pts.Pairwise fun p q => p.1 ≤ q.1 := by
  refine sorted_of_neverDecreasing pts hn ?_
  match pts, h with
  | [], h => cases h
  | p :: ps, h =>
    obtain ⟨c1, c2⟩ := Hermite.collect_eq p.1 p.2 (p :: ps)
    rw [neverDecreasing_cons_self' _ _ (Ieee.lt_irrefl _)] at c1 c2
    unfold Hermite.tryNew at h
    simp only [Rust.index_of_lt (l := p :: ps) (i := 0) (by simp), List.getElem_cons_zero, Rust.ok_bind] at h
    by_contra hd
    rw [c2 hd] at h; cases h

/-- **C86 (violated).** In every format all three constructors accept the abscissae 3, NaN, 1. -/
theorem C86_refuted (F : IeeeFormat) : ∃ a b : Ieee F, IsNumber a 3 ∧ IsNumber b 1 ∧
    (∃ s, CatmullRom.default.tryFit [(a, 0), (.nan, 0), (b, 0)] = .ok (.ok s)) ∧
    (∃ s, NaturalCubic.default.tryFit [(a, 0), (.nan, 0), (b, 0)] = .ok (.ok s)) ∧
    (∃ s, Hermite.tryNew [(a, 0, 0), (.nan, 0, 0), (b, 0, 0)] = .ok (.ok s)) := by
  have hp : (2 : ℤ) ^ 24 ≤ 2 ^ F.prec := pow_le_pow_right₀ (by norm_num) F.prec_ge
  obtain ⟨a, -, ha⟩ := Ieee.fromInt_number (F := F) 3 (by rw [abs_of_nonneg (by norm_num)]; omega)
  have hd : ∀ {W : Type} (u v w : W), NeverDecreasing [(a, u), (.nan, v), ((1 : Ieee F), w)] := by
    intro W u v w
    unfold NeverDecreasing
    exact List.isChain_cons_cons.2 ⟨Ieee.not_nan_lt, List.isChain_cons_cons.2 ⟨Ieee.not_lt_nan, by simp⟩⟩
  refine ⟨a, 1, by simpa using ha, Ieee.one_number, ?_, ?_, ?_⟩
  · obtain ⟨t, ht, _⟩ := (C39_catmull_rom Ieee.lt_irrefl CatmullRom.default _).2.2 (by simp) (hd 0 0 0)
    exact ⟨t, ht⟩
  · obtain ⟨t, ht, _⟩ := (C39_natural_cubic Ieee.lt_irrefl (fun _ => rfl) NaturalCubic.default _).2.2 (by simp) (hd 0 0 0)
    exact ⟨t, ht⟩
  · obtain ⟨c1, -⟩ := Hermite.collect_eq a ((0, 0) : Ieee F × Ieee F) [(a, 0, 0), (.nan, 0, 0), (1, 0, 0)]
    rw [neverDecreasing_cons_self' _ _ (Ieee.lt_irrefl _)] at c1
    unfold Hermite.tryNew
    simp only [Rust.index_of_lt (l := [(a, ((0 : Ieee F), (0 : Ieee F))), (.nan, (0, 0)), (1, (0, 0))]) (i := 0) (by simp),
      List.getElem_cons_zero, Rust.ok_bind, c1 (hd _ _ _), fromI8, FromInt.fromInt, Rust.unwrap, Rust.pure_eq]
    exact ⟨_, rfl⟩

/-! ## Linear interpolation of finite data (C87) -/

/-- The values of the steps of linear interpolation, with magnitudes between `2 ^ -k` and `2 ^ k`. -/
theorem linear_steps (k : Nat) (hk : 3 * k + 2 * F.prec ≤ F.emax) {x₀ y₀ x₁ y₁ x : Ieee F} (h1 : Moderate k x₀)
    (h2 : Moderate k y₀) (h3 : Moderate k x₁) (h4 : Moderate k y₁) (h5 : Moderate k x) (hne : x₀ < x₁) :
    IsNumber (y₀ + (y₁ - y₀) / (x₁ - x₀) * (x - x₀))
      (x₀.toFl |> fun a => (y₀.toFl + (y₁.toFl - y₀.toFl) / (x₁.toFl - a) * (x.toFl - a)).val) := by
  obtain ⟨a, ha, ma⟩ := h1
  obtain ⟨b, hb, mb⟩ := h2
  obtain ⟨c, hc, mc⟩ := h3
  obtain ⟨d, hd, md⟩ := h4
  obtain ⟨z, hz, mz⟩ := h5
  have hac : a < c := (Ieee.lt_number ha hc).1 hne
  have hp := F.one_le_prec
  have m1 : Mag (-(k : ℤ) - F.prec + 1) (k + 1) (d - b) := Mag.sub F (Ieee.fl_of_isNumber hd) (Ieee.fl_of_isNumber hb) md mb
  have m2 : Mag (-(k : ℤ) - F.prec + 1) (k + 1) (c - a) := Mag.sub F (Ieee.fl_of_isNumber hc) (Ieee.fl_of_isNumber ha) mc ma
  have m3 : Mag (-(k : ℤ) - F.prec + 1) (k + 1) (z - a) := Mag.sub F (Ieee.fl_of_isNumber hz) (Ieee.fl_of_isNumber ha) mz ma
  have n1 := Ieee.sub_number hd hb (F.mag_range m1 (by omega) (by omega)).1
  have n2 := Ieee.sub_number hc ha (F.mag_range m2 (by omega) (by omega)).1
  have n3 := Ieee.sub_number hz ha (F.mag_range m3 (by omega) (by omega)).1
  have m4 := (m1.fl F).div (m2.fl F)
  have r4 := F.mag_range m4 (by omega) (by omega)
  have n4 := Ieee.div_number n1 n2 (F.arith.fl_pos (sub_pos.2 hac)).ne' r4.1 r4.2
  have m5 := (m4.fl F).mul (m3.fl F)
  have r5 := F.mag_range m5 (by omega) (by omega)
  have n5 := Ieee.mul_number n4 n3 r5.1 r5.2
  have h6 : |b + F.arith.fl (F.arith.fl (F.arith.fl (d - b) / F.arith.fl (c - a)) * F.arith.fl (z - a))| ≤ F.largest := by
    have e1 := (show Mag (-(k : ℤ)) k b from mb).le
    have e2 := (m5.fl F).le
    have e3 : (2 : ℝ) ^ (k : ℤ) ≤ 2 ^ ((F.emax : ℤ) - 1) := zpow_le_zpow_right₀ (by norm_num) (by omega)
    have e4 : (2 : ℝ) ^ ((k : ℤ) + 1 - (-(k : ℤ) - F.prec + 1) + (k + 1)) ≤ 2 ^ ((F.emax : ℤ) - 1) :=
      zpow_le_zpow_right₀ (by norm_num) (by have := F.prec_ge; omega)
    have e5 : (2 : ℝ) ^ ((F.emax : ℤ) - 1) + 2 ^ ((F.emax : ℤ) - 1) = 2 ^ F.emax := by
      rw [← two_mul, ← zpow_one_add₀ (by norm_num), ← zpow_natCast]; congr 1; omega
    refine le_trans (abs_add_le _ _) (le_trans ?_ F.largest_ge)
    linarith
  have n6 := Ieee.add_number hb n5 h6
  simp only [Fl.val_add, Fl.val_mul, Fl.val_div, Fl.val_sub, Ieee.toFl_val ha, Ieee.toFl_val hb, Ieee.toFl_val hc,
    Ieee.toFl_val hd, Ieee.toFl_val hz]
  exact n6

theorem moderate_finite {k : Nat} {a : Ieee F} (h : Moderate k a) : IsFinite a := by
  obtain ⟨x, hx, _⟩ := h
  exact ⟨x, hx⟩

/-- The value computed on a segment of finite data. -/
theorem ieee_linear_eval (pts : List (Ieee F × Ieee F)) (hs : StrictlyIncreasing pts) (hf : ∀ p ∈ pts, IsFinite p.1)
    (i : Nat) (x₀ y₀ x₁ y₁ x : Ieee F) (hx : IsFinite x) (h : IsSegment pts i x₀ y₀ x₁ y₁) (h0 : x₀ < x) (h1 : x ≤ x₁) :
    evaluate (Interpolator.linear (Ieee F)) pts x = .ok (.ok (y₀ + (y₁ - y₀) / (x₁ - x₀) * (x - x₀))) := by
  obtain ⟨ha, hb⟩ := h
  obtain ⟨hi0, ha'⟩ := List.getElem?_eq_some_iff.1 ha
  obtain ⟨hi1, hb'⟩ := List.getElem?_eq_some_iff.1 hb
  rw [evaluate_linear]
  unfold Linear.tryValue
  have hf' : ∀ p ∈ pts.map fun p => (⟨p.1, p.2⟩ : Point2D (Ieee F)), IsFinite p.x := by
    intro p hp
    obtain ⟨q, hq, rfl⟩ := List.mem_map.1 hp
    exact hf q hq
  have hfind : findIndexAtLeftBoundary (pts.map fun p => (⟨p.1, p.2⟩ : Point2D (Ieee F))) x = .ok i := by
    refine ((findIndex_map (fun p : Point2D (Ieee F) => (⟨p.x.toFl, p.y.toFl⟩ : Point2D (Fl F.arith))) _ x x.toFl
      (fun p hp => Ieee.lt_toFl (hf' p hp) hx) (fun p hp => Ieee.le_toFl (hf' p hp) hx)).1 i).2 ?_
    rw [List.map_map]
    refine findIndex_bracket (V := Fl F.arith) ?_ (by simpa using hi1) ?_ ?_
    · rw [List.pairwise_map]
      refine List.Pairwise.imp_of_mem ?_ hs
      intro p q hp hq hpq
      exact (Ieee.le_toFl (hf p hp) (hf q hq)).1 (Ieee.le_of_lt' hpq)
    · simp only [List.getElem_map, ha']
      exact (Ieee.lt_toFl (hf _ (List.mem_of_getElem? ha)) hx).1 h0
    · simp only [List.getElem_map, hb']
      exact (Ieee.le_toFl hx (hf _ (List.mem_of_getElem? hb))).1 h1
  rw [hfind]
  have e1 : Rust.index (pts.map fun p => (⟨p.1, p.2⟩ : Point2D (Ieee F))) i = .ok ⟨x₀, y₀⟩ :=
    Rust.index_of_eq (by simp [ha])
  have e2 : Rust.index (pts.map fun p => (⟨p.1, p.2⟩ : Point2D (Ieee F))) (i + 1) = .ok ⟨x₁, y₁⟩ :=
    Rust.index_of_eq (by simp [hb])
  simp only [e1, e2]
  rfl

/-- **C87.** In `f32` and `f64`, with overflow and underflow: interpolating strictly increasing data of moderate
magnitude between two nodes gives a finite number, with the accuracy of C71.  For `f64` magnitudes from `2 ^ -305` to
`2 ^ 305` are moderate, for `f32` from `2 ^ -26` to `2 ^ 26`.  Missing for the full property: data beyond, and repeated
abscissae. -/
theorem C87_linear_partial (k : Nat) (hk : 3 * k + 2 * F.prec ≤ F.emax) (pts : List (Ieee F × Ieee F))
    (hs : StrictlyIncreasing pts) (hm : ∀ p ∈ pts, Moderate k p.1 ∧ Moderate k p.2) (i : Nat) (x₀ y₀ x₁ y₁ x : Ieee F)
    (hx : Moderate k x) (h : IsSegment pts i x₀ y₀ x₁ y₁) (h0 : x₀ < x) (h1 : x ≤ x₁) (a b c d z : ℝ)
    (ha : IsNumber x₀ a) (hb : IsNumber y₀ b) (hc : IsNumber x₁ c) (hd : IsNumber y₁ d) (hz : IsNumber x z) :
    ∃ v r, evaluate (Interpolator.linear (Ieee F)) pts x = .ok (.ok v) ∧ IsNumber v r ∧
      |r - lineThrough a b c d z| ≤ roundoff F * |lineThrough a b c d z| + 6 * roundoff F * |d - b| := by
  have m0 := hm _ (List.mem_of_getElem? h.1)
  have m1 := hm _ (List.mem_of_getElem? h.2)
  have hac : x₀ < x₁ := (Ieee.lt_number ha hc).2 (lt_of_lt_of_le ((Ieee.lt_number ha hz).1 h0) ((Ieee.le_number hz hc).1 h1))
  refine ⟨_, _, ieee_linear_eval pts hs (fun p hp => moderate_finite (hm p hp).1) i _ _ _ _ x (moderate_finite hx) h h0 h1,
    linear_steps k hk m0.1 m0.2 m1.1 m1.2 hx hac, ?_⟩
  have := line_error x₀.toFl y₀.toFl x₁.toFl y₁.toFl x.toFl ((Ieee.lt_toFl ⟨a, ha⟩ ⟨z, hz⟩).1 h0)
    ((Ieee.le_toFl ⟨z, hz⟩ ⟨c, hc⟩).1 h1)
  simp only [Ieee.toFl_val ha, Ieee.toFl_val hb, Ieee.toFl_val hc, Ieee.toFl_val hd, Ieee.toFl_val hz] at this
  exact this

example : ∃ x v : Ieee .binary64, IsNumber x (1 / 2) ∧
    evaluate (Interpolator.linear (Ieee .binary64)) [(0, 1), (1, 0)] x = .ok (.ok v) ∧ IsFinite v := by
  obtain ⟨x, hx⟩ := IeeeFormat.exists_number (representable_dyadic (F := .binary64) 1 1 (by norm_num [IeeeFormat.binary64])
    (by norm_num [IeeeFormat.binary64]))
  norm_num at hx
  have m0 : Moderate 200 (0 : Ieee .binary64) := ⟨0, Ieee.zero_number, Or.inl rfl⟩
  have m1 : Moderate 200 (1 : Ieee .binary64) := ⟨1, Ieee.one_number, Or.inr (by norm_num)⟩
  have mx : Moderate 200 x := ⟨_, hx, Or.inr (by norm_num)⟩
  obtain ⟨v, r, hv, hr, -⟩ := C87_linear_partial 200 (by norm_num [IeeeFormat.binary64]) [(0, 1), (1, 0)]
    (by simp [StrictlyIncreasing, zero_lt_one']) (by simp [m0, m1]) 0 0 1 1 0 x mx ⟨rfl, rfl⟩
    ((Ieee.lt_number Ieee.zero_number hx).2 (by norm_num)) ((Ieee.le_number hx Ieee.one_number).2 (by norm_num))
    0 1 1 0 _ Ieee.zero_number Ieee.one_number Ieee.one_number Ieee.zero_number hx
  exact ⟨x, v, by norm_num; exact hx, hv, r, hr⟩

/-- The value computed at the first node of finite data. -/
theorem ieee_linear_first (x₀ y₀ x₁ y₁ : Ieee F) (rest : List (Ieee F × Ieee F))
    (hs : StrictlyIncreasing ((x₀, y₀) :: (x₁, y₁) :: rest))
    (hf : ∀ p ∈ (x₀, y₀) :: (x₁, y₁) :: rest, IsFinite p.1) :
    evaluate (Interpolator.linear (Ieee F)) ((x₀, y₀) :: (x₁, y₁) :: rest) x₀ =
      .ok (.ok (y₀ + (y₁ - y₀) / (x₁ - x₀) * (x₀ - x₀))) := by
  rw [evaluate_linear]
  unfold Linear.tryValue
  have hf' : ∀ p ∈ ((x₀, y₀) :: (x₁, y₁) :: rest).map fun p => (⟨p.1, p.2⟩ : Point2D (Ieee F)), IsFinite p.x := by
    intro p hp
    obtain ⟨q, hq, rfl⟩ := List.mem_map.1 hp
    exact hf q hq
  have hx : IsFinite x₀ := hf (x₀, y₀) (by simp)
  have hfind : findIndexAtLeftBoundary (((x₀, y₀) :: (x₁, y₁) :: rest).map fun p => (⟨p.1, p.2⟩ : Point2D (Ieee F))) x₀ =
      .ok 0 := by
    refine ((findIndex_map (fun p : Point2D (Ieee F) => (⟨p.x.toFl, p.y.toFl⟩ : Point2D (Fl F.arith))) _ x₀ x₀.toFl
      (fun p hp => Ieee.lt_toFl (hf' p hp) hx) (fun p hp => Ieee.le_toFl (hf' p hp) hx)).1 0).2 ?_
    rw [List.map_map]
    refine findIndex_first (V := Fl F.arith) (p := (⟨x₀.toFl, y₀.toFl⟩ : Point2D (Fl F.arith))) ?_
    have : (List.map ((fun p : Point2D (Ieee F) => (⟨p.x.toFl, p.y.toFl⟩ : Point2D (Fl F.arith))) ∘
        fun p : Ieee F × Ieee F => (⟨p.1, p.2⟩ : Point2D (Ieee F))) ((x₀, y₀) :: (x₁, y₁) :: rest)).Pairwise
        fun p q => (HasX.x p : Fl F.arith) ≤ HasX.x q := by
      rw [List.pairwise_map]
      refine List.Pairwise.imp_of_mem ?_ hs
      intro p q hp hq hpq
      exact (Ieee.le_toFl (hf p hp) (hf q hq)).1 (Ieee.le_of_lt' hpq)
    exact this
  rw [hfind]
  rfl

/-- **C87.** At the first node the value is exact. -/
theorem C87_linear_first_partial (k : Nat) (hk : 3 * k + 2 * F.prec ≤ F.emax) (x₀ y₀ x₁ y₁ : Ieee F)
    (rest : List (Ieee F × Ieee F)) (hs : StrictlyIncreasing ((x₀, y₀) :: (x₁, y₁) :: rest))
    (hm : ∀ p ∈ (x₀, y₀) :: (x₁, y₁) :: rest, Moderate k p.1 ∧ Moderate k p.2) (b : ℝ) (hb : IsNumber y₀ b) :
    ∃ v, evaluate (Interpolator.linear (Ieee F)) ((x₀, y₀) :: (x₁, y₁) :: rest) x₀ = .ok (.ok v) ∧ IsNumber v b := by
  have m0 := hm (x₀, y₀) (by simp)
  have m1 := hm (x₁, y₁) (by simp)
  have hac : x₀ < x₁ := (List.pairwise_cons.1 hs).1 (x₁, y₁) (by simp)
  have n := linear_steps k hk m0.1 m0.2 m1.1 m1.2 m0.1 hac
  simp only [Fl.sub_self', Fl.mul_zero', Fl.add_zero', Ieee.toFl_val hb] at n
  exact ⟨_, ieee_linear_first _ _ _ _ _ hs (fun p hp => moderate_finite (hm p hp).1), n⟩

example : ∃ v : Ieee .binary32, evaluate (Interpolator.linear (Ieee .binary32)) [(0, 1), (1, 0)] 0 = .ok (.ok v) ∧
    IsNumber v 1 := by
  have m0 : Moderate 26 (0 : Ieee .binary32) := ⟨0, Ieee.zero_number, Or.inl rfl⟩
  have m1 : Moderate 26 (1 : Ieee .binary32) := ⟨1, Ieee.one_number, Or.inr (by norm_num)⟩
  exact C87_linear_first_partial 26 (by norm_num [IeeeFormat.binary32]) 0 1 1 0 []
    (by simp [StrictlyIncreasing, zero_lt_one']) (by simp [m0, m1]) 1 Ieee.one_number

/-! ### What goes wrong beyond -/

/-- Twice the largest number needs only a larger exponent. -/
theorem round_double_largest (F : IeeeFormat) : F.round (F.largest + F.largest) = F.largest + F.largest := by
  rw [F.round_add F.largest_representable.1 F.largest_representable.1, F.arith_fl]
  have := Binary.roundTo_rep (p := F.prec) F.one_le_prec (2 ^ F.prec - 1) ((F.emax : ℤ) - F.prec + 1 + 1) (by
    have : (1 : ℤ) ≤ 2 ^ F.prec := one_le_pow₀ (by norm_num)
    rw [abs_of_nonneg (by omega)]; omega)
  have e2 : F.largest + F.largest = ((2 ^ F.prec - 1 : ℤ) : ℝ) * 2 ^ ((F.emax : ℤ) - F.prec + 1 + 1) := by
    rw [zpow_add_one₀ (by norm_num)]
    unfold IeeeFormat.largest
    push_cast; ring
  rw [e2]; exact this

/-- Twice the largest number rounds to infinity. -/
theorem double_largest (F : IeeeFormat) (s : Bool) : Ieee.ofReal F s (F.largest + F.largest) = .inf false := by
  have h0 := F.largest_pos
  rw [Ieee.ofReal_inf (by rw [round_double_largest, abs_of_pos (by linarith)]; linarith)]
  unfold Ieee.signOf
  rw [if_neg (by linarith)]
  congr 1
  simp [h0.le]

/-- **C87 (violated).** In every format: the straight line from `-L` at 0 to `L` at 1, where `L` is the largest number,
gives NaN at 0 and infinity at 1, the nodes. -/
theorem C87_refuted_overflow (F : IeeeFormat) : ∃ l m : Ieee F, IsNumber l F.largest ∧ IsNumber m (-F.largest) ∧
    evaluate (Interpolator.linear (Ieee F)) [(0, m), (1, l)] 0 = .ok (.ok .nan) ∧
    evaluate (Interpolator.linear (Ieee F)) [(0, m), (1, l)] 1 = .ok (.ok (.inf false)) := by
  set l : Ieee F := .fin false F.largest (F.largest_pos).le (F.largest_representable) with hl
  have nl : IsNumber l F.largest := ⟨_, _, _, rfl⟩
  have nm := Ieee.neg_number nl
  have h01 : (0 : Ieee F) < 1 := (Ieee.lt_number Ieee.zero_number Ieee.one_number).2 (by norm_num)
  have n10 : ¬ (1 : Ieee F) < 0 := by rw [Ieee.lt_number Ieee.one_number Ieee.zero_number]; norm_num
  have n00 := Ieee.lt_irrefl (0 : Ieee F)
  have n11 := Ieee.lt_irrefl (1 : Ieee F)
  have le00 : (0 : Ieee F) ≤ 0 := (Ieee.le_number Ieee.zero_number Ieee.zero_number).2 le_rfl
  have rise : l - -l = .inf false := by
    have : l - -l = Ieee.ofReal F (false && !(!false)) (F.largest + - -F.largest) := rfl
    rw [this, neg_neg]
    exact double_largest F _
  have run : (1 : Ieee F) - 0 = 1 := by
    have e : (1 : Ieee F) - 0 = Ieee.ofReal F (false && !false) (1 + -0) := rfl
    have r1 : F.Representable 1 := Ieee.rep_of_isNumber Ieee.one_number
    rw [e, neg_zero, add_zero]
    unfold Ieee.ofReal
    rw [dif_pos (by rw [r1.1]; exact r1.2)]
    change _ = Ieee.fin false 1 _ _
    congr 1
    · simp [Ieee.signOf]
    · exact r1.1
  have z0 : (0 : Ieee F) - 0 = 0 := by
    have e : (0 : Ieee F) - 0 = Ieee.ofReal F (false && !false) (0 + -0) := rfl
    have r0 : F.Representable 0 := Ieee.rep_of_isNumber Ieee.zero_number
    rw [e, neg_zero, add_zero]
    unfold Ieee.ofReal
    rw [dif_pos (by rw [r0.1]; exact r0.2)]
    change _ = Ieee.fin false 0 _ _
    congr 1
    · simp [Ieee.signOf]
    · exact r0.1
  have slope : (.inf false : Ieee F) / 1 = .inf false := rfl
  have m0 : (.inf false : Ieee F) * 0 = .nan := by
    change (if (0 : ℝ) = 0 then (.nan : Ieee F) else _) = _
    rw [if_pos rfl]
  have m1 : (.inf false : Ieee F) * 1 = .inf false := by
    change (if (1 : ℝ) = 0 then (.nan : Ieee F) else _) = _
    rw [if_neg one_ne_zero]; rfl
  have s1 : -l + (.inf false : Ieee F) = .inf false := rfl
  refine ⟨l, -l, nl, nm, ?_, ?_⟩
  · rw [evaluate_linear]
    unfold Linear.tryValue
    have : findIndexAtLeftBoundary ([((0 : Ieee F), -l), (1, l)].map fun p => (⟨p.1, p.2⟩ : Point2D (Ieee F))) 0 = .ok 0 := by
      refine (findIndex_of_cut _ _ _ 0 (by omega) ?_).trans (if_pos ⟨rfl, le00⟩)
      intro i hi
      match i, hi with
      | 0, _ => exact iff_of_false (fun e => n00 (of_decide_eq_true e)) (by omega)
      | 1, _ => exact iff_of_false (fun e => n10 (of_decide_eq_true e)) (by omega)
    rw [this]
    change (Rust.ok (Except.ok (-l + (l - -l) / (1 - 0) * ((0 : Ieee F) - 0))) : Rust (Except _ _)) = _
    rw [rise, run, slope, z0, m0, Ieee.add_nan]
  · rw [evaluate_linear]
    unfold Linear.tryValue
    have : findIndexAtLeftBoundary ([((0 : Ieee F), -l), (1, l)].map fun p => (⟨p.1, p.2⟩ : Point2D (Ieee F))) 1 = .ok 0 := by
      refine (findIndex_of_cut _ _ _ 1 (by simp) ?_).trans
        ((if_neg (by simp)).trans ((if_neg (by simp)).trans ((if_neg (by simp)).trans rfl)))
      intro i hi
      match i, hi with
      | 0, _ => exact iff_of_true (decide_eq_true h01) (by omega)
      | 1, _ => exact iff_of_false (fun e => n11 (of_decide_eq_true e)) (by omega)
    rw [this]
    change (Rust.ok (Except.ok (-l + (l - -l) / (1 - 0) * ((1 : Ieee F) - 0))) : Rust (Except _ _)) = _
    rw [rise, run, slope, m1, s1]

theorem anything_over_zero (d : Ieee F) (s t : Bool) (h r h' r') :
    d / .fin s 0 h r * .fin t 0 h' r' = .nan := by
  cases d with
  | nan => rfl
  | inf u =>
    change (if (0 : ℝ) = 0 then (.nan : Ieee F) else _) = _
    rw [if_pos rfl]
  | fin u x hu hx =>
    change (if (0 : ℝ) = 0 then (if x = 0 then (.nan : Ieee F) else .inf (u ^^ s)) else _) * _ = _
    rw [if_pos rfl]
    by_cases h0 : x = 0
    · rw [if_pos h0]; rfl
    · rw [if_neg h0]
      change (if (0 : ℝ) = 0 then (.nan : Ieee F) else _) = _
      rw [if_pos rfl]

/-- **C87 (violated).** In every format: if the first two nodes share their abscissa, the value there is NaN, whatever the
ordinates are. -/
theorem C87_refuted_repeated (x : Ieee F) (hx : IsFinite x) (y₀ y₁ : Ieee F) (rest : List (Ieee F × Ieee F))
    (hr : ∀ p ∈ rest, x ≤ p.1) :
    evaluate (Interpolator.linear (Ieee F)) ((x, y₀) :: (x, y₁) :: rest) x = .ok (.ok .nan) := by
  obtain ⟨a, ha⟩ := hx
  have lexx : x ≤ x := (Ieee.le_number ha ha).2 le_rfl
  have nl : ∀ z : Ieee F, x ≤ z → ¬ z < x := by
    rintro z ⟨u, v, e1, e2, h⟩ ⟨u', v', f1, f2, h'⟩
    rw [e2] at f1; rw [e1] at f2
    cases f1; cases f2
    exact absurd h' (not_lt.2 h)
  rw [evaluate_linear]
  unfold Linear.tryValue
  have : findIndexAtLeftBoundary (((x, y₀) :: (x, y₁) :: rest).map fun p => (⟨p.1, p.2⟩ : Point2D (Ieee F))) x = .ok 0 := by
    refine (findIndex_of_cut _ _ _ 0 (by omega) ?_).trans (if_pos ⟨rfl, lexx⟩)
    intro i hi
    refine iff_of_false (fun e => ?_) (by omega)
    refine nl _ ?_ (of_decide_eq_true e)
    match i, hi with
    | 0, _ => exact lexx
    | 1, _ => exact lexx
    | i + 2, hi =>
      have hi' : i < rest.length := by simpa using hi
      have e2 : (HasX.x (((x, y₀) :: (x, y₁) :: rest).map fun p => (⟨p.1, p.2⟩ : Point2D (Ieee F)))[i + 2] : Ieee F) =
          rest[i].1 := by
        simp only [List.map_cons, List.getElem_cons_succ, List.getElem_map]
        rfl
      exact e2 ▸ hr _ (List.getElem_mem hi')
  rw [this]
  change (Rust.ok (Except.ok (y₀ + (y₁ - y₀) / (x - x) * (x - x))) : Rust (Except _ _)) = _
  obtain ⟨s, h, r, e⟩ : ∃ s h r, x - x = .fin s 0 h r := by
    have := Ieee.sub_number ha ha (by rw [sub_self, abs_zero]; exact (F.largest_pos).le)
    rw [sub_self, F.arith.fl_zero] at this
    exact this
  rw [e, anything_over_zero, Ieee.add_nan]

example : evaluate (Interpolator.linear (Ieee .binary64)) [(0, 1), (0, 0), (1, 1)] 0 = .ok (.ok .nan) :=
  C87_refuted_repeated 0 ⟨0, Ieee.zero_number⟩ 1 0 [(1, 1)] (by
    intro p hp
    simp only [List.mem_singleton] at hp
    subst hp
    exact Ieee.le_of_lt' zero_lt_one')

/-- A Hermite spline that can be built: its abscissae do not decrease. -/
example (s : Hermite (Ieee .binary64)) (h : Hermite.tryNew [((0 : Ieee .binary64), 1, 1), (1, 0, 1)] = .ok (.ok s)) :
    [((0 : Ieee .binary64), (1 : Ieee .binary64), (1 : Ieee .binary64)), (1, 0, 1)].Pairwise fun p q => p.1 ≤ q.1 :=
  C86_hermite_partial _ (by
    intro p hp
    simp only [List.mem_cons, List.not_mem_nil, or_false] at hp
    rcases hp with rfl | rfl <;> rintro ⟨⟩) s h

end Qlab.Props
