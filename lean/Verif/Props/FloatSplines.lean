import Verif.Lemmas.FloatError
import Verif.Lemmas.CatmullRom
import Verif.Props.Hermite
import Verif.Spec.Smooth

/-!
# Hermite and Catmull-Rom splines in floating-point arithmetic (C75, C78)
-/

namespace Qlab.Props

open Spec

/-- The index found in a half-open segment, or at the first node. -/
theorem findIndex_at {V P : Type} [HasX P V] [LinearOrder V] {points : List P}
    (hs : points.Pairwise fun p q => HasX.x p < HasX.x q) {x : V} {i : Nat} (hi : i + 1 < points.length)
    (h1 : HasX.x points[i] < x ∨ (i = 0 ∧ HasX.x points[i] = x)) (h2 : x ≤ HasX.x points[i + 1]) :
    findIndexAtLeftBoundary points x = .ok i := by
  have hs' : points.Pairwise fun p q => HasX.x p ≤ HasX.x q := hs.imp le_of_lt
  rcases h1 with h1 | ⟨rfl, h1⟩
  · exact findIndex_bracket hs' hi h1 h2
  · cases points with
    | nil => simp at hi
    | cons p ps => rw [← h1]; exact findIndex_first hs'

/-- Every point of the range is in a half-open segment, or is the first node. -/
theorem exists_index {V W : Type} [LinearOrder V] {pts : List (V × W)} (hs : StrictlyIncreasing pts)
    (h2 : 2 ≤ pts.length) {x : V} (hx : InRange pts x) :
    ∃ i, ∃ hi : i + 1 < pts.length, (pts[i].1 < x ∨ (i = 0 ∧ pts[i].1 = x)) ∧ x ≤ pts[i + 1].1 := by
  by_cases h : pts[0].1 < x
  · obtain ⟨i, hi, h0, h1⟩ := exists_bracket_left hs h2 hx h
    exact ⟨i, hi, Or.inl h0, h1⟩
  · have hle : pts[0].1 ≤ x := by
      obtain ⟨⟨p, hp, hpx⟩, -⟩ := hx
      obtain ⟨j, hj, rfl⟩ := List.getElem_of_mem hp
      rcases Nat.eq_zero_or_pos j with rfl | hj0
      · exact hpx
      · exact le_trans (le_of_lt (List.pairwise_iff_getElem.1 hs 0 j (by omega) hj hj0)) hpx
    have he : pts[0].1 = x := le_antisymm hle (not_lt.1 h)
    refine ⟨0, by omega, Or.inr ⟨rfl, he⟩, ?_⟩
    rw [← he]
    exact le_of_lt (List.pairwise_iff_getElem.1 hs 0 1 (by omega) (by omega) (by omega))

section
variable {V : Type} [Zero V] [One V] [Neg V] [Add V] [Sub V] [Mul V] [Div V]

/-- The expression the code evaluates in a segment of a Hermite spline, `k` being the conversion of integers. -/
def hermiteExpr (k : Int → V) (x₀ y₀ m₀ x₁ y₁ m₁ x : V) : V :=
  let h := x₁ - x₀
  let t := (x - x₀) / h
  let m : Mat4 V := ⟨⟨k 2, k (-2), 1, 1⟩, ⟨k (-3), k 3, k (-2), -1⟩, ⟨0, 0, 1, 0⟩, ⟨1, 0, 0, 0⟩⟩
  let d : Vec4 V := ⟨t * t * t, t * t, t, 1⟩
  (d.mulMat m).dot ⟨y₀, y₁, m₀ * h, m₁ * h⟩

theorem hermite_eval [LinearOrder V] [FromInt V] (k : Int → V) (hk : ∀ n, FromInt.fromInt (V := V) n = some (k n))
    {pts : List (V × V × V)} (hs : StrictlyIncreasing pts) {i : Nat} {x₀ y₀ m₀ x₁ y₁ m₁ x : V}
    (e0 : pts[i]? = some (x₀, y₀, m₀)) (e1 : pts[i + 1]? = some (x₁, y₁, m₁))
    (h0 : x₀ < x ∨ (i = 0 ∧ x₀ = x)) (h1 : x ≤ x₁) :
    evaluateHermite pts x = .ok (.ok (hermiteExpr k x₀ y₀ m₀ x₁ y₁ m₁ x)) := by
  obtain ⟨hi0, a0⟩ := List.getElem?_eq_some_iff.1 e0
  obtain ⟨hi, a1⟩ := List.getElem?_eq_some_iff.1 e1
  have hI : ∀ n, fromI8 V n = .ok (k n) := by intro n; unfold fromI8; rw [hk]; rfl
  have hnd := neverDecreasing_of_strict hs
  have hs' : (pts.map fun p => Point2DWithSlope.new p.1 p.2.1 p.2.2).Pairwise
      fun p q => (HasX.x p : V) < HasX.x q := by
    rw [List.pairwise_map]; exact hs
  have hf := findIndex_at hs' (i := i) (x := x) (by simpa using hi)
    (by simp only [List.getElem_map, a0]; exact h0) (by simp only [List.getElem_map, a1]; exact h1)
  have f0 : Rust.index (pts.map fun p => Point2DWithSlope.new p.1 p.2.1 p.2.2) i = .ok ⟨⟨x₀, y₀⟩, m₀⟩ :=
    Rust.index_of_eq (by simp [e0, Point2DWithSlope.new])
  have f1 : Rust.index (pts.map fun p => Point2DWithSlope.new p.1 p.2.1 p.2.2) (i + 1) = .ok ⟨⟨x₁, y₁⟩, m₁⟩ :=
    Rust.index_of_eq (by simp [e1, Point2DWithSlope.new])
  cases pts with
  | nil => simp at hi
  | cons p ps =>
    have hc := (Hermite.collect_eq p.1 p.2 (p :: ps)).1 ((neverDecreasing_cons_self p ps).2 hnd)
    unfold evaluateHermite Hermite.tryNew
    simp only [Rust.index_of_lt (l := p :: ps) (i := 0) (by simp), List.getElem_cons_zero, Rust.ok_bind, hc, hI,
      Rust.pure_eq]
    unfold Hermite.tryValue
    simp only [hf, f0, f1]
    rfl

end

variable {A : FloatArith}

theorem round_int (n : ℤ) (h : |n| ≤ 100) : (Fl.round A (n : ℝ)).val = n := by
  rw [Fl.val_round, round_small n h]

theorem Fl.add_int {a b : Fl A} {m n : ℤ} (ha : a.val = m) (hb : b.val = n) (h : |m + n| ≤ 100) :
    (a + b).val = ((m + n : ℤ) : ℝ) := by
  rw [Fl.val_add, ha, hb, ← round_small (A := A) (m + n) h]; push_cast; rfl

/-- At the right end of a segment the expression is exact. -/
theorem hermiteExpr_right (x₀ y₀ m₀ x₁ y₁ m₁ : Fl A) (h : x₀ < x₁) :
    hermiteExpr (fun n => Fl.round A (n : ℝ)) x₀ y₀ m₀ x₁ y₁ m₁ x₁ = y₁ := by
  have hne : x₁ - x₀ ≠ 0 := by
    intro hc
    have := Fl.sub_pos' h
    rw [hc, Fl.val_zero] at this
    exact lt_irrefl _ this
  simp only [hermiteExpr, Fl.div_self' hne, Fl.one_mul', Vec4.mulMat, Vec4.dot, Fl.zero_add', Fl.mul_zero']
  have c1 : (1 : Fl A) + (Fl.round A ((-3 : ℤ) : ℝ) + Fl.round A ((2 : ℤ) : ℝ)) = 0 := by
    ext
    have e1 := Fl.add_int (round_int (A := A) (-3) (by norm_num)) (round_int (A := A) 2 (by norm_num)) (by norm_num)
    have e2 := Fl.add_int (a := (1 : Fl A)) (m := 1) (by rw [Fl.val_one]; norm_num) e1 (by norm_num)
    rw [e2, Fl.val_zero]; norm_num
  have c2 : Fl.round A ((3 : ℤ) : ℝ) + Fl.round A ((-2 : ℤ) : ℝ) = 1 := by
    ext
    have e1 := Fl.add_int (round_int (A := A) 3 (by norm_num)) (round_int (A := A) (-2) (by norm_num)) (by norm_num)
    rw [e1, Fl.val_one]; norm_num
  have c3 : (1 : Fl A) + (Fl.round A ((-2 : ℤ) : ℝ) + 1) = 0 := by
    ext
    have e1 := Fl.add_int (round_int (A := A) (-2) (by norm_num)) (b := (1 : Fl A)) (n := 1)
      (by rw [Fl.val_one]; norm_num) (by norm_num)
    have e2 := Fl.add_int (a := (1 : Fl A)) (m := 1) (by rw [Fl.val_one]; norm_num) e1 (by norm_num)
    rw [e2, Fl.val_zero]; norm_num
  have c4 : (-1 : Fl A) + 1 = 0 := by
    ext
    rw [Fl.val_add, Fl.val_neg, neg_add_cancel, A.fl_zero, Fl.val_zero]
  simp only [c1, c2, c3, c4, Fl.zero_mul', Fl.one_mul', Fl.add_zero', Fl.zero_add']

/-- At the left end of a segment the expression is exact. -/
theorem hermiteExpr_left (x₀ y₀ m₀ x₁ y₁ m₁ : Fl A) :
    hermiteExpr (fun n => Fl.round A (n : ℝ)) x₀ y₀ m₀ x₁ y₁ m₁ x₀ = y₀ := by
  simp only [hermiteExpr, Fl.sub_self', Fl.zero_div', Fl.zero_mul', Fl.one_mul', Vec4.mulMat, Vec4.dot, Fl.add_zero',
    Fl.zero_add', Fl.mul_zero']

/-- **C75.** A Hermite spline in floating point returns the given ordinate at every node, exactly. -/
theorem C75_hermite_partial (pts : List (Fl A × Fl A × Fl A)) (hs : StrictlyIncreasing pts) (h2 : 2 ≤ pts.length)
    (x y m : Fl A) (h : (x, y, m) ∈ pts) : evaluateHermite pts x = .ok (.ok y) := by
  obtain ⟨j, hj, e⟩ := List.getElem_of_mem h
  have pw := List.pairwise_iff_getElem.1 hs
  rcases Nat.eq_zero_or_pos j with rfl | hj0
  · have a1 : pts[1]? = some (pts[1].1, pts[1].2.1, pts[1].2.2) := List.getElem?_eq_getElem (by omega)
    have a0 : pts[0]? = some (x, y, m) := by rw [List.getElem?_eq_getElem (by omega), e]
    have hle : x ≤ pts[1].1 := by
      have := pw 0 1 (by omega) (by omega) (by omega)
      rw [e] at this; exact this.le
    rw [hermite_eval _ Fl.fromInt_eq hs a0 a1 (Or.inr ⟨rfl, rfl⟩) hle, hermiteExpr_left]
  · obtain ⟨i, rfl⟩ : ∃ i, j = i + 1 := ⟨j - 1, by omega⟩
    have a0 : pts[i]? = some (pts[i].1, pts[i].2.1, pts[i].2.2) := List.getElem?_eq_getElem (by omega)
    have a1 : pts[i + 1]? = some (x, y, m) := by rw [List.getElem?_eq_getElem hj, e]
    have hlt : pts[i].1 < x := by
      have := pw i (i + 1) (by omega) (by omega) (by omega)
      rw [e] at this; exact this
    rw [hermite_eval _ Fl.fromInt_eq hs a0 a1 (Or.inl hlt) (le_refl _), hermiteExpr_right _ _ _ _ _ _ hlt]

/-! ## Accuracy -/

theorem hermiteExpr_approx {x₀ y₀ m₀ x₁ y₁ m₁ x : Fl A} {S : ℝ} (h0 : x₀ ≤ x) (h1 : x ≤ x₁) (hlt : x₀ < x₁)
    (b0 : |y₀.val| ≤ S) (b1 : |y₁.val| ≤ S) (b2 : |m₀.val * (x₁.val - x₀.val)| ≤ S)
    (b3 : |m₁.val * (x₁.val - x₀.val)| ≤ S) :
    Approx S (hermiteExpr (fun n => Fl.round A (n : ℝ)) x₀ y₀ m₀ x₁ y₁ m₁ x)
      (hermiteExpr (fun n => (n : ℝ)) x₀.val y₀.val m₀.val x₁.val y₁.val m₁.val x.val) 17 280 := by
  have hS : 0 ≤ S := le_trans (abs_nonneg _) b0
  have d1 := approx_position h0 h1 hlt
  have d2 := (d1.mul d1 (by norm_num) (by norm_num [Small]) (by norm_num [Small])).mono (B' := 1) (e' := 7.12)
    (by norm_num) (by norm_num) (by norm_num)
  have d3 := (d2.mul d1 (by norm_num) (by norm_num [Small]) (by norm_num [Small])).mono (B' := 1) (e' := 11.23)
    (by norm_num) (by norm_num) (by norm_num)
  have i2 := approx_int (A := A) 2 (by norm_num)
  have i2' := approx_int (A := A) (-2) (by norm_num)
  have i3 := approx_int (A := A) 3 (by norm_num)
  have i3' := approx_int (A := A) (-3) (by norm_num)
  have o := approx_one (A := A)
  have o' := o.neg
  have z := approx_zero (A := A) 1
  have f0 := Approx.exact (S := S) (B := 1) y₀ (by linarith)
  have f1 := Approx.exact (S := S) (B := 1) y₁ (by linarith)
  have f2 := (((CloseTo.refl m₀).mul (closeTo_sub x₁ x₀) (by norm_num) (by norm_num) (by norm_num)
    (by norm_num)).approx (S := S) (B := 1) (by norm_num) (by linarith)).mono (B' := 1) (e' := 2.01) hS (by norm_num)
    (by norm_num)
  have f3 := (((CloseTo.refl m₁).mul (closeTo_sub x₁ x₀) (by norm_num) (by norm_num) (by norm_num)
    (by norm_num)).approx (S := S) (B := 1) (by norm_num) (by linarith)).mono (B' := 1) (e' := 2.01) hS (by norm_num)
    (by norm_num)
  unfold hermiteExpr
  refine Approx.dot hS (a := 6) (b := 5) (c := 4) (d := 2) (p := 67) (q := 65) (r := 45) (s := 28) ?_ ?_ ?_ ?_
    f0 f1 f2 f3 (by norm_num [Small]) (by norm_num) (by norm_num) (by norm_num) (by norm_num)
  · exact Approx.dot (by norm_num) d3 d2 d1 o i2 i3' z o (by norm_num [Small]) (by norm_num) (by norm_num) (by norm_num)
      (by norm_num)
  · exact Approx.dot (by norm_num) d3 d2 d1 o i2' i3 z z (by norm_num [Small]) (by norm_num) (by norm_num)
      (by norm_num) (by norm_num)
  · exact Approx.dot (by norm_num) d3 d2 d1 o o i2' o z (by norm_num [Small]) (by norm_num) (by norm_num)
      (by norm_num) (by norm_num)
  · exact Approx.dot (by norm_num) d3 d2 d1 o o o' z z (by norm_num [Small]) (by norm_num) (by norm_num)
      (by norm_num) (by norm_num)

/-- **C78.** A Hermite spline in floating point differs from the spline computed exactly from the same points by at
most `280 u` times the largest of the two ordinates and the two slopes times the length of the segment. -/
theorem C78_hermite (pts : List (Fl A × Fl A × Fl A)) (hs : StrictlyIncreasing pts) (i : Nat)
    (x₀ y₀ m₀ x₁ y₁ m₁ x : Fl A) (e0 : pts[i]? = some (x₀, y₀, m₀)) (e1 : pts[i + 1]? = some (x₁, y₁, m₁))
    (h0 : x₀ ≤ x) (h1 : x ≤ x₁) (S : ℝ) (b0 : |y₀.val| ≤ S) (b1 : |y₁.val| ≤ S)
    (b2 : |m₀.val * (x₁.val - x₀.val)| ≤ S) (b3 : |m₁.val * (x₁.val - x₀.val)| ≤ S) :
    ∃ v w, evaluateHermite pts x = .ok (.ok v) ∧
      evaluateHermite (pts.map fun p => (p.1.val, p.2.1.val, p.2.2.val)) x.val = .ok (.ok w) ∧
      |v.val - w| ≤ 280 * unitRoundoff A * S := by
  obtain ⟨hi, a1⟩ := List.getElem?_eq_some_iff.1 e1
  obtain ⟨hi0, a0⟩ := List.getElem?_eq_some_iff.1 e0
  have hlt : x₀ < x₁ := by
    have := List.pairwise_iff_getElem.1 hs i (i + 1) (by omega) hi (by omega)
    rw [a0, a1] at this; exact this
  have hs' : StrictlyIncreasing (pts.map fun p => (p.1.val, p.2.1.val, p.2.2.val)) := by
    unfold StrictlyIncreasing
    rw [List.pairwise_map]
    exact hs.imp fun h => (Fl.lt_iff _ _).1 h
  have hS : 0 ≤ S := le_trans (abs_nonneg _) b0
  by_cases hc : x₀ < x ∨ (i = 0 ∧ x₀ = x)
  · have hc' : x₀.val < x.val ∨ (i = 0 ∧ x₀.val = x.val) :=
      hc.imp (fun h => (Fl.lt_iff _ _).1 h) (fun h => ⟨h.1, congrArg Fl.val h.2⟩)
    exact ⟨_, _, hermite_eval _ Fl.fromInt_eq hs e0 e1 hc h1,
      hermite_eval (fun n => (n : ℝ)) ExactCast.fromInt_eq hs' (by simp [e0]) (by simp [e1]) hc' ((Fl.le_iff _ _).1 h1),
      (hermiteExpr_approx h0 h1 hlt b0 b1 b2 b3).1⟩
  · have hx : x₀ = x := le_antisymm h0 (not_lt.1 fun h => hc (Or.inl h))
    subst hx
    have m1 : (x₀, y₀, m₀) ∈ pts := List.mem_of_getElem? e0
    refine ⟨y₀, y₀.val, C75_hermite_partial pts hs (by omega) _ _ _ m1,
      C37_nodes _ hs' (by simpa using (by omega : 2 ≤ pts.length)) _ _ m₀.val (List.mem_map.2 ⟨_, m1, rfl⟩), ?_⟩
    rw [sub_self, abs_zero]
    have := A.unit_pos
    positivity

/-- The cubic with given ends is the one the Hermite spline evaluates. -/
theorem hermiteCubic_eq_of_ends {p : ℝ → ℝ} {x₀ y₀ m₀ x₁ y₁ m₁ : ℝ} (h : x₀ < x₁)
    (hp : CubicWithEnds p x₀ y₀ m₀ x₁ y₁ m₁) {x : ℝ} : hermiteCubic x₀ y₀ m₀ x₁ y₁ m₁ x = p x := by
  obtain ⟨⟨a, b, c, d, hf⟩, r0, d0, r1, d1⟩ := hp
  have hd : ∀ z, HasDerivAt p (b + 2 * c * z + 3 * d * z ^ 2) z := by
    intro z
    have e : p = fun x => a + b * x + c * x ^ 2 + d * x ^ 3 := funext hf
    rw [e]
    have := ((((hasDerivAt_id z).const_mul b).const_add a).add (((hasDerivAt_id z).pow 2).const_mul c)).add
      (((hasDerivAt_id z).pow 3).const_mul d)
    refine this.congr_deriv ?_
    simp; ring
  have s0 := d0.unique (hd x₀)
  have s1 := d1.unique (hd x₁)
  rw [← r0, ← r1, s0, s1, hf, hf, hf]
  have hne : x₁ - x₀ ≠ 0 := sub_ne_zero.2 h.ne'
  simp only [hermiteCubic]
  field_simp
  ring

/-- **C78.** The Hermite spline in floating point against its definition: it is within `280 u S` of every cubic
that has the given ordinates and slopes at both ends of the segment. -/
theorem C78_hermite_cubic (pts : List (Fl A × Fl A × Fl A)) (hs : StrictlyIncreasing pts) (i : Nat)
    (x₀ y₀ m₀ x₁ y₁ m₁ x : Fl A) (e0 : pts[i]? = some (x₀, y₀, m₀)) (e1 : pts[i + 1]? = some (x₁, y₁, m₁))
    (h0 : x₀ ≤ x) (h1 : x ≤ x₁) (S : ℝ) (b0 : |y₀.val| ≤ S) (b1 : |y₁.val| ≤ S)
    (b2 : |m₀.val * (x₁.val - x₀.val)| ≤ S) (b3 : |m₁.val * (x₁.val - x₀.val)| ≤ S) (p : ℝ → ℝ)
    (hp : CubicWithEnds p x₀.val y₀.val m₀.val x₁.val y₁.val m₁.val) :
    ∃ v, evaluateHermite pts x = .ok (.ok v) ∧ |v.val - p x.val| ≤ 280 * unitRoundoff A * S := by
  obtain ⟨v, w, hv, hw, he⟩ := C78_hermite pts hs i x₀ y₀ m₀ x₁ y₁ m₁ x e0 e1 h0 h1 S b0 b1 b2 b3
  refine ⟨v, hv, ?_⟩
  obtain ⟨hi, a1⟩ := List.getElem?_eq_some_iff.1 e1
  obtain ⟨hi0, a0⟩ := List.getElem?_eq_some_iff.1 e0
  have hs' : StrictlyIncreasing (pts.map fun p => (p.1.val, p.2.1.val, p.2.2.val)) := by
    unfold StrictlyIncreasing
    rw [List.pairwise_map]
    exact hs.imp fun h => (Fl.lt_iff _ _).1 h
  have hlt : x₀.val < x₁.val := by
    have := List.pairwise_iff_getElem.1 hs i (i + 1) (by omega) hi (by omega)
    rw [a0, a1] at this; exact (Fl.lt_iff _ _).1 this
  have hseg := hermite_segment hs' (i := i) (x := x.val) (by simpa using hi)
    (by simp only [List.getElem_map, a0]; exact (Fl.le_iff _ _).1 h0)
    (by simp only [List.getElem_map, a1]; exact (Fl.le_iff _ _).1 h1)
  simp only [List.getElem_map, a0, a1] at hseg
  rw [hseg] at hw
  have hwe := Except.ok.inj (Rust.ok.inj hw)
  rw [← hwe] at he
  rwa [hermiteCubic_eq_of_ends hlt hp] at he

/-! ## Catmull-Rom -/

section
variable {V : Type} [Zero V] [One V] [Neg V] [Add V] [Sub V] [Mul V] [Div V]

/-- Powers of the position within the segment. -/
def crPowers (x₀ x₁ x : V) : Vec4 V :=
  let t := (x - x₀) / (x₁ - x₀)
  ⟨t * t * t, t * t, t, 1⟩

/-- The expression evaluated in the first segment. -/
def crFirstExpr (x₀ y₀ x₁ y₁ x₂ y₂ x : V) : V :=
  let beta := (x₁ - x₀) / ((x₁ - x₀) + (x₂ - x₁))
  let m : Mat4 V := ⟨⟨0, 1 - beta, -1, beta⟩, ⟨0, -1 + beta, 1, -beta⟩, ⟨0, -1, 1, 0⟩, ⟨0, 1, 0, 0⟩⟩
  (crPowers x₀ x₁ x).dot (m.mulVec ⟨0, y₀, y₁, y₂⟩)

/-- The expression evaluated in the last segment. -/
def crLastExpr (k : Int → V) (xp yp x₀ y₀ x₁ y₁ x : V) : V :=
  let alpha := (x₁ - x₀) / ((x₁ - x₀) + (x₁ - xp))
  let m : Mat4 V := ⟨⟨-alpha, 1, -1 * alpha, 0⟩, ⟨k 2 * alpha, k (-2), k 2 - k 2 * alpha, 0⟩,
    ⟨-alpha, 0, alpha, 0⟩, ⟨0, 1, 0, 0⟩⟩
  (crPowers x₀ x₁ x).dot (m.mulVec ⟨yp, y₀, y₁, 0⟩)

/-- The expression evaluated in the other segments. -/
def crInnerExpr (k : Int → V) (xp yp x₀ y₀ x₁ y₁ x₂ y₂ x : V) : V :=
  let alpha := (x₁ - x₀) / ((x₁ - x₀) + (x₁ - xp))
  let beta := (x₁ - x₀) / ((x₁ - x₀) + (x₂ - x₁))
  let m : Mat4 V := ⟨⟨-alpha, k 2 - beta, k (-2) + alpha, beta⟩,
    ⟨k 2 * alpha, beta - k 3, k 3 - k 2 * alpha, -beta⟩, ⟨-alpha, 0, alpha, 0⟩, ⟨0, 1, 0, 0⟩⟩
  (crPowers x₀ x₁ x).dot (m.mulVec ⟨yp, y₀, y₁, y₂⟩)

theorem catmullRom_eval [LinearOrder V] [FromInt V] (k : Int → V)
    (hk : ∀ n, FromInt.fromInt (V := V) n = some (k n)) {pts : List (V × V)} (hs : StrictlyIncreasing pts)
    (h3 : 3 ≤ pts.length) {i : Nat} (hi : i + 1 < pts.length) {x : V}
    (h0 : pts[i].1 < x ∨ (i = 0 ∧ pts[i].1 = x)) (h1 : x ≤ pts[i + 1].1) :
    evaluate (Interpolator.catmullRom V) pts x = .ok (.ok (
      if h : i = 0 then crFirstExpr pts[0].1 pts[0].2 pts[1].1 pts[1].2 pts[2].1 pts[2].2 x
      else if hl : i + 2 = pts.length then
        crLastExpr k pts[i - 1].1 pts[i - 1].2 pts[i].1 pts[i].2 pts[i + 1].1 pts[i + 1].2 x
      else crInnerExpr k pts[i - 1].1 pts[i - 1].2 pts[i].1 pts[i].2 pts[i + 1].1 pts[i + 1].2
        pts[i + 2].1 pts[i + 2].2 x)) := by
  have hI : ∀ n, fromI8 V n = .ok (k n) := by intro n; unfold fromI8; rw [hk]; rfl
  have hs' : (pts.map fun p => (⟨p.1, p.2⟩ : Point2D V)).Pairwise fun p q => (HasX.x p : V) < HasX.x q :=
    pairwise_map_point.2 hs
  have hf := findIndex_at hs' (i := i) (x := x) (by simpa using hi)
    (by simp only [List.getElem_map]; exact h0) (by simp only [List.getElem_map]; exact h1)
  have idx : ∀ j (hj : j < pts.length), Rust.index (pts.map fun p => (⟨p.1, p.2⟩ : Point2D V)) j =
      .ok ⟨pts[j].1, pts[j].2⟩ := by
    intro j hj
    rw [Rust.index_of_lt (by simpa using hj)]
    simp
  have hfit : evaluate (Interpolator.catmullRom V) pts x = CatmullRom.tryValue ⟨pts.map fun p => ⟨p.1, p.2⟩⟩ x := by
    have hnd := neverDecreasing_of_strict hs
    clear hf idx h0 h1
    cases pts with
    | nil => simp at h3
    | cons p ps =>
      have hc := (CatmullRom.collect_eq p.1 p.2 (p :: ps)).1 ((neverDecreasing_cons_self p ps).2 hnd)
      unfold evaluate Interpolator.catmullRom CatmullRom.tryFit
      simp only [if_neg (show ¬ (p :: ps).length < 3 by omega),
        Rust.index_of_lt (l := p :: ps) (i := 0) (by simp), List.getElem_cons_zero, Rust.ok_bind, hc, Rust.pure_eq]
  rw [hfit]
  unfold CatmullRom.tryValue
  simp only [hf, idx i (by omega), idx (i + 1) hi, Rust.ok_bind, List.length_map]
  by_cases h0 : i = 0
  · subst h0
    simp only [idx 2 (by omega), Rust.ok_bind, if_true, dif_pos, Nat.zero_add]
    rfl
  · simp only [h0, if_false, dite_false]
    by_cases hl : i + 2 = pts.length
    · simp only [hl, if_true, dite_true, idx (i - 1) (by omega), Rust.ok_bind, hI]
      rfl
    · simp only [hl, if_false, dite_false, idx (i - 1) (by omega), idx (i + 2) (by omega), Rust.ok_bind, hI]
      rfl

end

/-- One row of a matrix times the ordinates, with coefficients of known accuracy. -/
theorem crPowers_dot {x₀ x₁ x : Fl A} {S : ℝ} (hS : 0 ≤ S) (h0 : x₀ ≤ x) (h1 : x ≤ x₁) (hlt : x₀ < x₁)
    {v : Vec4 (Fl A)} {V : Vec4 ℝ} {a b c d p q r s : ℝ} (g1 : Approx S v.a V.a a p) (g2 : Approx S v.b V.b b q)
    (g3 : Approx S v.c V.c c r) (g4 : Approx S v.d V.d d s)
    (hs : Small a p ∧ Small b q ∧ Small c r ∧ Small d s) (hB : a + b + c + d ≤ 32)
    (he : 11.23 * a + p + (7.12 * b + q) + (3.01 * c + r) + s + 4 * a + 4 * b + 3 * c + 2 * d + 0.7 ≤ 430) :
    Approx S ((crPowers x₀ x₁ x).dot v) ((crPowers x₀.val x₁.val x.val).dot V) 32 430 := by
  have d1 := approx_position h0 h1 hlt
  have d2 := (d1.mul d1 (by norm_num) (by norm_num [Small]) (by norm_num [Small])).mono (B' := 1) (e' := 7.12)
    (by norm_num) (by norm_num) (by norm_num)
  have d3 := (d2.mul d1 (by norm_num) (by norm_num [Small]) (by norm_num [Small])).mono (B' := 1) (e' := 11.23)
    (by norm_num) (by norm_num) (by norm_num)
  exact Approx.dot hS d3 d2 d1 approx_one g1 g2 g3 g4 ⟨by norm_num [Small], hs⟩ (by linarith) (by norm_num)
    (by linarith) (by norm_num)

theorem crFirst_approx {x₀ y₀ x₁ y₁ x₂ y₂ x : Fl A} {S : ℝ} (h0 : x₀ ≤ x) (h1 : x ≤ x₁) (hlt : x₀ < x₁)
    (hlt2 : x₁ < x₂) (b0 : |y₀.val| ≤ S) (b1 : |y₁.val| ≤ S) (b2 : |y₂.val| ≤ S) :
    Approx S (crFirstExpr x₀ y₀ x₁ y₁ x₂ y₂ x) (crFirstExpr x₀.val y₀.val x₁.val y₁.val x₂.val y₂.val x.val) 32 430 := by
  have hS : 0 ≤ S := le_trans (abs_nonneg _) b0
  have z := approx_zero (A := A) 1
  have zS := approx_zero (A := A) S
  have o := approx_one (A := A)
  have o' := o.neg
  have f0 := Approx.exact (S := S) (B := 1) y₀ (by linarith)
  have f1 := Approx.exact (S := S) (B := 1) y₁ (by linarith)
  have f2 := Approx.exact (S := S) (B := 1) y₂ (by linarith)
  have be := approx_share hlt hlt2
  have c1 := (o.sub be (by norm_num) (by norm_num [Small]) (by norm_num [Small])).mono (B' := 2) (e' := 6.2)
    (by norm_num) (by norm_num) (by norm_num)
  have c2 := (o'.add be (by norm_num) (by norm_num [Small]) (by norm_num [Small])).mono (B' := 2) (e' := 6.2)
    (by norm_num) (by norm_num) (by norm_num)
  unfold crFirstExpr
  refine crPowers_dot hS h0 h1 hlt (a := 4) (b := 4) (c := 2) (d := 1) (p := 24) (q := 24) (r := 8) (s := 5) ?_ ?_ ?_ ?_
    (by norm_num [Small]) (by norm_num) (by norm_num)
  · exact Approx.dot hS z c1 o' be zS f0 f1 f2 (by norm_num [Small]) (by norm_num) (by norm_num) (by norm_num) (by norm_num)
  · exact Approx.dot hS z c2 o be.neg zS f0 f1 f2 (by norm_num [Small]) (by norm_num) (by norm_num) (by norm_num)
      (by norm_num)
  · exact Approx.dot hS z o' o z zS f0 f1 f2 (by norm_num [Small]) (by norm_num) (by norm_num) (by norm_num) (by norm_num)
  · exact Approx.dot hS z o z z zS f0 f1 f2 (by norm_num [Small]) (by norm_num) (by norm_num) (by norm_num) (by norm_num)

theorem crLast_approx {xp yp x₀ y₀ x₁ y₁ x : Fl A} {S : ℝ} (h0 : x₀ ≤ x) (h1 : x ≤ x₁) (hlt : x₀ < x₁)
    (hlt2 : xp < x₀) (bp : |yp.val| ≤ S) (b0 : |y₀.val| ≤ S) (b1 : |y₁.val| ≤ S) :
    Approx S (crLastExpr (fun n => Fl.round A (n : ℝ)) xp yp x₀ y₀ x₁ y₁ x)
      (crLastExpr (fun n => (n : ℝ)) xp.val yp.val x₀.val y₀.val x₁.val y₁.val x.val) 32 430 := by
  have hS : 0 ≤ S := le_trans (abs_nonneg _) b0
  have z := approx_zero (A := A) 1
  have zS := approx_zero (A := A) S
  have o := approx_one (A := A)
  have o' := o.neg
  have i2 := approx_int (A := A) 2 (by norm_num)
  have i2' := approx_int (A := A) (-2) (by norm_num)
  have fp := Approx.exact (S := S) (B := 1) yp (by linarith)
  have f0 := Approx.exact (S := S) (B := 1) y₀ (by linarith)
  have f1 := Approx.exact (S := S) (B := 1) y₁ (by linarith)
  have al := approx_share hlt (lt_trans hlt2 hlt)
  have c1 := (o'.mul al (by norm_num) (by norm_num [Small]) (by norm_num [Small])).mono (B' := 1) (e' := 5.2)
    (by norm_num) (by norm_num) (by norm_num)
  have c2 := (i2.mul al (by norm_num) (by norm_num [Small]) (by norm_num [Small])).mono (B' := 2) (e' := 10.3)
    (by norm_num) (by norm_num) (by norm_num)
  have c3 := (i2.sub c2 (by norm_num) (by norm_num [Small]) (by norm_num [Small])).mono (B' := 4) (e' := 14.4)
    (by norm_num) (by norm_num) (by norm_num)
  unfold crLastExpr
  refine crPowers_dot hS h0 h1 hlt (a := 3) (b := 8) (c := 2) (d := 1) (p := 21) (q := 54) (r := 16) (s := 5) ?_ ?_ ?_ ?_
    (by norm_num [Small]) (by norm_num) (by norm_num)
  · exact Approx.dot hS al.neg o c1 z fp f0 f1 zS (by norm_num [Small]) (by norm_num) (by norm_num) (by norm_num)
      (by norm_num)
  · exact Approx.dot hS c2 i2' c3 z fp f0 f1 zS (by norm_num [Small]) (by norm_num) (by norm_num) (by norm_num)
      (by norm_num)
  · exact Approx.dot hS al.neg z al z fp f0 f1 zS (by norm_num [Small]) (by norm_num) (by norm_num) (by norm_num)
      (by norm_num)
  · exact Approx.dot hS z o z z fp f0 f1 zS (by norm_num [Small]) (by norm_num) (by norm_num) (by norm_num) (by norm_num)

theorem crInner_approx {xp yp x₀ y₀ x₁ y₁ x₂ y₂ x : Fl A} {S : ℝ} (h0 : x₀ ≤ x) (h1 : x ≤ x₁) (hlt : x₀ < x₁)
    (hlt2 : xp < x₀) (hlt3 : x₁ < x₂) (bp : |yp.val| ≤ S) (b0 : |y₀.val| ≤ S) (b1 : |y₁.val| ≤ S) (b2 : |y₂.val| ≤ S) :
    Approx S (crInnerExpr (fun n => Fl.round A (n : ℝ)) xp yp x₀ y₀ x₁ y₁ x₂ y₂ x)
      (crInnerExpr (fun n => (n : ℝ)) xp.val yp.val x₀.val y₀.val x₁.val y₁.val x₂.val y₂.val x.val) 32 430 := by
  have hS : 0 ≤ S := le_trans (abs_nonneg _) b0
  have z := approx_zero (A := A) 1
  have o := approx_one (A := A)
  have i2 := approx_int (A := A) 2 (by norm_num)
  have i2' := approx_int (A := A) (-2) (by norm_num)
  have i3 := approx_int (A := A) 3 (by norm_num)
  have fp := Approx.exact (S := S) (B := 1) yp (by linarith)
  have f0 := Approx.exact (S := S) (B := 1) y₀ (by linarith)
  have f1 := Approx.exact (S := S) (B := 1) y₁ (by linarith)
  have f2 := Approx.exact (S := S) (B := 1) y₂ (by linarith)
  have al := approx_share hlt (lt_trans hlt2 hlt)
  have be := approx_share hlt hlt3
  have c1 := (i2.sub be (by norm_num) (by norm_num [Small]) (by norm_num [Small])).mono (B' := 3) (e' := 7.2)
    (by norm_num) (by norm_num) (by norm_num)
  have c2 := (i2'.add al (by norm_num) (by norm_num [Small]) (by norm_num [Small])).mono (B' := 3) (e' := 7.2)
    (by norm_num) (by norm_num) (by norm_num)
  have c3 := (i2.mul al (by norm_num) (by norm_num [Small]) (by norm_num [Small])).mono (B' := 2) (e' := 10.3)
    (by norm_num) (by norm_num) (by norm_num)
  have c4 := (be.sub i3 (by norm_num) (by norm_num [Small]) (by norm_num [Small])).mono (B' := 4) (e' := 8.2)
    (by norm_num) (by norm_num) (by norm_num)
  have c5 := (i3.sub c3 (by norm_num) (by norm_num [Small]) (by norm_num [Small])).mono (B' := 5) (e' := 15.4)
    (by norm_num) (by norm_num) (by norm_num)
  unfold crInnerExpr
  refine crPowers_dot hS h0 h1 hlt (a := 8) (b := 12) (c := 2) (d := 1) (p := 51) (q := 80) (r := 16) (s := 5) ?_ ?_ ?_ ?_
    (by norm_num [Small]) (by norm_num) (by norm_num)
  · exact Approx.dot hS al.neg c1 c2 be fp f0 f1 f2 (by norm_num [Small]) (by norm_num) (by norm_num) (by norm_num)
      (by norm_num)
  · exact Approx.dot hS c3 c4 c5 be.neg fp f0 f1 f2 (by norm_num [Small]) (by norm_num) (by norm_num) (by norm_num)
      (by norm_num)
  · exact Approx.dot hS al.neg z al z fp f0 f1 f2 (by norm_num [Small]) (by norm_num) (by norm_num) (by norm_num)
      (by norm_num)
  · exact Approx.dot hS z o z z fp f0 f1 f2 (by norm_num [Small]) (by norm_num) (by norm_num) (by norm_num) (by norm_num)

/-- **C78.** A Catmull-Rom spline in floating point differs from the spline computed exactly from the same points by
at most `430 u` times the largest ordinate. -/
theorem C78_catmull_rom (pts : List (Fl A × Fl A)) (hs : StrictlyIncreasing pts) (h3 : 3 ≤ pts.length) (x : Fl A)
    (hx : InRange pts x) (S : ℝ) (hS : ∀ p ∈ pts, |p.2.val| ≤ S) :
    ∃ v w, evaluate (Interpolator.catmullRom (Fl A)) pts x = .ok (.ok v) ∧
      evaluate (Interpolator.catmullRom ℝ) (pts.map fun p => (p.1.val, p.2.val)) x.val = .ok (.ok w) ∧
      |v.val - w| ≤ 430 * unitRoundoff A * S := by
  obtain ⟨i, hi, h0, h1⟩ := exists_index hs (by omega) hx
  have hs' : StrictlyIncreasing (pts.map fun p => (p.1.val, p.2.val)) := by
    unfold StrictlyIncreasing
    rw [List.pairwise_map]
    exact hs.imp fun h => (Fl.lt_iff _ _).1 h
  have hl' : i < (pts.map fun p => (p.1.val, p.2.val)).length := by simpa using (by omega : i < pts.length)
  have hc' : (pts.map fun p => (p.1.val, p.2.val))[i].1 < x.val ∨
      (i = 0 ∧ (pts.map fun p => (p.1.val, p.2.val))[i].1 = x.val) := by
    simp only [List.getElem_map]
    exact h0.imp (fun h => (Fl.lt_iff _ _).1 h) (fun h => ⟨h.1, congrArg Fl.val h.2⟩)
  refine ⟨_, _, catmullRom_eval _ Fl.fromInt_eq hs h3 hi h0 h1,
    catmullRom_eval (fun n => (n : ℝ)) ExactCast.fromInt_eq hs' (by simpa using h3) (by simpa using hi) hc'
      (by simp only [List.getElem_map]; exact (Fl.le_iff _ _).1 h1), ?_⟩
  have hle : pts[i].1 ≤ x := h0.elim le_of_lt fun h => h.2.le
  have pw := List.pairwise_iff_getElem.1 hs
  have bd : ∀ j (hj : j < pts.length), |pts[j].2.val| ≤ S := fun j hj => hS _ (List.getElem_mem hj)
  simp only [List.getElem_map, List.length_map]
  by_cases hz : i = 0
  · subst hz
    simp only [dif_pos]
    exact (crFirst_approx hle h1 (pw 0 1 (by omega) (by omega) (by omega)) (pw 1 2 (by omega) (by omega) (by omega))
      (bd 0 (by omega)) (bd 1 (by omega)) (bd 2 (by omega))).1
  · simp only [dif_neg hz]
    by_cases hl : i + 2 = pts.length
    · simp only [dif_pos hl]
      exact (crLast_approx hle h1 (pw i (i + 1) (by omega) (by omega) (by omega))
        (pw (i - 1) i (by omega) (by omega) (by omega)) (bd (i - 1) (by omega)) (bd i (by omega)) (bd (i + 1) (by omega))).1
    · simp only [dif_neg hl]
      exact (crInner_approx hle h1 (pw i (i + 1) (by omega) (by omega) (by omega))
        (pw (i - 1) i (by omega) (by omega) (by omega)) (pw (i + 1) (i + 2) (by omega) (by omega) (by omega))
        (bd (i - 1) (by omega)) (bd i (by omega)) (bd (i + 1) (by omega)) (bd (i + 2) (by omega))).1

/-- **C78.** The Catmull-Rom spline in floating point against a definition: on a segment with a neighbour on both
sides it is within `430 u S` of every cubic that passes through both end nodes, with the central difference of the
neighbours as its slope at the right end, and at the left end the slope the code uses there (see
`C56_right_slope_partial`). -/
theorem C78_catmull_rom_cubic (pts : List (Fl A × Fl A)) (hs : StrictlyIncreasing pts) (i : Nat)
    (x₀ y₀ x₁ y₁ x₂ y₂ x₃ y₃ x : Fl A) (e0 : pts[i]? = some (x₀, y₀)) (e1 : pts[i + 1]? = some (x₁, y₁))
    (e2 : pts[i + 2]? = some (x₂, y₂)) (e3 : pts[i + 3]? = some (x₃, y₃)) (h1 : x₁ ≤ x) (h2 : x ≤ x₂) (S : ℝ)
    (hS : ∀ p ∈ pts, |p.2.val| ≤ S) (p : ℝ → ℝ)
    (hp : CubicWithEnds p x₁.val y₁.val ((y₂.val - y₀.val) / ((x₂.val - x₀.val) + (x₂.val - x₁.val)))
      x₂.val y₂.val ((y₃.val - y₁.val) / (x₃.val - x₁.val))) :
    ∃ v, evaluate (Interpolator.catmullRom (Fl A)) pts x = .ok (.ok v) ∧
      |v.val - p x.val| ≤ 430 * unitRoundoff A * S := by
  obtain ⟨hi3, a3⟩ := List.getElem?_eq_some_iff.1 e3
  obtain ⟨hi2, a2⟩ := List.getElem?_eq_some_iff.1 e2
  obtain ⟨hi1, a1⟩ := List.getElem?_eq_some_iff.1 e1
  obtain ⟨hi0, a0⟩ := List.getElem?_eq_some_iff.1 e0
  obtain ⟨v, w, hv, hw, he⟩ := C78_catmull_rom pts hs (by omega) x
    ⟨⟨_, List.mem_of_getElem? e1, h1⟩, ⟨_, List.mem_of_getElem? e2, h2⟩⟩ S hS
  refine ⟨v, hv, ?_⟩
  have hs' : StrictlyIncreasing (pts.map fun p => (p.1.val, p.2.val)) := by
    unfold StrictlyIncreasing
    rw [List.pairwise_map]
    exact hs.imp fun h => (Fl.lt_iff _ _).1 h
  have pw := List.pairwise_iff_getElem.1 hs
  have l01 : x₀.val < x₁.val := by
    have := pw i (i + 1) hi0 hi1 (by omega)
    rw [a0, a1] at this; exact (Fl.lt_iff _ _).1 this
  have l12 : x₁.val < x₂.val := by
    have := pw (i + 1) (i + 2) hi1 hi2 (by omega)
    rw [a1, a2] at this; exact (Fl.lt_iff _ _).1 this
  have l23 : x₂.val < x₃.val := by
    have := pw (i + 2) (i + 3) hi2 hi3 (by omega)
    rw [a2, a3] at this; exact (Fl.lt_iff _ _).1 this
  have hseg := catmullRom_segment hs' (by simpa using (by omega : 3 ≤ pts.length)) (i := i + 1) (x := x.val)
    (by simpa using hi2) (by simp only [List.getElem_map, a1]; exact (Fl.le_iff _ _).1 h1)
    (by simp only [List.getElem_map, a2]; exact (Fl.le_iff _ _).1 h2)
  have hne : ¬ i + 1 + 2 = pts.length := by omega
  simp only [crSegment, Nat.add_eq_zero_iff, one_ne_zero, and_false, dite_false, List.length_map, hne, List.getElem_map,
    Nat.add_sub_cancel, a0, a1, a2, a3] at hseg
  rw [hseg] at hw
  have hwe := Except.ok.inj (Rust.ok.inj hw)
  rw [← hwe] at he
  have hx : ∀ z, p z = hermiteCubic x₁.val y₁.val ((y₂.val - y₀.val) / ((x₂.val - x₀.val) + (x₂.val - x₁.val)))
      x₂.val y₂.val ((y₃.val - y₁.val) / (x₃.val - x₁.val)) z := fun z => (hermiteCubic_eq_of_ends l12 hp).symm
  rw [hx]
  convert he using 3
  simp only [hermiteCubic, crInner]
  have n1 : x₂.val - x₁.val ≠ 0 := by intro h; linarith
  have n2 : (x₂.val - x₀.val) + (x₂.val - x₁.val) ≠ 0 := by intro h; linarith
  have n3 : x₃.val - x₁.val ≠ 0 := by intro h; linarith
  have n4 : x₂.val - x₁.val + (x₂.val - x₀.val) ≠ 0 := by intro h; linarith
  have n5 : x₂.val - x₁.val + (x₃.val - x₂.val) ≠ 0 := by intro h; linarith
  rw [show x₂.val - x₁.val + (x₂.val - x₀.val) = (x₂.val - x₀.val) + (x₂.val - x₁.val) by ring,
    show x₂.val - x₁.val + (x₃.val - x₂.val) = x₃.val - x₁.val by ring]
  field_simp
  ring

end Qlab.Props
