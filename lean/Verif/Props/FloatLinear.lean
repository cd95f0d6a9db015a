import Verif.Lemmas.Float
import Verif.Lemmas.Hermite
import Verif.Model.Binary

/-!
# Linear interpolation in floating-point arithmetic (C71, C75)
-/

namespace Qlab.Props

open Spec

/-- Two factors close to 1. -/
theorem near_mul {a b α β : ℝ} (ha : |a - 1| ≤ α) (hb : |b - 1| ≤ β) : |a * b - 1| ≤ α + β + α * β := by
  have h0 := abs_nonneg (a - 1)
  have h1 := abs_nonneg (b - 1)
  have e : a * b - 1 = (a - 1) + (b - 1) + (a - 1) * (b - 1) := by ring
  rw [e]
  have h2 := abs_add_le (a - 1 + (b - 1)) ((a - 1) * (b - 1))
  have h3 := abs_add_le (a - 1) (b - 1)
  rw [abs_mul] at h2
  nlinarith [mul_le_mul ha hb h1 (le_trans h0 ha)]

/-- Two factors within a few units of roundoff of 1. -/
theorem near_mul_unit {x y a b u : ℝ} (hu0 : 0 < u) (hu : u ≤ 1 / 16777216) (ha : 0 ≤ a) (ha' : a ≤ 20) (_hb : 0 ≤ b)
    (hb' : b ≤ 20) (hx : |x - 1| ≤ a * u) (hy : |y - 1| ≤ b * u) : |x * y - 1| ≤ (a + b + 0.001) * u := by
  refine le_trans (near_mul hx hy) ?_
  have h1 : a * b ≤ 400 := by nlinarith
  have h2 : a * u * (b * u) = a * b * u * u := by ring
  have h3 : a * b * u ≤ 0.001 := by nlinarith
  nlinarith

/-- The reciprocal of a factor close to 1. -/
theorem near_inv {d u : ℝ} (hu : u ≤ 1 / 16777216) (hd : |d| ≤ u) : |1 / (1 + d) - 1| ≤ 1.001 * u := by
  have h := abs_le.1 hd
  have hpos : 0 < 1 + d := by linarith
  have e : 1 / (1 + d) - 1 = -d / (1 + d) := by field_simp; ring
  rw [e, abs_div, abs_neg, abs_of_pos hpos, div_le_iff₀ hpos]
  nlinarith [abs_nonneg d]

section
variable {A : FloatArith}

/-- The value computed for `x` in `(x₀, x₁]`. -/
theorem linear_eval {V : Type} [LinearOrder V] [Add V] [Sub V] [Mul V] [Div V] (pts : List (V × V))
    (hs : StrictlyIncreasing pts) (i : Nat) (x₀ y₀ x₁ y₁ x : V) (h : IsSegment pts i x₀ y₀ x₁ y₁) (h0 : x₀ < x)
    (h1 : x ≤ x₁) :
    evaluate (Interpolator.linear V) pts x = .ok (.ok (y₀ + (y₁ - y₀) / (x₁ - x₀) * (x - x₀))) := by
  obtain ⟨ha, hb⟩ := h
  obtain ⟨hi0, ha'⟩ := List.getElem?_eq_some_iff.1 ha
  obtain ⟨hi1, hb'⟩ := List.getElem?_eq_some_iff.1 hb
  rw [evaluate_linear]
  unfold Linear.tryValue
  have hs' : (pts.map fun p => (⟨p.1, p.2⟩ : Point2D V)).Pairwise fun p q => (HasX.x p : V) ≤ HasX.x q :=
    pairwise_map_point.2 (hs.imp le_of_lt)
  have hf := findIndex_bracket hs' (x := x) (i := i) (by simpa using hi1)
    (by simp only [List.getElem_map, ha']; exact h0) (by simp only [List.getElem_map, hb']; exact h1)
  rw [hf]
  have e1 : Rust.index (pts.map fun p => (⟨p.1, p.2⟩ : Point2D V)) i = .ok ⟨x₀, y₀⟩ :=
    Rust.index_of_eq (by simp [ha])
  have e2 : Rust.index (pts.map fun p => (⟨p.1, p.2⟩ : Point2D V)) (i + 1) = .ok ⟨x₁, y₁⟩ :=
    Rust.index_of_eq (by simp [hb])
  simp only [e1, e2]
  rfl

/-- The value computed at the first node. -/
theorem linear_eval_first {V : Type} [LinearOrder V] [Add V] [Sub V] [Mul V] [Div V] (x₀ y₀ x₁ y₁ : V)
    (rest : List (V × V)) (hs : StrictlyIncreasing ((x₀, y₀) :: (x₁, y₁) :: rest)) :
    evaluate (Interpolator.linear V) ((x₀, y₀) :: (x₁, y₁) :: rest) x₀ =
      .ok (.ok (y₀ + (y₁ - y₀) / (x₁ - x₀) * (x₀ - x₀))) := by
  rw [evaluate_linear]
  unfold Linear.tryValue
  have hs' : (((x₀, y₀) :: (x₁, y₁) :: rest).map fun p => (⟨p.1, p.2⟩ : Point2D V)).Pairwise
      fun p q => (HasX.x p : V) ≤ HasX.x q := pairwise_map_point.2 (hs.imp le_of_lt)
  have hf := findIndex_first (V := V) hs'
  have hf' : findIndexAtLeftBoundary (((x₀, y₀) :: (x₁, y₁) :: rest).map fun p => (⟨p.1, p.2⟩ : Point2D V)) x₀ =
    .ok 0 := hf
  rw [hf']
  rfl

/-- Error of the floating-point expression of a line. -/
theorem line_error (x₀ y₀ x₁ y₁ x : Fl A) (h0 : x₀ < x) (h1 : x ≤ x₁) :
    |(y₀ + (y₁ - y₀) / (x₁ - x₀) * (x - x₀)).val - lineThrough x₀.val y₀.val x₁.val y₁.val x.val| ≤
      unitRoundoff A * |lineThrough x₀.val y₀.val x₁.val y₁.val x.val| +
        6 * unitRoundoff A * |y₁.val - y₀.val| := by
  rw [Fl.lt_iff] at h0
  rw [Fl.le_iff] at h1
  simp only [Fl.val_add, Fl.val_mul, Fl.val_div, Fl.val_sub]
  have hu0 := A.unit_pos
  have hu1 := A.unit_le
  have fac := A.fl_factor
  generalize unitRoundoff A = u at *
  obtain ⟨d1, hd1, e1⟩ := fac (y₁.val - y₀.val)
  obtain ⟨d2, hd2, e2⟩ := fac (x₁.val - x₀.val)
  obtain ⟨d3, hd3, e3⟩ := fac (x.val - x₀.val)
  rw [e1, e2, e3]
  obtain ⟨d4, hd4, e4⟩ := fac ((y₁.val - y₀.val) * (1 + d1) / ((x₁.val - x₀.val) * (1 + d2)))
  rw [e4]
  obtain ⟨d5, hd5, e5⟩ := fac ((y₁.val - y₀.val) * (1 + d1) / ((x₁.val - x₀.val) * (1 + d2)) * (1 + d4) *
    ((x.val - x₀.val) * (1 + d3)))
  rw [e5]
  have hh : 0 < x₁.val - x₀.val := by linarith
  have hp2 : 0 < 1 + d2 := by have := abs_le.1 hd2; linarith
  set L := lineThrough x₀.val y₀.val x₁.val y₁.val x.val with hL
  set θ := (x.val - x₀.val) / (x₁.val - x₀.val) with hθ
  have hθ0 : 0 ≤ θ := div_nonneg (by linarith) hh.le
  have hθ1 : θ ≤ 1 := (div_le_one hh).2 (by linarith)
  set F := (1 + d1) * (1 + d3) * (1 + d4) * (1 + d5) * (1 / (1 + d2)) with hF
  have hP : (y₁.val - y₀.val) * (1 + d1) / ((x₁.val - x₀.val) * (1 + d2)) * (1 + d4) *
      ((x.val - x₀.val) * (1 + d3)) * (1 + d5) = (y₁.val - y₀.val) * θ * F := by
    rw [hθ, hF]; field_simp
  rw [hP]
  have nd : ∀ d : ℝ, |d| ≤ u → |1 + d - 1| ≤ 1 * u := fun d hd => by rwa [add_sub_cancel_left, one_mul]
  have a1 := near_mul_unit hu0 hu1 (by norm_num) (by norm_num) (by norm_num) (by norm_num) (nd d1 hd1) (nd d3 hd3)
  have a2 := near_mul_unit hu0 hu1 (by norm_num) (by norm_num) (by norm_num) (by norm_num) a1 (nd d4 hd4)
  have a3 := near_mul_unit hu0 hu1 (by norm_num) (by norm_num) (by norm_num) (by norm_num) a2 (nd d5 hd5)
  have a4 := near_mul_unit hu0 hu1 (by norm_num) (by norm_num) (by norm_num) (by norm_num) a3 (near_inv hu1 hd2)
  have hFerr : |F - 1| ≤ 5.5 * u := le_trans a4 (mul_le_mul_of_nonneg_right (by norm_num) hu0.le)
  obtain ⟨d6, hd6, e6⟩ := fac (y₀.val + (y₁.val - y₀.val) * θ * F)
  rw [e6]
  have hLe : L = y₀.val + (y₁.val - y₀.val) * θ := rfl
  set E := (y₁.val - y₀.val) * θ * (F - 1) with hE
  have hEe : |E| ≤ 5.5 * u * |y₁.val - y₀.val| := by
    rw [hE, abs_mul, abs_mul, abs_of_nonneg hθ0]
    have := abs_nonneg (y₁.val - y₀.val)
    calc |y₁.val - y₀.val| * θ * |F - 1| ≤ |y₁.val - y₀.val| * 1 * (5.5 * u) := by gcongr
      _ = _ := by ring
  have hfin : (y₀.val + (y₁.val - y₀.val) * θ * F) * (1 + d6) - L = E + (L + E) * d6 := by
    rw [hLe, hE]; ring
  rw [hfin]
  have t1 := abs_add_le E ((L + E) * d6)
  have t2 := abs_add_le L E
  rw [abs_mul (L + E)] at t1
  have t3 : |L + E| * |d6| ≤ (|L| + |E|) * u := mul_le_mul t2 hd6 (abs_nonneg _) (by positivity)
  have t4 : |E| * u ≤ 1 / 16777216 * |E| := by
    rw [mul_comm]; exact mul_le_mul_of_nonneg_right hu1 (abs_nonneg E)
  have t5 : 0 ≤ u * |y₁.val - y₀.val| := by positivity
  linarith

/-- **C71.** Between two nodes the computed value differs from the exact straight line through the nodes by at most
`u` times the value plus `6 u` times the rise, where `u` is the unit roundoff. -/
theorem C71_linear_error (pts : List (Fl A × Fl A)) (hs : StrictlyIncreasing pts) (i : Nat) (x₀ y₀ x₁ y₁ x : Fl A)
    (h : IsSegment pts i x₀ y₀ x₁ y₁) (h0 : x₀ < x) (h1 : x ≤ x₁) :
    ∃ v, evaluate (Interpolator.linear (Fl A)) pts x = .ok (.ok v) ∧
      |v.val - lineThrough x₀.val y₀.val x₁.val y₁.val x.val| ≤
        unitRoundoff A * |lineThrough x₀.val y₀.val x₁.val y₁.val x.val| +
          6 * unitRoundoff A * |y₁.val - y₀.val| :=
  ⟨_, linear_eval pts hs i _ _ _ _ x h h0 h1, line_error _ _ _ _ _ h0 h1⟩

/-- **C75.** At the first node the computed value is exact. -/
theorem C75_first_node_partial (x₀ y₀ x₁ y₁ : Fl A) (rest : List (Fl A × Fl A))
    (hs : StrictlyIncreasing ((x₀, y₀) :: (x₁, y₁) :: rest)) :
    evaluate (Interpolator.linear (Fl A)) ((x₀, y₀) :: (x₁, y₁) :: rest) x₀ = .ok (.ok y₀) := by
  rw [linear_eval_first _ _ _ _ _ hs, Fl.sub_self', Fl.mul_zero', Fl.add_zero']

/-- **C71.** Between two nodes with the same ordinate the computed value is exactly that ordinate. -/
theorem C71_flat (pts : List (Fl A × Fl A)) (hs : StrictlyIncreasing pts) (i : Nat) (x₀ y x₁ x : Fl A)
    (h : IsSegment pts i x₀ y x₁ y) (h0 : x₀ < x) (h1 : x ≤ x₁) :
    evaluate (Interpolator.linear (Fl A)) pts x = .ok (.ok y) := by
  rw [linear_eval pts hs i _ _ _ _ x h h0 h1, Fl.sub_self', Fl.zero_div', Fl.zero_mul', Fl.add_zero']

/-- **C71.** Between two nodes the computed value is monotone in `x`, in the direction of the ordinates, and never
on the wrong side of the left ordinate. -/
theorem C71_monotone (pts : List (Fl A × Fl A)) (hs : StrictlyIncreasing pts) (i : Nat) (x₀ y₀ x₁ y₁ x z : Fl A)
    (h : IsSegment pts i x₀ y₀ x₁ y₁) (h0 : x₀ < x) (hxz : x ≤ z) (h1 : z ≤ x₁) :
    ∃ v w, evaluate (Interpolator.linear (Fl A)) pts x = .ok (.ok v) ∧
      evaluate (Interpolator.linear (Fl A)) pts z = .ok (.ok w) ∧
      (y₀ ≤ y₁ → y₀ ≤ v ∧ v ≤ w) ∧ (y₁ ≤ y₀ → v ≤ y₀ ∧ w ≤ v) := by
  refine ⟨_, _, linear_eval pts hs i _ _ _ _ x h h0 (le_trans hxz h1),
    linear_eval pts hs i _ _ _ _ z h (lt_of_lt_of_le h0 hxz) h1, ?_, ?_⟩
  all_goals
    intro hy
    have hh : 0 < (x₁ - x₀).val := Fl.sub_pos' (lt_of_lt_of_le (lt_of_lt_of_le h0 hxz) h1)
    have hx0 : 0 < (x - x₀).val := Fl.sub_pos' h0
    have hxz' : (x - x₀).val ≤ (z - x₀).val := A.mono (by linarith [(Fl.le_iff x z).1 hxz])
    rw [Fl.le_iff] at hy
  · have ha : 0 ≤ (y₁ - y₀).val := A.fl_nonneg (by linarith)
    have hsl : 0 ≤ ((y₁ - y₀) / (x₁ - x₀)).val := A.fl_nonneg (div_nonneg ha hh.le)
    have hp : 0 ≤ ((y₁ - y₀) / (x₁ - x₀) * (x - x₀)).val := A.fl_nonneg (mul_nonneg hsl hx0.le)
    have hpq : ((y₁ - y₀) / (x₁ - x₀) * (x - x₀)).val ≤ ((y₁ - y₀) / (x₁ - x₀) * (z - x₀)).val :=
      A.mono (mul_le_mul_of_nonneg_left hxz' hsl)
    constructor
    · rw [Fl.le_iff, Fl.val_add]
      conv_lhs => rw [← y₀.rep]
      exact A.mono (by linarith)
    · rw [Fl.le_iff, Fl.val_add, Fl.val_add]
      exact A.mono (by linarith)
  · have ha : (y₁ - y₀).val ≤ 0 := A.fl_nonpos (by linarith)
    have hsl : ((y₁ - y₀) / (x₁ - x₀)).val ≤ 0 := A.fl_nonpos (div_nonpos_of_nonpos_of_nonneg ha hh.le)
    have hp : ((y₁ - y₀) / (x₁ - x₀) * (x - x₀)).val ≤ 0 :=
      A.fl_nonpos (mul_nonpos_of_nonpos_of_nonneg hsl hx0.le)
    have hpq : ((y₁ - y₀) / (x₁ - x₀) * (z - x₀)).val ≤ ((y₁ - y₀) / (x₁ - x₀) * (x - x₀)).val :=
      A.mono (mul_le_mul_of_nonpos_left hxz' hsl)
    constructor
    · rw [Fl.le_iff, Fl.val_add]
      conv_rhs => rw [← y₀.rep]
      exact A.mono (by linarith)
    · rw [Fl.le_iff, Fl.val_add, Fl.val_add]
      exact A.mono (by linarith)

end

/-! ## What fails in `f64` -/

/-- A small integer as an `f64`. -/
noncomputable def i64 (n : Int) : Fl Binary.f64 := Fl.round Binary.f64 n

theorem i64_val (n : Int) (h : |n| ≤ 2 ^ 53) : (i64 n).val = n := Binary.f64.int n h

/-- The points `(0, 0)`, `(7, 29)`, `(8, 29)` as `f64`. -/
noncomputable def overshoot : List (Fl Binary.f64 × Fl Binary.f64) := [(i64 0, i64 0), (i64 7, i64 29), (i64 8, i64 29)]

theorem overshoot_increasing : StrictlyIncreasing overshoot := by
  unfold StrictlyIncreasing overshoot
  simp only [List.pairwise_cons, List.mem_cons, List.not_mem_nil, or_false, forall_eq_or_imp, forall_eq, Fl.lt_iff,
    i64_val 0 (by norm_num), i64_val 7 (by norm_num), i64_val 8 (by norm_num)]
  norm_num

/-- `29 / 7 * 7` in `f64` is `29 + 2^-48`. -/
theorem overshoot_value : evaluate (Interpolator.linear (Fl Binary.f64)) overshoot (i64 7) =
    .ok (.ok ⟨29 + (1 / 2) ^ 48, by
      have := Binary.roundTo_rep (p := 53) (by norm_num) (29 * 2 ^ 48 + 1) (-48) (by norm_num)
      have e : ((29 * 2 ^ 48 + 1 : ℤ) : ℝ) * 2 ^ (-48 : ℤ) = 29 + (1 / 2) ^ 48 := by norm_num
      rw [e] at this; exact this⟩) := by
  rw [linear_eval overshoot overshoot_increasing 0 (i64 0) (i64 0) (i64 7) (i64 29) (i64 7) ⟨rfl, rfl⟩
    ((Fl.lt_iff _ _).2 (by rw [i64_val 0 (by norm_num), i64_val 7 (by norm_num)]; norm_num)) (le_refl _)]
  congr 2
  ext
  simp only [Fl.val_add, Fl.val_mul, Fl.val_div, Fl.val_sub, i64_val 0 (by norm_num), i64_val 7 (by norm_num),
    i64_val 29 (by norm_num), show Binary.f64.fl = Binary.roundTo 53 from rfl]
  have r1 : Binary.roundTo 53 (29 - 0) = 29 := by
    simpa using Binary.roundTo_rep (p := 53) (by norm_num) 29 0 (by norm_num)
  have r2 : Binary.roundTo 53 (7 - 0) = 7 := by
    simpa using Binary.roundTo_rep (p := 53) (by norm_num) 7 0 (by norm_num)
  have r3 : Binary.roundTo 53 (29 / 7) = 4664442471205157 * (1 / 2) ^ 50 := by
    rw [Binary.roundTo_eq (by norm_num) (-50) 4664442471205157 (by norm_num [abs_of_pos])
      (by norm_num [abs_of_pos]) (by rw [abs_lt]; norm_num)]
    norm_num
  have r4 : Binary.roundTo 53 (4664442471205157 * (1 / 2) ^ 50 * 7) = 29 + (1 / 2) ^ 48 := by
    rw [Binary.roundTo_eq (by norm_num) (-48) (29 * 2 ^ 48 + 1) (by norm_num [abs_of_pos])
      (by norm_num [abs_of_pos]) (by rw [abs_lt]; norm_num)]
    norm_num
  have r5 : Binary.roundTo 53 (29 + (1 / 2) ^ 48) = 29 + (1 / 2) ^ 48 := by
    rw [Binary.roundTo_eq (by norm_num) (-48) (29 * 2 ^ 48 + 1) (by norm_num [abs_of_pos])
      (by norm_num [abs_of_pos]) (by rw [abs_lt]; norm_num)]
    norm_num
  push_cast
  rw [r1, r2, r3, r4, zero_add, r5]

/-- **C75 (refuted).** Exact arithmetic reproduces every node, stays between the two ordinates of
a segment, and is monotone on monotone data (`C35_nodes`, `C35_between`).  `f64` arithmetic does none of these: with
points `(0, 0)`, `(7, 29)`, `(8, 29)` the value at 7 is larger than 29, and the value at 8 is 29. -/
theorem C75_refuted_linear : ∃ v, StrictlyIncreasing overshoot ∧
    evaluate (Interpolator.linear (Fl Binary.f64)) overshoot (i64 7) = .ok (.ok v) ∧ i64 29 < v ∧
    evaluate (Interpolator.linear (Fl Binary.f64)) overshoot (i64 8) = .ok (.ok (i64 29)) := by
  refine ⟨_, overshoot_increasing, overshoot_value, ?_, ?_⟩
  · rw [Fl.lt_iff, i64_val 29 (by norm_num)]; norm_num
  · refine C71_flat overshoot overshoot_increasing 1 (i64 7) (i64 29) (i64 8) (i64 8) ⟨rfl, rfl⟩ ?_ (le_refl _)
    rw [Fl.lt_iff, i64_val 7 (by norm_num), i64_val 8 (by norm_num)]; norm_num

/-- The theorems above apply to those points: the computed value at 7 is within the bound. -/
example : ∃ v, evaluate (Interpolator.linear (Fl Binary.f64)) overshoot (i64 7) = .ok (.ok v) ∧
    |v.val - 29| ≤ 203 * (1 / 2) ^ 53 := by
  obtain ⟨v, h1, h2⟩ := C71_linear_error overshoot overshoot_increasing 0 (i64 0) (i64 0) (i64 7) (i64 29) (i64 7)
    ⟨rfl, rfl⟩ ((Fl.lt_iff _ _).2 (by rw [i64_val 0 (by norm_num), i64_val 7 (by norm_num)]; norm_num)) (le_refl _)
  refine ⟨v, h1, ?_⟩
  have e : lineThrough (i64 0).val (i64 0).val (i64 7).val (i64 29).val (i64 7).val = 29 := by
    rw [i64_val 0 (by norm_num), i64_val 7 (by norm_num), i64_val 29 (by norm_num)]
    norm_num [lineThrough]
  rw [e, i64_val 0 (by norm_num), i64_val 29 (by norm_num), show unitRoundoff Binary.f64 = (1 / 2) ^ 53 from rfl] at h2
  refine le_trans h2 ?_
  norm_num [abs_of_pos]

/-- The first node of those points is exact. -/
example : evaluate (Interpolator.linear (Fl Binary.f64)) overshoot (i64 0) = .ok (.ok (i64 0)) :=
  C75_first_node_partial _ _ _ _ _ overshoot_increasing

/-- The value at 7 is not below the value at 1. -/
example : ∃ v w, evaluate (Interpolator.linear (Fl Binary.f64)) overshoot (i64 1) = .ok (.ok v) ∧
    evaluate (Interpolator.linear (Fl Binary.f64)) overshoot (i64 7) = .ok (.ok w) ∧ v ≤ w := by
  have h0 : i64 0 < i64 1 :=
    (Fl.lt_iff _ _).2 (by rw [i64_val 0 (by norm_num), i64_val 1 (by norm_num)]; norm_num)
  have h1 : i64 1 ≤ i64 7 :=
    (Fl.le_iff _ _).2 (by rw [i64_val 1 (by norm_num), i64_val 7 (by norm_num)]; norm_num)
  have h2 : i64 0 ≤ i64 29 :=
    (Fl.le_iff _ _).2 (by rw [i64_val 0 (by norm_num), i64_val 29 (by norm_num)]; norm_num)
  obtain ⟨v, w, a, b, c, _⟩ := C71_monotone overshoot overshoot_increasing 0 (i64 0) (i64 0) (i64 7) (i64 29) (i64 1)
    (i64 7) ⟨rfl, rfl⟩ h0 h1 (le_refl _)
  exact ⟨v, w, a, b, (c h2).2⟩

/-- A flat segment of two `f64` points. -/
example : evaluate (Interpolator.linear (Fl Binary.f64)) [(i64 0, i64 29), (i64 7, i64 29)] (i64 5) = .ok (.ok (i64 29)) := by
  have h : ∀ m n : Int, |m| ≤ 2 ^ 53 → |n| ≤ 2 ^ 53 → m < n → i64 m < i64 n := fun m n hm hn hlt =>
    (Fl.lt_iff _ _).2 (by rw [i64_val m hm, i64_val n hn]; exact_mod_cast hlt)
  refine C71_flat _ ?_ 0 (i64 0) (i64 29) (i64 7) (i64 5) ⟨rfl, rfl⟩ (h _ _ (by norm_num) (by norm_num) (by norm_num))
    (h _ _ (by norm_num) (by norm_num) (by norm_num)).le
  unfold StrictlyIncreasing
  exact List.pairwise_pair.2 (h _ _ (by norm_num) (by norm_num) (by norm_num))

end Qlab.Props
