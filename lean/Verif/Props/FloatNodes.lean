import Verif.Props.FloatSplines
import Verif.Props.NaturalCubic

/-!
# Catmull-Rom and natural cubic splines at their nodes, in floating-point arithmetic (C75)
-/

namespace Qlab.Props

open Spec NaturalCubic

variable {A : FloatArith}

/-! ## Catmull-Rom -/

/-- **C75.** At the first node a Catmull-Rom spline is exact. -/
theorem C75_catmull_rom_first_partial (pts : List (Fl A × Fl A)) (hs : StrictlyIncreasing pts) (h3 : 3 ≤ pts.length)
    (x y : Fl A) (h : pts[0]? = some (x, y)) : evaluate (Interpolator.catmullRom (Fl A)) pts x = .ok (.ok y) := by
  obtain ⟨h0, e⟩ := List.getElem?_eq_some_iff.1 h
  have hlt := List.pairwise_iff_getElem.1 hs 0 1 (by omega) (by omega) (by omega)
  rw [e] at hlt
  rw [catmullRom_eval _ Fl.fromInt_eq hs h3 (i := 0) (x := x) (by omega) (Or.inr ⟨rfl, by rw [e]⟩) (le_of_lt hlt)]
  simp only [dif_pos, e, crFirstExpr, crPowers, Fl.sub_self', Fl.zero_div', Fl.zero_mul', Fl.one_mul', Vec4.dot,
    Mat4.mulVec, Fl.add_zero', Fl.zero_add']

/-- At the second node the first segment gives `y₀ + (y₁ - y₀)`. -/
theorem crFirst_right (x₀ y₀ x₁ y₁ x₂ y₂ : Fl A) (h : x₀ < x₁) :
    crFirstExpr x₀ y₀ x₁ y₁ x₂ y₂ x₁ = y₀ + (y₁ - y₀) := by
  have hne : x₁ - x₀ ≠ 0 := by
    intro hc
    have := Fl.sub_pos' h
    rw [hc, Fl.val_zero] at this
    exact lt_irrefl _ this
  simp only [crFirstExpr, crPowers, Fl.div_self' hne, Fl.one_mul', Vec4.dot, Mat4.mulVec, Fl.zero_mul', Fl.zero_add',
    Fl.add_zero', Fl.mul_zero']
  generalize (x₁ - x₀) / (x₁ - x₀ + (x₂ - x₁)) = b
  have neg_mul' : ∀ a c : Fl A, -a * c = -(a * c) := by
    intro a c; ext; rw [Fl.val_mul, Fl.val_neg, Fl.val_neg, Fl.val_mul, neg_mul, A.odd]
  have neg_add' : ∀ a c : Fl A, -a + -c = -(a + c) := by
    intro a c; ext; rw [Fl.val_add, Fl.val_neg, Fl.val_neg, Fl.val_neg, Fl.val_add, ← neg_add, A.odd]
  have add_comm' : ∀ a c : Fl A, a + c = c + a := by
    intro a c; ext; rw [Fl.val_add, Fl.val_add, add_comm]
  have neg_neg' : ∀ a : Fl A, - -a = a := by
    intro a; ext; rw [Fl.val_neg, Fl.val_neg, neg_neg]
  have add_neg' : ∀ a : Fl A, -a + a = 0 := by
    intro a; ext; rw [Fl.val_add, Fl.val_neg, neg_add_cancel, A.fl_zero, Fl.val_zero]
  have e1 : -1 + b = -(1 - b) := by
    rw [Fl.sub_eq_add_neg', ← neg_add', neg_neg']
  have e2 : -b * y₂ + (y₁ + (-1 + b) * y₀) = -(b * y₂ + (-1 * y₁ + (1 - b) * y₀)) := by
    rw [e1, neg_mul', neg_mul', neg_mul', Fl.one_mul', ← neg_add', ← neg_add', neg_neg']
  rw [e2, add_neg', Fl.add_zero', neg_mul', Fl.one_mul', Fl.sub_eq_add_neg']

/-- One tenth in `f64`. -/
theorem tenth_val : (i64 1 / i64 10).val = 0x1999999999999a / 2 ^ 56 := by
  rw [Fl.val_div, i64_val 1 (by norm_num), i64_val 10 (by norm_num)]
  rw [show Binary.f64.fl = Binary.roundTo 53 from rfl,
    Binary.roundTo_eq (by norm_num) (-56) 0x1999999999999a (by norm_num [abs_of_pos]) (by norm_num [abs_of_pos])
      (by rw [abs_lt]; norm_num)]
  norm_num

/-- Points with ordinates 1, 0.1 and 0. -/
noncomputable def tenthPoints : List (Fl Binary.f64 × Fl Binary.f64) :=
  [(i64 0, i64 1), (i64 1, i64 1 / i64 10), (i64 2, i64 0)]

theorem tenthPoints_increasing : StrictlyIncreasing tenthPoints := by
  unfold StrictlyIncreasing tenthPoints
  simp only [List.pairwise_cons, List.mem_cons, List.not_mem_nil, or_false, forall_eq_or_imp, forall_eq, Fl.lt_iff,
    i64_val 0 (by norm_num), i64_val 1 (by norm_num), i64_val 2 (by norm_num)]
  norm_num

/-- **C75 (refuted).** In `f64` the Catmull-Rom spline through (0, 1), (1, 0.1), (2, 0) is less than 0.1 at 1. -/
theorem C75_refuted_catmull_rom : ∃ v, StrictlyIncreasing tenthPoints ∧
    evaluate (Interpolator.catmullRom (Fl Binary.f64)) tenthPoints (i64 1) = .ok (.ok v) ∧ v < i64 1 / i64 10 := by
  have h01 : i64 0 < i64 1 := by
    rw [Fl.lt_iff, i64_val 0 (by norm_num), i64_val 1 (by norm_num)]; norm_num
  refine ⟨i64 1 + (i64 1 / i64 10 - i64 1), tenthPoints_increasing, ?_, ?_⟩
  · rw [catmullRom_eval _ Fl.fromInt_eq tenthPoints_increasing (by simp [tenthPoints]) (i := 0) (x := i64 1)
      (by simp [tenthPoints]) (Or.inl h01) (le_refl _)]
    simp only [dif_pos, tenthPoints, List.getElem_cons_zero, List.getElem_cons_succ]
    rw [crFirst_right _ _ _ _ _ _ h01]
  · rw [Fl.lt_iff, Fl.val_add, Fl.val_sub, tenth_val, i64_val 1 (by norm_num)]
    simp only [show Binary.f64.fl = Binary.roundTo 53 from rfl]
    have e1 : Binary.roundTo 53 (0x1999999999999a / 2 ^ 56 - (1 : ℤ)) = -0x1ccccccccccccd / 2 ^ 53 := by
      rw [Binary.roundTo_eq (by norm_num) (-53) (-0x1ccccccccccccd) (by rw [abs_of_neg] <;> norm_num)
        (by rw [abs_of_neg] <;> norm_num) (by rw [abs_lt]; norm_num)]
      norm_num
    rw [e1, Binary.roundTo_eq (by norm_num) (-56) 0x19999999999998 (by rw [abs_of_pos] <;> norm_num)
        (by rw [abs_of_pos] <;> norm_num) (by rw [abs_lt]; norm_num)]
    norm_num

/-! ## Natural cubic -/

section
variable {V : Type} [Zero V] [One V] [Neg V] [Add V] [Sub V] [Mul V] [Div V] [LinearOrder V] [FromInt V]

/-- The expression evaluated in a segment. -/
def naturalExpr (six x₀ y₀ m₀ x₁ y₁ m₁ x : V) : V :=
  (x₁ - x) * (x₁ - x) * (x₁ - x) / six / (x₁ - x₀) * m₀ + (x - x₀) * (x - x₀) * (x - x₀) / six / (x₁ - x₀) * m₁ +
    (x₁ - x) * (y₀ / (x₁ - x₀) - (x₁ - x₀) / six * m₀) + (x - x₀) * (y₁ / (x₁ - x₀) - (x₁ - x₀) / six * m₁)

theorem natural_eval (k : Int → V) (hk : ∀ n, FromInt.fromInt (V := V) n = some (k n)) {n : Nat} (hn : 3 ≤ n)
    {p : Nat → V × V} (hs : StrictlyIncreasing (tab n p)) {i : Nat} (hi : i + 1 < n) {x : V}
    (h0 : (p i).1 < x ∨ (i = 0 ∧ (p i).1 = x)) (h1 : x ≤ (p (i + 1)).1) :
    evaluate (Interpolator.naturalCubic V) (tab n p) x =
      .ok (.ok (naturalExpr (k 6) (p i).1 (p i).2 (second (k 6) (k 3) n p i) (p (i + 1)).1 (p (i + 1)).2
        (second (k 6) (k 3) n p (i + 1)) x)) := by
  have hI : ∀ n, fromI8 V n = .ok (k n) := by intro n; unfold fromI8; rw [hk]; rfl
  unfold evaluate Interpolator.naturalCubic
  simp only [(tryFit_cases lt_irrefl (hI 6) (hI 3) hn p NaturalCubic.default).1
    (neverDecreasing_of_strict hs), Rust.ok_bind]
  unfold tryValue
  generalize hP : (tab n fun i => Point2DWithSlope.new (p i).1 (p i).2 (second (k 6) (k 3) n p i)) = P
  have hlen : P.length = n := by rw [← hP]; simp
  have hidx : ∀ j, j < n → Rust.index P j = .ok (Point2DWithSlope.new (p j).1 (p j).2 (second (k 6) (k 3) n p j)) := by
    intro j hj; rw [← hP]; exact index_tab _ hj
  have hx : ∀ j (hj : j < P.length), (HasX.x P[j] : V) = (p j).1 := by
    intro j hj; simp only [← hP, getElem_tab]; rfl
  have hs' : P.Pairwise fun p q => (HasX.x p : V) < HasX.x q := by
    rw [List.pairwise_iff_getElem]
    intro a b ha hb hab
    rw [hx, hx]
    have := List.pairwise_iff_getElem.1 hs a b (by simp; omega) (by simp; omega) hab
    simpa using this
  have hf := findIndex_at hs' (i := i) (x := x) (by omega) (by rw [hx]; exact h0) (by rw [hx]; exact h1)
  simp only [hf, hidx i (by omega), hidx (i + 1) hi, hI, Rust.ok_bind]
  rfl

end

/-- What is computed at the first node, and at the last. -/
theorem natural_ends (pts : List (Fl A × Fl A)) (hs : StrictlyIncreasing pts) (h3 : 3 ≤ pts.length) :
    (evaluate (Interpolator.naturalCubic (Fl A)) pts pts[0].1 =
      .ok (.ok ((pts[1].1 - pts[0].1) * (pts[0].2 / (pts[1].1 - pts[0].1))))) ∧
    (evaluate (Interpolator.naturalCubic (Fl A)) pts pts[pts.length - 1].1 =
      .ok (.ok ((pts[pts.length - 1].1 - pts[pts.length - 2].1) *
        (pts[pts.length - 1].2 / (pts[pts.length - 1].1 - pts[pts.length - 2].1))))) := by
  obtain ⟨n, p, hn, e⟩ := exists_tab pts (by intro hc; simp [hc] at h3)
  subst e
  have h3' : 3 ≤ n := by omega
  have sub0 : ∀ a : Fl A, a - 0 = a := by
    intro a; ext; rw [Fl.val_sub, Fl.val_zero, sub_zero, a.rep]
  have lt : ∀ i j, i < j → j < n → (p i).1 < (p j).1 := fun i j h1 h2 => by
    have := List.pairwise_iff_getElem.1 hs i j (by simp; omega) (by simpa using h2) h1
    simpa using this
  constructor
  · simp only [getElem_tab]
    rw [natural_eval _ Fl.fromInt_eq h3' hs (i := 0) (by omega) (Or.inr ⟨rfl, rfl⟩) (le_of_lt (lt 0 1 (by omega) (by omega)))]
    have e0 : second (Fl.round A ((6 : ℤ) : ℝ)) (Fl.round A ((3 : ℤ) : ℝ)) n p 0 = 0 := by simp [second]
    simp only [naturalExpr, e0, Fl.mul_zero', Fl.sub_self', Fl.zero_mul', Fl.zero_div', Fl.zero_add', Fl.add_zero',
      sub0]
  · simp only [getElem_tab, length_tab]
    obtain ⟨m, rfl⟩ : ∃ m, n = m + 2 := ⟨n - 2, by omega⟩
    simp only [Nat.add_sub_cancel, show m + 2 - 1 = m + 1 by omega]
    rw [natural_eval _ Fl.fromInt_eq h3' hs (i := m) (by omega) (Or.inl (lt m (m + 1) (by omega) (by omega))) (le_refl _)]
    have e0 : second (Fl.round A ((6 : ℤ) : ℝ)) (Fl.round A ((3 : ℤ) : ℝ)) (m + 2) p (m + 1) = 0 := by
      simp [second]
    simp only [naturalExpr, e0, Fl.mul_zero', Fl.sub_self', Fl.zero_mul', Fl.zero_div', Fl.zero_add', sub0]

/-- **C75.** At its two end points a natural cubic spline is within `3 u` of the given ordinate. -/
theorem C75_natural_cubic_ends_partial (pts : List (Fl A × Fl A)) (hs : StrictlyIncreasing pts) (h3 : 3 ≤ pts.length)
    (x y : Fl A) (h : pts.head? = some (x, y) ∨ pts.getLast? = some (x, y)) :
    ∃ v, evaluate (Interpolator.naturalCubic (Fl A)) pts x = .ok (.ok v) ∧ |v.val - y.val| ≤ 3 * unitRoundoff A * |y.val| := by
  have key : ∀ a b c : Fl A, b < a → |((a - b) * (c / (a - b))).val - c.val| ≤ 3 * unitRoundoff A * |c.val| := by
    intro a b c hab
    have hpos := Fl.sub_pos' hab
    generalize a - b = h at *
    obtain ⟨d1, h1, e1⟩ := A.fl_factor (c.val / h.val)
    obtain ⟨d2, h2, e2⟩ := A.fl_factor (h.val * (c.val / h.val * (1 + d1)))
    have hm := near_mul_unit (x := 1 + d1) (y := 1 + d2) (a := 1) (b := 1) A.unit_pos A.unit_le (by norm_num)
      (by norm_num) (by norm_num) (by norm_num) (by simpa using h1) (by simpa using h2)
    refine (closeTo_of_factor (k := 3) (t := (1 + d1) * (1 + d2)) ?_ ?_)
    · exact le_trans hm (mul_le_mul_of_nonneg_right (by norm_num) A.unit_pos.le)
    · rw [Fl.val_mul, Fl.val_div, e1, e2]
      field_simp
  have pw := List.pairwise_iff_getElem.1 hs
  obtain ⟨e1, e2⟩ := natural_ends pts hs h3
  rcases h with h | h
  · rw [List.head?_eq_getElem?] at h
    obtain ⟨_, e⟩ := List.getElem?_eq_some_iff.1 h
    have hlt := pw 0 1 (by omega) (by omega) (by omega)
    rw [e] at e1 hlt
    exact ⟨_, e1, key _ _ _ hlt⟩
  · rw [List.getLast?_eq_getElem?] at h
    obtain ⟨_, e⟩ := List.getElem?_eq_some_iff.1 h
    have hlt := pw (pts.length - 2) (pts.length - 1) (by omega) (by omega) (by omega)
    rw [e] at e2 hlt
    exact ⟨_, e2, key _ _ _ hlt⟩

/-- Points 49 apart. -/
noncomputable def points49 : List (Fl Binary.f64 × Fl Binary.f64) :=
  [(i64 0, i64 1), (i64 49, i64 0), (i64 98, i64 0)]

theorem points49_increasing : StrictlyIncreasing points49 := by
  unfold StrictlyIncreasing points49
  simp only [List.pairwise_cons, List.mem_cons, List.not_mem_nil, or_false, forall_eq_or_imp, forall_eq, Fl.lt_iff,
    i64_val 0 (by norm_num), i64_val 49 (by norm_num), i64_val 98 (by norm_num)]
  norm_num

/-- **C75 (refuted).** In `f64` the natural cubic spline through (0, 1), (49, 0), (98, 0) is less than 1 at 0. -/
theorem C75_refuted_natural_cubic : ∃ v, StrictlyIncreasing points49 ∧
    evaluate (Interpolator.naturalCubic (Fl Binary.f64)) points49 (i64 0) = .ok (.ok v) ∧ v < i64 1 := by
  refine ⟨_, points49_increasing, (natural_ends points49 points49_increasing (by simp [points49])).1, ?_⟩
  simp only [points49, List.getElem_cons_zero, List.getElem_cons_succ]
  have e0 : (i64 49 - i64 0).val = 49 := by
    rw [Fl.val_sub, i64_val 0 (by norm_num), i64_val 49 (by norm_num)]
    have := Binary.f64.int 49 (by norm_num [Binary.f64, Binary.arith])
    simpa using this
  rw [Fl.lt_iff, Fl.val_mul, Fl.val_div, e0, i64_val 1 (by norm_num)]
  simp only [show Binary.f64.fl = Binary.roundTo 53 from rfl]
  have e1 : Binary.roundTo 53 (((1 : ℤ) : ℝ) / 49) = 0x14e5e0a72f0539 / 2 ^ 58 := by
    rw [Binary.roundTo_eq (by norm_num) (-58) 0x14e5e0a72f0539 (by rw [abs_of_pos] <;> norm_num)
      (by rw [abs_of_pos] <;> norm_num) (by rw [abs_lt]; norm_num)]
    norm_num
  rw [e1, Binary.roundTo_eq (by norm_num) (-53) 0x1fffffffffffff (by rw [abs_of_pos] <;> norm_num)
      (by rw [abs_of_pos] <;> norm_num) (by rw [abs_lt]; norm_num)]
  norm_num

/-! ## Cases that meet the hypotheses -/

/-- The Catmull-Rom spline through (0, 1), (1, 0.1), (2, 0) is exactly 1 at 0. -/
example : evaluate (Interpolator.catmullRom (Fl Binary.f64)) tenthPoints (i64 0) = .ok (.ok (i64 1)) :=
  C75_catmull_rom_first_partial tenthPoints tenthPoints_increasing (by simp [tenthPoints]) _ _ rfl

/-- The natural cubic spline through (0, 1), (49, 0), (98, 0) is within 3 units of 1 at 0. -/
example : ∃ v, evaluate (Interpolator.naturalCubic (Fl Binary.f64)) points49 (i64 0) = .ok (.ok v) ∧
    |v.val - (i64 1).val| ≤ 3 * unitRoundoff Binary.f64 * |(i64 1).val| :=
  C75_natural_cubic_ends_partial points49 points49_increasing (by simp [points49]) _ _ (Or.inl rfl)

/-- The Catmull-Rom spline at 0.1 is within `430 u` of the exact spline. -/
example : ∃ v w, evaluate (Interpolator.catmullRom (Fl Binary.f64)) tenthPoints (i64 1 / i64 10) = .ok (.ok v) ∧
    evaluate (Interpolator.catmullRom ℝ) (tenthPoints.map fun p => (p.1.val, p.2.val)) (i64 1 / i64 10).val =
      .ok (.ok w) ∧ |v.val - w| ≤ 430 * unitRoundoff Binary.f64 * 1 := by
  refine C78_catmull_rom tenthPoints tenthPoints_increasing (by simp [tenthPoints]) _ ⟨⟨_, List.mem_cons_self, ?_⟩,
    ⟨(i64 2, i64 0), by simp [tenthPoints], ?_⟩⟩ 1 ?_
  · rw [Fl.le_iff, tenth_val, i64_val 0 (by norm_num)]; norm_num
  · rw [Fl.le_iff, tenth_val, i64_val 2 (by norm_num)]; norm_num
  · simp only [tenthPoints, List.mem_cons, List.not_mem_nil, or_false, forall_eq_or_imp, forall_eq, tenth_val,
      i64_val 0 (by norm_num), i64_val 1 (by norm_num)]
    refine ⟨by norm_num, ?_, by norm_num⟩
    rw [abs_of_pos] <;> norm_num

/-- Hermite points: a rise from 0 to 29 over 7 days, then flat. -/
noncomputable def hermitePoints : List (Fl Binary.f64 × Fl Binary.f64 × Fl Binary.f64) :=
  [(i64 0, i64 0, i64 4), (i64 7, i64 29, i64 2), (i64 8, i64 29, i64 0)]

theorem hermitePoints_increasing : StrictlyIncreasing hermitePoints := by
  unfold StrictlyIncreasing hermitePoints
  simp only [List.pairwise_cons, List.mem_cons, List.not_mem_nil, or_false, forall_eq_or_imp, forall_eq, Fl.lt_iff,
    i64_val 0 (by norm_num), i64_val 7 (by norm_num), i64_val 8 (by norm_num)]
  norm_num

/-- The Hermite spline is exact at 7, where the straight line is not. -/
example : evaluateHermite hermitePoints (i64 7) = .ok (.ok (i64 29)) :=
  C75_hermite_partial hermitePoints hermitePoints_increasing (by simp [hermitePoints]) _ _ (i64 2)
    (by simp [hermitePoints])

/-- The Hermite spline at 3 is within `280 u · 29` of the exact spline. -/
example : ∃ v w, evaluateHermite hermitePoints (i64 3) = .ok (.ok v) ∧
    evaluateHermite (hermitePoints.map fun p => (p.1.val, p.2.1.val, p.2.2.val)) (i64 3).val = .ok (.ok w) ∧
    |v.val - w| ≤ 280 * unitRoundoff Binary.f64 * 29 := by
  refine C78_hermite hermitePoints hermitePoints_increasing 0 _ _ _ _ _ _ (i64 3) rfl rfl ?_ ?_ 29 ?_ ?_ ?_ ?_
  · rw [Fl.le_iff, i64_val 0 (by norm_num), i64_val 3 (by norm_num)]; norm_num
  · rw [Fl.le_iff, i64_val 3 (by norm_num), i64_val 7 (by norm_num)]; norm_num
  · rw [i64_val 0 (by norm_num)]; norm_num
  · rw [i64_val 29 (by norm_num)]; norm_num
  · rw [i64_val 4 (by norm_num), i64_val 7 (by norm_num), i64_val 0 (by norm_num)]; norm_num
  · rw [i64_val 2 (by norm_num), i64_val 7 (by norm_num), i64_val 0 (by norm_num)]; norm_num

/-- Hermite points on the cubic `x³`. -/
noncomputable def cubePoints : List (Fl Binary.f64 × Fl Binary.f64 × Fl Binary.f64) :=
  [(i64 0, i64 0, i64 0), (i64 3, i64 27, i64 27)]

/-- The Hermite spline at 1 is within `280 u · 81` of 1. -/
example : ∃ v, evaluateHermite cubePoints (i64 1) = .ok (.ok v) ∧ |v.val - 1| ≤ 280 * unitRoundoff Binary.f64 * 81 := by
  have hs : StrictlyIncreasing cubePoints := by
    unfold StrictlyIncreasing cubePoints
    simp only [List.pairwise_cons, List.mem_cons, List.not_mem_nil, or_false, forall_eq, Fl.lt_iff,
      i64_val 0 (by norm_num), i64_val 3 (by norm_num)]
    norm_num
  have hd : ∀ z : ℝ, HasDerivAt (fun x : ℝ => x ^ 3) (3 * z ^ 2) z := fun z => by simpa using hasDerivAt_pow 3 z
  have := C78_hermite_cubic cubePoints hs 0 _ _ _ _ _ _ (i64 1) rfl rfl
    (by rw [Fl.le_iff, i64_val 0 (by norm_num), i64_val 1 (by norm_num)]; norm_num)
    (by rw [Fl.le_iff, i64_val 1 (by norm_num), i64_val 3 (by norm_num)]; norm_num) 81
    (by rw [i64_val 0 (by norm_num)]; norm_num) (by rw [i64_val 27 (by norm_num)]; norm_num)
    (by rw [i64_val 0 (by norm_num), i64_val 3 (by norm_num)]; norm_num)
    (by rw [i64_val 27 (by norm_num), i64_val 3 (by norm_num), i64_val 0 (by norm_num)]; norm_num) (fun x => x ^ 3)
    (by
      rw [i64_val 0 (by norm_num), i64_val 3 (by norm_num), i64_val 27 (by norm_num)]
      refine ⟨⟨0, 0, 0, 1, fun x => by ring⟩, by norm_num, (hd _).congr_deriv (by norm_num), by norm_num,
        (hd _).congr_deriv (by norm_num)⟩)
  rw [i64_val 1 (by norm_num)] at this
  simpa using this

/-- Four points up and down. -/
noncomputable def zigzag : List (Fl Binary.f64 × Fl Binary.f64) :=
  [(i64 0, i64 1), (i64 1, i64 0), (i64 3, i64 4), (i64 4, i64 0)]

/-- The Catmull-Rom spline at 2 is within `430 u · 4` of the cubic with slope 3/5 at 1 and 0 at 3. -/
example : ∃ v, evaluate (Interpolator.catmullRom (Fl Binary.f64)) zigzag (i64 2) = .ok (.ok v) ∧
    |v.val - 43 / 20| ≤ 430 * unitRoundoff Binary.f64 * 4 := by
  have hs : StrictlyIncreasing zigzag := by
    unfold StrictlyIncreasing zigzag
    simp only [List.pairwise_cons, List.mem_cons, List.not_mem_nil, or_false, forall_eq_or_imp, forall_eq, Fl.lt_iff,
      i64_val 0 (by norm_num), i64_val 1 (by norm_num), i64_val 3 (by norm_num), i64_val 4 (by norm_num)]
    norm_num
  let p : ℝ → ℝ := fun x => 3 / 5 * (x - 1) + 12 / 5 * (x - 1) ^ 2 - 17 / 20 * (x - 1) ^ 3
  have hd : ∀ z : ℝ, HasDerivAt p (3 / 5 + 24 / 5 * (z - 1) - 51 / 20 * (z - 1) ^ 2) z := by
    intro z
    have h1 := (hasDerivAt_id z).sub_const 1
    refine (((h1.const_mul (3 / 5)).add ((h1.pow 2).const_mul (12 / 5))).sub
      ((h1.pow 3).const_mul (17 / 20))).congr_deriv ?_
    simp; ring
  have := C78_catmull_rom_cubic zigzag hs 0 _ _ _ _ _ _ _ _ (i64 2) rfl rfl rfl rfl
    (by rw [Fl.le_iff, i64_val 1 (by norm_num), i64_val 2 (by norm_num)]; norm_num)
    (by rw [Fl.le_iff, i64_val 2 (by norm_num), i64_val 3 (by norm_num)]; norm_num) 4
    (by
      simp only [zigzag, List.mem_cons, List.not_mem_nil, or_false, forall_eq_or_imp, forall_eq,
        i64_val 0 (by norm_num), i64_val 1 (by norm_num), i64_val 4 (by norm_num)]
      norm_num) p
    (by
      rw [i64_val 0 (by norm_num), i64_val 1 (by norm_num), i64_val 3 (by norm_num), i64_val 4 (by norm_num)]
      refine ⟨⟨53 / 20, -27 / 4, 99 / 20, -17 / 20, fun x => by simp only [p]; ring⟩, by norm_num [p],
        (hd _).congr_deriv (by norm_num), by norm_num [p], (hd _).congr_deriv (by norm_num)⟩)
  rw [i64_val 2 (by norm_num)] at this
  obtain ⟨v, h1, h2⟩ := this
  refine ⟨v, h1, ?_⟩
  have e : p ((2 : ℤ) : ℝ) = 43 / 20 := by norm_num [p]
  rwa [e] at h2

end Qlab.Props
