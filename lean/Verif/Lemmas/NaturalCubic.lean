import Verif.Lemmas.Tridiagonal
import Verif.Lemmas.Hermite

/-! # The natural cubic spline: what `try_fit` builds -/

namespace Qlab

open Spec

namespace NaturalCubic
variable {V : Type}

section build
variable [Zero V] [One V] [Neg V] [Add V] [Sub V] [Mul V] [Div V] (six three : V) (n : Nat) (p : Nat → V × V)

/-- Spacing after node `i`. -/
def gap (i : Nat) : V := (p (i + 1)).1 - (p i).1

/-- Side diagonals of `b`. -/
def bSide (k : Nat) : V := gap p (k + 1) / six
/-- Main diagonal of `b`. -/
def bMain (k : Nat) : V := (gap p k + gap p (k + 1)) / three
/-- Side diagonals of `c`. -/
def cSide (k : Nat) : V := recip (gap p (k + 1))
/-- Main diagonal of `c`. -/
def cMain (k : Nat) : V := -(recip (gap p k) + recip (gap p (k + 1)))
/-- The vector `m`. -/
def mEnd (k : Nat) : V :=
  if k = 0 then (p 0).2 / gap p 0
  else if k + 3 = n then (p (k + 2)).2 / gap p (k + 1)
  else 0

/-- Right-hand side of the system. -/
def rhs (k : Nat) : V :=
  TridiagonalMatrix.rowProduct (cSide p) (cMain p) (cSide p) (fun k => (p (k + 1)).2) (n - 2) k + mEnd n p k

/-- What `solve` returns. -/
def solved (k : Nat) : V :=
  if n = 3 then rhs n p 0 / bMain three p 0
  else TridiagonalMatrix.sweepX (bSide six p) (bMain three p) (bSide six p) (rhs n p) (n - 4) k

/-- The second derivatives stored in the points. -/
def second (i : Nat) : V := if i = 0 then 0 else if i + 1 < n then solved six three n p (i - 1) else 0

omit [Mul V] in
theorem system_eq [FromInt V] (hsix : fromI8 V 6 = .ok six) (hthree : fromI8 V 3 = .ok three) (hn : 3 ≤ n) :
    Rust.forRange 1 (n - 1) (systemStep (tab n p)) ⟨[], [], [], [], [], [], []⟩ =
      .ok ⟨tab (n - 2) (mEnd n p), tab (n - 3) (bSide six p), tab (n - 2) (bMain three p), tab (n - 3) (bSide six p),
        tab (n - 3) (cSide p), tab (n - 2) (cMain p), tab (n - 3) (cSide p)⟩ := by
  have := forRange_eq (S := System V)
    (fun i => ⟨tab (i - 1) (mEnd n p), tab (min (i - 1) (n - 3)) (bSide six p), tab (i - 1) (bMain three p),
      tab (i - 2) (bSide six p), tab (min (i - 1) (n - 3)) (cSide p), tab (i - 1) (cMain p),
      tab (i - 2) (cSide p)⟩) (systemStep (tab n p)) (lo := 1) (hi := n - 1) (by omega) ?_
  · rw [show min (1 - 1) (n - 3) = 0 by omega, show n - 1 - 1 = n - 2 by omega, show n - 1 - 2 = n - 3 by omega,
      show min (n - 2) (n - 3) = n - 3 by omega] at this
    exact this
  · intro i h1 h2
    obtain ⟨k, rfl⟩ : ∃ k, i = k + 1 := ⟨i - 1, by omega⟩
    unfold systemStep
    rw [index_tab p (show k + 1 < n by omega), Nat.add_sub_cancel, index_tab p (show k < n by omega),
      index_tab p (show k + 1 + 1 < n by omega)]
    simp only [Rust.ok_bind, hsix, hthree, length_tab, Rust.pure_eq]
    have e1 : min k (n - 3) = k := by omega
    by_cases hk : k = 0
    · subst hk
      by_cases hl : 0 + 1 + 2 = n
      · subst hl
        simp [tab, mEnd, bMain, cMain, gap]
      · have e2 : min 1 (n - 3) = 1 := by omega
        simp [hl, e2, tab, mEnd, bMain, cMain, bSide, cSide, gap]
    · obtain ⟨j, rfl⟩ : ∃ j, k = j + 1 := ⟨k - 1, by omega⟩
      by_cases hl : j + 1 + 1 + 2 = n
      · subst hl
        simp [tab_succ, mEnd, bMain, cMain, bSide, cSide, gap]
      · have e2 : min (j + 1 + 1) (n - 3) = j + 1 + 1 := by omega
        simp [hl, e1, e2, tab_succ, mEnd, bMain, cMain, bSide, cSide, gap]

theorem tryFit_eq [FromInt V] [LT V] [DecidableLT V] (hsix : fromI8 V 6 = .ok six) (hthree : fromI8 V 3 = .ok three)
    (hn : 3 ≤ n) (s : NaturalCubic V) :
    tryFit s (tab n p) =
      match collect (p 0).1 ((tab n p).zip (tab n (second six three n p))) with
      | .error e => .ok (.error e)
      | .ok points => .ok (.ok ⟨points⟩) := by
  unfold tryFit
  rw [length_tab, if_neg (by omega), system_eq six three n p hsix hthree hn]
  simp only [Rust.ok_bind]
  have hshape : ∀ a b c : Nat → V, unwrapMatrix (TridiagonalMatrix.tryNew (tab (n - 3) a) (tab (n - 2) b)
      (tab (n - 3) c)) = .ok ⟨tab (n - 3) a, tab (n - 2) b, tab (n - 3) c, n - 2⟩ := by
    intro a b c
    unfold TridiagonalMatrix.tryNew
    rw [if_neg]
    · simp [unwrapMatrix]
    · simp; omega
  rw [hshape, hshape]
  simp only [Rust.ok_bind]
  have hy : (((tab n p).take (n - 1)).drop 1).map Prod.snd = tab (n - 2) fun k => (p (k + 1)).2 := by
    apply List.ext_getElem
    · simp; omega
    · intro i h1 h2
      simp
  rw [hy]
  have hmul := TridiagonalMatrix.mul_eq (cSide p) (cMain p) (cSide p) (fun k => (p (k + 1)).2) (n - 2)
  rw [show n - 2 - 1 = n - 3 by omega] at hmul
  rw [hmul]
  simp only [Rust.ok_bind, Rust.unwrap]
  have hadd : addVectors (tab (n - 2) (TridiagonalMatrix.rowProduct (cSide p) (cMain p) (cSide p)
      (fun k => (p (k + 1)).2) (n - 2))) (tab (n - 2) (mEnd n p)) = .ok (tab (n - 2) (rhs n p)) := by
    unfold addVectors
    rw [if_pos (by simp)]
    congr 1
    apply List.ext_getElem
    · simp
    · intro i h1 h2
      simp [rhs]
  rw [hadd]
  simp only [Rust.ok_bind]
  have hsolve : TridiagonalMatrix.solve ⟨tab (n - 3) (bSide six p), tab (n - 2) (bMain three p),
      tab (n - 3) (bSide six p), n - 2⟩ (tab (n - 2) (rhs n p)) = .ok (tab (n - 2) (solved six three n p)) := by
    unfold TridiagonalMatrix.solve
    by_cases h3 : n = 3
    · subst h3
      simp [tab, Rust.index, solved]
      rfl
    · rw [if_neg (by simp only []; omega)]
      have := TridiagonalMatrix.thomas_eq (bSide six p) (bMain three p) (bSide six p) (rhs n p) (n - 2) (n - 2)
        (by omega) (le_refl _)
      rw [show n - 2 - 1 = n - 3 by omega, show n - 2 - 2 = n - 4 by omega] at this
      simp only [this]
      congr 1
      apply tab_congr
      intro i hi
      simp [hi, solved, h3]
  rw [hsolve]
  simp only [Rust.ok_bind]
  rw [index_tab p (by omega)]
  simp only [Rust.ok_bind]
  have hder : [0] ++ tab (n - 2) (solved six three n p) ++ [0] = tab n (second six three n p) := by
    apply List.ext_getElem
    · simp; omega
    · intro i h1 h2
      rw [getElem_tab]
      rcases i with _ | i
      · simp [second]
      · simp only [second, Nat.add_sub_cancel, List.cons_append, List.getElem_cons_succ]
        by_cases hi : i < n - 2
        · rw [List.getElem_append_left (by simpa using hi)]
          simp [show i + 1 + 1 < n by omega]
        · rw [List.getElem_append_right (by simpa using hi)]
          simp [show ¬ i + 1 + 1 < n by omega]
  rw [hder]
  cases collect (p 0).1 ((tab n p).zip (tab n (second six three n p))) <;> rfl

end build

end NaturalCubic

end Qlab

namespace Qlab

open Spec

theorem exists_tab {V : Type} (pts : List V) (h : pts ≠ []) : ∃ n p, n = pts.length ∧ pts = tab n p := by
  match pts, h with
  | a :: l, _ => exact ⟨_, _, rfl, eq_tab (a :: l) a⟩

namespace NaturalCubic

theorem zip_tab {V : Type} (n : Nat) (p : Nat → V × V) (d : Nat → V) :
    ((tab n p).zip (tab n d)).map (fun q => Point2DWithSlope.new q.1.1 q.1.2 q.2) =
      tab n fun i => Point2DWithSlope.new (p i).1 (p i).2 (d i) := by
  apply List.ext_getElem
  · simp
  · intro i h1 h2; simp

/-- `try_fit` case by case, for any value type with an irreflexive order and casts. -/
theorem tryFit_cases {V : Type} [Zero V] [One V] [Neg V] [Add V] [Sub V] [Mul V] [Div V] [FromInt V] [LT V]
    [DecidableLT V] (hirr : ∀ a : V, ¬ a < a) {six three : V} (hsix : fromI8 V 6 = .ok six)
    (hthree : fromI8 V 3 = .ok three) {n : Nat} (hn : 3 ≤ n) (p : Nat → V × V) (s : NaturalCubic V) :
    (NeverDecreasing (tab n p) → tryFit s (tab n p) =
      .ok (.ok ⟨tab n fun i => Point2DWithSlope.new (p i).1 (p i).2 (second six three n p i)⟩)) ∧
    (¬ NeverDecreasing (tab n p) → tryFit s (tab n p) = .ok (.error .pointOrderError)) := by
  rw [tryFit_eq six three n p hsix hthree hn s]
  have hc := collect_eq (p 0).1 (p 0).2 (tab n p) (tab n (second six three n p)) (by simp)
  have hself : NeverDecreasing (((p 0).1, (p 0).2) :: tab n p) ↔ NeverDecreasing (tab n p) := by
    obtain ⟨m, rfl⟩ : ∃ m, n = m + 1 := ⟨n - 1, by omega⟩
    rw [show tab (m + 1) p = p 0 :: tab m (fun i => p (i + 1)) by
      simp [tab, List.range_succ_eq_map, Function.comp_def]]
    exact neverDecreasing_cons_self' (p 0) _ (hirr _)
  rw [hself] at hc
  constructor
  · intro h; rw [hc.1 h, zip_tab]
  · intro h; rw [hc.2 h]

/-- The cubic with ordinates `y₀`, `y₁` and second derivatives `m₀`, `m₁` at the ends of a segment. -/
def cubic {K : Type} [Field K] (x₀ y₀ m₀ x₁ y₁ m₁ x : K) : K :=
  (x₁ - x) ^ 3 / 6 / (x₁ - x₀) * m₀ + (x - x₀) ^ 3 / 6 / (x₁ - x₀) * m₁ +
    (x₁ - x) * (y₀ / (x₁ - x₀) - (x₁ - x₀) / 6 * m₀) + (x - x₀) * (y₁ / (x₁ - x₀) - (x₁ - x₀) / 6 * m₁)

section field
variable {K : Type} [Field K] [LinearOrder K]

theorem cubic_left {x₀ x₁ : K} (y₀ m₀ y₁ m₁ : K) (h : x₀ < x₁) : cubic x₀ y₀ m₀ x₁ y₁ m₁ x₀ = y₀ := by
  have hne : x₁ - x₀ ≠ 0 := sub_ne_zero.2 (ne_of_gt h)
  simp only [cubic]
  field_simp
  ring

theorem cubic_right {x₀ x₁ : K} (y₀ m₀ y₁ m₁ : K) (h : x₀ < x₁) : cubic x₀ y₀ m₀ x₁ y₁ m₁ x₁ = y₁ := by
  have hne : x₁ - x₀ ≠ 0 := sub_ne_zero.2 (ne_of_gt h)
  simp only [cubic]
  field_simp
  ring

omit [Field K] in
theorem strict_tab {n : Nat} {p : Nat → K × K} (hs : StrictlyIncreasing (tab n p)) {i j : Nat} (hij : i < j)
    (hj : j < n) : (p i).1 < (p j).1 := by
  have := List.pairwise_iff_getElem.1 hs i j (by simp; omega) (by simpa using hj) hij
  simpa using this

variable [FromInt K] [ExactCast K]

/-- The second derivative stored at node `i`. -/
def curvature (n : Nat) (p : Nat → K × K) (i : Nat) : K := second 6 3 n p i

theorem evaluate_eq {n : Nat} (hn : 3 ≤ n) {p : Nat → K × K} (hs : StrictlyIncreasing (tab n p)) (x : K) :
    evaluate (Interpolator.naturalCubic K) (tab n p) x =
      tryValue ⟨tab n fun i => Point2DWithSlope.new (p i).1 (p i).2 (curvature n p i)⟩ x := by
  unfold evaluate Interpolator.naturalCubic
  simp only [(tryFit_cases lt_irrefl (fromI8_exact 6) (fromI8_exact 3) hn p NaturalCubic.default).1
    (neverDecreasing_of_strict hs), Rust.ok_bind, curvature, Int.cast_ofNat]

theorem segment {n : Nat} (hn : 3 ≤ n) {p : Nat → K × K} (hs : StrictlyIncreasing (tab n p)) {i : Nat}
    (hi : i + 1 < n) {x : K} (h0 : (p i).1 ≤ x) (h1 : x ≤ (p (i + 1)).1) :
    evaluate (Interpolator.naturalCubic K) (tab n p) x =
      .ok (.ok (cubic (p i).1 (p i).2 (curvature n p i) (p (i + 1)).1 (p (i + 1)).2 (curvature n p (i + 1)) x)) := by
  rw [evaluate_eq hn hs]
  unfold tryValue
  generalize hP : (tab n fun i => Point2DWithSlope.new (p i).1 (p i).2 (curvature n p i)) = P
  have hlen : P.length = n := by rw [← hP]; simp
  have hidx : ∀ j, j < n → Rust.index P j = .ok (Point2DWithSlope.new (p j).1 (p j).2 (curvature n p j)) := by
    intro j hj; rw [← hP]; exact index_tab _ hj
  have hx : ∀ j (hj : j < P.length), (HasX.x P[j] : K) = (p j).1 := by
    intro j hj; simp only [← hP, getElem_tab]; rfl
  have hs' : P.Pairwise fun p q => (HasX.x p : K) < HasX.x q := by
    rw [List.pairwise_iff_getElem]
    intro a b ha hb hab
    rw [hx, hx]
    exact strict_tab hs hab (by omega)
  have key : ∀ j, j + 1 < n →
      (do
        let point ← Rust.index P j
        let nextPoint ← Rust.index P (j + 1)
        let h := nextPoint.coordinate.x - point.coordinate.x
        let six ← fromI8 K 6
        return .ok ((nextPoint.coordinate.x - x) * (nextPoint.coordinate.x - x) * (nextPoint.coordinate.x - x)
            / six / h * point.dydx
          + (x - point.coordinate.x) * (x - point.coordinate.x) * (x - point.coordinate.x)
            / six / h * nextPoint.dydx
          + (nextPoint.coordinate.x - x) * (point.coordinate.y / h - h / six * point.dydx)
          + (x - point.coordinate.x) * (nextPoint.coordinate.y / h - h / six * nextPoint.dydx)) :
          Rust (Except (InterpolationError K) K)) =
      .ok (.ok (cubic (p j).1 (p j).2 (curvature n p j) (p (j + 1)).1 (p (j + 1)).2 (curvature n p (j + 1)) x)) := by
    intro j hj
    rw [hidx j (by omega), hidx (j + 1) hj]
    simp only [Point2DWithSlope.new, Rust.ok_bind, fromI8_exact, Rust.pure_eq]
    congr 2
    simp only [cubic, Int.cast_ofNat]
    ring
  rcases findIndex_closed hs' (i := i) (x := x) (by omega) (by rw [hx]; exact h0)
    (by rw [hx]; exact h1) with hf | ⟨hpos, hxe, hf⟩
  · simp only [hf]
    exact key i hi
  · simp only [hf]
    rw [hx] at hxe
    obtain ⟨j, rfl⟩ : ∃ j, i = j + 1 := ⟨i - 1, by omega⟩
    simp only [Nat.add_sub_cancel]
    refine (key j (by omega)).trans ?_
    rw [hxe, cubic_left _ _ _ _ (strict_tab hs (Nat.lt_succ_self _) hi),
      cubic_right _ _ _ _ (strict_tab hs (Nat.lt_succ_self _) (by omega))]

theorem outside {n : Nat} (hn : 3 ≤ n) {p : Nat → K × K} (hs : StrictlyIncreasing (tab n p)) (x : K) :
    (BelowAll (tab n p) x → evaluate (Interpolator.naturalCubic K) (tab n p) x = .ok (.error (.outOfLowerBound x))) ∧
    (AboveAll (tab n p) x → evaluate (Interpolator.naturalCubic K) (tab n p) x = .ok (.error (.outOfUpperBound x))) := by
  rw [evaluate_eq hn hs]
  unfold tryValue
  generalize hP : (tab n fun i => Point2DWithSlope.new (p i).1 (p i).2 (curvature n p i)) = P
  have hlen : P.length = n := by rw [← hP]; simp
  have hx : ∀ j (hj : j < P.length), (HasX.x P[j] : K) = (p j).1 := by
    intro j hj; simp only [← hP, getElem_tab]; rfl
  have hs' : P.Pairwise fun p q => (HasX.x p : K) ≤ HasX.x q := by
    rw [List.pairwise_iff_getElem]
    intro a b ha hb hab
    rw [hx, hx]
    exact le_of_lt (strict_tab hs hab (by omega))
  have hmem : ∀ j, j < n → p j ∈ tab n p := by
    intro j hj
    have := List.getElem_mem (l := tab n p) (n := j) (by simpa using hj)
    simpa using this
  constructor
  · intro hb
    have : findIndexAtLeftBoundary P x = .error (.outOfLowerBound x) := by
      refine findIndex_lower' hs' (by omega) ?_
      rw [hx]
      exact hb _ (hmem 0 (by omega))
    simp only [this]
  · intro ha
    have : findIndexAtLeftBoundary P x = .error (.outOfUpperBound x) := by
      refine findIndex_upper hs' (by omega) ?_
      rw [hx]
      exact ha _ (hmem _ (by omega))
    simp only [this]

end field

section system
variable {K : Type} [Field K] [LinearOrder K] [IsStrictOrderedRing K]

/-- Slope of the chord after node `i`. -/
def chord (p : Nat → K × K) (i : Nat) : K := ((p (i + 1)).2 - (p i).2) / ((p (i + 1)).1 - (p i).1)

theorem gap_pos {n : Nat} {p : Nat → K × K} (hs : StrictlyIncreasing (tab n p)) {i : Nat} (hi : i + 1 < n) :
    0 < gap p i := sub_pos.2 (strict_tab hs (Nat.lt_succ_self _) hi)

omit [LinearOrder K] [IsStrictOrderedRing K] in
theorem rhs_eq {n : Nat} (hn : 4 ≤ n) (p : Nat → K × K) {k : Nat} (hk : k + 2 < n)
    (h0 : gap p k ≠ 0) (h1 : gap p (k + 1) ≠ 0) : rhs n p k = chord p (k + 1) - chord p k := by
  simp only [rhs, TridiagonalMatrix.rowProduct, mEnd, cMain, cSide, recip, chord]
  rw [show (p (k + 1)).1 - (p k).1 = gap p k from rfl, show (p (k + 1 + 1)).1 - (p (k + 1)).1 = gap p (k + 1) from rfl]
  rcases k with _ | k
  · simp only [show 0 + 1 < n - 2 by omega, if_true, show ¬ 0 > 0 by omega, if_false]
    simp only [Nat.zero_add] at *
    field_simp
    ring
  · simp only [show k + 1 > 0 by omega, if_true, Nat.add_sub_cancel, show ¬ k + 1 = 0 by omega, if_false]
    by_cases hl : k + 1 + 3 = n
    · simp only [show ¬ k + 1 + 1 < n - 2 by omega, if_false, hl, if_true]
      field_simp
      ring
    · simp only [show k + 1 + 1 < n - 2 by omega, if_true, hl, if_false]
      field_simp
      ring

omit [LinearOrder K] [IsStrictOrderedRing K] in
theorem rhs_three (p : Nat → K × K) (h0 : gap p 0 ≠ 0) (h1 : gap p 1 ≠ 0) :
    rhs 3 p 0 = chord p 1 - chord p 0 - (p 2).2 / gap p 1 := by
  simp only [rhs, TridiagonalMatrix.rowProduct, mEnd, cMain, recip, chord]
  rw [show (p (0 + 1)).1 - (p 0).1 = gap p 0 from rfl, show (p (1 + 1)).1 - (p 1).1 = gap p 1 from rfl]
  simp
  field_simp
  ring

theorem pivot_gt {n : Nat} {p : Nat → K × K} (hs : StrictlyIncreasing (tab n p)) (k : Nat) (hk : k + 2 < n) :
    bSide 6 p k < TridiagonalMatrix.piv (bSide 6 p) (bMain 3 p) (bSide 6 p) k := by
  induction k with
  | zero =>
    have h0 := gap_pos hs (i := 0) (by omega)
    have h1 := gap_pos hs (i := 0 + 1) (by omega)
    simp only [TridiagonalMatrix.piv, bSide, bMain]
    linarith
  | succ k ih =>
    have ih := ih (by omega)
    have h1 := gap_pos hs (i := k + 1) (by omega)
    have h2 := gap_pos hs (i := k + 1 + 1) (by omega)
    have hb : 0 < bSide 6 p k := by simp only [bSide]; linarith
    have hle : bSide 6 p k * (bSide 6 p k / TridiagonalMatrix.piv (bSide 6 p) (bMain 3 p) (bSide 6 p) k) ≤
        bSide 6 p k := by
      apply mul_le_of_le_one_right (le_of_lt hb)
      exact div_le_one_of_le₀ (le_of_lt ih) (le_of_lt (lt_trans hb ih))
    simp only [TridiagonalMatrix.piv]
    have e : bMain 3 p (k + 1) - bSide 6 p k - bSide 6 p (k + 1) = (gap p (k + 1) + gap p (k + 1 + 1)) / 6 := by
      simp only [bMain, bSide]; ring
    have : 0 < (gap p (k + 1) + gap p (k + 1 + 1)) / 6 := by linarith
    linarith

theorem bSide_pos {n : Nat} {p : Nat → K × K} (hs : StrictlyIncreasing (tab n p)) {k : Nat} (hk : k + 2 < n) :
    0 < bSide 6 p k := by
  have := gap_pos hs (i := k + 1) (by omega)
  simp only [bSide]; linarith

/-- By how much the slope from the right exceeds the slope from the left at node `j + 1`, given the curvatures. -/
def kink (p : Nat → K × K) (M : Nat → K) (j : Nat) : K :=
  chord p (j + 1) - chord p j -
    (gap p j / 6 * M j + (gap p j + gap p (j + 1)) / 3 * M (j + 1) + gap p (j + 1) / 6 * M (j + 2))

omit [LinearOrder K] [IsStrictOrderedRing K] in
theorem curvature_zero (n : Nat) (p : Nat → K × K) : curvature n p 0 = 0 := by simp [curvature, second]

omit [LinearOrder K] [IsStrictOrderedRing K] in
theorem curvature_last {n : Nat} (hn : 3 ≤ n) (p : Nat → K × K) : curvature n p (n - 1) = 0 := by
  simp only [curvature, second]
  rw [if_neg (by omega), if_neg (by omega)]

omit [LinearOrder K] [IsStrictOrderedRing K] in
theorem curvature_succ {n : Nat} (p : Nat → K × K) {k : Nat} (hk : k + 2 < n) :
    curvature n p (k + 1) = solved 6 3 n p k := by
  simp only [curvature, second]
  rw [if_neg (by omega), if_pos (by omega), Nat.add_sub_cancel]

theorem row_eq {n : Nat} (hn : 4 ≤ n) (p : Nat → K × K) {k : Nat} (hk : k + 2 < n) :
    TridiagonalMatrix.rowProduct (bSide 6 p) (bMain 3 p) (bSide 6 p)
      (TridiagonalMatrix.sweepX (bSide 6 p) (bMain 3 p) (bSide 6 p) (rhs n p) (n - 4)) (n - 2) k =
    gap p k / 6 * curvature n p k + (gap p k + gap p (k + 1)) / 3 * curvature n p (k + 1) +
      gap p (k + 1) / 6 * curvature n p (k + 2) := by
  have hX : ∀ i, i + 2 < n → TridiagonalMatrix.sweepX (bSide 6 p) (bMain 3 p) (bSide 6 p) (rhs n p) (n - 4) i =
      curvature n p (i + 1) := by
    intro i hi
    rw [curvature_succ p hi, solved, if_neg (by omega)]
  simp only [TridiagonalMatrix.rowProduct]
  rw [hX k hk]
  have hr : (if k + 1 < n - 2 then bMain 3 p k * curvature n p (k + 1) + bSide 6 p k *
      TridiagonalMatrix.sweepX (bSide 6 p) (bMain 3 p) (bSide 6 p) (rhs n p) (n - 4) (k + 1)
      else bMain 3 p k * curvature n p (k + 1)) =
      bMain 3 p k * curvature n p (k + 1) + bSide 6 p k * curvature n p (k + 2) := by
    by_cases h : k + 1 < n - 2
    · rw [if_pos h, hX (k + 1) (by omega)]
    · rw [if_neg h, show k + 2 = n - 1 by omega, curvature_last (by omega)]; ring
  rw [hr]
  rcases k with _ | k
  · rw [if_neg (by omega), curvature_zero]
    simp only [bSide, bMain]
    ring
  · rw [if_pos (by omega), Nat.add_sub_cancel, hX k (by omega)]
    simp only [bSide, bMain]
    ring

/-- Factor of the kink at the last interior node. -/
def lastFactor (n : Nat) (p : Nat → K × K) : K :=
  bSide 6 p (n - 4) * TridiagonalMatrix.sweepC (bSide 6 p) (bMain 3 p) (bSide 6 p) (n - 4)

theorem lastFactor_pos {n : Nat} (hn : 4 ≤ n) {p : Nat → K × K} (hs : StrictlyIncreasing (tab n p)) :
    0 < lastFactor n p := by
  have h1 := bSide_pos hs (k := n - 4) (by omega)
  have h2 := pivot_gt hs (n - 4) (by omega)
  unfold lastFactor
  rw [TridiagonalMatrix.sweepC_eq]
  exact mul_pos h1 (div_pos h1 (lt_trans h1 h2))

/-- The kinks, four points or more. -/
theorem kink_eq {n : Nat} (hn : 4 ≤ n) {p : Nat → K × K} (hs : StrictlyIncreasing (tab n p)) {k : Nat}
    (hk : k + 2 < n) :
    kink p (curvature n p) k =
      (if k + 4 = n then - (bSide 6 p k * curvature n p (n - 2)) else 0) +
      (if k + 3 = n then - (lastFactor n p * curvature n p (n - 2)) else 0) := by
  have hr := TridiagonalMatrix.residual (bSide 6 p) (bMain 3 p) (bSide 6 p) (rhs n p) (n - 2) (n - 4) (by omega)
    (fun i hi => ne_of_gt (lt_trans (bSide_pos hs (by omega)) (pivot_gt hs i (by omega)))) k (by omega) (by omega)
  rw [row_eq hn p hk, rhs_eq hn p hk (ne_of_gt (gap_pos hs (by omega))) (ne_of_gt (gap_pos hs (by omega)))] at hr
  have hlast : curvature n p (n - 2) =
      TridiagonalMatrix.sweepY (bSide 6 p) (bMain 3 p) (bSide 6 p) (rhs n p) (n - 4 + 1) := by
    rw [show n - 2 = (n - 3) + 1 by omega, curvature_succ p (by omega), solved, if_neg (by omega),
      TridiagonalMatrix.sweepX_ge _ _ _ _ (by omega), show n - 4 + 1 = n - 3 by omega]
  unfold kink
  rw [hr, ← hlast]
  by_cases ha : k + 4 = n
  · have e : k = n - 4 := by omega
    rw [if_pos ⟨e, by omega⟩, if_pos ha, if_neg (by omega), if_neg (by omega)]
    ring
  · by_cases hb : k + 3 = n
    · rw [if_neg (by omega), if_neg ha, if_pos (by omega), if_pos hb]
      unfold lastFactor
      ring
    · rw [if_neg (by omega), if_neg ha, if_neg (by omega), if_neg hb]
      ring

/-- The kink, three points. -/
theorem kink_three {p : Nat → K × K} (hs : StrictlyIncreasing (tab 3 p)) :
    kink p (curvature 3 p) 0 = (p 2).2 / gap p 1 := by
  have h0 := gap_pos hs (i := 0) (by omega)
  have h1 := gap_pos hs (i := 1) (by omega)
  have hm : (gap p 0 + gap p 1) / 3 ≠ 0 := ne_of_gt (by linarith)
  unfold kink
  rw [curvature_zero, curvature_succ p (by omega), show 0 + 2 = 3 - 1 from rfl, curvature_last (le_refl 3), solved,
    if_pos rfl, rhs_three p (ne_of_gt h0) (ne_of_gt h1)]
  simp only [bMain, Nat.zero_add]
  rw [mul_div_cancel₀ _ hm]
  ring

/-- Points on a line have zero curvature, four points or more. -/
theorem curvature_line {n : Nat} (hn : 4 ≤ n) {p : Nat → K × K} (hs : StrictlyIncreasing (tab n p)) (a b : K)
    (hl : ∀ i, i < n → (p i).2 = a + b * (p i).1) (i : Nat) : curvature n p i = 0 := by
  have hchord : ∀ i, i + 1 < n → chord p i = b := by
    intro i hi
    have := gap_pos hs hi
    have hne : (p (i + 1)).1 - (p i).1 ≠ 0 := ne_of_gt this
    unfold chord
    rw [hl i (by omega), hl (i + 1) hi]
    field_simp
    ring
  have hrhs : ∀ k, k + 2 < n → rhs n p k = 0 := by
    intro k hk
    rw [rhs_eq hn p hk (ne_of_gt (gap_pos hs (by omega))) (ne_of_gt (gap_pos hs (by omega))),
      hchord _ (by omega), hchord _ (by omega), sub_self]
  have hy : ∀ k, k + 2 < n → TridiagonalMatrix.sweepY (bSide 6 p) (bMain 3 p) (bSide 6 p) (rhs n p) k = 0 := by
    intro k
    induction k with
    | zero => intro h; simp [TridiagonalMatrix.sweepY, hrhs 0 h]
    | succ k ih => intro h; simp [TridiagonalMatrix.sweepY, hrhs _ h, ih (by omega)]
  have hx : ∀ d k, n - 4 - k = d → k + 2 < n →
      TridiagonalMatrix.sweepX (bSide 6 p) (bMain 3 p) (bSide 6 p) (rhs n p) (n - 4) k = 0 := by
    intro d
    induction d with
    | zero => intro k h1 h2; rw [TridiagonalMatrix.sweepX_ge _ _ _ _ (by omega), hy k h2]
    | succ d ih =>
      intro k h1 h2
      rw [TridiagonalMatrix.sweepX_lt _ _ _ _ (by omega), hy k h2, ih (k + 1) (by omega) (by omega)]
      ring
  unfold curvature second
  split_ifs with h1 h2
  · rfl
  · rw [solved, if_neg (by omega)]
    exact hx _ _ rfl (by omega)
  · rfl

end system

/-! ## Calculus -/

/-- The slope of a segment. -/
noncomputable def cubicSlope (x₀ y₀ m₀ x₁ y₁ m₁ x : ℝ) : ℝ :=
  -((x₁ - x) ^ 2 / 2 / (x₁ - x₀) * m₀) + (x - x₀) ^ 2 / 2 / (x₁ - x₀) * m₁ -
    (y₀ / (x₁ - x₀) - (x₁ - x₀) / 6 * m₀) + (y₁ / (x₁ - x₀) - (x₁ - x₀) / 6 * m₁)

theorem cubic_hasDerivAt (x₀ y₀ m₀ x₁ y₁ m₁ x : ℝ) :
    HasDerivAt (cubic x₀ y₀ m₀ x₁ y₁ m₁) (cubicSlope x₀ y₀ m₀ x₁ y₁ m₁ x) x := by
  have ha : HasDerivAt (fun z => x₁ - z) (-1) x := by simpa using (hasDerivAt_id x).const_sub x₁
  have hb : HasDerivAt (fun z => z - x₀) 1 x := (hasDerivAt_id x).sub_const x₀
  have := ((((((ha.pow 3).div_const 6).div_const (x₁ - x₀)).mul_const m₀).add
    ((((hb.pow 3).div_const 6).div_const (x₁ - x₀)).mul_const m₁)).add
    (ha.mul_const (y₀ / (x₁ - x₀) - (x₁ - x₀) / 6 * m₀))).add
    (hb.mul_const (y₁ / (x₁ - x₀) - (x₁ - x₀) / 6 * m₁))
  refine this.congr_deriv ?_
  simp only [cubicSlope, Nat.cast_ofNat]
  ring

theorem cubicSlope_hasDerivAt (x₀ y₀ m₀ x₁ y₁ m₁ x : ℝ) :
    HasDerivAt (cubicSlope x₀ y₀ m₀ x₁ y₁ m₁) ((x₁ - x) / (x₁ - x₀) * m₀ + (x - x₀) / (x₁ - x₀) * m₁) x := by
  have ha : HasDerivAt (fun z => x₁ - z) (-1) x := by simpa using (hasDerivAt_id x).const_sub x₁
  have hb : HasDerivAt (fun z => z - x₀) 1 x := (hasDerivAt_id x).sub_const x₀
  have := ((((((ha.pow 2).div_const 2).div_const (x₁ - x₀)).mul_const m₀).neg.add
    ((((hb.pow 2).div_const 2).div_const (x₁ - x₀)).mul_const m₁)).sub_const
    (y₀ / (x₁ - x₀) - (x₁ - x₀) / 6 * m₀)).add_const
    (y₁ / (x₁ - x₀) - (x₁ - x₀) / 6 * m₁)
  refine this.congr_deriv ?_
  simp only [Nat.cast_ofNat]
  ring

theorem cubic_continuous (x₀ y₀ m₀ x₁ y₁ m₁ : ℝ) : Continuous (cubic x₀ y₀ m₀ x₁ y₁ m₁) :=
  continuous_iff_continuousAt.2 fun x => (cubic_hasDerivAt x₀ y₀ m₀ x₁ y₁ m₁ x).continuousAt

/-- The kink is the difference of the one-sided slopes. -/
theorem kink_slopes (p : Nat → ℝ × ℝ) (M : Nat → ℝ) (j : Nat) (h0 : gap p j ≠ 0) (h1 : gap p (j + 1) ≠ 0) :
    kink p M j =
      cubicSlope (p (j + 1)).1 (p (j + 1)).2 (M (j + 1)) (p (j + 2)).1 (p (j + 2)).2 (M (j + 2)) (p (j + 1)).1 -
      cubicSlope (p j).1 (p j).2 (M j) (p (j + 1)).1 (p (j + 1)).2 (M (j + 1)) (p (j + 1)).1 := by
  simp only [kink, cubicSlope, chord]
  rw [show (p (j + 1)).1 - (p j).1 = gap p j from rfl, show (p (j + 1 + 1)).1 - (p (j + 1)).1 = gap p (j + 1) from rfl,
    show (p (j + 1 + 1)).2 = (p (j + 2)).2 from rfl]
  field_simp
  ring

end NaturalCubic

end Qlab
