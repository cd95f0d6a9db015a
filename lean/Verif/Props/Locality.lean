import Verif.Lemmas.Decay
import Verif.Props.Superposition
import Verif.Lemmas.IeeeRange

/-!
# Which points an interpolated value depends on (C108)
-/

namespace Qlab

open Spec

section
variable {V P : Type} [HasX P V] [LT V] [DecidableLT V] [LE V] [DecidableLE V]

/-- The search sees only the abscissae. -/
theorem findIndex_abscissae {l l' : List P} (h : l.map HasX.x = l'.map HasX.x) (x : V) :
    findIndexAtLeftBoundary l x = findIndexAtLeftBoundary l' x := by
  have hlen : l.length = l'.length := by simpa using congrArg List.length h
  match l, l' with
  | [], [] => rfl
  | [], _ :: _ => simp at hlen
  | _ :: _, [] => simp at hlen
  | p :: ps, q :: qs =>
    have hpp : partitionPoint (fun p => decide (HasX.x p < x)) (p :: ps) =
        partitionPoint (fun q => decide (HasX.x q < x)) (q :: qs) := by
      unfold partitionPoint
      rw [hlen]
      refine binarySearchLoop_congr _ _ _ _ (fun i => ?_) _ _
      have := congrArg (fun m => (m[i]?).map fun y => decide (y < x)) h
      simp only [List.getElem?_map, Option.map_map] at this
      exact congrArg (Option.getD · false) this
    have h0 : (HasX.x p : V) = HasX.x q := by simpa using congrArg List.head? h
    unfold findIndexAtLeftBoundary
    simp only [hpp, h0, hlen]

end

namespace NaturalCubic
variable {K : Type} [Field K]

/-- The last of four or more points does not enter the curvatures at the nodes before the last two. -/
theorem curvature_last_free {n : Nat} (hn : 4 ≤ n) {p q : Nat → K × K} (h : ∀ i, i + 1 < n → p i = q i) {i : Nat}
    (hi : i + 3 ≤ n) : curvature n p i = curvature n q i := by
  have hg : ∀ k, k + 2 < n → gap p k = gap q k := fun k hk => by simp only [gap, h k (by omega), h (k + 1) (by omega)]
  have b1 : ∀ k, k + 4 ≤ n → bSide (6 : K) p k = bSide 6 q k := fun k hk => by simp only [bSide, hg (k + 1) (by omega)]
  have b3 : ∀ k, k + 4 ≤ n → bMain (3 : K) p k = bMain 3 q k := fun k hk => by
    simp only [bMain, hg k (by omega), hg (k + 1) (by omega)]
  have hr : ∀ k, k + 4 ≤ n → rhs n p k = rhs n q k := by
    intro k hk
    simp only [rhs, TridiagonalMatrix.rowProduct, cSide, cMain, mEnd]
    rw [hg k (by omega), hg (k + 1) (by omega), h (k + 1) (by omega), h (k + 1 + 1) (by omega), if_neg (show ¬ k + 3 = n by omega), h 0 (by omega), hg 0 (by omega)]
    rcases k with _ | k
    · simp
    · simp only [Nat.add_sub_cancel, hg (k + 1) (by omega), h (k + 1) (by omega)]
  have hc : ∀ k, k + 4 ≤ n → TridiagonalMatrix.sweepC (bSide 6 p) (bMain 3 p) (bSide 6 p) k =
      TridiagonalMatrix.sweepC (bSide 6 q) (bMain 3 q) (bSide 6 q) k := by
    intro k
    induction k with
    | zero => intro hk; simp only [TridiagonalMatrix.sweepC, b1 0 hk, b3 0 hk]
    | succ k ih =>
      intro hk
      simp only [TridiagonalMatrix.sweepC, b1 (k + 1) hk, b3 (k + 1) hk, b1 k (by omega), ih (by omega)]
  have hY : ∀ k, k + 4 ≤ n → TridiagonalMatrix.sweepY (bSide 6 p) (bMain 3 p) (bSide 6 p) (rhs n p) k =
      TridiagonalMatrix.sweepY (bSide 6 q) (bMain 3 q) (bSide 6 q) (rhs n q) k := by
    intro k
    induction k with
    | zero => intro hk; simp only [TridiagonalMatrix.sweepY, hr 0 hk, b3 0 hk]
    | succ k ih =>
      intro hk
      simp only [TridiagonalMatrix.sweepY, hr (k + 1) hk, b3 (k + 1) hk, b1 k (by omega), ih (by omega), hc k (by omega)]
  have hX : ∀ m k, k + m + 4 = n → TridiagonalMatrix.sweepX (bSide 6 p) (bMain 3 p) (bSide 6 p) (rhs n p) (n - 4) k =
      TridiagonalMatrix.sweepX (bSide 6 q) (bMain 3 q) (bSide 6 q) (rhs n q) (n - 4) k := by
    intro m
    induction m with
    | zero =>
      intro k hk
      rw [TridiagonalMatrix.sweepX_ge _ _ _ _ (by omega), TridiagonalMatrix.sweepX_ge _ _ _ _ (by omega), hY k (by omega)]
    | succ m ih =>
      intro k hk
      have lt : k < n - 4 := by omega
      rw [TridiagonalMatrix.sweepX_lt (bSide 6 p) _ _ _ lt, TridiagonalMatrix.sweepX_lt (bSide 6 q) _ _ _ lt, hY k (by omega),
        hc k (by omega), ih (k + 1) (by omega)]
  rcases i with _ | k
  · rw [curvature_zero, curvature_zero]
  · rw [curvature_succ p (by omega), curvature_succ q (by omega), solved, solved, if_neg (by omega), if_neg (by omega),
      hX (n - 4 - k) k (by omega)]

end NaturalCubic

namespace Props

section
variable {V : Type} [Zero V] [One V] [Neg V] [Add V] [Sub V] [Mul V] [Div V] [FromInt V] [LT V] [DecidableLT V] [LE V]
  [DecidableLE V]

omit [Zero V] [One V] [Neg V] [Add V] [Sub V] [Mul V] [Div V] [FromInt V] [LT V] [DecidableLT V] [LE V] [DecidableLE V] in
theorem map_x_zip (xs ys : List V) (h : ys.length = xs.length) :
    ((xs.zip ys).map fun p => (⟨p.1, p.2⟩ : Point2D V)).map HasX.x = xs := by
  rw [List.map_map]
  exact List.map_fst_zip (by omega)

omit [Zero V] [One V] [Neg V] [Add V] [Sub V] [Mul V] [Div V] [FromInt V] [LT V] [DecidableLT V] [LE V] [DecidableLE V] in
theorem index_zip (xs ys : List V) (j : Nat) :
    Rust.index ((xs.zip ys).map fun p => (⟨p.1, p.2⟩ : Point2D V)) j =
      Rust.unwrap (xs[j]?.bind fun a => ys[j]?.map fun b => ⟨a, b⟩) := by
  unfold Rust.index
  rw [List.getElem?_map, List.zip_eq_zipWith, List.getElem?_zipWith]
  cases xs[j]? <;> cases ys[j]? <;> rfl

omit [Zero V] [One V] [Neg V] [FromInt V] in
/-- **C108.** Linear interpolation at `x`, at any value type, floats with NaN included: for the given abscissae there are two
neighbouring points such that the outcome depends on no other ordinate. -/
theorem C108_linear_any (xs : List V) (x : V) : ∃ i, ∀ ys zs : List V, ys.length = xs.length → zs.length = xs.length →
    (∀ j, i ≤ j → j ≤ i + 1 → ys[j]? = zs[j]?) →
    evaluate (Interpolator.linear V) (xs.zip ys) x = evaluate (Interpolator.linear V) (xs.zip zs) x := by
  rcases hf : findIndexAtLeftBoundary ((xs.zip xs).map fun p => (⟨p.1, p.2⟩ : Point2D V)) x with e | i
  all_goals
    have key : ∀ ys : List V, ys.length = xs.length →
        findIndexAtLeftBoundary ((xs.zip ys).map fun p => (⟨p.1, p.2⟩ : Point2D V)) x = _ := fun ys hy =>
      (findIndex_abscissae (by rw [map_x_zip xs ys hy, map_x_zip xs xs rfl]) x).trans hf
  · refine ⟨0, fun ys zs hy hz _ => ?_⟩
    rw [evaluate_linear, evaluate_linear]
    unfold Linear.tryValue
    simp only [key ys hy, key zs hz]
  · refine ⟨i, fun ys zs hy hz h => ?_⟩
    rw [evaluate_linear, evaluate_linear]
    unfold Linear.tryValue
    simp only [key ys hy, key zs hz, index_zip, h i (by omega) (by omega), h (i + 1) (by omega) (by omega)]

omit [Zero V] [One V] [Neg V] [Add V] [Sub V] [Mul V] [Div V] [FromInt V] [DecidableLT V] [LE V] [DecidableLE V] in
theorem neverDecreasing_zip (t a b : V) (xs ys zs : List V) (hy : ys.length = xs.length) (hz : zs.length = xs.length) :
    NeverDecreasing ((t, a) :: xs.zip ys) ↔ NeverDecreasing ((t, b) :: xs.zip zs) := by
  have e : ∀ (c : V) (us : List V), us.length = xs.length →
      (NeverDecreasing ((t, c) :: xs.zip us) ↔ (t :: xs).IsChain fun p q => ¬ q < p) := by
    intro c us hu
    unfold NeverDecreasing
    rw [show t :: xs = ((t, c) :: xs.zip us).map Prod.fst by rw [List.map_cons, List.map_fst_zip (by omega)],
      List.isChain_map]
  rw [e a ys hy, e b zs hz]

/-- Whether a Catmull-Rom spline can be fitted depends on the abscissae only. -/
theorem catmullRom_fit_any (xs : List V) (x : V) : ∃ o : Option (InterpolationError V), ∀ ys : List V,
    ys.length = xs.length → evaluate (Interpolator.catmullRom V) (xs.zip ys) x =
      match o with
      | some e => .ok (.error e)
      | none => CatmullRom.tryValue ⟨(xs.zip ys).map fun p => ⟨p.1, p.2⟩⟩ x := by
  by_cases h3 : xs.length < 3
  · refine ⟨some (.insufficientPointsError xs.length), fun ys hy => ?_⟩
    unfold evaluate Interpolator.catmullRom CatmullRom.tryFit
    simp [hy, h3]
  · match xs, h3 with
    | [], h3 => exact absurd (by simp) h3
    | t :: xs, h3 =>
      by_cases hN : NeverDecreasing ((t, t) :: (t :: xs).zip (t :: xs))
      · refine ⟨none, fun ys hy => ?_⟩
        match ys, hy with
        | y :: ys, hy =>
          have hc := (CatmullRom.collect_eq t y ((t :: xs).zip (y :: ys))).1
            ((neverDecreasing_zip t t y (t :: xs) (t :: xs) (y :: ys) rfl hy).1 hN)
          have hl : ¬ ((t :: xs).zip (y :: ys)).length < 3 := by rw [List.length_zip, hy]; simpa using h3
          unfold evaluate Interpolator.catmullRom CatmullRom.tryFit
          simp only [if_neg hl]
          rw [show Rust.index ((t :: xs).zip (y :: ys)) 0 = .ok (t, y) from rfl]
          simp only [Rust.ok_bind, hc, Rust.pure_eq]
      · refine ⟨some .pointOrderError, fun ys hy => ?_⟩
        match ys, hy with
        | y :: ys, hy =>
          have hc := (CatmullRom.collect_eq t y ((t :: xs).zip (y :: ys))).2
            (mt (neverDecreasing_zip t t y (t :: xs) (t :: xs) (y :: ys) rfl hy).2 hN)
          have hl : ¬ ((t :: xs).zip (y :: ys)).length < 3 := by rw [List.length_zip, hy]; simpa using h3
          unfold evaluate Interpolator.catmullRom CatmullRom.tryFit
          simp only [if_neg hl]
          rw [show Rust.index ((t :: xs).zip (y :: ys)) 0 = .ok (t, y) from rfl]
          simp only [Rust.ok_bind, hc, Rust.pure_eq]

/-- **C108.** Catmull-Rom interpolation at `x`, at any value type: for the given abscissae there is a segment such that the
outcome depends on no ordinates but those of its ends and of the points next to it, one on each side. -/
theorem C108_catmull_rom_any (xs : List V) (x : V) : ∃ i, ∀ ys zs : List V, ys.length = xs.length →
    zs.length = xs.length → (∀ j, i ≤ j + 1 → j ≤ i + 2 → ys[j]? = zs[j]?) →
    evaluate (Interpolator.catmullRom V) (xs.zip ys) x = evaluate (Interpolator.catmullRom V) (xs.zip zs) x := by
  obtain ⟨o, fit⟩ := catmullRom_fit_any xs x
  rcases hf : findIndexAtLeftBoundary ((xs.zip xs).map fun p => (⟨p.1, p.2⟩ : Point2D V)) x with e | i
  all_goals
    have key : ∀ ys : List V, ys.length = xs.length →
        findIndexAtLeftBoundary ((xs.zip ys).map fun p => (⟨p.1, p.2⟩ : Point2D V)) x = _ := fun ys hy =>
      (findIndex_abscissae (by rw [map_x_zip xs ys hy, map_x_zip xs xs rfl]) x).trans hf
  · refine ⟨0, fun ys zs hy hz _ => ?_⟩
    rw [fit ys hy, fit zs hz]
    unfold CatmullRom.tryValue
    simp only [key ys hy, key zs hz]
  · refine ⟨i, fun ys zs hy hz h => ?_⟩
    rw [fit ys hy, fit zs hz]
    unfold CatmullRom.tryValue
    simp only [key ys hy, key zs hz, index_zip, h i (by omega) (by omega), h (i + 1) (by omega) (by omega),
      h (i + 2) (by omega) (by omega), h (i - 1) (by omega) (by omega), List.length_map, List.length_zip, hy, hz]

end

section
variable {K : Type} [Field K] [LinearOrder K] [IsStrictOrderedRing K] [FromInt K] [ExactCast K]

omit [IsStrictOrderedRing K] [FromInt K] [ExactCast K] in
/-- **C108.** Linear interpolation between two nodes depends on these two nodes only: two lists of points, of whatever lengths,
that share the nodes `i` and `i + 1` give the same values between them. -/
theorem C108_linear (pts pts' : List (K × K)) (hs : StrictlyIncreasing pts) (hs' : StrictlyIncreasing pts') (i i' : Nat)
    (x₀ y₀ x₁ y₁ x : K) (h : IsSegment pts i x₀ y₀ x₁ y₁) (h' : IsSegment pts' i' x₀ y₀ x₁ y₁) (h0 : x₀ ≤ x) (h1 : x ≤ x₁) :
    evaluate (Interpolator.linear K) pts x = evaluate (Interpolator.linear K) pts' x := by
  rw [(linear_segment pts hs i x₀ y₀ x₁ y₁ x h h0 h1).2, (linear_segment pts' hs' i' x₀ y₀ x₁ y₁ x h' h0 h1).2]

omit [IsStrictOrderedRing K] in
/-- **C108.** Catmull-Rom interpolation between the nodes `i` and `i + 1` depends on these two nodes and on their neighbours
`i - 1` and `i + 2` only, whether or not they exist. -/
theorem C108_catmull_rom (pts pts' : List (K × K)) (hs : StrictlyIncreasing pts) (hs' : StrictlyIncreasing pts')
    (h3 : 3 ≤ pts.length) (h3' : 3 ≤ pts'.length) (i : Nat) (x₀ y₀ x₁ y₁ x : K) (h : IsSegment pts i x₀ y₀ x₁ y₁)
    (h0 : x₀ ≤ x) (h1 : x ≤ x₁) (hp : ∀ j, i ≤ j + 1 → j ≤ i + 2 → pts[j]? = pts'[j]?) :
    evaluate (Interpolator.catmullRom K) pts x = evaluate (Interpolator.catmullRom K) pts' x := by
  obtain ⟨ha, hb⟩ := h
  obtain ⟨hi0, ha'⟩ := List.getElem?_eq_some_iff.1 ha
  obtain ⟨hi1, hb'⟩ := List.getElem?_eq_some_iff.1 hb
  have hi1' : i + 1 < pts'.length := (List.getElem?_eq_some_iff.1 ((hp (i + 1) (by omega) (by omega)).symm.trans hb)).1
  have e : ∀ j (hj : j < pts.length) (hj' : j < pts'.length), i ≤ j + 1 → j ≤ i + 2 → pts[j] = pts'[j] := by
    intro j hj hj' l u
    have := hp j l u
    rw [List.getElem?_eq_getElem hj, List.getElem?_eq_getElem hj'] at this
    exact Option.some.inj this
  have hl : i + 2 = pts.length ↔ i + 2 = pts'.length := by
    have := hp (i + 2) (by omega) (by omega)
    constructor
    · intro hc
      rw [List.getElem?_eq_none (by omega)] at this
      have := List.getElem?_eq_none_iff.1 this.symm
      omega
    · intro hc
      rw [List.getElem?_eq_none (l := pts') (by omega)] at this
      have := List.getElem?_eq_none_iff.1 this
      omega
  rw [catmullRom_segment hs h3 hi1 (by rw [ha']; exact h0) (by rw [hb']; exact h1),
    catmullRom_segment hs' h3' hi1' (by rw [← e i hi0 (by omega) (by omega) (by omega), ha']; exact h0)
      (by rw [← e (i + 1) hi1 (by omega) (by omega) (by omega), hb']; exact h1)]
  congr 2
  unfold crSegment
  by_cases hz : i = 0
  · subst hz
    rw [dif_pos rfl, dif_pos rfl, e 0 (by omega) (by omega) (by omega) (by omega),
      e 1 (by omega) (by omega) (by omega) (by omega), e 2 (by omega) (by omega) (by omega) (by omega)]
  · rw [dif_neg hz, dif_neg hz]
    by_cases hl' : i + 2 = pts.length
    · rw [dif_pos hl', dif_pos (hl.1 hl'), e (i - 1) (by omega) (by omega) (by omega) (by omega),
        e i (by omega) (by omega) (by omega) (by omega), e (i + 1) (by omega) (by omega) (by omega) (by omega)]
    · have : i + 2 ≠ pts'.length := mt hl.2 hl'
      rw [dif_neg hl', dif_neg this, e (i - 1) (by omega) (by omega) (by omega) (by omega),
        e i (by omega) (by omega) (by omega) (by omega), e (i + 1) (by omega) (by omega) (by omega) (by omega),
        e (i + 2) (by omega) (by omega) (by omega) (by omega)]

omit [IsStrictOrderedRing K] in
/-- **C108.** Hermite interpolation between two nodes depends on these two nodes, ordinates and slopes, only. -/
theorem C108_hermite (pts pts' : List (K × K × K)) (hs : StrictlyIncreasing pts) (hs' : StrictlyIncreasing pts') (i i' : Nat)
    (p q : K × K × K) (x : K) (h : pts[i]? = some p ∧ pts[i + 1]? = some q) (h' : pts'[i']? = some p ∧ pts'[i' + 1]? = some q)
    (h0 : p.1 ≤ x) (h1 : x ≤ q.1) : evaluateHermite pts x = evaluateHermite pts' x := by
  have key : ∀ (l : List (K × K × K)) (k : Nat), StrictlyIncreasing l → l[k]? = some p ∧ l[k + 1]? = some q →
      evaluateHermite l x = .ok (.ok (hermiteCubic p.1 p.2.1 p.2.2 q.1 q.2.1 q.2.2 x)) := by
    intro l k hl ⟨a, b⟩
    obtain ⟨_, a'⟩ := List.getElem?_eq_some_iff.1 a
    obtain ⟨hk, b'⟩ := List.getElem?_eq_some_iff.1 b
    have := hermite_segment hl hk (x := x) (by rw [a']; exact h0) (by rw [b']; exact h1)
    rw [a', b'] at this
    exact this
  rw [key pts i hs h, key pts' i' hs' h']

/-- **C108.** A natural cubic spline does depend on all ordinates, but the further away they are the less: two lists of
ordinates `ys` and `zs` that nowhere differ by more than `δ`, and that agree at all nodes fewer than `D` nodes away from the
segment between the nodes `i` and `i + 1`, give values there that differ by at most `δ (1 + 15/2 (H/h)²) (2/3)^D`, where `H` is
the length of the segment and `h` the smallest distance between neighbouring nodes. -/
theorem C108_natural_cubic (xs ys zs : List K) (hy : xs.length = ys.length) (hz : xs.length = zs.length)
    (h3 : 3 ≤ xs.length) (hs : xs.Pairwise (· < ·)) (i D : Nat) (x₀ x₁ x h δ v w : K) (hi0 : xs[i]? = some x₀)
    (hi1 : xs[i + 1]? = some x₁) (h0 : x₀ ≤ x) (h1 : x ≤ x₁) (hh : 0 < h)
    (hg : ∀ k a b, xs[k]? = some a → xs[k + 1]? = some b → h ≤ b - a)
    (hd : ∀ (j : Nat) (a b : K), ys[j]? = some a → zs[j]? = some b → |a - b| ≤ δ)
    (he : ∀ j, i < j + D → j < i + 1 + D → ys[j]? = zs[j]?)
    (hv : evaluate (Interpolator.naturalCubic K) (xs.zip ys) x = .ok (.ok v))
    (hw : evaluate (Interpolator.naturalCubic K) (xs.zip zs) x = .ok (.ok w)) :
    |v - w| ≤ δ * (1 + 15 / 2 * ((x₁ - x₀) / h) ^ 2) * (2 / 3) ^ D := by
  obtain ⟨hil0, hx0⟩ := List.getElem?_eq_some_iff.1 hi0
  obtain ⟨hil1, hx1⟩ := List.getElem?_eq_some_iff.1 hi1
  have hlt : x₀ < x₁ := by
    have := List.pairwise_iff_getElem.1 hs i (i + 1) hil0 hil1 (by omega)
    rwa [hx0, hx1] at this
  have hδ : 0 ≤ δ := le_trans (abs_nonneg _) (hd 0 ys[0] zs[0] (List.getElem?_eq_getElem (by omega))
    (List.getElem?_eq_getElem (by omega)))
  have hc := C83_combination (I := Interpolator.naturalCubic K) (n := 3) (Or.inr (Or.inr ⟨rfl, rfl⟩)) xs ys zs hy hz h3 hs
    1 (-1) x v w hv hw
  set ds := List.zipWith (fun y z => 1 * y + -1 * z) ys zs with hds
  have hl : ds.length = xs.length := by simp [hds]; omega
  have hsd := strictlyIncreasing_zip' hs ds
  rw [zip_eq_tab xs ds hl.symm] at hc hsd
  set p : Nat → K × K := fun i => (xs.getD i 0, ds.getD i 0) with hp
  have gx : ∀ k (hk : k < xs.length), xs.getD k 0 = xs[k] := fun k hk => by
    simp [List.getElem?_eq_getElem hk]
  have pi0 : (p i).1 = x₀ := by rw [← hx0]; exact gx i hil0
  have pi1 : (p (i + 1)).1 = x₁ := by rw [← hx1]; exact gx (i + 1) hil1
  have hseg := NaturalCubic.segment h3 hsd hil1 (x := x) (by rw [pi0]; exact h0) (by rw [pi1]; exact h1)
  rw [hc] at hseg
  have hval := Except.ok.inj (Rust.ok.inj hseg)
  -- the weights
  let e : Nat → Nat := fun j => D - max (i - j) (j - (i + 1))
  have step : ∀ a b : Nat, b ≤ a + 1 → ((2 : K) / 3) ^ a ≤ 3 / 2 * (2 / 3) ^ b := by
    intro a b hab
    have : ((2 : K) / 3) ^ (a + 1) ≤ (2 / 3) ^ b := pow_le_pow_of_le_one (by norm_num) (by norm_num) hab
    rw [pow_succ] at this
    linarith
  have hw0 : ∀ k, (0 : K) < (2 / 3) ^ e k := fun k => by positivity
  have hyb : ∀ k, k < xs.length → |(p k).2| ≤ δ * (2 / 3) ^ e k := by
    intro k hk
    have hpk : (p k).2 = ys[k] - zs[k] := by
      have : k < ds.length := by omega
      simp only [hp, List.getD_eq_getElem?_getD, List.getElem?_eq_getElem this, Option.getD_some]
      simp only [hds, List.getElem_zipWith]
      ring
    rw [hpk]
    by_cases hk' : i < k + D ∧ k < i + 1 + D
    · have := he k hk'.1 hk'.2
      rw [List.getElem?_eq_getElem (by omega), List.getElem?_eq_getElem (by omega)] at this
      rw [Option.some.inj this, sub_self, abs_zero]
      exact mul_nonneg hδ (hw0 k).le
    · have : e k = 0 := by show D - max (i - k) (k - (i + 1)) = 0; omega
      rw [this, pow_zero, mul_one]
      exact hd k _ _ (List.getElem?_eq_getElem (by omega)) (List.getElem?_eq_getElem (by omega))
  have hcurv := NaturalCubic.curvature_weighted (p := p) (w := fun k => ((2 : K) / 3) ^ e k) h3 hh
    (fun k hk => by
      have := hg k xs[k] xs[k + 1] (List.getElem?_eq_getElem (by omega)) (List.getElem?_eq_getElem (by omega))
      show h ≤ xs.getD (k + 1) 0 - xs.getD k 0
      rwa [gx k (by omega), gx (k + 1) (by omega)])
    hδ hw0 (fun k => step _ _ (by show D - _ ≤ D - _ + 1; omega)) (fun k => step _ _ (by show D - _ ≤ D - _ + 1; omega)) hyb
  have ei : e i = D := by show D - max (i - i) (i - (i + 1)) = D; omega
  have ei1 : e (i + 1) = D := by show D - max (i - (i + 1)) (i + 1 - (i + 1)) = D; omega
  have c0 := hcurv i
  have c1 := hcurv (i + 1)
  have y0 := hyb i (by omega)
  have y1 := hyb (i + 1) (by omega)
  simp only [ei, ei1] at c0 c1 y0 y1
  rw [abs_le] at y0 y1
  rw [pi0, pi1] at hval
  have near := NaturalCubic.cubic_near hlt h0 h1 y0.1 y0.2 y1.1 y1.2 c0 c1
  rw [← hval] at near
  have eq : δ * (2 / 3) ^ D + (x₁ - x₀) ^ 2 / 8 * (60 * (δ / h ^ 2 * (2 / 3) ^ D)) =
      δ * (1 + 15 / 2 * ((x₁ - x₀) / h) ^ 2) * (2 / 3) ^ D := by
    field_simp
    ring
  rw [abs_le, ← eq]
  constructor <;> linarith [near.1, near.2]

omit [IsStrictOrderedRing K] in
/-- **C108.** The last of four or more points of a natural cubic spline, abscissa and ordinate, does not matter at all up to the
last point but two: the second derivatives there are formed without it. (For a true natural cubic spline it would; the shipped
one is not smooth at the last two inner nodes, see C41.) -/
theorem C108_natural_cubic_last (pts : List (K × K)) (q q' : K × K) (h3 : 3 ≤ pts.length)
    (hs : StrictlyIncreasing (pts ++ [q])) (hs' : StrictlyIncreasing (pts ++ [q'])) (x x₁ y₁ : K)
    (hx₁ : pts[pts.length - 2]? = some (x₁, y₁)) (hx : x ≤ x₁) :
    evaluate (Interpolator.naturalCubic K) (pts ++ [q]) x = evaluate (Interpolator.naturalCubic K) (pts ++ [q']) x := by
  obtain ⟨hl1, hp1⟩ := List.getElem?_eq_some_iff.1 hx₁
  set n := pts.length + 1 with hn
  have hin : ∀ r : K × K, pts ++ [r] = tab n fun i => (pts ++ [r]).getD i (0, 0) := by
    intro r
    apply List.ext_getElem
    · simp [hn]
    · intro i a b
      simp [List.getElem?_eq_getElem a]
  have h0 : ∀ r : K × K, (pts ++ [r])[0]'(by simp) = pts[0] := fun r => List.getElem_append_left (by omega)
  have below : ∀ r : K × K, StrictlyIncreasing (pts ++ [r]) → x < pts[0].1 → BelowAll (pts ++ [r]) x := by
    intro r hr hx0 t ht
    obtain ⟨j, hj, rfl⟩ := List.getElem_of_mem ht
    rcases Nat.eq_zero_or_pos j with rfl | hj0
    · rw [h0]; exact hx0
    · have := List.pairwise_iff_getElem.1 hr 0 j (by simp) hj hj0
      rw [h0] at this
      exact lt_trans hx0 this
  rcases lt_or_ge x pts[0].1 with hb | hb
  · rw [(C40_domain _ hs (by simp; omega) x).1 (below q hs hb), (C40_domain _ hs' (by simp; omega) x).1 (below q' hs' hb)]
  · have hst : StrictlyIncreasing (pts.take (pts.length - 1)) :=
      (List.pairwise_append.1 hs).1.sublist (List.take_sublist _ _)
    obtain ⟨i, hi, l, u⟩ := exists_bracket_raw hst (by simp; omega) (x := x)
      ⟨⟨pts[0], List.mem_take_iff_getElem.2 ⟨0, by omega, rfl⟩, hb⟩,
        (x₁, y₁), List.mem_take_iff_getElem.2 ⟨pts.length - 2, by omega, hp1⟩, hx⟩
    simp only [List.length_take] at hi
    simp only [List.getElem_take] at l u
    have hg : ∀ (r : K × K) (k : Nat) (hk : k < pts.length), (pts ++ [r]).getD k (0, 0) = pts[k] := by
      intro r k hk
      rw [List.getD_eq_getElem?_getD, List.getElem?_append_left hk, List.getElem?_eq_getElem hk, Option.getD_some]
    rw [hin q] at hs ⊢
    rw [hin q'] at hs' ⊢
    have c : ∀ k, k + 3 ≤ n → NaturalCubic.curvature n (fun i => (pts ++ [q]).getD i (0, 0)) k =
        NaturalCubic.curvature n (fun i => (pts ++ [q']).getD i (0, 0)) k := fun k hk =>
      NaturalCubic.curvature_last_free (by omega) (fun j hj => by rw [hg q j (by omega), hg q' j (by omega)]) hk
    rw [NaturalCubic.segment (by omega) hs (i := i) (by omega) (by rw [hg q i (by omega)]; exact l)
        (by rw [hg q (i + 1) (by omega)]; exact u),
      NaturalCubic.segment (by omega) hs' (i := i) (by omega) (by rw [hg q' i (by omega)]; exact l)
        (by rw [hg q' (i + 1) (by omega)]; exact u),
      c i (by omega), c (i + 1) (by omega), hg q i (by omega), hg q' i (by omega), hg q (i + 1) (by omega),
      hg q' (i + 1) (by omega)]

/-- Five points: moving the last of them changes nothing up to the third. -/
example : evaluate (Interpolator.naturalCubic ℚ) ([(0, 0), (1, 1), (2, 0), (3, 2)] ++ [(4, 1)]) (3 / 2) =
    evaluate (Interpolator.naturalCubic ℚ) ([(0, 0), (1, 1), (2, 0), (3, 2)] ++ [(9, -5)]) (3 / 2) :=
  C108_natural_cubic_last _ _ _ (by decide) (by unfold StrictlyIncreasing; decide) (by unfold StrictlyIncreasing; decide)
    (3 / 2) 2 0 rfl (by norm_num)

/-- It does matter after that. -/
example : evaluate (Interpolator.naturalCubic ℚ) ([(0, 0), (1, 1), (2, 0), (3, 2)] ++ [(4, 1)]) (5 / 2) ≠
    evaluate (Interpolator.naturalCubic ℚ) ([(0, 0), (1, 1), (2, 0), (3, 2)] ++ [(9, -5)]) (5 / 2) := by decide +kernel

/-- Two lists of points that share the nodes at 1 and 2. -/
example : evaluate (Interpolator.linear ℚ) [(0, 7), (1, 4), (2, 2), (3, 9)] (3 / 2) =
    evaluate (Interpolator.linear ℚ) [(-1, 0), (0, 1), (1, 4), (2, 2), (8, 8)] (3 / 2) :=
  C108_linear _ _ (by unfold StrictlyIncreasing; decide) (by unfold StrictlyIncreasing; decide) 1 2 1 4 2 2 _ ⟨rfl, rfl⟩ ⟨rfl, rfl⟩ (by norm_num) (by norm_num)

/-- The points after the fourth do not matter between the second and the third. -/
example : evaluate (Interpolator.catmullRom ℚ) [(0, 7), (1, 4), (2, 2), (3, 9), (4, 100), (5, -3)] (3 / 2) =
    evaluate (Interpolator.catmullRom ℚ) [(0, 7), (1, 4), (2, 2), (3, 9), (7, 1)] (3 / 2) :=
  C108_catmull_rom _ _ (by unfold StrictlyIncreasing; decide) (by unfold StrictlyIncreasing; decide) (by decide) (by decide) 1 1 4 2 2 _ ⟨rfl, rfl⟩ (by norm_num) (by norm_num)
    (fun j _ hj => by
      match j, hj with
      | 0, _ | 1, _ | 2, _ | 3, _ => rfl)

/-- The first point does matter there. -/
example : evaluate (Interpolator.catmullRom ℚ) [(0, 7), (1, 4), (2, 2), (3, 9)] (3 / 2) ≠
    evaluate (Interpolator.catmullRom ℚ) [(0, 8), (1, 4), (2, 2), (3, 9)] (3 / 2) := by decide +kernel

example : evaluateHermite [(0, 7, 1), (1, 4, 2), (2, 2, -1)] (3 / 2 : ℚ) =
    evaluateHermite [(1, 4, 2), (2, 2, -1), (9, 9, 9)] (3 / 2) :=
  C108_hermite _ _ (by unfold StrictlyIncreasing; decide) (by unfold StrictlyIncreasing; decide) 1 0 (1, 4, 2) (2, 2, -1) _ ⟨rfl, rfl⟩ ⟨rfl, rfl⟩ (by norm_num) (by norm_num)

/-- Six points a unit apart; the last ordinate but one, three nodes away from the first segment, is moved by one. The value at 1/2 changes,
but by less than 17/2 (2/3)^3. -/
example : ∃ v w, evaluate (Interpolator.naturalCubic ℚ) ([0, 1, 2, 3, 4, 5].zip [0, 1, 0, 2, 0, 1]) (1 / 2) = .ok (.ok v) ∧
    evaluate (Interpolator.naturalCubic ℚ) ([0, 1, 2, 3, 4, 5].zip [0, 1, 0, 2, 1, 1]) (1 / 2) = .ok (.ok w) ∧
    v ≠ w ∧ |v - w| ≤ 1 * (1 + 15 / 2 * ((1 - 0) / 1) ^ 2) * (2 / 3) ^ 3 := by
  have h1 : evaluate (Interpolator.naturalCubic ℚ) ([0, 1, 2, 3, 4, 5].zip [0, 1, 0, 2, 0, 1]) (1 / 2) = .ok (.ok (181 / 224)) := by
    decide +kernel
  have h2 : evaluate (Interpolator.naturalCubic ℚ) ([0, 1, 2, 3, 4, 5].zip [0, 1, 0, 2, 1, 1]) (1 / 2) = .ok (.ok (359 / 448)) := by
    decide +kernel
  refine ⟨_, _, h1, h2, by norm_num, ?_⟩
  refine C108_natural_cubic [0, 1, 2, 3, 4, 5] [0, 1, 0, 2, 0, 1] [0, 1, 0, 2, 1, 1] rfl rfl (by decide) (by decide) 0 3 0 1 (1 / 2) 1 1 _ _ rfl rfl
    (by norm_num) (by norm_num) (by norm_num) ?_ ?_ ?_ h1 h2
  · intro k a b ha hb
    match k with
    | 0 | 1 | 2 | 3 | 4 => simp at ha hb; subst ha hb; norm_num
    | k + 5 => simp at hb
  · intro k a b ha hb
    match k with
    | 0 | 1 | 2 | 3 | 4 | 5 => simp at ha hb; subst ha hb; norm_num
    | k + 6 => simp at hb
  · intro j _ hj
    match j, hj with
    | 0, _ | 1, _ | 2, _ | 3, _ => rfl

/-- Whatever the argument, one of two changes of the ordinates, three nodes apart, does not matter to linear interpolation;
of two changes seven nodes apart one does not matter to Catmull-Rom interpolation. -/
example (x : ℚ) :
    (evaluate (Interpolator.linear ℚ) ([0, 1, 2, 3].zip [7, 4, 2, 9]) x =
      evaluate (Interpolator.linear ℚ) ([0, 1, 2, 3].zip [8, 4, 2, 9]) x ∨
    evaluate (Interpolator.linear ℚ) ([0, 1, 2, 3].zip [7, 4, 2, 9]) x =
      evaluate (Interpolator.linear ℚ) ([0, 1, 2, 3].zip [7, 4, 2, 1]) x) ∧
    (evaluate (Interpolator.catmullRom ℚ) ([0, 1, 2, 3, 4, 5].zip [7, 4, 2, 9, 1, 3]) x =
      evaluate (Interpolator.catmullRom ℚ) ([0, 1, 2, 3, 4, 5].zip [8, 4, 2, 9, 1, 3]) x ∨
    evaluate (Interpolator.catmullRom ℚ) ([0, 1, 2, 3, 4, 5].zip [7, 4, 2, 9, 1, 3]) x =
      evaluate (Interpolator.catmullRom ℚ) ([0, 1, 2, 3, 4, 5].zip [7, 4, 2, 9, 1, 4]) x) := by
  constructor
  · obtain ⟨i, h⟩ := C108_linear_any ([0, 1, 2, 3] : List ℚ) x
    rcases Nat.lt_or_ge 0 i with hi | hi
    · refine .inl (h _ _ rfl rfl fun j h1 h2 => ?_)
      match j, h1 with
      | 0, h1 => omega
      | j + 1, _ => rfl
    · refine .inr (h _ _ rfl rfl fun j h1 h2 => ?_)
      match j, h2 with
      | 0, _ | 1, _ => rfl
      | j + 2, h2 => omega
  · obtain ⟨i, h⟩ := C108_catmull_rom_any ([0, 1, 2, 3, 4, 5] : List ℚ) x
    rcases Nat.lt_or_ge 1 i with hi | hi
    · refine .inl (h _ _ rfl rfl fun j h1 h2 => ?_)
      match j, h1 with
      | 0, h1 => omega
      | j + 1, _ => rfl
    · refine .inr (h _ _ rfl rfl fun j h1 h2 => ?_)
      match j, h2 with
      | 0, _ | 1, _ | 2, _ | 3, _ => rfl
      | j + 4, h2 => omega

end

end Props
end Qlab
