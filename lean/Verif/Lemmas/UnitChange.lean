import Verif.Lemmas.LinearSim
import Verif.Lemmas.NaturalCubic
import Verif.Spec.Curve
import Verif.Spec.Symmetry

/-!
# Changes of units

Interpolation only adds quantities of the same dimension and only divides by times.  So any relation between numbers
that the operations respect, dimension by dimension, is passed on from the input to the result.
-/

namespace Qlab

open Spec

/-- `T i` relates quantities of dimension time to the power `i`, `M i` money times time to the power `i`. -/
structure UnitChange {V : Type} [Zero V] [One V] [Neg V] [Add V] [Sub V] [Mul V] [Div V] [LT V] [LE V]
    (T M : ℤ → V → V → Prop) : Prop where
  refl : ∀ a, T 0 a a
  neg : ∀ {i a b}, T i a b → T i (-a) (-b)
  add : ∀ {i a b c d}, T i a b → T i c d → T i (a + c) (b + d)
  sub : ∀ {i a b c d}, T i a b → T i c d → T i (a - c) (b - d)
  mul : ∀ {i j a b c d}, T i a b → T j c d → T (i + j) (a * c) (b * d)
  div : ∀ {i j a b c d}, T i a b → T j c d → T (i - j) (a / c) (b / d)
  lt : ∀ {a b c d}, T 1 a b → T 1 c d → (a < c ↔ b < d)
  le : ∀ {a b c d}, T 1 a b → T 1 c d → (a ≤ c ↔ b ≤ d)
  zero : ∀ i, M i 0 0
  addM : ∀ {i a b c d}, M i a b → M i c d → M i (a + c) (b + d)
  subM : ∀ {i a b c d}, M i a b → M i c d → M i (a - c) (b - d)
  mulM : ∀ {i j a b c d}, T i a b → M j c d → M (i + j) (a * c) (b * d)
  mulM' : ∀ {i j a b c d}, M i a b → T j c d → M (i + j) (a * c) (b * d)
  divM : ∀ {i j a b c d}, M i a b → T j c d → M (i - j) (a / c) (b / d)

section
variable {V : Type} [LT V] [DecidableLT V] [LE V] [DecidableLE V]

/-- The same index, or the same error. -/
theorem findIndex_rel {P : Type} [HasX P V] (X : V → V → Prop) (l l' : List P) (x x' : V) (hx : X x x')
    (hlen : l.length = l'.length)
    (hlt : ∀ (i : Nat) p q, l[i]? = some p → l'[i]? = some q → (HasX.x p < x ↔ HasX.x q < x'))
    (hle : ∀ (i : Nat) p q, l[i]? = some p → l'[i]? = some q → (HasX.x p ≤ x ↔ HasX.x q ≤ x')) :
    (∃ i, findIndexAtLeftBoundary l x = .ok i ∧ findIndexAtLeftBoundary l' x' = .ok i) ∨
    (∃ e e', findIndexAtLeftBoundary l x = .error e ∧ findIndexAtLeftBoundary l' x' = .error e' ∧
      ∀ Y : V → V → Prop, AnswerRel X Y (.ok (.error e)) (.ok (.error e'))) := by
  match l, l' with
  | [], [] => exact .inr ⟨_, _, rfl, rfl, fun _ => rfl⟩
  | [], _ :: _ => simp at hlen
  | _ :: _, [] => simp at hlen
  | p :: ps, q :: qs =>
    have hpp : partitionPoint (fun p => decide (HasX.x p < x)) (p :: ps) =
        partitionPoint (fun q => decide (HasX.x q < x')) (q :: qs) := by
      unfold partitionPoint
      rw [hlen]
      refine binarySearchLoop_congr _ _ _ _ (fun i => ?_) _ _
      cases hi : (p :: ps)[i]? with
      | none =>
        rw [List.getElem?_eq_none_iff, hlen, ← List.getElem?_eq_none_iff] at hi
        rw [hi]; rfl
      | some r =>
        obtain ⟨h, -⟩ := List.getElem?_eq_some_iff.1 hi
        have hi' : (q :: qs)[i]? = some (q :: qs)[i] := List.getElem?_eq_getElem (by omega)
        rw [hi']
        simp only [Option.map_some, Option.getD_some, decide_eq_decide]
        exact hlt i r _ hi hi'
    have h0 := hle 0 p q rfl rfl
    have hl : ps.length = qs.length := by simpa using hlen
    unfold findIndexAtLeftBoundary
    simp only [← hpp, h0, List.length_cons, hl]
    generalize partitionPoint (fun p => decide (HasX.x p < x)) (p :: ps) = k
    split_ifs
    · exact .inl ⟨_, rfl, rfl⟩
    · exact .inr ⟨_, _, rfl, rfl, fun _ => hx⟩
    · exact .inr ⟨_, _, rfl, rfl, fun _ => hx⟩
    · exact .inl ⟨_, rfl, rfl⟩

/-- Indexing related lists. -/
theorem index_rel {α : Type} {R : α → α → Prop} {l l' : List α} (h : List.Forall₂ R l l') (i : Nat) :
    (∃ a b, Rust.index l i = .ok a ∧ Rust.index l' i = .ok b ∧ R a b) ∨
    (Rust.index l i = .panic ∧ Rust.index l' i = .panic) := by
  have hlen := h.length_eq
  rcases Nat.lt_or_ge i l.length with hi | hi
  · refine .inl ⟨l[i], l'[i]'(by omega), Rust.index_of_eq (by simp), Rust.index_of_eq (by simp), ?_⟩
    exact (List.forall₂_iff_get.1 h).2 i hi (by omega)
  · refine .inr ⟨?_, ?_⟩
    · unfold Rust.index; rw [List.getElem?_eq_none hi]; rfl
    · unfold Rust.index; rw [List.getElem?_eq_none (by omega)]; rfl

end

/-- Degrees are often written differently. -/
theorem castDeg {V : Type} {R : ℤ → V → V → Prop} {i j : ℤ} {a b : V} (h : R i a b) (e : i = j) : R j a b := e ▸ h

/-- Related points. -/
def PointRel {V : Type} (T M : ℤ → V → V → Prop) (p q : V × V) : Prop := T 1 p.1 q.1 ∧ M 0 p.2 q.2

theorem points_rel {V : Type} {T M : ℤ → V → V → Prop} {l l' : List (V × V)} (h : List.Forall₂ (PointRel T M) l l') :
    List.Forall₂ (fun p q : Point2D V => T 1 p.x q.x ∧ M 0 p.y q.y) (l.map fun p => ⟨p.1, p.2⟩)
      (l'.map fun p => ⟨p.1, p.2⟩) := by
  induction h with
  | nil => exact .nil
  | cons h _ ih => exact .cons h ih

namespace UnitChange
variable {V : Type} [Zero V] [One V] [Neg V] [Add V] [Sub V] [Mul V] [Div V] [LT V] [DecidableLT V] [LE V] [DecidableLE V]
  {T M : ℤ → V → V → Prop}

section
variable (U : UnitChange T M)
include U

theorem find {P : Type} [HasX P V] {R : P → P → Prop} (hR : ∀ p q, R p q → T 1 (HasX.x p) (HasX.x q)) {l l' : List P}
    (h : List.Forall₂ R l l') {x x' : V} (hx : T 1 x x') :
    (∃ i, findIndexAtLeftBoundary l x = .ok i ∧ findIndexAtLeftBoundary l' x' = .ok i) ∨
    (∃ e e', findIndexAtLeftBoundary l x = .error e ∧ findIndexAtLeftBoundary l' x' = .error e' ∧
      ∀ Y : V → V → Prop, AnswerRel (T 1) Y (.ok (.error e)) (.ok (.error e'))) := by
  have hi : ∀ (i : Nat) p q, l[i]? = some p → l'[i]? = some q → T 1 (HasX.x p) (HasX.x q) := by
    intro i p q hp hq
    obtain ⟨h1, rfl⟩ := List.getElem?_eq_some_iff.1 hp
    obtain ⟨h2, rfl⟩ := List.getElem?_eq_some_iff.1 hq
    exact hR _ _ ((List.forall₂_iff_get.1 h).2 i h1 h2)
  exact findIndex_rel (T 1) l l' x x' hx h.length_eq (fun i p q hp hq => U.lt (hi i p q hp hq) hx)
    (fun i p q hp hq => U.le (hi i p q hp hq) hx)

/-- Linear interpolation. -/
theorem linear {l l' : List (V × V)} (h : List.Forall₂ (PointRel T M) l l') {x x' : V} (hx : T 1 x x') :
    AnswerRel (T 1) (M 0) (evaluate (Interpolator.linear V) l x) (evaluate (Interpolator.linear V) l' x') := by
  rw [evaluate_linear, evaluate_linear]
  have hp := points_rel h
  unfold Linear.tryValue
  rcases U.find (fun _ _ h => h.1) hp hx with ⟨i, h1, h2⟩ | ⟨e, e', h1, h2, h3⟩
  · rw [h1, h2]
    simp only
    rcases index_rel hp i with ⟨p, q, e1, e2, a1, a2⟩ | ⟨e1, e2⟩
    · rcases index_rel hp (i + 1) with ⟨p', q', f1, f2, b1, b2⟩ | ⟨f1, f2⟩
      · rw [e1, e2, f1, f2]
        have := U.mulM' (U.divM (U.subM b2 a2) (U.sub b1 a1)) (U.sub hx a1)
        exact U.addM a2 (castDeg this (by omega))
      · rw [e1, e2, f1, f2]; trivial
    · rw [e1, e2]; trivial
  · rw [h1, h2]
    exact h3 _

/-! ## Four-dimensional products -/

omit [DecidableLT V] [DecidableLE V] in
theorem dotM {i : ℤ} {a a' b b' : Vec4 V} (h1 : T 0 a.a a'.a) (h2 : T 0 a.b a'.b) (h3 : T 0 a.c a'.c)
    (h4 : T 0 a.d a'.d) (g1 : M i b.a b'.a) (g2 : M i b.b b'.b) (g3 : M i b.c b'.c) (g4 : M i b.d b'.d) :
    M i (a.dot b) (a'.dot b') := by
  have e : (0 : ℤ) + i = i := by omega
  exact U.addM (castDeg (U.mulM h4 g4) e) (U.addM (castDeg (U.mulM h3 g3) e)
    (U.addM (castDeg (U.mulM h2 g2) e) (castDeg (U.mulM h1 g1) e)))

omit [DecidableLT V] [DecidableLE V] in
theorem dot {a a' b b' : Vec4 V} (h1 : T 0 a.a a'.a) (h2 : T 0 a.b a'.b) (h3 : T 0 a.c a'.c)
    (h4 : T 0 a.d a'.d) (g1 : T 0 b.a b'.a) (g2 : T 0 b.b b'.b) (g3 : T 0 b.c b'.c) (g4 : T 0 b.d b'.d) :
    T 0 (a.dot b) (a'.dot b') :=
  U.add (castDeg (U.mul h4 g4) (by omega)) (U.add (castDeg (U.mul h3 g3) (by omega))
    (U.add (castDeg (U.mul h2 g2) (by omega)) (castDeg (U.mul h1 g1) (by omega))))

omit [DecidableLT V] [DecidableLE V] in
/-- The position inside a segment has no dimension. -/
theorem position {x x' a a' b b' : V} (hx : T 1 x x') (ha : T 1 a a') (hb : T 1 b b') :
    T 0 ((x - a) / (b - a)) ((x' - a') / (b' - a')) := castDeg (U.div (U.sub hx ha) (U.sub hb ha)) (by omega)

omit [DecidableLT V] [DecidableLE V] in
theorem mul0 {a b c d : V} (h : T 0 a b) (g : T 0 c d) : T 0 (a * c) (b * d) := castDeg (U.mul h g) (by omega)

omit [DecidableLT V] [DecidableLE V] in
theorem div0 {a b c d : V} (h : T 1 a b) (g : T 1 c d) : T 0 (a / c) (b / d) := castDeg (U.div h g) (by omega)

end

/-! ## Hermite -/

/-- Related points with slopes. -/
def SlopeRel (T M : ℤ → V → V → Prop) (k : ℤ) (p q : V × V × V) : Prop :=
  T 1 p.1 q.1 ∧ M 0 p.2.1 q.2.1 ∧ M k p.2.2 q.2.2

/-- Related stored points. -/
def NodeRel (T M : ℤ → V → V → Prop) (k : ℤ) (p q : Point2DWithSlope V) : Prop :=
  T 1 p.coordinate.x q.coordinate.x ∧ M 0 p.coordinate.y q.coordinate.y ∧ M k p.dydx q.dydx

section
variable (U : UnitChange T M)
include U

omit [DecidableLE V] in
theorem hermite_collect {l l' : List (V × V × V)} (h : List.Forall₂ (SlopeRel T M (-1)) l l') :
    ∀ {t t' : V}, T 1 t t' →
    (∃ ps ps', Hermite.collect t l = .ok ps ∧ Hermite.collect t' l' = .ok ps' ∧
      List.Forall₂ (NodeRel T M (-1)) ps ps') ∨
    (Hermite.collect t l = .error .pointOrderError ∧ Hermite.collect t' l' = .error .pointOrderError) := by
  induction h with
  | nil => exact fun _ => .inl ⟨[], [], rfl, rfl, .nil⟩
  | @cons p q l l' hpq _ ih =>
    obtain ⟨x, y, d⟩ := p
    obtain ⟨x', y', d'⟩ := q
    intro t t' ht
    obtain ⟨hx, hy, hd⟩ := hpq
    have hlt := U.lt hx ht
    simp only [Hermite.collect]
    by_cases hc : x < t
    · rw [if_pos hc, if_pos (hlt.1 hc)]; exact .inr ⟨rfl, rfl⟩
    · rw [if_neg hc, if_neg (fun h => hc (hlt.2 h))]
      rcases ih hx with ⟨ps, ps', e1, e2, h⟩ | ⟨e1, e2⟩
      · rw [e1, e2]; exact .inl ⟨_, _, rfl, rfl, .cons ⟨hx, hy, hd⟩ h⟩
      · rw [e1, e2]; exact .inr ⟨rfl, rfl⟩

/-- Hermite splines. -/
theorem hermite [FromInt V] {l l' : List (V × V × V)} (h : List.Forall₂ (SlopeRel T M (-1)) l l') {x x' : V}
    (hx : T 1 x x') : AnswerRel (T 1) (M 0) (evaluateHermite l x) (evaluateHermite l' x') := by
  unfold evaluateHermite Hermite.tryNew
  rcases index_rel h 0 with ⟨p, q, e1, e2, hpq⟩ | ⟨e1, e2⟩
  swap
  · rw [e1, e2]; trivial
  rw [e1, e2]
  simp only [Rust.ok_bind]
  rcases U.hermite_collect h hpq.1 with ⟨ps, ps', e3, e4, hps⟩ | ⟨e3, e4⟩
  swap
  · rw [e3, e4]; trivial
  rw [e3, e4]
  simp only
  cases fromI8 V 2 with
  | panic => trivial
  | ok two =>
  cases fromI8 V (-2) with
  | panic => trivial
  | ok negTwo =>
  cases fromI8 V (-3) with
  | panic => trivial
  | ok negThree =>
  cases fromI8 V 3 with
  | panic => trivial
  | ok three =>
  simp only [Rust.ok_bind, Rust.pure_eq]
  unfold Hermite.tryValue
  rcases U.find (fun _ _ h => h.1) hps hx with ⟨i, h1, h2⟩ | ⟨e, e', h1, h2, h3⟩
  swap
  · simp only; rw [h1, h2]; exact h3 _
  simp only
  rw [h1, h2]
  simp only
  rcases index_rel hps i with ⟨p, q, e1, e2, a1, a2, a3⟩ | ⟨e1, e2⟩
  swap
  · rw [e1, e2]; trivial
  rcases index_rel hps (i + 1) with ⟨p', q', f1, f2, b1, b2, b3⟩ | ⟨f1, f2⟩
  swap
  · rw [e1, e2, f1, f2]; trivial
  rw [e1, e2, f1, f2]
  have hh := U.sub b1 a1
  have hd := U.position hx a1 b1
  have hd2 := U.mul0 hd hd
  have hd3 := U.mul0 hd2 hd
  have one := U.refl 1
  refine U.dotM (i := 0) ?_ ?_ ?_ ?_ a2 b2 (castDeg (U.mulM' a3 hh) (by omega)) (castDeg (U.mulM' b3 hh) (by omega)) <;>
    exact U.dot hd3 hd2 hd one (U.refl _) (U.refl _) (U.refl _) (U.refl _)

/-! ## Catmull-Rom -/

omit [DecidableLE V] in
theorem catmull_collect {l l' : List (V × V)} (h : List.Forall₂ (PointRel T M) l l') :
    ∀ {t t' : V}, T 1 t t' →
    (∃ ps ps', CatmullRom.collect t l = .ok ps ∧ CatmullRom.collect t' l' = .ok ps' ∧
      List.Forall₂ (fun p q : Point2D V => T 1 p.x q.x ∧ M 0 p.y q.y) ps ps') ∨
    (CatmullRom.collect t l = .error .pointOrderError ∧ CatmullRom.collect t' l' = .error .pointOrderError) := by
  induction h with
  | nil => exact fun _ => .inl ⟨[], [], rfl, rfl, .nil⟩
  | @cons p q l l' hpq _ ih =>
    obtain ⟨x, y⟩ := p
    obtain ⟨x', y'⟩ := q
    intro t t' ht
    obtain ⟨hx, hy⟩ := hpq
    have hlt := U.lt hx ht
    simp only [CatmullRom.collect]
    by_cases hc : x < t
    · rw [if_pos hc, if_pos (hlt.1 hc)]; exact .inr ⟨rfl, rfl⟩
    · rw [if_neg hc, if_neg (fun h => hc (hlt.2 h))]
      rcases ih hx with ⟨ps, ps', e1, e2, h⟩ | ⟨e1, e2⟩
      · rw [e1, e2]; exact .inl ⟨_, _, rfl, rfl, .cons ⟨hx, hy⟩ h⟩
      · rw [e1, e2]; exact .inr ⟨rfl, rfl⟩

/-- Catmull-Rom splines. -/
theorem catmullRom [FromInt V] {l l' : List (V × V)} (h : List.Forall₂ (PointRel T M) l l') {x x' : V} (hx : T 1 x x') :
    AnswerRel (T 1) (M 0) (evaluate (Interpolator.catmullRom V) l x) (evaluate (Interpolator.catmullRom V) l' x') := by
  unfold evaluate Interpolator.catmullRom CatmullRom.tryFit
  have hlen := h.length_eq
  simp only [← hlen]
  by_cases h3 : l.length < 3
  · rw [if_pos h3, if_pos h3]; exact rfl
  rw [if_neg h3, if_neg h3]
  rcases index_rel h 0 with ⟨p, q, e1, e2, hpq⟩ | ⟨e1, e2⟩
  swap
  · rw [e1, e2]; trivial
  rw [e1, e2]
  simp only [Rust.ok_bind]
  rcases U.catmull_collect h hpq.1 with ⟨ps, ps', e3, e4, hps⟩ | ⟨e3, e4⟩
  swap
  · rw [e3, e4]; trivial
  rw [e3, e4]
  simp only [Rust.ok_bind, Rust.pure_eq]
  unfold CatmullRom.tryValue
  simp only [← hps.length_eq]
  rcases U.find (fun _ _ h => h.1) hps hx with ⟨i, h1, h2⟩ | ⟨e, e', h1, h2, h3⟩
  swap
  · rw [h1, h2]; exact h3 _
  rw [h1, h2]
  simp only
  rcases index_rel hps i with ⟨p, q, e1, e2, a1, a2⟩ | ⟨e1, e2⟩
  swap
  · rw [e1, e2]; trivial
  rcases index_rel hps (i + 1) with ⟨p', q', f1, f2, b1, b2⟩ | ⟨f1, f2⟩
  swap
  · rw [e1, e2, f1, f2]; trivial
  rw [e1, e2, f1, f2]
  simp only [Rust.ok_bind]
  have hh := U.sub b1 a1
  have hd := U.position hx a1 b1
  have hd2 := U.mul0 hd hd
  have hd3 := U.mul0 hd2 hd
  have one := U.refl 1
  have zero := U.refl 0
  have z := U.zero 0
  by_cases hi : i = 0
  · rw [if_pos hi, if_pos hi]
    rcases index_rel hps (i + 2) with ⟨p'', q'', g1, g2, c1, c2⟩ | ⟨g1, g2⟩
    swap
    · rw [g1, g2]; trivial
    rw [g1, g2]
    have hb := U.div0 hh (U.add hh (U.sub c1 b1))
    refine U.dotM (i := 0) hd3 hd2 hd one ?_ ?_ ?_ ?_
    · exact U.dotM zero (U.sub one hb) (U.neg one) hb z a2 b2 c2
    · exact U.dotM zero (U.add (U.neg one) hb) one (U.neg hb) z a2 b2 c2
    · exact U.dotM zero (U.neg one) one zero z a2 b2 c2
    · exact U.dotM zero one zero zero z a2 b2 c2
  · rw [if_neg hi, if_neg hi]
    by_cases hj : i + 2 = ps.length
    · rw [if_pos hj, if_pos hj]
      rcases index_rel hps (i - 1) with ⟨p'', q'', g1, g2, c1, c2⟩ | ⟨g1, g2⟩
      swap
      · rw [g1, g2]; trivial
      rw [g1, g2]
      cases fromI8 V 2 with
      | panic => trivial
      | ok two =>
      cases fromI8 V (-2) with
      | panic => trivial
      | ok negTwo =>
      have ha := U.div0 hh (U.add hh (U.sub b1 c1))
      have two := U.refl two
      refine U.dotM (i := 0) hd3 hd2 hd one ?_ ?_ ?_ ?_
      · exact U.dotM (U.neg ha) one (U.mul0 (U.neg one) ha) zero c2 a2 b2 z
      · exact U.dotM (U.mul0 two ha) (U.refl _) (U.sub two (U.mul0 two ha)) zero c2 a2 b2 z
      · exact U.dotM (U.neg ha) zero ha zero c2 a2 b2 z
      · exact U.dotM zero one zero zero c2 a2 b2 z
    · rw [if_neg hj, if_neg hj]
      rcases index_rel hps (i - 1) with ⟨p'', q'', g1, g2, c1, c2⟩ | ⟨g1, g2⟩
      swap
      · rw [g1, g2]; trivial
      rcases index_rel hps (i + 2) with ⟨p''', q''', k1, k2, d1, d2⟩ | ⟨k1, k2⟩
      swap
      · rw [g1, g2, k1, k2]; trivial
      rw [g1, g2, k1, k2]
      cases fromI8 V 2 with
      | panic => trivial
      | ok two =>
      cases fromI8 V (-2) with
      | panic => trivial
      | ok negTwo =>
      cases fromI8 V 3 with
      | panic => trivial
      | ok three =>
      have ha := U.div0 hh (U.add hh (U.sub b1 c1))
      have hb := U.div0 hh (U.add hh (U.sub d1 b1))
      have two := U.refl two
      have three := U.refl three
      refine U.dotM (i := 0) hd3 hd2 hd one ?_ ?_ ?_ ?_
      · exact U.dotM (U.neg ha) (U.sub two hb) (U.add (U.refl _) ha) hb c2 a2 b2 d2
      · exact U.dotM (U.mul0 two ha) (U.sub hb three) (U.sub three (U.mul0 two ha)) (U.neg hb) c2 a2 b2 d2
      · exact U.dotM (U.neg ha) zero ha zero c2 a2 b2 d2
      · exact U.dotM zero one zero zero c2 a2 b2 d2

/-! ## Natural cubic -/

omit [DecidableLE V] in
theorem natural_collect {l l' : List ((V × V) × V)}
    (h : List.Forall₂ (fun p q : (V × V) × V => PointRel T M p.1 q.1 ∧ M (-2) p.2 q.2) l l') :
    ∀ {t t' : V}, T 1 t t' →
    (∃ ps ps', NaturalCubic.collect t l = .ok ps ∧ NaturalCubic.collect t' l' = .ok ps' ∧
      List.Forall₂ (NodeRel T M (-2)) ps ps') ∨
    (NaturalCubic.collect t l = .error .pointOrderError ∧ NaturalCubic.collect t' l' = .error .pointOrderError) := by
  induction h with
  | nil => exact fun _ => .inl ⟨[], [], rfl, rfl, .nil⟩
  | @cons p q l l' hpq _ ih =>
    obtain ⟨⟨x, y⟩, d⟩ := p
    obtain ⟨⟨x', y'⟩, d'⟩ := q
    intro t t' ht
    obtain ⟨⟨hx, hy⟩, hd⟩ := hpq
    have hlt := U.lt hx ht
    simp only [NaturalCubic.collect]
    by_cases hc : x < t
    · rw [if_pos hc, if_pos (hlt.1 hc)]; exact .inr ⟨rfl, rfl⟩
    · rw [if_neg hc, if_neg (fun h => hc (hlt.2 h))]
      rcases ih hx with ⟨ps, ps', e1, e2, h⟩ | ⟨e1, e2⟩
      · rw [e1, e2]; exact .inl ⟨_, _, rfl, rfl, .cons ⟨hx, hy, hd⟩ h⟩
      · rw [e1, e2]; exact .inr ⟨rfl, rfl⟩

omit [DecidableLT V] [DecidableLE V] in
open TridiagonalMatrix in
theorem sweepC {lo di up lo' di' up' : Nat → V} {n : Nat} (hl : ∀ i < n, T 1 (lo i) (lo' i)) (hd : ∀ i < n, T 1 (di i) (di' i))
    (hu : ∀ i < n, T 1 (up i) (up' i)) : ∀ i < n, T 0 (sweepC lo di up i) (sweepC lo' di' up' i) := by
  intro i
  induction i with
  | zero => exact fun h => U.div0 (hu 0 h) (hd 0 h)
  | succ i ih =>
    intro h
    exact U.div0 (hu _ h) (U.sub (hd _ h) (castDeg (U.mul (hl i (by omega)) (ih (by omega))) (by omega)))

omit [DecidableLT V] [DecidableLE V] in
open TridiagonalMatrix in
theorem sweepY {lo di up b lo' di' up' b' : Nat → V} {n : Nat} {k : ℤ} (hl : ∀ i < n, T 1 (lo i) (lo' i))
    (hd : ∀ i < n + 1, T 1 (di i) (di' i)) (hu : ∀ i < n, T 1 (up i) (up' i)) (hb : ∀ i < n + 1, M k (b i) (b' i)) :
    ∀ i < n + 1, M (k - 1) (sweepY lo di up b i) (sweepY lo' di' up' b' i) := by
  intro i
  induction i with
  | zero => exact fun h => U.divM (hb 0 h) (hd 0 h)
  | succ i ih =>
    intro h
    have hc := U.sweepC hl (fun i h => hd i (by omega)) hu i (by omega)
    exact U.divM (U.subM (hb _ h) (castDeg (U.mulM (hl i (by omega)) (ih (by omega))) (by omega)))
      (U.sub (hd _ h) (castDeg (U.mul (hl i (by omega)) hc) (by omega)))

omit [DecidableLT V] [DecidableLE V] in
open TridiagonalMatrix in
theorem sweepX {lo di up b lo' di' up' b' : Nat → V} {n m : Nat} {k : ℤ} (hl : ∀ i < n, T 1 (lo i) (lo' i))
    (hd : ∀ i < n + 1, T 1 (di i) (di' i)) (hu : ∀ i < n, T 1 (up i) (up' i)) (hb : ∀ i < n + 1, M k (b i) (b' i))
    (hm : m ≤ n) : ∀ j i, i + j = n → M (k - 1) (sweepX lo di up b m i) (sweepX lo' di' up' b' m i) := by
  intro j
  induction j with
  | zero =>
    intro i hi
    rw [TridiagonalMatrix.sweepX.eq_def lo, TridiagonalMatrix.sweepX.eq_def lo', dif_neg (by omega), dif_neg (by omega)]
    exact U.sweepY hl hd hu hb i (by omega)
  | succ j ih =>
    intro i hi
    rw [TridiagonalMatrix.sweepX.eq_def lo, TridiagonalMatrix.sweepX.eq_def lo']
    by_cases h : i < m
    · rw [dif_pos h, dif_pos h]
      exact U.subM (U.sweepY hl hd hu hb i (by omega)) (castDeg
        (U.mulM (U.sweepC hl (fun i h => hd i (by omega)) hu i (by omega)) (ih (i + 1) (by omega))) (by omega))
    · rw [dif_neg h, dif_neg h]
      exact U.sweepY hl hd hu hb i (by omega)

omit [DecidableLT V] [DecidableLE V] in
open NaturalCubic in
theorem natural_second {six three : V} {n : Nat} (hn : 3 ≤ n) {p p' : Nat → V × V} (h : ∀ i < n, PointRel T M (p i) (p' i)) :
    ∀ i < n, M (-2) (second six three n p i) (second six three n p' i) := by
  have hg : ∀ i, i + 1 < n → T 1 (gap p i) (gap p' i) := fun i hi => U.sub (h _ hi).1 (h i (by omega)).1
  have hr : ∀ i, i + 1 < n → T (-1) (recip (gap p i)) (recip (gap p' i)) :=
    fun i hi => castDeg (U.div (U.refl 1) (hg i hi)) (by omega)
  have hside : ∀ k, k + 2 < n → T 1 (bSide six p k) (bSide six p' k) :=
    fun k hk => castDeg (U.div (hg (k + 1) (by omega)) (U.refl six)) (by omega)
  have hmain : ∀ k, k + 2 < n → T 1 (bMain three p k) (bMain three p' k) :=
    fun k hk => castDeg (U.div (U.add (hg k (by omega)) (hg (k + 1) (by omega))) (U.refl three)) (by omega)
  have hm : ∀ k, k + 2 < n → M (-1) (mEnd n p k) (mEnd n p' k) := by
    intro k hk
    unfold mEnd
    by_cases h0 : k = 0
    · rw [if_pos h0, if_pos h0]
      exact castDeg (U.divM (h 0 (by omega)).2 (hg 0 (by omega))) (by omega)
    · rw [if_neg h0, if_neg h0]
      by_cases h1 : k + 3 = n
      · rw [if_pos h1, if_pos h1]
        exact castDeg (U.divM (h _ (by omega)).2 (hg _ (by omega))) (by omega)
      · rw [if_neg h1, if_neg h1]; exact U.zero _
  have hrhs : ∀ k, k + 2 < n → M (-1) (rhs n p k) (rhs n p' k) := by
    intro k hk
    refine U.addM ?_ (hm k hk)
    have hy : ∀ k, k + 1 < n → M 0 (p (k + 1)).2 (p' (k + 1)).2 := fun k hk => (h _ hk).2
    have hs : ∀ k, k + 2 < n → T (-1) (cSide p k) (cSide p' k) := fun k hk => hr (k + 1) (by omega)
    have hc : T (-1) (cMain p k) (cMain p' k) := U.neg (U.add (hr k (by omega)) (hr (k + 1) (by omega)))
    have e1 := castDeg (U.mulM hc (hy k (by omega))) (j := -1) (by omega)
    unfold TridiagonalMatrix.rowProduct
    simp only
    have e2 : M (-1) (if k + 1 < n - 2 then cMain p k * (p (k + 1)).2 + cSide p k * (p (k + 1 + 1)).2
          else cMain p k * (p (k + 1)).2)
        (if k + 1 < n - 2 then cMain p' k * (p' (k + 1)).2 + cSide p' k * (p' (k + 1 + 1)).2
          else cMain p' k * (p' (k + 1)).2) := by
      by_cases hk1 : k + 1 < n - 2
      · rw [if_pos hk1, if_pos hk1]
        exact U.addM e1 (castDeg (U.mulM (hs k hk) (hy (k + 1) (by omega))) (by omega))
      · rw [if_neg hk1, if_neg hk1]; exact e1
    by_cases hk0 : k > 0
    · rw [if_pos hk0, if_pos hk0]
      exact U.addM e2 (castDeg (U.mulM (hs (k - 1) (by omega)) (hy (k - 1) (by omega))) (by omega))
    · rw [if_neg hk0, if_neg hk0]; exact e2
  intro i hi
  unfold second
  by_cases h0 : i = 0
  · rw [if_pos h0, if_pos h0]; exact U.zero _
  rw [if_neg h0, if_neg h0]
  by_cases h1 : i + 1 < n
  swap
  · rw [if_neg h1, if_neg h1]; exact U.zero _
  rw [if_pos h1, if_pos h1]
  unfold solved
  by_cases h3 : n = 3
  · rw [if_pos h3, if_pos h3]
    exact castDeg (U.divM (hrhs 0 (by omega)) (hmain 0 (by omega))) (by omega)
  · rw [if_neg h3, if_neg h3]
    have := U.sweepX (n := n - 3) (m := n - 4) (k := -1) (fun k hk => hside k (by omega)) (fun k hk => hmain k (by omega))
      (fun k hk => hside k (by omega)) (fun k hk => hrhs k (by omega)) (by omega) (n - 3 - (i - 1)) (i - 1) (by omega)
    exact castDeg this (by omega)

omit U in
theorem forall_tab {α β γ δ : Type} {R : α → β → Prop} {n : Nat} {f : Nat → α} {g : Nat → β} (h : ∀ i < n, R (f i) (g i))
    {S : γ → δ → Prop} {u : Nat → γ} {v : Nat → δ} (h' : ∀ i < n, S (u i) (v i)) :
    List.Forall₂ (fun (p : α × γ) (q : β × δ) => R p.1 q.1 ∧ S p.2 q.2) ((tab n f).zip (tab n u)) ((tab n g).zip (tab n v)) := by
  refine List.forall₂_iff_get.2 ⟨by simp, ?_⟩
  intro i h1 h2
  have hi : i < n := by simpa using h1
  simpa using ⟨h i hi, h' i hi⟩

/-- Natural cubic splines. -/
theorem naturalCubic [FromInt V] {six three : V} (hsix : fromI8 V 6 = .ok six) (hthree : fromI8 V 3 = .ok three)
    {l l' : List (V × V)} (h : List.Forall₂ (PointRel T M) l l') {x x' : V} (hx : T 1 x x') :
    AnswerRel (T 1) (M 0) (evaluate (Interpolator.naturalCubic V) l x) (evaluate (Interpolator.naturalCubic V) l' x') := by
  have hlen := h.length_eq
  by_cases h3 : l.length < 3
  · unfold evaluate Interpolator.naturalCubic NaturalCubic.tryFit
    simp only
    rw [if_pos h3, if_pos (by omega)]
    exact hlen
  obtain ⟨n, p, hn, hp⟩ := exists_tab l (by rintro rfl; simp at h3)
  obtain ⟨n', p', hn', hp'⟩ := exists_tab l' (by rintro rfl; simp at hlen; subst hlen; simp at h3)
  obtain rfl : n = n' := by omega
  have hpt : ∀ i < n, PointRel T M (p i) (p' i) := by
    intro i hi
    have := (List.forall₂_iff_get.1 h).2 i (by omega) (by omega)
    simpa [hp, hp'] using this
  have hn3 : 3 ≤ n := by omega
  subst hp
  subst hp'
  unfold evaluate Interpolator.naturalCubic
  simp only [NaturalCubic.tryFit_eq six three n _ hsix hthree hn3]
  rcases U.natural_collect (forall_tab hpt (U.natural_second (six := six) (three := three) hn3 hpt)) (hpt 0 (by omega)).1 with
    ⟨ps, ps', e3, e4, hps⟩ | ⟨e3, e4⟩
  swap
  · rw [e3, e4]; trivial
  rw [e3, e4]
  simp only [Rust.ok_bind]
  unfold NaturalCubic.tryValue
  rcases U.find (fun _ _ h => h.1) hps hx with ⟨i, h1, h2⟩ | ⟨e, e', h1, h2, h3⟩
  swap
  · rw [h1, h2]; exact h3 _
  rw [h1, h2]
  simp only [hsix]
  rcases index_rel hps i with ⟨p, q, e1, e2, a1, a2, a3⟩ | ⟨e1, e2⟩
  swap
  · rw [e1, e2]; trivial
  rcases index_rel hps (i + 1) with ⟨p', q', f1, f2, b1, b2, b3⟩ | ⟨f1, f2⟩
  swap
  · rw [e1, e2, f1, f2]; trivial
  rw [e1, e2, f1, f2]
  have hh := U.sub b1 a1
  have hl := U.sub b1 hx
  have hr := U.sub hx a1
  have six := U.refl six
  have cube : ∀ {u v : V}, T 1 u v → T 3 (u * u * u) (v * v * v) := fun h => castDeg (U.mul (U.mul h h) h) (by omega)
  have hm : ∀ {y y' m m' : V}, M 0 y y' → M (-2) m m' → M (-1) (y / (p'.coordinate.x - p.coordinate.x) -
      (p'.coordinate.x - p.coordinate.x) / _ * m) (y' / (q'.coordinate.x - q.coordinate.x) -
      (q'.coordinate.x - q.coordinate.x) / _ * m') := fun hy hm => U.subM (castDeg (U.divM hy hh) (by omega))
        (castDeg (U.mulM (U.div hh six) hm) (by omega))
  refine U.addM (U.addM (U.addM ?_ ?_) ?_) ?_
  · exact castDeg (U.mulM (U.div (U.div (cube hl) six) hh) a3) (by omega)
  · exact castDeg (U.mulM (U.div (U.div (cube hr) six) hh) b3) (by omega)
  · exact castDeg (U.mulM hl (hm a2 a3)) (by omega)
  · exact castDeg (U.mulM hr (hm b2 b3)) (by omega)

/-- All shipped interpolators. -/
theorem shipped [FromInt V] {six three : V} (hsix : fromI8 V 6 = .ok six) (hthree : fromI8 V 3 = .ok three) {I : Interpolator V}
    {n : Nat} (hI : IsShippedInterpolator I n) {l l' : List (V × V)} (h : List.Forall₂ (PointRel T M) l l') {x x' : V}
    (hx : T 1 x x') : AnswerRel (T 1) (M 0) (evaluate I l x) (evaluate I l' x') := by
  rcases hI with ⟨rfl, -⟩ | ⟨rfl, -⟩ | ⟨rfl, -⟩
  · exact U.linear h hx
  · exact U.catmullRom h hx
  · exact U.naturalCubic hsix hthree h hx

end

end UnitChange

end Qlab
