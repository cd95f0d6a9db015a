import Verif.Lemmas.Exact
import Verif.Spec.Curve

/-!
# Fitting an interpolator again (C127)

`try_fit` consumes an interpolator and returns one.  It can be called on an interpolator that was fitted before.
-/

namespace Qlab.Spec

/-- The interpolator a caller holds after fitting it to one set of points after the other, beginning with the default
one; the first error ends it. -/
def fitHistory {V : Type} (I : Interpolator V) : I.State → List (List (V × V)) →
    Rust (Except (InterpolationError V) I.State)
  | s, [] => .ok (.ok s)
  | s, pts :: rest => do
    match ← I.tryFit s pts with
    | .error e => return .error e
    | .ok s' => fitHistory I s' rest

/-- The value at `x` after this history. -/
def evaluateHistory {V : Type} (I : Interpolator V) (history : List (List (V × V))) (x : V) :
    Rust (Except (InterpolationError V) V) := do
  match ← fitHistory I I.default history with
  | .error e => return .error e
  | .ok s => I.tryValue s x

end Qlab.Spec

namespace Qlab.Props

open Spec

variable {V : Type} [Zero V] [One V] [Neg V] [Add V] [Sub V] [Mul V] [Div V] [FromInt V] [LT V] [DecidableLT V]
  [LE V] [DecidableLE V]

/-- Fitting ignores what the interpolator held before. -/
theorem tryFit_any {I : Interpolator V} {n : Nat} (hI : IsShippedInterpolator I n) (s : I.State)
    (pts : List (V × V)) : I.tryFit s pts = I.tryFit I.default pts := by
  rcases hI with ⟨rfl, -⟩ | ⟨rfl, -⟩ | ⟨rfl, -⟩ <;> rfl

theorem fitHistory_append {I : Interpolator V} {n : Nat} (hI : IsShippedInterpolator I n) (pts : List (V × V)) :
    ∀ (history : List (List (V × V))) (s t : I.State), fitHistory I s history = .ok (.ok t) →
      fitHistory I s (history ++ [pts]) = fitHistory I I.default [pts]
  | [], s, _, _ => by
    simp only [List.nil_append, fitHistory]
    rw [tryFit_any hI s pts]
  | p :: rest, s, t, h => by
    simp only [List.cons_append, fitHistory] at h ⊢
    cases hf : I.tryFit s p with
    | panic => rw [hf] at h; cases h
    | ok r =>
      rw [hf] at h
      cases r with
      | error e => cases h
      | ok s' => exact fitHistory_append hI pts rest s' t h

/-- **C127**: an interpolator fitted to several sets of points, one after the other, gives the values, errors and
panics of one fitted to the last set only. -/
theorem C127_last_fit_counts {I : Interpolator V} {n : Nat} (hI : IsShippedInterpolator I n)
    (history : List (List (V × V))) (t : I.State) (hh : fitHistory I I.default history = .ok (.ok t))
    (pts : List (V × V)) (x : V) : evaluateHistory I (history ++ [pts]) x = evaluate I pts x := by
  unfold evaluateHistory evaluate
  rw [fitHistory_append hI pts history I.default t hh]
  simp only [fitHistory]
  cases hf : I.tryFit I.default pts with
  | panic => rfl
  | ok r => cases r <;> rfl

/-- **C127**: an interpolator that was never fitted refuses every point of evaluation, because it has no points. -/
theorem C127_unfitted {I : Interpolator V} {n : Nat} (hI : IsShippedInterpolator I n) (x : V) :
    evaluateHistory I [] x = .ok (.error (.insufficientPointsError 0)) := by
  rcases hI with ⟨rfl, -⟩ | ⟨rfl, -⟩ | ⟨rfl, -⟩ <;> rfl

/-- The natural cubic spline that was never fitted, at 1. -/
example : evaluateHistory (Interpolator.naturalCubic Rat) [] 1 = .ok (.error (.insufficientPointsError 0)) :=
  C127_unfitted (n := 3) (.inr (.inr ⟨rfl, rfl⟩)) 1

/-- **C127**: if a fit fails, the caller gets the error of the first set that cannot be fitted, whatever came before
and comes after it. -/
theorem C127_first_error {I : Interpolator V} {n : Nat} (hI : IsShippedInterpolator I n)
    (history : List (List (V × V))) (t : I.State) (hh : fitHistory I I.default history = .ok (.ok t))
    (pts : List (V × V)) (e : InterpolationError V) (he : I.tryFit I.default pts = .ok (.error e))
    (later : List (List (V × V))) (x : V) : evaluateHistory I (history ++ pts :: later) x = .ok (.error e) := by
  have key : ∀ (history : List (List (V × V))) (s t : I.State), fitHistory I s history = .ok (.ok t) →
      fitHistory I s (history ++ pts :: later) = .ok (.error e) := by
    intro history
    induction history with
    | nil =>
      intro s _ _
      simp only [List.nil_append, fitHistory]
      rw [tryFit_any hI s pts, he]; rfl
    | cons p rest ih =>
      intro s t h
      simp only [List.cons_append, fitHistory] at h ⊢
      cases hf : I.tryFit s p with
      | panic => rw [hf] at h; cases h
      | ok r =>
        rw [hf] at h
        cases r with
        | error e => cases h
        | ok s' => exact ih s' t h
  unfold evaluateHistory
  rw [key history I.default t hh]; rfl

/-- A spline fitted to three points, then to three others, then refused for two. -/
example : let p : List (Rat × Rat) := [(0, 1), (1, 2), (2, 5)]
    let q : List (Rat × Rat) := [(0, 4), (1, 0), (3, 1)]
    let I := Interpolator.catmullRom Rat
    IsShippedInterpolator I 3 ∧ (∃ t, fitHistory I I.default [p] = .ok (.ok t)) ∧
    evaluateHistory I [p, q] 1 = evaluate I q 1 ∧
    I.tryFit I.default [(0, 1), (1, 1)] = .ok (.error (.insufficientPointsError 2)) ∧
    evaluateHistory I [p, [(0, 1), (1, 1)], q] 1 = .ok (.error (.insufficientPointsError 2)) :=
  ⟨.inr (.inl ⟨rfl, rfl⟩), ⟨_, rfl⟩,
    C127_last_fit_counts (n := 3) (.inr (.inl ⟨rfl, rfl⟩)) [[((0 : Rat), (1 : Rat)), (1, 2), (2, 5)]] _ rfl _ _, rfl,
    C127_first_error (n := 3) (.inr (.inl ⟨rfl, rfl⟩)) [[((0 : Rat), (1 : Rat)), (1, 2), (2, 5)]] _ rfl _ _ rfl _ _⟩

end Qlab.Props
