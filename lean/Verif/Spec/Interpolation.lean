import Verif.Model.NaturalCubic
import Mathlib.Order.Basic
import Mathlib.Algebra.Order.Field.Basic
import Mathlib.Data.List.Chain

/-! # Specification vocabulary for interpolation -/

namespace Qlab.Spec

/-- What a caller sees: fit the default interpolator to `pts`, then evaluate at `x`. -/
def evaluate {V : Type} (I : Interpolator V) (pts : List (V × V)) (x : V) :
    Rust (Except (InterpolationError V) V) := do
  match ← I.tryFit I.default pts with
  | .error e => return .error e
  | .ok s => I.tryValue s x

/-- Abscissae strictly increasing. -/
def StrictlyIncreasing {V W : Type} [LT V] (pts : List (V × W)) : Prop := pts.Pairwise fun p q => p.1 < q.1

/-- No abscissa is smaller than the one before it. -/
def NeverDecreasing {V W : Type} [LT V] (pts : List (V × W)) : Prop := pts.IsChain fun p q => ¬ q.1 < p.1

/-- What a caller of `Hermite` sees: construct from `(x, y, slope)` triples, then evaluate at `x`. -/
def evaluateHermite {V : Type} [Zero V] [One V] [Neg V] [Add V] [Sub V] [Mul V] [Div V] [FromInt V] [LT V]
    [DecidableLT V] [LE V] [DecidableLE V] (pts : List (V × V × V)) (x : V) :
    Rust (Except (InterpolationError V) V) := do
  match ← Hermite.tryNew pts with
  | .error e => return .error e
  | .ok s => s.tryValue x

/-- `i` is a segment of `pts`: its end points are `(x₀, y₀)` and `(x₁, y₁)`. -/
def IsSegment {V : Type} (pts : List (V × V)) (i : Nat) (x₀ y₀ x₁ y₁ : V) : Prop :=
  pts[i]? = some (x₀, y₀) ∧ pts[i + 1]? = some (x₁, y₁)

/-- `x` is below the first abscissa. -/
def BelowAll {V W : Type} [LT V] (pts : List (V × W)) (x : V) : Prop := ∀ p ∈ pts, x < p.1

/-- `x` is above the last abscissa. -/
def AboveAll {V W : Type} [LT V] (pts : List (V × W)) (x : V) : Prop := ∀ p ∈ pts, p.1 < x

/-- `x` lies between two abscissae. -/
def InRange {V W : Type} [LE V] (pts : List (V × W)) (x : V) : Prop := (∃ p ∈ pts, p.1 ≤ x) ∧ ∃ p ∈ pts, x ≤ p.1

/-- A small value type with a NaN, for examples: comparisons with `nan` are false. -/
inductive NanNat where
  | nan
  | num (n : Nat)
  deriving DecidableEq, Repr

/-- Strict order on `NanNat`. -/
inductive NanNat.Lt : NanNat → NanNat → Prop where
  | num {a b : Nat} (h : a < b) : NanNat.Lt (.num a) (.num b)

/-- Order on `NanNat`. -/
inductive NanNat.Le : NanNat → NanNat → Prop where
  | num {a b : Nat} (h : a ≤ b) : NanNat.Le (.num a) (.num b)

instance : LT NanNat := ⟨NanNat.Lt⟩
instance : LE NanNat := ⟨NanNat.Le⟩

instance : DecidableLT NanNat
  | .num a, .num b => if h : a < b then isTrue (.num h) else isFalse (by rintro ⟨h'⟩; exact h h')
  | .nan, _ => isFalse (by rintro ⟨⟩)
  | .num _, .nan => isFalse (by rintro ⟨⟩)

instance : DecidableLE NanNat
  | .num a, .num b => if h : a ≤ b then isTrue (.num h) else isFalse (by rintro ⟨h'⟩; exact h h')
  | .nan, _ => isFalse (by rintro ⟨⟩)
  | .num _, .nan => isFalse (by rintro ⟨⟩)

end Qlab.Spec
