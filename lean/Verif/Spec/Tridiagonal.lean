import Verif.Model.NaturalCubic
import Mathlib.Data.Matrix.Mul
import Mathlib.Algebra.Field.Defs

/-! # Specification: tridiagonal matrices as dense matrices -/

namespace Qlab.Spec

variable {K : Type}

/-- The dense matrix with the given diagonals. -/
def dense [Zero K] (upper diag lower : List K) : Matrix (Fin diag.length) (Fin diag.length) K := fun i j =>
  if j = i then diag[i]
  else if j.val = i.val + 1 then upper.getD i 0
  else if i.val = j.val + 1 then lower.getD j 0
  else 0

/-- The shape of a tridiagonal matrix: both side diagonals have one entry less than the main one. -/
def Shaped (upper diag lower : List K) : Prop :=
  upper.length + 1 = diag.length ∧ lower.length + 1 = diag.length

/-- Pivot `i` of Gaussian elimination without row exchanges: the diagonal entry of row `i` once the row above
has been used to clear the entry to its left. -/
def pivot [Field K] (upper diag lower : List K) : Nat → K
  | 0 => diag.getD 0 0
  | i + 1 => diag.getD (i + 1) 0 - lower.getD i 0 * (upper.getD i 0 / pivot upper diag lower i)

/-- Elimination never divides by zero. -/
def NonzeroPivots [Field K] (upper diag lower : List K) : Prop :=
  ∀ i, i < diag.length → pivot upper diag lower i ≠ 0

end Qlab.Spec
