import Mathlib.Algebra.Order.Field.Basic
import Mathlib.Data.Real.Basic
import Mathlib.Data.Rat.Cast.Order
import Mathlib.Analysis.SpecialFunctions.Exp
import Verif.Model.Value

/-!
# Exact value types

Theorems about values are proved for exact arithmetic.  `ExactCast` says that integer casts are exact
and never fail.  The rationals and the reals are instances.
-/

namespace Qlab

/-- Integer casts into `K` always succeed and are exact. -/
class ExactCast (K : Type) [Field K] [FromInt K] : Prop where
  fromInt_eq : ∀ n : Int, FromInt.fromInt (V := K) n = some (n : K)

instance : FromInt ℚ := ⟨fun n => some n⟩
instance : ExactCast ℚ := ⟨fun _ => rfl⟩
noncomputable instance : FromInt ℝ := ⟨fun n => some n⟩
instance : ExactCast ℝ := ⟨fun _ => rfl⟩
noncomputable instance : HasExp ℝ := ⟨Real.exp⟩

end Qlab
