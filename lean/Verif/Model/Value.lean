import Verif.Model.Error

/-!
# The value type

`trait Value` (`crates/qlab-math/src/value.rs:6-22`) bundles arithmetic, comparison, casts from
primitive integers and the `Real` functions.  The model uses Lean's operator classes for arithmetic
and comparison, plus the two classes below.  No laws are assumed here: theorems that need laws say so.
-/

namespace Qlab

/-- `num_traits::FromPrimitive`: `from_i64`, `from_i32`, `from_u32`, `from_u8`, `from_i8`. -/
class FromInt (V : Type) where
  fromInt : Int → Option V

/-- `num_traits::real::Real::exp`. -/
class HasExp (V : Type) where
  exp : V → V

end Qlab
