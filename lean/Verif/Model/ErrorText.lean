import Verif.Model.Error

/-! # Texts of errors (`qlab-error`)

`thiserror` generates `Display` from the `#[error("...")]` attributes: the text with `{0}` replaced by the `Display` of the
field.  `ErrString` displays the string it holds (`crates/qlab-error/src/lib.rs:33-37`), so it is modelled as `String`. -/

namespace Qlab

/-- `Display` of `ComputeError` (`crates/qlab-error/src/lib.rs:44-54`). -/
def ComputeError.display : ComputeError → String
  | .zeroDivisionError => "Zero division occurred"
  | .castNumberError msg => msg ++ " cannot cast to a primitive type"
  | .invalidInput msg => "Invalid inputs are passed by: " ++ msg
  | .interpolationError => "interpolation failed"

/-- `Display` of `QLabError` (`crates/qlab-error/src/lib.rs:38-42`), `#[error(transparent)]`: that of the inner error. -/
def QLabError.display : QLabError → String
  | .computeError e => e.display

/-- `Display` of `InterpolationError<V>` (`crates/qlab-error/src/lib.rs:56-67`); `showV` is the `Display` of `V`. -/
def InterpolationError.display {V : Type} (showV : V → String) : InterpolationError V → String
  | .pointOrderError => "points must be sorted"
  | .outOfLowerBound x => "out of lower bound: " ++ showV x
  | .outOfUpperBound x => "out of upper bound: " ++ showV x
  | .insufficientPointsError n => "length of inputs: " ++ Nat.repr n ++ " is not enough points for construction"

end Qlab
