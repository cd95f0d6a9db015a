import Verif.Model.Rust

/-! # `qlab-error` -/

namespace Qlab

/-- `ErrString` (`crates/qlab-error/src/lib.rs:7-37`): a string; `From`, `AsRef`, `Deref` and `Display` give the string it
was made from. -/
abbrev ErrString := String

/-- `ComputeError` (`crates/qlab-error/src/lib.rs:44-54`). -/
inductive ComputeError where
  | zeroDivisionError
  | castNumberError (msg : ErrString)
  | invalidInput (msg : ErrString)
  | interpolationError
  deriving DecidableEq, Repr

/-- `QLabError` (`crates/qlab-error/src/lib.rs:38-42`). -/
inductive QLabError where
  | computeError (e : ComputeError)
  deriving DecidableEq, Repr

/-- `InterpolationError<V>` (`crates/qlab-error/src/lib.rs:56-67`). -/
inductive InterpolationError (V : Type) where
  | pointOrderError
  | outOfLowerBound (x : V)
  | outOfUpperBound (x : V)
  | insufficientPointsError (n : Nat)
  deriving DecidableEq, Repr

/-- `QLabResult<T>` (`crates/qlab-error/src/lib.rs:75`). -/
abbrev QLabResult (α : Type) := Except QLabError α

/-- `impl From<InterpolationError<T>> for QLabError` (`crates/qlab-error/src/lib.rs:69-73`): the
argument is dropped. -/
def QLabError.ofInterpolation {V : Type} (_e : InterpolationError V) : QLabError :=
  .computeError .interpolationError

/-- `impl From<ComputeError> for QLabError` (`#[from]`, `crates/qlab-error/src/lib.rs:41`). -/
def QLabError.ofCompute (e : ComputeError) : QLabError := .computeError e

/-- Computations that may panic, and otherwise return a `Result`. -/
abbrev RustR (ε α : Type) := ExceptT ε Rust α

end Qlab
