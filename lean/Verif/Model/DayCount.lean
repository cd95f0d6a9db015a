import Verif.Model.Value
import Verif.Model.Date

/-! # Day counts (`qlab_time::day_count`) -/

namespace Qlab

/-- `trait DayCount` (`crates/qlab-time/src/day_count.rs:9-30`) at one value type: the year fraction
between two dates, an error, or a panic. -/
abbrev DayCount (V : Type) := Date → Date → Rust (QLabResult V)

namespace DayCount

variable {V : Type} [Div V] [FromInt V]

/-- `Act360::calculate_day_count_fraction` (`crates/qlab-time/src/day_count/act_360.rs:10-16`). -/
def act360 : DayCount V := fun date1 date2 =>
  match FromInt.fromInt (V := V) (Date.sub date2 date1) with
  | none => .ok (.error (.ofCompute (.castNumberError (toString (Date.sub date2 date1)))))
  | some dateDiff => do
    let denomination ← Rust.unwrap (FromInt.fromInt (V := V) 360)
    return .ok (dateDiff / denomination)

/-- `Act365::calculate_day_count_fraction` (`crates/qlab-time/src/day_count/act_365.rs:10-16`). -/
def act365 : DayCount V := fun date1 date2 =>
  match FromInt.fromInt (V := V) (Date.sub date2 date1) with
  | none => .ok (.error (.ofCompute (.castNumberError (toString (Date.sub date2 date1)))))
  | some dateDiff => do
    let denomination ← Rust.unwrap (FromInt.fromInt (V := V) 365)
    return .ok (dateDiff / denomination)

/-- `Thirty360::date_diff` (`crates/qlab-time/src/day_count/thirty_360.rs:12-24`), a `u32` computed in
the order of the source expression.  `oc`: overflow checks. -/
def thirty360Diff (oc : Bool) (date1 date2 : Date) : Rust (QLabResult Int) :=
  if date2 < date1 then
    .ok (.error (.ofCompute (.invalidInput
      s!"date1: {Date.display date1} must precede date2: {Date.display date2}")))
  else do
    let d1 : Int := min date1.day 30
    let d2 : Int := min date2.day 30
    let dy ← subI32 oc date2.year date1.year
    let a ← mulU32 oc 360 (i32AsU32 dy)
    let dm ← subU32 oc date2.month date1.month
    let b ← mulU32 oc 30 dm
    let s ← addU32 oc a b
    let s ← addU32 oc s d2
    let s ← subU32 oc s d1
    return .ok s

/-- `Thirty360::calculate_day_count_fraction` (`crates/qlab-time/src/day_count/thirty_360.rs:28-35`). -/
def thirty360 (oc : Bool) : DayCount V := fun date1 date2 => do
  match ← thirty360Diff oc date1 date2 with
  | .error e => return .error e
  | .ok diff =>
    match FromInt.fromInt (V := V) diff with
    | none => return .error (.ofCompute (.castNumberError (toString diff)))
    | some dd =>
      match FromInt.fromInt (V := V) 360 with
      | none => return .error (.ofCompute (.castNumberError "360"))
      | some denomination => return .ok (dd / denomination)

end DayCount

end Qlab
