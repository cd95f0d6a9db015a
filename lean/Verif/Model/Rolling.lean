import Verif.Model.Calendar

/-! # Periods and business-day rolling (`qlab_time::{period, date_rolling, date}`) -/

namespace Qlab

/-- `trait Period` (`crates/qlab-time/src/period.rs:7-9`). -/
structure Period where
  checkedAdd : Date → Rust (Option Date)

namespace Period

/-- `Days::new` and `impl Period for Days` (`crates/qlab-time/src/period/days.rs:7-18`). -/
def days (n : Nat) : Period := ⟨fun d => .ok (Date.checkedAddDays d n)⟩

/-- `Months::new` and `impl Period for Months` (`crates/qlab-time/src/period/months.rs:7-18`). -/
def months (n : Nat) : Period := ⟨fun d => .ok (Date.checkedAddMonths d n)⟩

/-- `Years::new` and `impl Period for Years` (`crates/qlab-time/src/period/years.rs:7-18`). -/
def years (oc : Bool) (n : Int) : Period := ⟨fun d => Date.checkedAddYears oc d n⟩

end Period

/-- `enum DateRolling` (`crates/qlab-time/src/date_rolling.rs`). -/
inductive DateRolling where
  | unadjusted | following | modifiedFollowing | preceding | modifiedPreceding
  deriving DecidableEq, Repr

namespace Date

/-- Loop of the `Following` arm (`crates/qlab-time/src/date.rs:270-273`). -/
def followLoop (c : Calendar) (d : Date) : Rust (Option Date) :=
  match c.dateIsBusinessDay d with
  | .panic => .panic
  | .ok true => .ok (some d)
  | .ok false =>
    match h : succOpt d with
    | none => .ok none
    | some d' => followLoop c d'
termination_by (95745399 - d.numDaysFromCe).toNat
decreasing_by
  have h1 := NaiveDate.succOpt_eq_some.1 h
  have h2 := d'.serial_le
  omega

/-- Loop of the `Preceding` arm (`crates/qlab-time/src/date.rs:285-288`). -/
def precedeLoop (c : Calendar) (d : Date) : Rust (Option Date) :=
  match c.dateIsBusinessDay d with
  | .panic => .panic
  | .ok true => .ok (some d)
  | .ok false =>
    match h : predOpt d with
    | none => .ok none
    | some d' => precedeLoop c d'
termination_by (d.numDaysFromCe + 95746129).toNat
decreasing_by
  have h1 := NaiveDate.predOpt_eq_some.1 h
  have h2 := d'.serial_ge
  omega

/-- `Date::checked_add` and the `Unadjusted` arm (`crates/qlab-time/src/date.rs:256-258, 267`). -/
def rollUnadjusted (p : Period) (d : Date) : Rust (Option Date) := p.checkedAdd d

/-- `Following` arm (`crates/qlab-time/src/date.rs:268-274`). -/
def rollFollowing (p : Period) (c : Calendar) (d : Date) : Rust (Option Date) := do
  match ← rollUnadjusted p d with
  | none => return none
  | some r => followLoop c r

/-- `Preceding` arm (`crates/qlab-time/src/date.rs:283-289`). -/
def rollPreceding (p : Period) (c : Calendar) (d : Date) : Rust (Option Date) := do
  match ← rollUnadjusted p d with
  | none => return none
  | some r => precedeLoop c r

/-- `Date::checked_roll` (`crates/qlab-time/src/date.rs:260-299`).  The modified arms compare with the
month of `self`, as the source does. -/
def checkedRoll (d : Date) (p : Period) (c : Calendar) : DateRolling → Rust (Option Date)
  | .unadjusted => rollUnadjusted p d
  | .following => rollFollowing p c d
  | .modifiedFollowing => do
    match ← rollFollowing p c d with
    | none => return none
    | some r => if r.month = d.month then return some r else rollPreceding p c d
  | .preceding => rollPreceding p c d
  | .modifiedPreceding => do
    match ← rollPreceding p c d with
    | none => return none
    | some r => if r.month = d.month then return some r else rollFollowing p c d

end Date

end Qlab
