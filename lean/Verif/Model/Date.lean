import Verif.Lemmas.Chrono

/-!
# `qlab_time::date` without business-day rolling

`Date` is a newtype over `NaiveDate` (`crates/qlab-time/src/date.rs:11-13`); the wrapper is erased.
-/

namespace Qlab

/-- `Date` (`crates/qlab-time/src/date.rs:11-13`), a newtype over `NaiveDate`; `From<NaiveDate>`
(`crates/qlab-time/src/date.rs:235-239`) is the identity, and `year`, `month`, `day`
(`crates/qlab-time/src/date.rs:181-199`) are the fields. -/
abbrev Date := NaiveDate

namespace Date

/-- `Date::from_ymd` (`crates/qlab-time/src/date.rs:28-30`). -/
def fromYmd (year : Int) (month day : Nat) : Option Date := fromYmdOpt year month day

/-- `Date::days_in_month` (`crates/qlab-time/src/date.rs:31-44`). -/
def daysInMonth (month : Nat) (leapYear : Bool) : Option Nat :=
  if month = 1 ∨ month = 3 ∨ month = 5 ∨ month = 7 ∨ month = 8 ∨ month = 10 ∨ month = 12 then some 31
  else if month = 4 ∨ month = 6 ∨ month = 9 ∨ month = 11 then some 30
  else if month = 2 then (if leapYear then some 29 else some 28)
  else none

/-- `Date::leap_year` (`crates/qlab-time/src/date.rs:53-55`). -/
def leapYear (d : Date) : Bool := isLeap d.year

/-- `Date::checked_add_years` (`crates/qlab-time/src/date.rs:72-82`).  `oc`: overflow checks. -/
def checkedAddYears (oc : Bool) (d : Date) (n : Int) : Rust (Option Date) := do
  let y ← addI32 oc d.year n
  match d.withYear y with
  | some r => return some r
  | none =>
    match d.withDay 28 with
    | none => return none
    | some d28 => return d28.withYear (← addI32 oc d.year n)

/-- `Date::checked_add_months` (`crates/qlab-time/src/date.rs:96-107`). -/
def checkedAddMonths (d : Date) (n : Nat) : Option Date :=
  match NaiveDate.checkedAddMonths d n with
  | some r => some r
  | none => do
    let last ← daysInMonth d.month (leapYear d)
    let d' ← d.withDay last
    NaiveDate.checkedAddMonths d' n

/-- `Date::checked_sub_months` (`crates/qlab-time/src/date.rs:117-128`). -/
def checkedSubMonths (d : Date) (n : Nat) : Option Date :=
  match NaiveDate.checkedSubMonths d n with
  | some r => some r
  | none => do
    let last ← daysInMonth d.month (leapYear d)
    let d' ← d.withDay last
    NaiveDate.checkedSubMonths d' n

/-- `Date::checked_add_days` (`crates/qlab-time/src/date.rs:140-144`). -/
def checkedAddDays (d : Date) (n : Nat) : Option Date := NaiveDate.checkedAddDays d n

/-- `Date::checked_sub_days` (`crates/qlab-time/src/date.rs:156-160`). -/
def checkedSubDays (d : Date) (n : Nat) : Option Date := NaiveDate.checkedSubDays d n

/-- `Date::succ_opt` (`crates/qlab-time/src/date.rs:166-168`). -/
def succOpt (d : Date) : Option Date := NaiveDate.succOpt d

/-- `Date::pred_opt` (`crates/qlab-time/src/date.rs:174-176`). -/
def predOpt (d : Date) : Option Date := NaiveDate.predOpt d

/-- `Date::serial_date` (`crates/qlab-time/src/date.rs:209-211`). -/
def serialDate (d : Date) : Int := d.numDaysFromCe

/-- `Date::weekend_roll` (`crates/qlab-time/src/date.rs:222-232`).  The second `if` compares the month
of `self` with itself, exactly as the source does. -/
def weekendRoll (d : Date) : Option Date :=
  let originalMonth := d.month
  let weekday := d.weekday
  if weekday.fromMonday > 4 then checkedAddDays d (7 - weekday.fromMonday)
  else if originalMonth < d.month ∨ (originalMonth = 12 ∧ d.month = 1) then checkedSubDays d 3
  else some d

/-- `impl Sub for Date` (`crates/qlab-time/src/date.rs:241-247`): number of days, an `i64`. -/
def sub (a b : Date) : Int := NaiveDate.subDays a b

/-- Two decimal digits (`chrono`'s `write_hundreds`). -/
def twoDigits (n : Nat) : List Char :=
  [Char.ofNat (48 + n / 10 % 10), Char.ofNat (48 + n % 10)]

/-- `impl Display for Date` (`crates/qlab-time/src/date.rs:249-253`), forwarding to `chrono`:
`YYYY-MM-DD`, the year written with `{:+05}` outside `0..=9999`. -/
def displayChars (d : Date) : List Char :=
  let ys : List Char :=
    if 0 ≤ d.year ∧ d.year ≤ 9999 then
      twoDigits (d.year.toNat / 100) ++ twoDigits (d.year.toNat % 100)
    else
      let sign := if d.year < 0 then '-' else '+'
      let digits := Nat.toDigits 10 d.year.natAbs
      sign :: (List.replicate (4 - digits.length) '0' ++ digits)
  ys ++ '-' :: twoDigits d.month ++ '-' :: twoDigits d.day

/-- The displayed text as a `String`. -/
def display (d : Date) : String := String.ofList (displayChars d)

end Date

end Qlab
