import Verif.Model.Rust

/-!
# The parts of `chrono 0.4.38` that qlab calls

`chrono` is a dependency, not part of `/repo`.  It is modelled by its documented contract: a
`NaiveDate` is a day of the proleptic Gregorian calendar with a year in `-262143 ..= 262142`.
The packed `year/ordinal/flags` representation of `chrono` is replaced by year, month and day.
-/

namespace Qlab

/-- Smallest year of `NaiveDate` (`NaiveDate::MIN` is -262143-01-01). -/
def minYear : Int := -262143
/-- Largest year of `NaiveDate` (`NaiveDate::MAX` is 262142-12-31). -/
def maxYear : Int := 262142

/-- Gregorian leap year test (`chrono`'s year flags). -/
def isLeap (y : Int) : Bool := y % 4 == 0 && (y % 100 != 0 || y % 400 == 0)

/-- Number of days of month `m` (0 for a month number outside 1..=12). -/
def monthLen (leap : Bool) (m : Nat) : Nat :=
  match m with
  | 1 => 31 | 2 => if leap then 29 else 28 | 3 => 31 | 4 => 30 | 5 => 31 | 6 => 30
  | 7 => 31 | 8 => 31 | 9 => 30 | 10 => 31 | 11 => 30 | 12 => 31
  | _ => 0

/-- The day exists and the year is supported. -/
def IsValid (y : Int) (m d : Nat) : Prop :=
  minYear ≤ y ∧ y ≤ maxYear ∧ 1 ≤ m ∧ m ≤ 12 ∧ 1 ≤ d ∧ d ≤ monthLen (isLeap y) m

instance (y : Int) (m d : Nat) : Decidable (IsValid y m d) := by
  unfold IsValid; infer_instance

/-- `chrono::NaiveDate`. -/
@[ext] structure NaiveDate where
  year : Int
  month : Nat
  day : Nat
  valid : IsValid year month day

instance : DecidableEq NaiveDate := fun a b =>
  decidable_of_iff (a.year = b.year ∧ a.month = b.month ∧ a.day = b.day)
    ⟨fun h => NaiveDate.ext h.1 h.2.1 h.2.2, fun h => by subst h; exact ⟨rfl, rfl, rfl⟩⟩

instance : Repr NaiveDate := ⟨fun d _ => s!"{d.year}-{d.month}-{d.day}"⟩

/-- `NaiveDate::from_ymd_opt`. -/
def fromYmdOpt (y : Int) (m d : Nat) : Option NaiveDate :=
  if h : IsValid y m d then some ⟨y, m, d, h⟩ else none

/-- Days of the year before the first of month `m`. -/
def daysBeforeMonth (leap : Bool) (m : Nat) : Nat :=
  let l := if leap then 1 else 0
  match m with
  | 1 => 0 | 2 => 31 | 3 => 59 + l | 4 => 90 + l | 5 => 120 + l | 6 => 151 + l
  | 7 => 181 + l | 8 => 212 + l | 9 => 243 + l | 10 => 273 + l | 11 => 304 + l | 12 => 334 + l
  | _ => 365 + l

/-- Days before 1 January of year `y`, counted from 1 January of year 1. -/
def daysBeforeYear (y : Int) : Int :=
  365 * (y - 1) + (y - 1) / 4 - (y - 1) / 100 + (y - 1) / 400

namespace NaiveDate

/-- `Datelike::ordinal`: day of the year, from 1. -/
def ordinal (d : NaiveDate) : Nat := daysBeforeMonth (isLeap d.year) d.month + d.day

/-- `Datelike::num_days_from_ce`: 0001-01-01 is day 1. -/
def numDaysFromCe (d : NaiveDate) : Int := daysBeforeYear d.year + d.ordinal

/-- Chronological order (`derive(PartialOrd, Ord)` on the packed representation). -/
def blt (a b : NaiveDate) : Bool :=
  a.year < b.year || (a.year == b.year &&
    (a.month < b.month || (a.month == b.month && a.day < b.day)))

instance : LT NaiveDate := ⟨fun a b => blt a b = true⟩
instance : LE NaiveDate := ⟨fun a b => blt b a = false⟩
instance (a b : NaiveDate) : Decidable (a < b) := inferInstanceAs (Decidable (blt a b = true))
instance (a b : NaiveDate) : Decidable (a ≤ b) := inferInstanceAs (Decidable (blt b a = false))

/-- `NaiveDate::MIN`. -/
def MIN : NaiveDate := ⟨-262143, 1, 1, by decide⟩
/-- `NaiveDate::MAX`. -/
def MAX : NaiveDate := ⟨262142, 12, 31, by decide⟩

end NaiveDate

/-- Year part of `NaiveDate::from_num_days_from_ce_opt` together with the zero-based day of year. -/
def yearOrd0OfDays (n : Int) : Int × Int :=
  let n0 := n - 1
  let a := n0 / 146097
  let r := n0 % 146097
  let b := min (r / 36524) 3
  let r1 := r - b * 36524
  let c := r1 / 1461
  let r2 := r1 % 1461
  let e := min (r2 / 365) 3
  (400 * a + 100 * b + 4 * c + e + 1, r2 - 365 * e)

/-- Month and day from the zero-based day of the year. -/
def monthDayOfOrd0 (leap : Bool) (o : Nat) : Nat × Nat :=
  let B := daysBeforeMonth leap
  if o < B 2 then (1, o + 1)
  else if o < B 3 then (2, o - B 2 + 1)
  else if o < B 4 then (3, o - B 3 + 1)
  else if o < B 5 then (4, o - B 4 + 1)
  else if o < B 6 then (5, o - B 5 + 1)
  else if o < B 7 then (6, o - B 6 + 1)
  else if o < B 8 then (7, o - B 7 + 1)
  else if o < B 9 then (8, o - B 8 + 1)
  else if o < B 10 then (9, o - B 9 + 1)
  else if o < B 11 then (10, o - B 10 + 1)
  else if o < B 12 then (11, o - B 11 + 1)
  else (12, o - B 12 + 1)

/-- `NaiveDate::from_num_days_from_ce_opt`: the date with a given day number, if representable. -/
def ofDays (n : Int) : Option NaiveDate :=
  let (y, o) := yearOrd0OfDays n
  let (m, d) := monthDayOfOrd0 (isLeap y) o.toNat
  fromYmdOpt y m d

/-- `chrono::Weekday`. -/
inductive Weekday where
  | Mon | Tue | Wed | Thu | Fri | Sat | Sun
  deriving DecidableEq, Repr

namespace Weekday

/-- `w as u32` / `num_days_from_monday`. -/
def fromMonday : Weekday → Nat
  | Mon => 0 | Tue => 1 | Wed => 2 | Thu => 3 | Fri => 4 | Sat => 5 | Sun => 6

/-- Inverse of `fromMonday` on 0..=6. -/
def ofMonday : Nat → Weekday
  | 0 => Mon | 1 => Tue | 2 => Wed | 3 => Thu | 4 => Fri | 5 => Sat | _ => Sun

end Weekday

namespace NaiveDate

/-- `Datelike::weekday`: 0001-01-01 is a Monday. -/
def weekday (d : NaiveDate) : Weekday := .ofMonday ((d.numDaysFromCe - 1) % 7).toNat

/-- `NaiveDate::succ_opt`: next day of the month, else first of the next month, else first of the
next year. -/
def succOpt (d : NaiveDate) : Option NaiveDate :=
  if d.day < monthLen (isLeap d.year) d.month then fromYmdOpt d.year d.month (d.day + 1)
  else if d.month < 12 then fromYmdOpt d.year (d.month + 1) 1
  else fromYmdOpt (d.year + 1) 1 1

/-- `NaiveDate::pred_opt`. -/
def predOpt (d : NaiveDate) : Option NaiveDate :=
  if 1 < d.day then fromYmdOpt d.year d.month (d.day - 1)
  else if 1 < d.month then
    fromYmdOpt d.year (d.month - 1) (monthLen (isLeap d.year) (d.month - 1))
  else fromYmdOpt (d.year - 1) 12 31

/-- `NaiveDate::checked_add_days(Days(n))`: `None` when `n > i32::MAX` or the date does not exist. -/
def checkedAddDays (d : NaiveDate) (n : Nat) : Option NaiveDate :=
  if (n : Int) ≤ i32Max then ofDays (d.numDaysFromCe + n) else none

/-- `NaiveDate::checked_sub_days(Days(n))`. -/
def checkedSubDays (d : NaiveDate) (n : Nat) : Option NaiveDate :=
  if (n : Int) ≤ i32Max then ofDays (d.numDaysFromCe - n) else none

/-- `NaiveDate::diff_months`: move by `k` months and clamp the day to the length of the month.
`chrono` returns `None` when the year leaves `i32` or the supported range; the supported range is
inside `i32`, so the second check covers the first. -/
def diffMonths (d : NaiveDate) (k : Int) : Option NaiveDate :=
  let idx := d.year * 12 + ((d.month : Int) - 1) + k
  let y := idx / 12
  let m := (idx % 12).toNat + 1
  fromYmdOpt y m (min d.day (monthLen (isLeap y) m))

/-- `NaiveDate::checked_add_months(Months(n))`. -/
def checkedAddMonths (d : NaiveDate) (n : Nat) : Option NaiveDate :=
  if n = 0 then some d else if (n : Int) ≤ i32Max then d.diffMonths n else none

/-- `NaiveDate::checked_sub_months(Months(n))`. -/
def checkedSubMonths (d : NaiveDate) (n : Nat) : Option NaiveDate :=
  if n = 0 then some d else if (n : Int) ≤ i32Max then d.diffMonths (-n) else none

/-- `Datelike::with_year`. -/
def withYear (d : NaiveDate) (y : Int) : Option NaiveDate := fromYmdOpt y d.month d.day

/-- `Datelike::with_day`. -/
def withDay (d : NaiveDate) (day : Nat) : Option NaiveDate := fromYmdOpt d.year d.month day

/-- `(a - b).num_days()` for dates `a`, `b` (`signed_duration_since`). -/
def subDays (a b : NaiveDate) : Int := a.numDaysFromCe - b.numDaysFromCe

end NaiveDate

end Qlab
