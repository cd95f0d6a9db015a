import Verif.Model.Date

/-!
# Calendar traits

`calendar::Calendar` (`third-parties/calendar/src/lib.rs:154-228`) and its adapter
`qlab_time::calendar::Calendar` (`crates/qlab-time/src/calendar.rs:1-19`).  An implementation supplies
`is_business_day`, which may panic; everything else is a default method.
-/

namespace Qlab

/-- An implementation of `calendar::Calendar`: the required method `is_business_day`
(`third-parties/calendar/src/lib.rs:195`).  Also an implementation of `qlab_time::calendar::Calendar`
(`crates/qlab-time/src/calendar.rs:3-9`), whose required method is the same and whose `is_holiday` is the
same default; rolling calls `is_business_day` only. -/
structure Calendar where
  isBusinessDay : NaiveDate → Rust Bool

namespace Calendar

/-- `is_holiday` default method (`third-parties/calendar/src/lib.rs:197-199`). -/
def isHoliday (c : Calendar) (d : NaiveDate) : Rust Bool := do
  return !(← c.isBusinessDay d)

/-- Adapter `qlab_time::calendar::Calendar::is_business_day` for a wrapped calendar
(`crates/qlab-time/src/calendar.rs:11-14`). -/
def dateIsBusinessDay (c : Calendar) (d : Date) : Rust Bool := c.isBusinessDay d

/-- Adapter `qlab_time::calendar::Calendar::is_holiday` (`crates/qlab-time/src/calendar.rs:16-18`). -/
def dateIsHoliday (c : Calendar) (d : Date) : Rust Bool := c.isHoliday d

end Calendar

/-- `naive_date_to_dkmy` (`third-parties/calendar/src/lib.rs:155-163`): day, weekday, month, year,
day of the year. -/
def naiveDateToDkmy (d : NaiveDate) : Nat × Weekday × Nat × Int × Nat :=
  (d.day, d.weekday, d.month, d.year, d.ordinal)

/-- `is_weekend` (`third-parties/calendar/src/lib.rs:190-193`). -/
def isWeekend (d : NaiveDate) : Bool :=
  match d.weekday with
  | .Sat => true
  | .Sun => true
  | _ => false

/-- `date + Duration::days(k)` / `date -= Duration::days(k)`: panics when out of range. -/
def addDuration (d : NaiveDate) (k : Int) : Rust NaiveDate := Rust.unwrap (ofDays (d.numDaysFromCe + k))

namespace Calendar

/-- `last_day_of_month` (`third-parties/calendar/src/lib.rs:165-172`).  The argument of `unwrap_or` is
evaluated before it is needed. -/
def lastDayOfMonth (d : NaiveDate) : Rust NaiveDate := do
  let fallback ← Rust.unwrap (fromYmdOpt (d.year + 1) 1 1)
  let first := (fromYmdOpt d.year (d.month + 1) 1).getD fallback
  Rust.unwrap first.predOpt

/-- Loop of `end_of_month` (`third-parties/calendar/src/lib.rs:176-178`): step back while the day is a
holiday; stepping before the first representable date panics. -/
def endOfMonthLoop (c : Calendar) (d : NaiveDate) : Rust NaiveDate :=
  match c.isHoliday d with
  | .panic => .panic
  | .ok false => .ok d
  | .ok true =>
    match h : ofDays (d.numDaysFromCe - 1) with
    | none => .panic
    | some p => endOfMonthLoop c p
termination_by (d.numDaysFromCe + 95746129).toNat
decreasing_by
  have h1 := ofDays_eq_some.1 h
  have h2 := d.serial_ge
  have h3 := p.serial_ge
  omega

/-- `end_of_month` (`third-parties/calendar/src/lib.rs:174-180`). -/
def endOfMonth (c : Calendar) (d : NaiveDate) : Rust NaiveDate := do
  c.endOfMonthLoop (← lastDayOfMonth d)

/-- The counting loop of `business_days_between` (`third-parties/calendar/src/lib.rs:218-225`):
`start.iter_days().take(n)`.  `chrono`'s day iterator stops before yielding `NaiveDate::MAX`. -/
def countBusinessDays (c : Calendar) : Nat → NaiveDate → Int → Rust Int
  | 0, _, acc => .ok acc
  | n + 1, d, acc =>
    match d.succOpt with
    | none => .ok acc
    | some d' => do
      let b ← c.isBusinessDay d
      countBusinessDays c n d' (if b then acc + 1 else acc)

/-- `business_days_between` once `from <= to` (`third-parties/calendar/src/lib.rs:212-226`). -/
def businessDaysForward (c : Calendar) (fromD toD : NaiveDate) (includeFirst includeLast : Option Bool) :
    Rust Int := do
  let includeFirst := includeFirst.getD true
  let includeLast := includeLast.getD false
  let stop ← addDuration toD (if includeLast then 1 else 0)
  let start ← addDuration fromD (if includeFirst then 1 else 0)
  let dayDiff := NaiveDate.subDays stop start
  -- `usize::try_from(day_diff).unwrap()`
  if dayDiff < 0 then .panic
  else c.countBusinessDays dayDiff.toNat start 0

/-- `business_days_between` (`third-parties/calendar/src/lib.rs:202-227`). -/
def businessDaysBetween (c : Calendar) (fromD toD : NaiveDate) (includeFirst includeLast : Option Bool) :
    Rust Int :=
  if toD < fromD then do
    let n ← c.businessDaysForward toD fromD includeFirst includeLast
    return -n
  else c.businessDaysForward fromD toD includeFirst includeLast

/-- `JointCalendar`, built by `new` (`third-parties/calendar/src/jointcalendar.rs:5-21`): `&&` does not consult the
second calendar when the first one says no. -/
def joint (c1 c2 : Calendar) : Calendar where
  isBusinessDay d := do
    if ← c1.isBusinessDay d then c2.isBusinessDay d else return false

/-- `WeekendsOnly` (`third-parties/calendar/src/weekendsonly.rs:9-13`). -/
def weekendsOnly : Calendar where
  isBusinessDay d := .ok (!isWeekend d)

end Calendar

end Qlab
