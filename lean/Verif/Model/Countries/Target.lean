import Verif.Model.Easter

/-! Generated by `tools/gen_calendars.py` from `third-parties/calendar/src/target.rs`. -/

namespace Qlab

namespace Target

/-- `Target::is_business_day` (`third-parties/calendar/src/target.rs:10-34`). -/
def isBusinessDay (date : NaiveDate) : Rust Bool :=
  let d := date.day
  let m := date.month
  let y := date.year
  let dd := date.ordinal
  easterMonday y >>= fun em =>
  if isWeekend date
      || (d == 1 && m == 1)
      || (dd == em - 3 && decide (y ≥ 2000))
      || (dd == em && decide (y ≥ 2000))
      || (d == 1 && m == 5 && decide (y ≥ 2000))
      || (d == 25 && m == 12)
      || (d == 26 && m == 12 && decide (y ≥ 2000))
      || (d == 31 && m == 12 && (y == 1998 || y == 1999 || y == 2001))
  then
    .ok (false)
  else
    .ok (true)

end Target

/-- The calendar `Target` (`third-parties/calendar/src/target.rs:7`). -/
def Calendar.target : Calendar where
  isBusinessDay date := Target.isBusinessDay date

end Qlab
