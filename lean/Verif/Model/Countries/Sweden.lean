import Verif.Model.Easter

/-! Generated by `tools/gen_calendars.py` from `third-parties/calendar/src/sweden.rs`. -/

namespace Qlab

namespace Sweden

/-- `Sweden::is_business_day` (`third-parties/calendar/src/sweden.rs:11-47`). -/
def isBusinessDay (date : NaiveDate) : Rust Bool :=
  let d := date.day
  let w := date.weekday
  let m := date.month
  let y := date.year
  let dd := date.ordinal
  easterMonday y >>= fun em =>
  if isWeekend date
      || dd == em - 3
      || dd == em
      || dd == em + 38
      || (dd == em + 49 && decide (y < 2005))
      || (d == 1 && m == 1)
      || (d == 6 && m == 1)
      || (d == 1 && m == 5)
      || (d == 6 && m == 6 && decide (y ≥ 2005))
      || (w == .Fri && (decide (19 ≤ d) && decide (d ≤ 25)) && m == 6)
      || (d == 24 && m == 12)
      || (d == 25 && m == 12)
      || (d == 26 && m == 12)
      || (d == 31 && m == 12)
  then
    .ok (false)
  else
  .ok (true)

end Sweden

/-- The calendar `Sweden` (`third-parties/calendar/src/sweden.rs:8`). -/
def Calendar.sweden : Calendar where
  isBusinessDay date := Sweden.isBusinessDay date

end Qlab
