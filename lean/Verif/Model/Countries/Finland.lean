import Verif.Model.Easter

/-! Generated by `tools/gen_calendars.py` from `third-parties/calendar/src/finland.rs`. -/

namespace Qlab

namespace Finland

/-- `Finland::is_business_day` (`third-parties/calendar/src/finland.rs:11-43`). -/
def isBusinessDay (date : NaiveDate) : Rust Bool :=
  let d := date.day
  let w := date.weekday
  let m := date.month
  let y := date.year
  let dd := date.ordinal
  easterMonday y >>= fun em =>
  if isWeekend date
      || (d == 1 && m == 1)
      || (d == 6 && m == 1)
      || dd == em - 3
      || dd == em
      || dd == em + 38
      || (d == 1 && m == 5)
      || (w == .Fri && (decide (19 ≤ d) && decide (d ≤ 25)) && m == 6)
      || (d == 6 && m == 12)
      || (d == 24 && m == 12)
      || (d == 25 && m == 12)
      || (d == 26 && m == 12)
  then
    .ok (false)
  else
    .ok (true)

end Finland

/-- The calendar `Finland` (`third-parties/calendar/src/finland.rs:8`). -/
def Calendar.finland : Calendar where
  isBusinessDay date := Finland.isBusinessDay date

end Qlab
