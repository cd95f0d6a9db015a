import Verif.Model.Easter

/-! Generated by `tools/gen_calendars.py` from `third-parties/calendar/src/argentina.rs`. -/

namespace Qlab

namespace Argentina

/-- `Argentina::is_business_day` (`third-parties/calendar/src/argentina.rs:10-44`). -/
def isBusinessDay (date : NaiveDate) : Rust Bool :=
  let d := date.day
  let w := date.weekday
  let m := date.month
  let y := date.year
  let dd := date.ordinal
  easterMonday y >>= fun em =>
  if isWeekend date
      || (d == 1 && m == 1)
      || dd == em - 4
      || dd == em - 3
      || (d == 1 && m == 5)
      || (d == 25 && m == 5)
      || ((decide (15 ≤ d) && decide (d ≤ 21)) && w == .Mon && m == 6)
      || (d == 9 && m == 7)
      || ((decide (15 ≤ d) && decide (d ≤ 21)) && w == .Mon && m == 8)
      || ((d == 10 || d == 11 || d == 12 || d == 15 || d == 16) && w == .Mon && m == 10)
      || (d == 8 && m == 12)
      || (d == 24 && m == 12)
      || ((d == 31 || (d == 30 && w == .Fri)) && m == 12)
  then
    .ok (false)
  else
  .ok (true)

end Argentina

/-- The calendar `Argentina` (`third-parties/calendar/src/argentina.rs:7`). -/
def Calendar.argentina : Calendar where
  isBusinessDay date := Argentina.isBusinessDay date

end Qlab
