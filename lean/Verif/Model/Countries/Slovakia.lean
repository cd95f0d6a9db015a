import Verif.Model.Easter

/-! Generated by `tools/gen_calendars.py` from `third-parties/calendar/src/slovakia.rs`. -/

namespace Qlab

namespace Slovakia

/-- `Slovakia::is_business_day` (`third-parties/calendar/src/slovakia.rs:11-53`). -/
def isBusinessDay (date : NaiveDate) : Rust Bool :=
  let d := date.day
  let m := date.month
  let y := date.year
  let dd := date.ordinal
  easterMonday y >>= fun em =>
  if isWeekend date
      || (d == 1 && m == 1)
      || (d == 6 && m == 1)
      || dd == em - 3
      || dd == em
      || (d == 1 && m == 5)
      || (d == 8 && m == 5)
      || (d == 5 && m == 7)
      || (d == 29 && m == 8)
      || (d == 1 && m == 9)
      || (d == 15 && m == 9)
      || (d == 1 && m == 11)
      || (d == 17 && m == 11)
      || (d == 24 && m == 12)
      || (d == 25 && m == 12)
      || (d == 26 && m == 12)
      || ((decide (24 ≤ d) && decide (d ≤ 31)) && m == 12 && y == 2004)
      || ((decide (24 ≤ d) && decide (d ≤ 31)) && m == 12 && y == 2005)
  then
    .ok (false)
  else
    .ok (true)

end Slovakia

/-- The calendar `Slovakia` (`third-parties/calendar/src/slovakia.rs:8`). -/
def Calendar.slovakia : Calendar where
  isBusinessDay date := Slovakia.isBusinessDay date

end Qlab
