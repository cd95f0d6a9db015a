import Verif.Model.Easter

/-! Generated by `tools/gen_calendars.py` from `third-parties/calendar/src/southafrica.rs`. -/

namespace Qlab

namespace SouthAfrica

/-- `SouthAfrica::is_business_day` (`third-parties/calendar/src/southafrica.rs:11-64`). -/
def isBusinessDay (date : NaiveDate) : Rust Bool :=
  let d := date.day
  let w := date.weekday
  let m := date.month
  let y := date.year
  let dd := date.ordinal
  easterMonday y >>= fun em =>
  if isWeekend date
      || ((d == 1 || (d == 2 && w == .Mon)) && m == 1)
      || dd == em - 3
      || dd == em
      || ((d == 21 || (d == 22 && w == .Mon)) && m == 3)
      || ((d == 27 || (d == 28 && w == .Mon)) && m == 4)
      || (d == 14 && m == 4 && y == 2004)
      || ((d == 1 || (d == 2 && w == .Mon)) && m == 5)
      || ((d == 16 || (d == 17 && w == .Mon)) && m == 6)
      || ((d == 9 || (d == 10 && w == .Mon)) && m == 8)
      || ((d == 24 || (d == 25 && w == .Mon)) && m == 9)
      || ((d == 16 || (d == 17 && w == .Mon)) && m == 12)
      || (d == 25 && m == 12)
      || ((d == 26 || (d == 27 && w == .Mon)) && m == 12)
      || (d == 22 && m == 4 && y == 2009)
      || (d == 3 && m == 8 && y == 2016)
      || (d == 1 && m == 11 && y == 2021)
      || (d == 27 && m == 12 && y == 2022)
  then
    .ok (false)
  else
    .ok (true)

end SouthAfrica

/-- The calendar `SouthAfrica` (`third-parties/calendar/src/southafrica.rs:8`). -/
def Calendar.southAfrica : Calendar where
  isBusinessDay date := SouthAfrica.isBusinessDay date

end Qlab
