import Verif.Model.Easter

/-! Generated by `tools/gen_calendars.py` from `third-parties/calendar/src/ukraine.rs`. -/

namespace Qlab

namespace Ukraine

/-- `Ukraine::is_business_day` (`third-parties/calendar/src/ukraine.rs:11-43`). -/
def isBusinessDay (date : NaiveDate) : Rust Bool :=
  let d := date.day
  let w := date.weekday
  let m := date.month
  let y := date.year
  let dd := date.ordinal
  easterMonday y >>= fun em =>
  if isWeekend date
      || ((d == 1 || ((d == 2 || d == 3) && w == .Mon)) && m == 1)
      || ((d == 7 || ((d == 8 || d == 9) && w == .Mon)) && m == 1)
      || ((d == 8 || ((d == 9 || d == 10) && w == .Mon)) && m == 3)
      || dd == em
      || dd == em + 49
      || ((d == 1 || d == 2 || (d == 3 && w == .Mon)) && m == 5)
      || ((d == 9 || ((d == 10 || d == 11) && w == .Mon)) && m == 5)
      || (d == 28 && m == 6)
      || (d == 24 && m == 8)
      || (d == 14 && m == 10 && decide (y ≥ 2015))
  then
    .ok (false)
  else
    .ok (true)

end Ukraine

/-- The calendar `Ukraine` (`third-parties/calendar/src/ukraine.rs:8`). -/
def Calendar.ukraine : Calendar where
  isBusinessDay date := Ukraine.isBusinessDay date

end Qlab
