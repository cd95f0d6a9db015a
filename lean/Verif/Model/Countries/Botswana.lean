import Verif.Model.Easter

/-! Generated by `tools/gen_calendars.py` from `third-parties/calendar/src/botswana.rs`. -/

namespace Qlab

namespace Botswana

/-- `Botswana::is_business_day` (`third-parties/calendar/src/botswana.rs:11-48`). -/
def isBusinessDay (date : NaiveDate) : Rust Bool :=
  let d := date.day
  let w := date.weekday
  let m := date.month
  let y := date.year
  let dd := date.ordinal
  easterMonday y >>= fun em =>
  if isWeekend date
      || ((d == 1 || (d == 2 && w == .Mon) || (d == 3 && w == .Tue)) && m == 1)
      || dd == em - 3
      || dd == em
      || ((d == 1 || (d == 2 && w == .Mon)) && m == 5)
      || dd == em + 38
      || ((d == 1 || (d == 2 && w == .Mon)) && m == 7)
      || ((decide (15 ≤ d) && decide (d ≤ 21)) && w == .Mon && m == 7)
      || (d == 30 && m == 9)
      || (d == 1 && w == .Mon && m == 10)
      || ((d == 1 || (d == 2 && w == .Mon) || (d == 3 && w == .Tue)) && m == 10)
      || (d == 25 && m == 12)
      || ((d == 26 || (d == 27 && w == .Mon)) && m == 12)
  then
    .ok (false)
  else
  .ok (true)

end Botswana

/-- The calendar `Botswana` (`third-parties/calendar/src/botswana.rs:8`). -/
def Calendar.botswana : Calendar where
  isBusinessDay date := Botswana.isBusinessDay date

end Qlab
