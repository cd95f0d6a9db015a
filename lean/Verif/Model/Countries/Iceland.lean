import Verif.Model.Easter

/-! Generated by `tools/gen_calendars.py` from `third-parties/calendar/src/iceland.rs`. -/

namespace Qlab

namespace Iceland

/-- `Iceland::is_business_day` (`third-parties/calendar/src/iceland.rs:11-44`). -/
def isBusinessDay (date : NaiveDate) : Rust Bool :=
  let d := date.day
  let w := date.weekday
  let m := date.month
  let y := date.year
  let dd := date.ordinal
  easterMonday y >>= fun em =>
  if isWeekend date
      || (d == 1 && m == 1)
      || dd == em - 4
      || dd == em - 3
      || dd == em
      || ((decide (19 ≤ d) && decide (d ≤ 25)) && w == .Thu && m == 4)
      || dd == em + 38
      || dd == em + 49
      || (d == 1 && m == 5)
      || (d == 17 && m == 6)
      || (decide (d ≤ 7) && w == .Mon && m == 8)
      || (d == 25 && m == 12)
      || (d == 26 && m == 12)
  then
    .ok (false)
  else
  .ok (true)

end Iceland

/-- The calendar `Iceland` (`third-parties/calendar/src/iceland.rs:8`). -/
def Calendar.iceland : Calendar where
  isBusinessDay date := Iceland.isBusinessDay date

end Qlab
