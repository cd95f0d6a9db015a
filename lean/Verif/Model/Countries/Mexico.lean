import Verif.Model.Easter

/-! Generated by `tools/gen_calendars.py` from `third-parties/calendar/src/mexico.rs`. -/

namespace Qlab

namespace Mexico

/-- `Mexico::is_business_day` (`third-parties/calendar/src/mexico.rs:11-46`). -/
def isBusinessDay (date : NaiveDate) : Rust Bool :=
  let d := date.day
  let w := date.weekday
  let m := date.month
  let y := date.year
  let dd := date.ordinal
  easterMonday y >>= fun em =>
  if isWeekend date
      || (d == 1 && m == 1)
      || (decide (y ≤ 2005) && d == 5 && m == 2)
      || (decide (y ≥ 2006) && decide (d ≤ 7) && w == .Mon && m == 2)
      || (decide (y ≤ 2005) && d == 21 && m == 3)
      || (decide (y ≥ 2006) && (decide (15 ≤ d) && decide (d ≤ 21)) && w == .Mon && m == 3)
      || dd == em - 4
      || dd == em - 3
      || (d == 1 && m == 5)
      || (d == 16 && m == 9)
      || (d == 2 && m == 11)
      || (decide (y ≤ 2005) && d == 20 && m == 11)
      || (decide (y ≥ 2006) && (decide (15 ≤ d) && decide (d ≤ 21)) && w == .Mon && m == 11)
      || (d == 12 && m == 12)
      || (d == 25 && m == 12)
  then
    .ok (false)
  else
    .ok (true)

end Mexico

/-- The calendar `Mexico` (`third-parties/calendar/src/mexico.rs:8`). -/
def Calendar.mexico : Calendar where
  isBusinessDay date := Mexico.isBusinessDay date

end Qlab
