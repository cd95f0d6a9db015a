import Verif.Model.Easter

/-! Generated by `tools/gen_calendars.py` from `third-parties/calendar/src/chile.rs`. -/

namespace Qlab

namespace Chile

/-- `Chile::is_business_day` (`third-parties/calendar/src/chile.rs:11-59`). -/
def isBusinessDay (date : NaiveDate) : Rust Bool :=
  let d := date.day
  let w := date.weekday
  let m := date.month
  let y := date.year
  let dd := date.ordinal
  easterMonday y >>= fun em =>
  if isWeekend date
      || (d == 1 && m == 1)
      || (d == 2 && m == 1 && w == .Mon && decide (y > 2016))
      || dd == em - 3
      || dd == em - 2
      || (d == 1 && m == 5)
      || (d == 21 && m == 5)
      || (d == 21 && m == 6 && decide (y ≥ 2021))
      || ((decide (26 ≤ d) && decide (d ≤ 29)) && m == 6 && w == .Mon)
      || (d == 2 && m == 7 && w == .Mon)
      || (d == 16 && m == 7)
      || (d == 15 && m == 8)
      || (d == 17 && m == 9 && ((w == .Mon && decide (y ≥ 2007)) || (w == .Fri && decide (y > 2016))))
      || (d == 18 && m == 9)
      || (d == 19 && m == 9)
      || (d == 20 && m == 9 && w == .Fri && decide (y ≥ 2007))
      || ((decide (9 ≤ d) && decide (d ≤ 12)) && m == 10 && w == .Mon)
      || (d == 15 && m == 10 && w == .Mon)
      || (((d == 27 && m == 10 && w == .Fri) || (d == 31 && m == 10 && w != .Tue && w != .Wed) || (d == 2 && m == 11 && w == .Fri)) && decide (y ≥ 2008))
      || (d == 1 && m == 11)
      || (d == 8 && m == 12)
      || (d == 25 && m == 12)
  then
    .ok (false)
  else
  .ok (true)

end Chile

/-- The calendar `Chile` (`third-parties/calendar/src/chile.rs:8`). -/
def Calendar.chile : Calendar where
  isBusinessDay date := Chile.isBusinessDay date

end Qlab
