import Verif.Model.Easter

/-! Generated by `tools/gen_calendars.py` from `third-parties/calendar/src/poland.rs`. -/

namespace Qlab

namespace Poland

/-- `Poland::is_business_day` (`third-parties/calendar/src/poland.rs:11-43`). -/
def isBusinessDay (date : NaiveDate) : Rust Bool :=
  let d := date.day
  let m := date.month
  let y := date.year
  let dd := date.ordinal
  easterMonday y >>= fun em =>
  if isWeekend date
      || dd == em
      || dd == em + 59
      || (d == 1 && m == 1)
      || (d == 6 && m == 1 && decide (y ≥ 2011))
      || (d == 1 && m == 5)
      || (d == 3 && m == 5)
      || (d == 15 && m == 8)
      || (d == 1 && m == 11)
      || (d == 11 && m == 11)
      || (d == 25 && m == 12)
      || (d == 26 && m == 12)
  then
    .ok (false)
  else
    .ok (true)

end Poland

/-- The calendar `Poland` (`third-parties/calendar/src/poland.rs:8`). -/
def Calendar.poland : Calendar where
  isBusinessDay date := Poland.isBusinessDay date

end Qlab
