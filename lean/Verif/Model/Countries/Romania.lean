import Verif.Model.Easter

/-! Generated by `tools/gen_calendars.py` from `third-parties/calendar/src/romania.rs`. -/

namespace Qlab

namespace Romania

/-- `Romania::is_business_day` (`third-parties/calendar/src/romania.rs:11-45`). -/
def isBusinessDay (date : NaiveDate) : Rust Bool :=
  let d := date.day
  let m := date.month
  let y := date.year
  let dd := date.ordinal
  orthodoxEasterMonday y >>= fun em =>
  if isWeekend date
      || (d == 1 && m == 1)
      || (d == 2 && m == 1)
      || (d == 24 && m == 1)
      || dd == em
      || (d == 1 && m == 5)
      || dd == em + 49
      || (d == 1 && m == 6 && decide (y ≥ 2017))
      || (d == 15 && m == 8)
      || (d == 30 && m == 11)
      || (d == 1 && m == 12)
      || (d == 25 && m == 12)
      || (d == 26 && m == 12)
  then
    .ok (false)
  else
    .ok (true)

end Romania

/-- The calendar `Romania` (`third-parties/calendar/src/romania.rs:8`). -/
def Calendar.romania : Calendar where
  isBusinessDay date := Romania.isBusinessDay date

end Qlab
