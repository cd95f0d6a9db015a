import Verif.Model.Easter

/-! Generated by `tools/gen_calendars.py` from `third-parties/calendar/src/norway.rs`. -/

namespace Qlab

namespace Norway

/-- `Norway::is_business_day` (`third-parties/calendar/src/norway.rs:11-43`). -/
def isBusinessDay (date : NaiveDate) : Rust Bool :=
  let d := date.day
  let m := date.month
  let y := date.year
  let dd := date.ordinal
  easterMonday y >>= fun em =>
  if isWeekend date
      || dd == em - 4
      || dd == em - 3
      || dd == em
      || dd == em + 38
      || dd == em + 49
      || (d == 1 && m == 1)
      || (d == 1 && m == 5)
      || (d == 17 && m == 5)
      || (d == 24 && m == 12 && decide (y ≥ 2002))
      || (d == 25 && m == 12)
      || (d == 26 && m == 12)
  then
    .ok (false)
  else
    .ok (true)

end Norway

/-- The calendar `Norway` (`third-parties/calendar/src/norway.rs:8`). -/
def Calendar.norway : Calendar where
  isBusinessDay date := Norway.isBusinessDay date

end Qlab
