import Verif.Model.Easter

/-! Generated by `tools/gen_calendars.py` from `third-parties/calendar/src/denmark.rs`. -/

namespace Qlab

namespace Denmark

/-- `Denmark::is_business_day` (`third-parties/calendar/src/denmark.rs:10-46`). -/
def isBusinessDay (date : NaiveDate) : Rust Bool :=
  let d := date.day
  let m := date.month
  let y := date.year
  let dd := date.ordinal
  easterMonday y >>= fun em =>
  if isWeekend date
      || dd == em - 4
      || dd == em - 3
      || dd == em
      || (dd == em + 25 && decide (y ≤ 2023))
      || dd == em + 38
      || (dd == em + 39 && decide (y ≥ 2009))
      || dd == em + 49
      || (d == 1 && m == 1)
      || (d == 5 && m == 6)
      || (d == 24 && m == 12)
      || (d == 25 && m == 12)
      || (d == 26 && m == 12)
      || (d == 31 && m == 12)
  then
    .ok (false)
  else
    .ok (true)

end Denmark

/-- The calendar `Denmark` (`third-parties/calendar/src/denmark.rs:7`). -/
def Calendar.denmark : Calendar where
  isBusinessDay date := Denmark.isBusinessDay date

end Qlab
