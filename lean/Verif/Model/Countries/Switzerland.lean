import Verif.Model.Easter

/-! Generated by `tools/gen_calendars.py` from `third-parties/calendar/src/switzerland.rs`. -/

namespace Qlab

namespace Switzerland

/-- `Switzerland::is_business_day` (`third-parties/calendar/src/switzerland.rs:11-40`). -/
def isBusinessDay (date : NaiveDate) : Rust Bool :=
  let d := date.day
  let m := date.month
  let y := date.year
  let dd := date.ordinal
  easterMonday y >>= fun em =>
  if isWeekend date
      || (d == 1 && m == 1)
      || (d == 2 && m == 1)
      || dd == em - 3
      || dd == em
      || dd == em + 38
      || dd == em + 49
      || (d == 1 && m == 5)
      || (d == 1 && m == 8)
      || (d == 25 && m == 12)
      || (d == 26 && m == 12)
  then
    .ok (false)
  else
  .ok (true)

end Switzerland

/-- The calendar `Switzerland` (`third-parties/calendar/src/switzerland.rs:8`). -/
def Calendar.switzerland : Calendar where
  isBusinessDay date := Switzerland.isBusinessDay date

end Qlab
