import Verif.Model.Easter

/-! Generated by `tools/gen_calendars.py` from `third-parties/calendar/src/hungary.rs`. -/

namespace Qlab

namespace Hungary

/-- `Hungary::is_business_day` (`third-parties/calendar/src/hungary.rs:11-46`). -/
def isBusinessDay (date : NaiveDate) : Rust Bool :=
  let d := date.day
  let m := date.month
  let y := date.year
  let dd := date.ordinal
  easterMonday y >>= fun em =>
  if isWeekend date
      || (dd == em - 3 && decide (y ≥ 2017))
      || dd == em
      || dd == em + 49
      || (d == 1 && m == 1)
      || (d == 15 && m == 3)
      || (d == 1 && m == 5)
      || (d == 20 && m == 8)
      || (d == 23 && m == 10)
      || (d == 1 && m == 11)
      || (d == 25 && m == 12)
      || (d == 26 && m == 12)
  then
    .ok (false)
  else
  .ok (true)

end Hungary

/-- The calendar `Hungary` (`third-parties/calendar/src/hungary.rs:8`). -/
def Calendar.hungary : Calendar where
  isBusinessDay date := Hungary.isBusinessDay date

end Qlab
