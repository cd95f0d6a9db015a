import Verif.Model.Easter

/-! Generated by `tools/gen_calendars.py` from `third-parties/calendar/src/czechrepublic.rs`. -/

namespace Qlab

namespace CzechRepublic

/-- `CzechRepublic::is_business_day` (`third-parties/calendar/src/czechrepublic.rs:11-50`). -/
def isBusinessDay (date : NaiveDate) : Rust Bool :=
  let d := date.day
  let m := date.month
  let y := date.year
  let dd := date.ordinal
  easterMonday y >>= fun em =>
  if isWeekend date
      || (d == 1 && m == 1)
      || (dd == em - 3 && decide (y ≥ 2016))
      || dd == em
      || (d == 1 && m == 5)
      || (d == 8 && m == 5)
      || (d == 5 && m == 7)
      || (d == 6 && m == 7)
      || (d == 28 && m == 9)
      || (d == 28 && m == 10)
      || (d == 17 && m == 11)
      || (d == 24 && m == 12)
      || (d == 25 && m == 12)
      || (d == 26 && m == 12)
      || (d == 2 && m == 1 && y == 2004)
      || (d == 31 && m == 12 && y == 2004)
  then
    .ok (false)
  else
    .ok (true)

end CzechRepublic

/-- The calendar `CzechRepublic` (`third-parties/calendar/src/czechrepublic.rs:8`). -/
def Calendar.czechRepublic : Calendar where
  isBusinessDay date := CzechRepublic.isBusinessDay date

end Qlab
