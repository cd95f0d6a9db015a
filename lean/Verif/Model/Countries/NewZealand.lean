import Verif.Model.Easter

/-! Generated by `tools/gen_calendars.py` from `third-parties/calendar/src/newzealand.rs`. -/

namespace Qlab

namespace NewZealand

/-- `NewZealand::is_business_day` (`third-parties/calendar/src/newzealand.rs:11-69`). -/
def isBusinessDay (date : NaiveDate) : Rust Bool :=
  let d := date.day
  let w := date.weekday
  let m := date.month
  let y := date.year
  let dd := date.ordinal
  easterMonday y >>= fun em =>
  if (isWeekend date
        || ((d == 1 || (d == 3 && (w == .Mon || w == .Tue))) && m == 1)
        || ((d == 2 || (d == 4 && (w == .Mon || w == .Tue))) && m == 1)
        || ((decide (19 ≤ d) && decide (d ≤ 25)) && w == .Mon && m == 1)
        || (d == 6 && m == 2)
        || ((d == 7 || d == 8) && w == .Mon && m == 2 && decide (y > 2013))
        || dd == em - 3
        || dd == em
        || (d == 25 && m == 4)
        || ((d == 26 || d == 27) && w == .Mon && m == 4 && decide (y > 2013))
        || (decide (d ≤ 7) && w == .Mon && m == 6)
        || ((decide (22 ≤ d) && decide (d ≤ 28)) && w == .Mon && m == 10)
        || ((d == 25 || (d == 27 && (w == .Mon || w == .Tue))) && m == 12)
        || ((d == 26 || (d == 28 && (w == .Mon || w == .Tue))) && m == 12)
        || (d == 20 && m == 6 && y == 2025)
        || (d == 21 && m == 6 && (y == 2030 || y == 2052)))
      || ((d == 24 && m == 6 && (y == 2022 || y == 2033 || y == 2044))
        || (d == 25 && m == 6 && (y == 2027 || y == 2038 || y == 2049))
        || (d == 28 && m == 6 && y == 2024)
        || (d == 29 && m == 6 && (y == 2035 || y == 2046))
        || (d == 30 && m == 6 && y == 2051)
        || (d == 2 && m == 7 && y == 2032)
        || (d == 3 && m == 7 && (y == 2043 || y == 2048))
        || (d == 6 && m == 7 && (y == 2029 || y == 2040))
        || (d == 7 && m == 7 && (y == 2034 || y == 2045))
        || (d == 10 && m == 7 && (y == 2026 || y == 2037))
        || (d == 11 && m == 7 && (y == 2031 || y == 2042))
        || (d == 14 && m == 7 && (y == 2023 || y == 2028))
        || (d == 15 && m == 7 && (y == 2039 || y == 2050))
        || (d == 18 && m == 7 && y == 2036)
        || (d == 19 && m == 7 && (y == 2041 || y == 2047)))
  then
    .ok (false)
  else
    .ok (true)

end NewZealand

/-- The calendar `NewZealand` (`third-parties/calendar/src/newzealand.rs:8`). -/
def Calendar.newZealand : Calendar where
  isBusinessDay date := NewZealand.isBusinessDay date

end Qlab
