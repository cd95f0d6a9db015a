import Verif.Model.Easter

/-! Generated by `tools/gen_calendars.py` from `third-parties/calendar/src/japan.rs`. -/

namespace Qlab

namespace Japan

/-- `Japan::vernal_equinox_day` (`third-parties/calendar/src/japan.rs:11-16`). -/
def vernalEquinoxDay (y : Int) : Nat :=
  if y == 2014 || y == 2015 || y == 2018 || y == 2019 || y == 2022 || y == 2023 || y == 2027 then
    21
  else
  20

/-- `Japan::autumnal_equinox_day` (`third-parties/calendar/src/japan.rs:17-22`). -/
def autumnalEquinoxDay (y : Int) : Nat :=
  if y == 2020 || y == 2024 || y == 2028 then
    22
  else
  23

/-- `Japan::is_business_day` (`third-parties/calendar/src/japan.rs:26-131`). -/
def isBusinessDay (date : NaiveDate) : Bool :=
  let d := date.day
  let w := date.weekday
  let m := date.month
  let y := date.year
  let ve := vernalEquinoxDay y
  let ae := autumnalEquinoxDay y
  if (isWeekend date
        || (d == 1 && m == 1)
        || (d == 2 && m == 1)
        || (d == 3 && m == 1)
        || (w == .Mon && (decide (8 ≤ d) && decide (d ≤ 14)) && m == 1 && decide (y ≥ 2000))
        || ((d == 15 || (d == 16 && w == .Mon)) && m == 1 && decide (y < 2000))
        || ((d == 11 || (d == 12 && w == .Mon)) && m == 2)
        || ((d == 23 || (d == 24 && w == .Mon)) && m == 2 && decide (y ≥ 2020))
        || ((d == 23 || (d == 24 && w == .Mon)) && m == 12 && (decide (1989 ≤ y) && decide (y < 2019)))
        || ((d == ve || (d == ve + 1 && w == .Mon)) && m == 3)
        || ((d == 29 || (d == 30 && w == .Mon)) && m == 4)
        || (d == 3 && m == 5)
        || (d == 4 && m == 5)
        || (d == 5 && m == 5)
        || (d == 6 && m == 5 && (w == .Mon || w == .Tue || w == .Wed))
        || (w == .Mon && (decide (15 ≤ d) && decide (d ≤ 21)) && m == 7 && ((decide (2003 ≤ y) && decide (y < 2020)) || decide (y ≥ 2022))))
      || (((d == 20 || (d == 21 && w == .Mon)) && m == 7 && (decide (1996 ≤ y) && decide (y < 2003)))
        || (d == 23 && m == 7 && y == 2020)
        || (d == 22 && m == 7 && y == 2021)
        || ((d == 11 || (d == 12 && w == .Mon)) && m == 8 && ((decide (2016 ≤ y) && decide (y < 2020)) || decide (y ≥ 2022)))
        || (d == 10 && m == 8 && y == 2020)
        || (d == 9 && m == 8 && y == 2021)
        || (w == .Mon && (decide (15 ≤ d) && decide (d ≤ 21)) && m == 9 && decide (y ≥ 2003))
        || ((d == 15 || (d == 16 && w == .Mon)) && m == 9 && decide (y < 2003))
        || (w == .Tue && d + 1 == ae && (decide (16 ≤ d) && decide (d ≤ 22)) && m == 9 && decide (y ≥ 2003))
        || ((d == ae || (d == ae + 1 && w == .Mon)) && m == 9)
        || (w == .Mon && (decide (8 ≤ d) && decide (d ≤ 14)) && m == 10 && ((decide (2000 ≤ y) && decide (y < 2020)) || decide (y ≥ 2022)))
        || ((d == 10 || (d == 11 && w == .Mon)) && m == 10 && decide (y < 2000))
        || (d == 24 && m == 7 && y == 2020)
        || (d == 23 && m == 7 && y == 2021)
        || ((d == 3 || (d == 4 && w == .Mon)) && m == 11)
        || ((d == 23 || (d == 24 && w == .Mon)) && m == 11))
      || ((d == 31 && m == 12)
        || (d == 10 && m == 4 && y == 1959)
        || (d == 24 && m == 2 && y == 1989)
        || (d == 12 && m == 11 && y == 1990)
        || (d == 9 && m == 6 && y == 1993)
        || (d == 30 && m == 4 && y == 2019)
        || (d == 1 && m == 5 && y == 2019)
        || (d == 2 && m == 5 && y == 2019)
        || (d == 22 && m == 10 && y == 2019))
  then
    false
  else
    true

end Japan

/-- The calendar `Japan` (`third-parties/calendar/src/japan.rs:8`). -/
def Calendar.japan : Calendar where
  isBusinessDay date := .ok (Japan.isBusinessDay date)

end Qlab
