import Verif.Model.Easter

/-! Generated by `tools/gen_calendars.py` from `third-parties/calendar/src/singapore.rs`. -/

namespace Qlab

namespace Singapore

/-- `Singapore::is_business_day` (`third-parties/calendar/src/singapore.rs:11-186`). -/
def isBusinessDay (date : NaiveDate) : Rust Bool :=
  let d := date.day
  let w := date.weekday
  let m := date.month
  let y := date.year
  let dd := date.ordinal
  easterMonday y >>= fun em =>
  if (isWeekend date
        || ((d == 1 || (d == 2 && w == .Mon)) && m == 1)
        || dd == em - 3
        || (d == 1 && m == 5)
        || ((d == 9 || (d == 10 && w == .Mon)) && m == 8)
        || (d == 25 && m == 12)
        || ((d == 22 || d == 23) && m == 1 && y == 2004)
        || ((d == 9 || d == 10) && m == 2 && y == 2005)
        || ((d == 30 || d == 31) && m == 1 && y == 2006)
        || ((d == 19 || d == 20) && m == 2 && y == 2007)
        || ((d == 7 || d == 8) && m == 2 && y == 2008)
        || ((d == 26 || d == 27) && m == 1 && y == 2009)
        || ((d == 15 || d == 16) && m == 1 && y == 2010)
        || ((d == 23 || d == 24) && m == 1 && y == 2012)
        || ((d == 11 || d == 12) && m == 2 && y == 2013)
        || (d == 31 && m == 1 && y == 2014))
      || ((d == 1 && m == 2 && y == 2014)
        || ((d == 1 || d == 2) && m == 2 && y == 2004)
        || (d == 21 && m == 1 && y == 2005)
        || (d == 10 && m == 1 && y == 2006)
        || (d == 2 && m == 1 && y == 2007)
        || (d == 20 && m == 12 && y == 2007)
        || (d == 8 && m == 12 && y == 2008)
        || (d == 27 && m == 11 && y == 2009)
        || (d == 17 && m == 11 && y == 2010)
        || (d == 26 && m == 10 && y == 2012)
        || (d == 15 && m == 10 && y == 2013)
        || (d == 6 && m == 10 && y == 2014)
        || (d == 2 && m == 6 && y == 2004)
        || (d == 22 && m == 5 && y == 2005)
        || (d == 12 && m == 5 && y == 2006)
        || (d == 31 && m == 5 && y == 2007))
      || ((d == 18 && m == 5 && y == 2008)
        || (d == 9 && m == 5 && y == 2009)
        || (d == 28 && m == 5 && y == 2010)
        || (d == 5 && m == 5 && y == 2012)
        || (d == 24 && m == 5 && y == 2013)
        || (d == 13 && m == 5 && y == 2014)
        || (d == 11 && m == 11 && y == 2004)
        || (d == 8 && m == 11 && y == 2007)
        || (d == 28 && m == 10 && y == 2008)
        || (d == 16 && m == 11 && y == 2009)
        || (d == 5 && m == 11 && y == 2010)
        || (d == 13 && m == 11 && y == 2012)
        || (d == 2 && m == 11 && y == 2013)
        || (d == 23 && m == 10 && y == 2014)
        || (d == 1 && m == 11 && y == 2005)
        || ((d == 14 || d == 15) && m == 11 && y == 2004))
      || ((d == 3 && m == 11 && y == 2005)
        || (d == 24 && m == 10 && y == 2006)
        || (d == 13 && m == 10 && y == 2007)
        || (d == 1 && m == 10 && y == 2008)
        || (d == 21 && m == 9 && y == 2009)
        || (d == 10 && m == 9 && y == 2010)
        || (d == 20 && m == 8 && y == 2012)
        || (d == 8 && m == 8 && y == 2013)
        || (d == 28 && m == 7 && y == 2014))
  then
    .ok (false)
  else
  if y == 2019 && (((d == 5 || d == 6) && m == 2) || (d == 20 && m == 5) || (d == 5 && m == 6) || (d == 12 && m == 8) || (d == 28 && m == 10))
  then
    .ok (false)
  else
  if y == 2020 && ((d == 27 && m == 1) || (d == 7 && m == 5) || (d == 25 && m == 5) || (d == 31 && m == 7) || (d == 14 && m == 11))
  then
    .ok (false)
  else
  if y == 2021 && ((d == 12 && m == 2) || (d == 13 && m == 5) || (d == 26 && m == 5) || (d == 20 && m == 7) || (d == 4 && m == 11))
  then
    .ok (false)
  else
  if y == 2022 && (((d == 1 || d == 2) && m == 2) || (d == 2 && m == 5) || (d == 3 && m == 5) || (d == 16 && m == 5) || (d == 11 && m == 7) || (d == 24 && m == 10) || (d == 26 && m == 12))
  then
    .ok (false)
  else
  if y == 2023 && (((d == 23 || d == 24) && m == 1) || (d == 22 && m == 4) || (d == 2 && m == 6) || (d == 29 && m == 6) || (d == 13 && m == 11))
  then
    .ok (false)
  else
  .ok (true)

end Singapore

/-- The calendar `Singapore` (`third-parties/calendar/src/singapore.rs:8`). -/
def Calendar.singapore : Calendar where
  isBusinessDay date := Singapore.isBusinessDay date

end Qlab
