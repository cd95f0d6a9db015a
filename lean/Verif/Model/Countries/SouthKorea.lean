import Verif.Model.Easter

/-! Generated by `tools/gen_calendars.py` from `third-parties/calendar/src/southkorea.rs`. -/

namespace Qlab

namespace SouthKorea

set_option maxRecDepth 4000 in
/-- `SouthKorea::is_business_day` (`third-parties/calendar/src/southkorea.rs:11-225`). -/
def isBusinessDay (date : NaiveDate) : Bool :=
  let d := date.day
  let w := date.weekday
  let m := date.month
  let y := date.year
  if (isWeekend date
        || (d == 1 && m == 1)
        || (d == 1 && m == 3)
        || (w == .Mon && (d == 2 || d == 3) && m == 3 && decide (y > 2021))
        || (d == 5 && m == 4 && decide (y ≤ 2005))
        || (d == 1 && m == 5)
        || (d == 5 && m == 5)
        || (w == .Mon && (d == 6 || d == 7) && m == 5 && decide (y > 2013))
        || (d == 6 && m == 6)
        || (d == 17 && m == 7 && decide (y ≤ 2007))
        || (d == 15 && m == 8)
        || (w == .Mon && (d == 16 || d == 17) && m == 8 && decide (y > 2020))
        || (d == 3 && m == 10)
        || (w == .Mon && (d == 4 || d == 5) && m == 10 && decide (y > 2020))
        || (d == 25 && m == 12)
        || (w == .Mon && (d == 26 || d == 27) && m == 12 && decide (y > 2022)))
      || (((d == 21 || d == 22 || d == 23) && m == 1 && y == 2004)
        || ((d == 8 || d == 9 || d == 10) && m == 2 && y == 2005)
        || ((d == 28 || d == 29 || d == 30) && m == 1 && y == 2006)
        || (d == 19 && m == 2 && y == 2007)
        || ((d == 6 || d == 7 || d == 8) && m == 2 && y == 2008)
        || ((d == 25 || d == 26 || d == 27) && m == 1 && y == 2009)
        || ((d == 13 || d == 14 || d == 15) && m == 2 && y == 2010)
        || ((d == 2 || d == 3 || d == 4) && m == 2 && y == 2011)
        || ((d == 23 || d == 24) && m == 1 && y == 2012)
        || (d == 11 && m == 2 && y == 2013)
        || ((d == 30 || d == 31) && m == 1 && y == 2014)
        || ((d == 18 || d == 19 || d == 20) && m == 2 && y == 2015)
        || ((decide (7 ≤ d) && decide (d ≤ 10)) && m == 2 && y == 2016)
        || ((decide (27 ≤ d) && decide (d ≤ 30)) && m == 1 && y == 2017)
        || ((d == 15 || d == 16 || d == 17) && m == 2 && y == 2018)
        || ((d == 4 || d == 5 || d == 6) && m == 2 && y == 2019))
      || (((decide (24 ≤ d) && decide (d ≤ 27)) && m == 1 && y == 2020)
        || ((d == 11 || d == 12 || d == 13) && m == 2 && y == 2021)
        || (((d == 31 && m == 1) || ((d == 1 || d == 2) && m == 2)) && y == 2022)
        || ((d == 23 || d == 24) && m == 1 && y == 2023)
        || ((decide (9 ≤ d) && decide (d ≤ 12)) && m == 2 && y == 2024)
        || ((d == 28 || d == 29 || d == 30) && m == 1 && y == 2025)
        || ((d == 16 || d == 17 || d == 18) && m == 2 && y == 2026)
        || ((d == 8 || d == 9) && m == 2 && y == 2027)
        || ((d == 26 || d == 27 || d == 28) && m == 1 && y == 2028)
        || ((d == 12 || d == 13 || d == 14) && m == 2 && y == 2029)
        || ((d == 4 || d == 5) && m == 2 && y == 2030)
        || ((d == 22 || d == 23 || d == 24) && m == 1 && y == 2031)
        || ((d == 10 || d == 11 || d == 12) && m == 2 && y == 2032)
        || (((d == 31 && m == 1) || ((d == 1 || d == 2) && m == 2)) && y == 2033)
        || ((d == 20 || d == 21) && m == 2 && y == 2034)
        || ((d == 7 || d == 8 || d == 9) && m == 2 && y == 2035))
      || (((d == 28 || d == 29 || d == 30) && m == 1 && y == 2036)
        || ((d == 16 || d == 17) && m == 2 && y == 2037)
        || ((d == 3 || d == 4 || d == 5) && m == 2 && y == 2038)
        || ((d == 24 || d == 25 || d == 26) && m == 1 && y == 2039)
        || ((d == 13 || d == 14) && m == 2 && y == 2040)
        || (((d == 31 && m == 1) || ((d == 1 || d == 2) && m == 2)) && y == 2041)
        || ((d == 21 || d == 22 || d == 23) && m == 1 && y == 2042)
        || ((d == 9 || d == 10 || d == 11) && m == 2 && y == 2043)
        || ((((d == 29 || d == 30 || d == 31) && m == 1) || (d == 1 && m == 2)) && y == 2044)
        || ((d == 16 || d == 17 || d == 18) && m == 2 && y == 2045)
        || ((d == 5 || d == 6 || d == 7) && m == 2 && y == 2046)
        || ((decide (25 ≤ d) && decide (d ≤ 28)) && m == 1 && y == 2047)
        || ((d == 13 || d == 14 || d == 15) && m == 2 && y == 2048)
        || ((d == 1 || d == 2 || d == 3) && m == 2 && y == 2049)
        || ((d == 24 || d == 25) && m == 1 && y == 2050)
        || (d == 15 && m == 4 && y == 2004))
      || ((d == 31 && m == 5 && y == 2006)
        || (d == 19 && m == 12 && y == 2007)
        || (d == 9 && m == 4 && y == 2008)
        || (d == 2 && m == 6 && y == 2010)
        || (d == 11 && m == 4 && y == 2012)
        || (d == 19 && m == 12 && y == 2012)
        || (d == 4 && m == 6 && y == 2014)
        || (d == 13 && m == 4 && y == 2016)
        || (d == 9 && m == 5 && y == 2017)
        || (d == 13 && m == 6 && y == 2018)
        || (d == 15 && m == 4 && y == 2020)
        || (d == 9 && m == 3 && y == 2022)
        || (d == 1 && m == 6 && y == 2022)
        || (d == 10 && m == 4 && y == 2024)
        || (d == 26 && m == 5 && y == 2004)
        || (d == 15 && m == 5 && y == 2005))
      || ((d == 5 && m == 5 && y == 2006)
        || (d == 24 && m == 5 && y == 2007)
        || (d == 12 && m == 5 && y == 2008)
        || (d == 2 && m == 5 && y == 2009)
        || (d == 21 && m == 5 && y == 2010)
        || (d == 10 && m == 5 && y == 2011)
        || (d == 28 && m == 5 && y == 2012)
        || (d == 17 && m == 5 && y == 2013)
        || (d == 6 && m == 5 && y == 2014)
        || (d == 25 && m == 5 && y == 2015)
        || (d == 14 && m == 5 && y == 2016)
        || (d == 3 && m == 5 && y == 2017)
        || (d == 22 && m == 5 && y == 2018)
        || (d == 12 && m == 5 && y == 2019)
        || (d == 30 && m == 4 && y == 2020)
        || (d == 19 && m == 5 && y == 2021))
      || ((d == 8 && m == 5 && y == 2022)
        || (d == 29 && m == 5 && y == 2023)
        || (d == 15 && m == 5 && y == 2024)
        || (d == 6 && m == 5 && y == 2025)
        || (d == 25 && m == 5 && y == 2026)
        || (d == 13 && m == 5 && y == 2027)
        || (d == 2 && m == 5 && y == 2028)
        || (d == 21 && m == 5 && y == 2029)
        || (d == 9 && m == 5 && y == 2030)
        || (d == 28 && m == 5 && y == 2031)
        || (d == 17 && m == 5 && y == 2032)
        || (d == 6 && m == 5 && y == 2033)
        || (d == 25 && m == 5 && y == 2034)
        || (d == 15 && m == 5 && y == 2035)
        || (d == 6 && m == 5 && y == 2036)
        || (d == 22 && m == 5 && y == 2037))
      || ((d == 11 && m == 5 && y == 2038)
        || (d == 2 && m == 5 && y == 2039)
        || (d == 18 && m == 5 && y == 2040)
        || (d == 7 && m == 5 && y == 2041)
        || (d == 26 && m == 5 && y == 2042)
        || (d == 18 && m == 5 && y == 2043)
        || (d == 6 && m == 5 && y == 2044)
        || (d == 24 && m == 5 && y == 2045)
        || (d == 14 && m == 5 && y == 2046)
        || (d == 2 && m == 5 && y == 2047)
        || (d == 20 && m == 5 && y == 2048)
        || (d == 10 && m == 5 && y == 2049)
        || (d == 30 && m == 5 && y == 2050)
        || (d == 14 && m == 8 && y == 2015)
        || (d == 17 && m == 8 && y == 2020)
        || (d == 2 && m == 10 && y == 2023))
      || (((d == 27 || d == 28 || d == 29) && m == 9 && y == 2004)
        || ((d == 17 || d == 18 || d == 19) && m == 9 && y == 2005)
        || ((d == 5 || d == 6 || d == 7) && m == 10 && y == 2006)
        || ((d == 24 || d == 25 || d == 26) && m == 9 && y == 2007)
        || ((d == 13 || d == 14 || d == 15) && m == 9 && y == 2008)
        || ((d == 2 || d == 3 || d == 4) && m == 10 && y == 2009)
        || ((d == 21 || d == 22 || d == 23) && m == 9 && y == 2010)
        || ((d == 12 || d == 13) && m == 9 && y == 2011)
        || (d == 1 && m == 10 && y == 2012)
        || ((d == 18 || d == 19 || d == 20) && m == 9 && y == 2013)
        || ((d == 8 || d == 9 || d == 10) && m == 9 && y == 2014)
        || ((d == 28 || d == 29) && m == 9 && y == 2015)
        || ((d == 14 || d == 15 || d == 16) && m == 9 && y == 2016)
        || ((decide (3 ≤ d) && decide (d ≤ 6)) && m == 10 && y == 2017)
        || ((decide (23 ≤ d) && decide (d ≤ 26)) && m == 9 && y == 2018)
        || ((d == 12 || d == 13 || d == 14) && m == 9 && y == 2019))
      || ((((d == 30 && m == 9) || ((d == 1 || d == 2) && m == 10)) && y == 2020)
        || ((d == 20 || d == 21 || d == 22) && m == 9 && y == 2021)
        || ((d == 9 || d == 10 || d == 11) && m == 9 && y == 2022)
        || ((decide (9 ≤ d) && decide (d ≤ 12)) && m == 9 && y == 2022)
        || ((d == 28 || d == 29 || d == 30) && m == 9 && y == 2023)
        || ((d == 16 || d == 17 || d == 18) && m == 9 && y == 2024)
        || ((d == 6 || d == 7 || d == 8) && m == 10 && y == 2025)
        || ((d == 24 || d == 25 || d == 26) && m == 9 && y == 2026)
        || ((d == 14 || d == 15 || d == 16) && m == 9 && y == 2027)
        || ((decide (2 ≤ d) && decide (d ≤ 5)) && m == 10 && y == 2028)
        || ((decide (21 ≤ d) && decide (d ≤ 24)) && m == 9 && y == 2029)
        || ((d == 11 || d == 12 || d == 13) && m == 9 && y == 2030)
        || (((d == 30 && m == 9) || ((d == 1 || d == 2) && m == 10)) && y == 2031)
        || ((d == 20 || d == 21) && m == 9 && y == 2032)
        || ((d == 7 || d == 8 || d == 9) && m == 9 && y == 2033)
        || ((d == 26 || d == 27 || d == 28) && m == 9 && y == 2034))
      || (((d == 17 || d == 18) && m == 9 && y == 2035)
        || ((decide (3 ≤ d) && decide (d ≤ 7)) && m == 10 && y == 2036)
        || ((d == 23 || d == 24 || d == 25) && m == 9 && y == 2037)
        || ((d == 13 || d == 14 || d == 15) && m == 9 && y == 2038)
        || ((d == 3 || d == 4 || d == 5) && m == 10 && y == 2039)
        || ((d == 20 || d == 21 || d == 22) && m == 9 && y == 2040)
        || ((d == 9 || d == 10 || d == 11) && m == 9 && y == 2041)
        || ((d == 29 || d == 30) && m == 9 && y == 2042)
        || ((d == 16 || d == 17 || d == 18) && m == 9 && y == 2043)
        || ((d == 4 || d == 5 || d == 6) && m == 10 && y == 2044)
        || ((d == 25 || d == 26 || d == 27) && m == 9 && y == 2045)
        || ((decide (14 ≤ d) && decide (d ≤ 17)) && m == 9 && y == 2046)
        || ((d == 4 || d == 5 || d == 7) && m == 10 && y == 2047)
        || ((d == 21 || d == 22 || d == 23) && m == 9 && y == 2048)
        || ((decide (10 ≤ d) && decide (d ≤ 13)) && m == 9 && y == 2049)
        || ((((d == 29 || d == 30) && m == 9) || (d == 1 && m == 10)) && y == 2050))
      || ((d == 9 && m == 10 && decide (y ≥ 2013))
        || (w == .Mon && (d == 10 || d == 11) && m == 10 && decide (y > 2020)))
  then
    false
  else
  true

end SouthKorea

/-- The calendar `SouthKorea` (`third-parties/calendar/src/southkorea.rs:8`). -/
def Calendar.southKorea : Calendar where
  isBusinessDay date := .ok (SouthKorea.isBusinessDay date)

end Qlab
