import Verif.Model.Easter

/-! Generated by `tools/gen_calendars.py` from `third-parties/calendar/src/china.rs`. -/

namespace Qlab

namespace China

/-- `China::is_business_day` (`third-parties/calendar/src/china.rs:10-152`). -/
def isBusinessDay (date : NaiveDate) : Bool :=
  let d := date.day
  let m := date.month
  let y := date.year
  if (isWeekend date
        || (d == 1 && m == 1)
        || (y == 2005 && d == 3 && m == 1)
        || (y == 2006 && (d == 2 || d == 3) && m == 1)
        || (y == 2007 && decide (d ≤ 3) && m == 1)
        || (y == 2007 && d == 31 && m == 12)
        || (y == 2009 && d == 2 && m == 1)
        || (y == 2011 && d == 3 && m == 1)
        || (y == 2012 && (d == 2 || d == 3) && m == 1)
        || (y == 2013 && decide (d ≤ 3) && m == 1)
        || (y == 2014 && d == 1 && m == 1)
        || (y == 2015 && decide (d ≤ 3) && m == 1)
        || (y == 2017 && d == 2 && m == 1)
        || (y == 2018 && d == 1 && m == 1)
        || (y == 2018 && d == 31 && m == 12)
        || (y == 2019 && d == 1 && m == 1))
      || ((y == 2020 && d == 1 && m == 1)
        || (y == 2021 && d == 1 && m == 1)
        || (y == 2022 && d == 3 && m == 1)
        || (y == 2023 && d == 2 && m == 1)
        || (y == 2004 && (decide (19 ≤ d) && decide (d ≤ 28)) && m == 1)
        || (y == 2005 && (decide (7 ≤ d) && decide (d ≤ 15)) && m == 2)
        || (y == 2006 && ((decide (d ≥ 26) && m == 1) || (decide (d ≤ 3) && m == 2)))
        || (y == 2007 && (decide (17 ≤ d) && decide (d ≤ 25)) && m == 2)
        || (y == 2008 && (decide (6 ≤ d) && decide (d ≤ 12)) && m == 2)
        || (y == 2009 && (decide (26 ≤ d) && decide (d ≤ 30)) && m == 1)
        || (y == 2010 && (decide (15 ≤ d) && decide (d ≤ 19)) && m == 2)
        || (y == 2011 && (decide (2 ≤ d) && decide (d ≤ 8)) && m == 2)
        || (y == 2012 && (decide (23 ≤ d) && decide (d ≤ 28)) && m == 1)
        || (y == 2013 && (decide (11 ≤ d) && decide (d ≤ 15)) && m == 2)
        || (y == 2014 && decide (d ≥ 31) && m == 1)
        || (y == 2014 && decide (d ≤ 6) && m == 2))
      || ((y == 2015 && (decide (18 ≤ d) && decide (d ≤ 24)) && m == 2)
        || (y == 2016 && (decide (8 ≤ d) && decide (d ≤ 12)) && m == 2)
        || (y == 2017 && ((decide (d ≥ 27) && m == 1) || (decide (d ≤ 2) && m == 2)))
        || (y == 2018 && ((decide (15 ≤ d) && decide (d ≤ 21)) && m == 2))
        || (y == 2019 && (decide (4 ≤ d) && decide (d ≤ 8)) && m == 2)
        || (y == 2020 && (d == 24 || (decide (27 ≤ d) && decide (d ≤ 31))) && m == 1)
        || (y == 2021 && (d == 11 || d == 12 || d == 15 || d == 16 || d == 17) && m == 2)
        || (y == 2022 && ((d == 31 && m == 1) || (decide (d ≤ 4) && m == 2)))
        || (y == 2023 && (decide (23 ≤ d) && decide (d ≤ 27)) && m == 1)
        || (decide (y ≤ 2008) && d == 4 && m == 4)
        || (y == 2009 && d == 6 && m == 4)
        || (y == 2010 && d == 5 && m == 4)
        || (y == 2011 && (decide (3 ≤ d) && decide (d ≤ 5)) && m == 4)
        || (y == 2012 && (decide (2 ≤ d) && decide (d ≤ 4)) && m == 4)
        || (y == 2013 && (decide (4 ≤ d) && decide (d ≤ 5)) && m == 4)
        || (y == 2014 && d == 7 && m == 4))
      || ((y == 2015 && (decide (5 ≤ d) && decide (d ≤ 6)) && m == 4)
        || (y == 2016 && d == 4 && m == 4)
        || (y == 2017 && (decide (3 ≤ d) && decide (d ≤ 4)) && m == 4)
        || (y == 2018 && (decide (5 ≤ d) && decide (d ≤ 6)) && m == 4)
        || (y == 2019 && d == 5 && m == 4)
        || (y == 2020 && d == 6 && m == 4)
        || (y == 2021 && d == 5 && m == 4)
        || (y == 2022 && (decide (4 ≤ d) && decide (d ≤ 5)) && m == 4)
        || (y == 2023 && d == 5 && m == 4)
        || (decide (y ≤ 2007) && (decide (1 ≤ d) && decide (d ≤ 7)) && m == 5)
        || (y == 2008 && (decide (1 ≤ d) && decide (d ≤ 2)) && m == 5)
        || (y == 2009 && d == 1 && m == 5)
        || (y == 2010 && d == 3 && m == 5)
        || (y == 2011 && d == 2 && m == 5)
        || (y == 2012 && ((d == 30 && m == 4) || (d == 1 && m == 5)))
        || (y == 2013 && ((decide (d ≥ 29) && m == 4) || (d == 1 && m == 5))))
      || ((y == 2014 && (decide (1 ≤ d) && decide (d ≤ 3)) && m == 5)
        || (y == 2015 && d == 1 && m == 5)
        || (y == 2016 && (decide (1 ≤ d) && decide (d ≤ 2)) && m == 5)
        || (y == 2017 && d == 1 && m == 5)
        || (y == 2018 && ((d == 30 && m == 4) || (d == 1 && m == 5)))
        || (y == 2019 && (decide (1 ≤ d) && decide (d ≤ 3)) && m == 5)
        || (y == 2020 && (d == 1 || d == 4 || d == 5) && m == 5)
        || (y == 2021 && (d == 3 || d == 4 || d == 5) && m == 5)
        || (y == 2022 && (decide (2 ≤ d) && decide (d ≤ 4)) && m == 5)
        || (y == 2023 && (decide (1 ≤ d) && decide (d ≤ 3)) && m == 5)
        || (decide (y ≤ 2008) && d == 9 && m == 6)
        || (y == 2009 && (d == 28 || d == 29) && m == 5)
        || (y == 2010 && (decide (14 ≤ d) && decide (d ≤ 16)) && m == 6)
        || (y == 2011 && (decide (4 ≤ d) && decide (d ≤ 6)) && m == 6)
        || (y == 2012 && (decide (22 ≤ d) && decide (d ≤ 24)) && m == 6)
        || (y == 2013 && (decide (10 ≤ d) && decide (d ≤ 12)) && m == 6))
      || ((y == 2014 && d == 2 && m == 6)
        || (y == 2015 && d == 22 && m == 6)
        || (y == 2016 && (decide (9 ≤ d) && decide (d ≤ 10)) && m == 6)
        || (y == 2017 && (decide (29 ≤ d) && decide (d ≤ 30)) && m == 5)
        || (y == 2018 && d == 18 && m == 6)
        || (y == 2019 && d == 7 && m == 6)
        || (y == 2020 && (decide (25 ≤ d) && decide (d ≤ 26)) && m == 6)
        || (y == 2021 && d == 14 && m == 6)
        || (y == 2022 && d == 3 && m == 6)
        || (y == 2023 && (decide (22 ≤ d) && decide (d ≤ 23)) && m == 6)
        || (decide (y ≤ 2008) && d == 15 && m == 9)
        || (y == 2010 && (decide (22 ≤ d) && decide (d ≤ 24)) && m == 9)
        || (y == 2011 && (decide (10 ≤ d) && decide (d ≤ 12)) && m == 9)
        || (y == 2012 && d == 30 && m == 9)
        || (y == 2013 && (decide (19 ≤ d) && decide (d ≤ 20)) && m == 9)
        || (y == 2014 && d == 8 && m == 9))
      || ((y == 2015 && d == 27 && m == 9)
        || (y == 2016 && (decide (15 ≤ d) && decide (d ≤ 16)) && m == 9)
        || (y == 2018 && d == 24 && m == 9)
        || (y == 2019 && d == 13 && m == 9)
        || (y == 2021 && (d == 20 || d == 21) && m == 9)
        || (y == 2022 && d == 12 && m == 9)
        || (y == 2023 && d == 29 && m == 9)
        || (decide (y ≤ 2007) && (decide (1 ≤ d) && decide (d ≤ 7)) && m == 10)
        || (y == 2008 && ((decide (d ≥ 29) && m == 9) || (decide (d ≤ 3) && m == 10)))
        || (y == 2009 && (decide (1 ≤ d) && decide (d ≤ 8)) && m == 10)
        || (y == 2010 && (decide (1 ≤ d) && decide (d ≤ 7)) && m == 10)
        || (y == 2011 && (decide (1 ≤ d) && decide (d ≤ 7)) && m == 10)
        || (y == 2012 && (decide (1 ≤ d) && decide (d ≤ 7)) && m == 10)
        || (y == 2013 && (decide (1 ≤ d) && decide (d ≤ 7)) && m == 10)
        || (y == 2014 && (decide (1 ≤ d) && decide (d ≤ 7)) && m == 10)
        || (y == 2015 && (decide (1 ≤ d) && decide (d ≤ 7)) && m == 10))
      || ((y == 2016 && (decide (3 ≤ d) && decide (d ≤ 7)) && m == 10)
        || (y == 2017 && (decide (2 ≤ d) && decide (d ≤ 6)) && m == 10)
        || (y == 2018 && (decide (1 ≤ d) && decide (d ≤ 5)) && m == 10)
        || (y == 2019 && (decide (1 ≤ d) && decide (d ≤ 7)) && m == 10)
        || (y == 2020 && (decide (1 ≤ d) && decide (d ≤ 2)) && m == 10)
        || (y == 2020 && (decide (5 ≤ d) && decide (d ≤ 8)) && m == 10)
        || (y == 2021 && (d == 1 || d == 4 || d == 5 || d == 6 || d == 7) && m == 10)
        || (y == 2022 && (decide (3 ≤ d) && decide (d ≤ 7)) && m == 10)
        || (y == 2023 && (decide (2 ≤ d) && decide (d ≤ 6)) && m == 10)
        || (y == 2015 && (decide (3 ≤ d) && decide (d ≤ 4)) && m == 9))
  then
    false
  else
    true

end China

/-- The calendar `China` (`third-parties/calendar/src/china.rs:7`). -/
def Calendar.china : Calendar where
  isBusinessDay date := .ok (China.isBusinessDay date)

end Qlab
