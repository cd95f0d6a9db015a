import Verif.Spec.Holidays

/-!
# Single closings

The days, year by year, on which the calendars that publish their holidays as lists of dates are closed
in addition to the recurring holidays of `Verif.Spec.HolidayTables` (printed by `tools/gen_closings.py`).
-/

namespace Qlab.Spec.Closings

/-- Single closings of `china.rs`. -/
def china : List Holiday := [
  .dates 2004 [(1, 19), (1, 20), (1, 21), (1, 22), (1, 23), (1, 24), (1, 25), (1, 26), (1, 27), (1, 28)],
  .dates 2005 [(1, 3), (2, 7), (2, 8), (2, 9), (2, 10), (2, 11), (2, 12), (2, 13), (2, 14), (2, 15)],
  .dates 2006 [(1, 2), (1, 3), (1, 26), (1, 27), (1, 28), (1, 29), (1, 30), (1, 31), (2, 1), (2, 2), (2, 3)],
  .dates 2007 [(1, 2), (1, 3), (2, 17), (2, 18), (2, 19), (2, 20), (2, 21), (2, 22), (2, 23), (2, 24), (2, 25),
    (12, 31)],
  .dates 2008 [(2, 6), (2, 7), (2, 8), (2, 9), (2, 10), (2, 11), (2, 12), (5, 1), (5, 2), (9, 29), (9, 30),
    (10, 1), (10, 2), (10, 3)],
  .dates 2009 [(1, 2), (1, 26), (1, 27), (1, 28), (1, 29), (1, 30), (4, 6), (5, 1), (5, 28), (5, 29), (10, 1),
    (10, 2), (10, 3), (10, 4), (10, 5), (10, 6), (10, 7), (10, 8)],
  .dates 2010 [(2, 15), (2, 16), (2, 17), (2, 18), (2, 19), (4, 5), (5, 3), (6, 14), (6, 15), (6, 16), (9, 22),
    (9, 23), (9, 24), (10, 1), (10, 2), (10, 3), (10, 4), (10, 5), (10, 6), (10, 7)],
  .dates 2011 [(1, 3), (2, 2), (2, 3), (2, 4), (2, 5), (2, 6), (2, 7), (2, 8), (4, 3), (4, 4), (4, 5), (5, 2),
    (6, 4), (6, 5), (6, 6), (9, 10), (9, 11), (9, 12), (10, 1), (10, 2), (10, 3), (10, 4), (10, 5), (10, 6),
    (10, 7)],
  .dates 2012 [(1, 2), (1, 3), (1, 23), (1, 24), (1, 25), (1, 26), (1, 27), (1, 28), (4, 2), (4, 3), (4, 4),
    (4, 30), (5, 1), (6, 22), (6, 23), (6, 24), (9, 30), (10, 1), (10, 2), (10, 3), (10, 4), (10, 5), (10, 6),
    (10, 7)],
  .dates 2013 [(1, 2), (1, 3), (2, 11), (2, 12), (2, 13), (2, 14), (2, 15), (4, 4), (4, 5), (4, 29), (4, 30),
    (5, 1), (6, 10), (6, 11), (6, 12), (9, 19), (9, 20), (10, 1), (10, 2), (10, 3), (10, 4), (10, 5), (10, 6),
    (10, 7)],
  .dates 2014 [(1, 31), (2, 1), (2, 2), (2, 3), (2, 4), (2, 5), (2, 6), (4, 7), (5, 1), (5, 2), (5, 3), (6, 2),
    (9, 8), (10, 1), (10, 2), (10, 3), (10, 4), (10, 5), (10, 6), (10, 7)],
  .dates 2015 [(1, 2), (1, 3), (2, 18), (2, 19), (2, 20), (2, 21), (2, 22), (2, 23), (2, 24), (4, 5), (4, 6),
    (5, 1), (6, 22), (9, 3), (9, 4), (9, 27), (10, 1), (10, 2), (10, 3), (10, 4), (10, 5), (10, 6), (10, 7)],
  .dates 2016 [(2, 8), (2, 9), (2, 10), (2, 11), (2, 12), (4, 4), (5, 1), (5, 2), (6, 9), (6, 10), (9, 15),
    (9, 16), (10, 3), (10, 4), (10, 5), (10, 6), (10, 7)],
  .dates 2017 [(1, 2), (1, 27), (1, 28), (1, 29), (1, 30), (1, 31), (2, 1), (2, 2), (4, 3), (4, 4), (5, 1),
    (5, 29), (5, 30), (10, 2), (10, 3), (10, 4), (10, 5), (10, 6)],
  .dates 2018 [(2, 15), (2, 16), (2, 17), (2, 18), (2, 19), (2, 20), (2, 21), (4, 5), (4, 6), (4, 30), (5, 1),
    (6, 18), (9, 24), (10, 1), (10, 2), (10, 3), (10, 4), (10, 5), (12, 31)],
  .dates 2019 [(2, 4), (2, 5), (2, 6), (2, 7), (2, 8), (4, 5), (5, 1), (5, 2), (5, 3), (6, 7), (9, 13), (10, 1),
    (10, 2), (10, 3), (10, 4), (10, 5), (10, 6), (10, 7)],
  .dates 2020 [(1, 24), (1, 27), (1, 28), (1, 29), (1, 30), (1, 31), (4, 6), (5, 1), (5, 4), (5, 5), (6, 25),
    (6, 26), (10, 1), (10, 2), (10, 5), (10, 6), (10, 7), (10, 8)],
  .dates 2021 [(2, 11), (2, 12), (2, 15), (2, 16), (2, 17), (4, 5), (5, 3), (5, 4), (5, 5), (6, 14), (9, 20),
    (9, 21), (10, 1), (10, 4), (10, 5), (10, 6), (10, 7)],
  .dates 2022 [(1, 3), (1, 31), (2, 1), (2, 2), (2, 3), (2, 4), (4, 4), (4, 5), (5, 2), (5, 3), (5, 4), (6, 3),
    (9, 12), (10, 3), (10, 4), (10, 5), (10, 6), (10, 7)],
  .dates 2023 [(1, 2), (1, 23), (1, 24), (1, 25), (1, 26), (1, 27), (4, 5), (5, 1), (5, 2), (5, 3), (6, 22),
    (6, 23), (9, 29), (10, 2), (10, 3), (10, 4), (10, 5), (10, 6)]]

/-- Single closings of `hongkong.rs`. -/
def hongKong : List Holiday := [
  .dates 2004 [(1, 22), (1, 23), (1, 24), (4, 5), (5, 26), (6, 22), (9, 29), (10, 22)],
  .dates 2005 [(2, 9), (2, 10), (2, 11), (4, 5), (5, 16), (6, 11), (9, 19), (10, 11)],
  .dates 2006 [(1, 28), (1, 29), (1, 30), (1, 31), (4, 5), (5, 5), (5, 31), (10, 7), (10, 30)],
  .dates 2007 [(2, 17), (2, 18), (2, 19), (2, 20), (4, 5), (5, 24), (6, 19), (9, 26), (10, 19)],
  .dates 2008 [(2, 7), (2, 8), (2, 9), (4, 4), (5, 12), (6, 9), (9, 15), (10, 7)],
  .dates 2009 [(1, 26), (1, 27), (1, 28), (4, 4), (5, 2), (5, 28), (10, 3), (10, 26)],
  .dates 2010 [(2, 15), (2, 16), (4, 6), (5, 21), (6, 16), (9, 23)],
  .dates 2011 [(2, 3), (2, 4), (4, 5), (5, 10), (6, 6), (9, 13), (10, 5), (12, 27)],
  .dates 2012 [(1, 23), (1, 24), (1, 25), (4, 4), (5, 10), (10, 23)],
  .dates 2013 [(2, 11), (2, 12), (2, 13), (4, 4), (5, 17), (6, 12), (9, 20), (10, 14)],
  .dates 2014 [(1, 31), (2, 1), (2, 2), (2, 3), (5, 6), (6, 2), (9, 9), (10, 2)],
  .dates 2015 [(2, 19), (2, 20), (4, 7), (5, 25), (6, 20), (9, 3), (9, 28), (10, 21)],
  .dates 2016 [(2, 8), (2, 9), (2, 10), (4, 4), (6, 9), (9, 16), (10, 10), (12, 27)],
  .dates 2017 [(1, 30), (1, 31), (4, 4), (5, 3), (5, 30), (10, 5)],
  .dates 2018 [(2, 16), (2, 19), (4, 5), (5, 22), (6, 18), (9, 25), (10, 17)],
  .dates 2019 [(2, 5), (2, 6), (2, 7), (4, 5), (6, 7), (10, 7)],
  .dates 2020 [(1, 27), (1, 28), (4, 4), (4, 30), (6, 25), (10, 2), (10, 26)],
  .dates 2021 [(2, 12), (2, 15), (4, 5), (5, 19), (6, 14), (9, 22), (10, 14)],
  .dates 2022 [(2, 1), (2, 2), (2, 3), (4, 5), (5, 9), (6, 3), (9, 12), (10, 4)],
  .dates 2023 [(1, 23), (1, 24), (1, 25), (4, 5), (5, 26), (6, 22), (10, 23)],
  .dates 2024 [(2, 12), (2, 13), (4, 4), (5, 15), (6, 10), (9, 18), (10, 11)]]

/-- Single closings of `india.rs`. -/
def india : List Holiday := [
  .dates 2005 [(1, 21), (9, 7), (10, 12), (11, 1), (11, 3), (11, 15)],
  .dates 2006 [(1, 11), (2, 9), (3, 15), (4, 6), (4, 11), (10, 24), (10, 25)],
  .dates 2007 [(1, 1), (1, 30), (2, 16), (3, 27), (5, 2), (11, 9), (12, 21)],
  .dates 2008 [(3, 6), (3, 20), (4, 18), (5, 19), (9, 3), (10, 9), (10, 28), (10, 30), (11, 13), (12, 9)],
  .dates 2009 [(1, 8), (2, 23), (3, 10), (3, 11), (4, 3), (4, 7), (9, 21), (9, 28), (10, 19), (11, 2), (12, 28)],
  .dates 2010 [(1, 1), (2, 12), (3, 1), (3, 24), (9, 10), (11, 5), (11, 17), (12, 17)],
  .dates 2011 [(3, 2), (4, 12), (8, 31), (9, 1), (10, 6), (10, 26), (10, 27), (11, 7), (11, 10), (12, 6)],
  .dates 2012 [(2, 20), (3, 8), (4, 5), (8, 20), (9, 19), (10, 24), (11, 14), (11, 28)],
  .dates 2013 [(3, 27), (4, 19), (4, 24), (8, 9), (9, 9), (10, 16), (11, 4), (11, 14)],
  .dates 2014 [(2, 27), (3, 17), (4, 8), (7, 29), (8, 29), (10, 3), (10, 6), (10, 24), (11, 4), (11, 6)],
  .dates 2019 [(2, 19), (3, 4), (3, 21), (4, 1), (4, 17), (4, 29), (6, 5), (8, 12), (9, 2), (9, 10), (10, 8),
    (10, 21), (10, 28), (11, 12)],
  .dates 2020 [(2, 19), (2, 21), (3, 10), (3, 25), (4, 1), (4, 2), (4, 6), (5, 7), (5, 25), (10, 30), (11, 16),
    (11, 30)],
  .dates 2021 [(2, 19), (3, 11), (3, 29), (4, 13), (4, 21), (5, 26), (7, 21), (9, 10), (10, 15), (10, 19),
    (11, 5), (11, 19)],
  .dates 2022 [(3, 1), (3, 18), (5, 3), (5, 16), (8, 31), (10, 5), (10, 26), (11, 8)],
  .dates 2023 [(3, 8), (3, 22), (3, 30), (4, 4), (5, 5), (6, 28), (9, 19), (9, 28), (10, 24), (11, 14), (11, 27)],
  .dates 2024 [(2, 19), (3, 8), (3, 25), (4, 9), (4, 17), (4, 21), (5, 23), (6, 17), (8, 27), (9, 16), (11, 15)],
  .dates 2025 [(2, 19), (2, 26), (3, 14), (3, 31), (4, 10), (5, 12), (9, 5), (10, 22), (11, 5)]]

/-- Single closings of `indonesia.rs`. -/
def indonesia : List Holiday := [
  .dates 2005 [(1, 21), (2, 9), (2, 10), (3, 11), (4, 22), (5, 24), (9, 2), (11, 2), (11, 3), (11, 4), (11, 7),
    (11, 8), (12, 26)],
  .dates 2006 [(1, 10), (1, 31), (3, 30), (4, 10), (8, 21), (10, 23), (10, 24), (10, 25), (10, 26), (10, 27)],
  .dates 2007 [(3, 19), (5, 18), (6, 1), (10, 12), (10, 15), (10, 16), (10, 21), (10, 24), (12, 20)],
  .dates 2008 [(1, 10), (1, 11), (2, 7), (2, 8), (3, 7), (3, 20), (5, 20), (7, 30), (8, 18), (9, 30), (10, 1),
    (10, 2), (10, 3), (12, 8), (12, 29), (12, 31)],
  .dates 2009 [(1, 2), (1, 26), (3, 9), (3, 26), (4, 9), (7, 20), (9, 18), (9, 19), (9, 20), (9, 21), (9, 22),
    (9, 23), (11, 27), (12, 18), (12, 24), (12, 31)],
  .dates 2010 [(2, 26), (3, 16), (5, 28), (9, 8), (9, 9), (9, 10), (9, 11), (9, 12), (9, 13), (9, 14), (11, 17),
    (12, 7), (12, 24), (12, 31)],
  .dates 2011 [(2, 3), (2, 15), (5, 17), (6, 29), (8, 29), (8, 30), (8, 31), (9, 1), (9, 2), (12, 26)],
  .dates 2012 [(1, 23), (3, 23), (8, 20), (8, 21), (8, 22), (10, 26), (11, 15), (11, 16), (12, 24), (12, 31)],
  .dates 2013 [(1, 24), (3, 12), (6, 6), (8, 5), (8, 6), (8, 7), (8, 8), (8, 9), (10, 14), (10, 15), (11, 5),
    (12, 26), (12, 31)],
  .dates 2014 [(1, 14), (1, 31), (3, 31), (5, 1), (5, 15), (5, 27), (5, 29), (7, 28), (7, 29), (7, 30), (7, 31),
    (8, 1), (12, 26), (12, 31)]]

/-- Single closings of `israel.rs`. -/
def israel : List Holiday := [
  .dates 2013 [(2, 24), (3, 25), (3, 26), (3, 31), (4, 1), (4, 15), (4, 16), (5, 14), (5, 15), (7, 16), (9, 4),
    (9, 5), (9, 6), (9, 13), (9, 14), (9, 18), (9, 19), (9, 25), (9, 26)],
  .dates 2014 [(3, 16), (4, 14), (4, 15), (4, 20), (4, 21), (5, 5), (5, 6), (6, 3), (6, 4), (8, 5), (9, 24),
    (9, 25), (9, 26), (10, 3), (10, 4), (10, 8), (10, 9), (10, 15), (10, 16)],
  .dates 2015 [(3, 5), (4, 3), (4, 4), (4, 9), (4, 10), (4, 22), (4, 23), (5, 23), (5, 24), (7, 26), (9, 13),
    (9, 14), (9, 15), (9, 22), (9, 23), (9, 27), (9, 28), (10, 4), (10, 5)],
  .dates 2016 [(3, 24), (4, 22), (4, 23), (4, 28), (4, 29), (5, 11), (5, 12), (6, 11), (6, 12), (8, 14), (10, 2),
    (10, 3), (10, 4), (10, 11), (10, 12), (10, 16), (10, 17), (10, 23), (10, 24)],
  .dates 2017 [(3, 12), (4, 10), (4, 11), (4, 16), (4, 17), (5, 1), (5, 2), (5, 30), (5, 31), (8, 1), (9, 20),
    (9, 21), (9, 22), (9, 29), (9, 30), (10, 4), (10, 5), (10, 11), (10, 12)],
  .dates 2018 [(3, 1), (3, 31), (4, 5), (4, 6), (4, 18), (4, 19), (5, 19), (5, 20), (7, 22), (9, 9), (9, 10),
    (9, 11), (9, 18), (9, 19), (9, 23), (9, 24), (9, 30), (10, 1)],
  .dates 2019 [(3, 21), (4, 20), (4, 25), (4, 26), (5, 8), (5, 9), (6, 8), (6, 9), (8, 11), (9, 29), (9, 30),
    (10, 1), (10, 8), (10, 9), (10, 13), (10, 14), (10, 20), (10, 21)],
  .dates 2020 [(3, 10), (4, 8), (4, 9), (4, 14), (4, 15), (4, 28), (4, 29), (5, 28), (5, 29), (7, 30), (9, 19),
    (9, 20), (9, 27), (9, 28), (10, 2), (10, 3), (10, 9), (10, 10)],
  .dates 2021 [(2, 26), (3, 28), (4, 3), (4, 14), (4, 15), (5, 17), (7, 18), (9, 7), (9, 8), (9, 15), (9, 16),
    (9, 20), (9, 21), (9, 27), (9, 28)],
  .dates 2022 [(3, 17), (4, 16), (4, 22), (5, 4), (5, 5), (6, 5), (8, 7), (9, 26), (9, 27), (10, 4), (10, 5),
    (10, 9), (10, 10), (10, 16), (10, 17)],
  .dates 2023 [(3, 7), (4, 6), (4, 12), (4, 25), (4, 26), (5, 26), (7, 27), (9, 16), (9, 17), (9, 24), (9, 25),
    (9, 29), (9, 30), (10, 6), (10, 7)],
  .dates 2024 [(3, 24), (4, 23), (4, 29), (5, 13), (5, 14), (6, 12), (8, 13), (10, 3), (10, 4), (10, 11),
    (10, 12), (10, 16), (10, 17), (10, 23), (10, 24)],
  .dates 2025 [(3, 14), (4, 13), (4, 19), (4, 30), (5, 1), (6, 2), (8, 3), (9, 23), (9, 24), (10, 1), (10, 2),
    (10, 6), (10, 7), (10, 13), (10, 14)],
  .dates 2026 [(3, 3), (4, 2), (4, 8), (4, 21), (4, 22), (5, 22), (7, 23), (9, 12), (9, 13), (9, 20), (9, 21),
    (9, 25), (9, 26), (10, 2), (10, 3)],
  .dates 2027 [(3, 23), (4, 22), (4, 28), (5, 11), (5, 12), (6, 11), (8, 12), (10, 2), (10, 3), (10, 10),
    (10, 11), (10, 15), (10, 16), (10, 22), (10, 23)],
  .dates 2028 [(3, 12), (4, 11), (4, 17), (5, 1), (5, 2), (5, 31), (8, 1), (9, 21), (9, 22), (9, 29), (9, 30),
    (10, 4), (10, 5), (10, 11), (10, 12)],
  .dates 2029 [(3, 1), (3, 31), (4, 6), (4, 18), (4, 19), (5, 20), (7, 22), (9, 10), (9, 11), (9, 18), (9, 19),
    (9, 23), (9, 24), (9, 30), (10, 1)],
  .dates 2030 [(3, 19), (4, 18), (4, 24), (5, 7), (5, 8), (6, 7), (8, 8), (9, 28), (9, 29), (10, 6), (10, 7),
    (10, 11), (10, 12), (10, 18), (10, 19)],
  .dates 2031 [(3, 9), (4, 8), (4, 14), (4, 28), (4, 29), (5, 28), (7, 29), (9, 18), (9, 19), (9, 26), (9, 27),
    (10, 1), (10, 2), (10, 8), (10, 9)],
  .dates 2032 [(2, 26), (3, 27), (4, 2), (4, 14), (4, 15), (5, 16), (7, 18), (9, 6), (9, 7), (9, 14), (9, 15),
    (9, 19), (9, 20), (9, 26), (9, 27)],
  .dates 2033 [(3, 15), (4, 14), (4, 20), (5, 3), (5, 4), (6, 3), (8, 4), (9, 24), (9, 25), (10, 2), (10, 3),
    (10, 7), (10, 8), (10, 14), (10, 15)],
  .dates 2034 [(3, 5), (4, 4), (4, 10), (4, 24), (4, 25), (5, 24), (7, 25), (9, 14), (9, 15), (9, 22), (9, 23),
    (9, 27), (9, 28), (10, 4), (10, 5)],
  .dates 2035 [(3, 25), (4, 24), (4, 30), (5, 14), (5, 15), (6, 13), (8, 14), (10, 4), (10, 5), (10, 12),
    (10, 13), (10, 17), (10, 18), (10, 24), (10, 25)],
  .dates 2036 [(3, 13), (4, 12), (4, 18), (4, 30), (5, 1), (6, 1), (8, 3), (9, 22), (9, 23), (9, 30), (10, 1),
    (10, 5), (10, 6), (10, 12), (10, 13)],
  .dates 2037 [(3, 1), (3, 31), (4, 6), (4, 20), (4, 21), (5, 20), (7, 21), (9, 10), (9, 11), (9, 18), (9, 19),
    (9, 23), (9, 24), (9, 30), (10, 1)],
  .dates 2038 [(3, 21), (4, 20), (4, 26), (5, 9), (5, 10), (6, 9), (8, 10), (9, 30), (10, 1), (10, 8), (10, 9),
    (10, 13), (10, 14), (10, 20), (10, 21)],
  .dates 2039 [(3, 10), (4, 9), (4, 15), (4, 27), (4, 28), (5, 29), (7, 31), (9, 19), (9, 20), (9, 27), (9, 28),
    (10, 2), (10, 3), (10, 9), (10, 10)],
  .dates 2040 [(2, 28), (3, 29), (4, 4), (4, 17), (4, 18), (5, 18), (7, 19), (9, 8), (9, 9), (9, 16), (9, 17),
    (9, 21), (9, 22), (9, 28), (9, 29)],
  .dates 2041 [(3, 17), (4, 16), (4, 22), (5, 6), (5, 7), (6, 5), (8, 6), (9, 26), (9, 27), (10, 4), (10, 5),
    (10, 9), (10, 10), (10, 16), (10, 17)],
  .dates 2042 [(3, 6), (4, 5), (4, 11), (4, 23), (4, 24), (5, 25), (7, 27), (9, 15), (9, 16), (9, 23), (9, 24),
    (9, 28), (9, 29), (10, 5), (10, 6)],
  .dates 2043 [(3, 26), (4, 25), (5, 1), (5, 13), (5, 14), (6, 14), (8, 16), (10, 5), (10, 6), (10, 13), (10, 14),
    (10, 18), (10, 19), (10, 25), (10, 26)],
  .dates 2044 [(3, 13), (4, 12), (4, 18), (5, 2), (5, 3), (6, 1), (8, 2), (9, 22), (9, 23), (9, 30), (10, 1),
    (10, 5), (10, 6), (10, 12), (10, 13)]]

/-- Single closings of `singapore.rs`. -/
def singapore : List Holiday := [
  .dates 2004 [(1, 22), (1, 23), (2, 1), (2, 2), (6, 2), (11, 11), (11, 14), (11, 15)],
  .dates 2005 [(1, 21), (2, 9), (2, 10), (5, 22), (11, 1), (11, 3)],
  .dates 2006 [(1, 10), (1, 30), (1, 31), (5, 12), (10, 24)],
  .dates 2007 [(1, 2), (2, 19), (2, 20), (5, 31), (10, 13), (11, 8), (12, 20)],
  .dates 2008 [(2, 7), (2, 8), (5, 18), (10, 1), (10, 28), (12, 8)],
  .dates 2009 [(1, 26), (1, 27), (5, 9), (9, 21), (11, 16), (11, 27)],
  .dates 2010 [(1, 15), (1, 16), (5, 28), (9, 10), (11, 5), (11, 17)],
  .dates 2012 [(1, 23), (1, 24), (5, 5), (8, 20), (10, 26), (11, 13)],
  .dates 2013 [(2, 11), (2, 12), (5, 24), (8, 8), (10, 15), (11, 2)],
  .dates 2014 [(1, 31), (2, 1), (5, 13), (7, 28), (10, 6), (10, 23)],
  .dates 2019 [(2, 5), (2, 6), (5, 20), (6, 5), (8, 12), (10, 28)],
  .dates 2020 [(1, 27), (5, 7), (5, 25), (7, 31), (11, 14)],
  .dates 2021 [(2, 12), (5, 13), (5, 26), (7, 20), (11, 4)],
  .dates 2022 [(2, 1), (2, 2), (5, 2), (5, 3), (5, 16), (7, 11), (10, 24), (12, 26)],
  .dates 2023 [(1, 23), (1, 24), (4, 22), (6, 2), (6, 29), (11, 13)]]

/-- Single closings of `southkorea.rs`. -/
def southKorea : List Holiday := [
  .dates 2004 [(1, 21), (1, 22), (1, 23), (4, 15), (5, 26), (9, 27), (9, 28), (9, 29)],
  .dates 2005 [(2, 8), (2, 9), (2, 10), (5, 15), (9, 17), (9, 18), (9, 19)],
  .dates 2006 [(1, 28), (1, 29), (1, 30), (5, 31), (10, 5), (10, 6), (10, 7)],
  .dates 2007 [(2, 19), (5, 24), (9, 24), (9, 25), (9, 26), (12, 19)],
  .dates 2008 [(2, 6), (2, 7), (2, 8), (4, 9), (5, 12), (9, 13), (9, 14), (9, 15)],
  .dates 2009 [(1, 25), (1, 26), (1, 27), (5, 2), (10, 2), (10, 4)],
  .dates 2010 [(2, 13), (2, 14), (2, 15), (5, 21), (6, 2), (9, 21), (9, 22), (9, 23)],
  .dates 2011 [(2, 2), (2, 3), (2, 4), (5, 10), (9, 12), (9, 13)],
  .dates 2012 [(1, 23), (1, 24), (4, 11), (5, 28), (10, 1), (12, 19)],
  .dates 2013 [(2, 11), (5, 17), (9, 18), (9, 19), (9, 20)],
  .dates 2014 [(1, 30), (1, 31), (5, 6), (6, 4), (9, 8), (9, 9), (9, 10)],
  .dates 2015 [(2, 18), (2, 19), (2, 20), (5, 25), (8, 14), (9, 28), (9, 29)],
  .dates 2016 [(2, 7), (2, 8), (2, 9), (2, 10), (4, 13), (5, 14), (9, 14), (9, 15), (9, 16)],
  .dates 2017 [(1, 27), (1, 28), (1, 29), (1, 30), (5, 3), (5, 9), (10, 4), (10, 5), (10, 6)],
  .dates 2018 [(2, 15), (2, 16), (2, 17), (5, 22), (6, 13), (9, 23), (9, 24), (9, 25), (9, 26)],
  .dates 2019 [(2, 4), (2, 5), (2, 6), (5, 12), (9, 12), (9, 13), (9, 14)],
  .dates 2020 [(1, 24), (1, 25), (1, 26), (1, 27), (4, 15), (4, 30), (8, 17), (9, 30), (10, 1), (10, 2)],
  .dates 2021 [(2, 11), (2, 12), (2, 13), (5, 19), (9, 20), (9, 21), (9, 22)],
  .dates 2022 [(1, 31), (2, 1), (2, 2), (3, 9), (5, 8), (6, 1), (9, 9), (9, 10), (9, 11), (9, 12)],
  .dates 2023 [(1, 23), (1, 24), (5, 29), (9, 28), (9, 29), (9, 30), (10, 2)],
  .dates 2024 [(2, 9), (2, 10), (2, 11), (2, 12), (4, 10), (5, 15), (9, 16), (9, 17), (9, 18)],
  .dates 2025 [(1, 28), (1, 29), (1, 30), (5, 6), (10, 6), (10, 7), (10, 8)],
  .dates 2026 [(2, 16), (2, 17), (2, 18), (5, 25), (9, 24), (9, 25), (9, 26)],
  .dates 2027 [(2, 8), (2, 9), (5, 13), (9, 14), (9, 15), (9, 16)],
  .dates 2028 [(1, 26), (1, 27), (1, 28), (5, 2), (10, 2), (10, 4), (10, 5)],
  .dates 2029 [(2, 12), (2, 13), (2, 14), (5, 21), (9, 21), (9, 22), (9, 23), (9, 24)],
  .dates 2030 [(2, 4), (2, 5), (5, 9), (9, 11), (9, 12), (9, 13)],
  .dates 2031 [(1, 22), (1, 23), (1, 24), (5, 28), (9, 30), (10, 1), (10, 2)],
  .dates 2032 [(2, 10), (2, 11), (2, 12), (5, 17), (9, 20), (9, 21)],
  .dates 2033 [(1, 31), (2, 1), (2, 2), (5, 6), (9, 7), (9, 8), (9, 9)],
  .dates 2034 [(2, 20), (2, 21), (5, 25), (9, 26), (9, 27), (9, 28)],
  .dates 2035 [(2, 7), (2, 8), (2, 9), (5, 15), (9, 17), (9, 18)],
  .dates 2036 [(1, 28), (1, 29), (1, 30), (5, 6), (10, 4), (10, 5), (10, 6), (10, 7)],
  .dates 2037 [(2, 16), (2, 17), (5, 22), (9, 23), (9, 24), (9, 25)],
  .dates 2038 [(2, 3), (2, 4), (2, 5), (5, 11), (9, 13), (9, 14), (9, 15)],
  .dates 2039 [(1, 24), (1, 25), (1, 26), (5, 2), (10, 4), (10, 5)],
  .dates 2040 [(2, 13), (2, 14), (5, 18), (9, 20), (9, 21), (9, 22)],
  .dates 2041 [(1, 31), (2, 1), (2, 2), (5, 7), (9, 9), (9, 10), (9, 11)],
  .dates 2042 [(1, 21), (1, 22), (1, 23), (5, 26), (9, 29), (9, 30)],
  .dates 2043 [(2, 9), (2, 10), (2, 11), (5, 18), (9, 16), (9, 17), (9, 18)],
  .dates 2044 [(1, 29), (1, 30), (1, 31), (2, 1), (5, 6), (10, 4), (10, 5), (10, 6)],
  .dates 2045 [(2, 16), (2, 17), (2, 18), (5, 24), (9, 25), (9, 26), (9, 27)],
  .dates 2046 [(2, 5), (2, 6), (2, 7), (5, 14), (9, 14), (9, 15), (9, 16), (9, 17)],
  .dates 2047 [(1, 25), (1, 26), (1, 27), (1, 28), (5, 2), (10, 4), (10, 5), (10, 7)],
  .dates 2048 [(2, 13), (2, 14), (2, 15), (5, 20), (9, 21), (9, 22), (9, 23)],
  .dates 2049 [(2, 1), (2, 2), (2, 3), (5, 10), (9, 10), (9, 11), (9, 12), (9, 13)],
  .dates 2050 [(1, 24), (1, 25), (5, 30), (9, 29), (9, 30), (10, 1)]]

/-- Single closings of `taiwan.rs`. -/
def taiwan : List Holiday := [
  .dates 2002 [(2, 9), (2, 10), (2, 11), (2, 12), (2, 13), (2, 14), (2, 15), (2, 16), (2, 17)],
  .dates 2003 [(1, 31), (2, 1), (2, 2), (2, 3), (2, 4), (2, 5), (6, 4), (9, 11)],
  .dates 2004 [(1, 21), (1, 22), (1, 23), (1, 24), (1, 25), (1, 26), (6, 22), (9, 28)],
  .dates 2005 [(2, 6), (2, 7), (2, 8), (2, 9), (2, 10), (2, 11), (2, 12), (2, 13), (5, 2)],
  .dates 2006 [(1, 28), (1, 29), (1, 30), (1, 31), (2, 1), (2, 2), (2, 3), (2, 4), (2, 5), (5, 31), (10, 6)],
  .dates 2007 [(2, 17), (2, 18), (2, 19), (2, 20), (2, 21), (2, 22), (2, 23), (2, 24), (2, 25), (4, 6), (6, 18),
    (6, 19), (9, 24), (9, 25)],
  .dates 2008 [(2, 4), (2, 5), (2, 6), (2, 7), (2, 8), (2, 9), (2, 10), (2, 11), (4, 4)],
  .dates 2009 [(1, 2), (1, 24), (1, 25), (1, 26), (1, 27), (1, 28), (1, 29), (1, 30), (1, 31), (4, 4), (5, 28),
    (5, 29), (10, 3)],
  .dates 2010 [(1, 13), (1, 14), (1, 15), (1, 16), (1, 17), (1, 18), (1, 19), (1, 20), (1, 21), (5, 16), (9, 22)],
  .dates 2011 [(2, 2), (2, 3), (2, 4), (2, 5), (2, 6), (2, 7), (4, 4), (5, 2), (6, 6), (9, 12)],
  .dates 2012 [(1, 23), (1, 24), (1, 25), (1, 26), (1, 27), (2, 27), (4, 4), (6, 23), (9, 30), (12, 31)],
  .dates 2013 [(2, 10), (2, 11), (2, 12), (2, 13), (2, 14), (2, 15), (4, 4), (6, 12), (9, 19), (9, 20)],
  .dates 2014 [(1, 28), (1, 29), (1, 30), (1, 31), (2, 1), (2, 2), (2, 3), (2, 4), (4, 4), (6, 2), (9, 8)],
  .dates 2015 [(1, 2), (2, 18), (2, 19), (2, 20), (2, 21), (2, 22), (2, 23), (2, 27), (4, 3), (4, 6), (6, 19),
    (9, 28), (10, 9)],
  .dates 2016 [(2, 8), (2, 9), (2, 10), (2, 11), (2, 12), (2, 29), (4, 4), (5, 2), (6, 9), (6, 10), (9, 15),
    (9, 16)],
  .dates 2017 [(1, 2), (1, 27), (1, 28), (1, 29), (1, 30), (1, 31), (2, 1), (2, 27), (4, 3), (4, 4), (5, 29),
    (5, 30), (10, 4), (10, 9)],
  .dates 2018 [(2, 15), (2, 16), (2, 17), (2, 18), (2, 19), (2, 20), (4, 4), (4, 6), (6, 18), (9, 24), (12, 31)],
  .dates 2019 [(2, 4), (2, 5), (2, 6), (2, 7), (2, 8), (3, 1), (4, 4), (6, 7), (9, 13), (10, 11)],
  .dates 2020 [(1, 23), (1, 24), (1, 25), (1, 26), (1, 27), (1, 28), (1, 29), (4, 2), (4, 3), (6, 25), (6, 26),
    (10, 1), (10, 2), (10, 9)],
  .dates 2021 [(2, 10), (2, 11), (2, 12), (2, 13), (2, 14), (2, 15), (2, 16), (3, 1), (4, 2), (4, 30), (6, 14),
    (9, 20), (9, 21), (10, 11), (12, 31)],
  .dates 2022 [(1, 31), (2, 1), (2, 2), (2, 3), (2, 4), (4, 4), (5, 2), (6, 3), (9, 9)],
  .dates 2023 [(1, 2), (1, 20), (1, 21), (1, 22), (1, 23), (1, 24), (1, 25), (1, 26), (1, 27), (2, 27), (4, 3),
    (4, 4), (6, 22), (6, 23), (9, 29), (10, 9)],
  .dates 2024 [(2, 8), (2, 9), (2, 10), (2, 11), (2, 12), (2, 13), (2, 14), (4, 4), (6, 10), (9, 17)]]

/-- Single closings of `thailand.rs`. -/
def thailand : List Holiday := [
  .dates 2000 [(2, 21), (5, 5), (5, 17), (7, 17), (10, 23)],
  .dates 2001 [(2, 8), (5, 7), (5, 8), (7, 6), (10, 23)],
  .dates 2005 [(2, 23), (5, 5), (5, 23), (7, 1), (7, 22), (10, 24)],
  .dates 2006 [(2, 13), (4, 19), (5, 5), (5, 12), (6, 12), (6, 13), (7, 11), (10, 23)],
  .dates 2007 [(3, 5), (5, 7), (5, 31), (7, 30), (10, 23), (12, 24)],
  .dates 2008 [(2, 21), (5, 5), (5, 19), (7, 1), (7, 17), (10, 23)],
  .dates 2009 [(1, 2), (2, 9), (5, 5), (5, 8), (7, 1), (7, 6), (7, 7), (10, 23)],
  .dates 2010 [(3, 1), (5, 5), (5, 20), (5, 21), (5, 28), (7, 1), (7, 26), (8, 13), (10, 25)],
  .dates 2011 [(2, 18), (5, 5), (5, 16), (5, 17), (7, 1), (7, 15), (10, 24)],
  .dates 2012 [(1, 3), (3, 7), (4, 9), (5, 7), (6, 4), (8, 2), (10, 23)],
  .dates 2013 [(2, 25), (5, 6), (5, 24), (7, 1), (7, 22), (10, 23), (12, 30)],
  .dates 2014 [(2, 14), (5, 5), (5, 13), (7, 1), (7, 11), (8, 11), (10, 23)],
  .dates 2015 [(1, 2), (3, 4), (5, 4), (5, 5), (6, 1), (7, 1), (7, 30), (10, 23)],
  .dates 2016 [(2, 22), (5, 5), (5, 6), (5, 20), (7, 1), (7, 18), (7, 19), (10, 24)],
  .dates 2017 [(2, 13), (5, 10), (7, 10), (10, 23), (10, 26)],
  .dates 2018 [(3, 1), (5, 29), (7, 27), (10, 23)]]

/-- Single closings of `turkey.rs`. -/
def turkey : List Holiday := [
  .dates 2004 [(2, 1), (2, 2), (2, 3), (2, 4), (11, 14), (11, 15), (11, 16)],
  .dates 2005 [(1, 19), (1, 20), (1, 21), (11, 2), (11, 3), (11, 4), (11, 5)],
  .dates 2006 [(1, 10), (1, 11), (1, 12), (1, 13), (10, 23), (10, 24), (10, 25), (12, 31)],
  .dates 2007 [(1, 2), (1, 3), (10, 12), (10, 13), (10, 14), (12, 20), (12, 21), (12, 22), (12, 23)],
  .dates 2008 [(9, 30), (10, 1), (10, 2), (12, 8), (12, 9), (12, 10), (12, 11)],
  .dates 2009 [(9, 20), (9, 21), (9, 22), (11, 27), (11, 28), (11, 29), (11, 30)],
  .dates 2010 [(9, 9), (9, 10), (9, 11), (11, 16), (11, 17), (11, 18), (11, 19)],
  .dates 2011 [(10, 1), (11, 9), (11, 10), (11, 11), (11, 12), (11, 13)],
  .dates 2012 [(8, 18), (8, 19), (8, 20), (8, 21), (10, 24), (10, 25), (10, 26), (10, 27), (10, 28)],
  .dates 2013 [(8, 7), (8, 8), (8, 9), (8, 10), (10, 14), (10, 15), (10, 16), (10, 17), (10, 18), (10, 28)],
  .dates 2014 [(7, 27), (7, 28), (7, 29), (7, 30), (10, 4), (10, 5), (10, 6), (10, 7)],
  .dates 2015 [(7, 17), (7, 18), (7, 19), (10, 24), (10, 25), (10, 26), (10, 27)],
  .dates 2016 [(7, 5), (7, 6), (7, 7), (9, 12), (9, 13), (9, 14), (9, 15)],
  .dates 2017 [(6, 25), (6, 26), (6, 27), (9, 1), (9, 2), (9, 3), (9, 4)],
  .dates 2018 [(6, 15), (6, 16), (6, 17), (8, 21), (8, 22), (8, 23), (8, 24)],
  .dates 2019 [(6, 4), (6, 5), (6, 6), (8, 11), (8, 12), (8, 13), (8, 14)],
  .dates 2020 [(5, 24), (5, 25), (5, 26), (7, 31), (8, 1), (8, 2), (8, 3)],
  .dates 2021 [(5, 13), (5, 14), (5, 15), (7, 20), (7, 21), (7, 22), (7, 23)],
  .dates 2022 [(5, 2), (5, 3), (5, 4), (7, 9), (7, 10), (7, 11), (7, 12)],
  .dates 2023 [(4, 21), (4, 22), (6, 28), (6, 29), (6, 30)],
  .dates 2024 [(4, 10), (4, 11), (4, 12), (6, 17), (6, 18), (6, 19)],
  .dates 2025 [(3, 31), (4, 1), (4, 2), (6, 6), (6, 7), (6, 8), (6, 9)],
  .dates 2026 [(3, 20), (3, 21), (3, 22), (5, 26), (5, 27), (5, 28), (5, 29)],
  .dates 2027 [(3, 10), (3, 11), (3, 12), (5, 16), (5, 17), (5, 18)],
  .dates 2028 [(2, 27), (2, 28), (2, 29), (5, 4), (5, 5), (5, 6), (5, 7)],
  .dates 2029 [(2, 15), (2, 16), (2, 17), (4, 24), (4, 25), (4, 26)],
  .dates 2030 [(2, 5), (2, 6), (2, 7), (4, 13), (4, 14), (4, 15), (4, 16)],
  .dates 2031 [(1, 25), (1, 26), (1, 27), (4, 2), (4, 3), (4, 4), (4, 5)],
  .dates 2032 [(1, 14), (1, 15), (1, 16), (3, 21), (3, 22), (3, 23), (3, 24)],
  .dates 2033 [(1, 3), (1, 4), (1, 5), (3, 11), (3, 12), (3, 13), (3, 14), (12, 23)],
  .dates 2034 [(2, 28), (3, 1), (3, 2), (3, 3), (12, 12), (12, 13), (12, 14)]]

/-- Single closings of `newzealand.rs`. -/
def newZealand : List Holiday := [
  .dates 2022 [(6, 24)],
  .dates 2023 [(7, 14)],
  .dates 2024 [(6, 28)],
  .dates 2025 [(6, 20)],
  .dates 2026 [(7, 10)],
  .dates 2027 [(6, 25)],
  .dates 2028 [(7, 14)],
  .dates 2029 [(7, 6)],
  .dates 2030 [(6, 21)],
  .dates 2031 [(7, 11)],
  .dates 2032 [(7, 2)],
  .dates 2033 [(6, 24)],
  .dates 2034 [(7, 7)],
  .dates 2035 [(6, 29)],
  .dates 2036 [(7, 18)],
  .dates 2037 [(7, 10)],
  .dates 2038 [(6, 25)],
  .dates 2039 [(7, 15)],
  .dates 2040 [(7, 6)],
  .dates 2041 [(7, 19)],
  .dates 2042 [(7, 11)],
  .dates 2043 [(7, 3)],
  .dates 2044 [(6, 24)],
  .dates 2045 [(7, 7)],
  .dates 2046 [(6, 29)],
  .dates 2047 [(7, 19)],
  .dates 2048 [(7, 3)],
  .dates 2049 [(6, 25)],
  .dates 2050 [(7, 15)],
  .dates 2051 [(6, 30)],
  .dates 2052 [(6, 21)]]

end Qlab.Spec.Closings
