import Verif.Spec.HolidayTables

/-!
# Recurring holidays by month, and the first and the last shared business day of every month

Tables found by a search; the checks of `Verif.Lemmas.CommonDays` verify them, so nothing depends on how they were found.
-/

namespace Qlab

open Spec

/-- The recurring holidays of all the shipped calendars that can fall in month `m`, each once. -/
def recurring : Nat → List Holiday
  | 1 => [
    .on 1 1, .easter (-3), .easter (-2), .moved 1 1 [.Sun] 1, .moved 1 1 [.Sun] 2, .easter 1, .easter 39,
    .since 2017 (.moved 1 1 [.Sun] 1), .easter (-1), .since 2016 (.easter (-2)), .till 2023 (.easter 26),
    .since 2009 (.easter 40), .easter 50, .on 1 6, .since 2017 (.easter (-2)), .on 1 26, .on 1 2, .on 1 3,
    .since 2000 (.nth 2 .Mon 1), .till 1999 (.on 1 15), .till 1999 (.moved 1 15 [.Sun] 1), .moved 1 1 [.Sat, .Sun] 2,
    .moved 1 2 [.Sat, .Sun] 2, .firstFrom .Mon 1 19, .easter 60, .since 2011 (.on 1 6), .on 1 24, .orthodoxEaster 1,
    .orthodoxEaster 50, .till 2004 (.easter 50), .since 2000 (.easter (-2)), .since 2000 (.easter 1),
    .moved 1 1 [.Sat] 2, .on 1 7, .moved 1 7 [.Sat] 2, .moved 1 7 [.Sun] 1, .moved 1 26 [.Sat] 2,
    .moved 1 26 [.Sun] 1, .easter (-48), .easter (-47), .on 1 25, .till 2005 (.span 1 1 2),
    .since 2005 (.span 1 1 5), .since 1983 (.nth 3 .Mon 1), .since 1998 (.nth 3 .Mon 1), .weekly .Wed 1968 6 12,
    .except [2015, 2021, 2023] (.easter (-2))]
  | 2 => [
    .easter (-3), .easter (-2), .easter 1, .easter 39, .easter (-1), .since 2016 (.easter (-2)),
    .till 2023 (.easter 26), .since 2009 (.easter 40), .easter 50, .since 2017 (.easter (-2)), .on 2 11,
    .moved 2 11 [.Sun] 1, .since 2020 (.on 2 23), .since 2020 (.moved 2 23 [.Sun] 1), .till 2005 (.on 2 5),
    .since 2006 (.nth 1 .Mon 2), .on 2 6, .since 2014 (.moved 2 6 [.Sat] 2), .since 2014 (.moved 2 6 [.Sun] 1),
    .easter 60, .orthodoxEaster 1, .orthodoxEaster 50, .till 2004 (.easter 50), .on 2 28, .since 2000 (.easter (-2)),
    .since 2000 (.easter 1), .easter (-48), .easter (-47), .since 2008 (.nth 3 .Mon 2), .on 2 23,
    .moved 2 23 [.Sat] 2, .moved 2 23 [.Sun] 1, .till 1970 (.on 2 22), .till 1970 (.moved 2 22 [.Sat] (-1)),
    .till 1970 (.moved 2 22 [.Sun] 1), .since 1971 (.nth 3 .Mon 2), .weekly .Wed 1968 6 12,
    .except [2015, 2021, 2023] (.easter (-2))]
  | 3 => [
    .easter (-3), .easter (-2), .easter 1, .easter 39, .easter (-1), .since 2016 (.easter (-2)),
    .till 2023 (.easter 26), .since 2009 (.easter 40), .easter 50, .since 2017 (.easter (-2)), .on 3 15,
    .only [2014, 2015, 2018, 2019, 2022, 2023, 2027] (.on 3 21),
    .only [2014, 2015, 2018, 2019, 2022, 2023, 2027] (.moved 3 21 [.Sun] 1),
    .except [2014, 2015, 2018, 2019, 2022, 2023, 2027] (.on 3 20),
    .except [2014, 2015, 2018, 2019, 2022, 2023, 2027] (.moved 3 20 [.Sun] 1), .till 2005 (.on 3 21),
    .since 2006 (.nth 3 .Mon 3), .easter 60, .orthodoxEaster 1, .orthodoxEaster 50, .on 3 21, .moved 3 21 [.Sun] 1,
    .on 3 1, .since 2022 (.moved 3 1 [.Sat] 2), .since 2022 (.moved 3 1 [.Sun] 1), .till 2004 (.easter 50),
    .since 2000 (.easter (-2)), .since 2000 (.easter 1), .on 3 8, .moved 3 8 [.Sat] 2, .moved 3 8 [.Sun] 1,
    .easter (-48), .easter (-47), .weekly .Wed 1968 6 12, .except [2015, 2021, 2023] (.easter (-2))]
  | 4 => [
    .easter (-3), .easter (-2), .easter 1, .easter 39, .easter (-1), .till 2008 (.on 4 4),
    .since 2016 (.easter (-2)), .till 2023 (.easter 26), .since 2009 (.easter 40), .easter 50,
    .since 2017 (.easter (-2)), .firstFrom .Thu 4 19, .on 4 14, .on 4 29, .moved 4 29 [.Sun] 1, .on 4 25,
    .since 2014 (.moved 4 25 [.Sat] 2), .since 2014 (.moved 4 25 [.Sun] 1), .easter 60, .orthodoxEaster 1,
    .orthodoxEaster 50, .on 4 27, .moved 4 27 [.Sun] 1, .till 2005 (.on 4 5), .till 2004 (.easter 50),
    .except [2008, 2009, 2012, 2017] (.on 4 5), .since 2000 (.easter (-2)), .since 2000 (.easter 1), .on 4 6,
    .moved 4 6 [.Sat] 2, .moved 4 6 [.Sun] 1, .span 4 13 15, .moved 4 14 [.Sun] 2, .moved 4 15 [.Sun] 1, .on 4 23,
    .on 4 21, .easter (-48), .easter (-47), .weekly .Wed 1968 6 12, .except [2015, 2021, 2023] (.easter (-2))]
  | 5 => [
    .easter (-3), .easter (-2), .on 5 1, .on 5 25, .easter 1, .easter 39, .moved 5 1 [.Sun] 1, .easter (-1),
    .on 5 21, .till 2007 (.span 5 1 7), .since 2016 (.easter (-2)), .on 5 8, .till 2023 (.easter 26),
    .since 2009 (.easter 40), .easter 50, .since 2017 (.easter (-2)), .on 5 3, .on 5 4, .on 5 5, .moved 5 3 [.Sun] 3,
    .moved 5 4 [.Sun] 2, .moved 5 5 [.Sun] 1, .on 5 17, .easter 60, .orthodoxEaster 1, .orthodoxEaster 50,
    .since 2014 (.moved 5 5 [.Sat] 2), .since 2014 (.moved 5 5 [.Sun] 1), .till 2004 (.easter 50),
    .since 2000 (.easter (-2)), .since 2000 (.easter 1), .since 2000 (.on 5 1), .moved 5 1 [.Sat] 2, .on 5 19,
    .on 5 2, .moved 5 2 [.Sun] 1, .on 5 9, .moved 5 9 [.Sat] 2, .moved 5 9 [.Sun] 1, .easter (-48), .easter (-47),
    .firstFrom .Mon 5 18, .on 5 10, .except [1995, 2020] (.nth 1 .Mon 5), .only [1995, 2020] (.on 5 8),
    .except [2002, 2012, 2022] (.last .Mon 5), .till 1970 (.on 5 30), .till 1970 (.moved 5 30 [.Sat] (-1)),
    .till 1970 (.moved 5 30 [.Sun] 1), .since 1971 (.last .Mon 5), .weekly .Wed 1968 6 12,
    .except [2015, 2021, 2023] (.easter (-2))]
  | 6 => [
    .easter (-3), .easter (-2), .nth 3 .Mon 6, .easter 1, .easter 39, .easter (-1), .since 2021 (.on 6 21),
    .moved 6 29 [.Mon] 0, .moved 6 29 [.Tue] (-1), .moved 6 29 [.Wed] (-2), .moved 6 29 [.Thu] (-3),
    .till 2008 (.on 6 9), .since 2016 (.easter (-2)), .till 2023 (.easter 26), .since 2009 (.easter 40), .easter 50,
    .on 6 5, .firstFrom .Fri 6 19, .since 2017 (.easter (-2)), .on 6 17, .nth 1 .Mon 6, .easter 60,
    .orthodoxEaster 1, .orthodoxEaster 50, .since 2017 (.on 6 1), .on 6 16, .moved 6 16 [.Sun] 1, .on 6 6,
    .till 2004 (.easter 50), .since 2005 (.on 6 6), .since 2000 (.easter (-2)), .since 2000 (.easter 1), .on 6 28,
    .nth 2 .Mon 6, .easter (-48), .easter (-47), .since 2000 (.on 6 2), .on 6 12, .moved 6 12 [.Sat] 2,
    .moved 6 12 [.Sun] 1, .since 2022 (.on 6 19), .since 2022 (.moved 6 19 [.Sat] (-1)),
    .since 2022 (.moved 6 19 [.Sun] 1), .weekly .Wed 1968 6 12, .except [2015, 2021, 2023] (.easter (-2))]
  | 7 => [
    .easter (-3), .easter (-2), .on 7 9, .easter 1, .easter 39, .on 7 1, .moved 7 1 [.Sun] 1, .nth 3 .Mon 7,
    .easter (-1), .moved 6 29 [.Fri] 3, .on 7 16, .since 2016 (.easter (-2)), .on 7 5, .on 7 6,
    .till 2023 (.easter 26), .since 2009 (.easter 40), .easter 50, .since 2017 (.easter (-2)),
    .since 2003 (.till 2019 (.nth 3 .Mon 7)), .since 2022 (.nth 3 .Mon 7), .since 1996 (.till 2002 (.on 7 20)),
    .since 1996 (.till 2002 (.moved 7 20 [.Sun] 1)), .easter 60, .orthodoxEaster 1, .orthodoxEaster 50,
    .till 2007 (.on 7 17), .till 2004 (.easter 50), .since 2000 (.easter (-2)), .since 2000 (.easter 1),
    .since 2017 (.on 7 28), .since 2017 (.moved 7 28 [.Sat] 2), .since 2017 (.moved 7 28 [.Sun] 1),
    .since 2017 (.on 7 15), .easter (-48), .easter (-47), .moved 7 1 [.Sat] 2, .on 7 14, .on 7 4,
    .moved 7 4 [.Sat] (-1), .moved 7 4 [.Sun] 1, .till 2014 (.on 7 4), .till 2014 (.moved 7 4 [.Sat] (-1)),
    .till 2014 (.moved 7 4 [.Sun] 1), .weekly .Wed 1968 6 12, .except [2015, 2021, 2023] (.easter (-2))]
  | 8 => [
    .easter (-3), .easter (-2), .nth 3 .Mon 8, .easter 1, .easter 39, .easter (-1), .on 8 15,
    .since 2016 (.easter (-2)), .till 2023 (.easter 26), .since 2009 (.easter 40), .easter 50,
    .since 2017 (.easter (-2)), .on 8 20, .nth 1 .Mon 8, .on 8 17, .since 2016 (.till 2019 (.on 8 11)),
    .since 2016 (.till 2019 (.moved 8 11 [.Sun] 1)), .since 2022 (.on 8 11), .since 2022 (.moved 8 11 [.Sun] 1),
    .easter 60, .orthodoxEaster 1, .orthodoxEaster 50, .on 8 9, .moved 8 9 [.Sun] 1, .on 8 29,
    .since 2021 (.moved 8 15 [.Sat] 2), .since 2021 (.moved 8 15 [.Sun] 1), .till 2004 (.easter 50), .on 8 1,
    .since 2000 (.easter (-2)), .since 2000 (.easter 1), .on 8 12, .moved 8 12 [.Sat] 2, .moved 8 12 [.Sun] 1,
    .on 8 30, .on 8 24, .easter (-48), .easter (-47), .last .Mon 8, .weekly .Wed 1968 6 12,
    .except [2015, 2021, 2023] (.easter (-2))]
  | 9 => [
    .easter (-3), .easter (-2), .easter 1, .easter 39, .on 9 30, .easter (-1), .since 2007 (.moved 9 18 [.Tue] (-1)),
    .since 2017 (.moved 9 18 [.Sat] (-1)), .on 9 18, .on 9 19, .since 2007 (.moved 9 19 [.Thu] 1),
    .till 2008 (.on 9 15), .since 2016 (.easter (-2)), .on 9 28, .till 2023 (.easter 26), .since 2009 (.easter 40),
    .easter 50, .since 2017 (.easter (-2)), .since 2003 (.nth 3 .Mon 9), .till 2002 (.on 9 15),
    .till 2002 (.moved 9 15 [.Sun] 1), .since   2003   (.except [2020, 2024, 2028] (.moved 9 22 [.Tue] 0)),
    .only [2020, 2024, 2028] (.moved 9 21 [.Tue] 0), .only [2020, 2024, 2028] (.on 9 22),
    .only [2020, 2024, 2028] (.moved 9 22 [.Sun] 1), .except [2020, 2024, 2028] (.on 9 23),
    .except [2020, 2024, 2028] (.moved 9 23 [.Sun] 1), .on 9 16, .easter 60, .orthodoxEaster 1, .orthodoxEaster 50,
    .on 9 1, .on 9 15, .on 9 24, .moved 9 24 [.Sun] 1, .till 2004 (.easter 50), .since 2000 (.easter (-2)),
    .since 2000 (.easter 1), .on 9 7, .easter (-48), .easter (-47), .nth 1 .Mon 9, .since 2021 (.on 9 30),
    .weekly .Wed 1968 6 12, .except [2015, 2021, 2023] (.easter (-2))]
  | 10 => [
    .easter (-3), .easter (-2), .moved 10 12 [.Mon] 0, .moved 10 12 [.Tue] (-1), .moved 10 12 [.Wed] (-2),
    .moved 10 12 [.Thu] 4, .moved 10 12 [.Fri] 3, .easter 1, .easter 39, .moved 9 30 [.Sun] 1, .on 10 1,
    .moved 10 1 [.Sun] 1, .moved 10 1 [.Sun] 2, .easter (-1), .moved 10 12 [.Thu] (-3),
    .since   2008   (.moved     10     31     [.Mon, .Thu, .Fri, .Sat, .Sun]     0),
    .since 2008 (.moved 10 31 [.Tue] (-4)), .till 2007 (.span 10 1 7), .since 2016 (.easter (-2)), .on 10 28,
    .till 2023 (.easter 26), .since 2009 (.easter 40), .easter 50, .since 2017 (.easter (-2)), .on 10 23, .on 10 2,
    .since 2000 (.till 2019 (.nth 2 .Mon 10)), .since 2022 (.nth 2 .Mon 10), .till 1999 (.on 10 10),
    .till 1999 (.moved 10 10 [.Sun] 1), .nth 4 .Mon 10, .easter 60, .orthodoxEaster 1, .orthodoxEaster 50, .on 10 3,
    .since 2021 (.moved 10 3 [.Sat] 2), .since 2021 (.moved 10 3 [.Sun] 1), .since 2013 (.on 10 9),
    .since 2021 (.moved 10 9 [.Sat] 2), .since 2021 (.moved 10 9 [.Sun] 1), .till 2004 (.easter 50), .on 10 10,
    .since 2000 (.easter (-2)), .since 2000 (.easter 1), .since 2017 (.on 10 13),
    .since 2017 (.moved 10 13 [.Sat] 2), .since 2017 (.moved 10 13 [.Sun] 1), .on 10 29, .since 2015 (.on 10 14),
    .nth 1 .Mon 10, .since 1967 (.on 10 26), .on 10 12, .easter (-48), .easter (-47),
    .since 2021 (.moved 9 30 [.Sat] 2), .since 2021 (.moved 9 30 [.Sun] 1), .nth 2 .Mon 10,
    .since 1971 (.nth 2 .Mon 10), .since 1971 (.till 1977 (.nth 4 .Mon 10)), .weekly .Wed 1968 6 12,
    .except [2015, 2021, 2023] (.easter (-2))]
  | 11 => [
    .easter (-3), .easter (-2), .easter 1, .easter 39, .easter (-1), .since 2008 (.moved 10 31 [.Wed] 2), .on 11 1,
    .since 2016 (.easter (-2)), .on 11 17, .till 2023 (.easter 26), .since 2009 (.easter 40), .easter 50,
    .since 2017 (.easter (-2)), .on 11 3, .moved 11 3 [.Sun] 1, .on 11 23, .moved 11 23 [.Sun] 1, .on 11 2,
    .till 2005 (.on 11 20), .since 2006 (.nth 3 .Mon 11), .easter 60, .on 11 11, .orthodoxEaster 1,
    .orthodoxEaster 50, .on 11 30, .till 2004 (.easter 50), .since 2000 (.easter (-2)), .since 2000 (.easter 1),
    .since 1919 (.till 1934 (.on 11 12)), .on 11 15, .easter (-48), .easter (-47), .since 2007 (.on 11 20),
    .moved 11 11 [.Sat] 2, .moved 11 11 [.Sun] 1, .on 11 4, .moved 11 4 [.Sat] 2, .moved 11 4 [.Sun] 1,
    .till 1970 (.on 11 11), .till 1970 (.moved 11 11 [.Sat] (-1)), .till 1970 (.moved 11 11 [.Sun] 1),
    .since 1978 (.on 11 11), .since 1978 (.moved 11 11 [.Sat] (-1)), .since 1978 (.moved 11 11 [.Sun] 1),
    .nth 4 .Thu 11, .till 1968 (.nth 1 .Tue 11), .only [1972, 1976, 1980] (.nth 1 .Tue 11), .weekly .Wed 1968 6 12,
    .except [2015, 2021, 2023] (.easter (-2))]
  | 12 => [
    .easter (-3), .easter (-2), .on 12 8, .on 12 24, .on 12 31, .moved 12 31 [.Sat] (-1), .easter 1, .easter 39,
    .on 12 25, .on 12 26, .moved 12 26 [.Sun] 1, .easter (-1), .since 2016 (.easter (-2)), .till 2023 (.easter 26),
    .since 2009 (.easter 40), .easter 50, .on 12 6, .since 2017 (.easter (-2)), .since 1989 (.till 2018 (.on 12 23)),
    .since 1989 (.till 2018 (.moved 12 23 [.Sun] 1)), .on 12 12, .moved 12 25 [.Sat, .Sun] 2,
    .moved 12 26 [.Sat, .Sun] 2, .since 2002 (.on 12 24), .easter 60, .orthodoxEaster 1, .orthodoxEaster 50,
    .on 12 1, .only [2004, 2005] (.span 12 24 31), .on 12 16, .moved 12 16 [.Sun] 1,
    .since 2023 (.moved 12 25 [.Sat] 2), .since 2023 (.moved 12 25 [.Sun] 1), .till 2004 (.easter 50),
    .since 2000 (.easter (-2)), .since 2000 (.easter 1), .since 2000 (.on 12 26),
    .only [1998, 1999, 2001] (.on 12 31), .on 12 5, .moved 12 5 [.Sat] 2, .moved 12 5 [.Sun] 1, .on 12 10,
    .moved 12 10 [.Sat] 2, .moved 12 10 [.Sun] 1, .easter (-48), .easter (-47), .moved 12 31 [.Sun] (-2),
    .moved 1 1 [.Sat] (-1), .moved 12 25 [.Sat] (-1), .moved 12 25 [.Sun] 1, .weekly .Wed 1968 6 12,
    .only [1954, 1956, 1965] (.on 12 24), .except [2015, 2021, 2023] (.easter (-2))]
  | _ => []

/-- For month `m` the first of the days found in each of the years 1901 to 2199. -/
def firstShared : Nat → List Nat
  | 1 => [
    8, 8, 5, 5, 4, 4, 8, 8, 5, 5, 4, 4, 8, 5, 5, 5, 4, 8, 8, 5, 5, 4, 4, 8, 5, 5, 5, 4, 8, 8, 5, 5, 4, 4, 8, 8, 5, 5,
    4, 4, 8, 5, 5, 5, 4, 8, 8, 5, 5, 4, 4, 8, 5, 5, 5, 4, 8, 8, 5, 5, 4, 4, 8, 8, 5, 5, 4, 4, 8, 5, 5, 5, 4, 8, 8, 5,
    5, 4, 4, 8, 5, 5, 5, 4, 8, 8, 5, 5, 4, 4, 8, 8, 5, 5, 4, 4, 8, 5, 5, 5, 4, 8, 8, 5, 11, 17, 9, 8, 13, 12, 11, 10,
    8, 8, 8, 12, 10, 9, 8, 8, 12, 11, 10, 9, 8, 8, 12, 11, 9, 8, 8, 8, 11, 10, 9, 8, 8, 12, 11, 10, 8, 8, 8, 12, 10,
    9, 8, 8, 12, 11, 10, 9, 8, 8, 12, 11, 9, 8, 8, 8, 11, 10, 9, 8, 8, 12, 11, 10, 8, 8, 8, 12, 10, 9, 8, 8, 12, 11,
    10, 9, 8, 8, 12, 11, 9, 8, 8, 8, 11, 10, 9, 8, 8, 12, 11, 10, 8, 8, 8, 12, 11, 10, 9, 8, 8, 12, 11, 10, 8, 8, 8,
    12, 10, 9, 8, 8, 12, 11, 10, 9, 8, 8, 12, 11, 9, 8, 8, 8, 11, 10, 9, 8, 8, 12, 11, 10, 8, 8, 8, 12, 10, 9, 8, 8,
    12, 11, 10, 9, 8, 8, 12, 11, 9, 8, 8, 8, 11, 10, 9, 8, 8, 12, 11, 10, 8, 8, 8, 12, 10, 9, 8, 8, 12, 11, 10, 9, 8,
    8, 12, 11, 9, 8, 8, 8, 11, 10, 9, 8, 8, 12, 11, 10, 8, 8, 8, 12, 10, 9, 8]
  | 2 => [
    4, 3, 2, 1, 1, 1, 4, 3, 1, 1, 1, 1, 10, 2, 1, 1, 1, 4, 3, 2, 1, 1, 1, 4, 2, 1, 1, 1, 4, 3, 2, 1, 1, 1, 4, 3, 1,
    1, 1, 1, 3, 2, 1, 1, 1, 4, 3, 2, 1, 1, 1, 4, 2, 1, 1, 1, 4, 3, 2, 1, 1, 1, 4, 3, 1, 1, 1, 1, 3, 2, 1, 1, 1, 4, 3,
    2, 1, 1, 1, 4, 2, 1, 1, 1, 4, 3, 2, 1, 1, 1, 4, 3, 1, 1, 1, 1, 3, 2, 1, 1, 1, 4, 10, 9, 1, 7, 1, 13, 3, 2, 1, 1,
    5, 10, 3, 2, 7, 1, 12, 4, 2, 8, 1, 1, 4, 3, 2, 1, 1, 12, 4, 3, 3, 1, 1, 5, 3, 2, 1, 1, 5, 4, 3, 2, 1, 1, 5, 4, 4,
    1, 1, 1, 4, 3, 2, 1, 1, 5, 4, 3, 1, 1, 1, 5, 3, 2, 1, 1, 5, 4, 3, 2, 1, 1, 5, 4, 2, 1, 1, 1, 4, 3, 2, 1, 1, 5, 4,
    3, 1, 1, 1, 5, 3, 2, 1, 1, 5, 4, 3, 2, 1, 1, 1, 5, 3, 2, 1, 1, 5, 4, 3, 2, 1, 1, 5, 4, 2, 1, 1, 1, 4, 3, 2, 1, 1,
    5, 4, 3, 1, 1, 1, 5, 3, 2, 1, 1, 5, 4, 3, 2, 1, 1, 5, 4, 2, 1, 1, 1, 4, 3, 2, 1, 1, 5, 4, 3, 1, 1, 1, 7, 3, 2, 1,
    1, 5, 4, 3, 2, 1, 1, 5, 4, 2, 1, 1, 1, 4, 3, 2, 1, 1, 5, 4, 3, 1, 1, 1, 5, 3, 2, 1, 1, 5, 4, 3, 2, 1, 1, 5]
  | 3 => [
    4, 3, 2, 2, 2, 5, 4, 4, 2, 2, 2, 4, 3, 2, 2, 2, 5, 4, 5, 2, 2, 2, 5, 5, 2, 2, 2, 5, 4, 5, 2, 2, 2, 5, 6, 2, 2, 2,
    2, 4, 3, 2, 2, 2, 5, 6, 3, 2, 2, 2, 5, 3, 2, 3, 2, 5, 6, 3, 2, 2, 2, 7, 4, 2, 3, 2, 2, 4, 3, 2, 2, 2, 7, 4, 3, 3,
    2, 2, 5, 3, 4, 2, 2, 7, 4, 3, 4, 2, 2, 5, 4, 4, 2, 2, 2, 4, 3, 2, 2, 2, 5, 4, 5, 2, 2, 2, 6, 3, 2, 2, 3, 5, 4, 5,
    2, 2, 2, 5, 6, 2, 2, 2, 2, 4, 5, 4, 2, 2, 5, 6, 4, 2, 2, 6, 5, 4, 3, 2, 2, 5, 6, 4, 3, 2, 2, 5, 4, 3, 3, 2, 2, 6,
    4, 3, 3, 2, 7, 4, 4, 3, 2, 2, 5, 4, 3, 2, 2, 7, 4, 4, 4, 2, 2, 5, 4, 4, 2, 2, 2, 4, 4, 4, 2, 2, 5, 4, 5, 2, 2, 2,
    5, 4, 3, 2, 2, 5, 4, 5, 3, 2, 2, 2, 5, 4, 3, 3, 2, 5, 6, 4, 3, 2, 2, 7, 4, 3, 3, 2, 2, 4, 4, 3, 2, 2, 7, 4, 4, 3,
    2, 2, 5, 4, 4, 2, 2, 7, 4, 4, 4, 2, 2, 5, 4, 4, 2, 2, 2, 4, 4, 3, 2, 2, 5, 4, 5, 2, 2, 2, 5, 4, 3, 2, 2, 5, 4, 5,
    3, 2, 2, 5, 6, 3, 2, 2, 2, 4, 5, 3, 2, 2, 5, 6, 4, 2, 2, 2, 5, 4, 3, 2, 2, 5, 6, 4, 3, 2, 2, 5, 4]
  | 4 => [
    1, 1, 1, 7, 3, 2, 2, 1, 1, 7, 3, 1, 1, 1, 7, 3, 2, 2, 1, 7, 7, 3, 3, 1, 1, 7, 7, 2, 2, 1, 1, 7, 3, 3, 1, 1, 1, 7,
    3, 1, 1, 1, 1, 3, 3, 1, 1, 1, 7, 3, 2, 1, 1, 1, 12, 3, 1, 1, 1, 7, 11, 2, 1, 1, 1, 12, 3, 1, 1, 1, 1, 11, 2, 1,
    1, 1, 12, 3, 2, 1, 1, 1, 7, 2, 1, 1, 1, 7, 3, 2, 2, 1, 1, 7, 3, 1, 1, 1, 7, 3, 2, 2, 1, 1, 7, 3, 2, 1, 1, 7, 7,
    10, 2, 1, 1, 7, 12, 3, 2, 7, 7, 7, 11, 2, 3, 1, 1, 3, 3, 1, 1, 1, 4, 3, 2, 1, 1, 1, 4, 3, 1, 1, 1, 4, 3, 2, 1, 1,
    1, 4, 4, 1, 1, 1, 1, 4, 2, 1, 1, 1, 4, 3, 2, 1, 1, 1, 7, 2, 1, 1, 1, 4, 3, 2, 1, 1, 1, 7, 3, 1, 1, 1, 7, 3, 2, 2,
    1, 1, 7, 3, 2, 1, 1, 7, 4, 2, 2, 1, 1, 1, 4, 3, 2, 1, 1, 1, 4, 3, 1, 1, 1, 4, 4, 2, 1, 1, 1, 4, 3, 1, 1, 1, 1, 4,
    2, 1, 1, 1, 4, 3, 2, 1, 1, 1, 7, 2, 1, 1, 1, 7, 3, 2, 2, 1, 1, 7, 3, 1, 1, 1, 7, 3, 2, 2, 1, 1, 4, 3, 2, 1, 1, 7,
    4, 2, 2, 1, 1, 4, 3, 3, 1, 1, 7, 4, 3, 2, 1, 1, 1, 3, 3, 1, 1, 1, 4, 3, 2, 1, 1, 1, 4, 3, 1, 1, 1, 4, 3, 2, 1]
  | 5 => [
    13, 12, 12, 11, 11, 14, 13, 12, 11, 11, 11, 13, 13, 12, 11, 11, 14, 13, 12, 11, 11, 11, 14, 12, 12, 11, 11, 14,
    13, 12, 12, 11, 11, 14, 13, 12, 11, 11, 11, 14, 12, 12, 11, 11, 14, 13, 12, 11, 11, 11, 15, 12, 12, 11, 11, 14,
    13, 12, 12, 11, 15, 14, 13, 12, 11, 11, 11, 13, 12, 12, 11, 15, 14, 13, 12, 11, 11, 11, 14, 12, 12, 11, 11, 14,
    13, 12, 12, 11, 11, 14, 13, 12, 11, 11, 11, 13, 12, 12, 11, 11, 14, 13, 12, 11, 11, 11, 14, 7, 7, 6, 11, 14, 7,
    7, 7, 18, 11, 14, 7, 12, 6, 11, 11, 7, 7, 7, 20, 11, 14, 13, 7, 11, 11, 11, 16, 7, 7, 6, 11, 14, 13, 7, 12, 11,
    11, 15, 7, 7, 6, 11, 15, 7, 7, 12, 6, 15, 14, 7, 7, 6, 11, 11, 14, 7, 12, 6, 11, 14, 7, 7, 7, 11, 11, 14, 7, 7,
    6, 11, 11, 7, 7, 7, 6, 11, 14, 7, 7, 6, 11, 11, 14, 7, 7, 6, 11, 14, 7, 7, 7, 11, 11, 11, 15, 7, 7, 6, 11, 14, 7,
    7, 12, 11, 15, 14, 7, 12, 6, 11, 11, 7, 7, 12, 6, 15, 14, 7, 7, 6, 11, 11, 14, 7, 7, 6, 11, 14, 7, 7, 7, 11, 11,
    14, 7, 7, 6, 11, 11, 7, 7, 7, 6, 11, 14, 7, 7, 6, 11, 11, 14, 7, 7, 6, 11, 14, 7, 7, 7, 11, 11, 14, 7, 7, 6, 11,
    11, 7, 7, 7, 11, 11, 14, 7, 7, 11, 11, 11, 15, 7, 7, 6, 11, 14, 7, 7, 12, 11, 11, 15, 7]
  | 6 => [
    4, 3, 2, 1, 7, 7, 4, 2, 1, 1, 1, 4, 3, 2, 1, 7, 13, 4, 3, 1, 1, 1, 7, 3, 2, 1, 1, 13, 4, 3, 2, 1, 1, 7, 4, 2, 1,
    1, 1, 4, 3, 2, 1, 1, 7, 4, 3, 1, 1, 1, 7, 3, 2, 1, 1, 7, 4, 3, 2, 1, 7, 7, 4, 2, 1, 1, 1, 4, 3, 2, 1, 7, 7, 4, 3,
    1, 1, 1, 7, 3, 2, 1, 1, 7, 4, 3, 2, 1, 1, 7, 4, 2, 1, 1, 1, 4, 3, 2, 1, 7, 7, 11, 3, 1, 1, 1, 13, 3, 3, 1, 1, 13,
    4, 10, 3, 1, 7, 7, 11, 3, 8, 7, 7, 4, 3, 3, 3, 7, 7, 4, 3, 3, 7, 7, 7, 3, 3, 8, 7, 7, 4, 3, 3, 7, 7, 7, 4, 3, 3,
    7, 7, 4, 3, 3, 3, 7, 7, 4, 3, 3, 7, 7, 7, 3, 3, 3, 7, 7, 4, 3, 3, 7, 7, 7, 4, 3, 3, 7, 7, 4, 3, 3, 8, 7, 7, 4, 3,
    3, 7, 7, 13, 3, 3, 8, 7, 7, 4, 3, 3, 3, 7, 7, 7, 3, 3, 3, 7, 7, 4, 3, 3, 7, 7, 7, 4, 3, 3, 7, 7, 4, 3, 3, 3, 7,
    7, 4, 3, 3, 7, 7, 7, 3, 3, 3, 7, 7, 4, 3, 3, 7, 7, 7, 4, 3, 3, 7, 7, 4, 3, 3, 8, 7, 7, 4, 3, 3, 7, 7, 13, 3, 3,
    8, 7, 13, 4, 3, 3, 7, 7, 7, 4, 3, 8, 7, 7, 4, 3, 3, 3, 7, 7, 4, 3, 3, 7, 7, 7, 3, 3, 8, 7, 7, 4, 3, 3, 7, 7, 7, 4]
  | 7 => [
    2, 2, 2, 7, 10, 3, 2, 2, 7, 7, 10, 2, 2, 2, 7, 10, 3, 2, 2, 7, 7, 10, 3, 2, 2, 7, 7, 3, 2, 2, 2, 7, 10, 3, 2, 2,
    7, 7, 10, 2, 2, 2, 7, 10, 3, 2, 2, 7, 7, 10, 3, 2, 2, 7, 7, 3, 2, 2, 2, 7, 10, 3, 2, 2, 7, 7, 10, 2, 2, 2, 7, 10,
    3, 2, 2, 7, 7, 10, 3, 2, 2, 7, 7, 3, 2, 2, 2, 7, 10, 3, 2, 2, 7, 7, 10, 2, 2, 2, 7, 10, 3, 2, 2, 7, 7, 10, 3, 2,
    2, 7, 7, 3, 2, 2, 2, 11, 11, 3, 2, 2, 7, 7, 10, 2, 2, 2, 7, 10, 3, 2, 2, 7, 7, 10, 3, 2, 2, 7, 7, 3, 2, 2, 2, 7,
    10, 3, 2, 2, 7, 7, 10, 2, 2, 2, 7, 10, 3, 2, 2, 7, 7, 10, 3, 2, 2, 7, 7, 3, 2, 2, 2, 7, 10, 3, 2, 2, 7, 7, 10, 2,
    2, 2, 7, 10, 3, 2, 2, 7, 7, 10, 3, 2, 2, 7, 7, 3, 2, 2, 2, 7, 7, 10, 3, 2, 2, 7, 7, 3, 2, 2, 2, 7, 10, 3, 2, 2,
    7, 7, 10, 2, 2, 2, 7, 10, 3, 2, 2, 7, 7, 10, 3, 2, 2, 7, 7, 3, 2, 2, 2, 7, 10, 3, 2, 2, 7, 7, 10, 2, 2, 2, 7, 10,
    3, 2, 2, 7, 7, 10, 3, 2, 2, 7, 7, 3, 2, 2, 2, 7, 10, 3, 2, 2, 7, 7, 10, 2, 2, 2, 7, 10, 3, 2, 2, 7, 7, 10, 3, 2,
    2, 7, 7, 3, 2, 2, 2, 7, 10, 3, 2]
  | 8 => [
    6, 5, 4, 2, 2, 2, 6, 4, 3, 2, 2, 6, 5, 4, 3, 2, 2, 6, 5, 3, 2, 2, 2, 5, 4, 3, 2, 2, 6, 5, 4, 2, 2, 2, 6, 4, 3, 2,
    2, 6, 5, 4, 3, 2, 2, 6, 5, 3, 2, 2, 2, 5, 4, 3, 2, 2, 6, 5, 4, 2, 2, 2, 6, 4, 3, 2, 2, 6, 5, 4, 3, 2, 2, 6, 5, 3,
    2, 2, 2, 5, 4, 3, 2, 2, 6, 5, 4, 2, 2, 2, 6, 4, 3, 2, 2, 6, 5, 4, 3, 2, 2, 6, 5, 3, 2, 2, 2, 5, 4, 3, 2, 7, 13,
    6, 4, 2, 2, 2, 6, 4, 3, 2, 2, 6, 5, 4, 3, 2, 2, 6, 5, 3, 2, 2, 2, 5, 4, 3, 2, 2, 7, 5, 4, 3, 2, 2, 6, 4, 3, 2, 2,
    6, 5, 4, 3, 2, 2, 6, 5, 3, 2, 2, 2, 5, 4, 3, 2, 2, 6, 5, 4, 2, 2, 2, 6, 4, 3, 2, 2, 6, 5, 4, 3, 2, 2, 6, 5, 3, 2,
    2, 2, 5, 4, 3, 2, 2, 6, 5, 4, 3, 2, 2, 2, 5, 4, 3, 2, 2, 6, 5, 4, 2, 2, 2, 6, 4, 3, 2, 2, 6, 5, 4, 3, 2, 2, 6, 5,
    3, 2, 2, 2, 5, 4, 3, 2, 2, 6, 5, 4, 2, 2, 2, 6, 4, 3, 2, 2, 6, 5, 4, 3, 2, 2, 6, 5, 3, 2, 2, 2, 5, 4, 3, 2, 2, 6,
    5, 4, 2, 2, 2, 6, 4, 3, 2, 2, 6, 5, 4, 3, 2, 2, 6, 5, 3, 2, 2, 2, 5, 4, 3, 2, 2, 6, 5, 4, 2, 2, 2, 6]
  | 9 => [
    3, 2, 2, 6, 5, 4, 3, 2, 2, 6, 5, 3, 2, 2, 2, 5, 4, 3, 2, 2, 6, 5, 4, 2, 2, 2, 6, 4, 3, 2, 2, 6, 5, 4, 3, 2, 2, 6,
    5, 3, 2, 2, 2, 5, 4, 3, 2, 2, 6, 5, 4, 2, 2, 2, 6, 4, 3, 2, 2, 6, 5, 4, 3, 2, 2, 6, 5, 3, 2, 2, 2, 5, 4, 3, 2, 2,
    6, 5, 4, 2, 2, 2, 6, 4, 3, 2, 2, 6, 5, 4, 3, 2, 2, 6, 5, 3, 2, 2, 2, 5, 4, 3, 2, 2, 6, 5, 4, 2, 2, 2, 6, 4, 3, 2,
    2, 6, 5, 4, 3, 2, 2, 6, 5, 3, 2, 2, 2, 5, 4, 3, 2, 2, 6, 5, 4, 2, 2, 2, 6, 4, 3, 2, 2, 6, 5, 4, 3, 2, 2, 6, 5, 3,
    2, 2, 2, 5, 4, 3, 2, 2, 6, 5, 4, 2, 2, 2, 6, 4, 3, 2, 2, 6, 5, 4, 3, 2, 2, 6, 5, 3, 2, 2, 2, 5, 4, 3, 2, 2, 6, 5,
    4, 2, 2, 2, 6, 4, 3, 2, 2, 2, 6, 5, 4, 2, 2, 2, 6, 4, 3, 2, 2, 6, 5, 4, 3, 2, 2, 6, 5, 3, 2, 2, 2, 5, 4, 3, 2, 2,
    6, 5, 4, 2, 2, 2, 6, 4, 3, 2, 2, 6, 5, 4, 3, 2, 2, 6, 5, 3, 2, 2, 2, 5, 4, 3, 2, 2, 6, 5, 4, 2, 2, 2, 6, 4, 3, 2,
    2, 6, 5, 4, 3, 2, 2, 6, 5, 3, 2, 2, 2, 5, 4, 3, 2, 2, 6, 5, 4, 2, 2, 2, 6, 4, 3, 2, 2, 6, 5, 4, 3]
  | 10 => [
    8, 8, 8, 11, 11, 9, 8, 8, 13, 11, 11, 8, 8, 8, 13, 11, 9, 8, 8, 13, 11, 11, 9, 8, 8, 13, 11, 9, 8, 8, 8, 11, 11,
    9, 8, 8, 13, 11, 11, 8, 8, 8, 13, 11, 9, 8, 8, 13, 11, 11, 9, 8, 8, 13, 11, 9, 8, 8, 8, 11, 11, 9, 8, 8, 13, 11,
    11, 8, 8, 8, 13, 11, 9, 8, 8, 13, 11, 11, 9, 8, 8, 13, 11, 9, 8, 8, 8, 11, 11, 9, 8, 8, 13, 11, 11, 8, 8, 8, 13,
    11, 9, 8, 8, 13, 13, 11, 9, 8, 13, 13, 11, 9, 8, 14, 8, 13, 17, 11, 15, 15, 18, 11, 11, 8, 15, 6, 5, 17, 4, 8, 7,
    5, 4, 11, 11, 8, 6, 5, 6, 4, 8, 7, 7, 11, 4, 4, 8, 6, 5, 4, 4, 8, 7, 6, 5, 4, 4, 8, 7, 5, 4, 4, 4, 7, 6, 5, 4, 4,
    8, 7, 6, 4, 4, 4, 8, 6, 5, 4, 4, 8, 7, 6, 5, 4, 4, 8, 7, 5, 4, 4, 4, 7, 6, 5, 4, 4, 8, 7, 6, 5, 4, 4, 4, 7, 6, 5,
    4, 4, 8, 7, 6, 4, 4, 4, 8, 6, 5, 4, 4, 8, 7, 6, 5, 4, 4, 8, 7, 5, 4, 4, 4, 7, 6, 5, 4, 4, 8, 7, 6, 4, 4, 4, 8, 6,
    5, 4, 4, 8, 7, 6, 5, 4, 4, 8, 7, 5, 4, 4, 4, 7, 6, 5, 4, 4, 8, 7, 6, 4, 4, 4, 8, 6, 5, 4, 4, 8, 7, 6, 5, 4, 4, 8,
    7, 5, 4, 4, 4, 7, 6, 5, 4, 4, 8, 7, 6, 4, 4, 4, 8]
  | 11 => [
    6, 5, 5, 7, 8, 7, 6, 5, 8, 7, 8, 6, 5, 5, 8, 8, 7, 6, 5, 8, 7, 8, 7, 5, 5, 8, 7, 7, 6, 5, 5, 7, 8, 7, 6, 5, 8, 7,
    8, 6, 5, 5, 8, 8, 7, 6, 5, 8, 7, 8, 7, 5, 5, 8, 7, 7, 6, 5, 5, 7, 8, 7, 6, 5, 8, 7, 8, 7, 5, 5, 8, 8, 7, 6, 5, 8,
    7, 8, 7, 5, 5, 8, 7, 7, 6, 5, 5, 7, 8, 7, 6, 5, 8, 7, 8, 6, 5, 5, 8, 8, 7, 6, 5, 8, 9, 8, 7, 5, 5, 8, 8, 7, 6, 5,
    5, 7, 8, 7, 6, 5, 8, 7, 8, 6, 6, 5, 8, 8, 7, 6, 5, 8, 7, 8, 7, 5, 5, 8, 7, 7, 6, 5, 5, 7, 8, 7, 6, 5, 8, 7, 8, 6,
    5, 5, 8, 8, 7, 6, 5, 8, 7, 8, 7, 5, 5, 8, 7, 7, 6, 5, 5, 7, 8, 7, 6, 5, 8, 7, 8, 6, 5, 5, 8, 8, 7, 6, 5, 8, 7, 8,
    7, 5, 5, 8, 7, 7, 6, 5, 5, 8, 7, 8, 7, 5, 5, 8, 7, 7, 6, 5, 5, 7, 8, 7, 6, 5, 8, 7, 8, 6, 5, 5, 8, 8, 7, 6, 5, 8,
    7, 8, 7, 5, 5, 8, 7, 7, 6, 5, 5, 7, 8, 7, 6, 5, 8, 7, 8, 6, 5, 5, 8, 8, 7, 6, 5, 8, 7, 8, 7, 5, 5, 8, 7, 7, 6, 5,
    5, 7, 8, 7, 6, 5, 8, 7, 8, 6, 5, 5, 8, 8, 7, 6, 5, 8, 7, 8, 7, 5, 5, 8, 7, 7, 6, 5, 5, 7, 8, 7, 6]
  | 12 => [
    2, 2, 2, 7, 4, 3, 2, 2, 2, 7, 4, 2, 2, 2, 2, 4, 3, 2, 2, 2, 7, 4, 3, 2, 2, 2, 7, 3, 2, 2, 2, 7, 4, 3, 2, 2, 2, 7,
    4, 2, 2, 2, 2, 4, 3, 2, 2, 2, 7, 4, 3, 2, 2, 2, 7, 3, 2, 2, 2, 7, 4, 3, 2, 2, 2, 7, 4, 2, 2, 2, 2, 4, 3, 2, 2, 2,
    7, 4, 3, 2, 2, 2, 7, 3, 2, 2, 2, 7, 4, 3, 2, 2, 2, 7, 4, 2, 2, 2, 2, 4, 3, 2, 2, 2, 7, 4, 3, 2, 2, 2, 7, 3, 2, 2,
    2, 7, 4, 3, 2, 2, 2, 7, 4, 2, 2, 2, 2, 4, 3, 2, 2, 2, 7, 4, 3, 2, 2, 2, 7, 3, 2, 2, 2, 7, 4, 3, 2, 2, 2, 7, 4, 2,
    2, 2, 2, 4, 3, 2, 2, 2, 7, 4, 3, 2, 2, 2, 7, 3, 2, 2, 2, 7, 4, 3, 2, 2, 2, 7, 4, 2, 2, 2, 2, 4, 3, 2, 2, 2, 7, 4,
    3, 2, 2, 2, 7, 3, 2, 2, 2, 2, 7, 4, 3, 2, 2, 2, 7, 3, 2, 2, 2, 7, 4, 3, 2, 2, 2, 7, 4, 2, 2, 2, 2, 4, 3, 2, 2, 2,
    7, 4, 3, 2, 2, 2, 7, 3, 2, 2, 2, 7, 4, 3, 2, 2, 2, 7, 4, 2, 2, 2, 2, 4, 3, 2, 2, 2, 7, 4, 3, 2, 2, 2, 7, 3, 2, 2,
    2, 7, 4, 3, 2, 2, 2, 7, 4, 2, 2, 2, 2, 4, 3, 2, 2, 2, 7, 4, 3, 2, 2, 2, 7, 3, 2, 2, 2, 7, 4, 3, 2]
  | _ => []

/-- For month `m` the last of the days found in each of the years 1901 to 2199. -/
def lastShared : Nat → List Nat
  | 1 => [
    31, 30, 29, 28, 31, 31, 31, 30, 28, 31, 31, 31, 30, 29, 28, 31, 31, 31, 30, 29, 31, 31, 31, 31, 29, 28, 31, 31,
    31, 30, 29, 28, 31, 31, 31, 30, 28, 31, 31, 31, 30, 29, 28, 31, 31, 31, 30, 29, 31, 31, 31, 31, 29, 28, 31, 31,
    31, 30, 29, 28, 31, 31, 31, 30, 28, 31, 31, 31, 30, 29, 28, 31, 31, 31, 30, 29, 31, 31, 31, 31, 29, 28, 31, 31,
    31, 30, 29, 28, 31, 31, 31, 30, 28, 31, 31, 31, 30, 29, 28, 31, 31, 31, 30, 29, 31, 19, 31, 31, 22, 28, 31, 31,
    31, 23, 29, 28, 19, 31, 31, 22, 28, 27, 31, 31, 23, 29, 28, 31, 31, 31, 30, 29, 27, 31, 31, 31, 29, 28, 31, 31,
    30, 30, 29, 28, 31, 31, 31, 30, 28, 31, 31, 31, 30, 29, 28, 31, 31, 31, 30, 29, 31, 31, 31, 31, 29, 28, 31, 31,
    31, 30, 29, 28, 31, 31, 31, 30, 28, 31, 31, 31, 30, 29, 28, 31, 31, 31, 30, 29, 31, 31, 31, 31, 29, 28, 31, 31,
    31, 30, 29, 28, 31, 31, 31, 31, 29, 28, 31, 31, 31, 30, 29, 28, 31, 31, 31, 30, 28, 31, 31, 31, 30, 29, 28, 31,
    31, 31, 30, 29, 31, 31, 31, 31, 29, 28, 31, 31, 31, 30, 29, 28, 31, 31, 31, 30, 28, 31, 31, 31, 30, 29, 28, 31,
    31, 31, 30, 29, 31, 31, 31, 31, 29, 28, 31, 31, 31, 30, 29, 28, 31, 31, 31, 30, 28, 31, 31, 31, 30, 29, 28, 31,
    31, 31, 30, 29, 31, 31, 31, 31, 29, 28, 31, 31, 31, 30, 29, 28, 31, 31, 31]
  | 2 => [
    27, 27, 26, 29, 27, 21, 27, 27, 25, 24, 21, 29, 27, 26, 25, 29, 27, 27, 27, 26, 24, 21, 27, 27, 26, 25, 24, 29,
    27, 27, 26, 29, 21, 27, 27, 27, 25, 24, 27, 29, 27, 26, 25, 29, 27, 27, 27, 26, 24, 27, 27, 27, 26, 25, 24, 29,
    27, 27, 26, 25, 27, 27, 27, 27, 25, 24, 27, 29, 27, 26, 25, 29, 27, 27, 27, 26, 24, 27, 22, 27, 26, 25, 24, 29,
    27, 27, 26, 29, 27, 22, 27, 27, 25, 24, 22, 29, 27, 26, 25, 29, 22, 27, 27, 26, 24, 22, 27, 27, 26, 25, 24, 29,
    27, 26, 26, 25, 22, 27, 27, 27, 25, 24, 22, 29, 27, 26, 25, 24, 27, 27, 27, 25, 24, 27, 27, 27, 26, 25, 24, 29,
    27, 27, 26, 25, 27, 27, 27, 27, 25, 24, 27, 29, 27, 26, 25, 29, 27, 27, 27, 26, 24, 27, 22, 27, 26, 25, 24, 29,
    27, 27, 26, 29, 27, 22, 27, 27, 25, 24, 27, 29, 27, 26, 25, 29, 22, 27, 27, 26, 24, 22, 27, 27, 26, 25, 24, 29,
    27, 27, 26, 25, 24, 27, 27, 27, 26, 25, 24, 29, 27, 27, 26, 25, 27, 27, 27, 27, 25, 24, 27, 29, 27, 26, 25, 29,
    27, 27, 27, 26, 24, 27, 22, 27, 26, 25, 24, 29, 27, 27, 26, 29, 27, 22, 27, 27, 25, 24, 22, 29, 27, 26, 25, 29,
    22, 27, 27, 26, 24, 22, 27, 27, 26, 25, 24, 29, 27, 27, 26, 29, 22, 27, 27, 27, 25, 24, 27, 29, 27, 26, 25, 24,
    27, 27, 27, 26, 24, 27, 27, 27, 26, 25, 24, 29, 27, 27, 26, 25, 27, 27, 27]
  | 3 => [
    28, 26, 31, 30, 30, 29, 27, 31, 31, 31, 30, 28, 31, 31, 31, 30, 29, 27, 31, 31, 31, 30, 28, 31, 31, 31, 31, 29,
    27, 31, 31, 31, 30, 28, 28, 31, 31, 31, 30, 28, 31, 31, 31, 30, 28, 28, 31, 31, 31, 30, 29, 31, 31, 31, 31, 28,
    28, 31, 31, 31, 29, 29, 28, 31, 31, 31, 30, 28, 27, 31, 31, 29, 29, 28, 26, 31, 31, 30, 29, 31, 31, 31, 30, 29,
    28, 26, 31, 30, 30, 29, 27, 31, 31, 30, 30, 28, 26, 31, 31, 30, 29, 27, 31, 31, 31, 29, 29, 31, 31, 31, 31, 29,
    19, 27, 31, 31, 30, 28, 28, 26, 31, 31, 29, 27, 27, 31, 31, 30, 28, 28, 31, 31, 31, 30, 29, 31, 30, 31, 31, 28,
    28, 31, 31, 31, 30, 29, 28, 31, 31, 31, 29, 28, 31, 31, 31, 29, 29, 28, 26, 31, 31, 30, 29, 31, 31, 31, 30, 29,
    28, 26, 31, 31, 30, 29, 28, 31, 31, 30, 30, 28, 26, 31, 31, 30, 29, 27, 31, 31, 30, 30, 29, 26, 31, 31, 31, 29,
    27, 31, 31, 31, 31, 30, 29, 31, 31, 31, 31, 28, 28, 31, 31, 31, 29, 29, 28, 31, 31, 31, 30, 28, 31, 31, 31, 29,
    29, 28, 26, 31, 31, 30, 29, 31, 31, 31, 30, 29, 28, 26, 31, 30, 30, 29, 27, 31, 31, 30, 30, 28, 26, 31, 31, 30,
    29, 27, 31, 31, 31, 30, 29, 31, 31, 31, 31, 29, 27, 31, 31, 31, 30, 28, 28, 31, 31, 31, 30, 27, 31, 31, 31, 30,
    28, 28, 31, 31, 31, 30, 29, 31, 31, 31, 31, 28, 28, 31, 31, 31, 30, 29, 28]
  | 4 => [
    30, 30, 30, 28, 26, 26, 30, 30, 28, 28, 26, 30, 30, 30, 28, 26, 26, 30, 30, 28, 28, 26, 26, 30, 30, 28, 28, 26,
    30, 30, 30, 28, 26, 26, 30, 30, 28, 28, 26, 30, 30, 30, 28, 26, 26, 30, 30, 28, 28, 26, 26, 30, 30, 28, 28, 26,
    30, 30, 30, 28, 26, 26, 30, 30, 28, 28, 26, 30, 30, 30, 28, 26, 26, 30, 30, 28, 28, 26, 26, 30, 30, 28, 28, 26,
    30, 30, 30, 28, 26, 26, 30, 30, 28, 28, 26, 30, 30, 30, 28, 26, 26, 30, 30, 28, 28, 26, 26, 30, 30, 28, 28, 26,
    22, 30, 30, 26, 26, 26, 24, 22, 28, 28, 24, 30, 22, 30, 20, 26, 17, 30, 30, 28, 28, 26, 26, 22, 30, 28, 26, 26,
    30, 30, 30, 28, 26, 26, 30, 30, 28, 28, 26, 30, 30, 30, 28, 26, 26, 30, 30, 28, 28, 26, 26, 30, 30, 28, 28, 26,
    30, 30, 30, 28, 26, 26, 30, 30, 28, 28, 26, 30, 30, 30, 28, 26, 26, 30, 30, 28, 28, 26, 26, 30, 30, 28, 28, 26,
    30, 30, 30, 28, 28, 26, 26, 30, 30, 28, 28, 26, 30, 30, 30, 28, 26, 26, 30, 30, 28, 28, 26, 30, 30, 30, 28, 26,
    26, 30, 30, 28, 28, 26, 26, 30, 30, 28, 28, 26, 30, 30, 30, 28, 26, 26, 30, 30, 28, 28, 26, 30, 30, 30, 28, 26,
    26, 30, 30, 28, 28, 26, 26, 30, 30, 28, 28, 26, 30, 30, 30, 28, 26, 26, 30, 30, 28, 28, 26, 30, 30, 30, 28, 26,
    26, 30, 30, 28, 28, 26, 26, 30, 30, 28, 28, 26, 30, 30, 30, 28, 26, 26, 30]
  | 5 => [
    29, 28, 28, 31, 31, 31, 29, 27, 27, 31, 31, 29, 29, 28, 27, 31, 31, 29, 28, 27, 31, 31, 29, 28, 28, 27, 31, 31,
    29, 28, 28, 31, 31, 29, 29, 28, 26, 31, 31, 29, 29, 28, 27, 31, 29, 29, 29, 26, 31, 31, 31, 29, 28, 26, 31, 29,
    29, 29, 27, 31, 31, 29, 29, 27, 26, 31, 31, 29, 29, 27, 27, 31, 30, 30, 28, 26, 31, 31, 31, 29, 27, 27, 31, 30,
    30, 28, 27, 31, 31, 31, 29, 27, 27, 31, 31, 30, 28, 28, 27, 31, 31, 29, 28, 27, 31, 30, 30, 29, 27, 27, 31, 31,
    29, 28, 28, 31, 24, 30, 29, 27, 27, 31, 31, 29, 28, 20, 26, 30, 30, 29, 29, 26, 31, 31, 31, 29, 28, 27, 31, 30,
    29, 29, 27, 31, 31, 31, 30, 28, 26, 31, 31, 29, 29, 27, 26, 31, 30, 30, 28, 26, 31, 31, 31, 29, 27, 27, 31, 30,
    30, 28, 27, 31, 31, 31, 30, 27, 27, 31, 31, 30, 28, 27, 27, 31, 31, 29, 28, 27, 31, 31, 31, 28, 28, 27, 31, 31,
    29, 28, 28, 26, 31, 31, 31, 29, 28, 26, 31, 30, 29, 29, 27, 31, 31, 30, 30, 27, 26, 31, 31, 30, 29, 27, 27, 31,
    30, 30, 28, 26, 31, 31, 31, 29, 27, 27, 31, 30, 30, 28, 27, 31, 31, 31, 29, 27, 27, 31, 31, 30, 28, 28, 27, 31,
    31, 29, 28, 27, 31, 31, 31, 29, 28, 27, 31, 31, 29, 28, 28, 31, 31, 30, 29, 28, 27, 31, 31, 29, 28, 28, 26, 31,
    30, 29, 29, 26, 31, 31, 31, 29, 28, 27, 31, 30, 29, 29, 27, 31, 31, 31, 30]
  | 6 => [
    27, 30, 30, 30, 29, 27, 27, 30, 30, 30, 29, 27, 30, 30, 30, 29, 27, 27, 30, 30, 30, 29, 27, 30, 30, 30, 30, 27,
    27, 30, 30, 30, 29, 27, 27, 30, 30, 30, 29, 27, 30, 30, 30, 29, 27, 27, 30, 30, 30, 29, 27, 30, 30, 30, 30, 27,
    27, 30, 30, 30, 29, 27, 27, 30, 30, 30, 29, 27, 30, 30, 30, 29, 27, 27, 30, 30, 30, 29, 27, 30, 30, 30, 30, 27,
    27, 30, 30, 30, 29, 27, 27, 30, 30, 30, 29, 27, 30, 30, 30, 29, 27, 27, 30, 30, 30, 29, 27, 30, 30, 30, 30, 27,
    27, 30, 30, 30, 29, 27, 27, 30, 30, 30, 27, 27, 30, 30, 30, 29, 27, 27, 30, 30, 30, 29, 27, 30, 30, 30, 30, 27,
    27, 30, 30, 30, 29, 27, 27, 30, 30, 30, 29, 27, 30, 30, 30, 29, 27, 27, 30, 30, 30, 29, 27, 30, 30, 30, 30, 27,
    27, 30, 30, 30, 29, 27, 27, 30, 30, 30, 29, 27, 30, 30, 30, 29, 27, 27, 30, 30, 30, 29, 27, 30, 30, 30, 30, 27,
    27, 30, 30, 30, 30, 29, 27, 30, 30, 30, 30, 27, 27, 30, 30, 30, 29, 27, 27, 30, 30, 30, 29, 27, 30, 30, 30, 29,
    27, 27, 30, 30, 30, 29, 27, 30, 30, 30, 30, 27, 27, 30, 30, 30, 29, 27, 27, 30, 30, 30, 29, 27, 30, 30, 30, 29,
    27, 27, 30, 30, 30, 29, 27, 30, 30, 30, 30, 27, 27, 30, 30, 30, 29, 27, 27, 30, 30, 30, 29, 27, 30, 30, 30, 29,
    27, 27, 30, 30, 30, 29, 27, 30, 30, 30, 30, 27, 27, 30, 30, 30, 29, 27, 27]
  | 7 => [
    31, 31, 30, 28, 31, 31, 31, 30, 29, 28, 31, 31, 31, 30, 29, 31, 31, 31, 31, 29, 28, 31, 31, 31, 30, 29, 28, 31,
    31, 31, 30, 28, 31, 31, 31, 30, 29, 28, 31, 31, 31, 30, 29, 31, 31, 31, 31, 29, 28, 31, 31, 31, 30, 29, 28, 31,
    31, 31, 30, 28, 31, 31, 31, 30, 29, 28, 31, 30, 31, 30, 29, 31, 31, 31, 31, 29, 28, 31, 31, 31, 30, 29, 28, 31,
    31, 31, 30, 28, 31, 31, 31, 30, 29, 28, 31, 31, 31, 30, 29, 31, 31, 31, 31, 29, 28, 31, 31, 31, 30, 29, 28, 31,
    31, 24, 29, 28, 31, 31, 31, 29, 29, 27, 31, 31, 31, 30, 29, 31, 31, 31, 31, 29, 27, 31, 31, 31, 30, 29, 27, 31,
    31, 31, 30, 27, 31, 31, 31, 30, 29, 27, 31, 31, 31, 30, 29, 31, 31, 31, 31, 29, 27, 31, 31, 31, 30, 29, 27, 31,
    31, 31, 30, 27, 31, 31, 31, 30, 29, 27, 31, 31, 31, 30, 29, 31, 31, 31, 31, 29, 27, 31, 31, 31, 30, 29, 27, 31,
    31, 31, 30, 29, 27, 31, 31, 31, 30, 29, 27, 31, 31, 31, 30, 27, 31, 31, 31, 30, 29, 27, 31, 31, 31, 30, 29, 31,
    31, 31, 31, 29, 27, 31, 31, 31, 30, 29, 27, 31, 31, 31, 30, 27, 31, 31, 31, 30, 29, 27, 31, 31, 31, 30, 29, 31,
    31, 31, 31, 29, 27, 31, 31, 31, 30, 29, 27, 31, 31, 31, 30, 27, 31, 31, 31, 30, 29, 27, 31, 31, 31, 30, 29, 31,
    31, 31, 31, 29, 27, 31, 31, 31, 30, 29, 27, 31, 31, 31, 30, 27, 31, 31, 31]
  | 8 => [
    28, 28, 27, 31, 31, 28, 28, 27, 31, 31, 31, 28, 28, 27, 31, 31, 28, 28, 28, 31, 31, 31, 28, 28, 27, 31, 31, 28,
    28, 28, 27, 31, 31, 28, 28, 27, 31, 31, 31, 28, 28, 27, 31, 31, 28, 28, 28, 31, 31, 31, 28, 28, 27, 31, 31, 28,
    28, 28, 27, 31, 31, 28, 28, 27, 31, 31, 31, 27, 28, 27, 31, 31, 28, 28, 28, 31, 31, 31, 28, 28, 27, 31, 31, 28,
    28, 28, 27, 31, 31, 28, 28, 27, 31, 31, 31, 28, 28, 27, 31, 31, 28, 28, 28, 31, 31, 31, 28, 28, 27, 31, 25, 28,
    28, 28, 27, 31, 31, 28, 28, 27, 31, 25, 31, 28, 28, 27, 31, 31, 28, 28, 28, 31, 31, 31, 28, 28, 27, 31, 31, 28,
    28, 28, 27, 31, 31, 28, 28, 27, 31, 31, 31, 28, 28, 27, 31, 31, 28, 28, 28, 31, 31, 31, 28, 28, 27, 31, 31, 28,
    28, 28, 27, 31, 31, 28, 28, 27, 31, 31, 31, 28, 28, 27, 31, 31, 28, 28, 28, 31, 31, 31, 28, 28, 27, 31, 31, 28,
    28, 28, 27, 31, 31, 31, 28, 28, 27, 31, 31, 28, 28, 28, 27, 31, 31, 28, 28, 27, 31, 31, 31, 28, 28, 27, 31, 31,
    28, 28, 28, 31, 31, 31, 28, 28, 27, 31, 31, 28, 28, 28, 27, 31, 31, 28, 28, 27, 31, 31, 31, 28, 28, 27, 31, 31,
    28, 28, 28, 31, 31, 31, 28, 28, 27, 31, 31, 28, 28, 28, 27, 31, 31, 28, 28, 27, 31, 31, 31, 28, 28, 27, 31, 31,
    28, 28, 28, 31, 31, 31, 28, 28, 27, 31, 31, 28, 28, 28, 27, 31, 31, 28, 28]
  | 9 => [
    26, 29, 29, 29, 27, 27, 26, 29, 29, 29, 27, 26, 29, 29, 29, 27, 27, 26, 29, 29, 29, 27, 27, 29, 29, 29, 29, 27,
    26, 29, 29, 29, 27, 27, 26, 29, 29, 29, 27, 26, 29, 29, 29, 27, 27, 26, 29, 29, 29, 27, 27, 29, 29, 29, 29, 27,
    26, 29, 29, 29, 27, 27, 26, 29, 29, 29, 27, 26, 29, 29, 29, 27, 27, 26, 29, 29, 29, 27, 27, 29, 29, 29, 29, 27,
    26, 29, 29, 29, 27, 27, 26, 29, 29, 29, 27, 26, 29, 29, 29, 27, 27, 26, 29, 14, 29, 27, 27, 25, 29, 29, 29, 27,
    17, 29, 17, 29, 27, 27, 26, 29, 29, 29, 27, 26, 29, 29, 29, 27, 27, 26, 29, 29, 29, 21, 27, 29, 29, 29, 29, 27,
    25, 25, 29, 29, 21, 27, 26, 29, 29, 27, 27, 26, 29, 29, 29, 27, 27, 26, 29, 29, 29, 27, 27, 29, 29, 29, 29, 27,
    26, 29, 29, 29, 27, 27, 26, 29, 29, 29, 27, 26, 29, 29, 29, 27, 27, 26, 29, 29, 29, 27, 27, 29, 29, 29, 29, 27,
    26, 29, 29, 29, 29, 27, 27, 29, 29, 29, 29, 27, 26, 29, 29, 29, 27, 27, 26, 29, 29, 29, 27, 26, 29, 29, 29, 27,
    27, 26, 29, 29, 29, 27, 27, 29, 29, 29, 29, 27, 26, 29, 29, 29, 27, 27, 26, 29, 29, 29, 27, 26, 29, 29, 29, 27,
    27, 26, 29, 29, 29, 27, 27, 29, 29, 29, 29, 27, 26, 29, 29, 29, 27, 27, 26, 29, 29, 29, 27, 26, 29, 29, 29, 27,
    27, 26, 29, 29, 29, 27, 27, 29, 29, 29, 29, 27, 26, 29, 29, 29, 27, 27, 26]
  | 10 => [
    31, 30, 27, 31, 31, 31, 31, 27, 27, 31, 31, 31, 30, 27, 27, 31, 31, 31, 30, 27, 31, 31, 31, 30, 27, 27, 31, 31,
    31, 30, 27, 31, 31, 31, 31, 27, 27, 31, 31, 31, 30, 27, 27, 31, 31, 31, 30, 27, 31, 31, 31, 30, 27, 27, 31, 31,
    31, 30, 27, 31, 31, 31, 31, 27, 27, 31, 31, 31, 30, 27, 27, 31, 31, 31, 30, 27, 31, 31, 31, 30, 27, 27, 31, 31,
    31, 30, 27, 31, 31, 31, 31, 27, 27, 31, 31, 31, 30, 27, 27, 31, 31, 31, 30, 27, 31, 31, 31, 22, 27, 27, 25, 31,
    30, 30, 22, 27, 31, 31, 30, 27, 27, 27, 31, 30, 30, 27, 27, 31, 31, 30, 30, 27, 27, 31, 31, 30, 27, 27, 27, 31,
    30, 30, 27, 27, 31, 31, 30, 27, 27, 27, 31, 30, 30, 27, 27, 31, 31, 30, 30, 27, 27, 31, 31, 30, 27, 27, 27, 31,
    30, 30, 27, 27, 31, 31, 30, 27, 27, 27, 31, 30, 30, 27, 27, 31, 31, 30, 30, 27, 27, 31, 31, 30, 27, 27, 27, 31,
    30, 30, 27, 27, 27, 31, 31, 30, 27, 27, 27, 31, 30, 30, 27, 27, 31, 31, 30, 27, 27, 27, 31, 30, 30, 27, 27, 31,
    31, 30, 30, 27, 27, 31, 31, 30, 27, 27, 27, 31, 30, 30, 27, 27, 31, 31, 30, 27, 27, 27, 31, 30, 30, 27, 27, 31,
    31, 30, 30, 27, 27, 31, 31, 30, 27, 27, 27, 31, 30, 30, 27, 27, 31, 31, 30, 27, 27, 27, 31, 30, 30, 27, 27, 31,
    31, 30, 30, 27, 27, 31, 31, 30, 27, 27, 27, 31, 30, 30, 27, 27, 31, 31, 30]
  | 11 => [
    27, 26, 25, 29, 29, 29, 27, 25, 29, 29, 29, 27, 26, 25, 29, 29, 29, 27, 26, 29, 29, 29, 29, 26, 25, 29, 29, 29,
    27, 26, 25, 29, 29, 29, 27, 25, 29, 29, 29, 27, 26, 25, 29, 29, 29, 27, 26, 29, 29, 29, 29, 26, 25, 29, 29, 29,
    27, 26, 25, 29, 29, 29, 27, 25, 29, 29, 29, 26, 26, 25, 29, 29, 29, 27, 26, 29, 29, 29, 29, 26, 25, 29, 29, 29,
    27, 26, 25, 29, 29, 29, 27, 25, 29, 29, 29, 27, 26, 25, 29, 29, 29, 27, 26, 29, 29, 29, 29, 26, 25, 29, 29, 29,
    27, 26, 25, 29, 29, 29, 27, 25, 29, 29, 29, 27, 26, 25, 29, 29, 29, 27, 26, 29, 29, 29, 29, 26, 25, 29, 29, 29,
    27, 26, 25, 29, 29, 29, 27, 25, 29, 29, 29, 27, 26, 25, 29, 29, 29, 27, 26, 29, 29, 29, 29, 26, 25, 29, 29, 29,
    27, 26, 25, 29, 29, 29, 27, 25, 29, 29, 29, 27, 26, 25, 29, 29, 29, 27, 26, 29, 29, 29, 29, 26, 25, 29, 29, 29,
    27, 26, 25, 29, 29, 29, 29, 26, 25, 29, 29, 29, 27, 26, 25, 29, 29, 29, 27, 25, 29, 29, 29, 27, 26, 25, 29, 29,
    29, 27, 26, 29, 29, 29, 29, 26, 25, 29, 29, 29, 27, 26, 25, 29, 29, 29, 27, 25, 29, 29, 29, 27, 26, 25, 29, 29,
    29, 27, 26, 29, 29, 29, 29, 26, 25, 29, 29, 29, 27, 26, 25, 29, 29, 29, 27, 25, 29, 29, 29, 27, 26, 25, 29, 29,
    29, 27, 26, 29, 29, 29, 29, 26, 25, 29, 29, 29, 27, 26, 25, 29, 29, 29, 27]
  | 12 => [
    23, 23, 23, 22, 21, 20, 23, 23, 23, 22, 21, 23, 23, 23, 23, 21, 20, 23, 23, 23, 22, 21, 20, 23, 23, 23, 22, 20,
    23, 23, 23, 22, 21, 20, 23, 23, 23, 22, 21, 23, 23, 23, 23, 21, 20, 23, 23, 23, 22, 21, 20, 23, 23, 23, 22, 20,
    23, 23, 23, 22, 21, 20, 23, 23, 23, 22, 21, 23, 23, 23, 23, 21, 20, 23, 23, 23, 22, 21, 20, 23, 23, 23, 22, 20,
    23, 23, 23, 22, 21, 20, 19, 22, 22, 22, 21, 19, 22, 22, 22, 21, 20, 19, 22, 22, 22, 21, 18, 22, 22, 22, 22, 20,
    19, 22, 22, 22, 21, 20, 23, 23, 23, 22, 21, 23, 23, 23, 23, 21, 20, 23, 23, 23, 22, 21, 20, 23, 23, 23, 22, 20,
    23, 23, 23, 22, 21, 20, 23, 23, 23, 22, 21, 23, 23, 23, 23, 21, 20, 23, 23, 23, 22, 21, 20, 23, 23, 23, 22, 20,
    23, 23, 23, 22, 21, 20, 23, 23, 23, 22, 21, 23, 23, 23, 23, 21, 20, 23, 23, 23, 22, 21, 20, 23, 23, 23, 22, 20,
    23, 23, 23, 23, 22, 21, 20, 23, 23, 23, 22, 20, 23, 23, 23, 22, 21, 20, 23, 23, 23, 22, 21, 23, 23, 23, 23, 21,
    20, 23, 23, 23, 22, 21, 20, 23, 23, 23, 22, 20, 23, 23, 23, 22, 21, 20, 23, 23, 23, 22, 21, 23, 23, 23, 23, 21,
    20, 23, 23, 23, 22, 21, 20, 23, 23, 23, 22, 20, 23, 23, 23, 22, 21, 20, 23, 23, 23, 22, 21, 23, 23, 23, 23, 21,
    20, 23, 23, 23, 22, 21, 20, 23, 23, 23, 22, 20, 23, 23, 23, 22, 21, 20, 23]
  | _ => []

end Qlab
