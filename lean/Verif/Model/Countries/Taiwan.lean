import Verif.Model.Easter

/-! Generated by `tools/gen_calendars.py` from `third-parties/calendar/src/taiwan.rs`. -/

namespace Qlab

namespace Taiwan

set_option maxRecDepth 4000 in
/-- `Taiwan::is_business_day` (`third-parties/calendar/src/taiwan.rs:10-394`). -/
def isBusinessDay (date : NaiveDate) : Bool :=
  let d := date.day
  let m := date.month
  let y := date.year
  if isWeekend date
      || (d == 1 && m == 1)
      || (d == 28 && m == 2)
      || (d == 5 && m == 4 && y != 2008 && y != 2009 && y != 2012 && y != 2017)
      || (d == 1 && m == 5)
      || (d == 10 && m == 10)
  then
    false
  else
  if y == 2002 && ((decide (9 ≤ d) && decide (d ≤ 17)) && m == 2)
  then
    false
  else
  if y == 2003 && ((decide (d ≥ 31) && m == 1) || (decide (d ≤ 5) && m == 2) || (d == 4 && m == 6) || (d == 11 && m == 9))
  then
    false
  else
  if y == 2004 && (((decide (21 ≤ d) && decide (d ≤ 26)) && m == 1) || (d == 22 && m == 6) || (d == 28 && m == 9))
  then
    false
  else
  if y == 2005 && (((decide (6 ≤ d) && decide (d ≤ 13)) && m == 2) || (d == 2 && m == 5))
  then
    false
  else
  if y == 2006 && ((decide (d ≥ 28) && m == 1) || (decide (d ≤ 5) && m == 2) || (d == 31 && m == 5) || (d == 6 && m == 10))
  then
    false
  else
  if y == 2007 && (((decide (17 ≤ d) && decide (d ≤ 25)) && m == 2) || (d == 6 && m == 4) || (d == 18 && m == 6) || (d == 19 && m == 6) || (d == 24 && m == 9) || (d == 25 && m == 9))
  then
    false
  else
  if y == 2008 && (((decide (4 ≤ d) && decide (d ≤ 11)) && m == 2) || (d == 4 && m == 4))
  then
    false
  else
  if y == 2009 && (((decide (d ≥ 24) || d == 2) && m == 1) || (d == 4 && m == 4) || ((d == 28 || d == 29) && m == 5) || (d == 3 && m == 10))
  then
    false
  else
  if y == 2010 && (((decide (13 ≤ d) && decide (d ≤ 21)) && m == 1) || (d == 16 && m == 5) || (d == 22 && m == 9))
  then
    false
  else
  if y == 2011 && (((decide (2 ≤ d) && decide (d ≤ 7)) && m == 2) || (d == 4 && m == 4) || (d == 2 && m == 5) || (d == 6 && m == 6) || (d == 12 && m == 9))
  then
    false
  else
  if y == 2012 && (((decide (23 ≤ d) && decide (d ≤ 27)) && m == 1) || (d == 27 && m == 2) || (d == 4 && m == 4) || (d == 23 && m == 6) || (d == 30 && m == 9) || (d == 31 && m == 12))
  then
    false
  else
  if y == 2013 && (((decide (10 ≤ d) && decide (d ≤ 15)) && m == 2) || (d == 4 && m == 4) || (d == 12 && m == 6) || ((decide (19 ≤ d) && decide (d ≤ 20)) && m == 9))
  then
    false
  else
  if y == 2014 && (((decide (28 ≤ d) && decide (d ≤ 30)) && m == 1) || ((d == 31 && m == 1) || (decide (d ≤ 4) && m == 2)) || (d == 4 && m == 4) || (d == 2 && m == 6) || (d == 8 && m == 9))
  then
    false
  else
  if y == 2015 && ((d == 2 && m == 1) || ((decide (18 ≤ d) && decide (d ≤ 23)) && m == 2) || (d == 27 && m == 2) || (d == 3 && m == 4) || (d == 6 && m == 4) || (d == 19 && m == 6) || (d == 28 && m == 9) || (d == 9 && m == 10))
  then
    false
  else
  if y == 2016 && (((d == 29 || (decide (8 ≤ d) && decide (d ≤ 12))) && m == 2) || (d == 4 && m == 4) || (d == 2 && m == 5) || (d == 9 && m == 6) || (d == 10 && m == 6) || (d == 15 && m == 9) || (d == 16 && m == 9))
  then
    false
  else
  if y == 2017 && ((d == 2 && m == 1) || ((decide (d ≥ 27) && m == 1) || (d == 1 && m == 2)) || (d == 27 && m == 2) || (d == 3 && m == 4) || (d == 4 && m == 4) || (d == 29 && m == 5) || (d == 30 && m == 5) || (d == 4 && m == 10) || (d == 9 && m == 10))
  then
    false
  else
  if y == 2018 && (((decide (15 ≤ d) && decide (d ≤ 20)) && m == 2) || (d == 4 && m == 4) || (d == 6 && m == 4) || (d == 18 && m == 6) || (d == 24 && m == 9) || (d == 31 && m == 12))
  then
    false
  else
  if y == 2019 && (((decide (4 ≤ d) && decide (d ≤ 8)) && m == 2) || (d == 1 && m == 3) || (d == 4 && m == 4) || (d == 7 && m == 6) || (d == 13 && m == 9) || (d == 11 && m == 10))
  then
    false
  else
  if y == 2020 && ((((decide (24 ≤ d) && decide (d ≤ 29)) || d == 23) && m == 1) || (d == 2 && m == 4) || (d == 3 && m == 4) || (d == 25 && m == 6) || (d == 26 && m == 6) || (d == 1 && m == 10) || (d == 2 && m == 10) || (d == 9 && m == 10))
  then
    false
  else
  if y == 2021 && ((((decide (11 ≤ d) && decide (d ≤ 16)) || d == 10) && m == 2) || (d == 1 && m == 3) || (d == 2 && m == 4) || (d == 30 && m == 4) || (d == 14 && m == 6) || (d == 20 && m == 9) || (d == 21 && m == 9) || (d == 11 && m == 10) || (d == 31 && m == 12))
  then
    false
  else
  if y == 2022 && ((d == 31 && m == 1) || (decide (d ≤ 4) && m == 2) || (d == 4 && m == 4) || (d == 2 && m == 5) || (d == 3 && m == 6) || (d == 9 && m == 9))
  then
    false
  else
  if y == 2023 && ((((decide (25 ≤ d) && decide (d ≤ 27)) || d == 20 || d == 2 || (decide (21 ≤ d) && decide (d ≤ 24))) && m == 1) || (d == 27 && m == 2) || (d == 3 && m == 4) || (d == 4 && m == 4) || (d == 22 && m == 6) || (d == 23 && m == 6) || (d == 29 && m == 9) || (d == 9 && m == 10))
  then
    false
  else
  if y == 2024 && (((d == 28 || (decide (8 ≤ d) && decide (d ≤ 14))) && m == 2) || (d == 4 && m == 4) || (d == 10 && m == 6) || (d == 17 && m == 9))
  then
    false
  else
  true

end Taiwan

/-- The calendar `Taiwan` (`third-parties/calendar/src/taiwan.rs:7`). -/
def Calendar.taiwan : Calendar where
  isBusinessDay date := .ok (Taiwan.isBusinessDay date)

end Qlab
