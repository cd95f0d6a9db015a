import Verif.Model.Easter

/-! Generated by `tools/gen_calendars.py` from `third-parties/calendar/src/hongkong.rs`. -/

namespace Qlab

namespace HongKong

set_option maxRecDepth 4000 in
/-- `HongKong::is_business_day` (`third-parties/calendar/src/hongkong.rs:11-370`). -/
def isBusinessDay (date : NaiveDate) : Rust Bool :=
  let d := date.day
  let w := date.weekday
  let m := date.month
  let y := date.year
  let dd := date.ordinal
  easterMonday y >>= fun em =>
  if isWeekend date
      || ((d == 1 || (d == 2 && w == .Mon)) && m == 1)
      || dd == em - 3
      || dd == em
      || ((d == 1 || (d == 2 && w == .Mon)) && m == 5)
      || ((d == 1 || (d == 2 && w == .Mon)) && m == 7)
      || ((d == 1 || (d == 2 && w == .Mon)) && m == 10)
      || (d == 25 && m == 12)
      || (d == 26 && m == 12)
  then
    .ok (false)
  else
  if y == 2004 && (((d == 22 || d == 23 || d == 24) && m == 1) || (d == 5 && m == 4) || (d == 26 && m == 5) || (d == 22 && m == 6) || (d == 29 && m == 9) || (d == 22 && m == 10))
  then
    .ok (false)
  else
  if y == 2005 && (((d == 9 || d == 10 || d == 11) && m == 2) || (d == 5 && m == 4) || (d == 16 && m == 5) || (d == 11 && m == 6) || (d == 19 && m == 9) || (d == 11 && m == 10))
  then
    .ok (false)
  else
  if y == 2006 && (((decide (28 ≤ d) && decide (d ≤ 31)) && m == 1) || (d == 5 && m == 4) || (d == 5 && m == 5) || (d == 31 && m == 5) || (d == 7 && m == 10) || (d == 30 && m == 10))
  then
    .ok (false)
  else
  if y == 2007 && (((decide (17 ≤ d) && decide (d ≤ 20)) && m == 2) || (d == 5 && m == 4) || (d == 24 && m == 5) || (d == 19 && m == 6) || (d == 26 && m == 9) || (d == 19 && m == 10))
  then
    .ok (false)
  else
  if y == 2008 && (((decide (7 ≤ d) && decide (d ≤ 9)) && m == 2) || (d == 4 && m == 4) || (d == 12 && m == 5) || (d == 9 && m == 6) || (d == 15 && m == 9) || (d == 7 && m == 10))
  then
    .ok (false)
  else
  if y == 2009 && (((decide (26 ≤ d) && decide (d ≤ 28)) && m == 1) || (d == 4 && m == 4) || (d == 2 && m == 5) || (d == 28 && m == 5) || (d == 3 && m == 10) || (d == 26 && m == 10))
  then
    .ok (false)
  else
  if y == 2010 && (((d == 15 || d == 16) && m == 2) || (d == 6 && m == 4) || (d == 21 && m == 5) || (d == 16 && m == 6) || (d == 23 && m == 9))
  then
    .ok (false)
  else
  if y == 2011 && (((d == 3 || d == 4) && m == 2) || (d == 5 && m == 4) || (d == 10 && m == 5) || (d == 6 && m == 6) || (d == 13 && m == 9) || (d == 5 && m == 10) || (d == 27 && m == 12))
  then
    .ok (false)
  else
  if y == 2012 && (((decide (23 ≤ d) && decide (d ≤ 25)) && m == 1) || (d == 4 && m == 4) || (d == 10 && m == 5) || (d == 1 && m == 10) || (d == 23 && m == 10))
  then
    .ok (false)
  else
  if y == 2013 && (((decide (11 ≤ d) && decide (d ≤ 13)) && m == 2) || (d == 4 && m == 4) || (d == 17 && m == 5) || (d == 12 && m == 6) || (d == 20 && m == 9) || (d == 14 && m == 10))
  then
    .ok (false)
  else
  if y == 2014 && ((d == 31 && m == 1) || (decide (d ≤ 3) && m == 2) || (d == 6 && m == 5) || (d == 2 && m == 6) || (d == 9 && m == 9) || (d == 2 && m == 10))
  then
    .ok (false)
  else
  if y == 2015 && (!(m != 2 || (d != 19 && d != 20)) || (d == 7 && m == 4) || (d == 25 && m == 5) || (d == 20 && m == 6) || (d == 3 && m == 9) || (d == 28 && m == 9) || (d == 21 && m == 10))
  then
    .ok (false)
  else
  if y == 2016 && (((decide (8 ≤ d) && decide (d ≤ 10)) && m == 2) || (d == 4 && m == 4) || (d == 9 && m == 6) || (d == 16 && m == 9) || (d == 10 && m == 10) || (d == 27 && m == 12))
  then
    .ok (false)
  else
  if y == 2017 && (((d == 30 || d == 31) && m == 1) || (d == 4 && m == 4) || (d == 3 && m == 5) || (d == 30 && m == 5) || (d == 5 && m == 10))
  then
    .ok (false)
  else
  if y == 2018 && (!(m != 2 || (d != 16 && d != 19)) || (d == 5 && m == 4) || (d == 22 && m == 5) || (d == 18 && m == 6) || (d == 25 && m == 9) || (d == 17 && m == 10))
  then
    .ok (false)
  else
  if y == 2019 && (((decide (5 ≤ d) && decide (d ≤ 7)) && m == 2) || (d == 5 && m == 4) || (d == 7 && m == 6) || (d == 7 && m == 10))
  then
    .ok (false)
  else
  if y == 2020 && (((d == 27 || d == 28) && m == 1) || (d == 4 && m == 4) || (d == 30 && m == 4) || (d == 25 && m == 6) || (d == 2 && m == 10) || (d == 26 && m == 10))
  then
    .ok (false)
  else
  if y == 2021 && (((d == 12 || d == 15) && m == 2) || (d == 5 && m == 4) || (d == 19 && m == 5) || (d == 14 && m == 6) || (d == 22 && m == 9) || (d == 14 && m == 10))
  then
    .ok (false)
  else
  if y == 2022 && (((decide (1 ≤ d) && decide (d ≤ 3)) && m == 2) || (d == 5 && m == 4) || (d == 9 && m == 5) || (d == 3 && m == 6) || (d == 12 && m == 9) || (d == 4 && m == 10))
  then
    .ok (false)
  else
  if y == 2023 && (((decide (23 ≤ d) && decide (d ≤ 25)) && m == 1) || (d == 5 && m == 4) || (d == 26 && m == 5) || (d == 22 && m == 6) || (d == 23 && m == 10))
  then
    .ok (false)
  else
  if y == 2024 && (((d == 12 || d == 13) && m == 2) || (d == 4 && m == 4) || (d == 15 && m == 5) || (d == 10 && m == 6) || (d == 18 && m == 9) || (d == 11 && m == 10))
  then
    .ok (false)
  else
  .ok (true)

end HongKong

/-- The calendar `HongKong` (`third-parties/calendar/src/hongkong.rs:8`). -/
def Calendar.hongKong : Calendar where
  isBusinessDay date := HongKong.isBusinessDay date

end Qlab
