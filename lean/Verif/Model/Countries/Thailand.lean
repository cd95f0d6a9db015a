import Verif.Model.Easter

/-! Generated by `tools/gen_calendars.py` from `third-parties/calendar/src/thailand.rs`. -/

namespace Qlab

namespace Thailand

set_option maxRecDepth 4000 in
/-- `Thailand::is_business_day` (`third-parties/calendar/src/thailand.rs:11-282`). -/
def isBusinessDay (date : NaiveDate) : Rust Bool :=
  let d := date.day
  let w := date.weekday
  let m := date.month
  let y := date.year
  easterMonday y >>= fun _ =>
  if isWeekend date
      || ((d == 1 || (d == 3 && w == .Mon)) && m == 1)
      || ((d == 6 || ((d == 7 || d == 8) && w == .Mon)) && m == 4)
      || ((d == 13 || d == 14 || d == 15) && m == 4)
      || (d == 16 && (w == .Mon || w == .Tue) && m == 4)
      || ((d == 1 || ((d == 2 || d == 3) && w == .Mon)) && m == 5)
      || ((d == 28 || ((d == 29 || d == 30) && w == .Mon)) && m == 7 && decide (y ≥ 2017))
      || ((d == 12 || ((d == 13 || d == 14) && w == .Mon)) && m == 8)
      || ((d == 13 || ((d == 14 || d == 15) && w == .Mon)) && m == 10 && decide (y ≥ 2017))
      || ((d == 5 || ((d == 6 || d == 7) && w == .Mon)) && m == 12)
      || ((d == 10 || ((d == 11 || d == 12) && w == .Mon)) && m == 12)
      || (d == 31 && m == 12)
      || ((d == 1 || d == 2) && w == .Mon && m == 1)
  then
    .ok (false)
  else
  if y == 2000 && ((d == 21 && m == 2) || (d == 5 && m == 5) || (d == 17 && m == 5) || (d == 17 && m == 7) || (d == 23 && m == 10))
  then
    .ok (false)
  else
  if y == 2001 && ((d == 8 && m == 2) || (d == 7 && m == 5) || (d == 8 && m == 5) || (d == 6 && m == 7) || (d == 23 && m == 10))
  then
    .ok (false)
  else
  if y == 2005 && ((d == 23 && m == 2) || (d == 5 && m == 5) || (d == 23 && m == 5) || (d == 1 && m == 7) || (d == 22 && m == 7) || (d == 24 && m == 10))
  then
    .ok (false)
  else
  if y == 2006 && ((d == 13 && m == 2) || (d == 19 && m == 4) || (d == 5 && m == 5) || (d == 12 && m == 5) || (d == 12 && m == 6) || (d == 13 && m == 6) || (d == 11 && m == 7) || (d == 23 && m == 10))
  then
    .ok (false)
  else
  if y == 2007 && ((d == 5 && m == 3) || (d == 7 && m == 5) || (d == 31 && m == 5) || (d == 30 && m == 7) || (d == 23 && m == 10) || (d == 24 && m == 12))
  then
    .ok (false)
  else
  if y == 2008 && ((d == 21 && m == 2) || (d == 5 && m == 5) || (d == 19 && m == 5) || (d == 1 && m == 7) || (d == 17 && m == 7) || (d == 23 && m == 10))
  then
    .ok (false)
  else
  if y == 2009 && ((d == 2 && m == 1) || (d == 9 && m == 2) || (d == 5 && m == 5) || (d == 8 && m == 5) || (d == 1 && m == 7) || (d == 6 && m == 7) || (d == 7 && m == 7) || (d == 23 && m == 10))
  then
    .ok (false)
  else
  if y == 2010 && ((d == 1 && m == 3) || (d == 5 && m == 5) || (d == 20 && m == 5) || (d == 21 && m == 5) || (d == 28 && m == 5) || (d == 1 && m == 7) || (d == 26 && m == 7) || (d == 13 && m == 8) || (d == 25 && m == 10))
  then
    .ok (false)
  else
  if y == 2011 && ((d == 18 && m == 2) || (d == 5 && m == 5) || (d == 16 && m == 5) || (d == 17 && m == 5) || (d == 1 && m == 7) || (d == 15 && m == 7) || (d == 24 && m == 10))
  then
    .ok (false)
  else
  if y == 2012 && ((d == 3 && m == 1) || (d == 7 && m == 3) || (d == 9 && m == 4) || (d == 7 && m == 5) || (d == 4 && m == 6) || (d == 2 && m == 8) || (d == 23 && m == 10))
  then
    .ok (false)
  else
  if y == 2013 && ((d == 25 && m == 2) || (d == 6 && m == 5) || (d == 24 && m == 5) || (d == 1 && m == 7) || (d == 22 && m == 7) || (d == 23 && m == 10) || (d == 30 && m == 12))
  then
    .ok (false)
  else
  if y == 2014 && ((d == 14 && m == 2) || (d == 5 && m == 5) || (d == 13 && m == 5) || (d == 1 && m == 7) || (d == 11 && m == 7) || (d == 11 && m == 8) || (d == 23 && m == 10))
  then
    .ok (false)
  else
  if y == 2015 && ((d == 2 && m == 1) || (d == 4 && m == 3) || (d == 4 && m == 5) || (d == 5 && m == 5) || (d == 1 && m == 6) || (d == 1 && m == 7) || (d == 30 && m == 7) || (d == 23 && m == 10))
  then
    .ok (false)
  else
  if y == 2016 && ((d == 22 && m == 2) || (d == 5 && m == 5) || (d == 6 && m == 5) || (d == 20 && m == 5) || (d == 1 && m == 7) || (d == 18 && m == 7) || (d == 19 && m == 7) || (d == 24 && m == 10))
  then
    .ok (false)
  else
  if y == 2017 && ((d == 13 && m == 2) || (d == 10 && m == 5) || (d == 10 && m == 7) || (d == 23 && m == 10) || (d == 26 && m == 10))
  then
    .ok (false)
  else
  if y == 2018 && ((d == 1 && m == 3) || (d == 29 && m == 5) || (d == 27 && m == 7) || (d == 23 && m == 10))
  then
    .ok (false)
  else
  .ok (true)

end Thailand

/-- The calendar `Thailand` (`third-parties/calendar/src/thailand.rs:8`). -/
def Calendar.thailand : Calendar where
  isBusinessDay date := Thailand.isBusinessDay date

end Qlab
