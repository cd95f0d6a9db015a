import Verif.Model.Easter

/-! Generated by `tools/gen_calendars.py` from `third-parties/calendar/src/indonesia.rs`. -/

namespace Qlab

namespace Indonesia

set_option maxRecDepth 4000 in
/-- `Indonesia::is_business_day` (`third-parties/calendar/src/indonesia.rs:11-228`). -/
def isBusinessDay (date : NaiveDate) : Rust Bool :=
  let d := date.day
  let m := date.month
  let y := date.year
  let dd := date.ordinal
  easterMonday y >>= fun em =>
  if isWeekend date
      || (d == 1 && m == 1)
      || dd == em - 3
      || dd == em + 38
      || (d == 17 && m == 8)
      || (d == 25 && m == 12)
  then
    .ok (false)
  else
  if y == 2005 && ((d == 21 && m == 1) || (d == 9 && m == 2) || (d == 10 && m == 2) || (d == 11 && m == 3) || (d == 22 && m == 4) || (d == 24 && m == 5) || (d == 2 && m == 9) || ((d == 3 || d == 4) && m == 11) || ((d == 2 || d == 7 || d == 8) && m == 11) || (d == 26 && m == 12))
  then
    .ok (false)
  else
  if y == 2006 && (!(m != 1 || (d != 10 && d != 31)) || (d == 30 && m == 3) || (d == 10 && m == 4) || (d == 21 && m == 8) || ((d == 24 || d == 25) && m == 10) || ((d == 23 || d == 26 || d == 27) && m == 10))
  then
    .ok (false)
  else
  if y == 2007 && ((d == 19 && m == 3) || (d == 1 && m == 6) || (d == 20 && m == 12) || (d == 18 && m == 5) || ((d == 12 || d == 15 || d == 16) && m == 10) || ((d == 21 || d == 24) && m == 10))
  then
    .ok (false)
  else
  if y == 2008 && (((d == 10 || d == 11) && m == 1) || ((d == 7 || d == 8) && m == 2) || (d == 7 && m == 3) || (d == 20 && m == 3) || (d == 20 && m == 5) || (d == 30 && m == 7) || (d == 18 && m == 8) || (d == 30 && m == 9) || ((d == 1 || d == 2 || d == 3) && m == 10) || (d == 8 && m == 12) || (d == 29 && m == 12) || (d == 31 && m == 12))
  then
    .ok (false)
  else
  if y == 2009 && (!(m != 1 || (d != 2 && d != 26)) || (d == 9 && m == 3) || (d == 26 && m == 3) || (d == 9 && m == 4) || (d == 20 && m == 7) || ((decide (18 ≤ d) && decide (d ≤ 23)) && m == 9) || (d == 27 && m == 11) || (d == 18 && m == 12) || (d == 24 && m == 12) || (d == 31 && m == 12))
  then
    .ok (false)
  else
  if y == 2010 && ((d == 26 && m == 2) || (d == 16 && m == 3) || (d == 28 && m == 5) || ((decide (8 ≤ d) && decide (d ≤ 14)) && m == 9) || (d == 17 && m == 11) || (d == 7 && m == 12) || (d == 24 && m == 12) || (d == 31 && m == 12))
  then
    .ok (false)
  else
  if y == 2011 && (!(m != 2 || (d != 3 && d != 15)) || (d == 17 && m == 5) || (d == 29 && m == 6) || (decide (d ≥ 29) && m == 8) || (decide (d ≤ 2) && m == 9) || (d == 26 && m == 12))
  then
    .ok (false)
  else
  if y == 2012 && (!(d != 23 || (m != 1 && m != 3)) || ((decide (20 ≤ d) && decide (d ≤ 22)) && m == 8) || (d == 26 && m == 10) || ((decide (15 ≤ d) && decide (d ≤ 16)) && m == 11) || (d == 24 && m == 12) || (d == 31 && m == 12))
  then
    .ok (false)
  else
  if y == 2013 && ((d == 24 && m == 1) || (d == 12 && m == 3) || (d == 6 && m == 6) || ((decide (5 ≤ d) && decide (d ≤ 9)) && m == 8) || ((decide (14 ≤ d) && decide (d ≤ 15)) && m == 10) || (d == 5 && m == 11) || (d == 26 && m == 12) || (d == 31 && m == 12))
  then
    .ok (false)
  else
  if y == 2014 && (!(m != 1 || (d != 14 && d != 31)) || (d == 31 && m == 3) || (d == 1 && m == 5) || (d == 15 && m == 5) || (d == 27 && m == 5) || (d == 29 && m == 5) || ((decide (d ≥ 28) && m == 7) || (d == 1 && m == 8)) || (d == 26 && m == 12) || (d == 31 && m == 12))
  then
    .ok (false)
  else
  .ok (true)

end Indonesia

/-- The calendar `Indonesia` (`third-parties/calendar/src/indonesia.rs:8`). -/
def Calendar.indonesia : Calendar where
  isBusinessDay date := Indonesia.isBusinessDay date

end Qlab
