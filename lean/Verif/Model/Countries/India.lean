import Verif.Model.Easter

/-! Generated by `tools/gen_calendars.py` from `third-parties/calendar/src/india.rs`. -/

namespace Qlab

namespace India

set_option maxRecDepth 4000 in
/-- `India::is_business_day` (`third-parties/calendar/src/india.rs:11-428`). -/
def isBusinessDay (date : NaiveDate) : Rust Bool :=
  let d := date.day
  let m := date.month
  let y := date.year
  let dd := date.ordinal
  easterMonday y >>= fun em =>
  if isWeekend date
      || (d == 26 && m == 1)
      || dd == em - 3
      || (d == 14 && m == 4)
      || (d == 1 && m == 5)
      || (d == 15 && m == 8)
      || (d == 2 && m == 10)
      || (d == 25 && m == 12)
  then
    .ok (false)
  else
  if y == 2005 && ((d == 21 && m == 1) || (d == 7 && m == 9) || (d == 12 && m == 10) || (d == 1 && m == 11) || (d == 3 && m == 11) || (d == 15 && m == 11))
  then
    .ok (false)
  else
  if y == 2006 && ((d == 11 && m == 1) || (d == 9 && m == 2) || (d == 15 && m == 3) || (d == 6 && m == 4) || (d == 11 && m == 4) || (d == 1 && m == 5) || (d == 24 && m == 10) || (d == 25 && m == 10))
  then
    .ok (false)
  else
  if y == 2007 && (!(m != 1 || (d != 1 && d != 30)) || (d == 16 && m == 2) || (d == 27 && m == 3) || (d == 1 && m == 5) || (d == 2 && m == 5) || (d == 9 && m == 11) || (d == 21 && m == 12))
  then
    .ok (false)
  else
  if y == 2008 && (!(m != 3 || (d != 6 && d != 20)) || (d == 18 && m == 4) || (d == 1 && m == 5) || (d == 19 && m == 5) || (d == 3 && m == 9) || (d == 2 && m == 10) || (d == 9 && m == 10) || (d == 28 && m == 10) || (d == 30 && m == 10) || (d == 13 && m == 11) || (d == 9 && m == 12))
  then
    .ok (false)
  else
  if y == 2009 && ((d == 8 && m == 1) || (d == 23 && m == 2) || (d == 10 && m == 3) || (d == 11 && m == 3) || (d == 3 && m == 4) || (d == 7 && m == 4) || (d == 1 && m == 5) || (d == 21 && m == 9) || (d == 28 && m == 9) || (d == 19 && m == 10) || (d == 2 && m == 11) || (d == 28 && m == 12))
  then
    .ok (false)
  else
  if y == 2010 && ((d == 1 && m == 1) || (d == 12 && m == 2) || (d == 1 && m == 3) || (d == 24 && m == 3) || (d == 10 && m == 9) || (d == 5 && m == 11) || (d == 17 && m == 11) || (d == 17 && m == 12))
  then
    .ok (false)
  else
  if y == 2011 && ((d == 2 && m == 3) || (d == 12 && m == 4) || (d == 31 && m == 8) || (d == 1 && m == 9) || (d == 6 && m == 10) || (d == 26 && m == 10) || (d == 27 && m == 10) || (d == 7 && m == 11) || (d == 10 && m == 11) || (d == 6 && m == 12))
  then
    .ok (false)
  else
  if y == 2012 && ((d == 20 && m == 2) || (d == 8 && m == 3) || (d == 5 && m == 4) || (d == 20 && m == 8) || (d == 19 && m == 9) || (d == 24 && m == 10) || (d == 14 && m == 11) || (d == 28 && m == 11))
  then
    .ok (false)
  else
  if y == 2013 && ((d == 27 && m == 3) || (d == 19 && m == 4) || (d == 24 && m == 4) || (d == 9 && m == 8) || (d == 9 && m == 9) || (d == 16 && m == 10) || (d == 4 && m == 11) || (d == 14 && m == 11))
  then
    .ok (false)
  else
  if y == 2014 && ((d == 27 && m == 2) || (d == 17 && m == 3) || (d == 8 && m == 4) || (d == 29 && m == 7) || (d == 29 && m == 8) || (d == 3 && m == 10) || (d == 6 && m == 10) || (d == 24 && m == 10) || (d == 4 && m == 11) || (d == 6 && m == 11))
  then
    .ok (false)
  else
  if y == 2019 && ((d == 19 && m == 2) || (d == 4 && m == 3) || (d == 21 && m == 3) || (d == 1 && m == 4) || (d == 17 && m == 4) || (d == 29 && m == 4) || (d == 5 && m == 6) || (d == 12 && m == 8) || (d == 2 && m == 9) || (d == 10 && m == 9) || (d == 8 && m == 10) || (d == 21 && m == 10) || (d == 28 && m == 10) || (d == 12 && m == 11))
  then
    .ok (false)
  else
  if y == 2020 && (!(m != 2 || (d != 19 && d != 21)) || (d == 10 && m == 3) || (d == 25 && m == 3) || (d == 1 && m == 4) || (d == 2 && m == 4) || (d == 6 && m == 4) || (d == 7 && m == 5) || (d == 25 && m == 5) || (d == 30 && m == 10) || (d == 16 && m == 11) || (d == 30 && m == 11))
  then
    .ok (false)
  else
  if y == 2021 && ((d == 19 && m == 2) || (d == 11 && m == 3) || (d == 29 && m == 3) || (d == 13 && m == 4) || (d == 14 && m == 4) || (d == 21 && m == 4) || (d == 26 && m == 5) || (d == 21 && m == 7) || (d == 10 && m == 9) || (d == 15 && m == 10) || (d == 19 && m == 10) || (d == 5 && m == 11) || (d == 19 && m == 11))
  then
    .ok (false)
  else
  if y == 2022 && (!(m != 3 || (d != 1 && d != 18)) || (d == 3 && m == 5) || (d == 16 && m == 5) || (d == 31 && m == 8) || (d == 5 && m == 10) || (d == 26 && m == 10) || (d == 8 && m == 11))
  then
    .ok (false)
  else
  if y == 2023 && (!(m != 3 || (d != 8 && d != 22 && d != 30)) || (d == 4 && m == 4) || (d == 5 && m == 5) || (d == 28 && m == 6) || (d == 19 && m == 9) || (d == 28 && m == 9) || (d == 24 && m == 10) || (d == 14 && m == 11) || (d == 27 && m == 11))
  then
    .ok (false)
  else
  if y == 2024 && ((d == 19 && m == 2) || (d == 8 && m == 3) || (d == 25 && m == 3) || (d == 9 && m == 4) || (d == 17 && m == 4) || (d == 21 && m == 4) || (d == 23 && m == 5) || (d == 17 && m == 6) || (d == 27 && m == 8) || (d == 16 && m == 9) || (d == 15 && m == 11))
  then
    .ok (false)
  else
  if y == 2025 && (!(m != 2 || (d != 19 && d != 26)) || (d == 14 && m == 3) || (d == 31 && m == 3) || (d == 10 && m == 4) || (d == 12 && m == 5) || (d == 5 && m == 9) || (d == 2 && m == 10) || (d == 22 && m == 10) || (d == 5 && m == 11))
  then
    .ok (false)
  else
  .ok (true)

end India

/-- The calendar `India` (`third-parties/calendar/src/india.rs:8`). -/
def Calendar.india : Calendar where
  isBusinessDay date := India.isBusinessDay date

end Qlab
