import Verif.Model.Easter

/-! Generated by `tools/gen_calendars.py` from `third-parties/calendar/src/russia.rs`. -/

namespace Qlab

/-- `RussiaMarket` (`third-parties/calendar/src/russia.rs:8`). -/
inductive RussiaMarket where
  | Settlement
  | Exchange
  deriving DecidableEq

namespace Russia

/-- `Russia::is_extra_holiday_settlement` (`third-parties/calendar/src/russia.rs:19-28`). -/
def isExtraHolidaySettlement (date : NaiveDate) : Bool :=
  let d := date.day
  let m := date.month
  let y := date.year
  if y == 2017 then
    (m == 2 && d == 24) || (m == 5 && d == 8) || (m == 11 && d == 6)
  else
  if y == 2018 then
    (m == 3 && d == 9) || (m == 4 && d == 30) || (m == 5 && d == 2) || (m == 6 && d == 11) || (m == 12 && d == 31)
  else
  if y == 2019 then
    m == 5 && (d == 2 || d == 3 || d == 9)
  else
  if y == 2020 then
    (m == 3 && (d == 30 || d == 31)) || (m == 4 && (decide (1 ≤ d) && decide (d ≤ 3)))
  else
  false

/-- `Russia::is_extra_holiday_exchange` (`third-parties/calendar/src/russia.rs:30-44`). -/
def isExtraHolidayExchange (date : NaiveDate) : Bool :=
  let d := date.day
  let m := date.month
  let y := date.year
  if y == 2012 then
    (m == 1 && d == 2) || (m == 3 && d == 9) || (m == 4 && d == 30) || (m == 6 && d == 11)
  else
  if y == 2013 then
    m == 1 && (d == 1 || d == 2 || d == 3 || d == 4 || d == 7)
  else
  if y == 2014 then
    m == 1 && (d == 1 || d == 2 || d == 3 || d == 7)
  else
  if y == 2015 then
    m == 1 && (d == 1 || d == 2 || d == 7)
  else
  if y == 2016 then
    (m == 1 && (d == 1 || d == 7 || d == 8)) || (m == 5 && (d == 2 || d == 3)) || (m == 6 && d == 13) || (m == 12 && d == 30)
  else
  if y == 2017 then
    (m == 1 && d == 2) || (m == 5 && d == 8)
  else
  if y == 2018 then
    (m == 1 && (d == 1 || d == 2 || d == 8)) || (m == 12 && d == 31)
  else
  if y == 2019 then
    (m == 1 && (d == 1 || d == 2 || d == 7)) || (m == 12 && d == 31)
  else
  if y == 2020 then
    ((m == 1 || m == 7) && d == 1) || (m == 1 && (d == 2 || d == 7)) || ((m == 2 || m == 6) && d == 24)
  else
  false

/-- `Russia::is_working_weekend` (`third-parties/calendar/src/russia.rs:46-54`). -/
def isWorkingWeekend (date : NaiveDate) : Bool :=
  let d := date.day
  let m := date.month
  let y := date.year
  if y == 2012 then
    (m == 3 && d == 11) || (m == 4 && d == 28) || (m == 5 && (d == 5 || d == 12)) || (m == 6 && d == 9)
  else
  if y == 2016 then
    m == 2 && d == 20
  else
  if y == 2018 then
    (m == 4 && d == 28) || (m == 6 && d == 9) || (m == 12 && d == 29)
  else
  false

/-- `Russia::settlement_is_business_day` (`third-parties/calendar/src/russia.rs:56-93`). -/
def settlementIsBusinessDay (date : NaiveDate) : Bool :=
  let d := date.day
  let w := date.weekday
  let m := date.month
  let y := date.year
  if isWeekend date
      || isExtraHolidaySettlement date
      || (decide (y ≤ 2005) && decide (d ≤ 2) && m == 1)
      || (decide (y ≥ 2005) && decide (d ≤ 5) && m == 1)
      || (y == 2012 && d == 6 && m == 1)
      || ((d == 7 || ((d == 8 || d == 9) && w == .Mon)) && m == 1)
      || ((d == 23 || ((d == 24 || d == 25) && w == .Mon)) && m == 2)
      || ((d == 8 || ((d == 9 || d == 10) && w == .Mon)) && m == 3)
      || ((d == 1 || ((d == 2 || d == 3) && w == .Mon)) && m == 5)
      || ((d == 9 || ((d == 10 || d == 11) && w == .Mon)) && m == 5)
      || ((d == 12 || ((d == 13 || d == 14) && w == .Mon)) && m == 6)
      || ((d == 4 || ((d == 5 || d == 6) && w == .Mon)) && m == 11)
  then
    false
  else
    true

/-- `Russia::exchange_is_business_day` (`third-parties/calendar/src/russia.rs:95-124`). -/
def exchangeIsBusinessDay (date : NaiveDate) : Bool :=
  let d := date.day
  let w := date.weekday
  let m := date.month
  if isWorkingWeekend date
  then
    true
  else
  if isWeekend date
      || isExtraHolidayExchange date
      || (d == 23 && m == 2)
      || ((d == 8 || ((d == 9 || d == 10) && w == .Mon)) && m == 3)
      || (d == 1 && m == 5)
      || ((d == 9 || ((d == 10 || d == 11) && w == .Mon)) && m == 5)
      || (d == 12 && m == 6)
      || ((d == 4 || ((d == 5 || d == 6) && w == .Mon)) && m == 11)
      || (d == 31 && m == 12)
  then
    false
  else
  true

/-- `Russia::is_business_day` (`third-parties/calendar/src/russia.rs:128-134`). -/
def isBusinessDay (market : Option RussiaMarket) (date : NaiveDate) : Bool :=
  match market with
  | some .Settlement =>
    settlementIsBusinessDay date
  | some .Exchange =>
    exchangeIsBusinessDay date
  | none =>
    settlementIsBusinessDay date

end Russia

/-- The calendar `Russia` (`third-parties/calendar/src/russia.rs:14`). -/
def Calendar.russia (market : Option RussiaMarket) : Calendar where
  isBusinessDay date := .ok (Russia.isBusinessDay market date)

end Qlab
