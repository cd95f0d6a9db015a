import Verif.Model.Easter

/-! Generated by `tools/gen_calendars.py` from `third-parties/calendar/src/unitedkingdom.rs`. -/

namespace Qlab

/-- `UnitedKingdomMarket` (`third-parties/calendar/src/unitedkingdom.rs:7`). -/
inductive UnitedKingdomMarket where
  | Settlement
  | Exchange
  | Metals
  deriving DecidableEq

namespace UnitedKingdom

/-- `UnitedKingdom::special_bank_holiday` (`third-parties/calendar/src/unitedkingdom.rs:19-47`). -/
def specialBankHoliday (date : NaiveDate) : Bool :=
  let d := date.day
  let w := date.weekday
  let m := date.month
  let y := date.year
  if (decide (d ≤ 7) && w == .Mon && m == 5 && y != 1995 && y != 2020)
      || (d == 8 && m == 5 && (y == 1995 || y == 2020))
      || (decide (d ≥ 25) && w == .Mon && m == 5 && y != 2002 && y != 2012 && y != 2022)
      || ((d == 3 || d == 4) && m == 6 && y == 2002)
      || ((d == 4 || d == 5) && m == 6 && y == 2012)
      || ((d == 2 || d == 3) && m == 6 && y == 2022)
      || (decide (d ≥ 25) && w == .Mon && m == 8)
      || (d == 29 && m == 4 && y == 2011)
      || (d == 19 && m == 9 && y == 2022)
      || (d == 8 && m == 5 && y == 2023)
  then
    true
  else
    false

/-- `UnitedKingdom::settlement_is_business_day` (`third-parties/calendar/src/unitedkingdom.rs:49-71`). -/
def settlementIsBusinessDay (date : NaiveDate) : Rust Bool :=
  let d := date.day
  let w := date.weekday
  let m := date.month
  let y := date.year
  let dd := date.ordinal
  easterMonday y >>= fun em =>
  if isWeekend date
      || ((d == 1 || ((d == 2 || d == 3) && w == .Mon)) && m == 1)
      || dd == em - 3
      || dd == em
      || specialBankHoliday date
      || ((d == 25 || (d == 27 && (w == .Mon || w == .Tue))) && m == 12)
      || ((d == 26 || (d == 28 && (w == .Mon || w == .Tue))) && m == 12)
      || (d == 31 && m == 12 && y == 1999)
  then
    .ok (false)
  else
    .ok (true)

/-- `UnitedKingdom::exchange_is_business_day` (`third-parties/calendar/src/unitedkingdom.rs:72-74`). -/
def exchangeIsBusinessDay (date : NaiveDate) : Rust Bool :=
  settlementIsBusinessDay date

/-- `UnitedKingdom::metals_is_business_day` (`third-parties/calendar/src/unitedkingdom.rs:75-77`). -/
def metalsIsBusinessDay (date : NaiveDate) : Rust Bool :=
  settlementIsBusinessDay date

/-- `UnitedKingdom::is_business_day` (`third-parties/calendar/src/unitedkingdom.rs:81-88`). -/
def isBusinessDay (market : Option UnitedKingdomMarket) (date : NaiveDate) : Rust Bool :=
  match market with
  | some .Settlement =>
    settlementIsBusinessDay date
  | some .Exchange =>
    exchangeIsBusinessDay date
  | some .Metals =>
    metalsIsBusinessDay date
  | none =>
    settlementIsBusinessDay date

end UnitedKingdom

/-- The calendar `UnitedKingdom` (`third-parties/calendar/src/unitedkingdom.rs:14`). -/
def Calendar.unitedKingdom (market : Option UnitedKingdomMarket) : Calendar where
  isBusinessDay date := UnitedKingdom.isBusinessDay market date

end Qlab
