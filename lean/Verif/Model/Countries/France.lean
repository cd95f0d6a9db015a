import Verif.Model.Easter

/-! Generated by `tools/gen_calendars.py` from `third-parties/calendar/src/france.rs`. -/

namespace Qlab

/-- `FranceMarket` (`third-parties/calendar/src/france.rs:8`). -/
inductive FranceMarket where
  | Settlement
  | Exchange
  deriving DecidableEq

namespace France

/-- `France::settlement_is_business_day` (`third-parties/calendar/src/france.rs:19-50`). -/
def settlementIsBusinessDay (date : NaiveDate) : Rust Bool :=
  let d := date.day
  let m := date.month
  let y := date.year
  let dd := date.ordinal
  easterMonday y >>= fun em =>
  if isWeekend date
      || (d == 1 && m == 1)
      || dd == em
      || (d == 1 && m == 5)
      || (d == 8 && m == 5)
      || (d == 10 && m == 5)
      || (d == 21 && m == 5)
      || (d == 14 && m == 7)
      || (d == 15 && m == 8)
      || (d == 1 && m == 11)
      || (d == 11 && m == 11)
      || (d == 25 && m == 12)
  then
    .ok (false)
  else
  .ok (true)

/-- `France::exchange_is_business_day` (`third-parties/calendar/src/france.rs:52-78`). -/
def exchangeIsBusinessDay (date : NaiveDate) : Rust Bool :=
  let d := date.day
  let m := date.month
  let y := date.year
  let dd := date.ordinal
  easterMonday y >>= fun em =>
  if isWeekend date
      || (d == 1 && m == 1)
      || dd == em - 3
      || dd == em
      || (d == 1 && m == 5)
      || (d == 24 && m == 12)
      || (d == 25 && m == 12)
      || (d == 26 && m == 12)
      || (d == 31 && m == 12)
  then
    .ok (false)
  else
    .ok (true)

/-- `France::is_business_day` (`third-parties/calendar/src/france.rs:82-88`). -/
def isBusinessDay (market : Option FranceMarket) (date : NaiveDate) : Rust Bool :=
  match market with
  | some .Settlement =>
    settlementIsBusinessDay date
  | some .Exchange =>
    exchangeIsBusinessDay date
  | none =>
    settlementIsBusinessDay date

end France

/-- The calendar `France` (`third-parties/calendar/src/france.rs:14`). -/
def Calendar.france (market : Option FranceMarket) : Calendar where
  isBusinessDay date := France.isBusinessDay market date

end Qlab
