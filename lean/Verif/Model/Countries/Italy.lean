import Verif.Model.Easter

/-! Generated by `tools/gen_calendars.py` from `third-parties/calendar/src/italy.rs`. -/

namespace Qlab

/-- `ItalyMarket` (`third-parties/calendar/src/italy.rs:8`). -/
inductive ItalyMarket where
  | Settlement
  | Exchange
  deriving DecidableEq

namespace Italy

/-- `Italy::settlement_is_business_day` (`third-parties/calendar/src/italy.rs:19-52`). -/
def settlementIsBusinessDay (date : NaiveDate) : Rust Bool :=
  let d := date.day
  let m := date.month
  let y := date.year
  let dd := date.ordinal
  easterMonday y >>= fun em =>
  if isWeekend date
      || (d == 1 && m == 1)
      || (d == 6 && m == 1)
      || dd == em
      || (d == 25 && m == 4)
      || (d == 1 && m == 5)
      || (d == 2 && m == 6 && decide (y ≥ 2000))
      || (d == 15 && m == 8)
      || (d == 1 && m == 11)
      || (d == 8 && m == 12)
      || (d == 25 && m == 12)
      || (d == 26 && m == 12)
      || (d == 31 && m == 12 && y == 1999)
  then
    .ok (false)
  else
  .ok (true)

/-- `Italy::exchange_is_business_day` (`third-parties/calendar/src/italy.rs:54-80`). -/
def exchangeIsBusinessDay (date : NaiveDate) : Rust Bool :=
  let d := date.day
  let m := date.month
  let y := date.year
  let dd := date.ordinal
  easterMonday y >>= fun em =>
  if isWeekend date
      || (d == 1 && m == 1)
      || dd == em - 3
      || dd == em
      || (d == 1 && m == 5)
      || (d == 15 && m == 8)
      || (d == 24 && m == 12)
      || (d == 25 && m == 12)
      || (d == 26 && m == 12)
      || (d == 31 && m == 12)
  then
    .ok (false)
  else
  .ok (true)

/-- `Italy::is_business_day` (`third-parties/calendar/src/italy.rs:84-90`). -/
def isBusinessDay (market : Option ItalyMarket) (date : NaiveDate) : Rust Bool :=
  match market with
  | some .Settlement =>
    settlementIsBusinessDay date
  | some .Exchange =>
    exchangeIsBusinessDay date
  | none =>
    settlementIsBusinessDay date

end Italy

/-- The calendar `Italy` (`third-parties/calendar/src/italy.rs:14`). -/
def Calendar.italy (market : Option ItalyMarket) : Calendar where
  isBusinessDay date := Italy.isBusinessDay market date

end Qlab
