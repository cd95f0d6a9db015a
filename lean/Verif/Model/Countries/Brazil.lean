import Verif.Model.Easter

/-! Generated by `tools/gen_calendars.py` from `third-parties/calendar/src/brazil.rs`. -/

namespace Qlab

/-- `BrazilMarket` (`third-parties/calendar/src/brazil.rs:8`). -/
inductive BrazilMarket where
  | Settlement
  | Exchange
  deriving DecidableEq

namespace Brazil

/-- `Brazil::settlement_is_business_day` (`third-parties/calendar/src/brazil.rs:19-50`). -/
def settlementIsBusinessDay (date : NaiveDate) : Rust Bool :=
  let d := date.day
  let m := date.month
  let y := date.year
  let dd := date.ordinal
  easterMonday y >>= fun em =>
  if isWeekend date
      || (d == 1 && m == 1)
      || (d == 21 && m == 4)
      || (d == 1 && m == 5)
      || (d == 7 && m == 9)
      || (d == 12 && m == 10)
      || (d == 2 && m == 11)
      || (d == 15 && m == 11)
      || (d == 25 && m == 12)
      || dd == em - 3
      || dd == em - 49
      || dd == em - 48
      || dd == em + 59
  then
    .ok (false)
  else
    .ok (true)

/-- `Brazil::exchange_is_business_day` (`third-parties/calendar/src/brazil.rs:52-94`). -/
def exchangeIsBusinessDay (date : NaiveDate) : Rust Bool :=
  let d := date.day
  let w := date.weekday
  let m := date.month
  let y := date.year
  let dd := date.ordinal
  easterMonday y >>= fun em =>
  if isWeekend date
      || (d == 1 && m == 1)
      || (d == 25 && m == 1)
      || (d == 21 && m == 4)
      || (d == 1 && m == 5)
      || (d == 9 && m == 7)
      || (d == 7 && m == 9)
      || (d == 12 && m == 10)
      || (d == 2 && m == 11)
      || (d == 15 && m == 11)
      || (d == 20 && m == 11 && decide (y ≥ 2007))
      || (d == 24 && m == 12)
      || (d == 25 && m == 12)
      || dd == em - 3
      || dd == em - 49
      || dd == em - 48
      || dd == em + 59
      || (m == 12 && (d == 31 || (decide (d ≥ 29) && w == .Fri)))
  then
    .ok (false)
  else
    .ok (true)

/-- `Brazil::is_business_day` (`third-parties/calendar/src/brazil.rs:98-104`). -/
def isBusinessDay (market : Option BrazilMarket) (date : NaiveDate) : Rust Bool :=
  match market with
  | some .Settlement =>
    settlementIsBusinessDay date
  | some .Exchange =>
    exchangeIsBusinessDay date
  | none =>
    settlementIsBusinessDay date

end Brazil

/-- The calendar `Brazil` (`third-parties/calendar/src/brazil.rs:14`). -/
def Calendar.brazil (market : Option BrazilMarket) : Calendar where
  isBusinessDay date := Brazil.isBusinessDay market date

end Qlab
