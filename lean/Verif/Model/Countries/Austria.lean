import Verif.Model.Easter

/-! Generated by `tools/gen_calendars.py` from `third-parties/calendar/src/austria.rs`. -/

namespace Qlab

/-- `AustriaMarket` (`third-parties/calendar/src/austria.rs:8`). -/
inductive AustriaMarket where
  | Settlement
  | Exchange
  deriving DecidableEq

namespace Austria

/-- `Austria::settlement_is_business_day` (`third-parties/calendar/src/austria.rs:19-55`). -/
def settlementIsBusinessDay (date : NaiveDate) : Rust Bool :=
  let d := date.day
  let m := date.month
  let y := date.year
  let dd := date.ordinal
  easterMonday y >>= fun em =>
  if isWeekend date
      || (d == 1 && m == 1)
      || (d == 6 && m == 1)
      || dd == em
      || dd == em + 38
      || dd == em + 49
      || dd == em + 59
      || (d == 1 && m == 5)
      || (d == 15 && m == 8)
      || (d == 26 && m == 10 && decide (y ≥ 1967))
      || (d == 12 && m == 11 && (decide (1919 ≤ y) && decide (y ≤ 1934)))
      || (d == 1 && m == 11)
      || (d == 8 && m == 12)
      || (d == 25 && m == 12)
      || (d == 26 && m == 12)
  then
    .ok (false)
  else
  .ok (true)

/-- `Austria::exchange_is_business_day` (`third-parties/calendar/src/austria.rs:57-87`). -/
def exchangeIsBusinessDay (date : NaiveDate) : Rust Bool :=
  let d := date.day
  let m := date.month
  let y := date.year
  let dd := date.ordinal
  easterMonday y >>= fun em =>
  if isWeekend date
      || (d == 1 && m == 1)
      || dd == em - 3
      || dd == em
      || dd == em + 49
      || (d == 1 && m == 5)
      || (d == 26 && m == 10 && decide (y ≥ 1967))
      || (d == 12 && m == 11 && (decide (1919 ≤ y) && decide (y ≤ 1934)))
      || (d == 24 && m == 12)
      || (d == 25 && m == 12)
      || (d == 26 && m == 12)
      || (d == 31 && m == 12)
  then
    .ok (false)
  else
  .ok (true)

/-- `Austria::is_business_day` (`third-parties/calendar/src/austria.rs:91-97`). -/
def isBusinessDay (market : Option AustriaMarket) (date : NaiveDate) : Rust Bool :=
  match market with
  | some .Settlement =>
    settlementIsBusinessDay date
  | some .Exchange =>
    exchangeIsBusinessDay date
  | none =>
    settlementIsBusinessDay date

end Austria

/-- The calendar `Austria` (`third-parties/calendar/src/austria.rs:14`). -/
def Calendar.austria (market : Option AustriaMarket) : Calendar where
  isBusinessDay date := Austria.isBusinessDay market date

end Qlab
