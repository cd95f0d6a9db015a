import Verif.Model.Easter

/-! Generated by `tools/gen_calendars.py` from `third-parties/calendar/src/germany.rs`. -/

namespace Qlab

/-- `GermanyMarket` (`third-parties/calendar/src/germany.rs:8`). -/
inductive GermanyMarket where
  | Settlement
  | FrankfurtStockExchange
  | Xetra
  | Eurex
  | Euwax
  deriving DecidableEq

namespace Germany

/-- `Germany::settlement_is_business_day` (`third-parties/calendar/src/germany.rs:22-53`). -/
def settlementIsBusinessDay (date : NaiveDate) : Rust Bool :=
  let d := date.day
  let m := date.month
  let y := date.year
  let dd := date.ordinal
  easterMonday y >>= fun em =>
  if isWeekend date
      || (d == 1 && m == 1)
      || dd == em - 3
      || dd == em
      || dd == em + 38
      || dd == em + 49
      || dd == em + 59
      || (d == 1 && m == 5)
      || (d == 3 && m == 10)
      || (d == 24 && m == 12)
      || (d == 25 && m == 12)
      || (d == 26 && m == 12)
  then
    .ok (false)
  else
  .ok (true)

/-- `Germany::frankfurt_stock_exchange_is_business_day` (`third-parties/calendar/src/germany.rs:55-78`). -/
def frankfurtStockExchangeIsBusinessDay (date : NaiveDate) : Rust Bool :=
  let d := date.day
  let m := date.month
  let y := date.year
  let dd := date.ordinal
  easterMonday y >>= fun em =>
  if isWeekend date
      || (d == 1 && m == 1)
      || dd == em - 3
      || dd == em
      || (d == 1 && m == 5)
      || (d == 24 && m == 12)
      || (d == 25 && m == 12)
      || (d == 26 && m == 12)
  then
    .ok (false)
  else
  .ok (true)

/-- `Germany::eurex_is_business_day` (`third-parties/calendar/src/germany.rs:80-84`). -/
def eurexIsBusinessDay (date : NaiveDate) : Rust Bool :=
  let d := date.day
  let m := date.month
  frankfurtStockExchangeIsBusinessDay date >>= fun v0 =>
  .ok (!(!(v0) || (d == 31 && m == 12)))

/-- `Germany::euwax_is_business_day` (`third-parties/calendar/src/germany.rs:86-91`). -/
def euwaxIsBusinessDay (date : NaiveDate) : Rust Bool :=
  let y := date.year
  let dd := date.ordinal
  easterMonday y >>= fun em =>
  frankfurtStockExchangeIsBusinessDay date >>= fun v0 =>
  .ok (v0 && dd != em + 49)

/-- `Germany::is_business_day` (`third-parties/calendar/src/germany.rs:95-106`). -/
def isBusinessDay (market : Option GermanyMarket) (date : NaiveDate) : Rust Bool :=
  match market with
  | some .Settlement =>
    settlementIsBusinessDay date
  | some .FrankfurtStockExchange =>
    frankfurtStockExchangeIsBusinessDay date
  | some .Xetra =>
    frankfurtStockExchangeIsBusinessDay date
  | some .Eurex =>
    eurexIsBusinessDay date
  | some .Euwax =>
    euwaxIsBusinessDay date
  | none =>
    frankfurtStockExchangeIsBusinessDay date

end Germany

/-- The calendar `Germany` (`third-parties/calendar/src/germany.rs:17`). -/
def Calendar.germany (market : Option GermanyMarket) : Calendar where
  isBusinessDay date := Germany.isBusinessDay market date

end Qlab
