import Verif.Model.Easter

/-! Generated by `tools/gen_calendars.py` from `third-parties/calendar/src/canada.rs`. -/

namespace Qlab

/-- `CanadaMarket` (`third-parties/calendar/src/canada.rs:8`). -/
inductive CanadaMarket where
  | Settlement
  | TSX
  deriving DecidableEq

namespace Canada

/-- `Canada::shared_holiday` (`third-parties/calendar/src/canada.rs:19-54`). -/
def sharedHoliday (date : NaiveDate) : Rust Bool :=
  let d := date.day
  let w := date.weekday
  let m := date.month
  let y := date.year
  let dd := date.ordinal
  easterMonday y >>= fun em =>
  if isWeekend date
      || ((d == 1 || ((d == 2 || d == 3) && w == .Mon)) && m == 1)
      || ((decide (15 ≤ d) && decide (d ≤ 21)) && w == .Mon && m == 2 && decide (y ≥ 2008))
      || dd == em - 3
      || (decide (d > 17) && decide (d ≤ 24) && w == .Mon && m == 5)
      || ((d == 1 || ((d == 2 || d == 3) && w == .Mon)) && m == 7)
      || (decide (d ≤ 7) && w == .Mon && m == 8)
      || (decide (d ≤ 7) && w == .Mon && m == 9)
      || (((d == 30 && m == 9) || (decide (d ≤ 2) && m == 10 && w == .Mon)) && decide (y ≥ 2021))
      || (decide (d > 7) && decide (d ≤ 14) && w == .Mon && m == 10)
      || ((d == 25 || (d == 27 && (w == .Mon || w == .Tue))) && m == 12)
      || ((d == 26 || (d == 28 && (w == .Mon || w == .Tue))) && m == 12)
  then
    .ok (true)
  else
    .ok (false)

/-- `Canada::extra_holiday` (`third-parties/calendar/src/canada.rs:56-60`). -/
def extraHoliday (date : NaiveDate) : Bool :=
  let d := date.day
  let w := date.weekday
  let m := date.month
  (d == 11 || ((d == 12 || d == 13) && w == .Mon)) && m == 11

/-- `Canada::settlement_is_business_day` (`third-parties/calendar/src/canada.rs:62-64`). -/
def settlementIsBusinessDay (date : NaiveDate) : Rust Bool :=
  sharedHoliday date >>= fun v0 =>
  .ok (!(v0 || extraHoliday date))

/-- `Canada::tsx_is_business_day` (`third-parties/calendar/src/canada.rs:66-68`). -/
def tsxIsBusinessDay (date : NaiveDate) : Rust Bool :=
  sharedHoliday date >>= fun v0 =>
  .ok (!(v0))

/-- `Canada::is_business_day` (`third-parties/calendar/src/canada.rs:72-78`). -/
def isBusinessDay (market : Option CanadaMarket) (date : NaiveDate) : Rust Bool :=
  match market with
  | some .Settlement =>
    settlementIsBusinessDay date
  | some .TSX =>
    tsxIsBusinessDay date
  | none =>
    settlementIsBusinessDay date

end Canada

/-- The calendar `Canada` (`third-parties/calendar/src/canada.rs:14`). -/
def Calendar.canada (market : Option CanadaMarket) : Calendar where
  isBusinessDay date := Canada.isBusinessDay market date

end Qlab
