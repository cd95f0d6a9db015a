import Verif.Model.Easter

/-! Generated by `tools/gen_calendars.py` from `third-parties/calendar/src/australia.rs`. -/

namespace Qlab

/-- `AustraliaMarket` (`third-parties/calendar/src/australia.rs:7`). -/
inductive AustraliaMarket where
  | Settlement
  | ASX
  deriving DecidableEq

namespace Australia

/-- `Australia::shared_holiday` (`third-parties/calendar/src/australia.rs:18-48`). -/
def sharedHoliday (date : NaiveDate) : Rust Bool :=
  let d := date.day
  let w := date.weekday
  let m := date.month
  let y := date.year
  let dd := date.ordinal
  easterMonday y >>= fun em =>
  if isWeekend date
      || ((d == 1 || ((d == 2 || d == 3) && w == .Mon)) && m == 1)
      || ((d == 26 || ((d == 27 || d == 28) && w == .Mon)) && m == 1)
      || dd == em - 3
      || dd == em
      || (d == 25 && m == 4)
      || (decide (d > 7) && decide (d ≤ 14) && w == .Mon && m == 6)
      || ((d == 25 || (d == 27 && (w == .Mon || w == .Tue))) && m == 12)
      || ((d == 26 || (d == 28 && (w == .Mon || w == .Tue))) && m == 12)
      || (d == 22 && m == 9 && y == 2022)
  then
    .ok (true)
  else
    .ok (false)

/-- `Australia::extra_holiday` (`third-parties/calendar/src/australia.rs:49-55`). -/
def extraHoliday (date : NaiveDate) : Bool :=
  let d := date.day
  let w := date.weekday
  let m := date.month
  (m == 10 || m == 8) && w == .Mon && decide (d ≤ 7)

/-- `Australia::settlement_is_business_day` (`third-parties/calendar/src/australia.rs:56-58`). -/
def settlementIsBusinessDay (date : NaiveDate) : Rust Bool :=
  sharedHoliday date >>= fun v0 =>
  .ok (!(v0 || extraHoliday date))

/-- `Australia::asx_is_business_day` (`third-parties/calendar/src/australia.rs:59-61`). -/
def asxIsBusinessDay (date : NaiveDate) : Rust Bool :=
  sharedHoliday date >>= fun v0 =>
  .ok (!(v0))

/-- `Australia::is_business_day` (`third-parties/calendar/src/australia.rs:65-71`). -/
def isBusinessDay (market : Option AustraliaMarket) (date : NaiveDate) : Rust Bool :=
  match market with
  | some .Settlement =>
    settlementIsBusinessDay date
  | some .ASX =>
    asxIsBusinessDay date
  | none =>
    settlementIsBusinessDay date

end Australia

/-- The calendar `Australia` (`third-parties/calendar/src/australia.rs:13`). -/
def Calendar.australia (market : Option AustraliaMarket) : Calendar where
  isBusinessDay date := Australia.isBusinessDay market date

end Qlab
