import Verif.Model.Easter

/-! Generated by `tools/gen_calendars.py` from `third-parties/calendar/src/unitedstates.rs`. -/

namespace Qlab

/-- `UnitedStatesMarket` (`third-parties/calendar/src/unitedstates.rs:7`). -/
inductive UnitedStatesMarket where
  | Settlement
  | Libor
  | NYSE
  | GovernmentBond
  | SOFR
  | NERC
  | FederalReserve
  deriving DecidableEq

namespace UnitedStates

/-- `UnitedStates::is_washington_birthday` (`third-parties/calendar/src/unitedstates.rs:23-29`). -/
def isWashingtonBirthday (date : NaiveDate) : Bool :=
  let d := date.day
  let w := date.weekday
  let m := date.month
  let y := date.year
  (decide (y ≥ 1971) && ((decide (15 ≤ d) && decide (d ≤ 21)) && w == .Mon && m == 2)) || (decide (y < 1971) && (d == 22 || (d == 23 && w == .Mon) || (d == 21 && w == .Fri)) && m == 2)

/-- `UnitedStates::is_memorial_day` (`third-parties/calendar/src/unitedstates.rs:31-37`). -/
def isMemorialDay (date : NaiveDate) : Bool :=
  let d := date.day
  let w := date.weekday
  let m := date.month
  let y := date.year
  (decide (y ≥ 1971) && (decide (d ≥ 25) && w == .Mon && m == 5)) || (decide (y < 1971) && ((d == 30 || (d == 31 && w == .Mon) || (d == 29 && w == .Fri)) && m == 5))

/-- `UnitedStates::is_labor_day` (`third-parties/calendar/src/unitedstates.rs:39-42`). -/
def isLaborDay (date : NaiveDate) : Bool :=
  let d := date.day
  let w := date.weekday
  let m := date.month
  decide (d ≤ 7) && w == .Mon && m == 9

/-- `UnitedStates::is_columbus_day` (`third-parties/calendar/src/unitedstates.rs:44-47`). -/
def isColumbusDay (date : NaiveDate) : Bool :=
  let d := date.day
  let w := date.weekday
  let m := date.month
  let y := date.year
  (decide (8 ≤ d) && decide (d ≤ 14)) && w == .Mon && m == 10 && decide (y ≥ 1971)

/-- `UnitedStates::is_veterans_day` (`third-parties/calendar/src/unitedstates.rs:49-57`). -/
def isVeteransDay (date : NaiveDate) : Bool :=
  let d := date.day
  let w := date.weekday
  let m := date.month
  let y := date.year
  ((decide (y ≤ 1970) || decide (y ≥ 1978)) && ((d == 11 || (d == 12 && w == .Mon) || (d == 10 && w == .Fri)) && m == 11)) || (decide (y > 1970) && decide (y < 1978) && ((decide (22 ≤ d) && decide (d ≤ 28)) && w == .Mon && m == 10))

/-- `UnitedStates::is_veterans_day_no_saturday` (`third-parties/calendar/src/unitedstates.rs:59-65`). -/
def isVeteransDayNoSaturday (date : NaiveDate) : Bool :=
  let d := date.day
  let w := date.weekday
  let m := date.month
  let y := date.year
  ((decide (y ≤ 1970) || decide (y ≥ 1978)) && ((d == 11 || (d == 12 && w == .Mon)) && m == 11)) || (decide (y > 1970) && decide (y < 1978) && ((decide (22 ≤ d) && decide (d ≤ 28)) && w == .Mon && m == 10))

/-- `UnitedStates::is_juneteenth` (`third-parties/calendar/src/unitedstates.rs:67-72`). -/
def isJuneteenth (date : NaiveDate) : Bool :=
  let d := date.day
  let w := date.weekday
  let m := date.month
  let y := date.year
  (d == 19 || (d == 20 && w == .Mon) || (d == 18 && w == .Fri)) && m == 6 && decide (y ≥ 2022)

/-- `UnitedStates::settlement_is_business_day` (`third-parties/calendar/src/unitedstates.rs:74-107`). -/
def settlementIsBusinessDay (date : NaiveDate) : Bool :=
  let d := date.day
  let w := date.weekday
  let m := date.month
  let y := date.year
  if isWeekend date
      || ((d == 1 || (d == 2 && w == .Mon)) && m == 1)
      || (d == 31 && w == .Fri && m == 12)
      || ((decide (15 ≤ d) && decide (d ≤ 21)) && w == .Mon && m == 1 && decide (y ≥ 1983))
      || isWashingtonBirthday date
      || isMemorialDay date
      || isJuneteenth date
      || ((d == 4 || (d == 5 && w == .Mon) || (d == 3 && w == .Fri)) && m == 7)
      || isLaborDay date
      || isColumbusDay date
      || isVeteransDay date
      || ((decide (22 ≤ d) && decide (d ≤ 28)) && w == .Thu && m == 11)
      || ((d == 25 || (d == 26 && w == .Mon) || (d == 24 && w == .Fri)) && m == 12)
  then
    false
  else
    true

/-- `UnitedStates::libor_is_business_day` (`third-parties/calendar/src/unitedstates.rs:109-115`). -/
def liborIsBusinessDay (date : NaiveDate) : Bool :=
  let d := date.day
  let w := date.weekday
  let m := date.month
  let y := date.year
  if ((d == 5 && w == .Mon) || (d == 3 && w == .Fri)) && m == 7 && decide (y ≥ 2015)
  then
    true
  else
  settlementIsBusinessDay date

/-- `UnitedStates::nyse_is_business_day` (`third-parties/calendar/src/unitedstates.rs:117-203`). -/
def nyseIsBusinessDay (date : NaiveDate) : Rust Bool :=
  let d := date.day
  let w := date.weekday
  let m := date.month
  let y := date.year
  let dd := date.ordinal
  easterMonday y >>= fun em =>
  if isWeekend date
      || ((d == 1 || (d == 2 && w == .Mon)) && m == 1)
      || isWashingtonBirthday date
      || dd == em - 3
      || isMemorialDay date
      || isJuneteenth date
      || ((d == 4 || (d == 5 && w == .Mon) || (d == 3 && w == .Fri)) && m == 7)
      || isLaborDay date
      || ((decide (22 ≤ d) && decide (d ≤ 28)) && w == .Thu && m == 11)
      || ((d == 25 || (d == 26 && w == .Mon) || (d == 24 && w == .Fri)) && m == 12)
  then
    .ok (false)
  else
  if decide (y ≥ 1998) && (decide (15 ≤ d) && decide (d ≤ 21)) && w == .Mon && m == 1
  then
    .ok (false)
  else
  if (decide (y ≤ 1968) || (decide (y ≤ 1980) && Int.tmod y 4 == 0)) && m == 11 && decide (d ≤ 7) && w == .Tue
  then
    .ok (false)
  else
  if (y == 2018 && m == 12 && d == 5)
      || (y == 2012 && m == 10 && (d == 29 || d == 30))
      || (y == 2007 && m == 1 && d == 2)
      || (y == 2004 && m == 6 && d == 11)
      || (y == 2001 && m == 9 && (decide (11 ≤ d) && decide (d ≤ 14)))
      || (y == 1994 && m == 4 && d == 27)
      || (y == 1985 && m == 9 && d == 27)
      || (y == 1977 && m == 7 && d == 14)
      || (y == 1973 && m == 1 && d == 25)
      || (y == 1972 && m == 12 && d == 28)
      || (y == 1969 && m == 7 && d == 21)
      || (y == 1969 && m == 3 && d == 31)
      || (y == 1969 && m == 2 && d == 10)
      || (y == 1968 && m == 7 && d == 5)
      || (y == 1968 && decide (dd ≥ 163) && w == .Wed)
      || (y == 1968 && m == 4 && d == 9)
      || (y == 1963 && m == 11 && d == 25)
      || (y == 1961 && m == 5 && d == 29)
      || (y == 1958 && m == 12 && d == 26)
      || ((y == 1954 || y == 1956 || y == 1965) && m == 12 && d == 24)
  then
    .ok (false)
  else
  .ok (true)

/-- `UnitedStates::government_bond_is_business_day` (`third-parties/calendar/src/unitedstates.rs:205-252`). -/
def governmentBondIsBusinessDay (date : NaiveDate) : Rust Bool :=
  let d := date.day
  let w := date.weekday
  let m := date.month
  let y := date.year
  let dd := date.ordinal
  easterMonday y >>= fun em =>
  if isWeekend date
      || ((d == 1 || (d == 2 && w == .Mon)) && m == 1)
      || ((decide (15 ≤ d) && decide (d ≤ 21)) && w == .Mon && m == 1 && decide (y ≥ 1983))
      || isWashingtonBirthday date
      || (dd == em - 3 && y != 2015 && y != 2021 && y != 2023)
      || isMemorialDay date
      || isJuneteenth date
      || ((d == 4 || (d == 5 && w == .Mon) || (d == 3 && w == .Fri)) && m == 7)
      || isLaborDay date
      || isColumbusDay date
      || isVeteransDayNoSaturday date
      || ((decide (22 ≤ d) && decide (d ≤ 28)) && w == .Thu && m == 11)
      || ((d == 25 || (d == 26 && w == .Mon) || (d == 24 && w == .Fri)) && m == 12)
  then
    .ok (false)
  else
  if (y == 2018 && m == 12 && d == 5)
      || (y == 2012 && m == 10 && d == 30)
      || (y == 2004 && m == 6 && d == 11)
  then
    .ok (false)
  else
  .ok (true)

/-- `UnitedStates::sofr_is_business_day` (`third-parties/calendar/src/unitedstates.rs:254-261`). -/
def sofrIsBusinessDay (date : NaiveDate) : Rust Bool :=
  if (date.year == 2023 && date.month == 4 && date.day == 7)
  then
    .ok (false)
  else
    governmentBondIsBusinessDay date

/-- `UnitedStates::nerc_is_business_day` (`third-parties/calendar/src/unitedstates.rs:263-283`). -/
def nercIsBusinessDay (date : NaiveDate) : Bool :=
  let d := date.day
  let w := date.weekday
  let m := date.month
  if isWeekend date
      || ((d == 1 || (d == 2 && w == .Mon)) && m == 1)
      || isMemorialDay date
      || ((d == 4 || (d == 5 && w == .Mon)) && m == 7)
      || isLaborDay date
      || ((decide (22 ≤ d) && decide (d ≤ 28)) && w == .Thu && m == 11)
      || ((d == 25 || (d == 26 && w == .Mon)) && m == 12)
  then
    false
  else
    true

/-- `UnitedStates::federal_reserve_is_holiday` (`third-parties/calendar/src/unitedstates.rs:285-316`). -/
def federalReserveIsHoliday (date : NaiveDate) : Bool :=
  let d := date.day
  let w := date.weekday
  let m := date.month
  let y := date.year
  if isWeekend date
      || ((d == 1 || (d == 2 && w == .Mon)) && m == 1)
      || ((decide (15 ≤ d) && decide (d ≤ 21)) && w == .Mon && m == 1 && decide (y ≥ 1983))
      || isWashingtonBirthday date
      || isMemorialDay date
      || isJuneteenth date
      || ((d == 4 || (d == 5 && w == .Mon)) && m == 7)
      || isLaborDay date
      || isColumbusDay date
      || isVeteransDayNoSaturday date
      || ((decide (22 ≤ d) && decide (d ≤ 28)) && w == .Thu && m == 11)
      || ((d == 25 || (d == 26 && w == .Mon)) && m == 12)
  then
    false
  else
    true

/-- `UnitedStates::is_business_day` (`third-parties/calendar/src/unitedstates.rs:320-331`). -/
def isBusinessDay (market : Option UnitedStatesMarket) (date : NaiveDate) : Rust Bool :=
  match market with
  | some .Settlement =>
    .ok (settlementIsBusinessDay date)
  | some .Libor =>
    .ok (liborIsBusinessDay date)
  | some .NYSE =>
    nyseIsBusinessDay date
  | some .GovernmentBond =>
    governmentBondIsBusinessDay date
  | some .SOFR =>
    sofrIsBusinessDay date
  | some .NERC =>
    .ok (nercIsBusinessDay date)
  | some .FederalReserve =>
    .ok (federalReserveIsHoliday date)
  | none =>
    .ok (settlementIsBusinessDay date)

end UnitedStates

/-- The calendar `UnitedStates` (`third-parties/calendar/src/unitedstates.rs:18`). -/
def Calendar.unitedStates (market : Option UnitedStatesMarket) : Calendar where
  isBusinessDay date := UnitedStates.isBusinessDay market date

end Qlab
