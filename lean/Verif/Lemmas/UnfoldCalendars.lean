import Verif.Model.Shipped

/-! Generated by `tools/gen_calendars.py`: a tactic that unfolds the definitions of every shipped calendar. -/

namespace Qlab

set_option hygiene false in
/-- Unfold every shipped calendar. -/
macro "unfold_calendars" loc:(Lean.Parser.Tactic.location)? : tactic => `(tactic| simp only [Shipped.calendar, Calendar.weekendsOnly,
  Argentina.isBusinessDay,
  Calendar.argentina,
  Australia.sharedHoliday,
  Australia.extraHoliday,
  Australia.settlementIsBusinessDay,
  Australia.asxIsBusinessDay,
  Australia.isBusinessDay,
  Calendar.australia,
  Austria.settlementIsBusinessDay,
  Austria.exchangeIsBusinessDay,
  Austria.isBusinessDay,
  Calendar.austria,
  Botswana.isBusinessDay,
  Calendar.botswana,
  Brazil.settlementIsBusinessDay,
  Brazil.exchangeIsBusinessDay,
  Brazil.isBusinessDay,
  Calendar.brazil,
  Canada.sharedHoliday,
  Canada.extraHoliday,
  Canada.settlementIsBusinessDay,
  Canada.tsxIsBusinessDay,
  Canada.isBusinessDay,
  Calendar.canada,
  Chile.isBusinessDay,
  Calendar.chile,
  China.isBusinessDay,
  Calendar.china,
  CzechRepublic.isBusinessDay,
  Calendar.czechRepublic,
  Denmark.isBusinessDay,
  Calendar.denmark,
  Finland.isBusinessDay,
  Calendar.finland,
  France.settlementIsBusinessDay,
  France.exchangeIsBusinessDay,
  France.isBusinessDay,
  Calendar.france,
  Germany.settlementIsBusinessDay,
  Germany.frankfurtStockExchangeIsBusinessDay,
  Germany.eurexIsBusinessDay,
  Germany.euwaxIsBusinessDay,
  Germany.isBusinessDay,
  Calendar.germany,
  HongKong.isBusinessDay,
  Calendar.hongKong,
  Hungary.isBusinessDay,
  Calendar.hungary,
  Iceland.isBusinessDay,
  Calendar.iceland,
  India.isBusinessDay,
  Calendar.india,
  Indonesia.isBusinessDay,
  Calendar.indonesia,
  Israel.isBusinessDay,
  Calendar.israel,
  Italy.settlementIsBusinessDay,
  Italy.exchangeIsBusinessDay,
  Italy.isBusinessDay,
  Calendar.italy,
  Japan.vernalEquinoxDay,
  Japan.autumnalEquinoxDay,
  Japan.isBusinessDay,
  Calendar.japan,
  Mexico.isBusinessDay,
  Calendar.mexico,
  NewZealand.isBusinessDay,
  Calendar.newZealand,
  Norway.isBusinessDay,
  Calendar.norway,
  Poland.isBusinessDay,
  Calendar.poland,
  Romania.isBusinessDay,
  Calendar.romania,
  Russia.isExtraHolidaySettlement,
  Russia.isExtraHolidayExchange,
  Russia.isWorkingWeekend,
  Russia.settlementIsBusinessDay,
  Russia.exchangeIsBusinessDay,
  Russia.isBusinessDay,
  Calendar.russia,
  Singapore.isBusinessDay,
  Calendar.singapore,
  Slovakia.isBusinessDay,
  Calendar.slovakia,
  SouthAfrica.isBusinessDay,
  Calendar.southAfrica,
  SouthKorea.isBusinessDay,
  Calendar.southKorea,
  Sweden.isBusinessDay,
  Calendar.sweden,
  Switzerland.isBusinessDay,
  Calendar.switzerland,
  Taiwan.isBusinessDay,
  Calendar.taiwan,
  Target.isBusinessDay,
  Calendar.target,
  Thailand.isBusinessDay,
  Calendar.thailand,
  Turkey.isBusinessDay,
  Calendar.turkey,
  Ukraine.isBusinessDay,
  Calendar.ukraine,
  UnitedKingdom.specialBankHoliday,
  UnitedKingdom.settlementIsBusinessDay,
  UnitedKingdom.exchangeIsBusinessDay,
  UnitedKingdom.metalsIsBusinessDay,
  UnitedKingdom.isBusinessDay,
  Calendar.unitedKingdom,
  UnitedStates.isWashingtonBirthday,
  UnitedStates.isMemorialDay,
  UnitedStates.isLaborDay,
  UnitedStates.isColumbusDay,
  UnitedStates.isVeteransDay,
  UnitedStates.isVeteransDayNoSaturday,
  UnitedStates.isJuneteenth,
  UnitedStates.settlementIsBusinessDay,
  UnitedStates.liborIsBusinessDay,
  UnitedStates.nyseIsBusinessDay,
  UnitedStates.governmentBondIsBusinessDay,
  UnitedStates.sofrIsBusinessDay,
  UnitedStates.nercIsBusinessDay,
  UnitedStates.federalReserveIsHoliday,
  UnitedStates.isBusinessDay,
  Calendar.unitedStates] $[$loc]?)

end Qlab
