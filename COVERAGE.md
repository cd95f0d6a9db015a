# Functions of the code and their definitions in the model

Printed by `tools/coverage.py` from the citations in the comments of `lean/Verif/Model`.

| function at | name | definitions | module |
|---|---|---|---|
| `crates/qlab-error/src/lib.rs:14` | From<T> for ErrString::`from` | `ErrString` | Model/Error.lean |
| `crates/qlab-error/src/lib.rs:20` | AsRef<str> for ErrString::`as_ref` | `ErrString` | Model/Error.lean |
| `crates/qlab-error/src/lib.rs:28` | Deref for ErrString::`deref` | `ErrString` | Model/Error.lean |
| `crates/qlab-error/src/lib.rs:34` | Display for ErrString::`fmt` | `ErrString` | Model/Error.lean |
| `crates/qlab-error/src/lib.rs:70` | From<InterpolationError<T>> for QLabError::`from` | `QLabError.ofInterpolation` | Model/Error.lean |
| `crates/qlab-instrument/src/bond.rs:57` | Bond<V>::`new` | `Frequency.months`, `regularLoop`, `new` | Model/Bond.lean |
| `crates/qlab-instrument/src/bond.rs:104` | Bond<V>::`first_cash_flow` | `firstCashFlow` | Model/Bond.lean |
| `crates/qlab-instrument/src/bond.rs:130` | Bond<V>::`final_cash_flow` | `finalCashFlow` | Model/Bond.lean |
| `crates/qlab-instrument/src/bond.rs:182` | Bond<V>::`discounted_value` | `pvLoop`, `discountedValue` | Model/Bond.lean |
| `crates/qlab-instrument/src/bond.rs:198` | Bond<V>::`bond_id` | `Bond` | Model/Bond.lean |
| `crates/qlab-math/src/interpolation.rs:9` | trait X<V>::`x` (declared) | `HasX` | Model/Interpolation.lean |
| `crates/qlab-math/src/interpolation.rs:23` | Point2DWithSlope<V>::`new` | `Point2DWithSlope.new` | Model/Interpolation.lean |
| `crates/qlab-math/src/interpolation.rs:32` | X<V> for Point2DWithSlope<V>::`x` | `(instance)` | Model/Interpolation.lean |
| `crates/qlab-math/src/interpolation.rs:38` | X<V> for Point2D<V>::`x` | `(instance)` | Model/Interpolation.lean |
| `crates/qlab-math/src/interpolation.rs:58` | trait Interpolator: Default::`try_fit` (declared) | `Interpolator` | Model/Interpolation.lean |
| `crates/qlab-math/src/interpolation.rs:76` | trait Interpolator: Default::`try_value` (declared) | `Interpolator` | Model/Interpolation.lean |
| `crates/qlab-math/src/interpolation.rs:79` | trait Interpolator: Default::`find_index_at_left_boundary` | `findIndexAtLeftBoundary` | Model/Interpolation.lean |
| `crates/qlab-math/src/interpolation/linear.rs:41` | Linear<V>::`new` | `default` | Model/Interpolation.lean |
| `crates/qlab-math/src/interpolation/linear.rs:50` | Interpolator for Linear<V>::`try_fit` | `tryFit`, `Interpolator.linear` | Model/Interpolation.lean |
| `crates/qlab-math/src/interpolation/linear.rs:75` | Interpolator for Linear<V>::`try_value` | `tryValue`, `Interpolator.linear` | Model/Interpolation.lean |
| `crates/qlab-math/src/interpolation/spline/catmull_rom.rs:30` | Interpolator for CatmullRom<V>::`try_fit` | `collect`, `tryFit`, `Interpolator.catmullRom` | Model/Interpolation.lean |
| `crates/qlab-math/src/interpolation/spline/catmull_rom.rs:68` | Interpolator for CatmullRom<V>::`try_value` | `tryValue`, `Interpolator.catmullRom` | Model/Interpolation.lean |
| `crates/qlab-math/src/interpolation/spline/hermite.rs:33` | Hermite<V>::`try_new` | `collect`, `tryNew` | Model/Interpolation.lean |
| `crates/qlab-math/src/interpolation/spline/hermite.rs:84` | Hermite<V>::`try_value` | `tryValue` | Model/Interpolation.lean |
| `crates/qlab-math/src/interpolation/spline/natural_cubic.rs:34` | Interpolator for NaturalCubic<V>::`try_fit` | `System`, `systemStep`, `collect`, `tryFit`, `Interpolator.naturalCubic` | Model/NaturalCubic.lean |
| `crates/qlab-math/src/interpolation/spline/natural_cubic.rs:118` | Interpolator for NaturalCubic<V>::`try_value` | `tryValue`, `Interpolator.naturalCubic` | Model/NaturalCubic.lean |
| `crates/qlab-math/src/linear_algebra/tridiagonal_matrix.rs:17` | TridiagonalMatrix<V>::`try_new` | `tryNew` | Model/NaturalCubic.lean |
| `crates/qlab-math/src/linear_algebra/tridiagonal_matrix.rs:36` | TridiagonalMatrix<V>::`solve` | `solve` | Model/NaturalCubic.lean |
| `crates/qlab-math/src/linear_algebra/tridiagonal_matrix.rs:54` | Mul<Vec<V>> for TridiagonalMatrix<V>::`mul` | `mulStep`, `mul` | Model/NaturalCubic.lean |
| `crates/qlab-math/src/linear_algebra/tridiagonal_matrix.rs:74` | Mul<Vec<V>> for TridiagonalMatrix<V>::`solve_with_thomas_algorithm_unchecked` | `forwardStep`, `backwardStep`, `thomas` | Model/NaturalCubic.lean |
| `crates/qlab-termstructure/src/yield_curve.rs:36` | YieldCurve<D, I>::`new` | `fractions`, `new` | Model/YieldCurve.lean |
| `crates/qlab-termstructure/src/yield_curve.rs:84` | YieldCurve<D, I>::`discount_factor` | `discountFactor` | Model/YieldCurve.lean |
| `crates/qlab-termstructure/src/yield_curve.rs:111` | YieldCurve<D, I>::`yield_curve` | `yieldAt` | Model/YieldCurve.lean |
| `crates/qlab-time/src/calendar.rs:4` | trait Calendar::`is_business_day` (declared) | `Calendar` | Model/Calendar.lean |
| `crates/qlab-time/src/calendar.rs:6` | trait Calendar::`is_holiday` | `Calendar` | Model/Calendar.lean |
| `crates/qlab-time/src/calendar.rs:12` | Calendar for C::`is_business_day` | `dateIsBusinessDay` | Model/Calendar.lean |
| `crates/qlab-time/src/calendar.rs:16` | Calendar for C::`is_holiday` | `dateIsHoliday` | Model/Calendar.lean |
| `crates/qlab-time/src/date.rs:28` | Date::`from_ymd` | `fromYmd` | Model/Date.lean |
| `crates/qlab-time/src/date.rs:31` | Date::`days_in_month` | `daysInMonth` | Model/Date.lean |
| `crates/qlab-time/src/date.rs:53` | Date::`leap_year` | `leapYear` | Model/Date.lean |
| `crates/qlab-time/src/date.rs:72` | Date::`checked_add_years` | `checkedAddYears` | Model/Date.lean |
| `crates/qlab-time/src/date.rs:96` | Date::`checked_add_months` | `checkedAddMonths` | Model/Date.lean |
| `crates/qlab-time/src/date.rs:117` | Date::`checked_sub_months` | `checkedSubMonths` | Model/Date.lean |
| `crates/qlab-time/src/date.rs:140` | Date::`checked_add_days` | `checkedAddDays` | Model/Date.lean |
| `crates/qlab-time/src/date.rs:156` | Date::`checked_sub_days` | `checkedSubDays` | Model/Date.lean |
| `crates/qlab-time/src/date.rs:166` | Date::`succ_opt` | `succOpt` | Model/Date.lean |
| `crates/qlab-time/src/date.rs:174` | Date::`pred_opt` | `predOpt` | Model/Date.lean |
| `crates/qlab-time/src/date.rs:181` | Date::`year` | `Date` | Model/Date.lean |
| `crates/qlab-time/src/date.rs:187` | Date::`month` | `Date` | Model/Date.lean |
| `crates/qlab-time/src/date.rs:197` | Date::`day` | `Date` | Model/Date.lean |
| `crates/qlab-time/src/date.rs:209` | Date::`serial_date` | `serialDate` | Model/Date.lean |
| `crates/qlab-time/src/date.rs:222` | Date::`weekend_roll` | `weekendRoll` | Model/Date.lean |
| `crates/qlab-time/src/date.rs:236` | From<NaiveDate> for Date::`from` | `Date` | Model/Date.lean |
| `crates/qlab-time/src/date.rs:244` | Sub for Date::`sub` | `sub` | Model/Date.lean |
| `crates/qlab-time/src/date.rs:250` | fmt::Display for Date::`fmt` | `displayChars` | Model/Date.lean |
| `crates/qlab-time/src/date.rs:256` | Date::`checked_add` | `rollUnadjusted` | Model/Rolling.lean |
| `crates/qlab-time/src/date.rs:260` | Date::`checked_roll` | `followLoop`, `precedeLoop`, `rollUnadjusted`, `rollFollowing`, `rollPreceding`, `checkedRoll` | Model/Rolling.lean |
| `crates/qlab-time/src/day_count.rs:29` | trait DayCount: Copy::`calculate_day_count_fraction` (declared) | `DayCount` | Model/DayCount.lean |
| `crates/qlab-time/src/period.rs:8` | trait Period: Copy::`checked_add` (declared) | `Period` | Model/Rolling.lean |
| `crates/qlab-time/src/day_count/act_360.rs:10` | DayCount for Act360::`calculate_day_count_fraction` | `act360` | Model/DayCount.lean |
| `crates/qlab-time/src/day_count/act_365.rs:10` | DayCount for Act365::`calculate_day_count_fraction` | `act365` | Model/DayCount.lean |
| `crates/qlab-time/src/day_count/thirty_360.rs:12` | Thirty360::`date_diff` | `thirty360Diff` | Model/DayCount.lean |
| `crates/qlab-time/src/day_count/thirty_360.rs:28` | DayCount for Thirty360::`calculate_day_count_fraction` | `thirty360` | Model/DayCount.lean |
| `crates/qlab-time/src/period/days.rs:9` | Days::`new` | `days` | Model/Rolling.lean |
| `crates/qlab-time/src/period/days.rs:15` | Period for Days::`checked_add` | `days` | Model/Rolling.lean |
| `crates/qlab-time/src/period/months.rs:9` | Months::`new` | `months` | Model/Rolling.lean |
| `crates/qlab-time/src/period/months.rs:15` | Period for Months::`checked_add` | `months` | Model/Rolling.lean |
| `crates/qlab-time/src/period/years.rs:9` | Years::`new` | `years` | Model/Rolling.lean |
| `crates/qlab-time/src/period/years.rs:15` | Period for Years::`checked_add` | `years` | Model/Rolling.lean |
| `third-parties/calendar/src/argentina.rs:10` | Calendar for Argentina::`is_business_day` | `isBusinessDay` | Model/Countries/Argentina.lean |
| `third-parties/calendar/src/australia.rs:18` | Australia::`shared_holiday` | `sharedHoliday` | Model/Countries/Australia.lean |
| `third-parties/calendar/src/australia.rs:49` | Australia::`extra_holiday` | `extraHoliday` | Model/Countries/Australia.lean |
| `third-parties/calendar/src/australia.rs:56` | Australia::`settlement_is_business_day` | `settlementIsBusinessDay` | Model/Countries/Australia.lean |
| `third-parties/calendar/src/australia.rs:59` | Australia::`asx_is_business_day` | `asxIsBusinessDay` | Model/Countries/Australia.lean |
| `third-parties/calendar/src/australia.rs:65` | Calendar for Australia::`is_business_day` | `isBusinessDay` | Model/Countries/Australia.lean |
| `third-parties/calendar/src/austria.rs:19` | Austria::`settlement_is_business_day` | `settlementIsBusinessDay` | Model/Countries/Austria.lean |
| `third-parties/calendar/src/austria.rs:57` | Austria::`exchange_is_business_day` | `exchangeIsBusinessDay` | Model/Countries/Austria.lean |
| `third-parties/calendar/src/austria.rs:91` | Calendar for Austria::`is_business_day` | `isBusinessDay` | Model/Countries/Austria.lean |
| `third-parties/calendar/src/botswana.rs:11` | Calendar for Botswana::`is_business_day` | `isBusinessDay` | Model/Countries/Botswana.lean |
| `third-parties/calendar/src/brazil.rs:19` | Brazil::`settlement_is_business_day` | `settlementIsBusinessDay` | Model/Countries/Brazil.lean |
| `third-parties/calendar/src/brazil.rs:52` | Brazil::`exchange_is_business_day` | `exchangeIsBusinessDay` | Model/Countries/Brazil.lean |
| `third-parties/calendar/src/brazil.rs:98` | Calendar for Brazil::`is_business_day` | `isBusinessDay` | Model/Countries/Brazil.lean |
| `third-parties/calendar/src/canada.rs:19` | Canada::`shared_holiday` | `sharedHoliday` | Model/Countries/Canada.lean |
| `third-parties/calendar/src/canada.rs:56` | Canada::`extra_holiday` | `extraHoliday` | Model/Countries/Canada.lean |
| `third-parties/calendar/src/canada.rs:62` | Canada::`settlement_is_business_day` | `settlementIsBusinessDay` | Model/Countries/Canada.lean |
| `third-parties/calendar/src/canada.rs:66` | Canada::`tsx_is_business_day` | `tsxIsBusinessDay` | Model/Countries/Canada.lean |
| `third-parties/calendar/src/canada.rs:72` | Calendar for Canada::`is_business_day` | `isBusinessDay` | Model/Countries/Canada.lean |
| `third-parties/calendar/src/chile.rs:11` | Calendar for Chile::`is_business_day` | `isBusinessDay` | Model/Countries/Chile.lean |
| `third-parties/calendar/src/china.rs:10` | Calendar for China::`is_business_day` | `isBusinessDay` | Model/Countries/China.lean |
| `third-parties/calendar/src/czechrepublic.rs:11` | Calendar for CzechRepublic::`is_business_day` | `isBusinessDay` | Model/Countries/CzechRepublic.lean |
| `third-parties/calendar/src/denmark.rs:10` | Calendar for Denmark::`is_business_day` | `isBusinessDay` | Model/Countries/Denmark.lean |
| `third-parties/calendar/src/finland.rs:11` | Calendar for Finland::`is_business_day` | `isBusinessDay` | Model/Countries/Finland.lean |
| `third-parties/calendar/src/france.rs:19` | France::`settlement_is_business_day` | `settlementIsBusinessDay` | Model/Countries/France.lean |
| `third-parties/calendar/src/france.rs:52` | France::`exchange_is_business_day` | `exchangeIsBusinessDay` | Model/Countries/France.lean |
| `third-parties/calendar/src/france.rs:82` | Calendar for France::`is_business_day` | `isBusinessDay` | Model/Countries/France.lean |
| `third-parties/calendar/src/germany.rs:22` | Germany::`settlement_is_business_day` | `settlementIsBusinessDay` | Model/Countries/Germany.lean |
| `third-parties/calendar/src/germany.rs:55` | Germany::`frankfurt_stock_exchange_is_business_day` | `frankfurtStockExchangeIsBusinessDay` | Model/Countries/Germany.lean |
| `third-parties/calendar/src/germany.rs:80` | Germany::`eurex_is_business_day` | `eurexIsBusinessDay` | Model/Countries/Germany.lean |
| `third-parties/calendar/src/germany.rs:86` | Germany::`euwax_is_business_day` | `euwaxIsBusinessDay` | Model/Countries/Germany.lean |
| `third-parties/calendar/src/germany.rs:95` | Calendar for Germany::`is_business_day` | `isBusinessDay` | Model/Countries/Germany.lean |
| `third-parties/calendar/src/hongkong.rs:11` | Calendar for HongKong::`is_business_day` | `isBusinessDay` | Model/Countries/HongKong.lean |
| `third-parties/calendar/src/hungary.rs:11` | Calendar for Hungary::`is_business_day` | `isBusinessDay` | Model/Countries/Hungary.lean |
| `third-parties/calendar/src/iceland.rs:11` | Calendar for Iceland::`is_business_day` | `isBusinessDay` | Model/Countries/Iceland.lean |
| `third-parties/calendar/src/india.rs:11` | Calendar for India::`is_business_day` | `isBusinessDay` | Model/Countries/India.lean |
| `third-parties/calendar/src/indonesia.rs:11` | Calendar for Indonesia::`is_business_day` | `isBusinessDay` | Model/Countries/Indonesia.lean |
| `third-parties/calendar/src/israel.rs:11` | Calendar for Israel::`is_business_day` | `isBusinessDay` | Model/Countries/Israel.lean |
| `third-parties/calendar/src/italy.rs:19` | Italy::`settlement_is_business_day` | `settlementIsBusinessDay` | Model/Countries/Italy.lean |
| `third-parties/calendar/src/italy.rs:54` | Italy::`exchange_is_business_day` | `exchangeIsBusinessDay` | Model/Countries/Italy.lean |
| `third-parties/calendar/src/italy.rs:84` | Calendar for Italy::`is_business_day` | `isBusinessDay` | Model/Countries/Italy.lean |
| `third-parties/calendar/src/japan.rs:11` | Japan::`vernal_equinox_day` | `vernalEquinoxDay` | Model/Countries/Japan.lean |
| `third-parties/calendar/src/japan.rs:17` | Japan::`autumnal_equinox_day` | `autumnalEquinoxDay` | Model/Countries/Japan.lean |
| `third-parties/calendar/src/japan.rs:26` | Calendar for Japan::`is_business_day` | `isBusinessDay` | Model/Countries/Japan.lean |
| `third-parties/calendar/src/jointcalendar.rs:12` | JointCalendar<T1, T2>::`new` | `joint` | Model/Calendar.lean |
| `third-parties/calendar/src/jointcalendar.rs:18` | Calendar for JointCalendar<T1, T2>::`is_business_day` | `joint` | Model/Calendar.lean |
| `third-parties/calendar/src/lib.rs:155` | trait Calendar: Debug::`naive_date_to_dkmy` | `naiveDateToDkmy` | Model/Calendar.lean |
| `third-parties/calendar/src/lib.rs:165` | trait Calendar: Debug::`last_day_of_month` | `lastDayOfMonth` | Model/Calendar.lean |
| `third-parties/calendar/src/lib.rs:174` | trait Calendar: Debug::`end_of_month` | `endOfMonthLoop`, `endOfMonth` | Model/Calendar.lean |
| `third-parties/calendar/src/lib.rs:182` | trait Calendar: Debug::`easter_monday` | `easterMonday` | Model/Easter.lean |
| `third-parties/calendar/src/lib.rs:186` | trait Calendar: Debug::`orthodox_easter_monday` | `orthodoxEasterMonday` | Model/Easter.lean |
| `third-parties/calendar/src/lib.rs:190` | trait Calendar: Debug::`is_weekend` | `isWeekend` | Model/Calendar.lean |
| `third-parties/calendar/src/lib.rs:195` | trait Calendar: Debug::`is_business_day` (declared) | `Calendar` | Model/Calendar.lean |
| `third-parties/calendar/src/lib.rs:197` | trait Calendar: Debug::`is_holiday` | `isHoliday` | Model/Calendar.lean |
| `third-parties/calendar/src/lib.rs:202` | trait Calendar: Debug::`business_days_between` | `countBusinessDays`, `businessDaysForward`, `businessDaysBetween` | Model/Calendar.lean |
| `third-parties/calendar/src/mexico.rs:11` | Calendar for Mexico::`is_business_day` | `isBusinessDay` | Model/Countries/Mexico.lean |
| `third-parties/calendar/src/newzealand.rs:11` | Calendar for NewZealand::`is_business_day` | `isBusinessDay` | Model/Countries/NewZealand.lean |
| `third-parties/calendar/src/norway.rs:11` | Calendar for Norway::`is_business_day` | `isBusinessDay` | Model/Countries/Norway.lean |
| `third-parties/calendar/src/poland.rs:11` | Calendar for Poland::`is_business_day` | `isBusinessDay` | Model/Countries/Poland.lean |
| `third-parties/calendar/src/romania.rs:11` | Calendar for Romania::`is_business_day` | `isBusinessDay` | Model/Countries/Romania.lean |
| `third-parties/calendar/src/russia.rs:19` | Russia::`is_extra_holiday_settlement` | `isExtraHolidaySettlement` | Model/Countries/Russia.lean |
| `third-parties/calendar/src/russia.rs:30` | Russia::`is_extra_holiday_exchange` | `isExtraHolidayExchange` | Model/Countries/Russia.lean |
| `third-parties/calendar/src/russia.rs:46` | Russia::`is_working_weekend` | `isWorkingWeekend` | Model/Countries/Russia.lean |
| `third-parties/calendar/src/russia.rs:56` | Russia::`settlement_is_business_day` | `settlementIsBusinessDay` | Model/Countries/Russia.lean |
| `third-parties/calendar/src/russia.rs:95` | Russia::`exchange_is_business_day` | `exchangeIsBusinessDay` | Model/Countries/Russia.lean |
| `third-parties/calendar/src/russia.rs:128` | Calendar for Russia::`is_business_day` | `isBusinessDay` | Model/Countries/Russia.lean |
| `third-parties/calendar/src/singapore.rs:11` | Calendar for Singapore::`is_business_day` | `isBusinessDay` | Model/Countries/Singapore.lean |
| `third-parties/calendar/src/slovakia.rs:11` | Calendar for Slovakia::`is_business_day` | `isBusinessDay` | Model/Countries/Slovakia.lean |
| `third-parties/calendar/src/southafrica.rs:11` | Calendar for SouthAfrica::`is_business_day` | `isBusinessDay` | Model/Countries/SouthAfrica.lean |
| `third-parties/calendar/src/southkorea.rs:11` | Calendar for SouthKorea::`is_business_day` | `isBusinessDay` | Model/Countries/SouthKorea.lean |
| `third-parties/calendar/src/sweden.rs:11` | Calendar for Sweden::`is_business_day` | `isBusinessDay` | Model/Countries/Sweden.lean |
| `third-parties/calendar/src/switzerland.rs:11` | Calendar for Switzerland::`is_business_day` | `isBusinessDay` | Model/Countries/Switzerland.lean |
| `third-parties/calendar/src/taiwan.rs:10` | Calendar for Taiwan::`is_business_day` | `isBusinessDay` | Model/Countries/Taiwan.lean |
| `third-parties/calendar/src/target.rs:10` | Calendar for Target::`is_business_day` | `isBusinessDay` | Model/Countries/Target.lean |
| `third-parties/calendar/src/thailand.rs:11` | Calendar for Thailand::`is_business_day` | `isBusinessDay` | Model/Countries/Thailand.lean |
| `third-parties/calendar/src/turkey.rs:11` | Calendar for Turkey::`is_business_day` | `isBusinessDay` | Model/Countries/Turkey.lean |
| `third-parties/calendar/src/ukraine.rs:11` | Calendar for Ukraine::`is_business_day` | `isBusinessDay` | Model/Countries/Ukraine.lean |
| `third-parties/calendar/src/unitedkingdom.rs:19` | UnitedKingdom::`special_bank_holiday` | `specialBankHoliday` | Model/Countries/UnitedKingdom.lean |
| `third-parties/calendar/src/unitedkingdom.rs:49` | UnitedKingdom::`settlement_is_business_day` | `settlementIsBusinessDay` | Model/Countries/UnitedKingdom.lean |
| `third-parties/calendar/src/unitedkingdom.rs:72` | UnitedKingdom::`exchange_is_business_day` | `exchangeIsBusinessDay` | Model/Countries/UnitedKingdom.lean |
| `third-parties/calendar/src/unitedkingdom.rs:75` | UnitedKingdom::`metals_is_business_day` | `metalsIsBusinessDay` | Model/Countries/UnitedKingdom.lean |
| `third-parties/calendar/src/unitedkingdom.rs:81` | Calendar for UnitedKingdom::`is_business_day` | `isBusinessDay` | Model/Countries/UnitedKingdom.lean |
| `third-parties/calendar/src/unitedstates.rs:23` | UnitedStates::`is_washington_birthday` | `isWashingtonBirthday` | Model/Countries/UnitedStates.lean |
| `third-parties/calendar/src/unitedstates.rs:31` | UnitedStates::`is_memorial_day` | `isMemorialDay` | Model/Countries/UnitedStates.lean |
| `third-parties/calendar/src/unitedstates.rs:39` | UnitedStates::`is_labor_day` | `isLaborDay` | Model/Countries/UnitedStates.lean |
| `third-parties/calendar/src/unitedstates.rs:44` | UnitedStates::`is_columbus_day` | `isColumbusDay` | Model/Countries/UnitedStates.lean |
| `third-parties/calendar/src/unitedstates.rs:49` | UnitedStates::`is_veterans_day` | `isVeteransDay` | Model/Countries/UnitedStates.lean |
| `third-parties/calendar/src/unitedstates.rs:59` | UnitedStates::`is_veterans_day_no_saturday` | `isVeteransDayNoSaturday` | Model/Countries/UnitedStates.lean |
| `third-parties/calendar/src/unitedstates.rs:67` | UnitedStates::`is_juneteenth` | `isJuneteenth` | Model/Countries/UnitedStates.lean |
| `third-parties/calendar/src/unitedstates.rs:74` | UnitedStates::`settlement_is_business_day` | `settlementIsBusinessDay` | Model/Countries/UnitedStates.lean |
| `third-parties/calendar/src/unitedstates.rs:109` | UnitedStates::`libor_is_business_day` | `liborIsBusinessDay` | Model/Countries/UnitedStates.lean |
| `third-parties/calendar/src/unitedstates.rs:117` | UnitedStates::`nyse_is_business_day` | `nyseIsBusinessDay` | Model/Countries/UnitedStates.lean |
| `third-parties/calendar/src/unitedstates.rs:205` | UnitedStates::`government_bond_is_business_day` | `governmentBondIsBusinessDay` | Model/Countries/UnitedStates.lean |
| `third-parties/calendar/src/unitedstates.rs:254` | UnitedStates::`sofr_is_business_day` | `sofrIsBusinessDay` | Model/Countries/UnitedStates.lean |
| `third-parties/calendar/src/unitedstates.rs:263` | UnitedStates::`nerc_is_business_day` | `nercIsBusinessDay` | Model/Countries/UnitedStates.lean |
| `third-parties/calendar/src/unitedstates.rs:285` | UnitedStates::`federal_reserve_is_holiday` | `federalReserveIsHoliday` | Model/Countries/UnitedStates.lean |
| `third-parties/calendar/src/unitedstates.rs:320` | Calendar for UnitedStates::`is_business_day` | `isBusinessDay` | Model/Countries/UnitedStates.lean |
| `third-parties/calendar/src/weekendsonly.rs:10` | Calendar for WeekendsOnly::`is_business_day` | `weekendsOnly` | Model/Calendar.lean |
