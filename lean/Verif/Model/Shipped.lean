import Verif.Model.Countries.Argentina
import Verif.Model.Countries.Australia
import Verif.Model.Countries.Austria
import Verif.Model.Countries.Botswana
import Verif.Model.Countries.Brazil
import Verif.Model.Countries.Canada
import Verif.Model.Countries.Chile
import Verif.Model.Countries.China
import Verif.Model.Countries.CzechRepublic
import Verif.Model.Countries.Denmark
import Verif.Model.Countries.Finland
import Verif.Model.Countries.France
import Verif.Model.Countries.Germany
import Verif.Model.Countries.HongKong
import Verif.Model.Countries.Hungary
import Verif.Model.Countries.Iceland
import Verif.Model.Countries.India
import Verif.Model.Countries.Indonesia
import Verif.Model.Countries.Israel
import Verif.Model.Countries.Italy
import Verif.Model.Countries.Japan
import Verif.Model.Countries.Mexico
import Verif.Model.Countries.NewZealand
import Verif.Model.Countries.Norway
import Verif.Model.Countries.Poland
import Verif.Model.Countries.Romania
import Verif.Model.Countries.Russia
import Verif.Model.Countries.Singapore
import Verif.Model.Countries.Slovakia
import Verif.Model.Countries.SouthAfrica
import Verif.Model.Countries.SouthKorea
import Verif.Model.Countries.Sweden
import Verif.Model.Countries.Switzerland
import Verif.Model.Countries.Taiwan
import Verif.Model.Countries.Target
import Verif.Model.Countries.Thailand
import Verif.Model.Countries.Turkey
import Verif.Model.Countries.Ukraine
import Verif.Model.Countries.UnitedKingdom
import Verif.Model.Countries.UnitedStates

/-! Generated by `tools/gen_calendars.py`: every calendar shipped in `third-parties/calendar/src`. -/

namespace Qlab

/-- The calendars of `third-parties/calendar/src/lib.rs:70-152` with their market options
(without `JointCalendar`, which is `Calendar.joint`). -/
inductive Shipped where
  | argentina
  | australia (market : Option AustraliaMarket)
  | austria (market : Option AustriaMarket)
  | botswana
  | brazil (market : Option BrazilMarket)
  | canada (market : Option CanadaMarket)
  | chile
  | china
  | czechRepublic
  | denmark
  | finland
  | france (market : Option FranceMarket)
  | germany (market : Option GermanyMarket)
  | hongKong
  | hungary
  | iceland
  | india
  | indonesia
  | israel
  | italy (market : Option ItalyMarket)
  | japan
  | mexico
  | newZealand
  | norway
  | poland
  | romania
  | russia (market : Option RussiaMarket)
  | singapore
  | slovakia
  | southAfrica
  | southKorea
  | sweden
  | switzerland
  | taiwan
  | target
  | thailand
  | turkey
  | ukraine
  | unitedKingdom (market : Option UnitedKingdomMarket)
  | unitedStates (market : Option UnitedStatesMarket)
  | weekendsOnly
  deriving DecidableEq

/-- The calendar a name stands for. -/
def Shipped.calendar : Shipped → Calendar
  | .argentina => Calendar.argentina
  | .australia m => Calendar.australia m
  | .austria m => Calendar.austria m
  | .botswana => Calendar.botswana
  | .brazil m => Calendar.brazil m
  | .canada m => Calendar.canada m
  | .chile => Calendar.chile
  | .china => Calendar.china
  | .czechRepublic => Calendar.czechRepublic
  | .denmark => Calendar.denmark
  | .finland => Calendar.finland
  | .france m => Calendar.france m
  | .germany m => Calendar.germany m
  | .hongKong => Calendar.hongKong
  | .hungary => Calendar.hungary
  | .iceland => Calendar.iceland
  | .india => Calendar.india
  | .indonesia => Calendar.indonesia
  | .israel => Calendar.israel
  | .italy m => Calendar.italy m
  | .japan => Calendar.japan
  | .mexico => Calendar.mexico
  | .newZealand => Calendar.newZealand
  | .norway => Calendar.norway
  | .poland => Calendar.poland
  | .romania => Calendar.romania
  | .russia m => Calendar.russia m
  | .singapore => Calendar.singapore
  | .slovakia => Calendar.slovakia
  | .southAfrica => Calendar.southAfrica
  | .southKorea => Calendar.southKorea
  | .sweden => Calendar.sweden
  | .switzerland => Calendar.switzerland
  | .taiwan => Calendar.taiwan
  | .target => Calendar.target
  | .thailand => Calendar.thailand
  | .turkey => Calendar.turkey
  | .ukraine => Calendar.ukraine
  | .unitedKingdom m => Calendar.unitedKingdom m
  | .unitedStates m => Calendar.unitedStates m
  | .weekendsOnly => Calendar.weekendsOnly

end Qlab
