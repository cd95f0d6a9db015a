import Verif.Lemmas.HolidayRuns

/-!
# Every shipped calendar leaves a business day in every half month: the checks (calendars without lunar holidays)

Each check covers all years (`none` stands for the years without single closings), months and weekdays.
-/

namespace Qlab

open Spec

theorem halvesOpen_argentina :
    halvesOpen (restDays .argentina) (holidays .argentina) = true ∧ (holidays .argentina).all Holiday.wf = true := by
  decide +kernel

theorem halvesOpen_australia (m : Option AustraliaMarket) :
    halvesOpen (restDays (.australia m)) (holidays (.australia m)) = true ∧ (holidays (.australia m)).all Holiday.wf = true := by
  cases m with
  | none => decide +kernel
  | some m => cases m <;> decide +kernel

theorem halvesOpen_austria (m : Option AustriaMarket) :
    halvesOpen (restDays (.austria m)) (holidays (.austria m)) = true ∧ (holidays (.austria m)).all Holiday.wf = true := by
  cases m with
  | none => decide +kernel
  | some m => cases m <;> decide +kernel

theorem halvesOpen_botswana :
    halvesOpen (restDays .botswana) (holidays .botswana) = true ∧ (holidays .botswana).all Holiday.wf = true := by
  decide +kernel

theorem halvesOpen_brazil (m : Option BrazilMarket) :
    halvesOpen (restDays (.brazil m)) (holidays (.brazil m)) = true ∧ (holidays (.brazil m)).all Holiday.wf = true := by
  cases m with
  | none => decide +kernel
  | some m => cases m <;> decide +kernel

theorem halvesOpen_canada (m : Option CanadaMarket) :
    halvesOpen (restDays (.canada m)) (holidays (.canada m)) = true ∧ (holidays (.canada m)).all Holiday.wf = true := by
  cases m with
  | none => decide +kernel
  | some m => cases m <;> decide +kernel

theorem halvesOpen_chile :
    halvesOpen (restDays .chile) (holidays .chile) = true ∧ (holidays .chile).all Holiday.wf = true := by
  decide +kernel

theorem halvesOpen_china :
    halvesOpen (restDays .china) (holidays .china) = true ∧ (holidays .china).all Holiday.wf = true := by
  decide +kernel

theorem halvesOpen_czechRepublic :
    halvesOpen (restDays .czechRepublic) (holidays .czechRepublic) = true ∧ (holidays .czechRepublic).all Holiday.wf = true := by
  decide +kernel

theorem halvesOpen_denmark :
    halvesOpen (restDays .denmark) (holidays .denmark) = true ∧ (holidays .denmark).all Holiday.wf = true := by
  decide +kernel

theorem halvesOpen_finland :
    halvesOpen (restDays .finland) (holidays .finland) = true ∧ (holidays .finland).all Holiday.wf = true := by
  decide +kernel

theorem halvesOpen_france (m : Option FranceMarket) :
    halvesOpen (restDays (.france m)) (holidays (.france m)) = true ∧ (holidays (.france m)).all Holiday.wf = true := by
  cases m with
  | none => decide +kernel
  | some m => cases m <;> decide +kernel

theorem halvesOpen_germany (m : Option GermanyMarket) :
    halvesOpen (restDays (.germany m)) (holidays (.germany m)) = true ∧ (holidays (.germany m)).all Holiday.wf = true := by
  cases m with
  | none => decide +kernel
  | some m => cases m <;> decide +kernel

theorem halvesOpen_hungary :
    halvesOpen (restDays .hungary) (holidays .hungary) = true ∧ (holidays .hungary).all Holiday.wf = true := by
  decide +kernel

theorem halvesOpen_iceland :
    halvesOpen (restDays .iceland) (holidays .iceland) = true ∧ (holidays .iceland).all Holiday.wf = true := by
  decide +kernel

theorem halvesOpen_italy (m : Option ItalyMarket) :
    halvesOpen (restDays (.italy m)) (holidays (.italy m)) = true ∧ (holidays (.italy m)).all Holiday.wf = true := by
  cases m with
  | none => decide +kernel
  | some m => cases m <;> decide +kernel

theorem halvesOpen_japan :
    halvesOpen (restDays .japan) (holidays .japan) = true ∧ (holidays .japan).all Holiday.wf = true := by
  decide +kernel

theorem halvesOpen_mexico :
    halvesOpen (restDays .mexico) (holidays .mexico) = true ∧ (holidays .mexico).all Holiday.wf = true := by
  decide +kernel

theorem halvesOpen_newZealand :
    halvesOpen (restDays .newZealand) (holidays .newZealand) = true ∧ (holidays .newZealand).all Holiday.wf = true := by
  decide +kernel

theorem halvesOpen_norway :
    halvesOpen (restDays .norway) (holidays .norway) = true ∧ (holidays .norway).all Holiday.wf = true := by
  decide +kernel

theorem halvesOpen_poland :
    halvesOpen (restDays .poland) (holidays .poland) = true ∧ (holidays .poland).all Holiday.wf = true := by
  decide +kernel

theorem halvesOpen_romania :
    halvesOpen (restDays .romania) (holidays .romania) = true ∧ (holidays .romania).all Holiday.wf = true := by
  decide +kernel

theorem halvesOpen_russia (m : Option RussiaMarket) :
    halvesOpen (restDays (.russia m)) (holidays (.russia m)) = true ∧ (holidays (.russia m)).all Holiday.wf = true := by
  cases m with
  | none => decide +kernel
  | some m => cases m <;> decide +kernel

theorem halvesOpen_slovakia :
    halvesOpen (restDays .slovakia) (holidays .slovakia) = true ∧ (holidays .slovakia).all Holiday.wf = true := by
  decide +kernel

theorem halvesOpen_southAfrica :
    halvesOpen (restDays .southAfrica) (holidays .southAfrica) = true ∧ (holidays .southAfrica).all Holiday.wf = true := by
  decide +kernel

theorem halvesOpen_sweden :
    halvesOpen (restDays .sweden) (holidays .sweden) = true ∧ (holidays .sweden).all Holiday.wf = true := by
  decide +kernel

theorem halvesOpen_switzerland :
    halvesOpen (restDays .switzerland) (holidays .switzerland) = true ∧ (holidays .switzerland).all Holiday.wf = true := by
  decide +kernel

theorem halvesOpen_target :
    halvesOpen (restDays .target) (holidays .target) = true ∧ (holidays .target).all Holiday.wf = true := by
  decide +kernel

theorem halvesOpen_thailand :
    halvesOpen (restDays .thailand) (holidays .thailand) = true ∧ (holidays .thailand).all Holiday.wf = true := by
  decide +kernel

theorem halvesOpen_ukraine :
    halvesOpen (restDays .ukraine) (holidays .ukraine) = true ∧ (holidays .ukraine).all Holiday.wf = true := by
  decide +kernel

theorem halvesOpen_unitedKingdom (m : Option UnitedKingdomMarket) :
    halvesOpen (restDays (.unitedKingdom m)) (holidays (.unitedKingdom m)) = true ∧ (holidays (.unitedKingdom m)).all Holiday.wf = true := by
  cases m with
  | none => decide +kernel
  | some m => cases m <;> decide +kernel

theorem halvesOpen_unitedStates (m : Option UnitedStatesMarket) :
    halvesOpen (restDays (.unitedStates m)) (holidays (.unitedStates m)) = true ∧ (holidays (.unitedStates m)).all Holiday.wf = true := by
  cases m with
  | none => decide +kernel
  | some m => cases m <;> decide +kernel

theorem halvesOpen_weekendsOnly :
    halvesOpen (restDays .weekendsOnly) (holidays .weekendsOnly) = true ∧ (holidays .weekendsOnly).all Holiday.wf = true := by
  decide +kernel

end Qlab
