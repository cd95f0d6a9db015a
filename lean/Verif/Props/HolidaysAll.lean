import Verif.Props.Calendars
import Verif.Props.HolidaysAfricaOceania
import Verif.Props.HolidaysAmericas
import Verif.Props.HolidaysCentralEurope
import Verif.Props.HolidaysEastAsia
import Verif.Props.HolidaysNorthernEurope
import Verif.Props.HolidaysSouthAsia
import Verif.Props.HolidaysSouthernEurope
import Verif.Props.HolidaysUnitedStates

/-!
# The holidays of the shipped calendars, exactly (C66)
-/

namespace Qlab.Props

open Spec

/-- **C66.** Every shipped calendar is closed on its weekly rest days and on its holidays, and on no other day:
in 1901..2199 for the calendars that consult Easter (they answer nowhere else), in every representable year for
the others. -/
theorem C66_closed_exactly (s : Shipped) (d : Date) (hy : UsesEaster s = true → 1901 ≤ d.year ∧ d.year ≤ 2199) :
    Closed s.calendar d ↔ RestDay s d ∨ HolidayOn (holidays s) d := by
  cases s with
  | argentina => exact C66_argentina d (hy rfl).1 (hy rfl).2
  | australia m => exact C66_australia m d (hy rfl).1 (hy rfl).2
  | austria m => exact C66_austria m d (hy rfl).1 (hy rfl).2
  | botswana => exact C66_botswana d (hy rfl).1 (hy rfl).2
  | brazil m => exact C66_brazil m d (hy rfl).1 (hy rfl).2
  | canada m => exact C66_canada m d (hy rfl).1 (hy rfl).2
  | chile => exact C66_chile d (hy rfl).1 (hy rfl).2
  | china => exact C66_china d
  | czechRepublic => exact C66_czechRepublic d (hy rfl).1 (hy rfl).2
  | denmark => exact C66_denmark d (hy rfl).1 (hy rfl).2
  | finland => exact C66_finland d (hy rfl).1 (hy rfl).2
  | france m => exact C66_france m d (hy rfl).1 (hy rfl).2
  | germany m => exact C66_germany m d (hy rfl).1 (hy rfl).2
  | hongKong => exact C66_hongKong d (hy rfl).1 (hy rfl).2
  | hungary => exact C66_hungary d (hy rfl).1 (hy rfl).2
  | iceland => exact C66_iceland d (hy rfl).1 (hy rfl).2
  | india => exact C66_india d (hy rfl).1 (hy rfl).2
  | indonesia => exact C66_indonesia d (hy rfl).1 (hy rfl).2
  | israel => exact C66_israel d
  | italy m => exact C66_italy m d (hy rfl).1 (hy rfl).2
  | japan => exact C66_japan d
  | mexico => exact C66_mexico d (hy rfl).1 (hy rfl).2
  | newZealand => exact C66_newZealand d (hy rfl).1 (hy rfl).2
  | norway => exact C66_norway d (hy rfl).1 (hy rfl).2
  | poland => exact C66_poland d (hy rfl).1 (hy rfl).2
  | romania => exact C66_romania d (hy rfl).1 (hy rfl).2
  | russia m => exact C66_russia m d
  | singapore => exact C66_singapore d (hy rfl).1 (hy rfl).2
  | slovakia => exact C66_slovakia d (hy rfl).1 (hy rfl).2
  | southAfrica => exact C66_southAfrica d (hy rfl).1 (hy rfl).2
  | southKorea => exact C66_southKorea d
  | sweden => exact C66_sweden d (hy rfl).1 (hy rfl).2
  | switzerland => exact C66_switzerland d (hy rfl).1 (hy rfl).2
  | taiwan => exact C66_taiwan d
  | target => exact C66_target d (hy rfl).1 (hy rfl).2
  | thailand => exact C66_thailand d (hy rfl).1 (hy rfl).2
  | turkey => exact C66_turkey d
  | ukraine => exact C66_ukraine d (hy rfl).1 (hy rfl).2
  | unitedKingdom m => exact C66_unitedKingdom m d (hy rfl).1 (hy rfl).2
  | unitedStates m =>
    cases hu : UsesEaster (.unitedStates m) with
    | false => exact C66_unitedStates m hu d
    | true =>
      obtain ⟨h1, h2⟩ := hy hu
      have hm : m = some .NYSE ∨ m = some .GovernmentBond ∨ m = some .SOFR := by simpa [UsesEaster] using hu
      rcases hm with rfl | rfl | rfl
      · exact C66_nyse d h1 h2
      · exact C66_governmentBond d h1 h2
      · exact C66_sofr d h1 h2
  | weekendsOnly => exact C66_weekendsOnly d

example := C66_closed_exactly (.germany (some .Eurex)) ⟨2023, 4, 10, by decide⟩ (fun _ => by decide)

/-- **C66**, the business days: every other day is open. -/
theorem C66_open_exactly (s : Shipped) (d : Date) (hy : UsesEaster s = true → 1901 ≤ d.year ∧ d.year ≤ 2199) :
    Open s.calendar d ↔ ¬ RestDay s d ∧ ¬ HolidayOn (holidays s) d := by
  have h := C66_closed_exactly s d hy
  rw [← not_or, ← h]
  unfold Open Closed
  have hc := mt (C29_panics_iff s d).1 (by
    rintro ⟨hu, hr⟩
    have := hy hu
    omega)
  unfold Crashes at hc
  cases hb : s.calendar.isBusinessDay d with
  | panic => exact absurd hb hc
  | ok b => cases b <;> simp

/-- 26 May 2023 in London: a Friday without a holiday; the Monday after it is the Spring Bank Holiday. -/
example : UsesEaster (.unitedKingdom none) = true ∧
    Open (Shipped.unitedKingdom none).calendar ⟨2023, 5, 26, by decide⟩ ∧
    Closed (Shipped.unitedKingdom none).calendar ⟨2023, 5, 29, by decide⟩ := by
  unfold Open Closed; decide +kernel

end Qlab.Props
