import Verif.Lemmas.HolidayTactics

/-!
# The holidays of the shipped calendars, exactly: the Americas (C66)

The lists `holidays` and the weekly `RestDay`s are in `Verif.Spec.HolidayTables`, in the vocabulary of
`Verif.Spec.Holidays`.
-/

set_option maxRecDepth 8000
set_option maxHeartbeats 4000000

namespace Qlab.Props

open Spec HolidayTactics

/-- **C66**, Argentina: exactly the rest days and the listed holidays are closed. -/
theorem C66_argentina (d : Date) (h1 : 1901 ≤ d.year) (h2 : d.year ≤ 2199) :
    Closed Shipped.argentina.calendar d ↔ RestDay .argentina d ∨ HolidayOn (holidays .argentina) d := by
  exact_easter_calendar

example := C66_argentina ⟨2023, 4, 10, by decide⟩ (by decide) (by decide)

/-- **C66**, Brazil: exactly the rest days and the listed holidays are closed. -/
theorem C66_brazil (mk : Option BrazilMarket) (d : Date) (h1 : 1901 ≤ d.year) (h2 : d.year ≤ 2199) :
    Closed (Shipped.brazil mk).calendar d ↔ RestDay (.brazil mk) d ∨ HolidayOn (holidays (.brazil mk)) d := by
  rcases mk with _ | mk
  · exact_easter_calendar
  · cases mk <;> exact_easter_calendar

example := C66_brazil none ⟨2023, 4, 10, by decide⟩ (by decide) (by decide)

/-- **C66**, Canada: exactly the rest days and the listed holidays are closed. -/
theorem C66_canada (mk : Option CanadaMarket) (d : Date) (h1 : 1901 ≤ d.year) (h2 : d.year ≤ 2199) :
    Closed (Shipped.canada mk).calendar d ↔ RestDay (.canada mk) d ∨ HolidayOn (holidays (.canada mk)) d := by
  rcases mk with _ | mk
  · exact_easter_calendar
  · cases mk <;> exact_easter_calendar

example := C66_canada none ⟨2023, 4, 10, by decide⟩ (by decide) (by decide)

/-- **C66**, Chile: exactly the rest days and the listed holidays are closed. -/
theorem C66_chile (d : Date) (h1 : 1901 ≤ d.year) (h2 : d.year ≤ 2199) :
    Closed Shipped.chile.calendar d ↔ RestDay .chile d ∨ HolidayOn (holidays .chile) d := by
  exact_easter_calendar

example := C66_chile ⟨2023, 4, 10, by decide⟩ (by decide) (by decide)

/-- **C66**, Mexico: exactly the rest days and the listed holidays are closed. -/
theorem C66_mexico (d : Date) (h1 : 1901 ≤ d.year) (h2 : d.year ≤ 2199) :
    Closed Shipped.mexico.calendar d ↔ RestDay .mexico d ∨ HolidayOn (holidays .mexico) d := by
  exact_easter_calendar

/-- Closed: third Monday of August, Argentina; Victoria Day, Canada; Reformation Day kept on the Friday before, Chile. -/
example : Closed (Shipped.calendar .argentina) ⟨2023, 8, 21, by decide⟩ ∧
    Closed (Shipped.calendar (.canada none)) ⟨2023, 5, 22, by decide⟩ ∧
    Closed (Shipped.calendar .chile) ⟨2023, 10, 27, by decide⟩ := by
  unfold Closed; decide +kernel

end Qlab.Props
