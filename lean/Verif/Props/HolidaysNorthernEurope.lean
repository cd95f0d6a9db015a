import Verif.Lemmas.HolidayTactics

/-!
# The holidays of the shipped calendars, exactly: northern Europe (C66)

The lists `holidays` and the weekly `RestDay`s are in `Verif.Spec.HolidayTables`, in the vocabulary of
`Verif.Spec.Holidays`.
-/

set_option maxRecDepth 8000
set_option maxHeartbeats 4000000

namespace Qlab.Props

open Spec HolidayTactics

/-- **C66**, Denmark: exactly the rest days and the listed holidays are closed. -/
theorem C66_denmark (d : Date) (h1 : 1901 ≤ d.year) (h2 : d.year ≤ 2199) :
    Closed Shipped.denmark.calendar d ↔ RestDay .denmark d ∨ HolidayOn (holidays .denmark) d := by
  exact_easter_calendar

example := C66_denmark ⟨2023, 4, 10, by decide⟩ (by decide) (by decide)

/-- **C66**, Finland: exactly the rest days and the listed holidays are closed. -/
theorem C66_finland (d : Date) (h1 : 1901 ≤ d.year) (h2 : d.year ≤ 2199) :
    Closed Shipped.finland.calendar d ↔ RestDay .finland d ∨ HolidayOn (holidays .finland) d := by
  exact_easter_calendar

example := C66_finland ⟨2023, 4, 10, by decide⟩ (by decide) (by decide)

/-- **C66**, Iceland: exactly the rest days and the listed holidays are closed. -/
theorem C66_iceland (d : Date) (h1 : 1901 ≤ d.year) (h2 : d.year ≤ 2199) :
    Closed Shipped.iceland.calendar d ↔ RestDay .iceland d ∨ HolidayOn (holidays .iceland) d := by
  exact_easter_calendar

example := C66_iceland ⟨2023, 4, 10, by decide⟩ (by decide) (by decide)

/-- **C66**, Norway: exactly the rest days and the listed holidays are closed. -/
theorem C66_norway (d : Date) (h1 : 1901 ≤ d.year) (h2 : d.year ≤ 2199) :
    Closed Shipped.norway.calendar d ↔ RestDay .norway d ∨ HolidayOn (holidays .norway) d := by
  exact_easter_calendar

example := C66_norway ⟨2023, 4, 10, by decide⟩ (by decide) (by decide)

/-- **C66**, Sweden: exactly the rest days and the listed holidays are closed. -/
theorem C66_sweden (d : Date) (h1 : 1901 ≤ d.year) (h2 : d.year ≤ 2199) :
    Closed Shipped.sweden.calendar d ↔ RestDay .sweden d ∨ HolidayOn (holidays .sweden) d := by
  exact_easter_calendar

example := C66_sweden ⟨2023, 4, 10, by decide⟩ (by decide) (by decide)

/-- **C66**, the United Kingdom: exactly the rest days and the listed holidays are closed. -/
theorem C66_unitedKingdom (mk : Option UnitedKingdomMarket) (d : Date) (h1 : 1901 ≤ d.year) (h2 : d.year ≤ 2199) :
    Closed (Shipped.unitedKingdom mk).calendar d ↔ RestDay (.unitedKingdom mk) d ∨ HolidayOn (holidays (.unitedKingdom mk)) d := by
  rcases mk with _ | mk
  · exact_easter_calendar
  · cases mk <;> exact_easter_calendar

/-- Closed: last Monday of August, United Kingdom; first day of summer, Iceland; Midsummer Eve, Sweden. -/
example : Closed (Shipped.calendar (.unitedKingdom none)) ⟨2023, 8, 28, by decide⟩ ∧
    Closed (Shipped.calendar .iceland) ⟨2023, 4, 20, by decide⟩ ∧
    Closed (Shipped.calendar .sweden) ⟨2023, 6, 23, by decide⟩ := by
  unfold Closed; decide +kernel

end Qlab.Props
