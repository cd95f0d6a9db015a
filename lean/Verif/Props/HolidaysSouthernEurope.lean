import Verif.Lemmas.HolidayTactics

/-!
# The holidays of the shipped calendars, exactly: southern and eastern Europe (C66)

The lists `holidays` and the weekly `RestDay`s are in `Verif.Spec.HolidayTables`, in the vocabulary of
`Verif.Spec.Holidays`.
-/

set_option maxRecDepth 8000
set_option maxHeartbeats 4000000

namespace Qlab.Props

open Spec HolidayTactics

/-- **C66**, France: exactly the rest days and the listed holidays are closed. -/
theorem C66_france (mk : Option FranceMarket) (d : Date) (h1 : 1901 ≤ d.year) (h2 : d.year ≤ 2199) :
    Closed (Shipped.france mk).calendar d ↔ RestDay (.france mk) d ∨ HolidayOn (holidays (.france mk)) d := by
  rcases mk with _ | mk
  · exact_easter_calendar
  · cases mk <;> exact_easter_calendar

example := C66_france none ⟨2023, 4, 10, by decide⟩ (by decide) (by decide)

/-- **C66**, Italy: exactly the rest days and the listed holidays are closed. -/
theorem C66_italy (mk : Option ItalyMarket) (d : Date) (h1 : 1901 ≤ d.year) (h2 : d.year ≤ 2199) :
    Closed (Shipped.italy mk).calendar d ↔ RestDay (.italy mk) d ∨ HolidayOn (holidays (.italy mk)) d := by
  rcases mk with _ | mk
  · exact_easter_calendar
  · cases mk <;> exact_easter_calendar

example := C66_italy none ⟨2023, 4, 10, by decide⟩ (by decide) (by decide)

/-- **C66**, Romania: exactly the rest days and the listed holidays are closed. -/
theorem C66_romania (d : Date) (h1 : 1901 ≤ d.year) (h2 : d.year ≤ 2199) :
    Closed Shipped.romania.calendar d ↔ RestDay .romania d ∨ HolidayOn (holidays .romania) d := by
  exact_easter_calendar

example := C66_romania ⟨2023, 4, 10, by decide⟩ (by decide) (by decide)

/-- **C66**, Russia: exactly the rest days and the listed holidays are closed. -/
theorem C66_russia (mk : Option RussiaMarket) (d : Date) : Closed (Shipped.russia mk).calendar d ↔
    RestDay (.russia mk) d ∨ HolidayOn (holidays (.russia mk)) d := by
  rcases mk with _ | mk
  · exact_calendar
  · cases mk
    · exact_calendar
    · simp only [RestDay, RussianWorkingWeekend]
      exact_table 2012 2020

/-- **C66**, Ukraine: exactly the rest days and the listed holidays are closed. -/
theorem C66_ukraine (d : Date) (h1 : 1901 ≤ d.year) (h2 : d.year ≤ 2199) :
    Closed Shipped.ukraine.calendar d ↔ RestDay .ukraine d ∨ HolidayOn (holidays .ukraine) d := by
  exact_easter_calendar

example := C66_ukraine ⟨2023, 4, 10, by decide⟩ (by decide) (by decide)

/-- **C66**, Turkey: exactly the rest days and the listed holidays are closed. -/
theorem C66_turkey (d : Date) : Closed Shipped.turkey.calendar d ↔
    RestDay .turkey d ∨ HolidayOn (holidays .turkey) d := by
  exact_table 2004 2034

/-- Closed: a Sunday on the Russian exchange; Orthodox Easter Monday, Romania; Ramadan feast, Turkey. -/
example : Closed (Shipped.calendar (.russia (some .Exchange))) ⟨2018, 6, 10, by decide⟩ ∧
    Closed (Shipped.calendar .romania) ⟨2023, 4, 17, by decide⟩ ∧
    Closed (Shipped.calendar .turkey) ⟨2023, 4, 21, by decide⟩ := by
  unfold Closed; decide +kernel

end Qlab.Props
