import Verif.Lemmas.HolidayTactics

/-!
# The holidays of the shipped calendars, exactly: Africa and Oceania (C66)

The lists `holidays` and the weekly `RestDay`s are in `Verif.Spec.HolidayTables`, in the vocabulary of
`Verif.Spec.Holidays`.
-/

set_option maxRecDepth 8000
set_option maxHeartbeats 4000000

namespace Qlab.Props

open Spec HolidayTactics

/-- **C66**, Botswana: exactly the rest days and the listed holidays are closed. -/
theorem C66_botswana (d : Date) (h1 : 1901 ≤ d.year) (h2 : d.year ≤ 2199) :
    Closed Shipped.botswana.calendar d ↔ RestDay .botswana d ∨ HolidayOn (holidays .botswana) d := by
  exact_easter_calendar

example := C66_botswana ⟨2023, 4, 10, by decide⟩ (by decide) (by decide)

/-- **C66**, South Africa: exactly the rest days and the listed holidays are closed. -/
theorem C66_southAfrica (d : Date) (h1 : 1901 ≤ d.year) (h2 : d.year ≤ 2199) :
    Closed Shipped.southAfrica.calendar d ↔ RestDay .southAfrica d ∨ HolidayOn (holidays .southAfrica) d := by
  exact_easter_calendar

example := C66_southAfrica ⟨2023, 4, 10, by decide⟩ (by decide) (by decide)

/-- **C66**, Australia: exactly the rest days and the listed holidays are closed. -/
theorem C66_australia (mk : Option AustraliaMarket) (d : Date) (h1 : 1901 ≤ d.year) (h2 : d.year ≤ 2199) :
    Closed (Shipped.australia mk).calendar d ↔ RestDay (.australia mk) d ∨ HolidayOn (holidays (.australia mk)) d := by
  rcases mk with _ | mk
  · exact_easter_calendar
  · cases mk <;> exact_easter_calendar

example := C66_australia none ⟨2023, 4, 10, by decide⟩ (by decide) (by decide)

/-- **C66**, New Zealand: exactly the rest days and the listed holidays are closed. -/
theorem C66_newZealand (d : Date) (h1 : 1901 ≤ d.year) (h2 : d.year ≤ 2199) :
    Closed Shipped.newZealand.calendar d ↔ RestDay .newZealand d ∨ HolidayOn (holidays .newZealand) d := by
  exact_easter_table 2013 2052

/-- Closed: Matariki, New Zealand; Christmas Day in lieu, Australia; Tuesday after a New Year on Sunday, Botswana. -/
example : Closed (Shipped.calendar .newZealand) ⟨2023, 7, 14, by decide⟩ ∧
    Closed (Shipped.calendar (.australia none)) ⟨2022, 12, 27, by decide⟩ ∧
    Closed (Shipped.calendar .botswana) ⟨2023, 1, 3, by decide⟩ := by
  unfold Closed; decide +kernel

end Qlab.Props
