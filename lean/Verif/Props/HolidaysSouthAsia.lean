import Verif.Lemmas.HolidayTactics

/-!
# The holidays of the shipped calendars, exactly: southern and western Asia (C66)

The lists `holidays` and the weekly `RestDay`s are in `Verif.Spec.HolidayTables`, in the vocabulary of
`Verif.Spec.Holidays`.
-/

set_option maxRecDepth 8000
set_option maxHeartbeats 4000000

namespace Qlab.Props

open Spec HolidayTactics

/-- **C66**, India: exactly the rest days and the listed holidays are closed. -/
theorem C66_india (d : Date) (h1 : 1901 ≤ d.year) (h2 : d.year ≤ 2199) :
    Closed Shipped.india.calendar d ↔ RestDay .india d ∨ HolidayOn (holidays .india) d := by
  exact_easter_table 2005 2025

example := C66_india ⟨2023, 4, 10, by decide⟩ (by decide) (by decide)

/-- **C66**, Indonesia: exactly the rest days and the listed holidays are closed. -/
theorem C66_indonesia (d : Date) (h1 : 1901 ≤ d.year) (h2 : d.year ≤ 2199) :
    Closed Shipped.indonesia.calendar d ↔ RestDay .indonesia d ∨ HolidayOn (holidays .indonesia) d := by
  exact_easter_table 2005 2014

example := C66_indonesia ⟨2023, 4, 10, by decide⟩ (by decide) (by decide)

/-- **C66**, Singapore: exactly the rest days and the listed holidays are closed. -/
theorem C66_singapore (d : Date) (h1 : 1901 ≤ d.year) (h2 : d.year ≤ 2199) :
    Closed Shipped.singapore.calendar d ↔ RestDay .singapore d ∨ HolidayOn (holidays .singapore) d := by
  exact_easter_table 2004 2023

example := C66_singapore ⟨2023, 4, 10, by decide⟩ (by decide) (by decide)

/-- **C66**, Thailand: exactly the rest days and the listed holidays are closed. -/
theorem C66_thailand (d : Date) (h1 : 1901 ≤ d.year) (h2 : d.year ≤ 2199) :
    Closed Shipped.thailand.calendar d ↔ RestDay .thailand d ∨ HolidayOn (holidays .thailand) d := by
  exact_easter_table 2000 2018

example := C66_thailand ⟨2023, 4, 10, by decide⟩ (by decide) (by decide)

/-- **C66**, Israel: exactly the rest days and the listed holidays are closed. -/
theorem C66_israel (d : Date) : Closed Shipped.israel.calendar d ↔
    RestDay .israel d ∨ HolidayOn (holidays .israel) d := by
  exact_table 2013 2044

/-- Closed: Passover, Israel; the Queen's Birthday in lieu, Thailand; Republic Day, India. -/
example : Closed (Shipped.calendar .israel) ⟨2023, 4, 6, by decide⟩ ∧
    Closed (Shipped.calendar .thailand) ⟨2023, 8, 14, by decide⟩ ∧
    Closed (Shipped.calendar .india) ⟨2023, 1, 26, by decide⟩ := by
  unfold Closed; decide +kernel

end Qlab.Props
