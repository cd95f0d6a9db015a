import Verif.Lemmas.HolidayTactics

/-!
# The holidays of the shipped calendars, exactly: eastern Asia (C66)

The lists `holidays` and the weekly `RestDay`s are in `Verif.Spec.HolidayTables`, in the vocabulary of
`Verif.Spec.Holidays`.
-/

set_option maxRecDepth 8000
set_option maxHeartbeats 4000000

namespace Qlab.Props

open Spec HolidayTactics

/-- **C66**, China: exactly the rest days and the listed holidays are closed. -/
theorem C66_china (d : Date) : Closed Shipped.china.calendar d ↔
    RestDay .china d ∨ HolidayOn (holidays .china) d := by
  exact_table 2004 2023

/-- **C66**, Hong Kong: exactly the rest days and the listed holidays are closed. -/
theorem C66_hongKong (d : Date) (h1 : 1901 ≤ d.year) (h2 : d.year ≤ 2199) :
    Closed Shipped.hongKong.calendar d ↔ RestDay .hongKong d ∨ HolidayOn (holidays .hongKong) d := by
  exact_easter_table 2004 2024

example := C66_hongKong ⟨2023, 4, 10, by decide⟩ (by decide) (by decide)

/-- **C66**, Taiwan: exactly the rest days and the listed holidays are closed. -/
theorem C66_taiwan (d : Date) : Closed Shipped.taiwan.calendar d ↔
    RestDay .taiwan d ∨ HolidayOn (holidays .taiwan) d := by
  exact_table 2002 2024

/-- **C66**, Japan: exactly the rest days and the listed holidays are closed. -/
theorem C66_japan (d : Date) : Closed Shipped.japan.calendar d ↔
    RestDay .japan d ∨ HolidayOn (holidays .japan) d := by
  exact_calendar

/-- **C66**, South Korea: exactly the rest days and the listed holidays are closed. -/
theorem C66_southKorea (d : Date) : Closed Shipped.southKorea.calendar d ↔
    RestDay .southKorea d ∨ HolidayOn (holidays .southKorea) d := by
  exact_table 2004 2050

/-- Closed: Coming of Age Day, Japan; Spring Festival, China; substitute for Buddha's birthday, South Korea. -/
example : Closed (Shipped.calendar .japan) ⟨2023, 1, 9, by decide⟩ ∧
    Closed (Shipped.calendar .china) ⟨2023, 1, 23, by decide⟩ ∧
    Closed (Shipped.calendar .southKorea) ⟨2023, 5, 29, by decide⟩ := by
  unfold Closed; decide +kernel

end Qlab.Props
