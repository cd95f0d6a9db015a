import Verif.Lemmas.HolidayTactics

/-!
# The holidays of the shipped calendars, exactly: central Europe and TARGET (C66)

The lists `holidays` and the weekly `RestDay`s are in `Verif.Spec.HolidayTables`, in the vocabulary of
`Verif.Spec.Holidays`.
-/

set_option maxRecDepth 8000
set_option maxHeartbeats 4000000

namespace Qlab.Props

open Spec HolidayTactics

/-- **C66**, Austria: exactly the rest days and the listed holidays are closed. -/
theorem C66_austria (mk : Option AustriaMarket) (d : Date) (h1 : 1901 ≤ d.year) (h2 : d.year ≤ 2199) :
    Closed (Shipped.austria mk).calendar d ↔ RestDay (.austria mk) d ∨ HolidayOn (holidays (.austria mk)) d := by
  rcases mk with _ | mk
  · exact_easter_calendar
  · cases mk <;> exact_easter_calendar

example := C66_austria none ⟨2023, 4, 10, by decide⟩ (by decide) (by decide)

/-- **C66**, the Czech Republic: exactly the rest days and the listed holidays are closed. -/
theorem C66_czechRepublic (d : Date) (h1 : 1901 ≤ d.year) (h2 : d.year ≤ 2199) :
    Closed Shipped.czechRepublic.calendar d ↔ RestDay .czechRepublic d ∨ HolidayOn (holidays .czechRepublic) d := by
  exact_easter_calendar

example := C66_czechRepublic ⟨2023, 4, 10, by decide⟩ (by decide) (by decide)

/-- **C66**, Germany: exactly the rest days and the listed holidays are closed. -/
theorem C66_germany (mk : Option GermanyMarket) (d : Date) (h1 : 1901 ≤ d.year) (h2 : d.year ≤ 2199) :
    Closed (Shipped.germany mk).calendar d ↔ RestDay (.germany mk) d ∨ HolidayOn (holidays (.germany mk)) d := by
  rcases mk with _ | mk
  · exact_easter_calendar
  · cases mk <;> exact_easter_calendar

example := C66_germany none ⟨2023, 4, 10, by decide⟩ (by decide) (by decide)

/-- **C66**, Hungary: exactly the rest days and the listed holidays are closed. -/
theorem C66_hungary (d : Date) (h1 : 1901 ≤ d.year) (h2 : d.year ≤ 2199) :
    Closed Shipped.hungary.calendar d ↔ RestDay .hungary d ∨ HolidayOn (holidays .hungary) d := by
  exact_easter_calendar

example := C66_hungary ⟨2023, 4, 10, by decide⟩ (by decide) (by decide)

/-- **C66**, Poland: exactly the rest days and the listed holidays are closed. -/
theorem C66_poland (d : Date) (h1 : 1901 ≤ d.year) (h2 : d.year ≤ 2199) :
    Closed Shipped.poland.calendar d ↔ RestDay .poland d ∨ HolidayOn (holidays .poland) d := by
  exact_easter_calendar

example := C66_poland ⟨2023, 4, 10, by decide⟩ (by decide) (by decide)

/-- **C66**, Slovakia: exactly the rest days and the listed holidays are closed. -/
theorem C66_slovakia (d : Date) (h1 : 1901 ≤ d.year) (h2 : d.year ≤ 2199) :
    Closed Shipped.slovakia.calendar d ↔ RestDay .slovakia d ∨ HolidayOn (holidays .slovakia) d := by
  exact_easter_calendar

example := C66_slovakia ⟨2023, 4, 10, by decide⟩ (by decide) (by decide)

/-- **C66**, Switzerland: exactly the rest days and the listed holidays are closed. -/
theorem C66_switzerland (d : Date) (h1 : 1901 ≤ d.year) (h2 : d.year ≤ 2199) :
    Closed Shipped.switzerland.calendar d ↔ RestDay .switzerland d ∨ HolidayOn (holidays .switzerland) d := by
  exact_easter_calendar

example := C66_switzerland ⟨2023, 4, 10, by decide⟩ (by decide) (by decide)

/-- **C66**, TARGET: exactly the rest days and the listed holidays are closed. -/
theorem C66_target (d : Date) (h1 : 1901 ≤ d.year) (h2 : d.year ≤ 2199) :
    Closed Shipped.target.calendar d ↔ RestDay .target d ∨ HolidayOn (holidays .target) d := by
  exact_easter_calendar

example := C66_target ⟨2023, 4, 10, by decide⟩ (by decide) (by decide)

/-- **C66**, `WeekendsOnly`: exactly Saturday and Sunday are closed. -/
theorem C66_weekendsOnly (d : Date) : Closed Shipped.weekendsOnly.calendar d ↔
    RestDay .weekendsOnly d ∨ HolidayOn (holidays .weekendsOnly) d := by
  unfold Closed
  unfold_calendars
  simpa [isWeekend_eq, RestDay, IsSaturdayOrSunday, HolidayOn, holidays] using or_iff_not_imp_left.symm

/-- Closed: 31 December 2001, TARGET; Whit Monday, Euwax; a Sunday. -/
example : Closed (Shipped.calendar .target) ⟨2001, 12, 31, by decide⟩ ∧
    Closed (Shipped.calendar (.germany (some .Euwax))) ⟨2023, 5, 29, by decide⟩ ∧
    Closed (Shipped.calendar .weekendsOnly) ⟨2023, 12, 24, by decide⟩ := by
  unfold Closed; decide +kernel

end Qlab.Props
