import Verif.Lemmas.HolidayTactics

/-!
# The holidays of the shipped calendars, exactly: the United States (C66)

The lists `holidays` and the weekly `RestDay`s are in `Verif.Spec.HolidayTables`, in the vocabulary of
`Verif.Spec.Holidays`.
-/

set_option maxRecDepth 8000
set_option maxHeartbeats 4000000

namespace Qlab.Props

open Spec HolidayTactics

/-- **C66**, United States, the markets that do not look Easter up: exactly the rest days and the listed holidays
are closed, in every year. -/
theorem C66_unitedStates (mk : Option UnitedStatesMarket) (hmk : UsesEaster (.unitedStates mk) = false) (d : Date) :
    Closed (Shipped.unitedStates mk).calendar d ↔
      RestDay (.unitedStates mk) d ∨ HolidayOn (holidays (.unitedStates mk)) d := by
  rcases mk with _ | mk
  · exact_calendar
  · cases mk
    · exact_calendar
    · exact_calendar
    · simp [UsesEaster] at hmk
    · simp [UsesEaster] at hmk
    · simp [UsesEaster] at hmk
    · exact_calendar
    · exact_calendar

example := C66_unitedStates (some .NERC) (by decide) ⟨2023, 11, 23, by decide⟩

/-- **C66**, New York Stock Exchange. -/
theorem C66_nyse (d : Date) (h1 : 1901 ≤ d.year) (h2 : d.year ≤ 2199) :
    Closed (Shipped.unitedStates (some .NYSE)).calendar d ↔
      RestDay (.unitedStates (some .NYSE)) d ∨ HolidayOn (holidays (.unitedStates (some .NYSE))) d := by
  have hn := nyse_four_day_week d
  easter_setup
  rw [and_assoc (a := y = 1968) (b := 163 ≤ o), hn, election_years h1]
  clear hn
  calendar_cases

example := C66_nyse ⟨2023, 4, 10, by decide⟩ (by decide) (by decide)

/-- **C66**, United States government bonds. -/
theorem C66_governmentBond (d : Date) (h1 : 1901 ≤ d.year) (h2 : d.year ≤ 2199) :
    Closed (Shipped.unitedStates (some .GovernmentBond)).calendar d ↔
      RestDay (.unitedStates (some .GovernmentBond)) d ∨
        HolidayOn (holidays (.unitedStates (some .GovernmentBond))) d := by
  exact_easter_calendar

example := C66_governmentBond ⟨2023, 4, 10, by decide⟩ (by decide) (by decide)

/-- **C66**, SOFR. -/
theorem C66_sofr (d : Date) (h1 : 1901 ≤ d.year) (h2 : d.year ≤ 2199) :
    Closed (Shipped.unitedStates (some .SOFR)).calendar d ↔
      RestDay (.unitedStates (some .SOFR)) d ∨ HolidayOn (holidays (.unitedStates (some .SOFR))) d := by
  exact_easter_calendar

/-- Closed: the first Wednesday of the four day week, New York; Thanksgiving; Good Friday 2023, SOFR. -/
example : Closed (Shipped.calendar (.unitedStates (some .NYSE))) ⟨1968, 6, 12, by decide⟩ ∧
    Closed (Shipped.calendar (.unitedStates none)) ⟨2023, 11, 23, by decide⟩ ∧
    Closed (Shipped.calendar (.unitedStates (some .SOFR))) ⟨2023, 4, 7, by decide⟩ := by
  unfold Closed; decide +kernel

end Qlab.Props
