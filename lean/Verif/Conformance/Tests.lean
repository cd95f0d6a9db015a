import Verif.Lemmas.Exact
import Verif.Model.DayCount
import Verif.Model.NaturalCubic
import Verif.Model.Rolling
import Verif.Model.Shipped

/-!
# The repository's unit tests about dates, day counts and interpolation

The assertions of the tests in `crates/` hold of the model; values of `f64` are replaced by exact rationals.
These are checks of the translation, not properties.
-/

namespace Qlab.Conformance

/-! `crates/qlab-time/src/date.rs:308-444` -/

example : Date.fromYmd 2023 8 15 = some ⟨2023, 8, 15, by decide⟩ := by decide
example : Date.fromYmd 2023 2 29 = none := by decide
example : Date.daysInMonth 2 true = some 29 ∧ Date.daysInMonth 2 false = some 28 ∧
    Date.daysInMonth 4 true = some 30 ∧ Date.daysInMonth 4 false = some 30 ∧
    Date.daysInMonth 1 true = some 31 ∧ Date.daysInMonth 1 false = some 31 ∧ Date.daysInMonth 13 false = none := by
  decide
example : Date.leapYear ⟨2023, 12, 27, by decide⟩ = false ∧ Date.leapYear ⟨2024, 12, 27, by decide⟩ = true := by
  decide
example : Date.checkedAddYears true ⟨2023, 12, 31, by decide⟩ 1 = .ok (some ⟨2024, 12, 31, by decide⟩) ∧
    Date.checkedAddYears true ⟨2024, 2, 29, by decide⟩ 1 = .ok (some ⟨2025, 2, 28, by decide⟩) := by decide
example : Date.checkedAddMonths ⟨2023, 12, 31, by decide⟩ 2 = some ⟨2024, 2, 29, by decide⟩ := by decide
example : Date.checkedSubMonths ⟨2023, 2, 1, by decide⟩ 2 = some ⟨2022, 12, 1, by decide⟩ := by decide
example : Date.checkedAddDays ⟨2023, 2, 28, by decide⟩ 2 = some ⟨2023, 3, 2, by decide⟩ := by decide
example : Date.checkedSubDays ⟨2023, 3, 1, by decide⟩ 2 = some ⟨2023, 2, 27, by decide⟩ := by decide
example : Date.serialDate ⟨2023, 3, 1, by decide⟩ = 738580 := by decide
example : NaiveDate.weekday ⟨2023, 3, 5, by decide⟩ = .Sun ∧
    Date.weekendRoll ⟨2023, 3, 5, by decide⟩ = some ⟨2023, 3, 6, by decide⟩ ∧
    NaiveDate.weekday ⟨2023, 3, 4, by decide⟩ = .Sat ∧
    Date.weekendRoll ⟨2023, 3, 4, by decide⟩ = some ⟨2023, 3, 6, by decide⟩ := by decide

/-! `crates/qlab-time/src/day_count/{act_360,act_365,thirty_360}.rs` -/

example : DayCount.act360 (V := ℚ) ⟨2023, 1, 1, by decide⟩ ⟨2023, 12, 31, by decide⟩ = .ok (.ok (364 / 360)) := by
  decide +kernel
example : DayCount.act365 (V := ℚ) ⟨2023, 1, 1, by decide⟩ ⟨2023, 12, 31, by decide⟩ = .ok (.ok (364 / 365)) := by
  decide +kernel
example : DayCount.thirty360 (V := ℚ) true ⟨2023, 1, 1, by decide⟩ ⟨2023, 12, 31, by decide⟩ =
    .ok (.ok (359 / 360)) := by
  decide +kernel

/-! `crates/qlab-math/src/interpolation/spline/catmull_rom.rs:171-177`: `0.270833… = 13/48`, and
`crates/qlab-math/src/interpolation/spline/natural_cubic.rs:144-150`: `0.25`. -/

/-- Fit and evaluate. -/
def fitted (I : Interpolator ℚ) (pts : List (ℚ × ℚ)) (x : ℚ) : Option ℚ :=
  match I.tryFit I.default pts with
  | .ok (.ok s) => match I.tryValue s x with
    | .ok (.ok v) => some v
    | _ => none
  | _ => none

example : fitted (.catmullRom ℚ) [(0, 1), (1 / 2, 1 / 2), (1, 0)] (3 / 4) = some (13 / 48) := by decide +kernel
example : fitted (.naturalCubic ℚ) [(0, 1), (1 / 2, 1 / 2), (1, 0)] (3 / 4) = some (1 / 4) := by decide +kernel

/-! `third-parties/calendar/src/lib.rs:236-243` and `third-parties/calendar/src/unitedkingdom.rs:98-107` -/

example : Calendar.businessDaysBetween (Shipped.unitedKingdom none).calendar ⟨2023, 4, 1, by decide⟩
      ⟨2023, 4, 30, by decide⟩ none none = .ok 18 ∧
    Calendar.businessDaysBetween (Shipped.unitedKingdom none).calendar ⟨2023, 4, 30, by decide⟩
      ⟨2023, 4, 1, by decide⟩ none none = .ok (-18) := by
  decide +kernel
example : easterMonday 2023 = .ok ((⟨2023, 4, 10, by decide⟩ : NaiveDate).ordinal) := by decide +kernel

end Qlab.Conformance
