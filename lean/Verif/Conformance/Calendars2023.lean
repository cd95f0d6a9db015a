import Verif.Model.Shipped

/-!
# The tables of the repository's calendar tests

Generated by `tools/gen_conformance.py` from the tests in `third-parties/calendar/src`: the model answers as the
tests expect on every day of 2023.  These are checks of the translation, not properties.
-/

namespace Qlab.Conformance

/-- The answers of a calendar for the 365 days from 1 January 2023 on, as the tests ask for them. -/
def year2023 (s : Shipped) : List Bool :=
  ((List.range' 1 12).flatMap fun m => (List.range' 1 (monthLen false m)).map fun d => (m, d)).map fun p =>
    match fromYmdOpt 2023 p.1 p.2 with
    | some d => match s.calendar.isBusinessDay d with
      | .ok b => b
      | .panic => false
    | none => false

/-- `third-parties/calendar/src/argentina.rs:56-84`, `Argentina`. -/
example : year2023 (.argentina) =
    [false, true, true, true, true, true, false, false, true, true, true, true, true, false, false, true,
      true, true, true, true, false, false, true, true, true, true, true, false, false, true, true, true,
      true, true, false, false, true, true, true, true, true, false, false, true, true, true, true, true,
      false, false, true, true, true, true, true, false, false, true, true, true, true, true, false, false,
      true, true, true, true, true, false, false, true, true, true, true, true, false, false, true, true,
      true, true, true, false, false, true, true, true, true, true, false, false, true, true, true, false,
      false, false, false, true, true, true, true, true, false, false, true, true, true, true, true, false,
      false, true, true, true, true, true, false, false, false, true, true, true, true, false, false, true,
      true, true, true, true, false, false, true, true, true, true, true, false, false, true, true, true,
      false, true, false, false, true, true, true, true, true, false, false, true, true, true, true, true,
      false, false, true, true, true, true, true, false, false, false, true, true, true, true, false, false,
      true, true, true, true, true, false, false, true, true, true, true, true, false, false, true, true,
      true, true, true, false, false, true, true, true, true, true, false, false, true, true, true, true,
      true, false, false, true, true, true, true, true, false, false, true, true, true, true, true, false,
      false, true, true, true, true, true, false, false, false, true, true, true, true, false, false, true,
      true, true, true, true, false, false, true, true, true, true, true, false, false, true, true, true,
      true, true, false, false, true, true, true, true, true, false, false, true, true, true, true, true,
      false, false, true, true, true, true, true, false, false, true, true, true, true, true, false, false,
      false, true, true, true, true, false, false, true, true, true, true, true, false, false, true, true,
      true, true, true, false, false, true, true, true, true, true, false, false, true, true, true, true,
      true, false, false, true, true, true, true, true, false, false, true, true, true, true, true, false,
      false, true, true, true, true, false, false, false, true, true, true, true, true, false, false, true,
      true, true, true, true, false, false, true, true, true, true, true, false, false] := by
  decide +kernel

/-- `third-parties/calendar/src/australia.rs:84-112`, `Australia{market:Some(AustraliaMarket::Settlement)}`. -/
example : year2023 (.australia (some .Settlement)) =
    [false, false, true, true, true, true, false, false, true, true, true, true, true, false, false, true,
      true, true, true, true, false, false, true, true, true, false, true, false, false, true, true, true,
      true, true, false, false, true, true, true, true, true, false, false, true, true, true, true, true,
      false, false, true, true, true, true, true, false, false, true, true, true, true, true, false, false,
      true, true, true, true, true, false, false, true, true, true, true, true, false, false, true, true,
      true, true, true, false, false, true, true, true, true, true, false, false, true, true, true, true,
      false, false, false, false, true, true, true, true, false, false, true, true, true, true, true, false,
      false, true, false, true, true, true, false, false, true, true, true, true, true, false, false, true,
      true, true, true, true, false, false, true, true, true, true, true, false, false, true, true, true,
      true, true, false, false, true, true, true, true, true, false, false, true, true, true, true, true,
      false, false, false, true, true, true, true, false, false, true, true, true, true, true, false, false,
      true, true, true, true, true, false, false, true, true, true, true, true, false, false, true, true,
      true, true, true, false, false, true, true, true, true, true, false, false, true, true, true, true,
      true, false, false, true, true, true, true, true, false, false, false, true, true, true, true, false,
      false, true, true, true, true, true, false, false, true, true, true, true, true, false, false, true,
      true, true, true, true, false, false, true, true, true, true, true, false, false, true, true, true,
      true, true, false, false, true, true, true, true, true, false, false, true, true, true, true, true,
      false, false, false, true, true, true, true, false, false, true, true, true, true, true, false, false,
      true, true, true, true, true, false, false, true, true, true, true, true, false, false, true, true,
      true, true, true, false, false, true, true, true, true, true, false, false, true, true, true, true,
      true, false, false, true, true, true, true, true, false, false, true, true, true, true, true, false,
      false, true, true, true, true, true, false, false, true, true, true, true, true, false, false, true,
      true, true, true, true, false, false, false, false, true, true, true, false, false] := by
  decide +kernel

/-- `third-parties/calendar/src/austria.rs:109-137`, `Austria::default()`. -/
example : year2023 (.austria none) =
    [false, true, true, true, true, false, false, false, true, true, true, true, true, false, false, true,
      true, true, true, true, false, false, true, true, true, true, true, false, false, true, true, true,
      true, true, false, false, true, true, true, true, true, false, false, true, true, true, true, true,
      false, false, true, true, true, true, true, false, false, true, true, true, true, true, false, false,
      true, true, true, true, true, false, false, true, true, true, true, true, false, false, true, true,
      true, true, true, false, false, true, true, true, true, true, false, false, true, true, true, true,
      true, false, false, false, true, true, true, true, false, false, true, true, true, true, true, false,
      false, true, true, true, true, true, false, false, false, true, true, true, true, false, false, true,
      true, true, true, true, false, false, true, true, true, false, true, false, false, true, true, true,
      true, true, false, false, false, true, true, true, true, false, false, true, true, true, false, true,
      false, false, true, true, true, true, true, false, false, true, true, true, true, true, false, false,
      true, true, true, true, true, false, false, true, true, true, true, true, false, false, true, true,
      true, true, true, false, false, true, true, true, true, true, false, false, true, true, true, true,
      true, false, false, true, true, true, true, true, false, false, true, true, true, true, true, false,
      false, true, false, true, true, true, false, false, true, true, true, true, true, false, false, true,
      true, true, true, true, false, false, true, true, true, true, true, false, false, true, true, true,
      true, true, false, false, true, true, true, true, true, false, false, true, true, true, true, true,
      false, false, true, true, true, true, true, false, false, true, true, true, true, true, false, false,
      true, true, true, true, true, false, false, true, true, true, false, true, false, false, true, true,
      false, true, true, false, false, true, true, true, true, true, false, false, true, true, true, true,
      true, false, false, true, true, true, true, true, false, false, true, true, true, true, true, false,
      false, true, true, true, true, false, false, false, true, true, true, true, true, false, false, true,
      true, true, true, true, false, false, false, false, true, true, true, false, false] := by
  decide +kernel

/-- `third-parties/calendar/src/botswana.rs:60-88`, `Botswana`. -/
example : year2023 (.botswana) =
    [false, false, false, true, true, true, false, false, true, true, true, true, true, false, false, true,
      true, true, true, true, false, false, true, true, true, true, true, false, false, true, true, true,
      true, true, false, false, true, true, true, true, true, false, false, true, true, true, true, true,
      false, false, true, true, true, true, true, false, false, true, true, true, true, true, false, false,
      true, true, true, true, true, false, false, true, true, true, true, true, false, false, true, true,
      true, true, true, false, false, true, true, true, true, true, false, false, true, true, true, true,
      false, false, false, false, true, true, true, true, false, false, true, true, true, true, true, false,
      false, true, true, true, true, true, false, false, false, true, true, true, true, false, false, true,
      true, true, true, true, false, false, true, true, true, false, true, false, false, true, true, true,
      true, true, false, false, true, true, true, true, true, false, false, true, true, true, true, true,
      false, false, true, true, true, true, true, false, false, true, true, true, true, true, false, false,
      true, true, true, true, true, false, false, true, true, true, true, true, false, false, true, true,
      true, true, true, false, false, false, true, true, true, true, false, false, true, true, true, true,
      true, false, false, true, true, true, true, true, false, false, true, true, true, true, true, false,
      false, true, true, true, true, true, false, false, true, true, true, true, true, false, false, true,
      true, true, true, true, false, false, true, true, true, true, true, false, false, true, true, true,
      true, true, false, false, true, true, true, true, true, false, false, true, true, true, true, true,
      false, false, false, false, true, true, true, false, false, true, true, true, true, true, false, false,
      true, true, true, true, true, false, false, true, true, true, true, true, false, false, true, true,
      true, true, true, false, false, true, true, true, true, true, false, false, true, true, true, true,
      true, false, false, true, true, true, true, true, false, false, true, true, true, true, true, false,
      false, true, true, true, true, true, false, false, true, true, true, true, true, false, false, true,
      true, true, true, true, false, false, false, false, true, true, true, false, false] := by
  decide +kernel

/-- `third-parties/calendar/src/brazil.rs:116-144`, `Brazil::default()`. -/
example : year2023 (.brazil none) =
    [false, true, true, true, true, true, false, false, true, true, true, true, true, false, false, true,
      true, true, true, true, false, false, true, true, true, true, true, false, false, true, true, true,
      true, true, false, false, true, true, true, true, true, false, false, true, true, true, true, true,
      false, false, false, false, true, true, true, false, false, true, true, true, true, true, false, false,
      true, true, true, true, true, false, false, true, true, true, true, true, false, false, true, true,
      true, true, true, false, false, true, true, true, true, true, false, false, true, true, true, true,
      false, false, false, true, true, true, true, true, false, false, true, true, true, true, false, false,
      false, true, true, true, true, true, false, false, false, true, true, true, true, false, false, true,
      true, true, true, true, false, false, true, true, true, true, true, false, false, true, true, true,
      true, true, false, false, true, true, true, true, true, false, false, true, true, true, false, true,
      false, false, true, true, true, true, true, false, false, true, true, true, true, true, false, false,
      true, true, true, true, true, false, false, true, true, true, true, true, false, false, true, true,
      true, true, true, false, false, true, true, true, true, true, false, false, true, true, true, true,
      true, false, false, true, true, true, true, true, false, false, true, true, true, true, true, false,
      false, true, true, true, true, true, false, false, true, true, true, true, true, false, false, true,
      true, true, true, true, false, false, true, true, true, false, true, false, false, true, true, true,
      true, true, false, false, true, true, true, true, true, false, false, true, true, true, true, true,
      false, false, true, true, true, true, true, false, false, true, true, true, false, true, false, false,
      true, true, true, true, true, false, false, true, true, true, true, true, false, false, true, true,
      true, false, true, false, false, true, true, true, true, true, false, false, true, true, false, true,
      true, false, false, true, true, true, true, true, false, false, true, true, true, true, true, false,
      false, true, true, true, true, true, false, false, true, true, true, true, true, false, false, true,
      true, true, true, true, false, false, false, true, true, true, true, false, false] := by
  decide +kernel

/-- `third-parties/calendar/src/canada.rs:90-118`, `Canada::default()`. -/
example : year2023 (.canada none) =
    [false, false, true, true, true, true, false, false, true, true, true, true, true, false, false, true,
      true, true, true, true, false, false, true, true, true, true, true, false, false, true, true, true,
      true, true, false, false, true, true, true, true, true, false, false, true, true, true, true, true,
      false, false, false, true, true, true, true, false, false, true, true, true, true, true, false, false,
      true, true, true, true, true, false, false, true, true, true, true, true, false, false, true, true,
      true, true, true, false, false, true, true, true, true, true, false, false, true, true, true, true,
      false, false, false, true, true, true, true, true, false, false, true, true, true, true, true, false,
      false, true, true, true, true, true, false, false, true, true, true, true, true, false, false, true,
      true, true, true, true, false, false, true, true, true, true, true, false, false, false, true, true,
      true, true, false, false, true, true, true, true, true, false, false, true, true, true, true, true,
      false, false, true, true, true, true, true, false, false, true, true, true, true, true, false, false,
      true, true, true, true, true, false, false, false, true, true, true, true, false, false, true, true,
      true, true, true, false, false, true, true, true, true, true, false, false, true, true, true, true,
      true, false, false, true, true, true, true, true, false, false, false, true, true, true, true, false,
      false, true, true, true, true, true, false, false, true, true, true, true, true, false, false, true,
      true, true, true, true, false, false, false, true, true, true, true, false, false, true, true, true,
      true, true, false, false, true, true, true, true, true, false, false, true, true, true, true, true,
      false, false, false, true, true, true, true, false, false, false, true, true, true, true, false, false,
      true, true, true, true, true, false, false, true, true, true, true, true, false, false, true, true,
      true, true, true, false, false, true, true, true, true, true, false, false, false, true, true, true,
      true, false, false, true, true, true, true, true, false, false, true, true, true, true, true, false,
      false, true, true, true, true, true, false, false, true, true, true, true, true, false, false, true,
      true, true, true, true, false, false, false, false, true, true, true, false, false] := by
  decide +kernel

/-- `third-parties/calendar/src/chile.rs:71-99`, `Chile`. -/
example : year2023 (.chile) =
    [false, false, true, true, true, true, false, false, true, true, true, true, true, false, false, true,
      true, true, true, true, false, false, true, true, true, true, true, false, false, true, true, true,
      true, true, false, false, true, true, true, true, true, false, false, true, true, true, true, true,
      false, false, true, true, true, true, true, false, false, true, true, true, true, true, false, false,
      true, true, true, true, true, false, false, true, true, true, true, true, false, false, true, true,
      true, true, true, false, false, true, true, true, true, true, false, false, true, true, true, true,
      false, false, false, true, true, true, true, true, false, false, true, true, true, true, true, false,
      false, true, true, true, true, true, false, false, false, true, true, true, true, false, false, true,
      true, true, true, true, false, false, true, true, true, true, true, false, false, true, true, true,
      true, true, false, false, true, true, true, true, true, false, false, true, true, true, true, true,
      false, false, true, true, true, true, true, false, false, true, true, false, true, true, false, false,
      false, true, true, true, true, false, false, true, true, true, true, true, false, false, true, true,
      true, true, true, false, false, true, true, true, true, true, false, false, true, true, true, true,
      true, false, false, true, true, true, true, true, false, false, true, true, true, true, true, false,
      false, true, false, true, true, true, false, false, true, true, true, true, true, false, false, true,
      true, true, true, true, false, false, true, true, true, true, true, false, false, true, true, true,
      true, true, false, false, false, false, true, true, true, false, false, true, true, true, true, true,
      false, false, true, true, true, true, true, false, false, false, true, true, true, true, false, false,
      true, true, true, true, true, false, false, true, true, true, true, false, false, false, true, true,
      false, true, true, false, false, true, true, true, true, true, false, false, true, true, true, true,
      true, false, false, true, true, true, true, true, false, false, true, true, true, true, true, false,
      false, true, true, true, true, false, false, false, true, true, true, true, true, false, false, true,
      true, true, true, true, false, false, false, true, true, true, true, false, false] := by
  decide +kernel

/-- `third-parties/calendar/src/china.rs:164-192`, `China`. -/
example : year2023 (.china) =
    [false, false, true, true, true, true, false, false, true, true, true, true, true, false, false, true,
      true, true, true, true, false, false, false, false, false, false, false, false, false, true, true, true,
      true, true, false, false, true, true, true, true, true, false, false, true, true, true, true, true,
      false, false, true, true, true, true, true, false, false, true, true, true, true, true, false, false,
      true, true, true, true, true, false, false, true, true, true, true, true, false, false, true, true,
      true, true, true, false, false, true, true, true, true, true, false, false, true, true, false, true,
      true, false, false, true, true, true, true, true, false, false, true, true, true, true, true, false,
      false, true, true, true, true, true, false, false, false, false, false, true, true, false, false, true,
      true, true, true, true, false, false, true, true, true, true, true, false, false, true, true, true,
      true, true, false, false, true, true, true, true, true, false, false, true, true, true, true, true,
      false, false, true, true, true, true, true, false, false, true, true, true, false, false, false, false,
      true, true, true, true, true, false, false, true, true, true, true, true, false, false, true, true,
      true, true, true, false, false, true, true, true, true, true, false, false, true, true, true, true,
      true, false, false, true, true, true, true, true, false, false, true, true, true, true, true, false,
      false, true, true, true, true, true, false, false, true, true, true, true, true, false, false, true,
      true, true, true, true, false, false, true, true, true, true, true, false, false, true, true, true,
      true, true, false, false, true, true, true, true, true, false, false, true, true, true, true, false,
      false, false, false, false, false, false, false, false, false, true, true, true, true, true, false, false,
      true, true, true, true, true, false, false, true, true, true, true, true, false, false, true, true,
      true, true, true, false, false, true, true, true, true, true, false, false, true, true, true, true,
      true, false, false, true, true, true, true, true, false, false, true, true, true, true, true, false,
      false, true, true, true, true, true, false, false, true, true, true, true, true, false, false, true,
      true, true, true, true, false, false, true, true, true, true, true, false, false] := by
  decide +kernel

/-- `third-parties/calendar/src/czechrepublic.rs:62-90`, `CzechRepublic`. -/
example : year2023 (.czechRepublic) =
    [false, true, true, true, true, true, false, false, true, true, true, true, true, false, false, true,
      true, true, true, true, false, false, true, true, true, true, true, false, false, true, true, true,
      true, true, false, false, true, true, true, true, true, false, false, true, true, true, true, true,
      false, false, true, true, true, true, true, false, false, true, true, true, true, true, false, false,
      true, true, true, true, true, false, false, true, true, true, true, true, false, false, true, true,
      true, true, true, false, false, true, true, true, true, true, false, false, true, true, true, true,
      false, false, false, false, true, true, true, true, false, false, true, true, true, true, true, false,
      false, true, true, true, true, true, false, false, false, true, true, true, true, false, false, false,
      true, true, true, true, false, false, true, true, true, true, true, false, false, true, true, true,
      true, true, false, false, true, true, true, true, true, false, false, true, true, true, true, true,
      false, false, true, true, true, true, true, false, false, true, true, true, true, true, false, false,
      true, true, true, true, true, false, false, true, true, false, false, true, false, false, true, true,
      true, true, true, false, false, true, true, true, true, true, false, false, true, true, true, true,
      true, false, false, true, true, true, true, true, false, false, true, true, true, true, true, false,
      false, true, true, true, true, true, false, false, true, true, true, true, true, false, false, true,
      true, true, true, true, false, false, true, true, true, true, true, false, false, true, true, true,
      true, true, false, false, true, true, true, true, true, false, false, true, true, true, false, true,
      false, false, true, true, true, true, true, false, false, true, true, true, true, true, false, false,
      true, true, true, true, true, false, false, true, true, true, true, true, false, false, true, true,
      true, true, true, false, false, true, true, true, true, true, false, false, true, true, true, true,
      false, false, false, true, true, true, true, true, false, false, true, true, true, true, true, false,
      false, true, true, true, true, true, false, false, true, true, true, true, true, false, false, true,
      true, true, true, true, false, false, false, false, true, true, true, false, false] := by
  decide +kernel

/-- `third-parties/calendar/src/denmark.rs:58-86`, `Denmark`. -/
example : year2023 (.denmark) =
    [false, true, true, true, true, true, false, false, true, true, true, true, true, false, false, true,
      true, true, true, true, false, false, true, true, true, true, true, false, false, true, true, true,
      true, true, false, false, true, true, true, true, true, false, false, true, true, true, true, true,
      false, false, true, true, true, true, true, false, false, true, true, true, true, true, false, false,
      true, true, true, true, true, false, false, true, true, true, true, true, false, false, true, true,
      true, true, true, false, false, true, true, true, true, true, false, false, true, true, true, false,
      false, false, false, false, true, true, true, true, false, false, true, true, true, true, true, false,
      false, true, true, true, true, true, false, false, true, true, true, true, false, false, false, true,
      true, true, true, true, false, false, true, true, true, false, false, false, false, true, true, true,
      true, true, false, false, false, true, true, true, true, false, false, false, true, true, true, true,
      false, false, true, true, true, true, true, false, false, true, true, true, true, true, false, false,
      true, true, true, true, true, false, false, true, true, true, true, true, false, false, true, true,
      true, true, true, false, false, true, true, true, true, true, false, false, true, true, true, true,
      true, false, false, true, true, true, true, true, false, false, true, true, true, true, true, false,
      false, true, true, true, true, true, false, false, true, true, true, true, true, false, false, true,
      true, true, true, true, false, false, true, true, true, true, true, false, false, true, true, true,
      true, true, false, false, true, true, true, true, true, false, false, true, true, true, true, true,
      false, false, true, true, true, true, true, false, false, true, true, true, true, true, false, false,
      true, true, true, true, true, false, false, true, true, true, true, true, false, false, true, true,
      true, true, true, false, false, true, true, true, true, true, false, false, true, true, true, true,
      true, false, false, true, true, true, true, true, false, false, true, true, true, true, true, false,
      false, true, true, true, true, true, false, false, true, true, true, true, true, false, false, true,
      true, true, true, true, false, false, false, false, true, true, true, false, false] := by
  decide +kernel

/-- `third-parties/calendar/src/finland.rs:55-83`, `Finland`. -/
example : year2023 (.finland) =
    [false, true, true, true, true, false, false, false, true, true, true, true, true, false, false, true,
      true, true, true, true, false, false, true, true, true, true, true, false, false, true, true, true,
      true, true, false, false, true, true, true, true, true, false, false, true, true, true, true, true,
      false, false, true, true, true, true, true, false, false, true, true, true, true, true, false, false,
      true, true, true, true, true, false, false, true, true, true, true, true, false, false, true, true,
      true, true, true, false, false, true, true, true, true, true, false, false, true, true, true, true,
      false, false, false, false, true, true, true, true, false, false, true, true, true, true, true, false,
      false, true, true, true, true, true, false, false, false, true, true, true, true, false, false, true,
      true, true, true, true, false, false, true, true, true, false, true, false, false, true, true, true,
      true, true, false, false, true, true, true, true, true, false, false, true, true, true, true, true,
      false, false, true, true, true, true, true, false, false, true, true, true, true, false, false, false,
      true, true, true, true, true, false, false, true, true, true, true, true, false, false, true, true,
      true, true, true, false, false, true, true, true, true, true, false, false, true, true, true, true,
      true, false, false, true, true, true, true, true, false, false, true, true, true, true, true, false,
      false, true, true, true, true, true, false, false, true, true, true, true, true, false, false, true,
      true, true, true, true, false, false, true, true, true, true, true, false, false, true, true, true,
      true, true, false, false, true, true, true, true, true, false, false, true, true, true, true, true,
      false, false, true, true, true, true, true, false, false, true, true, true, true, true, false, false,
      true, true, true, true, true, false, false, true, true, true, true, true, false, false, true, true,
      true, true, true, false, false, true, true, true, true, true, false, false, true, true, true, true,
      true, false, false, true, true, true, true, true, false, false, true, true, true, true, true, false,
      false, true, true, false, true, true, false, false, true, true, true, true, true, false, false, true,
      true, true, true, true, false, false, false, false, true, true, true, false, false] := by
  decide +kernel

/-- `third-parties/calendar/src/france.rs:100-128`, `France::default()`. -/
example : year2023 (.france none) =
    [false, true, true, true, true, true, false, false, true, true, true, true, true, false, false, true,
      true, true, true, true, false, false, true, true, true, true, true, false, false, true, true, true,
      true, true, false, false, true, true, true, true, true, false, false, true, true, true, true, true,
      false, false, true, true, true, true, true, false, false, true, true, true, true, true, false, false,
      true, true, true, true, true, false, false, true, true, true, true, true, false, false, true, true,
      true, true, true, false, false, true, true, true, true, true, false, false, true, true, true, true,
      true, false, false, false, true, true, true, true, false, false, true, true, true, true, true, false,
      false, true, true, true, true, true, false, false, false, true, true, true, true, false, false, false,
      true, false, true, true, false, false, true, true, true, true, true, false, false, true, true, true,
      true, true, false, false, true, true, true, true, true, false, false, true, true, true, true, true,
      false, false, true, true, true, true, true, false, false, true, true, true, true, true, false, false,
      true, true, true, true, true, false, false, true, true, true, true, true, false, false, true, true,
      true, true, false, false, false, true, true, true, true, true, false, false, true, true, true, true,
      true, false, false, true, true, true, true, true, false, false, true, true, true, true, true, false,
      false, true, false, true, true, true, false, false, true, true, true, true, true, false, false, true,
      true, true, true, true, false, false, true, true, true, true, true, false, false, true, true, true,
      true, true, false, false, true, true, true, true, true, false, false, true, true, true, true, true,
      false, false, true, true, true, true, true, false, false, true, true, true, true, true, false, false,
      true, true, true, true, true, false, false, true, true, true, true, true, false, false, true, true,
      false, true, true, false, false, true, true, true, true, true, false, false, true, true, true, true,
      true, false, false, true, true, true, true, true, false, false, true, true, true, true, true, false,
      false, true, true, true, true, true, false, false, true, true, true, true, true, false, false, true,
      true, true, true, true, false, false, false, true, true, true, true, false, false] := by
  decide +kernel

/-- `third-parties/calendar/src/germany.rs:118-146`, `Germany{market:Some(GermanyMarket::FrankfurtStockExchange)}`. -/
example : year2023 (.germany (some .FrankfurtStockExchange)) =
    [false, true, true, true, true, true, false, false, true, true, true, true, true, false, false, true,
      true, true, true, true, false, false, true, true, true, true, true, false, false, true, true, true,
      true, true, false, false, true, true, true, true, true, false, false, true, true, true, true, true,
      false, false, true, true, true, true, true, false, false, true, true, true, true, true, false, false,
      true, true, true, true, true, false, false, true, true, true, true, true, false, false, true, true,
      true, true, true, false, false, true, true, true, true, true, false, false, true, true, true, true,
      false, false, false, false, true, true, true, true, false, false, true, true, true, true, true, false,
      false, true, true, true, true, true, false, false, false, true, true, true, true, false, false, true,
      true, true, true, true, false, false, true, true, true, true, true, false, false, true, true, true,
      true, true, false, false, true, true, true, true, true, false, false, true, true, true, true, true,
      false, false, true, true, true, true, true, false, false, true, true, true, true, true, false, false,
      true, true, true, true, true, false, false, true, true, true, true, true, false, false, true, true,
      true, true, true, false, false, true, true, true, true, true, false, false, true, true, true, true,
      true, false, false, true, true, true, true, true, false, false, true, true, true, true, true, false,
      false, true, true, true, true, true, false, false, true, true, true, true, true, false, false, true,
      true, true, true, true, false, false, true, true, true, true, true, false, false, true, true, true,
      true, true, false, false, true, true, true, true, true, false, false, true, true, true, true, true,
      false, false, true, true, true, true, true, false, false, true, true, true, true, true, false, false,
      true, true, true, true, true, false, false, true, true, true, true, true, false, false, true, true,
      true, true, true, false, false, true, true, true, true, true, false, false, true, true, true, true,
      true, false, false, true, true, true, true, true, false, false, true, true, true, true, true, false,
      false, true, true, true, true, true, false, false, true, true, true, true, true, false, false, true,
      true, true, true, true, false, false, false, false, true, true, true, false, false] := by
  decide +kernel

/-- `third-parties/calendar/src/hongkong.rs:382-410`, `HongKong`. -/
example : year2023 (.hongKong) =
    [false, false, true, true, true, true, false, false, true, true, true, true, true, false, false, true,
      true, true, true, true, false, false, false, false, false, true, true, false, false, true, true, true,
      true, true, false, false, true, true, true, true, true, false, false, true, true, true, true, true,
      false, false, true, true, true, true, true, false, false, true, true, true, true, true, false, false,
      true, true, true, true, true, false, false, true, true, true, true, true, false, false, true, true,
      true, true, true, false, false, true, true, true, true, true, false, false, true, true, false, true,
      false, false, false, false, true, true, true, true, false, false, true, true, true, true, true, false,
      false, true, true, true, true, true, false, false, false, true, true, true, true, false, false, true,
      true, true, true, true, false, false, true, true, true, true, true, false, false, true, true, true,
      true, false, false, false, true, true, true, true, true, false, false, true, true, true, true, true,
      false, false, true, true, true, true, true, false, false, true, true, true, false, true, false, false,
      true, true, true, true, true, false, false, true, true, true, true, true, false, false, true, true,
      true, true, true, false, false, true, true, true, true, true, false, false, true, true, true, true,
      true, false, false, true, true, true, true, true, false, false, true, true, true, true, true, false,
      false, true, true, true, true, true, false, false, true, true, true, true, true, false, false, true,
      true, true, true, true, false, false, true, true, true, true, true, false, false, true, true, true,
      true, true, false, false, true, true, true, true, true, false, false, true, true, true, true, true,
      false, false, false, true, true, true, true, false, false, true, true, true, true, true, false, false,
      true, true, true, true, true, false, false, false, true, true, true, true, false, false, true, true,
      true, true, true, false, false, true, true, true, true, true, false, false, true, true, true, true,
      true, false, false, true, true, true, true, true, false, false, true, true, true, true, true, false,
      false, true, true, true, true, true, false, false, true, true, true, true, true, false, false, true,
      true, true, true, true, false, false, false, false, true, true, true, false, false] := by
  decide +kernel

/-- `third-parties/calendar/src/hungary.rs:58-86`, `Hungary`. -/
example : year2023 (.hungary) =
    [false, true, true, true, true, true, false, false, true, true, true, true, true, false, false, true,
      true, true, true, true, false, false, true, true, true, true, true, false, false, true, true, true,
      true, true, false, false, true, true, true, true, true, false, false, true, true, true, true, true,
      false, false, true, true, true, true, true, false, false, true, true, true, true, true, false, false,
      true, true, true, true, true, false, false, true, true, false, true, true, false, false, true, true,
      true, true, true, false, false, true, true, true, true, true, false, false, true, true, true, true,
      false, false, false, false, true, true, true, true, false, false, true, true, true, true, true, false,
      false, true, true, true, true, true, false, false, false, true, true, true, true, false, false, true,
      true, true, true, true, false, false, true, true, true, true, true, false, false, true, true, true,
      true, true, false, false, false, true, true, true, true, false, false, true, true, true, true, true,
      false, false, true, true, true, true, true, false, false, true, true, true, true, true, false, false,
      true, true, true, true, true, false, false, true, true, true, true, true, false, false, true, true,
      true, true, true, false, false, true, true, true, true, true, false, false, true, true, true, true,
      true, false, false, true, true, true, true, true, false, false, true, true, true, true, true, false,
      false, true, true, true, true, true, false, false, true, true, true, true, true, false, false, true,
      true, true, true, true, false, false, true, true, true, true, true, false, false, true, true, true,
      true, true, false, false, true, true, true, true, true, false, false, true, true, true, true, true,
      false, false, true, true, true, true, true, false, false, true, true, true, true, true, false, false,
      true, true, true, true, true, false, false, false, true, true, true, true, false, false, true, true,
      false, true, true, false, false, true, true, true, true, true, false, false, true, true, true, true,
      true, false, false, true, true, true, true, true, false, false, true, true, true, true, true, false,
      false, true, true, true, true, true, false, false, true, true, true, true, true, false, false, true,
      true, true, true, true, false, false, false, false, true, true, true, false, false] := by
  decide +kernel

/-- `third-parties/calendar/src/iceland.rs:56-84`, `Iceland`. -/
example : year2023 (.iceland) =
    [false, true, true, true, true, true, false, false, true, true, true, true, true, false, false, true,
      true, true, true, true, false, false, true, true, true, true, true, false, false, true, true, true,
      true, true, false, false, true, true, true, true, true, false, false, true, true, true, true, true,
      false, false, true, true, true, true, true, false, false, true, true, true, true, true, false, false,
      true, true, true, true, true, false, false, true, true, true, true, true, false, false, true, true,
      true, true, true, false, false, true, true, true, true, true, false, false, true, true, true, false,
      false, false, false, false, true, true, true, true, false, false, true, true, true, false, true, false,
      false, true, true, true, true, true, false, false, false, true, true, true, true, false, false, true,
      true, true, true, true, false, false, true, true, true, false, true, false, false, true, true, true,
      true, true, false, false, false, true, true, true, true, false, false, true, true, true, true, true,
      false, false, true, true, true, true, true, false, false, true, true, true, true, true, false, false,
      true, true, true, true, true, false, false, true, true, true, true, true, false, false, true, true,
      true, true, true, false, false, true, true, true, true, true, false, false, true, true, true, true,
      true, false, false, true, true, true, true, true, false, false, false, true, true, true, true, false,
      false, true, true, true, true, true, false, false, true, true, true, true, true, false, false, true,
      true, true, true, true, false, false, true, true, true, true, true, false, false, true, true, true,
      true, true, false, false, true, true, true, true, true, false, false, true, true, true, true, true,
      false, false, true, true, true, true, true, false, false, true, true, true, true, true, false, false,
      true, true, true, true, true, false, false, true, true, true, true, true, false, false, true, true,
      true, true, true, false, false, true, true, true, true, true, false, false, true, true, true, true,
      true, false, false, true, true, true, true, true, false, false, true, true, true, true, true, false,
      false, true, true, true, true, true, false, false, true, true, true, true, true, false, false, true,
      true, true, true, true, false, false, false, false, true, true, true, false, false] := by
  decide +kernel

/-- `third-parties/calendar/src/india.rs:440-469`, `India`. -/
example : year2023 (.india) =
    [false, true, true, true, true, true, false, false, true, true, true, true, true, false, false, true,
      true, true, true, true, false, false, true, true, true, false, true, false, false, true, true, true,
      true, true, false, false, true, true, true, true, true, false, false, true, true, true, true, true,
      false, false, true, true, true, true, true, false, false, true, true, true, true, true, false, false,
      true, true, false, true, true, false, false, true, true, true, true, true, false, false, true, true,
      false, true, true, false, false, true, true, true, false, true, false, false, true, false, true, true,
      false, false, false, true, true, true, true, false, false, false, true, true, true, true, true, false,
      false, true, true, true, true, true, false, false, false, true, true, true, false, false, false, true,
      true, true, true, true, false, false, true, true, true, true, true, false, false, true, true, true,
      true, true, false, false, true, true, true, true, true, false, false, true, true, true, true, true,
      false, false, true, true, true, true, true, false, false, true, true, true, true, true, false, false,
      true, true, false, true, true, false, false, true, true, true, true, true, false, false, true, true,
      true, true, true, false, false, true, true, true, true, true, false, false, true, true, true, true,
      true, false, false, true, true, true, true, true, false, false, true, true, true, true, true, false,
      false, true, false, true, true, true, false, false, true, true, true, true, true, false, false, true,
      true, true, true, true, false, false, true, true, true, true, true, false, false, true, true, true,
      true, true, false, false, true, false, true, true, true, false, false, true, true, true, false, true,
      false, false, false, true, true, true, true, false, false, true, true, true, true, true, false, false,
      true, true, true, true, true, false, false, true, false, true, true, true, false, false, true, true,
      true, true, true, false, false, true, true, true, true, true, false, false, true, false, true, true,
      true, false, false, true, true, true, true, true, false, false, false, true, true, true, true, false,
      false, true, true, true, true, true, false, false, true, true, true, true, true, false, false, true,
      true, true, true, true, false, false, false, true, true, true, true, false, false] := by
  decide +kernel

/-- `third-parties/calendar/src/indonesia.rs:240-268`, `Indonesia`. -/
example : year2023 (.indonesia) =
    [false, true, true, true, true, true, false, false, true, true, true, true, true, false, false, true,
      true, true, true, true, false, false, true, true, true, true, true, false, false, true, true, true,
      true, true, false, false, true, true, true, true, true, false, false, true, true, true, true, true,
      false, false, true, true, true, true, true, false, false, true, true, true, true, true, false, false,
      true, true, true, true, true, false, false, true, true, true, true, true, false, false, true, true,
      true, true, true, false, false, true, true, true, true, true, false, false, true, true, true, true,
      false, false, false, true, true, true, true, true, false, false, true, true, true, true, true, false,
      false, true, true, true, true, true, false, false, true, true, true, true, true, false, false, true,
      true, true, true, true, false, false, true, true, true, false, true, false, false, true, true, true,
      true, true, false, false, true, true, true, true, true, false, false, true, true, true, true, true,
      false, false, true, true, true, true, true, false, false, true, true, true, true, true, false, false,
      true, true, true, true, true, false, false, true, true, true, true, true, false, false, true, true,
      true, true, true, false, false, true, true, true, true, true, false, false, true, true, true, true,
      true, false, false, true, true, true, true, true, false, false, true, true, true, true, true, false,
      false, true, true, true, false, true, false, false, true, true, true, true, true, false, false, true,
      true, true, true, true, false, false, true, true, true, true, true, false, false, true, true, true,
      true, true, false, false, true, true, true, true, true, false, false, true, true, true, true, true,
      false, false, true, true, true, true, true, false, false, true, true, true, true, true, false, false,
      true, true, true, true, true, false, false, true, true, true, true, true, false, false, true, true,
      true, true, true, false, false, true, true, true, true, true, false, false, true, true, true, true,
      true, false, false, true, true, true, true, true, false, false, true, true, true, true, true, false,
      false, true, true, true, true, true, false, false, true, true, true, true, true, false, false, true,
      true, true, true, true, false, false, false, true, true, true, true, false, false] := by
  decide +kernel

/-- `third-parties/calendar/src/israel.rs:329-357`, `Israel`. -/
example : year2023 (.israel) =
    [true, true, true, true, true, false, false, true, true, true, true, true, false, false, true, true,
      true, true, true, false, false, true, true, true, true, true, false, false, true, true, true, true,
      true, false, false, true, true, true, true, true, false, false, true, true, true, true, true, false,
      false, true, true, true, true, true, false, false, true, true, true, true, true, false, false, true,
      true, false, true, true, false, false, true, true, true, true, true, false, false, true, true, true,
      true, true, false, false, true, true, true, true, true, false, false, true, true, true, true, false,
      false, false, true, true, true, false, true, false, false, true, true, true, true, true, false, false,
      true, true, false, false, true, false, false, true, true, true, true, true, false, false, true, true,
      true, true, true, false, false, true, true, true, true, true, false, false, true, true, true, true,
      true, false, false, true, true, true, true, true, false, false, true, true, true, true, true, false,
      false, true, true, true, true, true, false, false, true, true, true, true, true, false, false, true,
      true, true, true, true, false, false, true, true, true, true, true, false, false, true, true, true,
      true, true, false, false, true, true, true, true, true, false, false, true, true, true, true, false,
      false, false, true, true, true, true, true, false, false, true, true, true, true, true, false, false,
      true, true, true, true, true, false, false, true, true, true, true, true, false, false, true, true,
      true, true, true, false, false, true, true, true, true, true, false, false, true, true, true, true,
      true, false, false, false, true, true, true, true, false, false, false, false, true, true, true, false,
      false, true, true, true, true, true, false, false, true, true, true, true, true, false, false, true,
      true, true, true, true, false, false, true, true, true, true, true, false, false, true, true, true,
      true, true, false, false, true, true, true, true, true, false, false, true, true, true, true, true,
      false, false, true, true, true, true, true, false, false, true, true, true, true, true, false, false,
      true, true, true, true, true, false, false, true, true, true, true, true, false, false, true, true,
      true, true, true, false, false, true, true, true, true, true, false, false, true] := by
  decide +kernel

/-- `third-parties/calendar/src/italy.rs:102-130`, `Italy::default()`. -/
example : year2023 (.italy none) =
    [false, true, true, true, true, false, false, false, true, true, true, true, true, false, false, true,
      true, true, true, true, false, false, true, true, true, true, true, false, false, true, true, true,
      true, true, false, false, true, true, true, true, true, false, false, true, true, true, true, true,
      false, false, true, true, true, true, true, false, false, true, true, true, true, true, false, false,
      true, true, true, true, true, false, false, true, true, true, true, true, false, false, true, true,
      true, true, true, false, false, true, true, true, true, true, false, false, true, true, true, true,
      true, false, false, false, true, true, true, true, false, false, true, true, true, true, true, false,
      false, true, false, true, true, true, false, false, false, true, true, true, true, false, false, true,
      true, true, true, true, false, false, true, true, true, true, true, false, false, true, true, true,
      true, true, false, false, true, true, true, true, false, false, false, true, true, true, true, true,
      false, false, true, true, true, true, true, false, false, true, true, true, true, true, false, false,
      true, true, true, true, true, false, false, true, true, true, true, true, false, false, true, true,
      true, true, true, false, false, true, true, true, true, true, false, false, true, true, true, true,
      true, false, false, true, true, true, true, true, false, false, true, true, true, true, true, false,
      false, true, false, true, true, true, false, false, true, true, true, true, true, false, false, true,
      true, true, true, true, false, false, true, true, true, true, true, false, false, true, true, true,
      true, true, false, false, true, true, true, true, true, false, false, true, true, true, true, true,
      false, false, true, true, true, true, true, false, false, true, true, true, true, true, false, false,
      true, true, true, true, true, false, false, true, true, true, true, true, false, false, true, true,
      false, true, true, false, false, true, true, true, true, true, false, false, true, true, true, true,
      true, false, false, true, true, true, true, true, false, false, true, true, true, true, true, false,
      false, true, true, true, true, false, false, false, true, true, true, true, true, false, false, true,
      true, true, true, true, false, false, false, false, true, true, true, false, false] := by
  decide +kernel

/-- `third-parties/calendar/src/japan.rs:143-171`, `Japan`. -/
example : year2023 (.japan) =
    [false, false, false, true, true, true, false, false, false, true, true, true, true, false, false, true,
      true, true, true, true, false, false, true, true, true, true, true, false, false, true, true, true,
      true, true, false, false, true, true, true, true, true, false, false, true, true, true, true, true,
      false, false, true, true, true, false, true, false, false, true, true, true, true, true, false, false,
      true, true, true, true, true, false, false, true, true, true, true, true, false, false, true, false,
      true, true, true, false, false, true, true, true, true, true, false, false, true, true, true, true,
      true, false, false, true, true, true, true, true, false, false, true, true, true, true, true, false,
      false, true, true, true, true, true, false, false, true, true, false, false, false, false, false, true,
      true, true, true, true, false, false, true, true, true, true, true, false, false, true, true, true,
      true, true, false, false, true, true, true, true, true, false, false, true, true, true, true, true,
      false, false, true, true, true, true, true, false, false, true, true, true, true, true, false, false,
      true, true, true, true, true, false, false, true, true, true, true, true, false, false, true, true,
      true, true, true, false, false, false, true, true, true, true, false, false, true, true, true, true,
      true, false, false, true, true, true, true, true, false, false, true, true, true, true, false, false,
      false, true, true, true, true, true, false, false, true, true, true, true, true, false, false, true,
      true, true, true, true, false, false, true, true, true, true, true, false, false, true, true, true,
      true, true, false, false, false, true, true, true, true, false, false, true, true, true, true, true,
      false, false, true, true, true, true, true, false, false, false, true, true, true, true, false, false,
      true, true, true, true, true, false, false, true, true, true, true, true, false, false, true, true,
      true, true, false, false, false, true, true, true, true, true, false, false, true, true, true, true,
      true, false, false, true, true, true, false, true, false, false, true, true, true, true, true, false,
      false, true, true, true, true, true, false, false, true, true, true, true, true, false, false, true,
      true, true, true, true, false, false, true, true, true, true, true, false, false] := by
  decide +kernel

/-- `third-parties/calendar/src/mexico.rs:58-86`, `Mexico`. -/
example : year2023 (.mexico) =
    [false, true, true, true, true, true, false, false, true, true, true, true, true, false, false, true,
      true, true, true, true, false, false, true, true, true, true, true, false, false, true, true, true,
      true, true, false, false, false, true, true, true, true, false, false, true, true, true, true, true,
      false, false, true, true, true, true, true, false, false, true, true, true, true, true, false, false,
      true, true, true, true, true, false, false, true, true, true, true, true, false, false, false, true,
      true, true, true, false, false, true, true, true, true, true, false, false, true, true, true, false,
      false, false, false, true, true, true, true, true, false, false, true, true, true, true, true, false,
      false, true, true, true, true, true, false, false, false, true, true, true, true, false, false, true,
      true, true, true, true, false, false, true, true, true, true, true, false, false, true, true, true,
      true, true, false, false, true, true, true, true, true, false, false, true, true, true, true, true,
      false, false, true, true, true, true, true, false, false, true, true, true, true, true, false, false,
      true, true, true, true, true, false, false, true, true, true, true, true, false, false, true, true,
      true, true, true, false, false, true, true, true, true, true, false, false, true, true, true, true,
      true, false, false, true, true, true, true, true, false, false, true, true, true, true, true, false,
      false, true, true, true, true, true, false, false, true, true, true, true, true, false, false, true,
      true, true, true, true, false, false, true, true, true, true, true, false, false, true, true, true,
      true, true, false, false, true, true, true, true, true, false, false, true, true, true, true, true,
      false, false, true, true, true, true, true, false, false, true, true, true, true, true, false, false,
      true, true, true, true, true, false, false, true, true, true, true, true, false, false, true, true,
      true, false, true, false, false, true, true, true, true, true, false, false, true, true, true, true,
      true, false, false, false, true, true, true, true, false, false, true, true, true, true, true, false,
      false, true, true, true, true, true, false, false, true, false, true, true, true, false, false, true,
      true, true, true, true, false, false, false, true, true, true, true, false, false] := by
  decide +kernel

/-- `third-parties/calendar/src/newzealand.rs:81-109`, `NewZealand`. -/
example : year2023 (.newZealand) =
    [false, false, false, true, true, true, false, false, true, true, true, true, true, false, false, true,
      true, true, true, true, false, false, false, true, true, true, true, false, false, true, true, true,
      true, true, false, false, false, true, true, true, true, false, false, true, true, true, true, true,
      false, false, true, true, true, true, true, false, false, true, true, true, true, true, false, false,
      true, true, true, true, true, false, false, true, true, true, true, true, false, false, true, true,
      true, true, true, false, false, true, true, true, true, true, false, false, true, true, true, true,
      false, false, false, false, true, true, true, true, false, false, true, true, true, true, true, false,
      false, true, false, true, true, true, false, false, true, true, true, true, true, false, false, true,
      true, true, true, true, false, false, true, true, true, true, true, false, false, true, true, true,
      true, true, false, false, true, true, true, true, true, false, false, false, true, true, true, true,
      false, false, true, true, true, true, true, false, false, true, true, true, true, true, false, false,
      true, true, true, true, true, false, false, true, true, true, true, true, false, false, true, true,
      true, true, false, false, false, true, true, true, true, true, false, false, true, true, true, true,
      true, false, false, true, true, true, true, true, false, false, true, true, true, true, true, false,
      false, true, true, true, true, true, false, false, true, true, true, true, true, false, false, true,
      true, true, true, true, false, false, true, true, true, true, true, false, false, true, true, true,
      true, true, false, false, true, true, true, true, true, false, false, true, true, true, true, true,
      false, false, true, true, true, true, true, false, false, true, true, true, true, true, false, false,
      true, true, true, true, true, false, false, false, true, true, true, true, false, false, true, true,
      true, true, true, false, false, true, true, true, true, true, false, false, true, true, true, true,
      true, false, false, true, true, true, true, true, false, false, true, true, true, true, true, false,
      false, true, true, true, true, true, false, false, true, true, true, true, true, false, false, true,
      true, true, true, true, false, false, false, false, true, true, true, false, false] := by
  decide +kernel

/-- `third-parties/calendar/src/norway.rs:55-83`, `Norway`. -/
example : year2023 (.norway) =
    [false, true, true, true, true, true, false, false, true, true, true, true, true, false, false, true,
      true, true, true, true, false, false, true, true, true, true, true, false, false, true, true, true,
      true, true, false, false, true, true, true, true, true, false, false, true, true, true, true, true,
      false, false, true, true, true, true, true, false, false, true, true, true, true, true, false, false,
      true, true, true, true, true, false, false, true, true, true, true, true, false, false, true, true,
      true, true, true, false, false, true, true, true, true, true, false, false, true, true, true, false,
      false, false, false, false, true, true, true, true, false, false, true, true, true, true, true, false,
      false, true, true, true, true, true, false, false, false, true, true, true, true, false, false, true,
      true, true, true, true, false, false, true, true, false, false, true, false, false, true, true, true,
      true, true, false, false, false, true, true, true, true, false, false, true, true, true, true, true,
      false, false, true, true, true, true, true, false, false, true, true, true, true, true, false, false,
      true, true, true, true, true, false, false, true, true, true, true, true, false, false, true, true,
      true, true, true, false, false, true, true, true, true, true, false, false, true, true, true, true,
      true, false, false, true, true, true, true, true, false, false, true, true, true, true, true, false,
      false, true, true, true, true, true, false, false, true, true, true, true, true, false, false, true,
      true, true, true, true, false, false, true, true, true, true, true, false, false, true, true, true,
      true, true, false, false, true, true, true, true, true, false, false, true, true, true, true, true,
      false, false, true, true, true, true, true, false, false, true, true, true, true, true, false, false,
      true, true, true, true, true, false, false, true, true, true, true, true, false, false, true, true,
      true, true, true, false, false, true, true, true, true, true, false, false, true, true, true, true,
      true, false, false, true, true, true, true, true, false, false, true, true, true, true, true, false,
      false, true, true, true, true, true, false, false, true, true, true, true, true, false, false, true,
      true, true, true, true, false, false, false, false, true, true, true, false, false] := by
  decide +kernel

/-- `third-parties/calendar/src/poland.rs:55-83`, `Poland`. -/
example : year2023 (.poland) =
    [false, true, true, true, true, false, false, false, true, true, true, true, true, false, false, true,
      true, true, true, true, false, false, true, true, true, true, true, false, false, true, true, true,
      true, true, false, false, true, true, true, true, true, false, false, true, true, true, true, true,
      false, false, true, true, true, true, true, false, false, true, true, true, true, true, false, false,
      true, true, true, true, true, false, false, true, true, true, true, true, false, false, true, true,
      true, true, true, false, false, true, true, true, true, true, false, false, true, true, true, true,
      true, false, false, false, true, true, true, true, false, false, true, true, true, true, true, false,
      false, true, true, true, true, true, false, false, false, true, false, true, true, false, false, true,
      true, true, true, true, false, false, true, true, true, true, true, false, false, true, true, true,
      true, true, false, false, true, true, true, true, true, false, false, true, true, true, false, true,
      false, false, true, true, true, true, true, false, false, true, true, true, true, true, false, false,
      true, true, true, true, true, false, false, true, true, true, true, true, false, false, true, true,
      true, true, true, false, false, true, true, true, true, true, false, false, true, true, true, true,
      true, false, false, true, true, true, true, true, false, false, true, true, true, true, true, false,
      false, true, false, true, true, true, false, false, true, true, true, true, true, false, false, true,
      true, true, true, true, false, false, true, true, true, true, true, false, false, true, true, true,
      true, true, false, false, true, true, true, true, true, false, false, true, true, true, true, true,
      false, false, true, true, true, true, true, false, false, true, true, true, true, true, false, false,
      true, true, true, true, true, false, false, true, true, true, true, true, false, false, true, true,
      false, true, true, false, false, true, true, true, true, true, false, false, true, true, true, true,
      true, false, false, true, true, true, true, true, false, false, true, true, true, true, true, false,
      false, true, true, true, true, true, false, false, true, true, true, true, true, false, false, true,
      true, true, true, true, false, false, false, false, true, true, true, false, false] := by
  decide +kernel

/-- `third-parties/calendar/src/romania.rs:57-85`, `Romania`. -/
example : year2023 (.romania) =
    [false, false, true, true, true, true, false, false, true, true, true, true, true, false, false, true,
      true, true, true, true, false, false, true, false, true, true, true, false, false, true, true, true,
      true, true, false, false, true, true, true, true, true, false, false, true, true, true, true, true,
      false, false, true, true, true, true, true, false, false, true, true, true, true, true, false, false,
      true, true, true, true, true, false, false, true, true, true, true, true, false, false, true, true,
      true, true, true, false, false, true, true, true, true, true, false, false, true, true, true, true,
      true, false, false, true, true, true, true, true, false, false, false, true, true, true, true, false,
      false, true, true, true, true, true, false, false, false, true, true, true, true, false, false, true,
      true, true, true, true, false, false, true, true, true, true, true, false, false, true, true, true,
      true, true, false, false, true, true, true, false, true, false, false, false, true, true, true, true,
      false, false, true, true, true, true, true, false, false, true, true, true, true, true, false, false,
      true, true, true, true, true, false, false, true, true, true, true, true, false, false, true, true,
      true, true, true, false, false, true, true, true, true, true, false, false, true, true, true, true,
      true, false, false, true, true, true, true, true, false, false, true, true, true, true, true, false,
      false, true, false, true, true, true, false, false, true, true, true, true, true, false, false, true,
      true, true, true, true, false, false, true, true, true, true, true, false, false, true, true, true,
      true, true, false, false, true, true, true, true, true, false, false, true, true, true, true, true,
      false, false, true, true, true, true, true, false, false, true, true, true, true, true, false, false,
      true, true, true, true, true, false, false, true, true, true, true, true, false, false, true, true,
      true, true, true, false, false, true, true, true, true, true, false, false, true, true, true, true,
      true, false, false, true, true, true, true, true, false, false, true, true, true, false, false, false,
      false, true, true, true, true, true, false, false, true, true, true, true, true, false, false, true,
      true, true, true, true, false, false, false, false, true, true, true, false, false] := by
  decide +kernel

/-- `third-parties/calendar/src/russia.rs:146-174`, `Russia::default()`. -/
example : year2023 (.russia none) =
    [false, false, false, false, false, true, false, false, false, true, true, true, true, false, false, true,
      true, true, true, true, false, false, true, true, true, true, true, false, false, true, true, true,
      true, true, false, false, true, true, true, true, true, false, false, true, true, true, true, true,
      false, false, true, true, true, false, true, false, false, true, true, true, true, true, false, false,
      true, true, false, true, true, false, false, true, true, true, true, true, false, false, true, true,
      true, true, true, false, false, true, true, true, true, true, false, false, true, true, true, true,
      true, false, false, true, true, true, true, true, false, false, true, true, true, true, true, false,
      false, true, true, true, true, true, false, false, false, true, true, true, true, false, false, true,
      false, true, true, true, false, false, true, true, true, true, true, false, false, true, true, true,
      true, true, false, false, true, true, true, true, true, false, false, true, true, true, true, true,
      false, false, false, true, true, true, true, false, false, true, true, true, true, true, false, false,
      true, true, true, true, true, false, false, true, true, true, true, true, false, false, true, true,
      true, true, true, false, false, true, true, true, true, true, false, false, true, true, true, true,
      true, false, false, true, true, true, true, true, false, false, true, true, true, true, true, false,
      false, true, true, true, true, true, false, false, true, true, true, true, true, false, false, true,
      true, true, true, true, false, false, true, true, true, true, true, false, false, true, true, true,
      true, true, false, false, true, true, true, true, true, false, false, true, true, true, true, true,
      false, false, true, true, true, true, true, false, false, true, true, true, true, true, false, false,
      true, true, true, true, true, false, false, true, true, true, true, true, false, false, true, true,
      true, true, true, false, false, false, true, true, true, true, false, false, true, true, true, true,
      true, false, false, true, true, true, true, true, false, false, true, true, true, true, true, false,
      false, true, true, true, true, true, false, false, true, true, true, true, true, false, false, true,
      true, true, true, true, false, false, true, true, true, true, true, false, false] := by
  decide +kernel

/-- `third-parties/calendar/src/singapore.rs:198-226`, `Singapore`. -/
example : year2023 (.singapore) =
    [false, false, true, true, true, true, false, false, true, true, true, true, true, false, false, true,
      true, true, true, true, false, false, false, false, true, true, true, false, false, true, true, true,
      true, true, false, false, true, true, true, true, true, false, false, true, true, true, true, true,
      false, false, true, true, true, true, true, false, false, true, true, true, true, true, false, false,
      true, true, true, true, true, false, false, true, true, true, true, true, false, false, true, true,
      true, true, true, false, false, true, true, true, true, true, false, false, true, true, true, true,
      false, false, false, true, true, true, true, true, false, false, true, true, true, true, true, false,
      false, true, true, true, true, true, false, false, false, true, true, true, true, false, false, true,
      true, true, true, true, false, false, true, true, true, true, true, false, false, true, true, true,
      true, true, false, false, true, true, true, true, false, false, false, true, true, true, true, true,
      false, false, true, true, true, true, true, false, false, true, true, true, true, true, false, false,
      true, true, true, false, true, false, false, true, true, true, true, true, false, false, true, true,
      true, true, true, false, false, true, true, true, true, true, false, false, true, true, true, true,
      true, false, false, true, true, true, true, true, false, false, true, true, false, true, true, false,
      false, true, true, true, true, true, false, false, true, true, true, true, true, false, false, true,
      true, true, true, true, false, false, true, true, true, true, true, false, false, true, true, true,
      true, true, false, false, true, true, true, true, true, false, false, true, true, true, true, true,
      false, false, true, true, true, true, true, false, false, true, true, true, true, true, false, false,
      true, true, true, true, true, false, false, true, true, true, true, true, false, false, true, true,
      true, true, true, false, false, true, true, true, true, true, false, false, false, true, true, true,
      true, false, false, true, true, true, true, true, false, false, true, true, true, true, true, false,
      false, true, true, true, true, true, false, false, true, true, true, true, true, false, false, true,
      true, true, true, true, false, false, false, true, true, true, true, false, false] := by
  decide +kernel

/-- `third-parties/calendar/src/slovakia.rs:65-93`, `Slovakia`. -/
example : year2023 (.slovakia) =
    [false, true, true, true, true, false, false, false, true, true, true, true, true, false, false, true,
      true, true, true, true, false, false, true, true, true, true, true, false, false, true, true, true,
      true, true, false, false, true, true, true, true, true, false, false, true, true, true, true, true,
      false, false, true, true, true, true, true, false, false, true, true, true, true, true, false, false,
      true, true, true, true, true, false, false, true, true, true, true, true, false, false, true, true,
      true, true, true, false, false, true, true, true, true, true, false, false, true, true, true, true,
      false, false, false, false, true, true, true, true, false, false, true, true, true, true, true, false,
      false, true, true, true, true, true, false, false, false, true, true, true, true, false, false, false,
      true, true, true, true, false, false, true, true, true, true, true, false, false, true, true, true,
      true, true, false, false, true, true, true, true, true, false, false, true, true, true, true, true,
      false, false, true, true, true, true, true, false, false, true, true, true, true, true, false, false,
      true, true, true, true, true, false, false, true, true, false, true, true, false, false, true, true,
      true, true, true, false, false, true, true, true, true, true, false, false, true, true, true, true,
      true, false, false, true, true, true, true, true, false, false, true, true, true, true, true, false,
      false, true, true, true, true, true, false, false, true, true, true, true, true, false, false, true,
      false, true, true, false, false, false, true, true, true, true, true, false, false, true, true, true,
      true, false, false, false, true, true, true, true, true, false, false, true, true, true, true, true,
      false, false, true, true, true, true, true, false, false, true, true, true, true, true, false, false,
      true, true, true, true, true, false, false, true, true, true, true, true, false, false, true, true,
      false, true, true, false, false, true, true, true, true, true, false, false, true, true, true, true,
      false, false, false, true, true, true, true, true, false, false, true, true, true, true, true, false,
      false, true, true, true, true, true, false, false, true, true, true, true, true, false, false, true,
      true, true, true, true, false, false, false, false, true, true, true, false, false] := by
  decide +kernel

/-- `third-parties/calendar/src/southafrica.rs:76-104`, `SouthAfrica`. -/
example : year2023 (.southAfrica) =
    [false, false, true, true, true, true, false, false, true, true, true, true, true, false, false, true,
      true, true, true, true, false, false, true, true, true, true, true, false, false, true, true, true,
      true, true, false, false, true, true, true, true, true, false, false, true, true, true, true, true,
      false, false, true, true, true, true, true, false, false, true, true, true, true, true, false, false,
      true, true, true, true, true, false, false, true, true, true, true, true, false, false, true, false,
      true, true, true, false, false, true, true, true, true, true, false, false, true, true, true, true,
      false, false, false, false, true, true, true, true, false, false, true, true, true, true, true, false,
      false, true, true, true, false, true, false, false, false, true, true, true, true, false, false, true,
      true, true, true, true, false, false, true, true, true, true, true, false, false, true, true, true,
      true, true, false, false, true, true, true, true, true, false, false, true, true, true, true, true,
      false, false, true, true, true, true, false, false, false, true, true, true, true, true, false, false,
      true, true, true, true, true, false, false, true, true, true, true, true, false, false, true, true,
      true, true, true, false, false, true, true, true, true, true, false, false, true, true, true, true,
      true, false, false, true, true, true, true, true, false, false, true, true, false, true, true, false,
      false, true, true, true, true, true, false, false, true, true, true, true, true, false, false, true,
      true, true, true, true, false, false, true, true, true, true, true, false, false, true, true, true,
      true, true, false, false, true, true, true, true, true, false, false, false, true, true, true, true,
      false, false, true, true, true, true, true, false, false, true, true, true, true, true, false, false,
      true, true, true, true, true, false, false, true, true, true, true, true, false, false, true, true,
      true, true, true, false, false, true, true, true, true, true, false, false, true, true, true, true,
      true, false, false, true, true, true, true, true, false, false, true, true, true, true, true, false,
      false, true, true, true, true, true, false, false, true, true, true, true, true, false, false, true,
      true, true, true, true, false, false, false, false, true, true, true, false, false] := by
  decide +kernel

/-- `third-parties/calendar/src/southkorea.rs:237-265`, `SouthKorea`. -/
example : year2023 (.southKorea) =
    [false, true, true, true, true, true, false, false, true, true, true, true, true, false, false, true,
      true, true, true, true, false, false, false, false, true, true, true, false, false, true, true, true,
      true, true, false, false, true, true, true, true, true, false, false, true, true, true, true, true,
      false, false, true, true, true, true, true, false, false, true, true, false, true, true, false, false,
      true, true, true, true, true, false, false, true, true, true, true, true, false, false, true, true,
      true, true, true, false, false, true, true, true, true, true, false, false, true, true, true, true,
      true, false, false, true, true, true, true, true, false, false, true, true, true, true, true, false,
      false, true, true, true, true, true, false, false, false, true, true, true, false, false, false, true,
      true, true, true, true, false, false, true, true, true, true, true, false, false, true, true, true,
      true, true, false, false, false, true, true, true, true, false, false, true, false, true, true, true,
      false, false, true, true, true, true, true, false, false, true, true, true, true, true, false, false,
      true, true, true, true, true, false, false, true, true, true, true, true, false, false, true, true,
      true, true, true, false, false, true, true, true, true, true, false, false, true, true, true, true,
      true, false, false, true, true, true, true, true, false, false, true, true, true, true, true, false,
      false, true, false, true, true, true, false, false, true, true, true, true, true, false, false, true,
      true, true, true, true, false, false, true, true, true, true, true, false, false, true, true, true,
      true, true, false, false, true, true, true, true, true, false, false, true, true, true, false, false,
      false, false, false, false, true, true, true, false, false, false, true, true, true, true, false, false,
      true, true, true, true, true, false, false, true, true, true, true, true, false, false, true, true,
      true, true, true, false, false, true, true, true, true, true, false, false, true, true, true, true,
      true, false, false, true, true, true, true, true, false, false, true, true, true, true, true, false,
      false, true, true, true, true, true, false, false, true, true, true, true, true, false, false, true,
      true, true, true, true, false, false, false, true, true, true, true, false, false] := by
  decide +kernel

/-- `third-parties/calendar/src/sweden.rs:59-87`, `Sweden`. -/
example : year2023 (.sweden) =
    [false, true, true, true, true, false, false, false, true, true, true, true, true, false, false, true,
      true, true, true, true, false, false, true, true, true, true, true, false, false, true, true, true,
      true, true, false, false, true, true, true, true, true, false, false, true, true, true, true, true,
      false, false, true, true, true, true, true, false, false, true, true, true, true, true, false, false,
      true, true, true, true, true, false, false, true, true, true, true, true, false, false, true, true,
      true, true, true, false, false, true, true, true, true, true, false, false, true, true, true, true,
      false, false, false, false, true, true, true, true, false, false, true, true, true, true, true, false,
      false, true, true, true, true, true, false, false, false, true, true, true, true, false, false, true,
      true, true, true, true, false, false, true, true, true, false, true, false, false, true, true, true,
      true, true, false, false, true, true, true, true, true, false, false, true, false, true, true, true,
      false, false, true, true, true, true, true, false, false, true, true, true, true, false, false, false,
      true, true, true, true, true, false, false, true, true, true, true, true, false, false, true, true,
      true, true, true, false, false, true, true, true, true, true, false, false, true, true, true, true,
      true, false, false, true, true, true, true, true, false, false, true, true, true, true, true, false,
      false, true, true, true, true, true, false, false, true, true, true, true, true, false, false, true,
      true, true, true, true, false, false, true, true, true, true, true, false, false, true, true, true,
      true, true, false, false, true, true, true, true, true, false, false, true, true, true, true, true,
      false, false, true, true, true, true, true, false, false, true, true, true, true, true, false, false,
      true, true, true, true, true, false, false, true, true, true, true, true, false, false, true, true,
      true, true, true, false, false, true, true, true, true, true, false, false, true, true, true, true,
      true, false, false, true, true, true, true, true, false, false, true, true, true, true, true, false,
      false, true, true, true, true, true, false, false, true, true, true, true, true, false, false, true,
      true, true, true, true, false, false, false, false, true, true, true, false, false] := by
  decide +kernel

/-- `third-parties/calendar/src/switzerland.rs:52-80`, `Switzerland`. -/
example : year2023 (.switzerland) =
    [false, false, true, true, true, true, false, false, true, true, true, true, true, false, false, true,
      true, true, true, true, false, false, true, true, true, true, true, false, false, true, true, true,
      true, true, false, false, true, true, true, true, true, false, false, true, true, true, true, true,
      false, false, true, true, true, true, true, false, false, true, true, true, true, true, false, false,
      true, true, true, true, true, false, false, true, true, true, true, true, false, false, true, true,
      true, true, true, false, false, true, true, true, true, true, false, false, true, true, true, true,
      false, false, false, false, true, true, true, true, false, false, true, true, true, true, true, false,
      false, true, true, true, true, true, false, false, false, true, true, true, true, false, false, true,
      true, true, true, true, false, false, true, true, true, false, true, false, false, true, true, true,
      true, true, false, false, false, true, true, true, true, false, false, true, true, true, true, true,
      false, false, true, true, true, true, true, false, false, true, true, true, true, true, false, false,
      true, true, true, true, true, false, false, true, true, true, true, true, false, false, true, true,
      true, true, true, false, false, true, true, true, true, true, false, false, true, true, true, true,
      true, false, false, true, false, true, true, true, false, false, true, true, true, true, true, false,
      false, true, true, true, true, true, false, false, true, true, true, true, true, false, false, true,
      true, true, true, true, false, false, true, true, true, true, true, false, false, true, true, true,
      true, true, false, false, true, true, true, true, true, false, false, true, true, true, true, true,
      false, false, true, true, true, true, true, false, false, true, true, true, true, true, false, false,
      true, true, true, true, true, false, false, true, true, true, true, true, false, false, true, true,
      true, true, true, false, false, true, true, true, true, true, false, false, true, true, true, true,
      true, false, false, true, true, true, true, true, false, false, true, true, true, true, true, false,
      false, true, true, true, true, true, false, false, true, true, true, true, true, false, false, true,
      true, true, true, true, false, false, false, false, true, true, true, false, false] := by
  decide +kernel

/-- `third-parties/calendar/src/taiwan.rs:406-434`, `Taiwan`. -/
example : year2023 (.taiwan) =
    [false, false, true, true, true, true, false, false, true, true, true, true, true, false, false, true,
      true, true, true, false, false, false, false, false, false, false, false, false, false, true, true, true,
      true, true, false, false, true, true, true, true, true, false, false, true, true, true, true, true,
      false, false, true, true, true, true, true, false, false, false, false, true, true, true, false, false,
      true, true, true, true, true, false, false, true, true, true, true, true, false, false, true, true,
      true, true, true, false, false, true, true, true, true, true, false, false, false, false, false, true,
      true, false, false, true, true, true, true, true, false, false, true, true, true, true, true, false,
      false, true, true, true, true, true, false, false, false, true, true, true, true, false, false, true,
      true, true, true, true, false, false, true, true, true, true, true, false, false, true, true, true,
      true, true, false, false, true, true, true, true, true, false, false, true, true, true, true, true,
      false, false, true, true, true, true, true, false, false, true, true, true, false, false, false, false,
      true, true, true, true, true, false, false, true, true, true, true, true, false, false, true, true,
      true, true, true, false, false, true, true, true, true, true, false, false, true, true, true, true,
      true, false, false, true, true, true, true, true, false, false, true, true, true, true, true, false,
      false, true, true, true, true, true, false, false, true, true, true, true, true, false, false, true,
      true, true, true, true, false, false, true, true, true, true, true, false, false, true, true, true,
      true, true, false, false, true, true, true, true, true, false, false, true, true, true, true, false,
      false, false, true, true, true, true, true, false, false, false, false, true, true, true, false, false,
      true, true, true, true, true, false, false, true, true, true, true, true, false, false, true, true,
      true, true, true, false, false, true, true, true, true, true, false, false, true, true, true, true,
      true, false, false, true, true, true, true, true, false, false, true, true, true, true, true, false,
      false, true, true, true, true, true, false, false, true, true, true, true, true, false, false, true,
      true, true, true, true, false, false, true, true, true, true, true, false, false] := by
  decide +kernel

/-- `third-parties/calendar/src/target.rs:46-74`, `Target`. -/
example : year2023 (.target) =
    [false, true, true, true, true, true, false, false, true, true, true, true, true, false, false, true,
      true, true, true, true, false, false, true, true, true, true, true, false, false, true, true, true,
      true, true, false, false, true, true, true, true, true, false, false, true, true, true, true, true,
      false, false, true, true, true, true, true, false, false, true, true, true, true, true, false, false,
      true, true, true, true, true, false, false, true, true, true, true, true, false, false, true, true,
      true, true, true, false, false, true, true, true, true, true, false, false, true, true, true, true,
      false, false, false, false, true, true, true, true, false, false, true, true, true, true, true, false,
      false, true, true, true, true, true, false, false, false, true, true, true, true, false, false, true,
      true, true, true, true, false, false, true, true, true, true, true, false, false, true, true, true,
      true, true, false, false, true, true, true, true, true, false, false, true, true, true, true, true,
      false, false, true, true, true, true, true, false, false, true, true, true, true, true, false, false,
      true, true, true, true, true, false, false, true, true, true, true, true, false, false, true, true,
      true, true, true, false, false, true, true, true, true, true, false, false, true, true, true, true,
      true, false, false, true, true, true, true, true, false, false, true, true, true, true, true, false,
      false, true, true, true, true, true, false, false, true, true, true, true, true, false, false, true,
      true, true, true, true, false, false, true, true, true, true, true, false, false, true, true, true,
      true, true, false, false, true, true, true, true, true, false, false, true, true, true, true, true,
      false, false, true, true, true, true, true, false, false, true, true, true, true, true, false, false,
      true, true, true, true, true, false, false, true, true, true, true, true, false, false, true, true,
      true, true, true, false, false, true, true, true, true, true, false, false, true, true, true, true,
      true, false, false, true, true, true, true, true, false, false, true, true, true, true, true, false,
      false, true, true, true, true, true, false, false, true, true, true, true, true, false, false, true,
      true, true, true, true, false, false, false, false, true, true, true, false, false] := by
  decide +kernel

/-- `third-parties/calendar/src/thailand.rs:294-322`, `Thailand`. -/
example : year2023 (.thailand) =
    [false, false, true, true, true, true, false, false, true, true, true, true, true, false, false, true,
      true, true, true, true, false, false, true, true, true, true, true, false, false, true, true, true,
      true, true, false, false, true, true, true, true, true, false, false, true, true, true, true, true,
      false, false, true, true, true, true, true, false, false, true, true, true, true, true, false, false,
      true, true, true, true, true, false, false, true, true, true, true, true, false, false, true, true,
      true, true, true, false, false, true, true, true, true, true, false, false, true, true, true, false,
      true, false, false, true, true, true, false, false, false, false, true, true, true, true, true, false,
      false, true, true, true, true, true, false, false, false, true, true, true, true, false, false, true,
      true, true, true, true, false, false, true, true, true, true, true, false, false, true, true, true,
      true, true, false, false, true, true, true, true, true, false, false, true, true, true, true, true,
      false, false, true, true, true, true, true, false, false, true, true, true, true, true, false, false,
      true, true, true, true, true, false, false, true, true, true, true, true, false, false, true, true,
      true, true, true, false, false, true, true, true, true, true, false, false, true, true, true, true,
      false, false, false, true, true, true, true, true, false, false, true, true, true, true, true, false,
      false, false, true, true, true, true, false, false, true, true, true, true, true, false, false, true,
      true, true, true, true, false, false, true, true, true, true, true, false, false, true, true, true,
      true, true, false, false, true, true, true, true, true, false, false, true, true, true, true, true,
      false, false, true, true, true, true, true, false, false, true, true, true, true, false, false, false,
      true, true, true, true, true, false, false, true, true, true, true, true, false, false, true, true,
      true, true, true, false, false, true, true, true, true, true, false, false, true, true, true, true,
      true, false, false, true, true, true, true, true, false, false, true, true, true, true, true, false,
      false, true, false, true, true, true, false, false, false, true, true, true, true, false, false, true,
      true, true, true, true, false, false, true, true, true, true, true, false, false] := by
  decide +kernel

/-- `third-parties/calendar/src/turkey.rs:305-333`, `Turkey`. -/
example : year2023 (.turkey) =
    [false, true, true, true, true, true, false, false, true, true, true, true, true, false, false, true,
      true, true, true, true, false, false, true, true, true, true, true, false, false, true, true, true,
      true, true, false, false, true, true, true, true, true, false, false, true, true, true, true, true,
      false, false, true, true, true, true, true, false, false, true, true, true, true, true, false, false,
      true, true, true, true, true, false, false, true, true, true, true, true, false, false, true, true,
      true, true, true, false, false, true, true, true, true, true, false, false, true, true, true, true,
      true, false, false, true, true, true, true, true, false, false, true, true, true, true, false, false,
      false, true, true, true, true, true, false, false, false, true, true, true, true, false, false, true,
      true, true, true, true, false, false, true, true, true, true, false, false, false, true, true, true,
      true, true, false, false, true, true, true, true, true, false, false, true, true, true, true, true,
      false, false, true, true, true, true, true, false, false, true, true, true, true, true, false, false,
      true, true, false, false, false, false, false, true, true, true, true, true, false, false, true, true,
      true, true, true, false, false, true, true, true, true, true, false, false, true, true, true, true,
      true, false, false, true, true, true, true, true, false, false, true, true, true, true, true, false,
      false, true, true, true, true, true, false, false, true, true, true, true, true, false, false, true,
      true, false, true, true, false, false, true, true, true, true, true, false, false, true, true, true,
      true, true, false, false, true, true, true, true, true, false, false, true, true, true, true, true,
      false, false, true, true, true, true, true, false, false, true, true, true, true, true, false, false,
      true, true, true, true, true, false, false, true, true, true, true, true, false, false, true, true,
      true, true, true, false, false, true, true, true, true, true, false, false, true, true, true, true,
      true, false, false, true, true, true, true, true, false, false, true, true, true, true, true, false,
      false, true, true, true, true, true, false, false, true, true, true, true, true, false, false, true,
      true, true, true, true, false, false, true, true, true, true, true, false, false] := by
  decide +kernel

/-- `third-parties/calendar/src/unitedkingdom.rs:113-141`, `UnitedKingdom::default()`. -/
example : year2023 (.unitedKingdom none) =
    [false, false, true, true, true, true, false, false, true, true, true, true, true, false, false, true,
      true, true, true, true, false, false, true, true, true, true, true, false, false, true, true, true,
      true, true, false, false, true, true, true, true, true, false, false, true, true, true, true, true,
      false, false, true, true, true, true, true, false, false, true, true, true, true, true, false, false,
      true, true, true, true, true, false, false, true, true, true, true, true, false, false, true, true,
      true, true, true, false, false, true, true, true, true, true, false, false, true, true, true, true,
      false, false, false, false, true, true, true, true, false, false, true, true, true, true, true, false,
      false, true, true, true, true, true, false, false, false, true, true, true, true, false, false, false,
      true, true, true, true, false, false, true, true, true, true, true, false, false, true, true, true,
      true, true, false, false, false, true, true, true, true, false, false, true, true, true, true, true,
      false, false, true, true, true, true, true, false, false, true, true, true, true, true, false, false,
      true, true, true, true, true, false, false, true, true, true, true, true, false, false, true, true,
      true, true, true, false, false, true, true, true, true, true, false, false, true, true, true, true,
      true, false, false, true, true, true, true, true, false, false, true, true, true, true, true, false,
      false, true, true, true, true, true, false, false, true, true, true, true, true, false, false, false,
      true, true, true, true, false, false, true, true, true, true, true, false, false, true, true, true,
      true, true, false, false, true, true, true, true, true, false, false, true, true, true, true, true,
      false, false, true, true, true, true, true, false, false, true, true, true, true, true, false, false,
      true, true, true, true, true, false, false, true, true, true, true, true, false, false, true, true,
      true, true, true, false, false, true, true, true, true, true, false, false, true, true, true, true,
      true, false, false, true, true, true, true, true, false, false, true, true, true, true, true, false,
      false, true, true, true, true, true, false, false, true, true, true, true, true, false, false, true,
      true, true, true, true, false, false, false, false, true, true, true, false, false] := by
  decide +kernel

/-- `third-parties/calendar/src/unitedstates.rs:344-372`, `UnitedStates{market:Some(UnitedStatesMarket::SOFR)}`. -/
example : year2023 (.unitedStates (some .SOFR)) =
    [false, false, true, true, true, true, false, false, true, true, true, true, true, false, false, false,
      true, true, true, true, false, false, true, true, true, true, true, false, false, true, true, true,
      true, true, false, false, true, true, true, true, true, false, false, true, true, true, true, true,
      false, false, false, true, true, true, true, false, false, true, true, true, true, true, false, false,
      true, true, true, true, true, false, false, true, true, true, true, true, false, false, true, true,
      true, true, true, false, false, true, true, true, true, true, false, false, true, true, true, true,
      false, false, false, true, true, true, true, true, false, false, true, true, true, true, true, false,
      false, true, true, true, true, true, false, false, true, true, true, true, true, false, false, true,
      true, true, true, true, false, false, true, true, true, true, true, false, false, true, true, true,
      true, true, false, false, false, true, true, true, true, false, false, true, true, true, true, true,
      false, false, true, true, true, true, true, false, false, false, true, true, true, true, false, false,
      true, true, true, true, true, false, false, true, false, true, true, true, false, false, true, true,
      true, true, true, false, false, true, true, true, true, true, false, false, true, true, true, true,
      true, false, false, true, true, true, true, true, false, false, true, true, true, true, true, false,
      false, true, true, true, true, true, false, false, true, true, true, true, true, false, false, true,
      true, true, true, true, false, false, false, true, true, true, true, false, false, true, true, true,
      true, true, false, false, true, true, true, true, true, false, false, true, true, true, true, true,
      false, false, true, true, true, true, true, false, false, false, true, true, true, true, false, false,
      true, true, true, true, true, false, false, true, true, true, true, true, false, false, true, true,
      true, true, true, false, false, true, true, true, true, true, false, false, true, true, true, true,
      true, false, false, true, true, true, false, true, false, false, true, true, true, true, true, false,
      false, true, true, true, true, true, false, false, true, true, true, true, true, false, false, true,
      true, true, true, true, false, false, false, true, true, true, true, false, false] := by
  decide +kernel

end Qlab.Conformance
