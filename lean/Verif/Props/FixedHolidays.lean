import Verif.Lemmas.Calendars
import Mathlib.Tactic.CasesM

/-!
# Shipped calendars: fixed-date holidays and feasts tied to Easter (C30, C31)

The tables `FixedHolidays` and `EasterHolidays` are in `Verif.Spec.Calendars`.
-/

set_option maxRecDepth 8000
set_option maxHeartbeats 4000000

namespace Qlab.Props

open Spec

/-- **C30.** Each date of the table of fixed holidays is closed in every year: in 1901..2199 for the calendars
that consult Easter (they answer nowhere else), in every representable year for the others. -/
theorem C30_fixed_holidays_closed (s : Shipped) (d : Date) (h : (d.month, d.day) ∈ FixedHolidays s)
    (hy : UsesEaster s = true → 1901 ≤ d.year ∧ d.year ≤ 2199) : Closed s.calendar d := by
  unfold Closed
  by_cases hr : 1901 ≤ d.year ∧ d.year ≤ 2199
  · obtain ⟨em, he⟩ := easterMonday_total hr.1 hr.2
    obtain ⟨oem, ho⟩ := orthodoxEasterMonday_total hr.1 hr.2
    clear hy
    cases s
    cases_market
    all_goals
      simp only [FixedHolidays, List.mem_cons, List.not_mem_nil, or_false, Prod.mk.injEq] at h
    all_goals
      try casesm* _ ∨ _
    all_goals
      obtain ⟨hm, hd⟩ := h
      first
      | (unfold_calendars; simp [he, ho, hm, hd]; done)
      | (unfold_calendars; simp [he, hm, hd, ite_ok]; done)
      | (unfold_calendars; simp [hm, hd]; omega)
  · have hp : UsesEaster s = false := by
      cases hu : UsesEaster s
      · rfl
      · exact absurd (hy hu) hr
    clear hy
    cases s
    cases_market
    all_goals first
      | (simp [UsesEaster] at hp; done)
      | skip
    all_goals
      simp only [FixedHolidays, List.mem_cons, List.not_mem_nil, or_false, Prod.mk.injEq] at h
    all_goals
      try casesm* _ ∨ _
    all_goals
      obtain ⟨hm, hd⟩ := h
      first
      | (unfold_calendars; simp [hm, hd]; done)
      | (unfold_calendars; simp [hm, hd]; omega)

/-- Christmas Day of 1901 and of 2199 in the United Kingdom, and 1 January of the year 10 in Japan. -/
example : (12, 25) ∈ FixedHolidays (.unitedKingdom none) ∧ UsesEaster (.unitedKingdom none) = true ∧
    Closed (Shipped.unitedKingdom none).calendar ⟨2199, 12, 25, by decide⟩ ∧
    (1, 1) ∈ FixedHolidays .japan ∧ Closed (Shipped.japan).calendar ⟨10, 1, 1, by decide⟩ := by
  unfold Closed; decide +kernel

/-- **C31.** Each listed offset from Easter Sunday (the computus) is closed in every year 1901..2199. -/
theorem C31_easter_holidays_closed (s : Shipped) (d : Date) (k : Int) (hk : k ∈ EasterHolidays s)
    (h : DaysFromEaster d k) (h1 : 1901 ≤ d.year) (h2 : d.year ≤ 2199) : Closed s.calendar d := by
  unfold Closed
  obtain ⟨em, he⟩ := easterMonday_total h1 h2
  have hem := easterMonday_row he
  cases s
  cases_market
  all_goals
    simp only [EasterHolidays, List.mem_cons, List.not_mem_nil, or_false] at hk
  all_goals
    try casesm* _ ∨ _
  all_goals
    subst hk
    have hoff := (easter_offset he h2 rfl (by omega) (by omega)).2 h
    first
    | (have hd : NaiveDate.ordinal d = em := by omega
       unfold_calendars; simp [he, hd]; done)
    | (have hd : NaiveDate.ordinal d = em - 49 := by omega
       unfold_calendars; simp [he, hd]; done)
    | (have hd : NaiveDate.ordinal d = em - 48 := by omega
       unfold_calendars; simp [he, hd]; done)
    | (have hd : NaiveDate.ordinal d = em - 4 := by omega
       unfold_calendars; simp [he, hd]; done)
    | (have hd : NaiveDate.ordinal d = em - 3 := by omega
       unfold_calendars; simp [he, hd]; done)
    | (have hd : NaiveDate.ordinal d = em - 2 := by omega
       unfold_calendars; simp [he, hd]; done)
    | (have hd : NaiveDate.ordinal d = em + 38 := by omega
       unfold_calendars; simp [he, hd]; done)
    | (have hd : NaiveDate.ordinal d = em + 49 := by omega
       unfold_calendars; simp [he, hd]; done)
    | (have hd : NaiveDate.ordinal d = em + 59 := by omega
       unfold_calendars; simp [he, hd]; done)
    | (have hd : NaiveDate.ordinal d = em + 49 := by omega
       unfold_calendars; simp [he, hd, ite_ok]; done)

/-- Good Friday, 7 April 2023, is such a date for New York. -/
example : -2 ∈ EasterHolidays (.unitedStates (some .NYSE)) ∧ DaysFromEaster ⟨2023, 4, 7, by decide⟩ (-2) ∧
    Closed (Shipped.unitedStates (some .NYSE)).calendar ⟨2023, 4, 7, by decide⟩ := by
  refine ⟨by decide, ?_, by unfold Closed; decide +kernel⟩
  exact (easter_offset (y := 2023) (em := 100) (by decide) (by decide) (d := ⟨2023, 4, 7, by decide⟩) rfl
    (by omega) (by omega)).1 (by decide)

end Qlab.Props
