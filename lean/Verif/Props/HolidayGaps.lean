import Verif.Lemmas.HolidayTactics

/-!
# Announced holidays the calendars miss (C67, C68)

The comments in `france.rs` and `unitedstates.rs` announce movable holidays that the code puts on other days.
-/

set_option maxRecDepth 8000
set_option maxHeartbeats 1000000

namespace Qlab.Props

open Spec

/-- **C67**, violated: the French settlement calendar is open on Ascension Day (18 May 2023) and on Whit Monday
(29 May 2023), which its comments announce as holidays. -/
theorem C67_refuted :
    (∃ d : Date, IsAscension d ∧ Open (Shipped.france none).calendar d) ∧
    (∃ d : Date, IsWhitMonday d ∧ Open (Shipped.france none).calendar d) := by
  have he : easterMonday 2023 = .ok 100 := by decide
  refine ⟨⟨⟨2023, 5, 18, by decide⟩, ?_, by unfold Open; decide +kernel⟩,
    ⟨⟨2023, 5, 29, by decide⟩, ?_, by unfold Open; decide +kernel⟩⟩
  · exact (easter_offset he (by decide) rfl (by omega) (by omega)).1 (by decide)
  · exact (easter_offset he (by decide) rfl (by omega) (by omega)).1 (by decide)

/-- **C67**, what the French settlement calendar does on Ascension Day: it is closed exactly when Ascension falls
on 1, 8, 10 or 21 May.  Missing for the full property: closing on every other Ascension Day. -/
theorem C67_ascension_partial (mk : Option FranceMarket) (hmk : mk ≠ some .Exchange) (d : Date)
    (h1 : 1901 ≤ d.year) (h2 : d.year ≤ 2199) (h : IsAscension d) :
    Closed (Shipped.france mk).calendar d ↔ d.month = 5 ∧ (d.day = 1 ∨ d.day = 8 ∨ d.day = 10 ∨ d.day = 21) := by
  obtain ⟨em, he⟩ := easterMonday_total h1 h2
  have ho := (easter_offset he h2 rfl (by omega) (by omega)).2 h
  have hw : d.weekday = .Thu := weekday_of_easter h
  obtain ⟨-, -, -, r1, r2⟩ := easterMonday_row he
  have hm1 := NaiveDate.month_pos d
  have hm2 := NaiveDate.month_le d
  have hd := NaiveDate.day_le d
  have hord : d.ordinal = daysBeforeMonth (isLeap d.year) d.month + d.day := rfl
  have key : Closed (Shipped.france mk).calendar d ↔
      France.settlementIsBusinessDay d = .ok false := by
    rcases mk with _ | mk
    · rfl
    · cases mk
      · rfl
      · exact absurd rfl hmk
  rw [key]
  simp only [France.settlementIsBusinessDay, he, isWeekend_eq, hw, Rust.ok_bind]
  generalize isLeap d.year = l at *
  generalize d.ordinal = o at *
  generalize d.month = m at *
  generalize d.day = dd at *
  simp only [HolidayTactics.ite_false', HolidayTactics.ite_true', HolidayTactics.ok_false]
  rcases month_cases hm1 hm2 with h | h | h | h | h | h | h | h | h | h | h | h <;> subst h <;>
    cases l <;> simp [daysBeforeMonth, monthLen] at * <;> omega

/-- Ascension Day 2023 was 18 May: not one of the closed dates. -/
example : ¬ Closed (Shipped.france none).calendar ⟨2023, 5, 18, by decide⟩ := by
  rw [C67_ascension_partial none (by decide) _ (by decide) (by decide) ?_]
  · decide
  · exact ⟨⟨2023, 4, 9, by decide⟩, ⟨by decide, ⟨2023, 3, 1, by decide⟩, by decide⟩, by decide⟩

/-- **C67**, what the French settlement calendar does on Whit Monday: it is closed exactly when Whit Monday falls
on 10 or 21 May.  Missing for the full property: closing on every other Whit Monday. -/
theorem C67_whit_monday_partial (mk : Option FranceMarket) (hmk : mk ≠ some .Exchange) (d : Date)
    (h1 : 1901 ≤ d.year) (h2 : d.year ≤ 2199) (h : IsWhitMonday d) :
    Closed (Shipped.france mk).calendar d ↔ d.month = 5 ∧ (d.day = 10 ∨ d.day = 21) := by
  obtain ⟨em, he⟩ := easterMonday_total h1 h2
  have ho := (easter_offset he h2 rfl (by omega) (by omega)).2 h
  have hw : d.weekday = .Mon := weekday_of_easter h
  obtain ⟨-, -, -, r1, r2⟩ := easterMonday_row he
  have hm1 := NaiveDate.month_pos d
  have hm2 := NaiveDate.month_le d
  have hd := NaiveDate.day_le d
  have hord : d.ordinal = daysBeforeMonth (isLeap d.year) d.month + d.day := rfl
  have key : Closed (Shipped.france mk).calendar d ↔
      France.settlementIsBusinessDay d = .ok false := by
    rcases mk with _ | mk
    · rfl
    · cases mk
      · rfl
      · exact absurd rfl hmk
  rw [key]
  simp only [France.settlementIsBusinessDay, he, isWeekend_eq, hw, Rust.ok_bind]
  generalize isLeap d.year = l at *
  generalize d.ordinal = o at *
  generalize d.month = m at *
  generalize d.day = dd at *
  simp only [HolidayTactics.ite_false', HolidayTactics.ite_true', HolidayTactics.ok_false]
  rcases month_cases hm1 hm2 with h | h | h | h | h | h | h | h | h | h | h | h <;> subst h <;>
    cases l <;> simp [daysBeforeMonth, monthLen] at * <;> omega

/-- Ascension Day fell on 10 May in 2018 and Whit Monday on 21 May in 2018. -/
example : IsAscension ⟨2018, 5, 10, by decide⟩ ∧ IsWhitMonday ⟨2018, 5, 21, by decide⟩ ∧
    Closed (Shipped.france none).calendar ⟨2018, 5, 10, by decide⟩ := by
  have he : easterMonday 2018 = .ok 92 := by decide
  refine ⟨(easter_offset he (by decide) rfl (by omega) (by omega)).1 (by decide),
    (easter_offset he (by decide) rfl (by omega) (by omega)).1 (by decide), by unfold Closed; decide +kernel⟩

/-- **C68**, violated: the New York Stock Exchange calendar is open on the election day 8 November 1960, and
closed on the Tuesday before, which was not an election day. -/
theorem C68_refuted :
    (∃ d : Date, IsElectionDay d ∧ d.year = 1960 ∧ Open (Shipped.unitedStates (some .NYSE)).calendar d) ∧
    (∃ d : Date, ¬ IsElectionDay d ∧ d.year = 1960 ∧ d.month = 11 ∧ d.day = 1 ∧
      Closed (Shipped.unitedStates (some .NYSE)).calendar d) := by
  refine ⟨⟨⟨1960, 11, 8, by decide⟩, (electionDay_iff _).2 (by decide), rfl, by unfold Open; decide +kernel⟩,
    ⟨⟨1960, 11, 1, by decide⟩, fun h => ?_, rfl, rfl, rfl, by unfold Closed; decide +kernel⟩⟩
  exact absurd ((electionDay_iff _).1 h).2.2.1 (by decide)

/-- **C68**, what the calendar does in the years up to 1968 and in 1972, 1976 and 1980: it closes on election day
exactly when that is not 8 November.  Missing for the full property: the years in which it is. -/
theorem C68_election_partial (d : Date) (h1 : 1901 ≤ d.year)
    (h2 : d.year ≤ 1968 ∨ d.year = 1972 ∨ d.year = 1976 ∨ d.year = 1980) (h : IsElectionDay d) :
    Closed (Shipped.unitedStates (some .NYSE)).calendar d ↔ d.day ≠ 8 := by
  obtain ⟨em, he⟩ := easterMonday_total h1 (by omega)
  obtain ⟨-, -, -, r1, r2⟩ := easterMonday_row he
  obtain ⟨hm, hw, a, b⟩ := (electionDay_iff d).1 h
  have hel := (election_years h1).2 h2
  have hord : d.ordinal = daysBeforeMonth (isLeap d.year) d.month + d.day := rfl
  rw [hm] at hord
  have hne : d.ordinal ≠ em - 3 := by
    generalize isLeap d.year = l at hord
    cases l <;> simp [daysBeforeMonth] at hord <;> omega
  unfold Closed
  unfold_calendars
  simp only [he, isWeekend_eq, hw, hm, Rust.ok_bind]
  simp only [HolidayTactics.ite_false', HolidayTactics.ite_true', HolidayTactics.ok_false]
  generalize d.year = y at *
  generalize d.day = dd at *
  simp [hne, hel]
  omega

/-- 5 November 1968 was an election day and is closed. -/
example : IsElectionDay ⟨1968, 11, 5, by decide⟩ ∧
    Closed (Shipped.unitedStates (some .NYSE)).calendar ⟨1968, 11, 5, by decide⟩ :=
  ⟨(electionDay_iff _).2 (by decide), by unfold Closed; decide +kernel⟩

end Qlab.Props
