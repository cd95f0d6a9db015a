import Verif.Lemmas.Holidays
import Verif.Lemmas.UnfoldCalendars
import Verif.Spec.HolidayTables
import Mathlib.Tactic.IntervalCases

/-!
# Tactics for the holiday rules of the shipped calendars

`exact_calendar` proves `Closed s.calendar d ↔ RestDay s d ∨ HolidayOn (holidays s) d`: it unfolds both sides to
conditions on year, month, day, weekday and distance from Easter, splits on the month and the weekday, and
leaves the arithmetic to `grind`.
-/

namespace Qlab

open Spec

theorem isWeekend_eq (d : NaiveDate) : isWeekend d = (d.weekday == .Sat || d.weekday == .Sun) := by
  unfold isWeekend; cases d.weekday <;> rfl

namespace HolidayTactics

theorem monthLen_le_true (l : Bool) (m : Nat) : monthLen l m ≤ monthLen true m := by
  unfold monthLen; split <;> cases l <;> simp

theorem exists_nil {p : Holiday → Prop} : (∃ h ∈ ([] : List Holiday), p h) ↔ False := by simp

theorem exists_cons {p : Holiday → Prop} {a : Holiday} {l : List Holiday} :
    (∃ h ∈ a :: l, p h) ↔ p a ∨ ∃ h ∈ l, p h := by simp

theorem ite_false' {p : Prop} [Decidable p] {x : Rust Bool} :
    ((if p then Rust.ok false else x) = Rust.ok false) ↔ p ∨ x = Rust.ok false := by
  by_cases p <;> simp [*]

theorem ite_true' {p : Prop} [Decidable p] {x : Rust Bool} :
    ((if p then Rust.ok true else x) = Rust.ok false) ↔ ¬ p ∧ x = Rust.ok false := by
  by_cases p <;> simp [*]

theorem ite_bind {p : Prop} [Decidable p] {a b : Bool} {f : Bool → Rust Bool} :
    ((if p then Rust.ok a else Rust.ok b) >>= f) = if p then f a else f b := by
  by_cases p <;> simp [*]

theorem ok_false {b : Bool} : (Rust.ok b = Rust.ok false) ↔ b = false := by cases b <;> simp

theorem bite_true {p : Prop} [Decidable p] {b c : Bool} :
    ((if p then b else c) = true) ↔ (p ∧ b = true) ∨ (¬ p ∧ c = true) := by by_cases p <;> simp [*]

theorem bite_false {p : Prop} [Decidable p] {b c : Bool} :
    ((if p then b else c) = false) ↔ (p ∧ b = false) ∨ (¬ p ∧ c = false) := by by_cases p <;> simp [*]

end HolidayTactics

open HolidayTactics

set_option hygiene false in
/-- Unfold the tables of holidays. -/
macro "unfold_holidays" : tactic => `(tactic| simp only [
  holidays, Holidays.argentina, Holidays.australiaShared, Holidays.australia, Holidays.austria,
  Holidays.botswana, Holidays.brazil, Holidays.canadaShared, Holidays.canada, Holidays.chile,
  Holidays.china, Holidays.czechRepublic, Holidays.denmark, Holidays.finland, Holidays.france,
  Holidays.frankfurt, Holidays.germany, Holidays.hongKong, Holidays.hungary, Holidays.iceland,
  Holidays.india, Holidays.indonesia, Holidays.israel, Holidays.italy, Holidays.lateVernalEquinox,
  Holidays.earlyAutumnalEquinox, Holidays.japanSpring, Holidays.japanSummer,
  Holidays.japanAutumn, Holidays.japan, Holidays.mexico, Holidays.newZealand, Holidays.norway,
  Holidays.poland, Holidays.romania, Holidays.russia, Holidays.singapore, Holidays.slovakia,
  Holidays.southAfrica, Holidays.southKorea, Holidays.sweden, Holidays.switzerland, Holidays.taiwan,
  Holidays.target, Holidays.thailand, Holidays.turkey, Holidays.ukraine, Holidays.unitedKingdom,
  Holidays.memorialAndLaborDay, Holidays.usCommon, Holidays.juneteenth, Holidays.veteransDay, Holidays.usSettlement,
  Holidays.usGovernmentBond, Holidays.unitedStates, Closings.china, Closings.hongKong, Closings.india,
  Closings.indonesia, Closings.israel, Closings.singapore, Closings.southKorea, Closings.taiwan,
  Closings.thailand, Closings.turkey, Closings.newZealand, Holiday.orMonday, Holiday.sundayToMonday,
  Holiday.nearestWeekday, Holiday.orTwoDaysLater, Holiday.between,
  List.cons_append, List.nil_append, List.map, exists_cons, exists_nil, or_false])

/-- The conditions on Easter, as the code writes them (`em` is the ordinal of Easter Monday). -/
theorem HolidayTactics.easter_eqs {o em : Nat} (h : 83 ≤ em) :
    (((o : Int) = (em : Int) - 1 + -48) = (o = em - 49)) ∧ (((o : Int) = (em : Int) - 1 + -47) = (o = em - 48)) ∧
    (((o : Int) = (em : Int) - 1 + -3) = (o = em - 4)) ∧ (((o : Int) = (em : Int) - 1 + -2) = (o = em - 3)) ∧
    (((o : Int) = (em : Int) - 1 + -1) = (o = em - 2)) ∧ (((o : Int) = (em : Int) - 1 + 1) = (o = em)) ∧
    (((o : Int) = (em : Int) - 1 + 26) = (o = em + 25)) ∧ (((o : Int) = (em : Int) - 1 + 39) = (o = em + 38)) ∧
    (((o : Int) = (em : Int) - 1 + 40) = (o = em + 39)) ∧ (((o : Int) = (em : Int) - 1 + 50) = (o = em + 49)) ∧
    (((o : Int) = (em : Int) - 1 + 60) = (o = em + 59)) := by
  refine ⟨?_, ?_, ?_, ?_, ?_, ?_, ?_, ?_, ?_, ?_, ?_⟩ <;> exact propext (by omega)

set_option hygiene false in
/-- Close a goal about year `y`, month `m`, day `d`, weekday `w`, ordinal `o`. -/
macro "calendar_cases" : tactic => `(tactic| (
  cases w <;> simp only [reduceCtorEq, false_or, or_false, true_or, or_true, false_and, and_false, true_and, and_true, not_true_eq_false, not_false_eq_true]
  all_goals
    rcases month_cases hm1 hm2 with h | h | h | h | h | h | h | h | h | h | h | h <;> clear hm1 hm2 <;> subst h <;>
    simp only [monthLen] at hd2 <;>
    simp only [Nat.reduceEqDiff, false_or, or_false, true_or, or_true, false_and, and_false, true_and, and_true] <;> grind))

set_option hygiene false in
/-- Split on the month. -/
macro "month_cases" : tactic => `(tactic| (
    rcases month_cases hm1 hm2 with h | h | h | h | h | h | h | h | h | h | h | h <;> clear hm1 hm2 <;> subst h <;>
    simp only [monthLen] at hd2 <;>
    simp only [Nat.reduceEqDiff, false_or, or_false, true_or, or_true, false_and, and_false, true_and, and_true] <;> grind (splits := 40)))

set_option hygiene false in
/-- As `calendar_cases`, with a split on the year. -/
macro "table_cases" lo:num hi:num : tactic => `(tactic| (
  by_cases hlo : y < $lo
  · have hne : ∀ k : Int, $lo ≤ k → (y = k) = False := fun k hk => eq_false (by omega)
    simp only [hne, Int.reduceLE, Int.reduceLT, false_or, or_false, true_or, or_true, false_and, and_false, true_and, and_true, not_true_eq_false, not_false_eq_true] <;>
    month_cases
  · by_cases hhi : $hi < y
    · have hne : ∀ k : Int, k ≤ $hi → (y = k) = False := fun k hk => eq_false (by omega)
      simp only [hne, Int.reduceLE, Int.reduceLT, false_or, or_false, true_or, or_true, false_and, and_false, true_and, and_true, not_true_eq_false, not_false_eq_true] <;>
      month_cases
    · rw [Int.not_lt] at hlo hhi
      interval_cases y <;>
      simp only [Int.reduceEq, Int.reduceLE, Int.reduceLT, false_or, or_false, true_or, or_true, false_and, and_false, true_and, and_true, not_true_eq_false, not_false_eq_true] <;>
      month_cases))

set_option hygiene false in
/-- Turns `Closed s.calendar d ↔ RestDay s d ∨ HolidayOn (holidays s) d` into a statement about year, month, day,
weekday and day of year, for a calendar that looks Easter up; needs `h1 : 1901 ≤ d.year` and
`h2 : d.year ≤ 2199`. -/
macro "easter_setup" : tactic => `(tactic| (
  obtain ⟨em, he⟩ := easterMonday_total h1 h2
  obtain ⟨om, ho⟩ := orthodoxEasterMonday_total h1 h2
  have hr := (easterMonday_row he).2.2.2.1
  have hro := (orthodoxEasterMonday_row ho).2.2.2.1
  rw [holidayOn_iff (by decide +kernel) he ho h2]
  unfold Closed
  unfold_calendars
  simp only [he, ho, isWeekend_eq, RestDay, IsSaturdayOrSunday, Rust.ok_bind]
  clear he ho
  have hm1 := NaiveDate.month_pos d
  have hm2 := NaiveDate.month_le d
  have hd1 := NaiveDate.day_pos d
  have hd2 : d.day ≤ monthLen true d.month := Nat.le_trans (NaiveDate.day_le d) (HolidayTactics.monthLen_le_true _ _)
  generalize d.weekday = w at *
  generalize d.ordinal = o at *
  generalize d.year = y at *
  generalize d.month = m at *
  generalize d.day = d at *
  obtain ⟨e1, e2, e3, e4, e5, e6, e7, e8, e9, e10, e11⟩ := HolidayTactics.easter_eqs (o := o) hr
  obtain ⟨o1, o2, o3, o4, o5, o6, o7, o8, o9, o10, o11⟩ := HolidayTactics.easter_eqs (o := o) (Nat.le_trans (by decide : 83 ≤ 95) hro)
  unfold_holidays
  simp only [Holiday.test, e1, e2, e3, e4, e5, e6, e7, e8, e9, e10, e11, o1, o2, o3, o4, o5, o6, o7, o8, o9, o10, o11]
  clear e1 e2 e3 e4 e5 e6 e7 e8 e9 e10 e11 o1 o2 o3 o4 o5 o6 o7 o8 o9 o10 o11 hr hro
  simp only [ite_false', ite_true', ite_bind, ok_false, bite_true, bite_false]
  simp [landing, Weekday.shift, monthLen, Weekday.fromMonday, Weekday.ofMonday]))

set_option hygiene false in
/-- As `easter_setup`, for a calendar that does not look Easter up. -/
macro "fixed_setup" : tactic => `(tactic| (
  rw [holidayOn_iff' (by decide +kernel) (by decide +kernel)]
  unfold Closed
  unfold_calendars
  simp only [isWeekend_eq, RestDay, IsSaturdayOrSunday, Rust.ok_bind]
  have hm1 := NaiveDate.month_pos d
  have hm2 := NaiveDate.month_le d
  have hd1 := NaiveDate.day_pos d
  have hd2 : d.day ≤ monthLen true d.month := Nat.le_trans (NaiveDate.day_le d) (HolidayTactics.monthLen_le_true _ _)
  generalize d.weekday = w at *
  generalize d.ordinal = o at *
  generalize d.year = y at *
  generalize d.month = m at *
  generalize d.day = d at *
  unfold_holidays
  simp only [Holiday.test]
  simp only [ite_false', ite_true', ite_bind, ok_false, bite_true, bite_false]
  simp [landing, Weekday.shift, monthLen, Weekday.fromMonday, Weekday.ofMonday]))

/-- `Closed s.calendar d ↔ RestDay s d ∨ HolidayOn (holidays s) d` for a calendar that looks Easter up. -/
macro "exact_easter_calendar" : tactic => `(tactic| (easter_setup; calendar_cases))

/-- As `exact_easter_calendar`, for a calendar with a table of closings in the years from `lo` to `hi`. -/
macro "exact_easter_table" lo:num hi:num : tactic => `(tactic| (easter_setup; table_cases $lo $hi))

/-- As `exact_easter_calendar`, for a calendar that does not look Easter up. -/
macro "exact_calendar" : tactic => `(tactic| (fixed_setup; calendar_cases))

/-- As `exact_calendar`, for a calendar with a table of closings in the years from `lo` to `hi`. -/
macro "exact_table" lo:num hi:num : tactic => `(tactic| (fixed_setup; table_cases $lo $hi))

end Qlab
