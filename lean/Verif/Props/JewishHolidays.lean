import Verif.Props.HolidaysSouthAsia
import Verif.Spec.Hebrew

/-!
# The Israeli calendar and the Hebrew calendar (C123)

`israel.rs` lists the holidays of 2013 to 2044 by their dates.  `Verif/Spec/Hebrew.lean` computes them.
-/

set_option maxRecDepth 8000

namespace Qlab.Props

open Spec

/-! ## The Hebrew calendar -/

/-- Support for C123: a leap year has thirteen months, another year twelve. -/
theorem C123_months (h : Int) :
    Hebrew.monthsBefore (h + 1) = Hebrew.monthsBefore h + if Hebrew.IsLeap h then 13 else 12 := by
  have h1 : Hebrew.monthsBefore (h + 1) = 12 * h + (7 * h + 1) / 19 := by
    unfold Hebrew.monthsBefore
    rw [show 235 * (h + 1) - 234 = (7 * h + 1) + 19 * (12 * h) by omega, Int.add_mul_ediv_left _ _ (by decide)]
    omega
  have h2 : Hebrew.monthsBefore h = 12 * h - 12 + (7 * h + 1 - 7) / 19 := by
    unfold Hebrew.monthsBefore
    rw [show 235 * h - 234 = (7 * h + 1 - 7) + 19 * (12 * h - 12) by omega, Int.add_mul_ediv_left _ _ (by decide)]
    omega
  rw [h1, h2]
  by_cases hl : Hebrew.IsLeap h
  · rw [if_pos hl]; unfold Hebrew.IsLeap at hl; generalize 7 * h + 1 = k at hl ⊢; omega
  · rw [if_neg hl]; unfold Hebrew.IsLeap at hl; generalize 7 * h + 1 = k at hl ⊢; omega

/-- Support for C123: the new year is never on a Sunday, a Wednesday or a Friday. -/
theorem C123_new_year_weekday (h : Int) :
    Hebrew.newYear h % 7 = 1 ∨ Hebrew.newYear h % 7 = 2 ∨ Hebrew.newYear h % 7 = 4 ∨ Hebrew.newYear h % 7 = 6 := by
  unfold Hebrew.newYear Hebrew.avoidSundayWednesdayFriday
  generalize Hebrew.molad h / 25920 + (if Hebrew.IsPostponed h then 1 else 0) = day
  split <;> omega

/-- The new year 5784 was on Saturday, 16 September 2023. -/
example : Hebrew.newYear 5784 = Date.serialDate ⟨2023, 9, 16, by decide⟩ := by decide

/-! ## The tables agree -/

namespace JewishHolidays

/-- The single days listed for year `y`. -/
def listed (y : Int) : List Holiday → List (Nat × Nat)
  | [] => []
  | .dates z l :: r => if z = y then l ++ listed y r else listed y r
  | _ :: r => listed y r

/-- Only single days. -/
def onlyDates : List Holiday → Bool
  | [] => true
  | .dates _ _ :: r => onlyDates r
  | _ :: _ => false

theorem holidayOn_listed (x : Date) : ∀ l : List Holiday, onlyDates l = true →
    (HolidayOn l x ↔ (x.month, x.day) ∈ listed x.year l)
  | [], _ => by simp [HolidayOn, listed]
  | .dates z l :: r, h => by
    have ih := holidayOn_listed x r h
    unfold HolidayOn at ih ⊢
    rw [HolidayTactics.exists_cons, ih]
    by_cases hz : z = x.year
    · simp [listed, hz, Holiday.Falls]
    · simp only [listed, hz, Holiday.Falls, if_false, or_iff_right_iff_imp]
      exact fun h => absurd h.1.symm hz

/-- Day of the year. -/
def ord (y : Int) (p : Nat × Nat) : Nat := daysBeforeMonth (isLeap y) p.1 + p.2

/-- All holidays of the year. -/
def all (y : Int) : List Int :=
  Hebrew.holidays y ++ if y ≤ 2020 then Hebrew.furtherEves y else []

/-- A Friday or a Saturday. -/
def rest (n : Int) : Bool := n % 7 == 5 || n % 7 == 6

/-- The dates `l` listed for year `y` are days of that year, and they are the holidays, up to Fridays and Saturdays
and the two days of 2038. -/
def agree (y : Int) (l : List (Nat × Nat)) : Bool :=
  l.all (fun p => decide (IsValid y p.1 p.2)) &&
  l.all (fun p => rest (daysBeforeYear y + ord y p) || (all y).contains (daysBeforeYear y + ord y p) ||
    (y == 2038 && p == (5, 9))) &&
  (all y).all (fun n => rest n || l.any (fun p => daysBeforeYear y + ord y p == n) ||
    (y == 2038 && n == daysBeforeYear y + ord y (5, 11)))

theorem agree_all : ((List.range 32).all fun i =>
    agree (2013 + (i : Nat)) (listed (2013 + (i : Nat)) Closings.israel)) = true := by decide +kernel

theorem agree_year {y : Int} (h1 : 2013 ≤ y) (h2 : y ≤ 2044) : agree y (listed y Closings.israel) = true := by
  have h := List.all_eq_true.1 agree_all (y - 2013).toNat (List.mem_range.2 (by omega))
  rwa [show (2013 + ((y - 2013).toNat : Int)) = y by omega] at h

theorem outside {y : Int} (h : y < 2013 ∨ 2044 < y) : listed y Closings.israel = [] := by
  unfold Closings.israel
  simp only [listed]
  repeat rw [if_neg (by omega)]

theorem rest_iff (d : Date) : rest (Date.serialDate d) = true ↔ d.weekday = .Fri ∨ d.weekday = .Sat := by
  have h := weekday_fromMonday d
  have hs : Date.serialDate d = d.numDaysFromCe := rfl
  unfold rest
  rw [hs]
  cases hw : NaiveDate.weekday d <;> rw [hw] at h <;> simp [Weekday.fromMonday] at h ⊢ <;> omega

theorem mem_all (d : Date) : Date.serialDate d ∈ all d.year ↔ Hebrew.IsHoliday d := by
  unfold all Hebrew.IsHoliday
  split <;> simp [*]

end JewishHolidays

open JewishHolidays

theorem israel_closed_iff (d : Date) : Closed Shipped.israel.calendar d ↔
    (d.weekday = .Fri ∨ d.weekday = .Sat) ∨ (d.month, d.day) ∈ listed d.year Closings.israel := by
  rw [C66_israel, show holidays .israel = Closings.israel from rfl, holidayOn_listed d _ (by decide +kernel)]
  rfl

/-- **C123**, violated: Independence Day 2038 is Tuesday 11 May, because 5 Iyar is a Monday.  The calendar is open
on it, and closed on Sunday 9 May, which is no holiday. -/
theorem C123_refuted :
    (∃ d : Date, 2013 ≤ d.year ∧ d.year ≤ 2044 ∧ Date.serialDate d = Hebrew.independenceDay d.year ∧
      Open Shipped.israel.calendar d) ∧
    (∃ d : Date, 2013 ≤ d.year ∧ d.year ≤ 2044 ∧ d.weekday = .Sun ∧ ¬ Hebrew.IsHoliday d ∧
      Closed Shipped.israel.calendar d) := by
  refine ⟨⟨⟨2038, 5, 11, by decide⟩, by decide, by decide, by decide, by unfold Open; decide +kernel⟩,
    ⟨⟨2038, 5, 9, by decide⟩, by decide, by decide, by decide, by decide, by unfold Closed; decide +kernel⟩⟩

/-- **C123**, from 2013 to 2044: the calendar is closed exactly on Fridays, Saturdays and the holidays of the Hebrew
calendar.  Missing for the full property: 9 and 11 May 2038. -/
theorem C123_israel_partial (d : Date) (h1 : 2013 ≤ d.year) (h2 : d.year ≤ 2044)
    (hx : ¬ (d.year = 2038 ∧ d.month = 5 ∧ (d.day = 9 ∨ d.day = 11))) :
    Closed Shipped.israel.calendar d ↔ d.weekday = .Fri ∨ d.weekday = .Sat ∨ Hebrew.IsHoliday d := by
  have ha := agree_year h1 h2
  unfold agree at ha
  simp only [Bool.and_eq_true, List.all_eq_true, Bool.or_eq_true] at ha
  obtain ⟨⟨v, a⟩, b⟩ := ha
  have hser : Date.serialDate d = daysBeforeYear d.year + ord d.year (d.month, d.day) := rfl
  rw [israel_closed_iff, ← or_assoc, ← rest_iff, ← mem_all]
  by_cases hr : rest (Date.serialDate d) = true
  · simp [hr]
  simp only [hr, Bool.false_eq_true, false_or]
  constructor
  · intro hm
    rcases a _ hm with (h | h) | ⟨h, h'⟩
    · exact absurd (hser ▸ h) hr
    · rw [hser]; exact List.contains_iff_mem.1 h
    · exact absurd ⟨by simpa using h, by simp_all⟩ hx
  · intro hm
    rcases b _ hm with (h | h) | ⟨h, h'⟩
    · exact absurd h hr
    · obtain ⟨p, hp, he⟩ := List.any_eq_true.1 h
      have hv : IsValid d.year p.1 p.2 := of_decide_eq_true (v p hp)
      have : (⟨d.year, p.1, p.2, hv⟩ : NaiveDate) = d := NaiveDate.serial_inj (eq_of_beq he)
      rw [← this]; exact hp
    · have hy : d.year = 2038 := by simpa using h
      have hv : IsValid d.year 5 11 := by rw [hy]; decide
      have : (⟨d.year, 5, 11, hv⟩ : NaiveDate) = d := NaiveDate.serial_inj (eq_of_beq h').symm
      exact absurd ⟨hy, by rw [← this], by rw [← this]; exact .inr rfl⟩ hx

/-- Yom Kippur 2023 was on Monday, 25 September, and its date is not listed by the theorem's exceptions. -/
example : Closed Shipped.israel.calendar ⟨2023, 9, 25, by decide⟩ :=
  (C123_israel_partial ⟨2023, 9, 25, by decide⟩ (by decide) (by decide) (by decide)).2 (.inr (.inr (by decide)))

/-- Wednesday, 5 April 2023, the day before Passover: open, because the further eves count up to 2020 only. -/
example : ¬ Closed Shipped.israel.calendar ⟨2023, 4, 5, by decide⟩ := fun h =>
  absurd ((C123_israel_partial ⟨2023, 4, 5, by decide⟩ (by decide) (by decide) (by decide)).1 h) (by decide)

/-- **C123**, outside of 2013 to 2044: only Fridays and Saturdays are closed, so no holiday is known. -/
theorem C123_outside_partial (d : Date) (h : d.year < 2013 ∨ 2044 < d.year) :
    Closed Shipped.israel.calendar d ↔ d.weekday = .Fri ∨ d.weekday = .Sat := by
  rw [israel_closed_iff, outside h]; simp

/-- Yom Kippur 2045 is on Thursday, 21 September, and open. -/
example : Date.serialDate ⟨2045, 9, 21, by decide⟩ = Hebrew.yomKippur 2045 ∧
    ¬ Closed Shipped.israel.calendar ⟨2045, 9, 21, by decide⟩ :=
  ⟨by decide, fun h => absurd ((C123_outside_partial ⟨2045, 9, 21, by decide⟩ (by decide)).1 h) (by decide)⟩

/-- **C123**: from 2013 to 2044 the calendar is closed on Yom Kippur and on the day before, every year. -/
theorem C123_yom_kippur (d : Date) (h1 : 2013 ≤ d.year) (h2 : d.year ≤ 2044)
    (hd : Date.serialDate d = Hebrew.yomKippur d.year ∨ Date.serialDate d = Hebrew.yomKippur d.year - 1) :
    Closed Shipped.israel.calendar d := by
  by_cases hx : d.year = 2038 ∧ d.month = 5 ∧ (d.day = 9 ∨ d.day = 11)
  · have hs : Date.serialDate d = daysBeforeYear d.year + ord d.year (d.month, d.day) := rfl
    rw [hs] at hd
    obtain ⟨e1, e2, e3 | e3⟩ := hx <;> rw [e1, e2, e3] at hd <;> exact absurd hd (by decide)
  · refine (C123_israel_partial d h1 h2 hx).2 (.inr (.inr (.inl ?_)))
    unfold Hebrew.holidays
    simp only [List.mem_cons]
    tauto

/-- The day before Yom Kippur 2026 is Sunday, 20 September, and closed. -/
example : Date.serialDate ⟨2026, 9, 20, by decide⟩ = Hebrew.yomKippur 2026 - 1 ∧
    Closed Shipped.israel.calendar ⟨2026, 9, 20, by decide⟩ :=
  ⟨by decide, C123_yom_kippur _ (by decide) (by decide) (.inr (by decide))⟩

end Qlab.Props
