import Verif.Props.HolidaysEastAsia
import Verif.Spec.Equinox

/-!
# The equinox holidays of the Japanese calendar (C124)

`japan.rs` knows the days of the equinoxes from a short list of years.  Compared with `Verif/Spec/Equinox.lean` for
every day of March and September from 1980 to 2099, it is right except in `wrongMarches` and `wrongSeptembers`, and
in each of these years it is wrong.
-/

set_option maxRecDepth 8000

namespace Qlab.Props

open Spec

namespace Equinoxes

/-- Whether the calendar and the specification agree on a date, if there is one. -/
def agree (spec : Date → Bool) (y : Int) (m d : Nat) : Bool :=
  if h : IsValid y m d then
    decide (Shipped.japan.calendar.isBusinessDay ⟨y, m, d, h⟩ = .ok false) == spec ⟨y, m, d, h⟩
  else true

/-- All days of the month agree. -/
def agreeMonth (spec : Date → Bool) (m : Nat) (y : Int) : Bool := (List.range 31).all fun j => agree spec y m (j + 1)

theorem march : ((List.range 120).all fun i =>
    agreeMonth (fun d => decide (HolidayInMarch d)) 3 (1980 + (i : Nat)) != wrongMarches.contains (1980 + (i : Nat)))
    = true := by decide +kernel

theorem september : ((List.range 120).all fun i =>
    agreeMonth (fun d => decide (HolidayInSeptember d)) 9 (1980 + (i : Nat)) !=
      wrongSeptembers.contains (1980 + (i : Nat))) = true := by decide +kernel

theorem lift {f : Int → Bool} (h : ((List.range 120).all fun i => f (1980 + (i : Nat))) = true) {y : Int}
    (h1 : 1980 ≤ y) (h2 : y ≤ 2099) : f y = true := by
  have := List.all_eq_true.1 h (y - 1980).toNat (List.mem_range.2 (by omega))
  rwa [show (1980 + ((y - 1980).toNat : Int)) = y by omega] at this

theorem agree_date {P : Date → Prop} [DecidablePred P] {m : Nat} {d : Date} (hm : d.month = m)
    (h : agreeMonth (fun d => decide (P d)) m d.year = true) : Closed Shipped.japan.calendar d ↔ P d := by
  have hv := d.valid
  subst hm
  have hd : 1 ≤ d.day ∧ d.day ≤ 31 := by
    obtain ⟨-, -, -, -, a, b⟩ := hv
    refine ⟨a, b.trans ?_⟩
    unfold monthLen; split <;> (try split) <;> decide
  have := List.all_eq_true.1 h (d.day - 1) (List.mem_range.2 (by omega))
  rw [show d.day - 1 + 1 = d.day by omega] at this
  unfold agree at this
  rw [dif_pos hv] at this
  simpa [Closed] using this

theorem differ_date {P : Date → Prop} [DecidablePred P] {m : Nat} {y : Int}
    (h : agreeMonth (fun d => decide (P d)) m y = false) :
    ∃ d : Date, d.year = y ∧ d.month = m ∧ ¬ (Closed Shipped.japan.calendar d ↔ P d) := by
  obtain ⟨j, -, hj⟩ := List.all_eq_false.1 h
  unfold agree at hj
  split at hj
  case isTrue hv => exact ⟨⟨y, m, j + 1, hv⟩, rfl, rfl, by simpa [Closed] using hj⟩
  case isFalse => exact absurd rfl hj

end Equinoxes

open Equinoxes

/-- **C124**, violated: 21 March 2007, a Wednesday, is the vernal equinox, and 22 September 2016, a Thursday, the
autumnal one.  The calendar is open on both. -/
theorem C124_refuted :
    (∃ d : Date, d.month = 3 ∧ (d.day : Int) = vernalEquinox d.year ∧ 1980 ≤ d.year ∧ d.year ≤ 2099 ∧
      Open Shipped.japan.calendar d) ∧
    (∃ d : Date, d.month = 9 ∧ (d.day : Int) = autumnalEquinox d.year ∧ 1980 ≤ d.year ∧ d.year ≤ 2099 ∧
      Open Shipped.japan.calendar d) :=
  ⟨⟨⟨2007, 3, 21, by decide⟩, rfl, by decide, by decide, by decide, by unfold Open; decide +kernel⟩,
    ⟨⟨2016, 9, 22, by decide⟩, rfl, by decide, by decide, by decide, by unfold Open; decide +kernel⟩⟩

/-- **C124**, March: from 1980 to 2099 the closed days of March are Saturdays, Sundays and the vernal equinox with its
Monday.  Missing for the full property: the 24 years of `wrongMarches`. -/
theorem C124_march_partial (d : Date) (hm : d.month = 3) (h1 : 1980 ≤ d.year) (h2 : d.year ≤ 2099)
    (hw : d.year ∉ wrongMarches) : Closed Shipped.japan.calendar d ↔ HolidayInMarch d := by
  have h := lift (f := fun y => agreeMonth (fun d => decide (HolidayInMarch d)) 3 y != wrongMarches.contains y)
    march h1 h2
  refine agree_date hm ?_
  have hc : wrongMarches.contains d.year = false := by simpa using hw
  simpa only [hc, bne_iff_ne, ne_eq, Bool.not_eq_false] using h

/-- 20 March 2024 was a Wednesday. -/
example : Closed Shipped.japan.calendar ⟨2024, 3, 20, by decide⟩ ∧ ¬ Closed Shipped.japan.calendar ⟨2024, 3, 21, by decide⟩ :=
  ⟨(C124_march_partial ⟨2024, 3, 20, by decide⟩ rfl (by decide) (by decide) (by decide)).2 (by decide),
    fun h => absurd ((C124_march_partial ⟨2024, 3, 21, by decide⟩ rfl (by decide) (by decide) (by decide)).1 h) (by decide)⟩

/-- **C124**, September: from 1980 to 2099 the closed days of September are Saturdays, Sundays, Respect for the Aged
Day, the autumnal equinox with its Monday, and the Tuesday between them.  Missing for the full property: the 34 years
of `wrongSeptembers`. -/
theorem C124_september_partial (d : Date) (hm : d.month = 9) (h1 : 1980 ≤ d.year) (h2 : d.year ≤ 2099)
    (hw : d.year ∉ wrongSeptembers) : Closed Shipped.japan.calendar d ↔ HolidayInSeptember d := by
  have h := lift
    (f := fun y => agreeMonth (fun d => decide (HolidayInSeptember d)) 9 y != wrongSeptembers.contains y)
    september h1 h2
  refine agree_date hm ?_
  have hc : wrongSeptembers.contains d.year = false := by simpa using hw
  simpa only [hc, bne_iff_ne, ne_eq, Bool.not_eq_false] using h

/-- In 2015 the 21st was the third Monday, the 23rd the equinox and the 22nd the day between them. -/
example : Closed Shipped.japan.calendar ⟨2015, 9, 22, by decide⟩ ∧ ¬ Closed Shipped.japan.calendar ⟨2015, 9, 24, by decide⟩ :=
  ⟨(C124_september_partial ⟨2015, 9, 22, by decide⟩ rfl (by decide) (by decide) (by decide)).2 (by decide),
    fun h => absurd ((C124_september_partial ⟨2015, 9, 24, by decide⟩ rfl (by decide) (by decide) (by decide)).1 h)
      (by decide)⟩

/-- **C124**: the exceptions are exact.  In every excepted year some day of the month is wrong. -/
theorem C124_wrong_years :
    (∀ y ∈ wrongMarches, ∃ d : Date, d.year = y ∧ d.month = 3 ∧
      ¬ (Closed Shipped.japan.calendar d ↔ HolidayInMarch d)) ∧
    (∀ y ∈ wrongSeptembers, ∃ d : Date, d.year = y ∧ d.month = 9 ∧
      ¬ (Closed Shipped.japan.calendar d ↔ HolidayInSeptember d)) := by
  constructor
  · intro y hy
    have hr : ∀ y ∈ wrongMarches, 1980 ≤ y ∧ y ≤ 2099 := by decide
    have h := lift (f := fun y => agreeMonth (fun d => decide (HolidayInMarch d)) 3 y != wrongMarches.contains y)
      march (hr y hy).1 (hr y hy).2
    have hc : wrongMarches.contains y = true := List.contains_iff_mem.2 hy
    exact differ_date (by simpa only [hc, bne_iff_ne, ne_eq, Bool.not_eq_true] using h)
  · intro y hy
    have hr : ∀ y ∈ wrongSeptembers, 1980 ≤ y ∧ y ≤ 2099 := by decide
    have h := lift
      (f := fun y => agreeMonth (fun d => decide (HolidayInSeptember d)) 9 y != wrongSeptembers.contains y)
      september (hr y hy).1 (hr y hy).2
    have hc : wrongSeptembers.contains y = true := List.contains_iff_mem.2 hy
    exact differ_date (by simpa only [hc, bne_iff_ne, ne_eq, Bool.not_eq_true] using h)

end Qlab.Props
