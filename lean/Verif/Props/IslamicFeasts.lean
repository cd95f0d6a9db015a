import Verif.Lemmas.DateTable
import Verif.Props.HolidaysSouthAsia
import Verif.Spec.Islamic

/-!
# The feasts of the Islamic calendar in Turkey (C126)

`turkey.rs` lists the days of the two feasts from 2004 to 2034.  They are compared with the tabular calendar of
`Verif/Spec/Islamic.lean` for every date of these years.
-/

set_option maxRecDepth 8000

namespace Qlab.Props

open Spec

/-- Support for C126: a year has 354 or 355 days, and two feasts, 68 days apart. -/
theorem C126_year (h : Int) :
    (Islamic.day (h + 1) 1 1 - Islamic.day h 1 1 = 354 ∨ Islamic.day (h + 1) 1 1 - Islamic.day h 1 1 = 355) ∧
    Islamic.adha h - Islamic.fitr h = 68 := by
  unfold Islamic.adha Islamic.fitr Islamic.day; omega

/-- The year 1445 began on 19 July 2023. -/
example : Islamic.day 1445 1 1 = Date.serialDate ⟨2023, 7, 19, by decide⟩ := by decide

namespace IslamicFeasts

/-- The year of a feast on day `n`. -/
def yearOf (n : Int) : Int := 30 * (n - 227014) / 10631 + 1

theorem yearOf_fitr (h : Int) : yearOf (Islamic.fitr h) = h := by
  unfold yearOf Islamic.fitr Islamic.day; omega

theorem yearOf_adha (h : Int) : yearOf (Islamic.adha h) = h := by
  unfold yearOf Islamic.adha Islamic.day; omega

/-- `IsFeast` without a quantifier. -/
def isFeast (n : Int) : Bool := n == Islamic.fitr (yearOf n) || n == Islamic.adha (yearOf n)

theorem isFeast_of (d : Date) (h : Islamic.IsFeast d) : isFeast (Date.serialDate d) = true := by
  obtain ⟨y, h | h⟩ := h
  · unfold isFeast; rw [h, yearOf_fitr]; simp
  · unfold isFeast; rw [h, yearOf_adha]; simp

/-- `NearFeast` for the year found by `yearOf`. -/
def nearFeast (n : Int) : Bool :=
  (decide (Islamic.fitr (yearOf n) - 2 ≤ n) && decide (n ≤ Islamic.fitr (yearOf n) + 4)) ||
  (decide (Islamic.adha (yearOf n) - 2 ≤ n) && decide (n ≤ Islamic.adha (yearOf n) + 4))

theorem nearFeast_of (d : Date) (h : nearFeast (Date.serialDate d) = true) : Islamic.NearFeast d :=
  ⟨yearOf (Date.serialDate d), by simpa [nearFeast] using h⟩

/-- What is checked on each date. -/
def check (d : NaiveDate) : Bool :=
  let closed := decide (Shipped.turkey.calendar.isBusinessDay d = .ok false)
  let n := Date.serialDate d
  (!isFeast n || closed || [(2011, 8, 31), (2011, 11, 7), (2015, 9, 24)].contains (d.year, d.month, d.day)) &&
  (!closed || decide (d.weekday = .Sat) || decide (d.weekday = .Sun) || decide (Islamic.TurkishNationalDay d) ||
    nearFeast n || [(2013, 10, 28), (2015, 10, 26), (2015, 10, 27)].contains (d.year, d.month, d.day))

theorem checked : forDates 2004 31 check = true := by decide +kernel

end IslamicFeasts

open IslamicFeasts

/-- **C126**, violated: 31 August and 7 November 2011 and 24 September 2015 are first days of a feast.  The calendar
is open on them.  Monday, 26 October 2015 is closed, though it is neither a national day nor near a feast. -/
theorem C126_refuted :
    (∀ d : Date, (d.year, d.month, d.day) ∈ [((2011 : Int), 8, 31), (2011, 11, 7), (2015, 9, 24)] →
      Islamic.IsFeast d ∧ Open Shipped.turkey.calendar d) ∧
    (∃ d : Date, d.year = 2015 ∧ d.weekday = .Mon ∧ ¬ Islamic.TurkishNationalDay d ∧ ¬ Islamic.NearFeast d ∧
      Closed Shipped.turkey.calendar d) := by
  constructor
  · rintro ⟨y, m, d, hv⟩ h
    simp only [List.mem_cons, Prod.mk.injEq, List.not_mem_nil, or_false] at h
    rcases h with ⟨rfl, rfl, rfl⟩ | ⟨rfl, rfl, rfl⟩ | ⟨rfl, rfl, rfl⟩
    · exact ⟨⟨1432, .inl (by decide +revert)⟩, by unfold Open; decide +revert +kernel⟩
    · exact ⟨⟨1432, .inr (by decide +revert)⟩, by unfold Open; decide +revert +kernel⟩
    · exact ⟨⟨1436, .inr (by decide +revert)⟩, by unfold Open; decide +revert +kernel⟩
  · refine ⟨⟨2015, 10, 26, by decide⟩, rfl, by decide, by decide, ?_, by unfold Closed; decide +kernel⟩
    rintro ⟨h, hh⟩
    rw [show Date.serialDate ⟨2015, 10, 26, by decide⟩ = 735897 by decide] at hh
    unfold Islamic.fitr Islamic.adha Islamic.day at hh
    rcases (by omega : h ≤ 1436 ∨ 1437 ≤ h) with h' | h' <;> omega

/-- **C126**: from 2004 to 2034 the calendar of Turkey is closed on the first day of each feast.  Missing for the full
property: the three days of `C126_refuted`. -/
theorem C126_feasts_partial (d : Date) (h1 : 2004 ≤ d.year) (h2 : d.year ≤ 2034) (hf : Islamic.IsFeast d)
    (hx : (d.year, d.month, d.day) ∉ [((2011 : Int), 8, 31), (2011, 11, 7), (2015, 9, 24)]) :
    Closed Shipped.turkey.calendar d := by
  have h := forDates_date checked d h1 (by omega)
  unfold check at h
  have hi := isFeast_of d hf
  simp only [Bool.and_eq_true, Bool.or_eq_true] at h
  rcases h.1 with (h | h) | h
  · rw [hi] at h; exact absurd h (by decide)
  · exact of_decide_eq_true (p := Shipped.turkey.calendar.isBusinessDay d = .ok false) h
  · exact absurd (List.contains_iff_mem.1 h) hx

/-- Wednesday, 10 April 2024 was 1 Shawwal 1445. -/
example : Closed Shipped.turkey.calendar ⟨2024, 4, 10, by decide⟩ :=
  C126_feasts_partial ⟨2024, 4, 10, by decide⟩ (by decide) (by decide) ⟨1445, .inl (by decide)⟩ (by decide)

/-- **C126**: from 2004 to 2034 every closed day of Turkey is a Saturday or Sunday, a national day, or near a feast.
Missing for the full property: 28 October 2013, and 26 and 27 October 2015. -/
theorem C126_closings_partial (d : Date) (h1 : 2004 ≤ d.year) (h2 : d.year ≤ 2034)
    (hx : (d.year, d.month, d.day) ∉ [((2013 : Int), 10, 28), (2015, 10, 26), (2015, 10, 27)])
    (hc : Closed Shipped.turkey.calendar d) :
    d.weekday = .Sat ∨ d.weekday = .Sun ∨ Islamic.TurkishNationalDay d ∨ Islamic.NearFeast d := by
  have h := forDates_date checked d h1 (by omega)
  unfold check at h
  have hi : decide (Shipped.turkey.calendar.isBusinessDay d = .ok false) = true := decide_eq_true hc
  simp only [Bool.and_eq_true, Bool.or_eq_true] at h
  rcases h.2 with ((((h | h) | h) | h) | h) | h
  · rw [hi] at h; exact absurd h (by decide)
  · exact .inl (of_decide_eq_true h)
  · exact .inr (.inl (of_decide_eq_true h))
  · exact .inr (.inr (.inl (of_decide_eq_true h)))
  · exact .inr (.inr (.inr (nearFeast_of d h)))
  · exact absurd (List.contains_iff_mem.1 h) hx

/-- Friday, 12 April 2024, the third day of the feast. -/
example : Closed Shipped.turkey.calendar ⟨2024, 4, 12, by decide⟩ ∧
    Islamic.NearFeast ⟨2024, 4, 12, by decide⟩ :=
  ⟨by unfold Closed; decide +kernel, ⟨1445, .inl (by decide)⟩⟩

end Qlab.Props
