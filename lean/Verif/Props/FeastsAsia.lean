import Verif.Props.IslamicFeasts
import Verif.Lemmas.Chrono

/-!
# The feasts of the Islamic calendar in Singapore, Indonesia and India (C133)

`singapore.rs`, `indonesia.rs` and `india.rs` list the two feasts year by year.  They are compared with the tabular
calendar of `Verif/Spec/Islamic.lean` for every date of these years.
-/

set_option maxRecDepth 8000

namespace Qlab.Props

open Spec

namespace FeastsAsia

/-- Closed on an existing date. -/
def shut (c : Calendar) : Option NaiveDate → Bool
  | some d => decide (c.isBusinessDay d = .ok false)
  | none => false

/-- What is checked on each date: the calendar is closed on a feast or the day before. -/
def before (c : Calendar) (skip : List Int) (d : NaiveDate) : Bool :=
  !IslamicFeasts.isFeast (Date.serialDate d) || shut c (some d) || shut c d.predOpt || skip.contains d.year

/-- What is checked on each date: the calendar is closed on a feast, the day before or the day after. -/
def around (c : Calendar) (skip : List Int) (d : NaiveDate) : Bool :=
  before c skip d || shut c d.succOpt || ((d.year, d.month, d.day) == (2021, 5, 13))

theorem closed_of_shut {c : Calendar} {o : Option NaiveDate} (h : shut c o = true) :
    ∃ e, o = some e ∧ Closed c e := by
  cases o with
  | none => simp [shut] at h
  | some e => exact ⟨e, rfl, of_decide_eq_true (p := c.isBusinessDay e = .ok false) h⟩

theorem near_of_before {c : Calendar} {skip : List Int} {d : Date} (hf : Islamic.IsFeast d)
    (hy : d.year ∉ skip) (h : before c skip d = true) : Islamic.ClosedNear c d 1 0 := by
  unfold before at h
  simp only [Bool.or_eq_true] at h
  rcases h with ((h | h) | h) | h
  · rw [IslamicFeasts.isFeast_of d hf] at h; exact absurd h (by decide)
  · obtain ⟨e, he, hc⟩ := closed_of_shut h
    cases he
    exact ⟨d, hc, by omega, by omega⟩
  · obtain ⟨e, he, hc⟩ := closed_of_shut h
    have := NaiveDate.predOpt_eq_some.1 he
    refine ⟨e, hc, ?_, ?_⟩ <;> simp only [Date.serialDate] <;> omega
  · exact absurd (List.contains_iff_mem.1 h) hy

theorem checkedSingapore :
    forDates 2004 20 (before Shipped.singapore.calendar [2011, 2015, 2016, 2017, 2018]) = true := by decide +kernel

theorem checkedIndonesia : forDates 2005 10 (before Shipped.indonesia.calendar []) = true := by decide +kernel

theorem checkedIndia :
    forDates 2005 21 (around Shipped.india.calendar [2015, 2016, 2017, 2018]) = true := by decide +kernel

/-- A date and its neighbours are open. -/
theorem not_near {c : Calendar} {p d n : Date} (hp : Date.serialDate p = Date.serialDate d - 1)
    (hn : Date.serialDate n = Date.serialDate d + 1) (h : Open c p ∧ Open c d ∧ Open c n) :
    ¬ Islamic.ClosedNear c d 1 1 := by
  rintro ⟨e, hc, h1, h2⟩
  have : e = p ∨ e = d ∨ e = n := by
    rcases (by omega : Date.serialDate e = Date.serialDate p ∨ Date.serialDate e = Date.serialDate d ∨
      Date.serialDate e = Date.serialDate n) with h | h | h
    · exact .inl ((NaiveDate.serial_eq_iff _ _).1 h)
    · exact .inr (.inl ((NaiveDate.serial_eq_iff _ _).1 h))
    · exact .inr (.inr ((NaiveDate.serial_eq_iff _ _).1 h))
  unfold Closed at hc
  rcases this with rfl | rfl | rfl
  · rw [h.1] at hc; exact absurd hc (by decide)
  · rw [h.2.1] at hc; exact absurd hc (by decide)
  · rw [h.2.2] at hc; exact absurd hc (by decide)

end FeastsAsia

open FeastsAsia

/-- **C133**, violated: 31 August 2011 and 13 May 2021 are 1 Shawwal.  Singapore is open on the first and on the days
before and after it, India on the second and on the days before and after it. -/
theorem C133_refuted :
    (∃ d : Date, (d.year, d.month, d.day) = (2011, 8, 31) ∧ Islamic.IsFeast d ∧
      ¬ Islamic.ClosedNear Shipped.singapore.calendar d 1 1) ∧
    (∃ d : Date, (d.year, d.month, d.day) = (2021, 5, 13) ∧ Islamic.IsFeast d ∧
      ¬ Islamic.ClosedNear Shipped.india.calendar d 1 1) := by
  constructor
  · refine ⟨⟨2011, 8, 31, by decide⟩, rfl, ⟨1432, .inl (by decide)⟩,
      not_near (p := ⟨2011, 8, 30, by decide⟩) (n := ⟨2011, 9, 1, by decide⟩) (by decide) (by decide) ?_⟩
    unfold Open; decide +kernel
  · refine ⟨⟨2021, 5, 13, by decide⟩, rfl, ⟨1442, .inl (by decide)⟩,
      not_near (p := ⟨2021, 5, 12, by decide⟩) (n := ⟨2021, 5, 14, by decide⟩) (by decide) (by decide) ?_⟩
    unfold Open; decide +kernel

/-- **C133**: Singapore is closed on each feast or the day before it.  Missing for the full property: 2011 and 2015 to
2018, for which the code lists no feast. -/
theorem C133_singapore_partial (d : Date) (h1 : 2004 ≤ d.year) (h2 : d.year ≤ 2023)
    (hy : d.year ∉ [2011, 2015, 2016, 2017, 2018]) (hf : Islamic.IsFeast d) :
    Islamic.ClosedNear Shipped.singapore.calendar d 1 0 :=
  near_of_before hf hy (forDates_date checkedSingapore d h1 (by omega))

/-- Thursday, 29 June 2023 was 10 Dhu al-Hijja 1444. -/
example : Islamic.ClosedNear Shipped.singapore.calendar ⟨2023, 6, 29, by decide⟩ 1 0 :=
  C133_singapore_partial _ (by decide) (by decide) (by decide) ⟨1444, .inr (by decide)⟩

/-- **C133**: Indonesia is closed on each feast of 2005 to 2014 or the day before it. -/
theorem C133_indonesia (d : Date) (h1 : 2005 ≤ d.year) (h2 : d.year ≤ 2014) (hf : Islamic.IsFeast d) :
    Islamic.ClosedNear Shipped.indonesia.calendar d 1 0 :=
  near_of_before hf (by simp) (forDates_date checkedIndonesia d h1 (by omega))

/-- Tuesday, 29 July 2014 was 1 Shawwal 1435. -/
example : Islamic.ClosedNear Shipped.indonesia.calendar ⟨2014, 7, 29, by decide⟩ 1 0 :=
  C133_indonesia _ (by decide) (by decide) ⟨1435, .inl (by decide)⟩

/-- **C133**: India is closed on each feast, the day before or the day after it.  Missing for the full property: 2015
to 2018, for which the code lists no feast, and 13 May 2021. -/
theorem C133_india_partial (d : Date) (h1 : 2005 ≤ d.year) (h2 : d.year ≤ 2025)
    (hy : d.year ∉ [2015, 2016, 2017, 2018]) (hx : (d.year, d.month, d.day) ≠ (2021, 5, 13))
    (hf : Islamic.IsFeast d) :
    Islamic.ClosedNear Shipped.india.calendar d 1 1 := by
  have h := forDates_date checkedIndia d h1 (by omega)
  unfold around at h
  simp only [Bool.or_eq_true] at h
  rcases h with (h | h) | h
  · obtain ⟨e, hc, h3, h4⟩ := near_of_before hf hy h
    exact ⟨e, hc, h3, by omega⟩
  · obtain ⟨e, he, hc⟩ := closed_of_shut h
    have := NaiveDate.succOpt_eq_some.1 he
    refine ⟨e, hc, ?_, ?_⟩ <;> simp only [Date.serialDate] <;> omega
  · exact absurd (eq_of_beq h) hx

/-- Monday, 17 June 2024 was 10 Dhu al-Hijja 1445. -/
example : Islamic.ClosedNear Shipped.india.calendar ⟨2024, 6, 17, by decide⟩ 1 1 :=
  C133_india_partial _ (by decide) (by decide) (by decide) (by decide) ⟨1445, .inr (by decide)⟩

end Qlab.Props
