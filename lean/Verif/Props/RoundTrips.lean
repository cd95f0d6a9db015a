import Verif.Props.Dates
import Verif.Props.Rolling

/-!
# Going forth and back (C134)

Days go forth and back exactly (`C05_add_sub_inverse`).  Here: months, years and adjustments.
-/

namespace Qlab.Props

open Spec

namespace RoundTrips

/-- A day that was kept or cut to the end of another month exists in its own month, and nothing is cut again. -/
theorem back (d r : Date) (hc : IsSameDayClamped d.day r.year r.month r.day) :
    ∃ s : Date, s.year = d.year ∧ s.month = d.month ∧ s.day = r.day ∧ s ≤ d ∧
      Date.serialDate d - Date.serialDate s = d.day - r.day ∧ (d.day : Int) - r.day ≤ 3 := by
  have h3 : r.day ≤ d.day ∧ d.day ≤ r.day + 3 := by
    rcases hc with h | ⟨h, hl⟩
    · omega
    · rw [isLastDay_iff] at hl
      have := monthLen_ge (isLeap r.year) r.month_pos r.month_le
      have := monthLen_le (isLeap d.year) d.month
      have := d.day_le
      omega
  have hv : IsValid d.year d.month r.day :=
    ⟨d.valid.1, d.valid.2.1, d.month_pos, d.month_le, r.day_pos, Nat.le_trans h3.1 d.day_le⟩
  refine ⟨⟨d.year, d.month, r.day, hv⟩, rfl, rfl, rfl, ?_, ?_, by omega⟩
  · rw [NaiveDate.le_iff_serial]
    simp only [NaiveDate.numDaysFromCe, NaiveDate.ordinal]; omega
  · simp only [Date.serialDate, NaiveDate.numDaysFromCe, NaiveDate.ordinal]; omega

end RoundTrips

open RoundTrips

/-- **C134.** Adding `n` months and taking them away again always succeeds.  It leads to a date of the same month, at
most three days before the start.  It leads to the start exactly when the first step kept the day of the month.  Adding
the months once more leads to the same date as the first time. -/
theorem C134_months_forth_back (d r : Date) (n : Nat) (h : Date.checkedAddMonths d n = some r) :
    ∃ s, Date.checkedSubMonths r n = some s ∧ s ≤ d ∧ Date.sub d s ≤ 3 ∧ SameMonth s d ∧
      (s = d ↔ r.day = d.day) ∧ Date.checkedAddMonths s n = some r := by
  obtain ⟨h1, h2⟩ := (C07_add_months _ _ _).1 h
  obtain ⟨s, ey, em, ed, hle, hs, h3⟩ := back d r h2
  refine ⟨s, (C08_sub_months _ _ _).2 ⟨by rw [ey, em]; omega, .inl ed⟩, hle, ?_, ⟨ey, em⟩, ⟨?_, ?_⟩,
    (C07_add_months _ _ _).2 ⟨by rw [ey, em]; omega, .inl ed.symm⟩⟩
  · rw [C04_sub_serial]; omega
  · rintro rfl; exact ed.symm
  · intro e
    exact C03_serial_injective _ _ (by omega)

/-- 31 January and one month forth and back: 28 January. -/
example : ∃ s, Date.checkedSubMonths ⟨2023, 2, 28, by decide⟩ 1 = some s ∧ s ≠ ⟨2023, 1, 31, by decide⟩ ∧
    Date.checkedAddMonths s 1 = some ⟨2023, 2, 28, by decide⟩ := by
  obtain ⟨s, h1, -, -, -, h2, h3⟩ := C134_months_forth_back ⟨2023, 1, 31, by decide⟩ ⟨2023, 2, 28, by decide⟩ 1
    (by decide +kernel)
  exact ⟨s, h1, fun e => absurd (h2.1 e) (by decide), h3⟩

/-- **C134.** The same for taking `n` months away and adding them again. -/
theorem C134_months_back_forth (d r : Date) (n : Nat) (h : Date.checkedSubMonths d n = some r) :
    ∃ s, Date.checkedAddMonths r n = some s ∧ s ≤ d ∧ Date.sub d s ≤ 3 ∧ SameMonth s d ∧
      (s = d ↔ r.day = d.day) ∧ Date.checkedSubMonths s n = some r := by
  obtain ⟨h1, h2⟩ := (C08_sub_months _ _ _).1 h
  obtain ⟨s, ey, em, ed, hle, hs, h3⟩ := back d r h2
  refine ⟨s, (C07_add_months _ _ _).2 ⟨by rw [ey, em]; omega, .inl ed⟩, hle, ?_, ⟨ey, em⟩, ⟨?_, ?_⟩,
    (C08_sub_months _ _ _).2 ⟨by rw [ey, em]; omega, .inl ed.symm⟩⟩
  · rw [C04_sub_serial]; omega
  · rintro rfl; exact ed.symm
  · intro e
    exact C03_serial_injective _ _ (by omega)

/-- 30 April less two months and again two months later: 28 April. -/
example : ∃ s, Date.checkedAddMonths ⟨2023, 2, 28, by decide⟩ 2 = some s ∧ s ≤ ⟨2023, 4, 30, by decide⟩ ∧
    s ≠ ⟨2023, 4, 30, by decide⟩ := by
  obtain ⟨s, h1, h2, -, -, h3, -⟩ := C134_months_back_forth ⟨2023, 4, 30, by decide⟩ ⟨2023, 2, 28, by decide⟩ 2
    (by decide +kernel)
  exact ⟨s, h1, h2, fun e => absurd (h3.1 e) (by decide)⟩

/-- **C134.** Going `n` years away (before or after) and back always succeeds.  It leads to the start, or from
29 February to 28 February when the year in between is not a leap year. -/
theorem C134_years (oc : Bool) (d r : Date) (n : Int) (hn : -2147483647 ≤ n ∧ n ≤ 2147483647)
    (h : Date.checkedAddYears oc d n = .ok (some r)) :
    ∃ s, Date.checkedAddYears oc r (-n) = .ok (some s) ∧
      ((d.month = 2 ∧ d.day = 29 ∧ ¬ IsLeapYear (d.year + n) ∧ (s.year, s.month, s.day) = (d.year, 2, 28)) ∨
       (¬ (d.month = 2 ∧ d.day = 29 ∧ ¬ IsLeapYear (d.year + n)) ∧ s = d)) := by
  obtain ⟨h1, h2, h3⟩ := (C10_add_years oc d n (by omega) _ h r).1 rfl
  obtain ⟨s, hs⟩ := C10_add_years_some oc r (-n) ⟨by rw [h1]; have := d.year_ge; omega, by rw [h1]; have := d.year_le; omega⟩
  refine ⟨s, hs, ?_⟩
  obtain ⟨g1, g2, g3⟩ := (C10_add_years oc r (-n) (by omega) _ hs s).1 rfl
  have ey : s.year = d.year := by omega
  rw [show r.year + -n = d.year by omega] at g3
  rcases h3 with ⟨a, b⟩ | ⟨a, b, c, e⟩
  · right
    have hd : ¬ (d.month = 2 ∧ d.day = 29 ∧ ¬ IsLeapYear (d.year + n)) := by
      rintro ⟨p, q, l⟩
      unfold IsDay at a
      rw [p, q] at a
      simp [l] at a
    refine ⟨hd, ?_⟩
    have hv : IsDay d.year r.month r.day := by
      rw [h2, b]; exact ((isValid_iff _ _ _).1 d.valid).2
    rcases g3 with ⟨_, g⟩ | ⟨g, -⟩
    · apply C03_serial_injective
      unfold Date.serialDate NaiveDate.numDaysFromCe NaiveDate.ordinal
      rw [ey, g2, h2, g, b]
    · exact absurd hv g
  · left
    have hl : ¬ IsLeapYear (d.year + n) := by
      intro l; apply a; unfold IsDay; rw [b, c]; simp [l]
    refine ⟨b, c, hl, ?_⟩
    have hv : IsDay d.year r.month r.day := by
      rw [h2, e, b]; unfold IsDay; simp
    rcases g3 with ⟨_, g⟩ | ⟨g, -⟩
    · rw [ey, g2, h2, g, e, b]
    · exact absurd hv g

/-- 29 February 2024, a year before it and back. -/
example : ∃ s, Date.checkedAddYears true ⟨2023, 2, 28, by decide⟩ 1 = .ok (some s) ∧
    (s.year, s.month, s.day) = (2024, 2, 28) := by
  obtain ⟨s, hs, h⟩ := C134_years true ⟨2024, 2, 29, by decide⟩ ⟨2023, 2, 28, by decide⟩ (-1) (by decide)
    (by decide +kernel)
  refine ⟨s, hs, ?_⟩
  rcases h with ⟨-, -, -, h⟩ | ⟨h, -⟩
  · exact h
  · exact absurd ⟨rfl, rfl, by unfold IsLeapYear; decide⟩ h

/-- **C134.** Adjusting forwards and adjusting backwards belong together, for every calendar: what `Following` makes of
`u` is not after `v` exactly when `u` is not after what `Preceding` makes of `v`. -/
theorem C134_adjustments (d e r s u v : Date) (p q : Period) (c : Calendar)
    (hu : p.checkedAdd d = .ok (some u)) (hv : q.checkedAdd e = .ok (some v))
    (hr : Date.checkedRoll d p c .following = .ok (some r))
    (hs : Date.checkedRoll e q c .preceding = .ok (some s)) : r ≤ v ↔ u ≤ s := by
  obtain ⟨u', hu', hr1, hr2, hr3⟩ := (C13_following _ _ _ _).1 hr
  rw [hu] at hu'; cases hu'
  obtain ⟨v', hv', hs1, hs2, hs3⟩ := (C14_preceding _ _ _ _).1 hs
  rw [hv] at hv'; cases hv'
  constructor
  · intro h
    rcases date_lt_or_ge s u with g | g
    · refine (open_not_closed hr2 (hs3 r ?_ h)).elim
      rw [NaiveDate.le_iff_serial] at hr1
      rw [NaiveDate.lt_iff_serial] at g ⊢
      omega
    · exact g
  · intro h
    rcases date_lt_or_ge v r with g | g
    · refine (open_not_closed hs2 (hr3 s h ?_)).elim
      rw [NaiveDate.le_iff_serial] at hs1
      rw [NaiveDate.lt_iff_serial] at g ⊢
      omega
    · exact g

/-- 1 April 2023 is a Saturday.  `Following` leads past Sunday, 2 April, so `Preceding` leads from there to a date
before 1 April. -/
example : ¬ (⟨2023, 4, 1, by decide⟩ : Date) ≤ ⟨2023, 3, 31, by decide⟩ := by
  rw [← C134_adjustments ⟨2023, 4, 1, by decide⟩ ⟨2023, 4, 2, by decide⟩ ⟨2023, 4, 3, by decide⟩
    ⟨2023, 3, 31, by decide⟩ ⟨2023, 4, 1, by decide⟩ ⟨2023, 4, 2, by decide⟩ (.days 0) (.days 0) .weekendsOnly
    (by decide) (by decide)
    ((C13_following _ _ _ _).2 ⟨_, by decide, weekendsOnly_isFollowing_2023_04_01⟩)
    ((C14_preceding _ _ _ _).2 ⟨⟨2023, 4, 2, by decide⟩, by decide,
      weekendsOnly_isPreceding _ _ (by decide) (by decide) (by decide) (by decide)⟩)]
  decide

end Qlab.Props
