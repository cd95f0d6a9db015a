import Verif.Lemmas.HolidayRunsGregorian
import Verif.Lemmas.HolidayRunsLunar
import Verif.Props.HolidaysAll
import Verif.Props.Rolling
import Verif.Spec.BusinessDayRuns

/-!
# Business days in every month and rolling with the shipped calendars (C70)
-/

namespace Qlab.Props

open Spec

theorem halvesOpen_shipped (s : Shipped) :
    halvesOpen (restDays s) (holidays s) = true ∧ (holidays s).all Holiday.wf = true := by
  cases s with
  | argentina => exact halvesOpen_argentina
  | australia m => exact halvesOpen_australia m
  | austria m => exact halvesOpen_austria m
  | botswana => exact halvesOpen_botswana
  | brazil m => exact halvesOpen_brazil m
  | canada m => exact halvesOpen_canada m
  | chile => exact halvesOpen_chile
  | china => exact halvesOpen_china
  | czechRepublic => exact halvesOpen_czechRepublic
  | denmark => exact halvesOpen_denmark
  | finland => exact halvesOpen_finland
  | france m => exact halvesOpen_france m
  | germany m => exact halvesOpen_germany m
  | hongKong => exact halvesOpen_hongKong
  | hungary => exact halvesOpen_hungary
  | iceland => exact halvesOpen_iceland
  | india => exact halvesOpen_india
  | indonesia => exact halvesOpen_indonesia
  | israel => exact halvesOpen_israel
  | italy m => exact halvesOpen_italy m
  | japan => exact halvesOpen_japan
  | mexico => exact halvesOpen_mexico
  | newZealand => exact halvesOpen_newZealand
  | norway => exact halvesOpen_norway
  | poland => exact halvesOpen_poland
  | romania => exact halvesOpen_romania
  | russia m => exact halvesOpen_russia m
  | singapore => exact halvesOpen_singapore
  | slovakia => exact halvesOpen_slovakia
  | southAfrica => exact halvesOpen_southAfrica
  | southKorea => exact halvesOpen_southKorea
  | sweden => exact halvesOpen_sweden
  | switzerland => exact halvesOpen_switzerland
  | taiwan => exact halvesOpen_taiwan
  | target => exact halvesOpen_target
  | thailand => exact halvesOpen_thailand
  | turkey => exact halvesOpen_turkey
  | ukraine => exact halvesOpen_ukraine
  | unitedKingdom m => exact halvesOpen_unitedKingdom m
  | unitedStates m => exact halvesOpen_unitedStates m
  | weekendsOnly => exact halvesOpen_weekendsOnly

theorem answers_of_year {s : Shipped} {d : Date} (h1 : firstYear s ≤ d.year) (h2 : d.year ≤ lastYear s) :
    UsesEaster s = true → 1901 ≤ d.year ∧ d.year ≤ 2199 := by
  intro h
  simp only [firstYear, lastYear, h, if_true] at h1 h2
  exact ⟨h1, h2⟩

theorem year_range (s : Shipped) : minYear ≤ firstYear s ∧ lastYear s ≤ maxYear := by
  unfold firstYear lastYear minYear maxYear
  cases UsesEaster s <;> simp

theorem half_open (s : Shipped) {y : Int} {m : Nat} (hy1 : firstYear s ≤ y) (hy2 : y ≤ lastYear s)
    (hm1 : 1 ≤ m) (hm2 : m ≤ 12) (second : Bool) :
    ∃ d : Date, d.year = y ∧ d.month = m ∧ (if second then 15 else 1) ≤ d.day ∧
      d.day ≤ (if second then 28 else 14) ∧ Open s.calendar d := by
  have hr := year_range s
  obtain ⟨d, h1, h2, h3, h4, h5, h6⟩ := halvesOpen_sound (halvesOpen_shipped s).2 (halvesOpen_shipped s).1
    (y := y) (m := m) (by omega) (by omega) hm1 hm2 second
  refine ⟨d, h1, h2, h3, h4, (C66_open_exactly s d ?_).2 ⟨?_, h6⟩⟩
  · exact answers_of_year (by omega) (by omega)
  · intro hrest
    rw [restDay_restDays hrest] at h5
    cases h5

/-- **C70.** Every shipped calendar has a business day among the first 14 days and another one among the next 14
days of every month of every year for which it answers. -/
theorem C70_business_day_in_every_half_month (s : Shipped) (y : Int) (m : Nat) (hy1 : firstYear s ≤ y)
    (hy2 : y ≤ lastYear s) (hm1 : 1 ≤ m) (hm2 : m ≤ 12) :
    (∃ d : Date, d.year = y ∧ d.month = m ∧ 1 ≤ d.day ∧ d.day ≤ 14 ∧ Open s.calendar d) ∧
    (∃ d : Date, d.year = y ∧ d.month = m ∧ 15 ≤ d.day ∧ d.day ≤ 28 ∧ Open s.calendar d) :=
  ⟨half_open s hy1 hy2 hm1 hm2 false, half_open s hy1 hy2 hm1 hm2 true⟩

example := C70_business_day_in_every_half_month (.unitedStates (some .NYSE)) 2024 2 (by decide) (by decide) (by decide) (by decide)

theorem open_or_closed {s : Shipped} {d : Date} (h1 : firstYear s ≤ d.year) (h2 : d.year ≤ lastYear s) :
    Open s.calendar d ∨ Closed s.calendar d := by
  have h := answers_of_year h1 h2
  rw [C66_open_exactly s d h, C66_closed_exactly s d h, ← not_or]
  exact (Classical.em _).symm

theorem exists_following {c : Calendar} {u x : Date} (hx : u ≤ x) (ho : Open c x)
    (ha : ∀ z, u ≤ z → z ≤ x → Open c z ∨ Closed c z) : ∃ r, IsFollowing c u r ∧ r ≤ x := by
  induction hn : (x.numDaysFromCe - u.numDaysFromCe).toNat using Nat.strongRecOn generalizing x with
  | ind n ih =>
    by_cases hz : ∃ z, u ≤ z ∧ z < x ∧ Open c z
    · obtain ⟨z, z1, z2, z3⟩ := hz
      have s1 := (NaiveDate.le_iff_serial _ _).1 z1
      have s2 := (NaiveDate.lt_iff_serial _ _).1 z2
      obtain ⟨r, hr, hr'⟩ := ih _ (by omega) z1 z3
        (fun w w1 w2 => ha w w1 (date_le_trans w2 (date_le_of_lt z2))) rfl
      exact ⟨r, hr, date_le_trans hr' (date_le_of_lt z2)⟩
    · refine ⟨x, ⟨hx, ho, fun z z1 z2 => ?_⟩, date_le_refl x⟩
      exact (ha z z1 (date_le_of_lt z2)).resolve_left fun h => hz ⟨z, z1, z2, h⟩

theorem exists_preceding {c : Calendar} {u x : Date} (hx : x ≤ u) (ho : Open c x)
    (ha : ∀ z, x ≤ z → z ≤ u → Open c z ∨ Closed c z) : ∃ r, IsPreceding c u r ∧ x ≤ r := by
  induction hn : (u.numDaysFromCe - x.numDaysFromCe).toNat using Nat.strongRecOn generalizing x with
  | ind n ih =>
    by_cases hz : ∃ z, x < z ∧ z ≤ u ∧ Open c z
    · obtain ⟨z, z1, z2, z3⟩ := hz
      have s1 := (NaiveDate.lt_iff_serial _ _).1 z1
      have s2 := (NaiveDate.le_iff_serial _ _).1 z2
      obtain ⟨r, hr, hr'⟩ := ih _ (by omega) z2 z3
        (fun w w1 w2 => ha w (date_le_trans (date_le_of_lt z1) w1) w2) rfl
      exact ⟨r, hr, date_le_trans (date_le_of_lt z1) hr'⟩
    · refine ⟨x, ⟨hx, ho, fun z z1 z2 => ?_⟩, date_le_refl x⟩
      exact (ha z (date_le_of_lt z1) z2).resolve_left fun h => hz ⟨z, z1, z2, h⟩

theorem year_mono {a b : Date} (h : a ≤ b) : a.year ≤ b.year := by
  rcases date_eq_or_lt h with rfl | h
  · exact le_rfl
  · rcases (NaiveDate.lt_iff _ _).1 h with h | h
    · omega
    · exact le_of_eq h.1

/-- Distance from a date to one in the next month. -/
theorem serial_next_month {u x : Date} (h : monthNumber x.year x.month = monthNumber u.year u.month + 1) :
    x.numDaysFromCe = u.numDaysFromCe - u.day + monthLen (isLeap u.year) u.month + x.day := by
  have u1 := u.month_pos
  have u2 := u.month_le
  have x1 := x.month_pos
  have x2 := x.month_le
  have hs := daysBeforeMonth_succ (isLeap u.year) u1 u2
  unfold monthNumber at h
  unfold NaiveDate.numDaysFromCe NaiveDate.ordinal
  by_cases hu : u.month = 12
  · have hx : x.month = 1 := by omega
    have hy : x.year = u.year + 1 := by omega
    have := daysBeforeYear_succ u.year
    have h13 := daysBeforeMonth_13 (isLeap u.year)
    rw [hx, hy, this]
    rw [hu] at hs ⊢
    rw [h13] at hs
    have h0 : ∀ l, daysBeforeMonth l 1 = 0 := by intro l; cases l <;> rfl
    rw [h0]
    split at hs <;> simp_all <;> omega
  · have hx : x.month = u.month + 1 := by omega
    have hy : x.year = u.year := by omega
    rw [hx, hy, hs]
    push_cast
    omega

/-- **C70.** In the years for which the calendar answers, except the last one, `Following` finds a business day at
most 30 days ahead. -/
theorem C70_following (s : Shipped) (u : Date) (h1 : firstYear s ≤ u.year) (h2 : u.year < lastYear s) :
    ∃ r, IsFollowing s.calendar u r ∧ Date.sub r u ≤ 30 := by
  have u1 := u.month_pos
  have u2 := u.month_le
  have u3 := u.day_pos
  have u4 := u.day_le
  have u5 := monthLen_le (isLeap u.year) u.month
  have : ∃ x : Date, u ≤ x ∧ x.numDaysFromCe - u.numDaysFromCe ≤ 30 ∧ x.year ≤ u.year + 1 ∧ Open s.calendar x := by
    by_cases hd : u.day ≤ 14
    · obtain ⟨x, x1, x2, x3, x4, x5⟩ := half_open s h1 (by omega) u1 u2 true
      simp only [if_true] at x3 x4
      have sx := serial_same_year (x := x) x2 rfl
      have su := serial_same_year (x := u) rfl rfl
      rw [x1] at sx
      refine ⟨x, (NaiveDate.le_iff_serial _ _).2 ?_, ?_, by omega, x5⟩ <;> omega
    · by_cases hm : u.month = 12
      · obtain ⟨x, x1, x2, x3, x4, x5⟩ := half_open s (y := u.year + 1) (m := 1) (by omega) (by omega) (by omega)
          (by omega) false
        simp at x3 x4
        have sx := serial_next_month (u := u) (x := x) (by unfold monthNumber; omega)
        refine ⟨x, (NaiveDate.le_iff_serial _ _).2 ?_, ?_, by omega, x5⟩ <;> omega
      · obtain ⟨x, x1, x2, x3, x4, x5⟩ := half_open s (y := u.year) (m := u.month + 1) (by omega) (by omega)
          (by omega) (by omega) false
        simp at x3 x4
        have sx := serial_next_month (u := u) (x := x) (by unfold monthNumber; omega)
        refine ⟨x, (NaiveDate.le_iff_serial _ _).2 ?_, ?_, by omega, x5⟩ <;> omega
  obtain ⟨x, x1, x2, x3, x4⟩ := this
  obtain ⟨r, hr, hr'⟩ := exists_following x1 x4 (fun z z1 z2 => open_or_closed (by have := year_mono z1; omega)
    (by have := year_mono z2; omega))
  refine ⟨r, hr, ?_⟩
  have := (NaiveDate.le_iff_serial _ _).1 hr'
  show r.numDaysFromCe - u.numDaysFromCe ≤ 30
  omega

example := C70_following .china ⟨2024, 2, 9, by decide⟩ (by decide) (by decide)

/-- **C70.** In the years for which the calendar answers, except the first one, `Preceding` finds a business day at
most 30 days back. -/
theorem C70_preceding (s : Shipped) (u : Date) (h1 : firstYear s < u.year) (h2 : u.year ≤ lastYear s) :
    ∃ r, IsPreceding s.calendar u r ∧ Date.sub u r ≤ 30 := by
  have u1 := u.month_pos
  have u2 := u.month_le
  have u3 := u.day_pos
  have u4 := u.day_le
  have u5 := monthLen_le (isLeap u.year) u.month
  have : ∃ x : Date, x ≤ u ∧ u.numDaysFromCe - x.numDaysFromCe ≤ 30 ∧ u.year ≤ x.year + 1 ∧ Open s.calendar x := by
    by_cases hd : 15 ≤ u.day
    · obtain ⟨x, x1, x2, x3, x4, x5⟩ := half_open s (by omega) h2 u1 u2 false
      simp at x3 x4
      have sx := serial_same_year (x := x) x2 rfl
      have su := serial_same_year (x := u) rfl rfl
      rw [x1] at sx
      refine ⟨x, (NaiveDate.le_iff_serial _ _).2 ?_, ?_, by omega, x5⟩ <;> omega
    · by_cases hm : u.month = 1
      · obtain ⟨x, x1, x2, x3, x4, x5⟩ := half_open s (y := u.year - 1) (m := 12) (by omega) (by omega) (by omega)
          (by omega) true
        simp only [if_true] at x3 x4
        have sx := serial_next_month (u := x) (x := u) (by unfold monthNumber; omega)
        have l1 := monthLen_le (isLeap x.year) x.month
        have l2 := x.day_le
        refine ⟨x, (NaiveDate.le_iff_serial _ _).2 ?_, ?_, by omega, x5⟩ <;> omega
      · obtain ⟨x, x1, x2, x3, x4, x5⟩ := half_open s (y := u.year) (m := u.month - 1) (by omega) (by omega)
          (by omega) (by omega) true
        simp only [if_true] at x3 x4
        have sx := serial_next_month (u := x) (x := u) (by unfold monthNumber; omega)
        have l1 := monthLen_le (isLeap x.year) x.month
        have l2 := x.day_le
        refine ⟨x, (NaiveDate.le_iff_serial _ _).2 ?_, ?_, by omega, x5⟩ <;> omega
  obtain ⟨x, x1, x2, x3, x4⟩ := this
  obtain ⟨r, hr, hr'⟩ := exists_preceding x1 x4 (fun z z1 z2 => open_or_closed (by have := year_mono z1; omega)
    (by have := year_mono z2; omega))
  refine ⟨r, hr, ?_⟩
  have := (NaiveDate.le_iff_serial _ _).1 hr'
  show u.numDaysFromCe - r.numDaysFromCe ≤ 30
  omega

example := C70_preceding .china ⟨2024, 2, 17, by decide⟩ (by decide) (by decide)

/-- **C70.** Rolling with a shipped calendar never panics and never returns `None` once the unadjusted date `u`
exists, and moves it by at most 30 days, in every mode. -/
theorem C70_roll_total (s : Shipped) (d u : Date) (p : Period) (m : DateRolling)
    (hu : p.checkedAdd d = .ok (some u)) (h1 : firstYear s < u.year) (h2 : u.year < lastYear s) :
    ∃ r, Date.checkedRoll d p s.calendar m = .ok (some r) ∧ Date.sub r u ≤ 30 ∧ Date.sub u r ≤ 30 := by
  obtain ⟨f, hf, hf'⟩ := C70_following s u (by omega) h2
  obtain ⟨b, hb, hb'⟩ := C70_preceding s u h1 (by omega)
  have sf := (NaiveDate.le_iff_serial _ _).1 hf.1
  have sb := (NaiveDate.le_iff_serial _ _).1 hb.1
  have gf : Date.sub u f ≤ 30 := by show u.numDaysFromCe - f.numDaysFromCe ≤ 30; omega
  have gb : Date.sub b u ≤ 30 := by show b.numDaysFromCe - u.numDaysFromCe ≤ 30; omega
  cases m with
  | unadjusted =>
    have : Date.sub u u ≤ 30 := by show u.numDaysFromCe - u.numDaysFromCe ≤ 30; omega
    exact ⟨u, hu, this, this⟩
  | following => exact ⟨f, (C13_following _ _ _ _).2 ⟨u, hu, hf⟩, hf', gf⟩
  | preceding => exact ⟨b, (C14_preceding _ _ _ _).2 ⟨u, hu, hb⟩, gb, hb'⟩
  | modifiedFollowing =>
    by_cases hm : f.month = d.month
    · exact ⟨f, (modifiedFollowing_eq _ _ _ _).2 ⟨u, f, hu, hf, Or.inl ⟨hm, rfl⟩⟩, hf', gf⟩
    · exact ⟨b, (modifiedFollowing_eq _ _ _ _).2 ⟨u, f, hu, hf, Or.inr ⟨hm, hb⟩⟩, gb, hb'⟩
  | modifiedPreceding =>
    by_cases hm : b.month = d.month
    · exact ⟨b, (modifiedPreceding_eq _ _ _ _).2 ⟨u, b, hu, hb, Or.inl ⟨hm, rfl⟩⟩, gb, hb'⟩
    · exact ⟨f, (modifiedPreceding_eq _ _ _ _).2 ⟨u, b, hu, hb, Or.inr ⟨hm, hf⟩⟩, hf', gf⟩

example := C70_roll_total .china ⟨2024, 1, 9, by decide⟩ ⟨2024, 2, 9, by decide⟩ (.months 1) .modifiedFollowing (by decide) (by decide) (by decide)

theorem monthNumber_mono {a b : Date} (h : a ≤ b) : monthNumber a.year a.month ≤ monthNumber b.year b.month := by
  rcases date_eq_or_lt h with rfl | h
  · exact le_rfl
  · rcases (lt_iff_monthNumber a b).1 h with h | h
    · omega
    · omega

theorem sameMonth_iff {a b : Date} : SameMonth a b ↔ monthNumber a.year a.month = monthNumber b.year b.month := by
  constructor
  · rintro ⟨h1, h2⟩; rw [h1, h2]
  · intro h
    exact monthNumber_inj a.month_pos a.month_le b.month_pos b.month_le h

/-- **C70.** With a shipped calendar the market conventions "modified following" and "modified preceding" always
give a date, and one in the month of the unadjusted date. -/
theorem C70_modified_conventions (s : Shipped) (u : Date) (h1 : firstYear s < u.year) (h2 : u.year < lastYear s) :
    (∃ r, IsModifiedFollowing s.calendar u r) ∧ (∃ r, IsModifiedPreceding s.calendar u r) ∧
    (∀ r, IsModifiedFollowing s.calendar u r → SameMonth r u) ∧
    (∀ r, IsModifiedPreceding s.calendar u r → SameMonth r u) := by
  obtain ⟨f, hf, -⟩ := C70_following s u (by omega) h2
  obtain ⟨b, hb, -⟩ := C70_preceding s u h1 (by omega)
  obtain ⟨x, x1, x2, -, -, x5⟩ := half_open s (y := u.year) (by omega) (by omega) u.month_pos u.month_le false
  have hx : monthNumber x.year x.month = monthNumber u.year u.month := sameMonth_iff.1 ⟨x1, x2⟩
  -- one of the two neighbours is in the month
  have key : SameMonth f u ∨ SameMonth b u := by
    rw [sameMonth_iff, sameMonth_iff]
    have g1 := monthNumber_mono hf.1
    have g2 := monthNumber_mono hb.1
    rcases date_lt_or_ge x u with h | h
    · right
      rcases date_lt_or_ge b x with h' | h'
      · exact absurd (hb.2.2 x h' (date_le_of_lt h)) (open_not_closed x5)
      · have := monthNumber_mono h'; omega
    · left
      rcases date_lt_or_ge x f with h' | h'
      · exact absurd (hf.2.2 x h h') (open_not_closed x5)
      · have := monthNumber_mono h'; omega
  refine ⟨?_, ?_, ?_, ?_⟩
  · by_cases h : SameMonth f u
    · exact ⟨f, f, hf, Or.inl ⟨h, rfl⟩⟩
    · exact ⟨b, f, hf, Or.inr ⟨h, hb⟩⟩
  · by_cases h : SameMonth b u
    · exact ⟨b, b, hb, Or.inl ⟨h, rfl⟩⟩
    · exact ⟨f, b, hb, Or.inr ⟨h, hf⟩⟩
  · rintro r ⟨f', hf', ⟨h, rfl⟩ | ⟨h, hr⟩⟩
    · exact h
    · rw [isFollowing_unique hf' hf] at h
      rw [isPreceding_unique hr hb]
      exact key.resolve_left h
  · rintro r ⟨b', hb', ⟨h, rfl⟩ | ⟨h, hr⟩⟩
    · exact h
    · rw [isPreceding_unique hb' hb] at h
      rw [isFollowing_unique hr hf]
      exact key.resolve_right h

example := C70_modified_conventions .target ⟨2024, 3, 30, by decide⟩ (by decide) (by decide)

/-- **C15.** If the period keeps the month number (zero days, whole years), the modified modes with a shipped
calendar are the market conventions, and the result is in the month of the unadjusted date.  (For other periods
the code departs from the conventions: `C15_refuted_general`.) -/
theorem C15_modified_shipped_partial (s : Shipped) (d u r : Date) (p : Period) (hu : p.checkedAdd d = .ok (some u))
    (hm : u.month = d.month) (h1 : firstYear s < u.year) (h2 : u.year < lastYear s) :
    (Date.checkedRoll d p s.calendar .modifiedFollowing = .ok (some r) ↔
      IsModifiedFollowing s.calendar u r ∧ SameMonth r u) ∧
    (Date.checkedRoll d p s.calendar .modifiedPreceding = .ok (some r) ↔
      IsModifiedPreceding s.calendar u r ∧ SameMonth r u) := by
  obtain ⟨-, -, c3, c4⟩ := C70_modified_conventions s u h1 h2
  constructor
  · rw [C15_modified_following_partial d r u p s.calendar hu hm ?_]
    · exact ⟨fun h => ⟨h, c3 r h⟩, fun h => h.1⟩
    · intro f hf
      obtain ⟨f', hf', h⟩ := C70_following s u (by omega) h2
      rw [isFollowing_unique hf hf']; omega
  · rw [C15_modified_preceding_partial d r u p s.calendar hu hm ?_]
    · exact ⟨fun h => ⟨h, c4 r h⟩, fun h => h.1⟩
    · intro f hf
      obtain ⟨f', hf', h⟩ := C70_preceding s u h1 (by omega)
      rw [isPreceding_unique hf hf']; omega

/-- China, 28 January 2023, in the week of the lunar new year: 30 January is the next business day and 20 January
the last one. -/
example : firstYear .china < 2023 ∧ (2023 : Int) < lastYear .china ∧
    Date.checkedRoll ⟨2023, 1, 28, by decide⟩ (.days 0) Shipped.china.calendar .following =
      .ok (some ⟨2023, 1, 30, by decide⟩) ∧
    Date.checkedRoll ⟨2023, 1, 28, by decide⟩ (.days 0) Shipped.china.calendar .preceding =
      .ok (some ⟨2023, 1, 20, by decide⟩) := by
  decide +kernel

end Qlab.Props
