import Verif.Lemmas.Rolling

/-!
# Weekend roll and business-day adjustment (C11-C17)

Vocabulary: `Verif/Spec/Dates.lean`.  The calendar is arbitrary, including one that panics.
-/

namespace Qlab.Props

open Spec

/-! ## Weekdays -/

/-- The weekday advances by one each day, cyclically (support for C11). -/
theorem C11_weekday_cycle (a b : Date) (h : Date.succOpt a = some b) :
    b.weekday.fromMonday = (a.weekday.fromMonday + 1) % 7 := by
  have h := NaiveDate.succOpt_eq_some.1 h
  have h1 := weekday_fromMonday a
  have h2 := weekday_fromMonday b
  omega

/-- The weekday of every date, counted from Saturday 1 January 2000 (support for C11).  Monday is 0. -/
theorem C11_weekday (d : Date) :
    (d.weekday.fromMonday : Int) = (5 + Date.sub d ⟨2000, 1, 1, by decide⟩) % 7 := by
  have h := weekday_fromMonday d
  show _ = (5 + (Date.serialDate d - Date.serialDate _)) % 7
  have h0 : Date.serialDate ⟨2000, 1, 1, by decide⟩ = 730120 := by decide
  rw [h0]
  unfold Date.serialDate
  omega

/-- 1 January 2000 was a Saturday, and 4 March 2024, 8829 days later, a Monday. -/
example : (⟨2000, 1, 1, by decide⟩ : NaiveDate).weekday = .Sat ∧
    (⟨2024, 3, 4, by decide⟩ : NaiveDate).weekday = .Mon ∧
    Date.sub ⟨2024, 3, 4, by decide⟩ ⟨2000, 1, 1, by decide⟩ = 8829 := by decide

/-! ## C11 -/

/-- **C11.** `weekend_roll` returns exactly the first Monday-to-Friday date on or after the date. -/
theorem C11_weekend_roll (d r : Date) :
    Date.weekendRoll d = some r ↔ IsFirstOnOrAfter IsWorkday d r := by
  have hd := weekday_fromMonday d
  have hr := weekday_fromMonday r
  have uniq : ∀ r s, IsFirstOnOrAfter IsWorkday d r → IsFirstOnOrAfter IsWorkday d s → r = s := by
    rintro r s ⟨r1, r2, r3⟩ ⟨s1, s2, s3⟩
    rcases NaiveDate.trichotomy r s with h | h | h
    · exact absurd r2 (s3 r r1 h)
    · exact h
    · exact absurd s2 (r3 s s1 h)
  have key : ∀ s, Date.weekendRoll d = some s → IsFirstOnOrAfter IsWorkday d s := by
    intro s hs
    have hsw := weekday_fromMonday s
    unfold Date.weekendRoll at hs
    simp only at hs
    split at hs
    · rename_i hw
      rw [checkedAddDays_eq, ofDays_eq_some] at hs
      refine ⟨?_, ?_, fun x h1 h2 => ?_⟩
      · rw [NaiveDate.le_iff_serial]; omega
      · rw [isWorkday_iff]; omega
      · rw [isWorkday_iff]
        have hx := weekday_fromMonday x
        rw [NaiveDate.le_iff_serial] at h1
        rw [NaiveDate.lt_iff_serial] at h2
        omega
    · rename_i hw
      rw [if_neg (by omega)] at hs
      cases hs
      refine ⟨date_le_refl d, ?_, fun x h1 h2 => ?_⟩
      · rw [isWorkday_iff]; omega
      · rw [← NaiveDate.not_lt_iff] at h1; exact absurd h2 h1
  constructor
  · exact key r
  · intro h
    cases hs : Date.weekendRoll d with
    | some s => rw [uniq s r (key s hs) h]
    | none =>
      exfalso
      obtain ⟨h1, h2, h3⟩ := h
      rw [isWorkday_iff] at h2
      rw [NaiveDate.le_iff_serial] at h1
      unfold Date.weekendRoll at hs
      simp only at hs
      split at hs
      · rename_i hw
        rw [checkedAddDays_eq, ofDays_eq_none] at hs
        have := r.serial_le
        have := d.serial_ge
        omega
      · rw [if_neg (by omega)] at hs; cases hs

/-- **C11.** It never returns `None`: the last representable date is a Monday. -/
theorem C11_weekend_roll_total (d : Date) : ∃ r, Date.weekendRoll d = some r := by
  cases hs : Date.weekendRoll d with
  | some s => exact ⟨s, rfl⟩
  | none =>
    exfalso
    have hd := weekday_fromMonday d
    unfold Date.weekendRoll at hs
    simp only at hs
    split at hs
    · rename_i hw
      rw [checkedAddDays_eq, ofDays_eq_none] at hs
      have := d.serial_le
      have := d.serial_ge
      omega
    · rw [if_neg (by omega)] at hs; cases hs

/-- **C11.** The result is never a weekend and at most two days later. -/
theorem C11_weekend_roll_bounds (d r : Date) (h : Date.weekendRoll d = some r) :
    IsWorkday r ∧ 0 ≤ Date.sub r d ∧ Date.sub r d ≤ 2 := by
  have h' := (C11_weekend_roll d r).1 h
  refine ⟨h'.2.1, ?_, ?_⟩
  · have := (NaiveDate.le_iff_serial _ _).1 h'.1
    show 0 ≤ r.numDaysFromCe - d.numDaysFromCe; omega
  · have hd := weekday_fromMonday d
    show r.numDaysFromCe - d.numDaysFromCe ≤ 2
    unfold Date.weekendRoll at h
    simp only at h
    split at h
    · rw [checkedAddDays_eq, ofDays_eq_some] at h; omega
    · rw [if_neg (by omega)] at h; cases h; omega

example : IsWorkday ⟨2023, 5, 1, by decide⟩ ∧ 0 ≤ Date.sub ⟨2023, 5, 1, by decide⟩ ⟨2023, 4, 29, by decide⟩ ∧
    Date.sub ⟨2023, 5, 1, by decide⟩ ⟨2023, 4, 29, by decide⟩ ≤ 2 :=
  C11_weekend_roll_bounds _ _ (by decide)

/-- **C11.** Weekdays are unchanged, and rolling twice is rolling once. -/
theorem C11_weekend_roll_idempotent (d r : Date) (h : Date.weekendRoll d = some r) :
    (IsWorkday d → r = d) ∧ Date.weekendRoll r = some r := by
  have h' := (C11_weekend_roll d r).1 h
  constructor
  · intro hw
    rcases date_eq_or_lt h'.1 with e | hlt
    · exact e.symm
    · exact absurd hw (h'.2.2 d (date_le_refl d) hlt)
  · rw [C11_weekend_roll]
    exact ⟨date_le_refl r, h'.2.1, fun x h1 h2 => by
      rw [← NaiveDate.not_lt_iff] at h1; exact absurd h2 h1⟩

example : Date.weekendRoll ⟨2023, 5, 1, by decide⟩ = some ⟨2023, 5, 1, by decide⟩ :=
  (C11_weekend_roll_idempotent ⟨2023, 4, 29, by decide⟩ _ (by decide)).2

/-- **C11.** Rolling preserves order. -/
theorem C11_weekend_roll_mono (d e r s : Date) (hde : d ≤ e) (hr : Date.weekendRoll d = some r)
    (hs : Date.weekendRoll e = some s) : r ≤ s := by
  have hr := (C11_weekend_roll d r).1 hr
  have hs := (C11_weekend_roll e s).1 hs
  rcases date_lt_or_ge s r with h | h
  · exact absurd hs.2.1 (hr.2.2 s (date_le_trans hde hs.1) h)
  · exact h

example : ∃ r, Date.weekendRoll ⟨2023, 4, 29, by decide⟩ = some r ∧
    (r.year, r.month, r.day) = (2023, 5, 1) := ⟨_, rfl, rfl⟩
example : ∃ r, Date.weekendRoll ⟨2023, 12, 31, by decide⟩ = some r ∧
    (r.year, r.month, r.day) = (2024, 1, 1) := ⟨_, rfl, rfl⟩

/-! ## C12 -/

/-- **C12 (violated).** The documented month protection does not exist: Saturday 29 April 2023 rolls to
1 May. -/
theorem C12_refuted : ∃ d r : Date, Date.weekendRoll d = some r ∧ ¬ SameMonth r d :=
  ⟨⟨2023, 4, 29, by decide⟩, ⟨2023, 5, 1, by decide⟩, by decide, by unfold SameMonth; decide⟩

/-- **C12.** Exactly when the result stays in the month: on a weekday, on a Saturday with two more days
in the month, on a Sunday with one more day in the month.
Missing for the full property: the remaining month-end weekends, on which it is false. -/
theorem C12_weekend_roll_month_partial (d r : Date) (h : Date.weekendRoll d = some r) :
    SameMonth r d ↔
      IsWorkday d ∨ (d.weekday = .Sat ∧ IsDay d.year d.month (d.day + 2)) ∨
      (d.weekday = .Sun ∧ IsDay d.year d.month (d.day + 1)) := by
  have hd := weekday_fromMonday d
  have hm1 := d.month_pos
  have hm2 := d.month_le
  have hdl := d.day_le
  have hdp := d.day_pos
  unfold Date.weekendRoll at h
  simp only at h
  unfold SameMonth
  rw [isDay_iff, isDay_iff]
  split at h
  · rename_i hw
    rw [checkedAddDays_eq, ofDays_eq_some] at h
    rw [sameMonth_addDays d r _ h]
    unfold IsWorkday
    cases hk : d.weekday <;> simp [hk, Weekday.fromMonday] at hw ⊢ <;> omega
  · rename_i hw
    rw [if_neg (by omega)] at h
    cases h
    simp only [and_self, true_iff]
    left; rw [isWorkday_iff]; omega

/-- Saturday 15 April 2023 rolls to Monday 17 April, in the same month. -/
example : SameMonth ⟨2023, 4, 17, by decide⟩ ⟨2023, 4, 15, by decide⟩ :=
  (C12_weekend_roll_month_partial _ _ (by decide)).2 (Or.inr (Or.inl ⟨by decide, Or.inr (Or.inl (by decide))⟩))

/-! ## C13 -/

/-- Checking "first weekday on or after" on concrete dates at most two days apart. -/
theorem weekendsOnly_isFollowing (u r : Date) (h1 : u ≤ r) (h2 : isWeekend r = false)
    (h3 : r.numDaysFromCe ≤ u.numDaysFromCe + (7 - u.weekday.fromMonday))
    (h4 : u = r ∨ 5 ≤ u.weekday.fromMonday) :
    IsFollowing .weekendsOnly u r := by
  refine ⟨h1, ?_, fun x g1 g2 => ?_⟩
  · show Rust.ok (!isWeekend r) = .ok true
    rw [h2]; rfl
  · rw [NaiveDate.le_iff_serial] at g1
    rw [NaiveDate.lt_iff_serial] at g2
    have hu := weekday_fromMonday u
    have hx := weekday_fromMonday x
    have : isWeekend x = true := by
      rw [isWeekend_iff]
      rcases h4 with rfl | h4 <;> omega
    show Rust.ok (!isWeekend x) = .ok false
    rw [this]; rfl

/-- Checking "last weekday on or before" on concrete dates at most two days apart. -/
theorem weekendsOnly_isPreceding (u r : Date) (h1 : r ≤ u) (h2 : isWeekend r = false)
    (h3 : u.numDaysFromCe ≤ r.numDaysFromCe + 2)
    (h4 : u = r ∨ r.weekday.fromMonday = 4) :
    IsPreceding .weekendsOnly u r := by
  refine ⟨h1, ?_, fun x g1 g2 => ?_⟩
  · show Rust.ok (!isWeekend r) = .ok true
    rw [h2]; rfl
  · rw [NaiveDate.le_iff_serial] at g2
    rw [NaiveDate.lt_iff_serial] at g1
    have hu := weekday_fromMonday r
    have hx := weekday_fromMonday x
    have : isWeekend x = true := by
      rw [isWeekend_iff]
      rcases h4 with rfl | h4 <;> omega
    show Rust.ok (!isWeekend x) = .ok false
    rw [this]; rfl

theorem weekendsOnly_isFollowing_2023_04_01 :
    IsFollowing .weekendsOnly ⟨2023, 4, 1, by decide⟩ ⟨2023, 4, 3, by decide⟩ :=
  weekendsOnly_isFollowing _ _ (by decide) (by decide) (by decide) (by decide)

theorem weekendsOnly_isPreceding_2023_04_01 :
    IsPreceding .weekendsOnly ⟨2023, 4, 1, by decide⟩ ⟨2023, 3, 31, by decide⟩ :=
  weekendsOnly_isPreceding _ _ (by decide) (by decide) (by decide) (by decide)

/-- **C13.** `Following` returns `r` exactly when the unadjusted date `u` exists and `r` is the first
business day on or after `u`. -/
theorem C13_following (d r : Date) (p : Period) (c : Calendar) :
    Date.checkedRoll d p c .following = .ok (some r) ↔
      ∃ u, p.checkedAdd d = .ok (some u) ∧ IsFollowing c u r := rollFollowing_eq_some

/-- **C13.** It returns `None` exactly when there is no unadjusted date, or every date from it on is a
holiday. -/
theorem C13_following_none (d : Date) (p : Period) (c : Calendar) :
    Date.checkedRoll d p c .following = .ok none ↔ p.checkedAdd d = .ok none ∨
      ∃ u, p.checkedAdd d = .ok (some u) ∧ ∀ x, u ≤ x → Closed c x := rollFollowing_eq_none

/-- **C13.** It panics exactly when the period panics or the calendar panics on the first date that is
not a holiday. -/
theorem C13_following_panic (d : Date) (p : Period) (c : Calendar) :
    Date.checkedRoll d p c .following = .panic ↔ p.checkedAdd d = .panic ∨
      ∃ u, p.checkedAdd d = .ok (some u) ∧
        ∃ r, u ≤ r ∧ Crashes c r ∧ ∀ x, u ≤ x → x < r → Closed c x := by
  show Date.rollFollowing p c d = .panic ↔ _
  unfold Date.rollFollowing Date.rollUnadjusted
  rw [Rust.bind_eq_panic]
  refine or_congr Iff.rfl ⟨?_, ?_⟩
  · rintro ⟨o, h1, h2⟩
    cases o with
    | none => simp at h2
    | some u => exact ⟨u, h1, followLoop_eq_panic.1 h2⟩
  · rintro ⟨u, h1, h2⟩; exact ⟨some u, h1, followLoop_eq_panic.2 h2⟩

/-- Saturday 1 April 2023 plus zero days, weekends-only calendar: Monday 3 April. -/
example : ∃ r, Date.checkedRoll ⟨2023, 4, 1, by decide⟩ (.days 0) .weekendsOnly .following = .ok (some r) ∧
    (r.year, r.month, r.day) = (2023, 4, 3) := by
  exact ⟨⟨2023, 4, 3, by decide⟩, (C13_following _ _ _ _).2 ⟨_, by decide, weekendsOnly_isFollowing_2023_04_01⟩, rfl⟩

/-! ## C14 -/

/-- **C14.** `Preceding` returns `r` exactly when the unadjusted date `u` exists and `r` is the last
business day on or before `u`. -/
theorem C14_preceding (d r : Date) (p : Period) (c : Calendar) :
    Date.checkedRoll d p c .preceding = .ok (some r) ↔
      ∃ u, p.checkedAdd d = .ok (some u) ∧ IsPreceding c u r := rollPreceding_eq_some

/-- **C14.** It returns `None` exactly when there is no unadjusted date, or every date up to it is a
holiday. -/
theorem C14_preceding_none (d : Date) (p : Period) (c : Calendar) :
    Date.checkedRoll d p c .preceding = .ok none ↔ p.checkedAdd d = .ok none ∨
      ∃ u, p.checkedAdd d = .ok (some u) ∧ ∀ x, x ≤ u → Closed c x := rollPreceding_eq_none

/-- One day after the last date there is no date. -/
example : Date.checkedRoll NaiveDate.MAX (.days 1) .weekendsOnly .following = .ok none ∧
    Date.checkedRoll NaiveDate.MAX (.days 1) .weekendsOnly .preceding = .ok none :=
  ⟨(C13_following_none _ _ _).2 (.inl (by decide)), (C14_preceding_none _ _ _).2 (.inl (by decide))⟩

/-- **C14.** Panic condition. -/
theorem C14_preceding_panic (d : Date) (p : Period) (c : Calendar) :
    Date.checkedRoll d p c .preceding = .panic ↔ p.checkedAdd d = .panic ∨
      ∃ u, p.checkedAdd d = .ok (some u) ∧
        ∃ r, r ≤ u ∧ Crashes c r ∧ ∀ x, r < x → x ≤ u → Closed c x := by
  show Date.rollPreceding p c d = .panic ↔ _
  unfold Date.rollPreceding Date.rollUnadjusted
  rw [Rust.bind_eq_panic]
  refine or_congr Iff.rfl ⟨?_, ?_⟩
  · rintro ⟨o, h1, h2⟩
    cases o with
    | none => simp at h2
    | some u => exact ⟨u, h1, precedeLoop_eq_panic.1 h2⟩
  · rintro ⟨u, h1, h2⟩; exact ⟨some u, h1, precedeLoop_eq_panic.2 h2⟩

/-- Saturday 1 April 2023 precedes to Friday 31 March. -/
example : Date.checkedRoll ⟨2023, 4, 1, by decide⟩ (.days 0) .weekendsOnly .preceding =
    .ok (some ⟨2023, 3, 31, by decide⟩) := by
  exact (C14_preceding _ _ _ _).2 ⟨_, by decide, weekendsOnly_isPreceding_2023_04_01⟩

/-! ## C15 -/

theorem modifiedFollowing_eq (d r : Date) (p : Period) (c : Calendar) :
    Date.checkedRoll d p c .modifiedFollowing = .ok (some r) ↔
      ∃ u f, p.checkedAdd d = .ok (some u) ∧ IsFollowing c u f ∧
        ((f.month = d.month ∧ r = f) ∨ (f.month ≠ d.month ∧ IsPreceding c u r)) := by
  show (Date.rollFollowing p c d >>= _) = .ok (some r) ↔ _
  rw [Rust.bind_eq_ok]
  constructor
  · rintro ⟨o, h1, h2⟩
    cases o with
    | none => simp at h2
    | some f =>
      obtain ⟨u, hu, hf⟩ := rollFollowing_eq_some.1 h1
      simp only at h2
      split at h2
      · rename_i hm
        simp only [Rust.pure_eq, Rust.ok.injEq, Option.some.injEq] at h2
        exact ⟨u, f, hu, hf, Or.inl ⟨hm, h2.symm⟩⟩
      · rename_i hm
        obtain ⟨u', hu', hp⟩ := rollPreceding_eq_some.1 h2
        rw [hu] at hu'; cases hu'
        exact ⟨u, f, hu, hf, Or.inr ⟨hm, hp⟩⟩
  · rintro ⟨u, f, hu, hf, h⟩
    refine ⟨some f, rollFollowing_eq_some.2 ⟨u, hu, hf⟩, ?_⟩
    rcases h with ⟨hm, rfl⟩ | ⟨hm, hp⟩
    · simp only [hm, if_true]; rfl
    · simp only [hm, if_false]; exact rollPreceding_eq_some.2 ⟨u, hu, hp⟩

theorem modifiedPreceding_eq (d r : Date) (p : Period) (c : Calendar) :
    Date.checkedRoll d p c .modifiedPreceding = .ok (some r) ↔
      ∃ u f, p.checkedAdd d = .ok (some u) ∧ IsPreceding c u f ∧
        ((f.month = d.month ∧ r = f) ∨ (f.month ≠ d.month ∧ IsFollowing c u r)) := by
  show (Date.rollPreceding p c d >>= _) = .ok (some r) ↔ _
  rw [Rust.bind_eq_ok]
  constructor
  · rintro ⟨o, h1, h2⟩
    cases o with
    | none => simp at h2
    | some f =>
      obtain ⟨u, hu, hf⟩ := rollPreceding_eq_some.1 h1
      simp only at h2
      split at h2
      · rename_i hm
        simp only [Rust.pure_eq, Rust.ok.injEq, Option.some.injEq] at h2
        exact ⟨u, f, hu, hf, Or.inl ⟨hm, h2.symm⟩⟩
      · rename_i hm
        obtain ⟨u', hu', hp⟩ := rollFollowing_eq_some.1 h2
        rw [hu] at hu'; cases hu'
        exact ⟨u, f, hu, hf, Or.inr ⟨hm, hp⟩⟩
  · rintro ⟨u, f, hu, hf, h⟩
    refine ⟨some f, rollPreceding_eq_some.2 ⟨u, hu, hf⟩, ?_⟩
    rcases h with ⟨hm, rfl⟩ | ⟨hm, hp⟩
    · simp only [hm, if_true]; rfl
    · simp only [hm, if_false]; exact rollFollowing_eq_some.2 ⟨u, hu, hp⟩

/-- The rule the code follows: the month of the *start* date decides. -/
theorem C15_modified_following_actual (d r : Date) (p : Period) (c : Calendar) :
    Date.checkedRoll d p c .modifiedFollowing = .ok (some r) ↔
      ∃ u f, p.checkedAdd d = .ok (some u) ∧ IsFollowing c u f ∧
        ((f.month = d.month ∧ r = f) ∨ (f.month ≠ d.month ∧ IsPreceding c u r)) :=
  modifiedFollowing_eq d r p c

/-- The rule the code follows for `ModifiedPreceding`. -/
theorem C15_modified_preceding_actual (d r : Date) (p : Period) (c : Calendar) :
    Date.checkedRoll d p c .modifiedPreceding = .ok (some r) ↔
      ∃ u f, p.checkedAdd d = .ok (some u) ∧ IsPreceding c u f ∧
        ((f.month = d.month ∧ r = f) ∨ (f.month ≠ d.month ∧ IsFollowing c u r)) :=
  modifiedPreceding_eq d r p c

/-- Two dates less than 300 days apart with the same month of the year are in the same month. -/
theorem sameMonth_of_close (a b : Date) (h1 : a.month = b.month)
    (h2 : Date.sub a b ≤ 300) (h3 : -300 ≤ Date.sub a b) : a.year = b.year := by
  have s : Date.sub a b = a.numDaysFromCe - b.numDaysFromCe := rfl
  rw [s] at h2 h3
  have bound : ∀ x y : Date, x.month = y.month → x.year < y.year →
      x.numDaysFromCe + 300 < y.numDaysFromCe := by
    intro x y hm hlt
    unfold NaiveDate.numDaysFromCe NaiveDate.ordinal
    have g1 := daysBeforeYear_mono (y := x.year) (z := y.year) (by omega)
    have g2 := x.day_le
    have g3 := monthLen_le (isLeap x.year) x.month
    have g4 := y.day_pos
    have g5 : daysBeforeMonth (isLeap x.year) x.month ≤ daysBeforeMonth (isLeap y.year) y.month + 1 := by
      rw [← hm]
      rcases month_cases x.month_pos x.month_le with h | h | h | h | h | h | h | h | h | h | h | h <;>
        rw [h] <;> cases isLeap x.year <;> cases isLeap y.year <;> decide
    omega
  rcases Int.lt_trichotomy a.year b.year with h | h | h
  · have := bound a b h1 h; omega
  · exact h
  · have := bound b a h1.symm h; omega

/-- **C15.** If the period does not change the month number (for example a period of zero, or of whole
years) and no run of holidays after the unadjusted date exceeds 300 days, `ModifiedFollowing` follows
the market convention.  Missing for the full property: periods that change the month number, for
which it is false. -/
theorem C15_modified_following_partial (d r u : Date) (p : Period) (c : Calendar)
    (hu : p.checkedAdd d = .ok (some u)) (hm : u.month = d.month)
    (hrun : ∀ f, IsFollowing c u f → Date.sub f u ≤ 300) :
    Date.checkedRoll d p c .modifiedFollowing = .ok (some r) ↔ IsModifiedFollowing c u r := by
  rw [modifiedFollowing_eq]
  unfold IsModifiedFollowing SameMonth
  have key : ∀ f, IsFollowing c u f → ((f.year = u.year ∧ f.month = u.month) ↔ f.month = d.month) := by
    intro f hf
    rw [← hm]
    refine ⟨fun h => h.2, fun h => ⟨sameMonth_of_close f u h (hrun f hf) ?_, h⟩⟩
    have := (NaiveDate.le_iff_serial _ _).1 hf.1
    show -300 ≤ f.numDaysFromCe - u.numDaysFromCe
    omega
  constructor
  · rintro ⟨u', f, hu', hf, h⟩
    rw [hu] at hu'; cases hu'
    refine ⟨f, hf, ?_⟩
    rw [key f hf]; exact h
  · rintro ⟨f, hf, h⟩
    rw [key f hf] at h
    exact ⟨u, f, hu, hf, h⟩

/-- **C15.** Same for `ModifiedPreceding`. -/
theorem C15_modified_preceding_partial (d r u : Date) (p : Period) (c : Calendar)
    (hu : p.checkedAdd d = .ok (some u)) (hm : u.month = d.month)
    (hrun : ∀ f, IsPreceding c u f → Date.sub u f ≤ 300) :
    Date.checkedRoll d p c .modifiedPreceding = .ok (some r) ↔ IsModifiedPreceding c u r := by
  rw [modifiedPreceding_eq]
  unfold IsModifiedPreceding SameMonth
  have key : ∀ f, IsPreceding c u f → ((f.year = u.year ∧ f.month = u.month) ↔ f.month = d.month) := by
    intro f hf
    rw [← hm]
    have h1 := (NaiveDate.le_iff_serial _ _).1 hf.1
    have h2 := hrun f hf
    have s : Date.sub u f = u.numDaysFromCe - f.numDaysFromCe := rfl
    have s' : Date.sub f u = f.numDaysFromCe - u.numDaysFromCe := rfl
    refine ⟨fun h => h.2, fun h => ⟨sameMonth_of_close f u h ?_ ?_, h⟩⟩ <;> omega
  constructor
  · rintro ⟨u', f, hu', hf, h⟩
    rw [hu] at hu'; cases hu'
    refine ⟨f, hf, ?_⟩
    rw [key f hf]; exact h
  · rintro ⟨f, hf, h⟩
    rw [key f hf] at h
    exact ⟨u, f, hu, hf, h⟩

/-- Saturday 29 April 2023 with a zero period, weekends-only calendar: Friday 28 April, by the theorem. -/
example : Date.checkedRoll ⟨2023, 4, 29, by decide⟩ (.days 0) .weekendsOnly .modifiedFollowing =
    .ok (some ⟨2023, 4, 28, by decide⟩) := by
  have hf : IsFollowing .weekendsOnly ⟨2023, 4, 29, by decide⟩ ⟨2023, 5, 1, by decide⟩ :=
    weekendsOnly_isFollowing _ _ (by decide) (by decide) (by decide) (by decide)
  have hp : IsPreceding .weekendsOnly ⟨2023, 4, 29, by decide⟩ ⟨2023, 4, 28, by decide⟩ :=
    weekendsOnly_isPreceding _ _ (by decide) (by decide) (by decide) (by decide)
  refine (C15_modified_following_partial _ _ ⟨2023, 4, 29, by decide⟩ _ _ (by decide) rfl ?_).2 ?_
  · intro f h; rw [isFollowing_unique h hf]; decide
  · exact ⟨_, hf, Or.inr ⟨by unfold SameMonth; decide, hp⟩⟩

/-- **C15 (violated).** One month after 1 March 2023 is Saturday 1 April.  The convention gives Monday
3 April (still April); the code returns Friday 31 March, in another month. -/
theorem C15_refuted : ∃ (d u r : Date) (p : Period) (c : Calendar),
    p.checkedAdd d = .ok (some u) ∧
    Date.checkedRoll d p c .modifiedFollowing = .ok (some r) ∧
    ¬ SameMonth r u ∧ ¬ IsModifiedFollowing c u r := by
  refine ⟨⟨2023, 3, 1, by decide⟩, ⟨2023, 4, 1, by decide⟩, ⟨2023, 3, 31, by decide⟩, .months 1,
    .weekendsOnly, by decide, ?_, by unfold SameMonth; decide, ?_⟩
  · rw [modifiedFollowing_eq]
    exact ⟨_, _, by decide, weekendsOnly_isFollowing_2023_04_01,
      Or.inr ⟨by decide, weekendsOnly_isPreceding_2023_04_01⟩⟩
  · rintro ⟨f, hf, h⟩
    have e := isFollowing_unique hf weekendsOnly_isFollowing_2023_04_01
    subst e
    rcases h with ⟨_, h⟩ | ⟨h, _⟩
    · exact absurd h (by decide)
    · apply h; unfold SameMonth; decide

/-- **C15 (violated in general).** Whenever the following business day is not in the month *of the start
date*, the preceding business day is returned, even if the following one is in the right month. -/
theorem C15_refuted_general (d u f r : Date) (p : Period) (c : Calendar)
    (hu : p.checkedAdd d = .ok (some u)) (hf : IsFollowing c u f) (hm : f.month ≠ d.month) :
    Date.checkedRoll d p c .modifiedFollowing = .ok (some r) ↔ IsPreceding c u r := by
  rw [modifiedFollowing_eq]
  constructor
  · rintro ⟨u', f', hu', hf', h⟩
    rw [hu] at hu'; cases hu'
    rw [isFollowing_unique hf' hf] at h
    rcases h with ⟨h, _⟩ | ⟨_, h⟩
    · exact absurd h hm
    · exact h
  · intro h; exact ⟨u, f, hu, hf, Or.inr ⟨hm, h⟩⟩

/-- One month after 1 March 2023: the code goes back to Friday 31 March. -/
example : Date.checkedRoll ⟨2023, 3, 1, by decide⟩ (.months 1) .weekendsOnly .modifiedFollowing =
    .ok (some ⟨2023, 3, 31, by decide⟩) :=
  (C15_refuted_general _ _ _ _ _ _ (by decide) weekendsOnly_isFollowing_2023_04_01 (by decide)).2
    weekendsOnly_isPreceding_2023_04_01

/-- **C15 (violated).** One month after 30 March 2023 is Sunday 30 April.  The convention gives Friday 28 April (still
April); the code returns Monday 1 May, in another month. -/
theorem C15_refuted_preceding : ∃ (d u r : Date) (p : Period) (c : Calendar),
    p.checkedAdd d = .ok (some u) ∧
    Date.checkedRoll d p c .modifiedPreceding = .ok (some r) ∧
    ¬ SameMonth r u ∧ ¬ IsModifiedPreceding c u r := by
  have hf : IsFollowing .weekendsOnly ⟨2023, 4, 30, by decide⟩ ⟨2023, 5, 1, by decide⟩ :=
    weekendsOnly_isFollowing _ _ (by decide) (by decide) (by decide) (by decide)
  have hp : IsPreceding .weekendsOnly ⟨2023, 4, 30, by decide⟩ ⟨2023, 4, 28, by decide⟩ :=
    weekendsOnly_isPreceding _ _ (by decide) (by decide) (by decide) (by decide)
  refine ⟨⟨2023, 3, 30, by decide⟩, ⟨2023, 4, 30, by decide⟩, ⟨2023, 5, 1, by decide⟩, .months 1,
    .weekendsOnly, by decide, ?_, by unfold SameMonth; decide, ?_⟩
  · rw [modifiedPreceding_eq]
    exact ⟨_, _, by decide, hp, Or.inr ⟨by decide, hf⟩⟩
  · rintro ⟨f, h1, h⟩
    have e := isPreceding_unique h1 hp
    subst e
    rcases h with ⟨_, h⟩ | ⟨h, _⟩
    · exact absurd h (by decide)
    · apply h; unfold SameMonth; decide

/-- **C15 (violated in general).** The mirror image for `ModifiedPreceding`. -/
theorem C15_refuted_preceding_general (d u f r : Date) (p : Period) (c : Calendar)
    (hu : p.checkedAdd d = .ok (some u)) (hf : IsPreceding c u f) (hm : f.month ≠ d.month) :
    Date.checkedRoll d p c .modifiedPreceding = .ok (some r) ↔ IsFollowing c u r := by
  rw [modifiedPreceding_eq]
  constructor
  · rintro ⟨u', f', hu', hf', h⟩
    rw [hu] at hu'; cases hu'
    rw [isPreceding_unique hf' hf] at h
    rcases h with ⟨h, _⟩ | ⟨_, h⟩
    · exact absurd h hm
    · exact h
  · intro h; exact ⟨u, f, hu, hf, Or.inr ⟨hm, h⟩⟩

/-- One month after 30 March 2023: the code goes on to Monday 1 May. -/
example : Date.checkedRoll ⟨2023, 3, 30, by decide⟩ (.months 1) .weekendsOnly .modifiedPreceding =
    .ok (some ⟨2023, 5, 1, by decide⟩) :=
  (C15_refuted_preceding_general _ ⟨2023, 4, 30, by decide⟩ ⟨2023, 4, 28, by decide⟩ _ _ _ (by decide)
    (weekendsOnly_isPreceding _ _ (by decide) (by decide) (by decide) (by decide)) (by decide)).2
    (weekendsOnly_isFollowing _ _ (by decide) (by decide) (by decide) (by decide))

/-! ## C16 -/

/-- **C16.** Whatever the mode, unless it is `Unadjusted`, a returned date is a business day. -/
theorem C16_result_is_business_day (d r : Date) (p : Period) (c : Calendar) (m : DateRolling)
    (hm : m ≠ .unadjusted) (h : Date.checkedRoll d p c m = .ok (some r)) :
    c.isBusinessDay r = .ok true := by
  cases m with
  | unadjusted => exact absurd rfl hm
  | following => obtain ⟨_, _, h⟩ := (C13_following _ _ _ _).1 h; exact h.2.1
  | preceding => obtain ⟨_, _, h⟩ := (C14_preceding _ _ _ _).1 h; exact h.2.1
  | modifiedFollowing =>
    obtain ⟨_, f, _, hf, ⟨_, rfl⟩ | ⟨_, h⟩⟩ := (modifiedFollowing_eq _ _ _ _).1 h
    · exact hf.2.1
    · exact h.2.1
  | modifiedPreceding =>
    obtain ⟨_, f, _, hf, ⟨_, rfl⟩ | ⟨_, h⟩⟩ := (modifiedPreceding_eq _ _ _ _).1 h
    · exact hf.2.1
    · exact h.2.1

example : Calendar.weekendsOnly.isBusinessDay ⟨2023, 4, 3, by decide⟩ = .ok true :=
  C16_result_is_business_day ⟨2023, 4, 1, by decide⟩ _ (.days 0) _ .following (by decide)
    ((C13_following _ _ _ _).2 ⟨_, by decide, weekendsOnly_isFollowing_2023_04_01⟩)

theorem isFollowing_self {c : Calendar} {u : Date} (h : Open c u) : IsFollowing c u u :=
  ⟨date_le_refl u, h, fun x h1 h2 => by rw [← NaiveDate.not_lt_iff] at h1; exact absurd h2 h1⟩

theorem isPreceding_self {c : Calendar} {u : Date} (h : Open c u) : IsPreceding c u u :=
  ⟨date_le_refl u, h, fun x h1 h2 => by rw [← NaiveDate.not_lt_iff] at h2; exact absurd h1 h2⟩

/-- **C16.** If the unadjusted date is a business day, every mode returns it. -/
theorem C16_business_day_fixed (d u : Date) (p : Period) (c : Calendar) (m : DateRolling)
    (hu : p.checkedAdd d = .ok (some u)) (ho : c.isBusinessDay u = .ok true) :
    Date.checkedRoll d p c m = .ok (some u) := by
  have hf := isFollowing_self ho
  have hp := isPreceding_self ho
  cases m with
  | unadjusted => exact hu
  | following => exact (C13_following _ _ _ _).2 ⟨u, hu, hf⟩
  | preceding => exact (C14_preceding _ _ _ _).2 ⟨u, hu, hp⟩
  | modifiedFollowing =>
    refine (modifiedFollowing_eq _ _ _ _).2 ⟨u, u, hu, hf, ?_⟩
    by_cases h : u.month = d.month
    · exact Or.inl ⟨h, rfl⟩
    · exact Or.inr ⟨h, hp⟩
  | modifiedPreceding =>
    refine (modifiedPreceding_eq _ _ _ _).2 ⟨u, u, hu, hp, ?_⟩
    by_cases h : u.month = d.month
    · exact Or.inl ⟨h, rfl⟩
    · exact Or.inr ⟨h, hf⟩

/-- **C16.** `Unadjusted` is plain period addition, whatever the calendar does. -/
theorem C16_unadjusted (d : Date) (p : Period) (c : Calendar) :
    Date.checkedRoll d p c .unadjusted = p.checkedAdd d := rfl

/-- **C16.** Adjusting an adjusted date (with a zero period) changes nothing. -/
theorem C16_idempotent (d r : Date) (p : Period) (c : Calendar) (m : DateRolling)
    (hm : m ≠ .unadjusted) (h : Date.checkedRoll d p c m = .ok (some r)) :
    Date.checkedRoll r (.days 0) c m = .ok (some r) := by
  refine C16_business_day_fixed r r _ c m ?_ (C16_result_is_business_day d r p c m hm h)
  show Rust.ok (Date.checkedAddDays r 0) = _
  rw [checkedAddDays_eq, show r.numDaysFromCe + ((0 : Nat) : Int) = r.numDaysFromCe by omega]
  rw [ofDays_eq_some.2 rfl]

example : (Calendar.weekendsOnly).isBusinessDay ⟨2023, 4, 3, by decide⟩ = .ok true := by decide

/-! ## C17 -/

/-- **C17.** `Following` preserves order of the unadjusted dates. -/
theorem C17_following_mono (d e r s u v : Date) (p q : Period) (c : Calendar)
    (hu : p.checkedAdd d = .ok (some u)) (hv : q.checkedAdd e = .ok (some v)) (huv : u ≤ v)
    (hr : Date.checkedRoll d p c .following = .ok (some r))
    (hs : Date.checkedRoll e q c .following = .ok (some s)) : r ≤ s := by
  obtain ⟨u', hu', hr1, hr2, hr3⟩ := (C13_following _ _ _ _).1 hr
  obtain ⟨v', hv', hs1, hs2, hs3⟩ := (C13_following _ _ _ _).1 hs
  rw [hu] at hu'; cases hu'
  rw [hv] at hv'; cases hv'
  rcases date_lt_or_ge s r with h | h
  · exact (open_not_closed hs2 (hr3 s (date_le_trans huv hs1) h)).elim
  · exact h

example : (⟨2023, 4, 3, by decide⟩ : Date) ≤ ⟨2023, 5, 1, by decide⟩ :=
  C17_following_mono ⟨2023, 4, 1, by decide⟩ ⟨2023, 4, 29, by decide⟩ _ _
    ⟨2023, 4, 1, by decide⟩ ⟨2023, 4, 29, by decide⟩ (.days 0) (.days 0)
    .weekendsOnly (by decide) (by decide) (by decide)
    ((C13_following _ _ _ _).2 ⟨_, by decide, weekendsOnly_isFollowing_2023_04_01⟩)
    ((C13_following _ _ _ _).2 ⟨⟨2023, 4, 29, by decide⟩, by decide,
      weekendsOnly_isFollowing _ _ (by decide) (by decide) (by decide) (by decide)⟩)

/-- **C17.** `Preceding` preserves order of the unadjusted dates. -/
theorem C17_preceding_mono (d e r s u v : Date) (p q : Period) (c : Calendar)
    (hu : p.checkedAdd d = .ok (some u)) (hv : q.checkedAdd e = .ok (some v)) (huv : u ≤ v)
    (hr : Date.checkedRoll d p c .preceding = .ok (some r))
    (hs : Date.checkedRoll e q c .preceding = .ok (some s)) : r ≤ s := by
  obtain ⟨u', hu', hr1, hr2, hr3⟩ := (C14_preceding _ _ _ _).1 hr
  obtain ⟨v', hv', hs1, hs2, hs3⟩ := (C14_preceding _ _ _ _).1 hs
  rw [hu] at hu'; cases hu'
  rw [hv] at hv'; cases hv'
  rcases date_lt_or_ge s r with h | h
  · exact (open_not_closed hr2 (hs3 r h (date_le_trans hr1 huv))).elim
  · exact h

example : (⟨2023, 3, 31, by decide⟩ : Date) ≤ ⟨2023, 4, 28, by decide⟩ :=
  C17_preceding_mono ⟨2023, 4, 1, by decide⟩ ⟨2023, 4, 29, by decide⟩ _ _
    ⟨2023, 4, 1, by decide⟩ ⟨2023, 4, 29, by decide⟩ (.days 0) (.days 0)
    .weekendsOnly (by decide) (by decide) (by decide)
    ((C14_preceding _ _ _ _).2 ⟨_, by decide, weekendsOnly_isPreceding_2023_04_01⟩)
    ((C14_preceding _ _ _ _).2 ⟨⟨2023, 4, 29, by decide⟩, by decide,
      weekendsOnly_isPreceding _ _ (by decide) (by decide) (by decide) (by decide)⟩)

/-- **C17.** `Preceding` is not after and `Following` not before the unadjusted date; they agree exactly
on business days. -/
theorem C17_preceding_le_following (d u r s : Date) (p : Period) (c : Calendar)
    (hu : p.checkedAdd d = .ok (some u))
    (hr : Date.checkedRoll d p c .preceding = .ok (some r))
    (hs : Date.checkedRoll d p c .following = .ok (some s)) :
    r ≤ u ∧ u ≤ s ∧ (r = s ↔ c.isBusinessDay u = .ok true) := by
  obtain ⟨u', hu', hr1, hr2, hr3⟩ := (C14_preceding _ _ _ _).1 hr
  rw [hu] at hu'; cases hu'
  obtain ⟨v', hv', hs1, hs2, hs3⟩ := (C13_following _ _ _ _).1 hs
  rw [hu] at hv'; cases hv'
  refine ⟨hr1, hs1, ?_, ?_⟩
  · rintro rfl; rw [date_le_antisymm hs1 hr1]; exact hr2
  · intro ho
    have e1 := isFollowing_unique (isFollowing_self ho) ⟨hs1, hs2, hs3⟩
    have e2 := isPreceding_unique (isPreceding_self ho) ⟨hr1, hr2, hr3⟩
    rw [← e1, ← e2]

/-- Saturday 1 April 2023 and weekends only: Friday before, Monday after; Monday itself and the Saturday roll in order. -/
example : (⟨2023, 3, 31, by decide⟩ : Date) ≤ ⟨2023, 4, 1, by decide⟩ ∧ (⟨2023, 4, 1, by decide⟩ : Date) ≤ ⟨2023, 4, 3, by decide⟩ ∧
    Date.checkedRoll ⟨2023, 4, 1, by decide⟩ (.days 0) .weekendsOnly .following =
      Date.checkedRoll ⟨2023, 4, 1, by decide⟩ (.days 2) .weekendsOnly .following := by
  have hf : Date.checkedRoll ⟨2023, 4, 1, by decide⟩ (.days 0) .weekendsOnly .following = .ok (some ⟨2023, 4, 3, by decide⟩) :=
    (C13_following _ _ _ _).2 ⟨_, by decide, weekendsOnly_isFollowing_2023_04_01⟩
  have hp : Date.checkedRoll ⟨2023, 4, 1, by decide⟩ (.days 0) .weekendsOnly .preceding = .ok (some ⟨2023, 3, 31, by decide⟩) :=
    (C14_preceding _ _ _ _).2 ⟨_, by decide, weekendsOnly_isPreceding_2023_04_01⟩
  have hm : Date.checkedRoll ⟨2023, 4, 1, by decide⟩ (.days 2) .weekendsOnly .following = .ok (some ⟨2023, 4, 3, by decide⟩) :=
    C16_business_day_fixed _ _ _ _ _ (by decide) (by decide)
  obtain ⟨h1, h2, -⟩ := C17_preceding_le_following _ ⟨2023, 4, 1, by decide⟩ _ _ _ _ (by decide) hp hf
  exact ⟨h1, h2, hf.trans hm.symm⟩

end Qlab.Props
