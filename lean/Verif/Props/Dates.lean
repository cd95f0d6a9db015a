import Verif.Lemmas.Date
import Verif.Spec.Dates

/-!
# Properties of dates (C01-C10)

Statements use the API of the model (`Date.fromYmd`, `Date.sub`, ...) and the relations of
`Verif/Spec/Gregorian.lean` and `Verif/Spec/Dates.lean`.
-/

namespace Qlab.Props

open Spec

/-! ## C01 -/

/-- **C01.** `from_ymd` succeeds exactly on days of the Gregorian calendar in a supported year, and the
accessors of the result give back the arguments. -/
theorem C01_from_ymd (y : Int) (m d : Nat) (r : Date) :
    Date.fromYmd y m d = some r ↔
      SupportedYear y ∧ IsDay y m d ∧ r.year = y ∧ r.month = m ∧ r.day = d := by
  unfold Date.fromYmd
  rw [fromYmdOpt_eq_some]
  constructor
  · rintro ⟨rfl, rfl, rfl⟩
    have := (isValid_iff _ _ _).1 r.valid
    exact ⟨this.1, this.2, rfl, rfl, rfl⟩
  · rintro ⟨_, _, h⟩; exact h

/-- **C01.** Failure is exactly the complement. -/
theorem C01_from_ymd_none (y : Int) (m d : Nat) :
    Date.fromYmd y m d = none ↔ ¬ (SupportedYear y ∧ IsDay y m d) := by
  unfold Date.fromYmd
  rw [fromYmdOpt_eq_none, isValid_iff]

/-- **C01.** Dates are determined by their components. -/
theorem C01_components_determine (a b : Date) (hy : a.year = b.year) (hm : a.month = b.month)
    (hd : a.day = b.day) : a = b := NaiveDate.ext hy hm hd

example : ∃ r, Date.fromYmd 2024 2 29 = some r ∧ r.day = 29 := ⟨_, rfl, rfl⟩
example : Date.fromYmd 1900 2 29 = none := by decide
example : IsDay 2000 2 29 := by unfold IsDay IsLeapYear; omega

/-! ## C02 -/

/-- **C02.** `leap_year` is the Gregorian rule. -/
theorem C02_leap_year_rule (d : Date) : Date.leapYear d = true ↔ IsLeapYear d.year :=
  isLeap_iff_spec d.year

/-- **C02.** `leap_year` is true exactly when 29 February of that year can be constructed. -/
theorem C02_leap_year (d : Date) :
    Date.leapYear d = true ↔ (Date.fromYmd d.year 2 29).isSome = true := by
  rw [C02_leap_year_rule, Option.isSome_iff_exists]
  have hs : SupportedYear d.year := ⟨d.year_ge, d.year_le⟩
  constructor
  · intro h
    have hv : IsValid d.year 2 29 := (isValid_iff _ _ _).2 ⟨hs, Or.inr (Or.inr (Or.inr ⟨rfl, rfl, h⟩))⟩
    exact ⟨_, fromYmdOpt_of_valid hv⟩
  · rintro ⟨r, h⟩
    have h := ((C01_from_ymd _ _ _ _).1 h).2.1
    unfold IsDay at h
    rcases h with ⟨h, _⟩ | ⟨h, _⟩ | ⟨_, _, h⟩ | ⟨_, _, h⟩
    · simp at h
    · simp at h
    · omega
    · exact h

/-- **C02.** The month-length table: `Some(n)` exactly when day `n` exists and day `n + 1` does not
(for months 1..=12 of any year with that leap status). -/
theorem C02_days_in_month (y : Int) (m n : Nat) :
    Date.daysInMonth m (isLeap y) = some n ↔ IsLastDayOfMonth y m n := by
  rw [isLastDay_iff]
  by_cases h : 1 ≤ m ∧ m ≤ 12
  · rw [daysInMonth_eq h.1 h.2, Option.some.injEq]
    constructor
    · intro e; exact ⟨h.1, h.2, e.symm⟩
    · rintro ⟨_, _, e⟩; exact e.symm
  · unfold Date.daysInMonth
    rw [if_neg (by omega), if_neg (by omega), if_neg (by omega)]
    simp; omega

example : Date.leapYear ⟨2000, 1, 1, by decide⟩ = true := by decide
example : Date.leapYear ⟨2100, 1, 1, by decide⟩ = false := by decide

/-! ## C03 -/

/-- **C03.** Date order is serial order. -/
theorem C03_serial_lt (a b : Date) : a < b ↔ Date.serialDate a < Date.serialDate b :=
  NaiveDate.lt_iff_serial a b

/-- **C03.** Different dates have different serials. -/
theorem C03_serial_injective (a b : Date) (h : Date.serialDate a = Date.serialDate b) : a = b :=
  NaiveDate.serial_inj h

example : (⟨2024, 2, 29, by decide⟩ : Date) = ⟨2024, 2, 29, by decide⟩ := C03_serial_injective _ _ (by decide)

/-- **C03.** The epoch: 0001-01-01 has serial 1. -/
theorem C03_serial_epoch (d : Date) (h : Date.fromYmd 1 1 1 = some d) : Date.serialDate d = 1 := by
  have : d = ⟨1, 1, 1, by decide⟩ := by
    have h' : Date.fromYmd 1 1 1 = some ⟨1, 1, 1, by decide⟩ := rfl
    rw [h'] at h; exact (Option.some.inj h).symm
  rw [this]; decide

example : Date.serialDate ⟨1, 1, 1, by decide⟩ = 1 := C03_serial_epoch _ (by decide)

/-- **C03.** The next day has the next serial. -/
theorem C03_serial_succ (a b : Date) (h : Date.succOpt a = some b) :
    Date.serialDate b = Date.serialDate a + 1 := NaiveDate.succOpt_eq_some.1 h

example : Date.serialDate ⟨2024, 3, 1, by decide⟩ = Date.serialDate ⟨2024, 2, 29, by decide⟩ + 1 :=
  C03_serial_succ _ _ (by decide)

/-- **C03.** Serials are consecutive: every integer between the serials of two dates is the serial of a
date. -/
theorem C03_serial_surjective (a b : Date) (n : Int) (h1 : Date.serialDate a ≤ n)
    (h2 : n ≤ Date.serialDate b) : ∃ d : Date, Date.serialDate d = n := by
  have := a.serial_ge
  have := b.serial_le
  unfold Date.serialDate at *
  obtain ⟨d, _, h⟩ := ofDays_isSome n (by omega) (by omega)
  exact ⟨d, h⟩

/-- Some date has the serial 738580, which lies between those of the first days of 2023 and 2024. -/
example : ∃ d : Date, Date.serialDate d = 738580 :=
  C03_serial_surjective ⟨2023, 1, 1, by decide⟩ ⟨2024, 1, 1, by decide⟩ 738580 (by decide) (by decide)

/-- The value asserted by the repository's own test. -/
example : ∃ d, Date.fromYmd 2023 3 1 = some d ∧ Date.serialDate d = 738580 := ⟨_, rfl, by decide⟩

/-! ## C04 -/

/-- **C04.** Subtraction is the difference of serials. -/
theorem C04_sub_serial (a b : Date) : Date.sub a b = Date.serialDate a - Date.serialDate b := rfl

/-- **C04.** Antisymmetry. -/
theorem C04_sub_antisymm (a b : Date) : Date.sub a b = - Date.sub b a := by
  simp only [C04_sub_serial]; omega

/-- **C04.** Additivity over an intermediate date. -/
theorem C04_sub_additive (a b c : Date) : Date.sub c b + Date.sub b a = Date.sub c a := by
  simp only [C04_sub_serial]; omega

/-- **C04.** Zero exactly on equal dates. -/
theorem C04_sub_eq_zero (a b : Date) : Date.sub a b = 0 ↔ a = b := by
  rw [C04_sub_serial, ← NaiveDate.serial_eq_iff]; unfold Date.serialDate; omega

/-- **C04.** Positive exactly when later. -/
theorem C04_sub_pos (a b : Date) : 0 < Date.sub b a ↔ a < b := by
  rw [C03_serial_lt, C04_sub_serial]; omega

/-- **C04.** One day apart exactly when one is the successor of the other. -/
theorem C04_sub_one (a b : Date) : Date.sub b a = 1 ↔ Date.succOpt a = some b := by
  unfold Date.succOpt
  rw [NaiveDate.succOpt_eq_some, C04_sub_serial]; unfold Date.serialDate; omega

/-- 2024 was a leap year: 60 days from 1 January to 1 March. -/
example : Date.sub ⟨2024, 3, 1, by decide⟩ ⟨2024, 1, 1, by decide⟩ = 60 := by decide

/-! ## C05 -/

/-- **C05.** `checked_add_days(n)` returns `r` exactly when `r` is `n` days later. -/
theorem C05_add_days (d r : Date) (n : Nat) :
    Date.checkedAddDays d n = some r ↔ Date.sub r d = n := by
  rw [checkedAddDays_eq, ofDays_eq_some, C04_sub_serial]; unfold Date.serialDate; omega

/-- **C05.** It returns `None` exactly when no date is `n` days later. -/
theorem C05_add_days_none (d : Date) (n : Nat) :
    Date.checkedAddDays d n = none ↔ ∀ r : Date, Date.sub r d ≠ n := by
  rw [Option.eq_none_iff_forall_ne_some]
  exact forall_congr' fun r => not_congr (C05_add_days d r n)

/-- **C05.** `checked_sub_days(n)` returns `r` exactly when `r` is `n` days earlier. -/
theorem C05_sub_days (d r : Date) (n : Nat) :
    Date.checkedSubDays d n = some r ↔ Date.sub d r = n := by
  rw [checkedSubDays_eq, ofDays_eq_some, C04_sub_serial]; unfold Date.serialDate; omega

/-- **C05.** Subtracting days undoes adding them and conversely. -/
theorem C05_add_sub_inverse (d r : Date) (n : Nat) :
    Date.checkedAddDays d n = some r ↔ Date.checkedSubDays r n = some d := by
  rw [C05_add_days, C05_sub_days]

/-- **C05.** Consecutive additions add up. -/
theorem C05_add_days_add (d r : Date) (m n : Nat) (h : Date.checkedAddDays d m = some r) :
    Date.checkedAddDays r n = Date.checkedAddDays d (m + n) := by
  have h := (C05_add_days _ _ _).1 h
  rw [C04_sub_serial] at h
  rw [checkedAddDays_eq, checkedAddDays_eq]
  unfold Date.serialDate at h
  congr 1; omega

example (r : Date) (h : Date.checkedAddDays ⟨2023, 12, 30, by decide⟩ 61 = some r) :
    Date.checkedAddDays r 5 = Date.checkedAddDays ⟨2023, 12, 30, by decide⟩ 66 := C05_add_days_add _ r 61 5 h

/-- **C05.** Adding days is monotone in the date and in the count. -/
theorem C05_add_days_mono (d e r s : Date) (m n : Nat) (hd : d ≤ e) (hmn : m ≤ n)
    (hr : Date.checkedAddDays d m = some r) (hs : Date.checkedAddDays e n = some s) : r ≤ s := by
  have hr := (C05_add_days _ _ _).1 hr
  have hs := (C05_add_days _ _ _).1 hs
  rw [NaiveDate.le_iff_serial] at *
  simp only [C04_sub_serial, Date.serialDate] at *
  omega

example : ∃ r, Date.checkedAddDays ⟨2023, 12, 30, by decide⟩ 61 = some r ∧
    (r.year, r.month, r.day) = (2024, 2, 29) := ⟨_, rfl, rfl⟩
example : Date.checkedAddDays NaiveDate.MAX 1 = none := by decide
example : Date.checkedAddDays ⟨2023, 1, 1, by decide⟩ (2 ^ 64 - 1) = none := by decide

/-! ## C06 -/

/-- **C06.** `succ_opt` and `pred_opt` are mutually inverse. -/
theorem C06_succ_pred_inverse (a b : Date) : Date.succOpt a = some b ↔ Date.predOpt b = some a := by
  unfold Date.succOpt Date.predOpt
  rw [NaiveDate.succOpt_eq_some, NaiveDate.predOpt_eq_some]; omega

/-- **C06.** The successor is the least later date. -/
theorem C06_succ_least (a b : Date) (h : Date.succOpt a = some b) :
    a < b ∧ ∀ x : Date, a < x → b ≤ x := by
  have h := NaiveDate.succOpt_eq_some.1 h
  simp only [NaiveDate.lt_iff_serial, NaiveDate.le_iff_serial]
  exact ⟨by omega, fun x hx => by omega⟩

/-- No date lies between 31 December 2023 and 1 January 2024. -/
example : ∀ x : Date, (⟨2023, 12, 31, by decide⟩ : Date) < x → (⟨2024, 1, 1, by decide⟩ : Date) ≤ x :=
  (C06_succ_least _ _ (by decide)).2

/-- **C06.** The predecessor is the greatest earlier date. -/
theorem C06_pred_greatest (a b : Date) (h : Date.predOpt a = some b) :
    b < a ∧ ∀ x : Date, x < a → x ≤ b := by
  have h := NaiveDate.predOpt_eq_some.1 h
  simp only [NaiveDate.lt_iff_serial, NaiveDate.le_iff_serial]
  exact ⟨by omega, fun x hx => by omega⟩

example : (⟨2024, 2, 29, by decide⟩ : Date) < ⟨2024, 3, 1, by decide⟩ ∧
    ∀ x : Date, x < ⟨2024, 3, 1, by decide⟩ → x ≤ ⟨2024, 2, 29, by decide⟩ :=
  C06_pred_greatest _ _ (by decide)

/-- **C06.** There is no successor exactly at the last representable date. -/
theorem C06_succ_none (a : Date) : Date.succOpt a = none ↔ ∀ x : Date, x ≤ a := by
  unfold Date.succOpt
  rw [NaiveDate.succOpt_eq_none]
  constructor
  · rintro rfl x; exact x.le_MAX
  · intro h
    have h1 := (NaiveDate.le_iff_serial _ _).1 (h NaiveDate.MAX)
    have h2 := (NaiveDate.le_iff_serial _ _).1 a.le_MAX
    exact NaiveDate.serial_inj (by omega)

/-- **C06.** There is no predecessor exactly at the first representable date. -/
theorem C06_pred_none (a : Date) : Date.predOpt a = none ↔ ∀ x : Date, a ≤ x := by
  unfold Date.predOpt
  rw [NaiveDate.predOpt_eq_none]
  constructor
  · rintro rfl x; exact x.MIN_le
  · intro h
    have h1 := (NaiveDate.le_iff_serial _ _).1 (h NaiveDate.MIN)
    have h2 := (NaiveDate.le_iff_serial _ _).1 a.MIN_le
    exact NaiveDate.serial_inj (by omega)

/-- **C06.** Successor and predecessor agree with day arithmetic. -/
theorem C06_succ_eq_add_one (a : Date) : Date.succOpt a = Date.checkedAddDays a 1 := by
  rw [checkedAddDays_eq]; exact NaiveDate.succOpt_eq_ofDays a

example : ∃ r, Date.succOpt ⟨2023, 12, 31, by decide⟩ = some r ∧
    (r.year, r.month, r.day) = (2024, 1, 1) := ⟨_, rfl, rfl⟩
example : ∃ r, Date.predOpt ⟨2024, 3, 1, by decide⟩ = some r ∧
    (r.year, r.month, r.day) = (2024, 2, 29) := ⟨_, rfl, rfl⟩

/-! ## C07 -/

/-- **C07.** `checked_add_months(n)` returns `r` exactly when `r` lies in the month `n` months later and
has the same day of month, or is the last day of a shorter month. -/
theorem C07_add_months (d r : Date) (n : Nat) :
    Date.checkedAddMonths d n = some r ↔
      monthNumber r.year r.month = monthNumber d.year d.month + n ∧
      IsSameDayClamped d.day r.year r.month r.day := by
  rw [addMonths_eq, diffMonths_eq_some]

/-- **C07.** It fails exactly when the target month lies after the supported years. -/
theorem C07_add_months_none (d : Date) (n : Nat) :
    Date.checkedAddMonths d n = none ↔ monthNumber 262142 12 < monthNumber d.year d.month + n := by
  rw [addMonths_eq, diffMonths_eq_none]
  have := monthNumber_bounds d
  unfold SupportedYear
  have e : monthNumber 262142 12 = 3145715 := by decide
  rw [e]; omega

/-- **C07.** The retry from the last day of the own month never changes the answer. -/
theorem C07_retry_is_redundant (d : Date) (n : Nat) :
    Date.checkedAddMonths d n = NaiveDate.checkedAddMonths d n ∧
    Date.checkedSubMonths d n = NaiveDate.checkedSubMonths d n := by
  rw [addMonths_eq, chronoAddMonths_eq, subMonths_eq, chronoSubMonths_eq]; exact ⟨rfl, rfl⟩

example : ∃ r, Date.checkedAddMonths ⟨2023, 12, 31, by decide⟩ 2 = some r ∧
    (r.year, r.month, r.day) = (2024, 2, 29) := ⟨_, rfl, rfl⟩
example : Date.checkedAddMonths ⟨2023, 12, 31, by decide⟩ 4294967295 = none := by decide

/-! ## C08 -/

/-- **C08.** `checked_sub_months(n)`, same rule backwards. -/
theorem C08_sub_months (d r : Date) (n : Nat) :
    Date.checkedSubMonths d n = some r ↔
      monthNumber r.year r.month = monthNumber d.year d.month - n ∧
      IsSameDayClamped d.day r.year r.month r.day := by
  rw [subMonths_eq, diffMonths_eq_some, Int.sub_eq_add_neg]

/-- **C08.** It fails exactly when the target month lies before the supported years. -/
theorem C08_sub_months_none (d : Date) (n : Nat) :
    Date.checkedSubMonths d n = none ↔ monthNumber d.year d.month - n < monthNumber (-262143) 1 := by
  rw [subMonths_eq, diffMonths_eq_none]
  have := monthNumber_bounds d
  unfold SupportedYear
  have e : monthNumber (-262143) 1 = -3145716 := by decide
  rw [e]; omega

theorem sameDayClamped_of_le_28 {d0 : Nat} {r : Date} (h : IsSameDayClamped d0 r.year r.month r.day)
    (h28 : d0 ≤ 28) : r.day = d0 := by
  rcases h with h | ⟨h1, h2⟩
  · exact h
  · have := monthLen_ge (isLeap r.year) r.month_pos r.month_le
    rw [isLastDay_iff] at h2; omega

/-- **C08.** Up to the 28th, subtracting months undoes adding them. -/
theorem C08_sub_add_inverse (d r : Date) (n : Nat) (hd : d.day ≤ 28) (hr : r.day ≤ 28) :
    Date.checkedAddMonths d n = some r ↔ Date.checkedSubMonths r n = some d := by
  rw [C07_add_months, C08_sub_months]
  constructor
  · rintro ⟨h1, h2⟩
    exact ⟨by omega, Or.inl (sameDayClamped_of_le_28 h2 hd).symm⟩
  · rintro ⟨h1, h2⟩
    exact ⟨by omega, Or.inl (sameDayClamped_of_le_28 h2 hr).symm⟩

example : Date.checkedSubMonths ⟨2024, 2, 28, by decide⟩ 2 = some ⟨2023, 12, 28, by decide⟩ :=
  (C08_sub_add_inverse ⟨2023, 12, 28, by decide⟩ ⟨2024, 2, 28, by decide⟩ 2 (by decide) (by decide)).1 (by decide +kernel)

/-- The bound 28 is needed. -/
example : ∃ r, Date.checkedAddMonths ⟨2023, 1, 29, by decide⟩ 1 = some r ∧
    Date.checkedSubMonths r 1 ≠ some ⟨2023, 1, 29, by decide⟩ := ⟨_, rfl, by decide⟩

/-! ## C09 -/

/-- **C09.** Adding the same number of months preserves order. -/
theorem C09_add_months_mono (d e r s : Date) (n : Nat) (hde : d ≤ e)
    (hr : Date.checkedAddMonths d n = some r) (hs : Date.checkedAddMonths e n = some s) : r ≤ s := by
  obtain ⟨r1, r2⟩ := (C07_add_months _ _ _).1 hr
  obtain ⟨s1, s2⟩ := (C07_add_months _ _ _).1 hs
  rw [← NaiveDate.not_lt_iff, lt_iff_monthNumber] at *
  rintro (h | ⟨h, h'⟩)
  · omega
  · have hm : monthNumber s.year s.month = monthNumber r.year r.month := by omega
    obtain ⟨ey, em⟩ := monthNumber_inj s.month_pos s.month_le r.month_pos r.month_le hm
    unfold IsSameDayClamped at r2 s2
    rw [isLastDay_iff] at r2 s2
    rw [ey, em] at s2
    have := r.day_le
    omega

/-- **C09.** Adding at least one month gives a strictly later date. -/
theorem C09_add_months_lt (d r : Date) (n : Nat) (hn : 1 ≤ n)
    (hr : Date.checkedAddMonths d n = some r) : d < r := by
  obtain ⟨r1, _⟩ := (C07_add_months _ _ _).1 hr
  rw [lt_iff_monthNumber]; omega

/-- 31 January plus one month is 28 February, which is later and not later than 1 February plus one month. -/
example : (⟨2023, 1, 31, by decide⟩ : Date) < (⟨2023, 2, 28, by decide⟩ : Date) ∧ (⟨2023, 2, 28, by decide⟩ : Date) ≤ (⟨2023, 3, 1, by decide⟩ : Date) :=
  ⟨C09_add_months_lt _ _ 1 (by decide) (by decide +kernel),
    C09_add_months_mono ⟨2023, 1, 31, by decide⟩ ⟨2023, 2, 1, by decide⟩ _ _ 1 (by decide) (by decide +kernel) (by decide +kernel)⟩

/-- **C09.** Adding zero months changes nothing. -/
theorem C09_add_months_zero (d : Date) : Date.checkedAddMonths d 0 = some d := by
  rw [C07_add_months]; exact ⟨by omega, Or.inl rfl⟩

/-- **C09.** Up to the 28th, months add up. -/
theorem C09_add_months_add (d r : Date) (a b : Nat) (hd : d.day ≤ 28)
    (hr : Date.checkedAddMonths d a = some r) :
    Date.checkedAddMonths r b = Date.checkedAddMonths d (a + b) := by
  obtain ⟨r1, r2⟩ := (C07_add_months _ _ _).1 hr
  have e := sameDayClamped_of_le_28 r2 hd
  apply Option.ext
  intro s
  rw [C07_add_months, C07_add_months, r1, e]
  have : monthNumber d.year d.month + (a : Int) + b = monthNumber d.year d.month + ((a + b : Nat) : Int) := by
    omega
  rw [this]

example : Date.checkedAddMonths ⟨2024, 2, 28, by decide⟩ 3 = Date.checkedAddMonths ⟨2023, 12, 28, by decide⟩ 5 :=
  C09_add_months_add ⟨2023, 12, 28, by decide⟩ ⟨2024, 2, 28, by decide⟩ 2 3 (by decide) (by decide +kernel)

/-- **C09.** In general two steps give a date not later than one combined step, in the same month. -/
theorem C09_add_months_two_steps (d r s t : Date) (a b : Nat)
    (hr : Date.checkedAddMonths d a = some r) (hs : Date.checkedAddMonths r b = some s)
    (ht : Date.checkedAddMonths d (a + b) = some t) :
    s ≤ t ∧ s.year = t.year ∧ s.month = t.month := by
  obtain ⟨r1, r2⟩ := (C07_add_months _ _ _).1 hr
  obtain ⟨s1, s2⟩ := (C07_add_months _ _ _).1 hs
  obtain ⟨t1, t2⟩ := (C07_add_months _ _ _).1 ht
  have hm : monthNumber s.year s.month = monthNumber t.year t.month := by omega
  obtain ⟨ey, em⟩ := monthNumber_inj s.month_pos s.month_le t.month_pos t.month_le hm
  refine ⟨?_, ey, em⟩
  rw [← NaiveDate.not_lt_iff, lt_iff_monthNumber]
  unfold IsSameDayClamped at r2 s2 t2
  rw [isLastDay_iff] at r2 s2 t2
  rw [ey, em] at s2
  have := s.day_le
  rw [ey, em] at this
  omega

/-- Two steps can really be earlier: 31 January, one month and one month. -/
example : ∃ r s t, Date.checkedAddMonths ⟨2023, 1, 31, by decide⟩ 1 = some r ∧
    Date.checkedAddMonths r 1 = some s ∧ Date.checkedAddMonths ⟨2023, 1, 31, by decide⟩ 2 = some t ∧
    s < t := ⟨_, _, _, rfl, rfl, rfl, by decide⟩

/-! ## C10 -/

/-- **C10.** It panics exactly when overflow checks are on and `year + n` does not fit in `i32`. -/
theorem C10_add_years_panic (oc : Bool) (d : Date) (n : Int) :
    Date.checkedAddYears oc d n = .panic ↔
      oc = true ∧ ¬ (-2147483648 ≤ d.year + n ∧ d.year + n ≤ 2147483647) := by
  unfold Date.checkedAddYears addI32 i32Min i32Max
  by_cases h : -2147483648 ≤ d.year + n ∧ d.year + n ≤ 2147483647
  · simp only [h, and_self, if_true, Rust.ok_bind, not_true, and_false, iff_false]
    cases d.withYear (d.year + n) with
    | some r => simp
    | none => cases d.withDay 28 <;> simp
  · simp only [h, if_false, not_false_eq_true, and_true]
    cases oc
    · simp only [Bool.false_eq_true, if_false, Rust.ok_bind, iff_false]
      cases d.withYear _ with
      | some r => simp
      | none => cases d.withDay 28 <;> simp
    · simp

theorem withYear_eq_some {d r : Date} {y : Int} :
    d.withYear y = some r ↔ r.year = y ∧ r.month = d.month ∧ r.day = d.day := fromYmdOpt_eq_some

/-- **C10.** When it returns, it returns the date described by `IsYearsLater` if the target year is
supported, and `None` otherwise; in both build profiles and for every `i32` count. -/
theorem C10_add_years (oc : Bool) (d : Date) (n : Int) (hn : -2147483648 ≤ n ∧ n ≤ 2147483647)
    (o : Option Date) (h : Date.checkedAddYears oc d n = .ok o) (r : Date) :
    o = some r ↔ IsYearsLater d n r := by
  have hd1 := d.year_ge
  have hd2 := d.year_le
  have hv : ∀ y m k, IsValid y m k ↔ SupportedYear y ∧ IsDay y m k := isValid_iff
  have hr1 := r.year_ge
  have hr2 := r.year_le
  unfold Date.checkedAddYears at h
  rw [Rust.bind_eq_ok] at h
  obtain ⟨y, hy, h⟩ := h
  have hy' : y = d.year + n ∨ (¬ SupportedYear y ∧ ¬ SupportedYear (d.year + n)) := by
    unfold addI32 i32Min i32Max two32 at hy
    split at hy
    · simp at hy; exact Or.inl hy.symm
    · split at hy
      · simp at hy
      · simp at hy; right; unfold SupportedYear; omega
  cases hw : d.withYear y with
  | some w =>
    rw [hw] at h
    simp only [Rust.pure_eq, Rust.ok.injEq] at h
    subst h
    have hw' := withYear_eq_some.1 hw
    have hy : y = d.year + n := by
      rcases hy' with h | ⟨h, _⟩
      · exact h
      · exfalso; apply h; rw [← hw'.1]; exact ⟨w.year_ge, w.year_le⟩
    have hday : IsDay (d.year + n) d.month d.day := by
      have := w.isDay; rw [hw'.1, hw'.2.1, hw'.2.2, hy] at this; exact this
    unfold IsYearsLater
    simp only [Option.some.injEq]
    constructor
    · rintro rfl
      exact ⟨hw'.1.trans hy, hw'.2.1, Or.inl ⟨hday, hw'.2.2⟩⟩
    · rintro ⟨e1, e2, ⟨_, e3⟩ | ⟨hn, _⟩⟩
      · exact NaiveDate.ext (hw'.1.trans (hy.trans e1.symm)) (hw'.2.1.trans e2.symm) (hw'.2.2.trans e3.symm)
      · exact absurd hday hn
  | none =>
    rw [hw] at h
    have h28 : d.withDay 28 = some ⟨d.year, d.month, 28,
        d.valid.1, d.valid.2.1, d.month_pos, d.month_le, by omega, monthLen_ge _ d.month_pos d.month_le⟩ :=
      fromYmdOpt_of_valid _
    simp only [h28, hy, Rust.ok_bind, Rust.pure_eq, Rust.ok.injEq] at h
    subst h
    rw [withYear_eq_some]
    have hno : ¬ IsValid y d.month d.day := fromYmdOpt_eq_none.1 hw
    rw [hv] at hno
    unfold IsYearsLater
    simp only
    rcases hy' with rfl | ⟨h1, h2⟩
    · by_cases hs : SupportedYear (d.year + n)
      · have hnd : ¬ IsDay (d.year + n) d.month d.day := fun h => hno ⟨hs, h⟩
        have hfeb : d.month = 2 ∧ d.day = 29 := by
          have h1 := d.isDay
          unfold IsDay at h1 hnd
          generalize IsLeapYear d.year = P at h1
          generalize IsLeapYear (d.year + n) = Q at hnd
          simp only [List.mem_cons, List.not_mem_nil, or_false] at *
          omega
        constructor
        · rintro ⟨e1, e2, e3⟩; exact ⟨e1, e2, Or.inr ⟨hnd, hfeb.1, hfeb.2, e3⟩⟩
        · rintro ⟨e1, e2, ⟨h, _⟩ | ⟨_, _, _, e3⟩⟩
          · exact absurd h hnd
          · exact ⟨e1, e2, e3⟩
      · constructor
        · rintro ⟨e1, _⟩; exact absurd ⟨e1 ▸ hr1, e1 ▸ hr2⟩ hs
        · rintro ⟨e1, _⟩; exact absurd ⟨e1 ▸ hr1, e1 ▸ hr2⟩ hs
    · constructor
      · rintro ⟨e1, _⟩; exact absurd ⟨e1 ▸ hr1, e1 ▸ hr2⟩ h1
      · rintro ⟨e1, _⟩; exact absurd ⟨e1 ▸ hr1, e1 ▸ hr2⟩ h2

example : IsYearsLater ⟨2024, 2, 28, by decide⟩ (-3) ⟨2021, 2, 28, by decide⟩ :=
  (C10_add_years true _ (-3) (by decide) _ (by decide) _).1 rfl

/-- **C10.** For every supported target year a date is returned. -/
theorem C10_add_years_some (oc : Bool) (d : Date) (n : Int) (h : SupportedYear (d.year + n)) :
    ∃ r, Date.checkedAddYears oc d n = .ok (some r) := by
  have hd1 := d.year_ge
  have hd2 := d.year_le
  have hsup := h
  unfold SupportedYear at h
  have hle : ∀ o, Date.checkedAddYears oc d n = .ok o → ∃ r, o = some r := by
    intro o ho
    by_cases hday : IsDay (d.year + n) d.month d.day
    · exact ⟨⟨_, _, _, (isValid_iff _ _ _).2 ⟨hsup, hday⟩⟩,
        (C10_add_years oc d n (by omega) o ho _).2 ⟨rfl, rfl, Or.inl ⟨hday, rfl⟩⟩⟩
    · have hfeb : d.month = 2 ∧ d.day = 29 := by
        have h1 := d.isDay
        unfold IsDay at h1 hday
        generalize IsLeapYear d.year = P at h1
        generalize IsLeapYear (d.year + n) = Q at hday
        simp only [List.mem_cons, List.not_mem_nil, or_false] at *
        omega
      have hv : IsValid (d.year + n) d.month 28 :=
        (isValid_iff _ _ _).2 ⟨hsup, Or.inr (Or.inr (Or.inl ⟨hfeb.1, by omega, by omega⟩))⟩
      exact ⟨⟨_, _, _, hv⟩,
        (C10_add_years oc d n (by omega) o ho _).2 ⟨rfl, rfl, Or.inr ⟨hday, hfeb.1, hfeb.2, rfl⟩⟩⟩
  cases hc : Date.checkedAddYears oc d n with
  | panic => rw [C10_add_years_panic] at hc; omega
  | ok o => obtain ⟨r, hr⟩ := hle o hc; exact ⟨r, by rw [hr]⟩

example : ∃ r, Date.checkedAddYears true ⟨2024, 2, 29, by decide⟩ 1000 = .ok (some r) :=
  C10_add_years_some true ⟨2024, 2, 29, by decide⟩ 1000 (by unfold SupportedYear; decide)

/-- **C10.** For `n >= 0`, adding `n` years is adding `12 * n` months. -/
theorem C10_add_years_months (oc : Bool) (d : Date) (n : Nat) (hn : n ≤ 2147483647) (o : Option Date)
    (h : Date.checkedAddYears oc d n = .ok o) : o = Date.checkedAddMonths d (12 * n) := by
  apply Option.ext
  intro r
  rw [C10_add_years oc d n (by omega) o h, C07_add_months]
  have hrm := r.month_pos
  have hrm2 := r.month_le
  have hdm := d.month_pos
  have hdm2 := d.month_le
  have hrd := r.day_le
  have hdd := d.day_le
  have hdd1 := d.day_pos
  unfold IsYearsLater IsSameDayClamped
  rw [isDay_iff, isLastDay_iff]
  constructor
  · rintro ⟨e1, e2, h3⟩
    refine ⟨by unfold monthNumber; omega, ?_⟩
    rw [← e1] at h3
    rcases h3 with ⟨_, e3⟩ | ⟨h3, e4, e5, e6⟩
    · exact Or.inl e3
    · right
      rw [e4] at h3
      have : monthLen (isLeap r.year) 2 = 28 := by
        cases hl : isLeap r.year
        · rfl
        · rw [hl] at h3; exfalso; apply h3; rw [e5]; decide
      rw [e2, e4]; omega
  · rintro ⟨h1, h2⟩
    have e1 : r.year = d.year + n ∧ r.month = d.month := by unfold monthNumber at h1; omega
    refine ⟨e1.1, e1.2, ?_⟩
    rw [← e1.1, ← e1.2]
    rw [← e1.2] at hdd
    rcases h2 with e | ⟨hlt, _, _, hlen⟩
    · left; exact ⟨⟨hrm, hrm2, hdd1, by omega⟩, e⟩
    · right
      have hmm : r.month = 2 := by
        rcases month_cases hrm hrm2 with h | h | h | h | h | h | h | h | h | h | h | h <;>
          rw [h] at hdd hlen <;> simp only [monthLen] at hdd hlen <;> omega
      rw [hmm] at hdd hlen ⊢
      cases hl : isLeap r.year <;> cases hl' : isLeap d.year <;> rw [hl] at hlen <;> rw [hl'] at hdd <;>
        simp [monthLen] at hdd hlen ⊢ <;> omega

example : ∃ r, Date.checkedAddYears true ⟨2024, 2, 29, by decide⟩ 1 = .ok (some r) ∧
    (r.year, r.month, r.day) = (2025, 2, 28) := ⟨_, rfl, rfl⟩
example : Date.checkedAddYears true ⟨2024, 2, 29, by decide⟩ 2147483647 = .panic := by decide
example : Date.checkedAddYears false ⟨2024, 2, 29, by decide⟩ 2147483647 = .ok none := by decide

end Qlab.Props
