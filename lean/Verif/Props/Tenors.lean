import Verif.Props.Lengths
import Verif.Props.ModifiedOrder

/-!
# Longer tenors reach later dates (C122)
-/

namespace Qlab.Spec

/-- A number of years that `Years::new` takes. -/
def InI32 (n : Int) : Prop := -2147483648 ≤ n ∧ n ≤ 2147483647

/-- Comparisons of periods that hold whatever the date they are added to, for `R` being `≤` or `<` on whole numbers: between
periods of the same kind, between years and months at 12 months a year, between months and days if there are enough of them
at 28 or 31 days a month, between years and days at 365 or 366 days a year. -/
inductive Compares (R : Int → Int → Prop) : Period → Period → Prop
  | days (m n : Nat) : R m n → Compares R (.days m) (.days n)
  | months (m n : Nat) : R m n → Compares R (.months m) (.months n)
  | years (oc oc' : Bool) (m n : Int) : InI32 m → InI32 n → R m n → Compares R (.years oc m) (.years oc' n)
  | monthsYears (oc : Bool) (m : Nat) (n : Int) : InI32 n → R m (12 * n) → Compares R (.months m) (.years oc n)
  | yearsMonths (oc : Bool) (m : Int) (n : Nat) : InI32 m → R (12 * m) n → Compares R (.years oc m) (.months n)
  | daysMonths (m n : Nat) : R m (28 * n) → Compares R (.days m) (.months n)
  | monthsDays (m n : Nat) : R (31 * m) n → Compares R (.months m) (.days n)
  | daysYears (oc : Bool) (m : Nat) (n : Int) : InI32 n → R m (365 * n) → Compares R (.days m) (.years oc n)
  | yearsDays (oc : Bool) (m : Int) (n : Nat) : InI32 m → R (366 * m) n → Compares R (.years oc m) (.days n)

end Qlab.Spec

namespace Qlab.Props

open Spec

/-- Least and greatest number of days between the days numbered `e` of two months that lie 1 or 12 months apart, both cut to the
length of their month. -/
theorem month_step : ∀ l l' : Bool, (l && l') = false → ∀ q ∈ ([(1, 28, 31), (12, 365, 366)] : List (Nat × Nat × Nat)),
    ∀ m < 13, 1 ≤ m → ∀ e < 32, 1 ≤ e →
    if m + q.1 ≤ 12 then
      daysBeforeMonth l m + min e (monthLen l m) + q.2.1 ≤ daysBeforeMonth l (m + q.1) + min e (monthLen l (m + q.1)) ∧
      daysBeforeMonth l (m + q.1) + min e (monthLen l (m + q.1)) ≤ daysBeforeMonth l m + min e (monthLen l m) + q.2.2
    else
      daysBeforeMonth l m + min e (monthLen l m) + q.2.1 ≤
        365 + (if l then 1 else 0) + daysBeforeMonth l' (m + q.1 - 12) + min e (monthLen l' (m + q.1 - 12)) ∧
      365 + (if l then 1 else 0) + daysBeforeMonth l' (m + q.1 - 12) + min e (monthLen l' (m + q.1 - 12)) ≤
        daysBeforeMonth l m + min e (monthLen l m) + q.2.2 := by
  decide +kernel

theorem step_days {d r : Date} {e n lo hi : Nat} (hq : (n, lo, hi) ∈ ([(1, 28, 31), (12, 365, 366)] : List (Nat × Nat × Nat)))
    (h : monthNumber r.year r.month = monthNumber d.year d.month + n) (e1 : 1 ≤ e) (e2 : e ≤ 31)
    (hd : d.day = min e (monthLen (isLeap d.year) d.month)) (hr : r.day = min e (monthLen (isLeap r.year) r.month)) :
    (lo : Int) ≤ Date.sub r d ∧ Date.sub r d ≤ hi := by
  have hn : 1 ≤ n ∧ n ≤ 12 := by
    simp only [List.mem_cons, Prod.mk.injEq, List.not_mem_nil, or_false] at hq
    omega
  have hm1 := d.month_pos
  have hm2 := d.month_le
  have hk := month_step (isLeap d.year) (isLeap (d.year + 1)) (leap_not_twice _) (n, lo, hi) hq d.month (by omega) hm1
    e (by omega) e1
  have hs := daysBeforeYear_succ d.year
  show (lo : Int) ≤ r.numDaysFromCe - d.numDaysFromCe ∧ r.numDaysFromCe - d.numDaysFromCe ≤ hi
  unfold NaiveDate.numDaysFromCe NaiveDate.ordinal
  rcases months_later_cases hn.1 hn.2 h with ⟨e1, e2⟩ | ⟨e1, e2⟩
  · have hr1 := r.month_le
    rw [e1, e2] at hr
    rw [if_pos (by show d.month + n ≤ 12; omega)] at hk
    rw [e1, e2, hr, hd]
    push_cast
    simp only at hk
    omega
  · have hr1 := r.month_pos
    have e3 : r.month = d.month + n - 12 := by omega
    rw [e1, e3] at hr
    rw [if_neg (by show ¬ d.month + n ≤ 12; omega)] at hk
    rw [e1, e3, hr, hd, hs]
    simp only at hk
    cases hl : isLeap d.year <;> simp only [hl, if_true, Bool.false_eq_true, if_false] at hk ⊢ <;> push_cast <;> omega

/-- `k n` months are `n` times as long as `k` months at least and at most. -/
theorem steps_days {k lo hi : Nat} (hq : (k, lo, hi) ∈ ([(1, 28, 31), (12, 365, 366)] : List (Nat × Nat × Nat))) (d : Date)
    (n : Nat) : ∀ r : Date, IsMonthsLater (k * n : Nat) d r →
      (lo * n : Int) ≤ Date.sub r d ∧ Date.sub r d ≤ (hi * n : Int) := by
  have hd1 := d.day_pos
  have hd2 := d.day_le
  have hd3 := monthLen_le (isLeap d.year) d.month
  induction n with
  | zero =>
    intro r h
    have : Date.checkedAddMonths d 0 = some r := (C07_add_months d r 0).2 (by simpa [IsMonthsLater] using h)
    rw [C09_add_months_zero] at this
    obtain rfl := Option.some.inj this
    rw [C04_sub_serial]
    constructor <;> simp
  | succ n ih =>
    intro r h
    obtain ⟨s, hs⟩ : ∃ s, Date.checkedAddMonths d (k * n) = some s := by
      rw [← Option.ne_none_iff_exists']
      intro hn
      rw [C07_add_months_none] at hn
      have := (C07_add_months d r (k * (n + 1))).2 h
      have h' := (C07_add_months_none d (k * (n + 1))).not.1 (by rw [this]; simp)
      rw [Nat.mul_succ] at h'
      push_cast at h' hn
      omega
    have hs := (C07_add_months _ _ _).1 hs
    have i := ih s hs
    have e := step_days (d := s) (r := r) (e := d.day) hq (by
        rw [h.1, hs.1, Nat.mul_succ]; push_cast; ring) hd1 (by omega) (clamped_eq hs.2) (clamped_eq h.2)
    rw [C04_sub_serial] at *
    push_cast
    constructor <;> linarith [e.1, e.2, i.1, i.2]

/-- Whole years are twelve months each. -/
theorem years_months {d r : Date} {n : Int} (h : IsYearsLater d n r) : IsMonthsLater (12 * n) d r := by
  obtain ⟨h1, h2, h3⟩ := h
  refine ⟨?_, ?_⟩
  · rw [h1, h2]; unfold monthNumber; ring
  · rcases h3 with ⟨-, h⟩ | ⟨h, a, b, c⟩
    · exact .inl h
    · refine .inr ⟨by omega, ?_⟩
      rw [isLastDay_iff, h1, h2, a, c]
      rw [a, b] at h
      cases hl : isLeap (d.year + n)
      · simp [monthLen]
      · refine absurd ?_ h
        have := (isLeap_iff (d.year + n)).1 hl
        unfold IsDay IsLeapYear
        simp
        omega

/-- Months counted with a sign: later months, later dates. -/
theorem months_ordered {d u v : Date} {m n : Int} (hu : IsMonthsLater m d u) (hv : IsMonthsLater n d v) :
    (m < n → u < v) ∧ (m = n → u = v) := by
  constructor
  · intro h
    rw [lt_iff_monthNumber, hu.1, hv.1]
    left; omega
  · rintro rfl
    have h1 := hu.1.trans hv.1.symm
    have := u.month_pos; have := u.month_le; have := v.month_pos; have := v.month_le
    unfold monthNumber at h1
    have ey : u.year = v.year := by omega
    have em : u.month = v.month := by omega
    have ed : u.day = v.day := by
      rw [clamped_eq hu.2, clamped_eq hv.2, ey, em]
    exact NaiveDate.ext ey em ed

theorem months_zero (d : Date) : IsMonthsLater 0 d d := ⟨by omega, .inl rfl⟩

theorem lt_of_sub {d u v : Date} (h : Date.sub u d < Date.sub v d) : u < v := by
  rw [C04_sub_serial, C04_sub_serial] at h
  rw [NaiveDate.lt_iff_serial]
  unfold Date.serialDate at h
  omega

theorem eq_of_sub {d u v : Date} (h : Date.sub u d = Date.sub v d) : u = v := by
  rw [C04_sub_serial, C04_sub_serial] at h
  refine le_antisymm ?_ ?_ <;>
    · rw [NaiveDate.le_iff_serial]
      unfold Date.serialDate at h
      omega

theorem days_of_months {d r : Date} {n : Nat} (h : IsMonthsLater n d r) :
    (28 * n : Int) ≤ Date.sub r d ∧ Date.sub r d ≤ 31 * n :=
  steps_days (k := 1) (lo := 28) (hi := 31) (by simp) d n r (by rw [one_mul]; exact h)

theorem days_of_years {d r : Date} {n : Nat} (h : IsMonthsLater (12 * n) d r) :
    (365 * n : Int) ≤ Date.sub r d ∧ Date.sub r d ≤ 366 * n :=
  steps_days (k := 12) (lo := 365) (hi := 366) (by simp) d n r (by push_cast; exact h)

/-- The three kinds of periods. -/
theorem add_months_some {d u : Date} {n : Nat} (h : (Period.months n).checkedAdd d = .ok (some u)) : IsMonthsLater n d u :=
  (C07_add_months d u n).1 (Rust.ok.inj h)

theorem add_days_some {d u : Date} {n : Nat} (h : (Period.days n).checkedAdd d = .ok (some u)) : Date.sub u d = n :=
  (C05_add_days d u n).1 (Rust.ok.inj h)

theorem add_years_some {d u : Date} {oc : Bool} {n : Int} (hn : InI32 n)
    (h : (Period.years oc n).checkedAdd d = .ok (some u)) : IsMonthsLater (12 * n) d u :=
  years_months ((C10_add_years oc d n hn _ h u).1 rfl)

/-- A comparison by days or by months, and what follows. -/
theorem compares_ordered {R : Int → Int → Prop} (hR : ∀ m n, R m n → m ≤ n) {p q : Period} (h : Compares R p q) {d u v : Date}
    (hu : p.checkedAdd d = .ok (some u)) (hv : q.checkedAdd d = .ok (some v)) :
    ∃ m n : Int, R m n ∧ (m < n → u < v) ∧ (m = n → u ≤ v) := by
  cases h with
  | days m n h =>
    have a := add_days_some hu
    have b := add_days_some hv
    exact ⟨m, n, h, fun i => lt_of_sub (d := d) (by omega), fun i => (eq_of_sub (d := d) (by omega)).le⟩
  | months m n h =>
    obtain ⟨a, b⟩ := months_ordered (add_months_some hu) (add_months_some hv)
    exact ⟨m, n, h, a, fun i => (b i).le⟩
  | years oc oc' m n hp hq h =>
    obtain ⟨a, b⟩ := months_ordered (add_years_some hp hu) (add_years_some hq hv)
    exact ⟨m, n, h, fun i => a (by omega), fun i => (b (by omega)).le⟩
  | monthsYears oc m n hq h =>
    obtain ⟨a, b⟩ := months_ordered (add_months_some hu) (add_years_some hq hv)
    exact ⟨_, _, h, a, fun i => (b i).le⟩
  | yearsMonths oc m n hp h =>
    obtain ⟨a, b⟩ := months_ordered (add_years_some hp hu) (add_months_some hv)
    exact ⟨_, _, h, a, fun i => (b i).le⟩
  | daysMonths m n h =>
    have a := add_days_some hu
    have b := days_of_months (add_months_some hv)
    refine ⟨_, _, h, fun i => lt_of_sub (d := d) (by omega), fun i => ?_⟩
    rcases lt_or_eq_of_le (show Date.sub u d ≤ Date.sub v d by omega) with k | k
    · exact (lt_of_sub k).le
    · exact (eq_of_sub k).le
  | monthsDays m n h =>
    have a := days_of_months (add_months_some hu)
    have b := add_days_some hv
    refine ⟨_, _, h, fun i => lt_of_sub (d := d) (by omega), fun i => ?_⟩
    rcases lt_or_eq_of_le (show Date.sub u d ≤ Date.sub v d by omega) with k | k
    · exact (lt_of_sub k).le
    · exact (eq_of_sub k).le
  | daysYears oc m n hq h =>
    have h0 := hR _ _ h
    obtain ⟨n, rfl⟩ : ∃ k : Nat, n = k := ⟨n.toNat, by omega⟩
    have a := add_days_some hu
    have b := days_of_years (add_years_some hq hv)
    refine ⟨_, _, h, fun i => lt_of_sub (d := d) (by omega), fun i => ?_⟩
    rcases lt_or_eq_of_le (show Date.sub u d ≤ Date.sub v d by omega) with k | k
    · exact (lt_of_sub k).le
    · exact (eq_of_sub k).le
  | yearsDays oc m n hp h =>
    have b := add_days_some hv
    have a := add_years_some hp hu
    rcases lt_or_ge m 0 with hm | hm
    · have c := (months_ordered a (months_zero d)).1 (by omega)
      have e : d ≤ v := by
        rw [C04_sub_serial] at b
        rw [NaiveDate.le_iff_serial]
        unfold Date.serialDate at b
        omega
      exact ⟨_, _, h, fun _ => lt_of_lt_of_le c e, fun _ => (lt_of_lt_of_le c e).le⟩
    · obtain ⟨m, rfl⟩ : ∃ k : Nat, m = k := ⟨m.toNat, by omega⟩
      have a := days_of_years a
      refine ⟨_, _, h, fun i => lt_of_sub (d := d) (by omega), fun i => ?_⟩
      rcases lt_or_eq_of_le (show Date.sub u d ≤ Date.sub v d by omega) with k | k
      · exact (lt_of_sub k).le
      · exact (eq_of_sub k).le

/-- **C122.** A period that is not longer than another one never reaches a later date, and a shorter one reaches an earlier
date: days, months and years, compared with each other. -/
theorem C122_period (p q : Period) (d u v : Date) (hu : p.checkedAdd d = .ok (some u))
    (hv : q.checkedAdd d = .ok (some v)) :
    (Compares (· ≤ ·) p q → u ≤ v) ∧ (Compares (· < ·) p q → u < v) := by
  constructor
  · intro h
    obtain ⟨m, n, h, a, b⟩ := compares_ordered (fun _ _ h => h) h hu hv
    rcases lt_or_eq_of_le h with i | i
    · exact (a i).le
    · exact b i
  · intro h
    obtain ⟨m, n, h, a, -⟩ := compares_ordered (fun _ _ h => le_of_lt h) h hu hv
    exact a h

/-- One month after 31 January 2023 is not before 28 days after it and not after 31 days after it; two years after it are
after 730 - 1 days. -/
example : (⟨2023, 2, 28, by decide⟩ : Date) ≤ ⟨2023, 2, 28, by decide⟩ ∧
    (⟨2023, 2, 28, by decide⟩ : Date) ≤ ⟨2023, 3, 3, by decide⟩ ∧
    (⟨2025, 1, 29, by decide⟩ : Date) < ⟨2025, 1, 31, by decide⟩ :=
  ⟨(C122_period (.days 28) (.months 1) ⟨2023, 1, 31, by decide⟩ _ _ (by decide)
      (by decide)).1 (.daysMonths _ _ (by decide)),
    (C122_period (.months 1) (.days 31) ⟨2023, 1, 31, by decide⟩ _ _ (by decide)
      (by decide)).1 (.monthsDays _ _ (by decide)),
    (C122_period (.days 729) (.years true 2) ⟨2023, 1, 31, by decide⟩ _ _ (by decide)
      (by decide)).2 (.daysYears _ _ _ (by unfold InI32; decide) (by decide))⟩

/-- If a roll succeeds, so does the addition of its period. -/
theorem roll_add {d r : Date} {p : Period} {c : Calendar} {m : DateRolling}
    (h : Date.checkedRoll d p c m = .ok (some r)) : ∃ u, p.checkedAdd d = .ok (some u) := by
  cases m with
  | unadjusted => exact ⟨r, h⟩
  | following => obtain ⟨u, hu, -⟩ := (C13_following d r p c).1 h; exact ⟨u, hu⟩
  | modifiedFollowing => obtain ⟨u, _, hu, -⟩ := (C15_modified_following_actual d r p c).1 h; exact ⟨u, hu⟩
  | preceding => obtain ⟨u, hu, -⟩ := (C14_preceding d r p c).1 h; exact ⟨u, hu⟩
  | modifiedPreceding => obtain ⟨u, _, hu, -⟩ := (C15_modified_preceding_actual d r p c).1 h; exact ⟨u, hu⟩

/-- **C122.** From one date, a longer tenor never gives an earlier adjusted date, whatever the calendar and the convention, the
modified ones included. -/
theorem C122_adjusted (c : Calendar) (m : DateRolling) (p q : Period) (h : Compares (· ≤ ·) p q) (d r s : Date)
    (hr : Date.checkedRoll d p c m = .ok (some r)) (hs : Date.checkedRoll d q c m = .ok (some s)) : r ≤ s := by
  obtain ⟨u, hu⟩ := roll_add hr
  obtain ⟨v, hv⟩ := roll_add hs
  exact C117_same_month_partial c m d d r s u v p q rfl hu hv ((C122_period p q d u v hu hv).1 h) hr hs

/-- Two and three months after Thursday 30 November 2023: Tuesday 30 January and Thursday 29 February 2024. -/
example : (⟨2024, 1, 30, by decide⟩ : Date) ≤ ⟨2024, 2, 29, by decide⟩ :=
  C122_adjusted .weekendsOnly .modifiedFollowing (.months 2) (.months 3) (.months _ _ (by decide))
    ⟨2023, 11, 30, by decide⟩ _ _ (C16_business_day_fixed _ _ _ _ _ (by decide) (by decide))
    (C16_business_day_fixed _ _ _ _ _ (by decide) (by decide))

/-- Two dates in the same month. -/
theorem sub_same_month {v w : Date} (h : monthNumber v.year v.month = monthNumber w.year w.month) : Date.sub v w ≤ 30 := by
  have := v.month_pos; have := v.month_le; have := w.month_pos; have := w.month_le
  have := v.day_le; have := monthLen_le (isLeap v.year) v.month; have := w.day_pos
  unfold monthNumber at h
  have ey : v.year = w.year := by omega
  have em : v.month = w.month := by omega
  show v.numDaysFromCe - w.numDaysFromCe ≤ 30
  unfold NaiveDate.numDaysFromCe NaiveDate.ordinal
  rw [ey, em] at *
  push_cast
  omega

/-- A date before the month `m` months later is less than `31 m` days later. -/
theorem days_lt_of_month {d v : Date} {m : Nat} (h : monthNumber v.year v.month < monthNumber d.year d.month + m) :
    Date.sub v d < 31 * m ∨ v < d := by
  rcases date_lt_or_ge v d with hvd | hvd
  · exact .inr hvd
  left
  have hle : monthNumber d.year d.month ≤ monthNumber v.year v.month := by
    by_contra hc
    have : v < d := by rw [lt_iff_monthNumber]; left; omega
    exact absurd this (not_lt.2 hvd)
  obtain ⟨k, hk⟩ : ∃ k : Nat, monthNumber v.year v.month = monthNumber d.year d.month + k :=
    ⟨(monthNumber v.year v.month - monthNumber d.year d.month).toNat, by omega⟩
  obtain ⟨w, hw⟩ : ∃ w, Date.checkedAddMonths d k = some w := by
    rw [← Option.ne_none_iff_exists']
    intro hn
    rw [C07_add_months_none, ← hk] at hn
    have := (monthNumber_bounds v).2
    have e : monthNumber 262142 12 = 3145715 := by decide
    omega
  have hw := (C07_add_months _ _ _).1 hw
  have b := (days_of_months hw).2
  have c := sub_same_month (v := v) (w := w) (by rw [hk, hw.1])
  rw [C04_sub_serial] at *
  omega

/-- Two dates in the same year. -/
theorem sub_same_year {v w : Date} (h : v.year = w.year) : Date.sub v w ≤ 365 := by
  have a := v.ordinal_le
  have b := w.ordinal_pos
  have c : (365 + if isLeap v.year then 1 else 0) ≤ 366 := by split <;> omega
  show v.numDaysFromCe - w.numDaysFromCe ≤ 365
  unfold NaiveDate.numDaysFromCe
  rw [h]
  omega

/-- A date before the year `m` years later is less than `366 m` days later. -/
theorem days_lt_of_year {d v : Date} {m : Nat} (h : v.year < d.year + m) : Date.sub v d < 366 * m ∨ v < d := by
  rcases date_lt_or_ge v d with hvd | hvd
  · exact .inr hvd
  left
  have hle : d.year ≤ v.year := by
    by_contra hc
    have : v < d := by rw [NaiveDate.lt_iff]; left; omega
    exact absurd this (not_lt.2 hvd)
  obtain ⟨k, hk⟩ : ∃ k : Nat, v.year = d.year + k := ⟨(v.year - d.year).toNat, by omega⟩
  have hv := v.year_le
  have hd1 := d.month_pos
  have hd2 := d.month_le
  obtain ⟨w, hw⟩ : ∃ w, Date.checkedAddMonths d (12 * k) = some w := by
    rw [← Option.ne_none_iff_exists']
    intro hn
    rw [C07_add_months_none] at hn
    have e : monthNumber 262142 12 = 3145715 := by decide
    unfold monthNumber at hn e
    push_cast at hn
    omega
  have hw := (C07_add_months _ _ _).1 hw
  have b := (days_of_years (n := k) (r := w) (d := d) ⟨by rw [hw.1]; push_cast; ring, hw.2⟩).2
  have c := sub_same_year (v := v) (w := w) (by
    have e := hw.1
    have := w.month_pos; have := w.month_le
    unfold monthNumber at e
    push_cast at e
    omega)
  rw [C04_sub_serial] at *
  omega

/-- What is known about every date if a period leads past the last one. -/
theorem past_end_days {d : Date} {m : Nat} (h : (Period.days m).checkedAdd d = .ok none) (v : Date) : Date.sub v d < m := by
  by_contra hc
  have h := Rust.ok.inj h
  rw [checkedAddDays_eq, ofDays_eq_none] at h
  have h1 := d.serial_ge
  have h2 := v.serial_le
  rw [C04_sub_serial] at hc
  unfold Date.serialDate at hc
  omega

theorem past_end_months {d : Date} {m : Nat} (h : (Period.months m).checkedAdd d = .ok none) (v : Date) :
    monthNumber v.year v.month < monthNumber d.year d.month + m := by
  have h := (C07_add_months_none d m).1 (Rust.ok.inj h)
  have := (monthNumber_bounds v).2
  have e : monthNumber 262142 12 = 3145715 := by decide
  omega

theorem past_end_years {d : Date} {oc : Bool} {m : Int} (h0 : 0 ≤ m) (h : (Period.years oc m).checkedAdd d = .ok none) (v : Date) :
    v.year < d.year + m := by
  by_contra hc
  have := v.year_le
  have := d.year_ge
  obtain ⟨r, hr⟩ := C10_add_years_some oc d m ⟨by omega, by omega⟩
  have h : Date.checkedAddYears oc d m = .ok none := h
  rw [hr] at h
  simp at h

/-- **C122.** If a period that is not negative leads past the last date, so does every period that is not shorter. -/
theorem C122_past_end (p q : Period) (h : Compares (fun m n => 0 ≤ m ∧ m ≤ n) p q) (d : Date)
    (hp : p.checkedAdd d = .ok none) (v : Date) : q.checkedAdd d ≠ .ok (some v) := by
  intro hv
  cases h with
  | days m n h =>
    have a := past_end_days hp v
    have b := add_days_some hv
    omega
  | months m n h =>
    have a := past_end_months hp v
    have b := (add_months_some hv).1
    omega
  | years oc oc' m n hm hn h =>
    have a := past_end_years (by omega) hp v
    have b := ((C10_add_years oc' d n hn _ hv v).1 rfl).1
    omega
  | monthsYears oc m n hn h =>
    have a := past_end_months hp v
    have b := (add_years_some hn hv).1
    omega
  | yearsMonths oc m n hm h =>
    have a := past_end_years (by omega) hp v
    have b := (add_months_some hv).1
    have := v.month_pos; have := v.month_le; have := d.month_pos; have := d.month_le
    unfold monthNumber at b
    omega
  | daysMonths m n h =>
    have a := past_end_days hp v
    have b := (days_of_months (add_months_some hv)).1
    omega
  | monthsDays m n h =>
    have b := add_days_some hv
    rcases days_lt_of_month (past_end_months hp v) with a | a
    · omega
    · have a := (C04_sub_pos _ _).2 a
      rw [C04_sub_antisymm] at a
      omega
  | daysYears oc m n hn h =>
    have a := past_end_days hp v
    obtain ⟨n, rfl⟩ : ∃ k : Nat, n = k := ⟨n.toNat, by omega⟩
    have b := (days_of_years (add_years_some hn hv)).1
    omega
  | yearsDays oc m n hm h =>
    have b := add_days_some hv
    have e := past_end_years (by omega) hp v
    obtain ⟨m, rfl⟩ : ∃ k : Nat, m = k := ⟨m.toNat, by omega⟩
    rcases days_lt_of_year e with a | a
    · omega
    · have a := (C04_sub_pos _ _).2 a
      rw [C04_sub_antisymm] at a
      omega

/-- From 31 December of the last year, one day, and hence one month and one year, lead past the last date. -/
example (v : Date) : (Period.months 1).checkedAdd NaiveDate.MAX ≠ .ok (some v) ∧
    (Period.years true 1).checkedAdd NaiveDate.MAX ≠ .ok (some v) :=
  ⟨C122_past_end (.days 1) _ (.daysMonths 1 1 (by decide)) _ (by decide) v,
    C122_past_end (.days 1) _ (.daysYears true 1 1 (by unfold InI32; decide) (by decide)) _ (by decide) v⟩

end Qlab.Props
