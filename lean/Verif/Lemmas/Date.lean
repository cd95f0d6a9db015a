import Verif.Model.Date
import Verif.Spec.Gregorian

/-! # Helper lemmas for the date properties -/

namespace Qlab

open Spec

theorem month_cases {m : Nat} (h1 : 1 ≤ m) (h2 : m ≤ 12) : m = 1 ∨ m = 2 ∨ m = 3 ∨ m = 4 ∨ m = 5 ∨
    m = 6 ∨ m = 7 ∨ m = 8 ∨ m = 9 ∨ m = 10 ∨ m = 11 ∨ m = 12 := by omega

theorem isLeap_iff_spec (y : Int) : isLeap y = true ↔ IsLeapYear y := by
  rw [isLeap_iff]; unfold IsLeapYear; omega

theorem isDay_iff (y : Int) (m d : Nat) :
    IsDay y m d ↔ 1 ≤ m ∧ m ≤ 12 ∧ 1 ≤ d ∧ d ≤ monthLen (isLeap y) m := by
  unfold IsDay
  rw [← isLeap_iff_spec]
  constructor
  · rintro (⟨hm, h1, h2⟩ | ⟨hm, h1, h2⟩ | ⟨rfl, h1, h2⟩ | ⟨rfl, rfl, hl⟩)
    · simp only [List.mem_cons, List.not_mem_nil, or_false] at hm
      rcases hm with rfl | rfl | rfl | rfl | rfl | rfl | rfl <;> simp [monthLen] <;> omega
    · simp only [List.mem_cons, List.not_mem_nil, or_false] at hm
      rcases hm with rfl | rfl | rfl | rfl <;> simp [monthLen] <;> omega
    · simp only [monthLen]; split <;> omega
    · simp [monthLen, hl]
  · rintro ⟨h1, h2, h3, h4⟩
    rcases month_cases h1 h2 with h | h | h | h | h | h | h | h | h | h | h | h <;> subst h <;>
      simp only [monthLen] at h4 <;> simp <;> try omega
    split at h4
    · rename_i hl; simp only [hl]; simp; omega
    · omega

theorem isValid_iff (y : Int) (m d : Nat) : IsValid y m d ↔ SupportedYear y ∧ IsDay y m d := by
  rw [isDay_iff]; unfold IsValid SupportedYear minYear maxYear; omega

theorem NaiveDate.isDay (d : NaiveDate) : IsDay d.year d.month d.day := ((isValid_iff _ _ _).1 d.valid).2

theorem isLastDay_iff (y : Int) (m d : Nat) :
    IsLastDayOfMonth y m d ↔ 1 ≤ m ∧ m ≤ 12 ∧ d = monthLen (isLeap y) m := by
  unfold IsLastDayOfMonth
  rw [isDay_iff, isDay_iff]
  constructor
  · rintro ⟨h1, h2⟩; omega
  · rintro ⟨h1, h2, h3⟩
    have := monthLen_ge (isLeap y) h1 h2
    omega

theorem daysInMonth_eq {m : Nat} (h1 : 1 ≤ m) (h2 : m ≤ 12) (l : Bool) :
    Date.daysInMonth m l = some (monthLen l m) := by
  rcases month_cases h1 h2 with h | h | h | h | h | h | h | h | h | h | h | h <;> subst h <;> cases l <;> rfl

/-- `diffMonths` described by month numbers. -/
theorem diffMonths_eq_some (d r : NaiveDate) (k : Int) :
    d.diffMonths k = some r ↔
      monthNumber r.year r.month = monthNumber d.year d.month + k ∧
      IsSameDayClamped d.day r.year r.month r.day := by
  have hm1 := d.month_pos
  have hm2 := d.month_le
  have hr1 := r.month_pos
  have hr2 := r.month_le
  have hd1 := d.day_pos
  have hdr := r.day_pos
  have hdl := r.day_le
  unfold NaiveDate.diffMonths
  simp only
  rw [fromYmdOpt_eq_some]
  unfold monthNumber IsSameDayClamped
  rw [isLastDay_iff]
  constructor
  · rintro ⟨e1, e2, e3⟩
    rw [← e1] at e3
    rw [← e2] at e3
    refine ⟨by omega, ?_⟩
    rcases Nat.le_total d.day (monthLen (isLeap r.year) r.month) with h | h
    · left; omega
    · by_cases h' : r.day = d.day
      · exact Or.inl h'
      · right; omega
  · rintro ⟨e1, e2⟩
    have hy : (d.year * 12 + ((d.month : Int) - 1) + k) / 12 = r.year := by omega
    have hm : ((d.year * 12 + ((d.month : Int) - 1) + k) % 12).toNat + 1 = r.month := by omega
    rw [hy, hm]
    refine ⟨rfl, rfl, ?_⟩
    rcases e2 with e2 | ⟨e2, _, _, e3⟩ <;> omega

theorem diffMonths_eq_none (d : NaiveDate) (k : Int) :
    d.diffMonths k = none ↔
      ¬ SupportedYear ((monthNumber d.year d.month + k) / 12) := by
  unfold NaiveDate.diffMonths monthNumber SupportedYear
  simp only
  rw [fromYmdOpt_eq_none]
  generalize hy : (d.year * 12 + ((d.month : Int) - 1) + k) / 12 = y
  have hy' : (12 * d.year + ((d.month : Int) - 1) + k) / 12 = y := by omega
  rw [hy']
  have hm1 : 1 ≤ ((d.year * 12 + ((d.month : Int) - 1) + k) % 12).toNat + 1 := by omega
  have hm2 : ((d.year * 12 + ((d.month : Int) - 1) + k) % 12).toNat + 1 ≤ 12 := by omega
  generalize ((d.year * 12 + ((d.month : Int) - 1) + k) % 12).toNat + 1 = m at *
  have := monthLen_ge (isLeap y) hm1 hm2
  have := d.day_pos
  unfold IsValid minYear maxYear
  omega

theorem diffMonths_zero (d : NaiveDate) : d.diffMonths 0 = some d := by
  rw [diffMonths_eq_some]; exact ⟨by omega, Or.inl rfl⟩

theorem monthNumber_bounds (d : NaiveDate) :
    -3145716 ≤ monthNumber d.year d.month ∧ monthNumber d.year d.month ≤ 3145715 := by
  have := d.month_pos; have := d.month_le; have := d.year_ge; have := d.year_le
  unfold monthNumber; omega

theorem chronoAddMonths_eq (d : NaiveDate) (n : Nat) :
    NaiveDate.checkedAddMonths d n = d.diffMonths n := by
  unfold NaiveDate.checkedAddMonths
  split
  · rename_i h; subst h; exact (diffMonths_zero d).symm
  · split
    · rfl
    · rename_i h
      rw [eq_comm, diffMonths_eq_none]
      have := monthNumber_bounds d
      unfold SupportedYear i32Max at *; omega

theorem chronoSubMonths_eq (d : NaiveDate) (n : Nat) :
    NaiveDate.checkedSubMonths d n = d.diffMonths (-n) := by
  unfold NaiveDate.checkedSubMonths
  split
  · rename_i h; subst h; exact (diffMonths_zero d).symm
  · split
    · rfl
    · rename_i h
      rw [eq_comm, diffMonths_eq_none]
      have := monthNumber_bounds d
      unfold SupportedYear i32Max at *; omega

theorem withDay_month {d r : NaiveDate} {k : Nat} (h : d.withDay k = some r) :
    r.year = d.year ∧ r.month = d.month ∧ r.day = k := fromYmdOpt_eq_some.1 h

theorem addMonths_eq (d : Date) (n : Nat) : Date.checkedAddMonths d n = d.diffMonths n := by
  unfold Date.checkedAddMonths
  rw [chronoAddMonths_eq]
  cases h : d.diffMonths n with
  | some r => rfl
  | none =>
    simp only [daysInMonth_eq d.month_pos d.month_le]
    show (d.withDay _).bind _ = none
    cases h' : d.withDay (monthLen (Date.leapYear d) d.month) with
    | none => rfl
    | some r =>
      obtain ⟨e1, e2, _⟩ := withDay_month h'
      show NaiveDate.checkedAddMonths r n = none
      rw [chronoAddMonths_eq]
      rw [diffMonths_eq_none] at h ⊢
      rw [e1, e2]; exact h

theorem subMonths_eq (d : Date) (n : Nat) : Date.checkedSubMonths d n = d.diffMonths (-n) := by
  unfold Date.checkedSubMonths
  rw [chronoSubMonths_eq]
  cases h : d.diffMonths (-n) with
  | some r => rfl
  | none =>
    simp only [daysInMonth_eq d.month_pos d.month_le]
    show (d.withDay _).bind _ = none
    cases h' : d.withDay (monthLen (Date.leapYear d) d.month) with
    | none => rfl
    | some r =>
      obtain ⟨e1, e2, _⟩ := withDay_month h'
      show NaiveDate.checkedSubMonths r n = none
      rw [chronoSubMonths_eq]
      rw [diffMonths_eq_none] at h ⊢
      rw [e1, e2]; exact h

/-- Date order from month numbers. -/
theorem lt_iff_monthNumber (a b : NaiveDate) : a < b ↔
    monthNumber a.year a.month < monthNumber b.year b.month ∨
    (monthNumber a.year a.month = monthNumber b.year b.month ∧ a.day < b.day) := by
  rw [NaiveDate.lt_iff]
  have := a.month_pos; have := a.month_le; have := b.month_pos; have := b.month_le
  unfold monthNumber; omega

theorem monthNumber_inj {y z : Int} {m k : Nat} (h1 : 1 ≤ m) (h2 : m ≤ 12) (h3 : 1 ≤ k) (h4 : k ≤ 12)
    (h : monthNumber y m = monthNumber z k) : y = z ∧ m = k := by
  unfold monthNumber at h; omega

theorem checkedAddDays_eq (d : Date) (n : Nat) : Date.checkedAddDays d n = ofDays (d.numDaysFromCe + n) := by
  unfold Date.checkedAddDays NaiveDate.checkedAddDays
  split
  · rfl
  · rename_i h
    rw [eq_comm, ofDays_eq_none]
    have := d.serial_ge; have := d.serial_le
    unfold i32Max at h; omega

theorem checkedSubDays_eq (d : Date) (n : Nat) : Date.checkedSubDays d n = ofDays (d.numDaysFromCe - n) := by
  unfold Date.checkedSubDays NaiveDate.checkedSubDays
  split
  · rfl
  · rename_i h
    rw [eq_comm, ofDays_eq_none]
    have := d.serial_ge; have := d.serial_le
    unfold i32Max at h; omega

theorem weekday_fromMonday (d : NaiveDate) :
    (d.weekday.fromMonday : Int) = (d.numDaysFromCe - 1) % 7 := by
  unfold NaiveDate.weekday
  generalize hk : ((d.numDaysFromCe - 1) % 7).toNat = k
  have h : k = 0 ∨ k = 1 ∨ k = 2 ∨ k = 3 ∨ k = 4 ∨ k = 5 ∨ k = 6 := by omega
  rcases h with h | h | h | h | h | h | h <;> subst h <;> simp [Weekday.ofMonday, Weekday.fromMonday] <;> omega

end Qlab
