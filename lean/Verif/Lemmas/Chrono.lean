import Verif.Model.Chrono

/-! # Helper lemmas about the chrono model -/

namespace Qlab

theorem isLeap_iff (y : Int) : isLeap y = true ↔ y % 4 = 0 ∧ (y % 100 ≠ 0 ∨ y % 400 = 0) := by
  simp [isLeap, bne]

theorem isLeap_false_iff (y : Int) : isLeap y = false ↔ ¬(y % 4 = 0 ∧ (y % 100 ≠ 0 ∨ y % 400 = 0)) := by
  rw [← isLeap_iff]; simp

/-- Length of a year. -/
theorem daysBeforeYear_succ (y : Int) :
    daysBeforeYear (y + 1) = daysBeforeYear y + 365 + (if isLeap y then 1 else 0) := by
  unfold daysBeforeYear
  cases h : isLeap y
  · rw [isLeap_false_iff] at h; simp; omega
  · rw [isLeap_iff] at h; simp; omega

theorem daysBeforeYear_mono {y z : Int} (h : y ≤ z) :
    daysBeforeYear y + 365 * (z - y) ≤ daysBeforeYear z := by
  unfold daysBeforeYear; omega

theorem daysBeforeMonth_succ (l : Bool) {m : Nat} (h1 : 1 ≤ m) (h2 : m ≤ 12) :
    daysBeforeMonth l (m + 1) = daysBeforeMonth l m + monthLen l m := by
  have : m = 1 ∨ m = 2 ∨ m = 3 ∨ m = 4 ∨ m = 5 ∨ m = 6 ∨ m = 7 ∨ m = 8 ∨ m = 9 ∨ m = 10 ∨ m = 11 ∨
    m = 12 := by omega
  rcases this with h | h | h | h | h | h | h | h | h | h | h | h <;> subst h <;> cases l <;> rfl

theorem daysBeforeMonth_mono (l : Bool) {m k : Nat} (h1 : 1 ≤ m) (h2 : m < k) (h3 : k ≤ 13) :
    daysBeforeMonth l m + monthLen l m ≤ daysBeforeMonth l k := by
  induction k with
  | zero => omega
  | succ k ih =>
    rcases Nat.lt_or_ge m k with h | h
    · have := ih h (by omega)
      have := daysBeforeMonth_succ l (m := k) (by omega) (by omega)
      omega
    · have : m = k := by omega
      subst this
      rw [daysBeforeMonth_succ l h1 (by omega)]; exact Nat.le_refl _

theorem daysBeforeMonth_13 (l : Bool) : daysBeforeMonth l 13 = 365 + if l then 1 else 0 := rfl

theorem monthLen_ge (l : Bool) {m : Nat} (h1 : 1 ≤ m) (h2 : m ≤ 12) : 28 ≤ monthLen l m := by
  have : m = 1 ∨ m = 2 ∨ m = 3 ∨ m = 4 ∨ m = 5 ∨ m = 6 ∨ m = 7 ∨ m = 8 ∨ m = 9 ∨ m = 10 ∨ m = 11 ∨
    m = 12 := by omega
  rcases this with h | h | h | h | h | h | h | h | h | h | h | h <;> subst h <;> cases l <;> decide

theorem monthLen_le (l : Bool) (m : Nat) : monthLen l m ≤ 31 := by
  unfold monthLen; split <;> cases l <;> simp

namespace NaiveDate

theorem month_pos (d : NaiveDate) : 1 ≤ d.month := d.valid.2.2.1
theorem month_le (d : NaiveDate) : d.month ≤ 12 := d.valid.2.2.2.1
theorem day_pos (d : NaiveDate) : 1 ≤ d.day := d.valid.2.2.2.2.1
theorem day_le (d : NaiveDate) : d.day ≤ monthLen (isLeap d.year) d.month := d.valid.2.2.2.2.2
theorem year_ge (d : NaiveDate) : -262143 ≤ d.year := d.valid.1
theorem year_le (d : NaiveDate) : d.year ≤ 262142 := d.valid.2.1

theorem lt_iff (a b : NaiveDate) : a < b ↔ a.year < b.year ∨ (a.year = b.year ∧
    (a.month < b.month ∨ (a.month = b.month ∧ a.day < b.day))) := by
  show blt a b = true ↔ _
  simp [blt]

theorem not_lt_iff (a b : NaiveDate) : ¬ a < b ↔ b ≤ a := by
  show ¬ (blt a b = true) ↔ blt a b = false
  simp

theorem ordinal_pos (d : NaiveDate) : 1 ≤ d.ordinal := by
  have := d.day_pos; unfold ordinal; omega

theorem ordinal_le (d : NaiveDate) : d.ordinal ≤ 365 + if isLeap d.year then 1 else 0 := by
  have h := daysBeforeMonth_mono (isLeap d.year) (k := 13) d.month_pos
    (by have := d.month_le; omega) (by omega)
  have := d.day_le
  rw [daysBeforeMonth_13] at h
  unfold ordinal; omega

theorem serial_lt_of_lt {a b : NaiveDate} (h : a < b) : a.numDaysFromCe < b.numDaysFromCe := by
  rw [lt_iff] at h
  unfold numDaysFromCe
  rcases h with h | ⟨hy, h⟩
  · have h1 := a.ordinal_le
    have h2 := b.ordinal_pos
    have h3 := daysBeforeYear_succ a.year
    have h4 := daysBeforeYear_mono (y := a.year + 1) (z := b.year) (by omega)
    cases hl : isLeap a.year <;> simp only [hl, if_true, if_false, Bool.false_eq_true] at * <;> omega
  · unfold ordinal; rw [hy]
    rcases h with h | ⟨hm, h⟩
    · have h1 := daysBeforeMonth_mono (isLeap b.year) (k := b.month) a.month_pos h
        (by have := b.month_le; omega)
      have h2 := a.day_le
      have h3 := b.day_pos
      rw [hy] at h2
      omega
    · rw [hm]; omega

theorem trichotomy (a b : NaiveDate) : a < b ∨ a = b ∨ b < a := by
  rw [lt_iff, lt_iff, NaiveDate.ext_iff]
  omega

theorem lt_iff_serial (a b : NaiveDate) : a < b ↔ a.numDaysFromCe < b.numDaysFromCe := by
  constructor
  · exact serial_lt_of_lt
  · intro h
    rcases trichotomy a b with h1 | h1 | h1
    · exact h1
    · subst h1; omega
    · have := serial_lt_of_lt h1; omega

theorem le_iff_serial (a b : NaiveDate) : a ≤ b ↔ a.numDaysFromCe ≤ b.numDaysFromCe := by
  rw [← not_lt_iff, lt_iff_serial]; omega

theorem serial_inj {a b : NaiveDate} (h : a.numDaysFromCe = b.numDaysFromCe) : a = b := by
  rcases trichotomy a b with h1 | h1 | h1
  · have := serial_lt_of_lt h1; omega
  · exact h1
  · have := serial_lt_of_lt h1; omega

theorem serial_eq_iff (a b : NaiveDate) : a.numDaysFromCe = b.numDaysFromCe ↔ a = b :=
  ⟨serial_inj, fun h => by rw [h]⟩

/-- Serial number of the first representable date. -/
theorem serial_MIN : MIN.numDaysFromCe = -95746129 := by decide
/-- Serial number of the last representable date. -/
theorem serial_MAX : MAX.numDaysFromCe = 95745399 := by decide

theorem MIN_le (d : NaiveDate) : MIN ≤ d := by
  rw [← not_lt_iff, lt_iff]
  have := d.year_ge
  have := d.month_pos
  have := d.day_pos
  show ¬ (d.year < -262143 ∨ (d.year = -262143 ∧ (d.month < 1 ∨ (d.month = 1 ∧ d.day < 1))))
  omega

theorem le_MAX (d : NaiveDate) : d ≤ MAX := by
  rw [← not_lt_iff, lt_iff]
  have := d.year_le
  have := d.month_le
  have h := d.day_le
  have := monthLen_le (isLeap d.year) d.month
  show ¬ (262142 < d.year ∨ (262142 = d.year ∧ (12 < d.month ∨ (12 = d.month ∧ 31 < d.day))))
  omega

theorem serial_ge (d : NaiveDate) : -95746129 ≤ d.numDaysFromCe := by
  have := (le_iff_serial _ _).1 (MIN_le d); rw [serial_MIN] at this; exact this

theorem serial_le (d : NaiveDate) : d.numDaysFromCe ≤ 95745399 := by
  have := (le_iff_serial _ _).1 (le_MAX d); rw [serial_MAX] at this; exact this

end NaiveDate

open NaiveDate

theorem fromYmdOpt_eq_some {y : Int} {m d : Nat} {r : NaiveDate} :
    fromYmdOpt y m d = some r ↔ r.year = y ∧ r.month = m ∧ r.day = d := by
  unfold fromYmdOpt
  split
  · rename_i h
    simp only [Option.some.injEq]
    constructor
    · intro e; subst e; exact ⟨rfl, rfl, rfl⟩
    · rintro ⟨rfl, rfl, rfl⟩; rfl
  · rename_i h
    simp only [reduceCtorEq, false_iff]
    rintro ⟨rfl, rfl, rfl⟩; exact h r.valid

theorem fromYmdOpt_eq_none {y : Int} {m d : Nat} :
    fromYmdOpt y m d = none ↔ ¬ IsValid y m d := by
  unfold fromYmdOpt; split <;> simp_all

theorem fromYmdOpt_of_valid {y : Int} {m d : Nat} (h : IsValid y m d) :
    fromYmdOpt y m d = some ⟨y, m, d, h⟩ := by simp [fromYmdOpt, h]

@[simp] theorem fromYmdOpt_self (d : NaiveDate) : fromYmdOpt d.year d.month d.day = some d :=
  fromYmdOpt_eq_some.2 ⟨rfl, rfl, rfl⟩

/-- Cycle decomposition: the arithmetic behind `yearOrd0OfDays`. -/
theorem cycle_spec (n a r b r1 c r2 e : Int) (ha : (n - 1) / 146097 = a) (hr : (n - 1) % 146097 = r)
    (hb : min (r / 36524) 3 = b) (hr1 : r - b * 36524 = r1) (hc : r1 / 1461 = c)
    (hr2 : r1 % 1461 = r2) (he : min (r2 / 365) 3 = e) :
    daysBeforeYear (400 * a + 100 * b + 4 * c + e + 1) + (r2 - 365 * e) + 1 = n ∧
    0 ≤ r2 - 365 * e ∧
    r2 - 365 * e < 365 + (if isLeap (400 * a + 100 * b + 4 * c + e + 1) then 1 else 0) := by
  have hn : n - 1 = 146097 * a + r := by omega
  have hr0 : 0 ≤ r ∧ r < 146097 := by omega
  have hb0 : 0 ≤ b ∧ b ≤ 3 := by omega
  have hr10 : 0 ≤ r1 ∧ (b < 3 → r1 < 36524) ∧ r1 ≤ 36524 := by omega
  have hc0 : 0 ≤ c ∧ c ≤ 24 := by omega
  have hr11 : r1 = 1461 * c + r2 := by omega
  have hr20 : 0 ≤ r2 ∧ r2 < 1461 := by omega
  have he0 : 0 ≤ e ∧ e ≤ 3 := by omega
  have ho : 0 ≤ r2 - 365 * e ∧ (e < 3 → r2 - 365 * e < 365) ∧ r2 - 365 * e ≤ 365 := by omega
  clear ha hr hb hc hr2 he
  have e1 : (400 * a + 100 * b + 4 * c + e + 1 - 1) / 4 = 100 * a + 25 * b + c := by omega
  have e2 : (400 * a + 100 * b + 4 * c + e + 1 - 1) / 100 = 4 * a + b := by omega
  have e3 : (400 * a + 100 * b + 4 * c + e + 1 - 1) / 400 = a := by omega
  refine ⟨?_, ho.1, ?_⟩
  · unfold daysBeforeYear; rw [e1, e2, e3]; omega
  · cases hl : isLeap (400 * a + 100 * b + 4 * c + e + 1)
    · rw [isLeap_false_iff] at hl
      simp only [Bool.false_eq_true, if_false]
      by_cases h : e < 3
      · have := ho.2.1 h; omega
      · have e3 : e = 3 := by omega
        subst e3
        by_cases hc24 : c = 24
        · by_cases hb3 : b = 3
          · exfalso; apply hl; subst hc24 hb3; omega
          · have := hr10.2.1 (by omega); omega
        · exfalso; apply hl; omega
    · simp only [if_true]; omega

theorem yearOrd0_spec (n : Int) :
    daysBeforeYear (yearOrd0OfDays n).1 + (yearOrd0OfDays n).2 + 1 = n ∧
    0 ≤ (yearOrd0OfDays n).2 ∧
    (yearOrd0OfDays n).2 < 365 + (if isLeap (yearOrd0OfDays n).1 then 1 else 0) :=
  cycle_spec n _ _ _ _ _ _ _ rfl rfl rfl rfl rfl rfl rfl

theorem monthDay_table : ∀ l : Bool, ∀ o : Nat, o < 366 → o < (365 + if l then 1 else 0) →
    1 ≤ (monthDayOfOrd0 l o).1 ∧ (monthDayOfOrd0 l o).1 ≤ 12 ∧ 1 ≤ (monthDayOfOrd0 l o).2 ∧
    (monthDayOfOrd0 l o).2 ≤ monthLen l (monthDayOfOrd0 l o).1 ∧
    daysBeforeMonth l (monthDayOfOrd0 l o).1 + (monthDayOfOrd0 l o).2 = o + 1 := by
  decide +kernel

theorem monthDay_spec (l : Bool) (o : Nat) (h : o < 365 + if l then 1 else 0) :
    1 ≤ (monthDayOfOrd0 l o).1 ∧ (monthDayOfOrd0 l o).1 ≤ 12 ∧ 1 ≤ (monthDayOfOrd0 l o).2 ∧
    (monthDayOfOrd0 l o).2 ≤ monthLen l (monthDayOfOrd0 l o).1 ∧
    daysBeforeMonth l (monthDayOfOrd0 l o).1 + (monthDayOfOrd0 l o).2 = o + 1 :=
  monthDay_table l o (by split at h <;> omega) h

/-- The date computed from a day number, whenever its year is supported. -/
theorem ofDays_spec (n : Int) : (∃ d, ofDays n = some d ∧ d.numDaysFromCe = n) ∨
    (ofDays n = none ∧ ¬ (minYear ≤ (yearOrd0OfDays n).1 ∧ (yearOrd0OfDays n).1 ≤ maxYear)) := by
  obtain ⟨h1, h2, h3⟩ := yearOrd0_spec n
  have h4 : (yearOrd0OfDays n).2.toNat <
      365 + if isLeap (yearOrd0OfDays n).1 = true then 1 else 0 := by
    split at h3 <;> rename_i hh <;> simp only [hh, if_true, if_false, Bool.false_eq_true] <;> omega
  obtain ⟨g1, g2, g3, g4, g5⟩ := monthDay_spec _ _ h4
  by_cases hy : minYear ≤ (yearOrd0OfDays n).1 ∧ (yearOrd0OfDays n).1 ≤ maxYear
  · left
    refine ⟨⟨_, _, _, ⟨hy.1, hy.2, g1, g2, g3, g4⟩⟩, fromYmdOpt_of_valid _, ?_⟩
    simp only [numDaysFromCe, ordinal]
    omega
  · right
    refine ⟨?_, hy⟩
    show fromYmdOpt _ _ _ = none
    rw [fromYmdOpt_eq_none]
    intro hv; exact hy ⟨hv.1, hv.2.1⟩

theorem ofDays_eq_some {n : Int} {d : NaiveDate} : ofDays n = some d ↔ d.numDaysFromCe = n := by
  constructor
  · intro h
    rcases ofDays_spec n with ⟨d', h1, h2⟩ | ⟨h1, _⟩
    · rw [h] at h1; cases h1; exact h2
    · rw [h] at h1; cases h1
  · intro h
    rcases ofDays_spec n with ⟨d', h1, h2⟩ | ⟨h1, h2⟩
    · rw [h1, serial_inj (h.trans h2.symm)]
    · exfalso; apply h2
      have hs := yearOrd0_spec n
      have a1 := d.ordinal_pos
      have a2 := d.ordinal_le
      have hd := daysBeforeYear_succ d.year
      have h3 : d.year = (yearOrd0OfDays n).1 := by
        rcases Int.lt_trichotomy d.year (yearOrd0OfDays n).1 with g | g | g
        · have := daysBeforeYear_mono (y := d.year + 1) g
          unfold numDaysFromCe at h
          split at a2 <;> rename_i hh <;> simp only [hh, if_true, if_false, Bool.false_eq_true] at hd <;> omega
        · exact g
        · have := daysBeforeYear_mono (y := (yearOrd0OfDays n).1 + 1) g
          have := daysBeforeYear_succ (yearOrd0OfDays n).1
          unfold numDaysFromCe at h
          omega
      rw [← h3]; exact ⟨d.valid.1, d.valid.2.1⟩

theorem ofDays_eq_none {n : Int} : ofDays n = none ↔ n < -95746129 ∨ 95745399 < n := by
  constructor
  · intro h
    rcases ofDays_spec n with ⟨d', h1, h2⟩ | ⟨_, h2⟩
    · rw [h] at h1; cases h1
    · obtain ⟨h1, h3, h4⟩ := yearOrd0_spec n
      generalize (yearOrd0OfDays n).1 = y at *
      generalize (yearOrd0OfDays n).2 = o at *
      simp only [minYear, maxYear] at h2
      have e1 : daysBeforeYear 262143 = 95745399 := by decide
      have e2 : daysBeforeYear (-262143) = -95746130 := by decide
      rcases Int.lt_or_le 262142 y with hy | hy
      · have := daysBeforeYear_mono (y := 262143) (z := y) (by omega); omega
      · have := daysBeforeYear_mono (y := y + 1) (z := -262143) (by omega)
        have := daysBeforeYear_succ y
        omega
  · intro h
    cases h1 : ofDays n with
    | none => rfl
    | some d =>
      have h2 := ofDays_eq_some.1 h1
      have := d.serial_ge
      have := d.serial_le
      omega

theorem ofDays_isSome (n : Int) (h1 : -95746129 ≤ n) (h2 : n ≤ 95745399) :
    ∃ d, ofDays n = some d ∧ d.numDaysFromCe = n := by
  cases h : ofDays n with
  | none => rw [ofDays_eq_none] at h; omega
  | some d => exact ⟨d, rfl, ofDays_eq_some.1 h⟩

namespace NaiveDate

theorem succOpt_eq_ofDays (d : NaiveDate) : d.succOpt = ofDays (d.numDaysFromCe + 1) := by
  have hm1 := d.month_pos
  have hm2 := d.month_le
  have hd1 := d.day_pos
  have hd2 := d.day_le
  have hy1 := d.year_ge
  have hy2 := d.year_le
  unfold succOpt
  split
  · rename_i h
    have hv : IsValid d.year d.month (d.day + 1) := ⟨d.valid.1, d.valid.2.1, hm1, hm2, by omega, h⟩
    rw [fromYmdOpt_of_valid hv, eq_comm, ofDays_eq_some]
    simp only [numDaysFromCe, ordinal]; omega
  · rename_i h
    have hml := monthLen_ge (isLeap d.year) hm1 hm2
    have hsucc := daysBeforeMonth_succ (isLeap d.year) hm1 hm2
    split
    · rename_i h'
      have hl := monthLen_ge (isLeap d.year) (m := d.month + 1) (by omega) (by omega)
      have hv : IsValid d.year (d.month + 1) 1 :=
        ⟨d.valid.1, d.valid.2.1, by omega, by omega, by omega, by omega⟩
      rw [fromYmdOpt_of_valid hv, eq_comm, ofDays_eq_some]
      simp only [numDaysFromCe, ordinal]; omega
    · rename_i h'
      have h12 : d.month = 12 := by omega
      have hys := daysBeforeYear_succ d.year
      have h13 := daysBeforeMonth_13 (isLeap d.year)
      have hser : d.numDaysFromCe + 1 = daysBeforeYear (d.year + 1) + 1 := by
        rw [hys]; simp only [numDaysFromCe, ordinal]
        rw [h12] at hsucc hd2 h ⊢
        rw [show 12 + 1 = 13 from rfl, h13] at hsucc
        split at hsucc <;> rename_i hh <;> simp only [hh, if_true, if_false, Bool.false_eq_true] at * <;> omega
      by_cases hmax : d.year = 262142
      · have : ¬ IsValid (d.year + 1) 1 1 := by
          intro hv; have := hv.2.1; simp only [maxYear] at this; omega
        rw [fromYmdOpt_eq_none.2 this, eq_comm, ofDays_eq_none, hser, hmax]
        unfold daysBeforeYear; omega
      · have hv : IsValid (d.year + 1) 1 1 := by
          refine ⟨?_, ?_, by omega, by omega, by omega, by show 1 ≤ 31; omega⟩ <;>
            simp only [minYear, maxYear] <;> omega
        rw [fromYmdOpt_of_valid hv, eq_comm, ofDays_eq_some, hser]
        simp only [numDaysFromCe, ordinal, daysBeforeMonth]; omega

theorem succOpt_eq_some {d r : NaiveDate} :
    d.succOpt = some r ↔ r.numDaysFromCe = d.numDaysFromCe + 1 := by
  rw [succOpt_eq_ofDays, ofDays_eq_some]

theorem succOpt_eq_none {d : NaiveDate} : d.succOpt = none ↔ d = MAX := by
  rw [succOpt_eq_ofDays, ofDays_eq_none, ← serial_eq_iff, serial_MAX]
  have := d.serial_ge; have := d.serial_le; omega

theorem predOpt_eq_some {d r : NaiveDate} :
    d.predOpt = some r ↔ r.numDaysFromCe = d.numDaysFromCe - 1 := by
  have hm1 := d.month_pos
  have hm2 := d.month_le
  have hd1 := d.day_pos
  have hd2 := d.day_le
  -- it is enough to exhibit the predecessor when there is one
  have key : ∀ p, d.predOpt = some p → p.numDaysFromCe = d.numDaysFromCe - 1 := by
    intro p hp
    unfold predOpt at hp
    split at hp
    · rename_i h
      obtain ⟨e1, e2, e3⟩ := fromYmdOpt_eq_some.1 hp
      simp only [numDaysFromCe, ordinal, e1, e2, e3]; omega
    · split at hp
      · rename_i h h'
        obtain ⟨e1, e2, e3⟩ := fromYmdOpt_eq_some.1 hp
        have := daysBeforeMonth_succ (isLeap d.year) (m := d.month - 1) (by omega) (by omega)
        rw [show d.month - 1 + 1 = d.month by omega] at this
        simp only [numDaysFromCe, ordinal, e1, e2, e3]; omega
      · rename_i h h'
        obtain ⟨e1, e2, e3⟩ := fromYmdOpt_eq_some.1 hp
        have h1 : d.month = 1 := by omega
        have h2 : d.day = 1 := by omega
        have := daysBeforeYear_succ (d.year - 1)
        rw [show d.year - 1 + 1 = d.year by omega] at this
        simp only [numDaysFromCe, ordinal, e1, e2, e3, h1, h2, daysBeforeMonth]
        cases hl : isLeap (d.year - 1) <;> simp only [hl, if_true, if_false, Bool.false_eq_true] at * <;> omega
  constructor
  · exact key r
  · intro hr
    cases hp : d.predOpt with
    | some p => have := key p hp; rw [serial_inj (this.trans hr.symm)]
    | none =>
      exfalso
      unfold predOpt at hp
      split at hp
      · rename_i h
        refine fromYmdOpt_eq_none.1 hp ⟨d.valid.1, d.valid.2.1, hm1, hm2, by omega, by omega⟩
      · split at hp
        · rename_i h h'
          have := monthLen_ge (isLeap d.year) (m := d.month - 1) (by omega) (by omega)
          refine fromYmdOpt_eq_none.1 hp ⟨d.valid.1, d.valid.2.1, by omega, by omega, by omega, by omega⟩
        · rename_i h h'
          have hy : ¬ IsValid (d.year - 1) 12 31 := fromYmdOpt_eq_none.1 hp
          have hyy : d.year = -262143 := by
            by_cases hc : d.year = -262143
            · exact hc
            · exfalso; apply hy
              have a1 := d.year_ge
              have a2 := d.year_le
              refine ⟨?_, ?_, by omega, by omega, by omega, ?_⟩
              · simp only [minYear]; omega
              · simp only [maxYear]; omega
              · show 31 ≤ 31; omega
          have hd : d = MIN := NaiveDate.ext hyy (by show d.month = 1; omega) (by show d.day = 1; omega)
          have := r.serial_ge
          rw [hr, hd, serial_MIN] at this
          omega

theorem predOpt_eq_none {d : NaiveDate} : d.predOpt = none ↔ d = MIN := by
  constructor
  · intro h
    rcases Int.lt_or_le d.numDaysFromCe (-95746128) with h1 | h1
    · rw [← serial_eq_iff, serial_MIN]; have := d.serial_ge; omega
    · exfalso
      obtain ⟨p, _, h3⟩ := ofDays_isSome (d.numDaysFromCe - 1) (by omega) (by have := d.serial_le; omega)
      rw [predOpt_eq_some.2 h3] at h; cases h
  · intro h
    cases hp : d.predOpt with
    | none => rfl
    | some p =>
      have h1 := predOpt_eq_some.1 hp
      have := p.serial_ge
      rw [h1, h, serial_MIN] at this
      omega

end NaiveDate
end Qlab
