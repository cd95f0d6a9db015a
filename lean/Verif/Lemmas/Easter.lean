import Verif.Model.Easter
import Verif.Spec.Easter
import Verif.Lemmas.Rolling

/-! # Helper lemmas for Easter -/

namespace Qlab

open Spec

/-- Serial of 1 March. -/
def march1Serial (y : Int) : Int := daysBeforeYear y + (if isLeap y then 61 else 60)

theorem serial_march1 {d : Date} (hm : d.month = 3) (hd : d.day = 1) :
    Date.serialDate d = march1Serial d.year := by
  unfold Date.serialDate NaiveDate.numDaysFromCe NaiveDate.ordinal march1Serial
  rw [hm, hd]
  cases isLeap d.year <;> rfl

theorem exists_march1 (d : Date) : ∃ m : Date, m.year = d.year ∧ m.month = 3 ∧ m.day = 1 := by
  have h := d.valid
  exact ⟨⟨d.year, 3, 1, ⟨h.1, h.2.1, by omega, by omega, by omega, by
    have := monthLen_ge (isLeap d.year) (m := 3) (by omega) (by omega); omega⟩⟩, rfl, rfl, rfl⟩

theorem weekday_sun_iff (d : Date) : d.weekday = .Sun ↔ d.numDaysFromCe % 7 = 0 := by
  unfold NaiveDate.weekday
  have h1 : 0 ≤ (d.numDaysFromCe - 1) % 7 := Int.emod_nonneg _ (by decide)
  have h2 : (d.numDaysFromCe - 1) % 7 < 7 := Int.emod_lt_of_pos _ (by decide)
  generalize hk : ((d.numDaysFromCe - 1) % 7).toNat = k
  have : k < 7 := by omega
  have hk' : (d.numDaysFromCe - 1) % 7 = k := by omega
  have : k = 0 ∨ k = 1 ∨ k = 2 ∨ k = 3 ∨ k = 4 ∨ k = 5 ∨ k = 6 := by omega
  rcases this with rfl | rfl | rfl | rfl | rfl | rfl | rfl <;> simp [Weekday.ofMonday] <;> omega

theorem isEasterSunday_iff (s : Date) : IsEasterSunday s ↔
    s.numDaysFromCe % 7 = 0 ∧ march1Serial s.year + (paschalMoonMarch s.year - 1) < s.numDaysFromCe ∧
      s.numDaysFromCe ≤ march1Serial s.year + (paschalMoonMarch s.year - 1) + 7 := by
  unfold IsEasterSunday
  rw [weekday_sun_iff]
  constructor
  · rintro ⟨h, m, h1, h2, h3, h4, h5⟩
    rw [serial_march1 h2 h3, h1] at h4 h5
    exact ⟨h, h4, h5⟩
  · rintro ⟨h, h4, h5⟩
    obtain ⟨m, h1, h2, h3⟩ := exists_march1 s
    refine ⟨h, m, h1, h2, h3, ?_⟩
    rw [serial_march1 h2 h3, h1]
    exact ⟨h4, h5⟩

theorem isOrthodoxEasterSunday_iff (s : Date) : IsOrthodoxEasterSunday s ↔
    s.numDaysFromCe % 7 = 0 ∧ julianMarchSerial s.year (julianPaschalMoonMarch s.year) < s.numDaysFromCe ∧
      s.numDaysFromCe ≤ julianMarchSerial s.year (julianPaschalMoonMarch s.year) + 7 := by
  unfold IsOrthodoxEasterSunday
  rw [weekday_sun_iff]; exact Iff.rfl

/-- Row `i` of the table is the Monday after Easter Sunday of year `1901 + i`. -/
def rowOk (i em : Nat) : Bool :=
  let y : Int := 1901 + i
  let s := daysBeforeYear y + em - 1
  let moon := march1Serial y + (paschalMoonMarch y - 1)
  s % 7 == 0 && decide (moon < s) && decide (s ≤ moon + 7) && decide (83 ≤ em) && decide (em ≤ 116)

/-- Orthodox counterpart of `rowOk`. -/
def orthodoxRowOk (i em : Nat) : Bool :=
  let y : Int := 1901 + i
  let s := daysBeforeYear y + em - 1
  let moon := julianMarchSerial y (julianPaschalMoonMarch y)
  s % 7 == 0 && decide (moon < s) && decide (s ≤ moon + 7) && decide (95 ≤ em) && decide (em ≤ 130)

theorem easter_table_ok : (easterMondayTable.zipIdx.all fun p => rowOk p.2 p.1) = true := by
  decide +kernel

theorem orthodox_table_ok :
    (orthodoxEasterMondayTable.zipIdx.all fun p => orthodoxRowOk p.2 p.1) = true := by
  decide +kernel

theorem easter_table_len : easterMondayTable.length = 299 := by decide +kernel
theorem orthodox_table_len : orthodoxEasterMondayTable.length = 299 := by decide +kernel

theorem easterLookup_eq_ok {t : List Nat} {y : Int} {em : Nat} :
    easterLookup t y = .ok em ↔ 1901 ≤ y ∧ t[(y - 1901).toNat]? = some em := by
  unfold easterLookup
  split
  · simp; omega
  · cases h : t[(y - 1901).toNat]? <;> simp [Rust.unwrap]; omega

theorem easterLookup_eq_panic {t : List Nat} {y : Int} :
    easterLookup t y = .panic ↔ y < 1901 ∨ 1901 + t.length ≤ y := by
  unfold easterLookup
  split
  · simp; omega
  · cases h : t[(y - 1901).toNat]? with
    | none =>
      rw [List.getElem?_eq_none_iff] at h
      simp [Rust.unwrap]; omega
    | some v =>
      obtain ⟨h, _⟩ := List.getElem?_eq_some_iff.1 h
      simp [Rust.unwrap]; omega

theorem all_zipIdx {t : List Nat} {f : Nat → Nat → Bool} (h : (t.zipIdx.all fun p => f p.2 p.1) = true)
    {i v : Nat} (hv : t[i]? = some v) : f i v = true := by
  rw [List.all_eq_true] at h
  exact h (v, i) (List.mem_zipIdx_iff_getElem?.2 hv)

theorem easterMonday_row {y : Int} {em : Nat} (h : easterMonday y = .ok em) :
    (daysBeforeYear y + em - 1) % 7 = 0 ∧
    march1Serial y + (paschalMoonMarch y - 1) < daysBeforeYear y + em - 1 ∧
    daysBeforeYear y + em - 1 ≤ march1Serial y + (paschalMoonMarch y - 1) + 7 ∧ 83 ≤ em ∧ em ≤ 116 := by
  obtain ⟨h1, h2⟩ := easterLookup_eq_ok.1 h
  have := all_zipIdx easter_table_ok h2
  have hy : (1901 + ((y - 1901).toNat : Int)) = y := by omega
  simp only [rowOk, hy, Bool.and_eq_true, beq_iff_eq, decide_eq_true_eq] at this
  omega

theorem orthodoxEasterMonday_row {y : Int} {em : Nat} (h : orthodoxEasterMonday y = .ok em) :
    (daysBeforeYear y + em - 1) % 7 = 0 ∧
    julianMarchSerial y (julianPaschalMoonMarch y) < daysBeforeYear y + em - 1 ∧
    daysBeforeYear y + em - 1 ≤ julianMarchSerial y (julianPaschalMoonMarch y) + 7 ∧
    95 ≤ em ∧ em ≤ 130 := by
  obtain ⟨h1, h2⟩ := easterLookup_eq_ok.1 h
  have := all_zipIdx orthodox_table_ok h2
  have hy : (1901 + ((y - 1901).toNat : Int)) = y := by omega
  simp only [orthodoxRowOk, hy, Bool.and_eq_true, beq_iff_eq, decide_eq_true_eq] at this
  omega

theorem paschalMoonMarch_bounds (y : Int) : 21 ≤ paschalMoonMarch y ∧ paschalMoonMarch y ≤ 50 := by
  unfold paschalMoonMarch
  have : 0 ≤ epact y ∧ epact y ≤ 29 := by
    unfold epact
    simp only
    generalize 11 * goldenNumber y + 20 + lunarCorrection y - solarCorrection y = z
    split <;> omega
  split <;> omega

theorem serial_year_lower (d : Date) : daysBeforeYear d.year < d.numDaysFromCe := by
  unfold NaiveDate.numDaysFromCe NaiveDate.ordinal
  have h3 := d.day_pos
  omega

theorem serial_year_upper (d : Date) : d.numDaysFromCe ≤ daysBeforeYear (d.year + 1) := by
  rw [daysBeforeYear_succ]
  unfold NaiveDate.numDaysFromCe NaiveDate.ordinal
  have h2 := d.month_le
  have h4 := d.day_le
  have ht : ∀ b : Bool, ∀ m : Fin 13, 1 ≤ m.1 →
      daysBeforeMonth b m.1 + monthLen b m.1 ≤ 365 + if b then 1 else 0 := by decide
  have h5 := ht (isLeap d.year) ⟨d.month, by omega⟩ d.month_pos
  simp only at h5
  revert h5 h4
  cases isLeap d.year <;> simp <;> omega

/-- The serial number determines the year. -/
theorem year_of_serial {d : Date} {y : Int} (h1 : daysBeforeYear y < d.numDaysFromCe)
    (h2 : d.numDaysFromCe ≤ daysBeforeYear (y + 1)) : d.year = y := by
  have l := serial_year_lower d
  have u := serial_year_upper d
  rcases Int.lt_trichotomy d.year y with h | h | h
  · have := daysBeforeYear_mono (show d.year + 1 ≤ y by omega); omega
  · exact h
  · have := daysBeforeYear_mono (show y + 1 ≤ d.year by omega); omega

theorem daysBeforeYear_step (y : Int) :
    daysBeforeYear y + 365 ≤ daysBeforeYear (y + 1) ∧ daysBeforeYear (y + 1) ≤ daysBeforeYear y + 366 := by
  rw [daysBeforeYear_succ]; split <;> omega

/-- A date at most 300 days away lies in the same or a neighbouring year. -/
theorem year_near {d s : Date} {k : Int} (h : d.numDaysFromCe = s.numDaysFromCe + k) (h1 : -300 ≤ k)
    (h2 : k ≤ 300) : s.year = d.year - 1 ∨ s.year = d.year ∨ s.year = d.year + 1 := by
  have l := serial_year_lower d
  have u := serial_year_upper d
  have l' := serial_year_lower s
  have u' := serial_year_upper s
  have a := daysBeforeYear_step (d.year - 1)
  have b := daysBeforeYear_step (d.year + 1)
  have c := daysBeforeYear_step d.year
  rw [show d.year - 1 + 1 = d.year by omega] at a
  rcases Int.lt_or_le s.year (d.year - 1) with g | g
  · have := daysBeforeYear_mono (show s.year + 1 ≤ d.year - 1 by omega); omega
  · rcases Int.lt_or_le (d.year + 1) s.year with g' | g'
    · have := daysBeforeYear_mono (show d.year + 1 + 1 ≤ s.year by omega); omega
    · omega

/-- Where Easter Sunday lies in its year. -/
theorem easterSunday_bounds {s : Date} (h : IsEasterSunday s) :
    daysBeforeYear s.year + 81 ≤ s.numDaysFromCe ∧ s.numDaysFromCe ≤ daysBeforeYear s.year + 117 := by
  obtain ⟨_, h2, h3⟩ := (isEasterSunday_iff s).1 h
  have := paschalMoonMarch_bounds s.year
  unfold march1Serial at h2 h3
  split at h2 <;> omega

theorem orthodoxEasterSunday_bounds {s : Date} (hy : 1900 ≤ s.year) (hy' : s.year ≤ 2200)
    (h : IsOrthodoxEasterSunday s) :
    daysBeforeYear s.year + 92 ≤ s.numDaysFromCe ∧ s.numDaysFromCe ≤ daysBeforeYear s.year + 132 := by
  obtain ⟨_, h2, h3⟩ := (isOrthodoxEasterSunday_iff s).1 h
  unfold julianMarchSerial julianPaschalMoonMarch at h2 h3
  unfold daysBeforeYear
  have : 0 ≤ (19 * (s.year % 19) + 15) % 30 ∧ (19 * (s.year % 19) + 15) % 30 < 30 := by omega
  generalize (19 * (s.year % 19) + 15) % 30 = r at *
  split at h2 <;> omega

/-- The date with a given serial inside a given year. -/
theorem exists_date_in_year {y n : Int} (h1 : 1901 ≤ y) (h2 : y ≤ 2199) (h3 : daysBeforeYear y < n)
    (h4 : n ≤ daysBeforeYear (y + 1)) : ∃ s : Date, s.numDaysFromCe = n ∧ s.year = y := by
  have a := daysBeforeYear_mono h1
  have b := daysBeforeYear_mono (show y + 1 ≤ 2200 by omega)
  have a' : daysBeforeYear 1901 = 693960 := by decide
  have b' : daysBeforeYear 2200 = 803168 := by decide
  obtain ⟨s, _, hs⟩ := ofDays_isSome n (by omega) (by omega)
  exact ⟨s, hs, year_of_serial (by omega) (by omega)⟩

/-- `easter_monday` gives Easter Sunday and everything at a fixed distance from it. -/
theorem easter_offset {y : Int} {em : Nat} (h : easterMonday y = .ok em) (h2 : y ≤ 2199) {d : Date}
    (hd : d.year = y) {k : Int} (hk1 : -80 ≤ k) (hk2 : k ≤ 240) :
    (d.ordinal : Int) = em - 1 + k ↔ DaysFromEaster d k := by
  have h1 := (easterLookup_eq_ok.1 h).1
  obtain ⟨r1, r2, r3, r4, r5⟩ := easterMonday_row h
  have hs : d.numDaysFromCe = daysBeforeYear y + d.ordinal := by
    unfold NaiveDate.numDaysFromCe; rw [hd]
  have st := daysBeforeYear_step y
  constructor
  · intro ho
    obtain ⟨s, hs1, hsy⟩ := exists_date_in_year h1 h2 (n := daysBeforeYear y + em - 1) (by omega) (by omega)
    refine ⟨s, (isEasterSunday_iff s).2 ?_, by unfold Date.serialDate; omega⟩
    rw [hsy]; omega
  · rintro ⟨s, hsun, hds⟩
    unfold Date.serialDate at hds
    have hb := easterSunday_bounds hsun
    obtain ⟨e1, e2, e3⟩ := (isEasterSunday_iff s).1 hsun
    have l := serial_year_lower d
    have u := serial_year_upper d
    have hsy : s.year = y := by
      rcases year_near hds (by omega) (by omega) with g | g | g
      · have := (daysBeforeYear_step (d.year - 1)).1
        rw [show d.year - 1 + 1 = d.year by omega] at this
        rw [g] at hb; omega
      · omega
      · rw [g] at hb; omega
    rw [hsy] at e2 e3
    omega

/-- Orthodox counterpart of `easter_offset`. -/
theorem orthodox_offset {y : Int} {em : Nat} (h : orthodoxEasterMonday y = .ok em) (h2 : y ≤ 2199)
    {d : Date} (hd : d.year = y) {k : Int} (hk1 : -80 ≤ k) (hk2 : k ≤ 230) :
    (d.ordinal : Int) = em - 1 + k ↔ DaysFromOrthodoxEaster d k := by
  have h1 := (easterLookup_eq_ok.1 h).1
  obtain ⟨r1, r2, r3, r4, r5⟩ := orthodoxEasterMonday_row h
  have hs : d.numDaysFromCe = daysBeforeYear y + d.ordinal := by
    unfold NaiveDate.numDaysFromCe; rw [hd]
  have st := daysBeforeYear_step y
  constructor
  · intro ho
    obtain ⟨s, hs1, hsy⟩ := exists_date_in_year h1 h2 (n := daysBeforeYear y + em - 1) (by omega) (by omega)
    refine ⟨s, (isOrthodoxEasterSunday_iff s).2 ?_, by unfold Date.serialDate; omega⟩
    rw [hsy]; omega
  · rintro ⟨s, hsun, hds⟩
    unfold Date.serialDate at hds
    have hn := year_near hds (by omega) (by omega)
    have hb := orthodoxEasterSunday_bounds (by omega) (by omega) hsun
    obtain ⟨e1, e2, e3⟩ := (isOrthodoxEasterSunday_iff s).1 hsun
    have l := serial_year_lower d
    have u := serial_year_upper d
    have hsy : s.year = y := by
      rcases hn with g | g | g
      · have := (daysBeforeYear_step (d.year - 1)).1
        rw [show d.year - 1 + 1 = d.year by omega] at this
        rw [g] at hb; omega
      · omega
      · rw [g] at hb; omega
    rw [hsy] at e2 e3
    omega

theorem easterMonday_total {y : Int} (h1 : 1901 ≤ y) (h2 : y ≤ 2199) :
    ∃ em, easterMonday y = .ok em := by
  cases h : easterMonday y with
  | ok em => exact ⟨em, rfl⟩
  | panic =>
    have := easterLookup_eq_panic.1 h
    rw [easter_table_len] at this; omega

theorem orthodoxEasterMonday_total {y : Int} (h1 : 1901 ≤ y) (h2 : y ≤ 2199) :
    ∃ em, orthodoxEasterMonday y = .ok em := by
  cases h : orthodoxEasterMonday y with
  | ok em => exact ⟨em, rfl⟩
  | panic =>
    have := easterLookup_eq_panic.1 h
    rw [orthodox_table_len] at this; omega

end Qlab
