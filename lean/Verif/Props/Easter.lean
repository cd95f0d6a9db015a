import Verif.Lemmas.Easter

/-!
# Easter tables (C23, C24)
-/

namespace Qlab.Props

open Spec

/-- **C23.** For every year 1901 to 2199 the stored number is the day of the year of the Monday after Easter
Sunday, and of no other day. -/
theorem C23_easter_monday (y : Int) (h1 : 1901 ≤ y) (h2 : y ≤ 2199) :
    ∃ em, easterMonday y = .ok em ∧ ∀ d : Date, d.year = y → (d.ordinal = em ↔ IsEasterMonday d) := by
  obtain ⟨em, h⟩ := easterMonday_total h1 h2
  refine ⟨em, h, fun d hd => ?_⟩
  have := easter_offset h h2 hd (k := 1) (by omega) (by omega)
  exact ⟨fun e => this.1 (by omega), fun e => by have := this.2 e; omega⟩

/-- **C23.** More generally, `d` years-day offset from the stored number is the distance from Easter Sunday,
for every feast between 80 days before and 240 days after Easter. -/
theorem C23_easter_offset (d : Date) (k : Int) (h1 : 1901 ≤ d.year) (h2 : d.year ≤ 2199) (hk1 : -80 ≤ k)
    (hk2 : k ≤ 240) :
    ∃ em : Nat, easterMonday d.year = .ok em ∧ ((d.ordinal : Int) = em - 1 + k ↔ DaysFromEaster d k) := by
  obtain ⟨em, h⟩ := easterMonday_total h1 h2
  exact ⟨em, h, easter_offset h h2 rfl hk1 hk2⟩

/-- Good Friday 2023. -/
example : DaysFromEaster ⟨2023, 4, 7, by decide⟩ (-2) := by
  obtain ⟨em, h, hiff⟩ := C23_easter_offset ⟨2023, 4, 7, by decide⟩ (-2) (by decide) (by decide) (by decide) (by decide)
  cases h
  exact hiff.1 (by decide)

/-- **C23.** Outside 1901 to 2199 the look-up panics, and only there. -/
theorem C23_easter_panic (y : Int) : easterMonday y = .panic ↔ y < 1901 ∨ 2199 < y := by
  unfold easterMonday
  rw [easterLookup_eq_panic, easter_table_len]; omega

/-- **C23.** Easter Monday is a Monday between 23 March and 26 April. -/
theorem C23_easter_monday_range (d : Date) (em : Nat) (h : easterMonday d.year = .ok em)
    (hd : d.ordinal = em) :
    d.weekday = .Mon ∧ (d.month = 3 ∧ 23 ≤ d.day ∨ d.month = 4 ∧ d.day ≤ 26) := by
  obtain ⟨r1, r2, r3, r4, r5⟩ := easterMonday_row h
  have hpm := paschalMoonMarch_bounds d.year
  have hs : d.numDaysFromCe = daysBeforeYear d.year + d.ordinal := rfl
  have ho : d.ordinal = daysBeforeMonth (isLeap d.year) d.month + d.day := rfl
  have hl := d.day_le
  have hp := d.day_pos
  have hm := d.month_pos
  have hm' := d.month_le
  refine ⟨?_, ?_⟩
  · unfold NaiveDate.weekday
    have : (d.numDaysFromCe - 1) % 7 = 0 := by omega
    rw [this]; rfl
  · unfold march1Serial at r2 r3
    have hmm : d.month = 1 ∨ d.month = 2 ∨ d.month = 3 ∨ d.month = 4 ∨ d.month = 5 ∨ d.month = 6 ∨
      d.month = 7 ∨ d.month = 8 ∨ d.month = 9 ∨ d.month = 10 ∨ d.month = 11 ∨ d.month = 12 := by omega
    cases hleap : isLeap d.year <;> rw [hleap] at r2 r3 ho hl <;>
      rcases hmm with g | g | g | g | g | g | g | g | g | g | g | g <;> rw [g] at ho hl <;>
      simp only [daysBeforeMonth, monthLen] at ho hl <;> simp at r2 r3 hl ho <;> omega

/-- Easter Monday 2023 was 10 April, day 100 of the year. -/
example : easterMonday 2023 = .ok 100 ∧ (⟨2023, 4, 10, by decide⟩ : Date).ordinal = 100 := by decide

example : IsEasterMonday ⟨2023, 4, 10, by decide⟩ := by
  obtain ⟨em, h, hiff⟩ := C23_easter_monday 2023 (by decide) (by decide)
  refine (hiff _ rfl).1 ?_
  have h' : easterMonday 2023 = .ok 100 := by decide
  rw [h'] at h; injection h

/-- **C24.** The Orthodox table: the Monday after the first Sunday after the Julian paschal full moon. -/
theorem C24_orthodox_easter_monday (y : Int) (h1 : 1901 ≤ y) (h2 : y ≤ 2199) :
    ∃ em, orthodoxEasterMonday y = .ok em ∧
      ∀ d : Date, d.year = y → (d.ordinal = em ↔ IsOrthodoxEasterMonday d) := by
  obtain ⟨em, h⟩ := orthodoxEasterMonday_total h1 h2
  refine ⟨em, h, fun d hd => ?_⟩
  have := orthodox_offset h h2 hd (k := 1) (by omega) (by omega)
  exact ⟨fun e => this.1 (by omega), fun e => by have := this.2 e; omega⟩

example : IsOrthodoxEasterMonday ⟨2023, 4, 17, by decide⟩ := by
  obtain ⟨em, h, hiff⟩ := C24_orthodox_easter_monday 2023 (by decide) (by decide)
  cases h
  exact (hiff _ rfl).1 (by decide)

/-- **C24.** Distances from Orthodox Easter. -/
theorem C24_orthodox_offset (d : Date) (k : Int) (h1 : 1901 ≤ d.year) (h2 : d.year ≤ 2199) (hk1 : -80 ≤ k)
    (hk2 : k ≤ 230) :
    ∃ em : Nat, orthodoxEasterMonday d.year = .ok em ∧
      ((d.ordinal : Int) = em - 1 + k ↔ DaysFromOrthodoxEaster d k) := by
  obtain ⟨em, h⟩ := orthodoxEasterMonday_total h1 h2
  exact ⟨em, h, orthodox_offset h h2 rfl hk1 hk2⟩

/-- Orthodox Whit Monday 2023. -/
example : DaysFromOrthodoxEaster ⟨2023, 6, 5, by decide⟩ 50 := by
  obtain ⟨em, h, hiff⟩ := C24_orthodox_offset ⟨2023, 6, 5, by decide⟩ 50 (by decide) (by decide) (by decide) (by decide)
  cases h
  exact hiff.1 (by decide)

/-- **C24.** Outside 1901 to 2199 the look-up panics, and only there. -/
theorem C24_orthodox_panic (y : Int) : orthodoxEasterMonday y = .panic ↔ y < 1901 ∨ 2199 < y := by
  unfold orthodoxEasterMonday
  rw [easterLookup_eq_panic, orthodox_table_len]; omega

/-- **C24.** The tabulated date is a Monday between 4 April and 10 May. -/
theorem C24_orthodox_monday_range (d : Date) (em : Nat) (h : orthodoxEasterMonday d.year = .ok em)
    (hd : d.ordinal = em) :
    d.weekday = .Mon ∧ (d.month = 4 ∧ 4 ≤ d.day ∨ d.month = 5 ∧ d.day ≤ 10) := by
  obtain ⟨r1, -, -, r4, r5⟩ := orthodoxEasterMonday_row h
  have hs : d.numDaysFromCe = daysBeforeYear d.year + d.ordinal := rfl
  have ho : d.ordinal = daysBeforeMonth (isLeap d.year) d.month + d.day := rfl
  have hl := d.day_le
  have hp := d.day_pos
  have hm := d.month_pos
  have hm' := d.month_le
  refine ⟨?_, ?_⟩
  · unfold NaiveDate.weekday
    have : (d.numDaysFromCe - 1) % 7 = 0 := by omega
    rw [this]; rfl
  · have hmm : d.month = 1 ∨ d.month = 2 ∨ d.month = 3 ∨ d.month = 4 ∨ d.month = 5 ∨ d.month = 6 ∨
      d.month = 7 ∨ d.month = 8 ∨ d.month = 9 ∨ d.month = 10 ∨ d.month = 11 ∨ d.month = 12 := by omega
    cases hleap : isLeap d.year <;> rw [hleap] at ho hl <;>
      rcases hmm with g | g | g | g | g | g | g | g | g | g | g | g <;> rw [g] at ho hl <;>
      simp only [daysBeforeMonth, monthLen] at ho hl <;> simp at hl ho <;> omega

/-- Orthodox Easter Monday 2023 was 17 April, day 107 of the year. -/
example : orthodoxEasterMonday 2023 = .ok 107 ∧ (⟨2023, 4, 17, by decide⟩ : Date).ordinal = 107 := by decide

/-- **C24.** Orthodox Easter is never before Western Easter and always a whole number of weeks later. -/
theorem C24_orthodox_vs_western (y : Int) (h1 : 1901 ≤ y) (h2 : y ≤ 2199) :
    ∃ a b, easterMonday y = .ok a ∧ orthodoxEasterMonday y = .ok b ∧ a ≤ b ∧ (b - a) % 7 = 0 ∧ b - a ≤ 35 := by
  obtain ⟨a, ha⟩ := easterMonday_total h1 h2
  obtain ⟨b, hb⟩ := orthodoxEasterMonday_total h1 h2
  have ra := easterMonday_row ha
  have rb := orthodoxEasterMonday_row hb
  refine ⟨a, b, ha, hb, ?_⟩
  have key : (List.all (List.range 299) fun i =>
      match easterMondayTable[i]?, orthodoxEasterMondayTable[i]? with
      | some a, some b => decide (a ≤ b ∧ (b - a) % 7 = 0 ∧ b - a ≤ 35)
      | _, _ => false) = true := by decide +kernel
  rw [List.all_eq_true] at key
  have := key (y - 1901).toNat (List.mem_range.2 (by omega))
  rw [(easterLookup_eq_ok.1 ha).2, (easterLookup_eq_ok.1 hb).2] at this
  simpa using this

/-- Orthodox Easter Monday 2023 was 17 April, day 107. -/
example : orthodoxEasterMonday 2023 = .ok 107 ∧ (⟨2023, 4, 17, by decide⟩ : Date).ordinal = 107 := by decide

end Qlab.Props
