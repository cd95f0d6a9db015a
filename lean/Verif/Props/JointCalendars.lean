import Verif.Lemmas.CommonDayChecks
import Verif.Props.BusinessDayRuns
import Verif.Props.CalendarTrait

/-!
# Joint calendars of shipped calendars (C121)
-/

namespace Qlab

open Spec

/-- A calendar built from shipped calendars with `JointCalendar`, in any number and nesting. -/
inductive Spec.BuiltFromShipped : Calendar → Prop where
  | shipped (s : Shipped) : BuiltFromShipped s.calendar
  | joint {a b : Calendar} (ha : BuiltFromShipped a) (hb : BuiltFromShipped b) : BuiltFromShipped (a.joint b)

namespace Props

theorem built_open {c : Calendar} (hc : BuiltFromShipped c) {d : Date} (h : ∀ s : Shipped, Open s.calendar d) :
    Open c d := by
  induction hc with
  | shipped s => exact h s
  | joint _ _ ha hb => exact (C22_joint_open _ _ _).2 ⟨ha, hb⟩

theorem built_answers {c : Calendar} (hc : BuiltFromShipped c) {d : Date} (h1 : 1901 ≤ d.year) (h2 : d.year ≤ 2199) :
    Open c d ∨ Closed c d := by
  induction hc with
  | shipped s => exact C29_answers s d h1 h2
  | joint _ _ ha hb =>
    rcases ha with ha | ha <;> rcases hb with hb | hb <;>
    · have := C22_joint_and _ _ d _ _ ha hb
      unfold Open Closed
      rw [this]; simp

theorem open_of_free {x : Date} (h1 : 1901 ≤ x.year) (h2 : x.year ≤ 2199) (hw : x.weekday.fromMonday ≤ 3)
    (hh : ∀ s : Shipped, ¬ HolidayOn (holidays s) x) (s : Shipped) : Open s.calendar x := by
  refine (C66_open_exactly s x fun _ => ⟨h1, h2⟩).2 ⟨fun hr => ?_, hh s⟩
  have h := restDay_restDays hr
  generalize x.weekday.fromMonday = w at hw h
  have : ∀ w, w ≤ 3 → restDays s w = false := by
    intro w hw
    rcases (by omega : w = 0 ∨ w = 1 ∨ w = 2 ∨ w = 3) with rfl | rfl | rfl | rfl <;> (cases s <;> rfl)
  rw [this w hw] at h
  cases h

theorem shared_at {m : Nat} {ds : List Nat} (hm1 : 1 ≤ m) (hm2 : m ≤ 12) (h : sharedIn m ds = true) {y : Int}
    (h1 : 1901 ≤ y) (h2 : y ≤ 2199) :
    ∃ x : Date, x.year = y ∧ x.month = m ∧ ds[(y - 1901).toNat]? = some x.day ∧
      ∀ c, BuiltFromShipped c → Open c x := by
  obtain ⟨x, x1, x2, x3, x4, x5⟩ := sharedIn_sound hm1 hm2 allShipped_wf
    (List.all_eq_true.1 recurringComplete_all m (by rw [List.mem_range'_1]; omega)) h h1 h2
  exact ⟨x, x1, x2, x3, fun c hc => built_open hc (open_of_free (by omega) (by omega) x4 x5)⟩

/-- From the last shared day of a month to the first shared day of the next. -/
theorem shared_gap {a b : Date} (h1 : 1901 ≤ a.year) (h2 : b.year ≤ 2199)
    (hab : monthNumber b.year b.month = monthNumber a.year a.month + 1)
    (ha : (lastShared a.month)[(a.year - 1901).toNat]? = some a.day)
    (hb : (firstShared b.month)[(b.year - 1901).toNat]? = some b.day) :
    monthLen (isLeap a.year) a.month + b.day ≤ 31 + a.day := by
  have a1 := a.month_pos
  have a2 := a.month_le
  have b1 := b.month_pos
  have b2 := b.month_le
  unfold monthNumber at hab
  have hy : ((1901 + (a.year - 1901).toNat : Nat) : Int) = a.year := by omega
  by_cases hm : a.month = 12
  · have hbm : b.month = 1 := by omega
    have hby : (b.year - 1901).toNat = (a.year - 1901).toNat + 1 := by omega
    rw [hm] at ha ⊢
    rw [hbm, hby, ← List.getElem?_tail] at hb
    have := gapsSmall_at gapsSmall_all.2 ha hb
    rwa [hy] at this
  · have hbm : b.month = a.month + 1 := by omega
    have hby : b.year = a.year := by omega
    rw [hbm, hby] at hb
    have := gapsSmall_at (List.all_eq_true.1 gapsSmall_all.1 a.month (by rw [List.mem_range'_1]; omega)) ha hb
    rwa [hy] at this

/-- **C121.** In every month of the years 1901 to 2199 there is a day on which all the shipped calendars, and so all the
joint calendars built from them, have a business day. -/
theorem C121_shared_day (y : Int) (m : Nat) (h1 : 1901 ≤ y) (h2 : y ≤ 2199) (hm1 : 1 ≤ m) (hm2 : m ≤ 12) :
    ∃ d : Date, d.year = y ∧ d.month = m ∧ ∀ c, BuiltFromShipped c → Open c d := by
  obtain ⟨x, x1, x2, -, x4⟩ := shared_at hm1 hm2 (firstShared_ok hm1 hm2) h1 h2
  exact ⟨x, x1, x2, x4⟩

/-- **C121.** From every day there are at most 30 days to such a day. -/
theorem C121_next_shared_day (u : Date) (h1 : 1901 ≤ u.year) (h2 : u.year < 2199) :
    ∃ x : Date, u ≤ x ∧ Date.sub x u ≤ 30 ∧ x.year ≤ 2199 ∧ ∀ c, BuiltFromShipped c → Open c x := by
  have u1 := u.month_pos
  have u2 := u.month_le
  have u3 := u.day_pos
  have u4 := u.day_le
  have u5 := monthLen_le (isLeap u.year) u.month
  obtain ⟨l, l1, l2, l3, l4⟩ := shared_at u1 u2 (lastShared_ok u1 u2) h1 (by omega)
  have hl := l.day_le
  rw [l1, l2] at hl
  have sl := serial_same_year (x := l) l2 rfl
  have su := serial_same_year (x := u) rfl rfl
  rw [l1] at sl
  by_cases hd : u.day ≤ l.day
  · refine ⟨l, (NaiveDate.le_iff_serial _ _).2 (by omega), ?_, by omega, l4⟩
    show l.numDaysFromCe - u.numDaysFromCe ≤ 30
    omega
  · obtain ⟨f, hf, f2, f3, f4⟩ : ∃ f : Date, monthNumber f.year f.month = monthNumber u.year u.month + 1 ∧
        f.year ≤ 2199 ∧ (firstShared f.month)[(f.year - 1901).toNat]? = some f.day ∧
        ∀ c, BuiltFromShipped c → Open c f := by
      by_cases hm : u.month = 12
      · obtain ⟨f, f1, f2, f3, f4⟩ := shared_at (m := 1) (by omega) (by omega) (firstShared_ok (by omega) (by omega))
          (y := u.year + 1) (by omega) (by omega)
        exact ⟨f, by rw [f1, f2, hm]; unfold monthNumber; omega, by omega, by rw [f1, f2]; exact f3, f4⟩
      · obtain ⟨f, f1, f2, f3, f4⟩ := shared_at (m := u.month + 1) (by omega) (by omega)
          (firstShared_ok (by omega) (by omega)) (y := u.year) (by omega) (by omega)
        exact ⟨f, by rw [f1, f2]; unfold monthNumber; omega, by omega, by rw [f1, f2]; exact f3, f4⟩
    have g := shared_gap (a := l) (b := f) (by omega) f2 (by rw [l1, l2]; exact hf) (by rw [l1, l2]; exact l3) f3
    rw [l1, l2] at g
    have sf := serial_next_month hf
    have := f.day_pos
    refine ⟨f, (NaiveDate.le_iff_serial _ _).2 (by omega), ?_, f2, f4⟩
    show f.numDaysFromCe - u.numDaysFromCe ≤ 30
    omega

/-- **C121.** And at most 30 days back to one. -/
theorem C121_previous_shared_day (u : Date) (h1 : 1901 < u.year) (h2 : u.year ≤ 2199) :
    ∃ x : Date, x ≤ u ∧ Date.sub u x ≤ 30 ∧ 1901 ≤ x.year ∧ ∀ c, BuiltFromShipped c → Open c x := by
  have u1 := u.month_pos
  have u2 := u.month_le
  have u3 := u.day_pos
  have u4 := u.day_le
  have u5 := monthLen_le (isLeap u.year) u.month
  obtain ⟨f, f1, f2, f3, f4⟩ := shared_at u1 u2 (firstShared_ok u1 u2) (y := u.year) (by omega) (by omega)
  have hf := f.day_pos
  have sf := serial_same_year (x := f) f2 rfl
  have su := serial_same_year (x := u) rfl rfl
  rw [f1] at sf
  by_cases hd : f.day ≤ u.day
  · refine ⟨f, (NaiveDate.le_iff_serial _ _).2 (by omega), ?_, by omega, f4⟩
    show u.numDaysFromCe - f.numDaysFromCe ≤ 30
    omega
  · obtain ⟨l, hl, l2, l3, l4⟩ : ∃ l : Date, monthNumber u.year u.month = monthNumber l.year l.month + 1 ∧
        1901 ≤ l.year ∧ (lastShared l.month)[(l.year - 1901).toNat]? = some l.day ∧
        ∀ c, BuiltFromShipped c → Open c l := by
      by_cases hm : u.month = 1
      · obtain ⟨f, f1, f2, f3, f4⟩ := shared_at (m := 12) (by omega) (by omega) (lastShared_ok (by omega) (by omega))
          (y := u.year - 1) (by omega) (by omega)
        exact ⟨f, by rw [f1, f2, hm]; unfold monthNumber; omega, by omega, by rw [f1, f2]; exact f3, f4⟩
      · obtain ⟨f, f1, f2, f3, f4⟩ := shared_at (m := u.month - 1) (by omega) (by omega)
          (lastShared_ok (by omega) (by omega)) (y := u.year) (by omega) (by omega)
        exact ⟨f, by rw [f1, f2]; unfold monthNumber; omega, by omega, by rw [f1, f2]; exact f3, f4⟩
    have g := shared_gap (a := l) (b := f) l2 (by omega) (by rw [f1, f2]; exact hl) l3 (by rw [f1, f2]; exact f3)
    have sl := serial_next_month hl
    have := l.day_le
    refine ⟨l, (NaiveDate.le_iff_serial _ _).2 (by omega), ?_, l2, l4⟩
    show u.numDaysFromCe - l.numDaysFromCe ≤ 30
    omega

/-- **C121.** With any joint calendar of shipped calendars, `Following` finds a business day at most 30 days ahead. -/
theorem C121_following {c : Calendar} (hc : BuiltFromShipped c) (u : Date) (h1 : 1901 ≤ u.year)
    (h2 : u.year < 2199) : ∃ r, IsFollowing c u r ∧ Date.sub r u ≤ 30 := by
  obtain ⟨x, x1, x2, x3, x4⟩ := C121_next_shared_day u h1 h2
  obtain ⟨r, hr, hr'⟩ := exists_following x1 (x4 c hc) fun z z1 z2 => built_answers hc
    (by have := year_mono z1; omega) (by have := year_mono z2; omega)
  refine ⟨r, hr, ?_⟩
  have := (NaiveDate.le_iff_serial _ _).1 hr'
  have x2 : x.numDaysFromCe - u.numDaysFromCe ≤ 30 := x2
  show r.numDaysFromCe - u.numDaysFromCe ≤ 30
  omega

/-- **C121.** With any joint calendar of shipped calendars, `Preceding` finds a business day at most 30 days back. -/
theorem C121_preceding {c : Calendar} (hc : BuiltFromShipped c) (u : Date) (h1 : 1901 < u.year)
    (h2 : u.year ≤ 2199) : ∃ r, IsPreceding c u r ∧ Date.sub u r ≤ 30 := by
  obtain ⟨x, x1, x2, x3, x4⟩ := C121_previous_shared_day u h1 h2
  obtain ⟨r, hr, hr'⟩ := exists_preceding x1 (x4 c hc) fun z z1 z2 => built_answers hc
    (by have := year_mono z1; omega) (by have := year_mono z2; omega)
  refine ⟨r, hr, ?_⟩
  have := (NaiveDate.le_iff_serial _ _).1 hr'
  have x2 : u.numDaysFromCe - x.numDaysFromCe ≤ 30 := x2
  show u.numDaysFromCe - r.numDaysFromCe ≤ 30
  omega

/-- **C121.** Rolling with any joint calendar of shipped calendars never panics and never returns `None` once the
unadjusted date `u` exists, and moves it by at most 30 days, in every mode. -/
theorem C121_roll_total {c : Calendar} (hc : BuiltFromShipped c) (d u : Date) (p : Period) (m : DateRolling)
    (hu : p.checkedAdd d = .ok (some u)) (h1 : 1901 < u.year) (h2 : u.year < 2199) :
    ∃ r, Date.checkedRoll d p c m = .ok (some r) ∧ Date.sub r u ≤ 30 ∧ Date.sub u r ≤ 30 := by
  obtain ⟨f, hf, hf'⟩ := C121_following hc u (by omega) h2
  obtain ⟨b, hb, hb'⟩ := C121_preceding hc u h1 (by omega)
  have sf := (NaiveDate.le_iff_serial _ _).1 hf.1
  have sb := (NaiveDate.le_iff_serial _ _).1 hb.1
  have gf : Date.sub u f ≤ 30 := by show u.numDaysFromCe - f.numDaysFromCe ≤ 30; omega
  have gb : Date.sub b u ≤ 30 := by show b.numDaysFromCe - u.numDaysFromCe ≤ 30; omega
  cases m with
  | unadjusted =>
    have : Date.sub u u ≤ 30 := by show u.numDaysFromCe - u.numDaysFromCe ≤ 30; omega
    exact ⟨u, hu, this, this⟩
  | following => exact ⟨f, (C13_following _ _ _ _).2 ⟨u, hu, hf⟩, hf', gf⟩
  | preceding => exact ⟨b, (C14_preceding _ _ _ _).2 ⟨u, hu, hb⟩, gb, hb'⟩
  | modifiedFollowing =>
    by_cases hm : f.month = d.month
    · exact ⟨f, (modifiedFollowing_eq _ _ _ _).2 ⟨u, f, hu, hf, Or.inl ⟨hm, rfl⟩⟩, hf', gf⟩
    · exact ⟨b, (modifiedFollowing_eq _ _ _ _).2 ⟨u, f, hu, hf, Or.inr ⟨hm, hb⟩⟩, gb, hb'⟩
  | modifiedPreceding =>
    by_cases hm : b.month = d.month
    · exact ⟨b, (modifiedPreceding_eq _ _ _ _).2 ⟨u, b, hu, hb, Or.inl ⟨hm, rfl⟩⟩, gb, hb'⟩
    · exact ⟨f, (modifiedPreceding_eq _ _ _ _).2 ⟨u, b, hu, hb, Or.inr ⟨hm, hf⟩⟩, hf', gf⟩

/-- **C121.** The market conventions "modified following" and "modified preceding" give a date in the month of the
unadjusted date. -/
theorem C121_modified_conventions {c : Calendar} (hc : BuiltFromShipped c) (u : Date) (h1 : 1901 < u.year)
    (h2 : u.year < 2199) :
    (∃ r, IsModifiedFollowing c u r) ∧ (∃ r, IsModifiedPreceding c u r) ∧
    (∀ r, IsModifiedFollowing c u r → SameMonth r u) ∧ (∀ r, IsModifiedPreceding c u r → SameMonth r u) := by
  obtain ⟨f, hf, -⟩ := C121_following hc u (by omega) h2
  obtain ⟨b, hb, -⟩ := C121_preceding hc u h1 (by omega)
  obtain ⟨x, x1, x2, x5⟩ := C121_shared_day u.year u.month (by omega) (by omega) u.month_pos u.month_le
  have x5 := x5 c hc
  have hx : monthNumber x.year x.month = monthNumber u.year u.month := sameMonth_iff.1 ⟨x1, x2⟩
  have key : SameMonth f u ∨ SameMonth b u := by
    rw [sameMonth_iff, sameMonth_iff]
    have g1 := monthNumber_mono hf.1
    have g2 := monthNumber_mono hb.1
    rcases date_lt_or_ge x u with h | h
    · right
      rcases date_lt_or_ge b x with h' | h'
      · exact absurd (hb.2.2 x h' (date_le_of_lt h)) (open_not_closed x5)
      · have := monthNumber_mono h'; omega
    · left
      rcases date_lt_or_ge x f with h' | h'
      · exact absurd (hf.2.2 x h h') (open_not_closed x5)
      · have := monthNumber_mono h'; omega
  refine ⟨?_, ?_, ?_, ?_⟩
  · by_cases h : SameMonth f u
    · exact ⟨f, f, hf, Or.inl ⟨h, rfl⟩⟩
    · exact ⟨b, f, hf, Or.inr ⟨h, hb⟩⟩
  · by_cases h : SameMonth b u
    · exact ⟨b, b, hb, Or.inl ⟨h, rfl⟩⟩
    · exact ⟨f, b, hb, Or.inr ⟨h, hf⟩⟩
  · rintro r ⟨f', hf', ⟨h, rfl⟩ | ⟨h, hr⟩⟩
    · exact h
    · rw [isFollowing_unique hf' hf] at h
      rw [isPreceding_unique hr hb]
      exact key.resolve_left h
  · rintro r ⟨b', hb', ⟨h, rfl⟩ | ⟨h, hr⟩⟩
    · exact h
    · rw [isPreceding_unique hb' hb] at h
      rw [isFollowing_unique hr hf]
      exact key.resolve_right h

/-- Three calendars with different weekends and holidays, joined. -/
theorem jointExample : BuiltFromShipped ((Shipped.israel.calendar.joint Shipped.china.calendar).joint
    (Shipped.unitedStates (some .NYSE)).calendar) :=
  .joint (.joint (.shipped _) (.shipped _)) (.shipped _)

example := C121_shared_day 2024 2 (by decide) (by decide) (by decide) (by decide)
example := C121_next_shared_day ⟨2027, 4, 21, by decide⟩ (by decide) (by decide)
example := C121_previous_shared_day ⟨2004, 10, 12, by decide⟩ (by decide) (by decide)
example := C121_following jointExample ⟨2024, 2, 9, by decide⟩ (by decide) (by decide)
example := C121_preceding jointExample ⟨2024, 2, 17, by decide⟩ (by decide) (by decide)
example := C121_roll_total jointExample ⟨2024, 1, 9, by decide⟩ ⟨2024, 2, 9, by decide⟩ (.months 1) .modifiedFollowing
  (by decide) (by decide) (by decide)
example := C121_modified_conventions jointExample ⟨2024, 3, 30, by decide⟩ (by decide) (by decide)

end Props

end Qlab
