import Verif.Props.BusinessDayRuns
import Verif.Props.CalendarTrait

/-!
# Moving by business days (C100)

A caller who wants the date `n` business days ahead adds one day and rolls with `Following`, `n` times.
-/

namespace Qlab.Spec

/-- What such a caller runs: `n` calls of `checked_roll` by one day with `Following`, stopping at `None`. -/
def businessDaysAhead (c : Calendar) : Nat → Date → Rust (Option Date)
  | 0, d => .ok (some d)
  | n + 1, d => do
    match ← Date.checkedRoll d (.days 1) c .following with
    | none => return none
    | some r => businessDaysAhead c n r

end Qlab.Spec

namespace Qlab.Props

open Spec

theorem openDays_eq_zero (c : Calendar) (a b : Int) :
    openDays c a b = 0 ↔ ∀ x : Date, a ≤ Date.serialDate x → Date.serialDate x < b → ¬ Open c x := by
  classical
  unfold openDays
  rw [Finset.card_eq_zero, Finset.filter_eq_empty_iff]
  constructor
  · intro h x h1 h2 ho
    exact h (Finset.mem_Ico.2 ⟨h1, h2⟩) ⟨x, rfl, ho⟩
  · rintro h s hs ⟨x, rfl, ho⟩
    exact h x (Finset.mem_Ico.1 hs).1 (Finset.mem_Ico.1 hs).2 ho

/-- The next business day strictly after `d`. -/
def NextOpen (c : Calendar) (d r : Date) : Prop := d < r ∧ Open c r ∧ ∀ x, d < x → x < r → Closed c x

theorem add_one {d u : Date} :
    (Period.days 1).checkedAdd d = .ok (some u) ↔ u.numDaysFromCe = d.numDaysFromCe + 1 := by
  show (Rust.ok (Date.checkedAddDays d 1)) = _ ↔ _
  rw [Rust.ok.injEq, C05_add_days]
  show u.numDaysFromCe - d.numDaysFromCe = ((1 : Nat) : Int) ↔ _
  omega

theorem add_one_none {d : Date} : (Period.days 1).checkedAdd d = .ok none ↔ d = NaiveDate.MAX := by
  show (Rust.ok (Date.checkedAddDays d 1)) = _ ↔ _
  rw [Rust.ok.injEq, ← C06_succ_eq_add_one]
  exact NaiveDate.succOpt_eq_none

theorem exists_tomorrow {d : Date} (h : d ≠ NaiveDate.MAX) : ∃ u : Date, u.numDaysFromCe = d.numDaysFromCe + 1 := by
  cases e : Date.succOpt d with
  | none => exact absurd (NaiveDate.succOpt_eq_none.1 e) h
  | some u => exact ⟨u, NaiveDate.succOpt_eq_some.1 e⟩

theorem after_iff {d u x : Date} (h : u.numDaysFromCe = d.numDaysFromCe + 1) : u ≤ x ↔ d < x := by
  rw [NaiveDate.le_iff_serial, NaiveDate.lt_iff_serial]; omega

theorem step_some {c : Calendar} {d r : Date} :
    Date.checkedRoll d (.days 1) c .following = .ok (some r) ↔ NextOpen c d r := by
  rw [C13_following]
  constructor
  · rintro ⟨u, hu, h1, h2, h3⟩
    rw [add_one] at hu
    exact ⟨(after_iff hu).1 h1, h2, fun x hx hxr => h3 x ((after_iff hu).2 hx) hxr⟩
  · rintro ⟨h1, h2, h3⟩
    have hd : d ≠ NaiveDate.MAX := by
      rintro rfl
      have := (NaiveDate.le_iff_serial _ _).1 (NaiveDate.le_MAX r)
      have := (NaiveDate.lt_iff_serial _ _).1 h1
      omega
    obtain ⟨u, hu⟩ := exists_tomorrow hd
    exact ⟨u, add_one.2 hu, (after_iff hu).2 h1, h2, fun x hx hxr => h3 x ((after_iff hu).1 hx) hxr⟩

theorem step_none {c : Calendar} {d : Date} :
    Date.checkedRoll d (.days 1) c .following = .ok none ↔ ∀ x, d < x → Closed c x := by
  rw [C13_following_none]
  constructor
  · rintro (h | ⟨u, hu, h⟩) x hx
    · rw [add_one_none] at h
      subst h
      have := (NaiveDate.le_iff_serial _ _).1 (NaiveDate.le_MAX x)
      have := (NaiveDate.lt_iff_serial _ _).1 hx
      omega
    · rw [add_one] at hu
      exact h x ((after_iff hu).2 hx)
  · intro h
    by_cases hd : d = NaiveDate.MAX
    · exact .inl (add_one_none.2 hd)
    · obtain ⟨u, hu⟩ := exists_tomorrow hd
      exact .inr ⟨u, add_one.2 hu, fun x hx => h x ((after_iff hu).1 hx)⟩

theorem step_panic {c : Calendar} {d : Date} :
    Date.checkedRoll d (.days 1) c .following = .panic ↔
      ∃ x, d < x ∧ Crashes c x ∧ ∀ z, d < z → z < x → Closed c z := by
  rw [C13_following_panic]
  constructor
  · rintro (h | ⟨u, hu, x, h1, h2, h3⟩)
    · cases h
    · rw [add_one] at hu
      exact ⟨x, (after_iff hu).1 h1, h2, fun z hz hzx => h3 z ((after_iff hu).2 hz) hzx⟩
  · rintro ⟨x, h1, h2, h3⟩
    have hd : d ≠ NaiveDate.MAX := by
      rintro rfl
      have := (NaiveDate.le_iff_serial _ _).1 (NaiveDate.le_MAX x)
      have := (NaiveDate.lt_iff_serial _ _).1 h1
      omega
    obtain ⟨u, hu⟩ := exists_tomorrow hd
    exact .inr ⟨u, add_one.2 hu, x, (after_iff hu).2 h1, h2, fun z hz hzx => h3 z ((after_iff hu).1 hz) hzx⟩

/-- One step skips no business day: `hi` anywhere after the step. -/
theorem openDays_step {c : Calendar} {d q : Date} (h : NextOpen c d q) {hi : Int} (hq : Date.serialDate q < hi) :
    openDays c (Date.serialDate d + 1) hi = openDays c (Date.serialDate q + 1) hi + 1 := by
  obtain ⟨h1, h2, h3⟩ := h
  rw [NaiveDate.lt_iff_serial] at h1
  have e0 : openDays c (Date.serialDate d + 1) (Date.serialDate q) = 0 := by
    rw [openDays_eq_zero]
    intro x x1 x2 ho
    refine open_not_closed ho (h3 x ?_ ?_)
    · rw [NaiveDate.lt_iff_serial]; unfold Date.serialDate at x1; omega
    · rw [NaiveDate.lt_iff_serial]; exact x2
  have e1 := openDays_add c (Date.serialDate d + 1) (Date.serialDate q) hi
    (by unfold Date.serialDate; omega) (le_of_lt hq)
  rw [← e1, e0, (openDays_head c q hi hq).1 h2]
  omega

theorem answers_step {c : Calendar} {d q : Date} (h : NextOpen c d q) (hi : Int) :
    AnswersOn c (Date.serialDate d + 1) hi ↔ AnswersOn c (Date.serialDate q + 1) hi := by
  obtain ⟨h1, h2, h3⟩ := h
  rw [NaiveDate.lt_iff_serial] at h1
  unfold AnswersOn Date.serialDate
  constructor
  · intro h x x1 x2
    exact h x (by omega) x2
  · intro h x x1 x2 hc
    rcases NaiveDate.trichotomy x q with hx | rfl | hx
    · have := h3 x (by rw [NaiveDate.lt_iff_serial]; omega) hx
      unfold Closed at this
      unfold Crashes at hc
      rw [this] at hc; cases hc
    · unfold Open at h2
      unfold Crashes at hc
      rw [h2] at hc; cases hc
    · exact h x (by rw [NaiveDate.lt_iff_serial] at hx; omega) x2 hc

/-- If there is a business day, or a crash, after `d`, the first of them. -/
theorem next_or_none (c : Calendar) (d : Date) :
    (∃ q, NextOpen c d q) ∨ (∀ x, d < x → Closed c x) ∨
      ∃ x, d < x ∧ Crashes c x ∧ ∀ z, d < z → z < x → Closed c z := by
  rw [← step_none, ← step_panic]
  cases h : Date.checkedRoll d (.days 1) c .following with
  | panic => exact .inr (.inr rfl)
  | ok o =>
    cases o with
    | none => exact .inr (.inl rfl)
    | some q => exact .inl ⟨q, step_some.1 h⟩

theorem ahead_succ (c : Calendar) (n : Nat) (d : Date) :
    businessDaysAhead c (n + 1) d = (Date.checkedRoll d (.days 1) c .following >>= fun o =>
      match o with
      | none => .ok none
      | some r => businessDaysAhead c n r) := rfl

/-- A crash rules out a next business day before it. -/
theorem next_before {c : Calendar} {d q x : Date} (h : NextOpen c d q) (hx : d < x) (hc : ¬ Closed c x) : q ≤ x := by
  rcases date_lt_or_ge x q with h' | h'
  · exact absurd (h.2.2 x hx h') hc
  · exact h'

/-- **C100.** After `n + 1` steps the caller stands on the business day `r` exactly when `r` is a business day after
`d` and there are exactly `n + 1` business days from the day after `d` up to and including `r`: no business day is
skipped and none is visited twice. -/
theorem C100_steps (c : Calendar) (n : Nat) (d r : Date) :
    businessDaysAhead c (n + 1) d = .ok (some r) ↔
      d < r ∧ Open c r ∧ AnswersOn c (Date.serialDate d + 1) (Date.serialDate r + 1) ∧
      openDays c (Date.serialDate d + 1) (Date.serialDate r + 1) = n + 1 := by
  induction n generalizing d with
  | zero =>
    rw [ahead_succ]
    have : (Date.checkedRoll d (.days 1) c .following >>= fun o =>
        match o with
        | none => .ok none
        | some r => businessDaysAhead c 0 r) = Date.checkedRoll d (.days 1) c .following := by
      cases Date.checkedRoll d (.days 1) c .following with
      | panic => rfl
      | ok o => cases o <;> rfl
    rw [this, step_some]
    constructor
    · intro h
      have e := openDays_step h (hi := Date.serialDate r + 1) (by omega)
      rw [openDays_empty] at e
      refine ⟨h.1, h.2.1, (answers_step h _).2 ?_, e⟩
      intro x x1 x2; omega
    · rintro ⟨h1, h2, h3, h4⟩
      refine ⟨h1, h2, fun x x1 x2 => ?_⟩
      rw [NaiveDate.lt_iff_serial] at h1 x1 x2
      have hx := h3 x (by unfold Date.serialDate; omega) (by unfold Date.serialDate; omega)
      rcases crashes_or c x with ho | ho | ho
      · exfalso
        have e1 := openDays_add c (Date.serialDate d + 1) (Date.serialDate r) (Date.serialDate r + 1)
          (by unfold Date.serialDate; omega) (by omega)
        have e2 := (openDays_head c r (Date.serialDate r + 1) (by omega)).1 h2
        rw [openDays_empty] at e2
        have e3 : openDays c (Date.serialDate d + 1) (Date.serialDate r) = 0 := by omega
        rw [openDays_eq_zero] at e3
        exact e3 x (by unfold Date.serialDate; omega) (by unfold Date.serialDate; omega) ho
      · exact ho
      · exact absurd ho hx
  | succ n ih =>
    rw [ahead_succ]
    rcases next_or_none c d with ⟨q, hq⟩ | h | ⟨x, x1, x2, x3⟩
    · rw [step_some.2 hq, Rust.ok_bind]
      show businessDaysAhead c (n + 1) q = _ ↔ _
      rw [ih q]
      have s1 := (NaiveDate.lt_iff_serial _ _).1 hq.1
      constructor
      · rintro ⟨h1, h2, h3, h4⟩
        have s2 := (NaiveDate.lt_iff_serial _ _).1 h1
        have e := openDays_step hq (hi := Date.serialDate r + 1) (by unfold Date.serialDate; omega)
        exact ⟨by rw [NaiveDate.lt_iff_serial]; omega, h2, (answers_step hq _).2 h3, by omega⟩
      · rintro ⟨h1, h2, h3, h4⟩
        have hqr : q ≤ r := next_before hq h1 (open_not_closed h2)
        rw [NaiveDate.le_iff_serial] at hqr
        have e := openDays_step hq (hi := Date.serialDate r + 1) (by unfold Date.serialDate; omega)
        have hne : q ≠ r := by
          rintro rfl
          rw [openDays_empty] at e; omega
        rcases date_eq_or_lt ((NaiveDate.le_iff_serial _ _).2 hqr) with h' | h'
        · exact absurd h' hne
        · exact ⟨h', h2, (answers_step hq _).1 h3, by omega⟩
    · rw [step_none.2 h, Rust.ok_bind]
      constructor
      · intro h'; cases h'
      · rintro ⟨h1, h2, -⟩; exact absurd (h r h1) (open_not_closed h2)
    · rw [step_panic.2 ⟨x, x1, x2, x3⟩]
      constructor
      · intro h'; cases h'
      · rintro ⟨h1, h2, h3, -⟩
        exfalso
        rcases date_lt_or_ge r x with h' | h'
        · exact open_not_closed h2 (x3 r h1 h')
        · rw [NaiveDate.lt_iff_serial] at x1
          rw [NaiveDate.le_iff_serial] at h'
          exact h3 x (by unfold Date.serialDate; omega) (by unfold Date.serialDate; omega) x2

/-- **C100.** `None` exactly when fewer than `n` business days are left before the end of the range of dates. -/
theorem C100_none (c : Calendar) (n : Nat) (d : Date) :
    businessDaysAhead c n d = .ok none ↔
      openDays c (Date.serialDate d + 1) (Date.serialDate NaiveDate.MAX + 1) < n ∧
      AnswersOn c (Date.serialDate d + 1) (Date.serialDate NaiveDate.MAX + 1) := by
  induction n generalizing d with
  | zero =>
    constructor
    · intro h; cases h
    · rintro ⟨h, -⟩; omega
  | succ n ih =>
    rw [ahead_succ]
    rcases next_or_none c d with ⟨q, hq⟩ | h | ⟨x, x1, x2, x3⟩
    · rw [step_some.2 hq, Rust.ok_bind]
      show businessDaysAhead c n q = _ ↔ _
      have s1 := (NaiveDate.le_iff_serial _ _).1 (NaiveDate.le_MAX q)
      rw [ih q, answers_step hq, openDays_step hq (by unfold Date.serialDate; omega), Nat.succ_lt_succ_iff]
    · rw [step_none.2 h, Rust.ok_bind]
      refine ⟨fun _ => ⟨?_, ?_⟩, fun _ => rfl⟩
      · have : openDays c (Date.serialDate d + 1) (Date.serialDate NaiveDate.MAX + 1) = 0 := by
          rw [openDays_eq_zero]
          intro x x1 x2 ho
          exact open_not_closed ho (h x (by rw [NaiveDate.lt_iff_serial]; unfold Date.serialDate at x1; omega))
        omega
      · intro x x1 x2 hc
        have := h x (by rw [NaiveDate.lt_iff_serial]; unfold Date.serialDate at x1; omega)
        unfold Closed at this
        unfold Crashes at hc
        rw [this] at hc; cases hc
    · rw [step_panic.2 ⟨x, x1, x2, x3⟩]
      constructor
      · intro h'; cases h'
      · rintro ⟨-, h3⟩
        exfalso
        rw [NaiveDate.lt_iff_serial] at x1
        have s1 := (NaiveDate.le_iff_serial _ _).1 (NaiveDate.le_MAX x)
        exact h3 x (by unfold Date.serialDate; omega) (by unfold Date.serialDate; omega) x2

/-- **C100.** It panics exactly when the calendar panics on a date that comes before the `n`-th business day. -/
theorem C100_panic (c : Calendar) (n : Nat) (d : Date) :
    businessDaysAhead c n d = .panic ↔
      ∃ x, d < x ∧ Crashes c x ∧ openDays c (Date.serialDate d + 1) (Date.serialDate x) < n := by
  induction n generalizing d with
  | zero =>
    constructor
    · intro h; cases h
    · rintro ⟨x, -, -, h⟩; omega
  | succ n ih =>
    rw [ahead_succ]
    rcases next_or_none c d with ⟨q, hq⟩ | h | ⟨x, x1, x2, x3⟩
    · rw [step_some.2 hq, Rust.ok_bind]
      show businessDaysAhead c n q = _ ↔ _
      rw [ih q]
      have s1 := (NaiveDate.lt_iff_serial _ _).1 hq.1
      constructor
      · rintro ⟨x, x1, x2, x3⟩
        rw [NaiveDate.lt_iff_serial] at x1
        refine ⟨x, by rw [NaiveDate.lt_iff_serial]; omega, x2, ?_⟩
        rw [openDays_step hq (by unfold Date.serialDate; omega)]
        omega
      · rintro ⟨x, x1, x2, x3⟩
        have hqx : q ≤ x := next_before hq x1 (by
          intro h; unfold Closed at h; unfold Crashes at x2; rw [h] at x2; cases x2)
        rcases date_eq_or_lt hqx with rfl | hqx
        · have h := hq.2.1
          unfold Open at h
          unfold Crashes at x2
          rw [h] at x2; cases x2
        · refine ⟨x, hqx, x2, ?_⟩
          rw [NaiveDate.lt_iff_serial] at hqx
          rw [openDays_step hq (by unfold Date.serialDate; omega)] at x3
          omega
    · rw [step_none.2 h, Rust.ok_bind]
      constructor
      · intro h'; cases h'
      · rintro ⟨x, x1, x2, -⟩
        have := h x x1
        unfold Closed at this
        unfold Crashes at x2
        rw [this] at x2; cases x2
    · rw [step_panic.2 ⟨x, x1, x2, x3⟩]
      refine ⟨fun _ => ⟨x, x1, x2, ?_⟩, fun _ => rfl⟩
      have : openDays c (Date.serialDate d + 1) (Date.serialDate x) = 0 := by
        rw [openDays_eq_zero]
        intro z z1 z2 ho
        refine open_not_closed ho (x3 z ?_ ?_)
        · rw [NaiveDate.lt_iff_serial]; unfold Date.serialDate at z1; omega
        · rw [NaiveDate.lt_iff_serial]; exact z2
      omega

/-- **C100.** Counting agrees with moving: `business_days_between` from the start to the date reached, first date left
out and last date counted, is the number of steps. -/
theorem C100_count (c : Calendar) (n : Nat) (d r : Date) (hr : r < NaiveDate.MAX) (hdr : d < r) :
    businessDaysAhead c n d = .ok (some r) ↔
      Open c r ∧ c.businessDaysBetween d r (some true) (some true) = .ok n := by
  have hmax : Date.serialDate NaiveDate.MAX = 95745399 := NaiveDate.serial_MAX
  have hr' : r.numDaysFromCe < 95745399 := by
    have h := (NaiveDate.lt_iff_serial _ _).1 hr
    rwa [NaiveDate.serial_MAX] at h
  have hdr' := (NaiveDate.lt_iff_serial _ _).1 hdr
  have e1 : firstCounted d (some true) = Date.serialDate d + 1 := by simp [firstCounted]
  have e2 : endCounted r (some true) = Date.serialDate r + 1 := by simp [endCounted]
  have hc := C26_returns_partial c d r (some true) (some true) (date_le_of_lt hdr)
  rw [e1, e2, hmax] at hc
  have hv : ∀ m, c.businessDaysBetween d r (some true) (some true) = .ok m →
      m = openDays c (Date.serialDate d + 1) (Date.serialDate r + 1) :=
    fun m hm => by rw [← e1, ← e2]; exact C25_count c d r _ _ m (date_le_of_lt hdr) hm
  cases n with
  | zero =>
    constructor
    · intro h
      have e : d = r := by
        have h' : (Rust.ok (some d)) = Rust.ok (some r) := h
        simpa using h'
      subst e
      exact absurd hdr (date_lt_irrefl _)
    · rintro ⟨ho, h⟩
      exfalso
      have := hv _ h
      have h0 : openDays c (Date.serialDate d + 1) (Date.serialDate r + 1) = 0 := by omega
      rw [openDays_eq_zero] at h0
      exact h0 r (by unfold Date.serialDate; omega) (by omega) ho
  | succ n =>
    rw [C100_steps]
    constructor
    · rintro ⟨-, ho, ha, hn⟩
      refine ⟨ho, ?_⟩
      obtain ⟨m, hm⟩ := hc.2 ⟨by unfold Date.serialDate; omega, by simp, ha⟩
      rw [hm, hv m hm, hn]
    · rintro ⟨ho, h⟩
      refine ⟨hdr, ho, (hc.1 ⟨_, h⟩).2.2, ?_⟩
      have := hv _ h
      omega

/-- **C100.** Steps add up. -/
theorem C100_add (c : Calendar) (m n : Nat) (d r : Date) (h : businessDaysAhead c m d = .ok (some r)) :
    businessDaysAhead c (m + n) d = businessDaysAhead c n r := by
  induction m generalizing d with
  | zero => injection h with h; injection h with h; subst h; rw [Nat.zero_add]
  | succ m ih =>
    rw [Nat.succ_add, ahead_succ]
    rw [ahead_succ] at h
    cases e : Date.checkedRoll d (.days 1) c .following with
    | panic => rw [e] at h; cases h
    | ok o =>
      rw [e, Rust.ok_bind] at h
      cases o with
      | none => cases h
      | some q => exact ih q h

theorem ahead_mono {c : Calendar} {m n : Nat} {d e r s : Date} (hde : d ≤ e)
    (hr : businessDaysAhead c m d = .ok (some r)) (hs : businessDaysAhead c n e = .ok (some s)) (hmn : m ≤ n) :
    r ≤ s := by
  cases n with
  | zero =>
    obtain rfl : m = 0 := by omega
    injection hr with hr; injection hr with hr
    injection hs with hs; injection hs with hs
    subst hr hs; exact hde
  | succ n =>
    obtain ⟨h1, h2, h3, h4⟩ := (C100_steps c n e s).1 hs
    cases m with
    | zero =>
      injection hr with hr; injection hr with hr
      subst hr; exact date_le_trans hde (date_le_of_lt h1)
    | succ m =>
      obtain ⟨g1, g2, g3, g4⟩ := (C100_steps c m d r).1 hr
      rcases date_lt_or_ge s r with hsr | hsr
      · exfalso
        rw [NaiveDate.lt_iff_serial] at hsr h1 g1
        rw [NaiveDate.le_iff_serial] at hde
        have a1 := openDays_add c (Date.serialDate d + 1) (Date.serialDate e + 1) (Date.serialDate s + 1)
          (by unfold Date.serialDate; omega) (by unfold Date.serialDate; omega)
        have a2 := openDays_add c (Date.serialDate d + 1) (Date.serialDate s + 1) (Date.serialDate r)
          (by unfold Date.serialDate; omega) (by unfold Date.serialDate; omega)
        have a3 := openDays_add c (Date.serialDate d + 1) (Date.serialDate r) (Date.serialDate r + 1)
          (by unfold Date.serialDate; omega) (by omega)
        have a4 := (openDays_head c r (Date.serialDate r + 1) (by omega)).1 g2
        omega
      · exact hsr

/-- **C100.** A later start never gives an earlier date, and one more step gives a strictly later date. -/
theorem C100_mono (c : Calendar) (m n : Nat) (d e r s : Date) (hde : d ≤ e)
    (hr : businessDaysAhead c m d = .ok (some r)) (hs : businessDaysAhead c n e = .ok (some s)) :
    (m ≤ n → r ≤ s) ∧ (m < n → r < s) := by
  refine ⟨ahead_mono hde hr hs, fun hmn => ?_⟩
  obtain ⟨k, rfl⟩ : ∃ k, n = m + (k + 1) := ⟨n - m - 1, by omega⟩
  cases hq : businessDaysAhead c m e with
  | panic =>
    obtain ⟨x, x1, x2, x3⟩ := (C100_panic c m e).1 hq
    have : businessDaysAhead c (m + (k + 1)) e = .panic := (C100_panic c _ e).2 ⟨x, x1, x2, by omega⟩
    rw [this] at hs; cases hs
  | ok o =>
    cases o with
    | none =>
      obtain ⟨x1, x2⟩ := (C100_none c m e).1 hq
      have : businessDaysAhead c (m + (k + 1)) e = .ok none := (C100_none c _ e).2 ⟨by omega, x2⟩
      rw [this] at hs; cases hs
    | some q =>
      rw [C100_add c m (k + 1) e q hq] at hs
      have h1 := ((C100_steps c k q s).1 hs).1
      have h2 : r ≤ q := ahead_mono hde hr hq le_rfl
      rw [NaiveDate.lt_iff_serial] at *
      rw [NaiveDate.le_iff_serial] at h2
      omega

/-- **C100.** With a shipped calendar, inside the years for which it answers, moving ahead always succeeds, and takes at
most 31 days per business day. -/
theorem C100_shipped (s : Shipped) (n : Nat) (d u : Date) (h1 : firstYear s ≤ d.year)
    (hu : Date.checkedAddDays d (31 * n) = some u) (h2 : u.year < lastYear s) :
    ∃ r, businessDaysAhead s.calendar n d = .ok (some r) ∧ (n : Int) ≤ Date.sub r d ∧ Date.sub r d ≤ 31 * n := by
  induction n generalizing d u with
  | zero => exact ⟨d, rfl, by show (0 : Int) ≤ d.numDaysFromCe - d.numDaysFromCe; omega,
      by show d.numDaysFromCe - d.numDaysFromCe ≤ _; omega⟩
  | succ n ih =>
    rw [C05_add_days] at hu
    have hu' : u.numDaysFromCe - d.numDaysFromCe = ((31 * (n + 1) : Nat) : Int) := hu
    have hd : d ≠ NaiveDate.MAX := by
      rintro rfl
      have := (NaiveDate.le_iff_serial _ _).1 (NaiveDate.le_MAX u)
      omega
    obtain ⟨t, ht⟩ := exists_tomorrow hd
    have htu : t ≤ u := by rw [NaiveDate.le_iff_serial]; omega
    have hdt : d ≤ t := by rw [NaiveDate.le_iff_serial]; omega
    have y1 := year_mono htu
    have y2 := year_mono hdt
    obtain ⟨q, hq, hq'⟩ := C70_following s t (by omega) (by omega)
    have hstep : NextOpen s.calendar d q :=
      ⟨(after_iff ht).1 hq.1, hq.2.1, fun x x1 x2 => hq.2.2 x ((after_iff ht).2 x1) x2⟩
    have sq : q.numDaysFromCe - t.numDaysFromCe ≤ 30 := hq'
    have sq' := (NaiveDate.lt_iff_serial _ _).1 hstep.1
    have hqu : q ≤ u := by rw [NaiveDate.le_iff_serial]; omega
    have hdq : d ≤ q := date_le_of_lt hstep.1
    obtain ⟨w, hw⟩ : ∃ w, Date.checkedAddDays q (31 * n) = some w := by
      have := ofDays_isSome (q.numDaysFromCe + (31 * n : Nat)) (by have := q.serial_ge; omega)
        (by have := u.serial_le; omega)
      obtain ⟨w, -, hw⟩ := this
      refine ⟨w, (C05_add_days _ _ _).2 ?_⟩
      show w.numDaysFromCe - q.numDaysFromCe = _
      omega
    have hw' : w.numDaysFromCe - q.numDaysFromCe = ((31 * n : Nat) : Int) := (C05_add_days _ _ _).1 hw
    have hwu : w ≤ u := by rw [NaiveDate.le_iff_serial]; omega
    have y3 := year_mono hwu
    have y4 := year_mono hdq
    obtain ⟨r, hr, r1, r2⟩ := ih q w (by omega) hw (by omega)
    refine ⟨r, ?_, ?_, ?_⟩
    · rw [ahead_succ, step_some.2 hstep, Rust.ok_bind]; exact hr
    · have : (n : Int) ≤ r.numDaysFromCe - q.numDaysFromCe := r1
      show ((n + 1 : Nat) : Int) ≤ r.numDaysFromCe - d.numDaysFromCe
      push_cast; omega
    · have : r.numDaysFromCe - q.numDaysFromCe ≤ 31 * n := r2
      show r.numDaysFromCe - d.numDaysFromCe ≤ 31 * ((n + 1 : Nat) : Int)
      push_cast; omega

/-- Two business days after Wednesday 5 April 2023 in Germany: Good Friday, the weekend and Easter Monday are skipped,
so it is Tuesday 11 April, six days later. -/
example : businessDaysAhead (Shipped.germany none).calendar 2 ⟨2023, 4, 5, by decide⟩ =
      .ok (some ⟨2023, 4, 11, by decide⟩) ∧
    (Shipped.germany none).calendar.businessDaysBetween ⟨2023, 4, 5, by decide⟩ ⟨2023, 4, 11, by decide⟩
      (some true) (some true) = .ok 2 ∧
    firstYear (.germany none) ≤ 2023 ∧ (2023 : Int) < lastYear (.germany none) := by
  decide +kernel

/-- Weekends only: no business day is left after the last date, which is a Wednesday or any other day. -/
example : businessDaysAhead Calendar.weekendsOnly 1 NaiveDate.MAX = .ok none := by decide +kernel

/-- A calendar with Easter panics on 1 January 2200. -/
example : businessDaysAhead (Shipped.germany none).calendar 1 ⟨2199, 12, 31, by decide⟩ = .panic := by decide +kernel

/-- 5 April 2023, German holidays: two business days ahead is 11 April, and this is what counting says; two more days
ahead is two days ahead of it, and three days after 6 April are not before it. -/
example : (∃ r : Date, businessDaysAhead (Shipped.germany none).calendar 2 ⟨2023, 4, 5, by decide⟩ = .ok (some r)) ∧
    (Open (Shipped.germany none).calendar ⟨2023, 4, 11, by decide⟩ ∧ (Shipped.germany none).calendar.businessDaysBetween
      ⟨2023, 4, 5, by decide⟩ ⟨2023, 4, 11, by decide⟩ (some true) (some true) = .ok (2 : Nat)) ∧
    businessDaysAhead (Shipped.germany none).calendar (2 + 2) ⟨2023, 4, 5, by decide⟩ =
      businessDaysAhead (Shipped.germany none).calendar 2 ⟨2023, 4, 11, by decide⟩ ∧
    (⟨2023, 4, 11, by decide⟩ : Date) < ⟨2023, 4, 13, by decide⟩ := by
  have h : businessDaysAhead (Shipped.germany none).calendar 2 ⟨2023, 4, 5, by decide⟩ =
      .ok (some ⟨2023, 4, 11, by decide⟩) := by decide +kernel
  exact ⟨⟨_, h⟩, (C100_count _ 2 _ _ (by decide) (by decide)).1 h, C100_add _ 2 2 _ _ h,
    (C100_mono _ 2 3 _ ⟨2023, 4, 6, by decide⟩ _ _ (by decide) h (by decide +kernel)).2 (by decide)⟩

end Qlab.Props
