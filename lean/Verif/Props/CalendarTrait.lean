import Verif.Lemmas.BusinessDays
import Verif.Props.Rolling
import Verif.Props.Dates

/-!
# Calendar trait methods (C21, C22, C25-C27)

The calendar is arbitrary, including one that panics on some dates.
-/

namespace Qlab.Props

open Spec

/-! ## C21 -/

/-- **C21.** `is_holiday` is true exactly when `is_business_day` is false, false exactly when it is true,
and panics exactly when it panics; the adapter used by `Date` gives the same answers. -/
theorem C21_is_holiday (c : Calendar) (d : Date) :
    (c.isHoliday d = .ok true ↔ c.isBusinessDay d = .ok false) ∧
    (c.isHoliday d = .ok false ↔ c.isBusinessDay d = .ok true) ∧
    (c.isHoliday d = .panic ↔ c.isBusinessDay d = .panic) ∧
    c.dateIsBusinessDay d = c.isBusinessDay d ∧ c.dateIsHoliday d = c.isHoliday d := by
  unfold Calendar.isHoliday Calendar.dateIsBusinessDay Calendar.dateIsHoliday
  refine ⟨?_, ?_, ?_, rfl, rfl⟩ <;> cases c.isBusinessDay d <;> simp

example : Calendar.weekendsOnly.isHoliday ⟨2023, 4, 1, by decide⟩ = .ok true := by decide

/-! ## C22 -/

/-- **C22.** A joint calendar is open exactly when both parts are. -/
theorem C22_joint_open (a b : Calendar) (d : Date) :
    Open (a.joint b) d ↔ Open a d ∧ Open b d := by
  unfold Open Calendar.joint
  simp only
  cases h : a.isBusinessDay d with
  | panic => simp
  | ok v => cases v <;> simp

/-- **C22.** If both parts answer, the joint calendar answers with the conjunction. -/
theorem C22_joint_and (a b : Calendar) (d : Date) (x y : Bool) (ha : a.isBusinessDay d = .ok x)
    (hb : b.isBusinessDay d = .ok y) : (a.joint b).isBusinessDay d = .ok (x && y) := by
  unfold Calendar.joint
  simp only [ha, hb, Rust.ok_bind]
  cases x <;> simp

example : (Calendar.weekendsOnly.joint ⟨fun _ => .ok false⟩).isBusinessDay ⟨2023, 4, 3, by decide⟩ = .ok (true && false) :=
  C22_joint_and _ _ _ true false (by decide) rfl

/-- **C22.** Joining is associative, including panics. -/
theorem C22_joint_assoc (a b c : Calendar) (d : Date) :
    ((a.joint b).joint c).isBusinessDay d = (a.joint (b.joint c)).isBusinessDay d := by
  unfold Calendar.joint
  simp only
  cases a.isBusinessDay d with
  | panic => rfl
  | ok v => cases v <;> simp

/-- **C22.** Joining a calendar with itself changes nothing. -/
theorem C22_joint_idem (a : Calendar) (d : Date) : (a.joint a).isBusinessDay d = a.isBusinessDay d := by
  unfold Calendar.joint
  simp only
  cases h : a.isBusinessDay d with
  | panic => rfl
  | ok v => cases v <;> simp [h]

/-- **C22.** When both parts answer, the order of the parts does not matter. -/
theorem C22_joint_comm (a b : Calendar) (d : Date) (ha : ¬ Crashes a d) (hb : ¬ Crashes b d) :
    (a.joint b).isBusinessDay d = (b.joint a).isBusinessDay d := by
  unfold Crashes at *
  cases ha' : a.isBusinessDay d with
  | panic => exact absurd ha' ha
  | ok x =>
    cases hb' : b.isBusinessDay d with
    | panic => exact absurd hb' hb
    | ok y => rw [C22_joint_and a b d x y ha' hb', C22_joint_and b a d y x hb' ha', Bool.and_comm]

/-- Panics are the only asymmetry: the second calendar is not consulted when the first is closed. -/
example : ∃ (a b : Calendar) (d : Date),
    (a.joint b).isBusinessDay d = .ok false ∧ (b.joint a).isBusinessDay d = .panic :=
  ⟨⟨fun _ => .ok false⟩, ⟨fun _ => .panic⟩, ⟨2023, 1, 1, by decide⟩, by decide, by decide⟩

/-- **C22.** Following under a joint calendar is not earlier than under either part. -/
theorem C22_joint_following (a b : Calendar) (d r ra rb : Date) (p : Period)
    (h : Date.checkedRoll d p (a.joint b) .following = .ok (some r))
    (ha : Date.checkedRoll d p a .following = .ok (some ra))
    (hb : Date.checkedRoll d p b .following = .ok (some rb)) : ra ≤ r ∧ rb ≤ r := by
  obtain ⟨u, hu, h1, h2, h3⟩ := (C13_following _ _ _ _).1 h
  obtain ⟨ua, hua, a1, a2, a3⟩ := (C13_following _ _ _ _).1 ha
  obtain ⟨ub, hub, b1, b2, b3⟩ := (C13_following _ _ _ _).1 hb
  rw [hu] at hua hub; cases hua; cases hub
  rw [C22_joint_open] at h2
  constructor
  · rcases date_lt_or_ge r ra with g | g
    · exact (open_not_closed h2.1 (a3 r h1 g)).elim
    · exact g
  · rcases date_lt_or_ge r rb with g | g
    · exact (open_not_closed h2.2 (b3 r h1 g)).elim
    · exact g

/-- Saturday 1 April 2023, weekends only and a calendar that never closes. -/
example : (⟨2023, 4, 3, by decide⟩ : Date) ≤ ⟨2023, 4, 3, by decide⟩ ∧
    (⟨2023, 4, 1, by decide⟩ : Date) ≤ ⟨2023, 4, 3, by decide⟩ := by
  obtain ⟨h1, h2, h3⟩ := weekendsOnly_isFollowing_2023_04_01
  exact C22_joint_following .weekendsOnly ⟨fun _ => .ok true⟩ ⟨2023, 4, 1, by decide⟩ _ _ _ (.days 0)
    ((C13_following _ _ _ _).2 ⟨⟨2023, 4, 1, by decide⟩, by decide, h1, C22_joint_and _ _ _ true true h2 rfl,
      fun x g1 g2 => C22_joint_and _ _ _ false true (h3 x g1 g2) rfl⟩)
    ((C13_following _ _ _ _).2 ⟨⟨2023, 4, 1, by decide⟩, by decide, h1, h2, h3⟩)
    (C16_business_day_fixed _ _ _ _ _ (by decide) rfl)

/-! ## C25 -/

theorem addDuration_eq_ok {d r : NaiveDate} {k : Int} :
    addDuration d k = .ok r ↔ r.numDaysFromCe = d.numDaysFromCe + k := by
  unfold addDuration
  cases h : ofDays (d.numDaysFromCe + k) with
  | none =>
    simp only [Rust.unwrap, reduceCtorEq, false_iff]
    intro e; rw [ofDays_eq_some.2 e] at h; cases h
  | some s =>
    simp only [Rust.unwrap, Rust.ok.injEq]
    constructor
    · rintro rfl; exact ofDays_eq_some.1 h
    · intro e; rw [ofDays_eq_some.2 e] at h; exact (Option.some.inj h).symm

theorem addDuration_eq_panic {d : NaiveDate} {k : Int} :
    addDuration d k = .panic ↔ d.numDaysFromCe + k < -95746129 ∨ 95745399 < d.numDaysFromCe + k := by
  rw [← ofDays_eq_none]
  unfold addDuration
  cases ofDays (d.numDaysFromCe + k) <;> simp [Rust.unwrap]

theorem forward_eq_ok (c : Calendar) (f t : Date) (i l : Option Bool) (n : Int) :
    c.businessDaysForward f t i l = .ok n ↔
      endCounted t l ≤ 95745399 ∧ firstCounted f i ≤ endCounted t l ∧
      AnswersOn c (firstCounted f i) (endCounted t l) ∧
      n = openDays c (firstCounted f i) (endCounted t l) := by
  unfold Calendar.businessDaysForward
  simp only [Rust.bind_eq_ok, addDuration_eq_ok]
  have hf := f.serial_ge
  constructor
  · rintro ⟨stop, hstop, start, hstart, h⟩
    have e1 : Date.serialDate start = firstCounted f i := hstart
    have e2 : Date.serialDate stop = endCounted t l := hstop
    have hle := stop.serial_le
    unfold NaiveDate.subDays at h
    split at h
    · cases h
    · rename_i hneg
      have e3 : ((stop.numDaysFromCe - start.numDaysFromCe).toNat : Int) =
          Date.serialDate stop - Date.serialDate start := by unfold Date.serialDate; omega
      have hb : Date.serialDate start + ((stop.numDaysFromCe - start.numDaysFromCe).toNat : Int)
          ≤ 95745399 := by rw [e3]; unfold Date.serialDate; omega
      have hans := countBusinessDays_ok c _ start 0 n hb h
      rw [countBusinessDays_eq c _ start 0 hb hans] at h
      have e4 : Date.serialDate start + ((stop.numDaysFromCe - start.numDaysFromCe).toNat : Int) =
          endCounted t l := by omega
      rw [e4, e1] at h hans
      refine ⟨by rw [← e2]; exact hle, ?_, hans, ?_⟩
      · rw [← e1, ← e2]; unfold Date.serialDate; omega
      · injection h with h; omega
  · rintro ⟨h1, h2, h3, h4⟩
    have hf1 : -95746129 ≤ firstCounted f i := by
      unfold firstCounted Date.serialDate; split <;> omega
    obtain ⟨stop, _, hstop⟩ := ofDays_isSome (endCounted t l) (by omega) h1
    obtain ⟨start, _, hstart⟩ := ofDays_isSome (firstCounted f i) hf1 (by omega)
    refine ⟨stop, hstop, start, hstart, ?_⟩
    unfold NaiveDate.subDays
    rw [if_neg (by omega)]
    have e3 : ((stop.numDaysFromCe - start.numDaysFromCe).toNat : Int) =
        endCounted t l - firstCounted f i := by omega
    have e1 : Date.serialDate start = firstCounted f i := hstart
    rw [countBusinessDays_eq c _ start 0 (by rw [e3, e1]; omega) (by
      rw [e3, e1, show firstCounted f i + (endCounted t l - firstCounted f i) = endCounted t l by omega]
      exact h3)]
    rw [e3, e1, show firstCounted f i + (endCounted t l - firstCounted f i) = endCounted t l by omega, h4]
    simp

/-- **C25.** For `from <= to`, whatever is returned is the number of business days between the first
counted day and the end of the count. -/
theorem C25_count (c : Calendar) (f t : Date) (i l : Option Bool) (n : Int) (hft : f ≤ t)
    (h : c.businessDaysBetween f t i l = .ok n) :
    n = openDays c (firstCounted f i) (endCounted t l) := by
  unfold Calendar.businessDaysBetween at h
  rw [if_neg ((NaiveDate.not_lt_iff _ _).2 hft)] at h
  exact ((forward_eq_ok c f t i l n).1 h).2.2.2

example : (5 : Int) = openDays .weekendsOnly (firstCounted ⟨2023, 4, 5, by decide⟩ (some false))
    (endCounted ⟨2023, 4, 12, by decide⟩ (some false)) :=
  C25_count _ _ _ _ _ _ (by decide) (by decide)

/-- **C25.** Swapping two different dates negates the count. -/
theorem C25_antisymm (c : Calendar) (f t : Date) (i l : Option Bool) (n : Int) (hft : f ≠ t) :
    c.businessDaysBetween f t i l = .ok n ↔ c.businessDaysBetween t f i l = .ok (-n) := by
  have neg : ∀ x : Rust Int, ∀ n : Int, (do let n ← x; return -n : Rust Int) = .ok n ↔ x = .ok (-n) := by
    intro x n; cases x <;> simp; omega
  rcases NaiveDate.trichotomy f t with h | h | h
  · have h' : ¬ t < f := by rw [NaiveDate.lt_iff_serial] at *; omega
    unfold Calendar.businessDaysBetween
    rw [if_neg h', if_pos h, neg]; simp
  · exact absurd h hft
  · have h' : ¬ f < t := by rw [NaiveDate.lt_iff_serial] at *; omega
    unfold Calendar.businessDaysBetween
    rw [if_pos h, if_neg h', neg]

example : Calendar.weekendsOnly.businessDaysBetween ⟨2023, 4, 12, by decide⟩ ⟨2023, 4, 5, by decide⟩
    (some false) (some false) = .ok (-5) :=
  (C25_antisymm _ _ _ _ _ _ (by decide)).1
    (show Calendar.weekendsOnly.businessDaysBetween ⟨2023, 4, 5, by decide⟩ ⟨2023, 4, 12, by decide⟩
      (some false) (some false) = .ok 5 by decide)

theorem openDays_add (c : Calendar) (a b d : Int) (h1 : a ≤ b) (h2 : b ≤ d) :
    openDays c a b + openDays c b d = openDays c a d := by
  classical
  unfold openDays
  rw [← Finset.Ico_union_Ico_eq_Ico h1 h2, Finset.filter_union, Finset.card_union_of_disjoint]
  refine Finset.disjoint_filter_filter ?_
  exact Finset.Ico_disjoint_Ico_consecutive a b d

theorem openDays_le (c : Calendar) (a b : Int) (h : a ≤ b) : (openDays c a b : Int) ≤ b - a := by
  classical
  unfold openDays
  have := Finset.card_filter_le (Finset.Ico a b)
    (fun s => ∃ d : Date, Date.serialDate d = s ∧ Open c d)
  rw [Int.card_Ico] at this
  omega

/-- **C25.** With equal flags, counts over consecutive intervals add up. -/
theorem C25_additive (c : Calendar) (x y z : Date) (b : Bool) (n m k : Int) (hxy : x ≤ y) (hyz : y ≤ z)
    (h1 : c.businessDaysBetween x y (some b) (some b) = .ok n)
    (h2 : c.businessDaysBetween y z (some b) (some b) = .ok m)
    (h3 : c.businessDaysBetween x z (some b) (some b) = .ok k) : n + m = k := by
  have e1 := C25_count c x y _ _ n hxy h1
  have e2 := C25_count c y z _ _ m hyz h2
  have e3 := C25_count c x z _ _ k (date_le_trans hxy hyz) h3
  rw [NaiveDate.le_iff_serial] at hxy hyz
  subst e1 e2 e3
  unfold firstCounted endCounted
  simp only [Option.getD_some]
  have := openDays_add c (Date.serialDate x + if b then 1 else 0) (Date.serialDate y + if b then 1 else 0)
    (Date.serialDate z + if b then 1 else 0) (by unfold Date.serialDate; omega)
    (by unfold Date.serialDate; omega)
  omega

example : (5 : Int) + 2 = 7 :=
  C25_additive .weekendsOnly ⟨2023, 4, 5, by decide⟩ ⟨2023, 4, 12, by decide⟩ ⟨2023, 4, 14, by decide⟩ true _ _ _
    (by decide) (by decide) (by decide) (by decide) (by decide)

/-- **C25.** The count is between zero and the day distance plus one. -/
theorem C25_bounds (c : Calendar) (f t : Date) (i l : Option Bool) (n : Int) (hft : f ≤ t)
    (h : c.businessDaysBetween f t i l = .ok n) : 0 ≤ n ∧ n ≤ Date.sub t f + 1 := by
  have e := C25_count c f t i l n hft h
  unfold Calendar.businessDaysBetween at h
  rw [if_neg ((NaiveDate.not_lt_iff _ _).2 hft)] at h
  have h2 := ((forward_eq_ok c f t i l n).1 h).2.1
  have h3 := openDays_le c _ _ h2
  refine ⟨by omega, ?_⟩
  rw [e]
  have : endCounted t l - firstCounted f i ≤ Date.sub t f + 1 := by
    unfold endCounted firstCounted
    rw [C04_sub_serial]; split <;> split <;> omega
  omega

/-- Wednesday 5 April to Wednesday 12 April 2023, both flags false, weekends-only: five days. -/
example : Calendar.weekendsOnly.businessDaysBetween ⟨2023, 4, 5, by decide⟩ ⟨2023, 4, 12, by decide⟩
    (some false) (some false) = .ok 5 := by decide

/-! ## C26 -/

/-- **C26 (violated).** `include_first = true` does not include the first date: Monday 3 April to Tuesday
4 April 2023 counts zero business days with the default flags, although Monday is one. -/
theorem C26_refuted_flag : ∃ f t : Date, f < t ∧ Open Calendar.weekendsOnly f ∧
    Calendar.weekendsOnly.businessDaysBetween f t (some true) (some false) = .ok 0 :=
  ⟨⟨2023, 4, 3, by decide⟩, ⟨2023, 4, 4, by decide⟩, by decide, by unfold Open; decide, by decide⟩

/-- **C26 (violated).** Equal dates panic with the default flags, for every calendar and every date. -/
theorem C26_refuted_panic (c : Calendar) (d : Date) : c.businessDaysBetween d d none none = .panic := by
  unfold Calendar.businessDaysBetween
  rw [if_neg (date_lt_irrefl d)]
  cases h : c.businessDaysForward d d none none with
  | panic => rfl
  | ok n =>
    have := ((forward_eq_ok c d d none none n).1 h).2.1
    unfold firstCounted endCounted at this
    simp at this

/-- **C26 (violated).** With the default flags consecutive intervals do not add up: the middle date is
never counted. -/
theorem C26_refuted_additive : ∃ x y z : Date, x < y ∧ y < z ∧
    Calendar.weekendsOnly.businessDaysBetween x y none none = .ok 0 ∧
    Calendar.weekendsOnly.businessDaysBetween y z none none = .ok 0 ∧
    Calendar.weekendsOnly.businessDaysBetween x z none none = .ok 1 :=
  ⟨⟨2023, 4, 3, by decide⟩, ⟨2023, 4, 4, by decide⟩, ⟨2023, 4, 5, by decide⟩, by decide, by decide,
    by decide, by decide, by decide⟩

/-- **C26.** Exactly when a count is returned for `from <= to`: the counted end is representable, the
interval is not reversed by the flags (which happens only for equal dates with `include_first` and not
`include_last`), and the calendar answers inside.  Missing for the full property: the reversed-interval
case panics, and `include_first` has the opposite meaning. -/
theorem C26_returns_partial (c : Calendar) (f t : Date) (i l : Option Bool) (hft : f ≤ t) :
    (∃ n, c.businessDaysBetween f t i l = .ok n) ↔
      endCounted t l ≤ Date.serialDate NaiveDate.MAX ∧
      ¬ (f = t ∧ i.getD true = true ∧ l.getD false = false) ∧
      AnswersOn c (firstCounted f i) (endCounted t l) := by
  unfold Calendar.businessDaysBetween
  rw [if_neg ((NaiveDate.not_lt_iff _ _).2 hft)]
  simp only [forward_eq_ok]
  have hmax : Date.serialDate NaiveDate.MAX = 95745399 := NaiveDate.serial_MAX
  have hiff : firstCounted f i ≤ endCounted t l ↔
      ¬ (f = t ∧ i.getD true = true ∧ l.getD false = false) := by
    rw [NaiveDate.le_iff_serial] at hft
    rw [← NaiveDate.serial_eq_iff]
    unfold firstCounted endCounted Date.serialDate
    cases i.getD true <;> cases l.getD false <;> simp <;> omega
  rw [hmax, ← hiff]
  constructor
  · rintro ⟨n, h1, h2, h3, _⟩; exact ⟨h1, h2, h3⟩
  · rintro ⟨h1, h2, h3⟩; exact ⟨_, h1, h2, h3, rfl⟩

example : ∃ n, Calendar.weekendsOnly.businessDaysBetween ⟨2023, 4, 5, by decide⟩ ⟨2023, 4, 12, by decide⟩ none none = .ok n :=
  (C26_returns_partial _ _ _ _ _ (by decide)).2 ⟨by decide, by decide, fun _ _ _ => by unfold Crashes Calendar.weekendsOnly; simp⟩

/-! ## C27 -/

/-- **C27.** `last_day_of_month` returns the last date of the month of its argument, and panics exactly in
the last representable year. -/
theorem C27_last_day_of_month (d : Date) :
    (∀ r, Calendar.lastDayOfMonth d = .ok r ↔
      d.year < 262142 ∧ SameMonth r d ∧ IsLastDayOfMonth r.year r.month r.day) ∧
    (Calendar.lastDayOfMonth d = .panic ↔ d.year = 262142) := by
  have hy1 := d.year_ge
  have hy2 := d.year_le
  have hm1 := d.month_pos
  have hm2 := d.month_le
  have hl := monthLen_ge (isLeap d.year) hm1 hm2
  have hv : IsValid d.year d.month (monthLen (isLeap d.year) d.month) :=
    ⟨d.valid.1, d.valid.2.1, hm1, hm2, by omega, Nat.le_refl _⟩
  have hval : d.year < 262142 →
      Calendar.lastDayOfMonth d = .ok ⟨d.year, d.month, monthLen (isLeap d.year) d.month, hv⟩ := by
    intro hlt
    have hnv : IsValid (d.year + 1) 1 1 :=
      ⟨by unfold minYear; omega, by unfold maxYear; omega, by omega, by omega, by omega, by
        show 1 ≤ 31; omega⟩
    unfold Calendar.lastDayOfMonth
    rw [fromYmdOpt_of_valid hnv]
    simp only [Rust.unwrap, Rust.ok_bind]
    by_cases h12 : d.month = 12
    · have : ¬ IsValid d.year (d.month + 1) 1 := fun h => by have := h.2.2.2.1; omega
      rw [fromYmdOpt_eq_none.2 this]
      simp only [Option.getD_none]
      have hp : NaiveDate.predOpt ⟨d.year + 1, 1, 1, hnv⟩ =
          some ⟨d.year, d.month, monthLen (isLeap d.year) d.month, hv⟩ := by
        unfold NaiveDate.predOpt
        simp only [Nat.lt_irrefl, if_false]
        rw [fromYmdOpt_eq_some]
        refine ⟨by simp, by simp [h12], ?_⟩
        simp only [h12]; rfl
      rw [hp]
    · have hv2 : IsValid d.year (d.month + 1) 1 := by
        have := monthLen_ge (isLeap d.year) (m := d.month + 1) (by omega) (by omega)
        exact ⟨d.valid.1, d.valid.2.1, by omega, by omega, by omega, by omega⟩
      rw [fromYmdOpt_of_valid hv2]
      simp only [Option.getD_some]
      have hp : NaiveDate.predOpt ⟨d.year, d.month + 1, 1, hv2⟩ =
          some ⟨d.year, d.month, monthLen (isLeap d.year) d.month, hv⟩ := by
        unfold NaiveDate.predOpt
        simp only [Nat.lt_irrefl, if_false]
        rw [if_pos (by omega), fromYmdOpt_eq_some]
        simp
      rw [hp]
  have hpan : d.year = 262142 → Calendar.lastDayOfMonth d = .panic := by
    intro h
    unfold Calendar.lastDayOfMonth
    have : ¬ IsValid (d.year + 1) 1 1 := fun hv => by have := hv.2.1; unfold maxYear at this; omega
    rw [fromYmdOpt_eq_none.2 this]; rfl
  rcases (by omega : d.year < 262142 ∨ d.year = 262142) with h | h
  · refine ⟨fun r => ?_, ?_⟩
    · rw [hval h]
      simp only [Rust.ok.injEq]
      rw [isLastDay_iff]
      unfold SameMonth
      constructor
      · rintro rfl; exact ⟨h, ⟨rfl, rfl⟩, hm1, hm2, rfl⟩
      · rintro ⟨_, ⟨e1, e2⟩, _, _, e3⟩
        rw [e1, e2] at e3
        exact NaiveDate.ext e1.symm e2.symm e3.symm
    · rw [hval h]; simp; omega
  · refine ⟨fun r => ?_, ?_⟩
    · rw [hpan h]; simp; omega
    · rw [hpan h]; simp [h]

theorem endOfMonthLoop_spec (c : Calendar) (d : Date) :
    (∃ r, c.endOfMonthLoop d = .ok r ∧ IsPreceding c d r) ∨
    (c.endOfMonthLoop d = .panic ∧ ∀ r, ¬ IsPreceding c d r) := by
  induction hn : (d.numDaysFromCe + 95746129).toNat using Nat.strongRecOn generalizing d with
  | _ n ih =>
  rw [Calendar.endOfMonthLoop]
  have ha := (C21_is_holiday c d)
  split
  · rename_i h
    refine Or.inr ⟨rfl, fun r hr => ?_⟩
    have hcr : Crashes c d := ha.2.2.1.1 h
    rcases date_eq_or_lt hr.1 with e | hlt
    · have := hr.2.1; unfold Open at this; unfold Crashes at hcr; rw [e, hcr] at this; cases this
    · have := hr.2.2 d hlt (date_le_refl d)
      unfold Closed at this; unfold Crashes at hcr; rw [hcr] at this; cases this
  · rename_i h
    exact Or.inl ⟨d, rfl, isPreceding_self (ha.2.1.1 h)⟩
  · rename_i h
    have hcl : Closed c d := ha.1.1 h
    split
    · rename_i hs
      refine Or.inr ⟨rfl, fun r hr => ?_⟩
      rw [ofDays_eq_none] at hs
      have h1 := d.serial_ge
      have h2 := d.serial_le
      have h3 := r.serial_ge
      have h4 := (NaiveDate.le_iff_serial _ _).1 hr.1
      have : r = d := NaiveDate.serial_inj (by omega)
      rw [this] at hr
      exact open_not_closed hr.2.1 hcl
    · rename_i p hs
      have hser := ofDays_eq_some.1 hs
      have hp := p.serial_ge
      have ext : ∀ x : Date, x ≤ d → x = d ∨ x ≤ p := by
        intro x hx
        rw [NaiveDate.le_iff_serial] at hx
        rw [NaiveDate.le_iff_serial, ← NaiveDate.serial_eq_iff]; omega
      have hle : p ≤ d := by rw [NaiveDate.le_iff_serial]; omega
      rcases ih _ (by omega) p rfl with ⟨r, h1, h2, h3, h4⟩ | ⟨h1, h2⟩
      · refine Or.inl ⟨r, h1, date_le_trans h2 hle, h3, fun x hx hxd => ?_⟩
        rcases ext x hxd with rfl | hx'
        · exact hcl
        · exact h4 x hx hx'
      · refine Or.inr ⟨h1, fun r hr => ?_⟩
        rcases ext r hr.1 with e | hx'
        · rw [e] at hr; exact open_not_closed hr.2.1 hcl
        · exact h2 r ⟨hx', hr.2.1, fun x hx hxp => hr.2.2 x hx (date_le_trans hxp hle)⟩

/-- **C27.** `end_of_month` returns the last business day not after the last day of the month. -/
theorem C27_end_of_month (c : Calendar) (d r : Date) :
    c.endOfMonth d = .ok r ↔
      ∃ l : Date, d.year < 262142 ∧ SameMonth l d ∧ IsLastDayOfMonth l.year l.month l.day ∧
        IsPreceding c l r := by
  unfold Calendar.endOfMonth
  rw [Rust.bind_eq_ok]
  have loop : ∀ l : Date, c.endOfMonthLoop l = .ok r ↔ IsPreceding c l r := by
    intro l
    rcases endOfMonthLoop_spec c l with ⟨s, h1, h2⟩ | ⟨h1, h2⟩
    · rw [h1]; simp only [Rust.ok.injEq]
      exact ⟨fun e => e ▸ h2, fun h => isPreceding_unique h2 h⟩
    · rw [h1]; simp only [reduceCtorEq, false_iff]; exact h2 r
  constructor
  · rintro ⟨l, h1, h2⟩
    obtain ⟨g1, g2, g3⟩ := ((C27_last_day_of_month d).1 l).1 h1
    exact ⟨l, g1, g2, g3, (loop l).1 h2⟩
  · rintro ⟨l, g1, g2, g3, h⟩
    exact ⟨l, ((C27_last_day_of_month d).1 l).2 ⟨g1, g2, g3⟩, (loop l).2 h⟩

/-- **C27.** If the month has a business day on or after the 1st that precedes the month end, the result
lies in the month of the argument. -/
theorem C27_end_of_month_same_month (c : Calendar) (d r o : Date) (h : c.endOfMonth d = .ok r)
    (ho : Open c o) (hm : SameMonth o d) : SameMonth r d ∧ o ≤ r := by
  obtain ⟨l, _, hl1, hl2, hp⟩ := (C27_end_of_month c d r).1 h
  have hol : o ≤ l := by
    rw [← NaiveDate.not_lt_iff, NaiveDate.lt_iff]
    rw [isLastDay_iff] at hl2
    have := o.day_le
    unfold SameMonth at hm hl1
    rw [hl1.1, hl1.2] at hl2 ⊢
    rw [hm.1, hm.2] at this ⊢
    omega
  have hor : o ≤ r := by
    rcases date_lt_or_ge r o with g | g
    · exact (open_not_closed ho (hp.2.2 o g hol)).elim
    · exact g
  refine ⟨?_, hor⟩
  have hrl := hp.1
  unfold SameMonth at *
  rw [← NaiveDate.not_lt_iff, NaiveDate.lt_iff] at hor hrl
  have := r.month_pos
  have := r.month_le
  omega

/-- April 2023 ended on a Sunday; the last weekday was Friday the 28th. -/
example : Calendar.weekendsOnly.endOfMonth ⟨2023, 4, 10, by decide⟩ = .ok ⟨2023, 4, 28, by decide⟩ := by
  refine (C27_end_of_month _ _ _).2 ⟨⟨2023, 4, 30, by decide⟩, by decide, ⟨rfl, rfl⟩, ?_,
    weekendsOnly_isPreceding _ _ (by decide) (by decide) (by decide) (by decide)⟩
  rw [isLastDay_iff]; decide

end Qlab.Props
