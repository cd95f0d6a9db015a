import Mathlib.Tactic.Ring
import Mathlib.Tactic.NormNum
import Mathlib.Tactic.Linarith
import Mathlib.Tactic.FieldSimp
import Verif.Model.DayCount
import Verif.Lemmas.Exact
import Verif.Lemmas.Rolling
import Verif.Props.Dates

/-!
# Day counts (C18-C20)

`K` is any linearly ordered field with exact integer casts (for example the rationals or the reals).
Statements about which result or error or panic occurs, for any value type, carry no such assumption.
-/

namespace Qlab.Props

variable {K : Type} [Field K] [LinearOrder K] [IsStrictOrderedRing K] [FromInt K] [ExactCast K]

/-! ## C18 -/

omit [LinearOrder K] [IsStrictOrderedRing K] in
theorem act360_eq (a b : Date) :
    DayCount.act360 (V := K) a b = .ok (.ok ((Date.sub b a : K) / 360)) := by
  unfold DayCount.act360
  simp [ExactCast.fromInt_eq, Rust.unwrap]

omit [LinearOrder K] [IsStrictOrderedRing K] in
theorem act365_eq (a b : Date) :
    DayCount.act365 (V := K) a b = .ok (.ok ((Date.sub b a : K) / 365)) := by
  unfold DayCount.act365
  simp [ExactCast.fromInt_eq, Rust.unwrap]

/-- **C18.** Act/360 always returns a fraction, and 360 times the fraction is the number of days. -/
theorem C18_act360_exact (a b : Date) :
    ∃ t : K, DayCount.act360 a b = .ok (.ok t) ∧ t * 360 = (Date.sub b a : Int) :=
  ⟨_, act360_eq a b, by field_simp⟩

/-- **C18.** Act/365 always returns a fraction, and 365 times the fraction is the number of days. -/
theorem C18_act365_exact (a b : Date) :
    ∃ t : K, DayCount.act365 a b = .ok (.ok t) ∧ t * 365 = (Date.sub b a : Int) :=
  ⟨_, act365_eq a b, by field_simp⟩

/-- **C18.** For every value type in which 360 can be represented: the only failure is a cast failure of
the day distance; nothing panics. -/
theorem C18_act360_total {V : Type} [Div V] [FromInt V] (a b : Date)
    (h360 : (FromInt.fromInt (V := V) 360).isSome = true) :
    DayCount.act360 (V := V) a b ≠ .panic ∧
    ((∃ e, DayCount.act360 (V := V) a b = .ok (.error e)) ↔
      FromInt.fromInt (V := V) (Date.sub b a) = none) := by
  obtain ⟨v, hv⟩ := Option.isSome_iff_exists.1 h360
  unfold DayCount.act360
  cases h : FromInt.fromInt (V := V) (Date.sub b a) <;> simp [hv, Rust.unwrap]

example := C18_act360_total (V := ℚ) ⟨2023, 12, 31, by decide⟩ ⟨2023, 1, 1, by decide⟩ (by decide)

/-- **C18.** Same for Act/365. -/
theorem C18_act365_total {V : Type} [Div V] [FromInt V] (a b : Date)
    (h365 : (FromInt.fromInt (V := V) 365).isSome = true) :
    DayCount.act365 (V := V) a b ≠ .panic ∧
    ((∃ e, DayCount.act365 (V := V) a b = .ok (.error e)) ↔
      FromInt.fromInt (V := V) (Date.sub b a) = none) := by
  obtain ⟨v, hv⟩ := Option.isSome_iff_exists.1 h365
  unfold DayCount.act365
  cases h : FromInt.fromInt (V := V) (Date.sub b a) <;> simp [hv, Rust.unwrap]

example := C18_act365_total (V := ℚ) ⟨2023, 12, 31, by decide⟩ ⟨2023, 1, 1, by decide⟩ (by decide)

/-- **C18.** Antisymmetry and additivity of Act/360. -/
theorem C18_act360_additive (a b c : Date) (tab tba tbc tac : K)
    (h1 : DayCount.act360 a b = .ok (.ok tab)) (h2 : DayCount.act360 b a = .ok (.ok tba))
    (h3 : DayCount.act360 b c = .ok (.ok tbc)) (h4 : DayCount.act360 a c = .ok (.ok tac)) :
    tab = -tba ∧ tab + tbc = tac := by
  rw [act360_eq] at h1 h2 h3 h4
  injection h1 with h1; injection h1 with h1
  injection h2 with h2; injection h2 with h2
  injection h3 with h3; injection h3 with h3
  injection h4 with h4; injection h4 with h4
  subst h1 h2 h3 h4
  rw [C04_sub_antisymm a b, ← C04_sub_additive a b c]
  push_cast
  constructor <;> field_simp
  rw [C04_sub_antisymm b a]; push_cast; ring

example : (364 / 360 : ℚ) = -(-364 / 360) ∧ (364 / 360 : ℚ) + 1 / 360 = 365 / 360 :=
  C18_act360_additive ⟨2023, 1, 1, by decide⟩ ⟨2023, 12, 31, by decide⟩ ⟨2024, 1, 1, by decide⟩ _ _ _ _
    (by rw [act360_eq]; norm_num [show Date.sub ⟨2023, 12, 31, by decide⟩ ⟨2023, 1, 1, by decide⟩ = 364 by decide])
    (by rw [act360_eq]; norm_num [show Date.sub ⟨2023, 1, 1, by decide⟩ ⟨2023, 12, 31, by decide⟩ = -364 by decide])
    (by rw [act360_eq]; norm_num [show Date.sub ⟨2024, 1, 1, by decide⟩ ⟨2023, 12, 31, by decide⟩ = 1 by decide])
    (by rw [act360_eq]; norm_num [show Date.sub ⟨2024, 1, 1, by decide⟩ ⟨2023, 1, 1, by decide⟩ = 365 by decide])

/-- **C18.** Antisymmetry and additivity of Act/365. -/
theorem C18_act365_additive (a b c : Date) (tab tba tbc tac : K)
    (h1 : DayCount.act365 a b = .ok (.ok tab)) (h2 : DayCount.act365 b a = .ok (.ok tba))
    (h3 : DayCount.act365 b c = .ok (.ok tbc)) (h4 : DayCount.act365 a c = .ok (.ok tac)) :
    tab = -tba ∧ tab + tbc = tac := by
  rw [act365_eq] at h1 h2 h3 h4
  injection h1 with h1; injection h1 with h1
  injection h2 with h2; injection h2 with h2
  injection h3 with h3; injection h3 with h3
  injection h4 with h4; injection h4 with h4
  subst h1 h2 h3 h4
  rw [C04_sub_antisymm a b, ← C04_sub_additive a b c]
  push_cast
  constructor <;> field_simp
  rw [C04_sub_antisymm b a]; push_cast; ring

example : (364 / 365 : ℚ) = -(-364 / 365) ∧ (364 / 365 : ℚ) + 1 / 365 = 1 :=
  C18_act365_additive ⟨2023, 1, 1, by decide⟩ ⟨2023, 12, 31, by decide⟩ ⟨2024, 1, 1, by decide⟩ _ _ _ _
    (by rw [act365_eq]; norm_num [show Date.sub ⟨2023, 12, 31, by decide⟩ ⟨2023, 1, 1, by decide⟩ = 364 by decide])
    (by rw [act365_eq]; norm_num [show Date.sub ⟨2023, 1, 1, by decide⟩ ⟨2023, 12, 31, by decide⟩ = -364 by decide])
    (by rw [act365_eq]; norm_num [show Date.sub ⟨2024, 1, 1, by decide⟩ ⟨2023, 12, 31, by decide⟩ = 1 by decide])
    (by rw [act365_eq]; norm_num [show Date.sub ⟨2024, 1, 1, by decide⟩ ⟨2023, 1, 1, by decide⟩ = 365 by decide])

/-- **C18.** Act/360 is strictly increasing in the second date, and zero exactly on equal dates. -/
theorem C18_act360_strictMono (a b c : Date) (tb tc : K)
    (h1 : DayCount.act360 a b = .ok (.ok tb)) (h2 : DayCount.act360 a c = .ok (.ok tc)) :
    (b < c ↔ tb < tc) ∧ (tb = 0 ↔ a = b) := by
  rw [act360_eq] at h1 h2
  injection h1 with h1; injection h1 with h1
  injection h2 with h2; injection h2 with h2
  subst h1 h2
  constructor
  · rw [div_lt_div_iff_of_pos_right (by norm_num), Int.cast_lt, C03_serial_lt, C04_sub_serial,
      C04_sub_serial]; omega
  · rw [div_eq_zero_iff]; simp only [OfNat.ofNat_ne_zero, or_false]
    rw [Int.cast_eq_zero, C04_sub_eq_zero]; exact eq_comm

example : ((⟨2023, 12, 31, by decide⟩ : Date) < ⟨2024, 1, 1, by decide⟩ ↔ (364 / 360 : ℚ) < 365 / 360) ∧
    ((364 / 360 : ℚ) = 0 ↔ (⟨2023, 1, 1, by decide⟩ : Date) = ⟨2023, 12, 31, by decide⟩) :=
  C18_act360_strictMono ⟨2023, 1, 1, by decide⟩ ⟨2023, 12, 31, by decide⟩ ⟨2024, 1, 1, by decide⟩ _ _
    (by rw [act360_eq]; norm_num [show Date.sub ⟨2023, 12, 31, by decide⟩ ⟨2023, 1, 1, by decide⟩ = 364 by decide])
    (by rw [act360_eq]; norm_num [show Date.sub ⟨2024, 1, 1, by decide⟩ ⟨2023, 1, 1, by decide⟩ = 365 by decide])

/-- **C18.** Act/365 is strictly increasing in the second date, and zero exactly on equal dates. -/
theorem C18_act365_strictMono (a b c : Date) (tb tc : K)
    (h1 : DayCount.act365 a b = .ok (.ok tb)) (h2 : DayCount.act365 a c = .ok (.ok tc)) :
    (b < c ↔ tb < tc) ∧ (tb = 0 ↔ a = b) := by
  rw [act365_eq] at h1 h2
  injection h1 with h1; injection h1 with h1
  injection h2 with h2; injection h2 with h2
  subst h1 h2
  constructor
  · rw [div_lt_div_iff_of_pos_right (by norm_num), Int.cast_lt, C03_serial_lt, C04_sub_serial,
      C04_sub_serial]; omega
  · rw [div_eq_zero_iff]; simp only [OfNat.ofNat_ne_zero, or_false]
    rw [Int.cast_eq_zero, C04_sub_eq_zero]; exact eq_comm

example : DayCount.act360 (V := ℚ) ⟨2023, 1, 1, by decide⟩ ⟨2023, 12, 31, by decide⟩ =
    .ok (.ok (364 / 360)) := by
  rw [act360_eq]; norm_num [show Date.sub ⟨2023, 12, 31, by decide⟩ ⟨2023, 1, 1, by decide⟩ = 364 by decide]

/-! ## C19 -/

open Spec

theorem thirty360Days_nonneg {a b : Date} (h : a ≤ b) : 0 ≤ thirty360Days a b := by
  rw [← NaiveDate.not_lt_iff, NaiveDate.lt_iff] at h
  have := a.month_pos; have := a.month_le; have := b.month_pos; have := b.month_le
  have := a.day_pos; have := b.day_pos
  unfold thirty360Days; omega

/-- **C19.** An error is returned exactly on reversed dates, and it is `InvalidInput`. -/
theorem C19_thirty360_error (oc : Bool) (a b : Date) :
    ((∃ e, DayCount.thirty360Diff oc a b = .ok (.error e)) ↔ b < a) ∧
    (b < a → ∃ msg, DayCount.thirty360Diff oc a b =
      .ok (.error (.computeError (.invalidInput msg)))) := by
  unfold DayCount.thirty360Diff
  by_cases h : b < a
  · simp only [h, if_true]
    exact ⟨⟨fun _ => trivial, fun _ => ⟨_, rfl⟩⟩, fun _ => ⟨_, rfl⟩⟩
  · simp only [h, if_false, iff_false, false_imp_iff, and_true]
    rintro ⟨e, he⟩
    simp only [Rust.bind_eq_ok, Rust.pure_eq, Rust.ok.injEq, reduceCtorEq, and_false, exists_false] at he

example : ∃ msg, DayCount.thirty360Diff true ⟨2024, 3, 5, by decide⟩ ⟨2024, 2, 5, by decide⟩ =
    .ok (.error (.computeError (.invalidInput msg))) := (C19_thirty360_error true _ _).2 (by decide)

/-- **C19.** With wrapping arithmetic, the count on ordered dates is the bond-basis count. -/
theorem C19_thirty360_value (a b : Date) (h : a ≤ b) :
    DayCount.thirty360Diff false a b = .ok (.ok (thirty360Days a b)) := by
  have h0 := thirty360Days_nonneg h
  have h' : ¬ b < a := (NaiveDate.not_lt_iff _ _).2 h
  rw [← NaiveDate.not_lt_iff, NaiveDate.lt_iff] at h
  have := a.month_pos; have := a.month_le; have := b.month_pos; have := b.month_le
  have := a.day_pos; have := b.day_pos
  have := a.year_ge; have := a.year_le; have := b.year_ge; have := b.year_le
  unfold DayCount.thirty360Diff
  rw [if_neg h']
  have e1 : subI32 false b.year a.year = .ok (b.year - a.year) := by
    unfold subI32 i32Min i32Max; rw [if_pos (by omega)]
  have e2 : mulU32 false 360 (i32AsU32 (b.year - a.year)) = .ok (360 * (b.year - a.year)) := by
    unfold mulU32 i32AsU32 two32
    rw [Int.emod_eq_of_lt (by omega) (by omega), if_pos (by omega)]
  simp only [e1, e2, Rust.ok_bind]
  have hs : ∀ x : Int, -4294967296 < x → x < 4294967296 → 
      subU32 false (b.month : Int) (a.month : Int) = .ok (((b.month : Int) - a.month) % 4294967296) := by
    intro _ _ _
    unfold subU32 two32
    split
    · rw [Int.emod_eq_of_lt (by omega) (by omega)]
    · rfl
  rw [hs 0 (by omega) (by omega)]
  simp only [Rust.ok_bind]
  have hm : ∀ dm : Int, 0 ≤ dm → mulU32 false 30 dm = .ok ((30 * dm) % 4294967296) := by
    intro dm h0
    unfold mulU32 two32
    split
    · rw [Int.emod_eq_of_lt (by omega) (by omega)]
    · rfl
  rw [hm _ (by omega)]
  simp only [Rust.ok_bind]
  have ha : ∀ x y : Int, 0 ≤ x + y → addU32 false x y = .ok ((x + y) % 4294967296) := by
    intro x y h0
    unfold addU32 two32
    split
    · rw [Int.emod_eq_of_lt (by omega) (by omega)]
    · rfl
  rw [ha _ _ (by omega)]
  simp only [Rust.ok_bind]
  rw [ha _ _ (by omega)]
  simp only [Rust.ok_bind]
  have hsub : ∀ x y : Int, x - y < 4294967296 → subU32 false x y = .ok ((x - y) % 4294967296) := by
    intro x y h0
    unfold subU32 two32
    split
    · rw [Int.emod_eq_of_lt (by omega) (by omega)]
    · rfl
  rw [hsub _ _ (by omega)]
  simp only [Rust.ok_bind, Rust.pure_eq, Rust.ok.injEq, Except.ok.injEq]
  unfold thirty360Days at *
  omega

example : DayCount.thirty360Diff false ⟨2022, 12, 1, by decide⟩ ⟨2023, 1, 1, by decide⟩ =
    .ok (.ok (thirty360Days ⟨2022, 12, 1, by decide⟩ ⟨2023, 1, 1, by decide⟩)) :=
  C19_thirty360_value _ _ (by decide)

/-- **C19.** The count is never negative, zero on equal dates, additive over ordered dates, and monotone
in the second date. -/
theorem C19_thirty360_additive (a b c : Date) (hab : a ≤ b) (hbc : b ≤ c) :
    0 ≤ thirty360Days a b ∧ thirty360Days a a = 0 ∧
    thirty360Days a b + thirty360Days b c = thirty360Days a c ∧
    thirty360Days a b ≤ thirty360Days a c := by
  have h1 := thirty360Days_nonneg hab
  have h2 := thirty360Days_nonneg hbc
  refine ⟨h1, ?_, ?_, ?_⟩ <;> unfold thirty360Days at * <;> omega

example : thirty360Days ⟨2022, 12, 1, by decide⟩ ⟨2023, 1, 31, by decide⟩ +
      thirty360Days ⟨2023, 1, 31, by decide⟩ ⟨2024, 2, 29, by decide⟩ =
    thirty360Days ⟨2022, 12, 1, by decide⟩ ⟨2024, 2, 29, by decide⟩ :=
  (C19_thirty360_additive _ _ _ (by decide) (by decide)).2.2.1

/-- **C19.** The returned fraction (wrapping build): exact, additive and monotone over ordered dates. -/
theorem C19_thirty360_fraction (a b c : Date) (hab : a ≤ b) (hbc : b ≤ c) :
    ∃ tab tbc tac : K, DayCount.thirty360 false a b = .ok (.ok tab) ∧
      DayCount.thirty360 false b c = .ok (.ok tbc) ∧ DayCount.thirty360 false a c = .ok (.ok tac) ∧
      tab * 360 = (thirty360Days a b : Int) ∧ 0 ≤ tab ∧ tab + tbc = tac ∧ tab ≤ tac := by
  have val : ∀ x y : Date, x ≤ y →
      DayCount.thirty360 (V := K) false x y = .ok (.ok ((thirty360Days x y : Int) / 360)) := by
    intro x y h
    unfold DayCount.thirty360
    simp [C19_thirty360_value x y h, ExactCast.fromInt_eq]
  obtain ⟨h1, _, h3, h4⟩ := C19_thirty360_additive a b c hab hbc
  refine ⟨_, _, _, val a b hab, val b c hbc, val a c (date_le_trans hab hbc), by field_simp, ?_, ?_, ?_⟩
  · exact div_nonneg (by exact_mod_cast h1) (by norm_num)
  · rw [← h3]; push_cast; field_simp
  · rw [div_le_div_iff_of_pos_right (by norm_num)]; exact_mod_cast h4

example : thirty360Days ⟨2023, 1, 31, by decide⟩ ⟨2024, 2, 29, by decide⟩ = 389 := by decide
example : DayCount.thirty360Diff false ⟨2022, 12, 1, by decide⟩ ⟨2023, 1, 1, by decide⟩ = .ok (.ok 30) := by
  decide

/-! ## C20 -/

/-- **C20 (violated).** With overflow checks, the count from 1 December 2022 to 1 January 2023 panics. -/
theorem C20_refuted : ∃ a b : Date, a ≤ b ∧ DayCount.thirty360Diff true a b = .panic :=
  ⟨⟨2022, 12, 1, by decide⟩, ⟨2023, 1, 1, by decide⟩, by decide, by decide⟩

/-- **C20.** Exact panic domain: overflow checks on, ordered dates, and the second month number smaller
than the first. -/
theorem C20_thirty360_panic (oc : Bool) (a b : Date) :
    DayCount.thirty360Diff oc a b = .panic ↔ oc = true ∧ a ≤ b ∧ b.month < a.month := by
  cases oc
  · simp only [Bool.false_eq_true, false_and, iff_false]
    intro h
    by_cases hlt : b < a
    · unfold DayCount.thirty360Diff at h; simp [hlt] at h
    · rw [C19_thirty360_value a b ((NaiveDate.not_lt_iff _ _).1 hlt)] at h; cases h
  · simp only [true_and]
    by_cases hlt : b < a
    · have : DayCount.thirty360Diff true a b ≠ .panic := by
        unfold DayCount.thirty360Diff; simp [hlt]
      simp only [this, false_iff, not_and]
      intro h; exact absurd hlt ((NaiveDate.not_lt_iff _ _).2 h)
    · have hab := (NaiveDate.not_lt_iff _ _).1 hlt
      have h0 := thirty360Days_nonneg hab
      have hord := hlt
      rw [NaiveDate.lt_iff] at hord
      have := a.month_pos; have := a.month_le; have := b.month_pos; have := b.month_le
      have := a.day_pos; have := b.day_pos
      have := a.year_ge; have := a.year_le; have := b.year_ge; have := b.year_le
      simp only [hab, true_and]
      unfold DayCount.thirty360Diff
      rw [if_neg hlt]
      have e1 : subI32 true b.year a.year = .ok (b.year - a.year) := by
        unfold subI32 i32Min i32Max; rw [if_pos (by omega)]
      have e2 : mulU32 true 360 (i32AsU32 (b.year - a.year)) = .ok (360 * (b.year - a.year)) := by
        unfold mulU32 i32AsU32 two32
        rw [Int.emod_eq_of_lt (by omega) (by omega), if_pos (by omega)]
      simp only [e1, e2, Rust.ok_bind]
      by_cases hm : b.month < a.month
      · have : subU32 true (b.month : Int) (a.month : Int) = .panic := by
          unfold subU32; rw [if_neg (by omega)]; rfl
        simp [this, hm]
      · have e3 : subU32 true (b.month : Int) (a.month : Int) = .ok ((b.month : Int) - a.month) := by
          unfold subU32; rw [if_pos (by omega)]
        have e4 : mulU32 true 30 ((b.month : Int) - a.month) = .ok (30 * ((b.month : Int) - a.month)) := by
          unfold mulU32 two32; rw [if_pos (by omega)]
        simp only [e3, e4, Rust.ok_bind]
        unfold thirty360Days at h0
        unfold addU32 subU32 two32
        rw [if_pos (by omega)]
        simp only [Rust.ok_bind]
        rw [if_pos (by omega)]
        simp only [Rust.ok_bind]
        rw [if_pos (by omega)]
        simp [hm]

/-- **C20.** Ordered dates give the bond-basis count in a wrapping build, and in a checking build when the
month number does not decrease.  Missing for the full property: checking builds with a decreasing month
number, where it is false. -/
theorem C20_thirty360_no_panic_partial (oc : Bool) (a b : Date) (hab : a ≤ b)
    (h : oc = false ∨ a.month ≤ b.month) :
    DayCount.thirty360Diff oc a b = .ok (.ok (thirty360Days a b)) := by
  cases oc with
  | false => exact C19_thirty360_value a b hab
  | true =>
    have hm : a.month ≤ b.month := by simpa using h
    have hlt : ¬ b < a := (NaiveDate.not_lt_iff _ _).2 hab
    have h0 := thirty360Days_nonneg hab
    have hord := hlt
    rw [NaiveDate.lt_iff] at hord
    have := a.month_pos; have := a.month_le; have := b.month_pos; have := b.month_le
    have := a.day_pos; have := b.day_pos
    have := a.year_ge; have := a.year_le; have := b.year_ge; have := b.year_le
    unfold DayCount.thirty360Diff
    rw [if_neg hlt]
    have e1 : subI32 true b.year a.year = .ok (b.year - a.year) := by
      unfold subI32 i32Min i32Max; rw [if_pos (by omega)]
    have e2 : mulU32 true 360 (i32AsU32 (b.year - a.year)) = .ok (360 * (b.year - a.year)) := by
      unfold mulU32 i32AsU32 two32
      rw [Int.emod_eq_of_lt (by omega) (by omega), if_pos (by omega)]
    have e3 : subU32 true (b.month : Int) (a.month : Int) = .ok ((b.month : Int) - a.month) := by
      unfold subU32; rw [if_pos (by omega)]
    have e4 : mulU32 true 30 ((b.month : Int) - a.month) = .ok (30 * ((b.month : Int) - a.month)) := by
      unfold mulU32 two32; rw [if_pos (by omega)]
    simp only [e1, e2, e3, e4, Rust.ok_bind]
    unfold thirty360Days at h0 ⊢
    unfold addU32 subU32 two32
    rw [if_pos (by omega)]
    simp only [Rust.ok_bind]
    rw [if_pos (by omega)]
    simp only [Rust.ok_bind]
    rw [if_pos (by omega)]
    simp only [Rust.ok_bind, Rust.pure_eq, Rust.ok.injEq, Except.ok.injEq]
    omega

example : DayCount.thirty360Diff true ⟨2022, 1, 31, by decide⟩ ⟨2023, 12, 31, by decide⟩ =
    .ok (.ok (thirty360Days ⟨2022, 1, 31, by decide⟩ ⟨2023, 12, 31, by decide⟩)) :=
  C20_thirty360_no_panic_partial true _ _ (by decide) (Or.inr (by decide))

/-- **C19.** The error at the level of the API, in both build profiles and for every value type: reversed dates give
`InvalidInput`, and dates in order give an error only when a number does not convert to the value type. -/
theorem C19_thirty360_api_error {V : Type} [Div V] [FromInt V] (oc : Bool) (a b : Date) :
    (b < a → ∃ msg, DayCount.thirty360 (V := V) oc a b = .ok (.error (.computeError (.invalidInput msg)))) ∧
    (a ≤ b → ∀ e, DayCount.thirty360 (V := V) oc a b = .ok (.error e) →
      (FromInt.fromInt (thirty360Days a b) : Option V) = none ∨ (FromInt.fromInt 360 : Option V) = none) := by
  constructor
  · intro h
    obtain ⟨msg, hm⟩ := (C19_thirty360_error oc a b).2 h
    exact ⟨msg, by unfold DayCount.thirty360; rw [hm]; rfl⟩
  · intro h e he
    by_cases hp : oc = true ∧ a ≤ b ∧ b.month < a.month
    · have := (C20_thirty360_panic oc a b).2 hp
      unfold DayCount.thirty360 at he; rw [this] at he; cases he
    · have hv := C20_thirty360_no_panic_partial oc a b h (by
        cases oc
        · exact Or.inl rfl
        · right; by_contra hc; exact hp ⟨rfl, h, by omega⟩)
      unfold DayCount.thirty360 at he
      rw [hv] at he
      simp only [Rust.ok_bind] at he
      cases h1 : (FromInt.fromInt (thirty360Days a b) : Option V) with
      | none => exact Or.inl rfl
      | some x =>
        cases h2 : (FromInt.fromInt 360 : Option V) with
        | none => exact Or.inr rfl
        | some y => simp only [h1, h2] at he; cases he

/-- Reversed dates in the checked build. -/
example : ∃ msg, DayCount.thirty360 (V := ℚ) true ⟨2023, 1, 1, by decide⟩ ⟨2022, 12, 1, by decide⟩ =
    .ok (.error (.computeError (.invalidInput msg))) :=
  (C19_thirty360_api_error true _ _).1 (by decide)

example : DayCount.thirty360Diff true ⟨2023, 1, 1, by decide⟩ ⟨2023, 12, 31, by decide⟩ = .ok (.ok 359) := by
  decide

end Qlab.Props
