import Verif.Lemmas.Float
import Verif.Model.Binary
import Verif.Props.DayCount

/-!
# Day counts in floating-point arithmetic (C72, C76)
-/

namespace Qlab.Props

open Spec

variable {A : FloatArith}

theorem actual_eq {D : DayCount (Fl A)} {N : Int} (hD : IsActualDayCount D N) (a b : Date) :
    D a b = .ok (.ok (Fl.round A (A.fl (Date.sub b a : Int) / N))) := by
  have hp : (2 : ℤ) ^ 24 ≤ 2 ^ A.prec := pow_le_pow_right₀ (by norm_num) A.prec_ge
  have i360 : A.fl ((360 : Int) : ℝ) = 360 := by
    simpa using A.int 360 (le_trans (by norm_num) hp)
  have i365 : A.fl ((365 : Int) : ℝ) = 365 := by
    simpa using A.int 365 (le_trans (by norm_num) hp)
  rcases hD with ⟨rfl, rfl⟩ | ⟨rfl, rfl⟩
  · show Rust.ok (Except.ok (Fl.round A ((Date.sub b a : Int) : ℝ) / Fl.round A ((360 : Int) : ℝ))) = _
    congr 2
    ext
    rw [Fl.val_div, Fl.val_round, Fl.val_round, Fl.val_round, i360]; norm_num
  · show Rust.ok (Except.ok (Fl.round A ((Date.sub b a : Int) : ℝ) / Fl.round A ((365 : Int) : ℝ))) = _
    congr 2
    ext
    rw [Fl.val_div, Fl.val_round, Fl.val_round, Fl.val_round, i365]; norm_num

theorem actual_pos {V : Type} [Div V] [FromInt V] {D : DayCount V} {N : Int} (hD : IsActualDayCount D N) : 0 < N := by
  rcases hD with ⟨-, rfl⟩ | ⟨-, rfl⟩ <;> norm_num

/-- One rounding of a cast and one of a quotient. -/
theorem quotient_error (n : ℤ) (N : ℝ) :
    |A.fl (A.fl n / N) - n / N| ≤ 3 * unitRoundoff A * |n / N| ∧
    (|n| ≤ 2 ^ A.prec → |A.fl (A.fl n / N) - n / N| ≤ unitRoundoff A * |n / N|) := by
  constructor
  · obtain ⟨d1, h1, e1⟩ := A.fl_factor n
    rw [e1]
    obtain ⟨d2, h2, e2⟩ := A.fl_factor ((n : ℝ) * (1 + d1) / N)
    rw [e2]
    have e : (n : ℝ) * (1 + d1) / N * (1 + d2) - n / N = n / N * (d1 + d2 + d1 * d2) := by ring
    rw [e, abs_mul, mul_comm]
    refine mul_le_mul_of_nonneg_right ?_ (abs_nonneg _)
    have t1 := abs_add_le (d1 + d2) (d1 * d2)
    have t2 := abs_add_le d1 d2
    have t3 : |d1 * d2| ≤ unitRoundoff A * 1 := by
      rw [abs_mul]
      exact mul_le_mul h1 (le_trans h2 (le_trans A.unit_le (by norm_num))) (abs_nonneg _) A.unit_pos.le
    linarith
  · intro h
    rw [A.int n h]
    exact A.err' _

/-- **C72.** In floating point, the three day counts fail exactly when they fail in exact arithmetic; otherwise the
fraction has a relative error of at most `3 u`, and of at most `u` when `365` times the fraction is at most `2 ^ prec`
(in `f64`: always). -/
theorem C72_error {D : DayCount (Fl A)} {E : DayCount ℝ} (h : SameDayCount D E) (a b : Date) :
    (∀ e, D a b = .ok (.error e) ↔ E a b = .ok (.error e)) ∧
    (D a b = .panic ↔ E a b = .panic) ∧
    (∀ r, E a b = .ok (.ok r) → ∃ t, D a b = .ok (.ok t) ∧ |t.val - r| ≤ 3 * unitRoundoff A * |r| ∧
      (|r| * 365 ≤ 2 ^ A.prec → |t.val - r| ≤ unitRoundoff A * |r|)) := by
  have hp : (2 : ℤ) ^ 24 ≤ 2 ^ A.prec := pow_le_pow_right₀ (by norm_num) A.prec_ge
  have key : ∀ (n : ℤ) (N : ℝ), 0 < N → N ≤ 365 → |(n : ℝ) / N| * 365 ≤ 2 ^ A.prec → |n| ≤ 2 ^ A.prec := by
    intro n N h0 h1 h2
    rw [abs_div, abs_of_pos h0] at h2
    have h3 : |(n : ℝ)| ≤ 2 ^ A.prec := by
      refine le_trans ?_ h2
      rw [div_mul_eq_mul_div, le_div_iff₀ h0]
      exact mul_le_mul_of_nonneg_left h1 (abs_nonneg _)
    exact_mod_cast h3
  rcases h with ⟨rfl, rfl⟩ | ⟨rfl, rfl⟩ | ⟨oc, rfl, rfl⟩
  · rw [actual_eq (Or.inl ⟨rfl, rfl⟩), act360_eq]
    refine ⟨by simp, by simp, ?_⟩
    intro r hr
    injection hr with hr; injection hr with hr
    subst hr
    have := quotient_error (A := A) (Date.sub b a) 360
    refine ⟨_, rfl, by rw [Fl.val_round]; exact_mod_cast this.1, fun hb => ?_⟩
    rw [Fl.val_round]
    exact_mod_cast this.2 (key _ _ (by norm_num) (by norm_num) hb)
  · rw [actual_eq (Or.inr ⟨rfl, rfl⟩), act365_eq]
    refine ⟨by simp, by simp, ?_⟩
    intro r hr
    injection hr with hr; injection hr with hr
    subst hr
    have := quotient_error (A := A) (Date.sub b a) 365
    refine ⟨_, rfl, by rw [Fl.val_round]; exact_mod_cast this.1, fun hb => ?_⟩
    rw [Fl.val_round]
    exact_mod_cast this.2 (key _ _ (by norm_num) (by norm_num) hb)
  · have i360 : A.fl (360 : ℝ) = 360 := by simpa using A.int 360 (le_trans (by norm_num) hp)
    unfold DayCount.thirty360
    cases hd : DayCount.thirty360Diff oc a b with
    | panic => simp
    | ok q =>
      cases q with
      | error e => simp
      | ok n =>
        simp only [Fl.fromInt_eq, ExactCast.fromInt_eq]
        refine ⟨by simp, by simp, ?_⟩
        intro r hr
        have hr : Rust.ok (Except.ok ((n : ℝ) / ((360 : Int) : ℝ)) : QLabResult ℝ) = .ok (.ok r) := hr
        injection hr with hr; injection hr with hr
        subst hr
        have := quotient_error (A := A) n 360
        refine ⟨_, rfl, ?_, fun hb => ?_⟩ <;> rw [Fl.val_div] <;> simp only [Fl.val_round, Int.cast_ofNat, i360]
        · exact this.1
        · exact this.2 (key n 360 (by norm_num) (by norm_num) (by simpa using hb))

/-- **C72.** Act/360 and Act/365 in floating point: never decreasing in the end date; the sign is the order of the
dates; zero exactly on equal dates; swapping the dates changes the sign exactly. -/
theorem C72_order {D : DayCount (Fl A)} {N : Int} (hD : IsActualDayCount D N) (a b c : Date) :
    ∃ tb tc s, D a b = .ok (.ok tb) ∧ D a c = .ok (.ok tc) ∧ D b a = .ok (.ok s) ∧
      (b ≤ c → tb ≤ tc) ∧ (0 < tb ↔ a < b) ∧ (tb = 0 ↔ a = b) ∧ s = -tb := by
  have hN : (0 : ℝ) < N := by exact_mod_cast actual_pos hD
  refine ⟨_, _, _, actual_eq hD a b, actual_eq hD a c, actual_eq hD b a, ?_, ?_, ?_, ?_⟩
  · intro h
    rw [Fl.le_iff]
    refine A.mono (div_le_div_of_nonneg_right (A.mono ?_) hN.le)
    have : Date.sub b a ≤ Date.sub c a := by
      rw [C04_sub_serial, C04_sub_serial]
      have := (NaiveDate.le_iff_serial b c).1 h
      unfold Date.serialDate; omega
    exact_mod_cast this
  · rw [Fl.lt_iff, Fl.val_zero, Fl.val_round, ← C04_sub_pos]
    constructor
    · intro h
      by_contra hc
      have h1 : A.fl ((Date.sub b a : Int) : ℝ) ≤ 0 := A.fl_nonpos (by exact_mod_cast not_lt.1 hc)
      have h2 := A.fl_nonpos (div_nonpos_of_nonpos_of_nonneg h1 hN.le)
      linarith
    · intro h
      exact A.fl_pos (div_pos (A.fl_pos (by exact_mod_cast h)) hN)
  · constructor
    · intro h
      have h1 : A.fl (A.fl ((Date.sub b a : Int) : ℝ) / N) = 0 := congrArg Fl.val h
      rw [A.fl_eq_zero, div_eq_zero_iff, A.fl_eq_zero] at h1
      rcases h1 with h1 | h1
      · exact ((C04_sub_eq_zero b a).1 (by exact_mod_cast h1)).symm
      · exact absurd h1 hN.ne'
    · intro h
      ext
      rw [Fl.val_round, (C04_sub_eq_zero b a).2 h.symm]
      simp [A.fl_zero, Fl.val_zero]
  · ext
    rw [Fl.val_neg, Fl.val_round, Fl.val_round, C04_sub_antisymm a b]
    push_cast
    rw [A.odd, neg_div, A.odd]

example (A : FloatArith) := C72_order (D := DayCount.act360 (V := Fl A)) (.inl ⟨rfl, rfl⟩) ⟨2023, 1, 1, by decide⟩
  ⟨2023, 7, 1, by decide⟩ ⟨2024, 1, 1, by decide⟩

/-- **C76.** Different dates get different fractions, as long as both are fewer than `2 ^ (prec - 1)` days away. -/
theorem C76_strict_partial {D : DayCount (Fl A)} {N : Int} (hD : IsActualDayCount D N) (a b c : Date)
    (hb : |Date.sub b a| < 2 ^ (A.prec - 1)) (hc : |Date.sub c a| < 2 ^ (A.prec - 1)) :
    ∃ tb tc, D a b = .ok (.ok tb) ∧ D a c = .ok (.ok tc) ∧ (b < c ↔ tb < tc) := by
  have hN : (0 : ℝ) < N := by exact_mod_cast actual_pos hD
  refine ⟨_, _, actual_eq hD a b, actual_eq hD a c, ?_⟩
  have hpp : (2 : ℤ) ^ (A.prec - 1) * 2 = 2 ^ A.prec := by
    rw [← pow_succ]; congr 1; have := A.prec_ge; omega
  -- one direction, for any two dates in range
  have key : ∀ m n : ℤ, |m| < 2 ^ (A.prec - 1) → |n| < 2 ^ (A.prec - 1) → m < n →
      A.fl (A.fl (m : ℝ) / N) < A.fl (A.fl (n : ℝ) / N) := by
    intro m n hm hn hmn
    have hpos : (0 : ℤ) < 2 ^ (A.prec - 1) := by positivity
    rw [A.int m (by omega), A.int n (by omega)]
    have e1 := (abs_le.1 (A.err' ((m : ℝ) / N))).2
    have e2 := (abs_le.1 (A.err' ((n : ℝ) / N))).1
    rw [abs_div, abs_of_pos hN] at e1 e2
    have hu : unitRoundoff A * 2 ^ A.prec = 1 := by
      unfold unitRoundoff; rw [← mul_pow]; norm_num
    have hsum : |m| + |n| < 2 ^ A.prec := by omega
    have hsum' : |(m : ℝ)| + |(n : ℝ)| < 2 ^ A.prec := by exact_mod_cast hsum
    have h3 : unitRoundoff A * (|(m : ℝ)| + |(n : ℝ)|) < 1 := by
      rw [← hu]; exact mul_lt_mul_of_pos_left hsum' A.unit_pos
    have h4 : (m : ℝ) + 1 ≤ n := by exact_mod_cast hmn
    have h5 : (n : ℝ) / N - m / N - (unitRoundoff A * (|(m : ℝ)| / N) + unitRoundoff A * (|(n : ℝ)| / N)) =
      ((n : ℝ) - m - unitRoundoff A * (|(m : ℝ)| + |(n : ℝ)|)) / N := by field_simp
    have h6 : 0 < ((n : ℝ) - m - unitRoundoff A * (|(m : ℝ)| + |(n : ℝ)|)) / N := div_pos (by linarith) hN
    linarith
  have hord : ∀ b c : Date, b < c ↔ Date.sub b a < Date.sub c a := by
    intro b c
    rw [C03_serial_lt, C04_sub_serial, C04_sub_serial]; omega
  rw [Fl.lt_iff, Fl.val_round, Fl.val_round, hord]
  constructor
  · exact key _ _ hb hc
  · intro h
    by_contra hcon
    rcases eq_or_lt_of_le (not_lt.1 hcon) with he | hl
    · rw [he] at h; exact lt_irrefl _ h
    · exact absurd h (not_lt.2 (key _ _ hc hb hl).le)

theorem sub_abs_lt (a b : Date) : |Date.sub b a| < 2 ^ 28 := by
  rw [C04_sub_serial, abs_lt]
  have h1 := a.serial_ge
  have h2 := a.serial_le
  have h3 := b.serial_ge
  have h4 := b.serial_le
  unfold Date.serialDate
  constructor <;> omega

/-- **C76.** In a format with at least 29 significant bits (`f64` has 53) different dates always get different
fractions, in the order of the dates. -/
theorem C76_strict_f64_partial (hA : 29 ≤ A.prec) {D : DayCount (Fl A)} {N : Int} (hD : IsActualDayCount D N) (a b c : Date) :
    ∃ tb tc, D a b = .ok (.ok tb) ∧ D a c = .ok (.ok tc) ∧ (b < c ↔ tb < tc) := by
  have h : (2 : ℤ) ^ 28 ≤ 2 ^ (A.prec - 1) := pow_le_pow_right₀ (by norm_num) (by omega)
  exact C76_strict_partial hD a b c (lt_of_lt_of_le (sub_abs_lt a b) h) (lt_of_lt_of_le (sub_abs_lt a c) h)

/-- **C76 (refuted for `f32`).** In `f32` two different dates can get the same fraction. -/
theorem C76_refuted_strict : ∃ a b c : Date, b < c ∧ ∃ t : Fl Binary.f32,
    DayCount.act360 a b = .ok (.ok t) ∧ DayCount.act360 a c = .ok (.ok t) := by
  obtain ⟨b, hb⟩ := C03_serial_surjective ⟨0, 1, 1, by decide⟩ ⟨100000, 1, 1, by decide⟩ (1 + 11796481) (by decide)
    (by decide)
  obtain ⟨c, hc⟩ := C03_serial_surjective ⟨0, 1, 1, by decide⟩ ⟨100000, 1, 1, by decide⟩ (1 + 11796482) (by decide)
    (by decide)
  have ha : Date.serialDate ⟨1, 1, 1, by decide⟩ = 1 := by decide
  refine ⟨⟨1, 1, 1, by decide⟩, b, c, ?_, _, actual_eq (Or.inl ⟨rfl, rfl⟩) _ _, ?_⟩
  · rw [C03_serial_lt, hb, hc]; norm_num
  · rw [actual_eq (Or.inl ⟨rfl, rfl⟩)]
    congr 2
    ext
    rw [Fl.val_round, Fl.val_round, C04_sub_serial, C04_sub_serial, ha, hb, hc]
    simp only [show Binary.f32.fl = Binary.roundTo 24 from rfl]
    have c1 : Binary.roundTo 24 ((1 + 11796481 - 1 : ℤ) : ℝ) = 11796481 := by
      simpa using Binary.roundTo_rep (p := 24) (by norm_num) 11796481 0 (by norm_num)
    have c2 : Binary.roundTo 24 ((1 + 11796482 - 1 : ℤ) : ℝ) = 11796482 := by
      simpa using Binary.roundTo_rep (p := 24) (by norm_num) 11796482 0 (by norm_num)
    rw [c1, c2, Binary.roundTo_eq (by norm_num) (-8) 8388609 (by norm_num [abs_of_pos]) (by norm_num [abs_of_pos])
      (by rw [abs_lt]; norm_num), Binary.roundTo_eq (by norm_num) (-8) 8388609 (by norm_num [abs_of_pos])
      (by norm_num [abs_of_pos]) (by rw [abs_lt]; norm_num)]

/-- **C76.** Additive up to rounding: over two periods laid end to end the error is at most `8 u` times the sum of
the two lengths in years. -/
theorem C76_additive_partial {D : DayCount (Fl A)} {N : Int} (hD : IsActualDayCount D N) (a b c : Date) :
    ∃ tab tbc tac, D a b = .ok (.ok tab) ∧ D b c = .ok (.ok tbc) ∧ D a c = .ok (.ok tac) ∧
      |(tab + tbc).val - tac.val| ≤
        8 * unitRoundoff A * (|((Date.sub b a : Int) : ℝ)| / N + |((Date.sub c b : Int) : ℝ)| / N) := by
  have hN : (0 : ℝ) < N := by exact_mod_cast actual_pos hD
  refine ⟨_, _, _, actual_eq hD a b, actual_eq hD b c, actual_eq hD a c, ?_⟩
  rw [Fl.val_add, Fl.val_round, Fl.val_round, Fl.val_round]
  have e : Date.sub c a = Date.sub b a + Date.sub c b := by
    rw [C04_sub_serial, C04_sub_serial, C04_sub_serial]; omega
  have h1 := (quotient_error (A := A) (Date.sub b a) N).1
  have h2 := (quotient_error (A := A) (Date.sub c b) N).1
  have h3 := (quotient_error (A := A) (Date.sub c a) N).1
  rw [e] at h3
  push_cast at h3
  rw [add_div] at h3
  rw [e]
  push_cast
  rw [← abs_of_pos hN, ← abs_div, ← abs_div, abs_of_pos hN]
  generalize ((Date.sub b a : Int) : ℝ) / N = x at *
  generalize ((Date.sub c b : Int) : ℝ) / N = y at *
  generalize A.fl (A.fl ((Date.sub b a : Int) : ℝ) / N) = x' at *
  generalize A.fl (A.fl ((Date.sub c b : Int) : ℝ) / N) = y' at *
  generalize A.fl (A.fl (((Date.sub b a : Int) : ℝ) + ((Date.sub c b : Int) : ℝ)) / N) = z' at *
  have h4 := A.err' (x' + y')
  have hu := A.unit_pos
  have hu1 := A.unit_le
  generalize unitRoundoff A = u at *
  have hxy := abs_add_le x y
  have g1 : |x' + y' - (x + y)| ≤ 3 * u * (|x| + |y|) := by
    have := abs_add_le (x' - x) (y' - y)
    rw [show x' - x + (y' - y) = x' + y' - (x + y) by ring] at this
    linarith
  have g2 : |x' + y'| ≤ (1 + 3 * u) * (|x| + |y|) := by
    have := abs_add_le (x' + y' - (x + y)) (x + y)
    rw [sub_add_cancel] at this
    linarith
  have g3 : |A.fl (x' + y') - z'| ≤ |A.fl (x' + y') - (x' + y')| + |x' + y' - (x + y)| + |z' - (x + y)| := by
    have t1 := abs_add_le (A.fl (x' + y') - (x' + y')) (x' + y' - (x + y))
    have t2 := abs_sub (A.fl (x' + y') - (x' + y') + (x' + y' - (x + y))) (z' - (x + y))
    rw [show A.fl (x' + y') - (x' + y') + (x' + y' - (x + y)) - (z' - (x + y)) = A.fl (x' + y') - z' by ring] at t2
    linarith
  have hS : 0 ≤ |x| + |y| := by positivity
  generalize |x| + |y| = S at *
  have g4 : 3 * u * |x + y| ≤ 3 * u * S := mul_le_mul_of_nonneg_left hxy (by linarith)
  have g5 : u * |x' + y'| ≤ u * ((1 + 3 * u) * S) := mul_le_mul_of_nonneg_left g2 hu.le
  have g6 : u * (3 * u) * S ≤ u * 1 * S := by gcongr; linarith
  nlinarith

/-- **C76 (refuted).** Fractions are additive in exact arithmetic (`C18_act360_additive`), and not
in `f64`: 1 day plus 4 days is more than 5 days. -/
theorem C76_refuted_additive : ∃ (a b c : Date) (tab tbc tac : Fl Binary.f64),
    DayCount.act360 a b = .ok (.ok tab) ∧ DayCount.act360 b c = .ok (.ok tbc) ∧
    DayCount.act360 a c = .ok (.ok tac) ∧ tac < tab + tbc := by
  refine ⟨⟨2024, 1, 1, by decide⟩, ⟨2024, 1, 2, by decide⟩, ⟨2024, 1, 6, by decide⟩, _, _, _,
    actual_eq (Or.inl ⟨rfl, rfl⟩) _ _, actual_eq (Or.inl ⟨rfl, rfl⟩) _ _, actual_eq (Or.inl ⟨rfl, rfl⟩) _ _, ?_⟩
  have e1 : Date.sub ⟨2024, 1, 2, by decide⟩ ⟨2024, 1, 1, by decide⟩ = 1 := by decide
  have e2 : Date.sub ⟨2024, 1, 6, by decide⟩ ⟨2024, 1, 2, by decide⟩ = 4 := by decide
  have e3 : Date.sub ⟨2024, 1, 6, by decide⟩ ⟨2024, 1, 1, by decide⟩ = 5 := by decide
  rw [Fl.lt_iff, Fl.val_add, e1, e2, e3]
  simp only [Fl.val_round, show Binary.f64.fl = Binary.roundTo 53 from rfl]
  have i1 : Binary.roundTo 53 ((1 : ℤ) : ℝ) = 1 := by
    simpa using Binary.roundTo_rep (p := 53) (by norm_num) 1 0 (by norm_num)
  have i4 : Binary.roundTo 53 ((4 : ℤ) : ℝ) = 4 := by
    simpa using Binary.roundTo_rep (p := 53) (by norm_num) 4 0 (by norm_num)
  have i5 : Binary.roundTo 53 ((5 : ℤ) : ℝ) = 5 := by
    simpa using Binary.roundTo_rep (p := 53) (by norm_num) 5 0 (by norm_num)
  rw [i1, i4, i5]
  push_cast
  rw [Binary.roundTo_eq (x := 1 / 360) (by norm_num) (-61) 0x16c16c16c16c17 (by norm_num [abs_of_pos])
      (by norm_num [abs_of_pos]) (by rw [abs_lt]; norm_num),
    Binary.roundTo_eq (x := 4 / 360) (by norm_num) (-59) 0x16c16c16c16c17 (by norm_num [abs_of_pos])
      (by norm_num [abs_of_pos]) (by rw [abs_lt]; norm_num),
    Binary.roundTo_eq (x := 5 / 360) (by norm_num) (-59) 0x1c71c71c71c71c (by norm_num [abs_of_pos])
      (by norm_num [abs_of_pos]) (by rw [abs_lt]; norm_num),
    Binary.roundTo_eq (by norm_num) (-59) 0x1c71c71c71c71d (by norm_num [abs_of_pos])
      (by norm_num [abs_of_pos]) (by rw [abs_lt]; norm_num)]
  norm_num

/-- 90 days of Act/360 in `f64` is exactly a quarter, by the theorem on the relative error and `f64` arithmetic. -/
example : ∃ t : Fl Binary.f64, DayCount.act360 ⟨2024, 1, 1, by decide⟩ ⟨2024, 3, 31, by decide⟩ = .ok (.ok t) ∧
    |t.val - 1 / 4| ≤ (1 / 2) ^ 53 * (1 / 4) := by
  have hr : DayCount.act360 (V := ℝ) ⟨2024, 1, 1, by decide⟩ ⟨2024, 3, 31, by decide⟩ = .ok (.ok (1 / 4)) := by
    rw [act360_eq, show Date.sub ⟨2024, 3, 31, by decide⟩ ⟨2024, 1, 1, by decide⟩ = 90 by decide]; norm_num
  obtain ⟨t, h1, -, h2⟩ := (C72_error (A := Binary.f64) (Or.inl ⟨rfl, rfl⟩) _ _).2.2 _ hr
  refine ⟨t, h1, ?_⟩
  have := h2 (by rw [show Binary.f64.prec = 53 from rfl]; norm_num [abs_of_pos])
  rwa [show unitRoundoff Binary.f64 = (1 / 2) ^ 53 from rfl, abs_of_pos (by norm_num : (0 : ℝ) < 1 / 4)] at this

/-- `f64` is a format to which `C76_strict_f64_partial` applies. -/
example : 29 ≤ Binary.f64.prec := by show 29 ≤ 53; norm_num

example := C76_strict_partial (D := DayCount.act360 (V := Fl Binary.f64)) (.inl ⟨rfl, rfl⟩) ⟨2023, 1, 1, by decide⟩
  ⟨2023, 7, 1, by decide⟩ ⟨2024, 1, 1, by decide⟩
  (by show _ < (2 : Int) ^ (53 - 1); decide) (by show _ < (2 : Int) ^ (53 - 1); decide)

example := C76_strict_f64_partial (A := Binary.f64) (by show 29 ≤ 53; norm_num) (D := DayCount.act365) (.inr ⟨rfl, rfl⟩)
  ⟨2023, 1, 1, by decide⟩ ⟨2023, 7, 1, by decide⟩ ⟨2024, 1, 1, by decide⟩

example := C76_additive_partial (A := Binary.f64) (D := DayCount.act365) (.inr ⟨rfl, rfl⟩)
  ⟨2023, 1, 1, by decide⟩ ⟨2023, 7, 1, by decide⟩ ⟨2024, 1, 1, by decide⟩

end Qlab.Props
