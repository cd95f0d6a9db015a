import Verif.Lemmas.IeeeRange
import Verif.Props.FloatDayCount

/-!
# Day counts in the formats of IEEE 754 (C88)
-/

namespace Qlab.Props

open Spec

variable {F : IeeeFormat}

/-- Integers below `2 ^ 28` as magnitudes. -/
theorem mag_int {n : ℤ} (h : |n| ≤ 2 ^ 28) : Mag 0 28 (n : ℝ) := by
  rcases eq_or_ne n 0 with rfl | h0
  · left; simp
  · right
    have h1 : (1 : ℝ) ≤ |(n : ℝ)| := by exact_mod_cast Int.one_le_abs h0
    have h2 : |(n : ℝ)| ≤ 2 ^ 28 := by exact_mod_cast h
    exact ⟨by simpa using h1, by exact_mod_cast h2⟩

/-- A cast of an integer below `2 ^ 28`: rounded, never an infinity. -/
theorem cast_number (hF : 40 ≤ F.emax) {n : ℤ} (h : |n| ≤ 2 ^ 28) :
    IsNumber (Ieee.ofReal F false (n : ℝ)) (F.arith.fl n) := by
  have hr := F.mag_range (mag_int h) (by omega) (by omega)
  have e := F.round_normal hr.2
  have := Ieee.ofReal_number (F := F) (s := false) (x := (n : ℝ)) (by rw [e]; exact F.fl_le_largest hr.1)
  rwa [e] at this

/-- Days over days of the year. -/
theorem fraction_number (hF : 40 ≤ F.emax) {n N : ℤ} (h : |n| ≤ 2 ^ 28) (hN : N = 360 ∨ N = 365) :
    IsNumber (Ieee.ofReal F false (n : ℝ) / Ieee.ofReal F false (N : ℝ)) (F.arith.fl (F.arith.fl n / N)) := by
  have hp : (2 : ℤ) ^ 24 ≤ 2 ^ F.arith.prec := pow_le_pow_right₀ (by norm_num) F.arith.prec_ge
  have h1 : Mag 0 9 (N : ℝ) := by rcases hN with rfl | rfl <;> right <;> norm_num
  have h2 : (F.arith.fl (N : ℝ)) = N := F.arith.int N (by rcases hN with rfl | rfl <;> exact le_trans (by norm_num) hp)
  have n2 := cast_number hF (F := F) (n := N) (by rcases hN with rfl | rfl <;> norm_num)
  rw [h2] at n2
  have hr := F.mag_range (((mag_int h).fl F).div h1) (by omega) (by omega)
  exact Ieee.div_number (cast_number hF h) n2 (by rcases hN with rfl | rfl <;> norm_num) hr.1 hr.2

theorem thirty360_range {oc : Bool} {a b : Date} {n : ℤ} (h : DayCount.thirty360Diff oc a b = .ok (.ok n)) :
    |n| ≤ 2 ^ 28 := by
  have hab : a ≤ b := by
    by_contra hc
    have hlt : b < a := by
      by_contra hc2
      exact hc ((NaiveDate.not_lt_iff _ _).1 hc2)
    obtain ⟨e, he⟩ := (C19_thirty360_error oc a b).1.2 hlt
    rw [h] at he; cases he
  have hm : oc = false ∨ a.month ≤ b.month := by
    by_contra hc
    push Not at hc
    rw [(C20_thirty360_panic oc a b).2 ⟨by simpa using hc.1, hab, hc.2⟩] at h
    cases h
  rw [C20_thirty360_no_panic_partial oc a b hab hm] at h
  obtain rfl := Except.ok.inj (Rust.ok.inj h)
  have := a.month_pos; have := a.month_le; have := b.month_pos; have := b.month_le
  have := a.day_pos; have := b.day_pos
  have := a.year_ge; have := a.year_le; have := b.year_ge; have := b.year_le
  unfold thirty360Days
  rw [abs_le]
  omega

/-- The fraction computed in the format is the one computed with an unbounded exponent: it is always a finite number. -/
theorem fraction_same (hF : 40 ≤ F.emax) {D : DayCount (Ieee F)} {E : DayCount (Fl F.arith)} (h : SameDayCount D E)
    (a b : Date) :
    (∀ e, D a b = .ok (.error e) ↔ E a b = .ok (.error e)) ∧ (D a b = .panic ↔ E a b = .panic) ∧
    (∀ r, E a b = .ok (.ok r) → ∃ t, D a b = .ok (.ok t) ∧ IsNumber t r.val) := by
  have hp : (2 : ℤ) ^ 24 ≤ 2 ^ F.arith.prec := pow_le_pow_right₀ (by norm_num) F.arith.prec_ge
  have i360 : F.arith.fl ((360 : Int) : ℝ) = ((360 : Int) : ℝ) := F.arith.int 360 (le_trans (by norm_num) hp)
  have i365 : F.arith.fl ((365 : Int) : ℝ) = ((365 : Int) : ℝ) := F.arith.int 365 (le_trans (by norm_num) hp)
  have hs := (sub_abs_lt a b).le
  rcases h with ⟨rfl, rfl⟩ | ⟨rfl, rfl⟩ | ⟨oc, rfl, rfl⟩
  · rw [actual_eq (Or.inl ⟨rfl, rfl⟩)]
    have e : (DayCount.act360 a b : Rust (QLabResult (Ieee F))) =
        .ok (.ok (Ieee.ofReal F false ((Date.sub b a : Int) : ℝ) / Ieee.ofReal F false ((360 : Int) : ℝ))) := rfl
    rw [e]
    refine ⟨by simp, by simp, fun r hr => ⟨_, rfl, ?_⟩⟩
    obtain rfl := Except.ok.inj (Rust.ok.inj hr)
    exact fraction_number hF hs (Or.inl rfl)
  · rw [actual_eq (Or.inr ⟨rfl, rfl⟩)]
    have e : (DayCount.act365 a b : Rust (QLabResult (Ieee F))) =
        .ok (.ok (Ieee.ofReal F false ((Date.sub b a : Int) : ℝ) / Ieee.ofReal F false ((365 : Int) : ℝ))) := rfl
    rw [e]
    refine ⟨by simp, by simp, fun r hr => ⟨_, rfl, ?_⟩⟩
    obtain rfl := Except.ok.inj (Rust.ok.inj hr)
    exact fraction_number hF hs (Or.inr rfl)
  · unfold DayCount.thirty360
    cases hd : DayCount.thirty360Diff oc a b with
    | panic => simp
    | ok q =>
      cases q with
      | error e => simp
      | ok n =>
        simp only [FromInt.fromInt, Rust.ok_bind, Rust.pure_eq]
        refine ⟨by simp, by simp, fun r hr => ⟨_, rfl, ?_⟩⟩
        obtain rfl := Except.ok.inj (Rust.ok.inj hr)
        rw [Fl.val_div, Fl.val_round, Fl.val_round, i360]
        exact fraction_number hF (thirty360_range hd) (Or.inl rfl)

/-- **C88.** In `f32` and `f64`, overflow and underflow included: the three day counts fail exactly when they fail in exact
arithmetic; otherwise the fraction is a finite number with a relative error of at most `3 u`, and of at most `u` when 365
times the fraction is at most `2 ^ prec` (in `f64`: always). -/
theorem C88_error (hF : 40 ≤ F.emax) {D : DayCount (Ieee F)} {E : DayCount ℝ} (h : SameDayCount D E) (a b : Date) :
    (∀ e, D a b = .ok (.error e) ↔ E a b = .ok (.error e)) ∧
    (D a b = .panic ↔ E a b = .panic) ∧
    (∀ r, E a b = .ok (.ok r) → ∃ t x, D a b = .ok (.ok t) ∧ IsNumber t x ∧ |x - r| ≤ 3 * roundoff F * |r| ∧
      (|r| * 365 ≤ 2 ^ F.prec → |x - r| ≤ roundoff F * |r|)) := by
  obtain ⟨G, h1, h2⟩ : ∃ G : DayCount (Fl F.arith), SameDayCount D G ∧ SameDayCount G E := by
    rcases h with ⟨rfl, rfl⟩ | ⟨rfl, rfl⟩ | ⟨oc, rfl, rfl⟩
    · exact ⟨DayCount.act360, Or.inl ⟨rfl, rfl⟩, Or.inl ⟨rfl, rfl⟩⟩
    · exact ⟨DayCount.act365, Or.inr (Or.inl ⟨rfl, rfl⟩), Or.inr (Or.inl ⟨rfl, rfl⟩)⟩
    · exact ⟨DayCount.thirty360 oc, Or.inr (Or.inr ⟨oc, rfl, rfl⟩), Or.inr (Or.inr ⟨oc, rfl, rfl⟩)⟩
  obtain ⟨a1, a2, a3⟩ := fraction_same hF h1 a b
  obtain ⟨b1, b2, b3⟩ := C72_error h2 a b
  refine ⟨fun e => (a1 e).trans (b1 e), a2.trans b2, fun r hr => ?_⟩
  obtain ⟨t, ht, he⟩ := b3 r hr
  obtain ⟨s, hs, hn⟩ := a3 t ht
  exact ⟨s, _, hs, hn, he⟩

/-- **C88.** Act/360 and Act/365: the comparisons of the computed fractions are those of the dates, and swapping the dates
changes the sign exactly. -/
theorem C88_order (hF : 40 ≤ F.emax) {D : DayCount (Ieee F)} {N : Int} (hD : IsActualDayCount D N) (a b c : Date) :
    ∃ tb tc s, D a b = .ok (.ok tb) ∧ D a c = .ok (.ok tc) ∧ D b a = .ok (.ok s) ∧
      (b ≤ c → tb ≤ tc) ∧ (0 < tb ↔ a < b) ∧ (IsNumber tb 0 ↔ a = b) ∧ (∀ x, IsNumber tb x → IsNumber s (-x)) ∧
      (29 ≤ F.prec → (tb < tc ↔ b < c)) := by
  obtain ⟨G, h1, hG⟩ : ∃ G : DayCount (Fl F.arith), SameDayCount D G ∧ IsActualDayCount G N := by
    rcases hD with ⟨rfl, hN⟩ | ⟨rfl, hN⟩
    · exact ⟨DayCount.act360, Or.inl ⟨rfl, rfl⟩, Or.inl ⟨rfl, hN⟩⟩
    · exact ⟨DayCount.act365, Or.inr (Or.inl ⟨rfl, rfl⟩), Or.inr ⟨rfl, hN⟩⟩
  obtain ⟨tb, tc, s, h2, h3, h4, h5, h6, h7, h8⟩ := C72_order hG a b c
  obtain ⟨tb', g2, n2⟩ := (fraction_same hF h1 a b).2.2 tb h2
  obtain ⟨tc', g3, n3⟩ := (fraction_same hF h1 a c).2.2 tc h3
  obtain ⟨s', g4, n4⟩ := (fraction_same hF h1 b a).2.2 s h4
  refine ⟨tb', tc', s', g2, g3, g4, fun h => (Ieee.le_number n2 n3).2 (h5 h), ?_, ?_, ?_, ?_⟩
  · rw [Ieee.lt_number Ieee.zero_number n2, ← h6]; rfl
  · rw [← h7]
    constructor
    · intro h
      ext
      exact Ieee.isNumber_inj n2 h
    · rintro rfl; exact n2
  · intro x hx
    rw [Ieee.isNumber_inj hx n2, ← Fl.val_neg, ← h8]
    exact n4
  · intro hp
    obtain ⟨tb2, tc2, k2, k3, k⟩ := C76_strict_f64_partial (A := F.arith) hp hG a b c
    rw [h2] at k2; rw [h3] at k3
    obtain rfl := Except.ok.inj (Rust.ok.inj k2)
    obtain rfl := Except.ok.inj (Rust.ok.inj k3)
    rw [Ieee.lt_number n2 n3, k]; rfl

/-- From 2024-01-01 to 2024-01-02, Act/365 in `f32`. -/
example : ∃ t x, (DayCount.act365 ⟨2024, 1, 1, by decide⟩ ⟨2024, 1, 2, by decide⟩ : Rust (QLabResult (Ieee .binary32))) =
    .ok (.ok t) ∧ IsNumber t x ∧ |x - 1 / 365| ≤ 3 * roundoff .binary32 * |1 / 365| := by
  obtain ⟨-, -, h⟩ := C88_error (F := .binary32) (by norm_num [IeeeFormat.binary32])
    (Or.inr (Or.inl ⟨rfl, rfl⟩) : SameDayCount (DayCount.act365 (V := Ieee .binary32)) (DayCount.act365 (V := ℝ)))
    ⟨2024, 1, 1, by decide⟩ ⟨2024, 1, 2, by decide⟩
  obtain ⟨t, x, h1, h2, h3, -⟩ := h (1 / 365) (by
    rw [act365_eq]
    have : Date.sub ⟨2024, 1, 2, by decide⟩ ⟨2024, 1, 1, by decide⟩ = 1 := by decide
    rw [this]; norm_num)
  exact ⟨t, x, h1, h2, h3⟩

example : ∃ tb tc : Ieee .binary64, DayCount.act360 ⟨2024, 1, 1, by decide⟩ ⟨2024, 1, 2, by decide⟩ = .ok (.ok tb) ∧
    DayCount.act360 ⟨2024, 1, 1, by decide⟩ ⟨2024, 1, 3, by decide⟩ = .ok (.ok tc) ∧ 0 < tb ∧ tb < tc := by
  obtain ⟨tb, tc, s, h1, h2, -, -, h5, -, -, h6⟩ := C88_order (F := .binary64) (by norm_num [IeeeFormat.binary64])
    (Or.inl ⟨rfl, rfl⟩ : IsActualDayCount (DayCount.act360 (V := Ieee .binary64)) 360)
    ⟨2024, 1, 1, by decide⟩ ⟨2024, 1, 2, by decide⟩ ⟨2024, 1, 3, by decide⟩
  exact ⟨tb, tc, h1, h2, h5.2 (by decide), (h6 (by norm_num [IeeeFormat.binary64])).2 (by decide)⟩

end Qlab.Props
