import Verif.Props.IeeeDayCount
import Verif.Props.IeeeLinear
import Verif.Props.FloatCurve
import Verif.Lemmas.IeeeExp

/-!
# Discount factors in the formats of IEEE 754 (C89)

The interpolator is arbitrary: the yields below are whatever it returns.
-/

namespace Qlab.Props

open Spec

variable {F : IeeeFormat} [HasExp (Ieee F)] {I : Interpolator (Ieee F)} {D : DayCount (Ieee F)} (c : YieldCurve (Ieee F) I)

omit [HasExp (Ieee F)] in
/-- The shipped day counts give zero for equal dates. -/
theorem ieee_self (hF : 40 ≤ F.emax) (hD : IsShippedDayCount D) (s : Date) :
    ∃ t, D s s = .ok (.ok t) ∧ IsNumber t 0 := by
  have key : ∀ E : DayCount (Fl F.arith), SameDayCount D E → IsShippedDayCount E → ∃ t, D s s = .ok (.ok t) ∧ IsNumber t 0 := by
    intro E hE hS
    obtain ⟨t, h1, h2⟩ := (fraction_same hF hE s s).2.2 0 (float_self hS s)
    exact ⟨t, h1, h2⟩
  rcases hD with rfl | rfl | ⟨oc, rfl⟩
  · exact key DayCount.act360 (Or.inl ⟨rfl, rfl⟩) (Or.inl rfl)
  · exact key DayCount.act365 (Or.inr (Or.inl ⟨rfl, rfl⟩)) (Or.inr (Or.inl rfl))
  · exact key (DayCount.thirty360 oc) (Or.inr (Or.inr ⟨oc, rfl, rfl⟩)) (Or.inr (Or.inr ⟨oc, rfl⟩))

omit [HasExp (Ieee F)] in
theorem half_range {z : ℝ} (h : |z| ≤ 2 ^ (F.emax - 1)) : |z| ≤ F.largest ∧ |F.round z| ≤ 2 ^ (F.emax - 1) := by
  have hp := F.prec_ge
  have he := F.emax_ge
  have e : F.round ((2 : ℝ) ^ (F.emax - 1)) = 2 ^ (F.emax - 1) := by
    have := F.pow_range ((F.emax - 1 : ℕ) : ℤ) (by unfold IeeeFormat.bottom; omega)
    rwa [zpow_natCast] at this
  refine ⟨le_trans h (le_trans (pow_le_pow_right₀ (by norm_num) (by omega)) F.largest_ge), ?_⟩
  have h' := abs_le.1 h
  have h1 := F.round_mono h'.1
  have h2 := F.round_mono h'.2
  rw [F.round_neg, e] at h1
  rw [e] at h2
  exact abs_le.2 ⟨h1, h2⟩

theorem double_half (F : IeeeFormat) : (2 : ℝ) ^ (F.emax - 1) + 2 ^ (F.emax - 1) ≤ F.largest := by
  have he := F.emax_ge
  have hp := F.prec_ge
  refine le_trans (le_of_eq ?_) F.largest_ge
  rw [← two_mul, ← pow_succ']
  congr 1; omega

omit [HasExp (Ieee F)] in
/-- A difference of products of numbers. -/
theorem products_number {t1 y1 t2 y2 : Ieee F} {a b a' b' : ℝ} (h1 : IsNumber t1 a) (h2 : IsNumber y1 b)
    (h3 : IsNumber t2 a') (h4 : IsNumber y2 b') (r1 : |a * b| ≤ 2 ^ (F.emax - 1)) (r2 : |a' * b'| ≤ 2 ^ (F.emax - 1)) :
    IsNumber (t1 * y1 - t2 * y2) (F.arith.fl (F.round (a * b) - F.round (a' * b'))) := by
  have m1 := Ieee.mul_round h1 h2 (half_range r1).1
  have m2 := Ieee.mul_round h3 h4 (half_range r2).1
  refine Ieee.sub_number m1 m2 (le_trans (abs_sub _ _) (le_trans ?_ (double_half F)))
  exact add_le_add (half_range r1).2 (half_range r2).2

/-- The exponent of a defined discount factor. -/
theorem ieee_exponent {d1 d2 : Date} {v : Ieee F} {z1 z2 : ℝ} (h1 : StartTimesYield D c d1 z1)
    (h2 : FiniteTimesYield D c d2 z2) (b1 : |z1| ≤ 2 ^ (F.emax - 1)) (b2 : |z2| ≤ 2 ^ (F.emax - 1))
    (h : c.discountFactor D d1 d2 = .ok (.ok v)) :
    ∃ e : Ieee F, v = HasExp.exp e ∧ IsNumber e (F.arith.fl (F.round z1 - F.round z2)) := by
  rw [C45_value_iff] at h
  obtain ⟨-, -, t2, y2, ht2, hy2, hcase⟩ := h
  obtain ⟨t, y, τ2, η2, ht, hy, nt2, ny2, rfl⟩ := h2
  rw [ht2] at ht
  obtain rfl := Except.ok.inj (Rust.ok.inj ht)
  rw [hy2] at hy
  obtain rfl := Except.ok.inj (Rust.ok.inj hy)
  rcases hcase with ⟨hs, rfl⟩ | ⟨hne, t1, y1, ht1, hy1, rfl⟩
  · rcases h1 with ⟨-, rfl⟩ | ⟨hne, -⟩
    · have n := Ieee.mul_round (Ieee.neg_number nt2) ny2 (by rw [neg_mul, abs_neg]; exact (half_range b2).1)
      refine ⟨_, rfl, ?_⟩
      rw [neg_mul, F.round_neg] at n
      rw [F.round_zero, zero_sub, F.arith.odd, F.fl_of_rep (F.round_idem _)]
      exact n
    · exact absurd hs hne
  · rcases h1 with ⟨hs, -⟩ | ⟨-, t, y, τ1, η1, ht, hy, nt1, ny1, rfl⟩
    · exact absurd hs hne
    · rw [ht1] at ht
      obtain rfl := Except.ok.inj (Rust.ok.inj ht)
      rw [hy1] at hy
      obtain rfl := Except.ok.inj (Rust.ok.inj hy)
      exact ⟨_, rfl, products_number nt1 ny1 nt2 ny2 b1 b2⟩

/-- **C89.** In `f32` and `f64` the discount factor from a day to itself is exactly 1, if time times yield does not
overflow.  Missing for the full property: yields that are not finite or so large that it does. -/
theorem C89_unit_partial (hF : 40 ≤ F.emax) (hE : IeeeExp F) (hD : IsShippedDayCount D) (d : Date) (v : Ieee F) (z : ℝ)
    (hz : FiniteTimesYield D c d z) (hb : |z| ≤ 2 ^ (F.emax - 1)) (h : c.discountFactor D d d = .ok (.ok v)) : v = 1 := by
  by_cases hs : d = c.settlementDate
  · have h0 : z = 0 := by
      obtain ⟨t, y, τ, η, ht, hy, nt, ny, rfl⟩ := hz
      obtain ⟨t', ht', n0⟩ := ieee_self hF hD c.settlementDate
      rw [hs, ht'] at ht
      obtain rfl := Except.ok.inj (Rust.ok.inj ht)
      rw [Ieee.isNumber_inj nt n0, zero_mul]
    obtain ⟨e, rfl, he⟩ := ieee_exponent c (Or.inl ⟨hs, rfl⟩) hz (by rw [abs_zero]; positivity) hb h
    refine hE.zero e ?_
    rwa [h0, sub_self, F.arith.fl_zero] at he
  · obtain ⟨e, rfl, he⟩ := ieee_exponent c (Or.inr ⟨hs, hz⟩) hz hb hb h
    refine hE.zero e ?_
    rwa [sub_self, F.arith.fl_zero] at he

/-- **C89.** Discount factors are never negative nor NaN; and when time times yield does not fall from `d1` to `d2`, the
discount factor from `d1` to `d2` is at most 1, with no rounding allowance.  Missing: as in `C89_unit_partial`. -/
theorem C89_le_one_partial (hE : IeeeExp F) (d1 d2 : Date) (v : Ieee F) (z1 z2 : ℝ) (h1 : StartTimesYield D c d1 z1)
    (h2 : FiniteTimesYield D c d2 z2) (b1 : |z1| ≤ 2 ^ (F.emax - 1)) (b2 : |z2| ≤ 2 ^ (F.emax - 1))
    (h : c.discountFactor D d1 d2 = .ok (.ok v)) : 0 ≤ v ∧ (z1 ≤ z2 → v ≤ 1) := by
  obtain ⟨e, rfl, he⟩ := ieee_exponent c h1 h2 b1 b2 h
  refine ⟨hE.nonneg e ?_, fun hle => ?_⟩
  · obtain ⟨_, _, _, rfl⟩ := he
    simp
  · have h0 : e ≤ 0 := by
      rw [Ieee.le_number he Ieee.zero_number]
      exact F.arith.fl_nonpos (by linarith [F.round_mono hle])
    have := hE.mono _ _ h0
    rwa [hE.zero 0 Ieee.zero_number] at this

/-- **C89.** The larger time times yield at the end date, the smaller the discount factor, with no rounding allowance.
Missing: as in `C89_unit_partial`. -/
theorem C89_antitone_partial (hE : IeeeExp F) (d1 d d' : Date) (v v' : Ieee F) (z1 z z' : ℝ)
    (h1 : StartTimesYield D c d1 z1) (hz : FiniteTimesYield D c d z) (hz' : FiniteTimesYield D c d' z')
    (b1 : |z1| ≤ 2 ^ (F.emax - 1)) (b2 : |z| ≤ 2 ^ (F.emax - 1)) (b3 : |z'| ≤ 2 ^ (F.emax - 1))
    (h : c.discountFactor D d1 d = .ok (.ok v)) (h' : c.discountFactor D d1 d' = .ok (.ok v')) (hle : z ≤ z') :
    v' ≤ v := by
  obtain ⟨e, rfl, he⟩ := ieee_exponent c h1 hz b1 b2 h
  obtain ⟨e', rfl, he'⟩ := ieee_exponent c h1 hz' b1 b3 h'
  refine hE.mono _ _ ?_
  rw [Ieee.le_number he' he]
  exact F.arith.mono (by linarith [F.round_mono hle])

/-- **C89.** Accuracy: with an `exp` of relative error at most `ε` on arguments up to `B`, and the exponent within `B`, the
discount factor is a finite number, the exact `exp (z1 - z2)` up to a factor `1 ± ε` and a change of the exponent by at most
`3 u (|z1| + |z2|)` and twice the smallest positive number.  Missing: as in `C89_unit_partial`. -/
theorem C89_error_partial (B ε : ℝ) (hε : IeeeExpWithin F B ε) (h0 : 0 ≤ ε) (h1 : ε ≤ 1) (d1 d2 : Date) (v : Ieee F)
    (z1 z2 : ℝ) (hz1 : StartTimesYield D c d1 z1) (hz2 : FiniteTimesYield D c d2 z2) (b1 : |z1| ≤ 2 ^ (F.emax - 1))
    (b2 : |z2| ≤ 2 ^ (F.emax - 1)) (hB : |z1 - z2| + (3 * roundoff F * (|z1| + |z2|) + 2 * smallest F) ≤ B)
    (h : c.discountFactor D d1 d2 = .ok (.ok v)) :
    ∃ r, IsNumber v r ∧
      (1 - ε) * Real.exp (z1 - z2 - (3 * roundoff F * (|z1| + |z2|) + 2 * smallest F)) ≤ r ∧
      r ≤ (1 + ε) * Real.exp (z1 - z2 + (3 * roundoff F * (|z1| + |z2|) + 2 * smallest F)) := by
  obtain ⟨e, rfl, he⟩ := ieee_exponent c hz1 hz2 b1 b2 h
  have hE : |F.arith.fl (F.round z1 - F.round z2) - (z1 - z2)| ≤ 3 * roundoff F * (|z1| + |z2|) + 2 * smallest F := by
    have e1 := F.round_err z1
    have e2 := F.round_err z2
    have e3 := F.arith.err' (F.round z1 - F.round z2)
    rw [F.unit_arith] at e3
    have hu0 : 0 < roundoff F := F.arith.unit_pos
    have hu1 : roundoff F ≤ 1 / 4 := le_trans F.arith.unit_le (by norm_num)
    have hs : 0 < smallest F := Binary.zpow_pos' _
    change _ ≤ _ + smallest F / 2 at e1 e2
    generalize roundoff F = u at *
    generalize smallest F = s at *
    generalize F.round z1 = x1 at *
    generalize F.round z2 = x2 at *
    generalize F.arith.fl (x1 - x2) = w at *
    have a1 : |x1 - x2| ≤ (1 + u) * (|z1| + |z2|) + s := by
      have a1 : x1 - x2 = (x1 - z1) - (x2 - z2) + (z1 - z2) := by ring
      have a2 := abs_add_le ((x1 - z1) - (x2 - z2)) (z1 - z2)
      have a3 := abs_sub (x1 - z1) (x2 - z2)
      have a4 := abs_sub z1 z2
      rw [a1]; nlinarith
    have b2 : w - (z1 - z2) = (w - (x1 - x2)) + ((x1 - z1) - (x2 - z2)) := by ring
    rw [b2]
    have b3 := abs_add_le (w - (x1 - x2)) ((x1 - z1) - (x2 - z2))
    have b4 := abs_sub (x1 - z1) (x2 - z2)
    have b5 := mul_le_mul_of_nonneg_left a1 hu0.le
    have b6 : 0 ≤ |z1| + |z2| := by positivity
    have b7 : u * u * (|z1| + |z2|) ≤ u * (|z1| + |z2|) := by nlinarith [mul_nonneg hu0.le b6]
    nlinarith
  have hE' := abs_le.1 hE
  generalize F.arith.fl (F.round z1 - F.round z2) = x at *
  have hx : |x| ≤ B := by
    refine le_trans ?_ hB
    have := abs_add_le (x - (z1 - z2)) (z1 - z2)
    rw [sub_add_cancel] at this
    linarith
  obtain ⟨r, hr, hv⟩ := hε e x he hx
  have hv := abs_le.1 hv
  refine ⟨r, hr, ?_, ?_⟩
  · calc _ ≤ (1 - ε) * Real.exp x := mul_le_mul_of_nonneg_left (Real.exp_le_exp.2 (by linarith)) (by linarith)
      _ ≤ _ := by linarith
  · calc r ≤ (1 + ε) * Real.exp x := by linarith
      _ ≤ _ := mul_le_mul_of_nonneg_left (Real.exp_le_exp.2 (by linarith)) (by linarith)

/-! ## A curve that meets the hypotheses -/

/-- An `f64` curve with yield 1 at times 0 and 1, linear. -/
noncomputable def ieeeCurve : YieldCurve (Ieee .binary64) (Interpolator.linear (Ieee .binary64)) :=
  ⟨⟨2023, 1, 1, by decide⟩, ⟨[⟨0, 1⟩, ⟨1, 1⟩]⟩⟩

/-- Up to a year after settlement, time times yield is the rounded number of days over 365. -/
theorem ieeeCurve_times_yield (d : Date) (h1 : (⟨2023, 1, 1, by decide⟩ : Date) < d) (h2 : d ≤ (⟨2024, 1, 1, by decide⟩ : Date)) :
    FiniteTimesYield DayCount.act365 ieeeCurve d
      (IeeeFormat.binary64.arith.fl (((Date.sub d ⟨2023, 1, 1, by decide⟩ : ℤ) : ℝ) / 365)) := by
  have hp : (2 : ℤ) ^ 24 ≤ 2 ^ IeeeFormat.binary64.arith.prec := pow_le_pow_right₀ (by norm_num) IeeeFormat.binary64.arith.prec_ge
  have f1 : IeeeFormat.binary64.arith.fl 1 = 1 := by simpa using IeeeFormat.binary64.arith.int 1 (le_trans (by norm_num) hp)
  obtain ⟨t, ht, nt⟩ := (fraction_same (F := .binary64) (by norm_num [IeeeFormat.binary64]) (Or.inr (Or.inl ⟨rfl, rfl⟩) :
      SameDayCount (DayCount.act365 (V := Ieee .binary64)) (DayCount.act365 (V := Fl IeeeFormat.binary64.arith)))
      ⟨2023, 1, 1, by decide⟩ d).2.2 _ (actual_eq (Or.inr ⟨rfl, rfl⟩) _ _)
  have k1 := (NaiveDate.lt_iff_serial _ _).1 h1
  have k2 := (NaiveDate.le_iff_serial _ _).1 h2
  obtain ⟨n, hn⟩ : ∃ n, Date.sub d ⟨2023, 1, 1, by decide⟩ = n := ⟨_, rfl⟩
  have hn' : 1 ≤ n ∧ n ≤ 365 := by
    have e : n = NaiveDate.numDaysFromCe d - NaiveDate.numDaysFromCe ⟨2023, 1, 1, by decide⟩ := hn.symm
    have e1 : NaiveDate.numDaysFromCe ⟨2023, 1, 1, by decide⟩ = 738521 := by decide
    have e2 : NaiveDate.numDaysFromCe ⟨2024, 1, 1, by decide⟩ = 738886 := by decide
    omega
  rw [Fl.val_round, hn, IeeeFormat.binary64.arith.int n (le_trans (by rw [abs_of_nonneg (by omega)]; omega) hp)] at nt
  rw [hn]
  have hn1 : (1 : ℝ) ≤ n := by exact_mod_cast hn'.1
  have hn2 : (n : ℝ) ≤ 365 := by exact_mod_cast hn'.2
  have g0 : 0 < IeeeFormat.binary64.arith.fl ((n : ℝ) / 365) := IeeeFormat.binary64.arith.fl_pos (by positivity)
  have g1 : IeeeFormat.binary64.arith.fl ((n : ℝ) / 365) ≤ 1 := by
    have := IeeeFormat.binary64.arith.mono (show (n : ℝ) / 365 ≤ 1 by rw [div_le_one (by norm_num)]; exact hn2)
    rwa [f1] at this
  push_cast at nt
  generalize IeeeFormat.binary64.arith.fl ((n : ℝ) / 365) = τ at *
  have hev := ieee_linear_eval [((0 : Ieee .binary64), (1 : Ieee .binary64)), (1, 1)]
    (by simp [StrictlyIncreasing, zero_lt_one']) (by simp [finite_zero_one]) 0 0 1 1 1 t ⟨_, nt⟩ ⟨rfl, rfl⟩
    ((Ieee.lt_number Ieee.zero_number nt).2 g0) ((Ieee.le_number nt Ieee.one_number).2 g1)
  rw [evaluate_linear] at hev
  refine ⟨t, _, τ, 1, ht, hev, nt, ?_, by norm_num⟩
  have one_le : (1 : ℝ) ≤ IeeeFormat.binary64.largest := le_trans (one_le_pow₀ (by norm_num)) IeeeFormat.binary64.largest_ge
  have L0 := IeeeFormat.binary64.largest_pos
  have i1 := Ieee.one_number (F := .binary64)
  have i0 := Ieee.zero_number (F := .binary64)
  have a1 := Ieee.sub_number i1 i1 (by rw [sub_self, abs_zero]; exact L0.le)
  have a2 := Ieee.sub_number i1 i0 (by rw [sub_zero, abs_one]; exact one_le)
  have a3 := Ieee.sub_number nt i0 (by rw [sub_zero, abs_of_pos g0]; linarith)
  rw [sub_self, IeeeFormat.binary64.arith.fl_zero] at a1
  rw [sub_zero, f1] at a2
  have a4 := Ieee.div_round a1 a2 one_ne_zero (by rw [zero_div, abs_zero]; exact L0.le)
  rw [zero_div, IeeeFormat.binary64.round_zero] at a4
  have a5 := Ieee.mul_round a4 a3 (by rw [zero_mul, abs_zero]; exact L0.le)
  rw [zero_mul, IeeeFormat.binary64.round_zero] at a5
  have a6 := Ieee.add_number i1 a5 (by rw [add_zero, abs_one]; exact one_le)
  rwa [add_zero, f1] at a6

/-- A year after settlement, time times yield is 1. -/
theorem ieeeCurve_year : FiniteTimesYield DayCount.act365 ieeeCurve ⟨2024, 1, 1, by decide⟩ 1 := by
  have h := ieeeCurve_times_yield ⟨2024, 1, 1, by decide⟩ (by decide) (by decide)
  have hp : (2 : ℤ) ^ 24 ≤ 2 ^ IeeeFormat.binary64.arith.prec := pow_le_pow_right₀ (by norm_num) IeeeFormat.binary64.arith.prec_ge
  have f1 : IeeeFormat.binary64.arith.fl 1 = 1 := by simpa using IeeeFormat.binary64.arith.int 1 (le_trans (by norm_num) hp)
  rwa [show Date.sub ⟨2024, 1, 1, by decide⟩ ⟨2023, 1, 1, by decide⟩ = 365 by decide,
    show (((365 : ℤ) : ℝ) / 365) = 1 by norm_num, f1] at h

/-- The theorems above apply to that curve with a correctly rounded `exp`. -/
theorem ieeeCurve_discount : letI := roundedExp .binary64
    ∃ v r, ieeeCurve.discountFactor DayCount.act365 ⟨2023, 1, 1, by decide⟩ ⟨2024, 1, 1, by decide⟩ = .ok (.ok v) ∧
      IsNumber v r ∧ 0 ≤ v ∧ v ≤ 1 ∧
      (1 - roundoff .binary64) * Real.exp (-1 - (3 * roundoff .binary64 + 2 * smallest .binary64)) ≤ r := by
  let _ := roundedExp .binary64
  have hz := ieeeCurve_year
  obtain ⟨t, y, τ, η, ht, hy, -⟩ := id hz
  have hv : ∃ v, ieeeCurve.discountFactor DayCount.act365 ⟨2023, 1, 1, by decide⟩ ⟨2024, 1, 1, by decide⟩ = .ok (.ok v) :=
    ⟨_, (C45_value_iff _ _ _ _ _).2 ⟨le_refl _, by decide, t, y, ht, hy, Or.inl ⟨rfl, rfl⟩⟩⟩
  obtain ⟨v, hv⟩ := hv
  have b0 : |(0 : ℝ)| ≤ 2 ^ (IeeeFormat.binary64.emax - 1) := by rw [abs_zero]; positivity
  have b1 : |(1 : ℝ)| ≤ 2 ^ (IeeeFormat.binary64.emax - 1) := by rw [abs_one]; exact one_le_pow₀ (by norm_num)
  obtain ⟨h1, h2⟩ := C89_le_one_partial ieeeCurve (roundedExp_sound .binary64) _ _ v 0 1 (Or.inl ⟨rfl, rfl⟩) hz b0 b1 hv
  have hu : roundoff .binary64 ≤ 1 := le_trans (IeeeFormat.binary64.arith.unit_le) (by norm_num)
  have hs : smallest .binary64 ≤ 1 := by
    unfold smallest
    exact zpow_le_one_of_nonpos₀ (by norm_num) (by norm_num [IeeeFormat.bottom, IeeeFormat.binary64])
  obtain ⟨r, hr, h3, -⟩ := C89_error_partial ieeeCurve 60 (roundoff .binary64)
    (roundedExp_within .binary64 (by norm_num [IeeeFormat.binary64])) (by unfold roundoff; positivity) hu _ _ v 0 1
    (Or.inl ⟨rfl, rfl⟩) hz b0 b1 (by norm_num; linarith) hv
  refine ⟨v, r, hv, hr, h1, h2 (by norm_num), ?_⟩
  simpa using h3

example : letI := roundedExp .binary64
    ieeeCurve.discountFactor DayCount.act365 ⟨2024, 1, 1, by decide⟩ ⟨2024, 1, 1, by decide⟩ = .ok (.ok 1) := by
  let _ := roundedExp .binary64
  have hz := ieeeCurve_year
  obtain ⟨t, y, τ, η, ht, hy, -⟩ := id hz
  have hv : ∃ v, ieeeCurve.discountFactor DayCount.act365 ⟨2024, 1, 1, by decide⟩ ⟨2024, 1, 1, by decide⟩ = .ok (.ok v) :=
    ⟨_, (C45_value_iff _ _ _ _ _).2 ⟨by decide, le_refl _, t, y, ht, hy, Or.inr ⟨by decide, t, y, ht, hy, rfl⟩⟩⟩
  obtain ⟨v, hv⟩ := hv
  rw [hv, C89_unit_partial ieeeCurve (by norm_num [IeeeFormat.binary64]) (roundedExp_sound .binary64) (Or.inr (Or.inl rfl)) _ v 1
    hz (by rw [abs_one]; exact one_le_pow₀ (by norm_num)) hv]

/-- The discount factor to the end of the year is at most that to any earlier day. -/
example : letI := roundedExp .binary64
    ∀ (d : Date) v v', (⟨2023, 1, 1, by decide⟩ : Date) < d → d ≤ (⟨2024, 1, 1, by decide⟩ : Date) →
      ieeeCurve.discountFactor DayCount.act365 ⟨2023, 1, 1, by decide⟩ d = .ok (.ok v) →
      ieeeCurve.discountFactor DayCount.act365 ⟨2023, 1, 1, by decide⟩ ⟨2024, 1, 1, by decide⟩ = .ok (.ok v') → v' ≤ v := by
  let _ := roundedExp .binary64
  intro d v v' h1 h2 h h'
  have b0 : |(0 : ℝ)| ≤ 2 ^ (IeeeFormat.binary64.emax - 1) := by rw [abs_zero]; positivity
  have b1 : |(1 : ℝ)| ≤ 2 ^ (IeeeFormat.binary64.emax - 1) := by rw [abs_one]; exact one_le_pow₀ (by norm_num)
  have hz := ieeeCurve_times_yield d h1 h2
  have e : 0 < IeeeFormat.binary64.arith.fl (((Date.sub d ⟨2023, 1, 1, by decide⟩ : ℤ) : ℝ) / 365) := by
    have : (0 : ℝ) < ((Date.sub d ⟨2023, 1, 1, by decide⟩ : ℤ) : ℝ) := by exact_mod_cast (C04_sub_pos _ _).2 h1
    exact IeeeFormat.binary64.arith.fl_pos (by positivity)
  have e' : IeeeFormat.binary64.arith.fl (((Date.sub d ⟨2023, 1, 1, by decide⟩ : ℤ) : ℝ) / 365) ≤ 1 := by
    have hp : (2 : ℤ) ^ 24 ≤ 2 ^ IeeeFormat.binary64.arith.prec := pow_le_pow_right₀ (by norm_num) IeeeFormat.binary64.arith.prec_ge
    have f1 : IeeeFormat.binary64.arith.fl 1 = 1 := by simpa using IeeeFormat.binary64.arith.int 1 (le_trans (by norm_num) hp)
    have k2 := (NaiveDate.le_iff_serial _ _).1 h2
    have : Date.sub d ⟨2023, 1, 1, by decide⟩ ≤ 365 := by
      have e : Date.sub d ⟨2023, 1, 1, by decide⟩ = NaiveDate.numDaysFromCe d - NaiveDate.numDaysFromCe ⟨2023, 1, 1, by decide⟩ := rfl
      have e1 : NaiveDate.numDaysFromCe ⟨2023, 1, 1, by decide⟩ = 738521 := by decide
      have e2 : NaiveDate.numDaysFromCe ⟨2024, 1, 1, by decide⟩ = 738886 := by decide
      omega
    have : ((Date.sub d ⟨2023, 1, 1, by decide⟩ : ℤ) : ℝ) ≤ 365 := by exact_mod_cast this
    have := IeeeFormat.binary64.arith.mono
      (show ((Date.sub d ⟨2023, 1, 1, by decide⟩ : ℤ) : ℝ) / 365 ≤ 1 by rw [div_le_one (by norm_num)]; exact this)
    rwa [f1] at this
  exact C89_antitone_partial ieeeCurve (roundedExp_sound .binary64) _ _ _ v v' 0 _ 1 (Or.inl ⟨rfl, rfl⟩) hz ieeeCurve_year b0
    (by rw [abs_of_pos e]; exact le_trans e' (by simpa using b1)) b1 h h' e'

/-! ## What goes wrong beyond -/

/-- The linear Act/365 curve with the largest finite yield at both pillars: time times yield is infinite from the first
pillar to the second. -/
theorem largest_curve (hF : 40 ≤ F.emax) : ∃ l : Ieee F, IsNumber l F.largest ∧
    ∃ c, YieldCurve.new DayCount.act365 (Interpolator.linear (Ieee F)) ⟨2023, 1, 1, by decide⟩
        [⟨2025, 1, 1, by decide⟩, ⟨2026, 1, 1, by decide⟩] [l, l] = .ok (.ok c) ∧
      c.settlementDate = ⟨2023, 1, 1, by decide⟩ ∧
      ∀ d : Date, (⟨2025, 1, 1, by decide⟩ : Date) ≤ d → d ≤ (⟨2026, 1, 1, by decide⟩ : Date) →
        ∃ t y, DayCount.act365 c.settlementDate d = .ok (.ok t) ∧
          (Interpolator.linear (Ieee F)).tryValue c.interpolator t = .ok (.ok y) ∧ t * y = .inf false := by
  set l : Ieee F := .fin false F.largest F.largest_pos.le F.largest_representable with hl
  have nl : IsNumber l F.largest := ⟨_, _, _, rfl⟩
  have hp : (2 : ℤ) ^ 24 ≤ 2 ^ F.arith.prec := pow_le_pow_right₀ (by norm_num) F.arith.prec_ge
  have frac : ∀ n : ℤ, |n| ≤ 2 ^ 20 → ∀ d, Date.sub d ⟨2023, 1, 1, by decide⟩ = n →
      ∃ t : Ieee F, DayCount.act365 ⟨2023, 1, 1, by decide⟩ d = .ok (.ok t) ∧ IsNumber t (F.arith.fl ((n : ℝ) / 365)) := by
    intro n hn d hd
    obtain ⟨t, h1, h2⟩ := (fraction_same hF (Or.inr (Or.inl ⟨rfl, rfl⟩) :
      SameDayCount (DayCount.act365 (V := Ieee F)) (DayCount.act365 (V := Fl F.arith))) ⟨2023, 1, 1, by decide⟩ d).2.2 _
      (actual_eq (Or.inr ⟨rfl, rfl⟩) _ _)
    refine ⟨t, h1, ?_⟩
    rw [Fl.val_round, hd, F.arith.int n (le_trans hn (le_trans (by norm_num) hp))] at h2
    exact_mod_cast h2
  obtain ⟨t1, ht1, n1⟩ := frac 731 (by norm_num) ⟨2025, 1, 1, by decide⟩ (by decide)
  obtain ⟨t2, ht2, n2⟩ := frac 1096 (by norm_num) ⟨2026, 1, 1, by decide⟩ (by decide)
  have g2 : F.arith.fl 2 = 2 := by simpa using F.arith.int 2 (le_trans (by norm_num) hp)
  have g3 : F.arith.fl 3 = 3 := by simpa using F.arith.int 3 (le_trans (by norm_num) hp)
  have q1 : 2 ≤ F.arith.fl (((731 : ℤ) : ℝ) / 365) := by
    have := F.arith.mono (show (2 : ℝ) ≤ ((731 : ℤ) : ℝ) / 365 by norm_num)
    rwa [g2] at this
  have q1' : F.arith.fl (((731 : ℤ) : ℝ) / 365) < 3 := by
    have u := F.arith.err' (((731 : ℤ) : ℝ) / 365)
    have u1 := F.arith.unit_le
    have u2 := (abs_le.1 u).2
    rw [abs_of_pos (by norm_num)] at u2
    have : unitRoundoff F.arith * (((731 : ℤ) : ℝ) / 365) ≤ 1 / 4 := by
      push_cast; linarith
    push_cast at *; linarith
  have q2 : 3 ≤ F.arith.fl (((1096 : ℤ) : ℝ) / 365) := by
    have := F.arith.mono (show (3 : ℝ) ≤ ((1096 : ℤ) : ℝ) / 365 by norm_num)
    rwa [g3] at this
  have q2' : F.arith.fl (((1096 : ℤ) : ℝ) / 365) ≤ 4 := by
    have g4 : F.arith.fl 4 = 4 := by simpa using F.arith.int 4 (le_trans (by norm_num) hp)
    have := F.arith.mono (show ((1096 : ℤ) : ℝ) / 365 ≤ 4 by norm_num)
    rwa [g4] at this
  have q3 : ∀ n : ℤ, 731 ≤ n → n ≤ 1096 → F.arith.fl (((731 : ℤ) : ℝ) / 365) ≤ F.arith.fl ((n : ℝ) / 365) ∧
      F.arith.fl ((n : ℝ) / 365) ≤ F.arith.fl (((1096 : ℤ) : ℝ) / 365) := by
    intro n h1 h2
    have h1 : ((731 : ℤ) : ℝ) ≤ n := by exact_mod_cast h1
    have h2 : (n : ℝ) ≤ ((1096 : ℤ) : ℝ) := by exact_mod_cast h2
    constructor <;> apply F.arith.mono <;> gcongr
  generalize F.arith.fl (((731 : ℤ) : ℝ) / 365) = τ1 at *
  generalize F.arith.fl (((1096 : ℤ) : ℝ) / 365) = τ2 at *
  have h12 : t1 < t2 := (Ieee.lt_number n1 n2).2 (by linarith)
  have big : (4 : ℝ) ≤ F.largest := by
    refine le_trans ?_ F.largest_ge
    calc (4 : ℝ) = 2 ^ 2 := by norm_num
      _ ≤ 2 ^ F.emax := pow_le_pow_right₀ (by norm_num) (by omega)
  have hs : StrictlyIncreasing [(t1, l), (t2, l)] := by simp [StrictlyIncreasing, h12]
  have hf : ∀ p ∈ [(t1, l), (t2, l)], IsFinite p.1 := by
    simp only [List.mem_cons, List.not_mem_nil, or_false, forall_eq_or_imp, forall_eq]
    exact ⟨⟨_, n1⟩, ⟨_, n2⟩⟩
  refine ⟨l, nl, ⟨⟨2023, 1, 1, by decide⟩, ⟨[⟨t1, l⟩, ⟨t2, l⟩]⟩⟩, ?_, rfl, ?_⟩
  · unfold YieldCurve.new
    rw [if_neg (by simp)]
    simp only [YieldCurve.fractions, ht1, ht2, Rust.ok_bind, Rust.pure_eq]
    rfl
  intro d hd1 hd2
  have k1 := (NaiveDate.le_iff_serial _ _).1 hd1
  have k2 := (NaiveDate.le_iff_serial _ _).1 hd2
  obtain ⟨n, hn⟩ : ∃ n, Date.sub d ⟨2023, 1, 1, by decide⟩ = n := ⟨_, rfl⟩
  have hn' : 731 ≤ n ∧ n ≤ 1096 := by
    have e : n = NaiveDate.numDaysFromCe d - NaiveDate.numDaysFromCe ⟨2023, 1, 1, by decide⟩ := hn.symm
    have e1 : NaiveDate.numDaysFromCe ⟨2023, 1, 1, by decide⟩ = 738521 := by decide
    have e2 : NaiveDate.numDaysFromCe ⟨2025, 1, 1, by decide⟩ = 739252 := by decide
    have e3 : NaiveDate.numDaysFromCe ⟨2026, 1, 1, by decide⟩ = 739617 := by decide
    omega
  obtain ⟨t, ht, nt⟩ := frac n (by rw [abs_of_nonneg (by omega)]; omega) d hn
  obtain ⟨p1, p2⟩ := q3 n hn'.1 hn'.2
  generalize F.arith.fl ((n : ℝ) / 365) = τ at *
  have hev : (Interpolator.linear (Ieee F)).tryValue ⟨[⟨t1, l⟩, ⟨t2, l⟩]⟩ t = .ok (.ok (l + (l - l) / (t2 - t1) * (t - t1))) := by
    rcases p1.eq_or_lt with p | p
    · subst p
      have e : t = t1 := by
        obtain ⟨s, h, r, rfl⟩ := nt
        obtain ⟨s', h', r', rfl⟩ := n1
        have : ∀ b : Bool, SignFits b τ1 → b = false := by
          intro b hb
          cases b with
          | false => rfl
          | true => exact absurd (show τ1 ≤ 0 from hb) (by linarith)
        obtain rfl := this s h
        obtain rfl := this s' h'
        rfl
      subst e
      have hev := ieee_linear_first t l t2 l [] hs hf
      rwa [evaluate_linear] at hev
    · have hev := ieee_linear_eval [(t1, l), (t2, l)] hs hf 0 t1 l t2 l t ⟨_, nt⟩ ⟨rfl, rfl⟩
        ((Ieee.lt_number n1 nt).2 p) ((Ieee.le_number nt n2).2 p2)
      rwa [evaluate_linear] at hev
  have ny : IsNumber (l + (l - l) / (t2 - t1) * (t - t1)) F.largest := by
    have L0 := F.largest_pos
    have a1 := Ieee.sub_number nl nl (by rw [sub_self, abs_zero]; exact L0.le)
    have a2 := Ieee.sub_number n2 n1 (by rw [abs_of_pos (by linarith)]; linarith)
    have a3 := Ieee.sub_number nt n1 (by rw [abs_of_nonneg (by linarith)]; linarith)
    rw [sub_self, F.arith.fl_zero] at a1
    have a4 := Ieee.div_round a1 a2 (F.arith.fl_pos (by linarith)).ne' (by rw [zero_div, abs_zero]; exact L0.le)
    rw [zero_div, F.round_zero] at a4
    have a5 := Ieee.mul_round a4 a3 (by rw [zero_mul, abs_zero]; exact L0.le)
    rw [zero_mul, F.round_zero] at a5
    have a6 := Ieee.add_number nl a5 (by rw [add_zero, abs_of_pos L0])
    rwa [add_zero, F.largest_rep] at a6
  refine ⟨t, _, ht, hev, ?_⟩
  generalize l + (l - l) / (t2 - t1) * (t - t1) = y at *
  obtain ⟨s, h, r, rfl⟩ := nt
  obtain ⟨s', h', r', rfl⟩ := ny
  have L0 := F.largest_pos
  have e : (.fin s τ h r * .fin s' F.largest h' r' : Ieee F) = Ieee.ofReal F (s ^^ s') (τ * F.largest) := rfl
  have r2 : F.round (F.largest + F.largest) = F.largest + F.largest := round_double_largest F
  have r3 : F.largest + F.largest ≤ F.round (τ * F.largest) := by
    rw [← r2]
    exact F.round_mono (by nlinarith)
  rw [e, Ieee.ofReal_inf (lt_of_lt_of_le (by linarith) (le_trans r3 (le_abs_self _)))]
  unfold Ieee.signOf
  have p : 0 < τ * F.largest := by nlinarith
  rw [if_neg p.ne']
  congr 1
  simpa using p.le

/-- On that curve, every discount factor between dates from the first pillar to the second is NaN. -/
theorem largest_curve_nan (hE : HasExp.exp (.nan : Ieee F) = .nan) {c : YieldCurve (Ieee F) (Interpolator.linear (Ieee F))}
    (hc : c.settlementDate = ⟨2023, 1, 1, by decide⟩)
    (h : ∀ d : Date, (⟨2025, 1, 1, by decide⟩ : Date) ≤ d → d ≤ (⟨2026, 1, 1, by decide⟩ : Date) →
        ∃ t y, DayCount.act365 c.settlementDate d = .ok (.ok t) ∧
          (Interpolator.linear (Ieee F)).tryValue c.interpolator t = .ok (.ok y) ∧ t * y = .inf false)
    (a b : Date) (ha : (⟨2025, 1, 1, by decide⟩ : Date) ≤ a) (hab : a ≤ b) (hb : b ≤ (⟨2026, 1, 1, by decide⟩ : Date)) :
    c.discountFactor DayCount.act365 a b = .ok (.ok .nan) := by
  obtain ⟨t1, y1, ht1, hy1, e1⟩ := h a ha (le_trans hab hb)
  obtain ⟨t2, y2, ht2, hy2, e2⟩ := h b (le_trans ha hab) hb
  rw [C45_value_iff]
  refine ⟨hc ▸ le_trans (by decide) ha, hab, t2, y2, ht2, hy2, Or.inr ⟨?_, t1, y1, ht1, hy1, ?_⟩⟩
  · rw [hc]
    rintro rfl
    exact absurd ha (by decide)
  have hn : (.inf false - .inf false : Ieee F) = .nan := rfl
  rw [e1, e2, hn, hE]

/-- **C89 (violated).** In every format: on the linear Act/365 curve with the largest finite yield at both pillars, the
discount factor from the first pillar to itself is NaN. -/
theorem C89_refuted (hF : 40 ≤ F.emax) (hE : HasExp.exp (.nan : Ieee F) = .nan) : ∃ l : Ieee F, IsNumber l F.largest ∧
    ∃ c, YieldCurve.new DayCount.act365 (Interpolator.linear (Ieee F)) ⟨2023, 1, 1, by decide⟩
        [⟨2025, 1, 1, by decide⟩, ⟨2026, 1, 1, by decide⟩] [l, l] = .ok (.ok c) ∧
      c.discountFactor DayCount.act365 ⟨2025, 1, 1, by decide⟩ ⟨2025, 1, 1, by decide⟩ = .ok (.ok .nan) := by
  obtain ⟨l, nl, c, hc, hs, h⟩ := largest_curve hF
  exact ⟨l, nl, c, hc, largest_curve_nan hE hs h _ _ (le_refl _) (le_refl _) (by decide)⟩

example : letI := roundedExp .binary32
    ∃ l c, YieldCurve.new DayCount.act365 (Interpolator.linear (Ieee .binary32)) ⟨2023, 1, 1, by decide⟩
        [⟨2025, 1, 1, by decide⟩, ⟨2026, 1, 1, by decide⟩] [l, l] = .ok (.ok c) ∧
      c.discountFactor DayCount.act365 ⟨2025, 1, 1, by decide⟩ ⟨2025, 1, 1, by decide⟩ = .ok (.ok .nan) := by
  let _ := roundedExp .binary32
  obtain ⟨l, -, c, h⟩ := C89_refuted (F := .binary32) (by norm_num [IeeeFormat.binary32]) rfl
  exact ⟨l, c, h⟩

/-- The discount factor over the year, on which `exp (-1)` is computed: it is at most 1 and close to `exp (-1)`. -/
example : letI := roundedExp .binary64
    ∀ v, ieeeCurve.discountFactor DayCount.act365 ⟨2023, 1, 1, by decide⟩ ⟨2024, 1, 1, by decide⟩ = .ok (.ok v) →
      (0 ≤ v ∧ v ≤ 1) ∧ ∃ r, IsNumber v r ∧ r ≤ (1 + roundoff .binary64) *
        Real.exp (0 - 1 + (3 * roundoff .binary64 * (|0| + |1|) + 2 * smallest .binary64)) := by
  let _ := roundedExp .binary64
  intro v h
  have b0 : |(0 : ℝ)| ≤ 2 ^ (IeeeFormat.binary64.emax - 1) := by rw [abs_zero]; positivity
  have b1 : |(1 : ℝ)| ≤ 2 ^ (IeeeFormat.binary64.emax - 1) := by rw [abs_one]; exact one_le_pow₀ (by norm_num)
  have a := C89_le_one_partial ieeeCurve (roundedExp_sound .binary64) _ _ v 0 1 (Or.inl ⟨rfl, rfl⟩) ieeeCurve_year b0 b1 h
  have hu : (0 : ℝ) < roundoff .binary64 := IeeeFormat.binary64.arith.unit_pos
  have hu1 : roundoff .binary64 ≤ 1 / 16777216 := IeeeFormat.binary64.arith.unit_le
  have sm : smallest .binary64 ≤ 1 := by
    unfold smallest
    rw [show (IeeeFormat.binary64.bottom : ℤ) = -1074 by decide]
    exact zpow_le_one_of_nonpos₀ (by norm_num) (by norm_num)
  obtain ⟨r, hr, -, hi⟩ := C89_error_partial ieeeCurve 60 _ (roundedExp_within .binary64 (by norm_num [IeeeFormat.binary64]))
    hu.le (by linarith) _ _ v 0 1 (Or.inl ⟨rfl, rfl⟩) ieeeCurve_year b0 b1 (by
      rw [zero_sub, abs_neg, abs_one, abs_zero]
      linarith) h
  exact ⟨⟨a.1, a.2 (by norm_num)⟩, r, hr, hi⟩

end Qlab.Props
