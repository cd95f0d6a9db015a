import Verif.Props.FloatDayCount
import Verif.Props.YieldCurve
import Verif.Props.FloatLinear

/-!
# Discount factors in floating-point arithmetic (C73)

The interpolator is arbitrary: the yields below are whatever it returns.
-/

namespace Qlab.Props

open Spec

variable {A : FloatArith} {I : Interpolator (Fl A)} {D : DayCount (Fl A)} (c : YieldCurve (Fl A) I)

/-- The shipped day counts give zero for equal dates. -/
theorem float_self (hD : IsShippedDayCount D) (s : Date) : D s s = .ok (.ok 0) := by
  have key : ∀ E : DayCount ℝ, SameDayCount D E → D s s = .ok (.ok 0) := by
    intro E hE
    have hs : IsShippedDayCount E := by
      rcases hE with ⟨-, rfl⟩ | ⟨-, rfl⟩ | ⟨oc, -, rfl⟩
      · exact Or.inl rfl
      · exact Or.inr (Or.inl rfl)
      · exact Or.inr (Or.inr ⟨oc, rfl⟩)
    obtain ⟨t, h1, h2, -⟩ := (C72_error hE s s).2.2 0 (shipped_self hs s)
    have : t = 0 := by
      ext
      rw [Fl.val_zero]
      simpa using h2
    rw [h1, this]
  rcases hD with rfl | rfl | ⟨oc, rfl⟩
  · exact key _ (Or.inl ⟨rfl, rfl⟩)
  · exact key _ (Or.inr (Or.inl ⟨rfl, rfl⟩))
  · exact key _ (Or.inr (Or.inr ⟨oc, rfl, rfl⟩))

/-- **C73.** The discount factor from a day to itself is exactly 1, not just close to 1. -/
theorem C73_unit (hD : IsShippedDayCount D) (h0 : A.exp 0 = 1) (d : Date) (v : Fl A)
    (h : c.discountFactor D d d = .ok (.ok v)) : v = 1 := by
  rw [C45_value_iff] at h
  obtain ⟨_, _, t2, y2, ht2, hy2, ⟨rfl, rfl⟩ | ⟨_, t1, y1, ht1, hy1, rfl⟩⟩ := h
  · rw [float_self hD] at ht2
    injection ht2 with ht2; injection ht2 with ht2
    subst ht2
    rw [Fl.neg_zero', Fl.zero_mul']
    ext
    rw [Fl.val_exp, Fl.val_zero, h0, Fl.val_one]
  · rw [ht1] at ht2
    injection ht2 with ht2; injection ht2 with ht2
    subst ht2
    rw [hy1] at hy2
    injection hy2 with hy2; injection hy2 with hy2
    subst hy2
    rw [Fl.sub_self']
    ext
    rw [Fl.val_exp, Fl.val_zero, h0, Fl.val_one]

/-- The exponent of a defined discount factor. -/
theorem float_exponent (hD : IsShippedDayCount D) {d1 d2 : Date} {v : Fl A} {z1 z2 : ℝ} (h1 : TimesYield D c d1 z1)
    (h2 : TimesYield D c d2 z2) (h : c.discountFactor D d1 d2 = .ok (.ok v)) :
    ∃ e : Fl A, v = HasExp.exp e ∧ e.val = A.fl (A.fl z1 - A.fl z2) := by
  have self0 : ∀ {t : Fl A}, D c.settlementDate c.settlementDate = .ok (.ok t) → t = 0 := by
    intro t ht
    rw [float_self hD] at ht
    injection ht with ht; injection ht with ht
    exact ht.symm
  rw [C45_value_iff] at h
  obtain ⟨hs, hd, t2, y2, ht2, hy2, hcase⟩ := h
  have e2 : z2 = t2.val * y2.val := by
    rcases h2 with ⟨rfl, rfl⟩ | ⟨t, y, ht, hy, rfl⟩
    · rw [self0 ht2, Fl.val_zero, zero_mul]
    · rw [ht2] at ht
      injection ht with ht; injection ht with ht
      subst ht
      rw [hy2] at hy
      injection hy with hy; injection hy with hy
      rw [hy]
  rcases hcase with ⟨rfl, rfl⟩ | ⟨hne, t1, y1, ht1, hy1, rfl⟩
  · have e1 : z1 = 0 := by
      rcases h1 with ⟨-, rfl⟩ | ⟨t, y, ht, hy, rfl⟩
      · rfl
      · rw [self0 ht, Fl.val_zero, zero_mul]
    refine ⟨_, rfl, ?_⟩
    rw [e1, e2, Fl.val_mul, Fl.val_neg, A.fl_zero, zero_sub, ← A.odd, A.idem, neg_mul]
  · have e1 : z1 = t1.val * y1.val := by
      rcases h1 with ⟨rfl, rfl⟩ | ⟨t, y, ht, hy, rfl⟩
      · exact absurd rfl hne
      · rw [ht1] at ht
        injection ht with ht; injection ht with ht
        subst ht
        rw [hy1] at hy
        injection hy with hy; injection hy with hy
        rw [hy]
    refine ⟨_, rfl, ?_⟩
    rw [e1, e2]
    rfl

/-- **C73.** Discount factors are never negative; and when time times yield does not fall from `d1` to `d2`, the
discount factor from `d1` to `d2` is at most 1, with no rounding allowance. -/
theorem C73_le_one (hE : ExpOrdered A) (hD : IsShippedDayCount D) (d1 d2 : Date) (v : Fl A) (z1 z2 : ℝ)
    (h1 : TimesYield D c d1 z1) (h2 : TimesYield D c d2 z2) (h : c.discountFactor D d1 d2 = .ok (.ok v)) :
    0 ≤ v ∧ (z1 ≤ z2 → v ≤ 1) := by
  obtain ⟨e, rfl, he⟩ := float_exponent c hD h1 h2 h
  refine ⟨?_, fun hle => ?_⟩
  · rw [Fl.le_iff, Fl.val_exp, Fl.val_zero]; exact hE.nonneg _
  · have h0 : e ≤ 0 := by
      rw [Fl.le_iff, he, Fl.val_zero]
      exact A.fl_nonpos (by linarith [A.mono hle])
    have := hE.mono _ _ h0
    rwa [Fl.val_zero, hE.zero] at this

/-- **C73.** The larger time times yield at the end date, the smaller the discount factor, with no rounding
allowance. -/
theorem C73_antitone (hE : ExpOrdered A) (hD : IsShippedDayCount D) (d1 d d' : Date) (v v' : Fl A) (z1 z z' : ℝ)
    (h1 : TimesYield D c d1 z1) (hz : TimesYield D c d z) (hz' : TimesYield D c d' z')
    (h : c.discountFactor D d1 d = .ok (.ok v)) (h' : c.discountFactor D d1 d' = .ok (.ok v')) (hle : z ≤ z') :
    v' ≤ v := by
  obtain ⟨e, rfl, he⟩ := float_exponent c hD h1 hz h
  obtain ⟨e', rfl, he'⟩ := float_exponent c hD h1 hz' h'
  refine hE.mono _ _ ?_
  rw [Fl.le_iff, he, he']
  exact A.mono (by linarith [A.mono hle])

/-- Rounding error of the exponent. -/
theorem exponent_error (z1 z2 : ℝ) :
    |A.fl (A.fl z1 - A.fl z2) - (z1 - z2)| ≤ 3 * unitRoundoff A * (|z1| + |z2|) := by
  have e1 := A.err' z1
  have e2 := A.err' z2
  have e3 := A.err' (A.fl z1 - A.fl z2)
  have hu0 := A.unit_pos
  have hu1 := A.unit_le
  generalize unitRoundoff A = u at *
  have b1 : |A.fl z1 - A.fl z2| ≤ 2 * (|z1| + |z2|) := by
    have a1 : A.fl z1 - A.fl z2 = (A.fl z1 - z1) - (A.fl z2 - z2) + (z1 - z2) := by ring
    have a2 := abs_add_le ((A.fl z1 - z1) - (A.fl z2 - z2)) (z1 - z2)
    have a3 := abs_sub (A.fl z1 - z1) (A.fl z2 - z2)
    have a4 := abs_sub z1 z2
    rw [a1]
    have a5 : u * |z1| ≤ |z1| := by nlinarith [abs_nonneg z1]
    have a6 : u * |z2| ≤ |z2| := by nlinarith [abs_nonneg z2]
    linarith
  have b2 : A.fl (A.fl z1 - A.fl z2) - (z1 - z2) =
    (A.fl (A.fl z1 - A.fl z2) - (A.fl z1 - A.fl z2)) + ((A.fl z1 - z1) - (A.fl z2 - z2)) := by ring
  rw [b2]
  have b3 := abs_add_le (A.fl (A.fl z1 - A.fl z2) - (A.fl z1 - A.fl z2)) ((A.fl z1 - z1) - (A.fl z2 - z2))
  have b4 := abs_sub (A.fl z1 - z1) (A.fl z2 - z2)
  have b5 : u * |A.fl z1 - A.fl z2| ≤ u * (2 * (|z1| + |z2|)) := mul_le_mul_of_nonneg_left b1 hu0.le
  linarith

/-- **C73.** Accuracy: with an `exp` of relative error at most `ε`, the discount factor is the exact
`exp (z1 - z2)` up to a factor `1 ± ε` and a change of the exponent by at most `3 u (|z1| + |z2|)`. -/
theorem C73_error (ε : ℝ) (hε : ExpWithin A ε) (h0 : 0 ≤ ε) (h1 : ε ≤ 1) (hD : IsShippedDayCount D) (d1 d2 : Date)
    (v : Fl A) (z1 z2 : ℝ) (hz1 : TimesYield D c d1 z1) (hz2 : TimesYield D c d2 z2)
    (h : c.discountFactor D d1 d2 = .ok (.ok v)) :
    (1 - ε) * Real.exp (z1 - z2 - 3 * unitRoundoff A * (|z1| + |z2|)) ≤ v.val ∧
    v.val ≤ (1 + ε) * Real.exp (z1 - z2 + 3 * unitRoundoff A * (|z1| + |z2|)) := by
  obtain ⟨e, rfl, he⟩ := float_exponent c hD hz1 hz2 h
  rw [Fl.val_exp]
  have hv := abs_le.1 (hε e)
  have hE : |e.val - (z1 - z2)| ≤ 3 * unitRoundoff A * (|z1| + |z2|) := by
    rw [he]; exact exponent_error z1 z2
  have hE' := abs_le.1 hE
  constructor
  · calc (1 - ε) * Real.exp (z1 - z2 - 3 * unitRoundoff A * (|z1| + |z2|)) ≤ (1 - ε) * Real.exp e.val :=
          mul_le_mul_of_nonneg_left (Real.exp_le_exp.2 (by linarith)) (by linarith)
      _ ≤ _ := by linarith
  · calc A.exp e.val ≤ (1 + ε) * Real.exp e.val := by linarith
      _ ≤ _ := mul_le_mul_of_nonneg_left (Real.exp_le_exp.2 (by linarith)) (by linarith)

/-! ## Binary formats meet the hypotheses -/

/-- A correctly rounded `exp` is ordered. -/
theorem binary_ordered (p : Nat) (hp : 24 ≤ p) : ExpOrdered (Binary.arith p hp) where
  zero := by
    show Binary.roundTo p (Real.exp 0) = 1
    rw [Real.exp_zero]
    have : (1 : ℤ) ≤ 2 ^ p := one_le_pow₀ (by norm_num)
    simpa using Binary.roundTo_rep (p := p) (by omega) 1 0 (by simpa using this)
  nonneg x := Binary.roundTo_nonneg p (Real.exp_pos x).le
  mono _ _ h := Binary.roundTo_mono (by omega) (Real.exp_le_exp.2 h)

/-- A correctly rounded `exp` has relative error at most the unit roundoff. -/
theorem binary_within (p : Nat) (hp : 24 ≤ p) : ExpWithin (Binary.arith p hp) (unitRoundoff (Binary.arith p hp)) := by
  intro a
  have := Binary.roundTo_err (p := p) (by omega) (Real.exp a.val)
  rwa [abs_of_pos (Real.exp_pos _)] at this

/-- An `f64` curve with yields 3 and 5 at times 0 and 1, linear. -/
noncomputable def sampleCurve : YieldCurve (Fl Binary.f64) (Interpolator.linear (Fl Binary.f64)) :=
  ⟨⟨2023, 1, 1, by decide⟩, ⟨[⟨i64 0, i64 3⟩, ⟨i64 1, i64 5⟩]⟩⟩

/-- A year after settlement, time times yield of the sample curve is 5. -/
theorem sample_times_yield : TimesYield DayCount.act365 sampleCurve ⟨2024, 1, 1, by decide⟩ 5 := by
  have hi : ∀ n : ℤ, |n| ≤ 2 ^ 53 → Binary.f64.fl n = n := Binary.f64.int
  have ht : DayCount.act365 (V := Fl Binary.f64) ⟨2023, 1, 1, by decide⟩ ⟨2024, 1, 1, by decide⟩ = .ok (.ok (i64 1)) := by
    rw [actual_eq (Or.inr ⟨rfl, rfl⟩),
      show Date.sub ⟨2024, 1, 1, by decide⟩ ⟨2023, 1, 1, by decide⟩ = 365 by decide, hi 365 (by norm_num)]
    unfold i64
    congr 3
    norm_num
  have hy := linear_eval (V := Fl Binary.f64) [(i64 0, i64 3), (i64 1, i64 5)] (by
    unfold StrictlyIncreasing
    simp only [List.pairwise_cons, List.mem_cons, List.not_mem_nil, or_false, forall_eq, Fl.lt_iff,
      i64_val 0 (by norm_num), i64_val 1 (by norm_num)]
    norm_num) 0 (i64 0) (i64 3) (i64 1) (i64 5) (i64 1) ⟨rfl, rfl⟩
    ((Fl.lt_iff _ _).2 (by rw [i64_val 0 (by norm_num), i64_val 1 (by norm_num)]; norm_num)) (le_refl _)
  refine Or.inr ⟨_, _, ht, hy, ?_⟩
  simp only [Fl.val_add, Fl.val_mul, Fl.val_div, Fl.val_sub, i64_val 0 (by norm_num), i64_val 1 (by norm_num),
    i64_val 3 (by norm_num), i64_val 5 (by norm_num)]
  have r1 : Binary.f64.fl (((5 : ℤ) : ℝ) - (3 : ℤ)) = 2 := by
    have := hi 2 (by norm_num); push_cast at this ⊢; convert this using 2; norm_num
  have r2 : Binary.f64.fl (((1 : ℤ) : ℝ) - (0 : ℤ)) = 1 := by
    have := hi 1 (by norm_num); push_cast at this ⊢; convert this using 2; norm_num
  have r3 : Binary.f64.fl (2 : ℝ) = 2 := by simpa using hi 2 (by norm_num)
  have r5 : Binary.f64.fl (5 : ℝ) = 5 := by simpa using hi 5 (by norm_num)
  rw [r1, r2, div_one, r3, mul_one, r3]
  norm_num
  exact r5.symm

/-- The discount factor over that year exists, lies between 0 and 1, and is accurate. -/
example : ∃ v, sampleCurve.discountFactor DayCount.act365 ⟨2023, 1, 1, by decide⟩ ⟨2024, 1, 1, by decide⟩ =
      .ok (.ok v) ∧ 0 ≤ v ∧ v ≤ 1 ∧ v.val ≤ (1 + (1 / 2) ^ 53) * Real.exp (-5 + 15 * (1 / 2) ^ 53) := by
  have hz1 : TimesYield DayCount.act365 sampleCurve ⟨2023, 1, 1, by decide⟩ 0 := Or.inl ⟨rfl, rfl⟩
  have hz2 := sample_times_yield
  obtain ⟨⟨h, -⟩ | ⟨t, y, ht, hy, -⟩⟩ : TimesYield DayCount.act365 sampleCurve ⟨2024, 1, 1, by decide⟩ 5 ∧ True :=
    ⟨hz2, trivial⟩
  · exact absurd (show (⟨2024, 1, 1, by decide⟩ : Date) = ⟨2023, 1, 1, by decide⟩ from h) (by decide)
  have h : sampleCurve.discountFactor DayCount.act365 ⟨2023, 1, 1, by decide⟩ ⟨2024, 1, 1, by decide⟩ =
      .ok (.ok (HasExp.exp (-t * y))) := by
    rw [C45_value_iff]
    exact ⟨by decide, by decide, t, y, ht, hy, Or.inl ⟨rfl, rfl⟩⟩
  have hD : IsShippedDayCount (DayCount.act365 (V := Fl Binary.f64)) := Or.inr (Or.inl rfl)
  have a := C73_le_one sampleCurve (binary_ordered 53 (by norm_num)) hD _ _ _ 0 5 hz1 hz2 h
  have b := C73_error sampleCurve _ (binary_within 53 (by norm_num)) (FloatArith.unit_pos _).le
    (le_trans (FloatArith.unit_le _) (by norm_num)) hD _ _ _ 0 5 hz1 hz2 h
  refine ⟨_, h, a.1, a.2 (by norm_num), le_trans b.2 (le_of_eq ?_)⟩
  show (1 + ((1 : ℝ) / 2) ^ 53) * Real.exp (0 - 5 + 3 * (1 / 2) ^ 53 * (|0| + |5|)) = _
  norm_num [abs_of_pos]

/-- Over no time it is exactly 1. -/
example (d : Date) (v : Fl Binary.f64) (h : sampleCurve.discountFactor DayCount.act365 d d = .ok (.ok v)) : v = 1 :=
  C73_unit sampleCurve (Or.inr (Or.inl rfl)) (binary_ordered 53 (by norm_num)).zero d v h

/-- The discount factor to the settlement date is not below the one to the end of the year. -/
example (v v' : Fl Binary.f64)
    (h : sampleCurve.discountFactor DayCount.act365 ⟨2023, 1, 1, by decide⟩ ⟨2023, 1, 1, by decide⟩ = .ok (.ok v))
    (h' : sampleCurve.discountFactor DayCount.act365 ⟨2023, 1, 1, by decide⟩ ⟨2024, 1, 1, by decide⟩ = .ok (.ok v')) :
    v' ≤ v :=
  C73_antitone sampleCurve (binary_ordered 53 (by norm_num)) (Or.inr (Or.inl rfl)) _ _ _ v v' 0 0 5 (Or.inl ⟨rfl, rfl⟩)
    (Or.inl ⟨rfl, rfl⟩) sample_times_yield h h' (by norm_num)

end Qlab.Props
