import Verif.Props.FloatCurve
import Verif.Props.BondValue

/-!
# Bond prices in floating-point arithmetic (C74)
-/

namespace Qlab.Props

open Spec

variable {A : FloatArith} {I : Interpolator (Fl A)} (D : DayCount (Fl A)) (c : YieldCurve (Fl A) I) (s : Date)

/-- Rounding error of the running total. -/
theorem fold_error (l : List (Fl A × BondCashFlow (Fl A))) (pv : Fl A) :
    |(l.foldl (fun acc p => acc + p.1 * p.2.paymentAmount) pv).val -
        (pv.val + (l.map fun p => p.1.val * p.2.paymentAmount.val).sum)| ≤
      ((1 + unitRoundoff A) ^ l.length - 1) * |pv.val| +
        ((1 + unitRoundoff A) ^ (l.length + 1) - 1) * (l.map fun p => |p.1.val * p.2.paymentAmount.val|).sum := by
  induction l generalizing pv with
  | nil => simp
  | cons p l ih =>
    simp only [List.foldl_cons, List.map_cons, List.sum_cons, List.length_cons]
    have h := ih (pv + p.1 * p.2.paymentAmount)
    rw [Fl.val_add, Fl.val_mul] at h
    generalize hR : (l.foldl (fun acc p => acc + p.1 * p.2.paymentAmount) (pv + p.1 * p.2.paymentAmount)).val = R at *
    have hS0 : 0 ≤ (l.map fun p => |p.1.val * p.2.paymentAmount.val|).sum :=
      List.sum_nonneg (by intro x hx; obtain ⟨q, -, rfl⟩ := List.mem_map.1 hx; exact abs_nonneg _)
    generalize (l.map fun p => p.1.val * p.2.paymentAmount.val).sum = S at *
    generalize (l.map fun p => |p.1.val * p.2.paymentAmount.val|).sum = T at *
    generalize l.length = m at *
    generalize p.1.val * p.2.paymentAmount.val = x at *
    generalize pv.val = q at *
    obtain ⟨d1, hd1, e1⟩ := A.fl_factor x
    rw [e1] at h
    obtain ⟨d2, hd2, e2⟩ := A.fl_factor (q + x * (1 + d1))
    rw [e2] at h
    have hu := A.unit_pos
    generalize unitRoundoff A = u at *
    have hP : 1 ≤ (1 + u) ^ m := one_le_pow₀ (by linarith)
    generalize hPm : (1 + u) ^ m = P at *
    have a1 : |1 + d1| ≤ 1 + u := by
      have := abs_add_le 1 d1; rw [abs_one] at this; linarith
    have a2 : |1 + d2| ≤ 1 + u := by
      have := abs_add_le 1 d2; rw [abs_one] at this; linarith
    have b1 : |(q + x * (1 + d1)) * (1 + d2)| ≤ (1 + u) * |q| + (1 + u) ^ 2 * |x| := by
      have t1 : |q + x * (1 + d1)| ≤ |q| + |x| * (1 + u) := by
        have := abs_add_le q (x * (1 + d1))
        rw [abs_mul x] at this
        have := mul_le_mul_of_nonneg_left a1 (abs_nonneg x)
        linarith
      rw [abs_mul]
      calc |q + x * (1 + d1)| * |1 + d2| ≤ (|q| + |x| * (1 + u)) * (1 + u) :=
            mul_le_mul t1 a2 (abs_nonneg _) (by positivity)
        _ = _ := by ring
    have b2 : |(q + x * (1 + d1)) * (1 + d2) - (q + x)| ≤ u * |q| + ((1 + u) ^ 2 - 1) * |x| := by
      have e : (q + x * (1 + d1)) * (1 + d2) - (q + x) = q * d2 + x * (d1 + d2 + d1 * d2) := by ring
      rw [e]
      have t1 := abs_add_le (q * d2) (x * (d1 + d2 + d1 * d2))
      rw [abs_mul, abs_mul] at t1
      have t2 : |d1 + d2 + d1 * d2| ≤ u + u + u * u := by
        have r1 := abs_add_le (d1 + d2) (d1 * d2)
        have r2 := abs_add_le d1 d2
        rw [abs_mul] at r1
        have r3 := mul_le_mul hd1 hd2 (abs_nonneg _) hu.le
        linarith
      have t3 := mul_le_mul_of_nonneg_left t2 (abs_nonneg x)
      have t4 := mul_le_mul_of_nonneg_left hd2 (abs_nonneg q)
      nlinarith
    have e : R - (q + (x + S)) =
        (R - ((q + x * (1 + d1)) * (1 + d2) + S)) + ((q + x * (1 + d1)) * (1 + d2) - (q + x)) := by ring
    rw [e]
    refine le_trans (abs_add_le _ _) ?_
    have h2 : (P - 1) * |(q + x * (1 + d1)) * (1 + d2)| ≤ (P - 1) * ((1 + u) * |q| + (1 + u) ^ 2 * |x|) :=
      mul_le_mul_of_nonneg_left b1 (by linarith)
    have p1 : (1 + u) ^ (m + 1) = P * (1 + u) := by rw [pow_succ, hPm]
    have p2 : (1 + u) ^ (m + 1 + 1) = P * (1 + u) ^ 2 := by rw [pow_succ, p1]; ring
    rw [p1] at h ⊢
    rw [p2]
    have h3 : 0 ≤ (P * (1 + u) ^ 2 - P * (1 + u)) * T := by
      refine mul_nonneg ?_ hS0
      have : P * (1 + u) ^ 2 - P * (1 + u) = P * (1 + u) * u := by ring
      rw [this]; positivity
    nlinarith

/-- **C74.** The floating-point price differs from the exact sum of discount factor times amount over the `n`
remaining flows by at most `(1 + u) ^ (n + 1) - 1` times the sum of the absolute terms. -/
theorem C74_error (b : Bond (Fl A)) (v : Fl A) (h : b.discountedValue D s c = .ok (.ok v)) :
    ∃ dfs, HasDiscounts D c s (remaining b s) dfs ∧
      |v.val - (List.zipWith (fun df g => df.val * g.paymentAmount.val) dfs (remaining b s)).sum| ≤
        ((1 + unitRoundoff A) ^ ((remaining b s).length + 1) - 1) *
          (List.zipWith (fun df g => |df.val * g.paymentAmount.val|) dfs (remaining b s)).sum := by
  obtain ⟨dfs, h1, rfl⟩ := (C52_fold D b s c v).1 h
  refine ⟨dfs, h1, ?_⟩
  have := fold_error (dfs.zip (remaining b s)) 0
  rw [Fl.val_zero, abs_zero, mul_zero, zero_add, zero_add] at this
  have hl : (dfs.zip (remaining b s)).length = (remaining b s).length := by
    rw [List.length_zip, List.Forall₂.length_eq h1, min_self]
  rw [hl] at this
  simpa only [List.zip, List.map_zipWith] using this

/-- **C74.** With no negative remaining amount, the price is not negative. -/
theorem C74_nonneg (hE : ∀ x, 0 ≤ A.exp x) (b : Bond (Fl A)) (v : Fl A) (h : b.discountedValue D s c = .ok (.ok v))
    (hb : ∀ g ∈ remaining b s, 0 ≤ g.paymentAmount) : 0 ≤ v := by
  obtain ⟨dfs, h1, rfl⟩ := (C52_fold D b s c v).1 h
  clear h
  generalize remaining b s = l at *
  have key : ∀ pv : Fl A, 0 ≤ pv → 0 ≤ (dfs.zip l).foldl (fun acc p => acc + p.1 * p.2.paymentAmount) pv := by
    induction h1 with
    | nil => exact fun _ h => h
    | @cons g df l dfs hr h1 ih =>
      intro pv hpv
      refine ih (fun g hg => hb g (by simp [hg])) _ ?_
      have hdf : 0 ≤ df.val := by
        rw [C45_value_iff] at hr
        obtain ⟨_, _, t2, y2, _, _, ⟨_, rfl⟩ | ⟨_, t1, y1, _, _, rfl⟩⟩ := hr
        · exact hE _
        · exact hE _
      exact A.fl_nonneg (add_nonneg hpv (A.fl_nonneg (mul_nonneg hdf (hb g (by simp)))))
  exact key 0 (le_refl _)

/-- **C74.** Raising discount factors, or amounts, or both, never lowers the floating-point price of a bond without
negative amounts: two bonds with the same dates, amounts compared flow by flow, discount factors compared date by
date. -/
theorem C74_monotone {I' : Interpolator (Fl A)} (D' : DayCount (Fl A)) (c' : YieldCurve (Fl A) I')
    (hE : ∀ x, 0 ≤ A.exp x) (b b' : Bond (Fl A)) (v v' : Fl A) (h : b.discountedValue D s c = .ok (.ok v))
    (h' : b'.discountedValue D' s c' = .ok (.ok v'))
    (hb : List.Forall₂ (fun g g' => g'.dueDate = g.dueDate ∧ g'.paymentDate = g.paymentDate ∧ 0 ≤ g.paymentAmount ∧
      g.paymentAmount ≤ g'.paymentAmount) b.bondCashFlows b'.bondCashFlows)
    (hd : ∀ g ∈ b.bondCashFlows, s < g.dueDate → ∀ df df', c.discountFactor D s g.paymentDate = .ok (.ok df) →
      c'.discountFactor D' s g.paymentDate = .ok (.ok df') → df ≤ df') : v ≤ v' := by
  unfold Bond.discountedValue at h h'
  generalize b.bondCashFlows = l at *
  generalize b'.bondCashFlows = l' at *
  have key : ∀ p p' : Fl A, p ≤ p' → Bond.pvLoop D s c p l = .ok (.ok v) → Bond.pvLoop D' s c' p' l' = .ok (.ok v') →
      v ≤ v' := by
    clear h h'
    induction hb with
    | nil =>
      intro p p' hp h h'
      simp only [Bond.pvLoop, Rust.ok.injEq, Except.ok.injEq] at h h'
      rwa [← h, ← h']
    | @cons g g' l l' hg hl ih =>
      intro p p' hp h h'
      obtain ⟨h1, h2, h3, h4⟩ := hg
      have ih := ih (fun g hg => hd g (by simp [hg]))
      rw [Bond.pvLoop] at h h'
      rw [h1, h2] at h'
      by_cases hdue : s < g.dueDate
      · rw [if_pos hdue] at h h'
        match hr : c.discountFactor D s g.paymentDate, hr' : c'.discountFactor D' s g.paymentDate with
        | .panic, _ => rw [hr] at h; simp at h
        | .ok (.error e), _ => rw [hr] at h; simp at h
        | .ok (.ok df), .panic => rw [hr'] at h'; simp at h'
        | .ok (.ok df), .ok (.error e) => rw [hr'] at h'; simp at h'
        | .ok (.ok df), .ok (.ok df') =>
          rw [hr] at h
          rw [hr'] at h'
          refine ih _ _ ?_ h h'
          have hle := hd g (by simp) hdue df df' hr hr'
          have hdf : 0 ≤ df.val := by
            rw [C45_value_iff] at hr
            obtain ⟨_, _, t2, y2, _, _, ⟨_, rfl⟩ | ⟨_, t1, y1, _, _, rfl⟩⟩ := hr
            · exact hE _
            · exact hE _
          refine A.mono (add_le_add hp (A.mono ?_))
          exact mul_le_mul hle h4 h3 (le_trans hdf hle)
      · rw [if_neg hdue] at h h'
        exact ih _ _ hp h h'
  exact key 0 0 (le_refl _) h h'

/-- A bond with one flow of 100 a year after settlement, priced on the sample curve. -/
noncomputable def sampleBond : Bond (Fl Binary.f64) :=
  ⟨"sample", [⟨⟨2024, 1, 1, by decide⟩, ⟨2024, 1, 1, by decide⟩, i64 100⟩]⟩

/-- Its price exists, is not negative, and meets the error bound with one flow. -/
example : ∃ v, sampleBond.discountedValue DayCount.act365 ⟨2023, 1, 1, by decide⟩ sampleCurve = .ok (.ok v) ∧ 0 ≤ v ∧
    ∃ df, sampleCurve.discountFactor DayCount.act365 ⟨2023, 1, 1, by decide⟩ ⟨2024, 1, 1, by decide⟩ = .ok (.ok df) ∧
      |v.val - df.val * 100| ≤ ((1 + (1 / 2) ^ 53) ^ 2 - 1) * |df.val * 100| := by
  obtain ⟨⟨h, -⟩ | ⟨t, y, ht, hy, -⟩⟩ : TimesYield DayCount.act365 sampleCurve ⟨2024, 1, 1, by decide⟩ 5 ∧ True :=
    ⟨sample_times_yield, trivial⟩
  · exact absurd (show (⟨2024, 1, 1, by decide⟩ : Date) = ⟨2023, 1, 1, by decide⟩ from h) (by decide)
  have h : sampleCurve.discountFactor DayCount.act365 ⟨2023, 1, 1, by decide⟩ ⟨2024, 1, 1, by decide⟩ =
      .ok (.ok (HasExp.exp (-t * y))) := by
    rw [C45_value_iff]
    exact ⟨by decide, by decide, t, y, ht, hy, Or.inl ⟨rfl, rfl⟩⟩
  have hrem : remaining sampleBond ⟨2023, 1, 1, by decide⟩ =
      [⟨⟨2024, 1, 1, by decide⟩, ⟨2024, 1, 1, by decide⟩, i64 100⟩] := by
    unfold remaining sampleBond
    exact List.filter_cons_of_pos (by decide)
  have hpv : sampleBond.discountedValue DayCount.act365 ⟨2023, 1, 1, by decide⟩ sampleCurve =
      .ok (.ok (0 + HasExp.exp (-t * y) * i64 100)) := by
    rw [C52_fold, hrem]
    exact ⟨[HasExp.exp (-t * y)], .cons h .nil, rfl⟩
  refine ⟨_, hpv, C74_nonneg (A := Binary.f64) _ _ _ (binary_ordered 53 (by norm_num)).nonneg _ _ hpv ?_, _, h, ?_⟩
  · rw [hrem]
    intro g hg
    simp only [List.mem_singleton] at hg
    subst hg
    rw [Fl.le_iff, Fl.val_zero, i64_val 100 (by norm_num)]
    norm_num
  · obtain ⟨dfs, h1, h2⟩ := C74_error _ _ _ _ _ hpv
    rw [hrem] at h1 h2
    cases h1 with
    | cons hr hnil =>
      cases hnil
      rw [show sampleCurve.discountFactor DayCount.act365 ⟨2023, 1, 1, by decide⟩ ⟨2024, 1, 1, by decide⟩ = _ from h] at hr
      injection hr with hr; injection hr with hr
      subst hr
      simpa [i64_val 100 (by norm_num), unitRoundoff, Binary.f64, Binary.arith] using h2

/-- A bond that pays twice as much is not worth less. -/
example (v v' : Fl Binary.f64) (h : sampleBond.discountedValue DayCount.act365 ⟨2023, 1, 1, by decide⟩ sampleCurve = .ok (.ok v))
    (h' : Bond.discountedValue DayCount.act365 ⟨"b", [⟨⟨2024, 1, 1, by decide⟩, ⟨2024, 1, 1, by decide⟩, i64 200⟩]⟩
      ⟨2023, 1, 1, by decide⟩ sampleCurve = .ok (.ok v')) : v ≤ v' := by
  refine C74_monotone (A := Binary.f64) _ _ _ _ _ (binary_ordered 53 (by norm_num)).nonneg _ _ v v' h h' ?_ ?_
  · refine .cons ⟨rfl, rfl, ?_, ?_⟩ .nil
    · rw [Fl.le_iff, Fl.val_zero, i64_val 100 (by norm_num)]
      norm_num
    · rw [Fl.le_iff, i64_val 100 (by norm_num), i64_val 200 (by norm_num)]
      norm_num
  · intro g _ _ df df' h1 h2
    rw [h1] at h2
    obtain rfl := Except.ok.inj (Rust.ok.inj h2)
    rw [Fl.le_iff]

end Qlab.Props
