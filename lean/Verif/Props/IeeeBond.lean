import Verif.Props.IeeeCurve
import Verif.Props.BondValue

/-!
# Bond prices in the formats of IEEE 754 (C90)
-/

namespace Qlab.Props

open Spec

variable {F : IeeeFormat}

theorem real_number {a : Ieee F} (h : IsFinite a) : IsNumber a (real a) := by
  obtain ⟨x, s, h, r, rfl⟩ := h
  exact ⟨s, h, r, rfl⟩

theorem real_eq {a : Ieee F} {x : ℝ} (h : IsNumber a x) : real a = x := Ieee.isNumber_inj (real_number ⟨x, h⟩) h

/-- Range of one step of the running total, over the reals. -/
theorem step_range {P u m w q x T L : ℝ} (hP : 1 ≤ P) (hu : 0 < u) (hm : 0 ≤ m) (hw : 0 < w) (hq : 0 ≤ q) (hx : 0 ≤ x)
    (hT : 0 ≤ T) (hr : P * (1 + u) * q + P * (1 + u) ^ 2 * (x + T) + (m + 1) * (P * (1 + u)) * w ≤ L) :
    x ≤ L ∧ (1 + u) * q + (1 + u) ^ 2 * x + (1 + u) * w ≤ L ∧
    P * ((1 + u) * q + (1 + u) ^ 2 * x + (1 + u) * w) + P * (1 + u) * T + m * P * w ≤ L := by
  have t1 : (1 + u) * q ≤ P * (1 + u) * q := mul_le_mul_of_nonneg_right (by nlinarith) hq
  have t2 : 0 ≤ P * (1 + u) ^ 2 * T := by positivity
  have t3 : (1 + u) ^ 2 * x ≤ P * (1 + u) ^ 2 * x :=
    mul_le_mul_of_nonneg_right (le_mul_of_one_le_left (by positivity) hP) hx
  have t4 : (1 + u) * w ≤ P * (1 + u) * w := mul_le_mul_of_nonneg_right (by nlinarith) hw.le
  have t5 : 0 ≤ m * (P * (1 + u)) * w := by positivity
  have t6 : x ≤ (1 + u) ^ 2 * x := le_mul_of_one_le_left hx (by nlinarith)
  have t7 : 0 ≤ (1 + u) * q := by positivity
  have t8 : 0 ≤ (1 + u) * w := by positivity
  have t9 : P * (1 + u) * T ≤ P * (1 + u) ^ 2 * T := by
    refine mul_le_mul_of_nonneg_right ?_ hT
    nlinarith [mul_pos (by linarith : 0 < P) hu]
  have t10 : m * P * w ≤ m * (P * (1 + u)) * w := by
    refine mul_le_mul_of_nonneg_right (mul_le_mul_of_nonneg_left ?_ hm) hw.le
    nlinarith
  have h2 : (1 + u) * q + (1 + u) ^ 2 * x + (1 + u) * w ≤ L := by linarith
  exact ⟨by linarith, h2, by linarith⟩

/-- Error of one step of the running total, over the reals. -/
theorem step_error {P u m w q x x' q' R S T : ℝ} (hP : 1 ≤ P) (hu : 0 < u) (hm : 0 ≤ m) (hw : 0 < w) (hT : 0 ≤ T)
    (h1 : |x' - x| ≤ u * |x| + w) (h2 : |q' - (q + x')| ≤ u * |q + x'|)
    (h3 : |R - (q' + S)| ≤ (P - 1) * |q'| + (P * (1 + u) - 1) * T + m * P * w) :
    |R - (q + (x + S))| ≤
      (P * (1 + u) - 1) * |q| + (P * (1 + u) ^ 2 - 1) * (|x| + T) + (m + 1) * (P * (1 + u)) * w := by
  have hx' : |x'| ≤ (1 + u) * |x| + w := by
    have := abs_add_le (x' - x) x
    rw [sub_add_cancel] at this
    linarith
  have hs : |q + x'| ≤ |q| + ((1 + u) * |x| + w) := le_trans (abs_add_le q x') (by linarith)
  have hq' : |q'| ≤ (1 + u) * (|q| + ((1 + u) * |x| + w)) := by
    have t1 := abs_add_le (q' - (q + x')) (q + x')
    rw [sub_add_cancel] at t1
    have t2 : (1 + u) * |q + x'| ≤ (1 + u) * (|q| + ((1 + u) * |x| + w)) := mul_le_mul_of_nonneg_left hs (by linarith)
    linarith
  have e : R - (q + (x + S)) = (R - (q' + S)) + ((q' - (q + x')) + (x' - x)) := by ring
  rw [e]
  refine le_trans (abs_add_le _ _) (le_trans (add_le_add_right (abs_add_le _ _) _) ?_)
  have c1 := mul_le_mul_of_nonneg_left hq' (by linarith : 0 ≤ P - 1)
  have c2 := mul_le_mul_of_nonneg_left hs hu.le
  have c3 : 0 ≤ P * (1 + u) * u * T := by positivity
  have c4 : 0 ≤ m * P * u * w := by positivity
  have e1 : (P * (1 + u) ^ 2 - 1) * (|x| + T) = (P * (1 + u) ^ 2 - 1) * |x| + (P * (1 + u) - 1) * T + P * (1 + u) * u * T := by
    ring
  have e2 : (m + 1) * (P * (1 + u)) * w = P * (1 + u) * w + m * P * w + m * P * u * w := by ring
  have e3 : (P - 1) * ((1 + u) * (|q| + ((1 + u) * |x| + w))) + u * (|q| + ((1 + u) * |x| + w)) + (u * |x| + w) =
      (P * (1 + u) - 1) * |q| + (P * (1 + u) ^ 2 - 1) * |x| + P * (1 + u) * w := by ring
  linarith

/-- Rounding and underflow error of the running total, if it stays in range. -/
theorem ieee_fold_error (l : List (Ieee F × BondCashFlow (Ieee F))) (pv : Ieee F) (hp : IsFinite pv)
    (hl : ∀ p ∈ l, IsFinite p.1 ∧ IsFinite p.2.paymentAmount)
    (hr : (1 + roundoff F) ^ l.length * |real pv| +
      (1 + roundoff F) ^ (l.length + 1) * (l.map fun p => |real p.1 * real p.2.paymentAmount|).sum +
      l.length * (1 + roundoff F) ^ l.length * (smallest F / 2) ≤ F.largest) :
    IsFinite (l.foldl (fun acc p => acc + p.1 * p.2.paymentAmount) pv) ∧
    |real (l.foldl (fun acc p => acc + p.1 * p.2.paymentAmount) pv) -
        (real pv + (l.map fun p => real p.1 * real p.2.paymentAmount).sum)| ≤
      ((1 + roundoff F) ^ l.length - 1) * |real pv| +
      ((1 + roundoff F) ^ (l.length + 1) - 1) * (l.map fun p => |real p.1 * real p.2.paymentAmount|).sum +
      l.length * (1 + roundoff F) ^ l.length * (smallest F / 2) := by
  induction l generalizing pv with
  | nil => simp [hp]
  | cons p l ih =>
    simp only [List.foldl_cons, List.map_cons, List.sum_cons, List.length_cons] at hr ⊢
    obtain ⟨hd, ha⟩ := hl p (by simp)
    have hS0 : 0 ≤ (l.map fun p => |real p.1 * real p.2.paymentAmount|).sum :=
      List.sum_nonneg (by intro x hx; obtain ⟨q, -, rfl⟩ := List.mem_map.1 hx; exact abs_nonneg _)
    have hu : 0 < roundoff F := F.arith.unit_pos
    have hs : 0 < smallest F / 2 := by have : 0 < smallest F := Binary.zpow_pos' _; linarith
    have hP : 1 ≤ (1 + roundoff F) ^ l.length := one_le_pow₀ (by linarith)
    have nd := real_number hd
    have na := real_number ha
    have np := real_number hp
    have hrnd := F.round_err (real p.1 * real p.2.paymentAmount)
    change _ ≤ _ + smallest F / 2 at hrnd
    have ih := ih (pv + p.1 * p.2.paymentAmount)
    generalize hS : (l.map fun p => real p.1 * real p.2.paymentAmount).sum = S at *
    generalize hT : (l.map fun p => |real p.1 * real p.2.paymentAmount|).sum = T at *
    generalize smallest F / 2 = w at *
    generalize hx : real p.1 * real p.2.paymentAmount = x at *
    have p1 : (1 + roundoff F) ^ (l.length + 1) = (1 + roundoff F) ^ l.length * (1 + roundoff F) := pow_succ _ _
    have p2 : (1 + roundoff F) ^ (l.length + 1 + 1) = (1 + roundoff F) ^ l.length * (1 + roundoff F) ^ 2 := by
      rw [pow_succ, p1]; ring
    rw [p1] at hr ih ⊢
    rw [p2] at hr ⊢
    generalize (1 + roundoff F) ^ l.length = P at *
    have hm : (0 : ℝ) ≤ (l.length : ℝ) := by positivity
    push_cast at hr ⊢
    generalize (l.length : ℝ) = m at *
    have hx0 := abs_nonneg x
    have hq0 := abs_nonneg (real pv)
    have e3 := fun z => F.arith.err' z
    simp only [F.unit_arith] at e3
    generalize roundoff F = u at *
    obtain ⟨hxl, k3, h1⟩ := step_range hP hu hm hs hq0 hx0 hS0 hr
    have nx : IsNumber (p.1 * p.2.paymentAmount) (F.round x) := by
      rw [← hx] at hxl ⊢
      exact Ieee.mul_round nd na hxl
    generalize F.round x = x' at *
    have hx' : |x'| ≤ (1 + u) * |x| + w := by
      have := abs_add_le (x' - x) x
      rw [sub_add_cancel] at this
      linarith
    have k2 : (1 + u) * (|real pv| + |x'|) ≤ (1 + u) * |real pv| + (1 + u) ^ 2 * |x| + (1 + u) * w := by
      have := mul_le_mul_of_nonneg_left hx' (by linarith : 0 ≤ 1 + u)
      linarith
    have k4 := abs_add_le (real pv) x'
    have k5 : |real pv + x'| ≤ (1 + u) * (|real pv| + |x'|) :=
      le_trans k4 (le_mul_of_one_le_left (by positivity) (by linarith))
    have nq := Ieee.add_number np nx (by linarith)
    have eq := e3 (real pv + x')
    have hq' : |F.arith.fl (real pv + x')| ≤ (1 + u) * (|real pv| + |x'|) := by
      have t1 := abs_add_le (F.arith.fl (real pv + x') - (real pv + x')) (real pv + x')
      rw [sub_add_cancel] at t1
      have t2 := mul_le_mul_of_nonneg_left k4 (by linarith : 0 ≤ 1 + u)
      linarith
    rw [real_eq nq] at ih
    generalize F.arith.fl (real pv + x') = q' at *
    have t1 := mul_le_mul_of_nonneg_left (le_trans hq' k2) (by linarith : 0 ≤ P)
    obtain ⟨f, hf⟩ := ih ⟨_, nq⟩ (fun p hp => hl p (by simp [hp])) (by linarith)
    exact ⟨f, step_error hP hu hm hs hS0 hrnd eq hf⟩

variable [HasExp (Ieee F)] {I : Interpolator (Ieee F)} (D : DayCount (Ieee F)) (c : YieldCurve (Ieee F) I) (s : Date)

/-- **C90.** In `f32` and `f64`, with finite amounts and finite discount factors whose products are well below the largest
number: the price is finite and differs from the exact sum over the `n` remaining flows by at most `(1 + u) ^ (n + 1) - 1`
times the sum of the absolute terms, plus half the smallest positive number, about, for each flow.  Missing for the full
property: larger terms, and infinite discount factors. -/
theorem C90_error_partial (b : Bond (Ieee F)) (v : Ieee F) (h : b.discountedValue D s c = .ok (.ok v))
    (ha : ∀ g ∈ remaining b s, IsFinite g.paymentAmount)
    (hd : ∀ g ∈ remaining b s, ∀ df, c.discountFactor D s g.paymentDate = .ok (.ok df) → IsFinite df) :
    ∃ dfs, HasDiscounts D c s (remaining b s) dfs ∧
      ∀ total, total = (List.zipWith (fun df g => |real df * real g.paymentAmount|) dfs (remaining b s)).sum →
      (1 + roundoff F) ^ ((remaining b s).length + 1) * (total + (remaining b s).length * smallest F) ≤ F.largest →
      ∃ r, IsNumber v r ∧
      |r - (List.zipWith (fun df g => real df * real g.paymentAmount) dfs (remaining b s)).sum| ≤
        ((1 + roundoff F) ^ ((remaining b s).length + 1) - 1) * total +
          (remaining b s).length * (1 + roundoff F) ^ (remaining b s).length * (smallest F / 2) := by
  obtain ⟨dfs, h1, rfl⟩ := (C52_fold D b s c v).1 h
  refine ⟨dfs, h1, ?_⟩
  rintro total rfl hr
  have hl : (dfs.zip (remaining b s)).length = (remaining b s).length := by
    rw [List.length_zip, List.Forall₂.length_eq h1, min_self]
  have hall : ∀ p ∈ dfs.zip (remaining b s), IsFinite p.1 ∧ IsFinite p.2.paymentAmount := by
    intro p hp
    refine ⟨?_, ha _ (List.of_mem_zip hp).2⟩
    obtain ⟨i, hi, e⟩ := List.getElem_of_mem hp
    rw [List.getElem_zip] at e
    rw [List.length_zip] at hi
    have := List.Forall₂.get h1 (i := i) (by omega) (by omega)
    have h2 := hd _ (List.getElem_mem (by omega)) _ this
    rw [← e]
    exact h2
  have key := ieee_fold_error (dfs.zip (remaining b s)) 0 ⟨0, Ieee.zero_number⟩ hall
  rw [real_eq Ieee.zero_number, abs_zero, mul_zero, mul_zero, zero_add, zero_add, zero_add, hl] at key
  simp only [List.zip, List.map_zipWith] at key
  have hu : 0 < roundoff F := F.arith.unit_pos
  have hsm : 0 < smallest F := Binary.zpow_pos' _
  obtain ⟨k1, k2⟩ := key (by
    refine le_trans ?_ hr
    generalize (List.zipWith (fun df g => |real df * real g.paymentAmount|) dfs (remaining b s)).sum = T
    have hm : (0 : ℝ) ≤ ((remaining b s).length : ℝ) := by positivity
    have hP : 1 ≤ (1 + roundoff F) ^ (remaining b s).length := one_le_pow₀ (by linarith)
    rw [pow_succ]
    generalize ((remaining b s).length : ℝ) = m at *
    generalize (1 + roundoff F) ^ (remaining b s).length = P at *
    have t1 : 0 ≤ m * P * smallest F := by positivity
    have t2 : 0 ≤ m * P * smallest F * roundoff F := by positivity
    nlinarith)
  exact ⟨_, real_number k1, k2⟩

/-! ## Never NaN, never negative -/

omit [HasExp (Ieee F)] in
theorem nonneg_cases {a : Ieee F} (h : 0 ≤ a) : a = .inf false ∨ ∃ x, IsNumber a x ∧ 0 ≤ x := by
  match a with
  | .nan => exact absurd h Ieee.not_le_nan
  | .inf false => exact Or.inl rfl
  | .inf true => exact absurd h (Ieee.not_le_negInf Ieee.zero_number)
  | .fin s x hs r => exact Or.inr ⟨x, ⟨_, _, _, rfl⟩, (Ieee.le_number Ieee.zero_number ⟨_, _, _, rfl⟩).1 h⟩

omit [HasExp (Ieee F)] in
theorem ofReal_nonneg {x : ℝ} (h : 0 ≤ x) (s : Bool) : 0 ≤ Ieee.ofReal F s x := by
  rcases h.eq_or_lt with rfl | h
  · have := Ieee.ofReal_number (F := F) (s := s) (x := 0) (by rw [F.round_zero, abs_zero]; exact F.largest_pos.le)
    rw [F.round_zero] at this
    exact (Ieee.le_number Ieee.zero_number this).2 le_rfl
  · rcases Ieee.ofReal_pos_cases (F := F) h s with h1 | ⟨-, h1⟩
    · rw [Ieee.le_number Ieee.zero_number h1]; exact F.round_nonneg h.le
    · rw [h1]; exact Ieee.le_posInf (by intro h; cases h)

omit [HasExp (Ieee F)] in
theorem ieee_add_nonneg {a b : Ieee F} (ha : 0 ≤ a) (hb : 0 ≤ b) : 0 ≤ a + b := by
  rcases nonneg_cases ha with rfl | ⟨x, ⟨s, h, r, rfl⟩, hx⟩ <;> rcases nonneg_cases hb with rfl | ⟨y, ⟨t, h', r', rfl⟩, hy⟩
  · exact ha
  · exact ha
  · exact hb
  · exact ofReal_nonneg (add_nonneg hx hy) _

omit [HasExp (Ieee F)] in
theorem ieee_mul_nonneg {d a : Ieee F} (hd : 0 ≤ d) (ha : 0 ≤ a) (hf : IsFinite a) (h : 0 < a ∨ IsFinite d) : 0 ≤ d * a := by
  obtain ⟨y, t, h', r', rfl⟩ := hf
  have hy : 0 ≤ y := (Ieee.le_number Ieee.zero_number ⟨_, _, _, rfl⟩).1 ha
  rcases nonneg_cases hd with rfl | ⟨x, ⟨s, hs, r, rfl⟩, hx⟩
  · have hy : 0 < y := by
      rcases h with h | ⟨x, _, _, _, h⟩
      · exact (Ieee.lt_number Ieee.zero_number ⟨_, _, _, rfl⟩).1 h
      · cases h
    change 0 ≤ (if y = 0 then (.nan : Ieee F) else .inf (false ^^ t))
    rw [if_neg hy.ne']
    have : t = false := by
      cases t with
      | false => rfl
      | true => exact absurd h' (not_le.2 hy)
    subst this
    exact hd
  · exact ofReal_nonneg (mul_nonneg hx hy) _

/-- **C90.** With finite amounts, none negative, and no discount factor negative or NaN, and each amount positive or its
discount factor finite: the price is not negative, and not NaN.  It may be infinite. -/
theorem C90_nonneg_partial (b : Bond (Ieee F)) (v : Ieee F) (h : b.discountedValue D s c = .ok (.ok v))
    (ha : ∀ g ∈ remaining b s, IsFinite g.paymentAmount ∧ 0 ≤ g.paymentAmount)
    (hd : ∀ g ∈ remaining b s, ∀ df, c.discountFactor D s g.paymentDate = .ok (.ok df) →
      0 ≤ df ∧ (0 < g.paymentAmount ∨ IsFinite df)) : 0 ≤ v ∧ v ≠ .nan := by
  have key : 0 ≤ v := by
    obtain ⟨dfs, h1, rfl⟩ := (C52_fold D b s c v).1 h
    clear h
    generalize remaining b s = l at *
    have key : ∀ pv : Ieee F, 0 ≤ pv → 0 ≤ (dfs.zip l).foldl (fun acc p => acc + p.1 * p.2.paymentAmount) pv := by
      induction h1 with
      | nil => exact fun _ h => h
      | @cons g df l dfs hr h1 ih =>
        intro pv hpv
        simp only [List.zip_cons_cons, List.foldl_cons]
        refine ih (fun g hg => ha g (by simp [hg])) (fun g hg => hd g (by simp [hg])) _ ?_
        obtain ⟨a1, a2⟩ := ha g (by simp)
        obtain ⟨d1, d2⟩ := hd g (by simp) df hr
        exact ieee_add_nonneg hpv (ieee_mul_nonneg d1 a2 a1 d2)
    exact key 0 ((Ieee.le_number Ieee.zero_number Ieee.zero_number).2 le_rfl)
  refine ⟨key, ?_⟩
  rintro rfl
  exact Ieee.not_le_nan key

/-- Both theorems apply to a payment of 1 a year after settlement, on the curve of `IeeeCurve`, in `f64`. -/
example : letI := roundedExp .binary64
    ∃ (b : Bond (Ieee .binary64)) (v : Ieee .binary64) (r : ℝ),
      (remaining b ⟨2023, 1, 1, by decide⟩).length = 1 ∧
      b.discountedValue DayCount.act365 ⟨2023, 1, 1, by decide⟩ ieeeCurve = .ok (.ok v) ∧ IsNumber v r ∧ 0 ≤ v ∧ v ≠ .nan ∧
      r ≤ 2 := by
  let _ := roundedExp .binary64
  obtain ⟨df, q, h1, h2, h3, h4, -⟩ := ieeeCurve_discount
  have q0 : 0 ≤ q := (Ieee.le_number Ieee.zero_number h2).1 h3
  have q1 : q ≤ 1 := (Ieee.le_number h2 Ieee.one_number).1 h4
  set b : Bond (Ieee .binary64) := ⟨"b", [⟨⟨2024, 1, 1, by decide⟩, ⟨2024, 1, 1, by decide⟩, 1⟩]⟩
  have hrem : remaining b ⟨2023, 1, 1, by decide⟩ = [⟨⟨2024, 1, 1, by decide⟩, ⟨2024, 1, 1, by decide⟩, 1⟩] := by
    simp [remaining, b, show (⟨2023, 1, 1, by decide⟩ : Date) < ⟨2024, 1, 1, by decide⟩ by decide]
  have hv : b.discountedValue DayCount.act365 ⟨2023, 1, 1, by decide⟩ ieeeCurve = .ok (.ok (0 + df * 1)) := by
    rw [C52_fold, hrem]
    exact ⟨[df], .cons h1 .nil, rfl⟩
  have ha : ∀ g ∈ remaining b ⟨2023, 1, 1, by decide⟩, IsFinite g.paymentAmount ∧ 0 < g.paymentAmount := by
    rw [hrem]
    simpa using ⟨finite_zero_one.2, zero_lt_one'⟩
  have hd : ∀ g ∈ remaining b ⟨2023, 1, 1, by decide⟩, ∀ d,
      ieeeCurve.discountFactor DayCount.act365 ⟨2023, 1, 1, by decide⟩ g.paymentDate = .ok (.ok d) → d = df := by
    rw [hrem]
    intro g hg d h
    obtain rfl := List.mem_singleton.1 hg
    rw [h1] at h
    cases h
    rfl
  obtain ⟨n1, n2⟩ := C90_nonneg_partial _ ieeeCurve _ b _ hv (fun g hg => ⟨(ha g hg).1, Ieee.le_of_lt' (ha g hg).2⟩)
    fun g hg d h => hd g hg d h ▸ ⟨h3, Or.inl (ha g hg).2⟩
  obtain ⟨dfs, e1, e2⟩ := C90_error_partial _ ieeeCurve _ b _ hv (fun g hg => (ha g hg).1)
    fun g hg d h => hd g hg d h ▸ ⟨_, h2⟩
  rw [hrem] at e1 e2
  cases e1 with
  | @cons _ d _ _ e1 e1' =>
    cases e1'
    rw [h1] at e1
    cases e1
    simp only [List.zipWith_cons_cons, List.zipWith_nil_right, List.sum_cons, List.sum_nil, add_zero, real_eq h2,
      real_eq Ieee.one_number, mul_one, List.length_singleton] at e2
    have hu : roundoff .binary64 ≤ 1 / 4 := le_trans (IeeeFormat.binary64.arith.unit_le) (by norm_num)
    have hu0 : 0 < roundoff .binary64 := IeeeFormat.binary64.arith.unit_pos
    have hs : smallest .binary64 ≤ 1 / 2 := by
      unfold smallest
      calc (2 : ℝ) ^ IeeeFormat.binary64.bottom ≤ 2 ^ (-1 : ℤ) :=
            zpow_le_zpow_right₀ (by norm_num) (by norm_num [IeeeFormat.bottom, IeeeFormat.binary64])
        _ = 1 / 2 := by norm_num
    have hs0 : 0 < smallest .binary64 := Binary.zpow_pos' _
    have big : (4 : ℝ) ≤ IeeeFormat.binary64.largest := by
      refine le_trans ?_ IeeeFormat.binary64.largest_ge
      calc (4 : ℝ) = 2 ^ 2 := by norm_num
        _ ≤ 2 ^ IeeeFormat.binary64.emax := pow_le_pow_right₀ (by norm_num) (by norm_num [IeeeFormat.binary64])
    obtain ⟨r, hr, hb⟩ := e2 q (abs_of_nonneg q0).symm (by
      refine le_trans ?_ big
      push_cast
      nlinarith)
    refine ⟨b, _, r, by rw [hrem]; rfl, hv, hr, n1, n2, ?_⟩
    have := (abs_le.1 hb).2
    push_cast at this
    nlinarith

/-! ## What goes wrong beyond -/

/-- **C90 (violated).** In every format: on the linear Act/365 curve with the largest finite yield at both pillars, the price
on the first pillar is NaN for every bond with flows left, all paid by the second pillar, whatever their amounts. -/
theorem C90_refuted (hF : 40 ≤ F.emax) (hE : HasExp.exp (.nan : Ieee F) = .nan) : ∃ l : Ieee F, IsNumber l F.largest ∧
    ∃ c, YieldCurve.new DayCount.act365 (Interpolator.linear (Ieee F)) ⟨2023, 1, 1, by decide⟩
        [⟨2025, 1, 1, by decide⟩, ⟨2026, 1, 1, by decide⟩] [l, l] = .ok (.ok c) ∧
      ∀ b : Bond (Ieee F), remaining b ⟨2025, 1, 1, by decide⟩ ≠ [] →
        (∀ g ∈ remaining b ⟨2025, 1, 1, by decide⟩, (⟨2025, 1, 1, by decide⟩ : Date) ≤ g.paymentDate ∧
          g.paymentDate ≤ (⟨2026, 1, 1, by decide⟩ : Date)) →
        b.discountedValue DayCount.act365 ⟨2025, 1, 1, by decide⟩ c = .ok (.ok .nan) := by
  obtain ⟨l, nl, c, hc, hs, h⟩ := largest_curve hF
  refine ⟨l, nl, c, hc, fun b hne hb => ?_⟩
  rw [C52_fold]
  generalize remaining b ⟨2025, 1, 1, by decide⟩ = rs at *
  have nan_mul : ∀ x : Ieee F, .nan * x = .nan := fun x => by cases x <;> rfl
  have add_nan : ∀ x : Ieee F, x + .nan = .nan := fun x => by cases x <;> rfl
  refine ⟨rs.map fun _ => .nan, ?_, ?_⟩
  · clear hne
    induction rs with
    | nil => exact .nil
    | cons g rs ih =>
      refine .cons ?_ (ih fun g hg => hb g (by simp [hg]))
      obtain ⟨h1, h2⟩ := hb g (by simp)
      exact largest_curve_nan hE hs h _ _ (le_refl _) h1 h2
  · have key : ∀ rs : List (BondCashFlow (Ieee F)),
        ((rs.map fun _ => (.nan : Ieee F)).zip rs).foldl (fun acc p => acc + p.1 * p.2.paymentAmount) .nan = .nan := by
      intro rs
      induction rs with
      | nil => rfl
      | cons g rs ih =>
        simp only [List.map_cons, List.zip_cons_cons, List.foldl_cons]
        rwa [nan_mul, add_nan]
    cases rs with
    | nil => exact absurd rfl hne
    | cons g rs =>
      simp only [List.map_cons, List.zip_cons_cons, List.foldl_cons]
      rw [nan_mul, add_nan, key]

/-- A bond with one regular coupon before maturity, over any number type. -/
theorem one_coupon_bond {V : Type} [Add V] [Mul V] [Div V] [FromInt V] (q rate face : V) (hq : FromInt.fromInt (V := V) 2 = some q) :
    Bond.new "b" ⟨2024, 7, 1, by decide⟩ ⟨2025, 1, 1, by decide⟩ ⟨2025, 1, 1, by decide⟩ ⟨2025, 7, 1, by decide⟩ .sa rate face =
      .ok (some ⟨"b", [⟨⟨2025, 1, 1, by decide⟩, ⟨2025, 1, 1, by decide⟩, rate * face / q⟩,
        ⟨⟨2025, 7, 1, by decide⟩, ⟨2025, 7, 1, by decide⟩, face + rate * face / q⟩]⟩) := by
  have h : Bond.regularLoop Frequency.sa.months Frequency.sa.months_pos (rate * face / q) ⟨2025, 1, 1, by decide⟩
      ⟨2025, 1, 1, by decide⟩ = some [⟨⟨2025, 1, 1, by decide⟩, ⟨2025, 1, 1, by decide⟩, rate * face / q⟩] := by
    rw [Bond.regularLoop_cons _ _ _ (le_refl _)]
    exact ⟨_, ⟨2025, 7, 1, by decide⟩, [], by decide +kernel, by decide +kernel,
      Bond.regularLoop_nil _ _ _ (by decide), rfl⟩
  have a1 : Date.checkedSubMonths ⟨2025, 1, 1, by decide⟩ Frequency.sa.months = some ⟨2024, 7, 1, by decide⟩ := by decide +kernel
  have a2 : Date.checkedAddMonths ⟨2025, 1, 1, by decide⟩ Frequency.sa.months = some ⟨2025, 7, 1, by decide⟩ := by decide +kernel
  have hq' : FromInt.fromInt (V := V) ((Frequency.sa.toNat : Nat) : Int) = some q := hq
  unfold Bond.new
  rw [hq']
  simp only [h]
  unfold Bond.firstCashFlow Bond.finalCashFlow
  simp only [a1, a2, lt_self_iff_false, if_false, Rust.ok_bind]
  rfl

/-- The bond may be an ordinary one: in `f64`, with face value 1, a coupon on the first pillar and one at maturity half a
year later. -/
example : letI := roundedExp .binary64
    ∃ l c b, IsNumber l IeeeFormat.binary64.largest ∧
      YieldCurve.new DayCount.act365 (Interpolator.linear (Ieee .binary64)) ⟨2023, 1, 1, by decide⟩
        [⟨2025, 1, 1, by decide⟩, ⟨2026, 1, 1, by decide⟩] [l, l] = .ok (.ok c) ∧
      Bond.new "b" ⟨2024, 7, 1, by decide⟩ ⟨2025, 1, 1, by decide⟩ ⟨2025, 1, 1, by decide⟩ ⟨2025, 7, 1, by decide⟩ .sa
        (1 : Ieee .binary64) 1 = .ok (some b) ∧
      b.discountedValue DayCount.act365 ⟨2025, 1, 1, by decide⟩ c = .ok (.ok .nan) := by
  let _ := roundedExp .binary64
  obtain ⟨l, nl, c, hc, h⟩ := C90_refuted (F := .binary64) (by norm_num [IeeeFormat.binary64]) rfl
  obtain ⟨q, hq⟩ : ∃ q, FromInt.fromInt (V := Ieee .binary64) 2 = some q := ⟨_, rfl⟩
  have e : ∀ x y : Ieee .binary64, remaining ⟨"b", [⟨⟨2025, 1, 1, by decide⟩, ⟨2025, 1, 1, by decide⟩, x⟩,
        ⟨⟨2025, 7, 1, by decide⟩, ⟨2025, 7, 1, by decide⟩, y⟩]⟩ ⟨2025, 1, 1, by decide⟩ =
      [⟨⟨2025, 7, 1, by decide⟩, ⟨2025, 7, 1, by decide⟩, y⟩] := by
    intro x y
    simp [remaining, show (⟨2025, 1, 1, by decide⟩ : Date) < ⟨2025, 7, 1, by decide⟩ by decide]
  refine ⟨l, c, _, nl, hc, one_coupon_bond q 1 1 hq, h _ ?_ ?_⟩
  · rw [e]; simp
  · rw [e]
    intro g hg
    obtain rfl := List.mem_singleton.1 hg
    dsimp only
    decide

end Qlab.Props
