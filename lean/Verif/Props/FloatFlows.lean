import Verif.Props.FloatBond

/-!
# Bond cash flows in floating-point arithmetic (C77)
-/

namespace Qlab.Props

open Spec

variable {A : FloatArith}

/-- Relative error of at most `k` units of roundoff. -/
def CloseTo (k : ℝ) (x : Fl A) (w : ℝ) : Prop := |x.val - w| ≤ k * unitRoundoff A * |w|

theorem CloseTo.factor {k : ℝ} {x : Fl A} {w : ℝ} (h : CloseTo k x w) (hk : 0 ≤ k) :
    ∃ t, |t - 1| ≤ k * unitRoundoff A ∧ x.val = w * t := by
  unfold CloseTo at h
  have hu := A.unit_pos
  by_cases hw : w = 0
  · subst hw
    rw [abs_zero, mul_zero, sub_zero] at h
    exact ⟨1, by simp; positivity, by rw [zero_mul]; exact abs_nonpos_iff.1 h⟩
  · refine ⟨x.val / w, ?_, by field_simp⟩
    have e : x.val / w - 1 = (x.val - w) / w := by field_simp
    rw [e, abs_div, div_le_iff₀ (abs_pos.2 hw)]
    exact h

theorem closeTo_of_factor {k t : ℝ} {x : Fl A} {w : ℝ} (ht : |t - 1| ≤ k * unitRoundoff A) (h : x.val = w * t) :
    CloseTo k x w := by
  unfold CloseTo
  rw [h, show w * t - w = w * (t - 1) by ring, abs_mul, mul_comm]
  exact mul_le_mul_of_nonneg_right ht (abs_nonneg _)

theorem CloseTo.mono {k l : ℝ} {x : Fl A} {w : ℝ} (h : CloseTo k x w) (hkl : k ≤ l) : CloseTo l x w := by
  unfold CloseTo at *
  have hu := A.unit_pos
  refine le_trans h ?_
  gcongr

theorem CloseTo.refl (x : Fl A) : CloseTo 0 x x.val := by simp [CloseTo]

theorem CloseTo.mul {k l : ℝ} {x y : Fl A} {v w : ℝ} (hx : CloseTo k x v) (hy : CloseTo l y w) (hk : 0 ≤ k)
    (hk' : k ≤ 8) (hl : 0 ≤ l) (hl' : l ≤ 8) : CloseTo (k + l + 1.002) (x * y) (v * w) := by
  obtain ⟨s, hs, es⟩ := hx.factor hk
  obtain ⟨t, ht, et⟩ := hy.factor hl
  obtain ⟨d, hd, ed⟩ := A.fl_factor (x.val * y.val)
  have h1 := near_mul_unit A.unit_pos A.unit_le hk (by linarith) hl (by linarith) hs ht
  have h2 := near_mul_unit (y := 1 + d) (b := 1) A.unit_pos A.unit_le (by linarith) (by linarith) (by norm_num) (by norm_num) h1
    (by simpa using hd)
  refine closeTo_of_factor (t := s * t * (1 + d)) ?_ (by rw [Fl.val_mul, ed, es, et]; ring)
  refine le_trans h2 (mul_le_mul_of_nonneg_right (by linarith) A.unit_pos.le)

/-- The quotient of two converted integers. -/
theorem closeTo_quotient (n m : ℤ) : CloseTo 3.01 (Fl.round A (n : ℝ) / Fl.round A (m : ℝ)) ((n : ℝ) / m) := by
  obtain ⟨d1, h1, e1⟩ := A.fl_factor (n : ℝ)
  obtain ⟨d2, h2, e2⟩ := A.fl_factor (m : ℝ)
  obtain ⟨d3, h3, e3⟩ := A.fl_factor ((n : ℝ) * (1 + d1) / (m * (1 + d2)))
  have a1 := near_mul_unit (x := 1 + d1) (y := 1 + d3) (a := 1) (b := 1) A.unit_pos A.unit_le (by norm_num)
    (by norm_num) (by norm_num) (by norm_num) (by simpa using h1) (by simpa using h3)
  have a2 := near_mul_unit A.unit_pos A.unit_le (by norm_num) (by norm_num) (by norm_num) (by norm_num) a1
    (near_inv A.unit_le h2)
  refine closeTo_of_factor (t := (1 + d1) * (1 + d3) * (1 / (1 + d2))) ?_ ?_
  · refine le_trans a2 (mul_le_mul_of_nonneg_right (by norm_num) A.unit_pos.le)
  · rw [Fl.val_div, Fl.val_round, Fl.val_round, e1, e2, e3]
    have hd2 := abs_le.1 h2
    have hu := A.unit_le
    have : (1 + d2) ≠ 0 := by
      have : 0 < 1 + d2 := by linarith
      exact this.ne'
    by_cases hm : (m : ℝ) = 0
    · rw [hm]; simp
    · field_simp

/-- A sum of two terms of the same sign. -/
theorem CloseTo.add {k : ℝ} {x y : Fl A} {v w : ℝ} (hx : CloseTo k x v) (hy : CloseTo k y w) (hk : 0 ≤ k)
    (hk' : k ≤ 8) (hs : 0 ≤ v * w) : CloseTo (k + 1.001) (x + y) (v + w) := by
  have habs : |v + w| = |v| + |w| := by
    rcases mul_nonneg_iff.1 hs with ⟨h1, h2⟩ | ⟨h1, h2⟩
    · rw [abs_of_nonneg h1, abs_of_nonneg h2, abs_of_nonneg (add_nonneg h1 h2)]
    · rw [abs_of_nonpos h1, abs_of_nonpos h2, abs_of_nonpos (add_nonpos h1 h2)]; ring
  unfold CloseTo at *
  have h := A.err' (x.val + y.val)
  rw [Fl.val_add]
  have hu := A.unit_pos
  have hu1 := A.unit_le
  generalize unitRoundoff A = u at *
  have h1 : |x.val + y.val - (v + w)| ≤ k * u * |v + w| := by
    rw [show x.val + y.val - (v + w) = (x.val - v) + (y.val - w) by ring, habs]
    have := abs_add_le (x.val - v) (y.val - w)
    linarith
  have h2 : |x.val + y.val| ≤ (1 + k * u) * |v + w| := by
    have := abs_add_le (x.val + y.val - (v + w)) (v + w)
    rw [sub_add_cancel] at this
    linarith
  have h3 : |A.fl (x.val + y.val) - (v + w)| ≤ |A.fl (x.val + y.val) - (x.val + y.val)| + |x.val + y.val - (v + w)| := by
    have := abs_add_le (A.fl (x.val + y.val) - (x.val + y.val)) (x.val + y.val - (v + w))
    rwa [show A.fl (x.val + y.val) - (x.val + y.val) + (x.val + y.val - (v + w)) = A.fl (x.val + y.val) - (v + w) by ring]
      at this
  have h4 : u * |x.val + y.val| ≤ u * ((1 + k * u) * |v + w|) := mul_le_mul_of_nonneg_left h2 hu.le
  have h5 : k * u ≤ 0.001 := by nlinarith
  have h6 : u * (k * u) * |v + w| ≤ u * 0.001 * |v + w| := by gcongr
  nlinarith [abs_nonneg (v + w)]

/-- The same dates, and an amount of the same relative closeness. -/
def FlowClose (k : ℝ) (g : BondCashFlow (Fl A)) (h : BondCashFlow ℝ) : Prop :=
  g.dueDate = h.dueDate ∧ g.paymentDate = h.paymentDate ∧ CloseTo k g.paymentAmount h.paymentAmount

/-- Two constructions with the same outcome, related by `R` on success. -/
def SameOutcome {α β : Type} (R : α → β → Prop) : Rust (Option α) → Rust (Option β) → Prop
  | .panic, .panic => True
  | .ok none, .ok none => True
  | .ok (some a), .ok (some b) => R a b
  | _, _ => False

theorem regularLoop_close (k : ℝ) (m : Nat) (hm : 0 < m) (c : Fl A) (w : ℝ) (hc : CloseTo k c w) (pen first : Date) :
    SameOutcome (List.Forall₂ (FlowClose k)) (.ok (Bond.regularLoop m hm c pen first))
      (.ok (Bond.regularLoop m hm w pen first)) := by
  have h1 := regularLoop_map (fun _ : Unit => c) m hm () pen first
  have h2 := regularLoop_map (fun _ : Unit => w) m hm () pen first
  rw [h1, h2]
  cases Bond.regularLoop m hm () pen first with
  | none => trivial
  | some l =>
    simp only [Option.map_some, SameOutcome]
    induction l with
    | nil => exact .nil
    | cons g l ih => exact .cons ⟨rfl, rfl, hc⟩ ih

theorem subMonths_lt {d r : Date} {n : Nat} (hn : 0 < n) (h : Date.checkedSubMonths d n = some r) : r < d := by
  obtain ⟨h1, -⟩ := (C08_sub_months _ _ _).1 h
  rw [lt_iff_monthNumber]; omega

theorem addMonths_gt {d r : Date} {n : Nat} (hn : 0 < n) (h : Date.checkedAddMonths d n = some r) : d < r :=
  C09_add_months_lt d r n hn h

theorem sub_cast_pos {a b : Date} (h : a < b) : (0 : ℝ) < (Date.sub b a : Int) := by
  exact_mod_cast (C04_sub_pos a b).2 h

theorem forall₂_mono {k l : ℝ} (hkl : k ≤ l) {f : List (BondCashFlow (Fl A))} {f' : List (BondCashFlow ℝ)}
    (h : List.Forall₂ (FlowClose k) f f') : List.Forall₂ (FlowClose l) f f' :=
  h.imp fun _ _ h => ⟨h.1, h.2.1, h.2.2.mono hkl⟩

/-- The coupon of a long period: no cancellation. -/
theorem long_coupon {c : Fl A} {w : ℝ} (hc : CloseTo 2.01 c w) {n m : ℤ} (hn : 0 < (n : ℝ)) (hm : 0 < (m : ℝ))
    {g : Fl A} (hg : CloseTo 2.01 g w) :
    CloseTo 8 (g + Fl.round A (n : ℝ) / Fl.round A (m : ℝ) * c) (w + (n : ℝ) / m * w) := by
  have h1 := (closeTo_quotient (A := A) n m).mul hc (by norm_num) (by norm_num) (by norm_num) (by norm_num)
  have h2 := (hg.mono (l := 3.01 + 2.01 + 1.002) (by norm_num)).add h1 (by norm_num) (by norm_num)
    (by have := div_pos hn hm; nlinarith [mul_self_nonneg w])
  exact h2.mono (by norm_num)

theorem short_coupon {g : Fl A} {w : ℝ} (hg : CloseTo 2.01 g w) (n m : ℤ) :
    CloseTo 8 (g * (Fl.round A (n : ℝ) / Fl.round A (m : ℝ))) (w * ((n : ℝ) / m)) :=
  (hg.mul (closeTo_quotient n m) (by norm_num) (by norm_num) (by norm_num) (by norm_num)).mono (by norm_num)

theorem firstCashFlow_close (issue first : Date) (m : Nat) (hm : 0 < m) (c : Fl A) (w : ℝ) (hc : CloseTo 2.01 c w)
    (f : List (BondCashFlow (Fl A))) (f' : List (BondCashFlow ℝ)) (hf : List.Forall₂ (FlowClose 2.01) f f')
    (hw : ∀ g ∈ f', g.paymentAmount = w) :
    SameOutcome (List.Forall₂ (FlowClose 8)) (Bond.firstCashFlow issue first m c f)
      (Bond.firstCashFlow issue first m w f') := by
  unfold Bond.firstCashFlow
  cases hp : Date.checkedSubMonths first m with
  | none => trivial
  | some p =>
    simp only
    by_cases h1 : p < issue
    · rw [if_pos h1, if_pos h1]
      simp only [Fl.fromInt_eq, ExactCast.fromInt_eq]
      cases hf with
      | nil => trivial
      | cons hg hf =>
        refine .cons ⟨hg.1, hg.2.1, ?_⟩ (forall₂_mono (by norm_num) hf)
        exact short_coupon hg.2.2 _ _
    · rw [if_neg h1, if_neg h1]
      by_cases h2 : issue < p
      · rw [if_pos h2, if_pos h2]
        cases hp2 : Date.checkedSubMonths p m with
        | none => trivial
        | some p2 =>
          simp only [Fl.fromInt_eq, ExactCast.fromInt_eq]
          cases hf with
          | nil => trivial
          | @cons g g' _ _ hg hf =>
            refine .cons ⟨hg.1, hg.2.1, ?_⟩ (forall₂_mono (by norm_num) hf)
            have e := hw g' (by simp)
            have hg2 := hg.2.2
            simp only
            rw [e] at hg2 ⊢
            exact long_coupon hc (sub_cast_pos h2) (sub_cast_pos (subMonths_lt hm hp2)) hg2
      · rw [if_neg h2, if_neg h2]
        exact forall₂_mono (by norm_num) hf

/-- The same dates; the amount close to `face` plus a coupon. -/
def FinalClose (face : ℝ) (g : BondCashFlow (Fl A)) (h : BondCashFlow ℝ) : Prop :=
  g.dueDate = h.dueDate ∧ g.paymentDate = h.paymentDate ∧
    |g.paymentAmount.val - h.paymentAmount| ≤ 10 * unitRoundoff A * (|face| + |h.paymentAmount - face|)

theorem final_amount (face c : Fl A) (w : ℝ) (hc : CloseTo 8 c w) :
    |(face + c).val - (face.val + w)| ≤ 10 * unitRoundoff A * (|face.val| + |face.val + w - face.val|) := by
  unfold CloseTo at hc
  rw [Fl.val_add, add_sub_cancel_left]
  have h := A.err' (face.val + c.val)
  have hu := A.unit_pos
  have hu1 := A.unit_le
  generalize unitRoundoff A = u at *
  have h2 : |c.val| ≤ (1 + 8 * u) * |w| := by
    have := abs_add_le (c.val - w) w
    rw [sub_add_cancel] at this
    linarith
  have h1 : |face.val + c.val| ≤ |face.val| + (1 + 8 * u) * |w| := by
    have := abs_add_le face.val c.val
    linarith
  have h3 : |A.fl (face.val + c.val) - (face.val + w)| ≤ |A.fl (face.val + c.val) - (face.val + c.val)| + |c.val - w| := by
    have := abs_add_le (A.fl (face.val + c.val) - (face.val + c.val)) (c.val - w)
    rwa [show A.fl (face.val + c.val) - (face.val + c.val) + (c.val - w) = A.fl (face.val + c.val) - (face.val + w) by
      ring] at this
  have h4 := mul_le_mul_of_nonneg_left h1 hu.le
  have h5 : u * (8 * u) * |w| ≤ u * 1 * |w| := by gcongr; linarith
  nlinarith [abs_nonneg w, abs_nonneg face.val, mul_nonneg hu.le (abs_nonneg w), mul_nonneg hu.le (abs_nonneg face.val)]

theorem finalCashFlow_close (pen mat : Date) (m : Nat) (hm : 0 < m) (face c : Fl A) (w : ℝ) (hc : CloseTo 2.01 c w) :
    SameOutcome (FinalClose face.val) (.ok (Bond.finalCashFlow pen mat face m c))
      (.ok (Bond.finalCashFlow pen mat face.val m w)) := by
  unfold Bond.finalCashFlow
  cases hn : Date.checkedAddMonths pen m with
  | none => trivial
  | some n =>
    simp only
    by_cases h1 : mat < n
    · rw [if_pos h1, if_pos h1]
      simp only [Fl.fromInt_eq, ExactCast.fromInt_eq]
      exact ⟨rfl, rfl, final_amount _ _ _ (short_coupon hc _ _)⟩
    · rw [if_neg h1, if_neg h1]
      by_cases h2 : n < mat
      · rw [if_pos h2, if_pos h2]
        cases hn2 : Date.checkedAddMonths n m with
        | none => trivial
        | some n2 =>
          simp only [Fl.fromInt_eq, ExactCast.fromInt_eq]
          exact ⟨rfl, rfl, final_amount _ _ _ (long_coupon hc (sub_cast_pos h2) (sub_cast_pos (addMonths_gt hm hn2)) hc)⟩
      · rw [if_neg h2, if_neg h2]
        exact ⟨rfl, rfl, final_amount _ _ _ (hc.mono (by norm_num))⟩

/-- All flows but the last within a relative 8 units; the last as in `FinalClose`. -/
def BondClose (face : ℝ) (b : Bond (Fl A)) (b' : Bond ℝ) : Prop :=
  b.bondId = b'.bondId ∧ ∃ f f' g g', b.bondCashFlows = f ++ [g] ∧ b'.bondCashFlows = f' ++ [g'] ∧
    List.Forall₂ (FlowClose 8) f f' ∧ FinalClose face g g'

theorem bond_close (id : String) (issue first pen mat : Date) (f : Frequency) (rate face : Fl A) :
    SameOutcome (BondClose face.val) (Bond.new id issue first pen mat f rate face)
      (Bond.new id issue first pen mat f rate.val face.val) := by
  have hp : (2 : ℤ) ^ 24 ≤ 2 ^ A.prec := pow_le_pow_right₀ (by norm_num) A.prec_ge
  unfold Bond.new
  simp only [Fl.fromInt_eq, ExactCast.fromInt_eq]
  have hc : CloseTo 2.01 (rate * face / Fl.round A ((f.toNat : ℤ) : ℝ)) (rate.val * face.val / ((f.toNat : ℤ) : ℝ)) := by
    have hfreq : A.fl ((f.toNat : ℤ) : ℝ) = ((f.toNat : ℤ) : ℝ) := A.int _ (by
      cases f; exact le_trans (by norm_num [Frequency.toNat]) hp)
    have h1 := (CloseTo.refl rate).mul (CloseTo.refl face) (by norm_num) (by norm_num) (by norm_num) (by norm_num)
    obtain ⟨s, hs, es⟩ := h1.factor (by norm_num)
    obtain ⟨d, hd, ed⟩ := A.fl_factor ((rate * face).val / ((f.toNat : ℤ) : ℝ))
    have h2 := near_mul_unit (y := 1 + d) (b := 1) A.unit_pos A.unit_le (by norm_num) (by norm_num) (by norm_num)
      (by norm_num) hs (by simpa using hd)
    refine closeTo_of_factor (t := s * (1 + d)) ?_ ?_
    · exact le_trans h2 (mul_le_mul_of_nonneg_right (by norm_num) A.unit_pos.le)
    · rw [Fl.val_div, Fl.val_round, hfreq, ed, es]; ring
  generalize rate * face / Fl.round A ((f.toNat : ℤ) : ℝ) = c at *
  generalize rate.val * face.val / ((f.toNat : ℤ) : ℝ) = w at *
  have h1 := regularLoop_close 2.01 f.months f.months_pos c w hc pen first
  cases e1 : Bond.regularLoop f.months f.months_pos c pen first with
  | none =>
    cases e2 : Bond.regularLoop f.months f.months_pos w pen first with
    | none => trivial
    | some l' => rw [e1, e2] at h1; exact h1.elim
  | some l =>
    cases e2 : Bond.regularLoop f.months f.months_pos w pen first with
    | none => rw [e1, e2] at h1; exact h1.elim
    | some l' =>
      rw [e1, e2] at h1
      have hw : ∀ g ∈ l', g.paymentAmount = w := fun g hg =>
        ((Bond.regularLoop_spec f.months f.months_pos w pen l' first e2).2 g hg).1
      have h2 := firstCashFlow_close issue first f.months f.months_pos c w hc l l' h1 hw
      simp only
      cases e3 : Bond.firstCashFlow issue first f.months c l with
      | panic =>
        cases e4 : Bond.firstCashFlow issue first f.months w l' with
        | panic => trivial
        | ok r => rw [e3, e4] at h2; cases r <;> exact h2.elim
      | ok r =>
        cases e4 : Bond.firstCashFlow issue first f.months w l' with
        | panic => rw [e3, e4] at h2; cases r <;> exact h2.elim
        | ok r' =>
          rw [e3, e4] at h2
          cases r with
          | none => cases r' with
            | none => trivial
            | some _ => exact h2.elim
          | some q => cases r' with
            | none => exact h2.elim
            | some q' =>
              have h3 := finalCashFlow_close pen mat f.months f.months_pos face c w hc
              cases e5 : Bond.finalCashFlow pen mat face f.months c with
              | none => cases e6 : Bond.finalCashFlow pen mat face.val f.months w with
                | none => trivial
                | some _ => rw [e5, e6] at h3; exact h3.elim
              | some x => cases e6 : Bond.finalCashFlow pen mat face.val f.months w with
                | none => rw [e5, e6] at h3; exact h3.elim
                | some y =>
                  rw [e5, e6] at h3
                  exact ⟨rfl, q, q', x, y, rfl, rfl, h2, h3⟩

/-- **C77.** Building a bond with floating-point numbers panics or is refused exactly when building it with the exact
values of the same rate and face value is. -/
theorem C77_same_outcome (id : String) (issue first pen mat : Date) (f : Frequency) (rate face : Fl A) :
    (Bond.new id issue first pen mat f rate face = .panic ↔
      Bond.new id issue first pen mat f rate.val face.val = .panic) ∧
    (Bond.new id issue first pen mat f rate face = .ok none ↔
      Bond.new id issue first pen mat f rate.val face.val = .ok none) := by
  have h := bond_close id issue first pen mat f rate face
  generalize Bond.new id issue first pen mat f rate face = p at *
  generalize Bond.new id issue first pen mat f rate.val face.val = q at *
  match p, q with
  | .panic, .panic => simp
  | .panic, .ok none => exact h.elim
  | .panic, .ok (some _) => exact h.elim
  | .ok none, .panic => exact h.elim
  | .ok none, .ok none => simp
  | .ok none, .ok (some _) => exact h.elim
  | .ok (some _), .panic => exact h.elim
  | .ok (some _), .ok none => exact h.elim
  | .ok (some _), .ok (some _) => simp

/-- **C77.** When it succeeds, every flow has the dates of the exact bond, and its amount is off by at most `10 u`
times the exact amount; in the last flow by at most `10 u` times face value plus coupon, each taken without sign. -/
theorem C77_flows (id : String) (issue first pen mat : Date) (f : Frequency) (rate face : Fl A) (b : Bond (Fl A))
    (h : Bond.new id issue first pen mat f rate face = .ok (some b)) :
    ∃ b', Bond.new id issue first pen mat f rate.val face.val = .ok (some b') ∧
      b.bondCashFlows.length = b'.bondCashFlows.length ∧
      ∀ i g g', b.bondCashFlows[i]? = some g → b'.bondCashFlows[i]? = some g' →
        g.dueDate = g'.dueDate ∧ g.paymentDate = g'.paymentDate ∧
        (i + 1 < b.bondCashFlows.length →
          |g.paymentAmount.val - g'.paymentAmount| ≤ 10 * unitRoundoff A * |g'.paymentAmount|) ∧
        (i + 1 = b.bondCashFlows.length →
          |g.paymentAmount.val - g'.paymentAmount| ≤
            10 * unitRoundoff A * (|face.val| + |g'.paymentAmount - face.val|)) := by
  have hc := bond_close id issue first pen mat f rate face
  rw [h] at hc
  match hq : Bond.new id issue first pen mat f rate.val face.val with
  | .panic => rw [hq] at hc; exact hc.elim
  | .ok none => rw [hq] at hc; exact hc.elim
  | .ok (some b') =>
    rw [hq] at hc
    obtain ⟨-, l, l', x, y, e1, e2, h1, h2⟩ := hc
    have hl := h1.length_eq
    refine ⟨b', rfl, by rw [e1, e2]; simp [hl], ?_⟩
    intro i g g' hg hg'
    rw [e1] at hg ⊢
    rw [e2] at hg'
    rcases lt_or_ge i l.length with hi | hi
    · rw [List.getElem?_append_left hi] at hg
      rw [List.getElem?_append_left (by omega)] at hg'
      obtain ⟨_, rfl⟩ := List.getElem?_eq_some_iff.1 hg
      obtain ⟨_, rfl⟩ := List.getElem?_eq_some_iff.1 hg'
      have hh := (List.forall₂_iff_get.1 h1).2 i hi (by omega)
      refine ⟨hh.1, hh.2.1, fun _ => ?_, fun h => ?_⟩
      · exact hh.2.2.mono (by norm_num)
      · simp at h; omega
    · rw [List.getElem?_append_right hi] at hg
      rw [List.getElem?_append_right (by omega)] at hg'
      have hi0 : i - l.length = 0 := by
        by_contra hne
        rw [List.getElem?_eq_none (by simp; omega)] at hg
        simp at hg
      rw [hi0] at hg
      rw [← hl, hi0] at hg'
      simp at hg hg'
      subst hg hg'
      exact ⟨h2.1, h2.2.1, fun h => by simp at h; omega, fun _ => h2.2.2⟩

/-- A bond in `f64` with a short first and a long last period: it is built, and has 39 flows as the exact bond has. -/
example : ∃ b b', Bond.new "Test" ⟨2023, 5, 8, by decide⟩ ⟨2023, 11, 7, by decide⟩ ⟨2042, 5, 7, by decide⟩
      ⟨2042, 12, 7, by decide⟩ .sa (i64 5 / i64 100) (i64 100) = .ok (some b) ∧
    Bond.new "Test" ⟨2023, 5, 8, by decide⟩ ⟨2023, 11, 7, by decide⟩ ⟨2042, 5, 7, by decide⟩
      ⟨2042, 12, 7, by decide⟩ .sa (i64 5 / i64 100).val (i64 100).val = .ok (some b') ∧
    b.bondCashFlows.length = b'.bondCashFlows.length := by
  have h := C77_same_outcome (A := Binary.f64) "Test" ⟨2023, 5, 8, by decide⟩ ⟨2023, 11, 7, by decide⟩
    ⟨2042, 5, 7, by decide⟩ ⟨2042, 12, 7, by decide⟩ .sa (i64 5 / i64 100) (i64 100)
  obtain ⟨b', hb'⟩ := C51_in_range_partial (id := "Test") (issue := ⟨2023, 5, 8, by decide⟩)
    (first := ⟨2023, 11, 7, by decide⟩) (pen := ⟨2042, 5, 7, by decide⟩) (mat := ⟨2042, 12, 7, by decide⟩)
    (f := .sa) (rate := (i64 5 / i64 100).val) (face := (i64 100).val) (by decide) (by decide) (by decide)
  rw [hb'] at h
  match hb : Bond.new "Test" ⟨2023, 5, 8, by decide⟩ ⟨2023, 11, 7, by decide⟩ ⟨2042, 5, 7, by decide⟩
      ⟨2042, 12, 7, by decide⟩ .sa (i64 5 / i64 100) (i64 100) with
  | .panic => rw [hb] at h; simp at h
  | .ok none => rw [hb] at h; simp at h
  | .ok (some b) =>
    obtain ⟨b'', h1, h2, -⟩ := C77_flows _ _ _ _ _ _ _ _ b hb
    exact ⟨b, b'', rfl, h1, h2⟩

end Qlab.Props
