import Verif.Props.IeeeBond
import Verif.Props.FloatFlows

/-!
# Bond cash flows in the formats of IEEE 754 (C91)
-/

namespace Qlab.Props

open Spec

/-- The same dates, and amounts related by `R`. -/
def FlowRel {V W : Type} (R : V → W → Prop) (g : BondCashFlow V) (h : BondCashFlow W) : Prop :=
  g.dueDate = h.dueDate ∧ g.paymentDate = h.paymentDate ∧ R g.paymentAmount h.paymentAmount

/-- The same bond with all amounts but the last related by `R`, the last by `S`. -/
def BondRel {V W : Type} (R S : V → W → Prop) (b : Bond V) (b' : Bond W) : Prop :=
  b.bondId = b'.bondId ∧ ∃ f f' g g', b.bondCashFlows = f ++ [g] ∧ b'.bondCashFlows = f' ++ [g'] ∧
    List.Forall₂ (FlowRel R) f f' ∧ FlowRel S g g'

/-- Building the same bond over two number types: the outcome is the same, and the amounts are related as the coupons of
regular, short and long periods are; `N` holds of the lengths of the first and the last period. -/
theorem bond_rel_on {V W : Type} [Add V] [Mul V] [Div V] [FromInt V] [Add W] [Mul W] [Div W] [FromInt W]
    (cv : ℤ → V) (cw : ℤ → W) (hv : ∀ n, FromInt.fromInt (V := V) n = some (cv n))
    (hw : ∀ n, FromInt.fromInt (V := W) n = some (cw n)) (R S : V → W → Prop) (f : Frequency) (rate face : V) (rate' face' : W)
    (c : V) (c' : W) (hc : c = rate * face / cv f.toNat) (hc' : c' = rate' * face' / cw f.toNat) (hreg : R c c')
    (N : ℤ → Prop) (hshort : ∀ n m : ℤ, N n → |n| ≤ 2 ^ 28 → |m| ≤ 2 ^ 28 → 0 < m → R (c * (cv n / cv m)) (c' * (cw n / cw m)))
    (hlong : ∀ n m : ℤ, |n| ≤ 2 ^ 28 → |m| ≤ 2 ^ 28 → 0 < n → 0 < m → R (c + cv n / cv m * c) (c' + cw n / cw m * c'))
    (hface : ∀ x y, R x y → S (face + x) (face' + y)) (id : String) (issue first pen mat : Date)
    (hN1 : N (Date.sub first issue)) (hN2 : N (Date.sub mat pen)) :
    SameOutcome (BondRel R S) (Bond.new id issue first pen mat f rate face) (Bond.new id issue first pen mat f rate' face') := by
  have hd : ∀ a b : Date, |Date.sub b a| ≤ 2 ^ 28 := fun a b => (sub_abs_lt a b).le
  have hp : ∀ {a b : Date}, a < b → 0 < Date.sub b a := fun h => (C04_sub_pos _ _).2 h
  unfold Bond.new
  simp only [hv, hw]
  rw [← hc, ← hc']
  have h1 := regularLoop_map (fun _ : Unit => c) f.months f.months_pos () pen first
  have h2 := regularLoop_map (fun _ : Unit => c') f.months f.months_pos () pen first
  rw [h1, h2]
  cases Bond.regularLoop f.months f.months_pos () pen first with
  | none => trivial
  | some l =>
    simp only [Option.map_some]
    have hl : ∀ l : List (BondCashFlow Unit), List.Forall₂ (FlowRel R)
        (l.map fun g => (⟨g.dueDate, g.paymentDate, c⟩ : BondCashFlow V))
        (l.map fun g => (⟨g.dueDate, g.paymentDate, c'⟩ : BondCashFlow W)) := by
      intro l
      induction l with
      | nil => exact .nil
      | cons g l ih => exact .cons ⟨rfl, rfl, hreg⟩ ih
    have hfirst : SameOutcome (List.Forall₂ (FlowRel R))
        (Bond.firstCashFlow issue first f.months c (l.map fun g => (⟨g.dueDate, g.paymentDate, c⟩ : BondCashFlow V)))
        (Bond.firstCashFlow issue first f.months c' (l.map fun g => (⟨g.dueDate, g.paymentDate, c'⟩ : BondCashFlow W))) := by
      unfold Bond.firstCashFlow
      cases hp1 : Date.checkedSubMonths first f.months with
      | none => trivial
      | some p =>
        simp only
        by_cases h1 : p < issue
        · rw [if_pos h1, if_pos h1]
          simp only [hv, hw]
          cases l with
          | nil => trivial
          | cons g l => exact .cons ⟨rfl, rfl, hshort _ _ hN1 (hd _ _) (hd _ _) (hp (subMonths_lt f.months_pos hp1))⟩ (hl l)
        · rw [if_neg h1, if_neg h1]
          by_cases h2 : issue < p
          · rw [if_pos h2, if_pos h2]
            cases hp2 : Date.checkedSubMonths p f.months with
            | none => trivial
            | some p2 =>
              simp only [hv, hw]
              cases l with
              | nil => trivial
              | cons g l => exact .cons ⟨rfl, rfl, hlong _ _ (hd _ _) (hd _ _) (hp h2) (hp (subMonths_lt f.months_pos hp2))⟩ (hl l)
          · rw [if_neg h2, if_neg h2]
            exact hl l
    have hfinal : SameOutcome (FlowRel S) (.ok (Bond.finalCashFlow pen mat face f.months c))
        (.ok (Bond.finalCashFlow pen mat face' f.months c')) := by
      unfold Bond.finalCashFlow
      cases hn : Date.checkedAddMonths pen f.months with
      | none => trivial
      | some n =>
        simp only
        by_cases h1 : mat < n
        · rw [if_pos h1, if_pos h1]
          simp only [hv, hw]
          exact ⟨rfl, rfl, hface _ _ (hshort _ _ hN2 (hd _ _) (hd _ _) (hp (addMonths_gt f.months_pos hn)))⟩
        · rw [if_neg h1, if_neg h1]
          by_cases h2 : n < mat
          · rw [if_pos h2, if_pos h2]
            cases hn2 : Date.checkedAddMonths n f.months with
            | none => trivial
            | some n2 =>
              simp only [hv, hw]
              exact ⟨rfl, rfl, hface _ _ (hlong _ _ (hd _ _) (hd _ _) (hp h2) (hp (addMonths_gt f.months_pos hn2)))⟩
          · rw [if_neg h2, if_neg h2]
            exact ⟨rfl, rfl, hface _ _ hreg⟩
    generalize Bond.firstCashFlow issue first f.months c _ = P at *
    generalize Bond.firstCashFlow issue first f.months c' _ = Q at *
    generalize Bond.finalCashFlow pen mat face f.months c = x at *
    generalize Bond.finalCashFlow pen mat face' f.months c' = y at *
    clear hd hp hshort hlong hface hreg hl
    cases P with
    | panic => cases Q with
      | panic => trivial
      | ok r => cases r <;> exact hfirst.elim
    | ok r => cases Q with
      | panic => cases r <;> exact hfirst.elim
      | ok r' => cases r with
        | none => cases r' with
          | none => trivial
          | some _ => exact hfirst.elim
        | some q => cases r' with
          | none => exact hfirst.elim
          | some q' => cases x with
            | none => cases y with
              | none => trivial
              | some _ => exact hfinal.elim
            | some x => cases y with
              | none => exact hfinal.elim
              | some y => exact ⟨rfl, q, q', x, y, rfl, rfl, hfirst, hfinal⟩

/-- The same without a condition on the lengths. -/
theorem bond_rel {V W : Type} [Add V] [Mul V] [Div V] [FromInt V] [Add W] [Mul W] [Div W] [FromInt W]
    (cv : ℤ → V) (cw : ℤ → W) (hv : ∀ n, FromInt.fromInt (V := V) n = some (cv n))
    (hw : ∀ n, FromInt.fromInt (V := W) n = some (cw n)) (R S : V → W → Prop) (f : Frequency) (rate face : V) (rate' face' : W)
    (c : V) (c' : W) (hc : c = rate * face / cv f.toNat) (hc' : c' = rate' * face' / cw f.toNat) (hreg : R c c')
    (hshort : ∀ n m : ℤ, |n| ≤ 2 ^ 28 → |m| ≤ 2 ^ 28 → 0 < m → R (c * (cv n / cv m)) (c' * (cw n / cw m)))
    (hlong : ∀ n m : ℤ, |n| ≤ 2 ^ 28 → |m| ≤ 2 ^ 28 → 0 < n → 0 < m → R (c + cv n / cv m * c) (c' + cw n / cw m * c'))
    (hface : ∀ x y, R x y → S (face + x) (face' + y)) (id : String) (issue first pen mat : Date) :
    SameOutcome (BondRel R S) (Bond.new id issue first pen mat f rate face) (Bond.new id issue first pen mat f rate' face') :=
  bond_rel_on cv cw hv hw R S f rate face rate' face' c c' hc hc' hreg (fun _ => True) (fun n m _ => hshort n m) hlong hface
    id issue first pen mat trivial trivial

variable {F : IeeeFormat}

/-- **C91.** In `f32` and `f64`, building a bond panics or is refused exactly when building it in exact arithmetic is,
whatever the rate and the face value, infinities and NaN included. -/
theorem C91_same_outcome (id : String) (issue first pen mat : Date) (f : Frequency) (rate face : Ieee F) (rate' face' : ℝ) :
    (Bond.new id issue first pen mat f rate face = .panic ↔ Bond.new id issue first pen mat f rate' face' = .panic) ∧
    (Bond.new id issue first pen mat f rate face = .ok none ↔ Bond.new id issue first pen mat f rate' face' = .ok none) := by
  have h := bond_rel (fun n => Ieee.ofReal F false n) (fun n => (n : ℝ)) (fun _ => rfl) (fun _ => rfl) (fun _ _ => True)
    (fun _ _ => True) f rate face rate' face' _ _ rfl rfl trivial (fun _ _ _ _ _ => trivial) (fun _ _ _ _ _ _ => trivial)
    (fun _ _ _ => trivial) id issue first pen mat
  generalize Bond.new id issue first pen mat f rate face = p at *
  generalize Bond.new id issue first pen mat f rate' face' = q at *
  match p, q, h with
  | .panic, .panic, _ => simp
  | .ok none, .ok none, _ => simp
  | .ok (some _), .ok (some _), _ => simp

/-- The bond in the format is the one with an unbounded exponent. -/
theorem bond_same (k : Nat) (hk : 2 * k + 30 ≤ F.emax) (hF : 40 ≤ F.emax) (rate face : Ieee F) (hr : Moderate k rate)
    (hf : Moderate k face) (f : Frequency) (id : String) (issue first pen mat : Date) :
    SameOutcome (BondRel (fun x y => IsNumber x y.val) (fun x y => IsNumber x y.val))
      (Bond.new id issue first pen mat f rate face) (Bond.new id issue first pen mat f (Ieee.toFl rate) (Ieee.toFl face)) := by
  obtain ⟨ρ, nr, mr⟩ := hr
  obtain ⟨φ, nf, mf⟩ := hf
  have mr : Mag (-(k : ℤ)) k ρ := mr
  have mf : Mag (-(k : ℤ)) k φ := mf
  have er := Ieee.toFl_val nr
  have ef := Ieee.toFl_val nf
  have hp : (2 : ℤ) ^ 24 ≤ 2 ^ F.arith.prec := pow_le_pow_right₀ (by norm_num) F.arith.prec_ge
  have hcast : ∀ n : ℤ, |n| ≤ 2 ^ 28 → IsNumber (Ieee.ofReal F false (n : ℝ)) (Fl.round F.arith (n : ℝ)).val := by
    intro n hn
    rw [Fl.val_round]
    exact cast_number hF hn
  -- the coupon
  have m1 : Mag (-(2 * k : ℤ)) (2 * k) (ρ * φ) := (mr.mul mf).weaken (by omega) (by omega)
  have r1 := F.mag_range m1 (by omega) (by omega)
  have n1 := Ieee.mul_number nr nf r1.1 r1.2
  have h2 : (Fl.round F.arith (((f.toNat : ℕ) : ℤ) : ℝ)).val = 2 := by
    rw [Fl.val_round]
    cases f
    have := F.arith.int 2 (le_trans (by norm_num) hp)
    simpa [Frequency.toNat] using this
  have hn2 := hcast (f.toNat : ℤ) (by cases f; norm_num [Frequency.toNat])
  rw [h2] at hn2
  have m2 : Mag (-(2 * k : ℤ) - 1) (2 * k) (F.arith.fl (ρ * φ) / 2) :=
    ((m1.fl F).div (lo' := 1) (hi' := 1) (y := 2) (Or.inr (by norm_num))).weaken (by omega) (by omega)
  have r2 := F.mag_range m2 (by omega) (by omega)
  have n2 := Ieee.div_number n1 hn2 (by norm_num) r2.1 r2.2
  have m3 := m2.fl F
  obtain ⟨w, hw⟩ : ∃ w, w = Ieee.toFl rate * Ieee.toFl face / Fl.round F.arith (((f.toNat : ℕ) : ℤ) : ℝ) := ⟨_, rfl⟩
  have ew : w.val = F.arith.fl (F.arith.fl (ρ * φ) / 2) := by
    rw [hw, Fl.val_div, Fl.val_mul, er, ef, h2]
  obtain ⟨c, hc⟩ : ∃ c, c = rate * face / Ieee.ofReal F false (((f.toNat : ℕ) : ℤ) : ℝ) := ⟨_, rfl⟩
  rw [← ew] at m3 n2
  rw [← hc] at n2
  -- quotients of days
  have hq : ∀ n m : ℤ, |n| ≤ 2 ^ 28 → |m| ≤ 2 ^ 28 → 0 < m →
      IsNumber (Ieee.ofReal F false (n : ℝ) / Ieee.ofReal F false (m : ℝ)) (Fl.round F.arith (n : ℝ) / Fl.round F.arith (m : ℝ)).val ∧
      Mag (-28) 28 (Fl.round F.arith (n : ℝ) / Fl.round F.arith (m : ℝ)).val := by
    intro n m hn hm h0
    have q1 := (mag_int hn).fl F
    have q2 := (mag_int hm).fl F
    have q3 : Mag (-28) 28 (F.arith.fl n / F.arith.fl m) := (q1.div q2).weaken (by omega) (by omega)
    have r := F.mag_range q3 (by omega) (by omega)
    have := Ieee.div_number (cast_number hF hn) (cast_number hF hm)
      (F.arith.fl_pos (by exact_mod_cast h0)).ne' r.1 r.2
    rw [Fl.val_div, Fl.val_round, Fl.val_round]
    exact ⟨this, q3.fl F⟩
  -- what is kept: the number, and its size
  have key : ∀ {x : Ieee F} {y : Fl F.arith}, IsNumber x y.val → |y.val| ≤ (2 : ℝ) ^ ((2 * k + 29 : ℕ) : ℤ) →
      IsNumber (face + x) (Ieee.toFl face + y).val := by
    intro x y hxy hb
    rw [Fl.val_add, ef]
    refine Ieee.add_number nf hxy ?_
    have := abs_add_le φ y.val
    have h3 := mf.le
    have h4 : (2 : ℝ) ^ (k : ℤ) ≤ 2 ^ ((2 * k + 29 : ℕ) : ℤ) := zpow_le_zpow_right₀ (by norm_num) (by omega)
    have h5 : (2 : ℝ) ^ ((2 * k + 29 : ℕ) : ℤ) + 2 ^ ((2 * k + 29 : ℕ) : ℤ) ≤ 2 ^ F.emax := by
      rw [← two_mul, zpow_natCast, ← pow_succ']
      exact pow_le_pow_right₀ (by norm_num) (by omega)
    have := F.largest_ge
    linarith
  have h := bond_rel (fun n => Ieee.ofReal F false n) (fun n => Fl.round F.arith (n : ℝ)) (fun _ => rfl) (fun _ => rfl)
    (fun x y => IsNumber x y.val ∧ |y.val| ≤ (2 : ℝ) ^ ((2 * k + 29 : ℕ) : ℤ)) (fun x y => IsNumber x y.val) f rate face
    (Ieee.toFl rate) (Ieee.toFl face) c w hc hw
    ⟨n2, le_trans m3.le (zpow_le_zpow_right₀ (by norm_num) (by omega))⟩ ?_ ?_ ?_ id issue first pen mat
  · generalize Bond.new id issue first pen mat f rate face = p at *
    generalize Bond.new id issue first pen mat f (Ieee.toFl rate) (Ieee.toFl face) = q at *
    match p, q, h with
    | .panic, .panic, _ => trivial
    | .ok none, .ok none, _ => trivial
    | .ok (some _), .ok (some _), ⟨h1, f, f', g, g', h2, h3, h4, h5⟩ =>
      exact ⟨h1, f, f', g, g', h2, h3, h4.imp fun _ _ h => ⟨h.1, h.2.1, h.2.2.1⟩, h5⟩
  · intro n m hn hm h0
    obtain ⟨q1, q2⟩ := hq n m hn hm h0
    have q3 := m3.mul q2
    have r := F.mag_range q3 (by omega) (by omega)
    have := Ieee.mul_number n2 q1 r.1 r.2
    rw [Fl.val_mul]
    exact ⟨this, le_trans (q3.fl F).le (zpow_le_zpow_right₀ (by norm_num) (by push_cast; omega))⟩
  · intro n m hn hm _ h0
    obtain ⟨q1, q2⟩ := hq n m hn hm h0
    have q3 := q2.mul m3
    have r := F.mag_range q3 (by omega) (by omega)
    have t := Ieee.mul_number q1 n2 r.1 r.2
    rw [Fl.val_add, Fl.val_mul]
    have b1 := m3.le
    have b2 := (q3.fl F).le
    have b3 := abs_add_le w.val (F.arith.fl ((Fl.round F.arith (n : ℝ) / Fl.round F.arith (m : ℝ)).val * w.val))
    have b4 : (2 : ℝ) ^ (2 * (k : ℤ)) ≤ 2 ^ (28 + 2 * (k : ℤ)) := zpow_le_zpow_right₀ (by norm_num) (by omega)
    have b5 : (2 : ℝ) ^ (28 + 2 * (k : ℤ)) + 2 ^ (28 + 2 * (k : ℤ)) = 2 ^ ((2 * k + 29 : ℕ) : ℤ) := by
      rw [← two_mul, ← zpow_one_add₀ (by norm_num)]
      congr 1; push_cast; ring
    have b6 : (2 : ℝ) ^ ((2 * k + 29 : ℕ) : ℤ) ≤ F.largest := by
      refine le_trans ?_ F.largest_ge
      rw [zpow_natCast]
      exact pow_le_pow_right₀ (by norm_num) (by omega)
    have b7 : |w.val + F.arith.fl ((Fl.round F.arith (n : ℝ) / Fl.round F.arith (m : ℝ)).val * w.val)| ≤
        (2 : ℝ) ^ ((2 * k + 29 : ℕ) : ℤ) := by linarith
    refine ⟨Ieee.add_number n2 t (le_trans b7 b6), ?_⟩
    have b8 := F.arith.mono (abs_le.1 b7).1
    have b9 := F.arith.mono (abs_le.1 b7).2
    have b10 : F.arith.fl ((2 : ℝ) ^ ((2 * k + 29 : ℕ) : ℤ)) = (2 : ℝ) ^ ((2 * k + 29 : ℕ) : ℤ) := Mag.fl_pow F _
    rw [F.arith.odd, b10] at b8
    rw [b10] at b9
    exact abs_le.2 ⟨b8, b9⟩
  · rintro x y ⟨h1, h2⟩
    exact key h1 h2

/-- **C91.** In `f32` and `f64`, for a rate and a face value that are zero or of a magnitude between `2 ^ -k` and `2 ^ k`, `k`
being about half the largest exponent: every amount is a finite number, with the error bounds of C77.  Missing for the full
property: rates and face values beyond. -/
theorem C91_flows_partial (k : Nat) (hk : 2 * k + 30 ≤ F.emax) (hF : 40 ≤ F.emax) (id : String) (issue first pen mat : Date)
    (f : Frequency) (rate face : Ieee F) (hr : Moderate k rate) (hf : Moderate k face) (b : Bond (Ieee F))
    (h : Bond.new id issue first pen mat f rate face = .ok (some b)) :
    ∃ b', Bond.new id issue first pen mat f (real rate) (real face) = .ok (some b') ∧
      b.bondCashFlows.length = b'.bondCashFlows.length ∧
      ∀ i g g', b.bondCashFlows[i]? = some g → b'.bondCashFlows[i]? = some g' →
        g.dueDate = g'.dueDate ∧ g.paymentDate = g'.paymentDate ∧ ∃ r, IsNumber g.paymentAmount r ∧
        (i + 1 < b.bondCashFlows.length → |r - g'.paymentAmount| ≤ 10 * roundoff F * |g'.paymentAmount|) ∧
        (i + 1 = b.bondCashFlows.length →
          |r - g'.paymentAmount| ≤ 10 * roundoff F * (|real face| + |g'.paymentAmount - real face|)) := by
  have hs := bond_same k hk hF rate face hr hf f id issue first pen mat
  rw [h] at hs
  obtain ⟨ρ, nr, -⟩ := hr
  obtain ⟨φ, nf, -⟩ := hf
  match e : Bond.new id issue first pen mat f (Ieee.toFl rate) (Ieee.toFl face) with
  | .panic => rw [e] at hs; exact hs.elim
  | .ok none => rw [e] at hs; exact hs.elim
  | .ok (some bf) =>
    rw [e] at hs
    obtain ⟨b', h1, h2, h3⟩ := C77_flows _ _ _ _ _ _ _ _ bf e
    rw [Ieee.toFl_val nr, Ieee.toFl_val nf] at h1
    rw [Ieee.toFl_val nf] at h3
    rw [F.unit_arith] at h3
    rw [real_eq nr, real_eq nf]
    obtain ⟨-, l, l', x, y, e1, e2, hl, hxy⟩ := hs
    have hall : List.Forall₂ (FlowRel fun x y => IsNumber x y.val) b.bondCashFlows bf.bondCashFlows := by
      rw [e1, e2]
      exact List.rel_append hl (.cons hxy .nil)
    have hlen := hall.length_eq
    refine ⟨b', h1, hlen.trans h2, ?_⟩
    intro i g g' hg hg'
    obtain ⟨hi, rfl⟩ := List.getElem?_eq_some_iff.1 hg
    have hrel := (List.forall₂_iff_get.1 hall).2 i hi (by omega)
    obtain ⟨r1, r2, r3⟩ := hrel
    obtain ⟨s1, s2, s3, s4⟩ := h3 i _ g' (List.getElem?_eq_getElem (by omega)) hg'
    exact ⟨r1.trans s1, r2.trans s2, _, r3, fun h => s3 (by omega), fun h => s4 (by omega)⟩

/-- In `f32` with `k = 48`: rate 1 and face value 1. -/
example : ∃ b b', Bond.new "b" ⟨2024, 7, 1, by decide⟩ ⟨2025, 1, 1, by decide⟩ ⟨2025, 1, 1, by decide⟩
      ⟨2025, 7, 1, by decide⟩ .sa (1 : Ieee .binary32) 1 = .ok (some b) ∧
    Bond.new "b" ⟨2024, 7, 1, by decide⟩ ⟨2025, 1, 1, by decide⟩ ⟨2025, 1, 1, by decide⟩ ⟨2025, 7, 1, by decide⟩ .sa
      (1 : ℝ) 1 = .ok (some b') ∧ b.bondCashFlows.length = 2 ∧
    ∀ (i : Nat) g, b.bondCashFlows[i]? = some g → IsFinite g.paymentAmount := by
  have h1 : Moderate 48 (1 : Ieee .binary32) := ⟨1, Ieee.one_number, Or.inr ⟨by norm_num, by norm_num⟩⟩
  obtain ⟨q, hq⟩ : ∃ q, FromInt.fromInt (V := Ieee .binary32) 2 = some q := ⟨_, rfl⟩
  have h := one_coupon_bond q 1 1 hq
  obtain ⟨b', e1, e2, e3⟩ := C91_flows_partial (F := .binary32) 48 (by norm_num [IeeeFormat.binary32])
    (by norm_num [IeeeFormat.binary32]) "b" ⟨2024, 7, 1, by decide⟩ ⟨2025, 1, 1, by decide⟩ ⟨2025, 1, 1, by decide⟩
    ⟨2025, 7, 1, by decide⟩ .sa 1 1 h1 h1 _ h
  rw [real_eq Ieee.one_number] at e1
  refine ⟨_, b', h, e1, rfl, fun i g hg => ?_⟩
  obtain ⟨hi, -⟩ := List.getElem?_eq_some_iff.1 hg
  obtain ⟨-, -, r, hr, -⟩ := e3 i g _ hg (List.getElem?_eq_getElem (by omega))
  exact ⟨r, hr⟩

/-- Refused and panicking bonds exist, in `f32` with NaN for a rate: the first coupon is after the penultimate one. -/
example : Bond.new "b" ⟨2024, 7, 1, by decide⟩ ⟨2025, 1, 2, by decide⟩ ⟨2025, 1, 1, by decide⟩ ⟨2025, 7, 1, by decide⟩ .sa
    (.nan : Ieee .binary32) 1 = .panic := by
  rw [(C91_same_outcome _ _ _ _ _ _ _ _ (0 : ℝ) 0).1]
  have h : Bond.regularLoop Frequency.sa.months Frequency.sa.months_pos ((0 : ℝ) * 0 / ((2 : ℤ) : ℝ)) ⟨2025, 1, 1, by decide⟩
      ⟨2025, 1, 2, by decide⟩ = some [] := Bond.regularLoop_nil _ _ _ (by decide)
  have a1 : Date.checkedSubMonths ⟨2025, 1, 2, by decide⟩ Frequency.sa.months = some ⟨2024, 7, 2, by decide⟩ := by decide +kernel
  have a2 : Date.checkedSubMonths ⟨2024, 7, 2, by decide⟩ Frequency.sa.months = some ⟨2024, 1, 2, by decide⟩ := by decide +kernel
  unfold Bond.new
  simp only [ExactCast.fromInt_eq]
  rw [show ((Frequency.sa.toNat : ℕ) : ℤ) = 2 from rfl, h]
  unfold Bond.firstCashFlow
  simp only [a1, a2, ExactCast.fromInt_eq]
  rw [if_neg (by decide), if_pos (by decide)]
  rfl

/-- **C91 (violated).** In every format: with the rate 2 and the largest finite face value, every payment is infinite. -/
theorem C91_refuted : ∃ l two : Ieee F, IsNumber l F.largest ∧ IsNumber two 2 ∧
    ∃ b, Bond.new "b" ⟨2024, 7, 1, by decide⟩ ⟨2025, 1, 1, by decide⟩ ⟨2025, 1, 1, by decide⟩ ⟨2025, 7, 1, by decide⟩ .sa
      two l = .ok (some b) ∧ b.bondCashFlows.length = 2 ∧ ∀ g ∈ b.bondCashFlows, g.paymentAmount = .inf false := by
  set l : Ieee F := .fin false F.largest F.largest_pos.le F.largest_representable with hl
  have nl : IsNumber l F.largest := ⟨_, _, _, rfl⟩
  obtain ⟨q, hq, nq⟩ := Ieee.fromInt_number (F := F) 2 (le_trans (by norm_num : |(2 : ℤ)| ≤ 2 ^ 24)
    (pow_le_pow_right₀ (by norm_num) F.prec_ge))
  have e1 : q * l / q = .inf false := by
    obtain ⟨s, h, r, rfl⟩ := nq
    have hs : s = false := by
      cases s with
      | false => rfl
      | true => exact absurd (show ((2 : ℤ) : ℝ) ≤ 0 from h) (by norm_num)
    subst hs
    have e : (.fin false ((2 : ℤ) : ℝ) h r * l : Ieee F) = Ieee.ofReal F (false ^^ false) (((2 : ℤ) : ℝ) * F.largest) := rfl
    rw [e, show ((2 : ℤ) : ℝ) * F.largest = F.largest + F.largest by push_cast; ring, double_largest]
    rfl
  refine ⟨l, q, nl, by exact_mod_cast nq, _, one_coupon_bond q q l hq, rfl, ?_⟩
  rw [e1]
  intro g hg
  simp only [List.mem_cons, List.not_mem_nil, or_false] at hg
  rcases hg with rfl | rfl <;> rfl

end Qlab.Props
