import Verif.Props.FlatFloat

/-!
# Chained discount factors in `f32` and `f64` (C114)

Multiplying the discount factors of consecutive periods gives that of the whole, up to the rounding of the last subtraction and of
`exp`: errors of interpolated yields cancel, so that neither the interpolator nor the yields matter.
-/

namespace Qlab.Spec

variable {F : IeeeFormat} [HasExp (Ieee F)]

/-- The curve's discount factor from `p.1` to `p.2` is the number `r`, neither below `exp (-L)` nor above `exp L`. -/
def IsFactor (D : DayCount (Ieee F)) (I : Interpolator (Ieee F)) (s : Date) (ms : List Date) (ys : List (Ieee F)) (L : ℝ)
    (p : Date × Date) (r : ℝ) : Prop :=
  ∃ w, curveDiscount D I s ms ys p.1 p.2 = .ok (.ok w) ∧ IsNumber w r ∧ Real.exp (-L) ≤ r ∧ r ≤ Real.exp L

end Qlab.Spec

namespace Qlab.Props

open Spec

variable {F : IeeeFormat}

/-- If a difference is a number, so are its operands. -/
theorem sub_number_inv {a b : Ieee F} {x : ℝ} (h : IsNumber (a - b) x) :
    ∃ p q, IsNumber a p ∧ IsNumber b q ∧ x = F.arith.fl (p - q) := by
  cases a with
  | nan => obtain ⟨_, _, _, h⟩ := h; cases h
  | inf s =>
    cases b with
    | nan => obtain ⟨_, _, _, h⟩ := h; cases h
    | inf t =>
      obtain ⟨_, _, _, h⟩ := h
      change (if s = !t then Ieee.inf s else Ieee.nan) = _ at h
      split at h <;> cases h
    | fin t y hy ry => obtain ⟨_, _, _, h⟩ := h; cases h
  | fin s p hp rp =>
    cases b with
    | nan => obtain ⟨_, _, _, h⟩ := h; cases h
    | inf t => obtain ⟨_, _, _, h⟩ := h; cases h
    | fin t q hq rq =>
      refine ⟨p, q, ⟨_, _, _, rfl⟩, ⟨_, _, _, rfl⟩, ?_⟩
      have n : IsNumber (-(.fin t q hq rq : Ieee F)) (-q) := Ieee.neg_number ⟨_, _, _, rfl⟩
      have e := F.round_add rp.1 (Ieee.rep_of_isNumber n).1
      change IsNumber (Ieee.ofReal F _ (p + -q)) x at h
      unfold Ieee.ofReal at h
      split at h
      · rw [sub_eq_add_neg, ← e]
        exact Ieee.isNumber_inj h ⟨_, _, _, rfl⟩
      · obtain ⟨_, _, _, h⟩ := h; cases h

/-- A curve keeps the settlement date it is built with. -/
theorem new_settlement {V : Type} {D : DayCount V} {I : Interpolator V} {s : Date} {ms : List Date} {ys : List V}
    {c : YieldCurve V I} (h : YieldCurve.new D I s ms ys = .ok (.ok c)) : c.settlementDate = s := by
  unfold YieldCurve.new at h
  split at h
  · cases h
  match hf : YieldCurve.fractions D s ms with
  | .panic => rw [hf] at h; cases h
  | .ok (.error e) => rw [hf] at h; cases h
  | .ok (.ok ts) =>
    rw [hf] at h
    simp only [Rust.ok_bind] at h
    match ht : I.tryFit I.default (ts.zip ys) with
    | .panic => rw [ht] at h; cases h
    | .ok (.error e) => rw [ht] at h; cases h
    | .ok (.ok st) =>
      rw [ht] at h
      obtain rfl := Except.ok.inj (Rust.ok.inj h)
      rfl

section
variable [HasExp (Ieee F)]

/-- A factor that is neither tiny nor huge tells its exponent. -/
theorem exp_inv (hE : IeeeExp F) {B ε L r : ℝ} (hε : IeeeExpWithin F B ε) (hε1 : ε ≤ 1 / 2) {b e : Ieee F}
    (hb : IsNumber b B) (hL : 0 ≤ L) (hLB : L + 1 ≤ B) (hr : IsNumber (HasExp.exp e) r) (h0 : Real.exp (-L) ≤ r)
    (h1 : r ≤ Real.exp L) :
    ∃ x, IsNumber e x ∧ |x| ≤ L + 1 ∧ (1 - ε) * Real.exp x ≤ r ∧ r ≤ (1 + ε) * Real.exp x := by
  have hB0 : 0 ≤ B := by linarith
  have two : (2 : ℝ) < Real.exp 1 := by have := Real.exp_one_gt_d9; linarith
  have lo := Real.exp_pos (-L)
  have hi := Real.exp_pos L
  obtain ⟨rb, nb, eb⟩ := hε b B hb (by rw [abs_of_nonneg hB0])
  obtain ⟨rc, nc, ec⟩ := hε (-b) (-B) (Ieee.neg_number hb) (by rw [abs_neg, abs_of_nonneg hB0])
  have ne : e ≠ .nan := by
    rintro rfl
    rw [hE.nan] at hr
    exact absurd rfl (Ieee.value_ne_nan (Ieee.value_number hr))
  have top : e ≤ b := by
    by_contra hcon
    have hbe : b ≤ e := by
      have : ¬ ¬ b < e := fun h => hcon (Ieee.le_of_not_lt ne (Ieee.value_ne_nan (Ieee.value_number hb)) h)
      exact Ieee.le_of_lt' (not_not.1 this)
    have h := (Ieee.le_number nb hr).1 (hE.mono _ _ hbe)
    have h2 : Real.exp 1 * Real.exp L ≤ Real.exp B := by
      rw [← Real.exp_add]; exact Real.exp_le_exp.2 (by linarith)
    have h3 : 2 * Real.exp L < Real.exp 1 * Real.exp L := mul_lt_mul_of_pos_right two hi
    have h4 := (abs_le.1 eb).1
    have h5 : ε * Real.exp B ≤ 1 / 2 * Real.exp B := mul_le_mul_of_nonneg_right hε1 (Real.exp_pos _).le
    linarith
  have bot : -b ≤ e := by
    by_contra hcon
    have hbe : e ≤ -b := by
      have : ¬ ¬ e < -b := fun h => hcon (Ieee.le_of_not_lt (Ieee.value_ne_nan (Ieee.value_number (Ieee.neg_number hb))) ne h)
      exact Ieee.le_of_lt' (not_not.1 this)
    have h := (Ieee.le_number hr nc).1 (hE.mono _ _ hbe)
    have h2 : Real.exp 1 * Real.exp (-B) ≤ Real.exp (-L) := by
      rw [← Real.exp_add]; exact Real.exp_le_exp.2 (by linarith)
    have h3 : 2 * Real.exp (-B) < Real.exp 1 * Real.exp (-B) := mul_lt_mul_of_pos_right two (Real.exp_pos _)
    have h4 := (abs_le.1 ec).2
    have h5 : ε * Real.exp (-B) ≤ 1 / 2 * Real.exp (-B) := mul_le_mul_of_nonneg_right hε1 (Real.exp_pos _).le
    have := Real.exp_pos (-B)
    linarith
  obtain ⟨x, hx⟩ : ∃ x, IsNumber e x := by
    cases e with
    | nan => exact absurd rfl ne
    | inf t =>
      cases t
      · rcases top with ⟨u, v, hu, hv, huv⟩
        rw [Ieee.value_number hb] at hv
        obtain rfl := Option.some.inj hv
        obtain rfl := Option.some.inj hu
        simp at huv
      · exact absurd bot (Ieee.not_le_negInf (Ieee.neg_number hb))
    | fin t x h1 h2 => exact ⟨x, _, _, _, rfl⟩
  have x1 := (Ieee.le_number hx hb).1 top
  have x2 := (Ieee.le_number (Ieee.neg_number hb) hx).1 bot
  obtain ⟨r', nr, er⟩ := hε e x hx (abs_le.2 ⟨x2, x1⟩)
  obtain rfl := Ieee.isNumber_inj hr nr
  have g1 : (1 - ε) * Real.exp x ≤ r := by have := (abs_le.1 er).1; linarith
  have g2 : r ≤ (1 + ε) * Real.exp x := by have := (abs_le.1 er).2; linarith
  refine ⟨x, hx, abs_le.2 ⟨?_, ?_⟩, g1, g2⟩
  · by_contra hcon
    have h2 : Real.exp 1 * Real.exp x ≤ Real.exp (-L) := by
      rw [← Real.exp_add]; exact Real.exp_le_exp.2 (by linarith)
    have h3 : 2 * Real.exp x < Real.exp 1 * Real.exp x := mul_lt_mul_of_pos_right two (Real.exp_pos _)
    have h5 : ε * Real.exp x ≤ 1 / 2 * Real.exp x := mul_le_mul_of_nonneg_right hε1 (Real.exp_pos _).le
    have := Real.exp_pos x
    linarith
  · by_contra hcon
    have h2 : Real.exp 1 * Real.exp L ≤ Real.exp x := by
      rw [← Real.exp_add]; exact Real.exp_le_exp.2 (by linarith)
    have h3 : 2 * Real.exp L < Real.exp 1 * Real.exp L := mul_lt_mul_of_pos_right two hi
    have h5 : ε * Real.exp x ≤ 1 / 2 * Real.exp x := mul_le_mul_of_nonneg_right hε1 (Real.exp_pos _).le
    linarith

/-- Time by yield at a date, as a real number; zero at the settlement date. -/
noncomputable def timesYield {I : Interpolator (Ieee F)} (D : DayCount (Ieee F)) (c : YieldCurve (Ieee F) I) (d : Date) : ℝ :=
  if d = c.settlementDate then 0 else
    match D c.settlementDate d with
    | .ok (.ok t) =>
      match I.tryValue c.interpolator t with
      | .ok (.ok y) => real (t * y)
      | _ => 0
    | _ => 0

omit [HasExp (Ieee F)] in
theorem timesYield_eq {I : Interpolator (Ieee F)} {D : DayCount (Ieee F)} {c : YieldCurve (Ieee F) I} {d : Date}
    (h : d ≠ c.settlementDate) {t y : Ieee F} (ht : D c.settlementDate d = .ok (.ok t))
    (hy : I.tryValue c.interpolator t = .ok (.ok y)) {p : ℝ} (hp : IsNumber (t * y) p) : timesYield D c d = p := by
  unfold timesYield
  rw [if_neg h]
  simp only [ht, hy]
  exact Ieee.isNumber_inj (real_number ⟨p, hp⟩) hp

/-- The exponent of a discount factor that is neither tiny nor huge. -/
theorem factor_exponent (hE : IeeeExp F) {B ε L r : ℝ} (hε : IeeeExpWithin F B ε) (hε1 : ε ≤ 1 / 2) {b : Ieee F}
    (hb : IsNumber b B) (hL : 0 ≤ L) (hLB : L + 1 ≤ B) {I : Interpolator (Ieee F)} {D : DayCount (Ieee F)}
    {c : YieldCurve (Ieee F) I} {d1 d2 : Date} (h2 : c.settlementDate < d2) {w : Ieee F}
    (hw : c.discountFactor D d1 d2 = .ok (.ok w)) (hr : IsNumber w r) (h0 : Real.exp (-L) ≤ r) (h1 : r ≤ Real.exp L) :
    ∃ x, |x| ≤ L + 1 ∧ (1 - ε) * Real.exp x ≤ r ∧ r ≤ (1 + ε) * Real.exp x ∧
      |x - (timesYield D c d1 - timesYield D c d2)| ≤ 2 * roundoff F * (L + 1) := by
  have hu : 0 < roundoff F := F.arith.unit_pos
  have hu1 : roundoff F ≤ 1 / 16777216 := F.arith.unit_le
  obtain ⟨-, -, t2, y2, ht2, hy2, ⟨e1, rfl⟩ | ⟨e1, t1, y1, ht1, hy1, rfl⟩⟩ := (C45_value_iff D c d1 d2 w).1 hw
  · obtain ⟨x, hx, hxL, g1, g2⟩ := exp_inv hE hε hε1 hb hL hLB hr h0 h1
    refine ⟨x, hxL, g1, g2, ?_⟩
    have hm : IsMinus (t2 * y2) (-t2 * y2) := IsMinus.mul (IsMinus.neg t2) y2
    have hp : IsNumber (t2 * y2) (-x) := by
      rcases IsMinus.cases hm with ⟨-, e⟩ | ⟨s, -, e⟩ | ⟨p, n1, n2⟩
      · rw [e] at hx; obtain ⟨_, _, _, h⟩ := hx; cases h
      · rw [e] at hx; obtain ⟨_, _, _, h⟩ := hx; cases h
      · rwa [Ieee.isNumber_inj hx n2, neg_neg]
    rw [timesYield_eq h2.ne' ht2 hy2 hp]
    unfold timesYield
    rw [if_pos e1, zero_sub, neg_neg, sub_self, abs_zero]
    positivity
  · obtain ⟨x, hx, hxL, g1, g2⟩ := exp_inv hE hε hε1 hb hL hLB hr h0 h1
    refine ⟨x, hxL, g1, g2, ?_⟩
    obtain ⟨p, q, hp, hq, rfl⟩ := sub_number_inv hx
    rw [timesYield_eq e1 ht1 hy1 hp, timesYield_eq h2.ne' ht2 hy2 hq]
    have e := F.arith.err' (p - q)
    rw [F.unit_arith] at e
    generalize F.arith.fl (p - q) = x at *
    have m := abs_sub_abs_le_abs_sub (p - q) x
    rw [abs_sub_comm (p - q) x] at m
    have k : roundoff F * |p - q| ≤ 1 / 2 * |p - q| := mul_le_mul_of_nonneg_right (by linarith) (abs_nonneg _)
    have k2 : roundoff F * |p - q| ≤ roundoff F * (2 * (L + 1)) := mul_le_mul_of_nonneg_left (by linarith) hu.le
    linarith

/-- The factors of consecutive periods, multiplied. -/
theorem chain_exponent (hE : IeeeExp F) {B ε L : ℝ} (hε : IeeeExpWithin F B ε) (hε0 : 0 ≤ ε) (hε1 : ε ≤ 1 / 2) {b : Ieee F}
    (hb : IsNumber b B) (hL : 0 ≤ L) (hLB : L + 1 ≤ B) {I : Interpolator (Ieee F)} {D : DayCount (Ieee F)}
    {c : YieldCurve (Ieee F) I} {ds : List Date} :
    ∀ {d0 : Date} {rs : List ℝ}, (∀ d ∈ ds, c.settlementDate < d) →
    List.Forall₂ (fun (p : Date × Date) r => ∃ w, c.discountFactor D p.1 p.2 = .ok (.ok w) ∧ IsNumber w r ∧
      Real.exp (-L) ≤ r ∧ r ≤ Real.exp L) ((d0 :: ds).zip ds) rs →
    ∃ X, (1 - ε) ^ ds.length * Real.exp X ≤ rs.prod ∧ rs.prod ≤ (1 + ε) ^ ds.length * Real.exp X ∧
      |X - (timesYield D c d0 - timesYield D c (ds.getLast?.getD d0))| ≤ ds.length * (2 * roundoff F * (L + 1)) := by
  induction ds with
  | nil =>
    intro d0 rs _ h
    obtain rfl : rs = [] := by simpa using h
    exact ⟨0, by simp, by simp, by simp⟩
  | cons d1 ds ih =>
    intro d0 rs hs h
    rw [List.zip_cons_cons] at h
    obtain ⟨r, rs, ⟨w, hw, hr, h0, h1⟩, h', rfl⟩ := List.forall₂_cons_left_iff.1 h
    obtain ⟨x, -, g1, g2, g3⟩ := factor_exponent hE hε hε1 hb hL hLB (hs d1 (by simp)) hw hr h0 h1
    obtain ⟨X, k1, k2, k3⟩ := ih (fun d hd => hs d (by simp [hd])) h'
    have hr0 : 0 < r := lt_of_lt_of_le (Real.exp_pos _) h0
    have hp : 0 ≤ rs.prod := le_trans (mul_nonneg (pow_nonneg (by linarith) _) (Real.exp_pos _).le) k1
    refine ⟨x + X, ?_, ?_, ?_⟩
    · rw [List.prod_cons, List.length_cons, pow_succ, Real.exp_add]
      calc _ = ((1 - ε) * Real.exp x) * ((1 - ε) ^ ds.length * Real.exp X) := by ring
        _ ≤ r * rs.prod := mul_le_mul g1 k1 (mul_nonneg (pow_nonneg (by linarith) _) (Real.exp_pos _).le) hr0.le
    · rw [List.prod_cons, List.length_cons, pow_succ, Real.exp_add]
      calc r * rs.prod ≤ ((1 + ε) * Real.exp x) * ((1 + ε) ^ ds.length * Real.exp X) :=
            mul_le_mul g2 k2 hp (mul_nonneg (by linarith) (Real.exp_pos _).le)
        _ = _ := by ring
    · have e : (d1 :: ds).getLast?.getD d0 = ds.getLast?.getD d1 := by
        cases ds with
        | nil => rfl
        | cons a l => simp [List.getLast?_cons]
      rw [e, List.length_cons]
      push_cast
      have := abs_add_le (x - (timesYield D c d0 - timesYield D c d1)) (X - (timesYield D c d1 - timesYield D c (ds.getLast?.getD d1)))
      rw [show x - (timesYield D c d0 - timesYield D c d1) + (X - (timesYield D c d1 - timesYield D c (ds.getLast?.getD d1))) =
        x + X - (timesYield D c d0 - timesYield D c (ds.getLast?.getD d1)) by ring] at this
      linarith

/-- **C114.** Discount factors chain in `f32` and `f64`: let `d0, d1, …, dn` be dates, `rs` the discount factors the curve returns
for the `n` periods between them and `r` the one for the whole, none of them below `exp (-L)` or above `exp L`.  Then the exact
product of `rs` and `r` differ by the errors of `exp` and a factor between `exp (-δ)` and `exp δ`, `δ = 2 (n + 1) (L + 1) u`.
Any day count, interpolator and quotes will do, accurate or not: what the curve interpolates cancels. -/
theorem C114_chain (hE : IeeeExp F) (B ε L : ℝ) (hε : IeeeExpWithin F B ε) (hε0 : 0 ≤ ε) (hε1 : ε ≤ 1 / 2) (b : Ieee F)
    (hb : IsNumber b B) (hL : 0 ≤ L) (hLB : L + 1 ≤ B) (D : DayCount (Ieee F)) (I : Interpolator (Ieee F)) (s : Date)
    (ms : List Date) (ys : List (Ieee F)) (d0 dn : Date) (ds : List Date) (hs : ∀ d ∈ ds, s < d) (hn : ds.getLast? = some dn)
    (rs : List ℝ) (r : ℝ) (hrs : List.Forall₂ (IsFactor D I s ms ys L) ((d0 :: ds).zip ds) rs)
    (hr : IsFactor D I s ms ys L (d0, dn) r) :
    ∃ δ, δ = 2 * (ds.length + 1) * (L + 1) * roundoff F ∧
      (1 - ε) ^ ds.length * Real.exp (-δ) * r ≤ (1 + ε) * rs.prod ∧
      (1 - ε) * rs.prod ≤ (1 + ε) ^ ds.length * Real.exp δ * r := by
  obtain ⟨w, hw, nr, l0, l1⟩ := hr
  unfold IsFactor curveDiscount at hrs
  unfold curveDiscount at hw
  match hc : YieldCurve.new D I s ms ys with
  | .panic => rw [hc] at hw; cases hw
  | .ok (.error e) => rw [hc] at hw; cases hw
  | .ok (.ok c) =>
    rw [hc] at hw hrs
    simp only [Rust.ok_bind] at hw hrs
    have hcs : c.settlementDate = s := new_settlement hc
    obtain ⟨X, k1, k2, k3⟩ := chain_exponent hE hε hε0 hε1 hb hL hLB (fun d hd => hcs ▸ hs d hd) hrs
    obtain ⟨x, -, g1, g2, g3⟩ := factor_exponent hE hε hε1 hb hL hLB (hcs ▸ hs dn (List.mem_of_getLast? hn)) hw nr l0 l1
    rw [hn, Option.getD_some] at k3
    have hr0 : 0 < r := lt_of_lt_of_le (Real.exp_pos _) l0
    have d : |X - x| ≤ 2 * (ds.length + 1) * (L + 1) * roundoff F := by
      have := abs_sub (X - (timesYield D c d0 - timesYield D c dn)) (x - (timesYield D c d0 - timesYield D c dn))
      rw [sub_sub_sub_cancel_right] at this
      linarith
    have d' := abs_le.1 d
    generalize 2 * ((ds.length : ℝ) + 1) * (L + 1) * roundoff F = δ at *
    have p1 : 0 ≤ (1 - ε) ^ ds.length := pow_nonneg (by linarith) _
    have p2 : 0 ≤ (1 + ε) ^ ds.length := pow_nonneg (by linarith) _
    have s1 : Real.exp (-δ) * Real.exp x ≤ Real.exp X := by rw [← Real.exp_add]; exact Real.exp_le_exp.2 (by linarith)
    have s2 : Real.exp X ≤ Real.exp δ * Real.exp x := by rw [← Real.exp_add]; exact Real.exp_le_exp.2 (by linarith)
    refine ⟨δ, rfl, ?_, ?_⟩
    · calc (1 - ε) ^ ds.length * Real.exp (-δ) * r ≤ (1 - ε) ^ ds.length * Real.exp (-δ) * ((1 + ε) * Real.exp x) :=
            mul_le_mul_of_nonneg_left g2 (mul_nonneg p1 (Real.exp_pos _).le)
        _ = (1 + ε) * ((1 - ε) ^ ds.length * (Real.exp (-δ) * Real.exp x)) := by ring
        _ ≤ (1 + ε) * ((1 - ε) ^ ds.length * Real.exp X) :=
            mul_le_mul_of_nonneg_left (mul_le_mul_of_nonneg_left s1 p1) (by linarith)
        _ ≤ (1 + ε) * rs.prod := mul_le_mul_of_nonneg_left k1 (by linarith)
    · calc (1 - ε) * rs.prod ≤ (1 - ε) * ((1 + ε) ^ ds.length * Real.exp X) := mul_le_mul_of_nonneg_left k2 (by linarith)
        _ ≤ (1 - ε) * ((1 + ε) ^ ds.length * (Real.exp δ * Real.exp x)) :=
            mul_le_mul_of_nonneg_left (mul_le_mul_of_nonneg_left s2 p2) (by linarith)
        _ = (1 + ε) ^ ds.length * Real.exp δ * ((1 - ε) * Real.exp x) := by ring
        _ ≤ _ := mul_le_mul_of_nonneg_left g1 (mul_nonneg p2 (Real.exp_pos _).le)

end

/-- In `f32` with a correctly rounded `exp` and a flat yield of 1/32: two periods and the whole. -/
example : letI := roundedExp .binary32
    ∃ y : Ieee .binary32, ∃ r₁ r₂ r δ : ℝ, IsNumber y (1 / 32) ∧
      IsFactor DayCount.act360 (Interpolator.linear _) gridSettle gridMaturities [y, y, y] 2 (gridSettle, gridMid1) r₁ ∧
      IsFactor DayCount.act360 (Interpolator.linear _) gridSettle gridMaturities [y, y, y] 2 (gridMid1, gridMid2) r₂ ∧
      IsFactor DayCount.act360 (Interpolator.linear _) gridSettle gridMaturities [y, y, y] 2 (gridSettle, gridMid2) r ∧
      δ = 18 * roundoff .binary32 ∧
      (1 - roundoff .binary32) ^ 2 * Real.exp (-δ) * r ≤ (1 + roundoff .binary32) * (r₁ * r₂) ∧
      (1 - roundoff .binary32) * (r₁ * r₂) ≤ (1 + roundoff .binary32) ^ 2 * Real.exp δ * r := by
  let _ := roundedExp .binary32
  obtain ⟨b, hb⟩ := IeeeFormat.exists_number (representable_dyadic (F := .binary32) 60 0 (by norm_num [IeeeFormat.binary32])
    (by norm_num [IeeeFormat.binary32]))
  have hb : IsNumber b 60 := by norm_num at hb; exact hb
  obtain ⟨y, hy⟩ := IeeeFormat.exists_number (representable_dyadic (F := .binary32) 1 5 (by norm_num [IeeeFormat.binary32])
    (by norm_num [IeeeFormat.binary32]))
  have hy : IsNumber y (1 / 32) := by norm_num at hy ⊢; exact hy
  have hys : ∀ z ∈ [y, y, y], IsNumber z (1 / 32) := by
    intro z hz
    obtain rfl : z = y := by simpa using hz
    exact hy
  have hu : (0 : ℝ) < roundoff .binary32 := IeeeFormat.binary32.arith.unit_pos
  have hu1 : roundoff .binary32 ≤ 1 / 16777216 := IeeeFormat.binary32.arith.unit_le
  have sm : smallest .binary32 ≤ 1 / 8 := by
    unfold smallest
    norm_num [IeeeFormat.bottom, IeeeFormat.binary32]
  have sm0 : 0 < smallest .binary32 := Binary.zpow_pos' _
  have c1 : Covers gridMaturities gridMid1 := by unfold Covers gridMaturities; decide
  have c2 : Covers gridMaturities gridMid2 := by unfold Covers gridMaturities; decide
  have a : |(1 / 32 : ℝ)| = 1 / 32 := abs_of_pos (by norm_num)
  have fac : ∀ d1 d2 : Date, gridSettle ≤ d1 → d1 ≤ d2 → (d1 = gridSettle ∨ Covers gridMaturities d1) → Covers gridMaturities d2 →
      (∀ d ∈ [d1, d2], d ∈ gridSettle :: gridMid1 :: gridMid2 :: gridMaturities) → Date.sub d2 gridSettle ≤ 1080 → ∃ r,
      IsFactor DayCount.act360 (Interpolator.linear (Ieee .binary32)) gridSettle gridMaturities [y, y, y] 2 (d1, d2) r := by
    intro d1 d2 h1 h2 h3 h4 h5 h6
    have y2 : years 360 gridSettle d2 ≤ 3 := by
      have : ((Date.sub d2 gridSettle : Int) : ℝ) ≤ 1080 := by exact_mod_cast h6
      unfold years
      rw [div_le_iff₀ (by norm_num)]
      norm_num
      linarith
    have z1 := years_nonneg (N := 360) (by norm_num) h1
    have z2 := years_nonneg (N := 360) (by norm_num) (h1.trans h2)
    have z3 := years_nonneg (N := 360) (by norm_num) h2
    have sp : years 360 d1 d2 = years 360 gridSettle d2 - years 360 gridSettle d1 := by
      have : Date.sub d2 d1 = Date.sub d2 gridSettle - Date.sub d1 gridSettle := by simp only [C04_sub_serial]; ring
      unfold years
      rw [this]
      push_cast
      ring
    obtain ⟨w, r, δ, e, hr, hδ, lo, hi⟩ := C113_flat_accuracy (by norm_num [IeeeFormat.binary32]) 60 _
      (roundedExp_within .binary32 (by norm_num [IeeeFormat.binary32])) hu.le
      (by linarith) (D := DayCount.act360) (.inl ⟨rfl, rfl⟩) gridSettle gridMaturities [y, y, y]
      (1 / 32) (by norm_num [IeeeFormat.binary32]) rfl (by decide) gridMaturities_increasing hys d1 d2 h1 h2 h3 h4 (by
        intro d hd
        refine lt_of_le_of_lt ?_ (span_lt _)
        rcases List.mem_cons.1 hd with rfl | hd
        · exact grid_near _ (h5 _ (by simp))
        rcases List.mem_cons.1 hd with rfl | hd
        · exact grid_near _ (h5 _ (by simp))
        · exact grid_near _ (by simp [hd])) (by rw [a]; linarith)
    have dl : δ ≤ 1 / 2 := by
      rw [hδ, a]
      have : roundoff .binary32 * (years 360 gridSettle d1 + years 360 gridSettle d2) ≤ 1 / 16777216 * 6 :=
        mul_le_mul hu1 (by linarith) (by linarith) (by norm_num)
      linarith
    have dl0 : 0 ≤ δ := by
      rw [hδ]
      have : 0 ≤ 4 * roundoff .binary32 * |(1 / 32 : ℝ)| * (years 360 gridSettle d1 + years 360 gridSettle d2) :=
        mul_nonneg (mul_nonneg (by linarith) (abs_nonneg _)) (by linarith)
      linarith
    refine ⟨r, w, e, hr, le_trans ?_ lo, le_trans hi ?_⟩
    · have h : Real.exp (-1) ≤ 1 - roundoff .binary32 := by
        have := Real.exp_neg_one_lt_d9
        linarith
      rw [mul_assoc, ← Real.exp_add]
      calc Real.exp (-2) ≤ Real.exp (-1) * Real.exp (-δ + -(1 / 32) * years 360 d1 d2) := by
            rw [← Real.exp_add]; exact Real.exp_le_exp.2 (by linarith)
        _ ≤ _ := mul_le_mul_of_nonneg_right h (Real.exp_pos _).le
    · have h : 1 + roundoff .binary32 ≤ Real.exp 1 := by
        have := Real.exp_one_gt_d9
        linarith
      rw [mul_assoc, ← Real.exp_add]
      calc _ ≤ Real.exp 1 * Real.exp (δ + -(1 / 32) * years 360 d1 d2) := mul_le_mul_of_nonneg_right h (Real.exp_pos _).le
        _ ≤ Real.exp 2 := by rw [← Real.exp_add]; exact Real.exp_le_exp.2 (by linarith)
  obtain ⟨r₁, f1⟩ := fac gridSettle gridMid1 (le_refl _) (by decide) (.inl rfl) c1 (by simp) (by decide +kernel)
  obtain ⟨r₂, f2⟩ := fac gridMid1 gridMid2 (by decide) (by decide) (.inr c1) c2 (by simp) (by decide +kernel)
  obtain ⟨r, f⟩ := fac gridSettle gridMid2 (le_refl _) (by decide) (.inl rfl) c2 (by simp) (by decide +kernel)
  obtain ⟨δ, hδ, k1, k2⟩ := C114_chain (roundedExp_sound _) 60 _ 2 (roundedExp_within .binary32 (by norm_num [IeeeFormat.binary32])) hu.le
    (by linarith) b hb (by norm_num) (by norm_num) DayCount.act360 (Interpolator.linear (Ieee .binary32)) gridSettle gridMaturities
    [y, y, y] gridSettle gridMid2 [gridMid1, gridMid2] (by decide) rfl [r₁, r₂] r (.cons f1 (.cons f2 .nil)) f
  refine ⟨y, r₁, r₂, r, δ, hy, f1, f2, f, ?_, ?_, ?_⟩
  · rw [hδ]; norm_num
  · simpa using k1
  · simpa using k2

end Qlab.Props
