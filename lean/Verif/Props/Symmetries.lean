import Verif.Lemmas.IeeeOrder
import Verif.Lemmas.UnitChange
import Verif.Props.IeeeFlows

/-!
# Exact symmetries of floating-point results (C109)
-/

namespace Qlab

open Spec

/-! ## Minus -/

namespace IsMinus
variable {F : IeeeFormat} {a b c d : Ieee F}

theorem cases (h : IsMinus a b) :
    (a = .nan ∧ b = .nan) ∨ (∃ s, a = .inf s ∧ b = .inf !s) ∨ ∃ x, IsNumber a x ∧ IsNumber b (-x) := by
  unfold Spec.IsMinus at h
  cases a with
  | nan =>
    cases b with
    | nan => exact .inl ⟨rfl, rfl⟩
    | inf t => cases h
    | fin t y hy ry => cases h
  | inf s =>
    cases b with
    | nan => cases h
    | inf t =>
      refine .inr (.inl ⟨s, rfl, ?_⟩)
      cases s <;> cases t <;> simp [Ieee.value] at h ⊢
    | fin t y hy ry => cases s <;> simp [Ieee.value] at h
  | fin s x hx rx =>
    cases b with
    | nan => cases h
    | inf t => cases t <;> simp [Ieee.value, ← EReal.coe_neg] at h
    | fin t y hy ry =>
      refine .inr (.inr ⟨x, ⟨_, _, _, rfl⟩, ?_⟩)
      simp only [Ieee.value, Option.map_some, Option.some.injEq, ← EReal.coe_neg, EReal.coe_eq_coe_iff] at h
      subst h
      exact ⟨_, _, _, rfl⟩

theorem nan : IsMinus (.nan : Ieee F) .nan := rfl

theorem inf (s : Bool) : IsMinus (.inf s : Ieee F) (.inf !s) := by
  cases s <;> simp [Spec.IsMinus, Ieee.value]

theorem number {x : ℝ} (ha : IsNumber a x) (hb : IsNumber b (-x)) : IsMinus a b := by
  obtain ⟨_, _, _, rfl⟩ := ha
  obtain ⟨_, _, _, rfl⟩ := hb
  simp [Spec.IsMinus, Ieee.value]

theorem ofReal (s t : Bool) (x : ℝ) : IsMinus (Ieee.ofReal F s x) (Ieee.ofReal F t (-x)) := by
  unfold Spec.IsMinus
  rw [Ieee.value_ofReal, Ieee.value_ofReal, EReal.coe_neg, F.roundExt_neg]; rfl

theorem ofReal' (x y : ℝ) (h : y = -x) (s t : Bool) : IsMinus (Ieee.ofReal F s x) (Ieee.ofReal F t y) := h ▸ ofReal s t x

theorem neg (a : Ieee F) : IsMinus a (-a) := by
  cases a with
  | nan => rfl
  | inf s => exact inf s
  | fin s x h r => exact number ⟨_, _, _, rfl⟩ ⟨_, _, _, rfl⟩

theorem neg_neg (h : IsMinus a b) : IsMinus (-a) (-b) := by
  rcases cases h with ⟨rfl, rfl⟩ | ⟨s, rfl, rfl⟩ | ⟨x, ⟨_, _, _, rfl⟩, ⟨_, _, _, rfl⟩⟩
  · exact nan
  · exact inf _
  · exact number ⟨_, _, _, rfl⟩ ⟨_, _, _, rfl⟩

theorem add (h : IsMinus a b) (g : IsMinus c d) : IsMinus (a + c) (b + d) := by
  rcases cases h with ⟨rfl, rfl⟩ | ⟨s, rfl, rfl⟩ | ⟨x, ⟨_, _, _, rfl⟩, ⟨_, _, _, rfl⟩⟩
  · exact nan
  · rcases cases g with ⟨rfl, rfl⟩ | ⟨t, rfl, rfl⟩ | ⟨y, ⟨_, _, _, rfl⟩, ⟨_, _, _, rfl⟩⟩
    · exact nan
    · cases s <;> cases t
      · exact inf false
      · exact nan
      · exact nan
      · exact inf true
    · exact inf s
  · rcases cases g with ⟨rfl, rfl⟩ | ⟨t, rfl, rfl⟩ | ⟨y, ⟨_, _, _, rfl⟩, ⟨_, _, _, rfl⟩⟩
    · exact nan
    · exact inf t
    · exact ofReal' (x + y) (-x + -y) (by ring) _ _

theorem sub (h : IsMinus a b) (g : IsMinus c d) : IsMinus (a - c) (b - d) := add h (neg_neg g)

/-- The sign bit of the opposite of a number other than zero. -/
theorem sign_flip {s t : Bool} {x : ℝ} (hs : SignFits s x) (ht : SignFits t (-x)) (hx : x ≠ 0) : t = !s := by
  rw [Ieee.sign_pos hs hx, Ieee.sign_pos ht (neg_ne_zero.2 hx)]
  rcases lt_or_gt_of_ne hx with h | h
  · simp [h, h.le]
  · simp [h, h.le]

theorem mul_comm (a b : Ieee F) : a * b = b * a := by
  cases a with
  | nan => cases b <;> rfl
  | inf s =>
    cases b with
    | nan => rfl
    | inf t => change Ieee.inf (s ^^ t) = Ieee.inf (t ^^ s); rw [Bool.xor_comm]
    | fin t y _ _ =>
      change (if y = 0 then Ieee.nan else Ieee.inf (s ^^ t)) = (if y = 0 then Ieee.nan else Ieee.inf (t ^^ s))
      rw [Bool.xor_comm]
  | fin s x _ _ =>
    cases b with
    | nan => rfl
    | inf t =>
      change (if x = 0 then Ieee.nan else Ieee.inf (s ^^ t)) = (if x = 0 then Ieee.nan else Ieee.inf (t ^^ s))
      rw [Bool.xor_comm]
    | fin t y _ _ =>
      change Ieee.ofReal F (s ^^ t) (x * y) = Ieee.ofReal F (t ^^ s) (y * x)
      rw [Bool.xor_comm, _root_.mul_comm]

theorem mul (h : IsMinus a b) (c : Ieee F) : IsMinus (a * c) (b * c) := by
  rcases cases h with ⟨rfl, rfl⟩ | ⟨s, rfl, rfl⟩ | ⟨x, ⟨s, hs, rs, rfl⟩, ⟨t, ht, rt, rfl⟩⟩
  · exact nan
  · cases c with
    | nan => exact nan
    | inf t =>
      have := inf (F := F) (s ^^ t)
      rwa [← Bool.not_xor] at this
    | fin t y _ _ =>
      change IsMinus (if y = 0 then Ieee.nan else Ieee.inf (s ^^ t)) (if y = 0 then Ieee.nan else Ieee.inf ((!s) ^^ t))
      by_cases hy : y = 0
      · rw [if_pos hy, if_pos hy]; exact nan
      · rw [if_neg hy, if_neg hy, Bool.not_xor]; exact inf _
  · cases c with
    | nan => exact nan
    | inf u =>
      change IsMinus (if x = 0 then Ieee.nan else Ieee.inf (s ^^ u)) (if -x = 0 then Ieee.nan else Ieee.inf (t ^^ u))
      by_cases hx : x = 0
      · rw [if_pos hx, if_pos (by simpa using hx)]; exact nan
      · rw [if_neg hx, if_neg (by simpa using hx), sign_flip hs ht hx, Bool.not_xor]; exact inf _
    | fin u y _ _ => exact ofReal' (x * y) (-x * y) (by ring) _ _

theorem mul_left (c : Ieee F) (h : IsMinus a b) : IsMinus (c * a) (c * b) := by
  rw [mul_comm c a, mul_comm c b]; exact mul h c

theorem div (h : IsMinus a b) (c : Ieee F) : IsMinus (a / c) (b / c) := by
  rcases cases h with ⟨rfl, rfl⟩ | ⟨s, rfl, rfl⟩ | ⟨x, ⟨s, hs, rs, rfl⟩, ⟨t, ht, rt, rfl⟩⟩
  · exact nan
  · cases c with
    | nan => exact nan
    | inf t => exact nan
    | fin t y _ _ =>
      have := inf (F := F) (s ^^ t)
      rwa [← Bool.not_xor] at this
  · cases c with
    | nan => exact nan
    | inf u => exact ofReal' 0 0 (by simp) _ _
    | fin u y _ _ =>
      change IsMinus (if y = 0 then (if x = 0 then Ieee.nan else Ieee.inf (s ^^ u)) else Ieee.ofReal F (s ^^ u) (x / y))
        (if y = 0 then (if -x = 0 then Ieee.nan else Ieee.inf (t ^^ u)) else Ieee.ofReal F (t ^^ u) (-x / y))
      by_cases hy : y = 0
      · rw [if_pos hy, if_pos hy]
        by_cases hx : x = 0
        · rw [if_pos hx, if_pos (by simpa using hx)]; exact nan
        · rw [if_neg hx, if_neg (by simpa using hx), sign_flip hs ht hx, Bool.not_xor]; exact inf _
      · rw [if_neg hy, if_neg hy]
        exact ofReal' (x / y) (-x / y) (by ring) _ _

/-- Times stay as they are, money changes its sign. -/
theorem unitChange (F : IeeeFormat) : UnitChange (V := Ieee F) (fun _ a b => b = a) (fun _ a b => IsMinus a b) where
  refl _ := rfl
  neg h := by rw [h]
  add h g := by rw [h, g]
  sub h g := by rw [h, g]
  mul h g := by rw [h, g]
  div h g := by rw [h, g]
  lt h g := by rw [h, g]
  le h g := by rw [h, g]
  zero _ := number Ieee.zero_number (by rw [_root_.neg_zero]; exact Ieee.zero_number)
  addM := add
  subM := sub
  mulM h g := by rw [h]; exact mul_left _ g
  mulM' h g := by rw [g]; exact mul h _
  divM h g := by rw [g]; exact div h _

end IsMinus

/-! ## Powers of two -/

namespace Binary

theorem lastBit_scale (p : Nat) (k : ℤ) {x : ℝ} (hx : x ≠ 0) : lastBit p (2 ^ k * x) = lastBit p x + k := by
  unfold lastBit
  rw [abs_mul, abs_of_pos (zpow_pos' k)]
  have : Int.log 2 ((2 : ℝ) ^ k * |x|) = Int.log 2 |x| + k := by
    have hpos : 0 < |x| := abs_pos.2 hx
    have hpos' : 0 < (2 : ℝ) ^ k * |x| := mul_pos (zpow_pos' k) hpos
    have h1 := Int.zpow_log_le_self (b := 2) (by norm_num) hpos
    have h2 := Int.lt_zpow_succ_log_self (b := 2) (by norm_num) |x|
    push_cast at h1 h2
    have a := (Int.zpow_le_iff_le_log (b := 2) (x := Int.log 2 |x| + k) (by norm_num) hpos').1 (by
      push_cast
      rw [zpow_add₀ (by norm_num : (2 : ℝ) ≠ 0), mul_comm]
      exact mul_le_mul_of_nonneg_left h1 (zpow_pos' k).le)
    have b := (Int.lt_zpow_iff_log_lt (b := 2) (x := Int.log 2 |x| + 1 + k) (by norm_num) hpos').1 (by
      push_cast
      rw [zpow_add₀ (by norm_num : (2 : ℝ) ≠ 0) _ k, mul_comm]
      exact mul_lt_mul_of_pos_right h2 (zpow_pos' k))
    omega
  rw [this]; ring

theorem roundTo_scale (p : Nat) (k : ℤ) (x : ℝ) : roundTo p (2 ^ k * x) = 2 ^ k * roundTo p x := by
  by_cases hx : x = 0
  · subst hx; rw [mul_zero, roundTo_zero, mul_zero]
  unfold roundTo
  rw [lastBit_scale p k hx, zpow_add₀ (by norm_num : (2 : ℝ) ≠ 0)]
  have e : 2 ^ k * x / (2 ^ lastBit p x * 2 ^ k) = x / 2 ^ lastBit p x := by
    have := (zpow_pos' k).ne'; have := (zpow_pos' (lastBit p x)).ne'
    field_simp
  rw [e]; ring

end Binary

namespace IsTimes
variable {A : FloatArith}

/-- Times are multiplied by `2 ^ p`, money by `2 ^ q`. -/
theorem unitChange (hA : RoundsAlike A) (p q : ℤ) :
    UnitChange (V := Fl A) (fun i a b => IsTimes (i * p) a b) (fun i a b => IsTimes (i * p + q) a b) := by
  have h2 : (2 : ℝ) ≠ 0 := by norm_num
  have key : ∀ (k : ℤ) (x y : ℝ), y = 2 ^ k * x → A.fl y = 2 ^ k * A.fl x := by
    rintro k x _ rfl; exact hA k x
  have hmul : ∀ {i j k : ℤ} {a b c d : Fl A}, IsTimes i a b → IsTimes j c d → i + j = k → IsTimes k (a * c) (b * d) := by
    rintro i j k a b c d h g rfl
    refine key _ _ _ ?_
    rw [show b.val = _ from h, show d.val = _ from g, zpow_add₀ h2]; ring
  have hdiv : ∀ {i j k : ℤ} {a b c d : Fl A}, IsTimes i a b → IsTimes j c d → i - j = k → IsTimes k (a / c) (b / d) := by
    rintro i j k a b c d h g rfl
    refine key _ _ _ ?_
    rw [show b.val = _ from h, show d.val = _ from g, zpow_sub₀ h2]
    exact mul_div_mul_comm _ _ _ _
  have hadd : ∀ {i : ℤ} {a b c d : Fl A}, IsTimes i a b → IsTimes i c d → IsTimes i (a + c) (b + d) := by
    rintro i a b c d h g
    refine key _ _ _ ?_
    rw [show b.val = _ from h, show d.val = _ from g]; ring
  have hsub : ∀ {i : ℤ} {a b c d : Fl A}, IsTimes i a b → IsTimes i c d → IsTimes i (a - c) (b - d) := by
    rintro i a b c d h g
    refine key _ _ _ ?_
    rw [show b.val = _ from h, show d.val = _ from g]; ring
  refine ⟨?_, ?_, hadd, hsub, ?_, ?_, ?_, ?_, ?_, hadd, hsub, ?_, ?_, ?_⟩
  · intro a; simp [Spec.IsTimes]
  · intro i a b h
    change -b.val = _ * -a.val
    rw [show b.val = _ from h]; ring
  · intro i j a b c d h g; exact hmul h g (by ring)
  · intro i j a b c d h g; exact hdiv h g (by ring)
  · intro a b c d h g
    change a.val < c.val ↔ b.val < d.val
    rw [show b.val = _ from h, show d.val = _ from g]
    exact (mul_lt_mul_iff_of_pos_left (Binary.zpow_pos' _)).symm
  · intro a b c d h g
    change a.val ≤ c.val ↔ b.val ≤ d.val
    rw [show b.val = _ from h, show d.val = _ from g]
    exact (mul_le_mul_iff_of_pos_left (Binary.zpow_pos' _)).symm
  · intro i; change (0 : ℝ) = _ * 0; ring
  · intro i j a b c d h g; exact hmul h g (by ring)
  · intro i j a b c d h g; exact hmul h g (by ring)
  · intro i j a b c d h g; exact hdiv h g (by ring)

end IsTimes

end Qlab

namespace Qlab.Props

open Spec

/-! ## Minus, in `f32` and `f64` with infinities and NaN -/

section
variable {F : IeeeFormat}

/-- **C109.** In `f32` and `f64`, negating every ordinate negates every value of every shipped interpolator exactly.
Infinities, NaN, overflow, underflow and unsorted abscissae are included; panics and errors stay as they are. -/
theorem C109_minus {I : Interpolator (Ieee F)} {n : Nat} (hI : IsShippedInterpolator I n) (pts pts' : List (Ieee F × Ieee F))
    (h : List.Forall₂ (fun p q => q.1 = p.1 ∧ IsMinus p.2 q.2) pts pts') (x : Ieee F) :
    AnswerRel (fun a b => b = a) IsMinus (evaluate I pts x) (evaluate I pts' x) :=
  (IsMinus.unitChange F).shipped rfl rfl hI h rfl

/-- **C109.** The same for Hermite splines, when the slopes are negated too. -/
theorem C109_minus_hermite (pts pts' : List (Ieee F × Ieee F × Ieee F))
    (h : List.Forall₂ (fun p q => q.1 = p.1 ∧ IsMinus p.2.1 q.2.1 ∧ IsMinus p.2.2 q.2.2) pts pts') (x : Ieee F) :
    AnswerRel (fun a b => b = a) IsMinus (evaluateHermite pts x) (evaluateHermite pts' x) :=
  (IsMinus.unitChange F).hermite h rfl

theorem minus_list (pts : List (Ieee F × Ieee F)) :
    List.Forall₂ (fun p q => q.1 = p.1 ∧ IsMinus p.2 q.2) pts (pts.map fun p => (p.1, -p.2)) := by
  induction pts with
  | nil => exact .nil
  | cons p l ih => exact .cons ⟨rfl, IsMinus.neg _⟩ ih

/-- Any points and their reflections in the axis. -/
example (pts : List (Ieee F × Ieee F)) (x : Ieee F) :
    AnswerRel (fun a b => b = a) IsMinus (evaluate (Interpolator.naturalCubic (Ieee F)) pts x)
      (evaluate (Interpolator.naturalCubic (Ieee F)) (pts.map fun p => (p.1, -p.2)) x) :=
  C109_minus (.inr (.inr ⟨rfl, rfl⟩)) _ _ (minus_list pts) x

/-- Two points: the value between 1 and minus 1 is a number, and stays one. -/
example : ∃ v w : Ieee F, evaluate (Interpolator.linear (Ieee F)) [(0, 1), (1, 0)] 0 = .ok (.ok v) ∧
    evaluate (Interpolator.linear (Ieee F)) [(0, -1), (1, -0)] 0 = .ok (.ok w) ∧ IsMinus v w := by
  obtain ⟨v, hv⟩ : ∃ v : Ieee F, evaluate (Interpolator.linear (Ieee F)) [(0, 1), (1, 0)] 0 = .ok (.ok v) := by
    have hp : partitionPoint (fun p : Point2D (Ieee F) => decide (HasX.x p < (0 : Ieee F))) [⟨0, 1⟩, ⟨1, 0⟩] = 0 := by
      have h1 : ¬ (0 : Ieee F) < 0 := by rw [Ieee.lt_number Ieee.zero_number Ieee.zero_number]; exact lt_irrefl _
      have h2 : ¬ (1 : Ieee F) < 0 := by rw [Ieee.lt_number Ieee.one_number Ieee.zero_number]; norm_num
      unfold partitionPoint
      simp [binarySearchLoop, HasX.x, h1, h2]
    have hle : (0 : Ieee F) ≤ 0 := (Ieee.le_iff_value Ieee.zero_value Ieee.zero_value).2 le_rfl
    refine ⟨1 + (0 - 1) / (1 - 0) * (0 - 0), ?_⟩
    rw [evaluate_linear]
    unfold Linear.tryValue findIndexAtLeftBoundary
    simp only [List.map_cons, List.map_nil]
    rw [hp]
    simp only [HasX.x, hle, and_self, if_true]
    rfl
  have h := C109_minus (.inl ⟨rfl, rfl⟩) _ _ (minus_list [((0 : Ieee F), 1), (1, 0)]) 0
  rw [hv] at h
  match e : evaluate (Interpolator.linear (Ieee F)) [(0, -1), (1, -0)] 0, h with
  | .ok (.ok w), h => exact ⟨v, w, hv, rfl, h⟩

/-- Any points with slopes, reflected. -/
example (pts : List (Ieee F × Ieee F × Ieee F)) (x : Ieee F) :
    AnswerRel (fun a b => b = a) IsMinus (evaluateHermite pts x)
      (evaluateHermite (pts.map fun p => (p.1, -p.2.1, -p.2.2)) x) := by
  refine C109_minus_hermite _ _ ?_ x
  induction pts with
  | nil => exact .nil
  | cons p l ih => exact .cons ⟨rfl, IsMinus.neg _, IsMinus.neg _⟩ ih

end

/-! ## Prices -/

/-- Prices over two lists of payments related by `R`. -/
theorem pvLoop_rel {V : Type} [Neg V] [Add V] [Sub V] [Mul V] [HasExp V] {R : V → V → Prop}
    (hadd : ∀ {a b c d}, R a b → R c d → R (a + c) (b + d)) (hmul : ∀ df {a b}, R a b → R (df * a) (df * b))
    {I : Interpolator V} (D : DayCount V) (c : YieldCurve V I) (s : Date) :
    ∀ (l l' : List (BondCashFlow V)) (p p' : V), List.Forall₂ (FlowRel R) l l' → R p p' →
      ResultRel R (Bond.pvLoop D s c p l) (Bond.pvLoop D s c p' l')
  | _, _, p, p', .nil, hp => hp
  | _, _, p, p', @List.Forall₂.cons _ _ _ g g' l l' hg hl, hp => by
    obtain ⟨h1, h2, h3⟩ := hg
    rw [Bond.pvLoop, Bond.pvLoop, ← h1, ← h2]
    by_cases hd : s < g.dueDate
    · rw [if_pos hd, if_pos hd]
      match hr : c.discountFactor D s g.paymentDate with
      | .panic => trivial
      | .ok (.error e) => exact rfl
      | .ok (.ok df) => exact pvLoop_rel hadd hmul D c s l l' _ _ hl (hadd hp (hmul df h3))
    · rw [if_neg hd, if_neg hd]
      exact pvLoop_rel hadd hmul D c s l l' _ _ hl hp

section
variable {F : IeeeFormat} [HasExp (Ieee F)]

/-- **C109.** In `f32` and `f64`, negating every payment negates the price exactly, whatever `exp` is. -/
theorem C109_minus_price {I : Interpolator (Ieee F)} (D : DayCount (Ieee F)) (c : YieldCurve (Ieee F) I) (s : Date)
    (b b' : Bond (Ieee F)) (h : List.Forall₂ (FlowRel IsMinus) b.bondCashFlows b'.bondCashFlows) :
    ResultRel IsMinus (b.discountedValue D s c) (b'.discountedValue D s c) :=
  pvLoop_rel IsMinus.add (fun df _ _ h => IsMinus.mul_left df h) D c s _ _ 0 0 h ((IsMinus.unitChange F).zero 0)

omit [HasExp (Ieee F)] in
/-- **C109.** In `f32` and `f64`, a bond of opposite face value has the same dates and the opposite payments. -/
theorem C109_minus_face (id : String) (issue first pen mat : Date) (f : Frequency) (rate face face' : Ieee F)
    (h : IsMinus face face') :
    SameOutcome (fun b b' => b'.bondId = b.bondId ∧ List.Forall₂ (FlowRel IsMinus) b.bondCashFlows b'.bondCashFlows)
      (Bond.new id issue first pen mat f rate face) (Bond.new id issue first pen mat f rate face') := by
  have hc : IsMinus (rate * face / Ieee.ofReal F false (f.toNat : ℤ)) (rate * face' / Ieee.ofReal F false (f.toNat : ℤ)) :=
    IsMinus.div (IsMinus.mul_left _ h) _
  have hb := bond_rel (fun n => Ieee.ofReal F false n) (fun n => Ieee.ofReal F false n) (fun _ => rfl) (fun _ => rfl)
    IsMinus IsMinus f rate face rate face' _ _ rfl rfl hc (fun n m _ _ _ => IsMinus.mul hc _)
    (fun n m _ _ _ _ => IsMinus.add hc (IsMinus.mul_left _ hc)) (fun x y hxy => IsMinus.add h hxy) id issue first pen mat
  generalize Bond.new id issue first pen mat f rate face = r at *
  generalize Bond.new id issue first pen mat f rate face' = r' at *
  match r, r', hb with
  | .panic, .panic, _ => trivial
  | .ok none, .ok none, _ => trivial
  | .ok (some b), .ok (some b'), ⟨h1, l, l', g, g', e1, e2, h2, h3⟩ =>
    refine ⟨h1.symm, ?_⟩
    rw [e1, e2]
    exact List.rel_append h2 (.cons h3 .nil)

/-- A bond that can be built, and its opposite. -/
example {I : Interpolator (Ieee F)} (D : DayCount (Ieee F)) (c : YieldCurve (Ieee F) I) (s : Date) :
    ∃ b b', Bond.new "b" ⟨2024, 7, 1, by decide⟩ ⟨2025, 1, 1, by decide⟩ ⟨2025, 1, 1, by decide⟩ ⟨2025, 7, 1, by decide⟩ .sa
        (1 : Ieee F) 1 = .ok (some b) ∧
      Bond.new "b" ⟨2024, 7, 1, by decide⟩ ⟨2025, 1, 1, by decide⟩ ⟨2025, 1, 1, by decide⟩ ⟨2025, 7, 1, by decide⟩ .sa
        (1 : Ieee F) (-1) = .ok (some b') ∧ ResultRel IsMinus (b.discountedValue D s c) (b'.discountedValue D s c) := by
  obtain ⟨q, hq⟩ : ∃ q, FromInt.fromInt (V := Ieee F) 2 = some q := ⟨_, rfl⟩
  have h := one_coupon_bond q 1 1 hq
  have h' := one_coupon_bond q 1 (-1) hq
  have hr := C109_minus_face "b" ⟨2024, 7, 1, by decide⟩ ⟨2025, 1, 1, by decide⟩ ⟨2025, 1, 1, by decide⟩
    ⟨2025, 7, 1, by decide⟩ .sa (1 : Ieee F) 1 (-1) (IsMinus.neg 1)
  rw [h, h'] at hr
  exact ⟨_, _, h, h', C109_minus_price D c s _ _ hr.2⟩

end

/-! ## Powers of two -/

/-- **C109.** `f32` and `f64`, with an unbounded exponent range, round alike at every exponent. -/
theorem C109_formats : RoundsAlike Binary.f32 ∧ RoundsAlike Binary.f64 :=
  ⟨Binary.roundTo_scale 24, Binary.roundTo_scale 53⟩

section
variable {A : FloatArith}

/-- **C109.** Away from overflow and underflow, multiplying every abscissa and the argument by `2 ^ j` and every ordinate
by `2 ^ k` multiplies every value of every shipped interpolator by exactly `2 ^ k`. -/
theorem C109_power (hA : RoundsAlike A) {I : Interpolator (Fl A)} {n : Nat} (hI : IsShippedInterpolator I n) (j k : ℤ)
    (pts pts' : List (Fl A × Fl A)) (h : List.Forall₂ (fun p q => IsTimes j p.1 q.1 ∧ IsTimes k p.2 q.2) pts pts')
    (x x' : Fl A) (hx : IsTimes j x x') : AnswerRel (IsTimes j) (IsTimes k) (evaluate I pts x) (evaluate I pts' x') := by
  have := (IsTimes.unitChange hA j k).shipped (l := pts) (l' := pts') (x := x) (x' := x') rfl rfl hI
    (h.imp fun p q h => by simpa [PointRel] using h) (by simpa using hx)
  simpa using this

/-- **C109.** The same for Hermite splines, when the slopes are multiplied by `2 ^ (k - j)`. -/
theorem C109_power_hermite (hA : RoundsAlike A) (j k : ℤ) (pts pts' : List (Fl A × Fl A × Fl A))
    (h : List.Forall₂ (fun p q => IsTimes j p.1 q.1 ∧ IsTimes k p.2.1 q.2.1 ∧ IsTimes (k - j) p.2.2 q.2.2) pts pts')
    (x x' : Fl A) (hx : IsTimes j x x') : AnswerRel (IsTimes j) (IsTimes k) (evaluateHermite pts x) (evaluateHermite pts' x') := by
  have := (IsTimes.unitChange hA j k).hermite (l := pts) (l' := pts') (x := x) (x' := x')
    (h.imp fun p q h => by simpa [UnitChange.SlopeRel, sub_eq_neg_add] using h) (by simpa using hx)
  simpa using this

/-- **C109.** Away from overflow and underflow, multiplying every payment by `2 ^ k` multiplies the price by exactly
`2 ^ k`. -/
theorem C109_power_price (hA : RoundsAlike A) (k : ℤ) {I : Interpolator (Fl A)} (D : DayCount (Fl A)) (c : YieldCurve (Fl A) I)
    (s : Date) (b b' : Bond (Fl A)) (h : List.Forall₂ (FlowRel (IsTimes k)) b.bondCashFlows b'.bondCashFlows) :
    ResultRel (IsTimes k) (b.discountedValue D s c) (b'.discountedValue D s c) := by
  have U := IsTimes.unitChange hA 0 k
  refine pvLoop_rel (R := IsTimes k) (fun h g => ?_) (fun df a b h => ?_) D c s _ _ 0 0 h ?_
  · simpa using U.addM (i := 0) (by simpa using h) (by simpa using g)
  · simpa using U.mulM (i := 0) (j := 0) (U.refl df) (by simpa using h)
  · simpa using U.zero 0

/-- **C109.** Away from overflow and underflow, a bond of `2 ^ k` times the face value has the same dates and `2 ^ k` times
the payments. -/
theorem C109_power_face (hA : RoundsAlike A) (k : ℤ) (id : String) (issue first pen mat : Date) (f : Frequency)
    (rate face face' : Fl A) (h : IsTimes k face face') :
    SameOutcome (fun b b' => b'.bondId = b.bondId ∧ List.Forall₂ (FlowRel (IsTimes k)) b.bondCashFlows b'.bondCashFlows)
      (Bond.new id issue first pen mat f rate face) (Bond.new id issue first pen mat f rate face') := by
  have U := IsTimes.unitChange hA 0 k
  have add : ∀ {a b c d : Fl A}, IsTimes k a b → IsTimes k c d → IsTimes k (a + c) (b + d) := fun h g => by
    simpa using U.addM (i := 0) (by simpa using h) (by simpa using g)
  have mul : ∀ (r : Fl A) {a b : Fl A}, IsTimes k a b → IsTimes k (r * a) (r * b) := fun r a b h => by
    simpa using U.mulM (i := 0) (j := 0) (U.refl r) (by simpa using h)
  have mul' : ∀ (r : Fl A) {a b : Fl A}, IsTimes k a b → IsTimes k (a * r) (b * r) := fun r a b h => by
    simpa using U.mulM' (i := 0) (j := 0) (by simpa using h) (U.refl r)
  have div : ∀ (r : Fl A) {a b : Fl A}, IsTimes k a b → IsTimes k (a / r) (b / r) := fun r a b h => by
    simpa using U.divM (i := 0) (j := 0) (by simpa using h) (U.refl r)
  have hc := div (Fl.round A (f.toNat : ℤ)) (mul rate h)
  have hb := bond_rel (fun n => Fl.round A n) (fun n => Fl.round A n) (fun _ => rfl) (fun _ => rfl)
    (IsTimes k) (IsTimes k) f rate face rate face' _ _ rfl rfl hc (fun n m _ _ _ => mul' _ hc)
    (fun n m _ _ _ _ => add hc (mul _ hc)) (fun x y hxy => add h hxy) id issue first pen mat
  generalize Bond.new id issue first pen mat f rate face = r at *
  generalize Bond.new id issue first pen mat f rate face' = r' at *
  match r, r', hb with
  | .panic, .panic, _ => trivial
  | .ok none, .ok none, _ => trivial
  | .ok (some b), .ok (some b'), ⟨h1, l, l', g, g', e1, e2, h2, h3⟩ =>
    refine ⟨h1.symm, ?_⟩
    rw [e1, e2]
    exact List.rel_append h2 (.cons h3 .nil)

/-- `2 ^ k` times a number of the format. -/
theorem exists_times (hA : RoundsAlike A) (k : ℤ) (a : Fl A) : ∃ b : Fl A, IsTimes k a b :=
  ⟨⟨2 ^ k * a.val, by rw [hA, a.rep]⟩, rfl⟩

theorem exists_times_list (hA : RoundsAlike A) (j k : ℤ) (pts : List (Fl A × Fl A)) :
    ∃ pts', List.Forall₂ (fun p q : Fl A × Fl A => IsTimes j p.1 q.1 ∧ IsTimes k p.2 q.2) pts pts' := by
  induction pts with
  | nil => exact ⟨[], .nil⟩
  | cons p l ih =>
    obtain ⟨l', h⟩ := ih
    obtain ⟨u, hu⟩ := exists_times hA j p.1
    obtain ⟨v, hv⟩ := exists_times hA k p.2
    exact ⟨(u, v) :: l', .cons ⟨hu, hv⟩ h⟩

/-- In `f64` every list of points can be scaled: days to 1024ths of a day, and the values by 2. -/
example (pts : List (Fl Binary.f64 × Fl Binary.f64)) (x : Fl Binary.f64) :
    ∃ pts' x', AnswerRel (IsTimes 10) (IsTimes 1) (evaluate (Interpolator.catmullRom _) pts x)
      (evaluate (Interpolator.catmullRom _) pts' x') := by
  obtain ⟨pts', h⟩ := exists_times_list C109_formats.2 10 1 pts
  obtain ⟨x', hx⟩ := exists_times C109_formats.2 10 x
  exact ⟨pts', x', C109_power C109_formats.2 (.inr (.inl ⟨rfl, rfl⟩)) 10 1 _ _ h _ _ hx⟩

/-- A bond that can be built in `f32`, and the one of 1024 times the face value. -/
example {I : Interpolator (Fl Binary.f32)} (D : DayCount (Fl Binary.f32)) (c : YieldCurve (Fl Binary.f32) I) (s : Date) :
    ∃ face b b', Bond.new "b" ⟨2024, 7, 1, by decide⟩ ⟨2025, 1, 1, by decide⟩ ⟨2025, 1, 1, by decide⟩ ⟨2025, 7, 1, by decide⟩ .sa
        (1 : Fl Binary.f32) 1 = .ok (some b) ∧
      Bond.new "b" ⟨2024, 7, 1, by decide⟩ ⟨2025, 1, 1, by decide⟩ ⟨2025, 1, 1, by decide⟩ ⟨2025, 7, 1, by decide⟩ .sa
        (1 : Fl Binary.f32) face = .ok (some b') ∧
      ResultRel (IsTimes 10) (b.discountedValue D s c) (b'.discountedValue D s c) := by
  obtain ⟨face, hf⟩ := exists_times C109_formats.1 10 (1 : Fl Binary.f32)
  obtain ⟨q, hq⟩ : ∃ q, FromInt.fromInt (V := Fl Binary.f32) 2 = some q := ⟨_, rfl⟩
  have h := one_coupon_bond q 1 1 hq
  have h' := one_coupon_bond q 1 face hq
  have hr := C109_power_face C109_formats.1 10 "b" ⟨2024, 7, 1, by decide⟩ ⟨2025, 1, 1, by decide⟩ ⟨2025, 1, 1, by decide⟩
    ⟨2025, 7, 1, by decide⟩ .sa 1 1 face hf
  rw [h, h'] at hr
  exact ⟨face, _, _, h, h', C109_power_price C109_formats.1 10 D c s _ _ hr.2⟩

end

/-- One point with a slope in `f64`, days to 1024ths of a day, and the values by 2. -/
example (p : Fl Binary.f64 × Fl Binary.f64 × Fl Binary.f64) (x : Fl Binary.f64) :
    ∃ p' x', AnswerRel (IsTimes 10) (IsTimes 1) (evaluateHermite [p] x) (evaluateHermite [p'] x') := by
  obtain ⟨a, ha⟩ := exists_times C109_formats.2 10 p.1
  obtain ⟨b, hb⟩ := exists_times C109_formats.2 1 p.2.1
  obtain ⟨c, hc⟩ := exists_times C109_formats.2 (1 - 10) p.2.2
  obtain ⟨x', hx⟩ := exists_times C109_formats.2 10 x
  exact ⟨(a, b, c), x', C109_power_hermite C109_formats.2 10 1 _ _ (.cons ⟨ha, hb, hc⟩ .nil) _ _ hx⟩

end Qlab.Props
