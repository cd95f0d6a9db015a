import Verif.Lemmas.IeeeOrder
import Verif.Props.IeeeCurve
import Verif.Props.IeeeFlows
import Verif.Props.IeeePrice

/-!
# Order in the formats of IEEE 754 (C104, C105)
-/

namespace Qlab.Spec

/-- In order, if both are numbers or infinities. -/
def LeUnlessNan {F : IeeeFormat} (a b : Ieee F) : Prop := a ≠ .nan → b ≠ .nan → a ≤ b

end Qlab.Spec

namespace Qlab.Props

open Spec

variable {F : IeeeFormat}

/-! ## C104 -/

theorem LeUnlessNan.refl (a : Ieee F) : Spec.LeUnlessNan a a := by
  intro h _
  cases a with
  | nan => exact absurd rfl h
  | inf s => exact (Ieee.le_iff_value rfl rfl).2 le_rfl
  | fin s x hs r => exact (Ieee.le_iff_value rfl rfl).2 le_rfl

theorem finite_of_between {a b : Ieee F} (h0 : 0 ≤ a) (h : a ≤ b) (hb : IsFinite b) : IsFinite a := by
  obtain ⟨u, v, e1, e2, e3⟩ := h
  obtain ⟨y, hy⟩ := hb
  rw [Ieee.le_iff_value Ieee.zero_value e1] at h0
  rw [Ieee.value_number hy] at e2
  injection e2 with e2
  subst e2
  cases a with
  | nan => cases e1
  | inf s =>
    injection e1 with e1; subst e1
    cases s
    · exact absurd e3 (by simp)
    · exact absurd h0 (by simp)
  | fin s x hs r => exact ⟨x, _, _, _, rfl⟩

/-- A slope of finite rise over a positive run times a positive number is never NaN. -/
theorem slope_ne_nan {r w t : Ieee F} (hr : IsFinite r) (hw : 0 < w) (hwf : IsFinite w) (ht : 0 < t) (htf : IsFinite t) :
    r / w * t ≠ .nan := by
  obtain ⟨x, hx⟩ := hr
  obtain ⟨y, hy⟩ := hwf
  obtain ⟨z, hz⟩ := htf
  have hy0 := (Ieee.lt_number Ieee.zero_number hy).1 hw
  have hz0 := (Ieee.lt_number Ieee.zero_number hz).1 ht
  obtain ⟨s1, _, _, rfl⟩ := hx
  obtain ⟨s2, _, _, rfl⟩ := hy
  obtain ⟨s3, _, _, rfl⟩ := hz
  have e : (Ieee.fin s1 x ‹_› ‹_› / Ieee.fin s2 y ‹_› ‹_› : Ieee F) = Ieee.ofReal F (s1 ^^ s2) (x / y) := if_neg hy0.ne'
  rw [e]
  unfold Ieee.ofReal
  split
  · exact fun h => Ieee.value_ne_nan (Ieee.value_ofReal _ _) h
  · intro h
    have : (Ieee.inf (Ieee.signOf (s1 ^^ s2) (x / y)) * Ieee.fin s3 z ‹_› ‹_› : Ieee F) = .inf _ := if_neg hz0.ne'
    rw [this] at h; cases h

theorem add_ne_nan_of_finite {a b : Ieee F} (ha : IsFinite a) (hb : b ≠ .nan) : a + b ≠ .nan := by
  obtain ⟨x, s, _, _, rfl⟩ := ha
  cases b with
  | nan => exact absurd rfl hb
  | inf t => rintro ⟨⟩
  | fin t y _ _ => exact fun h => Ieee.value_ne_nan (Ieee.value_ofReal _ _) h

section
variable (pts : List (Ieee F × Ieee F)) (hs : StrictlyIncreasing pts) (hf : ∀ p ∈ pts, IsFinite p.1 ∧ IsFinite p.2) (i : Nat)
  (x₀ y₀ x₁ y₁ x z : Ieee F) (h : IsSegment pts i x₀ y₀ x₁ y₁) (hw : IsFinite (x₁ - x₀)) (hr : IsFinite (y₁ - y₀))
  (h0 : x₀ < x) (hxz : x ≤ z) (h1 : z ≤ x₁)
include hs hf h hw hr h0 hxz h1

/-- What both theorems need. -/
theorem segment_values : ∃ u v, evaluate (Interpolator.linear (Ieee F)) pts x = .ok (.ok u) ∧
    evaluate (Interpolator.linear (Ieee F)) pts z = .ok (.ok v) ∧
    u = y₀ + (y₁ - y₀) / (x₁ - x₀) * (x - x₀) ∧ v = y₀ + (y₁ - y₀) / (x₁ - x₀) * (z - x₀) ∧
    0 < x₁ - x₀ ∧ 0 < x - x₀ ∧ x - x₀ ≤ z - x₀ ∧ (y₁ - y₀) / (x₁ - x₀) * (x - x₀) ≠ .nan ∧
    (y₁ - y₀) / (x₁ - x₀) * (z - x₀) ≠ .nan ∧ u ≠ .nan ∧ v ≠ .nan := by
  have m0 := hf _ (List.mem_of_getElem? h.1)
  have m1 := hf _ (List.mem_of_getElem? h.2)
  obtain ⟨u0, u1, e1, e2, e3⟩ := h0
  obtain ⟨v1, v2, f1, f2, f3⟩ := hxz
  obtain ⟨w1, w2, g1, g2, g3⟩ := h1
  have h0 : x₀ < x := ⟨u0, u1, e1, e2, e3⟩
  have hxz : x ≤ z := ⟨v1, v2, f1, f2, f3⟩
  have h1 : z ≤ x₁ := ⟨w1, w2, g1, g2, g3⟩
  rw [e2] at f1; rw [f2] at g1
  injection f1 with f1; injection g1 with g1
  subst f1 g1
  have h0z : x₀ < z := ⟨u0, _, e1, f2, lt_of_lt_of_le e3 f3⟩
  have h01 : x₀ < x₁ := ⟨u0, _, e1, g2, lt_of_lt_of_le (lt_of_lt_of_le e3 f3) g3⟩
  have hx1 : x ≤ x₁ := ⟨_, _, e2, g2, le_trans f3 g3⟩
  have d1 := Ieee.sub_le_sub' hx1 m0.1
  have d2 := Ieee.sub_le_sub' h1 m0.1
  have d3 := Ieee.sub_le_sub' hxz m0.1
  have n1 := Ieee.sub_nonneg' (Ieee.le_of_lt' h0) m0.1
  have n2 := Ieee.sub_nonneg' (Ieee.le_of_lt' h0z) m0.1
  have fin : ∀ c : Ieee F, x₀ < c → c ≤ x₁ → IsFinite c := by
    intro c hc hc'
    obtain ⟨a0, ha0⟩ := m0.1
    obtain ⟨a1, ha1⟩ := m1.1
    obtain ⟨p, q, r1, r2, r3⟩ := hc
    obtain ⟨p', q', s1, s2, s3⟩ := hc'
    rw [Ieee.value_number ha0] at r1
    rw [Ieee.value_number ha1] at s2
    rw [r2] at s1
    injection r1 with r1; injection s2 with s2; injection s1 with s1
    subst r1 s2 s1
    cases c with
    | nan => cases r2
    | inf s =>
      injection r2 with r2; subst r2
      cases s
      · exact absurd s3 (by simp)
      · exact absurd r3 (by simp)
    | fin s x hs r => exact ⟨x, _, _, _, rfl⟩
  have fx := fin x h0 hx1
  have fz := fin z h0z h1
  have px := Ieee.sub_pos' h0 fx m0.1
  have pz := Ieee.sub_pos' h0z fz m0.1
  have pw := Ieee.sub_pos' h01 m1.1 m0.1
  have s1 := slope_ne_nan hr pw hw px (finite_of_between n1 d1 hw)
  have s2 := slope_ne_nan hr pw hw pz (finite_of_between n2 d2 hw)
  exact ⟨_, _, ieee_linear_eval pts hs (fun p hp => (hf p hp).1) i _ _ _ _ x fx h h0 hx1,
    ieee_linear_eval pts hs (fun p hp => (hf p hp).1) i _ _ _ _ z fz h h0z h1, rfl, rfl, pw, px, d3, s1, s2,
    add_ne_nan_of_finite m0.2 s1, add_ne_nan_of_finite m0.2 s2⟩

/-- **C104.** On a segment that rises, the value computed in `f32` or `f64` is never below the left node and never decreases,
with no rounding allowance. -/
theorem C104_rising (hy : y₀ ≤ y₁) : ∃ u v, evaluate (Interpolator.linear (Ieee F)) pts x = .ok (.ok u) ∧
    evaluate (Interpolator.linear (Ieee F)) pts z = .ok (.ok v) ∧ y₀ ≤ u ∧ u ≤ v := by
  have m0 := hf _ (List.mem_of_getElem? h.1)
  obtain ⟨u, v, e1, e2, rfl, rfl, pw, px, d3, s1, s2, n1, n2⟩ :=
    segment_values pts hs hf i x₀ y₀ x₁ y₁ x z h hw hr h0 hxz h1
  have hsl := Ieee.div_nonneg' (Ieee.sub_nonneg' hy m0.2) pw (Ieee.mul_ne_nan s1).1
  have t1 := Ieee.mul_nonneg' hsl (Ieee.le_of_lt' px) s1
  obtain ⟨a, ha⟩ := m0.2
  have la : y₀ ≤ y₀ := (Ieee.le_number ha ha).2 le_rfl
  obtain ⟨sl, hsl'⟩ := Ieee.exists_value_of_le_right hsl
  have lsl := (Ieee.le_iff_value hsl' hsl').2 le_rfl
  refine ⟨_, _, e1, e2, ?_, Ieee.add_le_add' la (Ieee.mul_le_mul' lsl d3 hsl (Ieee.le_of_lt' px) s1 s2) n1 n2⟩
  obtain ⟨_, t, g1, g2, g3⟩ := t1
  rw [Ieee.zero_value] at g1; injection g1 with g1; subst g1
  rw [Ieee.le_iff_value (Ieee.value_number ha) (Ieee.value_add (Ieee.value_number ha) g2 n1)]
  have := F.roundExt_mono (show (a : EReal) ≤ a + t by
    conv_lhs => rw [← add_zero (a : EReal)]
    exact add_le_add le_rfl g3)
  rwa [Ieee.roundExt_value (Ieee.value_number ha)] at this

/-- **C104.** On a segment that falls, it is never above the left node and never increases. -/
theorem C104_falling (hy : y₁ ≤ y₀) : ∃ u v, evaluate (Interpolator.linear (Ieee F)) pts x = .ok (.ok u) ∧
    evaluate (Interpolator.linear (Ieee F)) pts z = .ok (.ok v) ∧ u ≤ y₀ ∧ v ≤ u := by
  have m0 := hf _ (List.mem_of_getElem? h.1)
  obtain ⟨u, v, e1, e2, rfl, rfl, pw, px, d3, s1, s2, n1, n2⟩ :=
    segment_values pts hs hf i x₀ y₀ x₁ y₁ x z h hw hr h0 hxz h1
  obtain ⟨a, ha⟩ := m0.2
  have va := Ieee.value_number ha
  obtain ⟨b, vb⟩ := Ieee.exists_value_of_le_left hy
  obtain ⟨w, vw⟩ := Ieee.exists_value_of_le_right (Ieee.le_of_lt' pw)
  obtain ⟨p, q, vp, vq, hpq⟩ := d3
  rw [Ieee.le_iff_value vb va] at hy
  rw [Ieee.lt_iff_value Ieee.zero_value vw] at pw
  rw [Ieee.lt_iff_value Ieee.zero_value vp] at px
  have vr := Ieee.value_sub vb va (Ieee.div_ne_nan (Ieee.mul_ne_nan s1).1).1
  have vs := Ieee.value_div vr vw pw.ne' (Ieee.mul_ne_nan s1).1
  have hr0 : F.roundExt (b - (a : EReal)) ≤ 0 := F.roundExt_nonpos (by
    have := EReal.sub_le_sub hy (le_refl (a : EReal))
    rwa [← EReal.coe_sub, sub_self, EReal.coe_zero] at this)
  have hs0 : F.roundExt (F.roundExt (b - (a : EReal)) / w) ≤ 0 := F.roundExt_nonpos (by
    have := EReal.div_le_div_right_of_nonneg pw.le hr0
    rwa [EReal.zero_div] at this)
  generalize F.roundExt (F.roundExt (b - (a : EReal)) / w) = sl at *
  have v1 := Ieee.value_mul vs vp s1
  have v2 := Ieee.value_mul vs vq s2
  have key : sl * q ≤ sl * p := by
    have := mul_le_mul_of_nonneg_left hpq (EReal.neg_le_neg_iff.2 hs0 |>.trans_eq' neg_zero)
    rw [EReal.neg_mul, EReal.neg_mul] at this
    exact EReal.neg_le_neg_iff.1 this
  have l1 : sl * p ≤ 0 := by
    have := mul_le_mul_of_nonneg_left px.le (EReal.neg_le_neg_iff.2 hs0 |>.trans_eq' neg_zero)
    rw [EReal.neg_mul, EReal.neg_mul, mul_zero] at this
    exact EReal.neg_le_neg_iff.1 this
  refine ⟨_, _, e1, e2, ?_, ?_⟩
  · rw [Ieee.le_iff_value (Ieee.value_add va v1 n1) va]
    have := F.roundExt_mono (show (a : EReal) + F.roundExt (sl * p) ≤ a by
      conv_rhs => rw [← add_zero (a : EReal)]
      exact add_le_add le_rfl (F.roundExt_nonpos l1))
    rwa [Ieee.roundExt_value va] at this
  · rw [Ieee.le_iff_value (Ieee.value_add va v2 n2) (Ieee.value_add va v1 n1)]
    exact F.roundExt_mono (add_le_add le_rfl (F.roundExt_mono key))

/-- **C104.** On a flat segment it is the ordinate of the nodes exactly. -/
theorem C104_flat (a : ℝ) (ha : IsNumber y₀ a) (hb : IsNumber y₁ a) :
    ∃ u, evaluate (Interpolator.linear (Ieee F)) pts x = .ok (.ok u) ∧ IsNumber u a := by
  obtain ⟨u, v, e1, -, l1, -⟩ := C104_rising pts hs hf i x₀ y₀ x₁ y₁ x z h hw hr h0 hxz h1 ((Ieee.le_number ha hb).2 le_rfl)
  obtain ⟨u', v', e1', -, l2, -⟩ := C104_falling pts hs hf i x₀ y₀ x₁ y₁ x z h hw hr h0 hxz h1 ((Ieee.le_number hb ha).2 le_rfl)
  rw [e1] at e1'
  obtain rfl := Except.ok.inj (Rust.ok.inj e1')
  refine ⟨u, e1, ?_⟩
  obtain ⟨w, hw⟩ := Ieee.exists_value_of_le_right l1
  rw [Ieee.le_iff_value (Ieee.value_number ha) hw] at l1
  rw [Ieee.le_iff_value hw (Ieee.value_number ha)] at l2
  obtain rfl := le_antisymm l1 l2
  cases u with
  | nan => cases hw
  | inf s => cases s <;> (injection hw with hw; exact absurd hw (by simp))
  | fin s x hs r =>
    injection hw with hw
    obtain rfl := EReal.coe_injective hw
    exact ⟨_, _, _, rfl⟩

end

/-- The difference of 1 and 0, and of 0 and 1, is finite. -/
theorem one_sub_zero_finite : IsFinite ((1 : Ieee F) - 0) ∧ IsFinite ((0 : Ieee F) - 1) := by
  have b : (1 : ℝ) ≤ F.largest := le_trans (one_le_pow₀ (by norm_num)) F.largest_ge
  exact ⟨⟨_, Ieee.sub_number Ieee.one_number Ieee.zero_number (by rw [sub_zero, abs_one]; exact b)⟩,
    ⟨_, Ieee.sub_number Ieee.zero_number Ieee.one_number (by rw [zero_sub, abs_neg, abs_one]; exact b)⟩⟩

/-- Points `(0, 0)` and `(1, 1)` in any format: the values of any two arguments in between are in their order. -/
example (x z : Ieee F) (h0 : 0 < x) (h : x ≤ z) (h1 : z ≤ 1) :
    ∃ u v, evaluate (Interpolator.linear (Ieee F)) [(0, 0), (1, 1)] x = .ok (.ok u) ∧
      evaluate (Interpolator.linear (Ieee F)) [(0, 0), (1, 1)] z = .ok (.ok v) ∧ 0 ≤ u ∧ u ≤ v :=
  C104_rising [(0, 0), (1, 1)] (by simp [StrictlyIncreasing, zero_lt_one']) (by simp [finite_zero_one]) 0 0 0 1 1 x z ⟨rfl, rfl⟩
    one_sub_zero_finite.1 one_sub_zero_finite.1 h0 h h1 (Ieee.le_of_lt' zero_lt_one')

/-- Points `(0, 1)` and `(1, 0)`: they are in the opposite order. -/
example (x z : Ieee F) (h0 : 0 < x) (h : x ≤ z) (h1 : z ≤ 1) :
    ∃ u v, evaluate (Interpolator.linear (Ieee F)) [(0, 1), (1, 0)] x = .ok (.ok u) ∧
      evaluate (Interpolator.linear (Ieee F)) [(0, 1), (1, 0)] z = .ok (.ok v) ∧ u ≤ 1 ∧ v ≤ u :=
  C104_falling [(0, 1), (1, 0)] (by simp [StrictlyIncreasing, zero_lt_one']) (by simp [finite_zero_one]) 0 0 1 1 0 x z ⟨rfl, rfl⟩
    one_sub_zero_finite.1 one_sub_zero_finite.2 h0 h h1 (Ieee.le_of_lt' zero_lt_one')

/-- Points `(0, 1)` and `(1, 1)`: they are 1. -/
example (x : Ieee F) (h0 : 0 < x) (h1 : x ≤ 1) :
    ∃ u, evaluate (Interpolator.linear (Ieee F)) [(0, 1), (1, 1)] x = .ok (.ok u) ∧ IsNumber u 1 := by
  have f : IsFinite ((1 : Ieee F) - 1) :=
    ⟨_, Ieee.sub_number Ieee.one_number Ieee.one_number (by rw [sub_self, abs_zero]; exact F.largest_pos.le)⟩
  exact C104_flat [(0, 1), (1, 1)] (by simp [StrictlyIncreasing, zero_lt_one']) (by simp [finite_zero_one]) 0 0 1 1 1 x 1 ⟨rfl, rfl⟩
    one_sub_zero_finite.1 f h0 h1 (LeUnlessNan.refl 1 (by rintro ⟨⟩) (by rintro ⟨⟩)) 1 Ieee.one_number Ieee.one_number

/-- The discount factor from settlement, from the value the interpolator gives. -/
theorem curveDiscount_settle {V : Type} [Neg V] [Sub V] [Mul V] [HasExp V] {D : DayCount V} {I : Interpolator V} {s : Date}
    {ms : List Date} {ts ys : List V} (hlen : ms.length = ys.length) (ht : HasFractions D s ms ts) {d : Date} {t y : V}
    (hd : s ≤ d) (hdt : D s d = .ok (.ok t)) (hy : evaluate I (ts.zip ys) t = .ok (.ok y)) :
    curveDiscount D I s ms ys s d = .ok (.ok (HasExp.exp (-t * y))) := by
  obtain ⟨st, f1, f2⟩ := evaluate_eq_ok hy
  unfold curveDiscount
  rw [(C44_fit D I s ms ts ys hlen ht).1 st f1]
  exact (C45_value_iff D ⟨s, st⟩ s d _).2 ⟨le_refl _, hd, t, y, hdt, f2, .inl ⟨rfl, rfl⟩⟩

/-- **C104.** On a segment where the yields do not fall and are not negative, discount factors computed in `f32` and `f64`
with linear interpolation are between 0 and 1 and never increase with the date, with no rounding allowance, even if a yield
overflows.  Any day count; `t` and `t'` are the fractions of the two dates. -/
theorem C104_discount [HasExp (Ieee F)] (hE : IeeeExp F) (D : DayCount (Ieee F)) (s : Date) (ms : List Date)
    (ts ys : List (Ieee F)) (hlen : ms.length = ys.length) (hts : HasFractions D s ms ts)
    (hs : StrictlyIncreasing (ts.zip ys)) (hf : ∀ p ∈ ts.zip ys, IsFinite p.1 ∧ IsFinite p.2) (i : Nat)
    (t₀ y₀ t₁ y₁ t t' : Ieee F) (h : IsSegment (ts.zip ys) i t₀ y₀ t₁ y₁) (hw : IsFinite (t₁ - t₀)) (hr : IsFinite (y₁ - y₀))
    (ht₀ : 0 ≤ t₀) (hy₀ : 0 ≤ y₀) (hy : y₀ ≤ y₁) (d d' : Date) (hd : s ≤ d) (hd' : s ≤ d')
    (et : D s d = .ok (.ok t)) (et' : D s d' = .ok (.ok t')) (h0 : t₀ < t) (htt : t ≤ t') (h1 : t' ≤ t₁) :
    ∃ v v', curveDiscount D (Interpolator.linear (Ieee F)) s ms ys s d = .ok (.ok v) ∧
      curveDiscount D (Interpolator.linear (Ieee F)) s ms ys s d' = .ok (.ok v') ∧ 0 ≤ v' ∧ v' ≤ v ∧ v ≤ 1 := by
  obtain ⟨u, u', e1, e2, l1, l2⟩ := C104_rising (ts.zip ys) hs hf i t₀ y₀ t₁ y₁ t t' h hw hr h0 htt h1 hy
  refine ⟨HasExp.exp (-t * u), HasExp.exp (-t' * u'), curveDiscount_settle hlen hts hd et e1,
    curveDiscount_settle hlen hts hd' et' e2, ?_⟩
  obtain ⟨t0, τ, b1, b2, b3⟩ := h0
  obtain ⟨τ_, τ', c1, c2, c3⟩ := htt
  rw [b2] at c1; injection c1 with c1; subst c1
  rw [Ieee.le_iff_value Ieee.zero_value b1] at ht₀
  obtain ⟨η, a1⟩ := Ieee.exists_value_of_le_right hy₀
  rw [Ieee.le_iff_value Ieee.zero_value a1] at hy₀
  obtain ⟨υ, υ', a2, a3, a4⟩ := l2
  rw [Ieee.le_iff_value a1 a2] at l1
  have hτ : 0 < τ := lt_of_le_of_lt ht₀ b3
  have hτ' : 0 < τ' := lt_of_lt_of_le hτ c3
  have hυ : 0 ≤ υ := le_trans hy₀ l1
  have hft' : τ' ≠ ⊤ := by
    obtain ⟨a, ha⟩ := (hf _ (List.mem_of_getElem? h.2)).1
    rw [Ieee.le_iff_value c2 (Ieee.value_number ha)] at h1
    exact (lt_of_le_of_lt h1 (EReal.coe_lt_top a)).ne
  -- no NaN: time is positive and finite
  have nn : ∀ {p q : Ieee F} {π ρ : EReal}, p.value = some π → q.value = some ρ → 0 < π → π ≠ ⊤ → -p * q ≠ .nan := by
    intro p q π ρ hp hq h0 ht
    cases p with
    | nan => cases hp
    | inf s =>
      injection hp with hp; subst hp
      cases s
      · exact absurd rfl ht
      · exact absurd h0 (by simp)
    | fin s x hs r =>
      injection hp with hp; subst hp
      have hx : x ≠ 0 := by rintro rfl; exact absurd h0 (by simp)
      cases q with
      | nan => cases hq
      | inf s' =>
        intro h
        have e : (-Ieee.fin s x hs r * Ieee.inf s' : Ieee F) = .inf _ := if_neg (neg_ne_zero.2 hx)
        rw [e] at h; cases h
      | fin s' y hs' r' => exact fun h => Ieee.value_ne_nan (Ieee.value_ofReal _ _) h
  have n1 := nn b2 a2 hτ (lt_of_le_of_lt c3 (lt_top_iff_ne_top.2 hft')).ne
  have n2 := nn c2 a3 hτ' hft'
  have v1 := Ieee.value_mul (Ieee.value_neg b2) a2 n1
  have v2 := Ieee.value_mul (Ieee.value_neg c2) a3 n2
  refine ⟨hE.nonneg _ n2, hE.mono _ _ ?_, ?_⟩
  · rw [Ieee.le_iff_value v2 v1, EReal.neg_mul, EReal.neg_mul]
    exact F.roundExt_mono (EReal.neg_le_neg_iff.2 (mul_le_mul c3 a4 hυ (le_trans hτ.le c3)))
  · rw [← hE.zero 0 Ieee.zero_number]
    refine hE.mono _ _ ?_
    rw [Ieee.le_iff_value v1 Ieee.zero_value, EReal.neg_mul]
    refine F.roundExt_nonpos ?_
    have := EReal.neg_le_neg_iff.2 (mul_nonneg hτ.le hυ)
    rwa [neg_zero] at this

/-- The fraction of a date by Act/365, a whole number of years of 365 days later. -/
theorem act365_years (hF : 40 ≤ F.emax) (s d : Date) (n k : ℤ) (hd : Date.sub d s = n) (hn : n = 365 * k) (hk : |k| ≤ 2 ^ 10) :
    ∃ t : Ieee F, DayCount.act365 s d = .ok (.ok t) ∧ IsNumber t k := by
  have hp : (2 : ℤ) ^ 24 ≤ 2 ^ F.arith.prec := pow_le_pow_right₀ (by norm_num) F.arith.prec_ge
  obtain ⟨t, h1, h2⟩ := (fraction_same hF (Or.inr (Or.inl ⟨rfl, rfl⟩) :
      SameDayCount (DayCount.act365 (V := Ieee F)) (DayCount.act365 (V := Fl F.arith))) s d).2.2 _
      (actual_eq (Or.inr ⟨rfl, rfl⟩) _ _)
  refine ⟨t, h1, ?_⟩
  have hb : |n| ≤ 2 ^ 24 := by
    rw [hn, abs_mul]
    norm_num
    omega
  rw [Fl.val_round, hd, F.arith.int n (le_trans hb hp), hn] at h2
  have e : (((365 * k : ℤ) : ℝ) / ((365 : ℤ) : ℝ)) = k := by push_cast; field_simp
  rwa [e, F.arith.int k (le_trans (le_trans hk (by norm_num)) hp)] at h2

/-- Yields 0 at settlement and 1 a year later, `f64`, with a correctly rounded `exp`: discount factors to any two days of the
year. -/
example : letI := roundedExp .binary64
    ∀ d d' : Date, (⟨2023, 1, 1, by decide⟩ : Date) < d → d ≤ d' → d' ≤ (⟨2024, 1, 1, by decide⟩ : Date) →
    ∃ v v', curveDiscount DayCount.act365 (Interpolator.linear (Ieee .binary64)) ⟨2023, 1, 1, by decide⟩
        [⟨2023, 1, 1, by decide⟩, ⟨2024, 1, 1, by decide⟩] [0, 1] ⟨2023, 1, 1, by decide⟩ d = .ok (.ok v) ∧
      curveDiscount DayCount.act365 (Interpolator.linear (Ieee .binary64)) ⟨2023, 1, 1, by decide⟩
        [⟨2023, 1, 1, by decide⟩, ⟨2024, 1, 1, by decide⟩] [0, 1] ⟨2023, 1, 1, by decide⟩ d' = .ok (.ok v') ∧
      0 ≤ v' ∧ v' ≤ v ∧ v ≤ 1 := by
  let _ := roundedExp .binary64
  intro d d' h1 h2 h3
  have hF : 40 ≤ IeeeFormat.binary64.emax := by norm_num [IeeeFormat.binary64]
  have hp : 29 ≤ IeeeFormat.binary64.prec := by norm_num [IeeeFormat.binary64]
  obtain ⟨t₀, e0, n0⟩ := act365_years hF ⟨2023, 1, 1, by decide⟩ ⟨2023, 1, 1, by decide⟩ 0 0 (by decide) (by norm_num) (by norm_num)
  obtain ⟨t₁, e1, n1⟩ := act365_years hF ⟨2023, 1, 1, by decide⟩ ⟨2024, 1, 1, by decide⟩ 365 1 (by decide) (by norm_num) (by norm_num)
  obtain ⟨t, t', -, et, et', -, o1, -, -, -, -⟩ := C88_order hF (Or.inr ⟨rfl, rfl⟩) ⟨2023, 1, 1, by decide⟩ d d'
  obtain ⟨_, _, -, g1, g2, -, -, -, -, -, o2⟩ := C88_order hF (Or.inr ⟨rfl, rfl⟩) ⟨2023, 1, 1, by decide⟩ ⟨2023, 1, 1, by decide⟩ d
  rw [e0] at g1; rw [et] at g2
  obtain rfl := Except.ok.inj (Rust.ok.inj g1)
  obtain rfl := Except.ok.inj (Rust.ok.inj g2)
  obtain ⟨_, _, -, g1, g2, -, o3, -⟩ := C88_order hF (Or.inr ⟨rfl, rfl⟩) ⟨2023, 1, 1, by decide⟩ d' ⟨2024, 1, 1, by decide⟩
  rw [et'] at g1; rw [e1] at g2
  obtain rfl := Except.ok.inj (Rust.ok.inj g1)
  obtain rfl := Except.ok.inj (Rust.ok.inj g2)
  have z : (0 : Ieee .binary64) ≤ 0 := LeUnlessNan.refl 0 (by rintro ⟨⟩) (by rintro ⟨⟩)
  have b : (1 : ℝ) ≤ IeeeFormat.binary64.largest := le_trans (one_le_pow₀ (by norm_num)) IeeeFormat.binary64.largest_ge
  refine C104_discount (roundedExp_sound .binary64) DayCount.act365 _ [⟨2023, 1, 1, by decide⟩, ⟨2024, 1, 1, by decide⟩] [t₀, t₁]
    [0, 1] rfl (.cons e0 (.cons e1 .nil)) ?_ ?_ 0 t₀ 0 t₁ 1 t t' ⟨rfl, rfl⟩ ⟨_, Ieee.sub_number n1 n0 (by norm_num; exact b)⟩
    one_sub_zero_finite.1 ((Ieee.le_number Ieee.zero_number n0).2 (by norm_num)) z (Ieee.le_of_lt' zero_lt_one') d d' h1.le
    (h1.le.trans h2) et et' ((o2 hp).2 h1) (o1 h2) (o3 h3)
  · simp [StrictlyIncreasing, (Ieee.lt_number n0 n1).2 (by norm_num)]
  · simp only [List.zip_cons_cons, List.zip_nil_left, List.mem_cons, List.not_mem_nil, or_false, forall_eq_or_imp, forall_eq]
    exact ⟨⟨⟨_, n0⟩, finite_zero_one.1⟩, ⟨_, n1⟩, finite_zero_one.2⟩

/-- **C79 (violated in `f64`).** Where yields fall, yields that are not negative can give a discount factor above 1 with linear
interpolation: yields 29 at settlement and 0 seven years later, Act/365, correctly rounded `exp`; the yield computed for the
last pillar is `-2^-48`. -/
theorem C79_refuted_linear_f64 : letI := roundedExp .binary64
    ∃ (y v : Ieee .binary64), IsNumber y 29 ∧
      curveDiscount DayCount.act365 (Interpolator.linear (Ieee .binary64)) ⟨2023, 1, 1, by decide⟩
        [⟨2023, 1, 1, by decide⟩, ⟨2029, 12, 30, by decide⟩] [y, 0] ⟨2023, 1, 1, by decide⟩ ⟨2029, 12, 30, by decide⟩ =
        .ok (.ok v) ∧ 1 < v := by
  let _ := roundedExp .binary64
  have hF : 40 ≤ IeeeFormat.binary64.emax := by norm_num [IeeeFormat.binary64]
  obtain ⟨t₀, e0, n0⟩ := act365_years hF ⟨2023, 1, 1, by decide⟩ ⟨2023, 1, 1, by decide⟩ 0 0 (by decide) (by norm_num) (by norm_num)
  obtain ⟨t₁, e1, n1⟩ := act365_years hF ⟨2023, 1, 1, by decide⟩ ⟨2029, 12, 30, by decide⟩ 2555 7 (by decide) (by norm_num) (by norm_num)
  obtain ⟨y, -, ny⟩ := Ieee.fromInt_number (F := .binary64) 29 (by norm_num [IeeeFormat.binary64])
  push_cast at n0 n1 ny
  have b : (2 : ℝ) ^ 10 ≤ IeeeFormat.binary64.largest :=
    le_trans (pow_le_pow_right₀ (by norm_num) (by norm_num [IeeeFormat.binary64])) IeeeFormat.binary64.largest_ge
  have r0 : IeeeFormat.binary64.arith.fl = Binary.roundTo 53 := rfl
  have tiny : (2 : ℝ) ^ (1 - (IeeeFormat.binary64.emax : ℤ)) ≤ (1 / 2) ^ 60 := by
    rw [show ((1 / 2 : ℝ) ^ 60) = 2 ^ (-60 : ℤ) by norm_num]
    exact zpow_le_zpow_right₀ (by norm_num) (by norm_num [IeeeFormat.binary64])
  have z := Ieee.zero_number (F := .binary64)
  have a1 := Ieee.sub_number z ny (by rw [zero_sub, abs_neg, abs_of_pos (by norm_num)]; linarith)
  have a2 := Ieee.sub_number n1 n0 (by rw [sub_zero, abs_of_pos (by norm_num)]; linarith)
  have r1 : Binary.roundTo 53 (0 - 29) = -29 := by
    simpa using Binary.roundTo_rep (p := 53) (by norm_num) (-29) 0 (by norm_num)
  have r2 : Binary.roundTo 53 (7 - 0) = 7 := by
    simpa using Binary.roundTo_rep (p := 53) (by norm_num) 7 0 (by norm_num)
  have r3 : Binary.roundTo 53 (-29 / 7) = -(4664442471205157 * (1 / 2) ^ 50) := by
    rw [Binary.roundTo_eq (by norm_num) (-50) (-4664442471205157) (by norm_num [abs_of_pos])
      (by norm_num [abs_of_pos]) (by rw [abs_lt]; norm_num)]
    norm_num
  have r4 : Binary.roundTo 53 (-(4664442471205157 * (1 / 2) ^ 50) * 7) = -(29 + (1 / 2) ^ 48) := by
    rw [Binary.roundTo_eq (by norm_num) (-48) (-(29 * 2 ^ 48 + 1)) (by norm_num [abs_of_pos])
      (by norm_num [abs_of_pos]) (by rw [abs_lt]; norm_num)]
    norm_num
  have r5 : Binary.roundTo 53 (29 + -(29 + (1 / 2) ^ 48)) = -(1 / 2) ^ 48 := by
    have := Binary.roundTo_rep (p := 53) (by norm_num) (-1) (-48) (by norm_num)
    norm_num at this ⊢
    exact this
  have r6 : Binary.roundTo 53 (-7 * -(1 / 2) ^ 48) = 7 * (1 / 2) ^ 48 := by
    have := Binary.roundTo_rep (p := 53) (by norm_num) 7 (-48) (by norm_num)
    norm_num at this ⊢
    exact this
  rw [r0, r1] at a1
  rw [r0, r2] at a2
  have a3 := Ieee.div_number a1 a2 (by norm_num) (by norm_num [abs_of_pos]; linarith) (.inr (le_trans tiny (by norm_num [abs_of_pos])))
  rw [r0, r3] at a3
  have a4 := Ieee.mul_number a3 a2 (by rw [abs_le]; constructor <;> norm_num <;> linarith)
    (.inr (le_trans tiny (by rw [le_abs]; right; norm_num)))
  rw [r0, r4] at a4
  have a5 := Ieee.add_number ny a4 (by rw [abs_le]; constructor <;> norm_num <;> linarith)
  rw [r0, r5] at a5
  have a6 := Ieee.mul_number (Ieee.neg_number n1) a5 (by rw [abs_le]; constructor <;> norm_num <;> linarith)
    (.inr (le_trans tiny (by rw [le_abs]; left; norm_num)))
  rw [r0, r6] at a6
  have hs : StrictlyIncreasing [(t₀, y), (t₁, (0 : Ieee .binary64))] := by
    simp [StrictlyIncreasing, (Ieee.lt_number n0 n1).2 (by norm_num)]
  have hev := ieee_linear_eval [(t₀, y), (t₁, 0)] hs (by
    simp only [List.mem_cons, List.not_mem_nil, or_false, forall_eq_or_imp, forall_eq]
    exact ⟨⟨_, n0⟩, _, n1⟩) 0 t₀ y t₁ 0 t₁ ⟨_, n1⟩ ⟨rfl, rfl⟩ ((Ieee.lt_number n0 n1).2 (by norm_num))
    ((Ieee.le_number n1 n1).2 le_rfl)
  refine ⟨y, HasExp.exp (-t₁ * (y + (0 - y) / (t₁ - t₀) * (t₁ - t₀))), ny, ?_, ?_⟩
  · exact curveDiscount_settle (ts := [t₀, t₁]) rfl (.cons e0 (.cons e1 .nil)) (by decide) e1 hev
  · obtain ⟨r, hr, hb⟩ := roundedExp_within .binary64 (by norm_num [IeeeFormat.binary64]) _ _ a6
      (by rw [abs_of_pos (by norm_num)]; norm_num)
    refine (Ieee.lt_number Ieee.one_number hr).2 ?_
    have e := Real.add_one_le_exp (7 * (1 / 2 : ℝ) ^ 48)
    have u : roundoff .binary64 = (1 / 2) ^ 53 := by norm_num [roundoff, IeeeFormat.binary64]
    rw [u] at hb
    have := (abs_le.1 hb).1
    have h2 : (1 - (1 / 2 : ℝ) ^ 53) * (7 * (1 / 2) ^ 48 + 1) ≤ (1 - (1 / 2) ^ 53) * Real.exp (7 * (1 / 2) ^ 48) :=
      mul_le_mul_of_nonneg_left e (by norm_num)
    have h3 : 1 < (1 - (1 / 2 : ℝ) ^ 53) * (7 * (1 / 2) ^ 48 + 1) := by norm_num
    linarith

/-! ## C105 -/

theorem LeUnlessNan.add {a a' b b' : Ieee F} (h : Spec.LeUnlessNan a a') (h' : Spec.LeUnlessNan b b') :
    Spec.LeUnlessNan (a + b) (a' + b') := by
  intro n n'
  have m := Ieee.add_ne_nan n
  have m' := Ieee.add_ne_nan n'
  exact Ieee.add_le_add' (h m.1 m'.1) (h' m.2 m'.2) n n'

/-- Multiplying by a factor that is not negative keeps order. -/
theorem LeUnlessNan.mul_left {a b b' : Ieee F} (ha : a ≠ .nan → 0 ≤ a) (h : Spec.LeUnlessNan b b') :
    Spec.LeUnlessNan (a * b) (a * b') := by
  intro n n'
  have m := Ieee.mul_ne_nan n
  have m' := Ieee.mul_ne_nan n'
  obtain ⟨u, v, h1, h2, h3⟩ := h m.2 m'.2
  have h0 := ha m.1
  obtain ⟨w, hw⟩ := Ieee.exists_value_of_le_right h0
  rw [Ieee.le_iff_value Ieee.zero_value hw] at h0
  rw [Ieee.le_iff_value (Ieee.value_mul hw h1 n) (Ieee.value_mul hw h2 n')]
  exact F.roundExt_mono (mul_le_mul_of_nonneg_left h3 h0)

theorem LeUnlessNan.mul_right {a b b' : Ieee F} (ha : a ≠ .nan → 0 ≤ a) (h : Spec.LeUnlessNan b b') :
    Spec.LeUnlessNan (b * a) (b' * a) := by
  intro n n'
  have m := Ieee.mul_ne_nan n
  have m' := Ieee.mul_ne_nan n'
  obtain ⟨u, v, h1, h2, h3⟩ := h m.1 m'.1
  have h0 := ha m.2
  obtain ⟨w, hw⟩ := Ieee.exists_value_of_le_right h0
  rw [Ieee.le_iff_value Ieee.zero_value hw] at h0
  rw [Ieee.le_iff_value (Ieee.value_mul h1 hw n) (Ieee.value_mul h2 hw n')]
  exact F.roundExt_mono (mul_le_mul_of_nonneg_right h3 h0)

theorem LeUnlessNan.div_right {a b b' : Ieee F} (ha : 0 < a) (h : Spec.LeUnlessNan b b') :
    Spec.LeUnlessNan (b / a) (b' / a) := by
  intro n n'
  exact Ieee.div_le_div' (h (Ieee.div_ne_nan n).1 (Ieee.div_ne_nan n').1) ha n n'

/-- An integer that is at least 1 becomes a positive number or infinity. -/
theorem ofReal_pos {n : ℤ} (h : 0 < n) : 0 < Ieee.ofReal F false (n : ℝ) := by
  rw [Ieee.lt_iff_value Ieee.zero_value (Ieee.value_ofReal _ _)]
  have h1 : ((1 : ℝ) : EReal) ≤ ((n : ℝ) : EReal) := by exact_mod_cast h
  have := F.roundExt_mono h1
  rw [Ieee.roundExt_value (Ieee.value_number (Ieee.one_number (F := F)))] at this
  exact lt_of_lt_of_le (by norm_num) this

theorem quotient_nonneg {n m : ℤ} (hn : 0 < n) (hm : 0 < m) :
    Ieee.ofReal F false (n : ℝ) / Ieee.ofReal F false (m : ℝ) ≠ .nan → 0 ≤ Ieee.ofReal F false (n : ℝ) / Ieee.ofReal F false (m : ℝ) :=
  fun h => Ieee.div_nonneg' (Ieee.le_of_lt' (ofReal_pos hn)) (ofReal_pos hm) h

/-- **C105.** In `f32` and `f64`, raising the coupon rate of a bond with a face value that is not negative changes no outcome
and no date and lowers no payment; payments that come out as NaN are not compared. -/
theorem C105_flows (id : String) (issue first pen mat : Date) (f : Frequency) (rate rate' face : Ieee F) (hi : issue < first)
    (hm : pen < mat) (hr : rate ≤ rate') (hf : 0 ≤ face) :
    SameOutcome (fun b b' => b.bondId = b'.bondId ∧
        List.Forall₂ (FlowRel Spec.LeUnlessNan) b.bondCashFlows b'.bondCashFlows)
      (Bond.new id issue first pen mat f rate face) (Bond.new id issue first pen mat f rate' face) := by
  have h2 : (0 : Ieee F) < Ieee.ofReal F false ((f.toNat : ℤ) : ℝ) := ofReal_pos (by cases f; decide)
  have hc : Spec.LeUnlessNan (rate * face / Ieee.ofReal F false ((f.toNat : ℤ) : ℝ))
      (rate' * face / Ieee.ofReal F false ((f.toNat : ℤ) : ℝ)) :=
    LeUnlessNan.div_right h2 (LeUnlessNan.mul_right (fun _ => hf) (fun _ _ => hr))
  have h := bond_rel_on (fun n => Ieee.ofReal F false n) (fun n => Ieee.ofReal F false n) (fun _ => rfl) (fun _ => rfl)
    Spec.LeUnlessNan Spec.LeUnlessNan f rate face rate' face _ _ rfl rfl hc (fun n => 0 < n)
    (fun n m hn _ _ hm => LeUnlessNan.mul_right (quotient_nonneg hn hm) hc)
    (fun n m _ _ hn hm => LeUnlessNan.add hc (LeUnlessNan.mul_left (quotient_nonneg hn hm) hc))
    (fun x y hxy => LeUnlessNan.add (LeUnlessNan.refl face) hxy) id issue first pen mat
    ((C04_sub_pos _ _).2 hi) ((C04_sub_pos _ _).2 hm)
  generalize Bond.new id issue first pen mat f rate face = p at *
  generalize Bond.new id issue first pen mat f rate' face = q at *
  match p, q, h with
  | .panic, .panic, _ => trivial
  | .ok none, .ok none, _ => trivial
  | .ok (some _), .ok (some _), ⟨h1, f, f', g, g', h2, h3, h4, h5⟩ =>
    refine ⟨h1, ?_⟩
    rw [h2, h3]
    exact List.rel_append h4 (.cons h5 .nil)

section
variable [HasExp (Ieee F)]

/-- A discount factor is not negative, unless it is NaN. -/
theorem discount_nonneg (hE : IeeeExp F) {I : Interpolator (Ieee F)} (D : DayCount (Ieee F)) (c : YieldCurve (Ieee F) I)
    (d1 d2 : Date) (v : Ieee F) (h : c.discountFactor D d1 d2 = .ok (.ok v)) : v ≠ .nan → 0 ≤ v := by
  obtain ⟨-, -, t2, y2, -, -, h⟩ := (C45_value_iff D c d1 d2 v).1 h
  have key : ∀ a : Ieee F, HasExp.exp a ≠ .nan → 0 ≤ HasExp.exp a := by
    intro a ha
    refine hE.nonneg a ?_
    rintro rfl
    exact ha hE.nan
  rcases h with ⟨-, rfl⟩ | ⟨-, t1, y1, -, -, rfl⟩ <;> exact key _

/-- The same panics and errors, and values related by `R`. -/
def SamePrice (R : Ieee F → Ieee F → Prop) : Rust (QLabResult (Ieee F)) → Rust (QLabResult (Ieee F)) → Prop
  | .panic, .panic => True
  | .ok (.error e), .ok (.error e') => e = e'
  | .ok (.ok v), .ok (.ok v') => R v v'
  | _, _ => False

theorem pvLoop_le (hE : IeeeExp F) {I : Interpolator (Ieee F)} (D : DayCount (Ieee F)) (c : YieldCurve (Ieee F) I) (s : Date) :
    ∀ (l l' : List (BondCashFlow (Ieee F))) (p p' : Ieee F), List.Forall₂ (FlowRel Spec.LeUnlessNan) l l' →
      Spec.LeUnlessNan p p' → SamePrice Spec.LeUnlessNan (Bond.pvLoop D s c p l) (Bond.pvLoop D s c p' l')
  | _, _, p, p', .nil, hp => hp
  | _, _, p, p', @List.Forall₂.cons _ _ _ g g' l l' hg hl, hp => by
    obtain ⟨h1, h2, h3⟩ := hg
    rw [Bond.pvLoop, Bond.pvLoop, ← h1, ← h2]
    by_cases hd : s < g.dueDate
    · rw [if_pos hd, if_pos hd]
      match hr : c.discountFactor D s g.paymentDate with
      | .panic => trivial
      | .ok (.error e) => exact rfl
      | .ok (.ok df) =>
        exact pvLoop_le hE D c s l l' _ _ hl
          (LeUnlessNan.add hp (LeUnlessNan.mul_left (discount_nonneg hE D c _ _ _ hr) h3))
    · rw [if_neg hd, if_neg hd]
      exact pvLoop_le hE D c s l l' p p' hl hp

/-- **C105.** In `f32` and `f64`, of two bonds with the same dates the one with the payments that are not smaller has the price
that is not smaller, on every curve, with no rounding allowance; errors and panics are the same.  Prices that come out as NaN
are not compared. -/
theorem C105_price (hE : IeeeExp F) {I : Interpolator (Ieee F)} (D : DayCount (Ieee F)) (c : YieldCurve (Ieee F) I) (s : Date)
    (b b' : Bond (Ieee F)) (h : List.Forall₂ (FlowRel Spec.LeUnlessNan) b.bondCashFlows b'.bondCashFlows) :
    SamePrice Spec.LeUnlessNan (b.discountedValue D s c) (b'.discountedValue D s c) :=
  pvLoop_le hE D c s _ _ 0 0 h (LeUnlessNan.refl 0)

/-- **C105.** In `f32` and `f64`, a higher coupon rate gives no smaller price. -/
theorem C105_rate (hE : IeeeExp F) {I : Interpolator (Ieee F)} (D : DayCount (Ieee F)) (c : YieldCurve (Ieee F) I) (s : Date)
    (id : String) (issue first pen mat : Date) (f : Frequency) (rate rate' face : Ieee F) (hi : issue < first) (hm : pen < mat)
    (hr : rate ≤ rate') (hf : 0 ≤ face) (b : Bond (Ieee F)) (h : Bond.new id issue first pen mat f rate face = .ok (some b)) :
    ∃ b', Bond.new id issue first pen mat f rate' face = .ok (some b') ∧
      SamePrice Spec.LeUnlessNan (b.discountedValue D s c) (b'.discountedValue D s c) := by
  have hs := C105_flows id issue first pen mat f rate rate' face hi hm hr hf
  rw [h] at hs
  match e : Bond.new id issue first pen mat f rate' face with
  | .panic => rw [e] at hs; exact hs.elim
  | .ok none => rw [e] at hs; exact hs.elim
  | .ok (some b') => rw [e] at hs; exact ⟨b', rfl, C105_price hE D c s b b' hs.2⟩

theorem pvLoop_nonneg' (hE : IeeeExp F) {I : Interpolator (Ieee F)} (D : DayCount (Ieee F)) (c : YieldCurve (Ieee F) I) (s : Date) :
    ∀ (l : List (BondCashFlow (Ieee F))) (p v : Ieee F), (∀ g ∈ l, g.paymentAmount ≠ .nan → 0 ≤ g.paymentAmount) →
      (p ≠ .nan → 0 ≤ p) → Bond.pvLoop D s c p l = .ok (.ok v) → v ≠ .nan → 0 ≤ v
  | [], p, v, _, hp, h => by
    obtain rfl := Except.ok.inj (Rust.ok.inj h)
    exact hp
  | g :: l, p, v, hl, hp, h => by
    rw [Bond.pvLoop] at h
    by_cases hd : s < g.dueDate
    · rw [if_pos hd] at h
      obtain ⟨r, hr, h⟩ := Rust.bind_eq_ok.1 h
      match r with
      | .error e => simp at h
      | .ok df =>
        refine pvLoop_nonneg' hE D c s l _ v (fun g hg => hl g (List.mem_cons_of_mem _ hg)) ?_ h
        intro n
        have m := Ieee.add_ne_nan n
        have m' := Ieee.mul_ne_nan m.2
        exact Ieee.add_nonneg' (hp m.1) (Ieee.mul_nonneg' (discount_nonneg hE D c _ _ _ hr m'.1)
          (hl g List.mem_cons_self m'.2) m.2) n
    · rw [if_neg hd] at h
      exact pvLoop_nonneg' hE D c s l p v (fun g hg => hl g (List.mem_cons_of_mem _ hg)) hp h

/-- **C105.** In `f32` and `f64`, the price of payments that are not negative is not negative, unless it is NaN. -/
theorem C105_nonneg (hE : IeeeExp F) {I : Interpolator (Ieee F)} (D : DayCount (Ieee F)) (c : YieldCurve (Ieee F) I) (s : Date)
    (b : Bond (Ieee F)) (h : ∀ g ∈ b.bondCashFlows, 0 ≤ g.paymentAmount) (v : Ieee F)
    (hv : b.discountedValue D s c = .ok (.ok v)) : v = .nan ∨ 0 ≤ v := by
  by_cases hn : v = .nan
  · exact .inl hn
  · exact .inr (pvLoop_nonneg' hE D c s _ 0 v (fun g hg _ => h g hg)
      (fun _ => (Ieee.le_number Ieee.zero_number Ieee.zero_number).2 le_rfl) hv hn)

end

/-- Rates 0 and 1, face value 1, any curve in any format. -/
example [HasExp (Ieee F)] (hE : IeeeExp F) {I : Interpolator (Ieee F)} (D : DayCount (Ieee F)) (c : YieldCurve (Ieee F) I) (s : Date) :
    ∃ b b', Bond.new "b" ⟨2024, 7, 1, by decide⟩ ⟨2025, 1, 1, by decide⟩ ⟨2025, 1, 1, by decide⟩ ⟨2025, 7, 1, by decide⟩ .sa
        (0 : Ieee F) 1 = .ok (some b) ∧
      Bond.new "b" ⟨2024, 7, 1, by decide⟩ ⟨2025, 1, 1, by decide⟩ ⟨2025, 1, 1, by decide⟩ ⟨2025, 7, 1, by decide⟩ .sa
        (1 : Ieee F) 1 = .ok (some b') ∧ SamePrice Spec.LeUnlessNan (b.discountedValue D s c) (b'.discountedValue D s c) := by
  obtain ⟨q, hq⟩ : ∃ q, FromInt.fromInt (V := Ieee F) 2 = some q := ⟨_, rfl⟩
  have h := one_coupon_bond q 0 1 hq
  obtain ⟨b', h1, h2⟩ := C105_rate hE D c s _ _ _ _ _ _ 0 1 1 (by decide) (by decide) (Ieee.le_of_lt' zero_lt_one')
    (Ieee.le_of_lt' zero_lt_one') _ h
  exact ⟨_, b', h, h1, h2⟩

/-- Payments of 0 and of 1 a year after settlement on the curve `ieeeCurve`: both prices are values, in order. -/
example : letI := roundedExp .binary64
    ∃ v v' : Ieee .binary64, Bond.discountedValue DayCount.act365 ⟨"a", [⟨⟨2024, 1, 1, by decide⟩, ⟨2024, 1, 1, by decide⟩, 0⟩]⟩
        ⟨2023, 1, 1, by decide⟩ ieeeCurve = .ok (.ok v) ∧
      Bond.discountedValue DayCount.act365 ⟨"b", [⟨⟨2024, 1, 1, by decide⟩, ⟨2024, 1, 1, by decide⟩, 1⟩]⟩
        ⟨2023, 1, 1, by decide⟩ ieeeCurve = .ok (.ok v') ∧ 0 ≤ v ∧ v ≤ v' := by
  let _ := roundedExp .binary64
  obtain ⟨df, r, hdf, nr, l0, l1, -⟩ := ieeeCurve_discount
  have one := Ieee.one_number (F := .binary64)
  have z := Ieee.zero_number (F := .binary64)
  have r01 : 0 ≤ r ∧ r ≤ 1 := ⟨(Ieee.le_number z nr).1 l0, (Ieee.le_number nr one).1 l1⟩
  have b : (1 : ℝ) ≤ IeeeFormat.binary64.largest := le_trans (one_le_pow₀ (by norm_num)) IeeeFormat.binary64.largest_ge
  have hp : ∀ a : Ieee .binary64, Bond.discountedValue DayCount.act365
      ⟨"a", [⟨⟨2024, 1, 1, by decide⟩, ⟨2024, 1, 1, by decide⟩, a⟩]⟩ ⟨2023, 1, 1, by decide⟩ ieeeCurve = .ok (.ok (0 + df * a)) := by
    intro a
    simp only [Bond.discountedValue, Bond.pvLoop, hdf, Rust.ok_bind]
    rw [if_pos (by decide)]
  have m0 := Ieee.mul_round nr z (by rw [mul_zero, abs_zero]; linarith)
  rw [mul_zero, IeeeFormat.round_zero] at m0
  have m1 := Ieee.mul_round nr one (by rw [mul_one, abs_of_nonneg r01.1]; linarith)
  rw [mul_one] at m1
  have k := C105_price (roundedExp_sound .binary64) DayCount.act365 ieeeCurve ⟨2023, 1, 1, by decide⟩
    ⟨"a", [⟨⟨2024, 1, 1, by decide⟩, ⟨2024, 1, 1, by decide⟩, 0⟩]⟩ ⟨"a", [⟨⟨2024, 1, 1, by decide⟩, ⟨2024, 1, 1, by decide⟩, 1⟩]⟩
    (.cons ⟨rfl, rfl, fun _ _ => Ieee.le_of_lt' zero_lt_one'⟩ .nil)
  rw [hp, hp] at k
  have n0 : (0 : Ieee .binary64) + df * 0 ≠ .nan := by
    refine add_ne_nan_of_finite ⟨_, z⟩ ?_
    intro h; rw [h] at m0; exact absurd m0 (by rintro ⟨_, _, _, ⟨⟩⟩)
  have n1 : (0 : Ieee .binary64) + df * 1 ≠ .nan := by
    refine add_ne_nan_of_finite ⟨_, z⟩ ?_
    intro h; rw [h] at m1; exact absurd m1 (by rintro ⟨_, _, _, ⟨⟩⟩)
  refine ⟨_, _, hp 0, hp 1, ?_, k n0 n1⟩
  rcases C105_nonneg (roundedExp_sound .binary64) DayCount.act365 ieeeCurve _ _
    (by simpa using LeUnlessNan.refl (0 : Ieee .binary64) (by rintro ⟨⟩) (by rintro ⟨⟩)) _ (hp 0) with h | h
  · exact absurd h n0
  · exact h

/-- Rates 0 and 1: the same dates, payments in order. -/
example : SameOutcome (fun b b' => b.bondId = b'.bondId ∧
      List.Forall₂ (FlowRel Spec.LeUnlessNan) b.bondCashFlows b'.bondCashFlows)
    (Bond.new "b" ⟨2024, 7, 1, by decide⟩ ⟨2025, 1, 1, by decide⟩ ⟨2025, 1, 1, by decide⟩ ⟨2025, 7, 1, by decide⟩ .sa
      (0 : Ieee .binary64) 1)
    (Bond.new "b" ⟨2024, 7, 1, by decide⟩ ⟨2025, 1, 1, by decide⟩ ⟨2025, 1, 1, by decide⟩ ⟨2025, 7, 1, by decide⟩ .sa
      (1 : Ieee .binary64) 1) :=
  C105_flows _ _ _ _ _ _ 0 1 1 (by decide) (by decide) (Ieee.le_of_lt' zero_lt_one') (Ieee.le_of_lt' zero_lt_one')

end Qlab.Props
