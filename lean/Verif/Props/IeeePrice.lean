import Verif.Lemmas.LinearSim
import Verif.Props.FloatPrice
import Verif.Props.IeeeFlows
import Verif.Props.CurveShape

/-!
# From market data to price in the formats of IEEE 754 (C93)

The whole computation with a linear curve in `f32` and `f64` proper.  For moderate data no step overflows or underflows, so
the result is the one with an unbounded exponent range, and the error bounds of C92 hold.
-/

namespace Qlab

open Spec

namespace IeeeFormat

/-- The format with an unbounded exponent range and some function `e` for `exp`. -/
noncomputable def withExp (F : IeeeFormat) (e : ℝ → ℝ) (h : ∀ x, F.arith.fl (e x) = e x) : FloatArith :=
  { F.arith with exp := e, exp_rep := h }

end IeeeFormat

namespace Ieee
variable {F : IeeeFormat} {a b : Ieee F} {x y : ℝ}

/-- A product of numbers, unless it rounds to something too large or is too small. -/
theorem mul_number' (ha : IsNumber a x) (hb : IsNumber b y) (h : |F.arith.fl (x * y)| ≤ F.largest)
    (h' : x * y = 0 ∨ (2 : ℝ) ^ (1 - (F.emax : ℤ)) ≤ |x * y|) : IsNumber (a * b) (F.arith.fl (x * y)) := by
  obtain ⟨s, hs, r, rfl⟩ := ha
  obtain ⟨t, ht, r', rfl⟩ := hb
  rw [← F.round_normal h'] at h ⊢
  exact ofReal_number h

/-- A sum of numbers, unless it rounds to something too large. -/
theorem add_number' (ha : IsNumber a x) (hb : IsNumber b y) (h : |F.arith.fl (x + y)| ≤ F.largest) :
    IsNumber (a + b) (F.arith.fl (x + y)) := by
  have e := F.round_add (rep_of_isNumber ha).1 (rep_of_isNumber hb).1
  obtain ⟨s, hs, r, rfl⟩ := ha
  obtain ⟨t, ht, r', rfl⟩ := hb
  rw [← e] at h ⊢
  exact ofReal_number h

/-- Only zero has two representations. -/
theorem eq_of_isNumber (ha : IsNumber a x) (hb : IsNumber b x) (hx : x ≠ 0) : a = b := by
  obtain ⟨s, hs, r, rfl⟩ := ha
  obtain ⟨t, ht, r', rfl⟩ := hb
  have : s = t := by
    unfold SignFits at hs ht
    cases s <;> cases t <;> simp at hs ht ⊢ <;> exact hx (by linarith)
  subst this
  rfl

end Ieee

namespace Props

variable {F : IeeeFormat} {A : FloatArith}

/-- The exponential function of the format, for the numbers with an unbounded exponent: correctly rounded where the one of
the format is not known to give a number. -/
noncomputable def unboundedExp (F : IeeeFormat) [HasExp (Ieee F)] (B : ℝ) (x : ℝ) : ℝ :=
  open Classical in
  if h : |x| ≤ B ∧ ∃ r, ∃ a : Ieee F, IsNumber a x ∧ IsNumber (HasExp.exp a) r then h.2.choose
  else F.arith.fl (Real.exp x)

theorem unboundedExp_rep [HasExp (Ieee F)] (B x : ℝ) : F.arith.fl (unboundedExp F B x) = unboundedExp F B x := by
  unfold unboundedExp
  split
  · rename_i h
    obtain ⟨a, -, h2⟩ := h.2.choose_spec
    exact Ieee.fl_of_isNumber h2
  · exact F.arith.idem _

/-- The arithmetic with an unbounded exponent that goes with the format. -/
noncomputable def unbounded (F : IeeeFormat) [HasExp (Ieee F)] (B : ℝ) : FloatArith :=
  F.withExp (unboundedExp F B) (unboundedExp_rep B)

theorem unbounded_within [HasExp (Ieee F)] {B ε : ℝ} (hε : IeeeExpWithin F B ε) (hu : roundoff F ≤ ε) :
    ExpWithin (unbounded F B) ε := by
  intro a
  change |unboundedExp F B a.val - _| ≤ _
  unfold unboundedExp
  split
  · rename_i h
    obtain ⟨c, h1, h2⟩ := h.2.choose_spec
    obtain ⟨r, hr, he⟩ := hε c _ h1 h.1
    rw [Ieee.isNumber_inj h2 hr]
    exact he
  · have := F.arith.err' (Real.exp a.val)
    rw [F.unit_arith, abs_of_pos (Real.exp_pos _)] at this
    exact le_trans this (mul_le_mul_of_nonneg_right hu (Real.exp_pos _).le)

theorem unbounded_exp [HasExp (Ieee F)] {B ε : ℝ} (hε : IeeeExpWithin F B ε)
    (h0 : ∀ a : Ieee F, IsNumber a 0 → HasExp.exp a = 1) {a : Ieee F} {x : Fl (unbounded F B)} (ha : IsNumber a x.val)
    (hx : |x.val| ≤ B) : IsNumber (HasExp.exp a) (HasExp.exp x).val := by
  change IsNumber _ (unboundedExp F B x.val)
  obtain ⟨r, hr, -⟩ := hε a _ ha hx
  have hex : |x.val| ≤ B ∧ ∃ r, ∃ a : Ieee F, IsNumber a x.val ∧ IsNumber (HasExp.exp a) r := ⟨hx, r, a, ha, hr⟩
  unfold unboundedExp
  rw [dif_pos hex]
  obtain ⟨c, h1, h2⟩ := hex.2.choose_spec
  have : HasExp.exp a = HasExp.exp c := by
    by_cases hz : x.val = 0
    · rw [hz] at ha h1
      rw [h0 a ha, h0 c h1]
    · rw [Ieee.eq_of_isNumber ha h1 hz]
  rw [this]
  exact h2

/-- A finite datum as a number with an unbounded exponent (zero for NaN and infinities). -/
noncomputable def toUnbounded (hA : A.fl = F.arith.fl) (a : Ieee F) : Fl A := ⟨(Ieee.toFl a).val, by rw [hA]; exact (Ieee.toFl a).rep⟩

theorem toUnbounded_val (hA : A.fl = F.arith.fl) {a : Ieee F} {x : ℝ} (h : IsNumber a x) : (toUnbounded hA a).val = x :=
  Ieee.toFl_val h

theorem toUnbounded_number (hA : A.fl = F.arith.fl) {a : Ieee F} (h : IsFinite a) : IsNumber a (toUnbounded hA a).val :=
  Ieee.isNumber_toFl h

theorem toUnbounded_real (hA : A.fl = F.arith.fl) {a : Ieee F} (h : IsFinite a) : (toUnbounded hA a).val = real a := by
  rw [toUnbounded_val hA (real_number h)]

/-! ## Year fractions -/

/-- The year fraction in the format. -/
noncomputable def ieeeYears (F : IeeeFormat) (N : Int) (s d : Date) : Ieee F :=
  Ieee.ofReal F false ((Date.sub d s : Int) : ℝ) / Ieee.ofReal F false ((N : Int) : ℝ)

theorem ieee_actual_eq {D : DayCount (Ieee F)} {N : Int} (hD : IsActualDayCount D N) (a b : Date) :
    D a b = .ok (.ok (ieeeYears F N a b)) := by
  rcases hD with ⟨rfl, rfl⟩ | ⟨rfl, rfl⟩ <;> rfl

theorem years_number (hF : 40 ≤ F.emax) (hA : A.fl = F.arith.fl) {N : Int} (hN : N = 360 ∨ N = 365) (s d : Date) :
    IsNumber (ieeeYears F N s d) (flYears A N s d).val := by
  unfold flYears ieeeYears
  rw [Fl.val_round, hA]
  exact fraction_number hF (sub_abs_lt _ _).le hN

theorem years_mag (hA : A.fl = F.arith.fl) {N : Int} (hN : N = 360 ∨ N = 365) {s d : Date} (hd : |Date.sub d s| ≤ 2 ^ 20) :
    Mag (-9) 12 (flYears A N s d).val := by
  unfold flYears
  rw [Fl.val_round, hA]
  have h1 : Mag 0 20 ((Date.sub d s : Int) : ℝ) := by
    rcases eq_or_ne (Date.sub d s) 0 with h | h
    · left; simp [h]
    · right
      have h1 : (1 : ℝ) ≤ |((Date.sub d s : Int) : ℝ)| := by exact_mod_cast Int.one_le_abs h
      have h2 : |((Date.sub d s : Int) : ℝ)| ≤ 2 ^ 20 := by exact_mod_cast hd
      exact ⟨by simpa using h1, by exact_mod_cast h2⟩
  have h2 : Mag 8 9 (N : ℝ) := by rcases hN with rfl | rfl <;> right <;> norm_num
  exact (((h1.fl F).div h2).weaken (by norm_num) (by norm_num)).fl F

/-- Different days differ by about a day at least. -/
theorem years_sub_mag {N : Int} (hN : N = 360 ∨ N = 365) {s a b : Date} (ha : |Date.sub a s| ≤ 2 ^ 20)
    (hb : |Date.sub b s| ≤ 2 ^ 20) : Mag (-10) 13 ((flYears A N s b).val - (flYears A N s a).val) ∧
      (a ≠ b → (flYears A N s b).val - (flYears A N s a).val ≠ 0) := by
  rcases eq_or_ne a b with rfl | hab
  · exact ⟨.inl (sub_self _), fun h => absurd rfl h⟩
  have hu := A.unit_pos
  have hu1 := A.unit_le
  have hp : (2 : ℤ) ^ 20 ≤ 2 ^ A.prec := pow_le_pow_right₀ (by norm_num) (le_trans (by norm_num) A.prec_ge)
  have err : ∀ d : Date, |Date.sub d s| ≤ 2 ^ 20 → |(flYears A N s d).val - years N s d| ≤ 1 / 16 / 360 ∧
      |years N s d| ≤ 2 ^ 20 / 360 := by
    intro d hd
    have h := (quotient_error (A := A) (Date.sub d s) N).2 (hd.trans hp)
    have e1 : |((Date.sub d s : Int) : ℝ)| ≤ 2 ^ 20 := by exact_mod_cast hd
    have e2 : |years N s d| ≤ 2 ^ 20 / 360 := by
      unfold years
      rw [abs_div]
      have : (360 : ℝ) ≤ |(N : ℝ)| := by rcases hN with rfl | rfl <;> norm_num
      exact div_le_div₀ (by positivity) e1 (by norm_num) this
    refine ⟨le_trans h ?_, e2⟩
    change unitRoundoff A * |years N s d| ≤ _
    calc unitRoundoff A * |years N s d| ≤ 1 / 16777216 * (2 ^ 20 / 360) := mul_le_mul hu1 e2 (abs_nonneg _) (by norm_num)
      _ = 1 / 16 / 360 := by norm_num
  obtain ⟨ea, ya⟩ := err a ha
  obtain ⟨eb, yb⟩ := err b hb
  have gap : 1 / 365 ≤ |years N s b - years N s a| := by
    have e : years N s b - years N s a = (((Date.sub b s - Date.sub a s : Int)) : ℝ) / N := by
      unfold years; push_cast; ring
    have hne : Date.sub b s - Date.sub a s ≠ 0 := by
      intro h
      rw [C04_sub_serial, C04_sub_serial] at h
      rcases lt_or_gt_of_ne hab with hlt | hlt
      · have := (C03_serial_lt _ _).1 hlt; omega
      · have := (C03_serial_lt _ _).1 hlt; omega
    rw [e, abs_div]
    have h1 : (1 : ℝ) ≤ |((Date.sub b s - Date.sub a s : Int) : ℝ)| := by exact_mod_cast Int.one_le_abs hne
    have h2 : |(N : ℝ)| ≤ 365 := by rcases hN with rfl | rfl <;> norm_num
    have h3 : 0 < |(N : ℝ)| := by rcases hN with rfl | rfl <;> norm_num
    exact div_le_div₀ (abs_nonneg _) h1 h3 h2
  generalize (flYears A N s b).val = x at *
  generalize (flYears A N s a).val = y at *
  generalize years N s b = x' at *
  generalize years N s a = y' at *
  have lo : (2 : ℝ) ^ (-10 : ℤ) ≤ |x - y| := by
    have e : x' - y' = (x - y) - ((x - x') - (y - y')) := by ring
    have t1 := abs_sub (x - y) ((x - x') - (y - y'))
    have t2 := abs_sub (x - x') (y - y')
    rw [← e] at t1
    norm_num at *
    linarith
  refine ⟨.inr ⟨lo, ?_⟩, fun _ h => ?_⟩
  · have e : x - y = ((x - x') - (y - y')) + (x' - y') := by ring
    rw [e]
    have t1 := abs_add_le ((x - x') - (y - y')) (x' - y')
    have t2 := abs_sub (x - x') (y - y')
    have t3 := abs_sub x' y'
    norm_num at *
    linarith
  · rw [h] at lo; norm_num at lo

/-! ## Interpolated yields -/

/-- The steps of linear interpolation. -/
theorem yield_steps {k : ℕ} (hk : k + 2 * F.prec + 31 ≤ F.emax) {x₀ y₀ x₁ y₁ x : Ieee F} {a b c d z : ℝ} (ha : IsNumber x₀ a)
    (hb : IsNumber y₀ b) (hc : IsNumber x₁ c) (hd : IsNumber y₁ d) (hz : IsNumber x z) (mb : Mag (-(k : ℤ)) k b)
    (md : Mag (-(k : ℤ)) k d) (m2 : Mag (-10) 13 (c - a)) (hca : c - a ≠ 0) (m3 : Mag (-10) 13 (z - a)) :
    IsNumber (y₀ + (y₁ - y₀) / (x₁ - x₀) * (x - x₀))
      (F.arith.fl (b + F.arith.fl (F.arith.fl (F.arith.fl (d - b) / F.arith.fl (c - a)) * F.arith.fl (z - a)))) ∧
    Mag (-(k : ℤ) - 2 * F.prec - 21) (k + 25)
      (F.arith.fl (b + F.arith.fl (F.arith.fl (F.arith.fl (d - b) / F.arith.fl (c - a)) * F.arith.fl (z - a)))) := by
  have hp := F.one_le_prec
  have m1 : Mag (-(k : ℤ) - F.prec + 1) (k + 1) (d - b) := Mag.sub F (Ieee.fl_of_isNumber hd) (Ieee.fl_of_isNumber hb) md mb
  have n1 := Ieee.sub_number hd hb (F.mag_range m1 (by omega) (by omega)).1
  have n2 := Ieee.sub_number hc ha (F.mag_range m2 (by omega) (by omega)).1
  have n3 := Ieee.sub_number hz ha (F.mag_range m3 (by omega) (by omega)).1
  have m4 := (m1.fl F).div (m2.fl F)
  have r4 := F.mag_range m4 (by omega) (by omega)
  have n4 := Ieee.div_number n1 n2 (fun h => hca (F.arith.fl_eq_zero.1 h)) r4.1 r4.2
  have m5 := (m4.fl F).mul (m3.fl F)
  have r5 := F.mag_range m5 (by omega) (by omega)
  have n5 := Ieee.mul_number n4 n3 r5.1 r5.2
  have m6 : Mag (-(k : ℤ) - F.prec - 22) (k + 24)
      (-F.arith.fl (F.arith.fl (F.arith.fl (d - b) / F.arith.fl (c - a)) * F.arith.fl (z - a))) :=
    ((m5.fl F).weaken (by omega) (by omega)).neg
  have m7 := Mag.sub F (Ieee.fl_of_isNumber hb) (Ieee.fl_of_isNumber (Ieee.neg_number n5))
    (mb.weaken (lo' := -(k : ℤ) - F.prec - 22) (hi' := k + 24) (by omega) (by omega)) m6
  rw [sub_neg_eq_add] at m7
  have r7 := F.mag_range m7 (by omega) (by omega)
  exact ⟨Ieee.add_number hb n5 r7.1, (m7.fl F).weaken (by omega) (by omega)⟩

/-- The search takes the same branch in the format as with real abscissae in the order of the dates. -/
theorem same_comparisons {W : Type} [LinearOrder W] (hF : 40 ≤ F.emax) {N : Int} (hN : N = 360 ∨ N = 365) {s : Date}
    {ms : List Date} {ys : List (Ieee F)} {zs : List W} {f : Date → W} {d : Date} (hf : KeepsOrder f ms d)
    (hr : ∀ e ∈ d :: ms, |Date.sub e s| < 2 ^ (F.prec - 1)) (i : Nat) (p : Ieee F × Ieee F) (q : W × W)
    (hp : ((ms.map (ieeeYears F N s)).zip ys)[i]? = some p) (hq : ((ms.map f).zip zs)[i]? = some q) :
    (p.1 < ieeeYears F N s d ↔ q.1 < f d) ∧ (p.1 ≤ ieeeYears F N s d ↔ q.1 ≤ f d) ∧
      ∃ m, ms[i]? = some m ∧ p.1 = ieeeYears F N s m ∧ q.1 = f m := by
  obtain ⟨h1, -⟩ := List.getElem?_zip_eq_some.1 hp
  obtain ⟨h3, -⟩ := List.getElem?_zip_eq_some.1 hq
  rw [List.getElem?_map, Option.map_eq_some_iff] at h1 h3
  obtain ⟨m, hm, e1⟩ := h1
  obtain ⟨m', hm', e2⟩ := h3
  rw [hm] at hm'
  obtain rfl := Option.some.inj hm'
  have hmem := List.mem_of_getElem? hm
  have kf := flYears_keeps (A := F.arith) hN hr
  rw [← e1, ← e2]
  have n1 := years_number hF (A := F.arith) rfl hN s m
  have n2 := years_number hF (A := F.arith) rfl hN s d
  rw [Ieee.lt_number n1 n2, Ieee.le_number n1 n2]
  refine ⟨?_, ?_, m, hm, rfl, rfl⟩
  all_goals
    rcases lt_trichotomy m d with h | h | h
    · have a1 := (Fl.lt_iff _ _).1 (kf m (by simp [hmem]) d (by simp) h)
      have a2 := hf m (by simp [hmem]) d (by simp) h
      simp [a1, a1.le, a2, a2.le]
    · subst h; simp
    · have a1 := (Fl.lt_iff _ _).1 (kf d (by simp) m (by simp [hmem]) h)
      have a2 := hf d (by simp) m (by simp [hmem]) h
      simp [a1.not_gt, a1.not_ge, a2.not_gt, a2.not_ge]

/-- With an unbounded exponent or exactly, evaluation between increasing maturities never panics. -/
theorem eval_cases {W : Type} [LinearOrder W] [Add W] [Sub W] [Mul W] [Div W] {ms : List Date} {zs : List W} {f : Date → W}
    {d : Date} (hf : KeepsOrder f ms d) (hms : ms.Pairwise (· < ·)) (hlen : ms.length = zs.length) (h2 : 2 ≤ ms.length) :
    evaluate (Interpolator.linear W) ((ms.map f).zip zs) (f d) ≠ .panic := by
  rcases date_segment ms h2 hms d with h | h | h | ⟨i, m₀, m₁, e0, e1, h0, h1⟩
  · rw [eval_below hf hms hlen h2 h]; simp
  · rw [eval_above hf hms hlen h2 h]; simp
  · have e1 : ms[1]? = some ms[1] := List.getElem?_eq_getElem (by omega)
    have f0 : zs[0]? = some zs[0] := List.getElem?_eq_getElem (by omega)
    have f1 : zs[1]? = some zs[1] := List.getElem?_eq_getElem (by omega)
    rw [eval_first hf hms h e1 f0 f1]; simp
  · obtain ⟨i1, -⟩ := List.getElem?_eq_some_iff.1 e1
    have f0 : zs[i]? = some zs[i] := List.getElem?_eq_getElem (by omega)
    have f1 : zs[i + 1]? = some zs[i + 1] := List.getElem?_eq_getElem (by omega)
    rw [eval_inside hf hms e0 e1 f0 f1 h0 h1]; simp

/-- Whatever the yields, a date has an interpolated yield in the format exactly when it has one elsewhere. -/
theorem yields_outcome {W : Type} [LinearOrder W] [Add W] [Sub W] [Mul W] [Div W] (hF : 40 ≤ F.emax) {N : Int}
    (hN : N = 360 ∨ N = 365) {s : Date} {ms : List Date} {ys : List (Ieee F)} {zs : List W} {f : Date → W} {d : Date}
    (hlen : ms.length = ys.length) (hlen' : ms.length = zs.length) (h2 : 2 ≤ ms.length) (hms : ms.Pairwise (· < ·))
    (hf : KeepsOrder f ms d) (hr : ∀ e ∈ d :: ms, |Date.sub e s| < 2 ^ (F.prec - 1)) :
    (∃ i m₀ m₁ y₀ y₁ z₀ z₁, ms[i]? = some m₀ ∧ ms[i + 1]? = some m₁ ∧ ys[i]? = some y₀ ∧ ys[i + 1]? = some y₁ ∧
      zs[i]? = some z₀ ∧ zs[i + 1]? = some z₁ ∧
      evaluate (Interpolator.linear (Ieee F)) ((ms.map (ieeeYears F N s)).zip ys) (ieeeYears F N s d) =
        .ok (.ok (y₀ + (y₁ - y₀) / (ieeeYears F N s m₁ - ieeeYears F N s m₀) * (ieeeYears F N s d - ieeeYears F N s m₀))) ∧
      evaluate (Interpolator.linear W) ((ms.map f).zip zs) (f d) =
        .ok (.ok (z₀ + (z₁ - z₀) / (f m₁ - f m₀) * (f d - f m₀)))) ∨
    (∃ e e', evaluate (Interpolator.linear (Ieee F)) ((ms.map (ieeeYears F N s)).zip ys) (ieeeYears F N s d) = .ok (.error e) ∧
      evaluate (Interpolator.linear W) ((ms.map f).zip zs) (f d) = .ok (.error e')) := by
  rcases linear_sim ((ms.map (ieeeYears F N s)).zip ys) ((ms.map f).zip zs) (ieeeYears F N s d) (f d) (by simp; omega)
    (fun i p q hp hq => (same_comparisons hF hN hf hr i p q hp hq).1)
    (fun i p q hp hq => (same_comparisons hF hN hf hr i p q hp hq).2.1) with
    ⟨i, x₀, y₀, x₁, y₁, x₀', y₀', x₁', y₁', ⟨s0, s1⟩, ⟨t0, t1⟩, e, e'⟩ | h | ⟨-, h⟩
  · left
    obtain ⟨-, -, m₀, h0, q0, q0'⟩ := same_comparisons hF hN hf hr i _ _ s0 t0
    obtain ⟨-, -, m₁, h1, q1, q1'⟩ := same_comparisons hF hN hf hr (i + 1) _ _ s1 t1
    dsimp only at q0 q0' q1 q1'
    subst q0 q0' q1 q1'
    exact ⟨i, m₀, m₁, y₀, y₁, y₀', y₁', h0, h1, (List.getElem?_zip_eq_some.1 s0).2, (List.getElem?_zip_eq_some.1 s1).2,
      (List.getElem?_zip_eq_some.1 t0).2, (List.getElem?_zip_eq_some.1 t1).2, e, e'⟩
  · exact .inr h
  · exact absurd h (eval_cases hf hms hlen' h2)

/-- With moderate yields the interpolated yield is the number computed with an unbounded exponent. -/
theorem yields_number (hA : A.fl = F.arith.fl) (hP : A.prec = F.prec) {k : ℕ} (hk : k + 2 * F.prec + 31 ≤ F.emax) {N : Int}
    (hN : N = 360 ∨ N = 365) {s : Date} {ms : List Date} {ys : List (Ieee F)} {d : Date}
    (hlen : ms.length = ys.length) (h2 : 2 ≤ ms.length) (hms : ms.Pairwise (· < ·)) (hy : ∀ y ∈ ys, Moderate k y)
    (hr : ∀ e ∈ d :: ms, |Date.sub e s| ≤ 2 ^ 20) :
    (∃ y y', evaluate (Interpolator.linear (Ieee F)) ((ms.map (ieeeYears F N s)).zip ys) (ieeeYears F N s d) = .ok (.ok y) ∧
      evaluate (Interpolator.linear (Fl A)) ((ms.map (flYears A N s)).zip (ys.map (toUnbounded hA))) (flYears A N s d) =
        .ok (.ok y') ∧ IsNumber y y'.val ∧ Mag (-(k : ℤ) - 2 * F.prec - 21) (k + 25) y'.val) ∨
    (∃ e e', evaluate (Interpolator.linear (Ieee F)) ((ms.map (ieeeYears F N s)).zip ys) (ieeeYears F N s d) = .ok (.error e) ∧
      evaluate (Interpolator.linear (Fl A)) ((ms.map (flYears A N s)).zip (ys.map (toUnbounded hA))) (flYears A N s d) =
        .ok (.error e')) := by
  have hF : 40 ≤ F.emax := by have := F.prec_ge; omega
  have hlt : (2 : ℤ) ^ 20 < 2 ^ (F.prec - 1) := pow_lt_pow_right₀ (by norm_num) (by have := F.prec_ge; omega)
  have hr' : ∀ e ∈ d :: ms, |Date.sub e s| < 2 ^ (F.prec - 1) := fun e he => lt_of_le_of_lt (hr e he) hlt
  rcases yields_outcome (zs := ys.map (toUnbounded hA)) hF hN hlen (by simpa using hlen) h2 hms
    (flYears_keeps (A := A) hN (by rw [hP]; exact hr')) hr' with
    ⟨i, m₀, m₁, y₀, y₁, z₀, z₁, h0, h1, g0, g1, w0, w1, e, e'⟩ | h
  · left
    refine ⟨_, _, e, e', ?_⟩
    rw [List.getElem?_map, g0] at w0
    rw [List.getElem?_map, g1] at w1
    obtain rfl := Option.some.inj w0
    obtain rfl := Option.some.inj w1
    obtain ⟨b, nb, mb⟩ := hy _ (List.mem_of_getElem? g0)
    obtain ⟨c, nc, mc⟩ := hy _ (List.mem_of_getElem? g1)
    have i0 := hr m₀ (by simp [List.mem_of_getElem? h0])
    have i1 := hr m₁ (by simp [List.mem_of_getElem? h1])
    have id := hr d (by simp)
    obtain ⟨j0, -⟩ := List.getElem?_eq_some_iff.1 h0
    obtain ⟨j1, -⟩ := List.getElem?_eq_some_iff.1 h1
    have hne : m₀ ≠ m₁ := by
      have := List.pairwise_iff_getElem.1 hms i (i + 1) j0 j1 (by omega)
      rw [List.getElem?_eq_getElem j0] at h0
      rw [List.getElem?_eq_getElem j1] at h1
      obtain rfl := Option.some.inj h0
      obtain rfl := Option.some.inj h1
      exact this.ne
    obtain ⟨q1, q2⟩ := years_sub_mag (A := A) hN i0 i1
    obtain ⟨q3, -⟩ := years_sub_mag (A := A) hN i0 id
    have := yield_steps hk (years_number hF hA hN s m₀) nb (years_number hF hA hN s m₁) nc (years_number hF hA hN s d) mb mc
      q1 (q2 hne) q3
    simp only [Fl.val_add, Fl.val_mul, Fl.val_div, Fl.val_sub, toUnbounded_val hA nb, toUnbounded_val hA nc]
    rw [hA]
    exact this
  · exact .inr h

/-! ## Discount factors -/

/-- With moderate yields the discount factor is the number computed with an unbounded exponent. -/
theorem discounts_number [HasExp (Ieee F)] (hA : A.fl = F.arith.fl) (hP : A.prec = F.prec) {k : ℕ}
    (hk : k + 2 * F.prec + 31 ≤ F.emax) {D : DayCount (Ieee F)} {D' : DayCount (Fl A)} {N : Int} (hD : IsActualDayCount D N)
    (hD' : IsActualDayCount D' N) {s : Date} {ms : List Date} {ys : List (Ieee F)} {κ Y T B : ℝ}
    (hexp : ∀ (a : Ieee F) (x : Fl A), IsNumber a x.val → |x.val| ≤ B → IsNumber (HasExp.exp a) (HasExp.exp x).val)
    (hlen : ms.length = ys.length) (h2 : 2 ≤ ms.length) (hms : ms.Pairwise (· < ·)) (hbase : ∀ m ∈ ms, s ≤ m)
    (hκ : GapRatio s ms κ) (hκu : 16 * roundoff F * κ ≤ 1) (hy : ∀ y ∈ ys, Moderate k y) (hY : ∀ y ∈ ys, |real y| ≤ Y)
    (hT : ∀ m ∈ ms, years N s m ≤ T) (hB : 3 * Y * T ≤ B) (hr : ∀ m ∈ ms, |Date.sub m s| ≤ 2 ^ 20) :
    ∃ (c : YieldCurve (Ieee F) (Interpolator.linear (Ieee F))) (c' : YieldCurve (Fl A) (Interpolator.linear (Fl A))),
      YieldCurve.new D (Interpolator.linear (Ieee F)) s ms ys = .ok (.ok c) ∧
      YieldCurve.new D' (Interpolator.linear (Fl A)) s ms (ys.map (toUnbounded hA)) = .ok (.ok c') ∧
      ∀ d1 d2, |Date.sub d1 s| ≤ 2 ^ 20 → |Date.sub d2 s| ≤ 2 ^ 20 →
        (∃ e, c.discountFactor D d1 d2 = .ok (.error e) ∧ c'.discountFactor D' d1 d2 = .ok (.error e)) ∨
        (∃ (w : Ieee F) (x : Fl A), c.discountFactor D d1 d2 = .ok (.ok w) ∧
          c'.discountFactor D' d1 d2 = .ok (.ok (HasExp.exp x)) ∧ |x.val| ≤ B ∧ IsNumber w (HasExp.exp x).val) := by
  have hN : N = 360 ∨ N = 365 := by rcases hD with ⟨-, h⟩ | ⟨-, h⟩ <;> simp [h]
  have hN0 : 0 < N := by omega
  have hp24 := F.prec_ge
  have hF : 40 ≤ F.emax := by omega
  have huF : unitRoundoff A = roundoff F := by unfold unitRoundoff roundoff; rw [hP]
  have hlt : (2 : ℤ) ^ 20 < 2 ^ (A.prec - 1) := pow_lt_pow_right₀ (by norm_num) (by rw [hP]; omega)
  have hu := A.unit_pos
  have hu1 := A.unit_le
  have hDf : ∀ d, D s d = .ok (.ok (ieeeYears F N s d)) := fun d => ieee_actual_eq hD s d
  have hEf : ∀ d, D' s d = .ok (.ok (flYears A N s d)) := fun d => actual_eq hD' s d
  have hlen' : ms.length = (ys.map (toUnbounded hA)).length := by simpa using hlen
  obtain ⟨c, hc, hcs, hcv⟩ := linear_curve hDf ms ys hlen
  obtain ⟨c', hc', hcs', hcv'⟩ := linear_curve hEf ms (ys.map (toUnbounded hA)) hlen'
  refine ⟨c, c', hc, hc', fun d1 d2 hr1 hr2 => ?_⟩
  have hY' : ∀ y ∈ ys.map (toUnbounded hA), |y.val| ≤ Y := by
    intro y hy'
    obtain ⟨z, hz, rfl⟩ := List.mem_map.1 hy'
    obtain ⟨x, nx, -⟩ := hy z hz
    rw [toUnbounded_real hA ⟨x, nx⟩]
    exact hY z hz
  have hY0 : 0 ≤ Y := by
    obtain ⟨y, hy⟩ : ∃ y, y ∈ ys := List.exists_mem_of_length_pos (by omega)
    exact le_trans (abs_nonneg _) (hY y hy)
  have hrd : ∀ d, d = d1 ∨ d = d2 → |Date.sub d s| ≤ 2 ^ 20 := by rintro d (rfl | rfl) <;> assumption
  have sim := discount_sim (R := fun d (y : Ieee F) (y' : Fl A) => IsNumber y y'.val ∧
      Mag (-(k : ℤ) - 2 * F.prec - 21) (k + 25) y'.val ∧ |y'.val| ≤ 1.01 * Y ∧ ∃ m ∈ ms, d ≤ m) hcs hcs' hDf hEf d1 d2 (by
    intro d hd hsd
    rw [hcv, hcv']
    have hrm : ∀ e ∈ d :: ms, |Date.sub e s| ≤ 2 ^ 20 := by
      intro e he
      rcases List.mem_cons.1 he with rfl | he
      · exact hrd _ hd
      · exact hr e he
    rcases yields_number hA hP hk hN hlen h2 hms hy hrm with ⟨y, y', e1, e2, n1, n2⟩ | h
    · rcases curve_yields hN hlen' h2 hms hbase hκ (by rw [huF]; exact hκu) hY' d
        (fun e he => lt_of_le_of_lt (hrm e he) hlt) with ⟨z, z', e3, -, -, b1, -, -, b2⟩ | ⟨e, e', e3, -⟩
      · rw [e2] at e3
        obtain rfl : y' = z := by simpa using e3
        exact .inl ⟨y, y', e1, e2, n1, n2, b1, b2⟩
      · rw [e2] at e3; simp at e3
    · exact .inr h)
  -- one product of time and yield
  have prod : ∀ d (y : Ieee F) (y' : Fl A), |Date.sub d s| ≤ 2 ^ 20 → s ≤ d → IsNumber y y'.val →
      Mag (-(k : ℤ) - 2 * F.prec - 21) (k + 25) y'.val → |y'.val| ≤ 1.01 * Y → (∃ m ∈ ms, d ≤ m) →
      IsNumber (ieeeYears F N s d * y) (flYears A N s d * y').val ∧ |(flYears A N s d * y').val| ≤ (2 : ℝ) ^ ((k + 37 : ℕ) : ℤ) ∧
      |(flYears A N s d * y').val| ≤ 1.02 * (Y * T) ∧
      IsNumber (-ieeeYears F N s d * y) (-flYears A N s d * y').val ∧ |(-flYears A N s d * y').val| ≤ 1.02 * (Y * T) := by
    rintro d y y' hd hsd ny my by' ⟨m, hm, hdm⟩
    have nt := years_number hF hA hN s d
    have mt := years_mag hA hN hd
    have mm := mt.mul my
    have rm := F.mag_range mm (by omega) (by omega)
    have bound : |(flYears A N s d * y').val| ≤ 1.02 * (Y * T) := by
      rw [Fl.val_mul]
      have e1 := A.err' ((flYears A N s d).val * y'.val)
      have e2 := flYears_error (A := A) hN0 hsd (lt_of_le_of_lt hd hlt)
      have t0 := years_nonneg hN0 hsd
      have t1 : years N s d ≤ T := le_trans (years_le hN0 hdm) (hT m hm)
      have e3 : |(flYears A N s d).val| ≤ (1 + 1 / 16777216) * T := by
        have := abs_add_le ((flYears A N s d).val - years N s d) (years N s d)
        rw [sub_add_cancel, abs_of_nonneg t0] at this
        have := mul_le_mul_of_nonneg_right hu1 t0
        linarith
      have e4 : |(flYears A N s d).val * y'.val| ≤ (1 + 1 / 16777216) * T * (1.01 * Y) := by
        rw [abs_mul]
        exact mul_le_mul e3 by' (abs_nonneg _) (by linarith)
      have e5 := abs_add_le (A.fl ((flYears A N s d).val * y'.val) - (flYears A N s d).val * y'.val)
        ((flYears A N s d).val * y'.val)
      rw [sub_add_cancel] at e5
      have e6 := mul_le_mul_of_nonneg_right hu1 (abs_nonneg ((flYears A N s d).val * y'.val))
      have e7 : 0 ≤ Y * T := mul_nonneg hY0 (by linarith)
      nlinarith
    have en : (-flYears A N s d * y').val = -(flYears A N s d * y').val := by
      rw [Fl.val_mul, Fl.val_mul, Fl.val_neg, neg_mul, A.odd]
    refine ⟨?_, ?_, bound, ?_, ?_⟩
    · rw [Fl.val_mul, hA]
      exact Ieee.mul_number nt ny rm.1 rm.2
    · rw [Fl.val_mul, hA]
      exact le_trans (mm.fl F).le (zpow_le_zpow_right₀ (by norm_num) (by push_cast; omega))
    · rw [Fl.val_mul, hA, Fl.val_neg]
      refine Ieee.mul_number (Ieee.neg_number nt) ny ?_ ?_
      · rw [neg_mul, abs_neg]; exact rm.1
      · rw [neg_mul, abs_neg, neg_eq_zero]; exact rm.2
    · rw [en, abs_neg]; exact bound
  have hT0 : 0 ≤ T := by
    obtain ⟨m, hm⟩ : ∃ m, m ∈ ms := List.exists_mem_of_length_pos (by omega)
    exact le_trans (years_nonneg hN0 (hbase m hm)) (hT m hm)
  have hYT : 0 ≤ Y * T := mul_nonneg hY0 hT0
  rcases sim with h | ⟨hs, hd, y2, y2', ⟨r1, r2, r3, r4⟩, h⟩
  · exact .inl h
  right
  obtain ⟨p1, p2, p3, p4, p5⟩ := prod d2 y2 y2' hr2 (hs.trans hd) r1 r2 r3 r4
  rcases h with ⟨hds, e1, e2⟩ | ⟨hne, y1, y1', ⟨q1, q2, q3, q4⟩, e1, e2⟩
  · have hb : |(-flYears A N s d2 * y2').val| ≤ B := by linarith
    exact ⟨_, _, e1, e2, hb, hexp _ _ p4 hb⟩
  · obtain ⟨o1, o2, o3, -, -⟩ := prod d1 y1 y1' hr1 hs q1 q2 q3 q4
    have hb : |(flYears A N s d1 * y1' - flYears A N s d2 * y2').val| ≤ B := by
      rw [Fl.val_sub]
      have z1 := abs_sub (flYears A N s d1 * y1').val (flYears A N s d2 * y2').val
      have z2 := A.err' ((flYears A N s d1 * y1').val - (flYears A N s d2 * y2').val)
      have z3 := mul_le_mul_of_nonneg_right hu1 (abs_nonneg ((flYears A N s d1 * y1').val - (flYears A N s d2 * y2').val))
      have z4 := abs_add_le (A.fl ((flYears A N s d1 * y1').val - (flYears A N s d2 * y2').val) -
        ((flYears A N s d1 * y1').val - (flYears A N s d2 * y2').val))
        ((flYears A N s d1 * y1').val - (flYears A N s d2 * y2').val)
      rw [sub_add_cancel] at z4
      linarith
    refine ⟨_, _, e1, e2, hb, hexp _ _ ?_ hb⟩
    rw [Fl.val_sub, hA]
    refine Ieee.sub_number o1 p1 ?_
    have z1 := abs_sub (flYears A N s d1 * y1').val (flYears A N s d2 * y2').val
    have z2 : (2 : ℝ) ^ ((k + 37 : ℕ) : ℤ) + 2 ^ ((k + 37 : ℕ) : ℤ) ≤ 2 ^ F.emax := by
      rw [← two_mul, zpow_natCast, ← pow_succ']
      exact pow_le_pow_right₀ (by norm_num) (by omega)
    have := F.largest_ge
    linarith

/-! ## Bonds and prices -/

/-- With moderate rate and face value the amounts are the numbers computed with an unbounded exponent. -/
theorem bond_number (hA : A.fl = F.arith.fl) {k : ℕ} (hk : 2 * k + F.prec + 30 ≤ F.emax) {rate face : Ieee F}
    (hr : Moderate k rate) (hf : Moderate k face) (f : Frequency) (id : String) (issue first pen mat : Date) :
    SameOutcome (BondRel
        (fun (x : Ieee F) (y : Fl A) => IsNumber x y.val ∧ Mag (-(2 * k : ℤ) - 28 - F.prec) (2 * k + 30) y.val)
        (fun (x : Ieee F) (y : Fl A) => IsNumber x y.val ∧ Mag (-(2 * k : ℤ) - 28 - F.prec) (2 * k + 30) y.val))
      (Bond.new id issue first pen mat f rate face)
      (Bond.new id issue first pen mat f (toUnbounded hA rate) (toUnbounded hA face)) := by
  obtain ⟨ρ, nr, mr⟩ := hr
  obtain ⟨φ, nf, mf⟩ := hf
  have mr : Mag (-(k : ℤ)) k ρ := mr
  have mf : Mag (-(k : ℤ)) k φ := mf
  have hp24 := F.prec_ge
  have hF : 40 ≤ F.emax := by omega
  have er := toUnbounded_val hA nr
  have ef := toUnbounded_val hA nf
  have hp : (2 : ℤ) ^ 24 ≤ 2 ^ F.arith.prec := pow_le_pow_right₀ (by norm_num) F.arith.prec_ge
  have hcast : ∀ n : ℤ, |n| ≤ 2 ^ 28 → IsNumber (Ieee.ofReal F false (n : ℝ)) (Fl.round A (n : ℝ)).val := by
    intro n hn
    rw [Fl.val_round, hA]
    exact cast_number hF hn
  have m1 : Mag (-(2 * k : ℤ)) (2 * k) (ρ * φ) := (mr.mul mf).weaken (by omega) (by omega)
  have r1 := F.mag_range m1 (by omega) (by omega)
  have n1 := Ieee.mul_number nr nf r1.1 r1.2
  have h2 : (Fl.round A (((f.toNat : ℕ) : ℤ) : ℝ)).val = 2 := by
    rw [Fl.val_round, hA]
    cases f
    have := F.arith.int 2 (le_trans (by norm_num) hp)
    simpa [Frequency.toNat] using this
  have hn2 := hcast (f.toNat : ℤ) (by cases f; norm_num [Frequency.toNat])
  rw [h2] at hn2
  have m2 : Mag (-(2 * k : ℤ) - 1) (2 * k) (F.arith.fl (ρ * φ) / 2) :=
    ((m1.fl F).div (lo' := 1) (hi' := 1) (y := 2) (Or.inr (by norm_num))).weaken (by omega) (by omega)
  have r2 := F.mag_range m2 (by omega) (by omega)
  have n2 := Ieee.div_number n1 hn2 (by norm_num) r2.1 r2.2
  have m3 := m2.fl F
  obtain ⟨w, hw⟩ : ∃ w, w = toUnbounded hA rate * toUnbounded hA face / Fl.round A (((f.toNat : ℕ) : ℤ) : ℝ) := ⟨_, rfl⟩
  have ew : w.val = F.arith.fl (F.arith.fl (ρ * φ) / 2) := by
    rw [hw, Fl.val_div, Fl.val_mul, er, ef, h2, hA]
  obtain ⟨c, hc⟩ : ∃ c, c = rate * face / Ieee.ofReal F false (((f.toNat : ℕ) : ℤ) : ℝ) := ⟨_, rfl⟩
  rw [← ew] at m3 n2
  rw [← hc] at n2
  have hq : ∀ n m : ℤ, |n| ≤ 2 ^ 28 → |m| ≤ 2 ^ 28 → 0 < m →
      IsNumber (Ieee.ofReal F false (n : ℝ) / Ieee.ofReal F false (m : ℝ)) (Fl.round A (n : ℝ) / Fl.round A (m : ℝ)).val ∧
      Mag (-28) 28 (Fl.round A (n : ℝ) / Fl.round A (m : ℝ)).val ∧
      (0 < n → 0 ≤ (Fl.round A (n : ℝ) / Fl.round A (m : ℝ)).val) := by
    intro n m hn hm h0
    have q1 := (mag_int hn).fl F
    have q2 := (mag_int hm).fl F
    have q3 : Mag (-28) 28 (F.arith.fl n / F.arith.fl m) := (q1.div q2).weaken (by omega) (by omega)
    have r := F.mag_range q3 (by omega) (by omega)
    have hm0 := F.arith.fl_pos (x := (m : ℝ)) (by exact_mod_cast h0)
    have := Ieee.div_number (cast_number hF hn) (cast_number hF hm) hm0.ne' r.1 r.2
    rw [Fl.val_div, Fl.val_round, Fl.val_round, hA]
    exact ⟨this, q3.fl F, fun h => F.arith.fl_nonneg (div_nonneg (F.arith.fl_nonneg (by exact_mod_cast h.le)) hm0.le)⟩
  have h := bond_rel (fun n => Ieee.ofReal F false n) (fun n => Fl.round A (n : ℝ)) (fun _ => rfl) (fun _ => rfl)
    (fun x y => IsNumber x y.val ∧ Mag (-(2 * k : ℤ) - 29) (2 * k + 29) y.val)
    (fun x y => IsNumber x y.val ∧ Mag (-(2 * k : ℤ) - 28 - F.prec) (2 * k + 30) y.val) f rate face
    (toUnbounded hA rate) (toUnbounded hA face) c w hc hw
    ⟨n2, m3.weaken (by omega) (by omega)⟩ ?_ ?_ ?_ id issue first pen mat
  · generalize Bond.new id issue first pen mat f rate face = p at *
    generalize Bond.new id issue first pen mat f (toUnbounded hA rate) (toUnbounded hA face) = q at *
    match p, q, h with
    | .panic, .panic, _ => trivial
    | .ok none, .ok none, _ => trivial
    | .ok (some _), .ok (some _), ⟨h1, f, f', g, g', h2, h3, h4, h5⟩ =>
      exact ⟨h1, f, f', g, g', h2, h3, h4.imp fun _ _ h => ⟨h.1, h.2.1, h.2.2.1, h.2.2.2.weaken (by omega) (by omega)⟩, h5⟩
  · intro n m hn hm h0
    obtain ⟨q1, q2, -⟩ := hq n m hn hm h0
    have q3 := m3.mul q2
    have r := F.mag_range q3 (by omega) (by omega)
    have := Ieee.mul_number n2 q1 r.1 r.2
    rw [Fl.val_mul, hA]
    exact ⟨this, (q3.fl F).weaken (by omega) (by omega)⟩
  · intro n m hn hm hn0 h0
    obtain ⟨q1, q2, q0⟩ := hq n m hn hm h0
    have q0 := q0 hn0
    have q3 := q2.mul m3
    have r := F.mag_range q3 (by omega) (by omega)
    have t := Ieee.mul_number q1 n2 r.1 r.2
    rw [Fl.val_add, Fl.val_mul, hA]
    generalize (Fl.round A (n : ℝ) / Fl.round A (m : ℝ)).val = q at *
    have q4 := q3.fl F
    have sgn : |w.val + F.arith.fl (q * w.val)| = |w.val| + |F.arith.fl (q * w.val)| := by
      rcases le_total 0 w.val with h | h
      · have := F.arith.fl_nonneg (mul_nonneg q0 h)
        rw [abs_of_nonneg h, abs_of_nonneg this, abs_of_nonneg (add_nonneg h this)]
      · have := F.arith.fl_nonpos (mul_nonpos_of_nonneg_of_nonpos q0 h)
        rw [abs_of_nonpos h, abs_of_nonpos this, abs_of_nonpos (add_nonpos h this)]; ring
    have m4 : Mag (-(2 * k : ℤ) - 1) (2 * k + 29) (w.val + F.arith.fl (q * w.val)) := by
      by_cases hw0 : w.val = 0
      · left; rw [hw0, mul_zero, F.arith.fl_zero, add_zero]
      · right
        rw [sgn]
        refine ⟨le_trans (m3.ge hw0) (by have := abs_nonneg (F.arith.fl (q * w.val)); linarith), ?_⟩
        have b1 := m3.le
        have b2 := q4.le
        have b4 : (2 : ℝ) ^ (2 * (k : ℤ)) ≤ 2 ^ (28 + 2 * (k : ℤ)) := zpow_le_zpow_right₀ (by norm_num) (by omega)
        have b5 : (2 : ℝ) ^ (28 + 2 * (k : ℤ)) + 2 ^ (28 + 2 * (k : ℤ)) = 2 ^ (2 * (k : ℤ) + 29) := by
          rw [← two_mul, ← zpow_one_add₀ (by norm_num)]
          congr 1; ring
        linarith
    have r4 := F.mag_range m4 (by omega) (by omega)
    exact ⟨Ieee.add_number n2 t r4.1, (m4.fl F).weaken (by omega) (by omega)⟩
  · rintro x y ⟨h1, h2⟩
    rw [Fl.val_add, ef, hA]
    have m5 := Mag.sub F (Ieee.fl_of_isNumber nf) (Ieee.fl_of_isNumber (Ieee.neg_number h1))
      (mf.weaken (lo' := -(2 * k : ℤ) - 29) (hi' := 2 * k + 29) (by omega) (by omega)) h2.neg
    rw [sub_neg_eq_add] at m5
    have r5 := F.mag_range m5 (by omega) (by omega)
    exact ⟨Ieee.add_number nf h1 r5.1, (m5.fl F).weaken (by omega) (by omega)⟩

/-- The running total in the format is the one with an unbounded exponent, if that one ends in range. -/
theorem pv_number [HasExp (Ieee F)] (hA : A.fl = F.arith.fl) {lo b : ℤ} (hlo : 1 - (F.emax : ℤ) ≤ lo - b)
    {I : Interpolator (Ieee F)} {J : Interpolator (Fl A)} {D : DayCount (Ieee F)} {E : DayCount (Fl A)}
    {c : YieldCurve (Ieee F) I} {c' : YieldCurve (Fl A) J} {s : Date}
    (l : List (BondCashFlow (Ieee F))) (l' : List (BondCashFlow (Fl A)))
    (hl : List.Forall₂ (FlowRel fun x y => IsNumber x y.val ∧ 0 ≤ y.val ∧ (y.val = 0 ∨ (2 : ℝ) ^ lo ≤ y.val)) l l')
    (h : ∀ g ∈ l, (∃ e, c.discountFactor D s g.paymentDate = .ok (.error e) ∧
        c'.discountFactor E s g.paymentDate = .ok (.error e)) ∨
      (∃ w v, c.discountFactor D s g.paymentDate = .ok (.ok w) ∧ c'.discountFactor E s g.paymentDate = .ok (.ok v) ∧
        IsNumber w v.val ∧ (2 : ℝ) ^ (-b) ≤ v.val)) (q : Ieee F) (q' : Fl A) (hq : IsNumber q q'.val) (hq0 : 0 ≤ q'.val) :
    (∃ e, Bond.pvLoop D s c q l = .ok (.error e) ∧ Bond.pvLoop E s c' q' l' = .ok (.error e)) ∨
    (∃ r r', Bond.pvLoop D s c q l = .ok (.ok r) ∧ Bond.pvLoop E s c' q' l' = .ok (.ok r') ∧ q'.val ≤ r'.val ∧
      (r'.val ≤ F.largest → IsNumber r r'.val)) := by
  have key : ∀ (q : Ieee F) (q' : Fl A), 0 ≤ q'.val →
    (∃ e, Bond.pvLoop D s c q l = .ok (.error e) ∧ Bond.pvLoop E s c' q' l' = .ok (.error e)) ∨
    (∃ r r', Bond.pvLoop D s c q l = .ok (.ok r) ∧ Bond.pvLoop E s c' q' l' = .ok (.ok r') ∧ q'.val ≤ r'.val ∧
      (r'.val ≤ F.largest → IsNumber q q'.val → IsNumber r r'.val)) := by
    clear hq hq0 q q'
    intro q q' hq0
    induction hl generalizing q q' with
    | nil => exact .inr ⟨q, q', rfl, rfl, le_refl _, fun _ h => h⟩
    | @cons g g' l l' hg hl ih =>
      have ih := ih (fun g hg => h g (by simp [hg]))
      obtain ⟨h1, h2, h3, h4, h5⟩ := hg
      rw [Bond.pvLoop, Bond.pvLoop, ← h1, ← h2]
      by_cases hdue : s < g.dueDate
      · rw [if_pos hdue, if_pos hdue]
        rcases h g (by simp) with ⟨e, e1, e2⟩ | ⟨w, v, e1, e2, hn, hb⟩
        · exact .inl ⟨e, by rw [e1]; rfl, by rw [e2]; rfl⟩
        rw [e1, e2]
        simp only [Rust.ok_bind]
        have hv0 : 0 < v.val := lt_of_lt_of_le (Binary.zpow_pos' _) hb
        have x0 : 0 ≤ A.fl (v.val * g'.paymentAmount.val) := A.fl_nonneg (mul_nonneg hv0.le h4)
        have s1 : q'.val ≤ (q' + v * g'.paymentAmount).val := by
          rw [Fl.val_add, Fl.val_mul]
          calc q'.val = A.fl q'.val := q'.rep.symm
            _ ≤ _ := A.mono (by linarith)
        have s2 : A.fl (v.val * g'.paymentAmount.val) ≤ (q' + v * g'.paymentAmount).val := by
          rw [Fl.val_add, Fl.val_mul]
          calc A.fl (v.val * g'.paymentAmount.val) = A.fl (A.fl (v.val * g'.paymentAmount.val)) := (A.idem _).symm
            _ ≤ _ := A.mono (by linarith)
        rcases ih (q + w * g.paymentAmount) (q' + v * g'.paymentAmount) (le_trans hq0 s1) with h' | ⟨r, r', r1, r2, r3, r4⟩
        · exact .inl h'
        · refine .inr ⟨r, r', r1, r2, le_trans s1 r3, fun hr hq => r4 hr ?_⟩
          have nx : IsNumber (w * g.paymentAmount) (F.arith.fl (v.val * g'.paymentAmount.val)) := by
            refine Ieee.mul_number' hn h3 ?_ ?_
            · rw [← hA, abs_of_nonneg x0]
              exact le_trans s2 (le_trans r3 hr)
            · rcases h5 with h5 | h5
              · left; rw [h5, mul_zero]
              · right
                rw [abs_of_nonneg (mul_nonneg hv0.le h4)]
                refine le_trans (zpow_le_zpow_right₀ (by norm_num) hlo) ?_
                rw [show lo - b = -b + lo by ring, zpow_add₀ (by norm_num)]
                exact mul_le_mul hb h5 (Binary.zpow_pos' _).le hv0.le
          rw [Fl.val_add, Fl.val_mul, hA]
          refine Ieee.add_number' hq nx ?_
          rw [← hA, abs_of_nonneg (A.fl_nonneg (add_nonneg hq0 x0))]
          exact le_trans r3 hr
      · rw [if_neg hdue, if_neg hdue]
        exact ih q q' hq0
  rcases key q q' hq0 with h | ⟨r, r', r1, r2, r3, r4⟩
  · exact .inl h
  · exact .inr ⟨r, r', r1, r2, r3, fun h => r4 h hq⟩

/-! ## The theorems -/

section
variable [HasExp (Ieee F)]

/-- The two curves fail alike, whatever the yields. -/
theorem ieee_discounts_outcome (hF : 40 ≤ F.emax) {D : DayCount (Ieee F)} {E : DayCount ℝ} {N : Int}
    (hD : IsActualDayCount D N) (hE : IsActualDayCount E N) (s : Date) (ms : List Date) (ys : List (Ieee F)) (zs : List ℝ)
    (hlen : ms.length = ys.length) (hlen' : ms.length = zs.length) (h2 : 2 ≤ ms.length) (hms : ms.Pairwise (· < ·)) :
    ∃ (c : YieldCurve (Ieee F) (Interpolator.linear (Ieee F))) (c' : YieldCurve ℝ (Interpolator.linear ℝ)),
      YieldCurve.new D (Interpolator.linear (Ieee F)) s ms ys = .ok (.ok c) ∧
      YieldCurve.new E (Interpolator.linear ℝ) s ms zs = .ok (.ok c') ∧
      ∀ d1 d2, (∀ d ∈ d1 :: d2 :: ms, |Date.sub d s| < 2 ^ (F.prec - 1)) →
        (∃ e, c.discountFactor D d1 d2 = .ok (.error e) ∧ c'.discountFactor E d1 d2 = .ok (.error e)) ∨
        (∃ w v, c.discountFactor D d1 d2 = .ok (.ok w) ∧ c'.discountFactor E d1 d2 = .ok (.ok v)) := by
  have hN : N = 360 ∨ N = 365 := by rcases hD with ⟨-, h⟩ | ⟨-, h⟩ <;> simp [h]
  have hDf : ∀ d, D s d = .ok (.ok (ieeeYears F N s d)) := fun d => ieee_actual_eq hD s d
  have hEf : ∀ d, E s d = .ok (.ok (years N s d)) := fun d => real_actual_eq hE s d
  obtain ⟨c, hc, hcs, hcv⟩ := linear_curve hDf ms ys hlen
  obtain ⟨c', hc', hcs', hcv'⟩ := linear_curve hEf ms zs hlen'
  refine ⟨c, c', hc, hc', fun d1 d2 hr => ?_⟩
  have sim := discount_sim (R := fun _ _ _ => True) hcs hcs' hDf hEf d1 d2 (by
    intro d hd hsd
    rw [hcv, hcv']
    rcases yields_outcome hF hN hlen hlen' h2 hms (years_keeps (N := N) (by omega) (s := s) (d := d)) (by
      intro e he
      rcases List.mem_cons.1 he with rfl | he
      · rcases hd with rfl | rfl <;> exact hr _ (by simp)
      · exact hr e (by simp [he])) with ⟨_, _, _, _, _, _, _, _, _, _, _, _, _, e1, e2⟩ | h
    · exact .inl ⟨_, _, e1, e2, trivial⟩
    · exact .inr h)
  rcases sim with h | ⟨-, -, y, y', -, ⟨-, h1, h2⟩ | ⟨-, y1, y1', -, h1, h2⟩⟩
  · exact .inl h
  · exact .inr ⟨_, _, h1, h2⟩
  · exact .inr ⟨_, _, h1, h2⟩

/-- **C93.** In `f32` and `f64` a linear curve under Act/360 or Act/365 refuses the same dates with the same errors as in
exact arithmetic, and never panics, whatever the yields: NaN and infinities included. -/
theorem C93_discount_outcome (hF : 40 ≤ F.emax) {D : DayCount (Ieee F)} {E : DayCount ℝ} {N : Int}
    (hD : IsActualDayCount D N) (hE : IsActualDayCount E N) (s : Date) (ms : List Date) (ys : List (Ieee F)) (zs : List ℝ)
    (hlen : ms.length = ys.length) (hlen' : ms.length = zs.length) (h2 : 2 ≤ ms.length) (hms : ms.Pairwise (· < ·))
    (d1 d2 : Date) (hr : ∀ d ∈ d1 :: d2 :: ms, |Date.sub d s| < 2 ^ (F.prec - 1)) :
    (∀ e, curveDiscount D (Interpolator.linear (Ieee F)) s ms ys d1 d2 = .ok (.error e) ↔
      curveDiscount E (Interpolator.linear ℝ) s ms zs d1 d2 = .ok (.error e)) ∧
    curveDiscount D (Interpolator.linear (Ieee F)) s ms ys d1 d2 ≠ .panic ∧
    curveDiscount E (Interpolator.linear ℝ) s ms zs d1 d2 ≠ .panic := by
  obtain ⟨c, c', hc, hc', hall⟩ := ieee_discounts_outcome hF hD hE s ms ys zs hlen hlen' h2 hms
  unfold curveDiscount
  rw [hc, hc']
  simp only [Rust.ok_bind]
  rcases hall d1 d2 hr with ⟨e', h1, h2⟩ | ⟨w, v, h1, h2⟩ <;> rw [h1, h2] <;> simp

/-- **C93.** The same for prices: the same errors as in exact arithmetic and no panic, whatever yields, rate and face value,
NaN and infinities included. -/
theorem C93_price_outcome (hF : 40 ≤ F.emax) {D : DayCount (Ieee F)} {E : DayCount ℝ} {N : Int}
    (hD : IsActualDayCount D N) (hE : IsActualDayCount E N) (cs : Date) (ms : List Date) (ys : List (Ieee F)) (zs : List ℝ)
    (hlen : ms.length = ys.length) (hlen' : ms.length = zs.length) (h2 : 2 ≤ ms.length) (hms : ms.Pairwise (· < ·))
    (id : String) (issue first pen mat : Date) (f : Frequency) (rate face : Ieee F) (rate' face' : ℝ) (b : Bond (Ieee F))
    (b' : Bond ℝ) (s : Date) (hb : Bond.new id issue first pen mat f rate face = .ok (some b))
    (hb' : Bond.new id issue first pen mat f rate' face' = .ok (some b'))
    (hr : ∀ d ∈ s :: ms ++ b.bondCashFlows.map (·.paymentDate), |Date.sub d cs| < 2 ^ (F.prec - 1)) :
    (∀ e, curvePrice D (Interpolator.linear (Ieee F)) cs ms ys b s = .ok (.error e) ↔
      curvePrice E (Interpolator.linear ℝ) cs ms zs b' s = .ok (.error e)) ∧
    curvePrice D (Interpolator.linear (Ieee F)) cs ms ys b s ≠ .panic ∧
    curvePrice E (Interpolator.linear ℝ) cs ms zs b' s ≠ .panic := by
  obtain ⟨c, c', hc, hc', hout⟩ := ieee_discounts_outcome hF hD hE cs ms ys zs hlen hlen' h2 hms
  have hrel := bond_rel (fun n => Ieee.ofReal F false n) (fun n => (n : ℝ)) (fun _ => rfl) (fun _ => rfl) (fun _ _ => True)
    (fun _ _ => True) f rate face rate' face' _ _ rfl rfl trivial (fun _ _ _ _ _ => trivial) (fun _ _ _ _ _ _ => trivial)
    (fun _ _ _ => trivial) id issue first pen mat
  rw [hb, hb'] at hrel
  obtain ⟨-, l, l', x, y, e1, e2, hl, hxy⟩ := hrel
  have hall : List.Forall₂ (FlowRel fun _ _ => True) b.bondCashFlows b'.bondCashFlows := by
    rw [e1, e2]
    exact List.rel_append hl (.cons hxy .nil)
  unfold curvePrice Bond.discountedValue
  rw [hc, hc']
  simp only [Rust.ok_bind]
  rcases pv_outcome (D := D) (E := E) (c := c) (c' := c') (s := s) b.bondCashFlows b'.bondCashFlows
    (hall.imp fun _ _ h => ⟨h.1, h.2.1⟩) (by
    intro g hg
    refine hout s g.paymentDate (fun d hd => ?_)
    simp only [List.mem_cons] at hd
    rcases hd with rfl | rfl | hd
    · exact hr _ (by simp)
    · exact hr _ (by
        simp only [List.cons_append, List.mem_cons, List.mem_append, List.mem_map]
        exact .inr (.inr ⟨g, hg, rfl⟩))
    · exact hr _ (by simp [hd])) 0 0 with ⟨e', h1, h2⟩ | ⟨r, r', h1, h2⟩ <;> rw [h1, h2] <;> simp

omit [HasExp (Ieee F)] in
theorem map_toUnbounded (hA : A.fl = F.arith.fl) {k : ℕ} {ys : List (Ieee F)} (hy : ∀ y ∈ ys, Moderate k y) :
    (ys.map (toUnbounded hA)).map Fl.val = ys.map real := by
  rw [List.map_map]
  refine List.map_congr_left fun y hm => ?_
  obtain ⟨x, hx, -⟩ := hy y hm
  exact toUnbounded_real hA ⟨x, hx⟩

omit [HasExp (Ieee F)] in
theorem exists_actual {V W : Type} [Div V] [FromInt V] [Div W] [FromInt W] {D : DayCount V} {N : Int}
    (hD : IsActualDayCount D N) : ∃ D' : DayCount W, IsActualDayCount D' N := by
  rcases hD with ⟨-, rfl⟩ | ⟨-, rfl⟩
  · exact ⟨_, .inl ⟨rfl, rfl⟩⟩
  · exact ⟨_, .inr ⟨rfl, rfl⟩⟩

/-- **C93.** From market data to discount factor, in `f32` and `f64` proper.  The yields are zero or between `2 ^ -k` and
`2 ^ k` in magnitude (`k` up to 48 in `f32`, 886 in `f64`), all dates within `2 ^ 20` days (2870 years) of settlement, and
`exp` is accurate to `ε` for arguments up to `B`, which is at least `3 Y T`.  Then nothing overflows or underflows: where the
exact discount factor `v` exists the one in the format is a finite number, within the factor of C92 of `v`. -/
theorem C93_discount (B ε : ℝ) (hε : IeeeExpWithin F B ε) (hexp0 : ∀ a : Ieee F, IsNumber a 0 → HasExp.exp a = 1)
    (hε0 : roundoff F ≤ ε) (hε1 : ε ≤ 1) (k : ℕ) (hk : k + 2 * F.prec + 31 ≤ F.emax) {D : DayCount (Ieee F)} {E : DayCount ℝ}
    {N : Int} (hD : IsActualDayCount D N) (hE : IsActualDayCount E N) (s : Date) (ms : List Date) (ys : List (Ieee F))
    (κ Y T : ℝ) (hlen : ms.length = ys.length) (h2 : 2 ≤ ms.length) (hms : ms.Pairwise (· < ·)) (hbase : ∀ m ∈ ms, s ≤ m)
    (hκ : GapRatio s ms κ) (hκu : 16 * roundoff F * κ ≤ 1) (hy : ∀ y ∈ ys, Moderate k y) (hY : ∀ y ∈ ys, |real y| ≤ Y)
    (hT : ∀ m ∈ ms, years N s m ≤ T) (hB : 3 * Y * T ≤ B) (d1 d2 : Date)
    (hr : ∀ d ∈ d1 :: d2 :: ms, |Date.sub d s| ≤ 2 ^ 20) (v : ℝ)
    (h : curveDiscount E (Interpolator.linear ℝ) s ms (ys.map real) d1 d2 = .ok (.ok v)) :
    ∃ w r δ, curveDiscount D (Interpolator.linear (Ieee F)) s ms ys d1 d2 = .ok (.ok w) ∧ IsNumber w r ∧
      δ = 30 * κ * roundoff F * Y * (years N s d1 + years N s d2) ∧
      (1 - ε) * Real.exp (-δ) * v ≤ r ∧ r ≤ (1 + ε) * Real.exp δ * v := by
  have hA : (unbounded F B).fl = F.arith.fl := rfl
  have hP : (unbounded F B).prec = F.prec := rfl
  obtain ⟨D', hD'⟩ := exists_actual (W := Fl (unbounded F B)) hD
  have hu0 : 0 < roundoff F := F.arith.unit_pos
  have hY' : ∀ y ∈ ys.map (toUnbounded hA), |y.val| ≤ Y := by
    intro y hy'
    obtain ⟨z, hz, rfl⟩ := List.mem_map.1 hy'
    obtain ⟨x, nx, -⟩ := hy z hz
    rw [toUnbounded_real hA ⟨x, nx⟩]
    exact hY z hz
  have hlt : (2 : ℤ) ^ 20 < 2 ^ (F.prec - 1) := pow_lt_pow_right₀ (by norm_num) (by have := F.prec_ge; omega)
  obtain ⟨w', δ, e1, e2, e3, e4⟩ := C92_discount hD' hE s ms (ys.map (toUnbounded hA)) κ Y ε (unbounded_within hε hε0)
    (by linarith) hε1 (by simpa using hlen) h2 hms hbase hκ hκu hY' d1 d2 (fun d hd => lt_of_le_of_lt (hr d hd) hlt) v
    (by rw [map_toUnbounded hA hy]; exact h)
  obtain ⟨c, c', hc, hc', hall⟩ := discounts_number hA hP hk hD hD' (fun a x => unbounded_exp hε hexp0) hlen h2 hms hbase hκ
    hκu hy hY hT hB (fun m hm => hr m (by simp [hm]))
  unfold curveDiscount at e1 ⊢
  rw [hc'] at e1
  rw [hc]
  simp only [Rust.ok_bind] at e1 ⊢
  rcases hall d1 d2 (hr _ (by simp)) (hr _ (by simp)) with ⟨e, -, h'⟩ | ⟨w, x, h1, h2, -, h3⟩
  · rw [h'] at e1; simp at e1
  · rw [h2] at e1
    obtain rfl : HasExp.exp x = w' := by simpa using e1
    exact ⟨w, _, δ, h1, h3, e2, e3, e4⟩

/-- **C93.** From market data to price, in `f32` and `f64` proper.  Yields, rate and face value are zero or between `2 ^ -k`
and `2 ^ k` in magnitude, rate and face value not negative, the dates of the bond in order and all dates within `2 ^ 20` days
of the curve's settlement; `exp` is accurate to `ε` for arguments up to `B`, which is at least `3 Y T`, and `2 ^ b` bounds
`2 exp B`.  Then, where the exact price `v` exists and is not itself close to the largest number of the format, nothing
overflows or underflows: the price in the format is a finite number within `X / (1 - X)` of `v`, relative to `v`, with
`X = (n + 11) u + ε + 60 κ u Y T` for `n` remaining flows. -/
theorem C93_price (B ε : ℝ) (hε : IeeeExpWithin F B ε) (hexp0 : ∀ a : Ieee F, IsNumber a 0 → HasExp.exp a = 1)
    (hε0 : roundoff F ≤ ε) (hε1 : ε ≤ 1 / 2) (k c : ℕ) (hk : k + 2 * F.prec + 31 ≤ F.emax)
    (hkc : 2 * k + c + F.prec + 30 ≤ F.emax) (hc : 2 * Real.exp B ≤ 2 ^ c) {D : DayCount (Ieee F)} {E : DayCount ℝ}
    {N : Int} (hD : IsActualDayCount D N) (hE : IsActualDayCount E N) (cs : Date) (ms : List Date) (ys : List (Ieee F))
    (κ Y T : ℝ) (hlen : ms.length = ys.length) (h2 : 2 ≤ ms.length) (hms : ms.Pairwise (· < ·)) (hbase : ∀ m ∈ ms, cs ≤ m)
    (hκ : GapRatio cs ms κ) (hκ0 : 0 ≤ κ) (hκu : 16 * roundoff F * κ ≤ 1) (hy : ∀ y ∈ ys, Moderate k y)
    (hY : ∀ y ∈ ys, |real y| ≤ Y) (hT : ∀ m ∈ ms, years N cs m ≤ T) (hB : 3 * Y * T ≤ B) (id : String)
    (issue first pen mat : Date) (f : Frequency) (rate face : Ieee F) (hrate : Moderate k rate) (hface : Moderate k face)
    (hr0 : 0 ≤ rate) (hf0 : 0 ≤ face) (hi : issue < first) (hm : pen < mat) (b : Bond (Ieee F)) (b' : Bond ℝ) (s : Date)
    (hb : Bond.new id issue first pen mat f rate face = .ok (some b))
    (hb' : Bond.new id issue first pen mat f (real rate) (real face) = .ok (some b'))
    (hr : ∀ d ∈ s :: ms ++ b.bondCashFlows.map (·.paymentDate), |Date.sub d cs| ≤ 2 ^ 20) (v : ℝ)
    (h : curvePrice E (Interpolator.linear ℝ) cs ms (ys.map real) b' s = .ok (.ok v)) (X : ℝ)
    (hX : X = ((remaining b s).length + 11) * roundoff F + ε + 60 * κ * roundoff F * Y * T) (hX1 : X < 1)
    (hv : v ≤ (1 - X) * F.largest) :
    ∃ w r, curvePrice D (Interpolator.linear (Ieee F)) cs ms ys b s = .ok (.ok w) ∧ IsNumber w r ∧ 0 ≤ v ∧
      |r - v| ≤ X / (1 - X) * v := by
  have hA : (unbounded F B).fl = F.arith.fl := rfl
  have hP : (unbounded F B).prec = F.prec := rfl
  obtain ⟨D', hD'⟩ := exists_actual (W := Fl (unbounded F B)) hD
  have hu0 : 0 < roundoff F := F.arith.unit_pos
  have hu1 : roundoff F ≤ 1 / 16777216 := F.arith.unit_le
  have hY' : ∀ y ∈ ys.map (toUnbounded hA), |y.val| ≤ Y := by
    intro y hy'
    obtain ⟨z, hz, rfl⟩ := List.mem_map.1 hy'
    obtain ⟨x, nx, -⟩ := hy z hz
    rw [toUnbounded_real hA ⟨x, nx⟩]
    exact hY z hz
  have hlt : (2 : ℤ) ^ 20 < 2 ^ (F.prec - 1) := pow_lt_pow_right₀ (by norm_num) (by have := F.prec_ge; omega)
  have hs := bond_number hA (by omega) hrate hface f id issue first pen mat
  rw [hb] at hs
  obtain ⟨ρ, nr, -⟩ := hrate
  obtain ⟨φ, nf, -⟩ := hface
  have er : (toUnbounded hA rate).val = real rate := toUnbounded_real hA ⟨ρ, nr⟩
  have ef : (toUnbounded hA face).val = real face := toUnbounded_real hA ⟨φ, nf⟩
  have pr : 0 ≤ (toUnbounded hA rate).val := by
    rw [toUnbounded_val hA nr]; exact (Ieee.le_number Ieee.zero_number nr).1 hr0
  have pf : 0 ≤ (toUnbounded hA face).val := by
    rw [toUnbounded_val hA nf]; exact (Ieee.le_number Ieee.zero_number nf).1 hf0
  match e : Bond.new id issue first pen mat f (toUnbounded hA rate) (toUnbounded hA face) with
  | .panic => rw [e] at hs; exact hs.elim
  | .ok none => rw [e] at hs; exact hs.elim
  | .ok (some bf) =>
    rw [e] at hs
    have hb'' : Bond.new id issue first pen mat f (toUnbounded hA rate).val (toUnbounded hA face).val = .ok (some b') := by
      rw [er, ef]; exact hb'
    have near := flows_near e hb'' hi hm pr pf
    obtain ⟨-, l, l', x, y, e1, e2, hl, hxy⟩ := hs
    have hall : List.Forall₂ (FlowRel fun (x : Ieee F) (y : Fl (unbounded F B)) =>
        IsNumber x y.val ∧ Mag (-(2 * k : ℤ) - 28 - F.prec) (2 * k + 30) y.val) b.bondCashFlows bf.bondCashFlows := by
      rw [e1, e2]
      exact List.rel_append hl (.cons hxy .nil)
    have hl1 := hall.length_eq
    have hl2 := near.length_eq
    have hall' : List.Forall₂ (FlowRel fun (x : Ieee F) (y : Fl (unbounded F B)) =>
        IsNumber x y.val ∧ 0 ≤ y.val ∧ (y.val = 0 ∨ (2 : ℝ) ^ (-(2 * k : ℤ) - 28 - F.prec) ≤ y.val)) b.bondCashFlows
        bf.bondCashFlows := by
      refine List.forall₂_iff_get.2 ⟨hl1, fun i h1 h2 => ?_⟩
      obtain ⟨q1, q2, q3, q4⟩ := (List.forall₂_iff_get.1 hall).2 i h1 h2
      obtain ⟨-, -, p3, p4⟩ := (List.forall₂_iff_get.1 near).2 i h2 (by omega)
      have p5 : 0 ≤ (bf.bondCashFlows.get ⟨i, h2⟩).paymentAmount.val := by
        have p6 := (abs_le.1 p4).1
        have p7 : unitRoundoff (unbounded F B) * (b'.bondCashFlows.get ⟨i, by omega⟩).paymentAmount ≤
            1 / 16777216 * (b'.bondCashFlows.get ⟨i, by omega⟩).paymentAmount := mul_le_mul_of_nonneg_right hu1 p3
        linarith
      refine ⟨q1, q2, q3, p5, q4.imp_right fun h => ?_⟩
      rw [abs_of_nonneg p5] at h
      exact h.1
    have hrem : (remaining b s).length = (remaining bf s).length := by
      unfold remaining
      clear * - hall
      generalize b.bondCashFlows = l at *
      generalize bf.bondCashFlows = l' at *
      induction hall with
      | nil => rfl
      | @cons g g' l l' h _ ih =>
        simp only [List.filter_cons, ← h.1]
        split
        · simpa using ih
        · exact ih
    have hpay : b.bondCashFlows.map (·.paymentDate) = bf.bondCashFlows.map (·.paymentDate) := by
      clear * - hall
      generalize b.bondCashFlows = l at *
      generalize bf.bondCashFlows = l' at *
      induction hall with
      | nil => rfl
      | @cons g g' l l' h _ ih => rw [List.map_cons, List.map_cons, h.2.1, ih]
    have hrf : ∀ d ∈ s :: ms ++ bf.bondCashFlows.map (·.paymentDate), |Date.sub d cs| ≤ 2 ^ 20 := by
      rw [← hpay]; exact hr
    obtain ⟨w', f1, f2, f3⟩ := C92_price_relative hD' hE cs ms (ys.map (toUnbounded hA)) κ Y T ε (unbounded_within hε hε0)
      (by linarith) (by simpa using hlen) h2 hms hbase hκ hκ0 hκu hY' hT id issue first pen mat f _ _ bf b' s e hb'' hi hm pr pf
      (fun d hd => lt_of_le_of_lt (hrf d hd) hlt) v (by rw [map_toUnbounded hA hy]; exact h) X (by rw [hX, hrem]; rfl) hX1
    obtain ⟨cv, cv', hc1, hc2, hdf⟩ := discounts_number hA hP hk hD hD' (fun a x => unbounded_exp hε hexp0) hlen h2 hms hbase
      hκ hκu hy hY hT hB (fun m hm => hr m (by simp [hm]))
    unfold curvePrice Bond.discountedValue at f1 ⊢
    rw [hc2] at f1
    rw [hc1]
    simp only [Rust.ok_bind] at f1 ⊢
    rcases pv_number (D := D) (E := D') (c := cv) (c' := cv') (s := s) (b := c) hA (by omega) _ _ hall' (by
      intro g hg
      rcases hdf s g.paymentDate (hr _ (by simp)) (hr _ (by
        simp only [List.cons_append, List.mem_cons, List.mem_append, List.mem_map]
        exact .inr (.inr ⟨g, hg, rfl⟩))) with h' | ⟨w, x, g1, g2, g3, g4⟩
      · exact .inl h'
      · refine .inr ⟨w, _, g1, g2, g4, ?_⟩
        have i1 := (abs_le.1 (unbounded_within hε hε0 x)).1
        have i2 : Real.exp (-B) ≤ Real.exp x.val := Real.exp_le_exp.2 (abs_le.1 g3).1
        have i3 : (2 : ℝ) ^ (-(c : ℤ)) ≤ 1 / 2 * Real.exp (-B) := by
          rw [zpow_neg, zpow_natCast, Real.exp_neg, one_div, ← mul_inv]
          exact inv_anti₀ (by positivity) hc
        have i4 : ε * Real.exp x.val ≤ 1 / 2 * Real.exp x.val := mul_le_mul_of_nonneg_right hε1 (Real.exp_pos _).le
        rw [Fl.val_exp]
        linarith) 0 0 Ieee.zero_number (by rw [Fl.val_zero]) with ⟨e, -, h'⟩ | ⟨r, r', g1, g2, -, g4⟩
    · rw [h'] at f1; simp at f1
    · rw [g2] at f1
      obtain rfl : r' = w' := by simpa using f1
      refine ⟨r, r'.val, g1, g4 ?_, f2, f3⟩
      have i1 := (abs_le.1 f3).2
      have i2 : 0 < 1 - X := by linarith
      have i3 : v + X / (1 - X) * v = v / (1 - X) := by field_simp; ring
      have i4 : v / (1 - X) ≤ F.largest := by rw [div_le_iff₀ i2, mul_comm]; exact hv
      linarith

end

/-! ## A case -/

/-- In `f32` with a correctly rounded `exp`: a one-year bond with face value 1 and rate 1, on a curve whose yields run from 0
to 1 over two years.  The price is a finite number within a relative `10 ^ -5` of the exact price, and so is the discount
factor for a year. -/
example : letI := roundedExp .binary32
    ∃ (b : Bond (Ieee .binary32)) (b' : Bond ℝ) (w d : Ieee .binary32) (r t v x : ℝ),
    Bond.new "b" ⟨2024, 7, 1, by decide⟩ ⟨2025, 1, 1, by decide⟩ ⟨2025, 1, 1, by decide⟩ ⟨2025, 7, 1, by decide⟩ .sa
      (1 : Ieee .binary32) 1 = .ok (some b) ∧
    Bond.new "b" ⟨2024, 7, 1, by decide⟩ ⟨2025, 1, 1, by decide⟩ ⟨2025, 1, 1, by decide⟩ ⟨2025, 7, 1, by decide⟩ .sa
      (1 : ℝ) 1 = .ok (some b') ∧
    curvePrice DayCount.act365 (Interpolator.linear (Ieee .binary32)) ⟨2024, 7, 1, by decide⟩
      [⟨2024, 7, 1, by decide⟩, ⟨2026, 7, 1, by decide⟩] [0, 1] b ⟨2024, 7, 1, by decide⟩ = .ok (.ok w) ∧ IsNumber w r ∧
    curvePrice DayCount.act365 (Interpolator.linear ℝ) ⟨2024, 7, 1, by decide⟩
      [⟨2024, 7, 1, by decide⟩, ⟨2026, 7, 1, by decide⟩] [0, 1] b' ⟨2024, 7, 1, by decide⟩ = .ok (.ok v) ∧
    0 < v ∧ |r - v| ≤ 1 / 10 ^ 5 * v ∧
    curveDiscount DayCount.act365 (Interpolator.linear (Ieee .binary32)) ⟨2024, 7, 1, by decide⟩
      [⟨2024, 7, 1, by decide⟩, ⟨2026, 7, 1, by decide⟩] [0, 1] ⟨2024, 7, 1, by decide⟩ ⟨2025, 7, 1, by decide⟩ =
        .ok (.ok d) ∧ IsNumber d t ∧
    curveDiscount DayCount.act365 (Interpolator.linear ℝ) ⟨2024, 7, 1, by decide⟩
      [⟨2024, 7, 1, by decide⟩, ⟨2026, 7, 1, by decide⟩] [0, 1] ⟨2024, 7, 1, by decide⟩ ⟨2025, 7, 1, by decide⟩ =
        .ok (.ok x) ∧ 0 < t ∧ t ≤ 2 * x := by
  let _ := roundedExp .binary32
  obtain ⟨q, hq⟩ : ∃ q, FromInt.fromInt (V := Ieee .binary32) 2 = some q := ⟨_, rfl⟩
  have hq' : FromInt.fromInt (V := ℝ) 2 = some ((2 : Int) : ℝ) := rfl
  have hb := one_coupon_bond q 1 1 hq
  have hb' := one_coupon_bond ((2 : Int) : ℝ) (1 : ℝ) 1 hq'
  have m0 : Moderate 31 (0 : Ieee .binary32) := ⟨0, Ieee.zero_number, Or.inl rfl⟩
  have m1 : Moderate 31 (1 : Ieee .binary32) := ⟨1, Ieee.one_number, Or.inr ⟨by norm_num, by norm_num⟩⟩
  have r0 : real (0 : Ieee .binary32) = 0 := real_eq Ieee.zero_number
  have r1 : real (1 : Ieee .binary32) = 1 := real_eq Ieee.one_number
  have hys : ([0, 1] : List (Ieee .binary32)).map real = [0, 1] := by simp [r0, r1]
  generalize hB : (⟨"b", [⟨⟨2025, 1, 1, by decide⟩, ⟨2025, 1, 1, by decide⟩, (1 : ℝ) * 1 / ((2 : Int) : ℝ)⟩,
    ⟨⟨2025, 7, 1, by decide⟩, ⟨2025, 7, 1, by decide⟩, 1 + 1 * 1 / ((2 : Int) : ℝ)⟩]⟩ : Bond ℝ) = b' at hb'
  generalize hB' : (⟨"b", [⟨⟨2025, 1, 1, by decide⟩, ⟨2025, 1, 1, by decide⟩, 1 * 1 / q⟩,
    ⟨⟨2025, 7, 1, by decide⟩, ⟨2025, 7, 1, by decide⟩, 1 + 1 * 1 / q⟩]⟩ : Bond (Ieee .binary32)) = b at hb
  have hfl : ∀ g ∈ b'.bondCashFlows, g.dueDate = g.paymentDate ∧
      (g.paymentDate = ⟨2025, 1, 1, by decide⟩ ∨ g.paymentDate = ⟨2025, 7, 1, by decide⟩) := by
    rw [← hB]; simp
  have hfl' : ∀ g ∈ b.bondCashFlows, g.paymentDate = ⟨2025, 1, 1, by decide⟩ ∨ g.paymentDate = ⟨2025, 7, 1, by decide⟩ := by
    rw [← hB']; simp
  have hlen : (remaining b ⟨2024, 7, 1, by decide⟩).length ≤ 2 := by
    rw [← hB']; exact List.length_filter_le _ _
  have hrem : remaining b' ⟨2024, 7, 1, by decide⟩ = b'.bondCashFlows := by
    rw [remaining, List.filter_eq_self]
    intro g hg
    obtain ⟨h1, h2⟩ := hfl g hg
    rw [h1]
    rcases h2 with h | h <;> rw [h] <;> decide
  have hamt : ∀ g ∈ b'.bondCashFlows, 0 < g.paymentAmount := by rw [← hB]; simp; norm_num
  have hsum : (b'.bondCashFlows.map (·.paymentAmount)).sum = 2 := by rw [← hB]; simp; norm_num
  obtain ⟨v, hv⟩ := (C52_shipped_domain (D := DayCount.act365) (Or.inr ⟨rfl, rfl⟩) (I := Interpolator.linear ℝ)
    (Or.inl ⟨rfl, rfl⟩) ⟨2024, 7, 1, by decide⟩ [⟨2024, 7, 1, by decide⟩, ⟨2026, 7, 1, by decide⟩] [0, 1] rfl (by decide)
    (le_refl _) b' ⟨2024, 7, 1, by decide⟩ (le_refl _) (fun g hg => (hfl g hg).1.le)).1 ⟨by
      intro g hg
      rcases (hfl g (List.mem_filter.1 hg).1).2 with h | h <;> rw [h] <;>
        exact ⟨⟨_, List.mem_cons_self, by decide⟩, ⟨⟨2026, 7, 1, by decide⟩, by simp, by decide⟩⟩, Or.inr (Or.inl rfl)⟩
  obtain ⟨x, hx⟩ := (C58_domain (D := DayCount.act365) (Or.inr ⟨rfl, rfl⟩) (I := Interpolator.linear ℝ)
      (Or.inl ⟨rfl, rfl⟩) ⟨2024, 7, 1, by decide⟩ [⟨2024, 7, 1, by decide⟩, ⟨2026, 7, 1, by decide⟩] [0, 1] rfl (by decide)
      (le_refl _) ⟨2024, 7, 1, by decide⟩ ⟨2025, 7, 1, by decide⟩ (le_refl _) (by decide)).1
      ⟨⟨⟨_, List.mem_cons_self, by decide⟩, ⟨⟨2026, 7, 1, by decide⟩, by simp, by decide⟩⟩, Or.inl rfl⟩
  obtain ⟨c, hc, hcv⟩ := curvePrice_eq_ok.1 hv
  have hpos : 0 < v := by
    refine C53_pos DayCount.act365 _ c b' v hcv ?_ ?_ <;> rw [hrem]
    · exact fun g hg => (hamt g hg).le
    · rw [← hB]
      exact ⟨_, List.mem_cons_self, by norm_num⟩
  have hle : v ≤ 2 := by
    rw [← hsum, ← hrem]
    refine C53_le_undiscounted DayCount.act365 _ c b' v hcv (by rw [hrem]; exact fun g hg => (hamt g hg).le) ?_
    intro g hg df hdf
    refine (C79_linear_partial (D := DayCount.act365) (Or.inr ⟨rfl, rfl⟩) ⟨2024, 7, 1, by decide⟩
      [⟨2024, 7, 1, by decide⟩, ⟨2026, 7, 1, by decide⟩] [0, 1] rfl (by decide) (le_refl _) g.paymentDate df ?_).1 (by simp)
    unfold curveDiscount
    rw [hc]
    exact hdf
  have hu : roundoff .binary32 = 1 / 2 ^ 24 := by
    show ((1 / 2) ^ 24 : ℝ) = _
    norm_num
  have hexp : IeeeExpWithin .binary32 6 (roundoff .binary32) := fun a z h1 h2 =>
    roundedExp_within .binary32 (by norm_num [IeeeFormat.binary32]) a z h1 (by linarith)
  have h6 : 2 * Real.exp 6 ≤ 2 ^ 10 := by
    have e : Real.exp 6 = Real.exp 1 ^ 6 := by rw [← Real.exp_nat_mul]; norm_num
    have h1 : Real.exp 1 ≤ 2.72 := by have := Real.exp_one_lt_d9; linarith
    have := pow_le_pow_left₀ (Real.exp_pos 1).le h1 6
    rw [e]
    norm_num at this ⊢
    linarith
  have k0 : Date.sub ⟨2024, 7, 1, by decide⟩ ⟨2024, 7, 1, by decide⟩ = 0 := by decide +kernel
  have k1 : Date.sub ⟨2025, 1, 1, by decide⟩ ⟨2024, 7, 1, by decide⟩ = 184 := by decide +kernel
  have k2 : Date.sub ⟨2025, 7, 1, by decide⟩ ⟨2024, 7, 1, by decide⟩ = 365 := by decide +kernel
  have k3 : Date.sub ⟨2026, 7, 1, by decide⟩ ⟨2024, 7, 1, by decide⟩ = 730 := by decide +kernel
  have hgap : GapRatio ⟨2024, 7, 1, by decide⟩ [⟨2024, 7, 1, by decide⟩, ⟨2026, 7, 1, by decide⟩] 1 := by
    intro i m₀ m₁ h0 h1
    match i with
    | 0 => simp at h0 h1; subst h0 h1; simp
    | i + 1 => simp at h1
  have hY : ∀ y ∈ ([0, 1] : List (Ieee .binary32)), |real y| ≤ 1 := by
    intro y hy
    simp at hy
    rcases hy with rfl | rfl
    · rw [r0]; norm_num
    · rw [r1]; norm_num
  have hM : ∀ y ∈ ([0, 1] : List (Ieee .binary32)), Moderate 31 y := by
    intro y hy
    simp at hy
    rcases hy with rfl | rfl
    · exact m0
    · exact m1
  have hT : ∀ m ∈ ([⟨2024, 7, 1, by decide⟩, ⟨2026, 7, 1, by decide⟩] : List Date),
      years 365 ⟨2024, 7, 1, by decide⟩ m ≤ 2 := by
    intro m hm
    simp at hm
    rcases hm with rfl | rfl
    · rw [years, k0]; norm_num
    · rw [years, k3]; norm_num
  have hX1 : (((remaining b ⟨2024, 7, 1, by decide⟩).length + 11) * roundoff .binary32 + roundoff .binary32 +
      60 * 1 * roundoff .binary32 * 1 * 2 : ℝ) ≤ 134 / 2 ^ 24 := by
    have : ((remaining b ⟨2024, 7, 1, by decide⟩).length : ℝ) ≤ 2 := by exact_mod_cast hlen
    rw [hu]
    linarith
  have hsmall : (134 / 2 ^ 24 : ℝ) ≤ 1 / 2 := by norm_num
  have hlarge : (4 : ℝ) ≤ IeeeFormat.binary32.largest := by
    refine le_trans ?_ IeeeFormat.binary32.largest_ge
    calc (4 : ℝ) = 2 ^ 2 := by norm_num
      _ ≤ 2 ^ IeeeFormat.binary32.emax := pow_le_pow_right₀ (by norm_num) (by norm_num [IeeeFormat.binary32])
  have pos1 : (0 : Ieee .binary32) ≤ 1 := (Ieee.le_number Ieee.zero_number Ieee.one_number).2 (by norm_num)
  obtain ⟨w, r, w1, w2, -, w3⟩ := C93_price (F := .binary32) 6 _ hexp (roundedExp_sound .binary32).zero (le_refl _)
    (by rw [hu]; norm_num) 31 10 (by norm_num [IeeeFormat.binary32]) (by norm_num [IeeeFormat.binary32]) h6
    (D := DayCount.act365) (E := DayCount.act365) (N := 365) (Or.inr ⟨rfl, rfl⟩) (Or.inr ⟨rfl, rfl⟩) ⟨2024, 7, 1, by decide⟩
    [⟨2024, 7, 1, by decide⟩, ⟨2026, 7, 1, by decide⟩] [0, 1] 1 1 2 rfl (le_refl _) (by decide) (by decide) hgap
    (by norm_num) (by rw [hu]; norm_num) hM hY hT (by norm_num) "b" _ _ _ _ _ _ _ m1 m1 pos1 pos1 (by decide) (by decide) b b'
    ⟨2024, 7, 1, by decide⟩ hb (by rw [r1]; exact hb') (by
      intro d hd
      simp only [List.cons_append, List.nil_append, List.mem_cons, List.mem_map] at hd
      rcases hd with rfl | rfl | rfl | ⟨g, hg, rfl⟩
      · rw [k0]; norm_num
      · rw [k0]; norm_num
      · rw [k3]; norm_num
      · rcases hfl' g hg with h | h <;> rw [h]
        · rw [k1]; norm_num
        · rw [k2]; norm_num) v (by rw [hys]; exact hv) _ rfl (by linarith) (by nlinarith)
  obtain ⟨d, t, δ, d1, d2, d3, d4, d5⟩ := C93_discount (F := .binary32) 6 _ hexp (roundedExp_sound .binary32).zero (le_refl _)
    (by rw [hu]; norm_num) 31 (by norm_num [IeeeFormat.binary32])
    (D := DayCount.act365) (E := DayCount.act365) (N := 365) (Or.inr ⟨rfl, rfl⟩) (Or.inr ⟨rfl, rfl⟩) ⟨2024, 7, 1, by decide⟩
    [⟨2024, 7, 1, by decide⟩, ⟨2026, 7, 1, by decide⟩] [0, 1] 1 1 2 rfl (le_refl _) (by decide) (by decide) hgap
    (by rw [hu]; norm_num) hM hY hT (by norm_num) ⟨2024, 7, 1, by decide⟩ ⟨2025, 7, 1, by decide⟩ (by
      intro d hd
      simp only [List.mem_cons, List.not_mem_nil, or_false] at hd
      rcases hd with rfl | rfl | rfl | rfl
      · rw [k0]; norm_num
      · rw [k2]; norm_num
      · rw [k0]; norm_num
      · rw [k3]; norm_num) x (by rw [hys]; exact hx)
  have hx0 : 0 < x := by
    obtain ⟨_, _, y2, _, z, rfl, _⟩ := (curveDiscount_form (D := DayCount.act365) (Or.inr ⟨rfl, rfl⟩)
      (I := Interpolator.linear ℝ) (Or.inl ⟨rfl, rfl⟩) (ys := [0, 1]) rfl (by decide) (le_refl _)).1 hx
    exact Real.exp_pos _
  refine ⟨b, b', w, d, r, t, v, x, hb, hb', w1, w2, hv, hpos, le_trans w3 (mul_le_mul_of_nonneg_right ?_ hpos.le), d1, d2, hx,
    lt_of_lt_of_le (mul_pos (mul_pos (by rw [hu]; norm_num) (Real.exp_pos _)) hx0) d4, le_trans d5 ?_⟩
  · rw [div_le_iff₀ (by linarith)]
    norm_num at hX1 ⊢
    linarith
  · refine mul_le_mul_of_nonneg_right ?_ hx0.le
    have hδ : δ ≤ 1 / 2 := by
      rw [d3, years, years, k0, k2, hu]; norm_num
    have hδ0 : 0 ≤ 1 - δ := by linarith
    have e1 : Real.exp δ ≤ 2 - 1 / 4 := by
      have := Real.exp_le_exp.2 hδ
      have e : Real.exp 1 = Real.exp (1 / 2) * Real.exp (1 / 2) := by rw [← Real.exp_add]; norm_num
      have := Real.exp_one_lt_d9
      nlinarith [Real.exp_pos (1 / 2)]
    rw [hu]
    nlinarith [Real.exp_pos δ]

/-- In `f64` with NaN and infinity for yields: a date behind the last maturity is refused, one before is not. -/
example : letI := roundedExp .binary64
    curveDiscount DayCount.act365 (Interpolator.linear (Ieee .binary64)) ⟨2024, 7, 1, by decide⟩
      [⟨2024, 7, 1, by decide⟩, ⟨2026, 7, 1, by decide⟩] [.nan, .inf true] ⟨2024, 7, 1, by decide⟩ ⟨2027, 7, 1, by decide⟩ =
        .ok (.error interpolationError) ∧
    ∃ w, curveDiscount DayCount.act365 (Interpolator.linear (Ieee .binary64)) ⟨2024, 7, 1, by decide⟩
      [⟨2024, 7, 1, by decide⟩, ⟨2026, 7, 1, by decide⟩] [.nan, .inf true] ⟨2024, 7, 1, by decide⟩ ⟨2025, 7, 1, by decide⟩ =
        .ok (.ok w) := by
  let _ := roundedExp .binary64
  have hr : ∀ d d' : Date, |Date.sub d d'| < (2 : Int) ^ (IeeeFormat.binary64.prec - 1) := fun d d' =>
    lt_of_lt_of_le (sub_abs_lt _ _) (by show (2 : Int) ^ 28 ≤ 2 ^ 52; norm_num)
  have key := fun d => C93_discount_outcome (F := .binary64) (by norm_num [IeeeFormat.binary64]) (D := DayCount.act365)
    (E := DayCount.act365) (N := 365) (Or.inr ⟨rfl, rfl⟩) (Or.inr ⟨rfl, rfl⟩) ⟨2024, 7, 1, by decide⟩
    [⟨2024, 7, 1, by decide⟩, ⟨2026, 7, 1, by decide⟩] [.nan, .inf true] [0, 0] rfl rfl (le_refl _) (by decide)
    ⟨2024, 7, 1, by decide⟩ d (fun d _ => hr _ _)
  refine ⟨?_, ?_⟩
  · rw [(key _).1]
    refine (C58_domain (D := DayCount.act365) (Or.inr ⟨rfl, rfl⟩) (I := Interpolator.linear ℝ)
      (Or.inl ⟨rfl, rfl⟩) ⟨2024, 7, 1, by decide⟩ [⟨2024, 7, 1, by decide⟩, ⟨2026, 7, 1, by decide⟩] [0, 0] rfl (by decide)
      (le_refl _) ⟨2024, 7, 1, by decide⟩ ⟨2027, 7, 1, by decide⟩ (le_refl _) (by decide)).2 ?_
    rintro ⟨⟨-, m, hm, h⟩, -⟩
    simp only [List.mem_cons, List.not_mem_nil, or_false] at hm
    rcases hm with rfl | rfl <;> revert h <;> decide
  · obtain ⟨x, hx⟩ := (C58_domain (D := DayCount.act365) (Or.inr ⟨rfl, rfl⟩) (I := Interpolator.linear ℝ)
      (Or.inl ⟨rfl, rfl⟩) ⟨2024, 7, 1, by decide⟩ [⟨2024, 7, 1, by decide⟩, ⟨2026, 7, 1, by decide⟩] [0, 0] rfl (by decide)
      (le_refl _) ⟨2024, 7, 1, by decide⟩ ⟨2025, 7, 1, by decide⟩ (le_refl _) (by decide)).1
      ⟨⟨⟨_, List.mem_cons_self, by decide⟩, ⟨⟨2026, 7, 1, by decide⟩, by simp, by decide⟩⟩, Or.inl rfl⟩
    obtain ⟨k1, k2, -⟩ := key ⟨2025, 7, 1, by decide⟩
    match h : curveDiscount DayCount.act365 (Interpolator.linear (Ieee .binary64)) ⟨2024, 7, 1, by decide⟩
      [⟨2024, 7, 1, by decide⟩, ⟨2026, 7, 1, by decide⟩] [.nan, .inf true] ⟨2024, 7, 1, by decide⟩ ⟨2025, 7, 1, by decide⟩ with
    | .panic => exact absurd h k2
    | .ok (.error e) => rw [k1, hx] at h; simp at h
    | .ok (.ok w) => exact ⟨w, rfl⟩

/-- In `f64` with yields of NaN and an infinity the price fails exactly as the exact price of an exact bond with quotes of 0 does. -/
example : letI := roundedExp .binary64
    ∀ (s : Date) (b : Bond (Ieee .binary64)) (b' : Bond ℝ),
    Bond.new "b" ⟨2024, 7, 1, by decide⟩ ⟨2025, 1, 1, by decide⟩ ⟨2025, 1, 1, by decide⟩ ⟨2025, 7, 1, by decide⟩ .sa
      (1 : Ieee .binary64) .nan = .ok (some b) →
    Bond.new "b" ⟨2024, 7, 1, by decide⟩ ⟨2025, 1, 1, by decide⟩ ⟨2025, 1, 1, by decide⟩ ⟨2025, 7, 1, by decide⟩ .sa
      (1 : ℝ) 1 = .ok (some b') →
    ∀ e, curvePrice DayCount.act365 (Interpolator.linear (Ieee .binary64)) ⟨2024, 7, 1, by decide⟩
      [⟨2024, 7, 1, by decide⟩, ⟨2026, 7, 1, by decide⟩] [.nan, .inf true] b s = .ok (.error e) ↔
    curvePrice DayCount.act365 (Interpolator.linear ℝ) ⟨2024, 7, 1, by decide⟩
      [⟨2024, 7, 1, by decide⟩, ⟨2026, 7, 1, by decide⟩] [0, 0] b' s = .ok (.error e) := by
  let _ := roundedExp .binary64
  intro s b b' hb hb'
  have hr : ∀ d d' : Date, |Date.sub d d'| < (2 : Int) ^ (IeeeFormat.binary64.prec - 1) := fun d d' =>
    lt_of_lt_of_le (sub_abs_lt _ _) (by show (2 : Int) ^ 28 ≤ 2 ^ 52; norm_num)
  exact (C93_price_outcome (F := .binary64) (by norm_num [IeeeFormat.binary64]) (D := DayCount.act365)
    (E := DayCount.act365) (N := 365) (Or.inr ⟨rfl, rfl⟩) (Or.inr ⟨rfl, rfl⟩) ⟨2024, 7, 1, by decide⟩
    [⟨2024, 7, 1, by decide⟩, ⟨2026, 7, 1, by decide⟩] [.nan, .inf true] [0, 0] rfl rfl (le_refl _) (by decide)
    _ _ _ _ _ _ _ _ _ _ b b' s hb hb' (fun d _ => hr _ _)).1

end Props

end Qlab
