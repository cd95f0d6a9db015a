import Verif.Props.IeeeSplinePrice
import Verif.Props.Symmetries

/-!
# Flat curves in `f32` and `f64` (C113)

All yields equal: discount factors keep their order and their side of 1 with no rounding allowance.  All yields zero: every
discount factor is exactly 1, with any interpolator, and a price is the sum of the payments.
-/

namespace Qlab.Props

open Spec

variable {F : IeeeFormat}

/-! ## Zero yields -/

/-- Zero ordinates, of either sign, give a zero or NaN. -/
theorem zero_or_nan {I : Interpolator (Ieee F)} {n : Nat} (hI : IsShippedInterpolator I n) {pts : List (Ieee F × Ieee F)}
    (h : ∀ p ∈ pts, IsNumber p.2 0) {x u : Ieee F} (hu : evaluate I pts x = .ok (.ok u)) : IsNumber u 0 ∨ u = .nan := by
  have := C109_minus hI pts pts
    (List.forall₂_same.2 fun p hp => ⟨rfl, IsMinus.number (h p hp) (by rw [neg_zero]; exact h p hp)⟩) x
  rw [hu] at this
  rcases IsMinus.cases this with ⟨e, -⟩ | ⟨s, e, e'⟩ | ⟨r, h1, h2⟩
  · exact .inr e
  · rw [e] at e'
    injection e' with e'
    cases s <;> cases e'
  · have := Ieee.isNumber_inj h1 h2
    obtain rfl : r = 0 := by linarith
    exact .inl h1

/-- A product with such a datum. -/
theorem zero_or_nan_mul (a : Ieee F) {b : Ieee F} (h : IsNumber b 0 ∨ b = .nan) : IsNumber (a * b) 0 ∨ a * b = .nan := by
  rcases h with ⟨t, ht, r, rfl⟩ | rfl
  · cases a with
    | nan => exact .inr rfl
    | inf s => exact .inr (if_pos rfl)
    | fin s x hx rx =>
      left
      have := Ieee.mul_round (F := F) (a := .fin s x hx rx) (b := .fin t 0 ht r) ⟨_, _, _, rfl⟩ ⟨_, _, _, rfl⟩
        (by rw [mul_zero, abs_zero]; exact F.largest_pos.le)
      rwa [mul_zero, F.round_zero] at this
  · exact .inr (Ieee.mul_nan a)

/-- A difference of two. -/
theorem zero_or_nan_sub {a b : Ieee F} (ha : IsNumber a 0 ∨ a = .nan) (hb : IsNumber b 0 ∨ b = .nan) :
    IsNumber (a - b) 0 ∨ a - b = .nan := by
  rcases ha with ha | rfl
  · rcases hb with hb | rfl
    · left
      have := Ieee.sub_number ha hb (by rw [sub_zero, abs_zero]; exact F.largest_pos.le)
      rwa [sub_zero, F.arith.fl_zero] at this
    · exact .inr (Ieee.sub_nan a)
  · exact .inr (Ieee.nan_sub b)

/-- A curve evaluates its interpolator on the pairs of times and yields. -/
theorem new_evaluates {V : Type} {D : DayCount V} {I : Interpolator V} {s : Date} {ms : List Date} {ys : List V}
    {c : YieldCurve V I} (h : YieldCurve.new D I s ms ys = .ok (.ok c)) :
    ∃ ts : List V, ∀ x, evaluate I (ts.zip ys) x = I.tryValue c.interpolator x := by
  unfold YieldCurve.new at h
  split at h
  · cases h
  match hf : YieldCurve.fractions D s ms with
  | .panic => rw [hf] at h; cases h
  | .ok (.error e) => rw [hf] at h; cases h
  | .ok (.ok ts) =>
    rw [hf] at h
    simp only [Rust.ok_bind] at h
    match ht : I.tryFit I.default (ts.zip ys) with
    | .panic => rw [ht] at h; cases h
    | .ok (.error e) => rw [ht] at h; cases h
    | .ok (.ok st) =>
      rw [ht] at h
      obtain rfl := Except.ok.inj (Rust.ok.inj h)
      refine ⟨ts, fun x => ?_⟩
      unfold evaluate
      rw [ht]
      rfl

section
variable [HasExp (Ieee F)]

/-- **C113.** If every quoted yield is zero, a discount factor computed in `f32` or `f64` is exactly 1 unless it is NaN: with
any interpolator, any day count and whatever the dates. -/
theorem C113_zero_or_nan (hE : IeeeExp F) (D : DayCount (Ieee F)) {I : Interpolator (Ieee F)} {n : Nat}
    (hI : IsShippedInterpolator I n) (s : Date) (ms : List Date) (ys : List (Ieee F)) (hy : ∀ y ∈ ys, IsNumber y 0)
    (d1 d2 : Date) (w : Ieee F) (h : curveDiscount D I s ms ys d1 d2 = .ok (.ok w)) : w = 1 ∨ w = .nan := by
  unfold curveDiscount at h
  match hc : YieldCurve.new D I s ms ys with
  | .panic => rw [hc] at h; cases h
  | .ok (.error e) => rw [hc] at h; cases h
  | .ok (.ok c) =>
    rw [hc] at h
    simp only [Rust.ok_bind] at h
    obtain ⟨ts, hts⟩ := new_evaluates hc
    have hz : ∀ x u, I.tryValue c.interpolator x = .ok (.ok u) → IsNumber u 0 ∨ u = .nan := fun x u hu =>
      zero_or_nan hI (fun p hp => hy _ (List.of_mem_zip hp).2) ((hts x).trans hu)
    have key : ∀ e : Ieee F, IsNumber e 0 ∨ e = .nan → HasExp.exp e = 1 ∨ HasExp.exp e = .nan := by
      rintro e (he | rfl)
      · exact .inl (hE.zero e he)
      · exact .inr hE.nan
    obtain ⟨-, -, t2, y2, -, e2, ⟨-, rfl⟩ | ⟨-, t1, y1, -, e1, rfl⟩⟩ := (C45_value_iff D c d1 d2 w).1 h
    · exact key _ (zero_or_nan_mul _ (hz _ _ e2))
    · exact key _ (zero_or_nan_sub (zero_or_nan_mul _ (hz _ _ e1)) (zero_or_nan_mul _ (hz _ _ e2)))

end

/-! ## Years -/

/-- Computed year fractions stay far below overflow. -/
theorem flYears_small {N : Int} (hN : N = 360 ∨ N = 365) (s d : Date) : |(flYears F.arith N s d).val| ≤ 2 ^ 21 := by
  have h := (quotient_error (A := F.arith) (Date.sub d s) N).1
  have hu := F.arith.unit_le
  have hu0 := F.arith.unit_pos
  have hb : |((Date.sub d s : Int) : ℝ) / N| ≤ 2 ^ 28 / 360 := by
    rw [abs_div]
    have h1 : |((Date.sub d s : Int) : ℝ)| ≤ 2 ^ 28 := by exact_mod_cast (sub_abs_lt s d).le
    have h2 : (360 : ℝ) ≤ |(N : ℝ)| := by rcases hN with rfl | rfl <;> norm_num
    exact div_le_div₀ (by positivity) h1 (by norm_num) h2
  have e : (flYears F.arith N s d).val = F.arith.fl (F.arith.fl (Date.sub d s : Int) / N) := rfl
  rw [e]
  generalize ((Date.sub d s : Int) : ℝ) / N = q at h hb
  generalize F.arith.fl (F.arith.fl (Date.sub d s : Int) / N) = p at h
  have h3 : 3 * unitRoundoff F.arith * |q| ≤ 1 * |q| := mul_le_mul_of_nonneg_right (by linarith) (abs_nonneg _)
  have := abs_sub_abs_le_abs_sub p q
  norm_num at hb ⊢
  linarith

theorem flYears_mono {A : FloatArith} {N : Int} (hN : 0 < N) {s a b : Date} (h : a ≤ b) :
    (flYears A N s a).val ≤ (flYears A N s b).val := by
  have h' : Date.sub a s ≤ Date.sub b s := by
    rw [C04_sub_serial, C04_sub_serial]
    rcases h.eq_or_lt with rfl | h
    · exact le_refl _
    · have := (C03_serial_lt a b).1 h
      omega
  have hN' : (0 : ℝ) ≤ N := by exact_mod_cast hN.le
  exact A.mono (div_le_div_of_nonneg_right (A.mono (by exact_mod_cast h')) hN')

theorem flYears_self (A : FloatArith) (N : Int) (s : Date) : (flYears A N s s).val = 0 := by
  have e : (flYears A N s s).val = A.fl (A.fl (Date.sub s s : Int) / N) := rfl
  rw [e, (C04_sub_eq_zero s s).2 rfl, Int.cast_zero, A.fl_zero, zero_div, A.fl_zero]

theorem largest_big (hF : 40 ≤ F.emax) : (2 : ℝ) ^ 40 ≤ F.largest :=
  le_trans (pow_le_pow_right₀ (by norm_num) hF) F.largest_ge

/-! ## Flat curves -/

/-- Linear interpolation of a flat curve returns the yield exactly. -/
theorem flat_yield_exact (hF : 40 ≤ F.emax) {N : Int} (hN : N = 360 ∨ N = 365) {s : Date} {ms : List Date} {ys : List (Ieee F)} {a : ℝ}
    (hms : ms.Pairwise (· < ·)) (hr : ∀ m ∈ ms, |Date.sub m s| < 2 ^ (F.prec - 1)) (hy : ∀ y ∈ ys, IsNumber y a) {d : Date}
    {u : Ieee F}
    (h : evaluate (Interpolator.linear (Ieee F)) ((ms.map (ieeeYears F N s)).zip ys) (ieeeYears F N s d) = .ok (.ok u)) :
    IsNumber u a := by
  rw [evaluate_linear] at h
  unfold Linear.tryValue at h
  split at h
  · cases h
  next pos hpos =>
  simp only [Rust.bind_eq_ok] at h
  obtain ⟨p, hp, q, hq, hu⟩ := h
  obtain rfl := Except.ok.inj (Rust.ok.inj hu)
  have get : ∀ {i : Nat} {p : Point2D (Ieee F)}, Rust.index (((ms.map (ieeeYears F N s)).zip ys).map
      fun p => (⟨p.1, p.2⟩ : Point2D (Ieee F))) i = .ok p → ∃ hi : i < ms.length, p.x = ieeeYears F N s ms[i] ∧ IsNumber p.y a := by
    intro i p hp
    unfold Rust.index Rust.unwrap at hp
    split at hp
    next r hr =>
      obtain rfl := Rust.ok.inj hp
      rw [List.getElem?_map, Option.map_eq_some_iff] at hr
      obtain ⟨v, hv, rfl⟩ := hr
      obtain ⟨hi, rfl⟩ := List.getElem?_eq_some_iff.1 hv
      simp only [List.length_zip, List.length_map] at hi
      refine ⟨by omega, by simp, hy _ ?_⟩
      simp
    next => cases hp
  obtain ⟨i0, px, py⟩ := get hp
  obtain ⟨i1, qx, qy⟩ := get hq
  have hL := largest_big hF
  have L0 := F.largest_pos
  have lt : (flYears F.arith N s ms[pos]).val < (flYears F.arith N s ms[pos + 1]).val := by
    have kf : KeepsOrder (flYears F.arith N s) ms s := flYears_keeps hN (by
      intro e he
      rcases List.mem_cons.1 he with rfl | he
      · rw [(C04_sub_eq_zero e e).2 rfl, abs_zero]; positivity
      · exact hr e he)
    exact (Fl.lt_iff _ _).1 (kf _ (by simp) _ (by simp) (List.pairwise_iff_getElem.1 hms pos (pos + 1) i0 i1 (by omega)))
  have n0 := years_number hF (A := F.arith) rfl hN s ms[pos]
  have n1 := years_number hF (A := F.arith) rfl hN s ms[pos + 1]
  have nd := years_number hF (A := F.arith) rfl hN s d
  rw [← px] at n0
  rw [← qx] at n1
  have b0 := flYears_small (F := F) hN s ms[pos]
  have b1 := flYears_small (F := F) hN s ms[pos + 1]
  have bd := flYears_small (F := F) hN s d
  have sm : ∀ {v w : ℝ}, |v| ≤ 2 ^ 21 → |w| ≤ 2 ^ 21 → |v - w| ≤ F.largest := by
    intro v w h1 h2
    have := abs_sub v w
    refine le_trans (le_trans this (add_le_add h1 h2)) (le_trans (by norm_num) hL)
  have a1 := Ieee.sub_number qy py (by rw [sub_self, abs_zero]; exact L0.le)
  have a2 := Ieee.sub_number n1 n0 (sm b1 b0)
  have a3 := Ieee.sub_number nd n0 (sm bd b0)
  rw [sub_self, F.arith.fl_zero] at a1
  have a4 := Ieee.div_round a1 a2 (F.arith.fl_pos (by linarith)).ne' (by rw [zero_div, abs_zero]; exact L0.le)
  rw [zero_div, F.round_zero] at a4
  have a5 := Ieee.mul_round a4 a3 (by rw [zero_mul, abs_zero]; exact L0.le)
  rw [zero_mul, F.round_zero] at a5
  have a6 := Ieee.add_number py a5 (by rw [add_zero]; exact (Ieee.rep_of_isNumber py).2)
  rwa [add_zero, Ieee.fl_of_isNumber py] at a6

section
variable [HasExp (Ieee F)]

/-- The exponent of a discount factor of a flat curve, as computed. -/
noncomputable def flatExponent (F : IeeeFormat) (N : Int) (s : Date) (a : ℝ) (d1 d2 : Date) : ℝ :=
  F.arith.fl (F.round ((flYears F.arith N s d1).val * a) - F.round ((flYears F.arith N s d2).val * a))

/-- If every interpolated yield is the number `a`, this is the exponent. -/
theorem exponent_form (hF : 40 ≤ F.emax) {D : DayCount (Ieee F)} {N : Int} (hD : IsActualDayCount D N)
    {I : Interpolator (Ieee F)} {n : Nat} (hI : IsShippedInterpolator I n) {s : Date} {ms : List Date} {ys : List (Ieee F)}
    {a : ℝ} (ha : |a| ≤ 2 ^ ((F.emax : ℤ) - 22)) (hlen : ms.length = ys.length) (hn : n ≤ ms.length)
    (hms : ms.Pairwise (· < ·)) (hr : ∀ m ∈ ms, |Date.sub m s| < 2 ^ (F.prec - 1))
    (hv : ∀ d u, Covers ms d → evaluate I ((ms.map (ieeeYears F N s)).zip ys) (ieeeYears F N s d) = .ok (.ok u) → IsNumber u a)
    {d1 d2 : Date} (hs : s ≤ d1) (hd : d1 ≤ d2) (c2 : Covers ms d2) (c1 : d1 = s ∨ Covers ms d1)
    (r1 : |Date.sub d1 s| < 2 ^ (F.prec - 1)) (r2 : |Date.sub d2 s| < 2 ^ (F.prec - 1)) :
    ∃ e, curveDiscount D I s ms ys d1 d2 = .ok (.ok (HasExp.exp e)) ∧ IsNumber e (flatExponent F N s a d1 d2) := by
  have hN : N = 360 ∨ N = 365 := by rcases hD with ⟨-, h⟩ | ⟨-, h⟩ <;> simp [h]
  obtain ⟨c, hc, hcs, hcv, hev⟩ := ieee_curve hF hD hI s ms ys hlen hn hms hr
  have hL : (2 : ℝ) ^ F.emax ≤ F.largest := F.largest_ge
  have two : ∀ d : Date, |(flYears F.arith N s d).val * a| ≤ 2 ^ ((F.emax : ℤ) - 1) := by
    intro d
    rw [abs_mul]
    calc _ ≤ (2 : ℝ) ^ 21 * 2 ^ ((F.emax : ℤ) - 22) := mul_le_mul (flYears_small hN s d) ha (abs_nonneg _) (by positivity)
      _ = 2 ^ ((F.emax : ℤ) - 1) := by
        rw [← zpow_natCast, ← zpow_add₀ (by norm_num)]
        congr 1
        push_cast
        ring
  have dbl : (2 : ℝ) ^ ((F.emax : ℤ) - 1) + 2 ^ ((F.emax : ℤ) - 1) = 2 ^ F.emax := by
    rw [← two_mul, ← zpow_one_add₀ (by norm_num), show 1 + ((F.emax : ℤ) - 1) = (F.emax : ℤ) by ring, zpow_natCast]
  have pos : (0 : ℝ) < 2 ^ ((F.emax : ℤ) - 1) := by positivity
  have rnd : ∀ d : Date, |F.round ((flYears F.arith N s d).val * a)| ≤ 2 ^ ((F.emax : ℤ) - 1) := by
    intro d
    have hp := F.pow_range ((F.emax : ℤ) - 1) (by unfold IeeeFormat.bottom; have := F.prec_ge; omega)
    have h := abs_le.1 (two d)
    have h1 := F.round_mono h.1
    have h2 := F.round_mono h.2
    rw [F.round_neg, hp] at h1
    rw [hp] at h2
    exact abs_le.2 ⟨h1, h2⟩
  have prod : ∀ d u, IsNumber u a → IsNumber (ieeeYears F N s d * u) (F.round ((flYears F.arith N s d).val * a)) := by
    intro d u hu
    exact Ieee.mul_round (years_number hF (A := F.arith) rfl hN s d) hu (by linarith [two d])
  obtain ⟨y2, e2⟩ := (hev d2 r2).1 c2
  have n2 := hv d2 y2 c2 e2
  have fin : ∀ v, c.discountFactor D d1 d2 = .ok (.ok v) → curveDiscount D I s ms ys d1 d2 = .ok (.ok v) := by
    intro v hv
    unfold curveDiscount
    rw [hc]
    exact hv
  by_cases h1 : d1 = s
  · subst h1
    refine ⟨-ieeeYears F N d1 d2 * y2, fin _ ((C45_value_iff D c d1 d2 _).2 ⟨hcs.le, hd, _, y2, ?_, ?_, .inl ⟨hcs.symm, rfl⟩⟩), ?_⟩
    · rw [hcs]; exact ieee_actual_eq hD _ _
    · rw [hcv]; exact e2
    · have h := Ieee.mul_round (Ieee.neg_number (years_number hF (A := F.arith) rfl hN d1 d2)) n2
        (by rw [neg_mul, abs_neg]; linarith [two d2])
      unfold flatExponent
      rw [flYears_self, zero_mul, F.round_zero, zero_sub, F.arith.odd]
      rw [neg_mul, F.round_neg] at h
      rwa [Ieee.fl_of_isNumber (prod d2 _ n2)]
  · obtain ⟨y1, e1⟩ := (hev d1 r1).1 (c1.resolve_left h1)
    have n1 := hv d1 y1 (c1.resolve_left h1) e1
    refine ⟨ieeeYears F N s d1 * y1 - ieeeYears F N s d2 * y2, fin _ ((C45_value_iff D c d1 d2 _).2
      ⟨by rw [hcs]; exact hs, hd, _, y2, ?_, ?_, .inr ⟨by rw [hcs]; exact h1, _, y1, ?_, ?_, rfl⟩⟩), ?_⟩
    · rw [hcs]; exact ieee_actual_eq hD _ _
    · rw [hcv]; exact e2
    · rw [hcs]; exact ieee_actual_eq hD _ _
    · rw [hcv]; exact e1
    · refine Ieee.sub_number (prod d1 _ n1) (prod d2 _ n2) ?_
      have := abs_sub (F.round ((flYears F.arith N s d1).val * a)) (F.round ((flYears F.arith N s d2).val * a))
      linarith [rnd d1, rnd d2]

/-- **C113.** On a flat curve whose yield `a` is not negative, with linear interpolation, discount factors computed in `f32` and
`f64` lie between 0 and 1 and never increase when the period grows at either end, with no rounding allowance. -/
theorem C113_flat (hF : 40 ≤ F.emax) (hE : IeeeExp F) {D : DayCount (Ieee F)} {N : Int} (hD : IsActualDayCount D N) (s : Date)
    (ms : List Date) (ys : List (Ieee F)) (a : ℝ) (h0 : 0 ≤ a) (ha : a ≤ 2 ^ ((F.emax : ℤ) - 22))
    (hlen : ms.length = ys.length) (h2 : 2 ≤ ms.length) (hms : ms.Pairwise (· < ·)) (hy : ∀ y ∈ ys, IsNumber y a)
    (d1 d1' d2 d2' : Date) (hs : s ≤ d1') (hd1 : d1' ≤ d1) (hd : d1 ≤ d2) (hd2 : d2 ≤ d2')
    (hc1 : d1 = s ∨ Covers ms d1) (hc1' : d1' = s ∨ Covers ms d1') (hc2 : Covers ms d2) (hc2' : Covers ms d2')
    (hr : ∀ d ∈ d1 :: d1' :: d2 :: d2' :: ms, |Date.sub d s| < 2 ^ (F.prec - 1)) :
    ∃ w w', curveDiscount D (Interpolator.linear (Ieee F)) s ms ys d1 d2 = .ok (.ok w) ∧
      curveDiscount D (Interpolator.linear (Ieee F)) s ms ys d1' d2' = .ok (.ok w') ∧ 0 ≤ w' ∧ w' ≤ w ∧ w ≤ 1 := by
  have hN : N = 360 ∨ N = 365 := by rcases hD with ⟨-, h⟩ | ⟨-, h⟩ <;> simp [h]
  have hN0 : 0 < N := by omega
  have hI : IsShippedInterpolator (Interpolator.linear (Ieee F)) 2 := .inl ⟨rfl, rfl⟩
  have hr' : ∀ m ∈ ms, |Date.sub m s| < 2 ^ (F.prec - 1) := fun m hm => hr m (by simp [hm])
  have hv := fun d u (_ : Covers ms d) h => flat_yield_exact (u := u) (d := d) hF hN hms hr' hy h
  have ha' : |a| ≤ 2 ^ ((F.emax : ℤ) - 22) := by rwa [abs_of_nonneg h0]
  obtain ⟨e, he, ne⟩ := exponent_form hF hD hI ha' hlen h2 hms hr' hv (hs.trans hd1) hd hc2 hc1
    (hr _ (by simp)) (hr _ (by simp))
  obtain ⟨e', he', ne'⟩ := exponent_form hF hD hI ha' hlen h2 hms hr' hv hs (hd1.trans (hd.trans hd2)) hc2' hc1'
    (hr _ (by simp)) (hr _ (by simp))
  have mono : ∀ {x y : Date}, x ≤ y → F.round ((flYears F.arith N s x).val * a) ≤ F.round ((flYears F.arith N s y).val * a) :=
    fun h => F.round_mono (mul_le_mul_of_nonneg_right (flYears_mono hN0 h) h0)
  refine ⟨_, _, he, he', hE.nonneg _ (Ieee.value_ne_nan (Ieee.value_number ne')), hE.mono _ _ ?_, ?_⟩
  · rw [Ieee.le_number ne' ne]
    exact F.arith.mono (by linarith [mono hd1, mono hd2])
  · rw [← hE.zero 0 Ieee.zero_number]
    refine hE.mono _ _ ((Ieee.le_number ne Ieee.zero_number).2 ?_)
    have := F.arith.mono (show F.round ((flYears F.arith N s d1).val * a) - F.round ((flYears F.arith N s d2).val * a) ≤ 0 by
      linarith [mono hd])
    rwa [F.arith.fl_zero] at this

/-- **C113.** On a flat curve whose yield `a` is not positive, with linear interpolation, discount factors computed in `f32` and
`f64` are at least 1 and never decrease when the period grows at either end, with no rounding allowance. -/
theorem C113_flat_negative (hF : 40 ≤ F.emax) (hE : IeeeExp F) {D : DayCount (Ieee F)} {N : Int} (hD : IsActualDayCount D N) (s : Date)
    (ms : List Date) (ys : List (Ieee F)) (a : ℝ) (h0 : a ≤ 0) (ha : -a ≤ 2 ^ ((F.emax : ℤ) - 22))
    (hlen : ms.length = ys.length) (h2 : 2 ≤ ms.length) (hms : ms.Pairwise (· < ·)) (hy : ∀ y ∈ ys, IsNumber y a)
    (d1 d1' d2 d2' : Date) (hs : s ≤ d1') (hd1 : d1' ≤ d1) (hd : d1 ≤ d2) (hd2 : d2 ≤ d2')
    (hc1 : d1 = s ∨ Covers ms d1) (hc1' : d1' = s ∨ Covers ms d1') (hc2 : Covers ms d2) (hc2' : Covers ms d2')
    (hr : ∀ d ∈ d1 :: d1' :: d2 :: d2' :: ms, |Date.sub d s| < 2 ^ (F.prec - 1)) :
    ∃ w w', curveDiscount D (Interpolator.linear (Ieee F)) s ms ys d1 d2 = .ok (.ok w) ∧
      curveDiscount D (Interpolator.linear (Ieee F)) s ms ys d1' d2' = .ok (.ok w') ∧ 1 ≤ w ∧ w ≤ w' := by
  have hN : N = 360 ∨ N = 365 := by rcases hD with ⟨-, h⟩ | ⟨-, h⟩ <;> simp [h]
  have hN0 : 0 < N := by omega
  have hI : IsShippedInterpolator (Interpolator.linear (Ieee F)) 2 := .inl ⟨rfl, rfl⟩
  have hr' : ∀ m ∈ ms, |Date.sub m s| < 2 ^ (F.prec - 1) := fun m hm => hr m (by simp [hm])
  have hv := fun d u (_ : Covers ms d) h => flat_yield_exact (u := u) (d := d) hF hN hms hr' hy h
  have ha' : |a| ≤ 2 ^ ((F.emax : ℤ) - 22) := by rwa [abs_of_nonpos h0]
  obtain ⟨e, he, ne⟩ := exponent_form hF hD hI ha' hlen h2 hms hr' hv (hs.trans hd1) hd hc2 hc1
    (hr _ (by simp)) (hr _ (by simp))
  obtain ⟨e', he', ne'⟩ := exponent_form hF hD hI ha' hlen h2 hms hr' hv hs (hd1.trans (hd.trans hd2)) hc2' hc1'
    (hr _ (by simp)) (hr _ (by simp))
  have mono : ∀ {x y : Date}, x ≤ y → F.round ((flYears F.arith N s y).val * a) ≤ F.round ((flYears F.arith N s x).val * a) :=
    fun h => F.round_mono (mul_le_mul_of_nonpos_right (flYears_mono hN0 h) h0)
  refine ⟨_, _, he, he', ?_, hE.mono _ _ ?_⟩
  · rw [← hE.zero 0 Ieee.zero_number]
    refine hE.mono _ _ ((Ieee.le_number Ieee.zero_number ne).2 ?_)
    have := F.arith.mono (show 0 ≤ F.round ((flYears F.arith N s d1).val * a) - F.round ((flYears F.arith N s d2).val * a) by
      linarith [mono hd])
    rwa [F.arith.fl_zero] at this
  · rw [Ieee.le_number ne ne']
    exact F.arith.mono (by linarith [mono hd1, mono hd2])

omit [HasExp (Ieee F)] in
/-- The computed exponent of a flat curve is close to the exact one. -/
theorem flatExponent_error {N : Int} (hN : N = 360 ∨ N = 365) {s d1 d2 : Date} (hs : s ≤ d1) (hd : d1 ≤ d2)
    (r1 : |Date.sub d1 s| < 2 ^ (F.prec - 1)) (r2 : |Date.sub d2 s| < 2 ^ (F.prec - 1)) (a : ℝ) :
    |flatExponent F N s a d1 d2 - (years N s d1 - years N s d2) * a| ≤
      4 * roundoff F * |a| * (years N s d1 + years N s d2) + 2 * smallest F := by
  have hN0 : 0 < N := by omega
  have hu : 0 < roundoff F := F.arith.unit_pos
  have hu1 : roundoff F ≤ 1 / 16777216 := F.arith.unit_le
  have hσ : 0 < smallest F := Binary.zpow_pos' _
  have one : ∀ {d : Date}, s ≤ d → |Date.sub d s| < 2 ^ (F.prec - 1) →
      |F.round ((flYears F.arith N s d).val * a) - years N s d * a| ≤ 2.1 * roundoff F * (|a| * years N s d) + smallest F / 2 ∧
      |F.round ((flYears F.arith N s d).val * a)| ≤ 1.1 * (|a| * years N s d) + smallest F / 2 := by
    intro d h hr
    have e1 := flYears_error (A := F.arith) hN0 h hr
    have e2 := F.round_err ((flYears F.arith N s d).val * a)
    have y0 := years_nonneg hN0 h
    rw [F.unit_arith] at e1
    rw [show (2 : ℝ) ^ F.bottom = smallest F from rfl] at e2
    generalize (flYears F.arith N s d).val = t at *
    generalize F.round (t * a) = r at *
    generalize years N s d = Y at *
    have m1 : |t * a - Y * a| ≤ roundoff F * (|a| * Y) := by
      rw [← sub_mul, abs_mul]
      calc |t - Y| * |a| ≤ roundoff F * Y * |a| := mul_le_mul_of_nonneg_right e1 (abs_nonneg _)
        _ = _ := by ring
    have p0 : 0 ≤ |a| * Y := by positivity
    have m2 : |t * a| ≤ (1 + roundoff F) * (|a| * Y) := by
      have := abs_sub_abs_le_abs_sub (t * a) (Y * a)
      rw [abs_mul Y, abs_of_nonneg y0, mul_comm Y] at this
      linarith
    have m3 : roundoff F * |t * a| ≤ 1.1 * roundoff F * (|a| * Y) := by
      have : roundoff F * ((1 + roundoff F) * (|a| * Y)) ≤ 1.1 * roundoff F * (|a| * Y) := by
        have : roundoff F * (|a| * Y) * (1 + roundoff F) ≤ roundoff F * (|a| * Y) * 1.1 :=
          mul_le_mul_of_nonneg_left (by linarith) (by positivity)
        linarith
      exact le_trans (mul_le_mul_of_nonneg_left m2 hu.le) this
    have m4 := abs_add_le (r - t * a) (t * a - Y * a)
    rw [sub_add_sub_cancel] at m4
    have k1 : |r - Y * a| ≤ 2.1 * roundoff F * (|a| * Y) + smallest F / 2 := by linarith
    refine ⟨k1, ?_⟩
    have m5 := abs_sub_abs_le_abs_sub r (Y * a)
    rw [abs_mul Y, abs_of_nonneg y0, mul_comm Y] at m5
    have : 2.1 * roundoff F * (|a| * Y) ≤ 0.1 * (|a| * Y) := mul_le_mul_of_nonneg_right (by linarith) p0
    linarith
  obtain ⟨a1, a2⟩ := one hs r1
  obtain ⟨b1, b2⟩ := one (hs.trans hd) r2
  have y1 := years_nonneg hN0 hs
  have y2 := years_nonneg hN0 (hs.trans hd)
  unfold flatExponent
  have e := F.arith.err' (F.round ((flYears F.arith N s d1).val * a) - F.round ((flYears F.arith N s d2).val * a))
  rw [F.unit_arith] at e
  generalize F.round ((flYears F.arith N s d1).val * a) = r at *
  generalize F.round ((flYears F.arith N s d2).val * a) = q at *
  generalize F.arith.fl (r - q) = z at *
  generalize years N s d1 = Y at *
  generalize years N s d2 = Z at *
  have k1 : |r - q| ≤ 1.1 * (|a| * Y) + 1.1 * (|a| * Z) + smallest F := by linarith [abs_sub r q]
  have k2 : roundoff F * |r - q| ≤ roundoff F * (1.1 * (|a| * Y) + 1.1 * (|a| * Z)) + 0.5 * smallest F := by
    have := mul_le_mul_of_nonneg_left k1 hu.le
    have := mul_le_mul_of_nonneg_right (show roundoff F ≤ 0.5 by linarith) hσ.le
    linarith
  have t1 := abs_add_le (z - (r - q)) ((r - Y * a) - (q - Z * a))
  have t2 := abs_sub (r - Y * a) (q - Z * a)
  have t3 : z - (r - q) + (r - Y * a - (q - Z * a)) = z - (Y - Z) * a := by ring
  rw [t3] at t1
  have p : 0 ≤ roundoff F * (|a| * Y) := by positivity
  have q' : 0 ≤ roundoff F * (|a| * Z) := by positivity
  have : 4 * roundoff F * |a| * (Y + Z) = 4 * (roundoff F * (|a| * Y)) + 4 * (roundoff F * (|a| * Z)) := by ring
  rw [this]
  linarith

/-- **C113.** How accurate a discount factor of a flat curve is in `f32` and `f64`: the relative error `δ` of the exponential,
besides that of `exp`, does not depend on how close to each other the maturities are. -/
theorem C113_flat_accuracy (hF : 40 ≤ F.emax) (B ε : ℝ) (hε : IeeeExpWithin F B ε) (hε0 : 0 ≤ ε) (hε1 : ε ≤ 1)
    {D : DayCount (Ieee F)} {N : Int} (hD : IsActualDayCount D N) (s : Date) (ms : List Date) (ys : List (Ieee F)) (a : ℝ)
    (ha : |a| ≤ 2 ^ ((F.emax : ℤ) - 22)) (hlen : ms.length = ys.length) (h2 : 2 ≤ ms.length) (hms : ms.Pairwise (· < ·))
    (hy : ∀ y ∈ ys, IsNumber y a) (d1 d2 : Date) (hs : s ≤ d1) (hd : d1 ≤ d2) (hc1 : d1 = s ∨ Covers ms d1)
    (hc2 : Covers ms d2) (hr : ∀ d ∈ d1 :: d2 :: ms, |Date.sub d s| < 2 ^ (F.prec - 1))
    (hB : 2 * |a| * years N s d2 + 1 ≤ B) :
    ∃ w r δ, curveDiscount D (Interpolator.linear (Ieee F)) s ms ys d1 d2 = .ok (.ok w) ∧ IsNumber w r ∧
      δ = 4 * roundoff F * |a| * (years N s d1 + years N s d2) + 2 * smallest F ∧
      (1 - ε) * Real.exp (-δ) * Real.exp (-a * years N d1 d2) ≤ r ∧ r ≤ (1 + ε) * Real.exp δ * Real.exp (-a * years N d1 d2) := by
  have hN : N = 360 ∨ N = 365 := by rcases hD with ⟨-, h⟩ | ⟨-, h⟩ <;> simp [h]
  have hN0 : 0 < N := by omega
  have hI : IsShippedInterpolator (Interpolator.linear (Ieee F)) 2 := .inl ⟨rfl, rfl⟩
  have hr' : ∀ m ∈ ms, |Date.sub m s| < 2 ^ (F.prec - 1) := fun m hm => hr m (by simp [hm])
  obtain ⟨e, he, ne⟩ := exponent_form hF hD hI ha hlen h2 hms hr'
    (fun d u (_ : Covers ms d) h => flat_yield_exact (u := u) (d := d) hF hN hms hr' hy h) hs hd hc2 hc1
    (hr _ (by simp)) (hr _ (by simp))
  have err := flatExponent_error hN hs hd (hr d1 (by simp)) (hr d2 (by simp)) a
  have ysub : years N s d1 - years N s d2 = -years N d1 d2 := by
    have : Date.sub d1 s - Date.sub d2 s = -Date.sub d2 d1 := by simp only [C04_sub_serial]; ring
    unfold years
    rw [← sub_div, ← neg_div]
    congr 1
    exact_mod_cast this
  have y1 := years_nonneg hN0 hs
  have y2 := years_nonneg hN0 (hs.trans hd)
  have y12 := years_nonneg hN0 hd
  rw [ysub] at err
  have hu : 0 < roundoff F := F.arith.unit_pos
  have hu1 : roundoff F ≤ 1 / 16777216 := F.arith.unit_le
  have hσ : smallest F ≤ 1 / 2 := by
    calc smallest F ≤ (2 : ℝ) ^ (-1 : ℤ) :=
          zpow_le_zpow_right₀ (by norm_num) (by unfold IeeeFormat.bottom; have := F.prec_ge; omega)
      _ = 1 / 2 := by norm_num
  generalize hδ : 4 * roundoff F * |a| * (years N s d1 + years N s d2) + 2 * smallest F = δ at err
  have hz : |flatExponent F N s a d1 d2| ≤ B := by
    have t1 := abs_sub_abs_le_abs_sub (flatExponent F N s a d1 d2) (-years N d1 d2 * a)
    have t2 : |-years N d1 d2 * a| ≤ |a| * years N s d2 := by
      rw [abs_mul, abs_neg, abs_of_nonneg y12, mul_comm]
      exact mul_le_mul_of_nonneg_left (by linarith) (abs_nonneg _)
    have t3 : 4 * roundoff F * |a| * (years N s d1 + years N s d2) ≤ |a| * years N s d2 := by
      have p : 0 ≤ |a| * (years N s d1 + years N s d2) := by positivity
      have q : |a| * (years N s d1 + years N s d2) ≤ |a| * (2 * years N s d2) :=
        mul_le_mul_of_nonneg_left (by linarith) (abs_nonneg _)
      have r := mul_le_mul_of_nonneg_right (show 4 * roundoff F ≤ 1 / 2 by linarith) p
      linarith
    linarith
  obtain ⟨r, hr1, hr2⟩ := hε e _ ne hz
  refine ⟨_, r, δ, he, hr1, rfl, ?_, ?_⟩
  · rw [mul_assoc, ← Real.exp_add]
    have := (abs_le.1 hr2).1
    calc _ ≤ (1 - ε) * Real.exp (flatExponent F N s a d1 d2) :=
          mul_le_mul_of_nonneg_left (Real.exp_le_exp.2 (by have := (abs_le.1 err).1; linarith)) (by linarith)
      _ ≤ r := by linarith
  · rw [mul_assoc, ← Real.exp_add]
    have := (abs_le.1 hr2).2
    calc r ≤ (1 + ε) * Real.exp (flatExponent F N s a d1 d2) := by linarith
      _ ≤ _ := mul_le_mul_of_nonneg_left (Real.exp_le_exp.2 (by have := (abs_le.1 err).2; linarith)) (by linarith)

/-! ## Zero yields within the range of dates -/

omit [HasExp (Ieee F)] in
/-- Zero yields interpolate to zero. -/
theorem zero_yield (hF : 81 ≤ F.emax) {N : Int} (hN : N = 360 ∨ N = 365) {I : Interpolator (Ieee F)} {n : Nat}
    (hI : IsShippedInterpolator I n) {s : Date} {ms : List Date} {ys : List (Ieee F)} (hlen : ms.length = ys.length)
    (hn : n ≤ ms.length) (hms : ms.Pairwise (· < ·)) (hr : ∀ m ∈ ms, |Date.sub m s| ≤ 2 ^ 20) (hy : ∀ y ∈ ys, IsNumber y 0)
    {d : Date} (hd : |Date.sub d s| ≤ 2 ^ 20) (hc : Covers ms d) {u : Ieee F}
    (h : evaluate I ((ms.map (ieeeYears F N s)).zip ys) (ieeeYears F N s d) = .ok (.ok u)) : IsNumber u 0 := by
  have hF' : 40 ≤ F.emax := by omega
  have hr' : ∀ m ∈ ms, |Date.sub m s| < 2 ^ (F.arith.prec - 1) := fun m hm => lt_of_le_of_lt (hr m hm) (span_lt F)
  have fin : (∃ v r, evaluate I ((ms.map (ieeeYears F N s)).zip ys) (ieeeYears F N s d) = .ok (.ok v) ∧ IsNumber v r) →
      IsNumber u 0 := by
    rintro ⟨v, r, hv, hn⟩
    rw [h] at hv
    obtain rfl := Except.ok.inj (Rust.ok.inj hv)
    rcases zero_or_nan hI (fun p hp => hy _ (List.of_mem_zip hp).2) h with h | rfl
    · exact h
    · exact absurd rfl (Ieee.value_ne_nan (Ieee.value_number hn))
  have hnum : List.Forall₂ (fun p q => IsNumber p.1 q.1 ∧ IsNumber p.2 q.2) ((ms.map (ieeeYears F N s)).zip ys)
      ((ms.map fun m => (flYears F.arith N s m).val).zip (ys.map fun _ => (0 : ℝ))) :=
    pillars_number hF' hN (by
      rw [List.forall₂_map_right_iff]
      exact List.forall₂_same.2 fun y h => hy y h)
  have hinc := rounded_increasing F.arith hN hms hr' (ys.map fun _ => (0 : ℝ))
  have hin : InRange ((ms.map fun m => (flYears F.arith N s m).val).zip (ys.map fun _ => (0 : ℝ)))
      (flYears F.arith N s d).val := by
    have kf : KeepsOrder (flYears F.arith N s) ms d := flYears_keeps hN (by
      intro e he
      rcases List.mem_cons.1 he with rfl | he
      · exact lt_of_le_of_lt hd (span_lt F)
      · exact hr' e he)
    have kf' : KeepsOrder (fun d => (flYears F.arith N s d).val) ms d :=
      fun a ha b hb h => (Fl.lt_iff _ _).1 (kf a ha b hb h)
    rw [kf'.inRange (by simpa using hlen)]
    exact hc
  have nd := years_number hF' (A := F.arith) rfl hN s d
  have hz : ∀ q ∈ (ms.map fun m => (flYears F.arith N s m).val).zip (ys.map fun _ => (0 : ℝ)), |q.2| ≤ 0 := by
    rintro ⟨a, b⟩ hab
    obtain ⟨y, -, rfl⟩ := List.mem_map.1 (List.of_mem_zip hab).2
    simp
  rcases hI with ⟨rfl, rfl⟩ | ⟨rfl, rfl⟩ | ⟨rfl, rfl⟩
  · exact flat_yield_exact hF' hN hms hr' hy h
  · refine fin ?_
    obtain ⟨v, r, -, hv, hn, -⟩ := C96_catmull_rom _ _ hnum hinc (by simp; omega) _ _ nd hin 0 (by positivity) hz
      (fun p hp q hq => le_trans (pillars_span hN hr p hp q hq) (zpow_le_zpow_right₀ (by norm_num) (by omega)))
    exact ⟨v, r, hv, hn⟩
  · refine fin ?_
    obtain ⟨v, r, -, hv, hn, -⟩ := C96_natural_cubic _ _ hnum hinc (by simp; omega) _ _ nd hin 13 (by omega) 0 (2 ^ (-10 : ℤ))
      (2 ^ 13) (by positivity) hz (zpow_le_zpow_right₀ (by norm_num) (by norm_num)) le_rfl (by
        intro i hi
        simp only [List.length_zip, List.length_map] at hi
        simp only [List.getElem_zip, List.getElem_map]
        have lt := List.pairwise_iff_getElem.1 hinc i (i + 1) (by simp; omega) (by simp; omega) (by omega)
        simp only [List.getElem_zip, List.getElem_map] at lt
        have hm := hr _ (List.getElem_mem (show i < ms.length by omega))
        have hm' := hr _ (List.getElem_mem (show i + 1 < ms.length by omega))
        obtain ⟨h1, -⟩ := years_sub_mag (A := F.arith) hN hm hm'
        rcases h1 with h1 | h1
        · linarith
        rw [abs_of_pos (by linarith)] at h1
        exact_mod_cast h1)
    exact ⟨v, r, hv, hn⟩

omit [HasExp (Ieee F)] in
/-- Dates between maturities near the settlement date are near it. -/
theorem covered_near {s : Date} {ms : List Date} {k : Int} (hr : ∀ m ∈ ms, |Date.sub m s| ≤ k) {d : Date} (hc : Covers ms d) :
    |Date.sub d s| ≤ k := by
  obtain ⟨⟨a, ha, ha'⟩, b, hb, hb'⟩ := hc
  have e1 := abs_le.1 (hr a ha)
  have e2 := abs_le.1 (hr b hb)
  have le : ∀ {x y : Date}, x ≤ y → Date.sub x s ≤ Date.sub y s := by
    intro x y h
    rw [C04_sub_serial, C04_sub_serial]
    rcases h.eq_or_lt with rfl | h
    · exact le_refl _
    · have := (C03_serial_lt x y).1 h
      omega
  exact abs_le.2 ⟨e1.1.trans (le ha'), (le hb').trans e2.2⟩

omit [HasExp (Ieee F)] in
/-- Multiplying by 1 changes no datum, NaN, infinities and the sign of zero included. -/
theorem ieee_one_mul (a : Ieee F) : 1 * a = a := by
  cases a with
  | nan => rfl
  | inf t =>
    change (if (1 : ℝ) = 0 then Ieee.nan else Ieee.inf (false ^^ t)) = _
    rw [if_neg one_ne_zero, Bool.false_xor]
  | fin t x hx rx =>
    change Ieee.ofReal F (false ^^ t) (1 * x) = _
    have e : Ieee.signOf t x = t := by
      unfold Ieee.signOf
      unfold SignFits at hx
      split
      · rfl
      next h =>
        cases t
        · simpa using hx
        · simpa using lt_of_le_of_ne hx h
    unfold Ieee.ofReal
    simp only [Bool.false_xor, one_mul, rx.1, dif_pos rx.2, e]

/-- **C113.** If every quoted yield is zero, every discount factor of the curve is exactly 1, in `f32` and `f64`, with linear
interpolation, Catmull-Rom and natural cubic splines: the dates lie within `2 ^ 20` days (2870 years) of the settlement date. -/
theorem C113_zero (hF : 81 ≤ F.emax) (hE : IeeeExp F) {D : DayCount (Ieee F)} {N : Int} (hD : IsActualDayCount D N)
    {I : Interpolator (Ieee F)} {n : Nat} (hI : IsShippedInterpolator I n) (s : Date) (ms : List Date) (ys : List (Ieee F))
    (hlen : ms.length = ys.length) (hn : n ≤ ms.length) (hms : ms.Pairwise (· < ·)) (hy : ∀ y ∈ ys, IsNumber y 0)
    (d1 d2 : Date) (hs : s ≤ d1) (hd : d1 ≤ d2) (hc1 : d1 = s ∨ Covers ms d1) (hc2 : Covers ms d2)
    (hr : ∀ d ∈ d1 :: d2 :: ms, |Date.sub d s| ≤ 2 ^ 20) : curveDiscount D I s ms ys d1 d2 = .ok (.ok 1) := by
  have hF' : 40 ≤ F.emax := by omega
  have hN : N = 360 ∨ N = 365 := by rcases hD with ⟨-, h⟩ | ⟨-, h⟩ <;> simp [h]
  have hr' : ∀ d ∈ d1 :: d2 :: ms, |Date.sub d s| < 2 ^ (F.prec - 1) := fun d hd => lt_of_le_of_lt (hr d hd) (span_lt F)
  have near := fun d (hc : Covers ms d) => covered_near (fun m hm => hr m (by simp [hm])) hc
  obtain ⟨e, he, ne⟩ := exponent_form (a := 0) hF' hD hI (by rw [abs_zero]; positivity) hlen hn hms
    (fun m hm => hr' m (by simp [hm]))
    (fun d u hc h => zero_yield hF hN hI hlen hn hms (fun m hm => hr m (by simp [hm])) hy (near d hc) hc h) hs hd hc2 hc1
    (hr' _ (by simp)) (hr' _ (by simp))
  have z : flatExponent F N s 0 d1 d2 = 0 := by
    unfold flatExponent
    rw [mul_zero, mul_zero, F.round_zero, sub_self, F.arith.fl_zero]
  rw [z] at ne
  rw [he, hE.zero e ne]

/-- **C113.** If every quoted yield is zero, the price of a bond in `f32` and `f64` is the floating-point sum of the payments
that remain, in their order, whatever their amounts: infinities and NaN included. -/
theorem C113_zero_price (hF : 81 ≤ F.emax) (hE : IeeeExp F) {D : DayCount (Ieee F)} {N : Int} (hD : IsActualDayCount D N)
    {I : Interpolator (Ieee F)} {n : Nat} (hI : IsShippedInterpolator I n) (s : Date) (ms : List Date) (ys : List (Ieee F))
    (hlen : ms.length = ys.length) (hn : n ≤ ms.length) (hms : ms.Pairwise (· < ·)) (hy : ∀ y ∈ ys, IsNumber y 0)
    (b : Bond (Ieee F)) (settle : Date) (hs : s ≤ settle) (hc : settle = s ∨ Covers ms settle)
    (hpay : ∀ c ∈ remaining b settle, settle ≤ c.paymentDate ∧ Covers ms c.paymentDate)
    (hr : ∀ d ∈ settle :: ms, |Date.sub d s| ≤ 2 ^ 20) :
    curvePrice D I s ms ys b settle = .ok (.ok (((remaining b settle).map (·.paymentAmount)).foldl (· + ·) 0)) := by
  have hr' : ∀ m ∈ ms, |Date.sub m s| < 2 ^ (F.prec - 1) := fun m hm => lt_of_le_of_lt (hr m (by simp [hm])) (span_lt F)
  obtain ⟨c, hcn, -⟩ := ieee_curve (by omega) hD hI s ms ys hlen hn hms hr'
  have near := fun d (hc : Covers ms d) => covered_near (fun m hm => hr m (by simp [hm])) hc
  have one : ∀ g ∈ remaining b settle, c.discountFactor D settle g.paymentDate = .ok (.ok 1) := by
    intro g hg
    have := C113_zero hF hE hD hI s ms ys hlen hn hms hy settle g.paymentDate hs (hpay g hg).1 hc (hpay g hg).2 (by
      intro d hd
      rcases List.mem_cons.1 hd with rfl | hd
      · exact hr _ (by simp)
      rcases List.mem_cons.1 hd with rfl | hd
      · exact near _ (hpay g hg).2
      · exact hr d (by simp [hd]))
    unfold curveDiscount at this
    rw [hcn] at this
    exact this
  unfold curvePrice
  rw [hcn]
  change Bond.pvLoop D settle c 0 b.bondCashFlows = _
  unfold remaining at one ⊢
  generalize b.bondCashFlows = flows at one
  generalize (0 : Ieee F) = acc
  induction flows generalizing acc with
  | nil => rfl
  | cons g rest ih =>
    unfold Bond.pvLoop
    by_cases h : settle < g.dueDate
    · rw [if_pos h, one g (by simp [h]), List.filter_cons_of_pos (by simpa using h)]
      simp only [Rust.ok_bind, ieee_one_mul]
      exact ih (fun g' hg' => one g' (by
        rw [List.filter_cons_of_pos (by simpa using h)]
        exact List.mem_cons_of_mem _ hg')) _
    · rw [if_neg h, List.filter_cons_of_neg (by simpa using h)]
      exact ih (fun g' hg' => one g' (by rwa [List.filter_cons_of_neg (by simpa using h)])) _

end

/-! ## Concrete curves -/

theorem grid_near : ∀ d ∈ gridSettle :: gridMid1 :: gridMid2 :: gridMaturities, |Date.sub d gridSettle| ≤ 2 ^ 20 := by
  unfold gridMaturities
  decide +kernel

/-- In `f32`, zero yields at three pillars with a correctly rounded `exp`: between two dates the discount factor is 1, with
each interpolator, and a bond with two payments of 1 is worth their sum. -/
example : letI := roundedExp .binary32
    ∀ I ∈ [Interpolator.linear (Ieee .binary32), Interpolator.catmullRom (Ieee .binary32), Interpolator.naturalCubic (Ieee .binary32)],
      curveDiscount DayCount.act360 I gridSettle gridMaturities [0, 0, 0] gridMid1 gridMid2 = .ok (.ok 1) ∧
      curvePrice DayCount.act360 I gridSettle gridMaturities [0, 0, 0]
        ⟨"", [⟨gridMid1, gridMid1, 1⟩, ⟨gridMid2, gridMid2, 1⟩]⟩ gridSettle = .ok (.ok (0 + 1 + 1)) := by
  let _ := roundedExp .binary32
  intro I hI
  have hF : 81 ≤ IeeeFormat.binary32.emax := by norm_num [IeeeFormat.binary32]
  obtain ⟨n, hn, hI⟩ : ∃ n ≤ 3, IsShippedInterpolator I n := by
    simp only [List.mem_cons, List.not_mem_nil, or_false] at hI
    rcases hI with rfl | rfl | rfl
    · exact ⟨2, by norm_num, .inl ⟨rfl, rfl⟩⟩
    · exact ⟨3, le_rfl, .inr (.inl ⟨rfl, rfl⟩)⟩
    · exact ⟨3, le_rfl, .inr (.inr ⟨rfl, rfl⟩)⟩
  have hy : ∀ y ∈ [(0 : Ieee .binary32), 0, 0], IsNumber y 0 := by
    intro y hy
    obtain rfl : y = 0 := by simpa using hy
    exact Ieee.zero_number
  have c1 : Covers gridMaturities gridMid1 := by unfold Covers gridMaturities; decide
  have c2 : Covers gridMaturities gridMid2 := by unfold Covers gridMaturities; decide
  refine ⟨C113_zero hF (roundedExp_sound _) (.inl ⟨rfl, rfl⟩) hI gridSettle gridMaturities _ rfl hn
    gridMaturities_increasing hy _ _ (by decide) (by decide)
    (.inr c1) c2 fun d hd => grid_near d (List.mem_cons_of_mem _ hd), ?_⟩
  have e : remaining (⟨"", [⟨gridMid1, gridMid1, 1⟩, ⟨gridMid2, gridMid2, 1⟩]⟩ : Bond (Ieee .binary32)) gridSettle =
      [⟨gridMid1, gridMid1, 1⟩, ⟨gridMid2, gridMid2, 1⟩] := by
    unfold remaining
    rw [List.filter_cons_of_pos (by decide), List.filter_cons_of_pos (by decide), List.filter_nil]
  have := C113_zero_price hF (roundedExp_sound _) (.inl ⟨rfl, rfl⟩) hI gridSettle gridMaturities [0, 0, 0] rfl hn
    gridMaturities_increasing hy ⟨"", [⟨gridMid1, gridMid1, 1⟩, ⟨gridMid2, gridMid2, 1⟩]⟩ gridSettle (le_refl _) (.inl rfl) (by
      rw [e]
      simp only [List.mem_cons, List.not_mem_nil, or_false, forall_eq_or_imp, forall_eq]
      exact ⟨⟨by decide, c1⟩, by decide, c2⟩) (fun d hd => grid_near d (by
      rcases List.mem_cons.1 hd with rfl | hd
      · simp
      · simp [hd]))
  rwa [e] at this

/-- In `f32`, a flat yield of 1/32 with a correctly rounded `exp`: the discount factor over the longer period is the smaller one,
both are at most 1, and the factor between the two dates exceeds its exact value by at most two rounding errors, to first order. -/
example : letI := roundedExp .binary32
    ∃ y w w' v : Ieee .binary32, ∃ r : ℝ, IsNumber y (1 / 32) ∧
      curveDiscount DayCount.act360 (Interpolator.linear _) gridSettle gridMaturities [y, y, y] gridMid1 gridMid2 = .ok (.ok w) ∧
      curveDiscount DayCount.act360 (Interpolator.linear _) gridSettle gridMaturities [y, y, y] gridSettle gridMid2 = .ok (.ok w') ∧
      0 ≤ w' ∧ w' ≤ w ∧ w ≤ 1 ∧
      curveDiscount DayCount.act360 (Interpolator.linear _) gridSettle gridMaturities [y, y, y] gridMid1 gridMid2 = .ok (.ok v) ∧
      IsNumber v r ∧ r ≤ (1 + roundoff .binary32) * Real.exp (roundoff .binary32) * Real.exp (-(1 / 32)) := by
  let _ := roundedExp .binary32
  have hF : 40 ≤ IeeeFormat.binary32.emax := by norm_num [IeeeFormat.binary32]
  obtain ⟨y, hy⟩ := IeeeFormat.exists_number (representable_dyadic (F := .binary32) 1 5 (by norm_num [IeeeFormat.binary32])
    (by norm_num [IeeeFormat.binary32]))
  have hy : IsNumber y (1 / 32) := by norm_num at hy ⊢; exact hy
  have hys : ∀ z ∈ [y, y, y], IsNumber z (1 / 32) := by
    intro z hz
    obtain rfl : z = y := by simpa using hz
    exact hy
  have c1 : Covers gridMaturities gridMid1 := by unfold Covers gridMaturities; decide
  have c2 : Covers gridMaturities gridMid2 := by unfold Covers gridMaturities; decide
  have near : ∀ d ∈ gridSettle :: gridMid1 :: gridMid2 :: gridMaturities,
      |Date.sub d gridSettle| < 2 ^ (IeeeFormat.binary32.prec - 1) := fun d hd => lt_of_le_of_lt (grid_near d hd) (span_lt _)
  obtain ⟨w, w', e1, e2, o⟩ := C113_flat hF (roundedExp_sound _) (D := DayCount.act360) (.inl ⟨rfl, rfl⟩) gridSettle gridMaturities [y, y, y]
    (1 / 32) (by norm_num) (by norm_num [IeeeFormat.binary32]) rfl (by decide) gridMaturities_increasing hys gridMid1 gridSettle
    gridMid2 gridMid2 (le_refl _) (by decide) (by decide) (le_refl _) (.inr c1) (.inl rfl) c2 c2 (fun d hd => near d (by
      simp only [List.mem_cons] at hd ⊢
      tauto))
  have ym1 : years 360 gridSettle gridMid1 = 3 / 2 := by
    unfold years; exact_mod_cast grid_mid1
  have ym2 : years 360 gridSettle gridMid2 = 5 / 2 := by
    unfold years; exact_mod_cast grid_mid2
  have y12 : years 360 gridMid1 gridMid2 = 1 := by
    unfold years
    rw [show Date.sub gridMid2 gridMid1 = 360 by decide +kernel]; norm_num
  have hu : (0 : ℝ) < roundoff .binary32 := IeeeFormat.binary32.arith.unit_pos
  have hu1 : roundoff .binary32 ≤ 1 / 16777216 := IeeeFormat.binary32.arith.unit_le
  obtain ⟨v, r, δ, e3, hr, hδ, -, hi⟩ := C113_flat_accuracy hF 60 _ (roundedExp_within .binary32 (by norm_num [IeeeFormat.binary32])) hu.le
    (by linarith) (D := DayCount.act360) (.inl ⟨rfl, rfl⟩) gridSettle gridMaturities [y, y, y]
    (1 / 32) (by norm_num [IeeeFormat.binary32]) rfl (by decide) gridMaturities_increasing hys gridMid1
    gridMid2 (by decide) (by decide) (.inr c1) c2 (fun d hd => near d (List.mem_cons_of_mem _ hd)) (by
      rw [ym2]; norm_num)
  refine ⟨y, w, w', v, r, hy, e1, e2, o.1, o.2.1, o.2.2, e3, hr, hi.trans ?_⟩
  rw [ym1, ym2] at hδ
  rw [y12, mul_one, hδ]
  have sm : smallest .binary32 ≤ roundoff .binary32 / 8 := by
    unfold smallest roundoff
    norm_num [IeeeFormat.bottom, IeeeFormat.binary32]
  have a : |(1 / 32 : ℝ)| = 1 / 32 := abs_of_pos (by norm_num)
  rw [a]
  refine mul_le_mul_of_nonneg_right (mul_le_mul_of_nonneg_left (Real.exp_le_exp.2 ?_) (by linarith)) (Real.exp_pos _).le
  linarith

/-- A negative flat yield of -1/32 in `f32`, and yields of zero. -/
example : letI := roundedExp .binary32
    ∃ y w w' z : Ieee .binary32, IsNumber y (-(1 / 32)) ∧
      curveDiscount DayCount.act360 (Interpolator.linear _) gridSettle gridMaturities [y, y, y] gridMid1 gridMid2 = .ok (.ok w) ∧
      curveDiscount DayCount.act360 (Interpolator.linear _) gridSettle gridMaturities [y, y, y] gridSettle gridMid2 = .ok (.ok w') ∧
      1 ≤ w ∧ w ≤ w' ∧
      curveDiscount DayCount.act360 (Interpolator.linear _) gridSettle gridMaturities [0, 0, 0] gridMid1 gridMid2 = .ok (.ok z) ∧
      (z = 1 ∨ z = .nan) := by
  let _ := roundedExp .binary32
  have hF : 40 ≤ IeeeFormat.binary32.emax := by norm_num [IeeeFormat.binary32]
  obtain ⟨y, hy⟩ := IeeeFormat.exists_number (representable_dyadic (F := .binary32) (-1) 5 (by norm_num [IeeeFormat.binary32])
    (by norm_num [IeeeFormat.binary32]))
  have hy : IsNumber y (-(1 / 32)) := by norm_num at hy ⊢; exact hy
  have hys : ∀ z ∈ [y, y, y], IsNumber z (-(1 / 32)) := by
    intro z hz
    obtain rfl : z = y := by simpa using hz
    exact hy
  have h0 : ∀ z ∈ ([0, 0, 0] : List (Ieee .binary32)), IsNumber z 0 := by
    intro z hz
    obtain rfl : z = 0 := by simpa using hz
    exact Ieee.zero_number
  have c1 : Covers gridMaturities gridMid1 := by unfold Covers gridMaturities; decide
  have c2 : Covers gridMaturities gridMid2 := by unfold Covers gridMaturities; decide
  have near : ∀ d ∈ gridMid1 :: gridSettle :: gridMid2 :: gridMid2 :: gridMaturities,
      |Date.sub d gridSettle| < 2 ^ (IeeeFormat.binary32.prec - 1) := fun d hd => lt_of_le_of_lt (grid_near d (by
        simp only [List.mem_cons] at hd ⊢
        tauto)) (span_lt _)
  obtain ⟨w, w', e1, e2, o⟩ := C113_flat_negative hF (roundedExp_sound _) (D := DayCount.act360) (.inl ⟨rfl, rfl⟩) gridSettle
    gridMaturities [y, y, y] (-(1 / 32)) (by norm_num) (by norm_num [IeeeFormat.binary32]) rfl (by decide)
    gridMaturities_increasing hys gridMid1 gridSettle gridMid2 gridMid2 (le_refl _) (by decide) (by decide) (le_refl _) (.inr c1)
    (.inl rfl) c2 c2 near
  obtain ⟨z, z', e3, -, -⟩ := C113_flat_negative hF (roundedExp_sound _) (D := DayCount.act360) (.inl ⟨rfl, rfl⟩) gridSettle
    gridMaturities [0, 0, 0] 0 (le_refl _) (by rw [neg_zero]; positivity) rfl (by decide)
    gridMaturities_increasing h0 gridMid1 gridSettle gridMid2 gridMid2 (le_refl _) (by decide) (by decide) (le_refl _) (.inr c1)
    (.inl rfl) c2 c2 near
  exact ⟨y, w, w', z, hy, e1, e2, o.1, o.2, e3, C113_zero_or_nan (roundedExp_sound _) _ (.inl ⟨rfl, rfl⟩) _ _ _ h0 _ _ _ e3⟩

end Qlab.Props
