import Verif.Lemmas.ShippedCurve
import Verif.Lemmas.SplineShift
import Verif.Lemmas.NaturalShift
import Verif.Props.FloatNatural
import Verif.Props.FloatPrice
import Verif.Props.Overshoot

/-!
# From market data to price with a spline (C97)

As C92 does for linear curves: the whole computation in floating point and in exact arithmetic, from the same dates and
the same floating-point yields, rate and face value.
-/

namespace Qlab.Spec

/-- The same shipped interpolator at two value types; it needs `n` points. -/
def SameInterpolator {V W : Type} [Zero V] [One V] [Neg V] [Add V] [Sub V] [Mul V] [Div V] [FromInt V] [LT V]
    [DecidableLT V] [LE V] [DecidableLE V] [Zero W] [One W] [Neg W] [Add W] [Sub W] [Mul W] [Div W] [FromInt W] [LT W]
    [DecidableLT W] [LE W] [DecidableLE W] (I : Interpolator V) (J : Interpolator W) (n : Nat) : Prop :=
  (I = Interpolator.linear V ∧ J = Interpolator.linear W ∧ n = 2) ∨
  (I = Interpolator.catmullRom V ∧ J = Interpolator.catmullRom W ∧ n = 3) ∨
  (I = Interpolator.naturalCubic V ∧ J = Interpolator.naturalCubic W ∧ n = 3)

/-- Neighbouring maturities are between `h` and `H` days apart. -/
def DaysApart (ms : List Date) (h H : ℝ) : Prop :=
  ∀ i m₀ m₁, ms[i]? = some m₀ → ms[i + 1]? = some m₁ → h ≤ (Date.sub m₁ m₀ : Int) ∧ ((Date.sub m₁ m₀ : Int) : ℝ) ≤ H

end Qlab.Spec

namespace Qlab.Props

open Spec

variable {A : FloatArith}

theorem same_left {I : Interpolator (Fl A)} {J : Interpolator ℝ} {n : Nat} (h : SameInterpolator I J n) :
    IsShippedInterpolator I n := by
  rcases h with ⟨h, -, e⟩ | ⟨h, -, e⟩ | ⟨h, -, e⟩
  · exact .inl ⟨h, e⟩
  · exact .inr (.inl ⟨h, e⟩)
  · exact .inr (.inr ⟨h, e⟩)

theorem same_right {I : Interpolator (Fl A)} {J : Interpolator ℝ} {n : Nat} (h : SameInterpolator I J n) :
    IsShippedInterpolator J n := by
  rcases h with ⟨-, h, e⟩ | ⟨-, h, e⟩ | ⟨-, h, e⟩
  · exact .inl ⟨h, e⟩
  · exact .inr (.inl ⟨h, e⟩)
  · exact .inr (.inr ⟨h, e⟩)

theorem flYears_increasing {N : Int} (hN : N = 360 ∨ N = 365) {s : Date} {ms : List Date} (hms : ms.Pairwise (· < ·))
    (hr : ∀ m ∈ ms, |Date.sub m s| < 2 ^ (A.prec - 1)) (ys : List (Fl A)) :
    StrictlyIncreasing ((ms.map (flYears A N s)).zip ys) :=
  KeepsOrder.increasing (d := s) (flYears_keeps hN (by
    intro e he
    rcases List.mem_cons.1 he with rfl | he
    · have : Date.sub e e = 0 := by rw [C04_sub_serial]; omega
      rw [this, abs_zero]; positivity
    · exact hr e he)) hms

theorem years_increasing {N : Int} (hN : 0 < N) {s : Date} {ms : List Date} (hms : ms.Pairwise (· < ·)) (ys : List ℝ) :
    StrictlyIncreasing ((ms.map (years N s)).zip ys) :=
  KeepsOrder.increasing (d := s) (years_keeps hN) hms

/-- The two curves exist. -/
theorem two_curves {D : DayCount (Fl A)} {E : DayCount ℝ} {N : Int} (hD : IsActualDayCount D N)
    (hE : IsActualDayCount E N) {I : Interpolator (Fl A)} {J : Interpolator ℝ} {n : Nat} (hI : SameInterpolator I J n)
    {s : Date} {ms : List Date} {ys : List (Fl A)} (hlen : ms.length = ys.length) (hn : n ≤ ms.length)
    (hms : ms.Pairwise (· < ·)) (hr : ∀ m ∈ ms, |Date.sub m s| < 2 ^ (A.prec - 1)) :
    ∃ (c : YieldCurve (Fl A) I) (c' : YieldCurve ℝ J),
      YieldCurve.new D I s ms ys = .ok (.ok c) ∧ YieldCurve.new E J s ms (ys.map Fl.val) = .ok (.ok c') ∧
      c.settlementDate = s ∧ c'.settlementDate = s ∧
      (∀ x, I.tryValue c.interpolator x = evaluate I ((ms.map (flYears A N s)).zip ys) x) ∧
      (∀ x, J.tryValue c'.interpolator x = evaluate J ((ms.map (years N s)).zip (ys.map Fl.val)) x) := by
  have hN : N = 360 ∨ N = 365 := by rcases hD with ⟨-, h⟩ | ⟨-, h⟩ <;> simp [h]
  have hDf : ∀ d, D s d = .ok (.ok (flYears A N s d)) := fun d => actual_eq hD s d
  have hEf : ∀ d, E s d = .ok (.ok (years N s d)) := fun d => real_actual_eq hE s d
  obtain ⟨st, hst⟩ := shipped_fit (fun _ => rfl) (same_left hI) (flYears_increasing hN hms hr ys)
    (show n ≤ ((ms.map (flYears A N s)).zip ys).length by simp; omega)
  obtain ⟨st', hst'⟩ := shipped_fit (fun _ => rfl) (same_right hI) (years_increasing (by omega : 0 < N) (s := s) hms (ys.map Fl.val))
    (show n ≤ ((ms.map (years N s)).zip (ys.map Fl.val)).length by simp; omega)
  obtain ⟨c, h1, h2, h3⟩ := shipped_curve hDf ms ys hlen hst
  obtain ⟨c', h1', h2', h3'⟩ := shipped_curve hEf ms (ys.map Fl.val) (by simpa using hlen) hst'
  exact ⟨c, c', h1, h1', h2, h2', h3, h3'⟩

/-- The two curves fail alike. -/
theorem shipped_discounts {D : DayCount (Fl A)} {E : DayCount ℝ} {N : Int} (hD : IsActualDayCount D N)
    (hE : IsActualDayCount E N) {I : Interpolator (Fl A)} {J : Interpolator ℝ} {n : Nat} (hI : SameInterpolator I J n)
    {s : Date} {ms : List Date} {ys : List (Fl A)} (hlen : ms.length = ys.length) (hn : n ≤ ms.length)
    (hms : ms.Pairwise (· < ·)) (hr : ∀ m ∈ ms, |Date.sub m s| < 2 ^ (A.prec - 1)) :
    ∃ (c : YieldCurve (Fl A) I) (c' : YieldCurve ℝ J),
      YieldCurve.new D I s ms ys = .ok (.ok c) ∧ YieldCurve.new E J s ms (ys.map Fl.val) = .ok (.ok c') ∧
      ∀ d1 d2, |Date.sub d1 s| < 2 ^ (A.prec - 1) → |Date.sub d2 s| < 2 ^ (A.prec - 1) →
        (∃ e, c.discountFactor D d1 d2 = .ok (.error e) ∧ c'.discountFactor E d1 d2 = .ok (.error e)) ∨
        (∃ w v, c.discountFactor D d1 d2 = .ok (.ok w) ∧ c'.discountFactor E d1 d2 = .ok (.ok v)) := by
  have hN : N = 360 ∨ N = 365 := by rcases hD with ⟨-, h⟩ | ⟨-, h⟩ <;> simp [h]
  have hN0 : 0 < N := by omega
  obtain ⟨c, c', h1, h1', h2, h2', h3, h3'⟩ := two_curves hD hE hI hlen hn hms hr
  refine ⟨c, c', h1, h1', fun d1 d2 hr1 hr2 => ?_⟩
  have sim := discount_sim (R := fun _ _ _ => True) h2 h2' (fun d => actual_eq hD s d) (fun d => real_actual_eq hE s d)
    d1 d2 (by
    intro d hd _
    have kf : KeepsOrder (flYears A N s) ms d := flYears_keeps hN (by
      intro e he
      rcases List.mem_cons.1 he with rfl | he
      · rcases hd with rfl | rfl
        · exact hr1
        · exact hr2
      · exact hr e he)
    have kr : KeepsOrder (years N s) ms d := years_keeps hN0
    have hl1 : n ≤ ((ms.map (flYears A N s)).zip ys).length := by simp; omega
    have hl2 : n ≤ ((ms.map (years N s)).zip (ys.map Fl.val)).length := by simp; omega
    rw [h3, h3']
    by_cases hcov : Covers ms d
    · obtain ⟨y, hy⟩ := shipped_inside (V := Fl A) _ Fl.fromInt_eq (same_left hI) (kf.increasing hms) hl1
        ((kf.inRange hlen).2 hcov)
      obtain ⟨y', hy'⟩ := shipped_inside (V := ℝ) (fun m => (m : ℝ)) ExactCast.fromInt_eq (same_right hI) (kr.increasing hms) hl2
        ((kr.inRange (by simpa using hlen)).2 hcov)
      exact .inl ⟨y, y', hy, hy', trivial⟩
    · obtain ⟨e, he⟩ := shipped_outside (fun _ => rfl) (same_left hI) (kf.increasing hms) hl1
        (fun h => hcov ((kf.inRange hlen).1 h))
      obtain ⟨e', he'⟩ := shipped_outside (fun _ => rfl) (same_right hI) (kr.increasing hms) hl2
        (fun h => hcov ((kr.inRange (by simpa using hlen)).1 h))
      exact .inr ⟨e, e', he, he'⟩)
  rcases sim with h | ⟨-, -, y, y', -, ⟨-, h1, h2⟩ | ⟨-, y1, y1', -, h1, h2⟩⟩
  · exact .inl h
  · exact .inr ⟨_, _, h1, h2⟩
  · exact .inr ⟨_, _, h1, h2⟩

/-- **C97.** A curve with any of the three interpolators under Act/360 or Act/365 refuses the same dates with the same
errors in floating point as in exact arithmetic, and never panics. -/
theorem C97_discount_outcome {D : DayCount (Fl A)} {E : DayCount ℝ} {N : Int} (hD : IsActualDayCount D N)
    (hE : IsActualDayCount E N) {I : Interpolator (Fl A)} {J : Interpolator ℝ} {n : Nat} (hI : SameInterpolator I J n)
    (s : Date) (ms : List Date) (ys : List (Fl A)) (hlen : ms.length = ys.length) (hn : n ≤ ms.length)
    (hms : ms.Pairwise (· < ·)) (d1 d2 : Date) (hr : ∀ d ∈ d1 :: d2 :: ms, |Date.sub d s| < 2 ^ (A.prec - 1)) :
    (∀ e, curveDiscount D I s ms ys d1 d2 = .ok (.error e) ↔
      curveDiscount E J s ms (ys.map Fl.val) d1 d2 = .ok (.error e)) ∧
    curveDiscount D I s ms ys d1 d2 ≠ .panic ∧ curveDiscount E J s ms (ys.map Fl.val) d1 d2 ≠ .panic := by
  obtain ⟨c, c', hc, hc', hall⟩ := shipped_discounts hD hE hI hlen hn hms (fun m hm => hr m (by simp [hm]))
  unfold curveDiscount
  rw [hc, hc']
  simp only [Rust.ok_bind]
  rcases hall d1 d2 (hr _ (by simp)) (hr _ (by simp)) with ⟨e', h1, h2⟩ | ⟨w, v, h1, h2⟩ <;> rw [h1, h2] <;> simp

/-- **C97.** Pricing fails with the same error in floating point as in exact arithmetic, for the same bond on the same
curve with any of the three interpolators, whatever the yields, the rate and the face value; it never panics. -/
theorem C97_price_outcome {D : DayCount (Fl A)} {E : DayCount ℝ} {N : Int} (hD : IsActualDayCount D N)
    (hE : IsActualDayCount E N) {I : Interpolator (Fl A)} {J : Interpolator ℝ} {n : Nat} (hI : SameInterpolator I J n)
    (cs : Date) (ms : List Date) (ys : List (Fl A)) (hlen : ms.length = ys.length) (hn : n ≤ ms.length)
    (hms : ms.Pairwise (· < ·)) (id : String) (issue first pen mat : Date)
    (f : Frequency) (rate face : Fl A) (b : Bond (Fl A)) (b' : Bond ℝ) (s : Date)
    (hb : Bond.new id issue first pen mat f rate face = .ok (some b))
    (hb' : Bond.new id issue first pen mat f rate.val face.val = .ok (some b'))
    (hr : ∀ d ∈ s :: ms ++ b.bondCashFlows.map (·.paymentDate), |Date.sub d cs| < 2 ^ (A.prec - 1)) :
    (∀ e, curvePrice D I cs ms ys b s = .ok (.error e) ↔
      curvePrice E J cs ms (ys.map Fl.val) b' s = .ok (.error e)) ∧
    curvePrice D I cs ms ys b s ≠ .panic ∧ curvePrice E J cs ms (ys.map Fl.val) b' s ≠ .panic := by
  obtain ⟨c, c', hc, hc', hout⟩ := shipped_discounts hD hE hI hlen hn hms (fun m hm => hr m (by simp [hm]))
  obtain ⟨b'', e', hl, hall⟩ := C77_flows _ _ _ _ _ _ _ _ b hb
  rw [hb'] at e'
  obtain rfl : b' = b'' := by simpa using e'
  unfold curvePrice Bond.discountedValue
  rw [hc, hc']
  simp only [Rust.ok_bind]
  rcases pv_outcome (D := D) (E := E) (c := c) (c' := c') (s := s) b.bondCashFlows b'.bondCashFlows
    (List.forall₂_iff_get.2 ⟨hl, fun i h1 h2 => by
      have := hall i _ _ (List.getElem?_eq_getElem h1) (List.getElem?_eq_getElem h2)
      exact ⟨this.1, this.2.1⟩⟩) (by
    intro g hg
    refine hout s g.paymentDate (hr _ (by simp)) (hr _ ?_)
    simp only [List.cons_append, List.mem_cons, List.mem_append, List.mem_map]
    exact .inr (.inr ⟨g, hg, rfl⟩)) 0 0 with ⟨e', h1, h2⟩ | ⟨r, r', h1, h2⟩ <;> rw [h1, h2] <;> simp

/-! ## Yields close to each other give discount factors and prices close to each other -/

/-- At every date the two interpolated yields are within `η` of each other and the exact one is within `B`, or neither
exists. -/
def YieldsNear (A : FloatArith) (I : Interpolator (Fl A)) (J : Interpolator ℝ) (N : Int) (s : Date) (ms : List Date)
    (ys : List (Fl A)) (η B : ℝ) : Prop :=
  ∀ d, |Date.sub d s| < 2 ^ (A.prec - 1) →
    (∃ y y', evaluate I ((ms.map (flYears A N s)).zip ys) (flYears A N s d) = .ok (.ok y) ∧
      evaluate J ((ms.map (years N s)).zip (ys.map Fl.val)) (years N s d) = .ok (.ok y') ∧
      |y.val - y'| ≤ η ∧ |y'| ≤ B ∧ ∃ m ∈ ms, d ≤ m) ∨
    (∃ e e', evaluate I ((ms.map (flYears A N s)).zip ys) (flYears A N s d) = .ok (.error e) ∧
      evaluate J ((ms.map (years N s)).zip (ys.map Fl.val)) (years N s d) = .ok (.error e'))

/-- Time times yield. -/
theorem time_yield {u η B a x y w : ℝ} (hu : 0 < u) (hu1 : u ≤ 1 / 16777216) (ha : 0 ≤ a) (e : |x - a| ≤ u * a)
    (hw : |w - y| ≤ η) (hy : |y| ≤ B) :
    |x * w - a * y| + 3 * u * |x * w| ≤ (1.01 * η + 5 * u * B) * a := by
  have hη : 0 ≤ η := le_trans (abs_nonneg _) hw
  have hB : 0 ≤ B := le_trans (abs_nonneg _) hy
  have hw' : |w| ≤ B + η := by
    have := abs_add_le (w - y) y
    rw [sub_add_cancel] at this
    linarith
  have hx : |x| ≤ (1 + u) * a := by
    have := abs_add_le (x - a) a
    rw [sub_add_cancel, abs_of_nonneg ha] at this
    linarith
  have e1 : x * w - a * y = (x - a) * w + a * (w - y) := by ring
  have h1 : |x * w - a * y| ≤ u * a * (B + η) + a * η := by
    rw [e1]
    refine le_trans (abs_add_le _ _) ?_
    rw [abs_mul, abs_mul, abs_of_nonneg ha]
    exact add_le_add (mul_le_mul e hw' (abs_nonneg _) (by positivity)) (mul_le_mul_of_nonneg_left hw ha)
  have h2 : |x * w| ≤ (1 + u) * a * (B + η) := by
    rw [abs_mul]
    exact mul_le_mul hx hw' (abs_nonneg _) (by positivity)
  have h3 := mul_le_mul_of_nonneg_left h2 (show 0 ≤ 3 * u by positivity)
  have p1 : 0 ≤ a * η := by positivity
  have p2 : 0 ≤ u * (a * B) := by positivity
  have q1 : u * (a * η) ≤ 1 / 16777216 * (a * η) := mul_le_mul_of_nonneg_right hu1 p1
  have q2 : u * (u * (a * B)) ≤ 1 / 16777216 * (u * (a * B)) := mul_le_mul_of_nonneg_right hu1 p2
  have q3 : u * (u * (a * η)) ≤ 1 / 16777216 * (u * (a * η)) := mul_le_mul_of_nonneg_right hu1 (by positivity)
  nlinarith

/-- The two discount factors: the same error, or values close to each other. -/
theorem near_discounts {D : DayCount (Fl A)} {E : DayCount ℝ} {N : Int} (hD : IsActualDayCount D N)
    (hE : IsActualDayCount E N) {I : Interpolator (Fl A)} {J : Interpolator ℝ} {n : Nat} (hI : SameInterpolator I J n)
    {s : Date} {ms : List Date} {ys : List (Fl A)} {η B ε : ℝ} (hε : ExpWithin A ε)
    (hε0 : 0 ≤ ε) (hε1 : ε ≤ 1) (hlen : ms.length = ys.length) (hn : n ≤ ms.length) (hms : ms.Pairwise (· < ·))
    (hr : ∀ m ∈ ms, |Date.sub m s| < 2 ^ (A.prec - 1)) (hy : YieldsNear A I J N s ms ys η B) :
    ∃ (c : YieldCurve (Fl A) I) (c' : YieldCurve ℝ J),
      YieldCurve.new D I s ms ys = .ok (.ok c) ∧ YieldCurve.new E J s ms (ys.map Fl.val) = .ok (.ok c') ∧
      ∀ d1 d2, |Date.sub d1 s| < 2 ^ (A.prec - 1) → |Date.sub d2 s| < 2 ^ (A.prec - 1) →
        (∃ e, c.discountFactor D d1 d2 = .ok (.error e) ∧ c'.discountFactor E d1 d2 = .ok (.error e)) ∨
        (∃ w v, c.discountFactor D d1 d2 = .ok (.ok w) ∧ c'.discountFactor E d1 d2 = .ok (.ok v) ∧
          s ≤ d1 ∧ d1 ≤ d2 ∧ (∃ m ∈ ms, d2 ≤ m) ∧ 0 < v ∧
          Near ε ((1.01 * η + 5 * unitRoundoff A * B) * (years N s d1 + years N s d2)) v w.val) := by
  have hN : N = 360 ∨ N = 365 := by rcases hD with ⟨-, h⟩ | ⟨-, h⟩ <;> simp [h]
  have hN0 : 0 < N := by omega
  have hu := A.unit_pos
  have hu1 := A.unit_le
  obtain ⟨c, c', h1, h1', h2, h2', h3, h3'⟩ := two_curves hD hE hI hlen hn hms hr
  refine ⟨c, c', h1, h1', fun d1 d2 hr1 hr2 => ?_⟩
  have sim := discount_sim (R := fun d (y : Fl A) (y' : ℝ) => |y.val - y'| ≤ η ∧ |y'| ≤ B ∧ ∃ m ∈ ms, d ≤ m)
    h2 h2' (fun d => actual_eq hD s d) (fun d => real_actual_eq hE s d) d1 d2 (by
    intro d hd hsd
    rw [h3, h3']
    exact hy d (by
      rcases hd with rfl | rfl
      · exact hr1
      · exact hr2))
  rcases sim with h | ⟨hs, hd, y2, y2', r2, h⟩
  · exact .inl h
  right
  obtain ⟨q1, q2, hm⟩ := r2
  have t2 := years_nonneg hN0 (hs.trans hd)
  have z2 := time_yield hu hu1 t2 (flYears_error hN0 (hs.trans hd) hr2) q1 q2
  rcases h with ⟨hds, e1, e2⟩ | ⟨hne, y1, y1', ⟨p1, p2, -⟩, e1, e2⟩
  · refine ⟨_, _, e1, e2, hs, hd, hm, Real.exp_pos _, ?_⟩
    rw [Fl.val_exp]
    refine exp_near hε0 hε1 (hε _) ?_
    show |(-flYears A N s d2 * y2).val - -years N s d2 * y2'| ≤ _
    rw [hds, years_self, zero_add, Fl.val_mul, Fl.val_neg, neg_mul, neg_mul, A.odd, neg_sub_neg, abs_sub_comm]
    have ee := A.err' ((flYears A N s d2).val * y2.val)
    have := abs_add_le (A.fl ((flYears A N s d2).val * y2.val) - (flYears A N s d2).val * y2.val)
      ((flYears A N s d2).val * y2.val - years N s d2 * y2')
    rw [sub_add_sub_cancel] at this
    nlinarith [mul_nonneg hu.le (abs_nonneg ((flYears A N s d2).val * y2.val))]
  · refine ⟨_, _, e1, e2, hs, hd, hm, Real.exp_pos _, ?_⟩
    rw [Fl.val_exp]
    refine exp_near hε0 hε1 (hε _) ?_
    show |(flYears A N s d1 * y1 - flYears A N s d2 * y2).val - (years N s d1 * y1' - years N s d2 * y2')| ≤ _
    rw [Fl.val_sub, Fl.val_mul, Fl.val_mul]
    have t1 := years_nonneg hN0 hs
    have z1 := time_yield hu hu1 t1 (flYears_error hN0 hs hr1) p1 p2
    have ee := exponent_error (A := A) ((flYears A N s d1).val * y1.val) ((flYears A N s d2).val * y2.val)
    generalize (flYears A N s d1).val * y1.val = g1 at *
    generalize (flYears A N s d2).val * y2.val = g2 at *
    generalize years N s d1 * y1' = v1 at *
    generalize years N s d2 * y2' = v2 at *
    generalize A.fl (A.fl g1 - A.fl g2) = R at *
    have e3 : R - (v1 - v2) = (R - (g1 - g2)) + ((g1 - v1) - (g2 - v2)) := by ring
    rw [e3]
    have s1 := abs_add_le (R - (g1 - g2)) ((g1 - v1) - (g2 - v2))
    have s2 := abs_sub (g1 - v1) (g2 - v2)
    linarith

/-- The two prices: the same error, or values close to each other. -/
theorem near_prices {D : DayCount (Fl A)} {E : DayCount ℝ} {N : Int} (hD : IsActualDayCount D N)
    (hE : IsActualDayCount E N) {I : Interpolator (Fl A)} {J : Interpolator ℝ} {n : Nat} (hI : SameInterpolator I J n)
    {cs : Date} {ms : List Date} {ys : List (Fl A)} {η B ε T : ℝ} (hε : ExpWithin A ε)
    (hε0 : 0 ≤ ε) (hε1 : ε ≤ 1) (hlen : ms.length = ys.length) (hn : n ≤ ms.length) (hms : ms.Pairwise (· < ·))
    (hy : YieldsNear A I J N cs ms ys η B) (hη : 0 ≤ η) (hB : 0 ≤ B) (hT : ∀ m ∈ ms, years N cs m ≤ T)
    {id : String} {issue first pen mat : Date} {f : Frequency} {rate face : Fl A} {b : Bond (Fl A)} {b' : Bond ℝ} {s : Date}
    (hb : Bond.new id issue first pen mat f rate face = .ok (some b))
    (hb' : Bond.new id issue first pen mat f rate.val face.val = .ok (some b')) (hi : issue < first) (hm : pen < mat)
    (hr0 : 0 ≤ rate) (hf0 : 0 ≤ face)
    (hr : ∀ d ∈ s :: ms ++ b.bondCashFlows.map (·.paymentDate), |Date.sub d cs| < 2 ^ (A.prec - 1)) :
    (∃ e, curvePrice D I cs ms ys b s = .ok (.error e) ∧
      curvePrice E J cs ms (ys.map Fl.val) b' s = .ok (.error e)) ∨
    (∃ w v, curvePrice D I cs ms ys b s = .ok (.ok w) ∧
      curvePrice E J cs ms (ys.map Fl.val) b' s = .ok (.ok v) ∧ 0 ≤ v ∧
      (1 - unitRoundoff A) ^ ((remaining b s).length + 1) *
        ((1 - 10 * unitRoundoff A) * (1 - ε) * Real.exp (-((1.01 * η + 5 * unitRoundoff A * B) * (2 * T))) * v) ≤ w.val ∧
      w.val ≤ (1 + unitRoundoff A) ^ ((remaining b s).length + 1) *
        ((1 + 10 * unitRoundoff A) * (1 + ε) * Real.exp ((1.01 * η + 5 * unitRoundoff A * B) * (2 * T)) * v)) := by
  obtain ⟨c, c', hc, hc', hall⟩ := near_discounts hD hE hI hε hε0 hε1 hlen hn hms (fun m hm => hr m (by simp [hm])) hy
  unfold curvePrice Bond.discountedValue
  rw [hc, hc']
  simp only [Rust.ok_bind]
  have hu := A.unit_pos
  have hu1 := A.unit_le
  have hN0 : 0 < N := by rcases hD with ⟨-, h⟩ | ⟨-, h⟩ <;> omega
  rcases pv_sim (D := D) (E := E) (c := c) (c' := c') (s := s) (ε := ε)
      (δ := (1.01 * η + 5 * unitRoundoff A * B) * (2 * T))
      (k := 10 * unitRoundoff A) hε1 hε0 (by positivity) (by linarith) _ _ (flows_near hb hb' hi hm hr0 hf0) (by
    intro g hg
    rcases hall s g.paymentDate (hr _ (by simp)) (hr _ (by
      simp only [List.cons_append, List.mem_cons, List.mem_append, List.mem_map]
      exact .inr (.inr ⟨g, hg, rfl⟩))) with h | ⟨w, v, h1, h2, h3, h4, ⟨m, hm1, hm2⟩, h5, h6, h7⟩
    · exact .inl h
    · refine .inr ⟨w, v, h1, h2, h5, ?_⟩
      have t2 : years N cs g.paymentDate ≤ T := le_trans (years_le hN0 hm2) (hT m hm1)
      have t1 : years N cs s ≤ T := le_trans (years_le hN0 h4) t2
      have hδ : (1.01 * η + 5 * unitRoundoff A * B) * (years N cs s + years N cs g.paymentDate) ≤
          (1.01 * η + 5 * unitRoundoff A * B) * (2 * T) :=
        mul_le_mul_of_nonneg_left (by linarith) (by positivity)
      constructor
      · refine le_trans (mul_le_mul_of_nonneg_right (mul_le_mul_of_nonneg_left (Real.exp_le_exp.2 (neg_le_neg hδ))
          (by linarith)) h5.le) h6
      · exact le_trans h7 (mul_le_mul_of_nonneg_right (mul_le_mul_of_nonneg_left (Real.exp_le_exp.2 hδ)
          (by linarith)) h5.le)) 0 0 (by rw [Fl.val_zero]) with h | ⟨r, S, r1, r2, r3, r4, r5⟩
  · exact .inl h
  · right
    rw [zero_add] at r2
    rw [Fl.val_zero, mul_zero, zero_add] at r4 r5
    exact ⟨r, S, r1, r2, r3, r4, r5⟩

/-- The two prices as a relative error. -/
theorem near_prices_relative {D : DayCount (Fl A)} {E : DayCount ℝ} {N : Int} (hD : IsActualDayCount D N)
    (hE : IsActualDayCount E N) {I : Interpolator (Fl A)} {J : Interpolator ℝ} {n : Nat} (hI : SameInterpolator I J n)
    {cs : Date} {ms : List Date} {ys : List (Fl A)} {η B ε T δ : ℝ} (hε : ExpWithin A ε)
    (hε0 : 0 ≤ ε) (hlen : ms.length = ys.length) (hn : n ≤ ms.length) (hms : ms.Pairwise (· < ·))
    (hy : YieldsNear A I J N cs ms ys η B) (hη : 0 ≤ η) (hB : 0 ≤ B) (hbase : ∀ m ∈ ms, cs ≤ m)
    (hT : ∀ m ∈ ms, years N cs m ≤ T) (hδ : (1.01 * η + 5 * unitRoundoff A * B) * 2 ≤ δ)
    {id : String} {issue first pen mat : Date} {f : Frequency} {rate face : Fl A} {b : Bond (Fl A)} {b' : Bond ℝ} {s : Date}
    (hb : Bond.new id issue first pen mat f rate face = .ok (some b))
    (hb' : Bond.new id issue first pen mat f rate.val face.val = .ok (some b')) (hi : issue < first) (hm : pen < mat)
    (hr0 : 0 ≤ rate) (hf0 : 0 ≤ face)
    (hr : ∀ d ∈ s :: ms ++ b.bondCashFlows.map (·.paymentDate), |Date.sub d cs| < 2 ^ (A.prec - 1)) {v : ℝ}
    (h : curvePrice E J cs ms (ys.map Fl.val) b' s = .ok (.ok v)) {X : ℝ}
    (hX : X = ((remaining b s).length + 11) * unitRoundoff A + ε + δ * T) (hX1 : X < 1) :
    ∃ w, curvePrice D I cs ms ys b s = .ok (.ok w) ∧ 0 ≤ v ∧ |w.val - v| ≤ X / (1 - X) * v := by
  have hu := A.unit_pos
  have hu1 := A.unit_le
  have hN0 : 0 < N := by rcases hD with ⟨-, h⟩ | ⟨-, h⟩ <;> omega
  have h2 := shipped_length (same_left hI)
  have hT0 : 0 ≤ T := by
    obtain ⟨m, hm⟩ : ∃ m, m ∈ ms := List.exists_mem_of_length_pos (by omega)
    exact le_trans (years_nonneg hN0 (hbase m hm)) (hT m hm)
  have hδ0 : 0 ≤ 1.01 * η + 5 * unitRoundoff A * B := by positivity
  have hδT : 0 ≤ δ * T := mul_nonneg (by linarith) hT0
  have hle : (1.01 * η + 5 * unitRoundoff A * B) * (2 * T) ≤ δ * T := by
    have := mul_le_mul_of_nonneg_right hδ hT0
    linarith
  have hnn : (0 : ℝ) ≤ ((remaining b s).length + 11) * unitRoundoff A := by positivity
  have hε1 : ε ≤ 1 := by linarith
  rcases near_prices hD hE hI hε hε0 hε1 hlen hn hms hy hη hB hT hb hb' hi hm hr0 hf0 hr with
    ⟨e, -, h'⟩ | ⟨w, v', h1, h2, h0, h3, h4⟩
  · rw [h'] at h; simp at h
  · rw [h2] at h
    obtain rfl : v' = v := by simpa using h
    refine ⟨w, h1, h0, ?_⟩
    have e : X = ((remaining b s).length + 1 : ℕ) * unitRoundoff A + 10 * unitRoundoff A + ε + δ * T := by
      rw [hX]; push_cast; ring
    rw [e] at hX1 ⊢
    refine relative_error hu.le (by linarith) hε0 hε1 hδT h0 hX1 (le_trans ?_ h3) (le_trans h4 ?_)
    · exact mul_le_mul_of_nonneg_left (mul_le_mul_of_nonneg_right (mul_le_mul_of_nonneg_left
        (Real.exp_le_exp.2 (neg_le_neg hle)) (mul_nonneg (by linarith) (by linarith))) h0) (pow_nonneg (by linarith) _)
    · exact mul_le_mul_of_nonneg_left (mul_le_mul_of_nonneg_right (mul_le_mul_of_nonneg_left
        (Real.exp_le_exp.2 hle) (mul_nonneg (by linarith) (by linarith))) h0) (pow_nonneg (by linarith) _)

/-! ## The yields -/

/-- What remains to be shown: the values between two neighbouring maturities. -/
theorem yieldsNear_of {N : Int} (hN : N = 360 ∨ N = 365) {I : Interpolator (Fl A)} {J : Interpolator ℝ} {n : Nat}
    (hI : SameInterpolator I J n) {s : Date} {ms : List Date} {ys : List (Fl A)} (hlen : ms.length = ys.length)
    (hn : n ≤ ms.length) (hms : ms.Pairwise (· < ·)) (hr : ∀ m ∈ ms, |Date.sub m s| < 2 ^ (A.prec - 1)) {η B : ℝ}
    (h : ∀ d, |Date.sub d s| < 2 ^ (A.prec - 1) → ∀ i (hi : i + 1 < ms.length), ms[i] ≤ d → d ≤ ms[i + 1] →
      ∃ y y', evaluate I ((ms.map (flYears A N s)).zip ys) (flYears A N s d) = .ok (.ok y) ∧
        evaluate J ((ms.map (years N s)).zip (ys.map Fl.val)) (years N s d) = .ok (.ok y') ∧
        |y.val - y'| ≤ η ∧ |y'| ≤ B) :
    YieldsNear A I J N s ms ys η B := by
  intro d hd
  have h2 := shipped_length (same_left hI)
  have hN0 : 0 < N := by omega
  have kf : KeepsOrder (flYears A N s) ms d := flYears_keeps hN (by
    intro e he
    rcases List.mem_cons.1 he with rfl | he
    · exact hd
    · exact hr e he)
  have kr : KeepsOrder (years N s) ms d := years_keeps hN0
  have out : ¬ Covers ms d → ∃ e e',
      evaluate I ((ms.map (flYears A N s)).zip ys) (flYears A N s d) = .ok (.error e) ∧
      evaluate J ((ms.map (years N s)).zip (ys.map Fl.val)) (years N s d) = .ok (.error e') := by
    intro hcov
    obtain ⟨e, he⟩ := shipped_outside (fun _ => rfl) (same_left hI) (kf.increasing hms)
      (show n ≤ ((ms.map (flYears A N s)).zip ys).length by simp; omega) (fun h => hcov ((kf.inRange hlen).1 h))
    obtain ⟨e', he'⟩ := shipped_outside (fun _ => rfl) (same_right hI) (kr.increasing hms)
      (show n ≤ ((ms.map (years N s)).zip (ys.map Fl.val)).length by simp; omega)
      (fun h => hcov ((kr.inRange (by simpa using hlen)).1 h))
    exact ⟨e, e', he, he'⟩
  rcases date_segment ms (by omega) hms d with hlo | hhi | h0 | ⟨i, m₀, m₁, e0, e1, l0, l1⟩
  · exact .inr (out fun ⟨⟨m, hm, hle⟩, _⟩ => absurd (hlo m hm) (not_lt.2 hle))
  · exact .inr (out fun ⟨_, ⟨m, hm, hle⟩⟩ => absurd (hhi m hm) (not_lt.2 hle))
  · left
    obtain ⟨i0, e0⟩ := List.getElem?_eq_some_iff.1 h0
    have l1 := List.pairwise_iff_getElem.1 hms 0 1 i0 (by omega) (by omega)
    obtain ⟨y, y', a1, a2, a3, a4⟩ := h d hd 0 (by omega) (by rw [e0]) (by rw [← e0]; exact l1.le)
    exact ⟨y, y', a1, a2, a3, a4, ms[1], List.getElem_mem _, by rw [← e0]; exact l1.le⟩
  · left
    obtain ⟨i0, e0⟩ := List.getElem?_eq_some_iff.1 e0
    obtain ⟨i1, e1⟩ := List.getElem?_eq_some_iff.1 e1
    obtain ⟨y, y', a1, a2, a3, a4⟩ := h d hd i i1 (by rw [e0]; exact l0.le) (by rw [e1]; exact l1)
    exact ⟨y, y', a1, a2, a3, a4, m₁, by rw [← e1]; exact List.getElem_mem _, l1⟩

/-- The pillars of the two curves next to each other. -/
theorem pillars_near (A : FloatArith) {N : Int} (hN : N = 360 ∨ N = 365) {s : Date} {ms : List Date} {zs : List ℝ} {κ Y : ℝ}
    (hlen : ms.length = zs.length) (hms : ms.Pairwise (· < ·)) (hbase : ∀ m ∈ ms, s ≤ m) (hκ : GapRatio s ms κ)
    (hY : ∀ z ∈ zs, |z| ≤ Y) (hr : ∀ m ∈ ms, |Date.sub m s| < 2 ^ (A.prec - 1))
    {pts pts' : List (ℝ × ℝ)} (hp : pts = (ms.map fun m => (flYears A N s m).val).zip zs)
    (hp' : pts' = (ms.map (years N s)).zip zs) :
    (∀ j (_ : j < pts.length) (_ : j < pts'.length), |pts[j].1 - pts'[j].1| ≤ unitRoundoff A * pts'[j].1 ∧
      pts[j].2 = pts'[j].2 ∧ |pts'[j].2| ≤ Y ∧ 0 ≤ pts'[j].1) ∧
    (∀ j (_ : j + 1 < pts.length) (_ : j + 1 < pts'.length), pts[j].1 < pts[j + 1].1 ∧
      pts'[j].1 < pts'[j + 1].1 ∧ pts'[j + 1].1 ≤ κ * (pts'[j + 1].1 - pts'[j].1)) := by
  have hN0 : 0 < N := by omega
  have hNr : (0 : ℝ) < N := by exact_mod_cast hN0
  subst hp hp'
  refine ⟨fun j h h' => ?_, fun j h h' => ?_⟩
  · simp only [List.getElem_map, List.getElem_zip]
    simp only [List.length_map, List.length_zip] at h
    exact ⟨flYears_error hN0 (hbase _ (List.getElem_mem _)) (hr _ (List.getElem_mem _)), trivial,
      hY _ (List.getElem_mem _), years_nonneg hN0 (hbase _ (List.getElem_mem _))⟩
  · simp only [List.getElem_map, List.getElem_zip]
    simp only [List.length_map, List.length_zip] at h
    have hlt := List.pairwise_iff_getElem.1 hms j (j + 1) (by omega) (by omega) (by omega)
    have kf : KeepsOrder (flYears A N s) ms s := flYears_keeps hN (by
      intro e he
      rcases List.mem_cons.1 he with rfl | he
      · rw [(C04_sub_eq_zero e e).2 rfl, abs_zero]; positivity
      · exact hr e he)
    refine ⟨(Fl.lt_iff _ _).1 (kf _ (by simp) _ (by simp) hlt), years_lt hN0 hlt, ?_⟩
    have h := hκ j _ _ (List.getElem?_eq_getElem (by omega)) (List.getElem?_eq_getElem (by omega))
    have e : ((Date.sub ms[j + 1] ms[j] : Int) : ℝ) = (Date.sub ms[j + 1] s : Int) - (Date.sub ms[j] s : Int) := by
      rw [C04_sub_serial, C04_sub_serial, C04_sub_serial]; push_cast; ring
    rw [e] at h
    unfold years
    rw [← sub_div, ← mul_div_assoc]
    exact div_le_div_of_nonneg_right h hNr.le

/-- The rounded times of the maturities increase. -/
theorem rounded_increasing (A : FloatArith) {N : Int} (hN : N = 360 ∨ N = 365) {s : Date} {ms : List Date}
    (hms : ms.Pairwise (· < ·)) (hr : ∀ m ∈ ms, |Date.sub m s| < 2 ^ (A.prec - 1)) (zs : List ℝ) :
    StrictlyIncreasing ((ms.map fun m => (flYears A N s m).val).zip zs) := by
  have kf : KeepsOrder (flYears A N s) ms s := flYears_keeps hN (by
    intro e he
    rcases List.mem_cons.1 he with rfl | he
    · rw [(C04_sub_eq_zero e e).2 rfl, abs_zero]; positivity
    · exact hr e he)
  exact KeepsOrder.increasing (d := s) (f := fun m => (flYears A N s m).val)
    (fun a ha b hb h => (Fl.lt_iff _ _).1 (kf a ha b hb h)) hms

/-- The effect of the rounding of the times on a Catmull-Rom spline, otherwise exact. -/
theorem catmull_shift (A : FloatArith) {N : Int} (hN : N = 360 ∨ N = 365) {s : Date} {ms : List Date} {zs : List ℝ} {κ Y : ℝ}
    (hlen : ms.length = zs.length) (h3 : 3 ≤ ms.length) (hms : ms.Pairwise (· < ·)) (hbase : ∀ m ∈ ms, s ≤ m)
    (hκ : GapRatio s ms κ) (hκu : 16 * unitRoundoff A * κ ≤ 1) (hY : ∀ z ∈ zs, |z| ≤ Y)
    (hr : ∀ m ∈ ms, |Date.sub m s| < 2 ^ (A.prec - 1)) :
    1 ≤ κ ∧ 0 ≤ Y ∧ ∀ d, |Date.sub d s| < 2 ^ (A.prec - 1) → ∀ i (hi : i + 1 < ms.length), ms[i] ≤ d → d ≤ ms[i + 1] →
      ∃ w w', evaluate (Interpolator.catmullRom ℝ) ((ms.map fun m => (flYears A N s m).val).zip zs) (flYears A N s d).val =
          .ok (.ok w) ∧
        evaluate (Interpolator.catmullRom ℝ) ((ms.map (years N s)).zip zs) (years N s d) = .ok (.ok w') ∧
        |w - w'| ≤ 274 * κ * unitRoundoff A * Y ∧ |w'| ≤ 2 * Y := by
  have hN0 : 0 < N := by omega
  have hu := A.unit_pos
  have hspts := rounded_increasing A hN hms hr zs
  have hs' := years_increasing hN0 (s := s) hms zs
  generalize hp : (ms.map fun m => (flYears A N s m).val).zip zs = pts at *
  generalize hp' : (ms.map (years N s)).zip zs = pts' at *
  obtain ⟨hx, hg⟩ := pillars_near A hN hlen hms hbase hκ hY hr hp.symm hp'.symm
  have hl : pts.length = ms.length := by rw [← hp]; simp [hlen]
  have hl' : pts'.length = ms.length := by rw [← hp']; simp [hlen]
  have hY0 : 0 ≤ Y := le_trans (abs_nonneg _) (hx 0 (by omega) (by omega)).2.2.1
  have hκ1 : 1 ≤ κ := by
    obtain ⟨-, g2, g3⟩ := hg 0 (by omega) (by omega)
    have n0 := (hx 0 (by omega) (by omega)).2.2.2
    by_contra hn
    have := mul_lt_mul_of_pos_right (not_le.1 hn) (sub_pos.2 g2)
    linarith
  refine ⟨hκ1, hY0, fun d hd i hi h0 h1 => ?_⟩
  have kf : KeepsOrder (flYears A N s) ms d := flYears_keeps hN (by
    intro e he
    rcases List.mem_cons.1 he with rfl | he
    · exact hd
    · exact hr e he)
  have kr : KeepsOrder (years N s) ms d := years_keeps hN0
  have hcov : Covers ms d := ⟨⟨_, List.getElem_mem _, h0⟩, ⟨_, List.getElem_mem _, h1⟩⟩
  have mono : ∀ a ∈ d :: ms, ∀ b ∈ d :: ms, a ≤ b → (flYears A N s a).val ≤ (flYears A N s b).val := by
    intro a ha b hb hab
    rcases eq_or_lt_of_le hab with rfl | hab
    · exact le_refl _
    · exact ((Fl.lt_iff _ _).1 (kf a ha b hb hab)).le
  have x0 : pts[i].1 = (flYears A N s ms[i]).val := by simp [← hp]
  have x1 : pts[i + 1].1 = (flYears A N s ms[i + 1]).val := by simp [← hp]
  have a0 : pts'[i].1 = years N s ms[i] := by simp [← hp']
  have a1 : pts'[i + 1].1 = years N s ms[i + 1] := by simp [← hp']
  have b0 : pts[i].1 ≤ (flYears A N s d).val := by rw [x0]; exact mono _ (by simp) _ (by simp) h0
  have b1 : (flYears A N s d).val ≤ pts[i + 1].1 := by rw [x1]; exact mono _ (by simp) _ (by simp) h1
  have c0 : pts'[i].1 ≤ years N s d := by rw [a0]; exact years_le hN0 h0
  have c1 : years N s d ≤ pts'[i + 1].1 := by rw [a1]; exact years_le hN0 h1
  have hw := catmullRom_segment hspts (by omega) (i := i) (by omega) b0 b1
  have hseg := catmullRom_segment hs' (by omega) (i := i) (by omega) c0 c1
  obtain ⟨w', hw', hB⟩ := C95_catmull_rom_magnitude pts' hs' (by omega) (years N s d) (by
    rw [← hp']; exact (kr.inRange hlen).2 hcov) Y (by
    intro p hpm
    obtain ⟨j, hj, rfl⟩ := List.getElem_of_mem hpm
    exact (hx j (by omega) hj).2.2.1)
  have hsh := crSegment_shift hu hκu (pts := pts) (pts' := pts') (i := i) (by omega) (by omega) (by omega) (by omega)
    (by omega) hx hg (flYears_error hN0 ((hbase _ (List.getElem_mem _)).trans h0) hd) b0 b1 c0 c1
  refine ⟨_, w', hw, hw', ?_, hB⟩
  rw [hseg] at hw'
  have hw' : crSegment pts' i (by omega) (by omega) (years N s d) = w' := by simpa using hw'
  rwa [hw'] at hsh

/-- The pillars of a curve in floating point, as real numbers. -/
theorem pillars_val (A : FloatArith) {N : Int} {s : Date} {ms : List Date} {ys : List (Fl A)} :
    (((ms.map (flYears A N s)).zip ys).map fun p => (p.1.val, p.2.val)) =
      (ms.map fun m => (flYears A N s m).val).zip (ys.map Fl.val) := by
  have e : (ms.map fun m => (flYears A N s m).val) = (ms.map (flYears A N s)).map Fl.val := by rw [List.map_map]; rfl
  rw [e, List.zip_map]
  rfl

/-- The yields on a Catmull-Rom spline. -/
theorem catmull_yields {N : Int} (hN : N = 360 ∨ N = 365) {s : Date} {ms : List Date} {ys : List (Fl A)} {κ Y : ℝ}
    (hlen : ms.length = ys.length) (h3 : 3 ≤ ms.length) (hms : ms.Pairwise (· < ·)) (hbase : ∀ m ∈ ms, s ≤ m)
    (hκ : GapRatio s ms κ) (hκu : 16 * unitRoundoff A * κ ≤ 1) (hY : ∀ y ∈ ys, |y.val| ≤ Y)
    (hr : ∀ m ∈ ms, |Date.sub m s| < 2 ^ (A.prec - 1)) :
    1 ≤ κ ∧ 0 ≤ Y ∧ YieldsNear A (Interpolator.catmullRom (Fl A)) (Interpolator.catmullRom ℝ) N s ms ys
      (704 * κ * unitRoundoff A * Y) (2 * Y) := by
  have hu := A.unit_pos
  obtain ⟨hκ1, hY0, hsh⟩ := catmull_shift A hN (zs := ys.map Fl.val) (by simpa using hlen) h3 hms hbase hκ hκu
    (by simpa using hY) hr
  refine ⟨hκ1, hY0, yieldsNear_of hN (.inr (.inl ⟨rfl, rfl, rfl⟩)) hlen h3 hms hr fun d hd i hi h0 h1 => ?_⟩
  have kf : KeepsOrder (flYears A N s) ms d := flYears_keeps hN (by
    intro e he
    rcases List.mem_cons.1 he with rfl | he
    · exact hd
    · exact hr e he)
  have hcov : Covers ms d := ⟨⟨_, List.getElem_mem _, h0⟩, ⟨_, List.getElem_mem _, h1⟩⟩
  obtain ⟨v, w, hv, hw, he⟩ := C78_catmull_rom _ (flYears_increasing (A := A) hN (s := s) hms hr ys) (by simp; omega)
    (flYears A N s d) ((kf.inRange hlen).2 hcov) Y (by
    rintro ⟨a, b⟩ hab
    exact hY b (List.of_mem_zip hab).2)
  rw [pillars_val] at hw
  obtain ⟨w₁, w', e1, e2, e3, hB⟩ := hsh d hd i hi h0 h1
  rw [hw] at e1
  obtain rfl : w = w₁ := by simpa using e1
  refine ⟨v, w', hv, e2, ?_, hB⟩
  have := abs_add_le (v.val - w) (w - w')
  rw [sub_add_sub_cancel] at this
  have hle : unitRoundoff A * Y ≤ κ * (unitRoundoff A * Y) := le_mul_of_one_le_left (by positivity) hκ1
  linarith

/-- **C97.** From market data to discount factor with a Catmull-Rom spline.  Where the exact discount factor `v` exists so
does the floating-point one, and it is within a factor `1 ± ε` (the accuracy of `exp`) times `exp (± δ)` of `v`, with
`δ = 725 κ u Y (t1 + t2)`: `u` the unit roundoff, `Y` a bound on the yields, `t1`, `t2` the times to the two dates, and `κ`
how many times further a maturity lies from settlement than from the maturity before it. -/
theorem C97_catmull_rom_discount {D : DayCount (Fl A)} {E : DayCount ℝ} {N : Int} (hD : IsActualDayCount D N)
    (hE : IsActualDayCount E N) (s : Date) (ms : List Date) (ys : List (Fl A)) (κ Y ε : ℝ) (hε : ExpWithin A ε)
    (hε0 : 0 ≤ ε) (hε1 : ε ≤ 1) (hlen : ms.length = ys.length) (h3 : 3 ≤ ms.length) (hms : ms.Pairwise (· < ·))
    (hbase : ∀ m ∈ ms, s ≤ m) (hκ : GapRatio s ms κ) (hκu : 16 * unitRoundoff A * κ ≤ 1) (hY : ∀ y ∈ ys, |y.val| ≤ Y)
    (d1 d2 : Date) (hr : ∀ d ∈ d1 :: d2 :: ms, |Date.sub d s| < 2 ^ (A.prec - 1)) (v : ℝ)
    (h : curveDiscount E (Interpolator.catmullRom ℝ) s ms (ys.map Fl.val) d1 d2 = .ok (.ok v)) :
    ∃ w δ, curveDiscount D (Interpolator.catmullRom (Fl A)) s ms ys d1 d2 = .ok (.ok w) ∧
      δ = 725 * κ * unitRoundoff A * Y * (years N s d1 + years N s d2) ∧
      (1 - ε) * Real.exp (-δ) * v ≤ w.val ∧ w.val ≤ (1 + ε) * Real.exp δ * v := by
  have hN : N = 360 ∨ N = 365 := by rcases hD with ⟨-, h⟩ | ⟨-, h⟩ <;> simp [h]
  have hN0 : 0 < N := by omega
  have hu := A.unit_pos
  obtain ⟨hκ1, hY0, hy⟩ := catmull_yields (A := A) hN hlen h3 hms hbase hκ hκu hY (fun m hm => hr m (by simp [hm]))
  obtain ⟨c, c', hc, hc', hall⟩ := near_discounts hD hE (.inr (.inl ⟨rfl, rfl, rfl⟩)) hε hε0 hε1 hlen h3 hms
    (fun m hm => hr m (by simp [hm])) hy
  unfold curveDiscount at h ⊢
  rw [hc'] at h
  rw [hc]
  simp only [Rust.ok_bind] at h ⊢
  rcases hall d1 d2 (hr _ (by simp)) (hr _ (by simp)) with ⟨e, -, h'⟩ | ⟨w, v', h1, h2, hs1, hs2, -, hv0, h4, h5⟩
  · rw [h'] at h; simp at h
  · rw [h2] at h
    obtain rfl : v' = v := by simpa using h
    have t1 := years_nonneg hN0 hs1
    have t2 := years_nonneg hN0 (hs1.trans hs2)
    have hle : unitRoundoff A * Y ≤ κ * (unitRoundoff A * Y) := le_mul_of_one_le_left (by positivity) hκ1
    have hδ : (1.01 * (704 * κ * unitRoundoff A * Y) + 5 * unitRoundoff A * (2 * Y)) * (years N s d1 + years N s d2) ≤
        725 * κ * unitRoundoff A * Y * (years N s d1 + years N s d2) :=
      mul_le_mul_of_nonneg_right (by nlinarith [mul_nonneg hu.le hY0]) (by linarith)
    refine ⟨w, _, h1, rfl, ?_, ?_⟩
    · exact le_trans (mul_le_mul_of_nonneg_right (mul_le_mul_of_nonneg_left (Real.exp_le_exp.2 (neg_le_neg hδ))
        (by linarith)) hv0.le) h4
    · exact le_trans h5 (mul_le_mul_of_nonneg_right (mul_le_mul_of_nonneg_left (Real.exp_le_exp.2 hδ)
        (by linarith)) hv0.le)

/-- **C97.** From market data to price with a Catmull-Rom spline: the floating-point price is within `X / (1 - X)` of the
exact one, relative to it, with `X = (n + 11) u + ε + 1450 κ u Y T` below 1; `n` counts the remaining flows, `T` bounds the
times to the maturities. -/
theorem C97_catmull_rom_price {D : DayCount (Fl A)} {E : DayCount ℝ} {N : Int} (hD : IsActualDayCount D N)
    (hE : IsActualDayCount E N) (cs : Date) (ms : List Date) (ys : List (Fl A)) (κ Y T ε : ℝ) (hε : ExpWithin A ε)
    (hε0 : 0 ≤ ε) (hlen : ms.length = ys.length) (h3 : 3 ≤ ms.length) (hms : ms.Pairwise (· < ·))
    (hbase : ∀ m ∈ ms, cs ≤ m) (hκ : GapRatio cs ms κ) (hκu : 16 * unitRoundoff A * κ ≤ 1)
    (hY : ∀ y ∈ ys, |y.val| ≤ Y) (hT : ∀ m ∈ ms, years N cs m ≤ T) (id : String) (issue first pen mat : Date)
    (f : Frequency) (rate face : Fl A) (b : Bond (Fl A)) (b' : Bond ℝ) (s : Date)
    (hb : Bond.new id issue first pen mat f rate face = .ok (some b))
    (hb' : Bond.new id issue first pen mat f rate.val face.val = .ok (some b')) (hi : issue < first) (hm : pen < mat)
    (hr0 : 0 ≤ rate) (hf0 : 0 ≤ face)
    (hr : ∀ d ∈ s :: ms ++ b.bondCashFlows.map (·.paymentDate), |Date.sub d cs| < 2 ^ (A.prec - 1)) (v : ℝ)
    (h : curvePrice E (Interpolator.catmullRom ℝ) cs ms (ys.map Fl.val) b' s = .ok (.ok v)) (X : ℝ)
    (hX : X = ((remaining b s).length + 11) * unitRoundoff A + ε + 1450 * κ * unitRoundoff A * Y * T) (hX1 : X < 1) :
    ∃ w, curvePrice D (Interpolator.catmullRom (Fl A)) cs ms ys b s = .ok (.ok w) ∧ 0 ≤ v ∧
      |w.val - v| ≤ X / (1 - X) * v := by
  have hN : N = 360 ∨ N = 365 := by rcases hD with ⟨-, h⟩ | ⟨-, h⟩ <;> simp [h]
  have hu := A.unit_pos
  obtain ⟨hκ1, hY0, hy⟩ := catmull_yields (A := A) hN hlen h3 hms hbase hκ hκu hY (fun m hm => hr m (by simp [hm]))
  have hle : unitRoundoff A * Y ≤ κ * (unitRoundoff A * Y) := le_mul_of_one_le_left (by positivity) hκ1
  exact near_prices_relative hD hE (.inr (.inl ⟨rfl, rfl, rfl⟩)) hε hε0 hlen h3 hms hy (by positivity) (by linarith) hbase hT
    (δ := 1450 * κ * unitRoundoff A * Y) (by nlinarith [mul_nonneg hu.le hY0]) hb hb' hi hm hr0 hf0 hr h hX hX1

/-- The effect of the rounding of the times on a natural cubic spline, otherwise exact. -/
theorem natural_shift (A : FloatArith) {N : Int} (hN : N = 360 ∨ N = 365) {s : Date} {ms : List Date} {zs : List ℝ}
    {κ Y h H : ℝ} (hlen : ms.length = zs.length) (h3 : 3 ≤ ms.length) (hms : ms.Pairwise (· < ·)) (hbase : ∀ m ∈ ms, s ≤ m)
    (hκ : GapRatio s ms κ) (hκu : 200 * unitRoundoff A * κ ≤ 1) (hY : ∀ z ∈ zs, |z| ≤ Y) (hh : 0 < h)
    (hd : DaysApart ms h H) (hr : ∀ m ∈ ms, |Date.sub m s| < 2 ^ (A.prec - 1)) :
    1 ≤ κ ∧ 0 ≤ Y ∧ 1 ≤ (H / h) ^ 2 ∧
    (∀ j (hj : j + 1 < ms.length), 0.99 * (h / N) ≤ (flYears A N s ms[j + 1]).val - (flYears A N s ms[j]).val ∧
      (flYears A N s ms[j + 1]).val - (flYears A N s ms[j]).val ≤ 1.01 * (H / N)) ∧
    ∀ d, |Date.sub d s| < 2 ^ (A.prec - 1) → ∀ i (hi : i + 1 < ms.length), ms[i] ≤ d → d ≤ ms[i + 1] →
      ∃ w w', evaluate (Interpolator.naturalCubic ℝ) ((ms.map fun m => (flYears A N s m).val).zip zs)
          (flYears A N s d).val = .ok (.ok w) ∧
        evaluate (Interpolator.naturalCubic ℝ) ((ms.map (years N s)).zip zs) (years N s d) = .ok (.ok w') ∧
        |w - w'| ≤ 214 * κ * unitRoundoff A * Y * (H / h) ^ 2 ∧ |w'| ≤ (1 + 12 / 5 * (H / h) ^ 2) * Y := by
  have hN0 : 0 < N := by omega
  have hNr : (0 : ℝ) < N := by exact_mod_cast hN0
  have hu := A.unit_pos
  have hspts := rounded_increasing A hN hms hr zs
  have hs' := years_increasing hN0 (s := s) hms zs
  generalize hp : (ms.map fun m => (flYears A N s m).val).zip zs = pts at *
  generalize hp' : (ms.map (years N s)).zip zs = pts' at *
  obtain ⟨hx, hg⟩ := pillars_near A hN hlen hms hbase hκ hY hr hp.symm hp'.symm
  have hl : pts.length = ms.length := by rw [← hp]; simp [hlen]
  have hl' : pts'.length = ms.length := by rw [← hp']; simp [hlen]
  have hY0 : 0 ≤ Y := le_trans (abs_nonneg _) (hx 0 (by omega) (by omega)).2.2.1
  have hκ1 : 1 ≤ κ := by
    obtain ⟨-, g2, g3⟩ := hg 0 (by omega) (by omega)
    have n0 := (hx 0 (by omega) (by omega)).2.2.2
    by_contra hn
    have := mul_lt_mul_of_pos_right (not_le.1 hn) (sub_pos.2 g2)
    linarith
  have hgaps : ∀ j (hj : j + 1 < pts'.length), h / N ≤ pts'[j + 1].1 - pts'[j].1 ∧ pts'[j + 1].1 - pts'[j].1 ≤ H / N := by
    intro j hj
    have a0 : pts'[j].1 = years N s (ms[j]'(by omega)) := by simp [← hp']
    have a1 : pts'[j + 1].1 = years N s (ms[j + 1]'(by omega)) := by simp [← hp']
    obtain ⟨q1, q2⟩ := hd j _ _ (List.getElem?_eq_getElem (by omega)) (List.getElem?_eq_getElem (by omega))
    have e : ((Date.sub (ms[j + 1]'(by omega)) (ms[j]'(by omega)) : Int) : ℝ) =
        (Date.sub (ms[j + 1]'(by omega)) s : Int) - (Date.sub (ms[j]'(by omega)) s : Int) := by
      rw [C04_sub_serial, C04_sub_serial, C04_sub_serial]; push_cast; ring
    rw [e] at q1 q2
    rw [a0, a1]
    unfold years
    rw [← sub_div]
    exact ⟨div_le_div_of_nonneg_right q1 hNr.le, div_le_div_of_nonneg_right q2 hNr.le⟩
  have hgs : ∀ j (hj : j + 1 < pts.length) (hj' : j + 1 < pts'.length),
      |(pts[j + 1].1 - pts[j].1) - (pts'[j + 1].1 - pts'[j].1)| ≤ 2 * unitRoundoff A * κ * (pts'[j + 1].1 - pts'[j].1) := by
    intro j hj hj'
    have e1 := (hx (j + 1) hj hj').1
    have e0 := (hx j (by omega) (by omega)).1
    obtain ⟨-, g2, g3⟩ := hg j hj hj'
    have e3 : (pts[j + 1].1 - pts[j].1) - (pts'[j + 1].1 - pts'[j].1) =
        (pts[j + 1].1 - pts'[j + 1].1) - (pts[j].1 - pts'[j].1) := by ring
    rw [e3]
    refine le_trans (abs_sub _ _) ?_
    have f1 := mul_le_mul_of_nonneg_left g2.le hu.le
    have f2 := mul_le_mul_of_nonneg_left g3 hu.le
    linarith
  have hhN : 0 < h / N := by positivity
  have hgap' : ∀ j (hj : j + 1 < ms.length), 0.99 * (h / N) ≤ (flYears A N s ms[j + 1]).val - (flYears A N s ms[j]).val ∧
      (flYears A N s ms[j + 1]).val - (flYears A N s ms[j]).val ≤ 1.01 * (H / N) := by
    intro j hj
    have hθ1 : 2 * unitRoundoff A * κ ≤ 1 / 100 := by linarith
    have e := hgs j (by omega) (by omega)
    have g := hgaps j (by omega)
    have x0 : pts[j].1 = (flYears A N s ms[j]).val := by simp [← hp]
    have x1 : pts[j + 1].1 = (flYears A N s ms[j + 1]).val := by simp [← hp]
    rw [x0, x1] at e
    obtain ⟨e1, e2⟩ := abs_le.1 e
    have m := mul_le_mul_of_nonneg_right hθ1 (show 0 ≤ pts'[j + 1].1 - pts'[j].1 by linarith [g.1])
    constructor <;> linarith [g.1, g.2]
  have hHh : H / N / (h / N) = H / h := by field_simp
  have hHH : 1 ≤ H / h := by
    have := hgaps 0 (by omega)
    rw [← hHh, le_div_iff₀ hhN]
    linarith [this.1, this.2]
  have hsq : 1 ≤ (H / h) ^ 2 := one_le_pow₀ hHH
  refine ⟨hκ1, hY0, hsq, hgap', fun d hd i hi h0 h1 => ?_⟩
  set θ := 2 * unitRoundoff A * κ with hθd
  have hθ : 0 ≤ θ := by positivity
  have hθ1 : θ ≤ 1 / 100 := by linarith
  have kf : KeepsOrder (flYears A N s) ms d := flYears_keeps hN (by
    intro e he
    rcases List.mem_cons.1 he with rfl | he
    · exact hd
    · exact hr e he)
  have kr : KeepsOrder (years N s) ms d := years_keeps hN0
  have hcov : Covers ms d := ⟨⟨_, List.getElem_mem _, h0⟩, ⟨_, List.getElem_mem _, h1⟩⟩
  have mono : ∀ a ∈ d :: ms, ∀ b ∈ d :: ms, a ≤ b → (flYears A N s a).val ≤ (flYears A N s b).val := by
    intro a ha b hb hab
    rcases eq_or_lt_of_le hab with rfl | hab
    · exact le_refl _
    · exact ((Fl.lt_iff _ _).1 (kf a ha b hb hab)).le
  have x0 : pts[i].1 = (flYears A N s ms[i]).val := by simp [← hp]
  have x1 : pts[i + 1].1 = (flYears A N s ms[i + 1]).val := by simp [← hp]
  have a0 : pts'[i].1 = years N s ms[i] := by simp [← hp']
  have a1 : pts'[i + 1].1 = years N s ms[i + 1] := by simp [← hp']
  have b0 : pts[i].1 ≤ (flYears A N s d).val := by rw [x0]; exact mono _ (by simp) _ (by simp) h0
  have b1 : (flYears A N s d).val ≤ pts[i + 1].1 := by rw [x1]; exact mono _ (by simp) _ (by simp) h1
  have c0 : pts'[i].1 ≤ years N s d := by rw [a0]; exact years_le hN0 h0
  have c1 : years N s d ≤ pts'[i + 1].1 := by rw [a1]; exact years_le hN0 h1
  obtain ⟨w', hw', hB⟩ := C95_natural_cubic_magnitude pts' hs' (by omega) (years N s d) (by
    rw [← hp']; exact (kr.inRange hlen).2 hcov) Y (h / N) (H / N) (by
    intro p hpm
    obtain ⟨j, hj, rfl⟩ := List.getElem_of_mem hpm
    exact (hx j (by omega) hj).2.2.1) hhN hgaps
  rw [hHh] at hB
  have hde := flYears_error hN0 ((hbase _ (List.getElem_mem _)).trans h0) hd
  have hrat := ratio_error hu (by nlinarith [mul_pos hu (lt_of_lt_of_le one_pos hκ1)])
    (hx i (by omega) (by omega)).2.2.2 c0 c1 (hg i (by omega) (by omega)).2.1 (hg i (by omega) (by omega)).2.2
    (hx i (by omega) (by omega)).1 (hx (i + 1) (by omega) (by omega)).1 hde
  obtain ⟨w, hw⟩ := shipped_inside (fun n => (n : ℝ)) ExactCast.fromInt_eq (.inr (.inr ⟨rfl, rfl⟩)) hspts
    (show 3 ≤ pts.length by omega) (x := (flYears A N s d).val)
    ⟨⟨_, List.getElem_mem (show i < pts.length by omega), b0⟩, ⟨_, List.getElem_mem (show i + 1 < pts.length by omega), b1⟩⟩
  refine ⟨w, w', hw, hw', ?_, hB⟩
  have hsh : |w - w'| ≤ 107 * θ * Y * (H / h) ^ 2 := by
    rw [← hHh]
    exact NaturalCubic.evaluate_shift hθ hθ1 hhN hspts hs' (by omega) (by omega) hgaps hgs
      (fun k hk hk' => ⟨(hx k hk hk').2.1, (hx k hk hk').2.2.1⟩) (i := i) (by omega) (by omega) b0 b1 c0 c1 (by linarith)
      hw hw'
  refine hsh.trans (le_of_eq ?_)
  rw [hθd]
  ring

theorem rounded_ratio {N : Int} (hN : (0 : ℝ) < N) {h H : ℝ} (hh : 0 < h) :
    (1.01 * (H / N) / (0.99 * (h / N))) ^ 2 ≤ 1.041 * (H / h) ^ 2 := by
  have e : 1.01 * (H / N) / (0.99 * (h / N)) = 1.01 / 0.99 * (H / h) := by field_simp
  rw [e, mul_pow]
  exact mul_le_mul_of_nonneg_right (by norm_num) (by positivity)

/-- The yields on a natural cubic spline. -/
theorem natural_yields {N : Int} (hN : N = 360 ∨ N = 365) {s : Date} {ms : List Date} {ys : List (Fl A)} {κ Y h H : ℝ}
    (hlen : ms.length = ys.length) (h3 : 3 ≤ ms.length) (hms : ms.Pairwise (· < ·)) (hbase : ∀ m ∈ ms, s ≤ m)
    (hκ : GapRatio s ms κ) (hκu : 200 * unitRoundoff A * κ ≤ 1) (hY : ∀ y ∈ ys, |y.val| ≤ Y) (hh : 0 < h)
    (hd : DaysApart ms h H) (hr : ∀ m ∈ ms, |Date.sub m s| < 2 ^ (A.prec - 1)) :
    1 ≤ κ ∧ 0 ≤ Y ∧ 1 ≤ (H / h) ^ 2 ∧
    YieldsNear A (Interpolator.naturalCubic (Fl A)) (Interpolator.naturalCubic ℝ) N s ms ys
      (2725 * κ * unitRoundoff A * Y * (H / h) ^ 2) ((1 + 12 / 5 * (H / h) ^ 2) * Y) := by
  have hN0 : 0 < N := by omega
  have hNr : (0 : ℝ) < N := by exact_mod_cast hN0
  have hu := A.unit_pos
  obtain ⟨hκ1, hY0, hsq, hgap, hsh⟩ := natural_shift A hN (zs := ys.map Fl.val) (by simpa using hlen) h3 hms hbase hκ hκu
    (by simpa using hY) hh hd hr
  refine ⟨hκ1, hY0, hsq, yieldsNear_of hN (.inr (.inr ⟨rfl, rfl, rfl⟩)) hlen h3 hms hr fun d hd i hi h0 h1 => ?_⟩
  have kf : KeepsOrder (flYears A N s) ms d := flYears_keeps hN (by
    intro e he
    rcases List.mem_cons.1 he with rfl | he
    · exact hd
    · exact hr e he)
  have hcov : Covers ms d := ⟨⟨_, List.getElem_mem _, h0⟩, ⟨_, List.getElem_mem _, h1⟩⟩
  obtain ⟨v, w, hv, hw, he⟩ := C94_natural_cubic _ (flYears_increasing (A := A) hN (s := s) hms hr ys) (by simp; omega)
    (flYears A N s d) ((kf.inRange hlen).2 hcov) Y (0.99 * (h / N)) (1.01 * (H / N)) (by
    rintro ⟨a, b⟩ hab
    exact hY b (List.of_mem_zip hab).2) (by positivity) (by
    intro j hj
    have hj2 : j + 1 < ms.length := by simpa [hlen] using hj
    simp only [List.getElem_zip, List.getElem_map]
    exact hgap j hj2)
  rw [pillars_val] at hw
  obtain ⟨w₁, w', e1, e2, e3, hB⟩ := hsh d hd i hi h0 h1
  rw [hw] at e1
  obtain rfl : w = w₁ := by simpa using e1
  refine ⟨v, w', hv, e2, ?_, hB⟩
  have hfac := rounded_ratio hNr hh (H := H)
  have t1 := mul_le_mul_of_nonneg_left hfac (show 0 ≤ 2410 * unitRoundoff A * Y by positivity)
  have t2 := abs_add_le (v.val - w) (w - w')
  rw [sub_add_sub_cancel] at t2
  have t3 : unitRoundoff A * Y * (H / h) ^ 2 ≤ κ * (unitRoundoff A * Y * (H / h) ^ 2) :=
    le_mul_of_one_le_left (by positivity) hκ1
  have t5 : 0 ≤ unitRoundoff A * Y * (H / h) ^ 2 := by positivity
  linarith

theorem natural_exponent {κ u Y Q : ℝ} (hκ1 : 1 ≤ κ) (hu : 0 < u) (hY : 0 ≤ Y) (hQ : 1 ≤ Q) :
    1.01 * (2725 * κ * u * Y * Q) + 5 * u * ((1 + 12 / 5 * Q) * Y) ≤ 2800 * κ * u * Y * Q := by
  have h0 : 0 ≤ u * Y := by positivity
  have h1 : u * Y ≤ u * Y * Q := le_mul_of_one_le_right h0 hQ
  have h2 : u * Y * Q ≤ κ * (u * Y * Q) := le_mul_of_one_le_left (by linarith) hκ1
  linarith

/-- **C97.** From market data to discount factor with a natural cubic spline: as for Catmull-Rom, with
`δ = 2800 κ u Y (H / h)² (t1 + t2)`, where neighbouring maturities are between `h` and `H` days apart. -/
theorem C97_natural_cubic_discount {D : DayCount (Fl A)} {E : DayCount ℝ} {N : Int} (hD : IsActualDayCount D N)
    (hE : IsActualDayCount E N) (s : Date) (ms : List Date) (ys : List (Fl A)) (κ Y h H ε : ℝ) (hε : ExpWithin A ε)
    (hε0 : 0 ≤ ε) (hε1 : ε ≤ 1) (hlen : ms.length = ys.length) (h3 : 3 ≤ ms.length) (hms : ms.Pairwise (· < ·))
    (hbase : ∀ m ∈ ms, s ≤ m) (hκ : GapRatio s ms κ) (hκu : 200 * unitRoundoff A * κ ≤ 1) (hY : ∀ y ∈ ys, |y.val| ≤ Y)
    (hh : 0 < h) (hd : DaysApart ms h H)
    (d1 d2 : Date) (hr : ∀ d ∈ d1 :: d2 :: ms, |Date.sub d s| < 2 ^ (A.prec - 1)) (v : ℝ)
    (hv : curveDiscount E (Interpolator.naturalCubic ℝ) s ms (ys.map Fl.val) d1 d2 = .ok (.ok v)) :
    ∃ w δ, curveDiscount D (Interpolator.naturalCubic (Fl A)) s ms ys d1 d2 = .ok (.ok w) ∧
      δ = 2800 * κ * unitRoundoff A * Y * (H / h) ^ 2 * (years N s d1 + years N s d2) ∧
      (1 - ε) * Real.exp (-δ) * v ≤ w.val ∧ w.val ≤ (1 + ε) * Real.exp δ * v := by
  have hN : N = 360 ∨ N = 365 := by rcases hD with ⟨-, h⟩ | ⟨-, h⟩ <;> simp [h]
  have hN0 : 0 < N := by omega
  have hu := A.unit_pos
  obtain ⟨hκ1, hY0, hsq, hy⟩ := natural_yields (A := A) hN hlen h3 hms hbase hκ hκu hY hh hd
    (fun m hm => hr m (by simp [hm]))
  obtain ⟨c, c', hc, hc', hall⟩ := near_discounts hD hE (.inr (.inr ⟨rfl, rfl, rfl⟩)) hε hε0 hε1 hlen h3 hms
    (fun m hm => hr m (by simp [hm])) hy
  unfold curveDiscount at hv ⊢
  rw [hc'] at hv
  rw [hc]
  simp only [Rust.ok_bind] at hv ⊢
  rcases hall d1 d2 (hr _ (by simp)) (hr _ (by simp)) with ⟨e, -, h'⟩ | ⟨w, v', h1, h2, hs1, hs2, -, hv0, h4, h5⟩
  · rw [h'] at hv; simp at hv
  · rw [h2] at hv
    obtain rfl : v' = v := by simpa using hv
    have t1 := years_nonneg hN0 hs1
    have t2 := years_nonneg hN0 (hs1.trans hs2)
    have hδ : (1.01 * (2725 * κ * unitRoundoff A * Y * (H / h) ^ 2) +
        5 * unitRoundoff A * ((1 + 12 / 5 * (H / h) ^ 2) * Y)) * (years N s d1 + years N s d2) ≤
        2800 * κ * unitRoundoff A * Y * (H / h) ^ 2 * (years N s d1 + years N s d2) :=
      mul_le_mul_of_nonneg_right (natural_exponent hκ1 hu hY0 hsq) (by linarith)
    refine ⟨w, _, h1, rfl, ?_, ?_⟩
    · exact le_trans (mul_le_mul_of_nonneg_right (mul_le_mul_of_nonneg_left (Real.exp_le_exp.2 (neg_le_neg hδ))
        (by linarith)) hv0.le) h4
    · exact le_trans h5 (mul_le_mul_of_nonneg_right (mul_le_mul_of_nonneg_left (Real.exp_le_exp.2 hδ)
        (by linarith)) hv0.le)

/-- **C97.** From market data to price with a natural cubic spline: as for Catmull-Rom, with
`X = (n + 11) u + ε + 5600 κ u Y (H / h)² T`. -/
theorem C97_natural_cubic_price {D : DayCount (Fl A)} {E : DayCount ℝ} {N : Int} (hD : IsActualDayCount D N)
    (hE : IsActualDayCount E N) (cs : Date) (ms : List Date) (ys : List (Fl A)) (κ Y T h H ε : ℝ) (hε : ExpWithin A ε)
    (hε0 : 0 ≤ ε) (hlen : ms.length = ys.length) (h3 : 3 ≤ ms.length) (hms : ms.Pairwise (· < ·))
    (hbase : ∀ m ∈ ms, cs ≤ m) (hκ : GapRatio cs ms κ) (hκu : 200 * unitRoundoff A * κ ≤ 1)
    (hY : ∀ y ∈ ys, |y.val| ≤ Y) (hh : 0 < h) (hd : DaysApart ms h H) (hT : ∀ m ∈ ms, years N cs m ≤ T) (id : String)
    (issue first pen mat : Date) (f : Frequency) (rate face : Fl A) (b : Bond (Fl A)) (b' : Bond ℝ) (s : Date)
    (hb : Bond.new id issue first pen mat f rate face = .ok (some b))
    (hb' : Bond.new id issue first pen mat f rate.val face.val = .ok (some b')) (hi : issue < first) (hm : pen < mat)
    (hr0 : 0 ≤ rate) (hf0 : 0 ≤ face)
    (hr : ∀ d ∈ s :: ms ++ b.bondCashFlows.map (·.paymentDate), |Date.sub d cs| < 2 ^ (A.prec - 1)) (v : ℝ)
    (hv : curvePrice E (Interpolator.naturalCubic ℝ) cs ms (ys.map Fl.val) b' s = .ok (.ok v)) (X : ℝ)
    (hX : X = ((remaining b s).length + 11) * unitRoundoff A + ε + 5600 * κ * unitRoundoff A * Y * (H / h) ^ 2 * T)
    (hX1 : X < 1) :
    ∃ w, curvePrice D (Interpolator.naturalCubic (Fl A)) cs ms ys b s = .ok (.ok w) ∧ 0 ≤ v ∧
      |w.val - v| ≤ X / (1 - X) * v := by
  have hN : N = 360 ∨ N = 365 := by rcases hD with ⟨-, h⟩ | ⟨-, h⟩ <;> simp [h]
  have hu := A.unit_pos
  obtain ⟨hκ1, hY0, hsq, hy⟩ := natural_yields (A := A) hN hlen h3 hms hbase hκ hκu hY hh hd
    (fun m hm => hr m (by simp [hm]))
  exact near_prices_relative hD hE (.inr (.inr ⟨rfl, rfl, rfl⟩)) hε hε0 hlen h3 hms hy (by positivity) (by positivity)
    hbase hT (δ := 5600 * κ * unitRoundoff A * Y * (H / h) ^ 2)
    (by have := natural_exponent hκ1 hu hY0 hsq; linarith) hb hb' hi hm hr0 hf0 hr hv hX hX1

/-! ## A curve in `f64` with maturities after 0, 1 and 2 years and yields 1, 2 and 1 -/

/-- The maturities. -/
def pillarDates : List Date := [⟨2024, 7, 1, by decide⟩, ⟨2025, 7, 1, by decide⟩, ⟨2026, 7, 1, by decide⟩]

/-- The yields. -/
noncomputable def pillarYields : List (Fl Binary.f64) := [i64 1, i64 2, i64 1]

theorem pillarYields_val : pillarYields.map Fl.val = [1, 2, 1] := by
  have e1 : (i64 1).val = 1 := by rw [i64_val _ (by decide)]; norm_num
  have e2 : (i64 2).val = 2 := by rw [i64_val _ (by decide)]; norm_num
  simp [pillarYields, e1, e2]

theorem pillarYields_le : ∀ y ∈ pillarYields, |y.val| ≤ 2 := by
  have e1 : (i64 1).val = 1 := by rw [i64_val _ (by decide)]; norm_num
  have e2 : (i64 2).val = 2 := by rw [i64_val _ (by decide)]; norm_num
  intro y hy
  simp only [pillarYields, List.mem_cons, List.not_mem_nil, or_false] at hy
  rcases hy with rfl | rfl | rfl
  · rw [e1]; norm_num
  · rw [e2]; norm_num
  · rw [e1]; norm_num

theorem pillarDates_gaps : GapRatio ⟨2024, 7, 1, by decide⟩ pillarDates 2 ∧ DaysApart pillarDates 365 365 ∧
    ∀ m ∈ pillarDates, years 365 ⟨2024, 7, 1, by decide⟩ m ≤ 2 := by
  have k0 : Date.sub ⟨2024, 7, 1, by decide⟩ ⟨2024, 7, 1, by decide⟩ = 0 := by decide +kernel
  have k1 : Date.sub ⟨2025, 7, 1, by decide⟩ ⟨2024, 7, 1, by decide⟩ = 365 := by decide +kernel
  have k2 : Date.sub ⟨2026, 7, 1, by decide⟩ ⟨2025, 7, 1, by decide⟩ = 365 := by decide +kernel
  have k3 : Date.sub ⟨2026, 7, 1, by decide⟩ ⟨2024, 7, 1, by decide⟩ = 730 := by decide +kernel
  refine ⟨?_, ?_, ?_⟩
  · intro i m₀ m₁ h0 h1
    match i with
    | 0 => simp [pillarDates] at h0 h1; subst h0 h1; rw [k1]; norm_num
    | 1 => simp [pillarDates] at h0 h1; subst h0 h1; rw [k2, k3]; norm_num
    | i + 2 => simp [pillarDates] at h1
  · intro i m₀ m₁ h0 h1
    match i with
    | 0 => simp [pillarDates] at h0 h1; subst h0 h1; rw [k1]; norm_num
    | 1 => simp [pillarDates] at h0 h1; subst h0 h1; rw [k2]; norm_num
    | i + 2 => simp [pillarDates] at h1
  · intro m hm
    simp only [pillarDates, List.mem_cons, List.not_mem_nil, or_false] at hm
    rcases hm with rfl | rfl | rfl
    · rw [years, k0]; norm_num
    · rw [years, k1]; norm_num
    · rw [years, k3]; norm_num

theorem f64_unit : unitRoundoff Binary.f64 = 1 / 2 ^ 53 := by
  show ((1 / 2) ^ 53 : ℝ) = _
  norm_num

theorem f64_dates (d d' : Date) : |Date.sub d d'| < (2 : Int) ^ (Binary.f64.prec - 1) :=
  lt_of_lt_of_le (sub_abs_lt _ _) (by show (2 : Int) ^ 28 ≤ 2 ^ 52; norm_num)

/-- Half a year: both splines give a discount factor in `f64` close to the exact one. -/
example : (∃ (w : Fl Binary.f64) (v δ : ℝ),
    curveDiscount DayCount.act365 (Interpolator.catmullRom (Fl Binary.f64)) ⟨2024, 7, 1, by decide⟩ pillarDates pillarYields
      ⟨2024, 7, 1, by decide⟩ ⟨2025, 7, 1, by decide⟩ = .ok (.ok w) ∧
    curveDiscount DayCount.act365 (Interpolator.catmullRom ℝ) ⟨2024, 7, 1, by decide⟩ pillarDates [1, 2, 1]
      ⟨2024, 7, 1, by decide⟩ ⟨2025, 7, 1, by decide⟩ = .ok (.ok v) ∧
    δ = 2900 / 2 ^ 53 ∧ (1 - 1 / 2 ^ 53) * Real.exp (-δ) * v ≤ w.val ∧ w.val ≤ (1 + 1 / 2 ^ 53) * Real.exp δ * v) ∧
  (∃ (w : Fl Binary.f64) (v δ : ℝ),
    curveDiscount DayCount.act365 (Interpolator.naturalCubic (Fl Binary.f64)) ⟨2024, 7, 1, by decide⟩ pillarDates pillarYields
      ⟨2024, 7, 1, by decide⟩ ⟨2025, 7, 1, by decide⟩ = .ok (.ok w) ∧
    curveDiscount DayCount.act365 (Interpolator.naturalCubic ℝ) ⟨2024, 7, 1, by decide⟩ pillarDates [1, 2, 1]
      ⟨2024, 7, 1, by decide⟩ ⟨2025, 7, 1, by decide⟩ = .ok (.ok v) ∧
    δ = 11200 / 2 ^ 53 ∧ (1 - 1 / 2 ^ 53) * Real.exp (-δ) * v ≤ w.val ∧ w.val ≤ (1 + 1 / 2 ^ 53) * Real.exp δ * v) := by
  have k0 : Date.sub ⟨2024, 7, 1, by decide⟩ ⟨2024, 7, 1, by decide⟩ = 0 := by decide +kernel
  have k1 : Date.sub ⟨2025, 7, 1, by decide⟩ ⟨2024, 7, 1, by decide⟩ = 365 := by decide +kernel
  obtain ⟨g1, g2, g3⟩ := pillarDates_gaps
  constructor
  · obtain ⟨v, hv⟩ := (C58_domain (D := DayCount.act365) (Or.inr ⟨rfl, rfl⟩) (I := Interpolator.catmullRom ℝ)
      (.inr (.inl ⟨rfl, rfl⟩)) ⟨2024, 7, 1, by decide⟩ pillarDates [1, 2, 1] rfl (by decide)
      (le_refl _) ⟨2024, 7, 1, by decide⟩ ⟨2025, 7, 1, by decide⟩ (by decide) (by decide)).1
      ⟨⟨⟨⟨2024, 7, 1, by decide⟩, by simp [pillarDates], by decide⟩, ⟨⟨2026, 7, 1, by decide⟩, by simp [pillarDates],
        by decide⟩⟩, Or.inl rfl⟩
    obtain ⟨w, δ, hw, hδ, h1, h2⟩ := C97_catmull_rom_discount (A := Binary.f64) (D := DayCount.act365)
      (E := DayCount.act365) (N := 365) (Or.inr ⟨rfl, rfl⟩) (Or.inr ⟨rfl, rfl⟩) ⟨2024, 7, 1, by decide⟩
      pillarDates pillarYields 2 2 (unitRoundoff Binary.f64) (binary_within 53 (by norm_num)) (by rw [f64_unit]; positivity)
      (by rw [f64_unit]; norm_num) rfl (le_refl _) (by decide) (by decide) g1 (by rw [f64_unit]; norm_num) pillarYields_le
      ⟨2024, 7, 1, by decide⟩ ⟨2025, 7, 1, by decide⟩ (fun d _ => f64_dates _ _) v (by rw [pillarYields_val]; exact hv)
    rw [f64_unit] at h1 h2
    refine ⟨w, v, δ, hw, hv, ?_, h1, h2⟩
    rw [hδ, f64_unit, years, years, k0, k1]
    norm_num
  · obtain ⟨v, hv⟩ := (C58_domain (D := DayCount.act365) (Or.inr ⟨rfl, rfl⟩) (I := Interpolator.naturalCubic ℝ)
      (.inr (.inr ⟨rfl, rfl⟩)) ⟨2024, 7, 1, by decide⟩ pillarDates [1, 2, 1] rfl (by decide)
      (le_refl _) ⟨2024, 7, 1, by decide⟩ ⟨2025, 7, 1, by decide⟩ (by decide) (by decide)).1
      ⟨⟨⟨⟨2024, 7, 1, by decide⟩, by simp [pillarDates], by decide⟩, ⟨⟨2026, 7, 1, by decide⟩, by simp [pillarDates],
        by decide⟩⟩, Or.inl rfl⟩
    obtain ⟨w, δ, hw, hδ, h1, h2⟩ := C97_natural_cubic_discount (A := Binary.f64) (D := DayCount.act365)
      (E := DayCount.act365) (N := 365) (Or.inr ⟨rfl, rfl⟩) (Or.inr ⟨rfl, rfl⟩) ⟨2024, 7, 1, by decide⟩
      pillarDates pillarYields 2 2 365 365 (unitRoundoff Binary.f64) (binary_within 53 (by norm_num))
      (by rw [f64_unit]; positivity) (by rw [f64_unit]; norm_num) rfl (le_refl _) (by decide) (by decide) g1
      (by rw [f64_unit]; norm_num) pillarYields_le (by norm_num) g2
      ⟨2024, 7, 1, by decide⟩ ⟨2025, 7, 1, by decide⟩ (fun d _ => f64_dates _ _) v (by rw [pillarYields_val]; exact hv)
    rw [f64_unit] at h1 h2
    refine ⟨w, v, δ, hw, hv, ?_, h1, h2⟩
    rw [hδ, f64_unit, years, years, k0, k1]
    norm_num

/-- A date behind the last maturity is refused by all three curves. -/
example {I : Interpolator (Fl Binary.f64)} {J : Interpolator ℝ} {n : Nat} (hI : SameInterpolator I J n) :
    curveDiscount DayCount.act365 I ⟨2024, 7, 1, by decide⟩ pillarDates pillarYields
      ⟨2024, 7, 1, by decide⟩ ⟨2027, 7, 1, by decide⟩ = .ok (.error interpolationError) := by
  have hn : n ≤ 3 := by rcases hI with ⟨-, -, h⟩ | ⟨-, -, h⟩ | ⟨-, -, h⟩ <;> omega
  have h := (C97_discount_outcome (A := Binary.f64) (D := DayCount.act365) (E := DayCount.act365)
    (N := 365) (Or.inr ⟨rfl, rfl⟩) (Or.inr ⟨rfl, rfl⟩) hI ⟨2024, 7, 1, by decide⟩ pillarDates pillarYields rfl hn (by decide)
    ⟨2024, 7, 1, by decide⟩ ⟨2027, 7, 1, by decide⟩ (fun d _ => f64_dates _ _)).1 interpolationError
  rw [h, pillarYields_val]
  refine (C58_domain (D := DayCount.act365) (Or.inr ⟨rfl, rfl⟩) (same_right hI) ⟨2024, 7, 1, by decide⟩ pillarDates
    [1, 2, 1] rfl (by decide) hn ⟨2024, 7, 1, by decide⟩ ⟨2027, 7, 1, by decide⟩ (by decide) (by decide)).2 ?_
  rintro ⟨⟨-, m, hm, h⟩, -⟩
  simp only [pillarDates, List.mem_cons, List.not_mem_nil, or_false] at hm
  rcases hm with rfl | rfl | rfl
  · exact absurd h (by decide)
  · exact absurd h (by decide)
  · exact absurd h (by decide)

/-- A bond with two flows: both splines give a price in `f64` within one part in 10 ^ 11 of the exact one. -/
example : ∃ (b : Bond (Fl Binary.f64)) (b' : Bond ℝ),
    Bond.new "b" ⟨2024, 7, 1, by decide⟩ ⟨2025, 1, 1, by decide⟩ ⟨2025, 1, 1, by decide⟩ ⟨2025, 7, 1, by decide⟩ .sa
      (i64 1) (i64 100) = .ok (some b) ∧
    Bond.new "b" ⟨2024, 7, 1, by decide⟩ ⟨2025, 1, 1, by decide⟩ ⟨2025, 1, 1, by decide⟩ ⟨2025, 7, 1, by decide⟩ .sa
      (1 : ℝ) 100 = .ok (some b') ∧
    (∃ w v, curvePrice DayCount.act365 (Interpolator.catmullRom (Fl Binary.f64)) ⟨2024, 7, 1, by decide⟩
      pillarDates pillarYields b ⟨2024, 7, 1, by decide⟩ = .ok (.ok w) ∧
      curvePrice DayCount.act365 (Interpolator.catmullRom ℝ) ⟨2024, 7, 1, by decide⟩ pillarDates [1, 2, 1] b'
        ⟨2024, 7, 1, by decide⟩ = .ok (.ok v) ∧ |w.val - v| ≤ 1 / 10 ^ 11 * v) ∧
    ∃ w v, curvePrice DayCount.act365 (Interpolator.naturalCubic (Fl Binary.f64)) ⟨2024, 7, 1, by decide⟩
      pillarDates pillarYields b ⟨2024, 7, 1, by decide⟩ = .ok (.ok w) ∧
      curvePrice DayCount.act365 (Interpolator.naturalCubic ℝ) ⟨2024, 7, 1, by decide⟩ pillarDates [1, 2, 1] b'
        ⟨2024, 7, 1, by decide⟩ = .ok (.ok v) ∧ |w.val - v| ≤ 1 / 10 ^ 11 * v := by
  have hq : FromInt.fromInt (V := Fl Binary.f64) 2 = some (i64 2) := rfl
  have hq' : FromInt.fromInt (V := ℝ) 2 = some ((2 : Int) : ℝ) := rfl
  have hb := one_coupon_bond (i64 2) (i64 1) (i64 100) hq
  have hb' := one_coupon_bond ((2 : Int) : ℝ) (1 : ℝ) 100 hq'
  have e1 : (i64 1).val = 1 := by rw [i64_val _ (by decide)]; norm_num
  have e100 : (i64 100).val = 100 := by rw [i64_val _ (by decide)]; norm_num
  generalize hB : (⟨"b", [⟨⟨2025, 1, 1, by decide⟩, ⟨2025, 1, 1, by decide⟩, (1 : ℝ) * 100 / ((2 : Int) : ℝ)⟩,
    ⟨⟨2025, 7, 1, by decide⟩, ⟨2025, 7, 1, by decide⟩, 100 + 1 * 100 / ((2 : Int) : ℝ)⟩]⟩ : Bond ℝ) = b' at hb'
  generalize hB' : (⟨"b", [⟨⟨2025, 1, 1, by decide⟩, ⟨2025, 1, 1, by decide⟩, i64 1 * i64 100 / i64 2⟩,
    ⟨⟨2025, 7, 1, by decide⟩, ⟨2025, 7, 1, by decide⟩, i64 100 + i64 1 * i64 100 / i64 2⟩]⟩ : Bond (Fl Binary.f64)) = b at hb
  have hfl : ∀ g ∈ b'.bondCashFlows, g.dueDate = g.paymentDate ∧
      (g.paymentDate = ⟨2025, 1, 1, by decide⟩ ∨ g.paymentDate = ⟨2025, 7, 1, by decide⟩) := by
    rw [← hB]; simp
  have hlen : (remaining b ⟨2024, 7, 1, by decide⟩).length ≤ 2 := by
    rw [← hB']; exact List.length_filter_le _ _
  have hlen' : ((remaining b ⟨2024, 7, 1, by decide⟩).length : ℝ) ≤ 2 := by exact_mod_cast hlen
  obtain ⟨g1, g2, g3⟩ := pillarDates_gaps
  have small : ∀ X v : ℝ, 0 ≤ v → X ≤ 45000 / 2 ^ 53 → X / (1 - X) * v ≤ 1 / 10 ^ 11 * v := by
    intro X v hv hX
    refine mul_le_mul_of_nonneg_right ?_ hv
    rw [div_le_iff₀ (by linarith [show (45000 / 2 ^ 53 : ℝ) < 1 by norm_num])]
    norm_num at hX ⊢
    linarith
  have dom : ∀ {J : Interpolator ℝ} {n : Nat}, IsShippedInterpolator J n → n ≤ 3 →
      ∃ v, curvePrice DayCount.act365 J ⟨2024, 7, 1, by decide⟩ pillarDates [1, 2, 1] b' ⟨2024, 7, 1, by decide⟩ =
        .ok (.ok v) := by
    intro J n hJ hn
    refine (C52_shipped_domain (D := DayCount.act365) (Or.inr ⟨rfl, rfl⟩) hJ
      ⟨2024, 7, 1, by decide⟩ pillarDates [1, 2, 1] rfl
      (by decide) hn b' ⟨2024, 7, 1, by decide⟩ (by decide) ?_).1 ?_
    · exact fun g hg => (hfl g hg).1.le
    · refine ⟨?_, Or.inr (Or.inl rfl)⟩
      intro g hg
      rcases (hfl g (List.mem_filter.1 hg).1).2 with h | h <;> rw [h] <;>
        exact ⟨⟨⟨2024, 7, 1, by decide⟩, by simp [pillarDates], by decide⟩,
          ⟨⟨2026, 7, 1, by decide⟩, by simp [pillarDates], by decide⟩⟩
  refine ⟨b, b', hb, hb', ?_, ?_⟩
  · obtain ⟨v, hv⟩ := dom (.inr (.inl ⟨rfl, rfl⟩)) (le_refl _)
    obtain ⟨w, hw, hv0, hwv⟩ := C97_catmull_rom_price (A := Binary.f64) (D := DayCount.act365) (E := DayCount.act365)
      (N := 365) (Or.inr ⟨rfl, rfl⟩) (Or.inr ⟨rfl, rfl⟩) ⟨2024, 7, 1, by decide⟩ pillarDates pillarYields 2 2 2
      (unitRoundoff Binary.f64) (binary_within 53 (by norm_num)) (by rw [f64_unit]; positivity) rfl
      (le_refl _) (by decide) (by decide) g1 (by rw [f64_unit]; norm_num) pillarYields_le g3 "b" _ _ _ _ _ _ _ b b'
      ⟨2024, 7, 1, by decide⟩ hb (by rw [e1, e100]; exact hb') (by decide) (by decide)
      (by show (0 : ℝ) ≤ (i64 1).val; rw [e1]; norm_num) (by show (0 : ℝ) ≤ (i64 100).val; rw [e100]; norm_num)
      (fun d _ => f64_dates _ _) v (by rw [pillarYields_val]; exact hv) _ rfl (by rw [f64_unit]; norm_num; linarith)
    exact ⟨w, v, hw, hv, hwv.trans (small _ _ hv0 (by rw [f64_unit]; norm_num; linarith))⟩
  · obtain ⟨v, hv⟩ := dom (.inr (.inr ⟨rfl, rfl⟩)) (le_refl _)
    obtain ⟨w, hw, hv0, hwv⟩ := C97_natural_cubic_price (A := Binary.f64) (D := DayCount.act365) (E := DayCount.act365)
      (N := 365) (Or.inr ⟨rfl, rfl⟩) (Or.inr ⟨rfl, rfl⟩) ⟨2024, 7, 1, by decide⟩ pillarDates pillarYields 2 2 2 365 365
      (unitRoundoff Binary.f64) (binary_within 53 (by norm_num)) (by rw [f64_unit]; positivity) rfl
      (le_refl _) (by decide) (by decide) g1 (by rw [f64_unit]; norm_num) pillarYields_le (by norm_num) g2 g3 "b"
      _ _ _ _ _ _ _ b b'
      ⟨2024, 7, 1, by decide⟩ hb (by rw [e1, e100]; exact hb') (by decide) (by decide)
      (by show (0 : ℝ) ≤ (i64 1).val; rw [e1]; norm_num) (by show (0 : ℝ) ≤ (i64 100).val; rw [e100]; norm_num)
      (fun d _ => f64_dates _ _) v (by rw [pillarYields_val]; exact hv) _ rfl (by rw [f64_unit]; norm_num; linarith)
    exact ⟨w, v, hw, hv, hwv.trans (small _ _ hv0 (by rw [f64_unit]; norm_num; linarith))⟩

/-- A bond with a flow behind the last maturity is refused by all three curves. -/
example {I : Interpolator (Fl Binary.f64)} {J : Interpolator ℝ} {n : Nat} (hI : SameInterpolator I J n) :
    ∃ b : Bond (Fl Binary.f64),
    Bond.new "b" ⟨2024, 7, 1, by decide⟩ ⟨2025, 1, 1, by decide⟩ ⟨2025, 1, 1, by decide⟩ ⟨2025, 7, 1, by decide⟩ .sa
      (i64 1) (i64 100) = .ok (some b) ∧
    curvePrice DayCount.act365 I ⟨2024, 7, 1, by decide⟩
      [⟨2024, 7, 1, by decide⟩, ⟨2024, 10, 1, by decide⟩, ⟨2025, 1, 1, by decide⟩] pillarYields b
      ⟨2024, 7, 1, by decide⟩ = .ok (.error interpolationError) := by
  have hn : n ≤ 3 := by rcases hI with ⟨-, -, h⟩ | ⟨-, -, h⟩ | ⟨-, -, h⟩ <;> omega
  have hq : FromInt.fromInt (V := Fl Binary.f64) 2 = some (i64 2) := rfl
  have hq' : FromInt.fromInt (V := ℝ) 2 = some ((2 : Int) : ℝ) := rfl
  have hb := one_coupon_bond (i64 2) (i64 1) (i64 100) hq
  have hb' := one_coupon_bond ((2 : Int) : ℝ) (1 : ℝ) 100 hq'
  have e1 : (i64 1).val = 1 := by rw [i64_val _ (by decide)]; norm_num
  have e100 : (i64 100).val = 100 := by rw [i64_val _ (by decide)]; norm_num
  refine ⟨_, hb, ?_⟩
  have h := (C97_price_outcome (A := Binary.f64) (D := DayCount.act365) (E := DayCount.act365)
    (N := 365) (Or.inr ⟨rfl, rfl⟩) (Or.inr ⟨rfl, rfl⟩) hI ⟨2024, 7, 1, by decide⟩
    [⟨2024, 7, 1, by decide⟩, ⟨2024, 10, 1, by decide⟩, ⟨2025, 1, 1, by decide⟩] pillarYields rfl hn (by decide)
    "b" _ _ _ _ _ _ _ _ _ ⟨2024, 7, 1, by decide⟩ hb (by rw [e1, e100]; exact hb')
    (fun d _ => f64_dates _ _)).1 interpolationError
  rw [h, pillarYields_val]
  refine (C52_shipped_domain (D := DayCount.act365) (Or.inr ⟨rfl, rfl⟩) (same_right hI) ⟨2024, 7, 1, by decide⟩
    [⟨2024, 7, 1, by decide⟩, ⟨2024, 10, 1, by decide⟩, ⟨2025, 1, 1, by decide⟩] [1, 2, 1] rfl (by decide) hn _ ⟨2024, 7, 1, by decide⟩ (by decide) ?_).2 ?_
  · simp
  · rintro ⟨hall, -⟩
    obtain ⟨-, m, hm, h⟩ := hall ⟨⟨2025, 7, 1, by decide⟩, ⟨2025, 7, 1, by decide⟩, 100 + 1 * 100 / ((2 : Int) : ℝ)⟩
      (List.mem_filter.2 ⟨by simp, by decide⟩)
    simp only [List.mem_cons, List.not_mem_nil, or_false] at hm
    rcases hm with rfl | rfl | rfl
    · exact absurd h (by decide)
    · exact absurd h (by decide)
    · exact absurd h (by decide)

end Qlab.Props
