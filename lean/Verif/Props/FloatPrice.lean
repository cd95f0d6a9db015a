import Verif.Lemmas.LinearCurve
import Verif.Lemmas.RatioError
import Verif.Spec.Bond
import Verif.Props.FloatFlows
import Verif.Props.IeeeBond

/-!
# From market data to price in floating-point arithmetic (C92)

The whole computation with a linear curve, in floating point and in exact arithmetic, from the same dates and the same
floating-point yields, rate and face value.
-/

namespace Qlab.Spec

/-- Years from `s` to `d`, `N` days to the year. -/
noncomputable def years (N : Int) (s d : Date) : ℝ := (Date.sub d s : Int) / N

/-- No maturity lies more than `κ` times as far from `s` as from the maturity before it. -/
def GapRatio (s : Date) (ms : List Date) (κ : ℝ) : Prop :=
  ∀ i m₀ m₁, ms[i]? = some m₀ → ms[i + 1]? = some m₁ →
    ((Date.sub m₁ s : Int) : ℝ) ≤ κ * (Date.sub m₁ m₀ : Int)

end Qlab.Spec

namespace Qlab.Props

open Spec

variable {A : FloatArith}

/-- The floating-point year fraction. -/
noncomputable def flYears (A : FloatArith) (N : Int) (s d : Date) : Fl A := Fl.round A (A.fl (Date.sub d s : Int) / N)

theorem real_actual_eq {E : DayCount ℝ} {N : Int} (hE : IsActualDayCount E N) (a b : Date) :
    E a b = .ok (.ok (years N a b)) := by
  rcases hE with ⟨rfl, rfl⟩ | ⟨rfl, rfl⟩
  all_goals
    simp [DayCount.act360, DayCount.act365, ExactCast.fromInt_eq, years]
    rfl

theorem flYears_keeps {N : Int} (hN : N = 360 ∨ N = 365) {s : Date} {ms : List Date} {d : Date}
    (hr : ∀ e ∈ d :: ms, |Date.sub e s| < 2 ^ (A.prec - 1)) : KeepsOrder (flYears A N s) ms d := by
  have hD : ∃ D : DayCount (Fl A), IsActualDayCount D N := by
    rcases hN with rfl | rfl
    · exact ⟨_, .inl ⟨rfl, rfl⟩⟩
    · exact ⟨_, .inr ⟨rfl, rfl⟩⟩
  obtain ⟨D, hD⟩ := hD
  intro a ha b hb hab
  obtain ⟨ta, tb, h1, h2, h3⟩ := C76_strict_partial hD s a b (hr a ha) (hr b hb)
  rw [actual_eq hD] at h1 h2
  injection h1 with h1; injection h1 with h1
  injection h2 with h2; injection h2 with h2
  unfold flYears
  rw [h1, h2]
  exact h3.1 hab

theorem years_lt {N : Int} (hN : 0 < N) {s a b : Date} (h : a < b) : years N s a < years N s b := by
  unfold years
  have hN' : (0 : ℝ) < N := by exact_mod_cast hN
  refine div_lt_div_of_pos_right ?_ hN'
  have : Date.sub a s < Date.sub b s := by
    rw [C04_sub_serial, C04_sub_serial]
    have := (C03_serial_lt a b).1 h
    omega
  exact_mod_cast this

theorem years_keeps {N : Int} (hN : 0 < N) {s : Date} {ms : List Date} {d : Date} : KeepsOrder (years N s) ms d :=
  fun _ _ _ _ h => years_lt hN h

theorem years_le {N : Int} (hN : 0 < N) {s a b : Date} (h : a ≤ b) : years N s a ≤ years N s b := by
  rcases eq_or_lt_of_le h with rfl | h
  · exact le_refl _
  · exact (years_lt hN h).le

theorem years_self (N : Int) (s : Date) : years N s s = 0 := by
  have : Date.sub s s = 0 := by rw [C04_sub_serial]; omega
  simp [years, this]

theorem years_nonneg {N : Int} (hN : 0 < N) {s d : Date} (h : s ≤ d) : 0 ≤ years N s d := by
  have := years_le hN (s := s) h
  rwa [years_self] at this

theorem flYears_error {N : Int} (hN : 0 < N) {s d : Date} (hd : s ≤ d) (hr : |Date.sub d s| < 2 ^ (A.prec - 1)) :
    |(flYears A N s d).val - years N s d| ≤ unitRoundoff A * years N s d := by
  have := (quotient_error (A := A) (Date.sub d s) N).2 (hr.le.trans (pow_le_pow_right₀ (by norm_num) (by omega)))
  have h0 := years_nonneg hN hd
  unfold years at h0 ⊢
  rwa [abs_of_nonneg h0] at this

/-- What the two curves return at a date: the same kind of error, or yields close to each other. -/
theorem curve_yields {N : Int} (hN : N = 360 ∨ N = 365) {s : Date} {ms : List Date} {ys : List (Fl A)} {κ Y : ℝ}
    (hlen : ms.length = ys.length) (h2 : 2 ≤ ms.length) (hms : ms.Pairwise (· < ·)) (hbase : ∀ m ∈ ms, s ≤ m)
    (hκ : GapRatio s ms κ) (hκu : 16 * unitRoundoff A * κ ≤ 1) (hY : ∀ y ∈ ys, |y.val| ≤ Y) (d : Date)
    (hr : ∀ e ∈ d :: ms, |Date.sub e s| < 2 ^ (A.prec - 1)) :
    (∃ y y', evaluate (Interpolator.linear (Fl A)) ((ms.map (flYears A N s)).zip ys) (flYears A N s d) = .ok (.ok y) ∧
      evaluate (Interpolator.linear ℝ) ((ms.map (years N s)).zip (ys.map Fl.val)) (years N s d) = .ok (.ok y') ∧
      |y.val - y'| ≤ 24 * κ * unitRoundoff A * Y ∧ |y.val| ≤ 1.01 * Y ∧ |y'| ≤ Y ∧ 1 ≤ κ ∧ ∃ m ∈ ms, d ≤ m) ∨
    (∃ e e', evaluate (Interpolator.linear (Fl A)) ((ms.map (flYears A N s)).zip ys) (flYears A N s d) = .ok (.error e) ∧
      evaluate (Interpolator.linear ℝ) ((ms.map (years N s)).zip (ys.map Fl.val)) (years N s d) = .ok (.error e')) := by
  have hN0 : 0 < N := by omega
  have hNr : (0 : ℝ) < N := by exact_mod_cast hN0
  have kf := flYears_keeps (A := A) hN hr
  have kr : KeepsOrder (years N s) ms d := years_keeps hN0
  have hlen' : ms.length = (ys.map Fl.val).length := by simpa using hlen
  have hu := A.unit_pos
  have hu1 := A.unit_le
  have gap : ∀ i m₀ m₁, ms[i]? = some m₀ → ms[i + 1]? = some m₁ →
      m₀ < m₁ ∧ years N s m₁ ≤ κ * (years N s m₁ - years N s m₀) := by
    intro i m₀ m₁ e0 e1
    obtain ⟨i0, e0'⟩ := List.getElem?_eq_some_iff.1 e0
    obtain ⟨i1, e1'⟩ := List.getElem?_eq_some_iff.1 e1
    have hlt := List.pairwise_iff_getElem.1 hms i (i + 1) i0 i1 (by omega)
    rw [e0', e1'] at hlt
    refine ⟨hlt, ?_⟩
    have h := hκ i m₀ m₁ e0 e1
    have e : ((Date.sub m₁ m₀ : Int) : ℝ) = (Date.sub m₁ s : Int) - (Date.sub m₀ s : Int) := by
      rw [C04_sub_serial, C04_sub_serial, C04_sub_serial]; push_cast; ring
    rw [e] at h
    unfold years
    rw [← sub_div, ← mul_div_assoc]
    exact div_le_div_of_nonneg_right h hNr.le
  have abs_y : ∀ (i : Nat) (y : Fl A), ys[i]? = some y → |y.val| ≤ Y := fun i y h => hY y (List.mem_of_getElem? h)
  have main : ∀ i m₀ m₁ y₀ y₁ (w : Fl A), ms[i]? = some m₀ → ms[i + 1]? = some m₁ → ys[i]? = some y₀ →
      ys[i + 1]? = some y₁ → m₀ ≤ d → d ≤ m₁ →
      |w.val - lineThrough (flYears A N s m₀).val y₀.val (flYears A N s m₁).val y₁.val (flYears A N s d).val| ≤
        unitRoundoff A * |lineThrough (flYears A N s m₀).val y₀.val (flYears A N s m₁).val y₁.val (flYears A N s d).val| +
          6 * unitRoundoff A * |y₁.val - y₀.val| →
      |w.val - (y₀.val + (y₁.val - y₀.val) / (years N s m₁ - years N s m₀) * (years N s d - years N s m₀))| ≤
        24 * κ * unitRoundoff A * Y ∧ |w.val| ≤ 1.01 * Y ∧
      |y₀.val + (y₁.val - y₀.val) / (years N s m₁ - years N s m₀) * (years N s d - years N s m₀)| ≤ Y ∧ 1 ≤ κ := by
    intro i m₀ m₁ y₀ y₁ w e0 e1 f0 f1 hd0 hd1 hw
    obtain ⟨hlt, hg⟩ := gap i m₀ m₁ e0 e1
    have i0 := List.mem_of_getElem? e0
    have i1 := List.mem_of_getElem? e1
    have b0 := hbase m₀ i0
    have b1 := hbase m₁ i1
    have mono : ∀ a ∈ d :: ms, ∀ b ∈ d :: ms, a ≤ b → (flYears A N s a).val ≤ (flYears A N s b).val := by
      intro a ha b hb hab
      rcases eq_or_lt_of_le hab with rfl | hab
      · exact le_refl _
      · exact ((Fl.lt_iff _ _).1 (kf a ha b hb hab)).le
    have := yield_error hu hu1 hκu (years_nonneg hN0 b0) (years_le hN0 hd0) (years_le hN0 hd1) (years_lt hN0 hlt) hg
      (flYears_error hN0 b0 (hr _ (by simp [i0]))) (flYears_error hN0 b1 (hr _ (by simp [i1])))
      (flYears_error hN0 (b0.trans hd0) (hr _ (by simp))) (mono _ (by simp [i0]) _ (by simp) hd0)
      (mono _ (by simp) _ (by simp [i1]) hd1) ((Fl.lt_iff _ _).1 (kf _ (by simp [i0]) _ (by simp [i1]) hlt))
      (abs_y _ _ f0) (abs_y _ _ f1) hw
    refine ⟨this.1, this.2.1, this.2.2, ?_⟩
    by_contra hn
    have p0 : 0 < years N s m₁ - years N s m₀ := by have := years_lt hN0 (s := s) hlt; linarith
    have := mul_lt_mul_of_pos_right (not_le.1 hn) p0
    have := years_nonneg hN0 b0
    linarith
  rcases date_segment ms h2 hms d with h | h | h | ⟨i, m₀, m₁, e0, e1, h0, h1⟩
  · exact .inr ⟨_, _, eval_below kf hms hlen h2 h, eval_below kr hms hlen' h2 h⟩
  · exact .inr ⟨_, _, eval_above kf hms hlen h2 h, eval_above kr hms hlen' h2 h⟩
  · left
    obtain ⟨m₁, e1⟩ : ∃ m, ms[1]? = some m := ⟨_, List.getElem?_eq_getElem (by omega)⟩
    obtain ⟨y₀, f0⟩ : ∃ y, ys[0]? = some y := ⟨_, List.getElem?_eq_getElem (by omega)⟩
    obtain ⟨y₁, f1⟩ : ∃ y, ys[1]? = some y := ⟨_, List.getElem?_eq_getElem (by omega)⟩
    have hd1 := (gap 0 d m₁ h e1).1
    have g0 : (ys.map Fl.val)[0]? = some y₀.val := by simp [f0]
    have g1 : (ys.map Fl.val)[1]? = some y₁.val := by simp [f1]
    have hv := eval_first kf hms h e1 f0 f1
    rw [Fl.sub_self', Fl.mul_zero', Fl.add_zero'] at hv
    refine ⟨_, _, hv, eval_first kr hms h e1 g0 g1, ?_⟩
    obtain ⟨p1, p2, p3, p4⟩ := main 0 d m₁ y₀ y₁ y₀ h e1 f0 f1 (le_refl _) hd1.le (by
      unfold lineThrough
      rw [sub_self, zero_div, mul_zero, add_zero, sub_self, abs_zero]
      positivity)
    exact ⟨p1, p2, p3, p4, m₁, List.mem_of_getElem? e1, hd1.le⟩
  · left
    obtain ⟨i1, -⟩ := List.getElem?_eq_some_iff.1 e1
    obtain ⟨y₀, f0⟩ : ∃ y, ys[i]? = some y := ⟨_, List.getElem?_eq_getElem (by omega)⟩
    obtain ⟨y₁, f1⟩ : ∃ y, ys[i + 1]? = some y := ⟨_, List.getElem?_eq_getElem (by omega)⟩
    have g0 : (ys.map Fl.val)[i]? = some y₀.val := by simp [f0]
    have g1 : (ys.map Fl.val)[i + 1]? = some y₁.val := by simp [f1]
    have hm0 := List.mem_of_getElem? e0
    have hm1 := List.mem_of_getElem? e1
    have x0 := kf _ (by simp [hm0]) _ (by simp) h0
    have x1 : flYears A N s d ≤ flYears A N s m₁ := by
      rcases eq_or_lt_of_le h1 with rfl | h
      · exact le_refl _
      · exact (kf _ (by simp) _ (by simp [hm1]) h).le
    refine ⟨_, _, eval_inside kf hms e0 e1 f0 f1 h0 h1, eval_inside kr hms e0 e1 g0 g1 h0 h1, ?_⟩
    obtain ⟨p1, p2, p3, p4⟩ := main i m₀ m₁ y₀ y₁ _ e0 e1 f0 f1 h0.le h1 (line_error _ _ _ _ _ x0 x1)
    exact ⟨p1, p2, p3, p4, m₁, hm1, h1⟩

/-- `w` is within a factor `1 ± ε` times `exp (± δ)` of `v`. -/
def Near (ε δ v w : ℝ) : Prop := (1 - ε) * Real.exp (-δ) * v ≤ w ∧ w ≤ (1 + ε) * Real.exp δ * v

theorem exp_near {ε δ x z : ℝ} (h0 : 0 ≤ ε) (h1 : ε ≤ 1) {w : ℝ} (hw : |w - Real.exp x| ≤ ε * Real.exp x)
    (hx : |x - z| ≤ δ) : Near ε δ (Real.exp z) w := by
  obtain ⟨a1, a2⟩ := abs_le.1 hw
  obtain ⟨b1, b2⟩ := abs_le.1 hx
  constructor
  · rw [mul_assoc, ← Real.exp_add]
    have := mul_le_mul_of_nonneg_left (Real.exp_le_exp.2 (show -δ + z ≤ x by linarith)) (show 0 ≤ 1 - ε by linarith)
    linarith
  · rw [mul_assoc, ← Real.exp_add]
    have := mul_le_mul_of_nonneg_left (Real.exp_le_exp.2 (show x ≤ δ + z by linarith)) (show 0 ≤ 1 + ε by linarith)
    linarith

/-- The two discount factors: the same error, or values close to each other. -/
theorem curve_discounts {D : DayCount (Fl A)} {E : DayCount ℝ} {N : Int} (hD : IsActualDayCount D N)
    (hE : IsActualDayCount E N) {s : Date} {ms : List Date} {ys : List (Fl A)} {κ Y ε : ℝ} (hε : ExpWithin A ε)
    (hε0 : 0 ≤ ε) (hε1 : ε ≤ 1) (hlen : ms.length = ys.length) (h2 : 2 ≤ ms.length) (hms : ms.Pairwise (· < ·))
    (hbase : ∀ m ∈ ms, s ≤ m) (hκ : GapRatio s ms κ) (hκu : 16 * unitRoundoff A * κ ≤ 1) (hY : ∀ y ∈ ys, |y.val| ≤ Y)
    (hr : ∀ m ∈ ms, |Date.sub m s| < 2 ^ (A.prec - 1)) :
    ∃ (c : YieldCurve (Fl A) (Interpolator.linear (Fl A))) (c' : YieldCurve ℝ (Interpolator.linear ℝ)),
      YieldCurve.new D (Interpolator.linear (Fl A)) s ms ys = .ok (.ok c) ∧
      YieldCurve.new E (Interpolator.linear ℝ) s ms (ys.map Fl.val) = .ok (.ok c') ∧
      ∀ d1 d2, |Date.sub d1 s| < 2 ^ (A.prec - 1) → |Date.sub d2 s| < 2 ^ (A.prec - 1) →
        (∃ e, c.discountFactor D d1 d2 = .ok (.error e) ∧ c'.discountFactor E d1 d2 = .ok (.error e)) ∨
        (∃ w v, c.discountFactor D d1 d2 = .ok (.ok w) ∧ c'.discountFactor E d1 d2 = .ok (.ok v) ∧
          s ≤ d1 ∧ d1 ≤ d2 ∧ (∃ m ∈ ms, d2 ≤ m) ∧ 0 < v ∧
          Near ε (30 * κ * unitRoundoff A * Y * (years N s d1 + years N s d2)) v w.val) := by
  have hN : N = 360 ∨ N = 365 := by rcases hD with ⟨-, h⟩ | ⟨-, h⟩ <;> simp [h]
  have hN0 : 0 < N := by omega
  have hu := A.unit_pos
  have hu1 := A.unit_le
  have hDf : ∀ d, D s d = .ok (.ok (flYears A N s d)) := fun d => actual_eq hD s d
  have hEf : ∀ d, E s d = .ok (.ok (years N s d)) := fun d => real_actual_eq hE s d
  obtain ⟨c, hc, hcs, hcv⟩ := linear_curve hDf ms ys hlen
  obtain ⟨c', hc', hcs', hcv'⟩ := linear_curve hEf ms (ys.map Fl.val) (by simpa using hlen)
  refine ⟨c, c', hc, hc', fun d1 d2 hr1 hr2 => ?_⟩
  have hY0 : 0 ≤ Y := by
    obtain ⟨y, hy⟩ : ∃ y, y ∈ ys := List.exists_mem_of_length_pos (by omega)
    exact le_trans (abs_nonneg _) (hY y hy)
  have sim := discount_sim (R := fun d (y : Fl A) (y' : ℝ) => |y.val - y'| ≤ 24 * κ * unitRoundoff A * Y ∧
      |y.val| ≤ 1.01 * Y ∧ |y'| ≤ Y ∧ 1 ≤ κ ∧ ∃ m ∈ ms, d ≤ m) hcs hcs' hDf hEf d1 d2 (by
    intro d hd hsd
    rw [hcv, hcv']
    exact curve_yields hN hlen h2 hms hbase hκ hκu hY d (by
      intro e he
      rcases List.mem_cons.1 he with rfl | he
      · rcases hd with rfl | rfl
        · exact hr1
        · exact hr2
      · exact hr e he))
  rcases sim with h | ⟨hs, hd, y2, y2', r2, h⟩
  · exact .inl h
  right
  obtain ⟨q1, q2, q3, hκ1, hm⟩ := r2
  have t2 := years_nonneg hN0 (hs.trans hd)
  have z2 := times_yield_error hu hu1 hκ1 t2 (flYears_error hN0 (hs.trans hd) hr2) q1 q2 q3
  have hYa : 0 ≤ unitRoundoff A * Y * years N s d2 := by positivity
  have hYb : unitRoundoff A * Y * years N s d2 * 1 ≤ unitRoundoff A * Y * years N s d2 * κ :=
    mul_le_mul_of_nonneg_left hκ1 hYa
  have m2 : 3 * unitRoundoff A * |(flYears A N s d2).val * y2.val| ≤ 3.3 * unitRoundoff A * Y * years N s d2 := by
    have := mul_le_mul_of_nonneg_left z2.2 (show 0 ≤ 3 * unitRoundoff A by positivity)
    linarith
  rcases h with ⟨hds, e1, e2⟩ | ⟨hne, y1, y1', ⟨p1, p2, p3, -, -⟩, e1, e2⟩
  · refine ⟨_, _, e1, e2, hs, hd, hm, Real.exp_pos _, ?_⟩
    rw [Fl.val_exp]
    refine exp_near hε0 hε1 (hε _) ?_
    rw [hds, years_self, zero_add, Fl.val_mul, Fl.val_neg, neg_mul, neg_mul, A.odd, neg_sub_neg, abs_sub_comm]
    have ee := A.err' ((flYears A N s d2).val * y2.val)
    have := abs_add_le (A.fl ((flYears A N s d2).val * y2.val) - (flYears A N s d2).val * y2.val)
      ((flYears A N s d2).val * y2.val - years N s d2 * y2')
    rw [sub_add_sub_cancel] at this
    have := z2.1
    nlinarith [mul_nonneg hu.le (abs_nonneg ((flYears A N s d2).val * y2.val))]
  · refine ⟨_, _, e1, e2, hs, hd, hm, Real.exp_pos _, ?_⟩
    rw [Fl.val_exp]
    refine exp_near hε0 hε1 (hε _) ?_
    rw [Fl.val_sub, Fl.val_mul, Fl.val_mul]
    have t1 := years_nonneg hN0 hs
    have z1 := times_yield_error hu hu1 hκ1 t1 (flYears_error hN0 hs hr1) p1 p2 p3
    have ee := exponent_error (A := A) ((flYears A N s d1).val * y1.val) ((flYears A N s d2).val * y2.val)
    have hYc : 0 ≤ unitRoundoff A * Y * years N s d1 := by positivity
    have hYd : unitRoundoff A * Y * years N s d1 * 1 ≤ unitRoundoff A * Y * years N s d1 * κ :=
      mul_le_mul_of_nonneg_left hκ1 hYc
    have m1 : 3 * unitRoundoff A * |(flYears A N s d1).val * y1.val| ≤ 3.3 * unitRoundoff A * Y * years N s d1 := by
      have := mul_le_mul_of_nonneg_left z1.2 (show 0 ≤ 3 * unitRoundoff A by positivity)
      linarith
    have w1 := z1.1
    have w2 := z2.1
    generalize (flYears A N s d1).val * y1.val = g1 at *
    generalize (flYears A N s d2).val * y2.val = g2 at *
    generalize years N s d1 * y1' = v1 at *
    generalize years N s d2 * y2' = v2 at *
    generalize A.fl (A.fl g1 - A.fl g2) = R at *
    have e3 : R - (v1 - v2) = (R - (g1 - g2)) + ((g1 - v1) - (g2 - v2)) := by ring
    rw [e3]
    have s1 := abs_add_le (R - (g1 - g2)) ((g1 - v1) - (g2 - v2))
    have s2 := abs_sub (g1 - v1) (g2 - v2)
    nlinarith

/-- The two curves fail alike. -/
theorem discounts_outcome {D : DayCount (Fl A)} {E : DayCount ℝ} {N : Int} (hD : IsActualDayCount D N)
    (hE : IsActualDayCount E N) (s : Date) (ms : List Date) (ys : List (Fl A)) (hlen : ms.length = ys.length)
    (h2 : 2 ≤ ms.length) (hms : ms.Pairwise (· < ·)) :
    ∃ (c : YieldCurve (Fl A) (Interpolator.linear (Fl A))) (c' : YieldCurve ℝ (Interpolator.linear ℝ)),
      YieldCurve.new D (Interpolator.linear (Fl A)) s ms ys = .ok (.ok c) ∧
      YieldCurve.new E (Interpolator.linear ℝ) s ms (ys.map Fl.val) = .ok (.ok c') ∧
      ∀ d1 d2, (∀ d ∈ d1 :: d2 :: ms, |Date.sub d s| < 2 ^ (A.prec - 1)) →
        (∃ e, c.discountFactor D d1 d2 = .ok (.error e) ∧ c'.discountFactor E d1 d2 = .ok (.error e)) ∨
        (∃ w v, c.discountFactor D d1 d2 = .ok (.ok w) ∧ c'.discountFactor E d1 d2 = .ok (.ok v)) := by
  have hN : N = 360 ∨ N = 365 := by rcases hD with ⟨-, h⟩ | ⟨-, h⟩ <;> simp [h]
  have hN0 : 0 < N := by omega
  have hDf : ∀ d, D s d = .ok (.ok (flYears A N s d)) := fun d => actual_eq hD s d
  have hEf : ∀ d, E s d = .ok (.ok (years N s d)) := fun d => real_actual_eq hE s d
  obtain ⟨c, hc, hcs, hcv⟩ := linear_curve hDf ms ys hlen
  have hlen' : ms.length = (ys.map Fl.val).length := by simpa using hlen
  obtain ⟨c', hc', hcs', hcv'⟩ := linear_curve hEf ms (ys.map Fl.val) hlen'
  refine ⟨c, c', hc, hc', fun d1 d2 hr => ?_⟩
  have sim := discount_sim (R := fun _ _ _ => True) hcs hcs' hDf hEf d1 d2 (by
    intro d hd hsd
    rw [hcv, hcv']
    have kf : KeepsOrder (flYears A N s) ms d := flYears_keeps hN (by
      intro e he
      rcases List.mem_cons.1 he with rfl | he
      · rcases hd with rfl | rfl <;> exact hr _ (by simp)
      · exact hr e (by simp [he]))
    have kr : KeepsOrder (years N s) ms d := years_keeps hN0
    rcases date_segment ms h2 hms d with h | h | h | ⟨i, m₀, m₁, e0, e1, h0, h1⟩
    · exact .inr ⟨_, _, eval_below kf hms hlen h2 h, eval_below kr hms hlen' h2 h⟩
    · exact .inr ⟨_, _, eval_above kf hms hlen h2 h, eval_above kr hms hlen' h2 h⟩
    · have e1 : ms[1]? = some ms[1] := List.getElem?_eq_getElem (by omega)
      have f0 : ys[0]? = some ys[0] := List.getElem?_eq_getElem (by omega)
      have f1 : ys[1]? = some ys[1] := List.getElem?_eq_getElem (by omega)
      exact .inl ⟨_, _, eval_first kf hms h e1 f0 f1, eval_first kr hms h e1 (by simp [f0]; rfl) (by simp [f1]; rfl), trivial⟩
    · obtain ⟨i1, -⟩ := List.getElem?_eq_some_iff.1 e1
      have f0 : ys[i]? = some ys[i] := List.getElem?_eq_getElem (by omega)
      have f1 : ys[i + 1]? = some ys[i + 1] := List.getElem?_eq_getElem (by omega)
      exact .inl ⟨_, _, eval_inside kf hms e0 e1 f0 f1 h0 h1,
        eval_inside kr hms e0 e1 (by simp [f0]; rfl) (by simp [f1]; rfl) h0 h1, trivial⟩)
  rcases sim with h | ⟨-, -, y, y', -, ⟨-, h1, h2⟩ | ⟨-, y1, y1', -, h1, h2⟩⟩
  · exact .inl h
  · exact .inr ⟨_, _, h1, h2⟩
  · exact .inr ⟨_, _, h1, h2⟩

/-- **C92.** A linear curve under Act/360 or Act/365 refuses the same dates with the same errors in floating point as in
exact arithmetic, and never panics. -/
theorem C92_discount_outcome {D : DayCount (Fl A)} {E : DayCount ℝ} {N : Int} (hD : IsActualDayCount D N)
    (hE : IsActualDayCount E N) (s : Date) (ms : List Date) (ys : List (Fl A)) (hlen : ms.length = ys.length)
    (h2 : 2 ≤ ms.length) (hms : ms.Pairwise (· < ·)) (d1 d2 : Date)
    (hr : ∀ d ∈ d1 :: d2 :: ms, |Date.sub d s| < 2 ^ (A.prec - 1)) :
    (∀ e, curveDiscount D (Interpolator.linear (Fl A)) s ms ys d1 d2 = .ok (.error e) ↔
      curveDiscount E (Interpolator.linear ℝ) s ms (ys.map Fl.val) d1 d2 = .ok (.error e)) ∧
    curveDiscount D (Interpolator.linear (Fl A)) s ms ys d1 d2 ≠ .panic ∧
    curveDiscount E (Interpolator.linear ℝ) s ms (ys.map Fl.val) d1 d2 ≠ .panic := by
  obtain ⟨c, c', hc, hc', hall⟩ := discounts_outcome hD hE s ms ys hlen h2 hms
  unfold curveDiscount
  rw [hc, hc']
  simp only [Rust.ok_bind]
  rcases hall d1 d2 hr with ⟨e', h1, h2⟩ | ⟨w, v, h1, h2⟩ <;> rw [h1, h2] <;> simp

/-- **C92.** From market data to discount factor.  Yields at increasing maturities, a linear curve under Act/360 or
Act/365, in floating point and in exact arithmetic: where the exact discount factor `v` exists so does the floating-point
one, and it is within a factor `1 ± ε` (the accuracy of `exp`) times `exp (± δ)` of `v`, with
`δ = 30 κ u Y (t1 + t2)`: `u` the unit roundoff, `Y` a bound on the yields, `t1`, `t2` the times to the two dates, and
`κ` how many times further a maturity lies from settlement than from the maturity before it.  The dates have to be less
than `2 ^ (p - 1)` days from settlement, as all dates are in `f64`. -/
theorem C92_discount {D : DayCount (Fl A)} {E : DayCount ℝ} {N : Int} (hD : IsActualDayCount D N)
    (hE : IsActualDayCount E N) (s : Date) (ms : List Date) (ys : List (Fl A)) (κ Y ε : ℝ) (hε : ExpWithin A ε)
    (hε0 : 0 ≤ ε) (hε1 : ε ≤ 1) (hlen : ms.length = ys.length) (h2 : 2 ≤ ms.length) (hms : ms.Pairwise (· < ·))
    (hbase : ∀ m ∈ ms, s ≤ m) (hκ : GapRatio s ms κ) (hκu : 16 * unitRoundoff A * κ ≤ 1) (hY : ∀ y ∈ ys, |y.val| ≤ Y)
    (d1 d2 : Date) (hr : ∀ d ∈ d1 :: d2 :: ms, |Date.sub d s| < 2 ^ (A.prec - 1)) (v : ℝ)
    (h : curveDiscount E (Interpolator.linear ℝ) s ms (ys.map Fl.val) d1 d2 = .ok (.ok v)) :
    ∃ w δ, curveDiscount D (Interpolator.linear (Fl A)) s ms ys d1 d2 = .ok (.ok w) ∧
      δ = 30 * κ * unitRoundoff A * Y * (years N s d1 + years N s d2) ∧
      (1 - ε) * Real.exp (-δ) * v ≤ w.val ∧ w.val ≤ (1 + ε) * Real.exp δ * v := by
  obtain ⟨c, c', hc, hc', hall⟩ := curve_discounts hD hE hε hε0 hε1 hlen h2 hms hbase hκ hκu hY
    (fun m hm => hr m (by simp [hm]))
  unfold curveDiscount at h ⊢
  rw [hc'] at h
  rw [hc]
  simp only [Rust.ok_bind] at h ⊢
  rcases hall d1 d2 (hr _ (by simp)) (hr _ (by simp)) with ⟨e, -, h'⟩ | ⟨w, v', h1, h2, -, -, -, -, h3⟩
  · rw [h'] at h; simp at h
  · rw [h2] at h
    obtain rfl : v' = v := by simpa using h
    exact ⟨w, _, h1, rfl, h3⟩

/-- A year on the `f64` curve of the example below: the discount factor in `f64` exists and is within a relative error of
`2 ^ -45` or so of the exact one; a date behind the last maturity is refused in both. -/
example : (∃ (w : Fl Binary.f64) (v δ : ℝ),
    curveDiscount DayCount.act365 (Interpolator.linear (Fl Binary.f64)) ⟨2024, 7, 1, by decide⟩
      [⟨2024, 7, 1, by decide⟩, ⟨2026, 7, 1, by decide⟩] [i64 1, i64 2] ⟨2024, 7, 1, by decide⟩ ⟨2025, 7, 1, by decide⟩ =
        .ok (.ok w) ∧
    curveDiscount DayCount.act365 (Interpolator.linear ℝ) ⟨2024, 7, 1, by decide⟩
      [⟨2024, 7, 1, by decide⟩, ⟨2026, 7, 1, by decide⟩] [1, 2] ⟨2024, 7, 1, by decide⟩ ⟨2025, 7, 1, by decide⟩ =
        .ok (.ok v) ∧
    δ = 60 / 2 ^ 53 ∧ (1 - 1 / 2 ^ 53) * Real.exp (-δ) * v ≤ w.val ∧ w.val ≤ (1 + 1 / 2 ^ 53) * Real.exp δ * v) ∧
    curveDiscount DayCount.act365 (Interpolator.linear (Fl Binary.f64)) ⟨2024, 7, 1, by decide⟩
      [⟨2024, 7, 1, by decide⟩, ⟨2026, 7, 1, by decide⟩] [i64 1, i64 2] ⟨2024, 7, 1, by decide⟩ ⟨2027, 7, 1, by decide⟩ =
        .ok (.error interpolationError) := by
  have e1 : (i64 1).val = 1 := by rw [i64_val _ (by decide)]; norm_num
  have e2 : (i64 2).val = 2 := by rw [i64_val _ (by decide)]; norm_num
  have hys : ([i64 1, i64 2] : List (Fl Binary.f64)).map Fl.val = [1, 2] := by simp [e1, e2]
  have hu : unitRoundoff Binary.f64 = 1 / 2 ^ 53 := by
    show ((1 / 2) ^ 53 : ℝ) = _
    norm_num
  have hr : ∀ d d' : Date, |Date.sub d d'| < (2 : Int) ^ (Binary.f64.prec - 1) := fun d d' =>
    lt_of_lt_of_le (sub_abs_lt _ _) (by show (2 : Int) ^ 28 ≤ 2 ^ 52; norm_num)
  refine ⟨?_, ?_⟩
  · obtain ⟨v, hv⟩ := (C58_domain (D := DayCount.act365) (Or.inr ⟨rfl, rfl⟩) (I := Interpolator.linear ℝ)
      (Or.inl ⟨rfl, rfl⟩) ⟨2024, 7, 1, by decide⟩ [⟨2024, 7, 1, by decide⟩, ⟨2026, 7, 1, by decide⟩] [1, 2] rfl (by decide)
      (le_refl _) ⟨2024, 7, 1, by decide⟩ ⟨2025, 7, 1, by decide⟩ (by decide) (by decide)).1
      ⟨⟨⟨⟨2024, 7, 1, by decide⟩, by simp, by decide⟩, ⟨⟨2026, 7, 1, by decide⟩, by simp, by decide⟩⟩, Or.inl rfl⟩
    obtain ⟨w, δ, hw, hδ, h1, h2⟩ := C92_discount (A := Binary.f64) (D := DayCount.act365) (E := DayCount.act365)
      (N := 365) (Or.inr ⟨rfl, rfl⟩) (Or.inr ⟨rfl, rfl⟩) ⟨2024, 7, 1, by decide⟩
      [⟨2024, 7, 1, by decide⟩, ⟨2026, 7, 1, by decide⟩] [i64 1, i64 2] 1 2 (unitRoundoff Binary.f64)
      (binary_within 53 (by norm_num)) (by rw [hu]; positivity) (by rw [hu]; norm_num) rfl (le_refl _) (by decide)
      (by decide) (by
        intro i m₀ m₁ h0 h1
        match i with
        | 0 => simp at h0 h1; subst h0 h1; simp
        | i + 1 => simp at h1) (by rw [hu]; norm_num) (by
        intro y hy
        simp at hy
        rcases hy with rfl | rfl
        · rw [e1]; norm_num
        · rw [e2]; norm_num) ⟨2024, 7, 1, by decide⟩ ⟨2025, 7, 1, by decide⟩ (fun d _ => hr _ _) v
      (by rw [hys]; exact hv)
    have k1 : Date.sub ⟨2024, 7, 1, by decide⟩ ⟨2024, 7, 1, by decide⟩ = 0 := by decide +kernel
    have k2 : Date.sub ⟨2025, 7, 1, by decide⟩ ⟨2024, 7, 1, by decide⟩ = 365 := by decide +kernel
    rw [hu] at h1 h2
    refine ⟨w, v, δ, hw, hv, ?_, h1, h2⟩
    rw [hδ, hu, years, years, k1, k2]
    norm_num
  · have h := (C92_discount_outcome (A := Binary.f64) (D := DayCount.act365) (E := DayCount.act365)
      (N := 365) (Or.inr ⟨rfl, rfl⟩) (Or.inr ⟨rfl, rfl⟩) ⟨2024, 7, 1, by decide⟩
      [⟨2024, 7, 1, by decide⟩, ⟨2026, 7, 1, by decide⟩] [i64 1, i64 2] rfl (le_refl _) (by decide)
      ⟨2024, 7, 1, by decide⟩ ⟨2027, 7, 1, by decide⟩ (fun d _ => hr _ _)).1 interpolationError
    rw [h, hys]
    refine (C58_domain (D := DayCount.act365) (Or.inr ⟨rfl, rfl⟩) (I := Interpolator.linear ℝ)
      (Or.inl ⟨rfl, rfl⟩) ⟨2024, 7, 1, by decide⟩ [⟨2024, 7, 1, by decide⟩, ⟨2026, 7, 1, by decide⟩] [1, 2] rfl (by decide)
      (le_refl _) ⟨2024, 7, 1, by decide⟩ ⟨2027, 7, 1, by decide⟩ (by decide) (by decide)).2 ?_
    rintro ⟨⟨-, m, hm, h⟩, -⟩
    simp at hm
    rcases hm with rfl | rfl
    · exact absurd h (by decide)
    · exact absurd h (by decide)

/-- One step of the running total in real numbers. -/
theorem pv_step {u q x P S c C d1 d2 r y : ℝ} (hu : 0 < u) (hu1 : u < 1) (hq : 0 ≤ q) (hd1 : |d1| ≤ u) (hd2 : |d2| ≤ u)
    (hx : 0 ≤ x) (hP : P = (q + x * (1 + d1)) * (1 + d2)) (hlo : c * y ≤ x) (hhi : x ≤ C * y) (hc : 0 ≤ c)
    (hC : 0 ≤ C) (hS : 0 ≤ S) (n : ℕ) (h1 : (1 - u) ^ n * P + (1 - u) ^ (n + 1) * (c * S) ≤ r)
    (h2 : r ≤ (1 + u) ^ n * P + (1 + u) ^ (n + 1) * (C * S)) :
    0 ≤ P ∧ (1 - u) ^ (n + 1) * q + (1 - u) ^ (n + 1 + 1) * (c * (y + S)) ≤ r ∧
      r ≤ (1 + u) ^ (n + 1) * q + (1 + u) ^ (n + 1 + 1) * (C * (y + S)) := by
  obtain ⟨a1, a2⟩ := abs_le.1 hd1
  obtain ⟨b1, b2⟩ := abs_le.1 hd2
  have l0 : 0 < 1 - u := by linarith
  have p1 : (1 - u) * (q + (1 - u) * x) ≤ P := by
    have i1 : q + (1 - u) * x ≤ q + x * (1 + d1) := by nlinarith
    have i0 : 0 ≤ q + (1 - u) * x := by positivity
    rw [hP, mul_comm]
    exact mul_le_mul i1 (by linarith) l0.le (le_trans i0 i1)
  have p2 : P ≤ (1 + u) * (q + (1 + u) * x) := by
    have i1 : q + x * (1 + d1) ≤ q + (1 + u) * x := by nlinarith
    rw [hP, mul_comm (1 + u)]
    exact mul_le_mul i1 (by linarith) (by linarith) (by positivity)
  have p0 : 0 ≤ P := le_trans (by positivity) p1
  refine ⟨p0, ?_, ?_⟩
  · have m1 : (1 - u) ^ n * ((1 - u) * (q + (1 - u) * x)) ≤ (1 - u) ^ n * P :=
      mul_le_mul_of_nonneg_left p1 (by positivity)
    have m2 : (1 - u) ^ (n + 1 + 1) * (c * y) ≤ (1 - u) ^ (n + 1 + 1) * x :=
      mul_le_mul_of_nonneg_left hlo (by positivity)
    have m3 : (1 - u) ^ (n + 1 + 1) * (c * S) ≤ (1 - u) ^ (n + 1) * (c * S) :=
      mul_le_mul_of_nonneg_right (pow_le_pow_of_le_one l0.le (by linarith) (by omega)) (by positivity)
    have e1 : (1 - u) ^ n * ((1 - u) * (q + (1 - u) * x)) = (1 - u) ^ (n + 1) * q + (1 - u) ^ (n + 1 + 1) * x := by ring
    have e2 : (1 - u) ^ (n + 1 + 1) * (c * (y + S)) = (1 - u) ^ (n + 1 + 1) * (c * y) + (1 - u) ^ (n + 1 + 1) * (c * S) := by
      ring
    linarith
  · have m1 : (1 + u) ^ n * P ≤ (1 + u) ^ n * ((1 + u) * (q + (1 + u) * x)) :=
      mul_le_mul_of_nonneg_left p2 (by positivity)
    have m2 : (1 + u) ^ (n + 1 + 1) * x ≤ (1 + u) ^ (n + 1 + 1) * (C * y) :=
      mul_le_mul_of_nonneg_left hhi (by positivity)
    have m3 : (1 + u) ^ (n + 1) * (C * S) ≤ (1 + u) ^ (n + 1 + 1) * (C * S) :=
      mul_le_mul_of_nonneg_right (pow_le_pow_right₀ (by linarith) (by omega)) (by positivity)
    have e1 : (1 + u) ^ n * ((1 + u) * (q + (1 + u) * x)) = (1 + u) ^ (n + 1) * q + (1 + u) ^ (n + 1 + 1) * x := by ring
    have e2 : (1 + u) ^ (n + 1 + 1) * (C * (y + S)) = (1 + u) ^ (n + 1 + 1) * (C * y) + (1 + u) ^ (n + 1 + 1) * (C * S) := by
      ring
    linarith

/-- The same dates, and amounts within a factor, the exact one not negative. -/
def AmountNear (k : ℝ) (g : BondCashFlow (Fl A)) (g' : BondCashFlow ℝ) : Prop :=
  g.dueDate = g'.dueDate ∧ g.paymentDate = g'.paymentDate ∧ 0 ≤ g'.paymentAmount ∧
    |g.paymentAmount.val - g'.paymentAmount| ≤ k * g'.paymentAmount

/-- The two running totals. -/
theorem pv_sim {I : Interpolator (Fl A)} {J : Interpolator ℝ} {D : DayCount (Fl A)} {E : DayCount ℝ}
    {c : YieldCurve (Fl A) I} {c' : YieldCurve ℝ J} {s : Date} {ε δ k : ℝ} (hε1 : ε ≤ 1) (hε0 : 0 ≤ ε) (hk0 : 0 ≤ k)
    (hk : k ≤ 1) (l : List (BondCashFlow (Fl A))) (l' : List (BondCashFlow ℝ)) (hl : List.Forall₂ (AmountNear k) l l')
    (h : ∀ g ∈ l, (∃ e, c.discountFactor D s g.paymentDate = .ok (.error e) ∧
        c'.discountFactor E s g.paymentDate = .ok (.error e)) ∨
      (∃ w v, c.discountFactor D s g.paymentDate = .ok (.ok w) ∧ c'.discountFactor E s g.paymentDate = .ok (.ok v) ∧
        0 < v ∧ Near ε δ v w.val)) (q : Fl A) (q' : ℝ) (hq : 0 ≤ q.val) :
    (∃ e, Bond.pvLoop D s c q l = .ok (.error e) ∧ Bond.pvLoop E s c' q' l' = .ok (.error e)) ∨
    (∃ r S, Bond.pvLoop D s c q l = .ok (.ok r) ∧ Bond.pvLoop E s c' q' l' = .ok (.ok (q' + S)) ∧ 0 ≤ S ∧
      (1 - unitRoundoff A) ^ (l.filter fun g => s < g.dueDate).length * q.val +
        (1 - unitRoundoff A) ^ ((l.filter fun g => s < g.dueDate).length + 1) *
          ((1 - k) * (1 - ε) * Real.exp (-δ) * S) ≤ r.val ∧
      r.val ≤ (1 + unitRoundoff A) ^ (l.filter fun g => s < g.dueDate).length * q.val +
        (1 + unitRoundoff A) ^ ((l.filter fun g => s < g.dueDate).length + 1) *
          ((1 + k) * (1 + ε) * Real.exp δ * S)) := by
  have hu := A.unit_pos
  have hu1 := A.unit_le
  induction hl generalizing q q' with
  | nil => exact .inr ⟨q, 0, rfl, by simp [Bond.pvLoop], le_refl _, by simp, by simp⟩
  | @cons g g' l l' hg hl ih =>
    have ih := ih (fun g hg => h g (by simp [hg]))
    obtain ⟨h1, h2, h3, h4⟩ := hg
    rw [Bond.pvLoop, Bond.pvLoop, ← h1, ← h2]
    by_cases hdue : s < g.dueDate
    · rw [if_pos hdue, if_pos hdue, List.filter_cons_of_pos (by simpa using hdue), List.length_cons]
      rcases h g (by simp) with ⟨e, e1, e2⟩ | ⟨w, v, e1, e2, hv, hn1, hn2⟩
      · exact .inl ⟨e, by rw [e1]; rfl, by rw [e2]; rfl⟩
      rw [e1, e2]
      simp only [Rust.ok_bind]
      obtain ⟨a1, a2⟩ := abs_le.1 h4
      have ex := Real.exp_pos (-δ)
      have ex' := Real.exp_pos δ
      have hw0 : 0 ≤ w.val := le_trans (mul_nonneg (mul_nonneg (by linarith) ex.le) hv.le) hn1
      have ha0 : 0 ≤ g.paymentAmount.val := by nlinarith
      have hlo : (1 - k) * (1 - ε) * Real.exp (-δ) * (v * g'.paymentAmount) ≤ w.val * g.paymentAmount.val := by
        have := mul_le_mul hn1 (show (1 - k) * g'.paymentAmount ≤ g.paymentAmount.val by linarith)
          (mul_nonneg (by linarith) h3) hw0
        linarith
      have hhi : w.val * g.paymentAmount.val ≤ (1 + k) * (1 + ε) * Real.exp δ * (v * g'.paymentAmount) := by
        have := mul_le_mul hn2 (show g.paymentAmount.val ≤ (1 + k) * g'.paymentAmount by linarith) ha0
          (mul_nonneg (mul_nonneg (by linarith) ex'.le) hv.le)
        linarith
      obtain ⟨d1, hd1, f1⟩ := A.fl_factor (w.val * g.paymentAmount.val)
      obtain ⟨d2, hd2, f2⟩ := A.fl_factor (q.val + w.val * g.paymentAmount.val * (1 + d1))
      have hP : (q + w * g.paymentAmount).val =
          (q.val + w.val * g.paymentAmount.val * (1 + d1)) * (1 + d2) := by
        rw [Fl.val_add, Fl.val_mul, f1, f2]
      have hP0 : 0 ≤ (q + w * g.paymentAmount).val := by
        rw [hP]
        have := (abs_le.1 hd1).1
        have := (abs_le.1 hd2).1
        exact mul_nonneg (add_nonneg hq (mul_nonneg (mul_nonneg hw0 ha0) (by linarith))) (by linarith)
      rcases ih (q + w * g.paymentAmount) (q' + v * g'.paymentAmount) hP0 with h' | ⟨r, S, r1, r2, r3, r4, r5⟩
      · exact .inl h'
      · refine .inr ⟨r, v * g'.paymentAmount + S, r1, by rw [r2, add_assoc], by positivity, ?_⟩
        exact (pv_step hu (by linarith) hq hd1 hd2 (mul_nonneg hw0 ha0) hP hlo hhi
          (mul_nonneg (mul_nonneg (by linarith) (by linarith)) ex.le)
          (mul_nonneg (mul_nonneg (by linarith) (by linarith)) ex'.le) r3 _ r4 r5).2
    · rw [if_neg hdue, if_neg hdue, List.filter_cons_of_neg (by simpa using hdue)]
      exact ih q q' hq

/-- No amount of an exact bond with ordered dates, rate and face value not negative is negative, and the last is at least
the face value. -/
theorem exact_amounts {id : String} {issue first pen mat : Date} {f : Frequency} {rate face : ℝ} {b : Bond ℝ}
    (h : Bond.new id issue first pen mat f rate face = .ok (some b)) (hi : issue < first) (hm : pen < mat)
    (hr : 0 ≤ rate) (hf : 0 ≤ face) :
    (∀ g ∈ b.bondCashFlows, 0 ≤ g.paymentAmount) ∧
    ∀ i g, b.bondCashFlows[i]? = some g → i + 1 = b.bondCashFlows.length → face ≤ g.paymentAmount := by
  obtain ⟨coupons, final, hb, hk, h0, ⟨x, hx, hfin⟩, -, -⟩ := C50_amounts h
  have hc : 0 ≤ rate * face / 2 := by positivity
  have hx0 := (C50_last_length_bounds x hx hm).1
  have hlast : face ≤ final.paymentAmount := by
    rw [hfin]
    have := mul_nonneg hc hx0.le
    linarith
  constructor
  · intro g hg
    rw [hb, List.mem_append, List.mem_singleton] at hg
    rcases hg with hg | rfl
    · obtain ⟨k, hk', rfl⟩ := List.getElem_of_mem hg
      rcases Nat.eq_zero_or_pos k with rfl | hpos
      · obtain ⟨y, hy, he⟩ := h0 coupons[0] (by rw [List.head?_eq_getElem?, List.getElem?_eq_getElem])
        rw [he]
        exact mul_nonneg hc (C50_first_length_bounds y hy hi).1.le
      · rw [hk k hk' hpos]; exact hc
    · linarith
  · intro i g hg hi
    rw [hb] at hg hi
    have : i = coupons.length := by simp at hi; exact hi
    subst this
    simp only [List.getElem?_concat_length, Option.some.injEq] at hg
    rw [← hg]; exact hlast

/-- The flows of the floating-point bond next to those of the exact bond. -/
theorem flows_near {id : String} {issue first pen mat : Date} {f : Frequency} {rate face : Fl A} {b : Bond (Fl A)}
    {b' : Bond ℝ} (h : Bond.new id issue first pen mat f rate face = .ok (some b))
    (h' : Bond.new id issue first pen mat f rate.val face.val = .ok (some b')) (hi : issue < first) (hm : pen < mat)
    (hr : 0 ≤ rate) (hf : 0 ≤ face) :
    List.Forall₂ (AmountNear (10 * unitRoundoff A)) b.bondCashFlows b'.bondCashFlows := by
  obtain ⟨b'', e, hlen, hall⟩ := C77_flows _ _ _ _ _ _ _ _ b h
  rw [h'] at e
  obtain rfl : b' = b'' := by simpa using e
  have hf' : 0 ≤ face.val := hf
  obtain ⟨n1, n2⟩ := exact_amounts h' hi hm hr hf'
  refine List.forall₂_iff_get.2 ⟨hlen, fun i h1 h2 => ?_⟩
  simp only [List.get_eq_getElem]
  obtain ⟨q1, q2, q3, q4⟩ := hall i _ _ (List.getElem?_eq_getElem h1) (List.getElem?_eq_getElem h2)
  have p0 := n1 _ (List.getElem_mem h2)
  refine ⟨q1, q2, p0, ?_⟩
  rcases Nat.lt_or_ge (i + 1) b.bondCashFlows.length with hlt | hge
  · have := q3 hlt
    rwa [abs_of_nonneg p0] at this
  · have hl : i + 1 = b.bondCashFlows.length := by omega
    have := q4 hl
    have p1 := n2 i _ (List.getElem?_eq_getElem h2) (by omega)
    rw [abs_of_nonneg hf', abs_of_nonneg (sub_nonneg.2 p1)] at this
    exact le_trans this (le_of_eq (by ring))

/-- The two prices: the same error, or values close to each other. -/
theorem curve_prices {D : DayCount (Fl A)} {E : DayCount ℝ} {N : Int} (hD : IsActualDayCount D N)
    (hE : IsActualDayCount E N) {cs : Date} {ms : List Date} {ys : List (Fl A)} {κ Y T ε : ℝ} (hε : ExpWithin A ε)
    (hε0 : 0 ≤ ε) (hε1 : ε ≤ 1) (hlen : ms.length = ys.length) (h2 : 2 ≤ ms.length) (hms : ms.Pairwise (· < ·))
    (hbase : ∀ m ∈ ms, cs ≤ m) (hκ : GapRatio cs ms κ) (hκu : 16 * unitRoundoff A * κ ≤ 1)
    (hY : ∀ y ∈ ys, |y.val| ≤ Y) (hT : ∀ m ∈ ms, years N cs m ≤ T) {id : String} {issue first pen mat : Date}
    {f : Frequency} {rate face : Fl A} {b : Bond (Fl A)} {b' : Bond ℝ} {s : Date}
    (hb : Bond.new id issue first pen mat f rate face = .ok (some b))
    (hb' : Bond.new id issue first pen mat f rate.val face.val = .ok (some b')) (hi : issue < first) (hm : pen < mat)
    (hr0 : 0 ≤ rate) (hf0 : 0 ≤ face)
    (hr : ∀ d ∈ s :: ms ++ b.bondCashFlows.map (·.paymentDate), |Date.sub d cs| < 2 ^ (A.prec - 1)) :
    (∃ e, curvePrice D (Interpolator.linear (Fl A)) cs ms ys b s = .ok (.error e) ∧
      curvePrice E (Interpolator.linear ℝ) cs ms (ys.map Fl.val) b' s = .ok (.error e)) ∨
    (∃ w v, curvePrice D (Interpolator.linear (Fl A)) cs ms ys b s = .ok (.ok w) ∧
      curvePrice E (Interpolator.linear ℝ) cs ms (ys.map Fl.val) b' s = .ok (.ok v) ∧ 0 ≤ v ∧
      (1 - unitRoundoff A) ^ ((remaining b s).length + 1) *
        ((1 - 10 * unitRoundoff A) * (1 - ε) * Real.exp (-(60 * κ * unitRoundoff A * Y * T)) * v) ≤ w.val ∧
      w.val ≤ (1 + unitRoundoff A) ^ ((remaining b s).length + 1) *
        ((1 + 10 * unitRoundoff A) * (1 + ε) * Real.exp (60 * κ * unitRoundoff A * Y * T) * v)) := by
  obtain ⟨c, c', hc, hc', hall⟩ := curve_discounts hD hE hε hε0 hε1 hlen h2 hms hbase hκ hκu hY
    (fun m hm => hr m (by simp [hm]))
  unfold curvePrice Bond.discountedValue
  rw [hc, hc']
  simp only [Rust.ok_bind]
  have hu := A.unit_pos
  have hu1 := A.unit_le
  have hN0 : 0 < N := by rcases hD with ⟨-, h⟩ | ⟨-, h⟩ <;> omega
  have hY0 : 0 ≤ Y := by
    obtain ⟨y, hy⟩ : ∃ y, y ∈ ys := List.exists_mem_of_length_pos (by omega)
    exact le_trans (abs_nonneg _) (hY y hy)
  have hκ0 : 0 ≤ κ := by
    have e0 : ms[0]? = some ms[0] := List.getElem?_eq_getElem (by omega)
    have e1 : ms[0 + 1]? = some ms[0 + 1] := List.getElem?_eq_getElem (by omega)
    have hg := hκ 0 _ _ e0 e1
    have hlt := List.pairwise_iff_getElem.1 hms 0 (0 + 1) (by omega) (by omega) (by omega)
    have b1 := hbase _ (List.getElem_mem (show 0 + 1 < ms.length by omega))
    have p1 : (0 : ℝ) < (Date.sub ms[0 + 1] ms[0] : Int) := sub_cast_pos hlt
    have p2 : (0 : ℝ) ≤ (Date.sub ms[0 + 1] cs : Int) := by
      rcases eq_or_lt_of_le b1 with h | h
      · rw [← h]
        have : Date.sub cs cs = 0 := by rw [C04_sub_serial]; omega
        simp [this]
      · exact (sub_cast_pos h).le
    by_contra hn
    have := mul_neg_of_neg_of_pos (not_le.1 hn) p1
    linarith
  rcases pv_sim (D := D) (E := E) (c := c) (c' := c') (s := s) (ε := ε) (δ := 60 * κ * unitRoundoff A * Y * T)
      (k := 10 * unitRoundoff A) hε1 hε0 (by positivity) (by linarith) _ _ (flows_near hb hb' hi hm hr0 hf0) (by
    intro g hg
    rcases hall s g.paymentDate (hr _ (by simp)) (hr _ (by
      simp only [List.cons_append, List.mem_cons, List.mem_append, List.mem_map]
      exact .inr (.inr ⟨g, hg, rfl⟩))) with h | ⟨w, v, h1, h2, h3, h4, ⟨m, hm1, hm2⟩, h5, h6, h7⟩
    · exact .inl h
    · refine .inr ⟨w, v, h1, h2, h5, ?_⟩
      have t2 : years N cs g.paymentDate ≤ T := le_trans (years_le hN0 hm2) (hT m hm1)
      have t1 : years N cs s ≤ T := le_trans (years_le hN0 h4) t2
      have hδ : 30 * κ * unitRoundoff A * Y * (years N cs s + years N cs g.paymentDate) ≤
          60 * κ * unitRoundoff A * Y * T := by
        have : 0 ≤ 30 * κ * unitRoundoff A * Y := by positivity
        nlinarith
      constructor
      · refine le_trans (mul_le_mul_of_nonneg_right (mul_le_mul_of_nonneg_left (Real.exp_le_exp.2 (neg_le_neg hδ))
          (by linarith)) h5.le) h6
      · exact le_trans h7 (mul_le_mul_of_nonneg_right (mul_le_mul_of_nonneg_left (Real.exp_le_exp.2 hδ)
          (by linarith)) h5.le)) 0 0 (by rw [Fl.val_zero]) with h | ⟨r, S, r1, r2, r3, r4, r5⟩
  · exact .inl h
  · right
    rw [zero_add] at r2
    rw [Fl.val_zero, mul_zero, zero_add] at r4 r5
    exact ⟨r, S, r1, r2, r3, r4, r5⟩

/-- **C92.** From market data to price.  A semiannual bond with ordered dates, rate and face value not negative, priced on a
linear curve under Act/360 or Act/365, in floating point and in exact arithmetic from the same floating-point yields, rate
and face value: where the exact price `v` exists so does the floating-point one, and their ratio is between
`(1 - u) ^ (n + 1) (1 - 10 u) (1 - ε) exp (-δ)` and `(1 + u) ^ (n + 1) (1 + 10 u) (1 + ε) exp δ`, with `n` the number of
remaining flows, `ε` the accuracy of `exp`, and `δ = 60 κ u Y T`: `Y` bounds the yields, `T` the times to the maturities,
`κ` how many times further a maturity lies from settlement than from the maturity before it. -/
theorem C92_price {D : DayCount (Fl A)} {E : DayCount ℝ} {N : Int} (hD : IsActualDayCount D N)
    (hE : IsActualDayCount E N) (cs : Date) (ms : List Date) (ys : List (Fl A)) (κ Y T ε : ℝ) (hε : ExpWithin A ε)
    (hε0 : 0 ≤ ε) (hε1 : ε ≤ 1) (hlen : ms.length = ys.length) (h2 : 2 ≤ ms.length) (hms : ms.Pairwise (· < ·))
    (hbase : ∀ m ∈ ms, cs ≤ m) (hκ : GapRatio cs ms κ) (hκu : 16 * unitRoundoff A * κ ≤ 1)
    (hY : ∀ y ∈ ys, |y.val| ≤ Y) (hT : ∀ m ∈ ms, years N cs m ≤ T) (id : String) (issue first pen mat : Date)
    (f : Frequency) (rate face : Fl A) (b : Bond (Fl A)) (b' : Bond ℝ) (s : Date)
    (hb : Bond.new id issue first pen mat f rate face = .ok (some b))
    (hb' : Bond.new id issue first pen mat f rate.val face.val = .ok (some b')) (hi : issue < first) (hm : pen < mat)
    (hr0 : 0 ≤ rate) (hf0 : 0 ≤ face)
    (hr : ∀ d ∈ s :: ms ++ b.bondCashFlows.map (·.paymentDate), |Date.sub d cs| < 2 ^ (A.prec - 1)) (v : ℝ)
    (h : curvePrice E (Interpolator.linear ℝ) cs ms (ys.map Fl.val) b' s = .ok (.ok v)) :
    ∃ w δ n, curvePrice D (Interpolator.linear (Fl A)) cs ms ys b s = .ok (.ok w) ∧
      δ = 60 * κ * unitRoundoff A * Y * T ∧ n = (remaining b s).length ∧
      (1 - unitRoundoff A) ^ (n + 1) * ((1 - 10 * unitRoundoff A) * (1 - ε) * Real.exp (-δ) * v) ≤ w.val ∧
      w.val ≤ (1 + unitRoundoff A) ^ (n + 1) * ((1 + 10 * unitRoundoff A) * (1 + ε) * Real.exp δ * v) := by
  rcases curve_prices hD hE hε hε0 hε1 hlen h2 hms hbase hκ hκu hY hT hb hb' hi hm hr0 hf0 hr with
    ⟨e, -, h'⟩ | ⟨w, v', h1, h2, -, h3, h4⟩
  · rw [h'] at h; simp at h
  · rw [h2] at h
    obtain rfl : v' = v := by simpa using h
    exact ⟨w, _, _, h1, rfl, rfl, h3, h4⟩

/-- The price of bonds with the same dates fails alike on two curves that fail alike. -/
theorem pv_outcome {V W : Type} [Neg V] [Add V] [Sub V] [Mul V] [HasExp V] [Neg W] [Add W] [Sub W] [Mul W] [HasExp W]
    {I : Interpolator V} {J : Interpolator W} {D : DayCount V} {E : DayCount W} {c : YieldCurve V I}
    {c' : YieldCurve W J} {s : Date} (l : List (BondCashFlow V)) (l' : List (BondCashFlow W))
    (hl : List.Forall₂ (fun g g' => g.dueDate = g'.dueDate ∧ g.paymentDate = g'.paymentDate) l l')
    (h : ∀ g ∈ l, (∃ e, c.discountFactor D s g.paymentDate = .ok (.error e) ∧
        c'.discountFactor E s g.paymentDate = .ok (.error e)) ∨
      (∃ w v, c.discountFactor D s g.paymentDate = .ok (.ok w) ∧ c'.discountFactor E s g.paymentDate = .ok (.ok v)))
    (q : V) (q' : W) :
    (∃ e, Bond.pvLoop D s c q l = .ok (.error e) ∧ Bond.pvLoop E s c' q' l' = .ok (.error e)) ∨
    (∃ r r', Bond.pvLoop D s c q l = .ok (.ok r) ∧ Bond.pvLoop E s c' q' l' = .ok (.ok r')) := by
  induction hl generalizing q q' with
  | nil => exact .inr ⟨q, q', rfl, rfl⟩
  | @cons g g' l l' hg hl ih =>
    have ih := ih (fun g hg => h g (by simp [hg]))
    rw [Bond.pvLoop, Bond.pvLoop, ← hg.1, ← hg.2]
    by_cases hdue : s < g.dueDate
    · rw [if_pos hdue, if_pos hdue]
      rcases h g (by simp) with ⟨e, e1, e2⟩ | ⟨w, v, e1, e2⟩
      · exact .inl ⟨e, by rw [e1]; rfl, by rw [e2]; rfl⟩
      · rw [e1, e2]
        simp only [Rust.ok_bind]
        exact ih _ _
    · rw [if_neg hdue, if_neg hdue]
      exact ih q q'

/-- **C92.** Pricing fails with the same error in floating point as in exact arithmetic, for the same bond on the same linear
curve under Act/360 or Act/365, whatever the yields, the rate and the face value; it never panics. -/
theorem C92_price_outcome {D : DayCount (Fl A)} {E : DayCount ℝ} {N : Int} (hD : IsActualDayCount D N)
    (hE : IsActualDayCount E N) (cs : Date) (ms : List Date) (ys : List (Fl A)) (hlen : ms.length = ys.length)
    (h2 : 2 ≤ ms.length) (hms : ms.Pairwise (· < ·)) (id : String) (issue first pen mat : Date)
    (f : Frequency) (rate face : Fl A) (b : Bond (Fl A)) (b' : Bond ℝ) (s : Date)
    (hb : Bond.new id issue first pen mat f rate face = .ok (some b))
    (hb' : Bond.new id issue first pen mat f rate.val face.val = .ok (some b'))
    (hr : ∀ d ∈ s :: ms ++ b.bondCashFlows.map (·.paymentDate), |Date.sub d cs| < 2 ^ (A.prec - 1)) :
    (∀ e, curvePrice D (Interpolator.linear (Fl A)) cs ms ys b s = .ok (.error e) ↔
      curvePrice E (Interpolator.linear ℝ) cs ms (ys.map Fl.val) b' s = .ok (.error e)) ∧
    curvePrice D (Interpolator.linear (Fl A)) cs ms ys b s ≠ .panic ∧
    curvePrice E (Interpolator.linear ℝ) cs ms (ys.map Fl.val) b' s ≠ .panic := by
  obtain ⟨c, c', hc, hc', hout⟩ := discounts_outcome hD hE cs ms ys hlen h2 hms
  obtain ⟨b'', e', hl, hall⟩ := C77_flows _ _ _ _ _ _ _ _ b hb
  rw [hb'] at e'
  obtain rfl : b' = b'' := by simpa using e'
  unfold curvePrice Bond.discountedValue
  rw [hc, hc']
  simp only [Rust.ok_bind]
  rcases pv_outcome (D := D) (E := E) (c := c) (c' := c') (s := s) b.bondCashFlows b'.bondCashFlows
    (List.forall₂_iff_get.2 ⟨hl, fun i h1 h2 => by
      have := hall i _ _ (List.getElem?_eq_getElem h1) (List.getElem?_eq_getElem h2)
      exact ⟨this.1, this.2.1⟩⟩) (by
    intro g hg
    refine hout s g.paymentDate (fun d hd => ?_)
    simp only [List.mem_cons] at hd
    rcases hd with rfl | rfl | hd
    · exact hr _ (by simp)
    · exact hr _ (by
        simp only [List.cons_append, List.mem_cons, List.mem_append, List.mem_map]
        exact .inr (.inr ⟨g, hg, rfl⟩))
    · exact hr _ (by simp [hd])) 0 0 with ⟨e', h1, h2⟩ | ⟨r, r', h1, h2⟩ <;> rw [h1, h2] <;> simp

/-- Relative error from the product of the factors. -/
theorem relative_error {u ε δ v w : ℝ} {m : ℕ} (hu : 0 ≤ u) (hu1 : 10 * u ≤ 1) (hε0 : 0 ≤ ε) (hε1 : ε ≤ 1) (hδ : 0 ≤ δ)
    (hv : 0 ≤ v) (hx : m * u + 10 * u + ε + δ < 1)
    (h1 : (1 - u) ^ m * ((1 - 10 * u) * (1 - ε) * Real.exp (-δ) * v) ≤ w)
    (h2 : w ≤ (1 + u) ^ m * ((1 + 10 * u) * (1 + ε) * Real.exp δ * v)) :
    |w - v| ≤ (m * u + 10 * u + ε + δ) / (1 - (m * u + 10 * u + ε + δ)) * v := by
  generalize hX : m * u + 10 * u + ε + δ = X at *
  have hm : (0 : ℝ) ≤ m * u := by positivity
  have hX0 : 0 ≤ X := by linarith
  have hX1 : 0 < 1 - X := by linarith
  have up : (1 + u) ^ m * ((1 + 10 * u) * (1 + ε) * Real.exp δ) ≤ Real.exp X := by
    have a1 : (1 + u) ^ m ≤ Real.exp (m * u) := by
      rw [Real.exp_nat_mul]
      exact pow_le_pow_left₀ (by linarith) (by linarith [Real.add_one_le_exp u]) m
    have a2 : 1 + 10 * u ≤ Real.exp (10 * u) := by linarith [Real.add_one_le_exp (10 * u)]
    have a3 : 1 + ε ≤ Real.exp ε := by linarith [Real.add_one_le_exp ε]
    rw [← hX, Real.exp_add, Real.exp_add, Real.exp_add]
    calc (1 + u) ^ m * ((1 + 10 * u) * (1 + ε) * Real.exp δ)
        ≤ Real.exp (m * u) * (Real.exp (10 * u) * Real.exp ε * Real.exp δ) := by
          gcongr
      _ = _ := by ring
  have up' : Real.exp X ≤ 1 / (1 - X) := by
    have := Real.add_one_le_exp (-X)
    rw [Real.exp_neg] at this
    rw [le_div_iff₀ hX1]
    have e0 := Real.exp_pos X
    have := mul_le_mul_of_nonneg_right this e0.le
    rw [inv_mul_cancel₀ e0.ne'] at this
    linarith
  have lo : 1 - X ≤ (1 - u) ^ m * ((1 - 10 * u) * (1 - ε) * Real.exp (-δ)) := by
    have pr : ∀ a b x y : ℝ, 0 ≤ a → 0 ≤ b → b ≤ 1 → 1 - x ≤ a → 1 - y ≤ b → 0 ≤ x → 1 - (x + y) ≤ a * b := by
      intro a b x y ha hb hb1 hx hy hx0
      nlinarith [mul_nonneg ha hb, mul_le_mul_of_nonneg_right hx hb, mul_le_mul_of_nonneg_left hb1 hx0]
    have b1 : 1 - m * u ≤ (1 - u) ^ m := by
      have := one_add_mul_le_pow (show (-2 : ℝ) ≤ -u by linarith) m
      have e : (1 + -u) ^ m = (1 - u) ^ m := by rw [← sub_eq_add_neg]
      rw [e] at this
      linarith
    have b2 := pr _ _ _ _ (pow_nonneg (show (0 : ℝ) ≤ 1 - u by linarith) m) (show 0 ≤ 1 - 10 * u by linarith)
      (by linarith) b1 (le_refl (1 - 10 * u)) hm
    have n2 : 0 ≤ (1 - u) ^ m * (1 - 10 * u) := mul_nonneg (pow_nonneg (by linarith) m) (by linarith)
    have b3 := pr _ _ _ _ n2 (show 0 ≤ 1 - ε by linarith) (by linarith) b2 (le_refl (1 - ε)) (by positivity)
    have b4 := pr _ _ _ δ (mul_nonneg n2 (show 0 ≤ 1 - ε by linarith)) (Real.exp_pos (-δ)).le
      (Real.exp_le_one_iff.2 (by linarith)) b3 (by linarith [Real.add_one_le_exp (-δ)]) (by positivity)
    rw [← hX]
    calc _ ≤ _ := b4
      _ = _ := by ring
  have w2 : w ≤ 1 / (1 - X) * v := by
    refine le_trans h2 ?_
    have := mul_le_mul_of_nonneg_right (up.trans up') hv
    linarith
  have w1 : (1 - X) * v ≤ w := by
    refine le_trans ?_ h1
    have := mul_le_mul_of_nonneg_right lo hv
    linarith
  have e1 : 1 / (1 - X) = 1 + X / (1 - X) := by field_simp; ring
  have e2 : X ≤ X / (1 - X) := by
    rw [le_div_iff₀ hX1]; nlinarith
  rw [e1] at w2
  have := mul_le_mul_of_nonneg_right e2 hv
  exact abs_le.2 ⟨by linarith, by linarith⟩

/-- **C92.** The same as a relative error: the floating-point price is within `X / (1 - X)` of the exact one, relative to
it, with `X = (n + 11) u + ε + 60 κ u Y T` below 1. -/
theorem C92_price_relative {D : DayCount (Fl A)} {E : DayCount ℝ} {N : Int} (hD : IsActualDayCount D N)
    (hE : IsActualDayCount E N) (cs : Date) (ms : List Date) (ys : List (Fl A)) (κ Y T ε : ℝ) (hε : ExpWithin A ε)
    (hε0 : 0 ≤ ε) (hlen : ms.length = ys.length) (h2 : 2 ≤ ms.length) (hms : ms.Pairwise (· < ·))
    (hbase : ∀ m ∈ ms, cs ≤ m) (hκ : GapRatio cs ms κ) (hκ0 : 0 ≤ κ) (hκu : 16 * unitRoundoff A * κ ≤ 1)
    (hY : ∀ y ∈ ys, |y.val| ≤ Y) (hT : ∀ m ∈ ms, years N cs m ≤ T) (id : String) (issue first pen mat : Date)
    (f : Frequency) (rate face : Fl A) (b : Bond (Fl A)) (b' : Bond ℝ) (s : Date)
    (hb : Bond.new id issue first pen mat f rate face = .ok (some b))
    (hb' : Bond.new id issue first pen mat f rate.val face.val = .ok (some b')) (hi : issue < first) (hm : pen < mat)
    (hr0 : 0 ≤ rate) (hf0 : 0 ≤ face)
    (hr : ∀ d ∈ s :: ms ++ b.bondCashFlows.map (·.paymentDate), |Date.sub d cs| < 2 ^ (A.prec - 1)) (v : ℝ)
    (h : curvePrice E (Interpolator.linear ℝ) cs ms (ys.map Fl.val) b' s = .ok (.ok v)) (X : ℝ)
    (hX : X = ((remaining b s).length + 11) * unitRoundoff A + ε + 60 * κ * unitRoundoff A * Y * T) (hX1 : X < 1) :
    ∃ w, curvePrice D (Interpolator.linear (Fl A)) cs ms ys b s = .ok (.ok w) ∧ 0 ≤ v ∧
      |w.val - v| ≤ X / (1 - X) * v := by
  have hu := A.unit_pos
  have hu1 := A.unit_le
  have hN0 : 0 < N := by rcases hD with ⟨-, h⟩ | ⟨-, h⟩ <;> omega
  have hY0 : 0 ≤ Y := by
    obtain ⟨y, hy⟩ : ∃ y, y ∈ ys := List.exists_mem_of_length_pos (by omega)
    exact le_trans (abs_nonneg _) (hY y hy)
  have hT0 : 0 ≤ T := by
    obtain ⟨m, hm⟩ : ∃ m, m ∈ ms := List.exists_mem_of_length_pos (by omega)
    exact le_trans (years_nonneg hN0 (hbase m hm)) (hT m hm)
  have hδ : 0 ≤ 60 * κ * unitRoundoff A * Y * T := by positivity
  have hn : (0 : ℝ) ≤ ((remaining b s).length + 11) * unitRoundoff A := by positivity
  have hε1 : ε ≤ 1 := by linarith
  rcases curve_prices hD hE hε hε0 hε1 hlen h2 hms hbase hκ hκu hY hT hb hb' hi hm hr0 hf0 hr with
    ⟨e, -, h'⟩ | ⟨w, v', h1, h2, h0, h3, h4⟩
  · rw [h'] at h; simp at h
  · rw [h2] at h
    obtain rfl : v' = v := by simpa using h
    refine ⟨w, h1, h0, ?_⟩
    have e : X = ((remaining b s).length + 1 : ℕ) * unitRoundoff A + 10 * unitRoundoff A + ε +
        60 * κ * unitRoundoff A * Y * T := by rw [hX]; push_cast; ring
    rw [e] at hX1 ⊢
    exact relative_error hu.le (by linarith) hε0 hε1 hδ h0 hX1 h3 h4

/-- In `f64` with a correctly rounded `exp`: a one-year bond with face value 100 and rate 1 on a curve whose yields run from
1 to 2 over two years.  The price in `f64` exists and is within a relative `10 ^ -12` of the exact price. -/
example : ∃ (b : Bond (Fl Binary.f64)) (b' : Bond ℝ) (w : Fl Binary.f64) (v : ℝ),
    Bond.new "b" ⟨2024, 7, 1, by decide⟩ ⟨2025, 1, 1, by decide⟩ ⟨2025, 1, 1, by decide⟩ ⟨2025, 7, 1, by decide⟩ .sa
      (i64 1) (i64 100) = .ok (some b) ∧
    Bond.new "b" ⟨2024, 7, 1, by decide⟩ ⟨2025, 1, 1, by decide⟩ ⟨2025, 1, 1, by decide⟩ ⟨2025, 7, 1, by decide⟩ .sa
      (1 : ℝ) 100 = .ok (some b') ∧
    curvePrice DayCount.act365 (Interpolator.linear (Fl Binary.f64)) ⟨2024, 7, 1, by decide⟩
      [⟨2024, 7, 1, by decide⟩, ⟨2026, 7, 1, by decide⟩] [i64 1, i64 2] b ⟨2024, 7, 1, by decide⟩ = .ok (.ok w) ∧
    curvePrice DayCount.act365 (Interpolator.linear ℝ) ⟨2024, 7, 1, by decide⟩
      [⟨2024, 7, 1, by decide⟩, ⟨2026, 7, 1, by decide⟩] [1, 2] b' ⟨2024, 7, 1, by decide⟩ = .ok (.ok v) ∧
    |w.val - v| ≤ 1 / 10 ^ 12 * v := by
  have hq : FromInt.fromInt (V := Fl Binary.f64) 2 = some (i64 2) := rfl
  have hq' : FromInt.fromInt (V := ℝ) 2 = some ((2 : Int) : ℝ) := rfl
  have hb := one_coupon_bond (i64 2) (i64 1) (i64 100) hq
  have hb' := one_coupon_bond ((2 : Int) : ℝ) (1 : ℝ) 100 hq'
  have e1 : (i64 1).val = 1 := by rw [i64_val _ (by decide)]; norm_num
  have e2 : (i64 2).val = 2 := by rw [i64_val _ (by decide)]; norm_num
  have e100 : (i64 100).val = 100 := by rw [i64_val _ (by decide)]; norm_num
  generalize hB : (⟨"b", [⟨⟨2025, 1, 1, by decide⟩, ⟨2025, 1, 1, by decide⟩, (1 : ℝ) * 100 / ((2 : Int) : ℝ)⟩,
    ⟨⟨2025, 7, 1, by decide⟩, ⟨2025, 7, 1, by decide⟩, 100 + 1 * 100 / ((2 : Int) : ℝ)⟩]⟩ : Bond ℝ) = b' at hb'
  generalize hB' : (⟨"b", [⟨⟨2025, 1, 1, by decide⟩, ⟨2025, 1, 1, by decide⟩, i64 1 * i64 100 / i64 2⟩,
    ⟨⟨2025, 7, 1, by decide⟩, ⟨2025, 7, 1, by decide⟩, i64 100 + i64 1 * i64 100 / i64 2⟩]⟩ : Bond (Fl Binary.f64)) = b at hb
  have hfl : ∀ g ∈ b'.bondCashFlows, g.dueDate = g.paymentDate ∧
      (g.paymentDate = ⟨2025, 1, 1, by decide⟩ ∨ g.paymentDate = ⟨2025, 7, 1, by decide⟩) := by
    rw [← hB]; simp
  have hlen : (remaining b ⟨2024, 7, 1, by decide⟩).length ≤ 2 := by
    rw [← hB']; exact List.length_filter_le _ _
  obtain ⟨v, hv⟩ := (C52_shipped_domain (D := DayCount.act365) (Or.inr ⟨rfl, rfl⟩) (I := Interpolator.linear ℝ)
    (Or.inl ⟨rfl, rfl⟩) ⟨2024, 7, 1, by decide⟩ [⟨2024, 7, 1, by decide⟩, ⟨2026, 7, 1, by decide⟩] [1, 2] rfl (by decide)
    (le_refl _) b' ⟨2024, 7, 1, by decide⟩ (le_refl _) (fun g hg => (hfl g hg).1.le)).1 ⟨by
      intro g hg
      rcases (hfl g (List.mem_filter.1 hg).1).2 with h | h <;> rw [h] <;>
        exact ⟨⟨_, List.mem_cons_self, by decide⟩, ⟨⟨2026, 7, 1, by decide⟩, by simp, by decide⟩⟩, Or.inr (Or.inl rfl)⟩
  have hys : ([i64 1, i64 2] : List (Fl Binary.f64)).map Fl.val = [1, 2] := by simp [e1, e2]
  have hu : unitRoundoff Binary.f64 = 1 / 2 ^ 53 := by
    show ((1 / 2) ^ 53 : ℝ) = _
    norm_num
  have hX1 : (((remaining b ⟨2024, 7, 1, by decide⟩).length + 11) * unitRoundoff Binary.f64 + unitRoundoff Binary.f64 +
      60 * 1 * unitRoundoff Binary.f64 * 2 * 2 : ℝ) ≤ 254 / 2 ^ 53 := by
    have : ((remaining b ⟨2024, 7, 1, by decide⟩).length : ℝ) ≤ 2 := by exact_mod_cast hlen
    rw [hu]
    linarith
  obtain ⟨w, hw, hv0, hwv⟩ := C92_price_relative (A := Binary.f64) (D := DayCount.act365) (E := DayCount.act365) (N := 365)
    (Or.inr ⟨rfl, rfl⟩) (Or.inr ⟨rfl, rfl⟩) ⟨2024, 7, 1, by decide⟩
    [⟨2024, 7, 1, by decide⟩, ⟨2026, 7, 1, by decide⟩] [i64 1, i64 2] 1 2 2 (unitRoundoff Binary.f64)
    (binary_within 53 (by norm_num)) (by rw [hu]; positivity) rfl
    (le_refl _) (by decide) (by decide) (by
      intro i m₀ m₁ h0 h1
      match i with
      | 0 => simp at h0 h1; subst h0 h1; simp
      | i + 1 => simp at h1) (by norm_num) (by rw [hu]; norm_num) (by
      intro y hy
      simp at hy
      rcases hy with rfl | rfl
      · rw [e1]; norm_num
      · rw [e2]; norm_num) (by
      intro m hm
      simp at hm
      have k1 : Date.sub ⟨2024, 7, 1, by decide⟩ ⟨2024, 7, 1, by decide⟩ = 0 := by decide +kernel
      have k2 : Date.sub ⟨2026, 7, 1, by decide⟩ ⟨2024, 7, 1, by decide⟩ = 730 := by decide +kernel
      rcases hm with rfl | rfl
      · rw [years, k1]; norm_num
      · rw [years, k2]; norm_num) "b" _ _ _ _ _ _ _ b b'
    ⟨2024, 7, 1, by decide⟩ hb (by rw [e1, e100]; exact hb') (by decide) (by decide)
    (by show (0 : ℝ) ≤ (i64 1).val; rw [e1]; norm_num) (by show (0 : ℝ) ≤ (i64 100).val; rw [e100]; norm_num)
    (fun d _ => lt_of_lt_of_le (sub_abs_lt _ _) (by show (2 : Int) ^ 28 ≤ 2 ^ 52; norm_num)) v
    (by rw [hys]; exact hv) _ rfl (lt_of_le_of_lt hX1 (by norm_num))
  refine ⟨b, b', w, v, hb, hb', hw, hv, le_trans hwv (mul_le_mul_of_nonneg_right ?_ hv0)⟩
  rw [div_le_iff₀ (by linarith [show (254 / 2 ^ 53 : ℝ) < 1 by norm_num])]
  norm_num at hX1 ⊢
  linarith

/-- The same bond and curve: whatever the dates of valuation, the price in `f64` fails exactly as the exact one does, and if there
is an exact price the one in `f64` is within the bound. -/
example (s : Date) (b : Bond (Fl Binary.f64)) (b' : Bond ℝ)
    (hb : Bond.new "b" ⟨2024, 7, 1, by decide⟩ ⟨2025, 1, 1, by decide⟩ ⟨2025, 1, 1, by decide⟩ ⟨2025, 7, 1, by decide⟩ .sa
      (i64 1) (i64 100) = .ok (some b))
    (hb' : Bond.new "b" ⟨2024, 7, 1, by decide⟩ ⟨2025, 1, 1, by decide⟩ ⟨2025, 1, 1, by decide⟩ ⟨2025, 7, 1, by decide⟩ .sa
      (i64 1).val (i64 100).val = .ok (some b')) :
    (∀ e, curvePrice DayCount.act365 (Interpolator.linear (Fl Binary.f64)) ⟨2024, 7, 1, by decide⟩
      [⟨2024, 7, 1, by decide⟩, ⟨2026, 7, 1, by decide⟩] [i64 1, i64 2] b s = .ok (.error e) ↔
    curvePrice DayCount.act365 (Interpolator.linear ℝ) ⟨2024, 7, 1, by decide⟩
      [⟨2024, 7, 1, by decide⟩, ⟨2026, 7, 1, by decide⟩] [(i64 1).val, (i64 2).val] b' s = .ok (.error e)) ∧
    ∀ v, curvePrice DayCount.act365 (Interpolator.linear ℝ) ⟨2024, 7, 1, by decide⟩
      [⟨2024, 7, 1, by decide⟩, ⟨2026, 7, 1, by decide⟩] [(i64 1).val, (i64 2).val] b' s = .ok (.ok v) →
      ∃ w n, curvePrice DayCount.act365 (Interpolator.linear (Fl Binary.f64)) ⟨2024, 7, 1, by decide⟩
          [⟨2024, 7, 1, by decide⟩, ⟨2026, 7, 1, by decide⟩] [i64 1, i64 2] b s = .ok (.ok w) ∧
        n = (remaining b s).length ∧
        w.val ≤ (1 + unitRoundoff Binary.f64) ^ (n + 1) * ((1 + 10 * unitRoundoff Binary.f64) * (1 + unitRoundoff Binary.f64) *
          Real.exp (60 * 1 * unitRoundoff Binary.f64 * 2 * 2) * v) := by
  have e1 : (i64 1).val = 1 := by rw [i64_val _ (by decide)]; norm_num
  have e2 : (i64 2).val = 2 := by rw [i64_val _ (by decide)]; norm_num
  have e100 : (i64 100).val = 100 := by rw [i64_val _ (by decide)]; norm_num
  have hu : unitRoundoff Binary.f64 = 1 / 2 ^ 53 := by
    show ((1 / 2) ^ 53 : ℝ) = _
    norm_num
  have hr : ∀ d d' : Date, |Date.sub d d'| < (2 : Int) ^ (Binary.f64.prec - 1) := fun d d' =>
    lt_of_lt_of_le (sub_abs_lt _ _) (by show (2 : Int) ^ 28 ≤ 2 ^ 52; norm_num)
  refine ⟨(C92_price_outcome (D := DayCount.act365) (E := DayCount.act365) (N := 365) (Or.inr ⟨rfl, rfl⟩) (Or.inr ⟨rfl, rfl⟩)
    ⟨2024, 7, 1, by decide⟩ [⟨2024, 7, 1, by decide⟩, ⟨2026, 7, 1, by decide⟩] [i64 1, i64 2] rfl (le_refl _) (by decide) _ _ _ _
    _ _ _ _ b b' s hb hb' (fun d _ => hr _ _)).1, fun v hv => ?_⟩
  obtain ⟨w, δ, n, hw, rfl, hn, -, h⟩ := C92_price (A := Binary.f64) (D := DayCount.act365) (E := DayCount.act365) (N := 365)
    (Or.inr ⟨rfl, rfl⟩) (Or.inr ⟨rfl, rfl⟩) ⟨2024, 7, 1, by decide⟩
    [⟨2024, 7, 1, by decide⟩, ⟨2026, 7, 1, by decide⟩] [i64 1, i64 2] 1 2 2 (unitRoundoff Binary.f64)
    (binary_within 53 (by norm_num)) (by rw [hu]; positivity) (by rw [hu]; norm_num) rfl
    (le_refl _) (by decide) (by decide) (by
      intro i m₀ m₁ h0 h1
      match i with
      | 0 => simp at h0 h1; subst h0 h1; simp
      | i + 1 => simp at h1) (by rw [hu]; norm_num) (by
      intro y hy
      simp at hy
      rcases hy with rfl | rfl
      · rw [e1]; norm_num
      · rw [e2]; norm_num) (by
      intro m hm
      simp at hm
      have k1 : Date.sub ⟨2024, 7, 1, by decide⟩ ⟨2024, 7, 1, by decide⟩ = 0 := by decide +kernel
      have k2 : Date.sub ⟨2026, 7, 1, by decide⟩ ⟨2024, 7, 1, by decide⟩ = 730 := by decide +kernel
      rcases hm with rfl | rfl
      · rw [years, k1]; norm_num
      · rw [years, k2]; norm_num) "b" _ _ _ _ _ _ _ b b' s hb hb' (by decide) (by decide)
    (by show (0 : ℝ) ≤ (i64 1).val; rw [e1]; norm_num) (by show (0 : ℝ) ≤ (i64 100).val; rw [e100]; norm_num)
    (fun d _ => hr _ _) v hv
  exact ⟨w, n, hw, hn, h⟩

end Qlab.Props
