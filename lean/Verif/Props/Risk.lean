import Verif.Props.CurveOvershoot
import Mathlib.Analysis.MeanInequalities
import Mathlib.Analysis.SpecialFunctions.Pow.Deriv

/-!
# How prices react to the yields (C98)

Discount factors of combined yields, prices along a line of yields and their derivatives, convexity, and the effect of
a bounded change of the yields.
-/

namespace Qlab.Spec

/-- `a y + b z`, pillar by pillar. -/
def combine (a b : ℝ) (ys zs : List ℝ) : List ℝ := List.zipWith (fun y z => a * y + b * z) ys zs

/-- The curve has these discount factors, from `settle` to the payment dates of the flows that remain. -/
def FlowDiscounts (D : DayCount ℝ) (I : Interpolator ℝ) (s : Date) (ms : List Date) (ys : List ℝ) (b : Bond ℝ)
    (settle : Date) (dfs : List ℝ) : Prop :=
  List.Forall₂ (fun g v => curveDiscount D I s ms ys settle g.paymentDate = .ok (.ok v)) (remaining b settle) dfs

/-- How much larger than the largest yield an interpolated yield can be: once for linear interpolation, twice for
Catmull-Rom, `1 + 12/5 (H/h)²` times for the natural cubic spline with gaps between `h` and `H` days. -/
def IsYieldFactor (I : Interpolator ℝ) (ms : List Date) (L : ℝ) : Prop :=
  (I = Interpolator.linear ℝ ∧ 2 ≤ ms.length ∧ L = 1) ∨ (I = Interpolator.catmullRom ℝ ∧ 3 ≤ ms.length ∧ L = 2) ∨
    (I = Interpolator.naturalCubic ℝ ∧ 3 ≤ ms.length ∧ ∃ h H : ℝ, 0 < h ∧
      (∀ i (hi : i + 1 < ms.length), h ≤ (Date.sub ms[i + 1] ms[i] : ℝ) ∧ (Date.sub ms[i + 1] ms[i] : ℝ) ≤ H) ∧
      L = 1 + 12 / 5 * (H / h) ^ 2)

end Qlab.Spec

namespace Qlab.Props

open Spec

section
variable {I : Interpolator ℝ} {D : DayCount ℝ} {N : ℝ} {n : Nat}

theorem combine_length {a b : ℝ} {ys zs : List ℝ} {k : Nat} (hy : k = ys.length) (hz : k = zs.length) :
    k = (combine a b ys zs).length := by
  simp [combine, ← hy, ← hz]

/-- **C98.** Act/360 or Act/365, any shipped interpolator: where the yields `y` give the discount factor `v` and the
yields `z` give `w`, the yields `a y + b z` give `v ^ a * w ^ b`. -/
theorem C98_discount (hD : IsActual D N) (hI : IsShippedInterpolator I n) (s : Date) (ms : List Date) (ys zs : List ℝ)
    (hy : ms.length = ys.length) (hz : ms.length = zs.length) (hn : n ≤ ms.length) (hm : ms.Pairwise (· < ·))
    (a b : ℝ) (d1 d2 : Date) (v w : ℝ) (hv : curveDiscount D I s ms ys d1 d2 = .ok (.ok v))
    (hw : curveDiscount D I s ms zs d1 d2 = .ok (.ok w)) :
    curveDiscount D I s ms (combine a b ys zs) d1 d2 = .ok (.ok (v ^ a * w ^ b)) := by
  obtain ⟨hs, hd, y, ey, p, rfl, hp⟩ := (curveDiscount_form hD hI hy hm hn).1 hv
  obtain ⟨-, -, z, ez, q, rfl, hq⟩ := (curveDiscount_form hD hI hz hm hn).1 hw
  have key : ∀ d u t, evaluate I (pillars N s ms ys) ((Date.sub d s : ℝ) / N) = .ok (.ok u) →
      evaluate I (pillars N s ms zs) ((Date.sub d s : ℝ) / N) = .ok (.ok t) →
      evaluate I (pillars N s ms (combine a b ys zs)) ((Date.sub d s : ℝ) / N) = .ok (.ok (a * u + b * t)) :=
    fun d u t hu ht => C83_combination hI _ ys zs (by simpa using hy) (by simpa using hz) (by simpa using hn)
      (isActual_increasing hD s hm) a b _ u t hu ht
  rw [curveDiscount_form hD hI (combine_length hy hz) hm hn]
  refine ⟨hs, hd, _, key d2 y z ey ez, a * p + b * q, ?_, ?_⟩
  · rw [← Real.exp_mul, ← Real.exp_mul, ← Real.exp_add]
    congr 1
    ring
  · rcases hp with ⟨e, rfl⟩ | ⟨e, y1, ey1, rfl⟩
    · rcases hq with ⟨-, rfl⟩ | ⟨h, -⟩
      · exact .inl ⟨e, by ring⟩
      · exact absurd e h
    · rcases hq with ⟨h, -⟩ | ⟨-, z1, ez1, rfl⟩
      · exact absurd h e
      · exact .inr ⟨e, _, key d1 y1 z1 ey1 ez1, by ring⟩

/-- The price in terms of the discount factors a caller sees. -/
theorem price_iff (hD : IsActual D N) (hI : IsShippedInterpolator I n) {s : Date} {ms : List Date} {ys : List ℝ}
    (hy : ms.length = ys.length) (hn : n ≤ ms.length) (hm : ms.Pairwise (· < ·)) {b : Bond ℝ} {settle : Date} {v : ℝ} :
    curvePrice D I s ms ys b settle = .ok (.ok v) ↔ ∃ dfs, FlowDiscounts D I s ms ys b settle dfs ∧
      v = (List.zipWith (fun df g => df * g.paymentAmount) dfs (remaining b settle)).sum := by
  obtain ⟨c, -, -, hcd, hcp⟩ := curve_ok hD hI s ms ys hy hm hn
  rw [hcp, C52_sum]
  simp only [HasDiscounts, FlowDiscounts, hcd]

theorem flowDiscounts_pos (hD : IsActual D N) (hI : IsShippedInterpolator I n) {s : Date} {ms : List Date}
    {ys : List ℝ} (hy : ms.length = ys.length) (hn : n ≤ ms.length) (hm : ms.Pairwise (· < ·)) {d1 d2 : Date} {v : ℝ}
    (h : curveDiscount D I s ms ys d1 d2 = .ok (.ok v)) : 0 < v := by
  obtain ⟨-, -, y, -, p, rfl, -⟩ := (curveDiscount_form hD hI hy hm hn).1 h
  exact Real.exp_pos _

/-- Two runs over the same flows, flow by flow. -/
theorem flows_combine {P Q R : BondCashFlow ℝ → ℝ → Prop} {l : List (BondCashFlow ℝ)} {dfs dzs : List ℝ} {f : ℝ → ℝ → ℝ}
    (h1 : List.Forall₂ P l dfs) (h2 : List.Forall₂ Q l dzs) (h : ∀ g v w, P g v → Q g w → R g (f v w)) :
    List.Forall₂ R l (List.zipWith f dfs dzs) := by
  induction h1 generalizing dzs with
  | nil => cases h2; exact .nil
  | cons hp _ ih =>
    cases h2 with
    | cons hq h2 => exact .cons (h _ _ _ hp hq) (ih h2)

theorem sum_combine (f : ℝ → ℝ → ℝ) : ∀ (l : List (BondCashFlow ℝ)) (dfs dzs : List ℝ), dfs.length = l.length →
    dzs.length = l.length → (List.zipWith (fun df g => df * g.paymentAmount) (List.zipWith f dfs dzs) l).sum =
      ((l.zip (dfs.zip dzs)).map fun p => p.1.paymentAmount * f p.2.1 p.2.2).sum
  | [], dfs, dzs, _, _ => by simp
  | g :: l, [], _, h, _ => by simp at h
  | g :: l, _ :: _, [], _, h => by simp at h
  | g :: l, v :: dfs, w :: dzs, h1, h2 => by
    have := sum_combine f l dfs dzs (by simpa using h1) (by simpa using h2)
    simp only [List.zipWith_cons_cons, List.zip_cons_cons, List.map_cons, List.sum_cons, this]
    ring

/-- **C98.** The price on the curve with yields `y + τ z` is the sum of amount times `v * w ^ τ` over the remaining
flows, where `v` and `w` are the discount factors of the flow on the curves with yields `y` and `z`. -/
theorem C98_line (hD : IsActual D N) (hI : IsShippedInterpolator I n) (s : Date) (ms : List Date) (ys zs : List ℝ)
    (hy : ms.length = ys.length) (hz : ms.length = zs.length) (hn : n ≤ ms.length) (hm : ms.Pairwise (· < ·))
    (b : Bond ℝ) (settle : Date) (vs ws : List ℝ) (hv : FlowDiscounts D I s ms ys b settle vs)
    (hw : FlowDiscounts D I s ms zs b settle ws) (τ : ℝ) :
    curvePrice D I s ms (combine 1 τ ys zs) b settle =
      .ok (.ok (((remaining b settle).zip (vs.zip ws)).map fun p => p.1.paymentAmount * (p.2.1 * p.2.2 ^ τ)).sum) := by
  rw [price_iff hD hI (combine_length hy hz) hn hm]
  refine ⟨List.zipWith (fun v w => v * w ^ τ) vs ws, flows_combine hv hw fun g v w h1 h2 => ?_,
    (sum_combine (fun v w => v * w ^ τ) _ _ _ hv.length_eq.symm hw.length_eq.symm).symm⟩
  have := C98_discount hD hI s ms ys zs hy hz hn hm 1 τ _ _ v w h1 h2
  rwa [Real.rpow_one] at this

theorem sum_hasDerivAt : ∀ (l : List (BondCashFlow ℝ × ℝ × ℝ)) (k : Nat), (∀ p ∈ l, 0 < p.2.2) → ∀ τ : ℝ,
    HasDerivAt (fun τ : ℝ => (l.map fun p => p.1.paymentAmount * (p.2.1 * p.2.2 ^ τ) * Real.log p.2.2 ^ k).sum)
      ((l.map fun p => p.1.paymentAmount * (p.2.1 * p.2.2 ^ τ) * Real.log p.2.2 ^ (k + 1)).sum) τ
  | [], k, _, τ => by simpa using hasDerivAt_const τ (0 : ℝ)
  | p :: l, k, h, τ => by
    have ih := sum_hasDerivAt l k (fun q hq => h q (by simp [hq])) τ
    have h1 := (((Real.hasStrictDerivAt_const_rpow (h p (by simp)) τ).hasDerivAt.const_mul p.2.1).const_mul
      p.1.paymentAmount).mul_const (Real.log p.2.2 ^ k)
    have := h1.add ih
    simp only [List.map_cons, List.sum_cons]
    refine this.congr_deriv ?_
    ring

/-- **C98.** Moving the yields along `z`, the price changes at the rate of the sum of amount times discount factor times
the logarithm of the flow's discount factor on the curve with yields `z`; the second derivative has the square of the
logarithm. -/
theorem C98_derivatives (hD : IsActual D N) (hI : IsShippedInterpolator I n) (s : Date) (ms : List Date)
    (ys zs : List ℝ) (hy : ms.length = ys.length) (hz : ms.length = zs.length) (hn : n ≤ ms.length)
    (hm : ms.Pairwise (· < ·)) (b : Bond ℝ) (settle : Date) (vs ws : List ℝ)
    (hv : FlowDiscounts D I s ms ys b settle vs) (hw : FlowDiscounts D I s ms zs b settle ws) :
    ∃ P P' : ℝ → ℝ, (∀ τ, curvePrice D I s ms (combine 1 τ ys zs) b settle = .ok (.ok (P τ))) ∧
      (∀ τ, HasDerivAt P (P' τ) τ) ∧
      P' 0 = (((remaining b settle).zip (vs.zip ws)).map fun p => p.1.paymentAmount * p.2.1 * Real.log p.2.2).sum ∧
      HasDerivAt P'
        (((remaining b settle).zip (vs.zip ws)).map fun p => p.1.paymentAmount * p.2.1 * Real.log p.2.2 ^ 2).sum 0 := by
  have hpos : ∀ p ∈ (remaining b settle).zip (vs.zip ws), 0 < p.2.2 := by
    intro p hp
    have h2 := (List.of_mem_zip (List.of_mem_zip hp).2).2
    obtain ⟨i, hi, e⟩ := List.getElem_of_mem h2
    have := hw.get (i := i) (by rw [hw.length_eq]; exact hi) hi
    simp only [List.get_eq_getElem, e] at this
    exact flowDiscounts_pos hD hI hz hn hm this
  refine ⟨_, fun τ => (((remaining b settle).zip (vs.zip ws)).map fun p =>
      p.1.paymentAmount * (p.2.1 * p.2.2 ^ τ) * Real.log p.2.2 ^ 1).sum,
    fun τ => C98_line hD hI s ms ys zs hy hz hn hm b settle vs ws hv hw τ, fun τ => ?_, ?_, ?_⟩
  · simpa using sum_hasDerivAt _ 0 hpos τ
  · simp
  · have := sum_hasDerivAt _ 1 hpos 0
    simpa using this

/-- One step of Hölder's inequality. -/
theorem holder_step {a b c d θ : ℝ} (ha : 0 ≤ a) (hb : 0 ≤ b) (hc : 0 ≤ c) (hd : 0 ≤ d) (h0 : 0 < θ) (h1 : θ < 1) :
    a ^ (1 - θ) * b ^ θ + c ^ (1 - θ) * d ^ θ ≤ (a + c) ^ (1 - θ) * (b + d) ^ θ := by
  have hθ : (0 : ℝ) < 1 - θ := by linarith
  rcases eq_or_lt_of_le (add_nonneg ha hc) with h | hac
  · have e1 : a = 0 := by linarith
    have e2 : c = 0 := by linarith
    simp [e1, e2, Real.zero_rpow hθ.ne']
  rcases eq_or_lt_of_le (add_nonneg hb hd) with h | hbd
  · have e1 : b = 0 := by linarith
    have e2 : d = 0 := by linarith
    simp [e1, e2, Real.zero_rpow h0.ne']
  have g1 := Real.geom_mean_le_arith_mean2_weighted hθ.le h0.le (div_nonneg ha hac.le) (div_nonneg hb hbd.le) (by ring)
  have g2 := Real.geom_mean_le_arith_mean2_weighted hθ.le h0.le (div_nonneg hc hac.le) (div_nonneg hd hbd.le) (by ring)
  have hp : 0 < (a + c) ^ (1 - θ) * (b + d) ^ θ := mul_pos (Real.rpow_pos_of_pos hac _) (Real.rpow_pos_of_pos hbd _)
  rw [Real.div_rpow ha hac.le, Real.div_rpow hb hbd.le, div_mul_div_comm] at g1
  rw [Real.div_rpow hc hac.le, Real.div_rpow hd hbd.le, div_mul_div_comm] at g2
  have e : (1 - θ) * (a / (a + c)) + θ * (b / (b + d)) + ((1 - θ) * (c / (a + c)) + θ * (d / (b + d))) = 1 := by
    field_simp
    ring
  have := add_le_add g1 g2
  rw [e, ← add_div, div_le_one hp] at this
  exact this

theorem sum_nonneg' {l : List (BondCashFlow ℝ)} {vs : List ℝ} (hl : ∀ g ∈ l, 0 ≤ g.paymentAmount) (hv : ∀ v ∈ vs, 0 < v) :
    0 ≤ (List.zipWith (fun df g => df * g.paymentAmount) vs l).sum := by
  refine List.sum_nonneg fun x hx => ?_
  obtain ⟨i, hi, rfl⟩ := List.getElem_of_mem hx
  simp only [List.getElem_zipWith]
  exact mul_nonneg (hv _ (List.getElem_mem _)).le (hl _ (List.getElem_mem _))

theorem sum_holder {θ : ℝ} (h0 : 0 < θ) (h1 : θ < 1) : ∀ (l : List (BondCashFlow ℝ)) (vs ws : List ℝ),
    vs.length = l.length → ws.length = l.length → (∀ g ∈ l, 0 ≤ g.paymentAmount) → (∀ v ∈ vs, 0 < v) → (∀ w ∈ ws, 0 < w) →
    (List.zipWith (fun df g => df * g.paymentAmount) (List.zipWith (fun v w => v ^ (1 - θ) * w ^ θ) vs ws) l).sum ≤
      (List.zipWith (fun df g => df * g.paymentAmount) vs l).sum ^ (1 - θ) *
      (List.zipWith (fun df g => df * g.paymentAmount) ws l).sum ^ θ
  | [], vs, ws, _, _, _, _, _ => by
    have : (1 : ℝ) - θ ≠ 0 := by linarith
    simp [Real.zero_rpow h0.ne']
  | g :: l, [], _, h, _, _, _, _ => by simp at h
  | g :: l, _ :: _, [], _, h, _, _, _ => by simp at h
  | g :: l, v :: vs, w :: ws, e1, e2, hl, hv, hw => by
    have ih := sum_holder h0 h1 l vs ws (by simpa using e1) (by simpa using e2) (fun x hx => hl x (by simp [hx]))
      (fun x hx => hv x (by simp [hx])) (fun x hx => hw x (by simp [hx]))
    have hg : 0 ≤ g.paymentAmount := hl g (by simp)
    have v0 : 0 < v := hv v (by simp)
    have w0 : 0 < w := hw w (by simp)
    simp only [List.zipWith_cons_cons, List.sum_cons]
    refine le_trans (add_le_add (le_of_eq ?_) ih) (holder_step (mul_nonneg v0.le hg) (mul_nonneg w0.le hg)
      (sum_nonneg' (fun x hx => hl x (by simp [hx])) (fun x hx => hv x (by simp [hx])))
      (sum_nonneg' (fun x hx => hl x (by simp [hx])) (fun x hx => hw x (by simp [hx]))) h0 h1)
    rw [Real.mul_rpow v0.le hg, Real.mul_rpow w0.le hg]
    have : g.paymentAmount = g.paymentAmount ^ (1 - θ) * g.paymentAmount ^ θ := by
      rcases eq_or_lt_of_le hg with h | h
      · rw [← h, Real.zero_rpow h0.ne', mul_zero]
      · rw [← Real.rpow_add h]; simp
    nth_rewrite 1 [this]
    ring

theorem flowDiscounts_all (hD : IsActual D N) (hI : IsShippedInterpolator I n) {s : Date} {ms : List Date}
    {ys : List ℝ} (hy : ms.length = ys.length) (hn : n ≤ ms.length) (hm : ms.Pairwise (· < ·)) {b : Bond ℝ} {settle : Date}
    {vs : List ℝ} (h : FlowDiscounts D I s ms ys b settle vs) : ∀ v ∈ vs, 0 < v := by
  intro v hv
  obtain ⟨i, hi, rfl⟩ := List.getElem_of_mem hv
  exact flowDiscounts_pos hD hI hy hn hm (h.get (i := i) (by rw [h.length_eq]; exact hi) hi)

/-- **C98.** The price of a bond without negative flows is a convex function of the yields, even on the logarithmic
scale: on the curve with yields `(1 - θ) y + θ z` it is at most `v ^ (1 - θ) * w ^ θ`, hence at most
`(1 - θ) v + θ w`, where `v` and `w` are the prices on the curves with yields `y` and `z`. -/
theorem C98_convex (hD : IsActual D N) (hI : IsShippedInterpolator I n) (s : Date) (ms : List Date) (ys zs : List ℝ)
    (hy : ms.length = ys.length) (hz : ms.length = zs.length) (hn : n ≤ ms.length) (hm : ms.Pairwise (· < ·))
    (b : Bond ℝ) (settle : Date) (hb : ∀ g ∈ remaining b settle, 0 ≤ g.paymentAmount) (v w θ : ℝ) (h0 : 0 ≤ θ) (h1 : θ ≤ 1)
    (hv : curvePrice D I s ms ys b settle = .ok (.ok v)) (hw : curvePrice D I s ms zs b settle = .ok (.ok w)) :
    ∃ p, curvePrice D I s ms (combine (1 - θ) θ ys zs) b settle = .ok (.ok p) ∧ p ≤ v ^ (1 - θ) * w ^ θ ∧
      v ^ (1 - θ) * w ^ θ ≤ (1 - θ) * v + θ * w := by
  obtain ⟨vs, hvs, rfl⟩ := (price_iff hD hI hy hn hm).1 hv
  obtain ⟨ws, hws, rfl⟩ := (price_iff hD hI hz hn hm).1 hw
  have v0 := flowDiscounts_all hD hI hy hn hm hvs
  have w0 := flowDiscounts_all hD hI hz hn hm hws
  refine ⟨_, (price_iff hD hI (combine_length hy hz) hn hm).2 ⟨List.zipWith (fun v w => v ^ (1 - θ) * w ^ θ) vs ws,
    flows_combine hvs hws fun g v w h1 h2 => C98_discount hD hI s ms ys zs hy hz hn hm _ _ _ _ v w h1 h2, rfl⟩, ?_,
    Real.geom_mean_le_arith_mean2_weighted (by linarith) h0 (sum_nonneg' hb v0) (sum_nonneg' hb w0) (by ring)⟩
  have l1 := hvs.length_eq.symm
  have l2 := hws.length_eq.symm
  rcases eq_or_lt_of_le h0 with rfl | h0
  · refine le_of_eq ?_
    simp only [sub_zero, Real.rpow_one, Real.rpow_zero, mul_one]
    congr 2
    exact List.ext_getElem (by simp; omega) fun i _ _ => by simp
  rcases eq_or_lt_of_le h1 with rfl | h1
  · refine le_of_eq ?_
    simp only [sub_self, Real.rpow_one, Real.rpow_zero, one_mul]
    congr 2
    exact List.ext_getElem (by simp; omega) fun i _ _ => by simp
  exact sum_holder h0 h1 _ vs ws l1 l2 hb v0 w0

theorem flowDiscounts_unique {s : Date} {ms : List Date} {ys : List ℝ} {b : Bond ℝ} {settle : Date} {vs vs' : List ℝ}
    (h : FlowDiscounts D I s ms ys b settle vs) (h' : FlowDiscounts D I s ms ys b settle vs') : vs = vs' := by
  unfold FlowDiscounts at h h'
  generalize remaining b settle = l at *
  induction h generalizing vs' with
  | nil => cases h'; rfl
  | cons hr _ ih =>
    cases h' with
    | cons hr' h' =>
      rw [hr] at hr'
      simp at hr'
      rw [hr', ih h']

/-- **C98.** For a bond without negative flows the first-order estimate never overstates the price: on the curve with
yields `y + τ z` it is at least the price on `y` plus `τ` times the derivative of `C98_derivatives`. -/
theorem C98_tangent (hD : IsActual D N) (hI : IsShippedInterpolator I n) (s : Date) (ms : List Date)
    (ys zs : List ℝ) (hy : ms.length = ys.length) (hz : ms.length = zs.length) (hn : n ≤ ms.length)
    (hm : ms.Pairwise (· < ·)) (b : Bond ℝ) (settle : Date) (hb : ∀ g ∈ remaining b settle, 0 ≤ g.paymentAmount)
    (vs ws : List ℝ) (hv : FlowDiscounts D I s ms ys b settle vs) (hw : FlowDiscounts D I s ms zs b settle ws)
    (v τ : ℝ) (h : curvePrice D I s ms ys b settle = .ok (.ok v)) :
    ∃ p, curvePrice D I s ms (combine 1 τ ys zs) b settle = .ok (.ok p) ∧
      v + τ * (((remaining b settle).zip (vs.zip ws)).map fun p => p.1.paymentAmount * p.2.1 * Real.log p.2.2).sum ≤ p := by
  refine ⟨_, C98_line hD hI s ms ys zs hy hz hn hm b settle vs ws hv hw τ, ?_⟩
  obtain ⟨vs', hvs', rfl⟩ := (price_iff hD hI hy hn hm).1 h
  obtain rfl : vs' = vs := flowDiscounts_unique hvs' hv
  have v0 := flowDiscounts_all hD hI hy hn hm hv
  have w0 := flowDiscounts_all hD hI hz hn hm hw
  have l1 := hv.length_eq
  have l2 := hw.length_eq
  clear h hv hw hvs'
  generalize remaining b settle = l at *
  induction l generalizing vs' ws with
  | nil => simp
  | cons g l ih =>
    match vs', ws, l1, l2 with
    | v :: vs, w :: ws, l1, l2 =>
      have := ih ws vs (fun x hx => v0 x (by simp [hx])) (fun x hx => w0 x (by simp [hx]))
        (fun x hx => hb x (by simp [hx])) (by simpa using l1) (by simpa using l2)
      simp only [List.zipWith_cons_cons, List.zip_cons_cons, List.map_cons, List.sum_cons]
      have hw := w0 w (by simp)
      have e : 1 + τ * Real.log w ≤ w ^ τ := by
        rw [Real.rpow_def_of_pos hw]
        have := Real.add_one_le_exp (Real.log w * τ)
        linarith
      have := mul_le_mul_of_nonneg_left e (mul_nonneg (hb g (by simp)) (v0 v (by simp)).le)
      linarith

theorem flat_discounts (hD : IsActual D N) (hI : IsShippedInterpolator I n) {s : Date} {ms : List Date} {ys : List ℝ}
    (hy : ms.length = ys.length) (hn : n ≤ ms.length) (hm : ms.Pairwise (· < ·)) {b : Bond ℝ} {settle : Date}
    (hF : (I = Interpolator.linear ℝ ∧ 2 ≤ ms.length) ∨ (I = Interpolator.naturalCubic ℝ ∧ 4 ≤ ms.length)) {vs : List ℝ}
    (hv : FlowDiscounts D I s ms ys b settle vs) :
    FlowDiscounts D I s ms (List.replicate ms.length 1) b settle
      ((remaining b settle).map fun g => Real.exp (-((Date.sub g.paymentDate settle : ℝ) / N))) := by
  unfold FlowDiscounts at hv ⊢
  generalize remaining b settle = l at hv
  induction hv with
  | nil => exact .nil
  | @cons g v l vs h _ ih =>
    refine .cons ?_ ih
    obtain ⟨hs, hd, y, ey, p, rfl, hp⟩ := (curveDiscount_form hD hI hy hm hn).1 h
    have cov : ∀ d u, evaluate I (pillars N s ms ys) ((Date.sub d s : ℝ) / N) = .ok (.ok u) → Covers ms d :=
      fun d u hu => (inRange_iff_covers hD s ms ys hy d).1
        (inRange_of_value hI (pillars_increasing hD s hm ys) (by simp [pillars]; omega) hu)
    have := C80_flat_partial hD s ms (List.replicate ms.length 1) (by simp) hm 1
      (fun z hz => (List.mem_replicate.1 hz).2) settle g.paymentDate hs hd (cov _ _ ey)
      (hp.imp (fun h => h.1) (fun h => by obtain ⟨-, y1, h1, -⟩ := h; exact cov _ _ h1)) (hF.imp id .inl)
    rwa [mul_one] at this

/-- **C98.** Linear interpolation, and the natural cubic spline with four pillars or more: as all yields move together,
the price changes at the rate of minus the sum of time to payment times discount factor times amount (its dollar
duration), and that rate changes at the rate of the sum with the squared time (its dollar convexity). -/
theorem C98_duration (hD : IsActual D N) (s : Date) (ms : List Date) (ys : List ℝ) (hy : ms.length = ys.length)
    (hm : ms.Pairwise (· < ·))
    (hF : (I = Interpolator.linear ℝ ∧ 2 ≤ ms.length) ∨ (I = Interpolator.naturalCubic ℝ ∧ 4 ≤ ms.length))
    (b : Bond ℝ) (settle : Date) (vs : List ℝ) (hv : FlowDiscounts D I s ms ys b settle vs) :
    ∃ P P' : ℝ → ℝ, (∀ τ, curvePrice D I s ms (ys.map (· + τ)) b settle = .ok (.ok (P τ))) ∧
      (∀ τ, HasDerivAt P (P' τ) τ) ∧
      P' 0 = -(((remaining b settle).zip vs).map fun p =>
        (Date.sub p.1.paymentDate settle : ℝ) / N * (p.2 * p.1.paymentAmount)).sum ∧
      HasDerivAt P' (((remaining b settle).zip vs).map fun p =>
        ((Date.sub p.1.paymentDate settle : ℝ) / N) ^ 2 * (p.2 * p.1.paymentAmount)).sum 0 := by
  obtain ⟨n, hI, hn⟩ : ∃ n, IsShippedInterpolator I n ∧ n ≤ ms.length := by
    rcases hF with ⟨h, hn⟩ | ⟨h, hn⟩
    · exact ⟨2, .inl ⟨h, rfl⟩, hn⟩
    · exact ⟨3, .inr (.inr ⟨h, rfl⟩), by omega⟩
  obtain ⟨P, P', h1, h2, h3, h4⟩ := C98_derivatives hD hI s ms ys (List.replicate ms.length 1) hy (by simp) hn hm b settle vs _ hv
    (flat_discounts hD hI hy hn hm hF hv)
  have key : ∀ (f : BondCashFlow ℝ × ℝ × ℝ → ℝ) (l : List (BondCashFlow ℝ)) (vs : List ℝ) (t : BondCashFlow ℝ → ℝ),
      ((l.zip (vs.zip (l.map t))).map f) = (l.zip vs).map fun p => f (p.1, p.2, t p.1) := by
    intro f l vs t
    induction l generalizing vs with
    | nil => simp
    | cons g l ih =>
      cases vs with
      | nil => simp
      | cons v vs => simp [ih]
  refine ⟨P, P', fun τ => ?_, h2, ?_, ?_⟩
  · rw [← h1 τ]
    congr 1
    exact List.ext_getElem (by simp [combine, hy]) fun i _ _ => by simp [combine]
  · rw [h3, key, List.sum_neg, List.map_map]
    congr 1
    refine List.map_congr_left fun p _ => ?_
    simp only [Function.comp, Real.log_exp]
    ring
  · refine h4.congr_deriv ?_
    rw [key]
    congr 1
    refine List.map_congr_left fun p _ => ?_
    simp only [Real.log_exp]
    ring

/-! ## A bounded change of the yields -/

theorem factor_bound (hD : IsActual D N) {s : Date} {ms : List Date} {zs : List ℝ} (hz : ms.length = zs.length)
    (hm : ms.Pairwise (· < ·)) {L : ℝ} (hL : IsYieldFactor I ms L) {δ : ℝ} (hδ : ∀ z ∈ zs, |z| ≤ δ) {d : Date} {u : ℝ}
    (hu : evaluate I (pillars N s ms zs) ((Date.sub d s : ℝ) / N) = .ok (.ok u)) : |u| ≤ L * δ := by
  have hinc := pillars_increasing hD s hm zs
  have hl : (pillars N s ms zs).length = ms.length := by simp [pillars]; omega
  have hp : ∀ p ∈ pillars N s ms zs, |p.2| ≤ δ := fun p hp => hδ _ (List.of_mem_zip hp).2
  rcases hL with ⟨rfl, hn, rfl⟩ | ⟨rfl, hn, rfl⟩ | ⟨rfl, hn, h, H, hh, hgap, rfl⟩
  · have hr := inRange_of_value (.inl ⟨rfl, rfl⟩) hinc (by omega) hu
    obtain ⟨w, hw, h1, h2⟩ := C95_linear _ hinc (by omega) _ hr (-δ) δ fun p h => abs_le.1 (hp p h)
    rw [hu] at hw
    obtain rfl : u = w := by simpa using hw
    rw [one_mul]
    exact abs_le.2 ⟨h1, h2⟩
  · have hr := inRange_of_value (.inr (.inl ⟨rfl, rfl⟩)) hinc (by omega) hu
    obtain ⟨w, hw, h1⟩ := C95_catmull_rom_magnitude _ hinc (by omega) _ hr δ hp
    rw [hu] at hw
    obtain rfl : u = w := by simpa using hw
    exact h1
  · have hr := inRange_of_value (.inr (.inr ⟨rfl, rfl⟩)) hinc (by omega) hu
    have hN := isActual_pos hD
    obtain ⟨w, hw, h1⟩ := C95_natural_cubic_magnitude _ hinc (by omega) _ hr δ (h / N) (H / N) hp (div_pos hh hN) (by
      intro i hi
      simp only [pillars, List.getElem_zip, List.getElem_map]
      have hi' : i + 1 < ms.length := by omega
      have e : (Date.sub ms[i + 1] s : ℝ) / N - (Date.sub ms[i] s : ℝ) / N = (Date.sub ms[i + 1] ms[i] : ℝ) / N := by
        rw [← sub_div]
        congr 1
        simp only [C04_sub_serial]; push_cast; ring
      rw [e]
      exact ⟨div_le_div_of_nonneg_right (hgap i hi').1 hN.le, div_le_div_of_nonneg_right (hgap i hi').2 hN.le⟩)
    rw [hu] at hw
    obtain rfl : u = w := by simpa using hw
    rwa [div_div_div_cancel_right₀ hN.ne'] at h1

theorem factor_shipped {ms : List Date} {L : ℝ} (hL : IsYieldFactor I ms L) :
    ∃ n, IsShippedInterpolator I n ∧ n ≤ ms.length := by
  rcases hL with ⟨h, hn, -⟩ | ⟨h, hn, -⟩ | ⟨h, hn, -⟩
  · exact ⟨2, .inl ⟨h, rfl⟩, hn⟩
  · exact ⟨3, .inr (.inl ⟨h, rfl⟩), hn⟩
  · exact ⟨3, .inr (.inr ⟨h, rfl⟩), hn⟩

/-- **C98.** If no yield moves by more than `δ`, a discount factor changes by at most the factor `exp (L δ (t₁ + t₂))`,
where `t₁` and `t₂` are the times from settlement to the two dates. -/
theorem C98_discount_change (hD : IsActual D N) (s : Date) (ms : List Date) (ys zs : List ℝ) (hy : ms.length = ys.length)
    (hz : ms.length = zs.length) (hm : ms.Pairwise (· < ·)) (L : ℝ) (hL : IsYieldFactor I ms L) (δ : ℝ)
    (hδ : ∀ i (h : i < ms.length), |zs[i] - ys[i]| ≤ δ) (d1 d2 : Date) (v : ℝ)
    (hv : curveDiscount D I s ms ys d1 d2 = .ok (.ok v)) :
    ∃ w X, curveDiscount D I s ms zs d1 d2 = .ok (.ok w) ∧ X = (Date.sub d1 s : ℝ) / N + (Date.sub d2 s : ℝ) / N ∧
      Real.exp (-(L * δ * X)) * v ≤ w ∧ w ≤ Real.exp (L * δ * X) * v := by
  obtain ⟨n, hI, hn⟩ := factor_shipped hL
  obtain ⟨hs, hd, y, ey, p, ev, hp⟩ := (curveDiscount_form hD hI hy hm hn).1 hv
  have cov : ∀ d u, evaluate I (pillars N s ms ys) ((Date.sub d s : ℝ) / N) = .ok (.ok u) → Covers ms d :=
    fun d u hu => (inRange_iff_covers hD s ms ys hy d).1
      (inRange_of_value hI (pillars_increasing hD s hm ys) (by simp [pillars]; omega) hu)
  obtain ⟨w, hw⟩ := (C58_domain hD hI s ms zs hz hm hn d1 d2 hs hd).1 ⟨cov _ _ ey,
    hp.imp (fun h => h.1) (fun h => by obtain ⟨-, y1, h1, -⟩ := h; exact cov _ _ h1)⟩
  have hq := C98_discount hD hI s ms ys zs hy hz hn hm (-1) 1 d1 d2 v w hv hw
  have v0 := flowDiscounts_pos hD hI hy hn hm hv
  rw [Real.rpow_one, Real.rpow_neg_one] at hq
  have hlen := combine_length (a := -1) (b := 1) hy hz
  obtain ⟨-, -, q, eq, r, er, hr⟩ := (curveDiscount_form hD hI hlen hm hn).1 hq
  have hδ' : ∀ x ∈ combine (-1) 1 ys zs, |x| ≤ δ := by
    intro x hx
    obtain ⟨i, hi, rfl⟩ := List.getElem_of_mem hx
    rw [← hlen] at hi
    have := hδ i hi
    simp only [combine, List.getElem_zipWith]
    rwa [show -1 * ys[i] + 1 * zs[i] = zs[i] - ys[i] by ring]
  have t2 := fraction_nonneg hD (hs.trans hd)
  have t1 := fraction_nonneg hD hs
  have b2 := factor_bound hD hlen hm hL hδ' eq
  have c2 : |(Date.sub d2 s : ℝ) / N * q| ≤ (Date.sub d2 s : ℝ) / N * (L * δ) := by
    rw [abs_mul, abs_of_nonneg t2]; exact mul_le_mul_of_nonneg_left b2 t2
  have c1 : |r| ≤ (Date.sub d1 s : ℝ) / N * (L * δ) := by
    rcases hr with ⟨e, rfl⟩ | ⟨-, q1, e1, rfl⟩
    · rw [abs_zero]
      exact mul_nonneg t1 (le_trans (abs_nonneg _) b2)
    · rw [abs_mul, abs_of_nonneg t1]
      exact mul_le_mul_of_nonneg_left (factor_bound hD hlen hm hL hδ' e1) t1
  have hex : |r - (Date.sub d2 s : ℝ) / N * q| ≤ L * δ * ((Date.sub d1 s : ℝ) / N + (Date.sub d2 s : ℝ) / N) := by
    refine (abs_sub _ _).trans ?_
    linarith
  refine ⟨w, _, hw, rfl, ?_⟩
  have ew : w = Real.exp (r - (Date.sub d2 s : ℝ) / N * q) * v := by
    rw [← er]; field_simp
  rw [ew]
  exact ⟨mul_le_mul_of_nonneg_right (Real.exp_le_exp.2 (abs_le.1 hex).1) v0.le,
    mul_le_mul_of_nonneg_right (Real.exp_le_exp.2 (abs_le.1 hex).2) v0.le⟩

/-- **C98.** If no yield moves by more than `δ`, the price of a bond without negative flows changes by at most the factor
`exp (L δ X)`, where `X` bounds the time from the curve's settlement to the bond's plus that to the payment. -/
theorem C98_price_change (hD : IsActual D N) (s : Date) (ms : List Date) (ys zs : List ℝ) (hy : ms.length = ys.length)
    (hz : ms.length = zs.length) (hm : ms.Pairwise (· < ·)) (L : ℝ) (hL : IsYieldFactor I ms L) (δ : ℝ) (h0 : 0 ≤ δ)
    (hδ : ∀ i (h : i < ms.length), |zs[i] - ys[i]| ≤ δ) (b : Bond ℝ) (settle : Date)
    (hb : ∀ g ∈ remaining b settle, 0 ≤ g.paymentAmount) (X : ℝ)
    (hX : ∀ g ∈ remaining b settle, (Date.sub settle s : ℝ) / N + (Date.sub g.paymentDate s : ℝ) / N ≤ X) (v : ℝ)
    (hv : curvePrice D I s ms ys b settle = .ok (.ok v)) :
    ∃ w, curvePrice D I s ms zs b settle = .ok (.ok w) ∧ Real.exp (-(L * δ * X)) * v ≤ w ∧ w ≤ Real.exp (L * δ * X) * v := by
  obtain ⟨n, hI, hn⟩ := factor_shipped hL
  obtain ⟨vs, hvs, rfl⟩ := (price_iff hD hI hy hn hm).1 hv
  have L0 : 0 ≤ L := by
    rcases hL with ⟨-, -, rfl⟩ | ⟨-, -, rfl⟩ | ⟨-, -, h, H, -, -, rfl⟩
    · norm_num
    · norm_num
    · positivity
  have hk : 0 ≤ L * δ := mul_nonneg L0 h0
  suffices h : ∃ ws, FlowDiscounts D I s ms zs b settle ws ∧
      Real.exp (-(L * δ * X)) * (List.zipWith (fun df g => df * g.paymentAmount) vs (remaining b settle)).sum ≤
        (List.zipWith (fun df g => df * g.paymentAmount) ws (remaining b settle)).sum ∧
      (List.zipWith (fun df g => df * g.paymentAmount) ws (remaining b settle)).sum ≤
        Real.exp (L * δ * X) * (List.zipWith (fun df g => df * g.paymentAmount) vs (remaining b settle)).sum by
    obtain ⟨ws, hws, h1, h2⟩ := h
    exact ⟨_, (price_iff hD hI hz hn hm).2 ⟨ws, hws, rfl⟩, h1, h2⟩
  clear hv
  unfold FlowDiscounts at hvs ⊢
  generalize remaining b settle = l at *
  induction hvs with
  | nil => exact ⟨[], .nil, by simp⟩
  | @cons g v l vs h _ ih =>
    obtain ⟨ws, hws, i1, i2⟩ := ih (fun g hg => hb g (by simp [hg])) (fun g hg => hX g (by simp [hg]))
    obtain ⟨w, Y, hw, rfl, j1, j2⟩ := C98_discount_change hD s ms ys zs hy hz hm L hL δ hδ settle g.paymentDate v h
    have v0 := flowDiscounts_pos hD hI hy hn hm h
    have hY := mul_le_mul_of_nonneg_left (hX g (by simp)) hk
    have k1 : Real.exp (-(L * δ * X)) * v ≤ w :=
      le_trans (mul_le_mul_of_nonneg_right (Real.exp_le_exp.2 (neg_le_neg hY)) v0.le) j1
    have k2 : w ≤ Real.exp (L * δ * X) * v :=
      j2.trans (mul_le_mul_of_nonneg_right (Real.exp_le_exp.2 hY) v0.le)
    have hg := hb g (by simp)
    refine ⟨w :: ws, .cons hw hws, ?_, ?_⟩
    · simp only [List.zipWith_cons_cons, List.sum_cons]
      have := mul_le_mul_of_nonneg_right k1 hg
      linarith
    · simp only [List.zipWith_cons_cons, List.sum_cons]
      have := mul_le_mul_of_nonneg_right k2 hg
      linarith

end

/-! ## A payment after 540 days on the curve with pillars after 360, 720 and 1080 days -/

theorem grid_flow {n : Nat} {I : Interpolator ℝ} {a b c y : ℝ} (hI : IsShippedInterpolator I n)
    (hy : evaluate I [(1, a), (2, b), (3, c)] (3 / 2) = .ok (.ok y)) :
    FlowDiscounts DayCount.act360 I gridSettle gridMaturities [a, b, c] (zeroBond gridMid1) gridSettle
      [Real.exp (-(3 / 2 * y))] := by
  have e : remaining (zeroBond gridMid1) gridSettle = [⟨gridMid1, gridMid1, 1⟩] := by
    simp only [remaining, zeroBond]
    rw [List.filter_cons_of_pos (by decide), List.filter_nil]
  unfold FlowDiscounts
  rw [e]
  exact .cons (grid_discount hI a b c _ _ gridMid1 (by decide) grid_mid1 hy) .nil

/-- Catmull-Rom spline, yields 1 %, 2 % and 3 %: bumping the last yield raises the price at the rate `3/32` of it. -/
example : ∃ P P' : ℝ → ℝ, (∀ τ, curvePrice DayCount.act360 (Interpolator.catmullRom ℝ) gridSettle gridMaturities
      (combine 1 τ [0.01, 0.02, 0.03] [0, 0, 1]) (zeroBond gridMid1) gridSettle = .ok (.ok (P τ))) ∧
    (∀ τ, HasDerivAt P (P' τ) τ) ∧ P' 0 = 3 / 32 * Real.exp (-(3 / 2 * 0.015)) := by
  have h1 := grid_flow (.inr (.inl ⟨rfl, rfl⟩)) (grid_catmullRom 0.01 0.02 0.03)
  have h2 := grid_flow (.inr (.inl ⟨rfl, rfl⟩)) (grid_catmullRom 0 0 1)
  obtain ⟨P, P', p1, p2, p3, -⟩ := C98_derivatives (N := 360) (.inl ⟨rfl, rfl⟩) (.inr (.inl ⟨rfl, rfl⟩)) gridSettle
    gridMaturities _ _ rfl rfl (le_refl _) gridMaturities_increasing (zeroBond gridMid1) gridSettle _ _ h1 h2
  refine ⟨P, P', p1, p2, ?_⟩
  have e : remaining (zeroBond gridMid1) gridSettle = [⟨gridMid1, gridMid1, 1⟩] := by
    simp only [remaining, zeroBond]
    rw [List.filter_cons_of_pos (by decide), List.filter_nil]
  rw [p3, e]
  simp only [List.zip_cons_cons, List.zip_nil_left, List.map_cons, List.map_nil, List.sum_cons, List.sum_nil, Real.log_exp]
  norm_num
  ring

/-- The same payment: a first-order estimate from below for every bump. -/
example (τ : ℝ) : ∃ p, curvePrice DayCount.act360 (Interpolator.catmullRom ℝ) gridSettle gridMaturities
      (combine 1 τ [0.01, 0.02, 0.03] [0, 0, 1]) (zeroBond gridMid1) gridSettle = .ok (.ok p) ∧
    (1 + τ * (3 / 32)) * Real.exp (-(3 / 2 * 0.015)) ≤ p := by
  have h1 := grid_flow (.inr (.inl ⟨rfl, rfl⟩)) (grid_catmullRom 0.01 0.02 0.03)
  have h2 := grid_flow (.inr (.inl ⟨rfl, rfl⟩)) (grid_catmullRom 0 0 1)
  have e : remaining (zeroBond gridMid1) gridSettle = [⟨gridMid1, gridMid1, 1⟩] := by
    simp only [remaining, zeroBond]
    rw [List.filter_cons_of_pos (by decide), List.filter_nil]
  have hv := (price_iff (N := 360) (.inl ⟨rfl, rfl⟩) (.inr (.inl ⟨rfl, rfl⟩)) rfl (le_refl _)
    gridMaturities_increasing).2 ⟨_, h1, rfl⟩
  obtain ⟨p, hp, hle⟩ := C98_tangent (N := 360) (.inl ⟨rfl, rfl⟩) (.inr (.inl ⟨rfl, rfl⟩)) gridSettle
    gridMaturities _ _ rfl rfl (le_refl _) gridMaturities_increasing (zeroBond gridMid1) gridSettle
    (by rw [e]; simp) _ _ h1 h2 _ τ hv
  refine ⟨p, hp, le_trans (le_of_eq ?_) hle⟩
  rw [e]
  simp only [List.zip_cons_cons, List.zip_nil_left, List.map_cons, List.map_nil, List.sum_cons, List.sum_nil, Real.log_exp,
    List.zipWith_cons_cons, List.zipWith_nil_left]
  norm_num
  ring

/-- Linear interpolation: one year and a half of duration. -/
example : ∃ P P' : ℝ → ℝ, (∀ τ, curvePrice DayCount.act360 (Interpolator.linear ℝ) gridSettle gridMaturities
      ([0.01, 0.02, 0.03].map (· + τ)) (zeroBond gridMid1) gridSettle = .ok (.ok (P τ))) ∧
    (∀ τ, HasDerivAt P (P' τ) τ) ∧ P' 0 = -(3 / 2 * Real.exp (-(3 / 2 * 0.015))) := by
  have hs := grid_increasing 0.01 0.02 0.03
  obtain ⟨w, hw, ew, -⟩ := C35_between _ hs 0 1 0.01 2 0.02 (3 / 2) ⟨rfl, rfl⟩ (by norm_num) (by norm_num)
  have hw' : w = 0.015 := by norm_num at ew ⊢; linarith
  rw [hw'] at hw
  have h1 := grid_flow (.inl ⟨rfl, rfl⟩) hw
  obtain ⟨P, P', p1, p2, p3, -⟩ := C98_duration (N := 360) (.inl ⟨rfl, rfl⟩) gridSettle
    gridMaturities _ rfl gridMaturities_increasing (.inl ⟨rfl, by decide⟩) (zeroBond gridMid1) gridSettle _ h1
  refine ⟨P, P', p1, p2, ?_⟩
  have e : remaining (zeroBond gridMid1) gridSettle = [⟨gridMid1, gridMid1, 1⟩] := by
    simp only [remaining, zeroBond]
    rw [List.filter_cons_of_pos (by decide), List.filter_nil]
  rw [p3, e]
  simp only [List.zip_cons_cons, List.zip_nil_left, List.map_cons, List.map_nil, List.sum_cons, List.sum_nil, grid_mid1]
  norm_num

/-- Convexity and the bound on a change, on both splines: from yields 1 %, 2 %, 3 % to yields 3 %, 2 %, 1 %. -/
example {I : Interpolator ℝ} (hI : I = Interpolator.catmullRom ℝ ∨ I = Interpolator.naturalCubic ℝ) :
    ∃ v w p, curvePrice DayCount.act360 I gridSettle gridMaturities [0.01, 0.02, 0.03] (zeroBond gridMid1) gridSettle =
        .ok (.ok v) ∧
      curvePrice DayCount.act360 I gridSettle gridMaturities [0.03, 0.02, 0.01] (zeroBond gridMid1) gridSettle =
        .ok (.ok w) ∧
      curvePrice DayCount.act360 I gridSettle gridMaturities (combine (1 - 1 / 4) (1 / 4) [0.01, 0.02, 0.03]
        [0.03, 0.02, 0.01]) (zeroBond gridMid1) gridSettle = .ok (.ok p) ∧ p ≤ (1 - 1 / 4) * v + 1 / 4 * w ∧
      w ≤ Real.exp (4 * 0.02 * (3 / 2)) * v := by
  have hI' : IsShippedInterpolator I 3 := hI.elim (fun h => .inr (.inl ⟨h, rfl⟩)) fun h => .inr (.inr ⟨h, rfl⟩)
  have hb : ∀ g ∈ remaining (zeroBond gridMid1) gridSettle, 0 ≤ g.paymentAmount := by
    intro g hg
    have := (List.mem_filter.1 hg).1
    simp [zeroBond] at this
    rw [this]
    norm_num
  have hcov : ∀ ys : List ℝ, ys.length = 3 → ∃ v, curvePrice DayCount.act360 I gridSettle gridMaturities ys (zeroBond gridMid1)
      gridSettle = .ok (.ok v) := by
    intro ys h3
    refine (C52_shipped_domain (N := 360) (.inl ⟨rfl, rfl⟩) hI' gridSettle gridMaturities ys (by rw [h3]; rfl)
      gridMaturities_increasing (le_refl _) (zeroBond gridMid1) gridSettle le_rfl (by simp [zeroBond])).1
      ⟨fun g hg => ?_, .inr (.inl rfl)⟩
    have := (List.mem_filter.1 hg).1
    simp [zeroBond] at this
    rw [this]
    exact ⟨⟨_, List.mem_cons_self, by decide⟩, ⟨⟨2025, 12, 16, by decide⟩, by simp [gridMaturities], by decide⟩⟩
  obtain ⟨v, hv⟩ := hcov [0.01, 0.02, 0.03] rfl
  obtain ⟨w, hw⟩ := hcov [0.03, 0.02, 0.01] rfl
  obtain ⟨p, hp, h1, h2⟩ := C98_convex (N := 360) (.inl ⟨rfl, rfl⟩) hI' gridSettle gridMaturities _ _ rfl rfl (le_refl _)
    gridMaturities_increasing _ _ hb v w (1 / 4) (by norm_num) (by norm_num) hv hw
  have k1 : Date.sub ⟨2024, 12, 21, by decide⟩ ⟨2023, 12, 27, by decide⟩ = 360 := by decide +kernel
  have k2 : Date.sub ⟨2025, 12, 16, by decide⟩ ⟨2024, 12, 21, by decide⟩ = 360 := by decide +kernel
  obtain ⟨L, hL, hL4⟩ : ∃ L, IsYieldFactor I gridMaturities L ∧ L ≤ 4 := by
    rcases hI with h | h
    · exact ⟨2, .inr (.inl ⟨h, le_refl _, rfl⟩), by norm_num⟩
    · refine ⟨1 + 12 / 5 * (360 / 360) ^ 2, .inr (.inr ⟨h, le_refl _, 360, 360, by norm_num, ?_, rfl⟩), by norm_num⟩
      intro i hi
      match i, hi with
      | 0, _ => simp only [gridMaturities, List.getElem_cons_succ, List.getElem_cons_zero, k1]; norm_num
      | 1, _ => simp only [gridMaturities, List.getElem_cons_succ, List.getElem_cons_zero, k2]; norm_num
      | i + 2, hi => exact absurd hi (by simp [gridMaturities])
  obtain ⟨w', hw', -, h3⟩ := C98_price_change (N := 360) (.inl ⟨rfl, rfl⟩) gridSettle gridMaturities [0.01, 0.02, 0.03]
    [0.03, 0.02, 0.01] rfl rfl gridMaturities_increasing L hL 0.02 (by norm_num) (by
      intro i hi
      match i, hi with
      | 0, _ => norm_num [abs_le]
      | 1, _ => norm_num [abs_le]
      | 2, _ => norm_num [abs_le]
      | i + 3, hi => simp [gridMaturities] at hi) (zeroBond gridMid1) gridSettle hb (3 / 2) (by
      intro g hg
      have := (List.mem_filter.1 hg).1
      simp [zeroBond] at this
      rw [this, grid_mid1, show Date.sub gridSettle gridSettle = 0 by decide +kernel]
      norm_num) v hv
  rw [hw] at hw'
  obtain rfl : w = w' := by simpa using hw'
  refine ⟨v, w, p, hv, hw, hp, h1.trans h2, h3.trans (mul_le_mul_of_nonneg_right (Real.exp_le_exp.2 ?_) ?_)⟩
  · nlinarith
  · obtain ⟨c, -, hv⟩ := curvePrice_eq_ok.1 hv
    exact C53_nonneg _ _ _ _ v hv hb

/-- Yields combined, prices along a line of yields and the change of a discount factor, for the natural cubic spline. -/
example : ∃ v w : ℝ,
    curveDiscount DayCount.act360 (Interpolator.naturalCubic ℝ) gridSettle gridMaturities
      (combine 2 (1 / 2) [0.01, 0.02, 0.03] [0.03, 0.02, 0.01]) gridSettle gridMid1 =
        .ok (.ok (v ^ (2 : ℝ) * w ^ (1 / 2 : ℝ))) ∧
    curvePrice DayCount.act360 (Interpolator.naturalCubic ℝ) gridSettle gridMaturities
      (combine 1 3 [0.01, 0.02, 0.03] [0.03, 0.02, 0.01]) (zeroBond gridMid1) gridSettle =
        .ok (.ok (v * w ^ (3 : ℝ))) := by
  have hI : IsShippedInterpolator (Interpolator.naturalCubic ℝ) 3 := .inr (.inr ⟨rfl, rfl⟩)
  have cov : Covers gridMaturities gridMid1 :=
    ⟨⟨_, List.mem_cons_self, by decide⟩, ⟨⟨2025, 12, 16, by decide⟩, by simp [gridMaturities], by decide⟩⟩
  have dom := fun ys hl => (C58_domain (N := 360) (.inl ⟨rfl, rfl⟩) hI gridSettle gridMaturities
    ys hl gridMaturities_increasing (le_refl _) gridSettle gridMid1 le_rfl (by decide)).1 ⟨cov, .inl rfl⟩
  obtain ⟨v, hv⟩ := dom [0.01, 0.02, 0.03] rfl
  obtain ⟨w, hw⟩ := dom [0.03, 0.02, 0.01] rfl
  have e : remaining (zeroBond gridMid1) gridSettle = [⟨gridMid1, gridMid1, 1⟩] := by
    simp only [remaining, zeroBond]
    rw [List.filter_cons_of_pos (by decide), List.filter_nil]
  have f : ∀ ys x, curveDiscount DayCount.act360 (Interpolator.naturalCubic ℝ) gridSettle gridMaturities ys gridSettle
      gridMid1 = .ok (.ok x) → FlowDiscounts DayCount.act360 (Interpolator.naturalCubic ℝ) gridSettle gridMaturities ys
        (zeroBond gridMid1) gridSettle [x] := by
    intro ys x hx
    unfold FlowDiscounts
    rw [e]
    exact .cons hx .nil
  refine ⟨v, w, C98_discount (N := 360) (.inl ⟨rfl, rfl⟩) hI _ _ _ _ rfl rfl (le_refl _) gridMaturities_increasing _ _ _ _ v w
    hv hw, ?_⟩
  rw [C98_line (N := 360) (.inl ⟨rfl, rfl⟩) hI _ _ _ _ rfl rfl (le_refl _) gridMaturities_increasing _ _ [v] [w] (f _ _ hv)
    (f _ _ hw), e]
  simp

/-- Yields that move by at most 0.02: the discount factor over one and a half years moves by at most `exp (0.02 * 3 / 2)`, with linear
interpolation. -/
example (v : ℝ) (hv : curveDiscount DayCount.act360 (Interpolator.linear ℝ) gridSettle gridMaturities [0.01, 0.02, 0.03]
      gridSettle gridMid1 = .ok (.ok v)) :
    ∃ w, curveDiscount DayCount.act360 (Interpolator.linear ℝ) gridSettle gridMaturities [0.03, 0.02, 0.01]
      gridSettle gridMid1 = .ok (.ok w) ∧ w ≤ Real.exp (1 * 0.02 * (0 / 360 + 3 / 2)) * v := by
  obtain ⟨w, X, hw, rfl, -, h⟩ := C98_discount_change (N := 360) (.inl ⟨rfl, rfl⟩) gridSettle gridMaturities
    [0.01, 0.02, 0.03] [0.03, 0.02, 0.01] rfl rfl gridMaturities_increasing 1 (.inl ⟨rfl, by decide, rfl⟩) 0.02 (by
      intro i hi
      match i, hi with
      | 0, _ => norm_num [abs_le]
      | 1, _ => norm_num [abs_le]
      | 2, _ => norm_num [abs_le]
      | i + 3, hi => simp [gridMaturities] at hi) gridSettle gridMid1 v hv
  rw [grid_mid1, show Date.sub gridSettle gridSettle = 0 by decide +kernel] at h
  exact ⟨w, hw, by simpa using h⟩

end Qlab.Props
