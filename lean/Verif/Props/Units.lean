import Verif.Props.Superposition
import Verif.Props.CurveShape
import Mathlib.Analysis.SpecialFunctions.Pow.Real

/-!
# The unit and the origin of time do not matter to interpolation (C107)
-/

namespace Qlab.Spec

/-- The same ordinates over abscissae counted in another unit and from another origin: `x` becomes `a x + b`. -/
def rescale {K : Type} [Field K] (a b : K) (pts : List (K × K)) : List (K × K) := pts.map fun p => (a * p.1 + b, p.2)

/-- The same for points with slopes, which are divided by the unit. -/
def rescaleSlopes {K : Type} [Field K] (a b : K) (pts : List (K × K × K)) : List (K × K × K) :=
  pts.map fun p => (a * p.1 + b, p.2.1, p.2.2 / a)

end Qlab.Spec

namespace Qlab

open Spec

namespace TridiagonalMatrix
variable {K : Type} [Field K] {lo di up lo' di' up' f f' : Nat → K} {a c : K}

theorem sweepC_scale (ha : a ≠ 0) (hl : ∀ k, lo' k = a * lo k) (hd : ∀ k, di' k = a * di k) (hu : ∀ k, up' k = a * up k)
    (i : Nat) : sweepC lo' di' up' i = sweepC lo di up i := by
  induction i with
  | zero => simp only [sweepC, hd, hu, mul_div_mul_left _ _ ha]
  | succ i ih =>
    simp only [sweepC, hd, hu, hl, ih]
    rw [show a * di (i + 1) - a * lo i * sweepC lo di up i = a * (di (i + 1) - lo i * sweepC lo di up i) by ring,
      mul_div_mul_left _ _ ha]

theorem sweepY_scale (ha : a ≠ 0) (hl : ∀ k, lo' k = a * lo k) (hd : ∀ k, di' k = a * di k) (hu : ∀ k, up' k = a * up k)
    (hf : ∀ k, f' k = a * c * f k) (i : Nat) : sweepY lo' di' up' f' i = c * sweepY lo di up f i := by
  induction i with
  | zero =>
    simp only [sweepY, hd, hf]
    rw [mul_assoc, mul_div_mul_left _ _ ha, mul_div_assoc]
  | succ i ih =>
    simp only [sweepY, hd, hl, hf, ih, sweepC_scale ha hl hd hu]
    rw [show a * di (i + 1) - a * lo i * sweepC lo di up i = a * (di (i + 1) - lo i * sweepC lo di up i) by ring,
      show a * c * f (i + 1) - a * lo i * (c * sweepY lo di up f i) = a * (c * (f (i + 1) - lo i * sweepY lo di up f i)) by
        ring, mul_div_mul_left _ _ ha, mul_div_assoc]

theorem sweepX_scale (ha : a ≠ 0) (hl : ∀ k, lo' k = a * lo k) (hd : ∀ k, di' k = a * di k) (hu : ∀ k, up' k = a * up k)
    (hf : ∀ k, f' k = a * c * f k) (m i : Nat) : sweepX lo' di' up' f' m i = c * sweepX lo di up f m i := by
  induction hk : m - i generalizing i with
  | zero =>
    rw [sweepX, dif_neg (show ¬ i < m by omega), sweepX, dif_neg (show ¬ i < m by omega), sweepY_scale ha hl hd hu hf]
  | succ k ih =>
    have e : ∀ lo di up f : Nat → K, sweepX lo di up f m i = sweepY lo di up f i - sweepC lo di up i * sweepX lo di up f m (i + 1) :=
      fun _ _ _ _ => by rw [sweepX, dif_pos (show i < m by omega)]
    rw [e, e, sweepY_scale ha hl hd hu hf, sweepC_scale ha hl hd hu, ih (i + 1) (by omega)]
    ring

end TridiagonalMatrix

namespace NaturalCubic
variable {K : Type} [Field K]

theorem curvature_rescale (n : Nat) (p q : Nat → K × K) {a : K} (ha : a ≠ 0) (hg : ∀ i, gap q i = a * gap p i)
    (hy : ∀ i, (q i).2 = (p i).2) (i : Nat) : curvature n q i = (a ^ 2)⁻¹ * curvature n p i := by
  have hrhs : ∀ k, rhs n q k = a * (a ^ 2)⁻¹ * rhs n p k := by
    intro k
    have e : a * (a ^ 2)⁻¹ = a⁻¹ := by field_simp
    rw [e]
    simp only [rhs, TridiagonalMatrix.rowProduct, cSide, cMain, mEnd, hg, hy, recip, mul_inv, div_eq_mul_inv]
    split_ifs <;> ring
  have hs : ∀ k, solved 6 3 n q k = (a ^ 2)⁻¹ * solved 6 3 n p k := by
    intro k
    have b1 : ∀ k, bSide (6 : K) q k = a * bSide 6 p k := fun k => by simp only [bSide, hg, mul_div_assoc]
    have b3 : ∀ k, bMain (3 : K) q k = a * bMain 3 p k := fun k => by simp only [bMain, hg, ← mul_add, mul_div_assoc]
    unfold solved
    split_ifs
    · rw [hrhs, b3, mul_assoc, mul_div_mul_left _ _ ha, mul_div_assoc]
    · exact TridiagonalMatrix.sweepX_scale ha b1 b3 b1 hrhs _ _
  simp only [curvature, second, hs]
  split_ifs <;> ring

theorem cubic_rescale {a x₀ x₁ : K} (ha : a ≠ 0) (b y₀ m₀ y₁ m₁ x : K) :
    cubic (a * x₀ + b) y₀ ((a ^ 2)⁻¹ * m₀) (a * x₁ + b) y₁ ((a ^ 2)⁻¹ * m₁) (a * x + b) = cubic x₀ y₀ m₀ x₁ y₁ m₁ x := by
  unfold cubic
  rw [show a * x₁ + b - (a * x + b) = a * (x₁ - x) by ring, show a * x + b - (a * x₀ + b) = a * (x - x₀) by ring,
    show a * x₁ + b - (a * x₀ + b) = a * (x₁ - x₀) by ring]
  generalize x₁ - x = u
  generalize x - x₀ = w
  generalize x₁ - x₀ = h
  rcases eq_or_ne h 0 with rfl | hh
  · simp
  · field_simp

end NaturalCubic

namespace Props
variable {K : Type} [Field K] [LinearOrder K] [IsStrictOrderedRing K] [FromInt K] [ExactCast K]

omit [FromInt K] [ExactCast K] in
theorem rescale_increasing {a : K} (ha : 0 < a) (b : K) {pts : List (K × K)} (hs : StrictlyIncreasing pts) :
    StrictlyIncreasing (rescale a b pts) := by
  unfold rescale StrictlyIncreasing
  rw [List.pairwise_map]
  exact hs.imp fun {p q} h => by simpa using mul_lt_mul_of_pos_left h ha

omit [LinearOrder K] [IsStrictOrderedRing K] [FromInt K] [ExactCast K] in
theorem rescale_back {a : K} (ha : a ≠ 0) (b : K) (pts : List (K × K)) :
    rescale a⁻¹ (-(a⁻¹ * b)) (rescale a b pts) = pts := by
  unfold rescale
  rw [List.map_map]
  conv_rhs => rw [← List.map_id pts]
  refine List.map_congr_left fun p _ => ?_
  ext
  · show a⁻¹ * (a * p.1 + b) + -(a⁻¹ * b) = p.1
    field_simp; ring
  · rfl

theorem rescale_value {I : Interpolator K} {n : Nat} (hI : IsShippedInterpolator I n) {pts : List (K × K)}
    (hs : StrictlyIncreasing pts) (hn : n ≤ pts.length) {a : K} (ha : 0 < a) (b : K) {x v : K}
    (hv : evaluate I pts x = .ok (.ok v)) : evaluate I (rescale a b pts) (a * x + b) = .ok (.ok v) := by
  have hs' := rescale_increasing ha b hs
  have hl : (rescale a b pts).length = pts.length := by simp [rescale]
  have hg : ∀ i (hi : i < pts.length), (rescale a b pts)[i]'(by omega) = (a * pts[i].1 + b, pts[i].2) := fun i hi => by
    simp [rescale]
  have hne := ha.ne'
  obtain ⟨i, hi, h0, h1⟩ := exists_bracket_raw hs (by rcases hI with ⟨_, rfl⟩ | ⟨_, rfl⟩ | ⟨_, rfl⟩ <;> omega)
    (inRange_of_value hI hs hn hv)
  have h0' : a * pts[i].1 + b ≤ a * x + b := by simpa using mul_le_mul_of_nonneg_left h0 ha.le
  have h1' : a * x + b ≤ a * pts[i + 1].1 + b := by simpa using mul_le_mul_of_nonneg_left h1 ha.le
  have ed : ∀ u w : K, a * u + b - (a * w + b) = a * (u - w) := fun u w => by ring
  rcases hI with ⟨rfl, rfl⟩ | ⟨rfl, rfl⟩ | ⟨rfl, rfl⟩
  · rw [(linear_segment pts hs i _ _ _ _ x ⟨List.getElem?_eq_getElem _, List.getElem?_eq_getElem hi⟩ h0 h1).2] at hv
    obtain rfl := Except.ok.inj (Rust.ok.inj hv)
    rw [(linear_segment _ hs' i _ _ _ _ _
      ⟨by rw [List.getElem?_eq_getElem (by omega), hg i (by omega)],
       by rw [List.getElem?_eq_getElem (by omega), hg (i + 1) hi]⟩ h0' h1').2]
    congr 2
    rw [ed, ed, div_mul_eq_mul_div, mul_left_comm, mul_div_mul_left _ _ hne, div_mul_eq_mul_div]
    rfl
  · rw [catmullRom_segment hs hn hi h0 h1] at hv
    obtain rfl := Except.ok.inj (Rust.ok.inj hv)
    rw [catmullRom_segment hs' (by omega) (i := i) (by omega) (by rw [hg i (by omega)]; exact h0')
      (by rw [hg (i + 1) hi]; exact h1')]
    congr 2
    unfold crSegment
    simp only [hl]
    split_ifs
    · simp only [crFirst, hg _ (show 0 < pts.length by omega), hg _ (show 1 < pts.length by omega),
        hg _ (show 2 < pts.length by omega), ed, ← mul_add, mul_div_mul_left _ _ hne]
    · simp only [crLast, hg _ (show i - 1 < pts.length by omega), hg _ (show i < pts.length by omega),
        hg _ hi, ed, ← mul_add, mul_div_mul_left _ _ hne]
    · simp only [crInner, hg _ (show i - 1 < pts.length by omega), hg _ (show i < pts.length by omega),
        hg _ hi, hg _ (show i + 2 < pts.length by omega), ed, ← mul_add, mul_div_mul_left _ _ hne]
  · set p : Nat → K × K := fun j => pts.getD j (0, 0) with hp
    set q : Nat → K × K := fun j => (a * (p j).1 + b, (p j).2) with hq
    have et : pts = tab pts.length p := by
      apply List.ext_getElem
      · simp
      · intro j h1 h2; simp [hp, List.getElem?_eq_getElem h1]
    have et' : rescale a b pts = tab pts.length q := by
      apply List.ext_getElem
      · simp [rescale]
      · intro j h1 h2
        have : j < pts.length := by omega
        rw [hg j this]; simp [hq, hp, List.getElem?_eq_getElem this]
    have pe : ∀ j (hj : j < pts.length), p j = pts[j] := fun j hj => by simp [hp, List.getElem?_eq_getElem hj]
    have s1 := NaturalCubic.segment (p := p) hn (et ▸ hs) hi (x := x) (by rw [pe]; exact h0) (by rw [pe]; exact h1)
    have s2 := NaturalCubic.segment (p := q) hn (et' ▸ hs') hi (x := a * x + b)
      (by simp only [hq, pe i (by omega)]; exact h0') (by simp only [hq, pe _ hi]; exact h1')
    rw [et, s1] at hv
    obtain rfl := Except.ok.inj (Rust.ok.inj hv)
    rw [et', s2]
    congr 2
    have hc := NaturalCubic.curvature_rescale pts.length p q hne
      (fun j => by simp only [NaturalCubic.gap, hq]; ring) (fun _ => rfl)
    rw [hc, hc]
    exact NaturalCubic.cubic_rescale hne b _ _ _ _ x

/-- **C107.** Counting abscissae in another unit and from another origin changes no value of linear, Catmull-Rom and natural
cubic interpolation. -/
theorem C107_rescale {I : Interpolator K} {n : Nat} (hI : IsShippedInterpolator I n) (pts : List (K × K))
    (hs : StrictlyIncreasing pts) (hn : n ≤ pts.length) (a b : K) (ha : 0 < a) (x v : K) :
    evaluate I (rescale a b pts) (a * x + b) = .ok (.ok v) ↔ evaluate I pts x = .ok (.ok v) := by
  refine ⟨fun h => ?_, rescale_value hI hs hn ha b⟩
  have := rescale_value hI (rescale_increasing ha b hs) (by simpa [rescale] using hn) (inv_pos.2 ha) (-(a⁻¹ * b)) h
  rw [rescale_back ha.ne'] at this
  rw [← this]
  congr 1
  have := ha.ne'
  field_simp; ring

/-- Three points over years, and the same in days counted from day 90: the value at 2 years and at 820 days. -/
example : evaluate (Interpolator.naturalCubic ℚ) [(0, 1), (1, 4), (3, 2)] 2 = .ok (.ok (17 / 4)) ∧
    evaluate (Interpolator.naturalCubic ℚ) [(90, 1), (455, 4), (1185, 2)] 820 = .ok (.ok (17 / 4)) := by
  have h : evaluate (Interpolator.naturalCubic ℚ) [(0, 1), (1, 4), (3, 2)] 2 = .ok (.ok (17 / 4)) := by decide +kernel
  refine ⟨h, ?_⟩
  have := (C107_rescale (.inr (.inr ⟨rfl, rfl⟩)) _ (by unfold StrictlyIncreasing; decide) (by simp) 365 90 (by norm_num) _ _).2 h
  norm_num [rescale] at this
  exact this

/-- **C107.** The same for Hermite interpolation, when slopes are divided by the unit. -/
theorem C107_hermite (pts : List (K × K × K)) (hs : StrictlyIncreasing pts) (hn : 2 ≤ pts.length) (a b : K) (ha : 0 < a)
    (x v : K) (hv : evaluateHermite pts x = .ok (.ok v)) :
    evaluateHermite (rescaleSlopes a b pts) (a * x + b) = .ok (.ok v) := by
  have hs' : StrictlyIncreasing (rescaleSlopes a b pts) := by
    unfold rescaleSlopes StrictlyIncreasing
    rw [List.pairwise_map]
    exact hs.imp fun {p q} h => by simpa using mul_lt_mul_of_pos_left h ha
  have hl : (rescaleSlopes a b pts).length = pts.length := by simp [rescaleSlopes]
  have hg : ∀ i (hi : i < pts.length), (rescaleSlopes a b pts)[i]'(by omega) =
      (a * pts[i].1 + b, pts[i].2.1, pts[i].2.2 / a) := fun i hi => by simp [rescaleSlopes]
  have hne := ha.ne'
  have hr : InRange pts x := by
    have := C37_domain _ hs hn x
    have h1 : ¬ BelowAll pts x ∧ ¬ AboveAll pts x :=
      ⟨fun h => by simp [this.1 h] at hv, fun h => by simp [this.2.1 h] at hv⟩
    simpa [InRange, BelowAll, AboveAll] using h1
  obtain ⟨i, hi, h0, h1⟩ := exists_bracket_raw hs hn hr
  have h0' : a * pts[i].1 + b ≤ a * x + b := by simpa using mul_le_mul_of_nonneg_left h0 ha.le
  have h1' : a * x + b ≤ a * pts[i + 1].1 + b := by simpa using mul_le_mul_of_nonneg_left h1 ha.le
  have ed : ∀ u w : K, a * u + b - (a * w + b) = a * (u - w) := fun u w => by ring
  have em : ∀ u w : K, u / a * (a * w) = u * w := fun u w => by field_simp
  rw [hermite_segment hs hi h0 h1] at hv
  obtain rfl := Except.ok.inj (Rust.ok.inj hv)
  rw [hermite_segment hs' (i := i) (by omega) (by rw [hg i (by omega)]; exact h0') (by rw [hg (i + 1) hi]; exact h1')]
  congr 2
  simp only [hermiteCubic, hg _ hi, hg _ (show i < pts.length by omega), ed, em, mul_div_mul_left _ _ hne]

example : evaluateHermite (V := ℚ) [(0, 1, 2), (1, 4, -1), (3, 2, 0)] 2 = .ok (.ok (11 / 4)) ∧
    evaluateHermite (V := ℚ) (rescaleSlopes 365 90 [(0, 1, 2), (1, 4, -1), (3, 2, 0)]) (365 * 2 + 90) = .ok (.ok (11 / 4)) := by
  have h : evaluateHermite (V := ℚ) [(0, 1, 2), (1, 4, -1), (3, 2, 0)] 2 = .ok (.ok (11 / 4)) := by decide +kernel
  exact ⟨h, C107_hermite _ (by unfold StrictlyIncreasing; decide) (by decide) 365 90 (by norm_num) _ _ h⟩

section
variable {I : Interpolator ℝ}

theorem pillars_365 (s : Date) (ms : List Date) (ys : List ℝ) :
    pillars 365 s ms ys = rescale (72 / 73) 0 (pillars 360 s ms ys) := by
  unfold rescale pillars
  induction ms generalizing ys with
  | nil => rfl
  | cons m ms ih =>
    cases ys with
    | nil => rfl
    | cons y ys =>
      simp only [List.map_cons, List.zip_cons_cons]
      rw [ih]
      congr 2
      ring

/-- **C107.** A curve with Act/365 in place of Act/360 and the same yields interpolates the same yield on every date; its
discount factors are those of the Act/360 curve to the power 360/365. -/
theorem C107_day_counts {n : Nat} (hI : IsShippedInterpolator I n) (s : Date) (ms : List Date) (ys : List ℝ)
    (hlen : ms.length = ys.length) (hm : ms.Pairwise (· < ·)) (hn : n ≤ ms.length) (d1 d2 : Date) (v : ℝ)
    (h : curveDiscount DayCount.act360 I s ms ys d1 d2 = .ok (.ok v)) :
    curveDiscount DayCount.act365 I s ms ys d1 d2 = .ok (.ok (v ^ (360 / 365 : ℝ))) := by
  obtain ⟨hs, hd, y2, hy2, z1, rfl, hz⟩ := (curveDiscount_form (.inl ⟨rfl, rfl⟩) hI hlen hm hn).1 h
  have hinc := pillars_increasing (N := 360) (.inl ⟨rfl, rfl⟩) s hm ys
  have hl : n ≤ (pillars 360 s ms ys).length := by simp [pillars]; omega
  have tr : ∀ d y, evaluate I (pillars 360 s ms ys) ((Date.sub d s : ℝ) / 360) = .ok (.ok y) →
      evaluate I (pillars 365 s ms ys) ((Date.sub d s : ℝ) / 365) = .ok (.ok y) := by
    intro d y hy
    have := (C107_rescale hI _ hinc hl (72 / 73) 0 (by norm_num) _ _).2 hy
    rw [pillars_365, ← this]
    congr 1
    ring
  refine (curveDiscount_form (.inr ⟨rfl, rfl⟩) hI hlen hm hn).2
    ⟨hs, hd, y2, tr _ _ hy2, z1 * (72 / 73), ?_, ?_⟩
  · rw [← Real.exp_mul]
    congr 1
    ring
  · rcases hz with ⟨rfl, rfl⟩ | ⟨hne, y1, hy1, rfl⟩
    · exact .inl ⟨rfl, by ring⟩
    · exact .inr ⟨hne, y1, tr _ _ hy1, by ring⟩

/-- A curve with three pillars at 2, 3 and 4 percent, seen 540 days after settlement. -/
example : ∃ v, curveDiscount DayCount.act360 (Interpolator.catmullRom ℝ) gridSettle gridMaturities [2 / 100, 3 / 100, 4 / 100]
      gridSettle gridMid1 = .ok (.ok v) ∧
    curveDiscount DayCount.act365 (Interpolator.catmullRom ℝ) gridSettle gridMaturities [2 / 100, 3 / 100, 4 / 100]
      gridSettle gridMid1 = .ok (.ok (v ^ (360 / 365 : ℝ))) := by
  have hm := gridMaturities_increasing
  have h : curveDiscount DayCount.act360 (Interpolator.catmullRom ℝ) gridSettle gridMaturities [2 / 100, 3 / 100, 4 / 100]
      gridSettle gridMid1 = _ :=
    (curveDiscount_form (N := 360) (.inl ⟨rfl, rfl⟩) (.inr (.inl ⟨rfl, rfl⟩)) rfl hm (by decide)).2
      ⟨by decide, by decide, _, by rw [grid_pillars, grid_mid1, grid_catmullRom], 0, rfl, .inl ⟨rfl, rfl⟩⟩
  exact ⟨_, h, C107_day_counts (.inr (.inl ⟨rfl, rfl⟩)) _ _ _ rfl hm (by decide) _ _ _ h⟩

end

end Props
end Qlab
