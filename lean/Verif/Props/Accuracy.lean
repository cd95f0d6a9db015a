import Verif.Lemmas.Accuracy
import Verif.Lemmas.Exact
import Verif.Props.Overshoot

/-!
# Closeness of interpolated values to the function behind the data (C110)
-/

namespace Qlab.Spec

/-- The points lie on the graph of `f`, with abscissae from `a` to `b`. -/
def SampledFrom {K : Type} [LE K] (f : K → K) (a b : K) (pts : List (K × K)) : Prop :=
  ∀ p ∈ pts, a ≤ p.1 ∧ p.1 ≤ b ∧ p.2 = f p.1

/-- From `a` to `b` the function changes by at most `L` per unit. -/
def ChangesAtMost {K : Type} [Field K] [LinearOrder K] (f : K → K) (L a b : K) : Prop :=
  ∀ u v, a ≤ u → u ≤ v → v ≤ b → |f v - f u| ≤ L * (v - u)

end Qlab.Spec

namespace Qlab.Props

open Spec NaturalCubic

section
variable {K : Type} [Field K] [LinearOrder K] [IsStrictOrderedRing K]

omit [Field K] [IsStrictOrderedRing K] in
/-- Both ends of a segment. -/
theorem segment_ends {f : K → K} {a b : K} {pts : List (K × K)} (hp : SampledFrom f a b pts) {i : Nat}
    {x₀ y₀ x₁ y₁ : K} (h : IsSegment pts i x₀ y₀ x₁ y₁) : a ≤ x₀ ∧ y₀ = f x₀ ∧ x₁ ≤ b ∧ y₁ = f x₁ := by
  have m0 := hp _ (List.mem_of_getElem? h.1)
  have m1 := hp _ (List.mem_of_getElem? h.2)
  exact ⟨m0.1, m0.2.2, m1.2.1, m1.2.2⟩

/-- Weights of an inner segment. -/
theorem inner_weights {t : K} (t0 : 0 ≤ t) (t1 : t ≤ 1) :
    (1 - t) ^ 2 * (1 + 2 * t) * t + t ^ 2 * (1 + 2 * (1 - t)) * (1 - t) + (t * (1 - t) ^ 2 + t ^ 2 * (1 - t)) ≤ 3 / 4 := by
  have h0 : 0 ≤ t * (1 - t) := mul_nonneg t0 (by linarith)
  have h4 : t * (1 - t) ≤ 1 / 4 := by nlinarith [sq_nonneg (2 * t - 1)]
  have h16 := mul_le_mul h4 h4 h0 (by norm_num)
  rw [show (1 - t) ^ 2 * (1 + 2 * t) * t + t ^ 2 * (1 + 2 * (1 - t)) * (1 - t) + (t * (1 - t) ^ 2 + t ^ 2 * (1 - t)) =
    2 * (t * (1 - t)) + 4 * (t * (1 - t) * (t * (1 - t))) by ring]
  linarith

/-- Weights of the first segment. -/
theorem first_weights {t : K} (t0 : 0 ≤ t) (t1 : t ≤ 1) :
    (1 - t) ^ 2 * (1 + t) * t + t * (1 + t * (1 - t)) * (1 - t) + t ^ 2 * (1 - t) ≤ 3 / 4 := by
  have h0 : 0 ≤ t * (1 - t) := mul_nonneg t0 (by linarith)
  have h4 : t * (1 - t) ≤ 1 / 4 := by nlinarith [sq_nonneg (2 * t - 1)]
  have h16 := mul_le_mul h4 h4 h0 (by norm_num)
  rw [show (1 - t) ^ 2 * (1 + t) * t + t * (1 + t * (1 - t)) * (1 - t) + t ^ 2 * (1 - t) =
    2 * (t * (1 - t)) + 2 * (t * (1 - t) * (t * (1 - t))) by ring]
  linarith

/-- **C110.** A linearly interpolated value is within half the change that the rate `L` allows over the segment. -/
theorem C110_linear_rate (f : K → K) (L a b : K) (hf : ChangesAtMost f L a b) (pts : List (K × K))
    (hp : SampledFrom f a b pts) (hs : StrictlyIncreasing pts) (i : Nat) (x₀ y₀ x₁ y₁ x : K)
    (h : IsSegment pts i x₀ y₀ x₁ y₁) (h0 : x₀ ≤ x) (h1 : x ≤ x₁) :
    ∃ v, evaluate (Interpolator.linear K) pts x = .ok (.ok v) ∧ |v - f x| ≤ L * (x₁ - x₀) / 2 := by
  obtain ⟨ha, rfl, hb, rfl⟩ := segment_ends hp h
  obtain ⟨hlt, hv⟩ := linear_segment pts hs i _ _ _ _ x h h0 h1
  refine ⟨_, hv, ?_⟩
  have hG : 0 < x₁ - x₀ := by linarith
  have c0 := hf x₀ x ha h0 (by linarith)
  have c1 := hf x x₁ (by linarith) h1 hb
  have cL := le_trans (abs_nonneg _) (hf x₀ x₁ ha hlt.le hb)
  set t := (x - x₀) / (x₁ - x₀) with ht
  have hx : x - x₀ = t * (x₁ - x₀) := by rw [ht]; field_simp
  obtain ⟨t0, t1⟩ : 0 ≤ t ∧ t ≤ 1 := position_bounds hlt h0 h1
  have e : f x₀ + (f x₁ - f x₀) / (x₁ - x₀) * (x - x₀) - f x = t * (f x₁ - f x) - (1 - t) * (f x - f x₀) := by
    rw [hx]; field_simp; ring
  rw [e]
  rw [show x₁ - x = (1 - t) * (x₁ - x₀) by linear_combination -hx] at c1
  rw [hx] at c0
  have k0 := mul_le_mul_of_nonneg_left c0 (show 0 ≤ 1 - t by linarith)
  have k1 := mul_le_mul_of_nonneg_left c1 t0
  have q := mul_nonneg cL (sq_nonneg (2 * t - 1))
  calc |t * (f x₁ - f x) - (1 - t) * (f x - f x₀)| ≤ |t * (f x₁ - f x)| + |(1 - t) * (f x - f x₀)| := abs_sub _ _
    _ = t * |f x₁ - f x| + (1 - t) * |f x - f x₀| := by
        rw [abs_mul, abs_mul, abs_of_nonneg t0, abs_of_nonneg (show 0 ≤ 1 - t by linarith)]
    _ ≤ L * (x₁ - x₀) / 2 := by linarith

variable [FromInt K] [ExactCast K]

/-- **C110.** Up to the last node but one, a Catmull-Rom spline is within three quarters of the change that the rate `L`
allows over the segment.  Missing for the full property: the last segment, where it is violated
(`C110_refuted_catmull_rom`). -/
theorem C110_catmull_rom_rate_partial (f : K → K) (L a b : K) (hf : ChangesAtMost f L a b) (pts : List (K × K))
    (hp : SampledFrom f a b pts) (hs : StrictlyIncreasing pts) (i : Nat) (hi : i + 2 < pts.length)
    (x₀ y₀ x₁ y₁ x : K) (h : IsSegment pts i x₀ y₀ x₁ y₁) (h0 : x₀ ≤ x) (h1 : x ≤ x₁) :
    ∃ v, evaluate (Interpolator.catmullRom K) pts x = .ok (.ok v) ∧ |v - f x| ≤ 3 / 4 * (L * (x₁ - x₀)) := by
  obtain ⟨ha, rfl, hb, rfl⟩ := segment_ends hp h
  obtain ⟨e0, e1⟩ : pts[i] = (x₀, f x₀) ∧ pts[i + 1] = (x₁, f x₁) :=
    ⟨(List.getElem?_eq_some_iff.1 h.1).2, (List.getElem?_eq_some_iff.1 h.2).2⟩
  have pw := List.pairwise_iff_getElem.1 hs
  have hlt : x₀ < x₁ := by have := pw i (i + 1) (by omega) (by omega) (by omega); rwa [e0, e1] at this
  have hv := catmullRom_segment hs (by omega) (show i + 1 < pts.length by omega) (x := x) (by rw [e0]; exact h0)
    (by rw [e1]; exact h1)
  refine ⟨_, hv, ?_⟩
  have hG : 0 < x₁ - x₀ := by linarith
  have c0 := hf x₀ x ha h0 (by linarith)
  have c1 := hf x x₁ (by linarith) h1 hb
  have cL := le_trans (abs_nonneg _) (hf x₀ x₁ ha hlt.le hb)
  obtain ⟨t0, t1⟩ := position_bounds hlt h0 h1
  obtain ⟨x₂, e2⟩ : ∃ x₂, pts[i + 2] = (x₂, f x₂) := ⟨pts[i + 2].1, Prod.ext rfl (hp _ (List.getElem_mem hi)).2.2⟩
  have hb2 : x₂ ≤ b := by have := (hp _ (List.getElem_mem hi)).2.1; rwa [e2] at this
  have hlt2 : x₁ < x₂ := by have := pw (i + 1) (i + 2) (by omega) (by omega) (by omega); rwa [e1, e2] at this
  have hx : x - x₀ = (x - x₀) / (x₁ - x₀) * (x₁ - x₀) := by field_simp
  have hbb : |(x₁ - x₀) / ((x₁ - x₀) + (x₂ - x₁)) * (f x₂ - f x₀)| ≤ L * (x₁ - x₀) := by
    have := hf x₀ x₂ ha (by linarith) hb2
    rw [abs_mul, abs_of_pos (div_pos hG (by linarith)), div_mul_eq_mul_div, div_le_iff₀ (by linarith)]
    have := mul_le_mul_of_nonneg_left this hG.le
    linarith
  unfold crSegment
  by_cases hz : i = 0
  · subst hz
    simp only [Nat.zero_add] at e0 e1 e2
    rw [dif_pos rfl]
    simp only [e0, e1, e2, crFirst]
    generalize (x₁ - x₀) / ((x₁ - x₀) + (x₂ - x₁)) = β at *
    generalize (x - x₀) / (x₁ - x₀) = t at *
    rw [show x₁ - x = (1 - t) * (x₁ - x₀) by linear_combination -hx] at c1
    rw [hx] at c0
    have s0 : 0 ≤ 1 - t := by linarith
    have w0 : 0 ≤ (1 - t) ^ 2 * (1 + t) := by positivity
    have w1 : 0 ≤ t * (1 + t * (1 - t)) := by positivity
    have w2 : 0 ≤ t ^ 2 * (1 - t) := by positivity
    have k0 := mul_le_mul_of_nonneg_left c0 w0
    have k1 := mul_le_mul_of_nonneg_left c1 w1
    have k2 := mul_le_mul_of_nonneg_left hbb w2
    have e : f x₀ + t * (f x₁ - f x₀) + (t ^ 3 - t ^ 2) * ((1 - β) * f x₀ - f x₁ + β * f x₂) - f x =
        -((1 - t) ^ 2 * (1 + t) * (f x - f x₀)) + t * (1 + t * (1 - t)) * (f x₁ - f x) -
          t ^ 2 * (1 - t) * (β * (f x₂ - f x₀)) := by ring
    have hq' := mul_le_mul_of_nonneg_right (first_weights t0 t1) cL
    rw [e]
    calc _ ≤ |-((1 - t) ^ 2 * (1 + t) * (f x - f x₀)) + t * (1 + t * (1 - t)) * (f x₁ - f x)| +
          |t ^ 2 * (1 - t) * (β * (f x₂ - f x₀))| := abs_sub _ _
      _ ≤ |-((1 - t) ^ 2 * (1 + t) * (f x - f x₀))| + |t * (1 + t * (1 - t)) * (f x₁ - f x)| +
          |t ^ 2 * (1 - t) * (β * (f x₂ - f x₀))| := by linarith [abs_add_le (-((1 - t) ^ 2 * (1 + t) * (f x - f x₀))) (t * (1 + t * (1 - t)) * (f x₁ - f x))]
      _ = (1 - t) ^ 2 * (1 + t) * |f x - f x₀| + t * (1 + t * (1 - t)) * |f x₁ - f x| +
          t ^ 2 * (1 - t) * |β * (f x₂ - f x₀)| := by
        rw [abs_neg, abs_mul, abs_mul (t * _), abs_mul (t ^ 2 * _), abs_of_nonneg w0, abs_of_nonneg w1, abs_of_nonneg w2]
      _ ≤ _ := by linarith
  · rw [dif_neg hz, dif_neg (by omega)]
    obtain ⟨xp, ep⟩ : ∃ xp, pts[i - 1] = (xp, f xp) :=
      ⟨pts[i - 1].1, Prod.ext rfl (hp _ (List.getElem_mem (by omega))).2.2⟩
    have hap : a ≤ xp := by have := (hp _ (List.getElem_mem (show i - 1 < pts.length by omega))).1; rwa [ep] at this
    have hltp : xp < x₀ := by have := pw (i - 1) i (by omega) (by omega) (by omega); rwa [ep, e0] at this
    have haa : |(x₁ - x₀) / ((x₁ - x₀) + (x₁ - xp)) * (f x₁ - f xp)| ≤ L * (x₁ - x₀) := by
      have := hf xp x₁ hap (by linarith) hb
      rw [abs_mul, abs_of_pos (div_pos hG (by linarith)), div_mul_eq_mul_div, div_le_iff₀ (by linarith)]
      have := mul_le_mul_of_nonneg_left this hG.le
      have := mul_nonneg cL hG.le
      linarith
    simp only [e0, e1, e2, ep, crInner]
    generalize (x₁ - x₀) / ((x₁ - x₀) + (x₂ - x₁)) = β at *
    generalize (x₁ - x₀) / ((x₁ - x₀) + (x₁ - xp)) = α at *
    generalize (x - x₀) / (x₁ - x₀) = t at *
    rw [show x₁ - x = (1 - t) * (x₁ - x₀) by linear_combination -hx] at c1
    rw [hx] at c0
    have s0 : 0 ≤ 1 - t := by linarith
    have w0 : 0 ≤ (1 - t) ^ 2 * (1 + 2 * t) := by positivity
    have w1 : 0 ≤ t ^ 2 * (1 + 2 * (1 - t)) := by positivity
    have w2 : 0 ≤ t ^ 2 * (1 - t) := by positivity
    have w3 : 0 ≤ t * (1 - t) ^ 2 := by positivity
    have k0 := mul_le_mul_of_nonneg_left c0 w0
    have k1 := mul_le_mul_of_nonneg_left c1 w1
    have k2 := mul_le_mul_of_nonneg_left hbb w2
    have k3 := mul_le_mul_of_nonneg_left haa w3
    have e : f x₀ + t * α * (f x₁ - f xp) +
          t ^ 2 * (2 * α * f xp + (β - 3) * f x₀ + (3 - 2 * α) * f x₁ - β * f x₂) +
          t ^ 3 * (-α * f xp + (2 - β) * f x₀ + (-2 + α) * f x₁ + β * f x₂) - f x =
        -((1 - t) ^ 2 * (1 + 2 * t) * (f x - f x₀)) + t ^ 2 * (1 + 2 * (1 - t)) * (f x₁ - f x) +
          (t * (1 - t) ^ 2 * (α * (f x₁ - f xp)) - t ^ 2 * (1 - t) * (β * (f x₂ - f x₀))) := by ring
    have hq' := mul_le_mul_of_nonneg_right (inner_weights t0 t1) cL
    rw [e]
    have a1 := abs_add_le (-((1 - t) ^ 2 * (1 + 2 * t) * (f x - f x₀)) + t ^ 2 * (1 + 2 * (1 - t)) * (f x₁ - f x))
      (t * (1 - t) ^ 2 * (α * (f x₁ - f xp)) - t ^ 2 * (1 - t) * (β * (f x₂ - f x₀)))
    have a2 := abs_add_le (-((1 - t) ^ 2 * (1 + 2 * t) * (f x - f x₀))) (t ^ 2 * (1 + 2 * (1 - t)) * (f x₁ - f x))
    have a3 := abs_sub (t * (1 - t) ^ 2 * (α * (f x₁ - f xp))) (t ^ 2 * (1 - t) * (β * (f x₂ - f x₀)))
    rw [abs_neg, abs_mul, abs_mul (t ^ 2 * _), abs_of_nonneg w0, abs_of_nonneg w1] at a2
    rw [abs_mul, abs_mul (t ^ 2 * _), abs_of_nonneg w2, abs_of_nonneg w3] at a3
    clear e hx h0 h1 e0 e1 e2 ep hlt hlt2 hltp ha hb hb2 hap w0 w1 w2 w3 t0 t1 s0 haa hbb c0 c1 hG
    linarith

omit [FromInt K] [ExactCast K] in
/-- A segment and its chord. -/
theorem cubic_near_chord {x₀ y₀ m₀ x₁ y₁ m₁ x M : K} (hlt : x₀ < x₁) (h0 : x₀ ≤ x) (h1 : x ≤ x₁) (hm0 : |m₀| ≤ M)
    (hm1 : |m₁| ≤ M) :
    |cubic x₀ y₀ m₀ x₁ y₁ m₁ x - (y₀ + (y₁ - y₀) / (x₁ - x₀) * (x - x₀))| ≤ (x₁ - x₀) ^ 2 / 8 * M := by
  have hG : 0 < x₁ - x₀ := by linarith
  obtain ⟨t0, t1⟩ := position_bounds hlt h0 h1
  rw [cubic_eq_chord hG.ne', show (x₁ - x) / (x₁ - x₀) = 1 - (x - x₀) / (x₁ - x₀) by field_simp; ring,
    show y₀ + (y₁ - y₀) / (x₁ - x₀) * (x - x₀) = y₀ + (y₁ - y₀) * ((x - x₀) / (x₁ - x₀)) by ring]
  generalize (x - x₀) / (x₁ - x₀) = t at *
  have s0 : 0 ≤ 1 - t := by linarith
  have w0 : 0 ≤ (1 - t) - (1 - t) ^ 3 := by
    rw [show (1 - t) - (1 - t) ^ 3 = (1 - t) * t * (1 + (1 - t)) by ring]; positivity
  have w1 : 0 ≤ t - t ^ 3 := by rw [show t - t ^ 3 = t * (1 - t) * (1 + t) by ring]; positivity
  have k0 := mul_le_mul_of_nonneg_left hm0 w0
  have k1 := mul_le_mul_of_nonneg_left hm1 w1
  have hM : 0 ≤ M := le_trans (abs_nonneg _) hm0
  have q := mul_nonneg hM (sq_nonneg (2 * t - 1))
  rw [show (1 - t) * y₀ + t * y₁ - (x₁ - x₀) ^ 2 / 6 * (((1 - t) - (1 - t) ^ 3) * m₀ + (t - t ^ 3) * m₁) -
      (y₀ + (y₁ - y₀) * t) = -((x₁ - x₀) ^ 2 / 6 * (((1 - t) - (1 - t) ^ 3) * m₀ + (t - t ^ 3) * m₁)) by ring, abs_neg,
    abs_mul, abs_of_nonneg (show 0 ≤ (x₁ - x₀) ^ 2 / 6 by positivity)]
  have a1 := abs_add_le (((1 - t) - (1 - t) ^ 3) * m₀) ((t - t ^ 3) * m₁)
  rw [abs_mul, abs_of_nonneg w0, abs_mul, abs_of_nonneg w1] at a1
  have : |((1 - t) - (1 - t) ^ 3) * m₀ + (t - t ^ 3) * m₁| ≤ 3 / 4 * M := by nlinarith
  have := mul_le_mul_of_nonneg_left this (show 0 ≤ (x₁ - x₀) ^ 2 / 6 by positivity)
  linarith

/-- Every segment, from a bound on the differences of the chords and on the error of the chord. -/
theorem natural_accurate {n : Nat} (hn : 3 ≤ n) {p : Nat → K × K} (hs : StrictlyIncreasing (tab n p)) {i : Nat}
    (hi : i + 1 < n) {x y : K} (h0 : (p i).1 ≤ x) (h1 : x ≤ (p (i + 1)).1) {h R E : K} (hh : 0 < h)
    (hg : ∀ k, k + 1 < n → h ≤ gap p k) (hb : ∀ k, k + 2 < n → |rhs n p k| ≤ R)
    (hE : |(p i).2 + ((p (i + 1)).2 - (p i).2) / ((p (i + 1)).1 - (p i).1) * (x - (p i).1) - y| ≤ E) :
    ∃ v, evaluate (Interpolator.naturalCubic K) (tab n p) x = .ok (.ok v) ∧
      |v - y| ≤ E + 3 / 5 * R * ((p (i + 1)).1 - (p i).1) ^ 2 / h := by
  refine ⟨_, NaturalCubic.segment hn hs hi h0 h1, ?_⟩
  have hc := curvature_le hn hh hg hb
  have key := cubic_near_chord (y₀ := (p i).2) (y₁ := (p (i + 1)).2) (strict_tab hs (Nat.lt_succ_self i) hi) h0 h1
    (hc i) (hc (i + 1))
  have := abs_sub_le (cubic (p i).1 (p i).2 (curvature n p i) (p (i + 1)).1 (p (i + 1)).2 (curvature n p (i + 1)) x)
    ((p i).2 + ((p (i + 1)).2 - (p i).2) / ((p (i + 1)).1 - (p i).1) * (x - (p i).1)) y
  have e : ((p (i + 1)).1 - (p i).1) ^ 2 / 8 * (24 / 5 * R / h) = 3 / 5 * R * ((p (i + 1)).1 - (p i).1) ^ 2 / h := by
    ring
  rw [e] at key
  linarith

omit [Field K] [IsStrictOrderedRing K] [FromInt K] [ExactCast K] in
theorem sampled_tab {f : K → K} {a b : K} {n : Nat} {p : Nat → K × K} (hp : SampledFrom f a b (tab n p)) {k : Nat}
    (hk : k < n) : a ≤ (p k).1 ∧ (p k).1 ≤ b ∧ (p k).2 = f (p k).1 := hp _ (by
  rw [show p k = (tab n p)[k]'(by simpa using hk) by simp]; exact List.getElem_mem _)

/-- **C110.** With four points or more, a natural cubic spline is within `1/2 + 6/5 (H / h)` times the change that the
rate `L` allows over the segment of length `H`, where `h` is at most the distance of neighbouring abscissae.  Missing for
the full property: three points, where it is violated (`C110_refuted_natural_cubic`). -/
theorem C110_natural_cubic_rate_partial (f : K → K) (L a b : K) (hf : ChangesAtMost f L a b) (pts : List (K × K))
    (hp : SampledFrom f a b pts) (hs : StrictlyIncreasing pts) (h4 : 4 ≤ pts.length) (h : K) (hh : 0 < h)
    (hgap : ∀ i (hi : i + 1 < pts.length), h ≤ pts[i + 1].1 - pts[i].1) (i : Nat) (x₀ y₀ x₁ y₁ x : K)
    (hseg : IsSegment pts i x₀ y₀ x₁ y₁) (h0 : x₀ ≤ x) (h1 : x ≤ x₁) :
    ∃ v, evaluate (Interpolator.naturalCubic K) pts x = .ok (.ok v) ∧
      |v - f x| ≤ (1 / 2 + 6 / 5 * ((x₁ - x₀) / h)) * (L * (x₁ - x₀)) := by
  obtain ⟨v, hv, hE⟩ := C110_linear_rate f L a b hf pts hp hs i x₀ y₀ x₁ y₁ x hseg h0 h1
  obtain ⟨hlt, hv'⟩ := linear_segment pts hs i _ _ _ _ x hseg h0 h1
  obtain rfl := Except.ok.inj (Rust.ok.inj (hv'.symm.trans hv))
  obtain ⟨n, p, hn, rfl⟩ := exists_tab pts (by rintro rfl; simp at h4)
  simp only [length_tab, getElem_tab] at h4 hgap
  have hi : i + 1 < n := by simpa using (List.getElem?_eq_some_iff.1 hseg.2).1
  obtain ⟨e0, e1⟩ : p i = (x₀, y₀) ∧ p (i + 1) = (x₁, y₁) := by
    have a0 := (List.getElem?_eq_some_iff.1 hseg.1).2
    have a1 := (List.getElem?_eq_some_iff.1 hseg.2).2
    simp only [getElem_tab] at a0 a1
    exact ⟨a0, a1⟩
  have hch : ∀ k, k + 1 < n → |chord p k| ≤ L := by
    intro k hk
    obtain ⟨l0, -, v0⟩ := sampled_tab hp (show k < n by omega)
    obtain ⟨-, u1, v1⟩ := sampled_tab hp hk
    have hg := gap_pos hs hk
    unfold gap at hg
    have := hf _ _ l0 (by linarith) u1
    unfold chord
    rw [v0, v1, abs_div, abs_of_pos hg, div_le_iff₀ hg]
    exact this
  have hb : ∀ k, k + 2 < n → |rhs n p k| ≤ 2 * L := by
    intro k hk
    rw [rhs_eq h4 p hk (ne_of_gt (gap_pos hs (by omega))) (ne_of_gt (gap_pos hs (by omega)))]
    have := abs_sub (chord p (k + 1)) (chord p k)
    linarith [hch k (by omega), hch (k + 1) (by omega)]
  obtain ⟨v, hv, key⟩ := natural_accurate (by omega) hs hi (x := x) (y := f x) (by rw [e0]; exact h0)
    (by rw [e1]; exact h1) (E := L * (x₁ - x₀) / 2) hh hgap hb (by rw [e0, e1]; exact hE)
  refine ⟨v, hv, ?_⟩
  rw [e0, e1] at key
  exact le_trans key (le_of_eq (by ring))

end

/-! ## Smooth functions -/

/-- **C110.** Where the second derivative is at most `M`, a linearly interpolated value is within `M / 8` times the square
of the length of the segment, and less near its ends. -/
theorem C110_linear (f g : ℝ → ℝ) (M a b : ℝ) (hf : HasSecondDerivOn f g (Set.Icc a b))
    (hM : ∀ u ∈ Set.Icc a b, |g u| ≤ M) (pts : List (ℝ × ℝ)) (hp : SampledFrom f a b pts) (hs : StrictlyIncreasing pts)
    (i : Nat) (x₀ y₀ x₁ y₁ x : ℝ) (h : IsSegment pts i x₀ y₀ x₁ y₁) (h0 : x₀ ≤ x) (h1 : x ≤ x₁) :
    ∃ v, evaluate (Interpolator.linear ℝ) pts x = .ok (.ok v) ∧ |v - f x| ≤ M / 2 * ((x - x₀) * (x₁ - x)) ∧
      |v - f x| ≤ M * (x₁ - x₀) ^ 2 / 8 := by
  obtain ⟨ha, rfl, hb, rfl⟩ := segment_ends hp h
  obtain ⟨hlt, hv⟩ := linear_segment pts hs i _ _ _ _ x h h0 h1
  obtain ⟨c, c0, c1, e⟩ := chord_error hf ha hb hlt h0 h1
  obtain ⟨q0, q1⟩ := product_le h0 h1
  have hc := hM c ⟨by linarith, by linarith⟩
  have hM0 : 0 ≤ M := le_trans (abs_nonneg _) hc
  have key : |f x₀ + (f x₁ - f x₀) / (x₁ - x₀) * (x - x₀) - f x| ≤ M / 2 * ((x - x₀) * (x₁ - x)) := by
    rw [abs_sub_comm, e, abs_neg, abs_mul, abs_of_nonneg q0, abs_div, abs_of_pos (show (0 : ℝ) < 2 by norm_num)]
    exact mul_le_mul_of_nonneg_right (by linarith) q0
  refine ⟨_, hv, key, le_trans key ?_⟩
  have := mul_le_mul_of_nonneg_left q1 (show 0 ≤ M / 2 by linarith)
  linarith

/-- **C110.** With four points or more and a second derivative of at most `M`, a natural cubic spline is within
`M / 8 (1 + 24/5 (H / h)) H²`, where `h` and `H` bound the distances of neighbouring abscissae.  Missing for the full
property: three points, where it is violated (`C110_refuted_natural_cubic`). -/
theorem C110_natural_cubic_partial (f g : ℝ → ℝ) (M a b : ℝ) (hf : HasSecondDerivOn f g (Set.Icc a b))
    (hM : ∀ u ∈ Set.Icc a b, |g u| ≤ M) (pts : List (ℝ × ℝ)) (hp : SampledFrom f a b pts) (hs : StrictlyIncreasing pts)
    (h4 : 4 ≤ pts.length) (h H : ℝ) (hh : 0 < h)
    (hgap : ∀ i (hi : i + 1 < pts.length), h ≤ pts[i + 1].1 - pts[i].1 ∧ pts[i + 1].1 - pts[i].1 ≤ H) (x : ℝ)
    (hx : InRange pts x) :
    ∃ v, evaluate (Interpolator.naturalCubic ℝ) pts x = .ok (.ok v) ∧
      |v - f x| ≤ M / 8 * (1 + 24 / 5 * (H / h)) * H ^ 2 := by
  obtain ⟨i, hi, h0, h1⟩ := exists_bracket_raw hs (by omega) hx
  have hseg : IsSegment pts i pts[i].1 pts[i].2 pts[i + 1].1 pts[i + 1].2 := ⟨by simp, by simp⟩
  obtain ⟨v, hv, -, hE⟩ := C110_linear f g M a b hf hM pts hp hs i _ _ _ _ x hseg h0 h1
  obtain ⟨hlt, hv'⟩ := linear_segment pts hs i _ _ _ _ x hseg h0 h1
  obtain rfl := Except.ok.inj (Rust.ok.inj (hv'.symm.trans hv))
  obtain ⟨n, p, hn, rfl⟩ := exists_tab pts (by rintro rfl; simp at h4)
  simp only [length_tab, getElem_tab] at h4 hgap hi h0 h1 hE hlt
  obtain ⟨la, ub, -⟩ := sampled_tab hp (show 0 < n by omega)
  have hM0 : 0 ≤ M := le_trans (abs_nonneg _) (hM _ ⟨la, ub⟩)
  have hb : ∀ k, k + 2 < n → |rhs n p k| ≤ M * H := by
    intro k hk
    have g0 := gap_pos hs (show k + 1 < n by omega)
    have g1 := gap_pos hs (show k + 1 + 1 < n by omega)
    rw [rhs_eq h4 p hk (ne_of_gt g0) (ne_of_gt g1)]
    obtain ⟨l0, -, v0⟩ := sampled_tab hp (show k < n by omega)
    obtain ⟨-, -, v1⟩ := sampled_tab hp (show k + 1 < n by omega)
    obtain ⟨-, u2, v2⟩ := sampled_tab hp (show k + 1 + 1 < n by omega)
    have b0 := (hgap k (by omega)).2
    have b1 := (hgap (k + 1) (by omega)).2
    simp only [chord, v0, v1, v2, gap] at *
    generalize (p k).1 = x0 at *
    generalize (p (k + 1)).1 = x1 at *
    generalize (p (k + 1 + 1)).1 = x2 at *
    obtain ⟨c, c0, c1, e⟩ := chord_error hf l0 u2 (show x0 < x2 by linarith) (show x0 ≤ x1 by linarith)
      (show x1 ≤ x2 by linarith)
    have hc := hM c ⟨by linarith, by linarith⟩
    have : (f x2 - f x1) / (x2 - x1) - (f x1 - f x0) / (x1 - x0) = g c / 2 * (x2 - x0) := by
      have n0 : x1 - x0 ≠ 0 := g0.ne'
      have n1 : x2 - x1 ≠ 0 := g1.ne'
      have n2 : x2 - x0 ≠ 0 := by linarith
      field_simp at e ⊢
      linear_combination -e
    rw [this, abs_mul, abs_of_pos (show 0 < x2 - x0 by linarith), abs_div, abs_of_pos (show (0 : ℝ) < 2 by norm_num)]
    calc |g c| / 2 * (x2 - x0) ≤ M / 2 * (2 * H) := mul_le_mul (by linarith) (by linarith) (by linarith) (by linarith)
      _ = M * H := by ring
  obtain ⟨v, hv, key⟩ := natural_accurate (by omega) hs hi (x := x) (y := f x) h0 h1 hh (fun k hk => (hgap k hk).1) hb hE
  refine ⟨v, hv, le_trans key ?_⟩
  have g := hgap i hi
  have hsq : ((p (i + 1)).1 - (p i).1) ^ 2 ≤ H ^ 2 := pow_le_pow_left₀ (by linarith) g.2 2
  have hH : 0 ≤ H := by linarith
  have hq : 0 ≤ M / 8 + 3 / 5 * (M * H) / h := by positivity
  have := mul_le_mul_of_nonneg_left hsq hq
  calc _ = (M / 8 + 3 / 5 * (M * H) / h) * ((p (i + 1)).1 - (p i).1) ^ 2 := by ring
    _ ≤ _ := this
    _ = _ := by field_simp; ring

/-- **C110.** Given the true slopes of a function whose fourth derivative is at most `M`, a Hermite spline is within
`M / 384` times the fourth power of the length of the segment. -/
theorem C110_hermite (f f1 f2 f3 f4 : ℝ → ℝ) (M a b : ℝ) (s1 : HasSlopeOn f f1 (Set.Icc a b))
    (s2 : HasSlopeOn f1 f2 (Set.Icc a b)) (s3 : HasSlopeOn f2 f3 (Set.Icc a b)) (s4 : HasSlopeOn f3 f4 (Set.Icc a b))
    (hM : ∀ u ∈ Set.Icc a b, |f4 u| ≤ M) (pts : List (ℝ × ℝ × ℝ))
    (hp : ∀ p ∈ pts, a ≤ p.1 ∧ p.1 ≤ b ∧ p.2.1 = f p.1 ∧ p.2.2 = f1 p.1) (hs : StrictlyIncreasing pts) (i : Nat)
    (hi : i + 1 < pts.length) (x : ℝ) (h0 : pts[i].1 ≤ x) (h1 : x ≤ pts[i + 1].1) :
    ∃ v, evaluateHermite pts x = .ok (.ok v) ∧ |v - f x| ≤ M * (pts[i + 1].1 - pts[i].1) ^ 4 / 384 := by
  refine ⟨_, hermite_segment hs hi h0 h1, ?_⟩
  obtain ⟨ha, -, v0, m0⟩ := hp _ (List.getElem_mem (show i < pts.length by omega))
  obtain ⟨-, hb, v1, m1⟩ := hp _ (List.getElem_mem hi)
  have hlt := List.pairwise_iff_getElem.1 hs i (i + 1) (by omega) hi (by omega)
  rw [v0, v1, m0, m1]
  obtain ⟨c, c0, c1, e⟩ := cubic_error s1 s2 s3 s4 ha hb hlt h0 h1
  obtain ⟨q0, q1⟩ := product_le h0 h1
  have hc := hM c ⟨by linarith, by linarith⟩
  have hM0 : 0 ≤ M := le_trans (abs_nonneg _) hc
  rw [abs_sub_comm, e, abs_mul, abs_of_nonneg (sq_nonneg ((x - pts[i].1) * (pts[i + 1].1 - x))), abs_div,
    abs_of_pos (show (0 : ℝ) < 24 by norm_num)]
  have hsq := pow_le_pow_left₀ q0 q1 2
  calc |f4 c| / 24 * ((x - pts[i].1) * (pts[i + 1].1 - x)) ^ 2
      ≤ M / 24 * ((pts[i + 1].1 - pts[i].1) ^ 2 / 4) ^ 2 :=
        mul_le_mul (by linarith) hsq (sq_nonneg _) (by linarith)
    _ = _ := by ring

/-! ## Where it fails -/

section
variable {K : Type} [Field K] [LinearOrder K] [IsStrictOrderedRing K] [FromInt K] [ExactCast K]

omit [FromInt K] [ExactCast K] in
theorem increasing3 {d : K} (hd : 0 < d) (y₀ y₁ y₂ : K) : StrictlyIncreasing [(0, y₀), (d, y₁), (2 * d, y₂)] := by
  simp [StrictlyIncreasing, hd]

/-- **C110 (violated).** In the last segment a Catmull-Rom spline is off by a third for the constant 1, however close the
points are. -/
theorem C110_refuted_catmull_rom (d : K) (hd : 0 < d) :
    SampledFrom (fun _ => (1 : K)) 0 (2 * d) [(0, 1), (d, 1), (2 * d, 1)] ∧
      ChangesAtMost (fun _ => (1 : K)) 0 0 (2 * d) ∧
      evaluate (Interpolator.catmullRom K) [(0, 1), (d, 1), (2 * d, 1)] (2 * d) = .ok (.ok (1 + 1 / 3)) := by
  refine ⟨?_, fun u v _ _ _ => by simp, ?_⟩
  · intro p hp
    simp only [List.mem_cons, List.not_mem_nil, or_false] at hp
    rcases hp with rfl | rfl | rfl <;> exact ⟨by dsimp only; linarith, by dsimp only; linarith, rfl⟩
  · have h := catmullRom_segment (increasing3 hd 1 1 1) (by simp) (i := 1) (by simp) (x := 2 * d) (by simp; linarith)
      (by simp)
    rw [h]
    simp only [crSegment, crLast, List.getElem_cons_succ, List.getElem_cons_zero, List.length_cons, List.length_nil]
    norm_num
    field_simp
    norm_num

/-- **C110 (violated).** Three points of the constant 1: the natural cubic spline is off by `3/32` in the middle of the
first segment, however close the points are. -/
theorem C110_refuted_natural_cubic (d : K) (hd : 0 < d) :
    SampledFrom (fun _ => (1 : K)) 0 (2 * d) [(0, 1), (d, 1), (2 * d, 1)] ∧
      ChangesAtMost (fun _ => (1 : K)) 0 0 (2 * d) ∧
      evaluate (Interpolator.naturalCubic K) [(0, 1), (d, 1), (2 * d, 1)] (d / 2) = .ok (.ok (1 + 3 / 32)) := by
  refine ⟨?_, fun u v _ _ _ => by simp, ?_⟩
  · intro p hp
    simp only [List.mem_cons, List.not_mem_nil, or_false] at hp
    rcases hp with rfl | rfl | rfl <;> exact ⟨by dsimp only; linarith, by dsimp only; linarith, rfl⟩
  · have h := NaturalCubic.segment (n := 3) (p := fun i => ((i : K) * d, 1)) le_rfl
      (by simpa [tab, List.range, List.range.loop] using increasing3 hd 1 1 1) (i := 0) (by omega) (x := d / 2)
      (by simp; linarith) (by simp; linarith)
    have e : tab 3 (fun i => ((i : K) * d, (1 : K))) = [(0, 1), (d, 1), (2 * d, 1)] := by
      simp [tab, List.range, List.range.loop]
    rw [e] at h
    rw [h]
    simp [cubic, curvature, second, solved, rhs, TridiagonalMatrix.rowProduct, mEnd, cMain, bMain, recip, gap]
    field_simp
    norm_num

/-- **C110.** No better rate than that of `C110_catmull_rom_rate_partial` holds for smooth functions: between equally
spaced points of a straight line of slope 1 the Catmull-Rom spline is off by a 24th of the spacing. -/
theorem C110_catmull_rom_rate_sharp (d : K) (hd : 0 < d) :
    evaluate (Interpolator.catmullRom K) [(0, 0), (d, d), (2 * d, 2 * d), (3 * d, 3 * d)] (3 / 2 * d) =
      .ok (.ok (3 / 2 * d - d / 24)) := by
  have hs : StrictlyIncreasing [((0 : K), (0 : K)), (d, d), (2 * d, 2 * d), (3 * d, 3 * d)] := by
    simp [StrictlyIncreasing, hd]
    linarith
  have h := catmullRom_segment hs (by simp) (i := 1) (by simp) (x := 3 / 2 * d) (by simp; linarith) (by simp; linarith)
  rw [h]
  simp only [crSegment, crInner, List.getElem_cons_succ, List.getElem_cons_zero, List.length_cons, List.length_nil]
  norm_num
  field_simp
  ring

end

/-! ## Examples -/

theorem square_second (S : Set ℝ) : HasSecondDerivOn (fun u => u ^ 2) (fun _ => 2) S :=
  ⟨fun u => 2 * u, fun u _ => ⟨((hasDerivAt_pow 2 u).congr_deriv (by simp)).hasDerivWithinAt,
    (((hasDerivAt_id u).const_mul 2).congr_deriv (by simp)).hasDerivWithinAt⟩⟩

/-- The squares of 0, 1, 3, 4: the data of the examples below. -/
def squares : List (ℝ × ℝ) := [(0, 0), (1, 1), (3, 9), (4, 16)]

theorem squares_sampled : SampledFrom (fun u => u ^ 2) 0 4 squares := by
  intro p hp
  simp only [squares, List.mem_cons, List.not_mem_nil, or_false] at hp
  rcases hp with rfl | rfl | rfl | rfl <;> norm_num

theorem squares_increasing : StrictlyIncreasing squares := by
  simp only [StrictlyIncreasing, squares, List.pairwise_cons, List.mem_cons, List.not_mem_nil, or_false,
    forall_eq_or_imp, forall_eq]
  norm_num

theorem squares_rate : ChangesAtMost (fun u : ℝ => u ^ 2) 8 0 4 := by
  intro u v hu huv hv
  rw [show v ^ 2 - u ^ 2 = (v + u) * (v - u) by ring, abs_of_nonneg (mul_nonneg (by linarith) (by linarith))]
  exact mul_le_mul_of_nonneg_right (by linarith) (by linarith)

/-- At 2, the middle of the segment from 1 to 3, the bound `2 · 2² / 8 = 1` is attained: the value is 5, not 4. -/
example : ∃ v, evaluate (Interpolator.linear ℝ) squares 2 = .ok (.ok v) ∧ |v - 2 ^ 2| ≤ 2 / 2 * ((2 - 1) * (3 - 2)) ∧
    |v - 2 ^ 2| ≤ 2 * (3 - 1) ^ 2 / 8 :=
  C110_linear _ _ 2 0 4 (square_second _) (fun _ _ => by norm_num) squares squares_sampled squares_increasing 1 1 1 3 9 2
    ⟨rfl, rfl⟩ (by norm_num) (by norm_num)

example : ∃ v, evaluate (Interpolator.linear ℝ) squares 2 = .ok (.ok v) ∧ |v - 2 ^ 2| ≤ 8 * (3 - 1) / 2 :=
  C110_linear_rate _ 8 0 4 squares_rate squares squares_sampled squares_increasing 1 1 1 3 9 2
    ⟨rfl, rfl⟩ (by norm_num) (by norm_num)

example : ∃ v, evaluate (Interpolator.catmullRom ℝ) squares 2 = .ok (.ok v) ∧ |v - 2 ^ 2| ≤ 3 / 4 * (8 * (3 - 1)) :=
  C110_catmull_rom_rate_partial _ 8 0 4 squares_rate squares squares_sampled squares_increasing 1 (by simp [squares])
    1 1 3 9 2 ⟨rfl, rfl⟩ (by norm_num) (by norm_num)

theorem squares_gaps : ∀ i (hi : i + 1 < squares.length),
    1 ≤ squares[i + 1].1 - squares[i].1 ∧ squares[i + 1].1 - squares[i].1 ≤ 2 := by
  intro i hi
  simp only [squares, List.length_cons, List.length_nil] at hi
  obtain rfl | rfl | rfl : i = 0 ∨ i = 1 ∨ i = 2 := by omega
  all_goals simp [squares]; try norm_num

example : ∃ v, evaluate (Interpolator.naturalCubic ℝ) squares 2 = .ok (.ok v) ∧
    |v - 2 ^ 2| ≤ (1 / 2 + 6 / 5 * ((3 - 1) / 1)) * (8 * (3 - 1)) :=
  C110_natural_cubic_rate_partial _ 8 0 4 squares_rate squares squares_sampled squares_increasing (by simp [squares]) 1
    one_pos (fun i hi => (squares_gaps i hi).1) 1 1 1 3 9 2 ⟨rfl, rfl⟩ (by norm_num) (by norm_num)

example : ∃ v, evaluate (Interpolator.naturalCubic ℝ) squares 2 = .ok (.ok v) ∧
    |v - 2 ^ 2| ≤ 2 / 8 * (1 + 24 / 5 * (2 / 1)) * 2 ^ 2 :=
  C110_natural_cubic_partial _ _ 2 0 4 (square_second _) (fun _ _ => by norm_num) squares squares_sampled
    squares_increasing (by simp [squares]) 1 2 one_pos squares_gaps 2
    ⟨⟨(1, 1), by simp [squares], by norm_num⟩, ⟨(3, 9), by simp [squares], by norm_num⟩⟩

/-- Fourth powers of 0 and 2 with their slopes: at 1 the bound `24 · 2⁴ / 384 = 1` is attained. -/
example : ∃ v, evaluateHermite [((0 : ℝ), 0, 0), (2, 16, 32)] 1 = .ok (.ok v) ∧
    |v - 1 ^ 4| ≤ 24 * (2 - 0) ^ 4 / 384 :=
  C110_hermite (fun u => u ^ 4) (fun u => 4 * u ^ 3) (fun u => 12 * u ^ 2) (fun u => 24 * u) (fun _ => 24) 24 0 2
    (fun u _ => ((hasDerivAt_pow 4 u).congr_deriv (by simp)).hasDerivWithinAt)
    (fun u _ => (((hasDerivAt_pow 3 u).const_mul 4).congr_deriv (by simp; ring)).hasDerivWithinAt)
    (fun u _ => (((hasDerivAt_pow 2 u).const_mul 12).congr_deriv (by simp; ring)).hasDerivWithinAt)
    (fun u _ => (((hasDerivAt_id u).const_mul 24).congr_deriv (by simp)).hasDerivWithinAt)
    (fun _ _ => by norm_num) [(0, 0, 0), (2, 16, 32)]
    (by
      intro p hp
      simp only [List.mem_cons, List.not_mem_nil, or_false] at hp
      rcases hp with rfl | rfl <;> norm_num)
    (by simp [StrictlyIncreasing]) 0 (by simp) 1 (by simp) (by simp)

end Qlab.Props
