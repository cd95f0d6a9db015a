import Verif.Lemmas.IeeeNatural
import Verif.Props.IeeeSplines

/-!
# The natural cubic spline in `f32` and `f64` (C96)
-/

namespace Qlab.Props

open Spec NaturalCubic

variable {F : IeeeFormat}

section
variable {V : Type} [Zero V] [One V] [Neg V] [Add V] [Sub V] [Mul V] [Div V] [LT V] [LE V] [DecidableLT V] [DecidableLE V]
  [FromInt V]

/-- `natural_eval` without an assumption on the order. -/
theorem natural_eval_of (k : Int → V) (hk : ∀ n, FromInt.fromInt (V := V) n = some (k n)) (hirr : ∀ a : V, ¬ a < a)
    {n : Nat} (hn : 3 ≤ n) {p : Nat → V × V} (hnd : NeverDecreasing (tab n p)) {i : Nat} (hi : i + 1 < n) {x : V}
    (hf : findIndexAtLeftBoundary
      (tab n fun i => Point2DWithSlope.new (p i).1 (p i).2 (second (k 6) (k 3) n p i)) x = .ok i) :
    evaluate (Interpolator.naturalCubic V) (tab n p) x =
      .ok (.ok (naturalExpr (k 6) (p i).1 (p i).2 (second (k 6) (k 3) n p i) (p (i + 1)).1 (p (i + 1)).2
        (second (k 6) (k 3) n p (i + 1)) x)) := by
  have hI : ∀ n, fromI8 V n = .ok (k n) := by intro n; unfold fromI8; rw [hk]; rfl
  unfold evaluate Interpolator.naturalCubic
  simp only [(tryFit_cases hirr (hI 6) (hI 3) hn p NaturalCubic.default).1 hnd, Rust.ok_bind]
  unfold tryValue
  generalize hP : (tab n fun i => Point2DWithSlope.new (p i).1 (p i).2 (second (k 6) (k 3) n p i)) = P at hf ⊢
  have hidx : ∀ j, j < n → Rust.index P j = .ok (Point2DWithSlope.new (p j).1 (p j).2 (second (k 6) (k 3) n p j)) := by
    intro j hj; rw [← hP]; exact index_tab _ hj
  simp only [hf, hidx i (by omega), hidx (i + 1) hi, hI, Rust.ok_bind]
  rfl
end

/-- No datum is below itself, infinities and NaN included. -/
theorem ieee_irrefl (a : Ieee F) : ¬ a < a := by
  rintro ⟨u, v, h1, h2, h3⟩
  rw [h1] at h2
  exact (Option.some.inj h2 ▸ h3).false

/-- **C96.** Natural cubic splines in `f32` and `f64`, overflow and underflow included.  The nodes `pts` are finite data
with the real values `qs`, and `x` has the real value `z`.  Let neighbouring abscissae be at least `h` and at most `H`
apart, with `2 ^ -k ≤ h` and `H ≤ 2 ^ k`, and let `S ≤ 2 ^ k` bound every ordinate, where `k` is at most 201 for `f64`
and 22 for `f32`.  Then the value is finite, and within `2420 u S (H / h)²` of the value in exact arithmetic (with
`2 ^ -k` for `S` if `S` is smaller). The number of nodes does not matter. -/
theorem C96_natural_cubic (pts : List (Ieee F × Ieee F)) (qs : List (ℝ × ℝ))
    (hd : List.Forall₂ (fun p q => IsNumber p.1 q.1 ∧ IsNumber p.2 q.2) pts qs) (hs : StrictlyIncreasing qs)
    (h3 : 3 ≤ qs.length) (x : Ieee F) (z : ℝ) (hx : IsNumber x z) (hz : InRange qs z) (k : ℕ)
    (hk : 5 * k + 16 ≤ F.emax) (S h H : ℝ) (hS : S ≤ 2 ^ k) (hy : ∀ q ∈ qs, |q.2| ≤ S)
    (hh : (2 : ℝ) ^ (-(k : ℤ)) ≤ h) (hH : H ≤ 2 ^ k)
    (hgap : ∀ i (hi : i + 1 < qs.length), h ≤ qs[i + 1].1 - qs[i].1 ∧ qs[i + 1].1 - qs[i].1 ≤ H) :
    ∃ v r w, evaluate (Interpolator.naturalCubic (Ieee F)) pts x = .ok (.ok v) ∧ IsNumber v r ∧
      evaluate (Interpolator.naturalCubic ℝ) qs z = .ok (.ok w) ∧
      |r - w| ≤ 2420 * roundoff F * max S (2 ^ (-(k : ℤ))) * (H / h) ^ 2 := by
  obtain ⟨i, hi, h0, h1⟩ := exists_index hs (by omega) hz
  have hl := hd.length_eq
  have hnd := neverDecreasing_of_reals hd hs
  have hne : qs ≠ [] := by rintro rfl; simp at h3
  have hne' : pts ≠ [] := by rintro rfl; simp at hl; omega
  obtain ⟨n, q, hn, rfl⟩ := exists_tab qs hne
  obtain ⟨n', p, hn', rfl⟩ := exists_tab pts hne'
  obtain rfl : n' = n := by simp only [length_tab] at hl; exact hl
  simp only [length_tab, getElem_tab] at h3 hi h0 h1 hgap
  have hnum : ∀ j, j < n' → IsNumber (p j).1 (q j).1 ∧ IsNumber (p j).2 (q j).2 := by
    intro j hj
    have := forall₂_get hd j (by simpa using hj) (by simpa using hj)
    simpa only [getElem_tab] using this
  have hk0 : (0 : ℝ) < 2 ^ (-(k : ℤ)) := Binary.zpow_pos' _
  have hk1 : (2 : ℝ) ^ (-(k : ℤ)) ≤ 2 ^ k := by
    rw [← zpow_natCast]; exact zpow_le_zpow_right₀ (by norm_num) (by omega)
  set M := max S (2 ^ (-(k : ℤ))) with hM
  have hhH : h ≤ 2 ^ k := by
    have := hgap 0 (by omega)
    linarith
  have h6 : IsNumber (ieeeInt F 6) 6 := by
    obtain ⟨a, e, na⟩ := Ieee.fromInt_number (F := F) 6 (le_trans (by norm_num)
      (pow_le_pow_right₀ (by norm_num) F.prec_ge : (2 : ℤ) ^ 24 ≤ 2 ^ F.prec))
    obtain rfl := Option.some.inj e
    exact_mod_cast na
  have h3' : IsNumber (ieeeInt F 3) 3 := by
    obtain ⟨a, e, na⟩ := Ieee.fromInt_number (F := F) 3 (le_trans (by norm_num)
      (pow_le_pow_right₀ (by norm_num) F.prec_ge : (2 : ℤ) ^ 24 ≤ 2 ^ F.prec))
    obtain rfl := Option.some.inj e
    exact_mod_cast na
  have N : Nodes F (2 ^ k) M h (ieeeInt F 6) (ieeeInt F 3) n' p q :=
    { bounds := bounds_of hk hh hhH (le_max_right _ _) (max_le hS hk1)
      six := h6
      three := h3'
      x := fun j hj => (hnum j hj).1
      y := fun j hj => (hnum j hj).2
      gap_ge := fun j hj => (hgap j hj).1
      gap_le := fun j hj => le_trans (hgap j hj).2 hH
      y_le := fun j hj => le_max_of_le_left (hy _ (by
        rw [show q j = (tab n' q)[j]'(by simpa using hj) by simp]; exact List.getElem_mem _)) }
  have er := natural_eval (fun n => (n : ℝ)) ExactCast.fromInt_eq h3 hs (i := i) hi h0 h1
  have hf : findIndexAtLeftBoundary ((tab n' q).map fun p => (⟨p.1, p.2⟩ : Point2D ℝ)) z = .ok i := by
    refine findIndex_at (pairwise_map_point.2 hs) (by simpa using hi) ?_ ?_
    · simp only [List.getElem_map, getElem_tab]; exact h0
    · simp only [List.getElem_map, getElem_tab]; exact h1
  have hf' : findIndexAtLeftBoundary (tab n' fun i => Point2DWithSlope.new (p i).1 (p i).2
      (second (ieeeInt F 6) (ieeeInt F 3) n' p i)) x = .ok i := by
    refine findIndex_reals ?_ hx hf
    rw [List.forall₂_map_right_iff, List.forall₂_iff_get]
    refine ⟨by simp, fun j hj _ => ?_⟩
    simp only [List.get_eq_getElem, getElem_tab]
    exact (hnum j (by simpa using hj)).1
  have ev := natural_eval_of (ieeeInt F) (fun _ => rfl) ieee_irrefl h3 hnd hi hf'
  have hle : (q i).1 ≤ z := h0.elim le_of_lt fun h => h.2.le
  obtain ⟨r, hr, ha⟩ := naturalExpr_iapprox N.bounds h6 (N.x i (by omega)) (N.x (i + 1) hi) hx (N.y i (by omega))
    (N.y (i + 1) hi) (N.gap_ge i hi) (N.gap_le i hi) hle h1 (N.y_le i (by omega)) (N.y_le (i + 1) hi)
    (N.second_close h3 i) (N.second_close h3 (i + 1))
  refine ⟨_, r, _, ev, hr, er, le_trans (le_of_eq_of_le ?_ ha) ?_⟩
  · norm_num
  · have hG := hgap i hi
    have hhp := N.bounds.hpos
    have hM0 := N.bounds.S_pos
    have hu : 0 < roundoff F := by unfold roundoff; positivity
    have h00 : 0 ≤ ((q (i + 1)).1 - (q i).1) / h := div_nonneg (by linarith) hhp.le
    have : ((q (i + 1)).1 - (q i).1) / h ≤ H / h := by gcongr; exact hG.2
    have := pow_le_pow_left₀ h00 this 2
    exact mul_le_mul_of_nonneg_left this (by positivity)

/-- In `f32`, the natural cubic spline through `(0, 1)`, `(1, 0)` and `(2, 1)`, at one half. -/
example : ∃ x two v : Ieee .binary32, ∃ r w : ℝ, IsNumber x (1 / 2) ∧ IsNumber two 2 ∧
    evaluate (Interpolator.naturalCubic (Ieee .binary32)) [(0, 1), (1, 0), (two, 1)] x = .ok (.ok v) ∧
    IsNumber v r ∧ evaluate (Interpolator.naturalCubic ℝ) [(0, 1), (1, 0), (2, 1)] (1 / 2) = .ok (.ok w) ∧
    |r - w| ≤ 2420 * roundoff .binary32 := by
  obtain ⟨x, hx⟩ := IeeeFormat.exists_number (representable_dyadic (F := .binary32) 1 1 (by norm_num [IeeeFormat.binary32])
    (by norm_num [IeeeFormat.binary32]))
  norm_num at hx
  have hx' : IsNumber x (1 / 2) := by norm_num; exact hx
  obtain ⟨t, ht⟩ := IeeeFormat.exists_number (representable_dyadic (F := .binary32) 2 0 (by norm_num [IeeeFormat.binary32])
    (by norm_num [IeeeFormat.binary32]))
  norm_num at ht
  have n0 := Ieee.zero_number (F := .binary32)
  have n1 := Ieee.one_number (F := .binary32)
  obtain ⟨v, r, w, hv, hr, hw, he⟩ := C96_natural_cubic [((0 : Ieee .binary32), (1 : Ieee .binary32)), (1, 0), (t, 1)]
    [((0 : ℝ), (1 : ℝ)), (1, 0), (2, 1)]
    (.cons ⟨n0, n1⟩ (.cons ⟨n1, n0⟩ (.cons ⟨ht, n1⟩ .nil))) (by norm_num [StrictlyIncreasing]) (by simp) x (1 / 2) hx'
    ⟨⟨_, List.mem_cons_self, by norm_num⟩, ⟨_, List.mem_cons_of_mem _ List.mem_cons_self, by norm_num⟩⟩ 22
    (by norm_num [IeeeFormat.binary32]) 1 1 1 (by norm_num) (by simp) (by norm_num) (by norm_num) (by
      intro i hi
      have : i = 0 ∨ i = 1 := by simp at hi; omega
      rcases this with rfl | rfl <;> norm_num)
  refine ⟨x, t, v, r, w, hx', ht, hv, hr, hw, ?_⟩
  rwa [max_eq_left (by norm_num), mul_one, div_one, one_pow, mul_one] at he

end Qlab.Props
