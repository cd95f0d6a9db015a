import Verif.Lemmas.NaturalError

/-!
# The natural cubic spline in floating-point arithmetic (C94)
-/

namespace Qlab.Props

open Spec NaturalCubic

variable {A : FloatArith}

/-- **C94.** A natural cubic spline in floating point differs from the spline computed exactly from the same points by
at most `2410 u S (H / h)²`, where `S` bounds the ordinates and `h` and `H` bound the distances between neighbouring
abscissae. The number of points does not matter. -/
theorem C94_natural_cubic (pts : List (Fl A × Fl A)) (hs : StrictlyIncreasing pts) (h3 : 3 ≤ pts.length) (x : Fl A)
    (hx : InRange pts x) (S h H : ℝ) (hS : ∀ p ∈ pts, |p.2.val| ≤ S) (h0 : 0 < h)
    (hgap : ∀ i (hi : i + 1 < pts.length),
      h ≤ pts[i + 1].1.val - pts[i].1.val ∧ pts[i + 1].1.val - pts[i].1.val ≤ H) :
    ∃ v w, evaluate (Interpolator.naturalCubic (Fl A)) pts x = .ok (.ok v) ∧
      evaluate (Interpolator.naturalCubic ℝ) (pts.map fun p => (p.1.val, p.2.val)) x.val = .ok (.ok w) ∧
      |v.val - w| ≤ 2410 * unitRoundoff A * S * (H / h) ^ 2 := by
  obtain ⟨i, hi, ha, hb⟩ := exists_index hs (by omega) hx
  have hne : pts ≠ [] := by rintro rfl; simp at h3
  obtain ⟨n, p, hn, rfl⟩ := exists_tab pts hne
  have hs' : StrictlyIncreasing ((tab n p).map fun p => (p.1.val, p.2.val)) := by
    unfold StrictlyIncreasing
    rw [List.pairwise_map]
    exact hs.imp fun h => (Fl.lt_iff _ _).1 h
  have emap : (tab n p).map (fun p => (p.1.val, p.2.val)) = tab n fun i => ((p i).1.val, (p i).2.val) := by
    apply List.ext_getElem <;> simp
  rw [emap] at hs' ⊢
  simp only [length_tab, getElem_tab] at h3 hi ha hb hgap
  have hS' : ∀ k, k < n → |(p k).2.val| ≤ S := fun k hk => hS _ (by
    rw [show p k = (tab n p)[k]'(by simpa using hk) by simp]; exact List.getElem_mem _)
  set q : Nat → ℝ × ℝ := fun i => ((p i).1.val, (p i).2.val) with hqd
  have hq : ∀ i, q i = ((p i).1.val, (p i).2.val) := fun _ => rfl
  refine ⟨_, _, natural_eval _ Fl.fromInt_eq h3 hs hi ha hb,
    natural_eval (fun n => (n : ℝ)) ExactCast.fromInt_eq h3 hs' (i := i) hi
      (ha.imp (fun h => (Fl.lt_iff _ _).1 h) fun h => ⟨h.1, congrArg Fl.val h.2⟩) ((Fl.le_iff _ _).1 hb), ?_⟩
  have h6 : (Fl.round A ((6 : ℤ) : ℝ)).val = 6 := by rw [Fl.val_round, round_small 6 (by norm_num)]; norm_num
  have h3' : (Fl.round A ((3 : ℤ) : ℝ)).val = 3 := by rw [Fl.val_round, round_small 3 (by norm_num)]; norm_num
  have hS0 : 0 ≤ S := le_trans (abs_nonneg _) (hS' 0 (by omega))
  have hm := second_close hq h6 h3' h3 h0 hS0 (fun k hk => (hgap k hk).1) hS'
  have hle : (p i).1 ≤ x := ha.elim le_of_lt fun h => h.2.le
  have key := naturalExpr_close h6 h0 (hgap i hi).1 ((Fl.le_iff _ _).1 hle) ((Fl.le_iff _ _).1 hb) (hS' i (by omega))
    (hS' (i + 1) hi) (hm i) (hm (i + 1))
  have hu := A.unit_pos
  have hG := hgap i hi
  refine le_trans (le_of_eq_of_le ?_ key) ?_
  · norm_num
    rfl
  · have : ((p (i + 1)).1.val - (p i).1.val) / h ≤ H / h := by gcongr; exact hG.2
    have h00 : 0 ≤ ((p (i + 1)).1.val - (p i).1.val) / h := div_nonneg (by linarith) h0.le
    have := pow_le_pow_left₀ h00 this 2
    exact mul_le_mul_of_nonneg_left this (by positivity)

/-- On equidistant abscissae the error is at most `2410 u S`. -/
theorem C94_equidistant (pts : List (Fl A × Fl A)) (hs : StrictlyIncreasing pts) (h3 : 3 ≤ pts.length) (x : Fl A)
    (hx : InRange pts x) (S h : ℝ) (hS : ∀ p ∈ pts, |p.2.val| ≤ S)
    (hgap : ∀ i (hi : i + 1 < pts.length), pts[i + 1].1.val - pts[i].1.val = h) :
    ∃ v w, evaluate (Interpolator.naturalCubic (Fl A)) pts x = .ok (.ok v) ∧
      evaluate (Interpolator.naturalCubic ℝ) (pts.map fun p => (p.1.val, p.2.val)) x.val = .ok (.ok w) ∧
      |v.val - w| ≤ 2410 * unitRoundoff A * S := by
  have h0 : 0 < h := by
    have h1 := hgap 0 (by omega)
    have h2 := (Fl.lt_iff _ _).1 (List.pairwise_iff_getElem.1 hs 0 1 (by omega) (by omega) (by omega))
    simp only [Nat.zero_add] at h1
    linarith
  obtain ⟨v, w, hv, hw, he⟩ := C94_natural_cubic pts hs h3 x hx S h h hS h0 fun i hi => ⟨(hgap i hi).ge, (hgap i hi).le⟩
  refine ⟨v, w, hv, hw, ?_⟩
  rwa [div_self h0.ne', one_pow, mul_one] at he

theorem zigzag_increasing : StrictlyIncreasing zigzag := by
  unfold StrictlyIncreasing zigzag
  simp only [List.pairwise_cons, List.mem_cons, List.not_mem_nil, or_false, forall_eq_or_imp, forall_eq, Fl.lt_iff,
    i64_val 0 (by norm_num), i64_val 1 (by norm_num), i64_val 3 (by norm_num), i64_val 4 (by norm_num)]
  norm_num

/-- The spline through (0, 1), (1, 0), (3, 4), (4, 0) at 2: the longest gap is twice the shortest. -/
example : ∃ v w, evaluate (Interpolator.naturalCubic (Fl Binary.f64)) zigzag (i64 2) = .ok (.ok v) ∧
    evaluate (Interpolator.naturalCubic ℝ) (zigzag.map fun p => (p.1.val, p.2.val)) (i64 2).val = .ok (.ok w) ∧
    |v.val - w| ≤ 2410 * unitRoundoff Binary.f64 * 4 * (2 / 1) ^ 2 := by
  refine C94_natural_cubic zigzag zigzag_increasing (by simp [zigzag]) _ ⟨⟨_, List.mem_cons_self, ?_⟩,
    ⟨(i64 4, i64 0), by simp [zigzag], ?_⟩⟩ 4 1 2 ?_ one_pos ?_
  · rw [Fl.le_iff, i64_val 0 (by norm_num), i64_val 2 (by norm_num)]; norm_num
  · rw [Fl.le_iff, i64_val 2 (by norm_num), i64_val 4 (by norm_num)]; norm_num
  · simp only [zigzag, List.mem_cons, List.not_mem_nil, or_false, forall_eq_or_imp, forall_eq,
      i64_val 0 (by norm_num), i64_val 1 (by norm_num), i64_val 4 (by norm_num)]
    norm_num
  · intro i hi
    have : i = 0 ∨ i = 1 ∨ i = 2 := by simp [zigzag] at hi; omega
    rcases this with rfl | rfl | rfl <;>
      simp only [zigzag, List.getElem_cons_zero, List.getElem_cons_succ, i64_val 0 (by norm_num),
        i64_val 1 (by norm_num), i64_val 3 (by norm_num), i64_val 4 (by norm_num)] <;> norm_num

/-- Equidistant points (0, 1), (49, 0), (98, 0). -/
example : ∃ v w, evaluate (Interpolator.naturalCubic (Fl Binary.f64)) points49 (i64 50) = .ok (.ok v) ∧
    evaluate (Interpolator.naturalCubic ℝ) (points49.map fun p => (p.1.val, p.2.val)) (i64 50).val = .ok (.ok w) ∧
    |v.val - w| ≤ 2410 * unitRoundoff Binary.f64 * 1 := by
  refine C94_equidistant points49 points49_increasing (by simp [points49]) _ ⟨⟨_, List.mem_cons_self, ?_⟩,
    ⟨(i64 98, i64 0), by simp [points49], ?_⟩⟩ 1 49 ?_ ?_
  · rw [Fl.le_iff, i64_val 0 (by norm_num), i64_val 50 (by norm_num)]; norm_num
  · rw [Fl.le_iff, i64_val 50 (by norm_num), i64_val 98 (by norm_num)]; norm_num
  · simp only [points49, List.mem_cons, List.not_mem_nil, or_false, forall_eq_or_imp, forall_eq,
      i64_val 0 (by norm_num), i64_val 1 (by norm_num)]
    norm_num
  · intro i hi
    have : i = 0 ∨ i = 1 := by simp [points49] at hi; omega
    rcases this with rfl | rfl <;>
      simp only [points49, List.getElem_cons_zero, List.getElem_cons_succ, i64_val 0 (by norm_num),
        i64_val 49 (by norm_num), i64_val 98 (by norm_num)] <;> norm_num

end Qlab.Props
