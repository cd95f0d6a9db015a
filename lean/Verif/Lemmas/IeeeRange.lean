import Verif.Lemmas.Ieee
import Verif.Lemmas.Search
import Verif.Lemmas.Hermite

/-! # Magnitudes of IEEE 754 results, and the search on finite data -/

namespace Qlab

open Spec

/-- Zero, or of a magnitude between two powers of two. -/
def Mag (lo hi : ℤ) (x : ℝ) : Prop := x = 0 ∨ (2 : ℝ) ^ lo ≤ |x| ∧ |x| ≤ 2 ^ hi

namespace Mag
variable {lo hi lo' hi' : ℤ} {x y : ℝ}

theorem le (h : Mag lo hi x) : |x| ≤ 2 ^ hi := by
  rcases h with rfl | h
  · rw [abs_zero]; exact (Binary.zpow_pos' _).le
  · exact h.2

theorem ge (h : Mag lo hi x) (hx : x ≠ 0) : (2 : ℝ) ^ lo ≤ |x| := (h.resolve_left hx).1

theorem weaken (h : Mag lo hi x) (h1 : lo' ≤ lo) (h2 : hi ≤ hi') : Mag lo' hi' x :=
  h.imp_right fun h => ⟨le_trans (zpow_le_zpow_right₀ (by norm_num) h1) h.1,
    le_trans h.2 (zpow_le_zpow_right₀ (by norm_num) h2)⟩

theorem mul (h : Mag lo hi x) (h' : Mag lo' hi' y) : Mag (lo + lo') (hi + hi') (x * y) := by
  rcases h with rfl | h
  · left; ring
  rcases h' with rfl | h'
  · left; ring
  right
  rw [abs_mul, zpow_add₀ (by norm_num), zpow_add₀ (by norm_num)]
  exact ⟨mul_le_mul h.1 h'.1 (Binary.zpow_pos' _).le (abs_nonneg _),
    mul_le_mul h.2 h'.2 (abs_nonneg _) (Binary.zpow_pos' _).le⟩

theorem inv (h : Mag lo hi x) : Mag (-hi) (-lo) x⁻¹ := by
  rcases h with rfl | h
  · left; simp
  right
  have hpos : 0 < |x| := lt_of_lt_of_le (Binary.zpow_pos' _) h.1
  rw [abs_inv, zpow_neg, zpow_neg]
  exact ⟨inv_anti₀ hpos h.2, inv_anti₀ (Binary.zpow_pos' _) h.1⟩

theorem div (h : Mag lo hi x) (h' : Mag lo' hi' y) : Mag (lo - hi') (hi - lo') (x / y) := by
  rw [div_eq_mul_inv, sub_eq_add_neg, sub_eq_add_neg]
  exact h.mul h'.inv

theorem neg (h : Mag lo hi x) : Mag lo hi (-x) := by
  unfold Mag at *
  rwa [neg_eq_zero, abs_neg]

theorem fl_pow (F : IeeeFormat) (e : ℤ) : F.arith.fl (2 ^ e) = 2 ^ e := by
  have := Binary.roundTo_rep (p := F.prec) F.one_le_prec 1 e (by simpa using one_le_pow₀ (by norm_num : (1 : ℤ) ≤ 2))
  simpa [F.arith_fl] using this

/-- Rounding keeps the magnitude. -/
theorem fl (F : IeeeFormat) (h : Mag lo hi x) : Mag lo hi (F.arith.fl x) := by
  rcases h with rfl | h
  · left; exact F.arith.fl_zero
  · right
    have key : ∀ z : ℝ, 0 ≤ z → (2 : ℝ) ^ lo ≤ z → z ≤ 2 ^ hi → (2 : ℝ) ^ lo ≤ |F.arith.fl z| ∧ |F.arith.fl z| ≤ 2 ^ hi := by
      intro z h0 h1 h2
      rw [abs_of_nonneg (F.arith.fl_nonneg h0)]
      have h3 := F.arith.mono h1
      have h4 := F.arith.mono h2
      rw [fl_pow] at h3 h4
      exact ⟨h3, h4⟩
    rcases le_total 0 x with h0 | h0
    · rw [abs_of_nonneg h0] at h
      exact key x h0 h.1 h.2
    · rw [abs_of_nonpos h0] at h
      have := key (-x) (by linarith) h.1 h.2
      rwa [F.arith.odd, abs_neg] at this

/-- A number with `prec` bits is a multiple of its last bit. -/
theorem multiple (F : IeeeFormat) (hx : F.arith.fl x = x) (h : Mag lo hi x) :
    ∃ k : ℤ, x = k * 2 ^ (lo - (F.prec - 1)) := by
  rcases h with rfl | h
  · exact ⟨0, by simp⟩
  have hpos : 0 < |x| := lt_of_lt_of_le (Binary.zpow_pos' _) h.1
  have hl : lo ≤ Int.log 2 |x| := (Int.zpow_le_iff_le_log (b := 2) (by norm_num) hpos).1 (by push_cast; exact h.1)
  have hb : lo - (F.prec - 1) ≤ Binary.lastBit F.prec x := by unfold Binary.lastBit; omega
  rw [F.arith_fl] at hx
  unfold Binary.roundTo at hx
  refine ⟨Binary.nearestEven (x / 2 ^ Binary.lastBit F.prec x) *
    2 ^ (Binary.lastBit F.prec x - (lo - (F.prec - 1))).toNat, ?_⟩
  have he : ((Binary.lastBit F.prec x - (lo - (F.prec - 1))).toNat : ℤ) + (lo - (F.prec - 1)) = Binary.lastBit F.prec x := by
    omega
  conv_lhs => rw [← hx]
  push_cast
  rw [mul_assoc, ← zpow_natCast, ← zpow_add₀ (by norm_num), he]

/-- Differences of numbers with `prec` bits do not get arbitrarily small. -/
theorem sub (F : IeeeFormat) (hx : F.arith.fl x = x) (hy : F.arith.fl y = y) (h : Mag lo hi x) (h' : Mag lo hi y) :
    Mag (lo - F.prec + 1) (hi + 1) (x - y) := by
  obtain ⟨k, hk⟩ := h.multiple F hx
  obtain ⟨l, hl⟩ := h'.multiple F hy
  by_cases h0 : x - y = 0
  · exact .inl h0
  right
  constructor
  · have e : x - y = ((k - l : ℤ) : ℝ) * 2 ^ (lo - (F.prec - 1)) := by
      push_cast; rw [sub_mul, ← hk, ← hl]
    rw [e] at h0 ⊢
    rw [abs_mul, abs_of_pos (Binary.zpow_pos' _), show lo - (F.prec : ℤ) + 1 = lo - (F.prec - 1) by ring]
    have h1 : (1 : ℝ) ≤ |((k - l : ℤ) : ℝ)| := by
      have : k - l ≠ 0 := fun hc => h0 (by rw [hc]; simp)
      exact_mod_cast Int.one_le_abs this
    exact le_mul_of_one_le_left (Binary.zpow_pos' _).le h1
  · have h1 := h.le
    have h2 := h'.le
    rw [zpow_add_one₀ (by norm_num)]
    have := abs_sub x y
    linarith

end Mag

theorem IeeeFormat.mag_range (F : IeeeFormat) {lo hi : ℤ} {x : ℝ} (h : Mag lo hi x) (h1 : 1 - (F.emax : ℤ) ≤ lo)
    (h2 : hi ≤ F.emax) : |x| ≤ F.largest ∧ (x = 0 ∨ (2 : ℝ) ^ (1 - (F.emax : ℤ)) ≤ |x|) := by
  refine ⟨le_trans (le_trans h.le ?_) F.largest_ge, ?_⟩
  · rw [← zpow_natCast]; exact zpow_le_zpow_right₀ (by norm_num) h2
  · exact h.imp_right fun h => le_trans (zpow_le_zpow_right₀ (by norm_num) h1) h.1

/-! ## The search -/

section
variable {V W P Q : Type} [HasX P V] [HasX Q W] [LT V] [DecidableLT V] [LE V] [DecidableLE V] [LT W] [DecidableLT W]
  [LE W] [DecidableLE W]

theorem binarySearchLoop_congr {α β : Type} (pred : α → Bool) (pred' : β → Bool) (l : List α) (l' : List β)
    (h : ∀ i : Nat, (l[i]?.map pred).getD false = (l'[i]?.map pred').getD false) (left right : Nat) :
    binarySearchLoop pred l left right = binarySearchLoop pred' l' left right := by
  induction left, right using binarySearchLoop.induct pred l with
  | case1 left right hlt mid hp ih =>
    have hp' : (l[left + (right - left) / 2]?.map pred).getD false = true := hp
    rw [binarySearchLoop, if_pos hlt, binarySearchLoop, if_pos hlt]
    simp only
    rw [if_pos hp', if_pos (by rw [← h]; exact hp')]
    exact ih
  | case2 left right hlt mid hp ih =>
    have hp' : ¬ (l[left + (right - left) / 2]?.map pred).getD false = true := hp
    rw [binarySearchLoop, if_pos hlt, binarySearchLoop, if_pos hlt]
    simp only
    rw [if_neg hp', if_neg (by rw [← h]; exact hp')]
    exact ih
  | case3 left right hlt =>
    rw [binarySearchLoop, if_neg hlt, binarySearchLoop, if_neg hlt]

/-- The search only looks at comparisons. -/
theorem findIndex_map (g : P → Q) (points : List P) (x : V) (x' : W)
    (hlt : ∀ p ∈ points, (HasX.x p < x ↔ HasX.x (g p) < x')) (hle : ∀ p ∈ points, (HasX.x p ≤ x ↔ HasX.x (g p) ≤ x')) :
    (∀ i, findIndexAtLeftBoundary points x = .ok i ↔ findIndexAtLeftBoundary (points.map g) x' = .ok i) ∧
    (findIndexAtLeftBoundary points x = .error (.outOfLowerBound x) ↔
      findIndexAtLeftBoundary (points.map g) x' = .error (.outOfLowerBound x')) ∧
    (findIndexAtLeftBoundary points x = .error (.outOfUpperBound x) ↔
      findIndexAtLeftBoundary (points.map g) x' = .error (.outOfUpperBound x')) := by
  match points with
  | [] => simp [findIndexAtLeftBoundary]
  | p :: ps =>
    have hpp : partitionPoint (fun p => decide (HasX.x p < x)) (p :: ps) =
        partitionPoint (fun q => decide (HasX.x q < x')) ((p :: ps).map g) := by
      unfold partitionPoint
      rw [List.length_map]
      refine binarySearchLoop_congr _ _ _ _ (fun i => ?_) _ _
      rw [List.getElem?_map]
      cases hi : (p :: ps)[i]? with
      | none => rfl
      | some r =>
        simp only [Option.map_some, Option.getD_some, decide_eq_decide]
        exact hlt r (List.mem_of_getElem? hi)
    have h0 := hle p (by simp)
    rw [List.map_cons] at hpp ⊢
    unfold findIndexAtLeftBoundary
    simp only [← hpp, h0, List.length_cons, List.length_map]
    generalize partitionPoint (fun p => decide (HasX.x p < x)) (p :: ps) = k
    refine ⟨fun i => ?_, ?_, ?_⟩ <;> split_ifs <;> simp

end

end Qlab
