import Mathlib.Data.Int.Log
import Mathlib.Algebra.Order.Floor.Ring
import Mathlib.Algebra.Order.Round
import Mathlib.Analysis.SpecialFunctions.Exp
import Mathlib.Tactic.FieldSimp
import Mathlib.Tactic.Ring
import Mathlib.Tactic.Linarith
import Mathlib.Tactic.NormNum
import Verif.Model.Float

/-!
# Binary floating point, round to nearest, ties to even

The rounding of `f32` (24 bits) and `f64` (53 bits), IEEE 754 4.3.1 `roundTiesToEven`, with an unbounded exponent
range, and a correctly rounded `exp`.
-/

namespace Qlab.Binary

/-- The integer nearest to `y`; of two, the even one. -/
noncomputable def nearestEven (y : ℝ) : ℤ :=
  let n := ⌊y⌋
  if y - n < 1 / 2 then n
  else if 1 / 2 < y - n then n + 1
  else if Even n then n else n + 1

/-- Exponent of the last of the `p` significant bits of `x`. -/
noncomputable def lastBit (p : Nat) (x : ℝ) : ℤ := Int.log 2 |x| - (p - 1)

/-- `x` rounded to `p` significant bits. -/
noncomputable def roundTo (p : Nat) (x : ℝ) : ℝ := nearestEven (x / 2 ^ lastBit p x) * 2 ^ lastBit p x

theorem nearestEven_err (y : ℝ) : |(nearestEven y : ℝ) - y| ≤ 1 / 2 := by
  have h1 := Int.floor_le y
  have h2 := Int.lt_floor_add_one y
  unfold nearestEven
  simp only
  split_ifs with a b c <;> rw [abs_le] <;> push_cast <;> constructor <;> linarith

theorem nearestEven_int (n : ℤ) : nearestEven n = n := by
  unfold nearestEven; simp

theorem nearestEven_mono : Monotone nearestEven := by
  intro y z h
  have hy1 := Int.floor_le y
  have hy2 := Int.lt_floor_add_one y
  have hz1 := Int.floor_le z
  have hz2 := Int.lt_floor_add_one z
  have hf : ⌊y⌋ ≤ ⌊z⌋ := Int.floor_mono h
  rcases eq_or_lt_of_le hf with he | hl
  · unfold nearestEven
    simp only
    rw [← he]
    rw [← he] at hz1 hz2
    split_ifs <;> first | omega | (exfalso; linarith)
  · have b1 : nearestEven y ≤ ⌊y⌋ + 1 := by unfold nearestEven; simp only; split_ifs <;> omega
    have b2 : ⌊z⌋ ≤ nearestEven z := by unfold nearestEven; simp only; split_ifs <;> omega
    omega

theorem nearestEven_neg (y : ℝ) : nearestEven (-y) = -nearestEven y := by
  by_cases hi : ∃ n : ℤ, y = n
  · obtain ⟨n, rfl⟩ := hi
    rw [← Int.cast_neg, nearestEven_int, nearestEven_int]
  · have h1 := Int.floor_le y
    have h2 := Int.lt_floor_add_one y
    have h3 : (⌊y⌋ : ℝ) < y := lt_of_le_of_ne h1 (fun h => hi ⟨_, h.symm⟩)
    have hf : ⌊-y⌋ = -⌊y⌋ - 1 := by
      rw [Int.floor_eq_iff]; push_cast; constructor <;> linarith
    unfold nearestEven
    simp only [hf]
    push_cast
    have he : Even (-⌊y⌋ - 1) ↔ ¬ Even ⌊y⌋ := by
      rw [Int.even_sub_one, even_neg]
    split_ifs <;> first | omega | (exfalso; linarith) | tauto

theorem zpow_pos' (e : ℤ) : (0 : ℝ) < 2 ^ e := zpow_pos (by norm_num) e

theorem lastBit_neg (p : Nat) (x : ℝ) : lastBit p (-x) = lastBit p x := by unfold lastBit; rw [abs_neg]

theorem roundTo_neg (p : Nat) (x : ℝ) : roundTo p (-x) = -roundTo p x := by
  unfold roundTo
  rw [lastBit_neg, neg_div, nearestEven_neg]
  push_cast; ring

theorem roundTo_zero (p : Nat) : roundTo p 0 = 0 := by
  unfold roundTo
  have : nearestEven 0 = 0 := by simpa using nearestEven_int 0
  simp [this]

/-- The significand has `p` bits. -/
theorem significand_bounds {p : Nat} (hp : 1 ≤ p) {x : ℝ} (hx : x ≠ 0) :
    (2 : ℝ) ^ (p - 1) ≤ |x| / 2 ^ lastBit p x ∧ |x| / 2 ^ lastBit p x < 2 ^ p := by
  have hpos : 0 < |x| := abs_pos.2 hx
  have h1 := Int.zpow_log_le_self (b := 2) (by norm_num) hpos
  have h2 := Int.lt_zpow_succ_log_self (b := 2) (by norm_num) |x|
  push_cast at h1 h2
  have e1 : (2 : ℝ) ^ (p - 1) * 2 ^ lastBit p x = 2 ^ Int.log 2 |x| := by
    rw [← zpow_natCast, ← zpow_add₀ (by norm_num)]
    congr 1; unfold lastBit; omega
  have e2 : (2 : ℝ) ^ p * 2 ^ lastBit p x = 2 ^ (Int.log 2 |x| + 1) := by
    rw [← zpow_natCast, ← zpow_add₀ (by norm_num)]
    congr 1; unfold lastBit; omega
  rw [le_div_iff₀ (zpow_pos' _), div_lt_iff₀ (zpow_pos' _), e1, e2]
  exact ⟨h1, h2⟩

theorem roundTo_err {p : Nat} (hp : 1 ≤ p) (x : ℝ) : |roundTo p x - x| ≤ (1 / 2) ^ p * |x| := by
  by_cases hx : x = 0
  · subst hx; rw [roundTo_zero]; simp
  have hb := (significand_bounds hp hx).1
  have he := zpow_pos' (lastBit p x)
  have h := nearestEven_err (x / 2 ^ lastBit p x)
  have e : roundTo p x - x = ((nearestEven (x / 2 ^ lastBit p x) : ℝ) - x / 2 ^ lastBit p x) * 2 ^ lastBit p x := by
    unfold roundTo; field_simp
  rw [e, abs_mul, abs_of_pos he]
  rw [le_div_iff₀ he] at hb
  have e2 : (1 / 2 : ℝ) ^ p * (2 ^ (p - 1)) = 1 / 2 := by
    obtain ⟨q, rfl⟩ : ∃ q, p = q + 1 := ⟨p - 1, by omega⟩
    rw [pow_succ, Nat.add_sub_cancel]
    have : (1 / 2 : ℝ) ^ q * 2 ^ q = 1 := by rw [← mul_pow]; norm_num
    linear_combination this / 2
  have hq : (0 : ℝ) < (1 / 2) ^ p := by positivity
  nlinarith [mul_le_mul_of_nonneg_left hb hq.le]

/-- Numbers with at most `p` significant bits are left alone. -/
theorem roundTo_rep {p : Nat} (hp : 1 ≤ p) (k e : ℤ) (hk : |k| ≤ 2 ^ p) : roundTo p (k * 2 ^ e) = k * 2 ^ e := by
  by_cases hk0 : k = 0
  · subst hk0; simp [roundTo_zero]
  set x : ℝ := k * 2 ^ e with hx
  have hxe : |x| = |(k : ℝ)| * 2 ^ e := by rw [hx, abs_mul, abs_of_pos (zpow_pos' e)]
  have hkR : |(k : ℝ)| ≤ 2 ^ p := by exact_mod_cast hk
  have hxpos : 0 < |x| := by
    rw [hxe]; exact mul_pos (abs_pos.2 (by exact_mod_cast hk0)) (zpow_pos' e)
  -- the significand of `x` is an integer
  suffices h : ∃ m : ℤ, x / 2 ^ lastBit p x = m by
    obtain ⟨m, hm⟩ := h
    unfold roundTo
    rw [hm, nearestEven_int, ← hm, div_mul_cancel₀ _ (zpow_pos' _).ne']
  by_cases hle : lastBit p x ≤ e
  · refine ⟨k * 2 ^ (e - lastBit p x).toNat, ?_⟩
    have he : ((e - lastBit p x).toNat : ℤ) + lastBit p x = e := by omega
    rw [div_eq_iff (zpow_pos' _).ne']
    push_cast
    rw [mul_assoc, ← zpow_natCast, ← zpow_add₀ (by norm_num), he]
  · -- then `|k| = 2 ^ p`
    have h1 : (2 : ℝ) ^ (e + p) ≤ 2 ^ Int.log 2 |x| := by
      apply zpow_le_zpow_right₀ (by norm_num)
      unfold lastBit at hle; omega
    have h2 := Int.zpow_log_le_self (b := 2) (by norm_num) hxpos
    push_cast at h2
    have h3 : |x| ≤ 2 ^ (e + p) := by
      rw [hxe, zpow_add₀ (by norm_num), mul_comm, zpow_natCast]
      exact mul_le_mul_of_nonneg_left hkR (zpow_pos' e).le
    have h4 : |x| = 2 ^ (e + p) := le_antisymm h3 (le_trans h1 h2)
    have h5 : lastBit p x = e + 1 := by
      unfold lastBit
      rw [h4]
      have := Int.log_zpow (R := ℝ) (b := 2) (by norm_num) (e + p)
      push_cast at this
      rw [this]; ring
    have h6 : |(k : ℝ)| = 2 ^ p := by
      rw [hxe, zpow_add₀ (by norm_num), mul_comm, zpow_natCast] at h4
      exact mul_left_cancel₀ (zpow_pos' e).ne' h4
    have h7 : |k| = 2 ^ p := by exact_mod_cast h6
    obtain ⟨q, rfl⟩ : ∃ q, p = q + 1 := ⟨p - 1, by omega⟩
    have h8 : k = 2 * (if 0 < k then 2 ^ q else -2 ^ q) := by
      rw [pow_succ] at h7
      split_ifs with h
      · rw [abs_of_pos h] at h7; linarith
      · rw [abs_of_nonpos (by omega)] at h7; linarith
    refine ⟨if 0 < k then 2 ^ q else -2 ^ q, ?_⟩
    have h9 : (k : ℝ) = 2 * ((if 0 < k then 2 ^ q else -2 ^ q : ℤ) : ℝ) := by exact_mod_cast h8
    rw [h5, div_eq_iff (zpow_pos' _).ne', hx, h9, zpow_add₀ (by norm_num)]
    ring

theorem nearestEven_abs_le {y : ℝ} {p : Nat} (h : |y| < 2 ^ p) : |nearestEven y| ≤ 2 ^ p := by
  rw [abs_lt] at h
  have h1 := nearestEven_mono h.2.le
  have h2 := nearestEven_mono h.1.le
  rw [show (2 : ℝ) ^ p = ((2 ^ p : ℤ) : ℝ) by push_cast; rfl, nearestEven_int] at h1
  rw [show -(2 : ℝ) ^ p = ((-2 ^ p : ℤ) : ℝ) by push_cast; rfl, nearestEven_int] at h2
  exact abs_le.2 ⟨h2, h1⟩

theorem roundTo_idem {p : Nat} (hp : 1 ≤ p) (x : ℝ) : roundTo p (roundTo p x) = roundTo p x := by
  by_cases hx : x = 0
  · subst hx; rw [roundTo_zero, roundTo_zero]
  have hb := (significand_bounds hp hx).2
  refine roundTo_rep hp (nearestEven (x / 2 ^ lastBit p x)) (lastBit p x) (nearestEven_abs_le ?_)
  rwa [abs_div, abs_of_pos (zpow_pos' _)]

theorem roundTo_nonneg (p : Nat) {x : ℝ} (hx : 0 ≤ x) : 0 ≤ roundTo p x := by
  have : nearestEven 0 ≤ nearestEven (x / 2 ^ lastBit p x) :=
    nearestEven_mono (div_nonneg hx (zpow_pos' _).le)
  rw [show nearestEven 0 = 0 by simpa using nearestEven_int 0] at this
  exact mul_nonneg (by exact_mod_cast this) (zpow_pos' _).le

theorem roundTo_mono_pos {p : Nat} (hp : 1 ≤ p) {x y : ℝ} (hx : 0 < x) (h : x ≤ y) :
    roundTo p x ≤ roundTo p y := by
  have hy := lt_of_lt_of_le hx h
  have hlog : Int.log 2 |x| ≤ Int.log 2 |y| := by
    rw [abs_of_pos hx, abs_of_pos hy]; exact Int.log_mono_right hx h
  rcases eq_or_lt_of_le hlog with he | hl
  · have hb : lastBit p x = lastBit p y := by unfold lastBit; rw [he]
    unfold roundTo
    rw [hb]
    refine mul_le_mul_of_nonneg_right ?_ (zpow_pos' _).le
    exact_mod_cast nearestEven_mono (div_le_div_of_nonneg_right h (zpow_pos' _).le)
  · have hbx := (significand_bounds hp hx.ne').2
    have hby := (significand_bounds hp hy.ne').1
    rw [abs_of_pos hx] at hbx
    rw [abs_of_pos hy] at hby
    have hux : nearestEven (x / 2 ^ lastBit p x) ≤ 2 ^ p := by
      have := nearestEven_mono hbx.le
      rwa [show (2 : ℝ) ^ p = ((2 ^ p : ℤ) : ℝ) by push_cast; rfl, nearestEven_int] at this
    have huy : 2 ^ (p - 1) ≤ nearestEven (y / 2 ^ lastBit p y) := by
      have := nearestEven_mono hby
      rwa [show (2 : ℝ) ^ (p - 1) = ((2 ^ (p - 1) : ℤ) : ℝ) by push_cast; rfl, nearestEven_int] at this
    have hux' : (nearestEven (x / 2 ^ lastBit p x) : ℝ) ≤ 2 ^ p := by exact_mod_cast hux
    have huy' : (2 : ℝ) ^ (p - 1) ≤ nearestEven (y / 2 ^ lastBit p y) := by exact_mod_cast huy
    calc roundTo p x ≤ 2 ^ p * 2 ^ lastBit p x := mul_le_mul_of_nonneg_right hux' (zpow_pos' _).le
      _ ≤ 2 ^ (p - 1) * 2 ^ lastBit p y := by
        rw [← zpow_natCast, ← zpow_natCast, ← zpow_add₀ (by norm_num), ← zpow_add₀ (by norm_num)]
        apply zpow_le_zpow_right₀ (by norm_num)
        unfold lastBit; omega
      _ ≤ roundTo p y := mul_le_mul_of_nonneg_right huy' (zpow_pos' _).le

theorem roundTo_mono {p : Nat} (hp : 1 ≤ p) : Monotone (roundTo p) := by
  intro x y h
  rcases lt_trichotomy x 0 with hx | hx | hx
  · rcases lt_or_ge y 0 with hy | hy
    · have := roundTo_mono_pos hp (neg_pos.2 hy) (neg_le_neg h)
      rw [roundTo_neg, roundTo_neg] at this
      linarith
    · have h1 := roundTo_nonneg p (neg_pos.2 hx).le
      rw [roundTo_neg] at h1
      linarith [roundTo_nonneg p hy]
  · subst hx; rw [roundTo_zero]; exact roundTo_nonneg p h
  · exact roundTo_mono_pos hp hx h

/-- Binary floating point with `p` significant bits and a correctly rounded `exp`. -/
noncomputable def arith (p : Nat) (hp : 24 ≤ p) : FloatArith where
  prec := p
  prec_ge := hp
  fl := roundTo p
  err := roundTo_err (by omega)
  mono := roundTo_mono (by omega)
  idem := roundTo_idem (by omega)
  odd := roundTo_neg p
  int n hn := by simpa using roundTo_rep (p := p) (by omega) n 0 hn
  exp x := roundTo p (Real.exp x)
  exp_rep _ := roundTo_idem (by omega) _

/-- `impl Value for f32` (`crates/qlab-math/src/value.rs:24`). -/
noncomputable def f32 : FloatArith := arith 24 (by norm_num)

/-- `impl Value for f64` (`crates/qlab-math/src/value.rs:26`). -/
noncomputable def f64 : FloatArith := arith 53 (by norm_num)

/-- Evaluation of a rounding: `n` is the integer nearest to the significand. -/
theorem roundTo_eq {p : Nat} (hp : 1 ≤ p) {x : ℝ} (e n : ℤ) (h1 : 2 ^ (p - 1) * 2 ^ e ≤ |x|) (h2 : |x| < 2 ^ p * 2 ^ e)
    (h3 : |x / 2 ^ e - n| < 1 / 2) : roundTo p x = n * 2 ^ e := by
  have hpos : 0 < |x| := lt_of_lt_of_le (mul_pos (by positivity) (zpow_pos' e)) h1
  have hl : Int.log 2 |x| = e + p - 1 := by
    rw [← zpow_natCast, ← zpow_add₀ (by norm_num)] at h1 h2
    have a := (Int.zpow_le_iff_le_log (b := 2) (by norm_num) hpos).1 (by push_cast; exact h1)
    have b := (Int.lt_zpow_iff_log_lt (b := 2) (by norm_num) hpos).1 (by push_cast; exact h2)
    omega
  have hb : lastBit p x = e := by unfold lastBit; omega
  have hn : nearestEven (x / 2 ^ e) = n := by
    have h := nearestEven_err (x / 2 ^ e)
    rw [abs_le] at h
    rw [abs_lt] at h3
    have h5 : (nearestEven (x / 2 ^ e) : ℝ) - n < 1 := by linarith
    have h6 : (-1 : ℝ) < (nearestEven (x / 2 ^ e) : ℝ) - n := by linarith
    have h7 : nearestEven (x / 2 ^ e) - n < 1 := by exact_mod_cast h5
    have h8 : -1 < nearestEven (x / 2 ^ e) - n := by exact_mod_cast h6
    omega
  unfold roundTo; rw [hb, hn]

end Qlab.Binary
