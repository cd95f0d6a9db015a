import Mathlib.Data.EReal.Basic
import Verif.Model.Binary

/-!
# The formats of IEEE 754

`impl Value for f32` and `impl Value for f64` (`crates/qlab-math/src/value.rs:24-26`), now with the bounded exponent
range: subnormal numbers, both zeros, both infinities and NaN.  Clause numbers are those of IEEE 754-2019, which Rust
requires of its arithmetic; all operations round to nearest, ties to even.  Simplified: there is one NaN, since no
function of the library looks at payloads.
-/

namespace Qlab

/-- A binary interchange format (3.3): `prec` significant bits, largest exponent `emax`, smallest normal exponent
`1 - emax`. -/
structure IeeeFormat where
  prec : Nat
  emax : Nat
  prec_ge : 24 ≤ prec
  emax_ge : prec ≤ emax

namespace IeeeFormat

/-- `f32`: binary32. -/
def binary32 : IeeeFormat := ⟨24, 127, by norm_num, by norm_num⟩
/-- `f64`: binary64. -/
def binary64 : IeeeFormat := ⟨53, 1023, by norm_num, by norm_num⟩

variable (F : IeeeFormat)

/-- Exponent of the last bit of the smallest normal number, which is that of all subnormal numbers. -/
def bottom : ℤ := 2 - F.emax - F.prec

/-- Exponent of the last bit available for `x`. -/
noncomputable def lastBit (x : ℝ) : ℤ := max (Binary.lastBit F.prec x) F.bottom

/-- `x` rounded to nearest, ties to even, as if the largest exponent were unbounded (4.3.1). -/
noncomputable def round (x : ℝ) : ℝ := Binary.nearestEven (x / 2 ^ F.lastBit x) * 2 ^ F.lastBit x

/-- The largest finite number. -/
noncomputable def largest : ℝ := (2 ^ F.prec - 1) * 2 ^ ((F.emax : ℤ) - F.prec + 1)

/-- `x` is a finite number of the format. -/
def Representable (x : ℝ) : Prop := F.round x = x ∧ |x| ≤ F.largest

end IeeeFormat

/-- A sign bit that fits the number: either bit for zero. -/
def SignFits (neg : Bool) (x : ℝ) : Prop := if neg then x ≤ 0 else 0 ≤ x

/-- A floating-point datum (3.4): NaN, an infinity, or a finite number with its sign bit. -/
inductive Ieee (F : IeeeFormat) where
  | nan
  | inf (neg : Bool)
  | fin (neg : Bool) (x : ℝ) (sign : SignFits neg x) (rep : F.Representable x)

namespace Ieee
variable {F : IeeeFormat}

/-- The sign bit of a result `x`; `zeroSign` if it is exactly zero (6.3). -/
noncomputable def signOf (zeroSign : Bool) (x : ℝ) : Bool := if x = 0 then zeroSign else decide (x < 0)

end Ieee

namespace Binary

theorem nearestEven_nonneg {y : ℝ} (h : 0 ≤ y) : 0 ≤ nearestEven y := by
  have := nearestEven_mono h
  rwa [show nearestEven 0 = 0 by simpa using nearestEven_int 0] at this

theorem nearestEven_nonpos {y : ℝ} (h : y ≤ 0) : nearestEven y ≤ 0 := by
  have := nearestEven_mono h
  rwa [show nearestEven 0 = 0 by simpa using nearestEven_int 0] at this

end Binary

namespace IeeeFormat
variable (F : IeeeFormat)

theorem round_nonneg {x : ℝ} (h : 0 ≤ x) : 0 ≤ F.round x :=
  mul_nonneg (by exact_mod_cast Binary.nearestEven_nonneg (div_nonneg h (Binary.zpow_pos' _).le))
    (Binary.zpow_pos' _).le

theorem round_nonpos {x : ℝ} (h : x ≤ 0) : F.round x ≤ 0 :=
  mul_nonpos_of_nonpos_of_nonneg
    (by exact_mod_cast Binary.nearestEven_nonpos (div_nonpos_of_nonpos_of_nonneg h (Binary.zpow_pos' _).le))
    (Binary.zpow_pos' _).le

theorem round_zero : F.round 0 = 0 := le_antisymm (F.round_nonpos le_rfl) (F.round_nonneg le_rfl)

theorem bottom_add : F.bottom + F.prec ≤ (F.emax : ℤ) - F.prec + 1 := by
  have := F.emax_ge; have := F.prec_ge; unfold bottom; omega

/-- Multiples of the last bit with at most `prec` bits are left alone. -/
theorem round_rep (k e : ℤ) (hk : |k| ≤ 2 ^ F.prec) (he : F.bottom ≤ e) : F.round (k * 2 ^ e) = k * 2 ^ e := by
  have hp : 1 ≤ F.prec := le_trans (by norm_num) F.prec_ge
  have key : ∀ b : ℤ, (∃ m : ℤ, (k : ℝ) * 2 ^ e / 2 ^ b = m) →
      (Binary.nearestEven ((k : ℝ) * 2 ^ e / 2 ^ b) : ℝ) * 2 ^ b = k * 2 ^ e := by
    rintro b ⟨m, hm⟩
    rw [hm, Binary.nearestEven_int, ← hm, div_mul_cancel₀ _ (Binary.zpow_pos' _).ne']
  unfold round
  rcases le_total (Binary.lastBit F.prec (k * 2 ^ e)) F.bottom with h | h
  · have hb : F.lastBit (k * 2 ^ e) = F.bottom := max_eq_right h
    rw [hb]
    refine key _ ⟨k * 2 ^ (e - F.bottom).toNat, ?_⟩
    have he' : ((e - F.bottom).toNat : ℤ) + F.bottom = e := by omega
    rw [div_eq_iff (Binary.zpow_pos' _).ne']
    push_cast
    rw [mul_assoc, ← zpow_natCast, ← zpow_add₀ (by norm_num), he']
  · have hb : F.lastBit (k * 2 ^ e) = Binary.lastBit F.prec (k * 2 ^ e) := max_eq_left h
    rw [hb]
    exact Binary.roundTo_rep hp k e hk

/-- A rounded number is a multiple of the last bit, with at most `prec` bits. -/
theorem round_form (x : ℝ) : ∃ k e : ℤ, F.round x = k * 2 ^ e ∧ |k| ≤ 2 ^ F.prec ∧ F.bottom ≤ e ∧ e = F.lastBit x := by
  have hp : 1 ≤ F.prec := le_trans (by norm_num) F.prec_ge
  refine ⟨_, _, rfl, ?_, le_max_right _ _, rfl⟩
  by_cases hx : x = 0
  · subst hx
    rw [zero_div, show Binary.nearestEven 0 = 0 by simpa using Binary.nearestEven_int 0]
    simp
  apply Binary.nearestEven_abs_le
  rw [abs_div, abs_of_pos (Binary.zpow_pos' _)]
  refine lt_of_le_of_lt ?_ (Binary.significand_bounds hp hx).2
  exact div_le_div_of_nonneg_left (abs_nonneg x) (Binary.zpow_pos' _)
    (zpow_le_zpow_right₀ (by norm_num) (le_max_left _ _))

theorem round_idem (x : ℝ) : F.round (F.round x) = F.round x := by
  obtain ⟨k, e, h, hk, he, _⟩ := F.round_form x
  rw [h]
  exact F.round_rep k e hk he

theorem representable_int (n : ℤ) (hn : |n| ≤ 2 ^ F.prec) : F.Representable n := by
  have h := F.round_rep n 0 hn (by have := F.emax_ge; have := F.prec_ge; unfold bottom; omega)
  refine ⟨by simpa using h, ?_⟩
  have h1 : |(n : ℝ)| ≤ 2 ^ F.prec := by exact_mod_cast hn
  refine le_trans h1 ?_
  unfold largest
  have h2 : (2 : ℝ) ^ (1 : ℤ) ≤ 2 ^ ((F.emax : ℤ) - F.prec + 1) :=
    zpow_le_zpow_right₀ (by norm_num) (by have := F.emax_ge; omega)
  have h3 : (2 : ℝ) ≤ 2 ^ F.prec := by
    calc (2 : ℝ) = 2 ^ 1 := by norm_num
      _ ≤ 2 ^ F.prec := pow_le_pow_right₀ (by norm_num) (le_trans (by norm_num) F.prec_ge)
  rw [zpow_one] at h2
  nlinarith

end IeeeFormat

namespace Ieee
variable {F : IeeeFormat}

theorem signOf_fits (s : Bool) (x : ℝ) : SignFits (signOf s x) (F.round x) := by
  unfold signOf SignFits
  by_cases hx : x = 0
  · subst hx; rw [if_pos rfl, F.round_zero]; split <;> exact le_rfl
  · rw [if_neg hx]
    by_cases h : x < 0
    · rw [if_pos (by simpa using h)]; exact F.round_nonpos h.le
    · rw [if_neg (by simpa using h)]; exact F.round_nonneg (not_lt.1 h)

/-- The result of an operation whose exact result is `x` (4.3.1, 7.4): rounded, or an infinity if that is too large;
`zeroSign` is the sign bit if `x` is exactly zero. -/
noncomputable def ofReal (F : IeeeFormat) (zeroSign : Bool) (x : ℝ) : Ieee F :=
  open Classical in
  if h : |F.round x| ≤ F.largest then .fin (signOf zeroSign x) (F.round x) (signOf_fits _ _) ⟨F.round_idem x, h⟩
  else .inf (signOf zeroSign x)

/-- `-a` (5.5.1): flips the sign bit. -/
noncomputable def neg : Ieee F → Ieee F
  | .nan => .nan
  | .inf s => .inf !s
  | .fin s x h r => .fin (!s) (-x)
      (by unfold SignFits at *; cases s <;> simpa using h)
      (by
        obtain ⟨k, e, hk, hkb, he, _⟩ := F.round_form x
        refine ⟨?_, by rw [abs_neg]; exact r.2⟩
        rw [r.1] at hk
        have := F.round_rep (-k) e (by rwa [abs_neg]) he
        rw [hk, ← neg_mul]; exact_mod_cast this)

/-- `a + b` (5.4.1, 6.1, 6.3, 7.2): infinities of opposite signs give NaN; an exact zero is positive unless both operands
are negative. -/
noncomputable def add : Ieee F → Ieee F → Ieee F
  | .nan, _ => .nan
  | _, .nan => .nan
  | .inf s, .inf t => if s = t then .inf s else .nan
  | .inf s, .fin .. => .inf s
  | .fin .., .inf t => .inf t
  | .fin s x _ _, .fin t y _ _ => ofReal F (s && t) (x + y)

/-- `a * b` (5.4.1, 6.1, 6.3, 7.2): zero times infinity gives NaN. -/
noncomputable def mul : Ieee F → Ieee F → Ieee F
  | .nan, _ => .nan
  | _, .nan => .nan
  | .inf s, .inf t => .inf (s ^^ t)
  | .inf s, .fin t y _ _ => open Classical in if y = 0 then .nan else .inf (s ^^ t)
  | .fin s x _ _, .inf t => open Classical in if x = 0 then .nan else .inf (s ^^ t)
  | .fin s x _ _, .fin t y _ _ => ofReal F (s ^^ t) (x * y)

/-- `a / b` (5.4.1, 6.1, 6.3, 7.2, 7.3): zero by zero and infinity by infinity give NaN, another number by zero an
infinity, a number by infinity zero. -/
noncomputable def div : Ieee F → Ieee F → Ieee F
  | .nan, _ => .nan
  | _, .nan => .nan
  | .inf _, .inf _ => .nan
  | .inf s, .fin t _ _ _ => .inf (s ^^ t)
  | .fin s _ _ _, .inf t => ofReal F (s ^^ t) 0
  | .fin s x _ _, .fin t y _ _ =>
    open Classical in
    if y = 0 then (if x = 0 then .nan else .inf (s ^^ t)) else ofReal F (s ^^ t) (x / y)

noncomputable instance : Neg (Ieee F) := ⟨neg⟩
noncomputable instance : Add (Ieee F) := ⟨add⟩
/-- `a - b` is `a + (-b)` (5.4.1). -/
noncomputable instance : Sub (Ieee F) := ⟨fun a b => add a (neg b)⟩
noncomputable instance : Mul (Ieee F) := ⟨mul⟩
noncomputable instance : Div (Ieee F) := ⟨div⟩
/-- `V::zero()`: positive zero. -/
noncomputable instance : Zero (Ieee F) :=
  ⟨.fin false 0 (by simp [SignFits]) (by simpa using F.representable_int 0 (by simp))⟩
/-- `V::one()`. -/
noncomputable instance : One (Ieee F) :=
  ⟨.fin false 1 (by simp [SignFits])
    (by simpa using F.representable_int 1 (by simpa using one_le_pow₀ (by norm_num : (1 : ℤ) ≤ 2)))⟩
/-- `V::from_i64` and its siblings: an `as` cast, which rounds to nearest and never fails (`num_traits` 0.2.19
`src/cast.rs`); integer zero becomes positive zero (5.4.1 `convertFromInt`). -/
noncomputable instance : FromInt (Ieee F) := ⟨fun n => some (ofReal F false n)⟩

/-- The extended real a datum stands for; none for NaN (3.2). -/
noncomputable def value : Ieee F → Option EReal
  | .nan => none
  | .inf s => some (if s then ⊥ else ⊤)
  | .fin _ x _ _ => some (x : EReal)

/-- `a < b` (5.11): false if an operand is NaN; zeros are equal. -/
instance : LT (Ieee F) := ⟨fun a b => ∃ u v, a.value = some u ∧ b.value = some v ∧ u < v⟩
/-- `a <= b` (5.11). -/
instance : LE (Ieee F) := ⟨fun a b => ∃ u v, a.value = some u ∧ b.value = some v ∧ u ≤ v⟩
noncomputable instance : DecidableLT (Ieee F) := fun _ _ => Classical.propDecidable _
noncomputable instance : DecidableLE (Ieee F) := fun _ _ => Classical.propDecidable _

end Ieee

end Qlab
