/-!
# Rust primitives

Outcomes of a Rust call and fixed-width integer arithmetic.
-/

namespace Qlab

/-- Outcome of a Rust call that may panic.  `panic` is the unwinding path; a Rust value that is an
`Option` or a `Result` stays data inside `ok`. -/
inductive Rust (α : Type) : Type where
  | ok (a : α)
  | panic
  deriving DecidableEq, Repr

namespace Rust

/-- Sequencing: a panic in the first computation is a panic of the whole. -/
@[inline] def bind {α β : Type} : Rust α → (α → Rust β) → Rust β
  | ok a, f => f a
  | panic, _ => panic

instance : Monad Rust where
  pure := ok
  bind := bind

@[simp] theorem pure_eq {α : Type} (a : α) : (pure a : Rust α) = ok a := rfl
@[simp] theorem ok_bind {α β : Type} (a : α) (f : α → Rust β) : (ok a >>= f) = f a := rfl
@[simp] theorem panic_bind {α β : Type} (f : α → Rust β) : ((panic : Rust α) >>= f) = panic := rfl
@[simp] theorem map_ok {α β : Type} (f : α → β) (a : α) : (f <$> (ok a : Rust α)) = ok (f a) := rfl
@[simp] theorem map_panic {α β : Type} (f : α → β) : (f <$> (panic : Rust α)) = panic := rfl

instance : LawfulMonad Rust := LawfulMonad.mk'
  (id_map := by intro α x; cases x <;> rfl)
  (pure_bind := by intros; rfl)
  (bind_assoc := by intro α β γ x f g; cases x <;> rfl)

/-- The call returned normally with `a`. -/
theorem bind_eq_ok {α β : Type} {x : Rust α} {f : α → Rust β} {b : β} :
    (x >>= f) = ok b ↔ ∃ a, x = ok a ∧ f a = ok b := by
  cases x <;> simp

theorem bind_eq_panic {α β : Type} {x : Rust α} {f : α → Rust β} :
    (x >>= f) = panic ↔ x = panic ∨ ∃ a, x = ok a ∧ f a = panic := by
  cases x <;> simp

/-- `Option::unwrap`. -/
def unwrap {α : Type} : Option α → Rust α
  | some a => ok a
  | none => panic

end Rust

/-- `i32::MIN`. -/
def i32Min : Int := -2147483648
/-- `i32::MAX`. -/
def i32Max : Int := 2147483647
/-- `2^32`, the modulus of `u32` and `i32` arithmetic. -/
def two32 : Int := 4294967296

/-- `a + b` on `i32`.  `oc` says whether the build has overflow checks: with them an overflow panics,
without them the result wraps (two's complement). -/
def addI32 (oc : Bool) (a b : Int) : Rust Int :=
  if i32Min ≤ a + b ∧ a + b ≤ i32Max then .ok (a + b)
  else if oc then .panic
  else .ok ((a + b + 2147483648) % two32 - 2147483648)

/-- `a - b` on `i32`. -/
def subI32 (oc : Bool) (a b : Int) : Rust Int :=
  if i32Min ≤ a - b ∧ a - b ≤ i32Max then .ok (a - b)
  else if oc then .panic
  else .ok ((a - b + 2147483648) % two32 - 2147483648)

/-- `a + b` on `u32`. -/
def addU32 (oc : Bool) (a b : Int) : Rust Int :=
  if a + b < two32 then .ok (a + b) else if oc then .panic else .ok ((a + b) % two32)

/-- `a - b` on `u32`. -/
def subU32 (oc : Bool) (a b : Int) : Rust Int :=
  if 0 ≤ a - b then .ok (a - b) else if oc then .panic else .ok ((a - b) % two32)

/-- `a * b` on `u32`. -/
def mulU32 (oc : Bool) (a b : Int) : Rust Int :=
  if a * b < two32 then .ok (a * b) else if oc then .panic else .ok ((a * b) % two32)

/-- `x as u32` for an `i32` value `x`: reinterpretation modulo `2^32`, in every build profile. -/
def i32AsU32 (x : Int) : Int := x % two32

end Qlab
