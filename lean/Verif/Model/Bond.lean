import Verif.Model.YieldCurve
import Verif.Lemmas.Date

/-! # Bonds (`qlab_instrument::bond`) -/

namespace Qlab

/-- `enum Frequency` (`crates/qlab-time/src/frequency.rs:1-4`). -/
inductive Frequency where
  | sa
  deriving DecidableEq, Repr

/-- `frequency as u32` and `frequency as u8` (`crates/qlab-time/src/frequency.rs:3`). -/
def Frequency.toNat : Frequency → Nat
  | .sa => 2

/-- `Months::new(12 / coupon_frequency as u32)` (`crates/qlab-instrument/src/bond.rs:67`). -/
def Frequency.months (f : Frequency) : Nat := 12 / f.toNat

theorem Frequency.months_pos (f : Frequency) : 0 < f.months := by cases f; decide

/-- `BondCashFlow` (`crates/qlab-instrument/src/bond.rs:11-15`). -/
structure BondCashFlow (V : Type) where
  dueDate : Date
  paymentDate : Date
  paymentAmount : V
  deriving DecidableEq, Repr

/-- `Bond` (`crates/qlab-instrument/src/bond.rs:27-30`); `bond_id` (`crates/qlab-instrument/src/bond.rs:197-200`) is the
field. -/
structure Bond (V : Type) where
  bondId : String
  bondCashFlows : List (BondCashFlow V)
  deriving DecidableEq, Repr

namespace Bond
variable {V : Type}

/-- The loop of `Bond::new` (`crates/qlab-instrument/src/bond.rs:73-82`): the flows pushed from
`regularDueDate` on, or `None` when a date operation fails.  `hpos` is used only for termination. -/
def regularLoop (months : Nat) (hpos : 0 < months) (coupon : V) (penultimate regularDueDate : Date) : Option (List (BondCashFlow V)) :=
  if _hle : regularDueDate ≤ penultimate then
    match Date.weekendRoll regularDueDate with
    | none => none
    | some paymentDate =>
      match _h : Date.checkedAddMonths regularDueDate months with
      | none => none
      | some next =>
        match regularLoop months hpos coupon penultimate next with
        | none => none
        | some rest => some (⟨regularDueDate, paymentDate, coupon⟩ :: rest)
  else some []
termination_by (NaiveDate.numDaysFromCe penultimate + 1 - NaiveDate.numDaysFromCe regularDueDate).toNat
decreasing_by
  rw [addMonths_eq] at _h
  have h1 := (diffMonths_eq_some _ _ _).1 _h
  have hlt : regularDueDate < next := by
    rw [lt_iff_monthNumber]
    omega
  have h2 := (NaiveDate.lt_iff_serial _ _).1 hlt
  have h3 := (NaiveDate.le_iff_serial _ _).1 _hle
  omega

/-- `Bond::first_cash_flow` (`crates/qlab-instrument/src/bond.rs:104-128`).  The slice is returned; indexing
an empty slice panics. -/
def firstCashFlow [Add V] [Mul V] [Div V] [FromInt V] (issueDate firstCouponDate : Date) (months : Nat)
    (regularCouponPayment : V) (flows : List (BondCashFlow V)) : Rust (Option (List (BondCashFlow V))) :=
  match Date.checkedSubMonths firstCouponDate months with
  | none => .ok none
  | some firstPrior =>
    if firstPrior < issueDate then
      match FromInt.fromInt (V := V) (Date.sub firstCouponDate issueDate),
        FromInt.fromInt (V := V) (Date.sub firstCouponDate firstPrior) with
      | some a, some b =>
        match flows with
        | [] => .panic
        | c :: rest => .ok (some ({ c with paymentAmount := c.paymentAmount * (a / b) } :: rest))
      | _, _ => .ok none
    else if issueDate < firstPrior then
      match Date.checkedSubMonths firstPrior months with
      | none => .ok none
      | some secondPrior =>
        match FromInt.fromInt (V := V) (Date.sub firstPrior issueDate),
          FromInt.fromInt (V := V) (Date.sub firstPrior secondPrior) with
        | some a, some b =>
          match flows with
          | [] => .panic
          | c :: rest =>
            .ok (some ({ c with paymentAmount := c.paymentAmount + a / b * regularCouponPayment } :: rest))
        | _, _ => .ok none
    else .ok (some flows)

/-- `Bond::final_cash_flow` (`crates/qlab-instrument/src/bond.rs:130-160`). -/
def finalCashFlow [Add V] [Mul V] [Div V] [FromInt V] (penultimateCouponDate maturityDate : Date) (faceValue : V)
    (months : Nat) (regularCouponPayment : V) : Option (BondCashFlow V) :=
  match Date.checkedAddMonths penultimateCouponDate months with
  | none => none
  | some maturityRegularDate =>
    let finalCoupon : Option V :=
      if maturityDate < maturityRegularDate then
        match FromInt.fromInt (V := V) (Date.sub maturityDate penultimateCouponDate),
          FromInt.fromInt (V := V) (Date.sub maturityRegularDate penultimateCouponDate) with
        | some a, some b => some (regularCouponPayment * (a / b))
        | _, _ => none
      else if maturityRegularDate < maturityDate then
        match Date.checkedAddMonths maturityRegularDate months with
        | none => none
        | some nextRegularDate =>
          match FromInt.fromInt (V := V) (Date.sub maturityDate maturityRegularDate),
            FromInt.fromInt (V := V) (Date.sub nextRegularDate maturityRegularDate) with
          | some a, some b => some (regularCouponPayment + a / b * regularCouponPayment)
          | _, _ => none
      else some regularCouponPayment
    match finalCoupon with
    | none => none
    | some c => some ⟨maturityDate, maturityDate, faceValue + c⟩

/-- `Bond::new` (`crates/qlab-instrument/src/bond.rs:57-102`). -/
def new [Add V] [Mul V] [Div V] [FromInt V] (bondId : String)
    (issueDate firstCouponDate penultimateCouponDate maturityDate : Date) (couponFrequency : Frequency)
    (couponRate faceValue : V) : Rust (Option (Bond V)) :=
  match FromInt.fromInt (V := V) couponFrequency.toNat with
  | none => .ok none
  | some freq =>
    let regularCouponPayment := couponRate * faceValue / freq
    match regularLoop couponFrequency.months couponFrequency.months_pos regularCouponPayment penultimateCouponDate firstCouponDate with
    | none => .ok none
    | some flows => do
      match ← firstCashFlow issueDate firstCouponDate couponFrequency.months regularCouponPayment flows with
      | none => return none
      | some flows =>
        match finalCashFlow penultimateCouponDate maturityDate faceValue couponFrequency.months
            regularCouponPayment with
        | none => return none
        | some final => return some ⟨bondId, flows ++ [final]⟩

/-- The loop of `discounted_value` (`crates/qlab-instrument/src/bond.rs:188-194`) with running total `pv`. -/
def pvLoop [Neg V] [Add V] [Sub V] [Mul V] [HasExp V] {I : Interpolator V} (D : DayCount V) (settle : Date)
    (curve : YieldCurve V I) (pv : V) : List (BondCashFlow V) → Rust (QLabResult V)
  | [] => .ok (.ok pv)
  | c :: rest =>
    if settle < c.dueDate then do
      match ← curve.discountFactor D settle c.paymentDate with
      | .error e => return .error e
      | .ok df => pvLoop D settle curve (pv + df * c.paymentAmount) rest
    else pvLoop D settle curve pv rest

/-- `Bond::discounted_value` (`crates/qlab-instrument/src/bond.rs:182-196`). -/
def discountedValue [Zero V] [Neg V] [Add V] [Sub V] [Mul V] [HasExp V] {I : Interpolator V} (D : DayCount V)
    (self : Bond V) (bondSettleDate : Date) (yieldCurve : YieldCurve V I) : Rust (QLabResult V) :=
  pvLoop D bondSettleDate yieldCurve 0 self.bondCashFlows

end Bond

end Qlab
