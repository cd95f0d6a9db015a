import Verif.Model.Bond
import Verif.Spec.Dates
import Verif.Spec.Curve
import Verif.Spec.Periods
import Mathlib.Data.List.Chain
import Mathlib.Algebra.Field.Defs

/-! # Specification vocabulary for bonds -/

namespace Qlab.Spec

/-- `dues` are the coupon dates from `first` to `penultimate` in steps of `n` months. -/
structure IsSchedule (n : Int) (first penultimate : Date) (dues : List Date) : Prop where
  /-- there is none exactly when `first` is already too late -/
  empty : dues = [] ↔ penultimate < first
  /-- the first one is `first` -/
  start : ∀ d, dues.head? = some d → d = first
  /-- each is `n` months after the one before -/
  steps : dues.IsChain (IsMonthsLater n)
  /-- none is later than `penultimate` -/
  bounded : ∀ d ∈ dues, d ≤ penultimate
  /-- `n` months after the last one is later than `penultimate` -/
  complete : ∀ d, dues.getLast? = some d → ∃ next, IsMonthsLater n d next ∧ penultimate < next

section
variable {K : Type} [Field K]

/-- Days from `a` to `b` as a number. -/
def days (K : Type) [Field K] (a b : Date) : K := ((Date.sub b a : Int) : K)

/-- Length of the first coupon period in regular periods: 1 if the bond is issued one period before the first
coupon date, the fraction of the period that remains if issued later, 1 plus a fraction of the period before if
issued earlier. -/
def IsFirstLength (n : Int) (issue first : Date) (x : K) : Prop :=
  ∃ prior, IsMonthsLater (-n) first prior ∧
    ((issue = prior ∧ x = 1) ∨
     (prior < issue ∧ x = days K issue first / days K prior first) ∨
     (issue < prior ∧ ∃ prior2, IsMonthsLater (-n) prior prior2 ∧
        x = 1 + days K issue prior / days K prior2 prior))

/-- Length of the last coupon period in regular periods. -/
def IsLastLength (n : Int) (penultimate maturity : Date) (x : K) : Prop :=
  ∃ next, IsMonthsLater n penultimate next ∧
    ((maturity = next ∧ x = 1) ∨
     (maturity < next ∧ x = days K penultimate maturity / days K penultimate next) ∨
     (next < maturity ∧ ∃ next2, IsMonthsLater n next next2 ∧ x = 1 + days K next maturity / days K next next2))

end

/-- The flows of a bond that fall due after the settlement date. -/
def remaining {V : Type} (b : Bond V) (settle : Date) : List (BondCashFlow V) :=
  b.bondCashFlows.filter fun c => settle < c.dueDate

/-- The curve has the discount factors `dfs` from `settle` to the payment dates of `flows`, one each, in order. -/
def HasDiscounts {V : Type} [Neg V] [Sub V] [Mul V] [HasExp V] {I : Interpolator V} (D : DayCount V)
    (curve : YieldCurve V I) (settle : Date) (flows : List (BondCashFlow V)) (dfs : List V) : Prop :=
  List.Forall₂ (fun c v => curve.discountFactor D settle c.paymentDate = .ok (.ok v)) flows dfs

/-- What a caller sees: build a curve and price a bond on it. -/
def curvePrice {V : Type} [Zero V] [Neg V] [Add V] [Sub V] [Mul V] [HasExp V] (D : DayCount V) (I : Interpolator V)
    (curveSettle : Date) (ms : List Date) (ys : List V) (b : Bond V) (settle : Date) : Rust (QLabResult V) := do
  match ← YieldCurve.new D I curveSettle ms ys with
  | .error e => return .error e
  | .ok curve => b.discountedValue D settle curve

/-- The same flow with another amount. -/
def withAmount {V : Type} (g : BondCashFlow V) (a : V) : BondCashFlow V := { g with paymentAmount := a }

/-- The bond with every amount multiplied by `k`. -/
def scaled {V : Type} [Mul V] (k : V) (b : Bond V) : Bond V :=
  { b with bondCashFlows := b.bondCashFlows.map fun g => withAmount g (k * g.paymentAmount) }

end Qlab.Spec
