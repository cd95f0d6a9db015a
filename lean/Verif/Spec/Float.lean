import Verif.Model.Float
import Verif.Model.YieldCurve
import Mathlib.Analysis.SpecialFunctions.Exp

/-! # Specification vocabulary for floating-point results -/

namespace Qlab.Spec

/-- The unit roundoff: half the distance from 1 to the next floating-point number. -/
noncomputable def unitRoundoff (A : FloatArith) : ℝ := (1 / 2) ^ A.prec

/-- The exact value at `x` of the straight line through two points. -/
noncomputable def lineThrough (x₀ y₀ x₁ y₁ x : ℝ) : ℝ := y₀ + (y₁ - y₀) * ((x - x₀) / (x₁ - x₀))

/-- `D` and `E` are the same one of the shipped day counts, at two value types. -/
def SameDayCount {V W : Type} [Div V] [FromInt V] [Div W] [FromInt W] (D : DayCount V) (E : DayCount W) : Prop :=
  (D = DayCount.act360 ∧ E = DayCount.act360) ∨ (D = DayCount.act365 ∧ E = DayCount.act365) ∨
  ∃ oc, D = DayCount.thirty360 oc ∧ E = DayCount.thirty360 oc

/-- `D` is Act/360 or Act/365, and `N` the number of days of its year. -/
def IsActualDayCount {V : Type} [Div V] [FromInt V] (D : DayCount V) (N : Int) : Prop :=
  (D = DayCount.act360 ∧ N = 360) ∨ (D = DayCount.act365 ∧ N = 365)

/-- `z` is the exact product of time and yield of the curve at date `d`: of the floating-point year fraction and the
floating-point yield the curve uses there.  At the settlement date the product is zero. -/
def TimesYield {A : FloatArith} {I : Interpolator (Fl A)} (D : DayCount (Fl A)) (c : YieldCurve (Fl A) I) (d : Date)
    (z : ℝ) : Prop :=
  (d = c.settlementDate ∧ z = 0) ∨
  ∃ t y, D c.settlementDate d = .ok (.ok t) ∧ I.tryValue c.interpolator t = .ok (.ok y) ∧ z = t.val * y.val

/-- What is asked of the library's `exp` where order matters: `exp 0 = 1`, never negative, never decreasing. -/
structure ExpOrdered (A : FloatArith) : Prop where
  zero : A.exp 0 = 1
  nonneg : ∀ x, 0 ≤ A.exp x
  mono : ∀ a b : Fl A, a ≤ b → A.exp a.val ≤ A.exp b.val

/-- What is asked of the library's `exp` where accuracy matters: relative error at most `ε`. -/
def ExpWithin (A : FloatArith) (ε : ℝ) : Prop :=
  ∀ a : Fl A, |A.exp a.val - Real.exp a.val| ≤ ε * Real.exp a.val

end Qlab.Spec
