import Mathlib.Data.Finset.Card
import Mathlib.Order.Interval.Finset.Basic
import Mathlib.Data.Int.Interval
import Verif.Spec.Dates

/-! # Specification of business-day counting -/

namespace Qlab.Spec

open Classical in
/-- Number of business days of `c` whose serial number `s` satisfies `lo ≤ s < hi`. -/
noncomputable def openDays (c : Calendar) (lo hi : Int) : Nat :=
  ((Finset.Ico lo hi).filter fun s => ∃ d : Date, Date.serialDate d = s ∧ Open c d).card

/-- The calendar answers on every date whose serial number `s` satisfies `lo ≤ s < hi`. -/
def AnswersOn (c : Calendar) (lo hi : Int) : Prop :=
  ∀ d : Date, lo ≤ Date.serialDate d → Date.serialDate d < hi → ¬ Crashes c d

/-- First serial counted: the code skips the first date when `include_first` is true (the default). -/
def firstCounted (fromD : Date) (includeFirst : Option Bool) : Int :=
  Date.serialDate fromD + if includeFirst.getD true then 1 else 0

/-- One past the last serial counted. -/
def endCounted (toD : Date) (includeLast : Option Bool) : Int :=
  Date.serialDate toD + if includeLast.getD false then 1 else 0

end Qlab.Spec
