import Verif.Model.Date

/-! # Specification vocabulary for the text of a date -/

namespace Qlab.Spec

/-- `cs` is the number `n` in decimal, with exactly `k` digits. -/
def IsDigits (k n : Nat) (cs : List Char) : Prop :=
  cs.length = k ∧ (∀ c ∈ cs, c.isDigit) ∧ Nat.ofDigitChars 10 cs 0 = n

/-- `s` is the date `d` as `YYYY-MM-DD`. -/
def IsIsoText (d : Date) (s : String) : Prop :=
  ∃ y m t, s.toList = y ++ ['-'] ++ m ++ ['-'] ++ t ∧ IsDigits 4 d.year.toNat y ∧ IsDigits 2 d.month m ∧
    IsDigits 2 d.day t

end Qlab.Spec
