/-!
# Specification of the Gregorian calendar

Independent of the model: the textbook rules, stated as relations.
-/

namespace Qlab.Spec

/-- Gregorian leap years: divisible by 4, except centuries not divisible by 400. -/
def IsLeapYear (y : Int) : Prop := 4 ∣ y ∧ (¬ 100 ∣ y ∨ 400 ∣ y)

/-- `d` is a day of month `m` of year `y` ("thirty days hath September ..."). -/
def IsDay (y : Int) (m d : Nat) : Prop :=
  (m ∈ [1, 3, 5, 7, 8, 10, 12] ∧ 1 ≤ d ∧ d ≤ 31) ∨
  (m ∈ [4, 6, 9, 11] ∧ 1 ≤ d ∧ d ≤ 30) ∨
  (m = 2 ∧ 1 ≤ d ∧ d ≤ 28) ∨
  (m = 2 ∧ d = 29 ∧ IsLeapYear y)

/-- Years that the date type supports. -/
def SupportedYear (y : Int) : Prop := -262143 ≤ y ∧ y ≤ 262142

/-- `d` is the last day of month `m` of year `y`. -/
def IsLastDayOfMonth (y : Int) (m d : Nat) : Prop := IsDay y m d ∧ ¬ IsDay y m (d + 1)

/-- Months counted from January of year 0. -/
def monthNumber (y : Int) (m : Nat) : Int := 12 * y + ((m : Int) - 1)

/-- The day that a month shift puts in year `y`, month `m` when it starts from day `d0`: the same day
of the month, or the last day of a month that is too short. -/
def IsSameDayClamped (d0 : Nat) (y : Int) (m d : Nat) : Prop :=
  d = d0 ∨ (d < d0 ∧ IsLastDayOfMonth y m d)

end Qlab.Spec
