import Verif.Spec.Calendars

/-!
# Specification of holidays

The vocabulary in which the holidays of a country are usually described: a fixed date, a date moved to
another day when it falls on certain weekdays, "third Monday of January", "last Monday of May", a feast at a
fixed distance from Easter, single closings, and restrictions to certain years.  `Holiday.Falls` says on
which dates each of them falls, in terms of the dates of the model and nothing else.
-/

namespace Qlab.Spec

/-- A description of a holiday. -/
inductive Holiday where
  /-- Day `d` of month `m`. -/
  | on (m d : Nat)
  /-- `k` days after day `d` of month `m`, in the years in which that day falls on one of the weekdays. -/
  | moved (m d : Nat) (weekdays : List Weekday) (k : Int)
  /-- The `n`-th weekday `w` of month `m`. -/
  | nth (n : Nat) (w : Weekday) (m : Nat)
  /-- The last weekday `w` of month `m`. -/
  | last (w : Weekday) (m : Nat)
  /-- The first weekday `w` on or after day `d` of month `m`. -/
  | firstFrom (w : Weekday) (m d : Nat)
  /-- `k` days after Easter Sunday. -/
  | easter (k : Int)
  /-- `k` days after Orthodox Easter Sunday. -/
  | orthodoxEaster (k : Int)
  /-- All days from day `a` to day `b` of month `m`. -/
  | span (m a b : Nat)
  /-- Single days (month, day) of year `y`. -/
  | dates (y : Int) (days : List (Nat × Nat))
  /-- Every weekday `w` of year `y` from day `d` of month `m` on. -/
  | weekly (w : Weekday) (y : Int) (m d : Nat)
  /-- From year `y` on. -/
  | since (y : Int) (h : Holiday)
  /-- Up to and including year `y`. -/
  | till (y : Int) (h : Holiday)
  /-- Only in the listed years. -/
  | only (years : List Int) (h : Holiday)
  /-- Not in the listed years. -/
  | except (years : List Int) (h : Holiday)

/-- The first day of the month of `x` is `f`. -/
def IsFirstOfMonthOf (x f : Date) : Prop := SameMonth f x ∧ f.day = 1

/-- The holiday falls on `x`. -/
def Holiday.Falls : Holiday → Date → Prop
  | .on m d, x => x.month = m ∧ x.day = d
  | .moved m d ws k, x => ∃ e : Date, e.month = m ∧ e.day = d ∧ e.weekday ∈ ws ∧ Date.sub x e = k
  | .nth n w m, x => x.month = m ∧ ∃ f e : Date, IsFirstOfMonthOf x f ∧
      IsFirstOnOrAfter (fun z => z.weekday = w) f e ∧ Date.sub x e = 7 * ((n : Int) - 1)
  | .last w m, x => x.month = m ∧ x.weekday = w ∧ ∀ e : Date, SameMonth e x → e.weekday = w → e ≤ x
  | .firstFrom w m d, x => ∃ f : Date, f.month = m ∧ f.day = d ∧
      IsFirstOnOrAfter (fun z => z.weekday = w) f x
  | .easter k, x => DaysFromEaster x k
  | .orthodoxEaster k, x => DaysFromOrthodoxEaster x k
  | .span m a b, x => x.month = m ∧ a ≤ x.day ∧ x.day ≤ b
  | .dates y l, x => x.year = y ∧ (x.month, x.day) ∈ l
  | .weekly w y m d, x => x.weekday = w ∧ x.year = y ∧ (m < x.month ∨ (x.month = m ∧ d ≤ x.day))
  | .since y h, x => y ≤ x.year ∧ h.Falls x
  | .till y h, x => x.year ≤ y ∧ h.Falls x
  | .only ys h, x => x.year ∈ ys ∧ h.Falls x
  | .except ys h, x => x.year ∉ ys ∧ h.Falls x

/-- Some holiday of the list falls on `x`. -/
def HolidayOn (l : List Holiday) (x : Date) : Prop := ∃ h ∈ l, h.Falls x

/-- Ascension Day: the Thursday 39 days after Easter Sunday. -/
def IsAscension (d : Date) : Prop := DaysFromEaster d 39

/-- Whit Monday: 50 days after Easter Sunday. -/
def IsWhitMonday (d : Date) : Prop := DaysFromEaster d 50

/-- Election day in the United States: the Tuesday after the first Monday of November. -/
def IsElectionDay (d : Date) : Prop := ∃ e : Date, (Holiday.nth 1 .Mon 11).Falls e ∧ Date.sub d e = 1

end Qlab.Spec
