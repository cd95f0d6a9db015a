import Verif.Props.Dates
import Verif.Props.Rolling
import Verif.Spec.Periods

/-!
# Rolling by a number of days, months or years (C69)

The theorems of `Verif.Props.Rolling` hold for every period; these say what the shipped periods are.
-/

namespace Qlab.Props

open Spec

/-- **C69.** With `Days(n)` the unadjusted date is the one `n` days later. -/
theorem C69_days (n : Nat) (d r : Date) (c : Calendar) :
    (Date.checkedRoll d (.days n) c .unadjusted = .ok (some r) ↔ Date.sub r d = n) ∧
    (Date.checkedRoll d (.days n) c .following = .ok (some r) ↔
      ∃ u : Date, Date.sub u d = n ∧ IsFollowing c u r) ∧
    (Date.checkedRoll d (.days n) c .preceding = .ok (some r) ↔
      ∃ u : Date, Date.sub u d = n ∧ IsPreceding c u r) := by
  have key : ∀ u, (Period.days n).checkedAdd d = .ok (some u) ↔ Date.sub u d = n := by
    intro u
    rw [← C05_add_days]
    show Rust.ok _ = _ ↔ _
    rw [Rust.ok.injEq]
  refine ⟨key r, ?_, ?_⟩
  · rw [C13_following]; simp only [key]
  · rw [C14_preceding]; simp only [key]

/-- **C69.** With `Months(n)` the unadjusted date lies `n` calendar months later, on the same day of the month or
on the last one if there is no such day. -/
theorem C69_months (n : Nat) (d r : Date) (c : Calendar) :
    (Date.checkedRoll d (.months n) c .unadjusted = .ok (some r) ↔ IsMonthsLater n d r) ∧
    (Date.checkedRoll d (.months n) c .following = .ok (some r) ↔
      ∃ u : Date, IsMonthsLater n d u ∧ IsFollowing c u r) ∧
    (Date.checkedRoll d (.months n) c .preceding = .ok (some r) ↔
      ∃ u : Date, IsMonthsLater n d u ∧ IsPreceding c u r) := by
  have key : ∀ u, (Period.months n).checkedAdd d = .ok (some u) ↔ IsMonthsLater n d u := by
    intro u
    show Rust.ok _ = _ ↔ _
    rw [Rust.ok.injEq]
    exact C07_add_months d u n
  refine ⟨key r, ?_, ?_⟩
  · rw [C13_following]; simp only [key]
  · rw [C14_preceding]; simp only [key]

/-- **C69.** With `Years(n)` (negative `n` allowed) the unadjusted date is `n` years later, 29 February becoming
28 February if needed; `n` is an `i32` and its sum with the year is too. -/
theorem C69_years (oc : Bool) (n : Int) (hn : -2147483648 ≤ n ∧ n ≤ 2147483647) (d r : Date) (c : Calendar)
    (hs : -2147483648 ≤ d.year + n ∧ d.year + n ≤ 2147483647) :
    (Date.checkedRoll d (.years oc n) c .unadjusted = .ok (some r) ↔ IsYearsLater d n r) ∧
    (Date.checkedRoll d (.years oc n) c .following = .ok (some r) ↔
      ∃ u : Date, IsYearsLater d n u ∧ IsFollowing c u r) ∧
    (Date.checkedRoll d (.years oc n) c .preceding = .ok (some r) ↔
      ∃ u : Date, IsYearsLater d n u ∧ IsPreceding c u r) := by
  have key : ∀ u, (Period.years oc n).checkedAdd d = .ok (some u) ↔ IsYearsLater d n u := by
    intro u
    show Date.checkedAddYears oc d n = _ ↔ _
    cases ho : Date.checkedAddYears oc d n with
    | panic => exact absurd ((C10_add_years_panic oc d n).1 ho).2 (not_not_intro hs)
    | ok o => rw [← C10_add_years oc d n hn o ho u, Rust.ok.injEq]
  refine ⟨key r, ?_, ?_⟩
  · rw [C13_following]; simp only [key]
  · rw [C14_preceding]; simp only [key]

/-- One month after Tuesday 31 January 2023 is Tuesday 28 February; the Saturday 25 February 2023 is rolled to
Monday the 27th. -/
example : Date.checkedRoll ⟨2023, 1, 31, by decide⟩ (.months 1) .weekendsOnly .unadjusted =
      .ok (some ⟨2023, 2, 28, by decide⟩) ∧
    IsMonthsLater 1 ⟨2023, 1, 25, by decide⟩ ⟨2023, 2, 25, by decide⟩ ∧
    IsFollowing .weekendsOnly ⟨2023, 2, 25, by decide⟩ ⟨2023, 2, 27, by decide⟩ :=
  ⟨rfl, ⟨by decide, Or.inl rfl⟩, weekendsOnly_isFollowing _ _ (by decide) (by decide) (by decide) (by decide)⟩

end Qlab.Props
