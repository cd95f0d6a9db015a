import Verif.Spec.Calendars
import Verif.Lemmas.UnfoldCalendars
import Verif.Lemmas.Easter

/-! # Helper lemmas and tactics for the shipped calendars -/

namespace Qlab

open Spec

theorem ite_ok {α : Type} (c : Prop) [Decidable c] (a b : α) :
    (if c then Rust.ok a else Rust.ok b) = Rust.ok (if c then a else b) := by
  split <;> rfl

set_option hygiene false in
macro "cases_market" : tactic =>
  `(tactic| (all_goals (try (rename_i market; cases market <;> try (rename_i market; cases market)))))

theorem isWeekend_of_saturdayOrSunday {d : Date} (h : IsSaturdayOrSunday d) : isWeekend d = true := by
  rcases h with h | h <;> simp [isWeekend, h]

end Qlab
