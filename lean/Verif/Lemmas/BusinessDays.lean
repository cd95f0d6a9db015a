import Verif.Spec.BusinessDays
import Verif.Lemmas.Rolling
import Mathlib.Tactic.Linarith

/-! # Helper lemmas for business-day counting -/

namespace Qlab

open Spec

theorem crashes_or (c : Calendar) (d : Date) : Open c d ∨ Closed c d ∨ Crashes c d := by
  unfold Open Closed Crashes
  cases h : c.isBusinessDay d with
  | panic => simp
  | ok b => cases b <;> simp

theorem openDays_empty (c : Calendar) (lo : Int) : openDays c lo lo = 0 := by
  simp [openDays]

theorem openDays_head (c : Calendar) (d : Date) (hi : Int) (h : Date.serialDate d < hi) :
    (Open c d → openDays c (Date.serialDate d) hi = openDays c (Date.serialDate d + 1) hi + 1) ∧
    (¬ Open c d → openDays c (Date.serialDate d) hi = openDays c (Date.serialDate d + 1) hi) := by
  classical
  have hI : Finset.Ico (Date.serialDate d) hi = insert (Date.serialDate d) (Finset.Ico (Date.serialDate d + 1) hi) := by
    ext s; simp only [Finset.mem_Ico, Finset.mem_insert]; omega
  unfold openDays
  rw [hI, Finset.filter_insert]
  have hiff : (∃ d' : Date, Date.serialDate d' = Date.serialDate d ∧ Open c d') ↔ Open c d := by
    constructor
    · rintro ⟨d', h1, h2⟩; rwa [← NaiveDate.serial_inj h1]
    · intro h; exact ⟨d, rfl, h⟩
  rw [hiff]
  constructor
  · intro ho
    rw [if_pos ho, Finset.card_insert_of_notMem]
    simp
  · intro ho
    rw [if_neg ho]

/-- The counting loop adds the number of open days. -/
theorem countBusinessDays_eq (c : Calendar) : ∀ (n : Nat) (d : Date) (acc : Int),
    Date.serialDate d + n ≤ 95745399 → AnswersOn c (Date.serialDate d) (Date.serialDate d + n) →
    c.countBusinessDays n d acc = .ok (acc + openDays c (Date.serialDate d) (Date.serialDate d + n)) := by
  intro n
  induction n with
  | zero => intro d acc _ _; simp [Calendar.countBusinessDays, openDays_empty]
  | succ n ih =>
    intro d acc hle hans
    unfold Date.serialDate at hle
    obtain ⟨d', hd', hs⟩ := ofDays_isSome (d.numDaysFromCe + 1) (by have := d.serial_ge; omega) (by omega)
    have hsucc : NaiveDate.succOpt d = some d' := NaiveDate.succOpt_eq_some.2 hs
    unfold Calendar.countBusinessDays
    rw [hsucc]
    simp only
    have hans' : AnswersOn c (Date.serialDate d') (Date.serialDate d' + n) := by
      intro x h1 h2
      unfold Date.serialDate at h1 h2
      exact hans x (by unfold Date.serialDate; omega) (by unfold Date.serialDate; omega)
    have hd : ¬ Crashes c d := hans d (by omega) (by omega)
    have hhead := openDays_head c d (Date.serialDate d + ((n + 1 : Nat) : Int)) (by omega)
    have hser : Date.serialDate d' = Date.serialDate d + 1 := hs
    have hend : Date.serialDate d' + (n : Int) = Date.serialDate d + ((n + 1 : Nat) : Int) := by omega
    rcases crashes_or c d with h | h | h
    · have e : c.isBusinessDay d = .ok true := h
      rw [e]; simp only [Rust.ok_bind, if_true]
      rw [ih d' (acc + 1) (by unfold Date.serialDate; omega) hans', hend, hser, hhead.1 h]
      simp; omega
    · have e : c.isBusinessDay d = .ok false := h
      rw [e]; simp only [Rust.ok_bind, Bool.false_eq_true, if_false]
      rw [ih d' acc (by unfold Date.serialDate; omega) hans', hend, hser, hhead.2 (fun ho => open_not_closed ho h)]
    · exact absurd h hd

/-- A crash inside the counted interval is a crash of the loop. -/
theorem countBusinessDays_ok (c : Calendar) : ∀ (n : Nat) (d : Date) (acc k : Int),
    Date.serialDate d + n ≤ 95745399 → c.countBusinessDays n d acc = .ok k →
    AnswersOn c (Date.serialDate d) (Date.serialDate d + n) := by
  intro n
  induction n with
  | zero => intro d acc k _ _ x h1 h2; omega
  | succ n ih =>
    intro d acc k hle h x h1 h2
    unfold Date.serialDate at hle
    obtain ⟨d', hd', hs⟩ := ofDays_isSome (d.numDaysFromCe + 1) (by have := d.serial_ge; omega) (by omega)
    have hsucc : NaiveDate.succOpt d = some d' := NaiveDate.succOpt_eq_some.2 hs
    unfold Calendar.countBusinessDays at h
    rw [hsucc] at h
    simp only at h
    rw [Rust.bind_eq_ok] at h
    obtain ⟨b, hb, hrest⟩ := h
    by_cases hx : x = d
    · subst hx; unfold Crashes; rw [hb]; simp
    · have hne : Date.serialDate x ≠ Date.serialDate d := fun e => hx (NaiveDate.serial_inj e)
      have hser : Date.serialDate d' = Date.serialDate d + 1 := hs
      exact ih d' _ k (by unfold Date.serialDate; omega) hrest x (by omega) (by omega)

end Qlab
