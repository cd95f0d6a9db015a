import Verif.Spec.Display
import Verif.Lemmas.Date
import Verif.Lemmas.DateOrder
import Mathlib.Data.Nat.Digits.Defs
import Mathlib.Data.String.Basic

/-! # Text of a date (C55) -/

namespace Qlab.Props
open Qlab.Spec

/-- One decimal digit. -/
theorem digit_facts : ∀ k : Fin 10, (Char.ofNat (48 + k)).isDigit = true ∧ (Char.ofNat (48 + k)).toNat = 48 + k := by
  decide

theorem digit_lt : ∀ j k : Fin 10, Char.ofNat (48 + j) < Char.ofNat (48 + k) ↔ j < k := by decide

theorem digit_eq : ∀ j k : Fin 10, Char.ofNat (48 + j) = Char.ofNat (48 + k) ↔ j = k := by decide

theorem isDigits_twoDigits {n : Nat} (h : n < 100) : IsDigits 2 n (Date.twoDigits n) := by
  have h1 := digit_facts ⟨n / 10 % 10, by omega⟩
  have h2 := digit_facts ⟨n % 10, by omega⟩
  simp only at h1 h2
  refine ⟨rfl, ?_, ?_⟩
  · simp [Date.twoDigits, h1.1, h2.1]
  · simp only [Date.twoDigits, Nat.ofDigitChars_cons, Nat.ofDigitChars_nil, h1.2, h2.2]
    have : ('0').toNat = 48 := rfl
    omega

theorem twoDigits_lt {m n : Nat} (hm : m < 100) (hn : n < 100) (s t : List Char) :
    Date.twoDigits m ++ s < Date.twoDigits n ++ t ↔ m < n ∨ (m = n ∧ s < t) := by
  have h1 := digit_lt ⟨m / 10 % 10, by omega⟩ ⟨n / 10 % 10, by omega⟩
  have h2 := digit_lt ⟨m % 10, by omega⟩ ⟨n % 10, by omega⟩
  have h3 := digit_eq ⟨m / 10 % 10, by omega⟩ ⟨n / 10 % 10, by omega⟩
  have h4 := digit_eq ⟨m % 10, by omega⟩ ⟨n % 10, by omega⟩
  simp only [Fin.mk_lt_mk, Fin.mk.injEq] at h1 h2 h3 h4
  simp only [Date.twoDigits, List.cons_append, List.nil_append, List.cons_lt_cons_iff, h1, h2, h3, h4]
  constructor
  · rintro (h | ⟨h, h' | ⟨h', hs⟩⟩)
    · left; omega
    · left; omega
    · right; exact ⟨by omega, hs⟩
  · rintro (h | ⟨h, hs⟩)
    · omega
    · right; exact ⟨by omega, .inr ⟨by omega, hs⟩⟩

theorem month_lt_100 (d : Date) : d.month < 100 := by have := d.month_le; omega

theorem day_lt_100 (d : Date) : d.day < 100 := by
  have h := d.day_le
  have : ∀ b m, monthLen b m ≤ 31 := by
    intro b m
    unfold monthLen
    split <;> (try split) <;> omega
  have := this (isLeap d.year) d.month
  omega

/-- Four digits written as two pairs. -/
theorem isDigits_year {n : Nat} (h : n < 10000) :
    IsDigits 4 n (Date.twoDigits (n / 100) ++ Date.twoDigits (n % 100)) := by
  obtain ⟨a1, a2, a3⟩ := isDigits_twoDigits (n := n / 100) (by omega)
  obtain ⟨b1, b2, b3⟩ := isDigits_twoDigits (n := n % 100) (by omega)
  refine ⟨rfl, ?_, ?_⟩
  · intro c hc
    rcases List.mem_append.1 hc with h | h
    · exact a2 c h
    · exact b2 c h
  · rw [Nat.ofDigitChars_append, a3, Nat.ofDigitChars_eq_ofDigitChars_zero, b3, b1]
    omega

/-- **C55.** Years 0 to 9999 display as the ten characters `YYYY-MM-DD`. -/
theorem C55_iso (d : Date) (h0 : 0 ≤ d.year) (h1 : d.year ≤ 9999) :
    IsIsoText d (Date.display d) ∧ (Date.display d).length = 10 := by
  constructor
  · refine ⟨_, _, _, ?_, isDigits_year (by omega), isDigits_twoDigits (month_lt_100 d), isDigits_twoDigits (day_lt_100 d)⟩
    rw [Date.display, String.toList_ofList, Date.displayChars]
    simp [h0, h1]
  · rw [← String.length_toList, Date.display, String.toList_ofList, Date.displayChars]
    simp [h0, h1, Date.twoDigits]

example : IsIsoText ⟨7, 12, 31, by decide⟩ (Date.display ⟨7, 12, 31, by decide⟩) :=
  (C55_iso _ (by decide) (by decide)).1

/-- **C55.** For years 0 to 9999 the order of the texts is the order of the dates. -/
theorem C55_order (a b : Date) (ha : 0 ≤ a.year ∧ a.year ≤ 9999) (hb : 0 ≤ b.year ∧ b.year ≤ 9999) :
    Date.display a < Date.display b ↔ a < b := by
  have ma := month_lt_100 a
  have mb := month_lt_100 b
  have da := day_lt_100 a
  have db := day_lt_100 b
  have hsing : ∀ m n : Nat, m < 100 → n < 100 → (Date.twoDigits m < Date.twoDigits n ↔ m < n) := by
    intro m n hm hn
    have := twoDigits_lt hm hn [] []
    simpa using this
  rw [String.lt_iff, Date.display, Date.display, String.toList_ofList, String.toList_ofList, Date.displayChars,
    Date.displayChars]
  simp only [ha, hb, and_self, if_true, List.append_assoc, List.cons_append]
  rw [twoDigits_lt (by omega) (by omega), twoDigits_lt (by omega) (by omega), List.cons_lt_cons_iff,
    twoDigits_lt ma mb, List.cons_lt_cons_iff, hsing _ _ da db, NaiveDate.lt_iff]
  simp only [lt_irrefl, false_or, true_and]
  omega

example : Date.display ⟨7, 12, 31, by decide⟩ < Date.display ⟨2023, 5, 8, by decide⟩ :=
  (C55_order _ _ (by decide) (by decide)).2 (by decide)

/-- **C55.** Outside those years the text is a sign, the year in at least four digits, and the month and day. -/
theorem C55_expanded (d : Date) (h : d.year < 0 ∨ 9999 < d.year) :
    ∃ y m t, (Date.display d).toList = (if d.year < 0 then '-' else '+') :: (y ++ ['-'] ++ m ++ ['-'] ++ t) ∧
      4 ≤ y.length ∧ Nat.ofDigitChars 10 y 0 = d.year.natAbs ∧ (∀ c ∈ y, c.isDigit) ∧
      IsDigits 2 d.month m ∧ IsDigits 2 d.day t := by
  have hn : ¬ (0 ≤ d.year ∧ d.year ≤ 9999) := by omega
  refine ⟨List.replicate (4 - (Nat.toDigits 10 d.year.natAbs).length) '0' ++ Nat.toDigits 10 d.year.natAbs, _, _, ?_,
    ?_, ?_, ?_, isDigits_twoDigits (month_lt_100 d), isDigits_twoDigits (day_lt_100 d)⟩
  · rw [Date.display, String.toList_ofList, Date.displayChars]
    simp only [hn, if_false, List.append_assoc, List.cons_append, List.nil_append]
  · simp only [List.length_append, List.length_replicate]
    omega
  · rw [Nat.ofDigitChars_append, Nat.ofDigitChars_replicate_zero, Nat.mul_zero,
      Nat.ofDigitChars_toDigits (by norm_num) (by norm_num)]
  · intro c hc
    rcases List.mem_append.1 hc with h | h
    · rw [(List.mem_replicate.1 h).2]
      rfl
    · exact Nat.isDigit_of_mem_toDigits (by norm_num) (by norm_num) h

example := C55_expanded ⟨10000, 1, 1, by decide⟩ (by decide)

/-- **C55.** Different dates display differently, over all years. -/
theorem C55_injective (a b : Date) (h : Date.display a = Date.display b) : a = b := by
  have split : ∀ d : Date, ∃ y, (Date.display d).toList = y ++ (['-'] ++ Date.twoDigits d.month ++ ['-'] ++
      Date.twoDigits d.day) ∧ ((0 ≤ d.year ∧ IsDigits 4 d.year.toNat y) ∨
        ∃ z, y = (if d.year < 0 then '-' else '+') :: z ∧ Nat.ofDigitChars 10 z 0 = d.year.natAbs) := by
    intro d
    by_cases hd : 0 ≤ d.year ∧ d.year ≤ 9999
    · refine ⟨_, ?_, .inl ⟨hd.1, isDigits_year (by omega)⟩⟩
      rw [Date.display, String.toList_ofList, Date.displayChars]
      simp [hd]
    · refine ⟨(if d.year < 0 then '-' else '+') :: (List.replicate (4 - (Nat.toDigits 10 d.year.natAbs).length) '0' ++
        Nat.toDigits 10 d.year.natAbs), ?_, .inr ⟨_, rfl, ?_⟩⟩
      · rw [Date.display, String.toList_ofList, Date.displayChars]
        simp only [hd, if_false, List.append_assoc, List.cons_append, List.nil_append]
      · rw [Nat.ofDigitChars_append, Nat.ofDigitChars_replicate_zero, Nat.mul_zero,
          Nat.ofDigitChars_toDigits (by norm_num) (by norm_num)]
  have two : ∀ m n : Nat, m < 100 → n < 100 → Date.twoDigits m = Date.twoDigits n → m = n := by
    intro m n hm hn he
    rw [← (isDigits_twoDigits hm).2.2, ← (isDigits_twoDigits hn).2.2, he]
  have sgn : ∀ c : Char, c.isDigit = true → ∀ p : Prop, [Decidable p] → c ≠ if p then '-' else '+' := by
    intro c hc p _ he
    split at he <;> (subst he; revert hc; decide)
  obtain ⟨ya, ea, ha⟩ := split a
  obtain ⟨yb, eb, hb⟩ := split b
  rw [h, eb] at ea
  obtain ⟨e1, e2⟩ := List.append_inj' ea (by simp [Date.twoDigits])
  obtain ⟨e3, e4⟩ := List.append_inj e2 (by simp [Date.twoDigits])
  obtain ⟨e5, _⟩ := List.append_inj e3 (by simp [Date.twoDigits])
  have hm := two _ _ (month_lt_100 b) (month_lt_100 a) (List.append_inj e5 rfl).2
  have hd := two _ _ (day_lt_100 b) (day_lt_100 a) e4
  subst e1
  have hy : a.year = b.year := by
    rcases ha with ⟨a0, a1, a2, a3⟩ | ⟨z, a1, a2⟩ <;> rcases hb with ⟨b0, b1, b2, b3⟩ | ⟨w, b1, b2⟩
    · omega
    · exact absurd rfl (sgn _ (a2 _ (b1 ▸ List.mem_cons_self)) _)
    · exact absurd rfl (sgn _ (b2 _ (a1 ▸ List.mem_cons_self)) _)
    · rw [a1] at b1
      obtain ⟨s1, s2⟩ := List.cons.inj b1
      subst s2
      split at s1 <;> split at s1 <;> first
        | omega
        | exact absurd s1 (by decide)
  cases a; cases b
  simp_all

/-! ### Concrete texts -/

example : Date.display ⟨2023, 5, 8, by decide⟩ = "2023-05-08" := by decide
example : Date.display ⟨7, 12, 31, by decide⟩ = "0007-12-31" := by decide
example : Date.display ⟨-1, 1, 1, by decide⟩ = "-0001-01-01" := by decide
example : Date.display ⟨10000, 1, 1, by decide⟩ = "+10000-01-01" := by decide

/-- The order theorem does not extend: year 10000 sorts before year 9999. -/
example : Date.display ⟨10000, 1, 1, by decide⟩ < Date.display ⟨9999, 1, 1, by decide⟩ ∧
    (⟨9999, 1, 1, by decide⟩ : Date) < ⟨10000, 1, 1, by decide⟩ := by decide

end Qlab.Props
