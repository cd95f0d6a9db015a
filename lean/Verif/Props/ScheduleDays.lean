import Verif.Props.Bond

/-!
# On which day of the month coupons are due (C49)
-/

namespace Qlab.Props

open Spec

theorem isDay_down {y : Int} {m d n : Nat} (h : IsDay y m d) (h1 : 1 ≤ n) (h2 : n ≤ d) : IsDay y m n := by
  rcases h with ⟨a, _, b⟩ | ⟨a, _, b⟩ | ⟨a, _, b⟩ | ⟨a, b, c⟩
  · exact .inl ⟨a, h1, by omega⟩
  · exact .inr (.inl ⟨a, h1, by omega⟩)
  · exact .inr (.inr (.inl ⟨a, h1, by omega⟩))
  · rcases Nat.lt_or_ge n 29 with h | h
    · exact .inr (.inr (.inl ⟨a, h1, by omega⟩))
    · exact .inr (.inr (.inr ⟨a, by omega, c⟩))

/-- The day after a step: the largest one not after the old day that the month has. -/
theorem step_day {s : Int} {a b : Date} (h : IsMonthsLater s a b) {n : Nat} (h1 : 1 ≤ n) :
    n ≤ b.day ↔ n ≤ a.day ∧ IsDay b.year b.month n := by
  constructor
  · intro hn
    refine ⟨?_, isDay_down b.isDay h1 hn⟩
    rcases h.2 with e | ⟨e, _⟩ <;> omega
  · rintro ⟨ha, hd⟩
    rcases h.2 with e | ⟨e, _, hl⟩
    · omega
    · by_contra hc
      exact hl (isDay_down hd (by omega) (by omega))

/-- Every six months there is the same day of the month. -/
theorem keeps_day {fy y : Int} {fm m d j : Nat} (fd : IsDay fy fm d) (e : 12 * y + m = 12 * fy + fm + 6 * j) (l1 : 1 ≤ m)
    (l2 : m ≤ 12) (m1 : 1 ≤ fm) (m12 : fm ≤ 12) (hc : d ≤ 28 ∨ (d ≤ 30 ∧ fm ≠ 2 ∧ fm ≠ 8) ∨ fm = 1 ∨ fm = 7) : IsDay y m d := by
  have hmod : (m : Int) % 6 = fm % 6 := by omega
  have hm : m = fm ∨ m = fm + 6 ∨ m + 6 = fm := by omega
  clear e
  unfold IsDay at fd ⊢
  simp only [List.mem_cons, List.not_mem_nil, or_false] at fd ⊢
  have h1 : 1 ≤ d := by omega
  have h31 : d ≤ 31 := by omega
  have : (m = 1 ∨ m = 7) ∨ (m = 2 ∨ m = 8) ∨ (m = 3 ∨ m = 9) ∨ (m = 4 ∨ m = 10) ∨ (m = 5 ∨ m = 11) ∨ (m = 6 ∨ m = 12) := by
    omega
  rcases this with h | h | h | h | h | h <;> rcases h with rfl | rfl <;> omega

/-- Otherwise some day is missing before it comes again. -/
theorem loses_day {fy : Int} {fm d : Nat} (fd : IsDay fy fm d) (m1 : 1 ≤ fm) (m12 : fm ≤ 12)
    (hc : ¬ (d ≤ 28 ∨ (d ≤ 30 ∧ fm ≠ 2 ∧ fm ≠ 8) ∨ fm = 1 ∨ fm = 7)) : ∃ j k, j ≤ k ∧ k ≤ 4 ∧
    (∀ y m, 12 * y + (m : Nat) = 12 * fy + fm + 6 * (k : Nat) → 1 ≤ m → m ≤ 12 → IsDay y m d) ∧
    (∀ y m, 12 * y + (m : Nat) = 12 * fy + fm + 6 * (j : Nat) → 1 ≤ m → m ≤ 12 → ¬ IsDay y m d) := by
  have day : ∀ {y : Int} {m n : Nat}, IsDay y m n ↔ ((m = 1 ∨ m = 3 ∨ m = 5 ∨ m = 7 ∨ m = 8 ∨ m = 10 ∨ m = 12) ∧ 1 ≤ n ∧ n ≤ 31) ∨
      ((m = 4 ∨ m = 6 ∨ m = 9 ∨ m = 11) ∧ 1 ≤ n ∧ n ≤ 30) ∨ (m = 2 ∧ 1 ≤ n ∧ n ≤ 28) ∨ (m = 2 ∧ n = 29 ∧ IsLeapYear y) := by
    intro y m n
    unfold IsDay
    simp only [List.mem_cons, List.not_mem_nil, or_false]
  have leap : ∀ y : Int, IsLeapYear y → ¬ IsLeapYear (y + 1) := by
    rintro y ⟨h, _⟩ ⟨h', _⟩
    omega
  rw [day] at fd
  rcases (by omega : (d = 31 ∧ (fm = 3 ∨ fm = 5 ∨ fm = 8 ∨ fm = 10 ∨ fm = 12)) ∨ (d = 30 ∧ fm = 8) ∨ (d = 29 ∧ fm = 8) ∨
    (d = 29 ∧ fm = 2)) with ⟨rfl, h⟩ | ⟨rfl, rfl⟩ | ⟨rfl, rfl⟩ | ⟨rfl, rfl⟩
  · refine ⟨1, 2, by omega, by omega, fun y m e l1 l2 => ?_, fun y m e l1 l2 => ?_⟩
    · rw [day]; omega
    · rw [day]; omega
  · refine ⟨1, 2, by omega, by omega, fun y m e l1 l2 => ?_, fun y m e l1 l2 => ?_⟩
    · rw [day]; omega
    · rw [day]; omega
  · by_cases hl : IsLeapYear (fy + 1)
    · refine ⟨3, 4, by omega, by omega, fun y m e l1 l2 => ?_, fun y m e l1 l2 => ?_⟩
      · rw [day]; omega
      · rw [day]
        have hy : y = fy + 1 + 1 := by omega
        have := leap _ hl
        rw [← hy] at this
        rintro (h | h | h | h)
        · omega
        · omega
        · omega
        · exact this h.2.2
    · refine ⟨1, 2, by omega, by omega, fun y m e l1 l2 => ?_, fun y m e l1 l2 => ?_⟩
      · rw [day]; omega
      · rw [day]
        have hy : y = fy + 1 := by omega
        rw [← hy] at hl
        rintro (h | h | h | h)
        · omega
        · omega
        · omega
        · exact hl h.2.2
  · have hl : IsLeapYear fy := by
      rcases fd with h | h | h | h
      · omega
      · omega
      · omega
      · exact h.2.2
    refine ⟨2, 3, by omega, by omega, fun y m e l1 l2 => ?_, fun y m e l1 l2 => ?_⟩
    · rw [day]; omega
    · rw [day]
      have hy : y = fy + 1 := by omega
      have := leap _ hl
      rw [← hy] at this
      rintro (h | h | h | h)
      · omega
      · omega
      · omega
      · exact this h.2.2

section
variable {V : Type} [Add V] [Mul V] [Div V] [FromInt V] {id : String} {issue first pen mat : Date} {f : Frequency}
  {rate face : V} {b : Bond V}

/-- **C49.** The `k`-th coupon is due on the largest day, not after that of the first, which the months of all coupons up to
it have.  Missing for the full property: the months before it do not matter, which is false. -/
theorem C49_day_partial (h : Bond.new id issue first pen mat f rate face = .ok (some b)) (k : Nat)
    (hk : k + 1 < b.bondCashFlows.length) (n : Nat) (h1 : 1 ≤ n) :
    n ≤ b.bondCashFlows[k].dueDate.day ↔ n ≤ first.day ∧ ∀ j, (hj : j ≤ k) →
      IsDay b.bondCashFlows[j].dueDate.year b.bondCashFlows[j].dueDate.month n := by
  obtain ⟨coupons, final, hb, hs, _, _⟩ := C48_schedule h
  have key : ∀ (l : List Date) (first : Date), IsSchedule 6 first pen l → ∀ k, (hk : k < l.length) →
      (n ≤ l[k].day ↔ n ≤ first.day ∧ ∀ j, (hj : j ≤ k) → IsDay l[j].year l[j].month n) := by
    intro l
    induction l with
    | nil => intro first _ k hk; simp at hk
    | cons d l ih =>
      intro first hs k hk
      obtain rfl := hs.start d rfl
      cases k with
      | zero =>
        constructor
        · intro hn
          refine ⟨hn, fun j hj => ?_⟩
          obtain rfl : j = 0 := by omega
          exact isDay_down d.isDay h1 hn
        · exact fun hn => hn.1
      | succ k =>
        obtain ⟨next, hnext, hsn⟩ := hs.tail
        have hk' : k < l.length := by simpa using hk
        have hl0 : l[0] = next := hsn.start _ (by rw [List.head?_eq_getElem?, List.getElem?_eq_getElem])
        simp only [List.getElem_cons_succ]
        rw [ih next hsn k hk', step_day hnext h1]
        constructor
        · rintro ⟨⟨a, _⟩, c⟩
          refine ⟨a, fun j hj => ?_⟩
          cases j with
          | zero => exact isDay_down d.isDay h1 a
          | succ j => exact c j (by omega)
        · rintro ⟨a, c⟩
          refine ⟨⟨a, ?_⟩, fun j hj => c (j + 1) (by omega)⟩
          have := c 1 (by omega)
          simp only [List.getElem_cons_succ] at this
          rwa [hl0] at this
  have hlen : b.bondCashFlows.length = coupons.length + 1 := by rw [hb]; simp
  have hkc : k < (coupons.map (·.dueDate)).length := by simp; omega
  have hget : ∀ j, (hj : j < coupons.length) → b.bondCashFlows[j].dueDate =
      (coupons.map (·.dueDate))[j]'(by simpa using hj) := by
    intro j hj
    simp only [hb, List.getElem_map]
    rw [List.getElem_append_left hj]
  rw [hget k (by omega), key _ first hs k hkc]
  refine and_congr_right fun _ => forall_congr' fun j => forall_congr' fun hj => ?_
  rw [hget j (by omega)]

/-- **C49.** A coupon is due on the anchored date exactly when the months of all coupons before it have that day too. -/
theorem C49_anchored_iff_partial (h : Bond.new id issue first pen mat f rate face = .ok (some b)) (k : Nat)
    (hk : k + 1 < b.bondCashFlows.length) (due : Date) (hdue : Date.checkedAddMonths first (6 * k) = some due) :
    b.bondCashFlows[k].dueDate = due ↔ ∀ j, (hj : j ≤ k) →
      IsDay b.bondCashFlows[j].dueDate.year b.bondCashFlows[j].dueDate.month due.day := by
  have hd1 : 1 ≤ due.day := by rcases due.isDay with h | h | h | h <;> omega
  have hday := C49_day_partial h k hk due.day hd1
  have hm := (C49_month_partial h k hk).1
  have hm' := (C07_add_months _ _ _).1 hdue
  have hle : due.day ≤ first.day := by rcases hm'.2 with e | ⟨e, _⟩ <;> omega
  constructor
  · intro e
    exact (hday.1 (by rw [e])).2
  · intro hj
    have hge := hday.2 ⟨hle, hj⟩
    rcases eq_or_lt_of_le ((C49_month_partial h k hk).2.2 due hdue) with e | e
    · exact e
    · rw [lt_iff_monthNumber, hm, hm'.1] at e
      push_cast at e
      omega

/-- **C49.** All coupons are due on the anchored dates if the day of the first one is at most the 28th, or at most the 30th
and not in February or August, or in January or July; and in a bond of five coupons or more only then.  Missing for the
full property: the other days. -/
theorem C49_months_iff_partial (h : Bond.new id issue first pen mat f rate face = .ok (some b)) :
    ((first.day ≤ 28 ∨ (first.day ≤ 30 ∧ first.month ≠ 2 ∧ first.month ≠ 8) ∨ first.month = 1 ∨ first.month = 7) →
      ∀ k due, (hk : k + 1 < b.bondCashFlows.length) → Date.checkedAddMonths first (6 * k) = some due →
        b.bondCashFlows[k].dueDate = due) ∧
    (6 ≤ b.bondCashFlows.length →
      (∀ k due, (hk : k + 1 < b.bondCashFlows.length) → Date.checkedAddMonths first (6 * k) = some due →
        b.bondCashFlows[k].dueDate = due) →
      first.day ≤ 28 ∨ (first.day ≤ 30 ∧ first.month ≠ 2 ∧ first.month ≠ 8) ∨ first.month = 1 ∨ first.month = 7) := by
  have fd := first.isDay
  have m1 := first.month_pos
  have m12 := first.month_le
  -- year and month of each coupon
  have ym : ∀ k, (hk : k + 1 < b.bondCashFlows.length) →
      12 * b.bondCashFlows[k].dueDate.year + b.bondCashFlows[k].dueDate.month = 12 * first.year + first.month + 6 * k ∧
      1 ≤ b.bondCashFlows[k].dueDate.month ∧ b.bondCashFlows[k].dueDate.month ≤ 12 := by
    intro k hk
    have := (C49_month_partial h k hk).1
    unfold monthNumber at this
    exact ⟨by omega, b.bondCashFlows[k].dueDate.month_pos, b.bondCashFlows[k].dueDate.month_le⟩
  constructor
  · intro hc k due hk hdue
    rw [C49_anchored_iff_partial h k hk due hdue]
    intro j hj
    have hm' := (C07_add_months _ _ _).1 hdue
    have hle : due.day ≤ first.day := by rcases hm'.2 with e | ⟨e, _⟩ <;> omega
    have hd1 : 1 ≤ due.day := by rcases due.isDay with h | h | h | h <;> omega
    refine isDay_down (d := first.day) ?_ hd1 hle
    obtain ⟨e, l1, l2⟩ := ym j (by omega)
    exact keeps_day fd e l1 l2 m1 m12 hc
  · intro hlen ha
    by_contra hc
    obtain ⟨j, k, hjk, hk4, h1, h2⟩ := loses_day fd m1 m12 hc
    have hk : k + 1 < b.bondCashFlows.length := by omega
    cases hdue : Date.checkedAddMonths first (6 * k) with
    | none =>
      rw [C07_add_months_none, show monthNumber 262142 12 = 3145715 by decide] at hdue
      have hm := (C49_month_partial h k hk).1
      have hb := (monthNumber_bounds b.bondCashFlows[k].dueDate).2
      rw [hm] at hb
      push_cast at hdue
      exact absurd hb (not_le.2 hdue)
    | some due =>
      obtain ⟨hm, hd⟩ := (C07_add_months _ _ _).1 hdue
      have hday : due.day = first.day := by
        rcases hd with e | ⟨e, hl⟩
        · exact e
        · unfold monthNumber at hm
          push_cast at hm
          have hm : 12 * due.year + due.month = 12 * first.year + first.month + 6 * (k : Nat) := by linarith
          exact absurd (isDay_down (h1 due.year due.month hm due.month_pos due.month_le)
            (Nat.succ_le_succ (Nat.zero_le _)) e) hl.2
      have := (C49_anchored_iff_partial h k hk due hdue).1 (ha k due hk hdue) j hjk
      rw [hday] at this
      obtain ⟨e, l1, l2⟩ := ym j (by omega)
      exact h2 _ _ e l1 l2 this

end

/-- The first coupon on 31 January 2023: all coupons are due on the 31st. -/
example : ∃ b : Bond ℚ, Bond.new "" ⟨2022, 7, 31, by decide⟩ ⟨2023, 1, 31, by decide⟩ ⟨2025, 7, 31, by decide⟩
    ⟨2026, 1, 31, by decide⟩ .sa 1 1 = .ok (some b) ∧ ∀ k due, (hk : k + 1 < b.bondCashFlows.length) →
      Date.checkedAddMonths ⟨2023, 1, 31, by decide⟩ (6 * k) = some due → b.bondCashFlows[k].dueDate = due := by
  obtain ⟨b, hb⟩ := C51_in_range_partial (K := ℚ) (id := "") (issue := ⟨2022, 7, 31, by decide⟩)
    (first := ⟨2023, 1, 31, by decide⟩) (pen := ⟨2025, 7, 31, by decide⟩) (mat := ⟨2026, 1, 31, by decide⟩) (f := .sa)
    (rate := 1) (face := 1) (by decide) (by decide) (by decide)
  exact ⟨b, hb, (C49_months_iff_partial hb).1 (by decide)⟩

/-- The first coupon on 29 August 2023: the one of February 2025 is due on the 28th, and that of August 2025 as well. -/
example : ∃ b : Bond ℚ, Bond.new "" ⟨2023, 2, 28, by decide⟩ ⟨2023, 8, 29, by decide⟩ ⟨2026, 8, 29, by decide⟩
    ⟨2027, 2, 28, by decide⟩ .sa 1 1 = .ok (some b) ∧ 6 ≤ b.bondCashFlows.length ∧ ¬ ∀ k due,
      (hk : k + 1 < b.bondCashFlows.length) → Date.checkedAddMonths ⟨2023, 8, 29, by decide⟩ (6 * k) = some due →
      b.bondCashFlows[k].dueDate = due := by
  obtain ⟨b, hb⟩ := C51_in_range_partial (K := ℚ) (id := "") (issue := ⟨2023, 2, 28, by decide⟩)
    (first := ⟨2023, 8, 29, by decide⟩) (pen := ⟨2026, 8, 29, by decide⟩) (mat := ⟨2027, 2, 28, by decide⟩) (f := .sa)
    (rate := 1) (face := 1) (by decide) (by decide) (by decide)
  have h6 : 6 ≤ b.bondCashFlows.length := by
    by_contra hc
    obtain ⟨coupons, final, he, hs, _⟩ := C48_schedule hb
    have hne : coupons.map (·.dueDate) ≠ [] := fun h => absurd (hs.empty.1 h) (by decide)
    have hlen : b.bondCashFlows.length = coupons.length + 1 := by rw [he]; simp
    have hpos : 0 < coupons.length := List.length_pos_iff.2 fun h => hne (by rw [h]; rfl)
    have hlast : (coupons.map (·.dueDate)).getLast? = some b.bondCashFlows[coupons.length - 1].dueDate := by
      rw [List.getLast?_eq_getElem?]
      simp only [he, List.length_map, List.getElem?_map]
      rw [List.getElem?_eq_getElem (by omega), List.getElem_append_left (by omega)]
      rfl
    obtain ⟨next, hn, hp⟩ := hs.complete _ hlast
    have hm := (C49_month_partial hb (coupons.length - 1) (by omega)).1
    have hn := hn.1
    rw [hm, show monthNumber (⟨2023, 8, 29, by decide⟩ : Date).year (⟨2023, 8, 29, by decide⟩ : Date).month = 24283 by decide]
      at hn
    rw [lt_iff_monthNumber, hn,
      show monthNumber (⟨2026, 8, 29, by decide⟩ : Date).year (⟨2026, 8, 29, by decide⟩ : Date).month = 24319 by decide] at hp
    omega
  exact ⟨b, hb, h6, fun ha => absurd ((C49_months_iff_partial hb).2 h6 ha) (by decide)⟩

end Qlab.Props
