import Verif.Props.BondValue

/-!
# Exactly when the modified conventions and the flows in a price are right (C15, C62, C65)
-/

namespace Qlab.Props

open Spec

/-! ## C15 -/

/-- A closed day has its following and its preceding business day on different sides. -/
theorem preceding_ne_following {c : Calendar} {u f g : Date} (hu : ¬ Open c u) (hf : IsFollowing c u f)
    (hg : IsPreceding c u g) : g ≠ f := by
  rintro rfl
  obtain rfl : g = u := le_antisymm hg.1 hf.1
  exact hu hf.2.1

/-- **C15.** When `ModifiedFollowing` does what its name says, for a date whose neighbouring business days are `f` and `g`:
exactly if the unadjusted date `u` is a business day, or `f` is in the month of `u` just when it has the month number of the
date `d` before the period was added. -/
theorem C15_modified_following_iff_partial (d u f g : Date) (p : Period) (c : Calendar)
    (hu : p.checkedAdd d = .ok (some u)) (hf : IsFollowing c u f) (hg : IsPreceding c u g) :
    (∀ r, Date.checkedRoll d p c .modifiedFollowing = .ok (some r) ↔ IsModifiedFollowing c u r) ↔
      Open c u ∨ (f.month = d.month ↔ SameMonth f u) := by
  have actual : ∀ r, Date.checkedRoll d p c .modifiedFollowing = .ok (some r) ↔
      (f.month = d.month ∧ r = f) ∨ (f.month ≠ d.month ∧ r = g) := by
    intro r
    rw [C15_modified_following_actual]
    constructor
    · rintro ⟨u', f', hu', hf', h⟩
      rw [hu] at hu'; cases hu'
      obtain rfl := isFollowing_unique hf' hf
      exact h.imp id fun h => ⟨h.1, isPreceding_unique h.2 hg⟩
    · rintro (h | ⟨h, rfl⟩)
      · exact ⟨u, f, hu, hf, .inl h⟩
      · exact ⟨u, f, hu, hf, .inr ⟨h, hg⟩⟩
  have wanted : ∀ r, IsModifiedFollowing c u r ↔ (SameMonth f u ∧ r = f) ∨ (¬ SameMonth f u ∧ r = g) := by
    intro r
    constructor
    · rintro ⟨f', hf', h⟩
      obtain rfl := isFollowing_unique hf' hf
      exact h.imp id fun h => ⟨h.1, isPreceding_unique h.2 hg⟩
    · rintro (h | ⟨h, rfl⟩)
      · exact ⟨f, hf, .inl h⟩
      · exact ⟨f, hf, .inr ⟨h, hg⟩⟩
  simp only [actual, wanted]
  by_cases ho : Open c u
  · obtain rfl := isFollowing_unique hf (isFollowing_self ho)
    obtain rfl := isPreceding_unique hg (isPreceding_self ho)
    exact iff_of_true (fun r => by tauto) (.inl ho)
  · have hne := preceding_ne_following ho hf hg
    rw [or_iff_right ho]
    constructor
    · intro h
      constructor
      · intro hm
        rcases (h f).1 (.inl ⟨hm, rfl⟩) with h | h
        · exact h.1
        · exact absurd h.2.symm hne
      · intro hm
        rcases (h f).2 (.inl ⟨hm, rfl⟩) with h | h
        · exact h.1
        · exact absurd h.2.symm hne
    · intro h r
      simp only [ne_eq, h]

/-- **C15.** Same for `ModifiedPreceding`. -/
theorem C15_modified_preceding_iff_partial (d u f g : Date) (p : Period) (c : Calendar)
    (hu : p.checkedAdd d = .ok (some u)) (hf : IsFollowing c u f) (hg : IsPreceding c u g) :
    (∀ r, Date.checkedRoll d p c .modifiedPreceding = .ok (some r) ↔ IsModifiedPreceding c u r) ↔
      Open c u ∨ (g.month = d.month ↔ SameMonth g u) := by
  have actual : ∀ r, Date.checkedRoll d p c .modifiedPreceding = .ok (some r) ↔
      (g.month = d.month ∧ r = g) ∨ (g.month ≠ d.month ∧ r = f) := by
    intro r
    rw [C15_modified_preceding_actual]
    constructor
    · rintro ⟨u', g', hu', hg', h⟩
      rw [hu] at hu'; cases hu'
      obtain rfl := isPreceding_unique hg' hg
      exact h.imp id fun h => ⟨h.1, isFollowing_unique h.2 hf⟩
    · rintro (h | ⟨h, rfl⟩)
      · exact ⟨u, g, hu, hg, .inl h⟩
      · exact ⟨u, g, hu, hg, .inr ⟨h, hf⟩⟩
  have wanted : ∀ r, IsModifiedPreceding c u r ↔ (SameMonth g u ∧ r = g) ∨ (¬ SameMonth g u ∧ r = f) := by
    intro r
    constructor
    · rintro ⟨g', hg', h⟩
      obtain rfl := isPreceding_unique hg' hg
      exact h.imp id fun h => ⟨h.1, isFollowing_unique h.2 hf⟩
    · rintro (h | ⟨h, rfl⟩)
      · exact ⟨g, hg, .inl h⟩
      · exact ⟨g, hg, .inr ⟨h, hf⟩⟩
  simp only [actual, wanted]
  by_cases ho : Open c u
  · obtain rfl := isFollowing_unique hf (isFollowing_self ho)
    obtain rfl := isPreceding_unique hg (isPreceding_self ho)
    exact iff_of_true (fun r => by tauto) (.inl ho)
  · have hne := preceding_ne_following ho hf hg
    rw [or_iff_right ho]
    constructor
    · intro h
      constructor
      · intro hm
        rcases (h g).1 (.inl ⟨hm, rfl⟩) with h | h
        · exact h.1
        · exact absurd h.2 hne
      · intro hm
        rcases (h g).2 (.inl ⟨hm, rfl⟩) with h | h
        · exact h.1
        · exact absurd h.2 hne
    · intro h r
      simp only [ne_eq, h]

/-- A month after 1 March 2023 is Saturday 1 April: the following Monday is in the month of the unadjusted date, but not in
March, so `ModifiedFollowing` is wrong; the preceding Friday is in March, so `ModifiedPreceding` is wrong too. -/
example :
    (¬ ∀ r, Date.checkedRoll ⟨2023, 3, 1, by decide⟩ (Period.months 1) Calendar.weekendsOnly .modifiedFollowing =
      .ok (some r) ↔ IsModifiedFollowing Calendar.weekendsOnly ⟨2023, 4, 1, by decide⟩ r) ∧
    ¬ ∀ r, Date.checkedRoll ⟨2023, 3, 1, by decide⟩ (Period.months 1) Calendar.weekendsOnly .modifiedPreceding =
      .ok (some r) ↔ IsModifiedPreceding Calendar.weekendsOnly ⟨2023, 4, 1, by decide⟩ r := by
  have ho : ¬ Open Calendar.weekendsOnly ⟨2023, 4, 1, by decide⟩ := by unfold Open; decide
  have hg := weekendsOnly_isPreceding_2023_04_01
  rw [C15_modified_following_iff_partial _ _ _ _ _ _ rfl weekendsOnly_isFollowing_2023_04_01 hg,
    C15_modified_preceding_iff_partial _ _ _ _ _ _ rfl weekendsOnly_isFollowing_2023_04_01 hg]
  simp [ho, SameMonth]

/-! ## C62 -/

/-- **C62.** All payments of a constructed bond are on weekdays exactly if the maturity date is one. -/
theorem C62_weekdays_iff_partial {V : Type} [Add V] [Mul V] [Div V] [FromInt V] {id : String} {issue first pen mat : Date}
    {f : Frequency} {rate face : V} {b : Bond V} (h : Bond.new id issue first pen mat f rate face = .ok (some b)) :
    (∀ g ∈ b.bondCashFlows, IsWorkday g.paymentDate) ↔ IsWorkday mat := by
  constructor
  · intro hall
    by_contra hw
    obtain ⟨g, hg, hn⟩ := C62_refuted h hw
    exact hn (hall g (List.mem_of_getLast? hg))
  · intro hw g hg
    obtain ⟨k, hk, rfl⟩ := List.mem_iff_getElem.1 hg
    rcases Nat.lt_or_ge (k + 1) b.bondCashFlows.length with h1 | h1
    · exact (C62_coupons_partial h k h1).1
    · obtain ⟨freq, flows, flows', final, _, _, _, h2, rfl⟩ := Bond.new_eq_some.1 h
      have e : k = flows'.length := by simp at hk h1; omega
      subst e
      simp only [List.getElem_concat_length]
      rw [(Bond.finalCashFlow_dates h2).2]
      exact hw

example : ∃ b : Bond ℚ, Bond.new "" ⟨2022, 7, 7, by decide⟩ ⟨2023, 1, 7, by decide⟩ ⟨2023, 1, 7, by decide⟩
    ⟨2023, 7, 7, by decide⟩ .sa 1 1 = .ok (some b) ∧ ∀ g ∈ b.bondCashFlows, IsWorkday g.paymentDate := by
  obtain ⟨b, h⟩ := C51_in_range_partial (K := ℚ) (id := "") (issue := ⟨2022, 7, 7, by decide⟩)
    (first := ⟨2023, 1, 7, by decide⟩) (pen := ⟨2023, 1, 7, by decide⟩) (mat := ⟨2023, 7, 7, by decide⟩) (f := .sa)
    (rate := 1) (face := 1) (by decide) (by decide) (by decide)
  exact ⟨b, h, (C62_weekdays_iff_partial h).2 (by unfold IsWorkday; decide)⟩

/-! ## C65 -/

/-- **C65.** The flows in the price of a constructed bond are exactly the flows paid after settlement, unless a coupon is due
on a Saturday or Sunday and settlement is on that day or the day after, on a Saturday or Sunday too. -/
theorem C65_left_out_iff_partial {K : Type} [Field K] [LinearOrder K] [IsStrictOrderedRing K] [FromInt K] [ExactCast K]
    {id : String} {issue first pen mat : Date} {f : Frequency} {rate face : K} {b : Bond K}
    (h : Bond.new id issue first pen mat f rate face = .ok (some b)) (s : Date) :
    remaining b s = (b.bondCashFlows.filter fun g => s < g.paymentDate) ↔
      ∀ k, (hk : k + 1 < b.bondCashFlows.length) → ¬ (¬ IsWorkday b.bondCashFlows[k].dueDate ∧ ¬ IsWorkday s ∧
        0 ≤ Date.sub s b.bondCashFlows[k].dueDate ∧ Date.sub s b.bondCashFlows[k].dueDate ≤ 1) := by
  obtain ⟨coupons, final, he, _, _, hm⟩ := C48_schedule h
  obtain ⟨coupons', final', he', _, _, _, hpay, hfin⟩ := C50_amounts h
  obtain ⟨rfl, e⟩ := List.append_inj' (he.symm.trans he') rfl
  simp only [List.cons.injEq, and_true] at e
  subst e
  have coupon : ∀ k (hk : k + 1 < b.bondCashFlows.length), b.bondCashFlows[k] ∈ coupons := by
    intro k hk
    have hlen : b.bondCashFlows.length = coupons.length + 1 := by rw [he]; simp
    simp only [he]
    rw [List.getElem_append_left (by omega)]
    exact List.getElem_mem _
  constructor
  · rintro heq k hk ⟨w1, w2, d0, d1⟩
    have hf := hpay _ (coupon k hk)
    change 0 ≤ s.numDaysFromCe - b.bondCashFlows[k].dueDate.numDaysFromCe at d0
    change s.numDaysFromCe - b.bondCashFlows[k].dueDate.numDaysFromCe ≤ 1 at d1
    have hp : s < b.bondCashFlows[k].paymentDate := by
      by_contra hp
      have h1 := (NaiveDate.le_iff_serial _ _).1 ((NaiveDate.not_lt_iff _ _).1 hp)
      have h2 := (NaiveDate.le_iff_serial _ _).1 hf.1
      rcases (show b.bondCashFlows[k].paymentDate.numDaysFromCe = b.bondCashFlows[k].dueDate.numDaysFromCe ∨
        b.bondCashFlows[k].paymentDate.numDaysFromCe = s.numDaysFromCe by omega) with e | e
      · exact w1 (NaiveDate.serial_inj e ▸ hf.2.1)
      · exact w2 (NaiveDate.serial_inj e ▸ hf.2.1)
    have hmem : b.bondCashFlows[k] ∈ remaining b s := by
      rw [heq]
      exact List.mem_filter.2 ⟨List.getElem_mem _, by simpa using hp⟩
    have hd : s < b.bondCashFlows[k].dueDate := by simpa using (List.mem_filter.1 hmem).2
    have := (NaiveDate.lt_iff_serial _ _).1 hd
    omega
  · intro hall
    refine List.filter_congr fun g hg => ?_
    refine decide_eq_decide.2 ⟨fun hd => ?_, fun hp => ?_⟩
    · rw [he, List.mem_append, List.mem_singleton] at hg
      rcases hg with hg | rfl
      · exact lt_of_lt_of_le hd (hpay g hg).1
      · rw [hm] at hd; rw [hfin]; exact hd
    · by_contra hd
      obtain ⟨w2, d0, d1⟩ := C65_left_out_partial h s g hg hp hd
      rw [he, List.mem_append, List.mem_singleton] at hg
      rcases hg with hg | rfl
      · obtain ⟨k, hk, rfl⟩ := List.mem_iff_getElem.1 hg
        have e : b.bondCashFlows[k]'(by rw [he]; simp; omega) = coupons[k] := by
          simp only [he]
          rw [List.getElem_append_left hk]
        have hle := (NaiveDate.not_lt_iff _ _).1 hd
        refine hall k (by rw [he]; simpa using hk) ?_
        rw [e]
        exact ⟨(hpay _ hg).2.2 _ le_rfl (lt_of_le_of_lt hle hp), w2, d0, d1⟩
      · rw [hm] at hd; rw [hfin] at hp; exact absurd hp hd

/-- A coupon due on Saturday 7 January 2023: settlement on Sunday 8 January leaves a payment out. -/
example : ∃ b : Bond ℚ, Bond.new "" ⟨2022, 7, 7, by decide⟩ ⟨2023, 1, 7, by decide⟩ ⟨2023, 1, 7, by decide⟩
      ⟨2023, 7, 7, by decide⟩ .sa 1 1 = .ok (some b) ∧
    remaining b ⟨2023, 1, 8, by decide⟩ ≠ b.bondCashFlows.filter fun g => ⟨2023, 1, 8, by decide⟩ < g.paymentDate := by
  obtain ⟨b, h⟩ := C51_in_range_partial (K := ℚ) (id := "") (issue := ⟨2022, 7, 7, by decide⟩)
    (first := ⟨2023, 1, 7, by decide⟩) (pen := ⟨2023, 1, 7, by decide⟩) (mat := ⟨2023, 7, 7, by decide⟩) (f := .sa)
    (rate := 1) (face := 1) (by decide) (by decide) (by decide)
  refine ⟨b, h, fun heq => ?_⟩
  obtain ⟨coupons, final, he, hs, _, _⟩ := C48_schedule h
  match coupons, he, hs with
  | [], _, hs => exact absurd (hs.empty.1 rfl) (by decide)
  | c :: l, he, hs =>
    have hc : c.dueDate = ⟨2023, 1, 7, by decide⟩ := hs.start _ rfl
    refine (C65_left_out_iff_partial h _).1 heq 0 (by simp [he]) ?_
    simp only [he, List.cons_append, List.getElem_cons_zero, hc]
    unfold IsWorkday
    decide

end Qlab.Props
