import Verif.Lemmas.Calendars

/-!
# Shipped calendars: weekends, panics, markets, Orthodox countries (C28, C29, C32, C33)
-/

set_option maxRecDepth 8000

namespace Qlab.Props

open Spec

/-! ## C28 -/

/-- **C28.** In every shipped calendar except Israel and the Russian exchange, no Saturday or Sunday is a
business day. -/
theorem C28_weekend_closed (s : Shipped) (d : Date) (hs : s ≠ .israel) (hr : s ≠ .russia (some .Exchange))
    (hw : IsSaturdayOrSunday d) : ¬ Open s.calendar d := by
  have hwe := isWeekend_of_saturdayOrSunday hw
  unfold Open
  cases s
  cases_market
  all_goals first
    | exact absurd rfl hs
    | exact absurd rfl hr
    | (cases h : easterMonday d.year <;> unfold_calendars <;> simp [h, hwe]; done)
    | (cases h : orthodoxEasterMonday d.year <;> unfold_calendars <;> simp [h, hwe]; done)
    | (rcases hw with h | h <;> unfold_calendars <;> simp [h, hwe]; done)
    | (cases h : easterMonday d.year <;> unfold_calendars <;> split <;> simp [h, hwe]; done)

example : ¬ Open (Shipped.target).calendar ⟨2023, 4, 1, by decide⟩ :=
  C28_weekend_closed _ _ (by decide) (by decide) (Or.inl (by decide))

/-- **C28.** The Russian exchange is open on a Saturday or Sunday exactly on the nine listed days. -/
theorem C28_russian_exchange (d : Date) (hw : IsSaturdayOrSunday d) :
    Open (Shipped.russia (some .Exchange)).calendar d ↔ RussianWorkingWeekend d := by
  have hwe := isWeekend_of_saturdayOrSunday hw
  unfold Open RussianWorkingWeekend
  simp only [Shipped.calendar, Calendar.russia, Russia.isBusinessDay, Russia.exchangeIsBusinessDay, hwe,
    Bool.true_or, if_true, Russia.isWorkingWeekend]
  by_cases h1 : d.year = 2012
  · simp [h1]; omega
  · by_cases h2 : d.year = 2016
    · simp [h2]
    · by_cases h3 : d.year = 2018
      · simp [h3]; omega
      · simp [h1, h2, h3]

example : Open (Shipped.russia (some .Exchange)).calendar ⟨2018, 4, 28, by decide⟩ ↔
    RussianWorkingWeekend ⟨2018, 4, 28, by decide⟩ :=
  C28_russian_exchange _ (Or.inl (by decide))

/-- **C28.** The Israeli calendar closes on Fridays and Saturdays. -/
theorem C28_israel (d : Date) (hw : d.weekday = .Fri ∨ d.weekday = .Sat) :
    Closed (Shipped.israel).calendar d := by
  unfold Closed
  rcases hw with h | h <;> unfold_calendars <;> simp [h]

/-- Saturday 28 April 2018 was a working day of the Russian exchange; Sunday 2 April 2023 was open in Israel. -/
example : Open (Shipped.russia (some .Exchange)).calendar ⟨2018, 4, 28, by decide⟩ ∧
    (⟨2018, 4, 28, by decide⟩ : Date).weekday = .Sat ∧
    Open (Shipped.israel).calendar ⟨2023, 4, 2, by decide⟩ ∧
    (⟨2023, 4, 2, by decide⟩ : Date).weekday = .Sun := by
  unfold Open; decide +kernel

/-! ## C29 -/

/-- **C29.** A shipped calendar panics exactly when it consults Easter and the year is outside 1901..2199. -/
theorem C29_panics_iff (s : Shipped) (d : Date) :
    Crashes s.calendar d ↔ UsesEaster s = true ∧ (d.year < 1901 ∨ 2199 < d.year) := by
  unfold Crashes
  by_cases hy : d.year < 1901 ∨ 2199 < d.year
  · have hp : easterMonday d.year = .panic := by
      unfold easterMonday; rw [easterLookup_eq_panic, easter_table_len]; omega
    have ho : orthodoxEasterMonday d.year = .panic := by
      unfold orthodoxEasterMonday; rw [easterLookup_eq_panic, orthodox_table_len]; omega
    have hne : d.year ≠ 2023 := by omega
    simp only [hy, and_true]
    cases s
    cases_market
    all_goals first
      | (unfold_calendars; simp [hp, ho, hne, UsesEaster]; done)
  · have h1 : 1901 ≤ d.year := by omega
    have h2 : d.year ≤ 2199 := by omega
    obtain ⟨em, he⟩ := easterMonday_total h1 h2
    obtain ⟨oem, ho⟩ := orthodoxEasterMonday_total h1 h2
    simp only [hy, and_false, iff_false]
    cases s
    cases_market
    all_goals first
      | (unfold_calendars; simp only [he, ho, Rust.ok_bind, ite_ok, reduceCtorEq, not_false_eq_true]; done)
      | (unfold_calendars; simp only [he, Rust.ok_bind]; split <;> (split <;> simp); done)

/-- **C29.** No shipped calendar panics in 1901..2199. -/
theorem C29_answers (s : Shipped) (d : Date) (h1 : 1901 ≤ d.year) (h2 : d.year ≤ 2199) :
    Open s.calendar d ∨ Closed s.calendar d := by
  have := mt (C29_panics_iff s d).1 (by omega)
  unfold Open Closed
  unfold Crashes at this
  cases h : s.calendar.isBusinessDay d with
  | panic => exact absurd h this
  | ok b => cases b <;> simp

example : Crashes (Shipped.target).calendar ⟨2200, 1, 4, by decide⟩ ∧
    ¬ Crashes (Shipped.japan).calendar ⟨2200, 1, 4, by decide⟩ := by
  rw [C29_panics_iff, C29_panics_iff]; decide

/-! ## C32 -/

/-- **C32.** Without a market the settlement calendar is used, except in Germany (Frankfurt). -/
theorem C32_default_market (d : Date) :
    (Shipped.australia none).calendar.isBusinessDay d = (Shipped.australia (some .Settlement)).calendar.isBusinessDay d ∧
    (Shipped.austria none).calendar.isBusinessDay d = (Shipped.austria (some .Settlement)).calendar.isBusinessDay d ∧
    (Shipped.brazil none).calendar.isBusinessDay d = (Shipped.brazil (some .Settlement)).calendar.isBusinessDay d ∧
    (Shipped.canada none).calendar.isBusinessDay d = (Shipped.canada (some .Settlement)).calendar.isBusinessDay d ∧
    (Shipped.france none).calendar.isBusinessDay d = (Shipped.france (some .Settlement)).calendar.isBusinessDay d ∧
    (Shipped.germany none).calendar.isBusinessDay d =
      (Shipped.germany (some .FrankfurtStockExchange)).calendar.isBusinessDay d ∧
    (Shipped.italy none).calendar.isBusinessDay d = (Shipped.italy (some .Settlement)).calendar.isBusinessDay d ∧
    (Shipped.russia none).calendar.isBusinessDay d = (Shipped.russia (some .Settlement)).calendar.isBusinessDay d ∧
    (Shipped.unitedKingdom none).calendar.isBusinessDay d =
      (Shipped.unitedKingdom (some .Settlement)).calendar.isBusinessDay d ∧
    (Shipped.unitedStates none).calendar.isBusinessDay d =
      (Shipped.unitedStates (some .Settlement)).calendar.isBusinessDay d :=
  ⟨rfl, rfl, rfl, rfl, rfl, rfl, rfl, rfl, rfl, rfl⟩

/-- **C32.** Markets that coincide on every date. -/
theorem C32_equal_markets (d : Date) :
    (Shipped.germany (some .Xetra)).calendar.isBusinessDay d =
      (Shipped.germany (some .FrankfurtStockExchange)).calendar.isBusinessDay d ∧
    (Shipped.unitedKingdom (some .Exchange)).calendar.isBusinessDay d =
      (Shipped.unitedKingdom (some .Settlement)).calendar.isBusinessDay d ∧
    (Shipped.unitedKingdom (some .Metals)).calendar.isBusinessDay d =
      (Shipped.unitedKingdom (some .Settlement)).calendar.isBusinessDay d := ⟨rfl, rfl, rfl⟩

/-- **C32.** Australia: settlement closes whenever the exchange does. -/
theorem C32_australia : OpenSubset (.australia (some .Settlement)) (.australia (some .ASX)) := by
  intro d h
  unfold Open at *
  simp only [Shipped.calendar, Calendar.australia, Australia.isBusinessDay, Australia.settlementIsBusinessDay,
    Australia.asxIsBusinessDay] at *
  cases hs : Australia.sharedHoliday d with
  | panic => rw [hs] at h; cases h
  | ok b => rw [hs] at h; revert h; cases b <;> simp

/-- **C32.** Canada: settlement closes whenever the Toronto exchange does. -/
theorem C32_canada : OpenSubset (.canada (some .Settlement)) (.canada (some .TSX)) := by
  intro d h
  unfold Open at *
  simp only [Shipped.calendar, Calendar.canada, Canada.isBusinessDay, Canada.settlementIsBusinessDay,
    Canada.tsxIsBusinessDay] at *
  cases hs : Canada.sharedHoliday d with
  | panic => rw [hs] at h; cases h
  | ok b => rw [hs] at h; revert h; cases b <;> simp

/-- **C32.** Brazil: the exchange closes whenever settlement does. -/
theorem C32_brazil : OpenSubset (.brazil (some .Exchange)) (.brazil (some .Settlement)) := by
  intro d h
  unfold Open at *
  simp only [Shipped.calendar, Calendar.brazil, Brazil.isBusinessDay, Brazil.settlementIsBusinessDay,
    Brazil.exchangeIsBusinessDay] at *
  cases hs : easterMonday d.year with
  | panic => rw [hs] at h; cases h
  | ok b =>
    rw [hs] at h
    simp only [Rust.ok_bind, ite_ok, Rust.ok.injEq, Bool.ite_eq_true_distrib, Bool.false_eq_true, if_false_left, and_true,
      Bool.not_eq_true, Bool.or_eq_false_iff] at *
    grind

/-- **C32.** Germany: Euwax, Eurex and settlement are closed whenever Frankfurt is. -/
theorem C32_germany :
    OpenSubset (.germany (some .Euwax)) (.germany (some .FrankfurtStockExchange)) ∧
    OpenSubset (.germany (some .Eurex)) (.germany (some .FrankfurtStockExchange)) ∧
    OpenSubset (.germany (some .Settlement)) (.germany (some .FrankfurtStockExchange)) := by
  refine ⟨fun d h => ?_, fun d h => ?_, fun d h => ?_⟩ <;> unfold Open at * <;>
    simp only [Shipped.calendar, Calendar.germany, Germany.isBusinessDay, Germany.settlementIsBusinessDay,
      Germany.eurexIsBusinessDay, Germany.euwaxIsBusinessDay, Germany.frankfurtStockExchangeIsBusinessDay] at * <;>
    cases hs : easterMonday d.year with
    | panic => rw [hs] at h; cases h
    | ok b =>
      rw [hs] at h
      simp only [Rust.ok_bind, ite_ok, Rust.ok.injEq, Bool.ite_eq_true_distrib, Bool.false_eq_true, if_false_left, and_true,
        Bool.not_eq_true, Bool.or_eq_false_iff, Bool.and_eq_true] at *
      grind

/-- **C32.** United States: settlement closes whenever Libor does; settlement closes whenever the Federal
Reserve does; the Federal Reserve closes whenever NERC does; SOFR closes whenever the bond market does. -/
theorem C32_united_states :
    OpenSubset (.unitedStates (some .Settlement)) (.unitedStates (some .Libor)) ∧
    OpenSubset (.unitedStates (some .SOFR)) (.unitedStates (some .GovernmentBond)) ∧
    OpenSubset (.unitedStates (some .Settlement)) (.unitedStates (some .FederalReserve)) ∧
    OpenSubset (.unitedStates (some .FederalReserve)) (.unitedStates (some .NERC)) := by
  refine ⟨fun d h => ?_, fun d h => ?_, fun d h => ?_, fun d h => ?_⟩
  · unfold Open at *
    simp only [Shipped.calendar, Calendar.unitedStates, UnitedStates.isBusinessDay,
      UnitedStates.liborIsBusinessDay, Rust.ok.injEq] at *
    split <;> first | rfl | exact h
  · unfold Open at *
    simp only [Shipped.calendar, Calendar.unitedStates, UnitedStates.isBusinessDay,
      UnitedStates.sofrIsBusinessDay] at *
    split at h
    · cases h
    · exact h
  · unfold Open at *
    simp only [Shipped.calendar, Calendar.unitedStates, UnitedStates.isBusinessDay,
      UnitedStates.settlementIsBusinessDay, UnitedStates.federalReserveIsHoliday,
      UnitedStates.isVeteransDay, UnitedStates.isVeteransDayNoSaturday,
      Rust.ok.injEq, Bool.ite_eq_true_distrib, Bool.false_eq_true, if_false_left, and_true,
      Bool.not_eq_true, Bool.or_eq_false_iff] at *
    grind (splits := 40)
  · unfold Open at *
    simp only [Shipped.calendar, Calendar.unitedStates, UnitedStates.isBusinessDay,
      UnitedStates.nercIsBusinessDay, UnitedStates.federalReserveIsHoliday,
      Rust.ok.injEq, Bool.ite_eq_true_distrib, Bool.false_eq_true, if_false_left, and_true,
      Bool.not_eq_true, Bool.or_eq_false_iff] at *
    grind

/-- The inclusions are strict: Monday 9 October 2023 (Columbus Day) was open for NERC only. -/
example : Open (Shipped.unitedStates (some .NERC)).calendar ⟨2023, 10, 9, by decide⟩ ∧
    Closed (Shipped.unitedStates (some .FederalReserve)).calendar ⟨2023, 10, 9, by decide⟩ := by
  unfold Open Closed; decide +kernel

/-! ## C33 -/

/-- **C33.** Romania closes on Orthodox Easter Monday and on Orthodox Whit Monday. -/
theorem C33_romania_orthodox (d : Date) (h1 : 1901 ≤ d.year) (h2 : d.year ≤ 2199)
    (h : DaysFromOrthodoxEaster d 1 ∨ DaysFromOrthodoxEaster d 50) : Closed (Shipped.romania).calendar d := by
  obtain ⟨em, he⟩ := orthodoxEasterMonday_total h1 h2
  unfold Closed
  unfold_calendars
  rcases h with h | h
  · have := (orthodox_offset he h2 rfl (by omega) (by omega)).2 h
    have ho : NaiveDate.ordinal d = em := by omega
    simp [he, ho]
  · have := (orthodox_offset he h2 rfl (by omega) (by omega)).2 h
    have ho : NaiveDate.ordinal d = em + 49 := by omega
    simp [he, ho]

example : Closed (Shipped.romania).calendar ⟨2023, 4, 17, by decide⟩ :=
  C33_romania_orthodox _ (by decide) (by decide)
    (Or.inl ⟨⟨2023, 4, 16, by decide⟩, by unfold IsOrthodoxEasterSunday; decide, by decide⟩)

/-- **C33 (violated).** Ukraine documents Orthodox Easter Monday as a holiday, but was open on
17 April 2023, which is Orthodox Easter Monday. -/
theorem C33_refuted : ∃ d : Date, IsOrthodoxEasterMonday d ∧ Open (Shipped.ukraine).calendar d := by
  refine ⟨⟨2023, 4, 17, by decide⟩, ?_, ?_⟩
  · have he : orthodoxEasterMonday 2023 = .ok 107 := by decide
    exact (orthodox_offset he (by decide) (d := ⟨2023, 4, 17, by decide⟩) rfl (k := 1) (by omega) (by omega)).1
      (by decide)
  · unfold Open; decide +kernel

/-- **C33.** What Ukraine does: it closes on Western Easter Monday and on the Monday 50 days after Western
Easter Sunday.  Missing for the full property: closing on the Orthodox feasts when they differ. -/
theorem C33_ukraine_western_partial (d : Date) (h1 : 1901 ≤ d.year) (h2 : d.year ≤ 2199)
    (h : DaysFromEaster d 1 ∨ DaysFromEaster d 50) : Closed (Shipped.ukraine).calendar d := by
  obtain ⟨em, he⟩ := easterMonday_total h1 h2
  unfold Closed
  unfold_calendars
  rcases h with h | h
  · have := (easter_offset he h2 rfl (by omega) (by omega)).2 h
    have ho : NaiveDate.ordinal d = em := by omega
    simp [he, ho]
  · have := (easter_offset he h2 rfl (by omega) (by omega)).2 h
    have ho : NaiveDate.ordinal d = em + 49 := by omega
    simp [he, ho]

example : Closed (Shipped.ukraine).calendar ⟨2023, 4, 10, by decide⟩ :=
  C33_ukraine_western_partial _ (by decide) (by decide)
    (Or.inl ⟨⟨2023, 4, 9, by decide⟩, ⟨by decide, ⟨2023, 3, 1, by decide⟩, by decide⟩, by decide⟩)

/-- **C33.** When exactly Ukraine is closed on Orthodox Easter Monday: when it is Western Easter Monday as well, or falls on
1 to 3 May or 9 to 11 May, around the fixed holidays. -/
theorem C33_ukraine_orthodox_iff_partial (d : Date) (h1 : 1901 ≤ d.year) (h2 : d.year ≤ 2199)
    (h : IsOrthodoxEasterMonday d) :
    Closed (Shipped.ukraine).calendar d ↔ DaysFromEaster d 1 ∨ (d.month = 5 ∧ d.day ∈ [1, 2, 3, 9, 10, 11]) := by
  obtain ⟨em, he⟩ := easterMonday_total h1 h2
  obtain ⟨eo, ho⟩ := orthodoxEasterMonday_total h1 h2
  have o := (orthodox_offset ho h2 rfl (k := 1) (by omega) (by omega)).2 h
  obtain ⟨r1, -, -, r4, r5⟩ := orthodoxEasterMonday_row ho
  obtain ⟨-, -, -, e4, e5⟩ := easterMonday_row he
  have w : d.weekday = .Mon := by
    have hn : d.numDaysFromCe = daysBeforeYear d.year + d.ordinal := rfl
    unfold NaiveDate.weekday
    rw [show ((d.numDaysFromCe - 1) % 7).toNat = 0 by omega]
    rfl
  have hm : d.month = 4 ∨ d.month = 5 := by
    have hd := d.day_le
    have hp := d.day_pos
    have m1 := d.month_pos
    have m2 := d.month_le
    have ho' : (d.ordinal : Int) = eo := by omega
    unfold NaiveDate.ordinal daysBeforeMonth at ho'
    unfold monthLen at hd
    have : d.month = 1 ∨ d.month = 2 ∨ d.month = 3 ∨ d.month = 4 ∨ d.month = 5 ∨ d.month = 6 ∨ d.month = 7 ∨ d.month = 8 ∨
        d.month = 9 ∨ d.month = 10 ∨ d.month = 11 ∨ d.month = 12 := by omega
    rcases this with e | e | e | e | e | e | e | e | e | e | e | e <;> simp only [e] at hd ho' <;>
      first | (left; exact e) | (right; exact e) | (generalize isLeap d.year = l at hd ho'; cases l <;> simp at hd ho' <;> omega)
  rw [← easter_offset he h2 rfl (k := 1) (by omega) (by omega)]
  have x : (d.ordinal = em) ↔ ((d.ordinal : Int) = em - 1 + 1) := by omega
  rw [← x]
  have y : d.ordinal ≠ em + 49 := by omega
  have hwe : isWeekend d = false := by unfold isWeekend; rw [w]
  unfold Closed
  unfold_calendars
  simp only [he, Rust.ok_bind, hwe, w]
  rcases hm with e | e <;> simp [e, y]
  omega

/-- Orthodox Easter Monday fell on 6 May in 2013, 2 May in 2016 and together with the Western one in 2017: Ukraine was open, closed
and closed. -/
example : Open (Shipped.ukraine).calendar ⟨2013, 5, 6, by decide⟩ ∧ Closed (Shipped.ukraine).calendar ⟨2016, 5, 2, by decide⟩ ∧
    Closed (Shipped.ukraine).calendar ⟨2017, 4, 17, by decide⟩ := by unfold Open Closed; decide +kernel

end Qlab.Props
