import Verif.Props.Rolling
import Verif.Lemmas.DateOrder

/-!
# Order of modified adjustments (C117)

`ModifiedFollowing` and `ModifiedPreceding` look at the month of the date the period is added to.  Two starting dates
in different months can therefore be adjusted in opposite directions.
-/

namespace Qlab.Props

open Spec

theorem following_le_preceding {c : Calendar} {u v f g : Date} (hf : IsFollowing c u f) (hg : IsPreceding c v g)
    (h : f ≤ v) : f ≤ g := by
  rcases date_lt_or_ge g f with h' | h'
  · exact (open_not_closed hf.2.1 (hg.2.2 f h' h)).elim
  · exact h'

theorem following_mono {c : Calendar} {u v f g : Date} (hf : IsFollowing c u f) (hg : IsFollowing c v g) (huv : u ≤ v) :
    f ≤ g := by
  rcases date_lt_or_ge g f with h | h
  · exact (open_not_closed hg.2.1 (hf.2.2 g (le_trans huv hg.1) h)).elim
  · exact h

theorem preceding_mono {c : Calendar} {u v f g : Date} (hf : IsPreceding c u f) (hg : IsPreceding c v g) (huv : u ≤ v) :
    f ≤ g := by
  rcases date_lt_or_ge g f with h | h
  · exact (open_not_closed hf.2.1 (hg.2.2 f h (le_trans hf.1 huv))).elim
  · exact h

/-- Inside one run of closed days the next business day is the same. -/
theorem following_same {c : Calendar} {u v f g : Date} (hf : IsFollowing c u f) (hg : IsFollowing c v g) (huv : u ≤ v)
    (h : v ≤ f) : f = g :=
  le_antisymm (following_mono hf hg huv) (by
    rcases date_lt_or_ge f g with h' | h'
    · exact (open_not_closed hf.2.1 (hg.2.2 f h h')).elim
    · exact h')

theorem preceding_same {c : Calendar} {u v f g : Date} (hf : IsPreceding c u f) (hg : IsPreceding c v g) (huv : u ≤ v)
    (h : g ≤ u) : f = g :=
  le_antisymm (preceding_mono hf hg huv) (by
    rcases date_lt_or_ge f g with h' | h'
    · exact (open_not_closed hg.2.1 (hf.2.2 g h' h)).elim
    · exact h')

/-- **C117.** Exactly when a later unadjusted date is adjusted to an earlier one by `ModifiedFollowing`: both lie in
one run of closed days, and the business day after it has the month of the earlier start but not of the later one. -/
theorem C117_following_iff_partial (c : Calendar) (d e r s u v : Date) (p q : Period)
    (hu : p.checkedAdd d = .ok (some u)) (hv : q.checkedAdd e = .ok (some v)) (huv : u ≤ v)
    (hr : Date.checkedRoll d p c .modifiedFollowing = .ok (some r))
    (hs : Date.checkedRoll e q c .modifiedFollowing = .ok (some s)) :
    s < r ↔ ∃ f, IsFollowing c u f ∧ v < f ∧ f.month = d.month ∧ f.month ≠ e.month := by
  obtain ⟨u', f, hu', hf, h1⟩ := (C15_modified_following_actual d r p c).1 hr
  obtain ⟨v', g, hv', hg, h2⟩ := (C15_modified_following_actual e s q c).1 hs
  rw [hu] at hu'; cases hu'
  rw [hv] at hv'; cases hv'
  constructor
  · intro hlt
    rcases h1 with ⟨m1, rfl⟩ | ⟨m1, p1⟩
    · rcases h2 with ⟨m2, rfl⟩ | ⟨m2, p2⟩
      · exact absurd (following_mono hf hg huv) (not_le.2 hlt)
      · rcases date_lt_or_ge v r with h | h
        · have := following_same hf hg huv h.le
          exact ⟨r, hf, h, m1, by rw [this]; exact m2⟩
        · exact absurd (following_le_preceding hf p2 h) (not_le.2 hlt)
    · rcases h2 with ⟨m2, rfl⟩ | ⟨m2, p2⟩
      · exact absurd (le_trans p1.1 (le_trans huv hg.1)) (not_le.2 hlt)
      · exact absurd (preceding_mono p1 p2 huv) (not_le.2 hlt)
  · rintro ⟨f', hf', hvf, m1, m2⟩
    obtain rfl := isFollowing_unique hf hf'
    have e := following_same hf hg huv hvf.le
    rcases h1 with ⟨-, rfl⟩ | ⟨n1, -⟩
    · rcases h2 with ⟨n2, rfl⟩ | ⟨-, p2⟩
      · exact absurd (e ▸ n2) m2
      · exact lt_of_le_of_lt p2.1 hvf
    · exact absurd m1 n1

/-- **C117.** Exactly when a later unadjusted date is adjusted to an earlier one by `ModifiedPreceding`: both lie in
one run of closed days, and the business day before it has the month of the later start but not of the earlier one. -/
theorem C117_preceding_iff_partial (c : Calendar) (d e r s u v : Date) (p q : Period)
    (hu : p.checkedAdd d = .ok (some u)) (hv : q.checkedAdd e = .ok (some v)) (huv : u ≤ v)
    (hr : Date.checkedRoll d p c .modifiedPreceding = .ok (some r))
    (hs : Date.checkedRoll e q c .modifiedPreceding = .ok (some s)) :
    s < r ↔ ∃ g, IsPreceding c v g ∧ g < u ∧ g.month = e.month ∧ g.month ≠ d.month := by
  obtain ⟨u', f, hu', hf, h1⟩ := (C15_modified_preceding_actual d r p c).1 hr
  obtain ⟨v', g, hv', hg, h2⟩ := (C15_modified_preceding_actual e s q c).1 hs
  rw [hu] at hu'; cases hu'
  rw [hv] at hv'; cases hv'
  constructor
  · intro hlt
    rcases h2 with ⟨m2, rfl⟩ | ⟨m2, p2⟩
    · rcases h1 with ⟨m1, rfl⟩ | ⟨m1, p1⟩
      · exact absurd (preceding_mono hf hg huv) (not_le.2 hlt)
      · rcases date_lt_or_ge s u with h | h
        · have := preceding_same hf hg huv h.le
          exact ⟨s, hg, h, m2, by rw [← this]; exact m1⟩
        · rcases date_lt_or_ge s r with h' | h'
          · exact (open_not_closed hg.2.1 (p1.2.2 s h h')).elim
          · exact absurd h' (not_le.2 hlt)
    · rcases h1 with ⟨m1, rfl⟩ | ⟨m1, p1⟩
      · exact absurd (le_trans hf.1 (le_trans huv p2.1)) (not_le.2 hlt)
      · exact absurd (following_mono p1 p2 huv) (not_le.2 hlt)
  · rintro ⟨g', hg', hgu, m1, m2⟩
    obtain rfl := isPreceding_unique hg hg'
    have e := preceding_same hf hg huv hgu.le
    rcases h2 with ⟨-, rfl⟩ | ⟨n2, -⟩
    · rcases h1 with ⟨n1, rfl⟩ | ⟨-, p1⟩
      · exact absurd (e ▸ n1) m2
      · exact lt_of_lt_of_le hgu p1.1
    · exact absurd m1 n2

/-- **C117.** From starting dates in the same month of the year, one date for instance, a later unadjusted date is
never adjusted to an earlier one; all four conventions, any calendar, any periods.  Missing for the full property:
starting dates in different months. -/
theorem C117_same_month_partial (c : Calendar) (m : DateRolling) (d e r s u v : Date) (p q : Period)
    (hm : d.month = e.month) (hu : p.checkedAdd d = .ok (some u)) (hv : q.checkedAdd e = .ok (some v)) (huv : u ≤ v)
    (hr : Date.checkedRoll d p c m = .ok (some r)) (hs : Date.checkedRoll e q c m = .ok (some s)) : r ≤ s := by
  cases m with
  | unadjusted =>
    have h1 : p.checkedAdd d = .ok (some r) := hr
    have h2 : q.checkedAdd e = .ok (some s) := hs
    rw [hu] at h1; rw [hv] at h2
    cases h1; cases h2
    exact huv
  | following => exact C17_following_mono d e r s u v p q c hu hv huv hr hs
  | preceding => exact C17_preceding_mono d e r s u v p q c hu hv huv hr hs
  | modifiedFollowing =>
    rw [← not_lt, C117_following_iff_partial c d e r s u v p q hu hv huv hr hs]
    rintro ⟨f, -, -, h1, h2⟩
    exact h2 (h1.trans hm)
  | modifiedPreceding =>
    rw [← not_lt, C117_preceding_iff_partial c d e r s u v p q hu hv huv hr hs]
    rintro ⟨f, -, -, h1, h2⟩
    exact h2 (h1.trans hm.symm)

theorem monthNumber_mono {a b : Date} (h : a ≤ b) : monthNumber a.year a.month ≤ monthNumber b.year b.month := by
  have h' : NaiveDate.blt b a = false := h
  have k1 := a.month_pos
  have k2 := a.month_le
  have k3 := b.month_pos
  have k4 := b.month_le
  simp only [NaiveDate.blt, Bool.or_eq_false_iff, Bool.and_eq_false_iff, decide_eq_false_iff_not, beq_eq_false_iff_ne,
    ne_eq] at h'
  unfold monthNumber
  omega

/-- **C117.** `ModifiedFollowing` keeps the order of starting dates that lie at most 300 days before the adjusted
dates.  Missing for the full property: periods of nearly a year and longer, and `ModifiedPreceding`. -/
theorem C117_following_short_partial (c : Calendar) (d e r s u v : Date) (p q : Period)
    (hu : p.checkedAdd d = .ok (some u)) (hv : q.checkedAdd e = .ok (some v)) (hde : d ≤ e) (hev : e ≤ v) (huv : u ≤ v)
    (hrun : ∀ f, IsFollowing c u f → Date.sub f d ≤ 300)
    (hr : Date.checkedRoll d p c .modifiedFollowing = .ok (some r))
    (hs : Date.checkedRoll e q c .modifiedFollowing = .ok (some s)) : r ≤ s := by
  rw [← not_lt, C117_following_iff_partial c d e r s u v p q hu hv huv hr hs]
  rintro ⟨f, hf, hvf, h1, h2⟩
  have hef : e ≤ f := le_trans hev hvf.le
  have hdf : d ≤ f := le_trans hde hef
  have hs0 := (NaiveDate.le_iff_serial _ _).1 hdf
  have hy := sameMonth_of_close f d h1 (hrun f hf) (by
    show -300 ≤ f.numDaysFromCe - d.numDaysFromCe
    omega)
  have g1 := monthNumber_mono hde
  have g2 := monthNumber_mono hef
  unfold monthNumber at g1 g2
  have k1 := e.month_pos
  have k2 := e.month_le
  have k3 := d.month_pos
  have k4 := d.month_le
  rw [hy, h1] at g2
  rw [h1] at h2
  omega

/-- **C117 (violated).** With weekends only and `ModifiedPreceding`, eight days after Friday 28 February 2025 gives
Monday 10 March, eight days after Saturday 1 March gives Friday 7 March. -/
theorem C117_refuted_preceding : ∃ d e r s : Date, d < e ∧ s < r ∧
    Date.checkedRoll d (.days 8) .weekendsOnly .modifiedPreceding = .ok (some r) ∧
    Date.checkedRoll e (.days 8) .weekendsOnly .modifiedPreceding = .ok (some s) := by
  have p1 : IsPreceding .weekendsOnly ⟨2025, 3, 8, by decide⟩ ⟨2025, 3, 7, by decide⟩ :=
    weekendsOnly_isPreceding _ _ (by decide) (by decide) (by decide) (by decide)
  have f1 : IsFollowing .weekendsOnly ⟨2025, 3, 8, by decide⟩ ⟨2025, 3, 10, by decide⟩ :=
    weekendsOnly_isFollowing _ _ (by decide) (by decide) (by decide) (by decide)
  have p2 : IsPreceding .weekendsOnly ⟨2025, 3, 9, by decide⟩ ⟨2025, 3, 7, by decide⟩ :=
    weekendsOnly_isPreceding _ _ (by decide) (by decide) (by decide) (by decide)
  exact ⟨⟨2025, 2, 28, by decide⟩, ⟨2025, 3, 1, by decide⟩, ⟨2025, 3, 10, by decide⟩, ⟨2025, 3, 7, by decide⟩, by decide,
    by decide, (C15_modified_preceding_actual _ _ _ _).2 ⟨_, _, by decide, p1, .inr ⟨by decide, f1⟩⟩,
    (C15_modified_preceding_actual _ _ _ _).2 ⟨_, _, by decide, p2, .inl ⟨by decide, rfl⟩⟩⟩

/-- **C117 (violated).** With weekends only and `ModifiedFollowing`, 357 days after Saturday 30 April 2022 gives Monday
24 April 2023, 357 days after the day after it gives Friday 21 April. -/
theorem C117_refuted_following : ∃ d e r s : Date, d < e ∧ s < r ∧
    Date.checkedRoll d (.days 357) .weekendsOnly .modifiedFollowing = .ok (some r) ∧
    Date.checkedRoll e (.days 357) .weekendsOnly .modifiedFollowing = .ok (some s) := by
  have f1 : IsFollowing .weekendsOnly ⟨2023, 4, 22, by decide⟩ ⟨2023, 4, 24, by decide⟩ :=
    weekendsOnly_isFollowing _ _ (by decide) (by decide) (by decide) (by decide)
  have f2 : IsFollowing .weekendsOnly ⟨2023, 4, 23, by decide⟩ ⟨2023, 4, 24, by decide⟩ :=
    weekendsOnly_isFollowing _ _ (by decide) (by decide) (by decide) (by decide)
  have p2 : IsPreceding .weekendsOnly ⟨2023, 4, 23, by decide⟩ ⟨2023, 4, 21, by decide⟩ :=
    weekendsOnly_isPreceding _ _ (by decide) (by decide) (by decide) (by decide)
  exact ⟨⟨2022, 4, 30, by decide⟩, ⟨2022, 5, 1, by decide⟩, ⟨2023, 4, 24, by decide⟩, ⟨2023, 4, 21, by decide⟩, by decide,
    by decide, (C15_modified_following_actual _ _ _ _).2 ⟨_, _, by decide, f1, .inl ⟨by decide, rfl⟩⟩,
    (C15_modified_following_actual _ _ _ _).2 ⟨_, _, by decide, f2, .inr ⟨by decide, p2⟩⟩⟩

/-- One and two days after Thursday 30 March 2023: Friday 31 March, and Saturday 1 April, adjusted back to it. -/
example : (⟨2023, 3, 31, by decide⟩ : Date) ≤ ⟨2023, 3, 31, by decide⟩ :=
  C117_same_month_partial .weekendsOnly .modifiedFollowing ⟨2023, 3, 30, by decide⟩ ⟨2023, 3, 30, by decide⟩ _ _
    ⟨2023, 3, 31, by decide⟩ ⟨2023, 4, 1, by decide⟩ (.days 1) (.days 2) rfl (by decide) (by decide) (by decide)
    (C16_business_day_fixed _ _ _ _ _ (by decide) (by decide))
    ((C15_modified_following_actual _ _ _ _).2 ⟨_, _, by decide, weekendsOnly_isFollowing_2023_04_01,
      .inr ⟨by decide, weekendsOnly_isPreceding_2023_04_01⟩⟩)

/-- The same from two starting dates, 31 March and 1 April 2023, without a period. -/
example : (⟨2023, 3, 31, by decide⟩ : Date) ≤ ⟨2023, 4, 3, by decide⟩ :=
  C117_following_short_partial .weekendsOnly ⟨2023, 3, 31, by decide⟩ ⟨2023, 4, 1, by decide⟩ _ _
    ⟨2023, 3, 31, by decide⟩ ⟨2023, 4, 1, by decide⟩ (.days 0) (.days 0) (by decide) (by decide) (by decide) (by decide)
    (by decide) (fun f hf => by
      rw [isFollowing_unique hf (isFollowing_self (show Open .weekendsOnly ⟨2023, 3, 31, by decide⟩ by unfold Open; decide))]
      decide)
    (C16_business_day_fixed _ _ _ _ _ (by decide) (by decide))
    ((C15_modified_following_actual _ _ _ _).2 ⟨_, _, by decide, weekendsOnly_isFollowing_2023_04_01,
      .inl ⟨by decide, rfl⟩⟩)

/-- The two exact conditions, on the dates of `C117_refuted_following` and `C117_refuted_preceding`. -/
example : (∃ f, IsFollowing .weekendsOnly ⟨2023, 4, 22, by decide⟩ f ∧ ⟨2023, 4, 23, by decide⟩ < f ∧
      f.month = 4 ∧ f.month ≠ 5) ∧
    (∃ g, IsPreceding .weekendsOnly ⟨2025, 3, 9, by decide⟩ g ∧ g < ⟨2025, 3, 8, by decide⟩ ∧
      g.month = 3 ∧ g.month ≠ 2) := by
  have f1 : IsFollowing .weekendsOnly ⟨2023, 4, 22, by decide⟩ ⟨2023, 4, 24, by decide⟩ :=
    weekendsOnly_isFollowing _ _ (by decide) (by decide) (by decide) (by decide)
  have f2 : IsFollowing .weekendsOnly ⟨2023, 4, 23, by decide⟩ ⟨2023, 4, 24, by decide⟩ :=
    weekendsOnly_isFollowing _ _ (by decide) (by decide) (by decide) (by decide)
  have p2 : IsPreceding .weekendsOnly ⟨2023, 4, 23, by decide⟩ ⟨2023, 4, 21, by decide⟩ :=
    weekendsOnly_isPreceding _ _ (by decide) (by decide) (by decide) (by decide)
  have q1 : IsPreceding .weekendsOnly ⟨2025, 3, 8, by decide⟩ ⟨2025, 3, 7, by decide⟩ :=
    weekendsOnly_isPreceding _ _ (by decide) (by decide) (by decide) (by decide)
  have g1 : IsFollowing .weekendsOnly ⟨2025, 3, 8, by decide⟩ ⟨2025, 3, 10, by decide⟩ :=
    weekendsOnly_isFollowing _ _ (by decide) (by decide) (by decide) (by decide)
  have q2 : IsPreceding .weekendsOnly ⟨2025, 3, 9, by decide⟩ ⟨2025, 3, 7, by decide⟩ :=
    weekendsOnly_isPreceding _ _ (by decide) (by decide) (by decide) (by decide)
  exact ⟨(C117_following_iff_partial .weekendsOnly ⟨2022, 4, 30, by decide⟩ ⟨2022, 5, 1, by decide⟩
      ⟨2023, 4, 24, by decide⟩ ⟨2023, 4, 21, by decide⟩ _ _ (.days 357) (.days 357) (by decide) (by decide) (by decide)
      ((C15_modified_following_actual _ _ _ _).2 ⟨_, _, by decide, f1, .inl ⟨by decide, rfl⟩⟩)
      ((C15_modified_following_actual _ _ _ _).2 ⟨_, _, by decide, f2, .inr ⟨by decide, p2⟩⟩)).1 (by decide),
    (C117_preceding_iff_partial .weekendsOnly ⟨2025, 2, 28, by decide⟩ ⟨2025, 3, 1, by decide⟩
      ⟨2025, 3, 10, by decide⟩ ⟨2025, 3, 7, by decide⟩ _ _ (.days 8) (.days 8) (by decide) (by decide) (by decide)
      ((C15_modified_preceding_actual _ _ _ _).2 ⟨_, _, by decide, q1, .inr ⟨by decide, g1⟩⟩)
      ((C15_modified_preceding_actual _ _ _ _).2 ⟨_, _, by decide, q2, .inl ⟨by decide, rfl⟩⟩)).1 (by decide)⟩

end Qlab.Props
