import Verif.Props.FeastsAsia
import Verif.Props.SpringAutumn
import Verif.Spec.ThaiLunar

/-!
# The Buddhist full moon days in Thailand and Singapore (C140)

`thailand.rs` lists Makha Bucha, Visakha Bucha and the beginning of Lent year by year, with the Mondays that stand in for
them.  They are compared with the lunar calendar of `Verif/Spec/ThaiLunar.lean` for every date of these years.

`singapore.rs` lists Vesak, the full moon a week after Buddha's birthday.
-/

set_option maxRecDepth 8000

namespace Qlab.Props

open Spec FeastsAsia
open LunarFestivals (serial)

namespace ThaiFullMoons

/-- Months and days of Makha Bucha, Visakha Bucha and the beginning of Lent from 2000 on. -/
def table : List (List (Nat × Nat)) := [
   [(2, 19), (5, 17), (7, 17)], [(2, 8), (5, 7), (7, 6)], [(2, 26), (5, 26), (7, 25)], [(2, 16), (5, 15), (7, 14)],
   [(3, 5), (6, 2), (8, 1)], [(2, 23), (5, 22), (7, 22)], [(2, 13), (5, 12), (7, 11)], [(3, 3), (5, 31), (7, 29)],
   [(2, 21), (5, 19), (7, 17)], [(2, 9), (5, 8), (7, 7)], [(2, 28), (5, 28), (7, 26)], [(2, 18), (5, 17), (7, 15)],
   [(3, 7), (6, 4), (8, 2)], [(2, 25), (5, 24), (7, 22)], [(2, 14), (5, 13), (7, 11)], [(3, 4), (6, 1), (7, 30)],
   [(2, 22), (5, 20), (7, 19)], [(2, 11), (5, 10), (7, 8)], [(3, 1), (5, 29), (7, 27)], [(2, 19), (5, 18), (7, 16)]]

/-- The three days of a year as serial numbers. -/
def days (y : Int) : List Int :=
  [Thai.fullMoon y (if Thai.kind y = .extraMonth then 4 else 3), Thai.fullMoon y (if Thai.kind y = .extraMonth then 7 else 6),
    Thai.asarnhaBucha y + if y ≤ 2006 then 1 else 0]

theorem mem_days {d : Date} (h : Thai.IsFullMoonDay d) : Date.serialDate d ∈ days d.year := by
  unfold days
  rcases h with h | h | h
  · rw [h]; exact List.mem_cons_self
  · rw [h]; exact List.mem_cons_of_mem _ List.mem_cons_self
  · rw [h]; exact List.mem_cons_of_mem _ (List.mem_cons_of_mem _ List.mem_cons_self)

/-- What is checked on each of the days. -/
def kept (c : Calendar) (d : NaiveDate) : Bool :=
  shut c (some d) && (d.weekday != .Sat || shut c (d.succOpt.bind NaiveDate.succOpt)) &&
    (d.weekday != .Sun || shut c d.succOpt)

theorem keeps_of {c : Calendar} {d : Date} (h : kept c d = true) : Thai.Keeps c d := by
  unfold kept at h
  simp only [Bool.or_eq_true, Bool.and_eq_true, bne_iff_ne] at h
  obtain ⟨⟨h0, h1⟩, h2⟩ := h
  refine ⟨?_, fun hw e he => ?_, fun hw e he => ?_⟩
  · obtain ⟨e, he, hc⟩ := closed_of_shut h0
    cases he
    exact hc
  · obtain ⟨u, hu, hc⟩ := closed_of_shut (h1.resolve_left fun h => h hw)
    obtain ⟨t, ht, hu⟩ := Option.bind_eq_some_iff.1 hu
    have a := NaiveDate.succOpt_eq_some.1 ht
    have b := NaiveDate.succOpt_eq_some.1 hu
    have : e = u := (NaiveDate.serial_eq_iff _ _).1 (by unfold DaysAfter Date.serialDate at he; omega)
    rwa [this]
  · obtain ⟨u, hu, hc⟩ := closed_of_shut (h2.resolve_left fun h => h hw)
    have a := NaiveDate.succOpt_eq_some.1 hu
    have : e = u := (NaiveDate.serial_eq_iff _ _).1 (by unfold DaysAfter Date.serialDate at he; omega)
    rwa [this]

/-- The table has the days of the lunar calendar. -/
theorem table_eq (i : Nat) (h : i < 20) : days (2000 + i) = (table.getD i []).map fun p => serial (2000 + i) p.1 p.2 := by
  have : ∀ i < 20, days (2000 + (i : Nat)) = (table.getD i []).map fun p => serial (2000 + (i : Nat)) p.1 p.2 := by
    decide +kernel
  exact this i h

theorem checked : ((List.range 19).all fun i => [2, 3, 4].contains i || (table.getD i []).all fun p =>
    if h : IsValid (2000 + (i : Nat)) p.1 p.2 then kept Shipped.thailand.calendar ⟨2000 + (i : Nat), p.1, p.2, h⟩
    else false) = true := by decide +kernel

theorem valid : ((List.range 20).all fun i => (table.getD i []).all fun p =>
    decide (IsValid (2000 + (i : Nat)) p.1 p.2)) = true := by decide +kernel

theorem at_table {c : Calendar} {y : Int} {m k : Nat} {hv : IsValid y m k} {d : Date} (hs : serial y m k = Date.serialDate d)
    (h : kept c ⟨y, m, k, hv⟩ = true) : Thai.Keeps c d := by
  have e : (⟨y, m, k, hv⟩ : NaiveDate) = d := NaiveDate.serial_inj hs
  rw [← e]
  exact keeps_of h

end ThaiFullMoons

open ThaiFullMoons

/-- **C140**: Thailand is closed on each full moon day, and on the Monday after one that falls on a weekend.  Missing for
the full property: 2002 to 2004 and the years after 2018, for which the code lists none. -/
theorem C140_thailand_partial (d : Date) (h1 : 2000 ≤ d.year) (h2 : d.year ≤ 2018) (hy : d.year ∉ [2002, 2003, 2004])
    (hf : Thai.IsFullMoonDay d) : Thai.Keeps Shipped.thailand.calendar d := by
  obtain ⟨i, hi⟩ : ∃ i : Nat, d.year = 2000 + i := ⟨(d.year - 2000).toNat, by omega⟩
  have hm := mem_days hf
  rw [hi, table_eq i (by omega)] at hm
  obtain ⟨p, hp, hs⟩ := List.mem_map.1 hm
  have hc := List.all_eq_true.1 checked i (List.mem_range.2 (by omega))
  simp only [Bool.or_eq_true] at hc
  have hc := hc.resolve_left fun h => by
    simp only [List.contains_iff_mem, List.mem_cons, List.not_mem_nil, or_false] at h hy
    omega
  have hc := List.all_eq_true.1 hc p hp
  split at hc
  case isTrue hv =>
    exact at_table hs hc
  case isFalse => exact absurd hc (by decide)

/-- Makha Bucha was Saturday, 11 February 2017 and is kept on the Monday after it. -/
example : Closed Shipped.thailand.calendar ⟨2017, 2, 13, by decide⟩ :=
  (C140_thailand_partial ⟨2017, 2, 11, by decide⟩ (by decide) (by decide) (by decide) (by decide)).2.1 (by decide) _
    (by unfold DaysAfter; decide)

/-- **C140**, violated: Thailand is open on full moon days of 2002, 2003, 2004 and 2019. -/
theorem C140_refuted : ∀ y ∈ [(2002 : Int), 2003, 2004, 2019], ∃ d : Date, d.year = y ∧
    (Thai.IsMakhaBucha d ∨ Thai.IsVisakhaBucha d) ∧ Open Shipped.thailand.calendar d := by
  intro y hy
  simp only [List.mem_cons, List.not_mem_nil, or_false] at hy
  rcases hy with rfl | rfl | rfl | rfl
  · exact ⟨⟨2002, 2, 26, by decide⟩, rfl, .inl (by unfold Thai.IsMakhaBucha; decide), by unfold Open; decide +kernel⟩
  · exact ⟨⟨2003, 5, 15, by decide⟩, rfl, .inr (by unfold Thai.IsVisakhaBucha; decide), by unfold Open; decide +kernel⟩
  · exact ⟨⟨2004, 3, 5, by decide⟩, rfl, .inl (by unfold Thai.IsMakhaBucha; decide), by unfold Open; decide +kernel⟩
  · exact ⟨⟨2019, 2, 19, by decide⟩, rfl, .inl (by unfold Thai.IsMakhaBucha; decide), by unfold Open; decide +kernel⟩

/-- Support for C140: in each year each of the three days exists. -/
theorem C140_every_year (y : Int) (h1 : 2000 ≤ y) (h2 : y ≤ 2019) :
    (∃ d : Date, d.year = y ∧ Thai.IsMakhaBucha d) ∧ (∃ d : Date, d.year = y ∧ Thai.IsVisakhaBucha d) ∧
      ∃ d : Date, d.year = y ∧ Thai.IsLentDay d := by
  obtain ⟨i, rfl⟩ : ∃ i : Nat, y = 2000 + i := ⟨(y - 2000).toNat, by omega⟩
  have key : ∀ s ∈ days (2000 + i), ∃ d : Date, d.year = 2000 + i ∧ Date.serialDate d = s := by
    intro s hs
    rw [table_eq i (by omega)] at hs
    obtain ⟨p, hp, rfl⟩ := List.mem_map.1 hs
    have hv := List.all_eq_true.1 (List.all_eq_true.1 valid i (List.mem_range.2 (by omega))) p hp
    exact ⟨⟨2000 + i, p.1, p.2, of_decide_eq_true hv⟩, rfl, rfl⟩
  refine ⟨?_, ?_, ?_⟩
  · obtain ⟨d, e, h⟩ := key _ List.mem_cons_self
    exact ⟨d, e, by unfold Thai.IsMakhaBucha; rw [e, h]⟩
  · obtain ⟨d, e, h⟩ := key _ (List.mem_cons_of_mem _ List.mem_cons_self)
    exact ⟨d, e, by unfold Thai.IsVisakhaBucha; rw [e, h]⟩
  · obtain ⟨d, e, h⟩ := key _ (List.mem_cons_of_mem _ (List.mem_cons_of_mem _ List.mem_cons_self))
    exact ⟨d, e, by unfold Thai.IsLentDay; rw [e, h]⟩

/-- Lent began on 17 July 2000. -/
example : Thai.IsLentDay ⟨2000, 7, 17, by decide⟩ := by unfold Thai.IsLentDay; decide

/-! ## Singapore -/

/-- **C140**: Singapore is closed on Vesak, a week after the eighth day of the fourth month.  Missing for the full
property: 2008, 2011, 2015, 2017 and 2018. -/
theorem C140_singapore_partial (n d : Date) (h : IsBuddhasBirthday n) (h2 : n.year ≤ 2023)
    (hy : n.year ∉ [2008, 2011, 2015, 2017, 2018]) (hd : DaysAfter n 7 7 d) : Closed Shipped.singapore.calendar d := by
  have h1 : 2004 ≤ n.year := (by decide : ∀ p ∈ buddhasBirthdays, 2004 ≤ p.1) _ h
  have hd : DaysAfter n 7 (7 + (0 : Nat)) d := hd
  exact LunarFestivals.closed_of (l := LunarFestivals.upTo 2004 2023 buddhasBirthdays) (by decide +kernel)
    (LunarFestivals.mem_upTo h h1 h2) hy hd

/-- Friday, 2 June 2023. -/
example : Closed Shipped.singapore.calendar ⟨2023, 6, 2, by decide⟩ :=
  C140_singapore_partial ⟨2023, 5, 26, by decide⟩ _ (by unfold IsBuddhasBirthday; decide) (by decide) (by decide)
    (by unfold DaysAfter; decide)

/-- **C140**: if Vesak is a Sunday, Singapore is closed on the Monday after it.  Missing for the full property: 2005. -/
theorem C140_singapore_monday_partial (n d : Date) (h : IsBuddhasBirthday n) (h2 : n.year ≤ 2023)
    (hy : n.year ≠ 2005) (hw : n.weekday = .Sun) (hd : DaysAfter n 8 8 d) :
    Closed Shipped.singapore.calendar d := by
  have h1 : 2004 ≤ n.year := (by decide : ∀ p ∈ buddhasBirthdays, 2004 ≤ p.1) _ h
  have hd : DaysAfter n 8 (8 + (0 : Nat)) d := hd
  exact LunarFestivals.closed_of (l := SpringAutumn.sundays (LunarFestivals.upTo 2004 2023 buddhasBirthdays))
    (except := [2005]) (by decide +kernel) (SpringAutumn.mem_sundays (LunarFestivals.mem_upTo h h1 h2) hw) (by simpa using hy) hd

/-- Monday, 16 May 2022. -/
example : Closed Shipped.singapore.calendar ⟨2022, 5, 16, by decide⟩ :=
  C140_singapore_monday_partial ⟨2022, 5, 8, by decide⟩ _ (by unfold IsBuddhasBirthday; decide) (by decide) (by decide)
    (by decide) (by unfold DaysAfter; decide)

/-- **C140**, violated: Singapore lists Vesak of 2008 a day early, on a Sunday, and is open on Monday, 19 May.  It is open
on the Monday after Sunday, 22 May 2005, and on Vesak of 2011, 2015, 2017 and 2018. -/
theorem C140_refuted_singapore :
    (∃ n d : Date, IsBuddhasBirthday n ∧ n.weekday = .Sun ∧ n.year = 2005 ∧ DaysAfter n 8 8 d ∧
      Open Shipped.singapore.calendar d) ∧
    ∀ y ∈ [(2008 : Int), 2011, 2015, 2017, 2018], ∃ n d : Date, IsBuddhasBirthday n ∧ n.year = y ∧
      DaysAfter n 7 7 d ∧ Open Shipped.singapore.calendar d := by
  refine ⟨⟨⟨2005, 5, 15, by decide⟩, ⟨2005, 5, 23, by decide⟩, by unfold IsBuddhasBirthday; decide, by decide, rfl,
    by unfold DaysAfter; decide, by unfold Open; decide +kernel⟩, ?_⟩
  intro y hy
  simp only [List.mem_cons, List.not_mem_nil, or_false] at hy
  rcases hy with rfl | rfl | rfl | rfl | rfl
  · exact ⟨⟨2008, 5, 12, by decide⟩, ⟨2008, 5, 19, by decide⟩, by unfold IsBuddhasBirthday; decide, rfl,
      by unfold DaysAfter; decide, by unfold Open; decide +kernel⟩
  · exact ⟨⟨2011, 5, 10, by decide⟩, ⟨2011, 5, 17, by decide⟩, by unfold IsBuddhasBirthday; decide, rfl,
      by unfold DaysAfter; decide, by unfold Open; decide +kernel⟩
  · exact ⟨⟨2015, 5, 25, by decide⟩, ⟨2015, 6, 1, by decide⟩, by unfold IsBuddhasBirthday; decide, rfl,
      by unfold DaysAfter; decide, by unfold Open; decide +kernel⟩
  · exact ⟨⟨2017, 5, 3, by decide⟩, ⟨2017, 5, 10, by decide⟩, by unfold IsBuddhasBirthday; decide, rfl,
      by unfold DaysAfter; decide, by unfold Open; decide +kernel⟩
  · exact ⟨⟨2018, 5, 22, by decide⟩, ⟨2018, 5, 29, by decide⟩, by unfold IsBuddhasBirthday; decide, rfl,
      by unfold DaysAfter; decide, by unfold Open; decide +kernel⟩

end Qlab.Props
