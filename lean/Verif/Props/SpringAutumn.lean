import Verif.Props.LunarFestivals
import Verif.Spec.SpringAutumn

/-!
# Ching Ming, Buddha's birthday and Chung Yeung (C136)
-/

set_option maxRecDepth 8000

namespace Qlab.Props

open Spec LunarFestivals

namespace SpringAutumn

/-- The days of Ching Ming as a table. -/
def chingMings : List (Int × Nat × Nat) :=
  (List.range 23).map fun k => (2004 + (k : Nat), 4, (chingMingDay (2004 + (k : Nat))).toNat)

theorem mem_chingMings {d : Date} (h : IsChingMing d) : (d.year, d.month, d.day) ∈ chingMings := by
  obtain ⟨h0, h1, hm, hd⟩ := h
  refine List.mem_map.2 ⟨(d.year - 2004).toNat, List.mem_range.2 (by omega), ?_⟩
  have e : 2004 + ((d.year - 2004).toNat : Int) = d.year := by omega
  rw [e, hm, ← hd]
  rfl

/-- The entries that are Sundays. -/
def sundays (l : List (Int × Nat × Nat)) : List (Int × Nat × Nat) :=
  l.filter fun p => if h : IsValid p.1 p.2.1 p.2.2 then (⟨p.1, p.2.1, p.2.2, h⟩ : NaiveDate).weekday == .Sun else false

theorem mem_sundays {l : List (Int × Nat × Nat)} {d : Date} (h : (d.year, d.month, d.day) ∈ l)
    (hw : d.weekday = .Sun) : (d.year, d.month, d.day) ∈ sundays l := by
  refine List.mem_filter.2 ⟨h, ?_⟩
  have hv : IsValid d.year d.month d.day := d.valid
  simp only [hv, dite_true]
  exact beq_iff_eq.2 hw

theorem same (d : Date) : DaysAfter d 0 (0 + (0 : Nat)) d := by unfold DaysAfter; omega

end SpringAutumn

open SpringAutumn

/-- Support for C136: the tables follow the moon.  From Buddha's birthday to the Dragon Boat Festival there are one or two
months of 29 or 30 days less three days, from the Mid-Autumn Festival to Chung Yeung one month less six days. -/
theorem C136_tables :
    ((buddhasBirthdays.zip dragonBoats).all fun p => p.1.1 == p.2.1 &&
      [26, 27, 55, 56].contains (serial p.2.1 p.2.2.1 p.2.2.2 - serial p.1.1 p.1.2.1 p.1.2.2)) = true ∧
    ((midAutumns.zip chungYeungs).all fun p => p.1.1 == p.2.1 &&
      [23, 24].contains (serial p.2.1 p.2.2.1 p.2.2.2 - serial p.1.1 p.1.2.1 p.1.2.2)) = true := by
  decide +kernel

/-- **C136**, Hong Kong: closed on Ching Ming, Buddha's birthday and Chung Yeung, 2004 to 2024. -/
theorem C136_hongkong (d : Date) (h : IsChingMing d ∨ IsBuddhasBirthday d ∨ IsChungYeung d) (h2 : d.year ≤ 2024) :
    Closed Shipped.hongKong.calendar d := by
  rcases h with h | h | h
  · exact closed_of (except := []) (l := upTo 2004 2024 chingMings) (by decide +kernel)
      (mem_upTo (mem_chingMings h) h.1 h2) (by simp) (same d)
  · have h1 : 2004 ≤ d.year := (by decide : ∀ p ∈ buddhasBirthdays, 2004 ≤ p.1) _ h
    exact closed_of (except := []) (l := upTo 2004 2024 buddhasBirthdays) (by decide +kernel)
      (mem_upTo h h1 h2) (by simp) (same d)
  · have h1 : 2004 ≤ d.year := (by decide : ∀ p ∈ chungYeungs, 2004 ≤ p.1) _ h
    exact closed_of (except := []) (l := upTo 2004 2024 chungYeungs) (by decide +kernel)
      (mem_upTo h h1 h2) (by simp) (same d)

/-- 4 April, 15 May and 11 October 2024. -/
example : Closed Shipped.hongKong.calendar ⟨2024, 4, 4, by decide⟩ ∧
    Closed Shipped.hongKong.calendar ⟨2024, 5, 15, by decide⟩ ∧
    Closed Shipped.hongKong.calendar ⟨2024, 10, 11, by decide⟩ :=
  ⟨C136_hongkong _ (.inl (by unfold IsChingMing; decide)) (by decide),
    C136_hongkong _ (.inr (.inl (by unfold IsBuddhasBirthday; decide))) (by decide),
    C136_hongkong _ (.inr (.inr (by unfold IsChungYeung; decide))) (by decide)⟩

/-- **C136**, Hong Kong: if the festival is a Sunday, the Monday after it is closed, 2004 to 2024.  Missing for the full
property: Buddha's birthday in 2019, and a second day where that Monday is a holiday of its own. -/
theorem C136_hongkong_monday_partial (n d : Date) (h : IsChingMing n ∨ IsBuddhasBirthday n ∧ n.year ≠ 2019 ∨ IsChungYeung n)
    (h2 : n.year ≤ 2024) (hw : n.weekday = .Sun) (hd : DaysAfter n 1 1 d) : Closed Shipped.hongKong.calendar d := by
  have hd' : DaysAfter n 1 (1 + (0 : Nat)) d := hd
  rcases h with h | ⟨h, hx⟩ | h
  · exact closed_of (except := []) (l := sundays (upTo 2004 2024 chingMings)) (by decide +kernel)
      (mem_sundays (mem_upTo (mem_chingMings h) h.1 h2) hw) (by simp) hd'
  · have h1 : 2004 ≤ n.year := (by decide : ∀ p ∈ buddhasBirthdays, 2004 ≤ p.1) _ h
    exact closed_of (except := [2019]) (l := sundays (upTo 2004 2024 buddhasBirthdays)) (by decide +kernel)
      (mem_sundays (mem_upTo h h1 h2) hw) (by simpa using hx) hd'
  · have h1 : 2004 ≤ n.year := (by decide : ∀ p ∈ chungYeungs, 2004 ≤ p.1) _ h
    exact closed_of (except := []) (l := sundays (upTo 2004 2024 chungYeungs)) (by decide +kernel)
      (mem_sundays (mem_upTo h h1 h2) hw) (by simp) hd'

/-- Monday, 9 May 2022. -/
example : Closed Shipped.hongKong.calendar ⟨2022, 5, 9, by decide⟩ :=
  C136_hongkong_monday_partial ⟨2022, 5, 8, by decide⟩ _ (.inr (.inl ⟨by unfold IsBuddhasBirthday; decide, by decide⟩))
    (by decide) (by decide) (by unfold DaysAfter; decide)

/-- **C136**, violated: Sunday, 12 May 2019 was Buddha's birthday.  Hong Kong is open on the Monday after it. -/
theorem C136_refuted_buddha : ∃ n d : Date, IsBuddhasBirthday n ∧ n.weekday = .Sun ∧ DaysAfter n 1 1 d ∧
    Open Shipped.hongKong.calendar d :=
  ⟨⟨2019, 5, 12, by decide⟩, ⟨2019, 5, 13, by decide⟩, by unfold IsBuddhasBirthday; decide, by decide,
    by unfold DaysAfter; decide, by unfold Open; decide +kernel⟩

/-- **C136**, violated: in 2015 and in 2021 Ching Ming was Easter Sunday, so that the Monday was a holiday of its own and
the Tuesday stood in for Ching Ming.  Hong Kong is closed on that Tuesday in 2015, but open in 2021. -/
theorem C136_refuted_ching_ming :
    (∃ n t : Date, n.year = 2015 ∧ IsChingMing n ∧ n.weekday = .Sun ∧ DaysAfter n 2 2 t ∧
      Closed Shipped.hongKong.calendar t) ∧
    ∃ n t : Date, n.year = 2021 ∧ IsChingMing n ∧ n.weekday = .Sun ∧ DaysAfter n 2 2 t ∧
      Open Shipped.hongKong.calendar t :=
  ⟨⟨⟨2015, 4, 5, by decide⟩, ⟨2015, 4, 7, by decide⟩, rfl, by unfold IsChingMing; decide, by decide,
    by unfold DaysAfter; decide, by unfold Closed; decide +kernel⟩,
  ⟨⟨2021, 4, 4, by decide⟩, ⟨2021, 4, 6, by decide⟩, rfl, by unfold IsChingMing; decide, by decide,
    by unfold DaysAfter; decide, by unfold Open; decide +kernel⟩⟩

/-- **C136**, South Korea: closed on Buddha's birthday, 2004 to 2026. -/
theorem C136_southkorea (d : Date) (h : IsBuddhasBirthdayInKorea d) : Closed Shipped.southKorea.calendar d := by
  unfold IsBuddhasBirthdayInKorea at h
  split at h
  case isTrue hy =>
    have hm : (d.year, d.month, d.day) ∈ [((2023 : Int), 5, 27)] := by simp [hy, h.1, h.2]
    exact closed_of (except := []) (l := [((2023 : Int), 5, 27)]) (by decide +kernel) hm (by simp) (same d)
  case isFalse hy =>
    exact closed_of (except := [2023]) (l := buddhasBirthdays) (by decide +kernel) h (by simpa using hy) (same d)

/-- Wednesday, 15 May 2024. -/
example : Closed Shipped.southKorea.calendar ⟨2024, 5, 15, by decide⟩ :=
  C136_southkorea _ (by unfold IsBuddhasBirthdayInKorea IsBuddhasBirthday; decide)

/-- **C136**: China is closed on Ching Ming from 2008 to 2023, Taiwan from 2004 to 2024. -/
theorem C136_ching_ming (d : Date) (h : IsChingMing d) :
    (2008 ≤ d.year → d.year ≤ 2023 → Closed Shipped.china.calendar d) ∧
    (d.year ≤ 2024 → Closed Shipped.taiwan.calendar d) :=
  ⟨fun h1 h2 => closed_of (except := []) (l := upTo 2008 2023 chingMings) (by decide +kernel)
      (mem_upTo (mem_chingMings h) h1 h2) (by simp) (same d),
    fun h2 => closed_of (except := []) (l := upTo 2004 2024 chingMings) (by decide +kernel)
      (mem_upTo (mem_chingMings h) h.1 h2) (by simp) (same d)⟩

/-- Wednesday, 5 April 2023. -/
example : Closed Shipped.china.calendar ⟨2023, 4, 5, by decide⟩ :=
  (C136_ching_ming _ (by unfold IsChingMing; decide)).1 (by decide) (by decide)

end Qlab.Props
