import Verif.Props.HolidaysEastAsia
import Verif.Props.HolidaysSouthAsia
import Verif.Spec.LunarFestivals

/-!
# The lunar new year, the Dragon Boat Festival and the Mid-Autumn Festival (C125)

The calendars of China, Hong Kong, Singapore, Taiwan and South Korea list the same festivals, each in its own table.
-/

set_option maxRecDepth 8000

namespace Qlab.Props

open Spec

namespace LunarFestivals

/-- Month and day `k` days after day `d` of month `m`, at most one month away. -/
def shift (y : Int) (m d : Nat) (k : Int) : Nat × Nat :=
  if (d : Int) + k < 1 then (m - 1, ((d : Int) + k + monthLen (isLeap y) (m - 1)).toNat)
  else if (d : Int) + k ≤ monthLen (isLeap y) m then (m, ((d : Int) + k).toNat)
  else (m + 1, ((d : Int) + k - monthLen (isLeap y) m).toNat)

/-- Serial number of a day. -/
def serial (y : Int) (m d : Nat) : Int := daysBeforeYear y + (daysBeforeMonth (isLeap y) m + d : Nat)

/-- The calendar is closed `k` days after the day `p`. -/
def closedAfter (s : Shipped) (p : Int × Nat × Nat) (k : Int) : Bool :=
  let q := shift p.1 p.2.1 p.2.2 k
  if h : IsValid p.1 q.1 q.2 then
    serial p.1 q.1 q.2 == serial p.1 p.2.1 p.2.2 + k &&
      decide (s.calendar.isBusinessDay ⟨p.1, q.1, q.2, h⟩ = .ok false)
  else false

/-- The calendar is closed from `lo` to `lo + n` days after every day of the list, up to the exceptions. -/
def closedAll (s : Shipped) (l : List (Int × Nat × Nat)) (lo : Int) (n : Nat) (except : List Int) : Bool :=
  l.all fun p => except.contains p.1 || (List.range (n + 1)).all fun k => closedAfter s p (lo + (k : Nat))

theorem closed_of {s : Shipped} {l : List (Int × Nat × Nat)} {lo : Int} {n : Nat} {except : List Int}
    (h : closedAll s l lo n except = true) {a d : Date} (ha : (a.year, a.month, a.day) ∈ l) (hx : a.year ∉ except)
    (hd : DaysAfter a lo (lo + n) d) : Closed s.calendar d := by
  have h := List.all_eq_true.1 h _ ha
  simp only [Bool.or_eq_true] at h
  rcases h with h | h
  · exact absurd (List.contains_iff_mem.1 h) hx
  · obtain ⟨h1, h2⟩ := hd
    have h := List.all_eq_true.1 h (Date.serialDate d - (Date.serialDate a + lo)).toNat
      (List.mem_range.2 (by omega))
    rw [show lo + ((Date.serialDate d - (Date.serialDate a + lo)).toNat : Int) =
      Date.serialDate d - Date.serialDate a by omega] at h
    unfold closedAfter at h
    dsimp only at h
    split at h
    case isTrue hv =>
      simp only [Bool.and_eq_true] at h
      have e := eq_of_beq h.1
      have hs : serial a.year a.month a.day = Date.serialDate a := rfl
      have : (⟨a.year, (shift a.year a.month a.day (Date.serialDate d - Date.serialDate a)).1,
          (shift a.year a.month a.day (Date.serialDate d - Date.serialDate a)).2, hv⟩ : NaiveDate) = d := by
        refine NaiveDate.serial_inj (e.trans ?_)
        rw [hs]
        have : Date.serialDate d = NaiveDate.numDaysFromCe d := rfl
        omega
      rw [← this]
      unfold Closed
      exact of_decide_eq_true h.2
    case isFalse => exact absurd h (by decide)

/-- The entries up to a year. -/
def upTo (y0 y1 : Int) (l : List (Int × Nat × Nat)) : List (Int × Nat × Nat) :=
  l.filter fun p => decide (y0 ≤ p.1) && decide (p.1 ≤ y1)

theorem mem_upTo {y0 y1 : Int} {l : List (Int × Nat × Nat)} {p : Int × Nat × Nat} (h : p ∈ l) (h0 : y0 ≤ p.1)
    (h1 : p.1 ≤ y1) : p ∈ upTo y0 y1 l := by
  unfold upTo; simp [h, h0, h1]

end LunarFestivals

open LunarFestivals

/-- Support for C125: the tables follow the moon.  From one new year to the next there are 12 or 13 months of 29 or 30
days, from the new year to the Mid-Autumn Festival seven or eight months and 14 days, to the Dragon Boat Festival four
or five months and 4 days. -/
theorem C125_tables :
    ((lunarNewYears.zip lunarNewYears.tail).all fun p =>
      [354, 355, 384, 385].contains (serial p.2.1 p.2.2.1 p.2.2.2 - serial p.1.1 p.1.2.1 p.1.2.2)) = true ∧
    ((lunarNewYears.zip midAutumns).all fun p => p.1.1 == p.2.1 &&
      [219, 220, 221, 249, 250, 251].contains (serial p.2.1 p.2.2.1 p.2.2.2 - serial p.1.1 p.1.2.1 p.1.2.2)) = true ∧
    ((lunarNewYears.zip dragonBoats).all fun p => p.1.1 == p.2.1 &&
      [121, 122, 123, 151, 152].contains (serial p.2.1 p.2.2.1 p.2.2.2 - serial p.1.1 p.1.2.1 p.1.2.2)) = true := by
  decide +kernel

/-- **C125**, China: closed on the first five days of the lunar year, 2004 to 2023. -/
theorem C125_china (n d : Date) (hn : IsLunarNewYear n) (h2 : n.year ≤ 2023) (hd : DaysAfter n 0 4 d) :
    Closed Shipped.china.calendar d := by
  have h1 : 2004 ≤ n.year := (by decide : ∀ p ∈ lunarNewYears, 2004 ≤ p.1) _ hn
  exact closed_of (lo := 0) (n := 4) (except := []) (l := upTo 2004 2023 lunarNewYears) (by decide +kernel)
    (mem_upTo hn h1 h2) (by simp) hd

/-- 22 January 2023 was a Sunday, and 25 January the fourth day. -/
example : Closed Shipped.china.calendar ⟨2023, 1, 25, by decide⟩ :=
  C125_china ⟨2023, 1, 22, by decide⟩ _ (by unfold IsLunarNewYear; decide) (by decide) (by unfold DaysAfter; decide)

/-- **C125**, Hong Kong: closed on the first three days of the lunar year, 2004 to 2024. -/
theorem C125_hongkong (n d : Date) (hn : IsLunarNewYear n) (h2 : n.year ≤ 2024) (hd : DaysAfter n 0 2 d) :
    Closed Shipped.hongKong.calendar d := by
  have h1 : 2004 ≤ n.year := (by decide : ∀ p ∈ lunarNewYears, 2004 ≤ p.1) _ hn
  exact closed_of (lo := 0) (n := 2) (except := []) (l := upTo 2004 2024 lunarNewYears) (by decide +kernel)
    (mem_upTo hn h1 h2) (by simp) hd

/-- 3 February 2022 was a Thursday, the third day of the year. -/
example : Closed Shipped.hongKong.calendar ⟨2022, 2, 3, by decide⟩ :=
  C125_hongkong ⟨2022, 2, 1, by decide⟩ _ (by unfold IsLunarNewYear; decide) (by decide)
    (by unfold DaysAfter; decide)

/-- **C125**, South Korea: closed on the lunar new year and on the days before and after it, 2004 to 2026. -/
theorem C125_southkorea (n d : Date) (hn : IsLunarNewYear n) (hd : DaysAfter n (-1) 1 d) :
    Closed Shipped.southKorea.calendar d := by
  have h1 : 2004 ≤ n.year := (by decide : ∀ p ∈ lunarNewYears, 2004 ≤ p.1) _ hn
  have h2 : n.year ≤ 2026 := (by decide : ∀ p ∈ lunarNewYears, p.1 ≤ 2026) _ hn
  exact closed_of (lo := -1) (n := 2) (except := []) (l := upTo 2004 2026 lunarNewYears) (by decide +kernel)
    (mem_upTo hn h1 h2) (by simp) hd

/-- 16 February 2026, the Monday before the new year. -/
example : Closed Shipped.southKorea.calendar ⟨2026, 2, 16, by decide⟩ :=
  C125_southkorea ⟨2026, 2, 17, by decide⟩ _ (by unfold IsLunarNewYear; decide) (by unfold DaysAfter; decide)

/-- **C125**, Taiwan: closed on the first five days of the lunar year, 2004 to 2024.  Missing for the full property:
2010. -/
theorem C125_taiwan_partial (n d : Date) (hn : IsLunarNewYear n) (h2 : n.year ≤ 2024) (hx : n.year ≠ 2010)
    (hd : DaysAfter n 0 4 d) : Closed Shipped.taiwan.calendar d := by
  have h1 : 2004 ≤ n.year := (by decide : ∀ p ∈ lunarNewYears, 2004 ≤ p.1) _ hn
  exact closed_of (lo := 0) (n := 4) (except := [2010]) (l := upTo 2004 2024 lunarNewYears) (by decide +kernel)
    (mem_upTo hn h1 h2) (by simpa using hx) hd

/-- 14 February 2024 was a Wednesday, the fifth day of the year. -/
example : Closed Shipped.taiwan.calendar ⟨2024, 2, 14, by decide⟩ :=
  C125_taiwan_partial ⟨2024, 2, 10, by decide⟩ _ (by unfold IsLunarNewYear; decide) (by decide) (by decide)
    (by unfold DaysAfter; decide)

/-- **C125**, Singapore: closed on the first two days of the lunar year, 2004 to 2024.  Missing for the full property:
2010, 2011, 2015, 2016 and 2018. -/
theorem C125_singapore_partial (n d : Date) (hn : IsLunarNewYear n) (h2 : n.year ≤ 2024)
    (hx : n.year ∉ [(2010 : Int), 2011, 2015, 2016, 2018]) (hd : DaysAfter n 0 1 d) :
    Closed Shipped.singapore.calendar d := by
  have h1 : 2004 ≤ n.year := (by decide : ∀ p ∈ lunarNewYears, 2004 ≤ p.1) _ hn
  exact closed_of (lo := 0) (n := 1) (except := [2010, 2011, 2015, 2016, 2018])
    (l := upTo 2004 2024 lunarNewYears) (by decide +kernel) (mem_upTo hn h1 h2) hx hd

/-- 2 February 2022 was a Wednesday, the second day of the year. -/
example : Closed Shipped.singapore.calendar ⟨2022, 2, 2, by decide⟩ :=
  C125_singapore_partial ⟨2022, 2, 1, by decide⟩ _ (by unfold IsLunarNewYear; decide) (by decide) (by decide)
    (by unfold DaysAfter; decide)

/-- **C125**, violated: Monday, 15 February 2010 was the second day of the lunar year.  Singapore and Taiwan are open on
it; both are closed in the middle of January 2010 instead.  Singapore has no lunar new year at all in 2011, 2015,
2016 and 2018. -/
theorem C125_refuted :
    (∃ n d : Date, IsLunarNewYear n ∧ n.year = 2010 ∧ DaysAfter n 1 1 d ∧ Open Shipped.singapore.calendar d ∧
      Open Shipped.taiwan.calendar d) ∧
    (∃ d : Date, d.year = 2010 ∧ d.month = 1 ∧ d.day = 15 ∧ d.weekday = .Fri ∧
      Closed Shipped.singapore.calendar d ∧ Closed Shipped.taiwan.calendar d) ∧
    (∀ y ∈ [(2011 : Int), 2015, 2016, 2018], ∃ n : Date, n.year = y ∧ IsLunarNewYear n ∧
      Open Shipped.singapore.calendar n) := by
  refine ⟨⟨⟨2010, 2, 14, by decide⟩, ⟨2010, 2, 15, by decide⟩, by unfold IsLunarNewYear; decide, rfl,
    by unfold DaysAfter; decide, by unfold Open; decide +kernel, by unfold Open; decide +kernel⟩,
    ⟨⟨2010, 1, 15, by decide⟩, rfl, rfl, rfl, by decide, by unfold Closed; decide +kernel,
      by unfold Closed; decide +kernel⟩, ?_⟩
  intro y hy
  simp only [List.mem_cons, List.not_mem_nil, or_false] at hy
  rcases hy with rfl | rfl | rfl | rfl
  · exact ⟨⟨2011, 2, 3, by decide⟩, rfl, by unfold IsLunarNewYear; decide, by unfold Open; decide +kernel⟩
  · exact ⟨⟨2015, 2, 19, by decide⟩, rfl, by unfold IsLunarNewYear; decide, by unfold Open; decide +kernel⟩
  · exact ⟨⟨2016, 2, 8, by decide⟩, rfl, by unfold IsLunarNewYear; decide, by unfold Open; decide +kernel⟩
  · exact ⟨⟨2018, 2, 16, by decide⟩, rfl, by unfold IsLunarNewYear; decide, by unfold Open; decide +kernel⟩

/-- **C125**: the Mid-Autumn Festival is closed in China from 2008 to 2023 and in Taiwan from 2004 to 2024, in Hong
Kong the day after it from 2004 to 2024, and in South Korea with the days before and after it from 2004 to 2026. -/
theorem C125_mid_autumn (n d : Date) (hn : IsMidAutumn n) :
    (2008 ≤ n.year → n.year ≤ 2023 → DaysAfter n 0 0 d → Closed Shipped.china.calendar d) ∧
    (n.year ≤ 2024 → DaysAfter n 0 0 d → Closed Shipped.taiwan.calendar d) ∧
    (n.year ≤ 2024 → DaysAfter n 1 1 d → Closed Shipped.hongKong.calendar d) ∧
    (DaysAfter n (-1) 1 d → Closed Shipped.southKorea.calendar d) := by
  have h1 : 2004 ≤ n.year := (by decide : ∀ p ∈ midAutumns, 2004 ≤ p.1) _ hn
  have h3 : n.year ≤ 2026 := (by decide : ∀ p ∈ midAutumns, p.1 ≤ 2026) _ hn
  refine ⟨fun h0 h2 hd => ?_, fun h2 hd => ?_, fun h2 hd => ?_, fun hd => ?_⟩
  · exact closed_of (lo := 0) (n := 0) (except := []) (l := upTo 2008 2023 midAutumns) (by decide +kernel)
      (mem_upTo hn h0 h2) (by simp) hd
  · exact closed_of (lo := 0) (n := 0) (except := []) (l := upTo 2004 2024 midAutumns) (by decide +kernel)
      (mem_upTo hn h1 h2) (by simp) hd
  · exact closed_of (lo := 1) (n := 0) (except := []) (l := upTo 2004 2024 midAutumns) (by decide +kernel)
      (mem_upTo hn h1 h2) (by simp) hd
  · exact closed_of (lo := -1) (n := 2) (except := []) (l := upTo 2004 2026 midAutumns) (by decide +kernel)
      (mem_upTo hn h1 h3) (by simp) hd

/-- 17 September 2024 was a Tuesday. -/
example : Closed Shipped.taiwan.calendar ⟨2024, 9, 17, by decide⟩ ∧
    Closed Shipped.hongKong.calendar ⟨2024, 9, 18, by decide⟩ :=
  ⟨(C125_mid_autumn ⟨2024, 9, 17, by decide⟩ _ (by unfold IsMidAutumn; decide)).2.1 (by decide)
      (by unfold DaysAfter; decide),
    (C125_mid_autumn ⟨2024, 9, 17, by decide⟩ _ (by unfold IsMidAutumn; decide)).2.2.1 (by decide)
      (by unfold DaysAfter; decide)⟩

/-- **C125**: the Dragon Boat Festival is closed in China from 2008 to 2023, in Hong Kong from 2004 to 2024, and in
Taiwan from 2004 to 2024.  Missing for the full property: Taiwan in 2010. -/
theorem C125_dragon_boat_partial (d : Date) (hd : IsDragonBoat d) :
    (2008 ≤ d.year → d.year ≤ 2023 → Closed Shipped.china.calendar d) ∧
    Closed Shipped.hongKong.calendar d ∧
    (d.year ≠ 2010 → Closed Shipped.taiwan.calendar d) := by
  have h1 : 2004 ≤ d.year := (by decide : ∀ p ∈ dragonBoats, 2004 ≤ p.1) _ hd
  have h3 : d.year ≤ 2024 := (by decide : ∀ p ∈ dragonBoats, p.1 ≤ 2024) _ hd
  have h0 : DaysAfter d 0 (0 + (0 : Nat)) d := by unfold DaysAfter; omega
  refine ⟨fun h0' h2 => ?_, ?_, fun hx => ?_⟩
  · exact closed_of (except := []) (l := upTo 2008 2023 dragonBoats) (by decide +kernel)
      (mem_upTo hd h0' h2) (by simp) h0
  · exact closed_of (except := []) (l := upTo 2004 2024 dragonBoats) (by decide +kernel)
      (mem_upTo hd h1 h3) (by simp) h0
  · exact closed_of (except := [2010]) (l := upTo 2004 2024 dragonBoats) (by decide +kernel)
      (mem_upTo hd h1 h3) (by simpa using hx) h0

/-- 10 June 2024 was a Monday. -/
example : Closed Shipped.taiwan.calendar ⟨2024, 6, 10, by decide⟩ ∧
    Closed Shipped.hongKong.calendar ⟨2024, 6, 10, by decide⟩ :=
  have h := C125_dragon_boat_partial ⟨2024, 6, 10, by decide⟩ (by unfold IsDragonBoat; decide)
  ⟨h.2.2 (by decide), h.2.1⟩

/-- **C125**, violated: Wednesday, 16 June 2010 was the Dragon Boat Festival.  Taiwan is open on it; 16 May, a Sunday,
is listed instead. -/
theorem C125_refuted_dragon_boat :
    ∃ d : Date, IsDragonBoat d ∧ d.year = 2010 ∧ d.weekday = .Wed ∧ Open Shipped.taiwan.calendar d :=
  ⟨⟨2010, 6, 16, by decide⟩, by unfold IsDragonBoat; decide, rfl, by decide, by unfold Open; decide +kernel⟩

end Qlab.Props
