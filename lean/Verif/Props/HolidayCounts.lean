import Verif.Lemmas.HolidayCountsUk
import Verif.Lemmas.HolidayCountsCanada
import Verif.Lemmas.HolidayCountsNewZealand
import Verif.Lemmas.CommonDayChecks
import Verif.Props.HolidaysAll
import Verif.Props.BusinessDayCounts

/-! # C137: the number of holidays of a year -/

namespace Qlab.Props

open Spec

theorem weekday_le_four (d : Date) : d.weekday.fromMonday ≤ 4 ↔ d.weekday ≠ .Sat ∧ d.weekday ≠ .Sun := by
  cases d.weekday <;> decide

/-- What the kernel has counted is the number of holidays. -/
theorem holidayCount_of {s : Shipped} (hi : ∀ d, RestDay s d ↔ IsSaturdayOrSunday d) {e : Nat → Nat} {i : Nat}
    {ls : List (List Holiday × Nat × Nat)} (hls : ls.length = 12) (hok : monthsOk s 1 ls = true)
    (hi1 : 1901 ≤ i) (hc : yearCounts e ls i (easterMondayTable.drop (i - 1901))
      (orthodoxEasterMondayTable.drop (i - 1901)) = true) {y : Int} (h1 : i ≤ y) (h2 : y ≤ 2199) :
    holidayCount s.calendar y = e y.toNat := by
  classical
  obtain ⟨em, he⟩ := easterMonday_total (y := y) (by omega) h2
  obtain ⟨om, ho⟩ := orthodoxEasterMonday_total (y := y) (by omega) h2
  have hj : i - 1901 + (y - i).toNat = (y - 1901).toNat := by omega
  have hcount := yearCounts_at hc (j := (y - i).toNat) (a := em) (b := om)
    (by rw [List.getElem?_drop, hj]; exact (easterLookup_eq_ok.1 he).2)
    (by rw [List.getElem?_drop, hj]; exact (easterLookup_eq_ok.1 ho).2)
  rw [show i + (y - i).toNat = y.toNat by omega] at hcount
  rw [← hcount, ← length_closedPairs, ← List.toFinset_card_of_nodup nodup_closedPairs, ← Set.ncard_coe_finset]
  unfold holidayCount
  have hyn : ((y.toNat : Nat) : Int) = y := by omega
  have hrow := easterMonday_row he
  have hwf : ∀ h ∈ holidays s, h.wf = true := fun h hh =>
    List.all_eq_true.1 allShipped_wf h (List.mem_flatMap.2 ⟨s, mem_allShipped s, hh⟩)
  -- the month and day determine the date in the year
  have hinj : Set.InjOn (fun d : Date => (d.month, d.day))
      {d : Date | d.year = y ∧ d.weekday ≠ .Sat ∧ d.weekday ≠ .Sun ∧ Closed s.calendar d} := by
    rintro ⟨y1, m1, d1, _⟩ ⟨a1, -⟩ ⟨y2, m2, d2, _⟩ ⟨a2, -⟩ hab
    simp only [Prod.mk.injEq] at hab
    simp only at a1 a2
    obtain ⟨rfl, rfl⟩ := hab
    subst a1 a2
    rfl
  rw [← hinj.ncard_image]
  refine congrArg Set.ncard (Set.ext ?_)
  rintro ⟨m, dd⟩
  simp only [Set.mem_image, Set.mem_ofPred_eq, List.coe_toFinset, mem_closedPairs, closedInMonth, mem_closedFrom]
  -- a date of the year is counted exactly if it is a closed weekday
  have key : ∀ d : Date, d.year = y → ∀ l a n, ls[d.month - 1]? = some (l, a, n) →
      (closedWeekday y.toNat d.month em om l d.day d.ordinal = true ↔
        d.weekday ≠ .Sat ∧ d.weekday ≠ .Sun ∧ Closed s.calendar d) ∧
      (closedWeekday y.toNat d.month em om l d.day d.ordinal = true → a ≤ d.day ∧ d.day < a + n) := by
    intro d hd l a n hl
    have hm1 := d.valid.2.2.1
    have hm2 := d.valid.2.2.2.1
    have hd1 := d.valid.2.2.2.2.1
    have hd2 := d.valid.2.2.2.2.2
    obtain ⟨hl1, hl2, -, -⟩ := monthsOk_at hok hl
    rw [show 1 + (d.month - 1) = d.month by omega] at hl1 hl2
    have hw : (d.ordinal + 364 - em) % 7 = d.weekday.fromMonday := by
      have a := weekday_fromMonday d
      have b : d.numDaysFromCe = daysBeforeYear d.year + d.ordinal := rfl
      rw [hd] at b
      omega
    have hml : monthLen (isLeap d.year) d.month ≤ monthLen true d.month := by
      have : ∀ b, ∀ m, m ≤ 12 → monthLen b m ≤ monthLen true m := by decide
      exact this _ _ hm2
    unfold closedWeekday
    rw [forced_eq, Bool.and_eq_true, Nat.ble_eq, hw, anyRec_iff, weekday_le_four]
    refine ⟨?_, fun ⟨_, h, hh, hf⟩ => exactIn_within hd1 (by omega) h hf (hl2 h hh)⟩
    rw [and_assoc]
    refine and_congr_right fun w1 => and_congr_right fun w2 => ?_
    rw [C66_closed_exactly s d (fun _ => by omega), hi]
    have hnw : ¬ IsSaturdayOrSunday d := fun h => h.elim w1 w2
    simp only [hnw, false_or]
    subst hl1
    have htest : ∀ h ∈ holidays s, (h.exactIn y.toNat d.month d.day d.weekday.fromMonday d.ordinal em om = true ↔
        h.Falls d) := fun h hh => by
      rw [exactIn_iff (by omega) h (hwf h hh), falls_iff (x := d) (em := em) (om := om) h (hwf h hh)
        (fun _ => ⟨em, om, by rw [hd]; exact he, by rw [hd]; exact ho, rfl, rfl, by omega⟩), hyn, hd]
    constructor
    · rintro ⟨h, hh, hf⟩
      have hh := (List.mem_filter.1 hh).1
      exact ⟨h, hh, (htest h hh).1 hf⟩
    · rintro ⟨h, hh, hf⟩
      exact ⟨h, List.mem_filter.2 ⟨hh, falls_mayMonth (by omega) (by omega) h (hwf h hh) hf⟩, (htest h hh).2 hf⟩
  have hord : ∀ d : Date, d.year = y → ∀ a, a ≤ d.day →
      daysBeforeMonth (isLeap y) d.month + a + (d.day - a) = d.ordinal := by
    intro d hd a ha
    have : d.ordinal = daysBeforeMonth (isLeap y) d.month + d.day := by rw [← hd]; rfl
    omega
  constructor
  · rintro ⟨d, ⟨hd, hcl⟩, hmd⟩
    simp only [Prod.mk.injEq] at hmd
    obtain ⟨rfl, rfl⟩ := hmd
    have hm1 := d.valid.2.2.1
    have hm2 := d.valid.2.2.2.1
    obtain ⟨⟨l, a, n⟩, hl⟩ : ∃ l, ls[d.month - 1]? = some l :=
      ⟨_, List.getElem?_eq_getElem (by rw [hls]; omega)⟩
    obtain ⟨k1, k2⟩ := key d hd l a n hl
    obtain ⟨k3, k4⟩ := k2 (k1.2 hcl)
    refine ⟨hm1, l, a, n, hl, k3, k4, ?_⟩
    rw [hyn, hord d hd a k3]
    exact k1.2 hcl
  · rintro ⟨hm1, l, a, n, hl, hd1, hd2, hcl⟩
    have hm2 : m - 1 < 12 := by
      have := (List.getElem?_eq_some_iff.1 hl).1
      omega
    obtain ⟨-, -, ha, hn⟩ := monthsOk_at hok hl
    rw [show 1 + (m - 1) = m by omega] at hn
    have hml : monthLen false m ≤ monthLen (isLeap y) m := by
      have : ∀ b, ∀ m, m ≤ 12 → monthLen false m ≤ monthLen b m := by decide
      exact this _ _ (by omega)
    let d : Date := ⟨y, m, dd, by unfold minYear; omega, by unfold maxYear; omega, hm1, by omega, by omega, by omega⟩
    rw [hyn, hord d rfl a hd1] at hcl
    exact ⟨d, ⟨rfl, (key d rfl l a n hl).1.1 hcl⟩, rfl⟩

/-- **C137.** The British calendars have exactly eight holidays in every year from 1901 to 2199, and one or two more in
the years with an extra one: whatever the weekdays of Christmas, Boxing Day and New Year's Day are, none is lost. -/
theorem C137_unitedKingdom (mk : Option UnitedKingdomMarket) (y : Int) (h1 : 1901 ≤ y) (h2 : y ≤ 2199) :
    holidayCount (Shipped.unitedKingdom mk).calendar y = britishHolidays y := by
  have := holidayCount_of (s := .unitedKingdom mk) (fun _ => Iff.rfl) (i := 1901) rfl (ukMonths_ok mk) (by omega)
    ukCounts h1 h2
  rwa [show ((y.toNat : Nat) : Int) = y by omega] at this

example : holidayCount (Shipped.unitedKingdom none).calendar 2021 = 8 :=
  C137_unitedKingdom none 2021 (by decide) (by decide)

/-- **C137.** So do the Canadian calendars: ten, from 2008 eleven and from 2021 twelve (one fewer on the exchange). -/
theorem C137_canada (mk : Option CanadaMarket) (y : Int) (h1 : 1901 ≤ y) (h2 : y ≤ 2199) :
    holidayCount (Shipped.canada mk).calendar y = canadianHolidays mk y := by
  have hn : ∀ mk, mk ≠ some .TSX → holidayCount (Shipped.canada mk).calendar y = canadianHolidays mk y := by
    intro mk hmk
    have hb : holidays (.canada mk) = holidays (.canada none) := by
      rcases mk with _ | _ | _
      · rfl
      · rfl
      · exact absurd rfl hmk
    have hok : ∀ ls m, monthsOk (.canada mk) m ls = monthsOk (.canada none) m ls := by
      intro ls
      induction ls with
      | nil => intro m; rfl
      | cons a ls ih => intro m; obtain ⟨l, a, n⟩ := a; rw [monthsOk, monthsOk, ih, hb]
    have := holidayCount_of (s := .canada mk) (fun _ => Iff.rfl) (i := 1901) rfl
      (by rw [hok]; exact canadaMonths_ok) (by omega) canadaCounts h1 h2
    rw [show ((y.toNat : Nat) : Int) = y by omega] at this
    rw [this]
    unfold canadianHolidays
    rw [if_neg hmk, if_neg (by decide)]
  by_cases hmk : mk = some .TSX
  · subst hmk
    have := holidayCount_of (s := .canada (some .TSX)) (fun _ => Iff.rfl) (i := 1901) rfl tsxMonths_ok
      (by omega) tsxCounts h1 h2
    rwa [show ((y.toNat : Nat) : Int) = y by omega] at this
  · exact hn mk hmk

example : holidayCount (Shipped.canada none).calendar 2022 = 12 := C137_canada none 2022 (by decide) (by decide)

/-- **C137.** And the New Zealand calendar from 2014 on: eleven, twelve with Matariki, and one fewer in the years in
which ANZAC Day is kept on Easter Monday. -/
theorem C137_newZealand (y : Int) (h1 : 2014 ≤ y) (h2 : y ≤ 2199) :
    holidayCount Shipped.newZealand.calendar y = newZealandHolidays y := by
  have := holidayCount_of (s := .newZealand) (fun _ => Iff.rfl) (i := 2014) rfl newZealandMonths_ok
    (by omega) newZealandCounts h1 h2
  rwa [show ((y.toNat : Nat) : Int) = y by omega] at this

example : holidayCount Shipped.newZealand.calendar 2038 = 11 := C137_newZealand 2038 (by decide) (by decide)

/-- **C137.** The business days of a whole year (from 1 January, included with the flag `false`, to 31 December) are
its Mondays to Fridays less its holidays. -/
theorem C137_business_days (c : Calendar) (hc : ∀ d, IsSaturdayOrSunday d → ¬ Open c d) (f t : Date) (n m : Int)
    (hy : f.year = t.year) (hf : f.month = 1 ∧ f.day = 1) (ht : t.month = 12 ∧ t.day = 31)
    (h : c.businessDaysBetween f t (some false) (some true) = .ok n)
    (hw : Calendar.weekendsOnly.businessDaysBetween f t (some false) (some true) = .ok m) :
    n = m - holidayCount c f.year := by
  classical
  have hft : f ≤ t := by
    show NaiveDate.blt t f = false
    unfold NaiveDate.blt
    simp [hy, hf, ht]
  -- the dates of the year are those counted
  have hin : ∀ d : Date, d.year = f.year ↔ Date.serialDate f ≤ Date.serialDate d ∧
      Date.serialDate d < Date.serialDate t + 1 := by
    intro d
    have e : (Date.serialDate d < Date.serialDate t + 1) ↔ d ≤ t := by
      rw [NaiveDate.le_iff_serial]; exact Int.lt_add_one_iff
    rw [e, show Date.serialDate f ≤ Date.serialDate d ↔ f ≤ d from (NaiveDate.le_iff_serial f d).symm]
    show _ ↔ NaiveDate.blt d f = false ∧ NaiveDate.blt t d = false
    have hm1 := d.valid.2.2.1
    have hm2 := d.valid.2.2.2.1
    have hd1 := d.valid.2.2.2.2.1
    have hd2 := d.valid.2.2.2.2.2
    have hml : monthLen (isLeap d.year) d.month ≤ 31 := by
      have : ∀ b, ∀ m, m ≤ 12 → monthLen b m ≤ 31 := by decide
      exact this _ _ hm2
    unfold NaiveDate.blt
    simp [hf, ht, ← hy]
    omega
  have hans : AnswersOn c (Date.serialDate f) (Date.serialDate t + 1) := by
    have h' := h
    unfold Calendar.businessDaysBetween at h'
    rw [if_neg ((NaiveDate.not_lt_iff _ _).2 hft)] at h'
    have := ((forward_eq_ok c f t _ _ n).1 h').2.2.1
    simpa [firstCounted, endCounted] using this
  have en := C25_count c f t _ _ n hft h
  have em := C25_count _ f t _ _ m hft hw
  simp only [firstCounted, endCounted, Option.getD_some, if_true, Bool.false_eq_true, if_false, Int.add_zero] at en em
  have hW : ∀ d : Date, Open .weekendsOnly d ↔ ¬ IsSaturdayOrSunday d := by
    intro d
    unfold Open Calendar.weekendsOnly IsSaturdayOrSunday
    simp only [Rust.ok.injEq, Bool.not_eq_true', isWeekend]
    cases d.weekday <;> simp
  have hcard : holidayCount c f.year = ((Finset.Ico (Date.serialDate f) (Date.serialDate t + 1)).filter
      fun s => ∃ d : Date, Date.serialDate d = s ∧ ¬ IsSaturdayOrSunday d ∧ Closed c d).card := by
    unfold holidayCount
    rw [← Set.ncard_coe_finset, ← Set.InjOn.ncard_image (f := Date.serialDate)
      (fun a _ b _ hab => C03_serial_injective a b hab)]
    refine congrArg Set.ncard (Set.ext fun s => ?_)
    simp only [Set.mem_image, Set.mem_ofPred_eq, Finset.coe_filter, Finset.mem_Ico]
    constructor
    · rintro ⟨d, ⟨h1, h2, h3, h4⟩, rfl⟩
      exact ⟨(hin d).1 h1, d, rfl, fun h => h.elim h2 h3, h4⟩
    · rintro ⟨h1, d, rfl, h2, h3⟩
      exact ⟨d, ⟨(hin d).2 h1, fun h => h2 (.inl h), fun h => h2 (.inr h), h3⟩, rfl⟩
  have hsum : openDays .weekendsOnly (Date.serialDate f) (Date.serialDate t + 1) =
      openDays c (Date.serialDate f) (Date.serialDate t + 1) + holidayCount c f.year := by
    rw [hcard]
    unfold openDays
    rw [← Finset.card_union_of_disjoint]
    · refine congrArg Finset.card (Finset.ext fun s => ?_)
      simp only [Finset.mem_union, Finset.mem_filter]
      constructor
      · rintro ⟨h1, d, rfl, h2⟩
        rw [hW] at h2
        have hna := hans d (Finset.mem_Ico.1 h1).1 (Finset.mem_Ico.1 h1).2
        rcases hb : c.isBusinessDay d with b | _
        · cases b
          · exact .inr ⟨h1, d, rfl, h2, hb⟩
          · exact .inl ⟨h1, d, rfl, hb⟩
        · exact absurd hb hna
      · rintro (⟨h1, d, rfl, h2⟩ | ⟨h1, d, rfl, h2, -⟩)
        · exact ⟨h1, d, rfl, (hW d).2 fun hs => hc d hs h2⟩
        · exact ⟨h1, d, rfl, (hW d).2 h2⟩
    · rw [Finset.disjoint_left]
      intro s h1 h2
      obtain ⟨-, d, rfl, h3⟩ := Finset.mem_filter.1 h1
      obtain ⟨-, e, he, -, h4⟩ := Finset.mem_filter.1 h2
      obtain rfl := C03_serial_injective e d he
      unfold Open at h3
      unfold Closed at h4
      rw [h3] at h4
      cases h4
  omega

/-- In 2022, with 260 Mondays to Fridays, the British calendar has 250 business days. -/
example : (250 : Int) = 260 - holidayCount (Shipped.unitedKingdom none).calendar 2022 :=
  C137_business_days (Shipped.unitedKingdom none).calendar
    (fun d hd => C28_weekend_closed _ d (by decide) (by decide) hd)
    ⟨2022, 1, 1, by decide⟩ ⟨2022, 12, 31, by decide⟩ 250 260 rfl ⟨rfl, rfl⟩ ⟨rfl, rfl⟩
    (by decide +kernel) (by decide +kernel)

end Qlab.Props
