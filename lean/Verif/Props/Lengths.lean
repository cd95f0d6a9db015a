import Verif.Props.Bond
import Verif.Props.DayCount
import Verif.Spec.Periods

/-!
# How long periods are (C101), how far conventions differ (C102), and the cycles of the calendar (C103)
-/

namespace Qlab.Props

open Spec

variable {K : Type} [Field K] [LinearOrder K] [IsStrictOrderedRing K] [FromInt K] [ExactCast K]

/-! ## C101 -/

/-- The two ways to be `n ≤ 12` months later. -/
theorem months_later_cases {d r : Date} {n : Nat} (h1 : 1 ≤ n) (h2 : n ≤ 12)
    (h : monthNumber r.year r.month = monthNumber d.year d.month + n) :
    (r.year = d.year ∧ r.month = d.month + n) ∨ (r.year = d.year + 1 ∧ r.month + 12 = d.month + n) := by
  have := d.month_pos
  have := d.month_le
  have := r.month_pos
  have := r.month_le
  unfold monthNumber at h
  omega

/-- Least and greatest number of days in `n` months that start in month `m` of a year (`l`: it is leap, `l'`: the next
one is), month ends cut. -/
theorem month_days : ∀ l l' : Bool, (l && l') = false → ∀ q ∈ ([(1, 28, 31), (2, 59, 62), (3, 89, 92), (4, 120, 123),
      (6, 181, 184), (12, 365, 366)] : List (Nat × Nat × Nat)), ∀ m < 13, 1 ≤ m → ∀ e < 32, 1 ≤ e →
    e ≤ monthLen l m →
    if m + q.1 ≤ 12 then
      daysBeforeMonth l m + e + q.2.1 ≤ daysBeforeMonth l (m + q.1) + min e (monthLen l (m + q.1)) ∧
      daysBeforeMonth l (m + q.1) + min e (monthLen l (m + q.1)) ≤ daysBeforeMonth l m + e + q.2.2
    else
      daysBeforeMonth l m + e + q.2.1 ≤
        365 + (if l then 1 else 0) + daysBeforeMonth l' (m + q.1 - 12) + min e (monthLen l' (m + q.1 - 12)) ∧
      365 + (if l then 1 else 0) + daysBeforeMonth l' (m + q.1 - 12) + min e (monthLen l' (m + q.1 - 12)) ≤
        daysBeforeMonth l m + e + q.2.2 := by
  decide +kernel

theorem clamped_eq {e : Nat} {r : Date} (h : IsSameDayClamped e r.year r.month r.day) :
    r.day = min e (monthLen (isLeap r.year) r.month) := by
  have := r.day_le
  rcases h with h | ⟨h, h'⟩
  · omega
  · have := (isLastDay_iff _ _ _).1 h'
    omega

theorem leap_not_twice (y : Int) : (isLeap y && isLeap (y + 1)) = false := by
  cases h : isLeap y
  · rfl
  · have h1 := (isLeap_iff y).1 h
    have : isLeap (y + 1) = false := by
      rw [isLeap_false_iff]; omega
    rw [this]; rfl

theorem months_later_days {d r : Date} {n lo hi : Nat}
    (hq : (n, lo, hi) ∈ ([(1, 28, 31), (2, 59, 62), (3, 89, 92), (4, 120, 123), (6, 181, 184), (12, 365, 366)] :
      List (Nat × Nat × Nat))) (h : IsMonthsLater n d r) : (lo : Int) ≤ Date.sub r d ∧ Date.sub r d ≤ hi := by
  have hn : 1 ≤ n ∧ n ≤ 12 := by
    simp only [List.mem_cons, Prod.mk.injEq, List.not_mem_nil, or_false] at hq
    omega
  have hm1 := d.month_pos
  have hm2 := d.month_le
  have hd1 := d.day_pos
  have hd2 := d.day_le
  have hd3 := monthLen_le (isLeap d.year) d.month
  have hk := month_days (isLeap d.year) (isLeap (d.year + 1)) (leap_not_twice _) (n, lo, hi) hq d.month (by omega) hm1
    d.day (by omega) hd1 hd2
  have hr := clamped_eq h.2
  have hs := daysBeforeYear_succ d.year
  show (lo : Int) ≤ r.numDaysFromCe - d.numDaysFromCe ∧ r.numDaysFromCe - d.numDaysFromCe ≤ hi
  unfold NaiveDate.numDaysFromCe NaiveDate.ordinal
  rcases months_later_cases hn.1 hn.2 h.1 with ⟨e1, e2⟩ | ⟨e1, e2⟩
  · have hr1 := r.month_le
    rw [e1, e2] at hr
    rw [if_pos (by show d.month + n ≤ 12; omega)] at hk
    rw [e1, e2, hr]
    push_cast
    simp only at hk
    omega
  · have hr1 := r.month_pos
    have e3 : r.month = d.month + n - 12 := by omega
    rw [e1, e3] at hr
    rw [if_neg (by show ¬ d.month + n ≤ 12; omega)] at hk
    rw [e1, e3, hr, hs]
    simp only at hk
    cases hl : isLeap d.year <;> simp only [hl, if_true, Bool.false_eq_true, if_false] at hk ⊢ <;> push_cast <;> omega

/-- **C101.** One month has 28 to 31 days, two have 59 to 62, a quarter 89 to 92, four months 120 to 123, half a year 181
to 184 and a year 365 or 366, wherever the period starts and however the month end is cut. -/
theorem C101_months_days (d r : Date) (n lo hi : Nat)
    (hq : (n, lo, hi) ∈ ([(1, 28, 31), (2, 59, 62), (3, 89, 92), (4, 120, 123), (6, 181, 184), (12, 365, 366)] :
      List (Nat × Nat × Nat))) (h : Date.checkedAddMonths d n = some r) :
    (lo : Int) ≤ Date.sub r d ∧ Date.sub r d ≤ hi :=
  months_later_days hq ((C07_add_months d r n).1 h)

/-- Half a year from 30 August 2023, from 31 August 2022 and from 1 March 2023; one month from 31 January 2023. -/
example : Date.checkedAddMonths ⟨2023, 8, 30, by decide⟩ 6 = some ⟨2024, 2, 29, by decide⟩ ∧
    Date.sub ⟨2024, 2, 29, by decide⟩ ⟨2023, 8, 30, by decide⟩ = 183 ∧
    Date.sub ⟨2023, 2, 28, by decide⟩ ⟨2022, 8, 31, by decide⟩ = 181 ∧
    Date.sub ⟨2023, 9, 1, by decide⟩ ⟨2023, 3, 1, by decide⟩ = 184 ∧
    Date.checkedAddMonths ⟨2023, 1, 31, by decide⟩ 1 = some ⟨2023, 2, 28, by decide⟩ := by decide

theorem thirty360_months {d r : Date} {n : Nat} (h : IsMonthsLater n d r) :
    30 * (n : Int) - 2 ≤ thirty360Days d r ∧ thirty360Days d r ≤ 30 * n ∧
    (d.day ≤ 28 ∨ r.month ≠ 2 → thirty360Days d r = 30 * n) := by
  obtain ⟨h1, h2⟩ := h
  have hr := clamped_eq h2
  have g1 := r.month_pos
  have g2 := r.month_le
  have g3 := monthLen_ge (isLeap r.year) g1 g2
  have g4 := d.day_le
  have g5 := monthLen_le (isLeap d.year) d.month
  have g6 : r.month ≠ 2 → 30 ≤ monthLen (isLeap r.year) r.month := by
    intro hne
    have : ∀ l : Bool, ∀ m < 13, 1 ≤ m → m ≠ 2 → 30 ≤ monthLen l m := by decide
    exact this _ _ (by omega) g1 hne
  unfold monthNumber at h1
  unfold thirty360Days
  refine ⟨by omega, by omega, ?_⟩
  rintro (h | h)
  · omega
  · have := g6 h
    omega

/-- **C101.** Under 30/360 a month counts 30 days: `n` months give exactly `30 n` days, hence the fraction `n / 12`, unless
the date was cut to the end of February, and then at most two days are missing. -/
theorem C101_months_thirty360 (d r : Date) (n : Nat) (h : Date.checkedAddMonths d n = some r) :
    ∃ t : K, DayCount.thirty360 false d r = .ok (.ok t) ∧ (n : K) / 12 - 2 / 360 ≤ t ∧ t ≤ n / 12 ∧
      (d.day ≤ 28 ∨ r.month ≠ 2 → t = n / 12) := by
  have hm : IsMonthsLater n d r := (C07_add_months d r n).1 h
  obtain ⟨h1, h2, h3⟩ := thirty360_months hm
  have hdr : d ≤ r := by
    rcases Nat.eq_zero_or_pos n with rfl | hn
    · rw [C09_add_months_zero] at h; injection h with h; rw [h]
    · exact date_le_of_lt (C09_add_months_lt d r n hn h)
  obtain ⟨t, -, -, ht, -, -, he, -⟩ := C19_thirty360_fraction (K := K) d r r hdr (date_le_refl _)
  have e1 : ((30 * (n : Int) - 2 : Int) : K) ≤ ((thirty360Days d r : Int) : K) := by exact_mod_cast h1
  have e2 : ((thirty360Days d r : Int) : K) ≤ ((30 * (n : Int) : Int) : K) := by exact_mod_cast h2
  push_cast at e1 e2
  refine ⟨t, ht, ?_, ?_, fun hc => ?_⟩
  · linarith
  · linarith
  · have e3 : ((thirty360Days d r : Int) : K) = ((30 * (n : Int) : Int) : K) := by rw [h3 hc]
    push_cast at e3
    linarith

/-- 31 August 2022 plus six months is 28 February 2023: 178 days instead of 180. -/
example : Date.checkedAddMonths ⟨2022, 8, 31, by decide⟩ 6 = some ⟨2023, 2, 28, by decide⟩ ∧
    thirty360Days ⟨2022, 8, 31, by decide⟩ ⟨2023, 2, 28, by decide⟩ = 178 ∧
    thirty360Days ⟨2022, 5, 31, by decide⟩ ⟨2022, 11, 30, by decide⟩ = 180 := by decide

/-- **C101.** Consecutive coupons of a bond fall due 181 to 184 days apart and are paid 179 to 186 days apart; if the first
coupon date is not after the 28th of its month they are exactly half a year apart under 30/360. -/
theorem C101_coupon_periods {V : Type} [Add V] [Mul V] [Div V] [FromInt V] {id : String}
    {issue first pen mat : Date} {f : Frequency} {rate face : V} {b : Bond V}
    (h : Bond.new id issue first pen mat f rate face = .ok (some b)) (k : Nat) (hk : k + 2 < b.bondCashFlows.length) :
    (181 ≤ Date.sub b.bondCashFlows[k + 1].dueDate b.bondCashFlows[k].dueDate ∧
      Date.sub b.bondCashFlows[k + 1].dueDate b.bondCashFlows[k].dueDate ≤ 184) ∧
    (179 ≤ Date.sub b.bondCashFlows[k + 1].paymentDate b.bondCashFlows[k].paymentDate ∧
      Date.sub b.bondCashFlows[k + 1].paymentDate b.bondCashFlows[k].paymentDate ≤ 186) ∧
    (first.day ≤ 28 → thirty360Days b.bondCashFlows[k].dueDate b.bondCashFlows[k + 1].dueDate = 180) := by
  obtain ⟨coupons, final, hb, hs, -, -⟩ := C48_schedule h
  have p1 := (C62_coupons_partial h k (by omega)).2
  have p2 := (C62_coupons_partial h (k + 1) (by omega)).2
  have hm := C49_month_partial h k (by omega)
  have hlen : k + 1 < coupons.length := by
    have := congrArg List.length hb
    simp at this; omega
  have g1 : b.bondCashFlows[k].dueDate = coupons[k].dueDate := by
    simp only [hb, List.getElem_append_left (show k < coupons.length by omega)]
  have g2 : b.bondCashFlows[k + 1].dueDate = coupons[k + 1].dueDate := by
    simp only [hb, List.getElem_append_left hlen]
  have hstep : IsMonthsLater ((6 : Nat) : Int) b.bondCashFlows[k].dueDate b.bondCashFlows[k + 1].dueDate := by
    rw [g1, g2]
    have := List.isChain_iff_getElem.1 hs.steps k (by simpa using hlen)
    simpa using this
  have l1 := months_later_days (n := 6) (lo := 181) (hi := 184) (by simp) hstep
  refine ⟨by exact_mod_cast l1, ?_, fun hd => ?_⟩
  · have l1' : (181 : Int) ≤ b.bondCashFlows[k + 1].dueDate.numDaysFromCe - b.bondCashFlows[k].dueDate.numDaysFromCe ∧
        b.bondCashFlows[k + 1].dueDate.numDaysFromCe - b.bondCashFlows[k].dueDate.numDaysFromCe ≤ 184 := by
      exact_mod_cast l1
    have p1' : 0 ≤ b.bondCashFlows[k].paymentDate.numDaysFromCe - b.bondCashFlows[k].dueDate.numDaysFromCe ∧
        b.bondCashFlows[k].paymentDate.numDaysFromCe - b.bondCashFlows[k].dueDate.numDaysFromCe ≤ 2 := p1
    have p2' : 0 ≤ b.bondCashFlows[k + 1].paymentDate.numDaysFromCe - b.bondCashFlows[k + 1].dueDate.numDaysFromCe ∧
        b.bondCashFlows[k + 1].paymentDate.numDaysFromCe - b.bondCashFlows[k + 1].dueDate.numDaysFromCe ≤ 2 := p2
    show 179 ≤ b.bondCashFlows[k + 1].paymentDate.numDaysFromCe - b.bondCashFlows[k].paymentDate.numDaysFromCe ∧
        b.bondCashFlows[k + 1].paymentDate.numDaysFromCe - b.bondCashFlows[k].paymentDate.numDaysFromCe ≤ 186
    omega
  · have h0 : b.bondCashFlows[0].dueDate = first := by
      have hc : 0 < coupons.length := by omega
      have := hs.start coupons[0].dueDate (by
        rw [List.head?_map, List.head?_eq_getElem?, List.getElem?_eq_getElem hc]; rfl)
      rw [← this]
      simp only [hb, List.getElem_append_left hc]
    have := hm.2.1 0 (Nat.zero_le _)
    rw [h0] at this
    have := (thirty360_months hstep).2.2 (.inl (by omega))
    rw [this]; norm_num

/-- A bond with three coupons before the last flow. -/
example : ∃ b : Bond ℚ, Bond.new "" ⟨2022, 1, 7, by decide⟩ ⟨2022, 7, 7, by decide⟩
    ⟨2023, 7, 7, by decide⟩ ⟨2024, 1, 7, by decide⟩ .sa (1 : ℚ) 1 = .ok (some b) ∧ 1 + 2 < b.bondCashFlows.length := by
  obtain ⟨b, hb⟩ := C51_in_range_partial (K := ℚ) (id := "") (issue := ⟨2022, 1, 7, by decide⟩)
    (first := ⟨2022, 7, 7, by decide⟩) (pen := ⟨2023, 7, 7, by decide⟩) (mat := ⟨2024, 1, 7, by decide⟩) (f := .sa)
    (rate := 1) (face := 1) (by decide) (by decide) (by decide)
  exact ⟨b, hb, (C49_anchored_partial hb (by decide) 2 ⟨2023, 7, 7, by decide⟩ (by decide)).1.1 (by decide)⟩

/-! ## C102 -/

theorem same_year_drift : ∀ l : Bool, ∀ m < 13, ∀ k < 13, 1 ≤ m → m < k →
    daysBeforeMonth l m + (monthLen l m - 30) + 30 * k ≤ daysBeforeMonth l k + 30 * m + 2 ∧
    daysBeforeMonth l k + (monthLen l k - 30) + 30 * m ≤ daysBeforeMonth l m + 30 * k + 6 := by
  decide +kernel

theorem month_drift : ∀ l : Bool, ∀ m < 13, 1 ≤ m →
    daysBeforeMonth l m + (monthLen l m - 30) + 25 ≤ 30 * m + l.toNat ∧
    30 * m + l.toNat ≤ daysBeforeMonth l m + 31 := by
  decide +kernel

theorem daysBeforeYear_bounds {y z : Int} (h : y < z) :
    daysBeforeYear y + 365 * (z - y) + (isLeap y).toNat ≤ daysBeforeYear z ∧
    daysBeforeYear z + 1 ≤ daysBeforeYear y + 366 * (z - y) + (isLeap y).toNat := by
  have e := daysBeforeYear_succ y
  have h1 := daysBeforeYear_mono (show y + 1 ≤ z by omega)
  have h2 : daysBeforeYear z ≤ daysBeforeYear (y + 1) + 366 * (z - (y + 1)) := by
    unfold daysBeforeYear; omega
  cases hl : isLeap y <;> simp only [hl, if_true, Bool.false_eq_true, if_false, Bool.toNat_true, Bool.toNat_false] at e ⊢ <;>
    omega

/-- **C102.** Between two dates in order, 30/360 counts at most two days more than there are, and at most six days fewer
per calendar year touched. -/
theorem C102_thirty360_actual (a b : Date) (h : a ≤ b) :
    thirty360Days a b ≤ Date.sub b a + 2 ∧
    Date.sub b a ≤ thirty360Days a b + 6 * (b.year - a.year + 1) := by
  have a1 := a.month_pos
  have a2 := a.month_le
  have a3 := a.day_le
  have b1 := b.month_pos
  have b2 := b.month_le
  have b3 := b.day_le
  have ya := month_drift (isLeap a.year) a.month (by omega) a1
  have yb := month_drift (isLeap b.year) b.month (by omega) b1
  show thirty360Days a b ≤ b.numDaysFromCe - a.numDaysFromCe + 2 ∧ b.numDaysFromCe - a.numDaysFromCe ≤ _
  unfold thirty360Days NaiveDate.numDaysFromCe NaiveDate.ordinal
  rcases date_eq_or_lt h with rfl | h
  · omega
  rw [NaiveDate.lt_iff] at h
  rcases h with h | ⟨hy, h | ⟨hm, h⟩⟩
  · obtain ⟨l1, l2⟩ := daysBeforeYear_bounds h
    cases hl : isLeap a.year <;> cases hl' : isLeap b.year <;>
      simp only [hl, hl', Bool.toNat_true, Bool.toNat_false] at * <;> omega
  · have hd := same_year_drift (isLeap a.year) a.month (by omega) b.month (by omega) a1 h
    rw [← hy] at b3 yb ⊢
    omega
  · rw [← hy, hm] at *
    omega

/-- **C102.** Both bounds are attained: from 28 February to 1 March 2023, and from 1 March to 31 December 2024. -/
theorem C102_attained :
    (∃ a b : Date, a ≤ b ∧ thirty360Days a b = Date.sub b a + 2) ∧
    ∃ a b : Date, a ≤ b ∧ Date.sub b a = thirty360Days a b + 6 * (b.year - a.year + 1) :=
  ⟨⟨⟨2023, 2, 28, by decide⟩, ⟨2023, 3, 1, by decide⟩, by decide⟩,
   ⟨⟨2024, 3, 1, by decide⟩, ⟨2024, 12, 31, by decide⟩, by decide⟩⟩

/-- **C102.** The year fractions: 30/360 exceeds actual/360 by at most 2/360, and falls short of it by at most 6/360 per
calendar year touched (wrapping build; the checked build panics on the dates of C20). -/
theorem C102_fractions (a b : Date) (h : a ≤ b) :
    ∃ t u : K, DayCount.thirty360 false a b = .ok (.ok t) ∧ DayCount.act360 a b = .ok (.ok u) ∧
      t ≤ u + 2 / 360 ∧ u ≤ t + 6 * ((b.year - a.year + 1 : Int) : K) / 360 := by
  obtain ⟨h1, h2⟩ := C102_thirty360_actual a b h
  have h1' : ((thirty360Days a b : Int) : K) ≤ (Date.sub b a : Int) + 2 := by exact_mod_cast h1
  have h2' : ((Date.sub b a : Int) : K) ≤ (thirty360Days a b : Int) + 6 * ((b.year - a.year + 1 : Int) : K) := by
    exact_mod_cast h2
  refine ⟨(thirty360Days a b : Int) / 360, _, ?_, act360_eq a b, ?_, ?_⟩
  · unfold DayCount.thirty360
    simp [C19_thirty360_value a b h, ExactCast.fromInt_eq]
  · rw [← add_div]; exact div_le_div_of_nonneg_right h1' (by norm_num)
  · rw [← add_div]; exact div_le_div_of_nonneg_right h2' (by norm_num)

example : ∃ t u : ℚ, DayCount.thirty360 false ⟨2024, 3, 1, by decide⟩ ⟨2024, 12, 31, by decide⟩ = .ok (.ok t) ∧
    DayCount.act360 ⟨2024, 3, 1, by decide⟩ ⟨2024, 12, 31, by decide⟩ = .ok (.ok u) ∧ t ≤ u + 2 / 360 := by
  obtain ⟨t, u, h1, h2, h3, _⟩ := C102_fractions (K := ℚ) ⟨2024, 3, 1, by decide⟩ ⟨2024, 12, 31, by decide⟩ (by decide)
  exact ⟨t, u, h1, h2, h3⟩

/-! ## C103 -/

theorem isLeap_add_400 (y : Int) : isLeap (y + 400) = isLeap y := by
  rw [Bool.eq_iff_iff, isLeap_iff, isLeap_iff]; omega

theorem isLeap_add_28 {y : Int} (h1 : 1901 ≤ y) (h2 : y ≤ 2071) : isLeap (y + 28) = isLeap y := by
  rw [Bool.eq_iff_iff, isLeap_iff, isLeap_iff]; omega

theorem weekday_eq_of_serial {a b : Date} (h : (b.numDaysFromCe - a.numDaysFromCe) % 7 = 0) : b.weekday = a.weekday := by
  unfold NaiveDate.weekday; congr 2; omega

theorem years_later_same {d r : Date} {n : Int} (hl : isLeap (d.year + n) = isLeap d.year) (h : IsYearsLater d n r) :
    r.year = d.year + n ∧ r.month = d.month ∧ r.day = d.day := by
  obtain ⟨e1, e2, ⟨_, e3⟩ | ⟨hn, _⟩⟩ := h
  · exact ⟨e1, e2, e3⟩
  · exfalso; apply hn
    rw [isDay_iff, hl]
    exact ⟨d.month_pos, d.month_le, d.day_pos, d.day_le⟩

/-- **C103.** Four hundred years are 146097 days: adding 400 years keeps the month, the day and the weekday, and is the
same as adding 146097 days. -/
theorem C103_gregorian_cycle (oc : Bool) (d r : Date) (h : Date.checkedAddYears oc d 400 = .ok (some r)) :
    r.year = d.year + 400 ∧ r.month = d.month ∧ r.day = d.day ∧ r.weekday = d.weekday ∧ Date.sub r d = 146097 ∧
    Date.checkedAddDays d 146097 = some r := by
  obtain ⟨e1, e2, e3⟩ := years_later_same (isLeap_add_400 _) ((C10_add_years oc d 400 (by omega) _ h r).1 rfl)
  have e : r.numDaysFromCe = d.numDaysFromCe + 146097 := by
    unfold NaiveDate.numDaysFromCe NaiveDate.ordinal
    rw [e1, e2, e3, isLeap_add_400]
    unfold daysBeforeYear; omega
  refine ⟨e1, e2, e3, weekday_eq_of_serial (by omega), ?_, ?_⟩
  · show r.numDaysFromCe - d.numDaysFromCe = _; omega
  · exact (C05_add_days d r 146097).2 (by show r.numDaysFromCe - d.numDaysFromCe = _; omega)

example : Date.checkedAddYears true ⟨2024, 2, 29, by decide⟩ 400 = .ok (some ⟨2424, 2, 29, by decide⟩) := by decide

/-- **C103.** Between 1901 and 2099 the calendar repeats every 28 years: same month, day and weekday, 10227 days apart. -/
theorem C103_solar_cycle (oc : Bool) (d r : Date) (h1 : 1901 ≤ d.year) (h2 : d.year ≤ 2071)
    (h : Date.checkedAddYears oc d 28 = .ok (some r)) :
    r.year = d.year + 28 ∧ r.month = d.month ∧ r.day = d.day ∧ r.weekday = d.weekday ∧ Date.sub r d = 10227 := by
  obtain ⟨e1, e2, e3⟩ := years_later_same (isLeap_add_28 h1 h2) ((C10_add_years oc d 28 (by omega) _ h r).1 rfl)
  have e : r.numDaysFromCe = d.numDaysFromCe + 10227 := by
    unfold NaiveDate.numDaysFromCe NaiveDate.ordinal
    rw [e1, e2, e3, isLeap_add_28 h1 h2]
    unfold daysBeforeYear; omega
  refine ⟨e1, e2, e3, weekday_eq_of_serial (by omega), ?_⟩
  show r.numDaysFromCe - d.numDaysFromCe = _; omega

/-- Outside those years it need not: 1 March 1890 and 1 March 1918 fall on different weekdays. -/
example : (⟨1918, 3, 1, by decide⟩ : Date).weekday ≠ (⟨1890, 3, 1, by decide⟩ : Date).weekday := by decide
example : Date.checkedAddYears true ⟨1996, 2, 29, by decide⟩ 28 = .ok (some ⟨2024, 2, 29, by decide⟩) := by decide

omit [LinearOrder K] [IsStrictOrderedRing K] [ExactCast K] in
/-- **C103.** Shifting two dates by the same number of months that keeps their days of the month leaves the 30/360
fraction between them unchanged. -/
theorem C103_thirty360_shift (a b a' b' : Date) (n : Nat) (h : a ≤ b) (ha : Date.checkedAddMonths a n = some a')
    (hb : Date.checkedAddMonths b n = some b') (da : a'.day = a.day) (db : b'.day = b.day) :
    DayCount.thirty360 (V := K) false a' b' = DayCount.thirty360 false a b := by
  have h' := C09_add_months_mono _ _ _ _ _ h ha hb
  have h1 := ((C07_add_months _ _ _).1 ha).1
  have h2 := ((C07_add_months _ _ _).1 hb).1
  have e : thirty360Days a' b' = thirty360Days a b := by
    unfold monthNumber at h1 h2
    unfold thirty360Days
    rw [da, db]; omega
  unfold DayCount.thirty360
  rw [C19_thirty360_value a b h, C19_thirty360_value a' b' h', e]

example : DayCount.thirty360 (V := ℚ) false ⟨2023, 3, 15, by decide⟩ ⟨2023, 8, 20, by decide⟩ =
    DayCount.thirty360 false ⟨2022, 10, 15, by decide⟩ ⟨2023, 3, 20, by decide⟩ :=
  C103_thirty360_shift _ _ _ _ 5 (by decide) (by decide) (by decide) rfl rfl

example : (299 : Int) ≤ 305 + 2 ∧ (305 : Int) ≤ 299 + 6 * (2024 - 2024 + 1) := by
  have h := C102_thirty360_actual ⟨2024, 3, 1, by decide⟩ ⟨2024, 12, 31, by decide⟩ (by decide)
  rwa [show thirty360Days ⟨2024, 3, 1, by decide⟩ ⟨2024, 12, 31, by decide⟩ = 299 by decide,
    show Date.sub ⟨2024, 12, 31, by decide⟩ ⟨2024, 3, 1, by decide⟩ = 305 by decide] at h

end Qlab.Props
