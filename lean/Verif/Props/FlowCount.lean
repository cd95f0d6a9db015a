import Verif.Props.BondInterest

/-!
# How many flows a bond has (C141)
-/

namespace Qlab.Props

open Spec

/-- Calendar months from the month of `a` to the month of `b`, whatever the days. -/
private abbrev monthsApart (a b : Date) : Int := monthNumber b.year b.month - monthNumber a.year a.month

/-- The number of dates of a schedule, up to the question whether a date in the last month is still in time. -/
theorem schedule_count {first pen : Date} {l : List Date} (h : IsSchedule 6 first pen l) :
    (monthsApart first pen < 0 → l.length = 0) ∧ (0 ≤ monthsApart first pen →
      (l.length : Int) = monthsApart first pen / 6 + 1 ∨
      ((l.length : Int) = monthsApart first pen / 6 ∧ monthsApart first pen % 6 = 0 ∧ pen.day < first.day ∧
        ¬ IsLastDayOfMonth pen.year pen.month pen.day)) := by
  induction l generalizing first with
  | nil =>
    have hlt := h.empty.1 rfl
    rw [lt_iff_monthNumber] at hlt
    refine ⟨fun _ => rfl, fun h0 => .inr ?_⟩
    have e : monthNumber pen.year pen.month = monthNumber first.year first.month ∧ pen.day < first.day := by
      rcases hlt with h | h
      · unfold monthsApart at h0; omega
      · exact h
    have e0 : monthsApart first pen = 0 := by unfold monthsApart; omega
    rw [e0]
    refine ⟨by simp, by simp, e.2, fun hl => hl.2 ?_⟩
    obtain ⟨ey, em⟩ := monthNumber_inj pen.month_pos pen.month_le first.month_pos first.month_le e.1
    rw [ey, em]
    exact isDay_down' first.isDay (by omega) e.2
  | cons d l ih =>
    obtain rfl := h.start d rfl
    have hle : d ≤ pen := h.bounded d (by simp)
    have hM : 0 ≤ monthsApart d pen := by
      rw [← not_lt, lt_iff_monthNumber] at hle
      unfold monthsApart; omega
    obtain ⟨next, hn, hs⟩ := h.tail
    have e : monthsApart next pen = monthsApart d pen - 6 := by
      have := hn.1
      unfold monthsApart; omega
    have hday : next.day ≤ d.day := by rcases hn.2 with e | ⟨e, _⟩ <;> omega
    obtain ⟨i1, i2⟩ := ih hs
    rw [e] at i1 i2
    refine ⟨fun h => absurd h (not_lt.2 hM), fun _ => ?_⟩
    rw [List.length_cons]
    push_cast
    rcases lt_or_ge (monthsApart d pen - 6) 0 with hlt | hge
    · left; rw [i1 hlt]; push_cast; omega
    · rcases i2 hge with i | ⟨i, j, k, m⟩
      · left; omega
      · exact .inr ⟨by omega, by omega, by omega, m⟩
where
  isDay_down' {y : Int} {m d n : Nat} (h : IsDay y m d) (h1 : 1 ≤ n + 1) (h2 : n < d) : IsDay y m (n + 1) := by
    rcases h with ⟨a, _, b⟩ | ⟨a, _, b⟩ | ⟨a, _, b⟩ | ⟨a, b, c⟩
    · exact .inl ⟨a, h1, by omega⟩
    · exact .inr (.inl ⟨a, h1, by omega⟩)
    · exact .inr (.inr (.inl ⟨a, h1, by omega⟩))
    · rcases Nat.lt_or_ge (n + 1) 29 with h | h
      · exact .inr (.inr (.inl ⟨a, h1, by omega⟩))
      · exact .inr (.inr (.inr ⟨a, by omega, c⟩))

section
variable {V : Type} [Add V] [Mul V] [Div V] [FromInt V] {id : String} {issue first pen mat : Date} {f : Frequency}
  {rate face : V} {b : Bond V}

/-- **C141.** Any value type, floats included: besides the flow at maturity a bond has one coupon for the first coupon date and one for every six months from
its month to the month of the penultimate coupon date, unless the last of these coupons would be due later in that month
than the penultimate coupon date. -/
theorem C141_count (h : Bond.new id issue first pen mat f rate face = .ok (some b)) (hfp : first ≤ pen) :
    (b.bondCashFlows.length : Int) = (monthNumber pen.year pen.month - monthNumber first.year first.month) / 6 + 2 ∨
    ((b.bondCashFlows.length : Int) = (monthNumber pen.year pen.month - monthNumber first.year first.month) / 6 + 1 ∧
      (monthNumber pen.year pen.month - monthNumber first.year first.month) % 6 = 0 ∧ pen.day < first.day ∧
      ¬ IsLastDayOfMonth pen.year pen.month pen.day) := by
  obtain ⟨coupons, final, hb, hs, _, _⟩ := C48_schedule h
  have hlen : b.bondCashFlows.length = coupons.length + 1 := by rw [hb]; simp
  have h0 : 0 ≤ monthsApart first pen := by
    rw [← not_lt, lt_iff_monthNumber] at hfp
    unfold monthsApart; omega
  have := (schedule_count hs).2 h0
  rw [List.length_map] at this
  unfold monthsApart at this
  rcases this with h | ⟨h1, h2⟩
  · left; rw [hlen]; push_cast; omega
  · right; refine ⟨?_, h2⟩; rw [hlen]; push_cast; omega

/-- **C141.** A bond with a first coupon date after the penultimate one pays at maturity only. -/
theorem C141_none (h : Bond.new id issue first pen mat f rate face = .ok (some b)) (hfp : pen < first) :
    b.bondCashFlows.length = 1 := by
  obtain ⟨coupons, final, hb, hs, _, _⟩ := C48_schedule h
  have := hs.empty.2 hfp
  rw [List.map_eq_nil_iff] at this
  rw [hb, this]; rfl

/-- **C141.** With the first coupon due by the 28th, that is exactly when there is one coupon less. -/
theorem C141_one_less_iff (h : Bond.new id issue first pen mat f rate face = .ok (some b)) (hfp : first ≤ pen)
    (hd : first.day ≤ 28) :
    (b.bondCashFlows.length : Int) = (monthNumber pen.year pen.month - monthNumber first.year first.month) / 6 + 1 ↔
      (monthNumber pen.year pen.month - monthNumber first.year first.month) % 6 = 0 ∧ pen.day < first.day := by
  constructor
  · intro e
    rcases C141_count h hfp with h | h
    · omega
    · exact ⟨h.2.1, h.2.2.1⟩
  · rintro ⟨hm, hlt⟩
    have h0 : 0 ≤ monthNumber pen.year pen.month - monthNumber first.year first.month := by
      rw [← not_lt, lt_iff_monthNumber] at hfp; omega
    obtain ⟨k, hk⟩ := Int.eq_ofNat_of_zero_le (Int.ediv_nonneg h0 (by decide : (0 : Int) ≤ 6))
    -- the coupon in the month of `pen` would be due on the day of the first
    have hpd := pen.isDay
    have hd1 : 1 ≤ first.day := by rcases first.isDay with h | h | h | h <;> omega
    have hday : IsDay pen.year pen.month first.day := by
      have := pen.month_pos; have := pen.month_le
      unfold IsDay
      simp only [List.mem_cons, List.not_mem_nil, or_false]
      omega
    obtain ⟨due, h1, h2, h3⟩ : ∃ due : Date, due.year = pen.year ∧ due.month = pen.month ∧ due.day = first.day :=
      ⟨⟨pen.year, pen.month, first.day, (isValid_iff _ _ _).2 ⟨((isValid_iff _ _ _).1 pen.valid).1, hday⟩⟩, rfl, rfl, rfl⟩
    have hadd : Date.checkedAddMonths first (6 * k) = some due := by
      rw [C07_add_months]
      refine ⟨?_, .inl h3⟩
      rw [h1, h2]; push_cast; omega
    obtain ⟨a, -⟩ := C49_anchored_partial h hd k due hadd
    have hn : ¬ due ≤ pen := by
      rw [not_le, lt_iff_monthNumber, h1, h2, h3]; exact .inr ⟨rfl, hlt⟩
    have := mt a.2 hn
    rcases C141_count h hfp with h | h <;> omega

/-- **C141.** A bond whose penultimate coupon date is `k` half-years after its first coupon date has `k + 2` flows, whatever
the day of the month. -/
theorem C141_half_years (h : Bond.new id issue first pen mat f rate face = .ok (some b)) (k : Nat)
    (hp : IsMonthsLater (6 * k) first pen) : b.bondCashFlows.length = k + 2 := by
  have hm := hp.1
  have hfp : first ≤ pen := by
    rw [← not_lt, lt_iff_monthNumber]
    rcases Nat.eq_zero_or_pos k with rfl | hk
    · obtain rfl := isMonthsLater_unique (show IsMonthsLater (6 * (0 : Nat)) first first from ⟨by simp, .inl rfl⟩) hp
      omega
    · omega
  rcases C141_count h hfp with h | ⟨h, -, h3, h4⟩
  · omega
  · rcases hp.2 with e | ⟨_, e⟩
    · omega
    · exact absurd e h4

end

section
variable {K : Type} [Field K] [FromInt K] [ExactCast K] {id : String} {issue first pen mat : Date} {f : Frequency}
  {rate face : K} {b : Bond K}

/-- **C141.** A regular bond of `n` years makes `2 n` payments, in total the face value and `n` times the yearly interest. -/
theorem C141_years [CharZero K] (h : Bond.new id issue first pen mat f rate face = .ok (some b)) (n : Nat)
    (hi : IsMonthsLater (-6) first issue) (hm : IsMonthsLater 6 pen mat) (hp : IsMonthsLater (12 * n) first pen) :
    b.bondCashFlows.length = 2 * (n + 1) ∧
    (b.bondCashFlows.map (·.paymentAmount)).sum = face + (n + 1 : Nat) * (rate * face) := by
  have hl := C141_half_years h (2 * n) (by rwa [show (6 * ((2 * n : Nat) : Int)) = 12 * n by push_cast; ring])
  refine ⟨by omega, ?_⟩
  rw [C50_regular_total h hi hm, hl]
  push_cast
  ring

end

/-- Coupons from 7 January 2023 to 6 January 2025: those of January and July 2023 and 2024, but not of January 2025. -/
example : ∃ b : Bond ℚ, Bond.new "" ⟨2022, 7, 7, by decide⟩ ⟨2023, 1, 7, by decide⟩ ⟨2025, 1, 6, by decide⟩
    ⟨2025, 7, 7, by decide⟩ .sa 1 1 = .ok (some b) ∧ b.bondCashFlows.length = 5 := by
  obtain ⟨b, h⟩ := C51_in_range_partial (K := ℚ) (id := "") (issue := ⟨2022, 7, 7, by decide⟩)
    (first := ⟨2023, 1, 7, by decide⟩) (pen := ⟨2025, 1, 6, by decide⟩) (mat := ⟨2025, 7, 7, by decide⟩) (f := .sa)
    (rate := 1) (face := 1) (by decide) (by decide) (by decide)
  refine ⟨b, h, ?_⟩
  have := (C141_one_less_iff h (by decide) (by decide)).2 (by decide)
  rw [show (monthNumber 2025 1 - monthNumber 2023 1) / 6 + 1 = 5 by decide] at this
  exact_mod_cast this

/-- A bond with coupons from 29 February 2024 to 28 February 2026, at month ends. -/
example : ∃ b : Bond ℚ, Bond.new "" ⟨2023, 8, 29, by decide⟩ ⟨2024, 2, 29, by decide⟩ ⟨2026, 2, 28, by decide⟩
    ⟨2026, 8, 28, by decide⟩ .sa (1 / 100) 100 = .ok (some b) ∧ b.bondCashFlows.length = 6 ∧
    (b.bondCashFlows.map (·.paymentAmount)).sum = 103 := by
  obtain ⟨b, h⟩ := C51_in_range_partial (K := ℚ) (id := "") (issue := ⟨2023, 8, 29, by decide⟩)
    (first := ⟨2024, 2, 29, by decide⟩) (pen := ⟨2026, 2, 28, by decide⟩) (mat := ⟨2026, 8, 28, by decide⟩) (f := .sa)
    (rate := 1 / 100) (face := 100) (by decide) (by decide) (by decide)
  have c := C141_years h 2 ⟨by decide, .inl rfl⟩ ⟨by decide, .inl rfl⟩
    ⟨by decide, .inr ⟨by decide, by unfold IsLastDayOfMonth IsDay IsLeapYear; decide⟩⟩
  exact ⟨b, h, c.1, by rw [c.2]; norm_num⟩

/-- A bond that pays at maturity only. -/
example : ∃ b : Bond ℚ, Bond.new "" ⟨2023, 1, 7, by decide⟩ ⟨2023, 7, 7, by decide⟩ ⟨2023, 1, 7, by decide⟩
    ⟨2023, 7, 7, by decide⟩ .sa 1 1 = .ok (some b) ∧ b.bondCashFlows.length = 1 := by
  obtain ⟨b, h⟩ := (C51_success_iff_partial (K := ℚ) (id := "") (issue := ⟨2023, 1, 7, by decide⟩) (first := ⟨2023, 7, 7, by decide⟩) (f := .sa) (rate := 1) (face := 1)
    (pen := ⟨2023, 1, 7, by decide⟩) (mat := ⟨2023, 7, 7, by decide⟩)).2
    ⟨⟨1, ⟨2023, 1, 7, by decide⟩, ⟨by decide, .inl rfl⟩, .inl ⟨rfl, rfl⟩⟩,
      ⟨1, ⟨2023, 7, 7, by decide⟩, ⟨by decide, .inl rfl⟩, .inl ⟨rfl, rfl⟩⟩, .inr ⟨by decide, .inl rfl⟩⟩
  exact ⟨b, h, C141_none h (by decide)⟩

end Qlab.Props
