import Verif.Props.Bond
import Verif.Props.Lengths

/-!
# Interest over the life of a bond (C115)

A coupon period starts where the period of the coupon before ends.  The last period starts at the penultimate coupon
date given to `Bond::new`, whatever the coupon before it: when that date is not one of the coupon dates, the days in
between earn no interest.
-/

namespace Qlab.Props

open Spec

section
variable {V : Type} [Add V] [Mul V] [Div V] [FromInt V] {id : String} {issue first pen mat : Date} {f : Frequency}
  {rate face : V} {b : Bond V}

theorem first_le_of_addMonths {first pen : Date} {k : Nat} (hk : Date.checkedAddMonths first (6 * k) = some pen) :
    first ≤ pen := by
  rcases Nat.eq_zero_or_pos k with rfl | hpos
  · rw [Nat.mul_zero, C09_add_months_zero] at hk
    exact le_of_eq (Option.some.inj hk)
  · exact le_of_lt (C09_add_months_lt _ _ _ (by omega) hk)

theorem on_schedule_flows (h : Bond.new id issue first pen mat f rate face = .ok (some b))
    (hd : first.day ≤ 28) (k : Nat) (hk : Date.checkedAddMonths first (6 * k) = some pen) :
    b.bondCashFlows.length = k + 2 ∧ ∀ g, b.bondCashFlows[k]? = some g → g.dueDate = pen := by
  obtain ⟨h1, h2⟩ := C49_anchored_partial h hd k pen hk
  have hkn : k + 1 < b.bondCashFlows.length := h1.1 le_rfl
  have hlen : b.bondCashFlows.length = k + 2 := by
    by_contra hne
    -- another coupon would be due after `pen`
    obtain ⟨coupons, final, hb, hs, hp, _⟩ := C48_schedule h
    have hc : b.bondCashFlows.length = coupons.length + 1 := by rw [hb]; simp
    have hi : k < (coupons.map (·.dueDate)).length := by simp; omega
    have hj : k + 1 < (coupons.map (·.dueDate)).length := by simp; omega
    have e := h2 hkn
    simp only [hb] at e
    rw [List.getElem_append_left (by omega)] at e
    have hlt := List.pairwise_iff_getElem.1 hp k (k + 1) hi hj (Nat.lt_succ_self k)
    have hbd := hs.bounded _ (List.getElem_mem hj)
    rw [List.getElem_map, e] at hlt
    exact absurd hbd (not_le.2 hlt)
  refine ⟨hlen, fun g hg => ?_⟩
  rw [List.getElem?_eq_getElem (by omega)] at hg
  rw [← Option.some.inj hg]
  exact h2 hkn

theorem dropLast_getLast?_eq {α : Type} (l : List α) {n : Nat} (hn : l.length = n + 2) : l.dropLast.getLast? = l[n]? := by
  rw [List.getLast?_eq_getElem?, List.length_dropLast, hn, show n + 2 - 1 - 1 = n by omega, List.getElem?_dropLast,
    if_pos (by omega)]

end

section
variable {K : Type} [Field K] [FromInt K] [ExactCast K] {id : String} {issue first pen mat : Date} {f : Frequency}
  {rate face : K} {b : Bond K}

/-- **C115.** What a bond with at least one coupon before maturity pays in total: its face value and one regular
coupon for every unit of length, where the first and last period have their own length and every period between
coupons counts 1.  Missing for the full property: the number of periods is not tied to the dates
(`C115_on_schedule_partial`). -/
theorem C115_total_partial (h : Bond.new id issue first pen mat f rate face = .ok (some b)) (hle : first ≤ pen) :
    ∃ (n : Nat) (x y : K), b.bondCashFlows.length = n + 2 ∧ IsFirstLength 6 issue first x ∧ IsLastLength 6 pen mat y ∧
      (b.bondCashFlows.map (·.paymentAmount)).sum = face + rate * face / 2 * (x + n + y) := by
  obtain ⟨coupons, final, hb, hk, h0, ⟨y, hy, hfin⟩, _⟩ := C50_amounts h
  obtain ⟨coupons', final', hb', hs, _⟩ := C48_schedule h
  obtain rfl : coupons = coupons' := (List.append_inj' (hb.symm.trans hb') rfl).1
  cases coupons with
  | nil => exact absurd (hs.empty.1 rfl) (not_lt.2 hle)
  | cons g rest =>
    obtain ⟨x, hx, hg⟩ := h0 g rfl
    refine ⟨rest.length, x, y, by rw [hb]; simp, hx, hy, ?_⟩
    have hall : ∀ c ∈ rest, c.paymentAmount = rate * face / 2 := by
      intro c hc
      obtain ⟨k, hk', rfl⟩ := List.getElem_of_mem hc
      exact hk (k + 1) (by simpa using hk') (Nat.succ_pos k)
    have hsum : (rest.map (·.paymentAmount)).sum = rest.length * (rate * face / 2) := by
      rw [List.map_congr_left hall]; simp
    rw [hb, List.cons_append, List.map_cons, List.sum_cons, List.map_append, List.sum_append, hsum, hg]
    simp only [List.map_cons, List.map_nil, List.sum_cons, List.sum_nil, hfin]
    ring

/-- **C115.** When the penultimate coupon date is `k` half years after the first one, the coupon before maturity
falls due on it and the bond pays interest for the first period, `k` half years and the last period: every day
from issue to maturity earns interest once.  Missing for the full property: coupon dates after the 28th and
penultimate dates that are not coupon dates. -/
theorem C115_on_schedule_partial (h : Bond.new id issue first pen mat f rate face = .ok (some b))
    (hd : first.day ≤ 28) (k : Nat) (hk : Date.checkedAddMonths first (6 * k) = some pen) :
    b.bondCashFlows.length = k + 2 ∧ (∀ g, b.bondCashFlows[k]? = some g → g.dueDate = pen) ∧
    ∃ x y : K, IsFirstLength 6 issue first x ∧ IsLastLength 6 pen mat y ∧
      (b.bondCashFlows.map (·.paymentAmount)).sum = face + rate * face / 2 * (x + k + y) := by
  obtain ⟨n, x, y, hn, hx, hy, hsum⟩ := C115_total_partial h (first_le_of_addMonths hk)
  obtain ⟨hlen, hdue⟩ := on_schedule_flows h hd k hk
  exact ⟨hlen, hdue, x, y, hx, hy, by rw [hsum, show n = k by omega]⟩

/-- The amounts of a bond with both end periods regular. -/
theorem regular_amounts (h : Bond.new id issue first pen mat f rate face = .ok (some b))
    (hi : IsMonthsLater (-6) first issue) (hm : IsMonthsLater 6 pen mat) :
    b.bondCashFlows.map (·.paymentAmount) =
      List.replicate (b.bondCashFlows.length - 1) (rate * face / 2) ++ [face + rate * face / 2] := by
  obtain ⟨coupons, final, hb, hk, h0, ⟨x, hx, hfin⟩, _⟩ := C50_amounts h
  have hx1 : x = 1 := (C50_lengths_unique (issue := issue) (first := first) x 1).2 hx ⟨mat, hm, .inl ⟨rfl, rfl⟩⟩
  rw [hb, List.map_append, List.map_singleton, hfin, hx1, mul_one, List.length_append, List.length_singleton,
    Nat.add_sub_cancel]
  congr 1
  rw [List.eq_replicate_iff]
  refine ⟨by simp, fun a ha => ?_⟩
  obtain ⟨g, hg, rfl⟩ := List.mem_map.1 ha
  obtain ⟨k, hk', rfl⟩ := List.getElem_of_mem hg
  rcases Nat.eq_zero_or_pos k with rfl | hpos
  · obtain ⟨y, hy, he⟩ := h0 coupons[0] (by rw [List.head?_eq_getElem?, List.getElem?_eq_getElem])
    have : y = 1 := (C50_lengths_unique (pen := pen) (mat := mat) y 1).1 hy ⟨issue, hi, .inl ⟨rfl, rfl⟩⟩
    rw [he, this, mul_one]
  · exact hk k hk' hpos

end

section
variable {V : Type} [Add V] [Mul V] [Div V] [FromInt V] {id : String} {issue first pen mat : Date} {f : Frequency}
  {rate face : V} {b : Bond V}

/-- **C115.** In every case the stretch without interest is shorter than a coupon period: the coupon before maturity
is due on the penultimate date or up to 183 days before it.  Any value type, floats included. -/
theorem C115_gap_partial (h : Bond.new id issue first pen mat f rate face = .ok (some b)) (hle : first ≤ pen) :
    ∃ g, b.bondCashFlows.dropLast.getLast? = some g ∧ 0 ≤ Date.sub pen g.dueDate ∧ Date.sub pen g.dueDate ≤ 183 := by
  obtain ⟨coupons, final, hb, hs, _, _⟩ := C48_schedule h
  rw [hb, List.dropLast_concat]
  cases hl : coupons.getLast? with
  | none =>
    rw [List.getLast?_eq_none_iff] at hl
    subst hl
    exact absurd (hs.empty.1 rfl) (not_lt.2 hle)
  | some g =>
    have hl' : (coupons.map (·.dueDate)).getLast? = some g.dueDate := by rw [List.getLast?_map, hl]; rfl
    obtain ⟨next, hn, hlt⟩ := hs.complete _ hl'
    have hbd := hs.bounded _ (List.mem_of_getLast? hl')
    have h6 := months_later_days (n := 6) (lo := 181) (hi := 184) (by simp) hn
    rw [C04_sub_serial] at h6
    have h7 := (C03_serial_lt _ _).1 hlt
    have h8 := mt (C03_serial_lt _ _).2 (not_lt.2 hbd)
    refine ⟨g, rfl, ?_, ?_⟩ <;> rw [C04_sub_serial] <;> omega

/-- **C115.** No day is left out exactly when the penultimate date is a coupon date; up to the 28th: some number of
half years after the first coupon.  Any value type, floats included. -/
theorem C115_no_gap_iff_partial (h : Bond.new id issue first pen mat f rate face = .ok (some b)) (hle : first ≤ pen)
    (hd : first.day ≤ 28) :
    (∃ g, b.bondCashFlows.dropLast.getLast? = some g ∧ g.dueDate = pen) ↔
      ∃ k, Date.checkedAddMonths first (6 * k) = some pen := by
  constructor
  · rintro ⟨g, hg, e⟩
    obtain ⟨coupons, final, hb, hs, _, _⟩ := C48_schedule h
    have hc : coupons ≠ [] := by
      rintro rfl
      exact absurd (hs.empty.1 rfl) (not_lt.2 hle)
    obtain ⟨n, hn⟩ : ∃ n, b.bondCashFlows.length = n + 2 :=
      ⟨coupons.length - 1, by
        have := List.length_pos_iff.2 hc
        rw [hb]; simp; omega⟩
    rw [dropLast_getLast?_eq _ hn, List.getElem?_eq_getElem (by omega)] at hg
    have hm := (C49_month_partial h n (by omega)).1
    rw [Option.some.inj hg, e] at hm
    cases hdue : Date.checkedAddMonths first (6 * n) with
    | none =>
      exfalso
      rw [C07_add_months_none] at hdue
      have hb := (monthNumber_bounds pen).2
      have e : monthNumber 262142 12 = 3145715 := by decide
      push_cast at *
      omega
    | some due =>
      refine ⟨n, ?_⟩
      have := (C49_anchored_partial h hd n due hdue).2 (by omega)
      rw [hdue, ← this, Option.some.inj hg, e]
  · rintro ⟨k, hk⟩
    obtain ⟨hlen, hdue⟩ := on_schedule_flows h hd k hk
    refine ⟨b.bondCashFlows[k], ?_, hdue _ (List.getElem?_eq_getElem _)⟩
    rw [dropLast_getLast?_eq _ hlen, List.getElem?_eq_getElem]

end

/-- **C115 (violated).** A bond whose penultimate coupon date is five months after a coupon date pays nothing for
these five months: it pays the same amounts as the bond that matures five months earlier, whatever rate and face
value. -/
theorem C115_refuted : ∃ issue first pen pen' mat mat' : Date, issue < first ∧ first < pen ∧ pen < pen' ∧
    mat < mat' ∧ Date.sub mat' mat = 152 ∧ ∀ (id : String) (rate face : ℚ), ∃ b b',
      Bond.new id issue first pen mat .sa rate face = .ok (some b) ∧
      Bond.new id issue first pen' mat' .sa rate face = .ok (some b') ∧
      b.bondCashFlows.map (·.paymentAmount) = b'.bondCashFlows.map (·.paymentAmount) := by
  refine ⟨⟨2022, 7, 15, by decide⟩, ⟨2023, 1, 15, by decide⟩, ⟨2023, 7, 15, by decide⟩, ⟨2023, 12, 15, by decide⟩,
    ⟨2024, 1, 15, by decide⟩, ⟨2024, 6, 15, by decide⟩, by decide, by decide, by decide, by decide, by decide +kernel,
    fun id rate face => ?_⟩
  obtain ⟨b, hb⟩ := C51_in_range_partial (K := ℚ) (id := id) (issue := ⟨2022, 7, 15, by decide⟩)
    (first := ⟨2023, 1, 15, by decide⟩) (pen := ⟨2023, 7, 15, by decide⟩) (mat := ⟨2024, 1, 15, by decide⟩) (f := .sa)
    (rate := rate) (face := face) (by decide) (by decide) (by decide)
  obtain ⟨b', hb'⟩ := C51_in_range_partial (K := ℚ) (id := id) (issue := ⟨2022, 7, 15, by decide⟩)
    (first := ⟨2023, 1, 15, by decide⟩) (pen := ⟨2023, 12, 15, by decide⟩) (mat := ⟨2024, 6, 15, by decide⟩) (f := .sa)
    (rate := rate) (face := face) (by decide) (by decide) (by decide)
  refine ⟨b, b', hb, hb', ?_⟩
  have hi : IsMonthsLater (-6) (⟨2023, 1, 15, by decide⟩ : Date) ⟨2022, 7, 15, by decide⟩ :=
    (subMonths_iff (n := 6)).1 (by decide)
  rw [regular_amounts hb hi ((addMonths_iff (n := 6)).1 (by decide)),
    regular_amounts hb' hi ((addMonths_iff (n := 6)).1 (by decide))]
  have h1 := (on_schedule_flows hb (by decide) 1 (by decide)).1
  obtain ⟨k1, -⟩ := C49_anchored_partial hb' (by decide) 1 ⟨2023, 7, 15, by decide⟩ (by decide)
  obtain ⟨k2, -⟩ := C49_anchored_partial hb' (by decide) 2 ⟨2024, 1, 15, by decide⟩ (by decide)
  have h2 := k1.1 (by decide)
  have h3 := mt k2.2 (by decide)
  rw [h1, show b'.bondCashFlows.length = 3 by omega]

/-- The bond of the repository's own test is on schedule: 37 half years from the first to the penultimate coupon. -/
example : ∃ b, Bond.new "Test" ⟨2023, 5, 7, by decide⟩ ⟨2023, 11, 7, by decide⟩ ⟨2042, 5, 7, by decide⟩
      ⟨2042, 11, 7, by decide⟩ .sa (0.062 : ℚ) 1000 = .ok (some b) ∧ b.bondCashFlows.length = 39 ∧
    (b.bondCashFlows.map (·.paymentAmount)).sum = 1000 + 31 * 39 ∧
    (∃ g, b.bondCashFlows.dropLast.getLast? = some g ∧ g.dueDate = ⟨2042, 5, 7, by decide⟩) := by
  obtain ⟨b, hb⟩ := C51_in_range_partial (K := ℚ) (id := "Test") (issue := ⟨2023, 5, 7, by decide⟩)
    (first := ⟨2023, 11, 7, by decide⟩) (pen := ⟨2042, 5, 7, by decide⟩) (mat := ⟨2042, 11, 7, by decide⟩) (f := .sa)
    (rate := 0.062) (face := 1000) (by decide) (by decide) (by decide)
  obtain ⟨h1, -, x, y, hx, hy, h3⟩ := C115_on_schedule_partial hb (by decide) 37 (by decide)
  refine ⟨b, hb, h1, ?_, (C115_no_gap_iff_partial hb (by decide) (by decide)).2 ⟨37, by decide⟩⟩
  have hx1 : x = 1 := (C50_lengths_unique (pen := ⟨2042, 5, 7, by decide⟩) (mat := ⟨2042, 11, 7, by decide⟩) x 1).1 hx
    ⟨_, (subMonths_iff (n := 6)).1 (by decide), .inl ⟨rfl, rfl⟩⟩
  have hy1 : y = 1 := (C50_lengths_unique (issue := ⟨2023, 5, 7, by decide⟩) (first := ⟨2023, 11, 7, by decide⟩) y 1).2 hy
    ⟨_, (addMonths_iff (n := 6)).1 (by decide), .inl ⟨rfl, rfl⟩⟩
  rw [h3, hx1, hy1]
  norm_num

/-- A penultimate date 153 days after a coupon date. -/
example : ∃ b, Bond.new "" ⟨2022, 7, 15, by decide⟩ ⟨2023, 1, 15, by decide⟩ ⟨2023, 12, 15, by decide⟩
      ⟨2024, 6, 15, by decide⟩ .sa (0.062 : ℚ) 1000 = .ok (some b) ∧
    (∃ g, b.bondCashFlows.dropLast.getLast? = some g ∧ 0 ≤ Date.sub ⟨2023, 12, 15, by decide⟩ g.dueDate ∧
      Date.sub ⟨2023, 12, 15, by decide⟩ g.dueDate ≤ 183) ∧
    ∃ (n : Nat) (x y : ℚ), b.bondCashFlows.length = n + 2 ∧
      IsFirstLength 6 ⟨2022, 7, 15, by decide⟩ ⟨2023, 1, 15, by decide⟩ x ∧
      IsLastLength 6 ⟨2023, 12, 15, by decide⟩ ⟨2024, 6, 15, by decide⟩ y ∧
      (b.bondCashFlows.map (·.paymentAmount)).sum = 1000 + 0.062 * 1000 / 2 * (x + n + y) := by
  obtain ⟨b, hb⟩ := C51_in_range_partial (K := ℚ) (id := "") (issue := ⟨2022, 7, 15, by decide⟩)
    (first := ⟨2023, 1, 15, by decide⟩) (pen := ⟨2023, 12, 15, by decide⟩) (mat := ⟨2024, 6, 15, by decide⟩) (f := .sa)
    (rate := 0.062) (face := 1000) (by decide) (by decide) (by decide)
  exact ⟨b, hb, C115_gap_partial hb (by decide), C115_total_partial hb (by decide)⟩

end Qlab.Props
