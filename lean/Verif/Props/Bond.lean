import Verif.Lemmas.Bond
import Mathlib.Algebra.BigOperators.Group.List.Basic
import Mathlib.Tactic.NormNum
import Mathlib.Tactic.Linarith

/-!
# Bond construction (C48, C49, C50, C51, C61, C62)

`Frequency` has the single value `SA`, two coupons a year, six months apart.
-/

namespace Qlab.Props

open Spec

/-! ## C48 -/

section
variable {V : Type} [Add V] [Mul V] [Div V] [FromInt V] {id : String} {issue first pen mat : Date} {f : Frequency}
  {rate face : V} {b : Bond V}

theorem months_eq (f : Frequency) : f.months = 6 := by cases f; rfl
theorem toNat_eq (f : Frequency) : f.toNat = 2 := by cases f; rfl

/-- **C48.** The flows of a bond are coupon flows followed by one flow at maturity.  The coupon flows are due at
`first`, six months later and so on, up to the last such date not after `pen`; the dates increase strictly.  Any
value type, floats included.  Termination: the model of the loop is a total function, accepted because each step
moves to a later date. -/
theorem C48_schedule (h : Bond.new id issue first pen mat f rate face = .ok (some b)) :
    ∃ coupons final, b.bondCashFlows = coupons ++ [final] ∧
      IsSchedule 6 first pen (coupons.map (·.dueDate)) ∧
      (coupons.map (·.dueDate)).Pairwise (· < ·) ∧ final.dueDate = mat := by
  obtain ⟨freq, flows, flows', final, _, hl, h1, h2, rfl⟩ := Bond.new_eq_some.1 h
  have hs := (Bond.regularLoop_spec _ _ _ _ _ _ hl).1
  rw [months_eq] at hs
  have hd := (Bond.firstCashFlow_shape h1).1
  refine ⟨flows', final, rfl, by rw [hd]; exact hs, ?_, (Bond.finalCashFlow_dates h2).1⟩
  rw [hd]
  exact (hs.steps.imp fun a b h => isMonthsLater_lt (by norm_num) h).pairwise

/-- **C48.** The identifier is kept. -/
theorem C48_id (h : Bond.new id issue first pen mat f rate face = .ok (some b)) : b.bondId = id := by
  obtain ⟨_, _, _, _, _, _, _, _, rfl⟩ := Bond.new_eq_some.1 h
  rfl

/-- **C48.** A schedule is determined by its defining conditions. -/
theorem C48_schedule_unique (n : Int) (hn : 0 < n) (first pen : Date) (l l' : List Date)
    (h : IsSchedule n first pen l) (h' : IsSchedule n first pen l') : l = l' := by
  induction l generalizing first l' with
  | nil => exact ((h'.empty).2 (h.empty.1 rfl)).symm
  | cons d l ih =>
    match l', h' with
    | [], h' => exact absurd (h.empty.2 (h'.empty.1 rfl)) (by simp)
    | d' :: l', h' =>
      obtain rfl := h.start d rfl
      obtain rfl := h'.start d' rfl
      congr 1
      obtain ⟨n1, h1, h2⟩ := h.tail
      obtain ⟨n2, h3, h4⟩ := h'.tail
      obtain rfl := isMonthsLater_unique h1 h3
      exact ih n1 l' h2 h4

/-! ## C49 -/

/-- **C49.** Up to the 28th, the `k`-th coupon is due exactly `6 k` months after the first, and the schedule has
the `k`-th coupon exactly when that date is not after `pen`.  Missing for the full property: first coupon dates on
the 29th, 30th and 31st. -/
theorem C49_anchored_partial (h : Bond.new id issue first pen mat f rate face = .ok (some b)) (hd : first.day ≤ 28)
    (k : Nat) (due : Date) (hdue : Date.checkedAddMonths first (6 * k) = some due) :
    (due ≤ pen ↔ k + 1 < b.bondCashFlows.length) ∧
    (∀ hk : k + 1 < b.bondCashFlows.length, b.bondCashFlows[k].dueDate = due) := by
  obtain ⟨coupons, final, hb, hs, _, _⟩ := C48_schedule h
  have key : ∀ (l : List Date) (first : Date), IsSchedule 6 first pen l → first.day ≤ 28 → ∀ k due,
      Date.checkedAddMonths first (6 * k) = some due →
      (due ≤ pen ↔ k < l.length) ∧ ∀ hk : k < l.length, l[k] = due := by
    intro l
    induction l with
    | nil =>
      intro first hs _ k due hk
      have h1 := hs.empty.1 rfl
      have h2 : first ≤ due := by
        have := (C07_add_months _ _ _).1 hk
        rcases Nat.eq_zero_or_pos k with rfl | hpos
        · rw [Nat.mul_zero, C09_add_months_zero] at hk
          exact le_of_eq (Option.some.inj hk)
        · exact le_of_lt (C09_add_months_lt _ _ _ (by omega) hk)
      exact ⟨by simpa using lt_of_lt_of_le h1 h2, fun hk => absurd hk (by simp)⟩
    | cons d l ih =>
      intro first hs hday k due hk
      obtain rfl := hs.start d rfl
      cases k with
      | zero =>
        rw [Nat.mul_zero, C09_add_months_zero] at hk
        obtain rfl := Option.some.inj hk
        exact ⟨by simpa using hs.bounded d (by simp), fun _ => rfl⟩
      | succ k =>
        obtain ⟨next, hnext, hsn⟩ := hs.tail
        have hn' : Date.checkedAddMonths d 6 = some next := addMonths_iff.2 hnext
        have hadd := C09_add_months_add d next 6 (6 * k) hday hn'
        have hday' : next.day ≤ 28 := by
          have := hnext.2
          rcases this with e | ⟨e, _⟩ <;> omega
        have := ih next hsn hday' k due (by rw [hadd, ← hk, Nat.mul_succ, Nat.add_comm 6])
        simpa using this
  obtain ⟨h1, h2⟩ := key _ first hs hd k due hdue
  rw [List.length_map] at h1
  have hlen : b.bondCashFlows.length = coupons.length + 1 := by rw [hb]; simp
  refine ⟨by rw [h1, hlen]; omega, fun hk => ?_⟩
  have hk' : k < coupons.length := by omega
  have := h2 (by simpa using hk')
  rw [List.getElem_map] at this
  rw [← this]
  simp only [hb]
  rw [List.getElem_append_left hk']

/-- **C49.** From any first coupon date: the `k`-th coupon is due in the month `6 k` months after the first, on a
day of the month that never grows along the schedule.  So it is never later than the anchored date, and once a
short month has cut it down it stays cut.  Missing for the full property: equality, which is false. -/
theorem C49_month_partial (h : Bond.new id issue first pen mat f rate face = .ok (some b)) (k : Nat)
    (hk : k + 1 < b.bondCashFlows.length) :
    monthNumber b.bondCashFlows[k].dueDate.year b.bondCashFlows[k].dueDate.month =
      monthNumber first.year first.month + 6 * k ∧
    (∀ j, (hj : j ≤ k) → b.bondCashFlows[k].dueDate.day ≤ b.bondCashFlows[j].dueDate.day) ∧
    ∀ due, Date.checkedAddMonths first (6 * k) = some due → b.bondCashFlows[k].dueDate ≤ due := by
  obtain ⟨coupons, final, hb, hs, _, _⟩ := C48_schedule h
  have key : ∀ (l : List Date) (first : Date), IsSchedule 6 first pen l → ∀ k, (hk : k < l.length) →
      monthNumber l[k].year l[k].month = monthNumber first.year first.month + 6 * k ∧
      (∀ j, (hj : j ≤ k) → l[k].day ≤ l[j].day) ∧
      ∀ due, Date.checkedAddMonths first (6 * k) = some due → l[k] ≤ due := by
    intro l
    induction l with
    | nil => intro first _ k hk; simp at hk
    | cons d l ih =>
      intro first hs k hk
      obtain rfl := hs.start d rfl
      cases k with
      | zero =>
        refine ⟨by simp, fun j hj => ?_, fun due hdue => ?_⟩
        · obtain rfl : j = 0 := by omega
          exact Nat.le_refl _
        · rw [Nat.mul_zero, C09_add_months_zero] at hdue
          exact le_of_eq (Option.some.inj hdue)
      | succ k =>
        obtain ⟨next, hnext, hsn⟩ := hs.tail
        have hk' : k < l.length := by simpa using hk
        obtain ⟨h1, h2, h3⟩ := ih next hsn k hk'
        have hdn : next.day ≤ d.day := by rcases hnext.2 with e | ⟨e, _⟩ <;> omega
        have hm := hnext.1
        refine ⟨?_, fun j hj => ?_, fun due hdue => ?_⟩
        · simp only [List.getElem_cons_succ]; rw [h1, hm]; push_cast; ring
        · cases j with
          | zero =>
            have h0 := h2 0 (Nat.zero_le _)
            have hl0 : l[0] = next := hsn.start _ (by rw [List.head?_eq_getElem?, List.getElem?_eq_getElem])
            simp only [List.getElem_cons_succ, List.getElem_cons_zero]
            rw [hl0] at h0
            omega
          | succ j => exact h2 j (by omega)
        · have hn' : Date.checkedAddMonths d 6 = some next := addMonths_iff.2 hnext
          cases hd2 : Date.checkedAddMonths next (6 * k) with
          | none =>
            exfalso
            rw [C07_add_months_none] at hd2
            have := (C07_add_months _ _ _).1 hdue
            have hb := (monthNumber_bounds due).2
            have e : monthNumber 262142 12 = 3145715 := by decide
            push_cast at *
            omega
          | some due2 =>
            have h4 := h3 due2 hd2
            have h5 := (C09_add_months_two_steps d next due2 due 6 (6 * k) hn' hd2 (by
              rw [← hdue, Nat.mul_succ, Nat.add_comm 6])).1
            exact le_trans h4 h5
  have hlen : b.bondCashFlows.length = coupons.length + 1 := by rw [hb]; simp
  have hkc : k < (coupons.map (·.dueDate)).length := by simp; omega
  have hget : ∀ j, (hj : j < coupons.length) → b.bondCashFlows[j].dueDate =
      (coupons.map (·.dueDate))[j]'(by simpa using hj) := by
    intro j hj
    simp only [hb, List.getElem_map]
    rw [List.getElem_append_left hj]
  obtain ⟨h1, h2, h3⟩ := key _ first hs k hkc
  rw [hget k (by omega)]
  exact ⟨h1, fun j hj => by rw [hget k (by omega), hget j (by omega)]; exact h2 j hj, h3⟩

end

/-! ## C51 -/

section
variable {K : Type} [Field K] [FromInt K] [ExactCast K] {id : String} {issue first pen mat : Date} {f : Frequency}
  {rate face : K} {b : Bond K}

omit [Field K] [FromInt K] [ExactCast K] in
theorem loop_nil_or_cons {c : K} {pen first : Date} {m : Nat} {hm : 0 < m} {flows : List (BondCashFlow K)}
    (h : Bond.regularLoop m hm c pen first = some flows) :
    (flows = [] ∧ pen < first) ∨ ∃ g fl, flows = g :: fl ∧ g.paymentAmount = c ∧ first ≤ pen := by
  obtain ⟨hs, hf⟩ := Bond.regularLoop_spec _ _ _ _ _ _ h
  cases flows with
  | nil => exact .inl ⟨rfl, hs.empty.1 rfl⟩
  | cons g fl =>
    refine .inr ⟨g, fl, rfl, (hf g (by simp)).1, ?_⟩
    rw [← not_lt]
    intro hlt
    have := hs.empty.2 hlt
    simp at this

/-- **C51.** Exact domain of success, in exact arithmetic: both irregular periods can be measured, and there is at
least one coupon or the first period is regular.  Missing for the full property: the rest of the date
combinations, on which construction returns `None` or panics (`C51_panic_iff_partial`). -/
theorem C51_success_iff_partial :
    (∃ b, Bond.new id issue first pen mat f rate face = .ok (some b)) ↔
      (∃ x : K, IsFirstLength 6 issue first x) ∧ (∃ x : K, IsLastLength 6 pen mat x) ∧
      (first ≤ pen ∨ IsMonthsLater (-6) first issue) := by
  have hcast : FromInt.fromInt (V := K) f.toNat = some 2 := by
    rw [toNat_eq, ExactCast.fromInt_eq]; norm_num
  constructor
  · rintro ⟨b, h⟩
    obtain ⟨freq, flows, flows', final, hf, hl, h1, h2, rfl⟩ := Bond.new_eq_some.1 h
    rw [months_eq] at h1 h2
    obtain ⟨x, hx, _⟩ := (Bond.finalCashFlow_some _ _ _ _ _ _).1 h2
    rcases loop_nil_or_cons hl with ⟨rfl, hlt⟩ | ⟨g, fl, rfl, hg, hle⟩
    · have hr := ((Bond.firstCashFlow_nil_some _ _ _ _ _).1 h1).2
      exact ⟨⟨1, issue, hr, .inl ⟨rfl, rfl⟩⟩, ⟨x, hx⟩, .inr hr⟩
    · obtain ⟨y, hy, _⟩ := (Bond.firstCashFlow_some _ _ _ _ g hg _ _).1 h1
      exact ⟨⟨y, hy⟩, ⟨x, hx⟩, .inl hle⟩
  · rintro ⟨⟨x, hx⟩, ⟨y, hy⟩, hor⟩
    have hpen : monthNumber pen.year pen.month + f.months ≤ monthNumber 262142 12 := by
      obtain ⟨next, hn, _⟩ := hy
      have := hn.1
      have hb := (monthNumber_bounds next).2
      have e : monthNumber 262142 12 = 3145715 := by decide
      rw [months_eq]; push_cast; omega
    obtain ⟨flows, hl⟩ := Bond.regularLoop_total f.months f.months_pos (rate * face / (2 : K)) pen hpen first
    have h2 := (Bond.finalCashFlow_some pen mat face 6 (rate * face / (2 : K)) _).2 ⟨y, hy, rfl⟩
    rcases loop_nil_or_cons hl with ⟨rfl, hlt⟩ | ⟨g, fl, rfl, hg, hle⟩
    · have hr := hor.resolve_left (not_le.2 hlt)
      have h1 := (Bond.firstCashFlow_nil_some issue first 6 (rate * face / (2 : K)) []).2 ⟨rfl, hr⟩
      exact ⟨_, Bond.new_eq_some.2 ⟨2, [], [], _, hcast, hl, by rw [months_eq]; exact h1,
        by rw [months_eq]; exact h2, rfl⟩⟩
    · have h1 := (Bond.firstCashFlow_some issue first 6 (rate * face / (2 : K)) g hg fl _).2 ⟨x, hx, rfl⟩
      exact ⟨_, Bond.new_eq_some.2 ⟨2, g :: fl, _, _, hcast, hl, by rw [months_eq]; exact h1,
        by rw [months_eq]; exact h2, rfl⟩⟩

/-- **C51.** Exact panic domain, in exact arithmetic: no coupon date (the first is after the penultimate) and an
irregular first period that can be measured. -/
theorem C51_panic_iff_partial :
    Bond.new id issue first pen mat f rate face = .panic ↔
      pen < first ∧ ¬ IsMonthsLater (-6) first issue ∧ ∃ x : K, IsFirstLength 6 issue first x := by
  have hcast : FromInt.fromInt (V := K) f.toNat = some 2 := by
    rw [toNat_eq, ExactCast.fromInt_eq]; norm_num
  have irregular : (∃ prior, IsMonthsLater (-(6 : ℕ)) first prior ∧
        (prior < issue ∨ (issue < prior ∧ ∃ prior2, IsMonthsLater (-(6 : ℕ)) prior prior2))) ↔
      ¬ IsMonthsLater (-6) first issue ∧ ∃ x : K, IsFirstLength 6 issue first x := by
    constructor
    · rintro ⟨prior, hp, hor⟩
      have hp' : IsMonthsLater (-6) first prior := hp
      refine ⟨fun hi => ?_, ?_⟩
      · obtain rfl := isMonthsLater_unique hi hp'
        rcases hor with h | ⟨h, _⟩ <;> exact lt_irrefl _ h
      · rcases hor with h | ⟨h, prior2, h2⟩
        · exact ⟨_, prior, hp, .inr (.inl ⟨h, rfl⟩)⟩
        · exact ⟨_, prior, hp, .inr (.inr ⟨h, prior2, h2, rfl⟩)⟩
    · rintro ⟨hi, x, prior, hp, ⟨rfl, _⟩ | ⟨h, _⟩ | ⟨h, prior2, h2, _⟩⟩
      · exact absurd hp hi
      · exact ⟨prior, hp, .inl h⟩
      · exact ⟨prior, hp, .inr ⟨h, prior2, h2⟩⟩
  unfold Bond.new
  simp only [hcast]
  cases hl : Bond.regularLoop f.months f.months_pos (rate * face / (2 : K)) pen first with
  | none =>
    simp only [reduceCtorEq, false_iff]
    rintro ⟨hlt, _⟩
    rw [Bond.regularLoop_nil _ _ _ hlt] at hl; cases hl
  | some flows =>
    simp only [Rust.bind_eq_panic]
    rw [months_eq]
    have hpanic := Bond.firstCashFlow_panic issue first 6 (rate * face / (2 : K)) flows
    have hempty : flows = [] ↔ pen < first := by
      have := (Bond.regularLoop_spec _ _ _ _ _ _ hl).1.empty
      simpa using this
    constructor
    · rintro (h | ⟨a, _, h⟩)
      · obtain ⟨h1, h2⟩ := hpanic.1 h
        exact ⟨hempty.1 h1, irregular.1 h2⟩
      · split at h
        · simp at h
        · split at h <;> simp at h
    · rintro ⟨h1, h2⟩
      exact .inl (hpanic.2 ⟨hempty.2 h1, irregular.2 h2⟩)

/-- **C51.** In practice: for all dates from year -262000 to 262000 with the first coupon not after the penultimate
one, construction succeeds.  Missing for the full property: the other date orders. -/
theorem C51_in_range_partial (hle : first ≤ pen) (h1 : -262000 ≤ first.year) (h2 : pen.year ≤ 262000) :
    ∃ b, Bond.new id issue first pen mat f rate face = .ok (some b) := by
  have hex : ∀ (d : Date) (n : Int), -262140 ≤ (monthNumber d.year d.month + n) / 12 →
      (monthNumber d.year d.month + n) / 12 ≤ 262140 → ∃ r, IsMonthsLater n d r := by
    intro d n h1 h2
    cases hd : d.diffMonths n with
    | none =>
      rw [diffMonths_eq_none] at hd
      exact absurd ⟨by omega, by omega⟩ hd
    | some r => exact ⟨r, (diffMonths_eq_some _ _ _).1 hd⟩
  have hm1 := first.month_pos
  have hm2 := first.month_le
  have hm3 := pen.month_pos
  have hm4 := pen.month_le
  have hy1 := first.year_ge
  have hord := (NaiveDate.not_lt_iff _ _).2 hle
  rw [NaiveDate.lt_iff] at hord
  have hfy : first.year ≤ 262000 := by omega
  have hpy : -262000 ≤ pen.year := by omega
  refine C51_success_iff_partial.2 ⟨?_, ?_, .inl hle⟩
  · obtain ⟨prior, hp⟩ := hex first (-6) (by unfold monthNumber; omega) (by unfold monthNumber; omega)
    rcases lt_trichotomy issue prior with h | h | h
    · have e := hp.1
      obtain ⟨prior2, hp2⟩ := hex prior (-6) (by rw [e]; unfold monthNumber; omega) (by rw [e]; unfold monthNumber; omega)
      exact ⟨_, prior, hp, .inr (.inr ⟨h, prior2, hp2, rfl⟩)⟩
    · exact ⟨_, prior, hp, .inl ⟨h, rfl⟩⟩
    · exact ⟨_, prior, hp, .inr (.inl ⟨h, rfl⟩)⟩
  · obtain ⟨next, hp⟩ := hex pen 6 (by unfold monthNumber; omega) (by unfold monthNumber; omega)
    rcases lt_trichotomy mat next with h | h | h
    · exact ⟨_, next, hp, .inr (.inl ⟨h, rfl⟩)⟩
    · exact ⟨_, next, hp, .inl ⟨h, rfl⟩⟩
    · have e := hp.1
      obtain ⟨next2, hp2⟩ := hex next 6 (by rw [e]; unfold monthNumber; omega) (by rw [e]; unfold monthNumber; omega)
      exact ⟨_, next, hp, .inr (.inr ⟨h, next2, hp2, rfl⟩)⟩

/-- **C51.** Refuted: a bond with a single short coupon period, expressed with the first coupon after the
penultimate date, makes construction panic. -/
theorem C51_refuted : ∃ issue first pen mat : Date, ∀ (id : String) (rate face : ℚ),
    Bond.new id issue first pen mat .sa rate face = .panic := by
  refine ⟨⟨2023, 2, 15, by decide⟩, ⟨2023, 7, 1, by decide⟩, ⟨2023, 1, 1, by decide⟩, ⟨2023, 7, 1, by decide⟩,
    fun id rate face => C51_panic_iff_partial.2 ⟨by decide, ?_, ?_⟩⟩
  · intro h
    have := (subMonths_iff (n := 6)).2 h
    revert this
    decide
  · refine ⟨_, ⟨2023, 1, 1, by decide⟩, (subMonths_iff (n := 6)).1 (by decide), .inr (.inl ⟨by decide, rfl⟩)⟩

/-! ## C50 -/

/-- **C50.** Amounts and payment dates of a bond, in exact arithmetic.  The regular coupon is `rate * face / 2`.
Every coupon but the first pays it; the first pays it times the length of the first period; the flow at maturity
pays the face value plus the regular coupon times the length of the last period.  Coupons are paid on the first
weekday on or after the due date, the last flow at maturity itself. -/
theorem C50_amounts (h : Bond.new id issue first pen mat f rate face = .ok (some b)) :
    ∃ coupons final, b.bondCashFlows = coupons ++ [final] ∧
      (∀ k, (hk : k < coupons.length) → 0 < k → coupons[k].paymentAmount = rate * face / 2) ∧
      (∀ g, coupons.head? = some g →
        ∃ x : K, IsFirstLength 6 issue first x ∧ g.paymentAmount = rate * face / 2 * x) ∧
      (∃ x : K, IsLastLength 6 pen mat x ∧ final.paymentAmount = face + rate * face / 2 * x) ∧
      (∀ g ∈ coupons, IsFirstOnOrAfter IsWorkday g.dueDate g.paymentDate) ∧ final.paymentDate = mat := by
  obtain ⟨freq, flows, flows', final, hfr, hl, h1, h2, rfl⟩ := Bond.new_eq_some.1 h
  rw [toNat_eq, ExactCast.fromInt_eq] at hfr
  obtain rfl : (2 : K) = freq := by simpa using hfr
  rw [months_eq] at h1 h2
  have hspec := (Bond.regularLoop_spec _ _ _ _ _ _ hl).2
  obtain ⟨x, hx, hfin⟩ := (Bond.finalCashFlow_some _ _ _ _ _ _).1 h2
  refine ⟨flows', final, rfl, ?_, ?_, ⟨x, hx, by rw [hfin]⟩, ?_, by rw [hfin]⟩
  · intro k hk h0
    have ht := (Bond.firstCashFlow_shape h1).2.2
    obtain ⟨j, rfl⟩ : ∃ j, k = j + 1 := ⟨k - 1, by omega⟩
    have e : flows'[j + 1]? = flows[j + 1]? := by
      rw [← List.getElem?_tail, ← List.getElem?_tail, ht]
    rw [List.getElem?_eq_getElem hk, eq_comm, List.getElem?_eq_some_iff] at e
    obtain ⟨hj, e⟩ := e
    rw [← e]
    exact (hspec _ (List.getElem_mem hj)).1
  · intro g hg
    rcases loop_nil_or_cons hl with ⟨rfl, hlt⟩ | ⟨g', fl, rfl, hg', hle⟩
    · obtain ⟨rfl, _⟩ := (Bond.firstCashFlow_nil_some _ _ _ _ _).1 h1
      cases hg
    · obtain ⟨y, hy, rfl⟩ := (Bond.firstCashFlow_some _ _ _ _ g' hg' _ _).1 h1
      obtain rfl := Option.some.inj hg
      exact ⟨y, hy, rfl⟩
  · intro g hg
    obtain ⟨e1, e2, _⟩ := Bond.firstCashFlow_shape h1
    obtain ⟨i, hi, rfl⟩ := List.getElem_of_mem hg
    have hi' : i < flows.length := by
      have := congrArg List.length e1; simp at this; omega
    have d1 : flows'[i].dueDate = flows[i].dueDate := by
      have := congrArg (·[i]?) e1
      simpa [List.getElem?_eq_getElem hi, List.getElem?_eq_getElem hi'] using this
    have d2 : flows'[i].paymentDate = flows[i].paymentDate := by
      have := congrArg (·[i]?) e2
      simpa [List.getElem?_eq_getElem hi, List.getElem?_eq_getElem hi'] using this
    rw [d1, d2, ← C11_weekend_roll]
    exact (hspec _ (List.getElem_mem hi')).2

omit [FromInt K] [ExactCast K] in
/-- **C50.** The lengths of the first and last period are determined by the dates. -/
theorem C50_lengths_unique (x y : K) :
    (IsFirstLength 6 issue first x → IsFirstLength 6 issue first y → x = y) ∧
    (IsLastLength 6 pen mat x → IsLastLength 6 pen mat y → x = y) := by
  constructor
  · rintro ⟨p, hp, hx⟩ ⟨q, hq, hy⟩
    obtain rfl := isMonthsLater_unique hp hq
    rcases hx with ⟨h1, rfl⟩ | ⟨h1, rfl⟩ | ⟨h1, p2, hp2, rfl⟩ <;>
      rcases hy with ⟨h2, rfl⟩ | ⟨h2, rfl⟩ | ⟨h2, q2, hq2, rfl⟩
    · rfl
    · exact absurd (h1 ▸ h2) (lt_irrefl _)
    · exact absurd (h1 ▸ h2) (lt_irrefl _)
    · exact absurd (h2 ▸ h1) (lt_irrefl _)
    · rfl
    · exact absurd h2 (lt_asymm h1)
    · exact absurd (h2 ▸ h1) (lt_irrefl _)
    · exact absurd h2 (lt_asymm h1)
    · obtain rfl := isMonthsLater_unique hp2 hq2; rfl
  · rintro ⟨p, hp, hx⟩ ⟨q, hq, hy⟩
    obtain rfl := isMonthsLater_unique hp hq
    rcases hx with ⟨h1, rfl⟩ | ⟨h1, rfl⟩ | ⟨h1, p2, hp2, rfl⟩ <;>
      rcases hy with ⟨h2, rfl⟩ | ⟨h2, rfl⟩ | ⟨h2, q2, hq2, rfl⟩
    · rfl
    · exact absurd (h1 ▸ h2) (lt_irrefl _)
    · exact absurd (h1 ▸ h2) (lt_irrefl _)
    · exact absurd (h2 ▸ h1) (lt_irrefl _)
    · rfl
    · exact absurd h2 (lt_asymm h1)
    · exact absurd (h2 ▸ h1) (lt_irrefl _)
    · exact absurd h2 (lt_asymm h1)
    · obtain rfl := isMonthsLater_unique hp2 hq2; rfl

/-- **C50.** With both end periods regular, every coupon is the regular one, and the flows total the face value plus
one regular coupon per flow. -/
theorem C50_regular_total (h : Bond.new id issue first pen mat f rate face = .ok (some b))
    (hi : IsMonthsLater (-6) first issue) (hm : IsMonthsLater 6 pen mat) :
    (b.bondCashFlows.map (·.paymentAmount)).sum = face + b.bondCashFlows.length * (rate * face / 2) := by
  obtain ⟨coupons, final, hb, hk, h0, ⟨x, hx, hfin⟩, _⟩ := C50_amounts h
  have hx1 : x = 1 := (C50_lengths_unique (issue := issue) (first := first) x 1).2 hx ⟨mat, hm, .inl ⟨rfl, rfl⟩⟩
  have hall : ∀ g ∈ coupons, g.paymentAmount = rate * face / 2 := by
    intro g hg
    obtain ⟨k, hk', rfl⟩ := List.getElem_of_mem hg
    rcases Nat.eq_zero_or_pos k with rfl | hpos
    · obtain ⟨y, hy, he⟩ := h0 coupons[0] (by rw [List.head?_eq_getElem?, List.getElem?_eq_getElem])
      have : y = 1 := (C50_lengths_unique (pen := pen) (mat := mat) y 1).1 hy ⟨issue, hi, .inl ⟨rfl, rfl⟩⟩
      rw [he, this, mul_one]
    · exact hk k hk' hpos
  have hsum : (coupons.map (·.paymentAmount)).sum = coupons.length * (rate * face / 2) := by
    rw [List.map_congr_left hall]
    simp
  rw [hb, List.map_append, List.sum_append, hsum]
  simp only [List.map_cons, List.map_nil, List.sum_cons, List.sum_nil, List.length_append, List.length_cons,
    List.length_nil, hfin, hx1]
  push_cast
  ring

end

section
variable {K : Type} [Field K] [LinearOrder K] [IsStrictOrderedRing K] {issue first pen mat : Date}

theorem days_pos {a b : Date} : 0 < days K a b ↔ a < b := by
  unfold days; rw [Int.cast_pos, C04_sub_pos]

theorem days_lt {a b c : Date} : days K b c < days K a c ↔ a < b := by
  unfold days; rw [Int.cast_lt, C03_serial_lt, C04_sub_serial, C04_sub_serial]; omega

theorem days_lt' {a b c : Date} : days K a b < days K a c ↔ b < c := by
  unfold days; rw [Int.cast_lt, C03_serial_lt, C04_sub_serial, C04_sub_serial]; omega

/-- **C50.** A first period that starts before the first coupon date has positive length; it is shorter than one
regular period, equal to it or longer, as the issue date is after, at or before the regular start. -/
theorem C50_first_length_bounds (x : K) (h : IsFirstLength 6 issue first x) (hi : issue < first) :
    0 < x ∧ ∃ prior, IsMonthsLater (-6) first prior ∧
      (x < 1 ↔ prior < issue) ∧ (x = 1 ↔ issue = prior) ∧ (1 < x ↔ issue < prior) := by
  obtain ⟨prior, hp, hx⟩ := h
  have hpf : prior < first := by
    have := hp.1
    rw [lt_iff_monthNumber]; omega
  rcases hx with ⟨rfl, rfl⟩ | ⟨h, rfl⟩ | ⟨h, prior2, hp2, rfl⟩
  · exact ⟨one_pos, issue, hp, by simp, by simp, by simp⟩
  · have hd : 0 < days K prior first := days_pos.2 hpf
    have hlt : days K issue first / days K prior first < 1 := (div_lt_one hd).2 (days_lt.2 h)
    exact ⟨div_pos (days_pos.2 hi) hd, prior, hp, iff_of_true hlt h, iff_of_false hlt.ne (ne_of_gt h),
      iff_of_false hlt.le.not_gt h.le.not_gt⟩
  · have hp2f : prior2 < prior := by
      have := hp2.1
      rw [lt_iff_monthNumber]; omega
    have hpos : 0 < days K issue prior / days K prior2 prior := div_pos (days_pos.2 h) (days_pos.2 hp2f)
    exact ⟨by linarith, prior, hp, iff_of_false (by linarith) h.le.not_gt, iff_of_false (by linarith) (ne_of_lt h),
      iff_of_true (by linarith) h⟩

/-- **C50.** Likewise for the last period. -/
theorem C50_last_length_bounds (x : K) (h : IsLastLength 6 pen mat x) (hm : pen < mat) :
    0 < x ∧ ∃ next, IsMonthsLater 6 pen next ∧
      (x < 1 ↔ mat < next) ∧ (x = 1 ↔ mat = next) ∧ (1 < x ↔ next < mat) := by
  obtain ⟨next, hp, hx⟩ := h
  have hpf : pen < next := isMonthsLater_lt (by norm_num) hp
  rcases hx with ⟨rfl, rfl⟩ | ⟨h, rfl⟩ | ⟨h, next2, hp2, rfl⟩
  · exact ⟨one_pos, mat, hp, by simp, by simp, by simp⟩
  · have hd : 0 < days K pen next := days_pos.2 hpf
    have hlt : days K pen mat / days K pen next < 1 := (div_lt_one hd).2 (days_lt'.2 h)
    exact ⟨div_pos (days_pos.2 hm) hd, next, hp, iff_of_true hlt h, iff_of_false hlt.ne (ne_of_lt h),
      iff_of_false hlt.le.not_gt h.le.not_gt⟩
  · have hp2f : next < next2 := isMonthsLater_lt (by norm_num) hp2
    have hpos : 0 < days K next mat / days K next next2 := div_pos (days_pos.2 h) (days_pos.2 hp2f)
    exact ⟨by linarith, next, hp, iff_of_false (by linarith) h.le.not_gt, iff_of_false (by linarith) (ne_of_gt h),
      iff_of_true (by linarith) h⟩

end

/-! ### Concrete bonds -/

section Examples

/-- The bond of the repository's own test: issued one day after the regular start, so the first coupon is for 183 of
184 days; the last period is regular. -/
example : ∃ b, Bond.new "Test" ⟨2023, 5, 8, by decide⟩ ⟨2023, 11, 7, by decide⟩ ⟨2042, 5, 7, by decide⟩
      ⟨2042, 11, 7, by decide⟩ .sa (0.062 : ℚ) 1000 = .ok (some b) ∧
    (∃ g, b.bondCashFlows.head? = some g ∧ g.paymentAmount = 31 * (183 / 184)) ∧
    (∃ g, b.bondCashFlows.getLast? = some g ∧ g.paymentAmount = 1031) := by
  obtain ⟨b, hb⟩ := C51_in_range_partial (K := ℚ) (id := "Test") (issue := ⟨2023, 5, 8, by decide⟩)
    (first := ⟨2023, 11, 7, by decide⟩) (pen := ⟨2042, 5, 7, by decide⟩) (mat := ⟨2042, 11, 7, by decide⟩) (f := .sa)
    (rate := 0.062) (face := 1000) (by decide) (by decide) (by decide)
  refine ⟨b, hb, ?_⟩
  obtain ⟨coupons, final, he, _, h0, ⟨x, hx, hfin⟩, _⟩ := C50_amounts hb
  obtain ⟨coupons', final', he', hs, _⟩ := C48_schedule hb
  have hc : coupons = coupons' := (List.append_inj' (he.symm.trans he') rfl).1
  have hne : coupons ≠ [] := by
    rintro rfl
    rw [← hc] at hs
    have := hs.empty.1 rfl
    revert this; decide
  match coupons, hne, he, h0 with
  | g :: l, _, he, h0 =>
    obtain ⟨y, hy, hg⟩ := h0 g rfl
    constructor
    · refine ⟨g, by rw [he]; rfl, ?_⟩
      have : y = 183 / 184 := (C50_lengths_unique (pen := ⟨2042, 5, 7, by decide⟩)
        (mat := ⟨2042, 11, 7, by decide⟩) y _).1 hy ⟨⟨2023, 5, 7, by decide⟩,
        (subMonths_iff (n := 6)).1 (by decide), .inr (.inl ⟨by decide, by
          have e1 : Date.sub (⟨2023, 11, 7, by decide⟩ : Date) ⟨2023, 5, 8, by decide⟩ = 183 := by decide
          have e2 : Date.sub (⟨2023, 11, 7, by decide⟩ : Date) ⟨2023, 5, 7, by decide⟩ = 184 := by decide
          simp only [days, e1, e2]; norm_num⟩)⟩
      rw [hg, this]; norm_num
    · refine ⟨final, by rw [he, List.getLast?_concat], ?_⟩
      have : x = 1 := (C50_lengths_unique (issue := ⟨2023, 5, 8, by decide⟩)
        (first := ⟨2023, 11, 7, by decide⟩) x _).2 hx ⟨⟨2042, 11, 7, by decide⟩,
        (addMonths_iff (n := 6)).1 (by decide), .inl ⟨rfl, rfl⟩⟩
      rw [hfin, this]; norm_num

end Examples

/-- **C49.** Refuted at month ends: coupons from 31 August 2023 come due on 29 February and then on 29 August 2024,
two days before the anchored date. -/
theorem C49_refuted : ∃ (issue first pen mat : Date) (b : Bond ℚ),
    Bond.new "" issue first pen mat .sa (1 : ℚ) 1 = .ok (some b) ∧
    Date.checkedAddMonths first 12 = some ⟨2024, 8, 31, by decide⟩ ∧
    b.bondCashFlows[2]?.map (·.dueDate) = some ⟨2024, 8, 29, by decide⟩ := by
  obtain ⟨b, hb⟩ := C51_in_range_partial (K := ℚ) (id := "") (issue := ⟨2023, 2, 28, by decide⟩)
    (first := ⟨2023, 8, 31, by decide⟩) (pen := ⟨2024, 8, 31, by decide⟩) (mat := ⟨2025, 2, 28, by decide⟩) (f := .sa)
    (rate := 1) (face := 1) (by decide) (by decide) (by decide)
  refine ⟨_, _, _, _, b, hb, by decide, ?_⟩
  obtain ⟨coupons, final, he, hs, _⟩ := C48_schedule hb
  have hl : coupons.map (·.dueDate) =
      [⟨2023, 8, 31, by decide⟩, ⟨2024, 2, 29, by decide⟩, ⟨2024, 8, 29, by decide⟩] := by
    refine C48_schedule_unique 6 (by norm_num) _ _ _ _ hs ⟨by decide, by simp, ?_, ?_, ?_⟩
    · simp only [List.isChain_cons_cons, List.isChain_singleton, and_true]
      exact ⟨(addMonths_iff (n := 6)).1 (by decide), (addMonths_iff (n := 6)).1 (by decide)⟩
    · decide
    · intro d hd
      simp at hd
      subst hd
      exact ⟨⟨2025, 2, 28, by decide⟩, (addMonths_iff (n := 6)).1 (by decide), by decide⟩
  have hlen : coupons.length = 3 := by simpa using congrArg List.length hl
  have := congrArg (·[2]?) hl
  simp only [List.getElem?_map] at this
  rw [he, List.getElem?_append_left (by omega), this]
  rfl

/-! ## C61 -/

/-- **C61.** Refuted: a bond that matures before it is issued is constructed, for every rate and face value. -/
theorem C61_refuted : ∃ issue first pen mat : Date, mat < issue ∧ ∀ (id : String) (rate face : ℚ),
    ∃ b, Bond.new id issue first pen mat .sa rate face = .ok (some b) :=
  ⟨⟨2023, 1, 1, by decide⟩, ⟨2023, 7, 1, by decide⟩, ⟨2023, 7, 1, by decide⟩, ⟨2022, 1, 1, by decide⟩, by decide,
    fun _ _ _ => C51_in_range_partial (by decide) (by decide) (by decide)⟩

/-- **C61.** Neither the issue date nor the maturity is ever the reason for a refusal within the years -262000 to
262000: whatever they are, a first coupon date not after the penultimate one is enough.  Missing for the full
property: any check of the date order. -/
theorem C61_no_check_partial {K : Type} [Field K] [FromInt K] [ExactCast K] (id : String)
    (issue issue' first pen mat mat' : Date) (f : Frequency) (rate face : K) (hle : first ≤ pen)
    (h1 : -262000 ≤ first.year) (h2 : pen.year ≤ 262000) :
    (∃ b, Bond.new id issue first pen mat f rate face = .ok (some b)) ∧
    (∃ b, Bond.new id issue' first pen mat' f rate face = .ok (some b)) :=
  ⟨C51_in_range_partial hle h1 h2, C51_in_range_partial hle h1 h2⟩

/-! ## C62 -/

/-- **C62.** Coupons before maturity are paid on weekdays, never before the due date and at most two days after it.
Any value type, floats included.  Missing for the full property: the flow at maturity. -/
theorem C62_coupons_partial {V : Type} [Add V] [Mul V] [Div V] [FromInt V] {id : String}
    {issue first pen mat : Date} {f : Frequency} {rate face : V} {b : Bond V}
    (h : Bond.new id issue first pen mat f rate face = .ok (some b)) (k : Nat) (hk : k + 1 < b.bondCashFlows.length) :
    IsWorkday b.bondCashFlows[k].paymentDate ∧
    0 ≤ Date.sub b.bondCashFlows[k].paymentDate b.bondCashFlows[k].dueDate ∧
    Date.sub b.bondCashFlows[k].paymentDate b.bondCashFlows[k].dueDate ≤ 2 := by
  obtain ⟨freq, flows, flows', final, hfr, hl, h1, h2, rfl⟩ := Bond.new_eq_some.1 h
  have hspec := (Bond.regularLoop_spec _ _ _ _ _ _ hl).2
  obtain ⟨e1, e2, _⟩ := Bond.firstCashFlow_shape h1
  have hi : k < flows'.length := by simpa using hk
  have hi' : k < flows.length := by
    have := congrArg List.length e1; simp at this; omega
  have d1 : flows'[k].dueDate = flows[k].dueDate := by
    have := congrArg (·[k]?) e1
    simpa [List.getElem?_eq_getElem hi, List.getElem?_eq_getElem hi'] using this
  have d2 : flows'[k].paymentDate = flows[k].paymentDate := by
    have := congrArg (·[k]?) e2
    simpa [List.getElem?_eq_getElem hi, List.getElem?_eq_getElem hi'] using this
  simp only [List.getElem_append_left hi, d1, d2]
  exact C11_weekend_roll_bounds _ _ (hspec _ (List.getElem_mem hi')).2

/-- **C62.** Refuted: the flow at maturity is paid on the maturity date even on a weekend, for every bond. -/
theorem C62_refuted {V : Type} [Add V] [Mul V] [Div V] [FromInt V] {id : String}
    {issue first pen mat : Date} {f : Frequency} {rate face : V} {b : Bond V}
    (h : Bond.new id issue first pen mat f rate face = .ok (some b)) (hw : ¬ IsWorkday mat) :
    ∃ g, b.bondCashFlows.getLast? = some g ∧ ¬ IsWorkday g.paymentDate := by
  obtain ⟨freq, flows, flows', final, hfr, hl, h1, h2, rfl⟩ := Bond.new_eq_some.1 h
  exact ⟨final, by simp, by rw [(Bond.finalCashFlow_dates h2).2]; exact hw⟩

/-- Such a bond: maturity on Saturday 7 January 2023. -/
example : ¬ IsWorkday ⟨2023, 1, 7, by decide⟩ ∧ ∃ b, Bond.new "" ⟨2022, 1, 7, by decide⟩ ⟨2022, 7, 7, by decide⟩
    ⟨2022, 7, 7, by decide⟩ ⟨2023, 1, 7, by decide⟩ .sa (1 : ℚ) 1 = .ok (some b) :=
  ⟨by unfold IsWorkday; decide, C51_in_range_partial (by decide) (by decide) (by decide)⟩

/-- The bond of the repository's own test, with the theorems that take a built bond. -/
example : ∃ b, Bond.new "Test" ⟨2023, 5, 7, by decide⟩ ⟨2023, 11, 7, by decide⟩ ⟨2042, 5, 7, by decide⟩
      ⟨2042, 11, 7, by decide⟩ .sa (0.062 : ℚ) 1000 = .ok (some b) ∧ b.bondId = "Test" ∧
    (b.bondCashFlows.map (·.paymentAmount)).sum = 1000 + b.bondCashFlows.length * (0.062 * 1000 / 2) ∧
    (∀ k, (hk : k + 1 < b.bondCashFlows.length) → IsWorkday b.bondCashFlows[k].paymentDate ∧
      monthNumber b.bondCashFlows[k].dueDate.year b.bondCashFlows[k].dueDate.month = monthNumber 2023 11 + 6 * k) := by
  obtain ⟨b, hb⟩ := C51_in_range_partial (K := ℚ) (id := "Test") (issue := ⟨2023, 5, 7, by decide⟩)
    (first := ⟨2023, 11, 7, by decide⟩) (pen := ⟨2042, 5, 7, by decide⟩) (mat := ⟨2042, 11, 7, by decide⟩) (f := .sa)
    (rate := 0.062) (face := 1000) (by decide) (by decide) (by decide)
  exact ⟨b, hb, C48_id hb, C50_regular_total hb ((subMonths_iff (n := 6)).1 (by decide)) ((addMonths_iff (n := 6)).1 (by decide)),
    fun k hk => ⟨(C62_coupons_partial hb k hk).1, (C49_month_partial hb k hk).1⟩⟩

/-- A maturity before issue is not checked. -/
example := C61_no_check_partial (K := ℚ) "" ⟨2023, 5, 7, by decide⟩ ⟨2043, 5, 7, by decide⟩ ⟨2023, 11, 7, by decide⟩
  ⟨2042, 5, 7, by decide⟩ ⟨2042, 11, 7, by decide⟩ ⟨2022, 11, 7, by decide⟩ .sa 0.062 1000 (by decide) (by decide) (by decide)

/-- The schedule of the test bond is the only one. -/
example (l l' : List Date) (h : IsSchedule 6 ⟨2023, 11, 7, by decide⟩ ⟨2042, 5, 7, by decide⟩ l)
    (h' : IsSchedule 6 ⟨2023, 11, 7, by decide⟩ ⟨2042, 5, 7, by decide⟩ l') : l = l' :=
  C48_schedule_unique 6 (by decide) _ _ l l' h h'

end Qlab.Props
