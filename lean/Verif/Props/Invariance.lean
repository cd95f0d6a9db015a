import Verif.Props.Lengths
import Verif.Props.BondValue
import Verif.Lemmas.Easter
import Verif.Model.Ieee

/-!
# Moving all dates together (C106)
-/

namespace Qlab.Spec

/-- `b` is `n` days after `a`. -/
def IsDaysLater (n : Int) (a b : Date) : Prop := Date.sub b a = n

/-- Both calls panic, both return the same value, or both fail with the same error; messages of invalid-input errors may
differ, since they quote the dates. -/
def SameOutcome {V : Type} : Rust (QLabResult V) → Rust (QLabResult V) → Prop
  | .panic, .panic => True
  | .ok (.ok v), .ok (.ok w) => v = w
  | .ok (.error e), .ok (.error e') => e = e' ∨ ∃ m m', e = invalidInput m ∧ e' = invalidInput m'
  | _, _ => False

/-- The same flow, `n` days later. -/
def IsFlowLater {V : Type} (n : Int) (c c' : BondCashFlow V) : Prop :=
  IsDaysLater n c.dueDate c'.dueDate ∧ IsDaysLater n c.paymentDate c'.paymentDate ∧ c'.paymentAmount = c.paymentAmount

end Qlab.Spec

namespace Qlab.Props

open Spec

section
variable {V : Type}

theorem SameOutcome.refl (a : Rust (QLabResult V)) : SameOutcome a a := by
  rcases a with (e | v) | _ <;> simp [SameOutcome]

theorem daysLater_serial {n : Int} {a b : Date} : IsDaysLater n a b ↔ b.numDaysFromCe = a.numDaysFromCe + n := by
  show b.numDaysFromCe - a.numDaysFromCe = n ↔ _
  omega

theorem daysLater_lt {n : Int} {a b a' b' : Date} (ha : IsDaysLater n a a') (hb : IsDaysLater n b b') :
    a' < b' ↔ a < b := by
  rw [daysLater_serial] at ha hb
  rw [NaiveDate.lt_iff_serial, NaiveDate.lt_iff_serial]; omega

theorem daysLater_le {n : Int} {a b a' b' : Date} (ha : IsDaysLater n a a') (hb : IsDaysLater n b b') :
    a' ≤ b' ↔ a ≤ b := by
  rw [daysLater_serial] at ha hb
  rw [NaiveDate.le_iff_serial, NaiveDate.le_iff_serial]; omega

theorem daysLater_eq {n : Int} {a b a' b' : Date} (ha : IsDaysLater n a a') (hb : IsDaysLater n b b') :
    a' = b' ↔ a = b := by
  rw [daysLater_serial] at ha hb
  rw [← NaiveDate.serial_eq_iff, ← NaiveDate.serial_eq_iff]; omega

theorem daysLater_sub {n : Int} {a b a' b' : Date} (ha : IsDaysLater n a a') (hb : IsDaysLater n b b') :
    Date.sub b' a' = Date.sub b a := by
  rw [daysLater_serial] at ha hb
  show b'.numDaysFromCe - a'.numDaysFromCe = b.numDaysFromCe - a.numDaysFromCe
  omega

theorem serial_era {a b : Date} (h1 : b.year = a.year + 400) (h2 : b.month = a.month) (h3 : b.day = a.day) :
    IsDaysLater 146097 a b := by
  rw [daysLater_serial]
  unfold NaiveDate.numDaysFromCe NaiveDate.ordinal
  rw [h1, h2, h3, isLeap_add_400]
  unfold daysBeforeYear; omega

/-- 146097 days later is 400 years later. -/
theorem era_fields {a b : Date} (h : IsDaysLater 146097 a b) :
    b.year = a.year + 400 ∧ b.month = a.month ∧ b.day = a.day := by
  have h' := daysLater_serial.1 h
  have e1 : daysBeforeYear (a.year + 400) = daysBeforeYear a.year + 146097 := by unfold daysBeforeYear; omega
  have e2 : daysBeforeYear (a.year + 400 + 1) = daysBeforeYear (a.year + 1) + 146097 := by unfold daysBeforeYear; omega
  have hy : b.year = a.year + 400 :=
    year_of_serial (by have := serial_year_lower a; omega) (by have := serial_year_upper a; omega)
  have hv : IsValid (a.year + 400) a.month a.day := by
    have h1 := a.valid
    have h2 := b.valid
    unfold IsValid at *
    rw [hy] at h2
    refine ⟨h2.1, h2.2.1, ?_⟩
    have := h1.2.2
    rw [isLeap_add_400]; exact this
  have hb : b = ⟨a.year + 400, a.month, a.day, hv⟩ := by
    rw [← NaiveDate.serial_eq_iff]
    have := daysLater_serial.1 (serial_era (a := a) (b := ⟨a.year + 400, a.month, a.day, hv⟩) rfl rfl rfl)
    omega
  rw [hb]; exact ⟨rfl, rfl, rfl⟩

/-- Propagating errors with `?` keeps outcomes alike. -/
theorem SameOutcome.bind {A B : Type} {a a' : Rust (QLabResult A)} {f g : QLabResult A → Rust (QLabResult B)}
    (h : SameOutcome a a') (hf : ∀ v, SameOutcome (f (.ok v)) (g (.ok v))) (fe : ∀ e, f (.error e) = .ok (.error e) := by
      exact fun _ => rfl) (ge : ∀ e, g (.error e) = .ok (.error e) := by exact fun _ => rfl) :
    SameOutcome (a >>= f) (a' >>= g) := by
  rcases a with (e | v) | _ <;> rcases a' with (e' | v') | _ <;> first | exact h.elim | skip
  · rw [Rust.ok_bind, Rust.ok_bind, fe, ge]; exact h
  · cases h; exact hf _
  · trivial

/-- The day counts to which moving dates by `n` days makes no difference: Act/360 and Act/365 for every `n`, 30/360 for
400 years. -/
theorem dayCount_shift [Div V] [FromInt V] {D : DayCount V} {n : Int}
    (hD : D = DayCount.act360 ∨ D = DayCount.act365 ∨ n = 146097 ∧ ∃ oc, D = DayCount.thirty360 oc)
    {a b a' b' : Date} (ha : IsDaysLater n a a') (hb : IsDaysLater n b b') : SameOutcome (D a b) (D a' b') := by
  rcases hD with rfl | rfl | ⟨rfl, oc, rfl⟩
  · unfold DayCount.act360; rw [daysLater_sub ha hb]; exact SameOutcome.refl _
  · unfold DayCount.act365; rw [daysLater_sub ha hb]; exact SameOutcome.refl _
  · unfold DayCount.thirty360
    refine SameOutcome.bind ?_ fun v => SameOutcome.refl _
    unfold DayCount.thirty360Diff
    simp only [daysLater_lt hb ha]
    obtain ⟨a1, a2, a3⟩ := era_fields ha
    obtain ⟨b1, b2, b3⟩ := era_fields hb
    have e : subI32 oc b'.year a'.year = subI32 oc b.year a.year := by
      unfold subI32; rw [a1, b1, show b.year + 400 - (a.year + 400) = b.year - a.year by omega]
    split
    · exact .inr ⟨_, _, rfl, rfl⟩
    · rw [e, a2, a3, b2, b3]; exact SameOutcome.refl _

theorem fractions_shift {D : DayCount V} {n : Int} {s s' : Date} {ms ms' : List Date}
    (hD : ∀ m m', IsDaysLater n m m' → SameOutcome (D s m) (D s' m')) (hm : List.Forall₂ (IsDaysLater n) ms ms') :
    SameOutcome (YieldCurve.fractions D s ms) (YieldCurve.fractions D s' ms') := by
  induction hm with
  | nil => rfl
  | cons h _ ih =>
    unfold YieldCurve.fractions
    exact SameOutcome.bind (hD _ _ h) fun v => SameOutcome.bind ih fun w => SameOutcome.refl _

theorem discountFactor_shift [Neg V] [Sub V] [Mul V] [HasExp V] {D : DayCount V} {I : Interpolator V} {n : Int}
    (s s' : Date) (hs : IsDaysLater n s s') (hD : ∀ m m', IsDaysLater n m m' → SameOutcome (D s m) (D s' m'))
    (st : I.State) {a b a' b' : Date} (ha : IsDaysLater n a a') (hb : IsDaysLater n b b') :
    SameOutcome ((⟨s, st⟩ : YieldCurve V I).discountFactor D a b) ((⟨s', st⟩ : YieldCurve V I).discountFactor D a' b') := by
  unfold YieldCurve.discountFactor
  simp only [daysLater_lt hb ha, daysLater_lt ha hs, daysLater_lt hb hs, daysLater_eq ha hs]
  split
  · exact .inr ⟨_, _, rfl, rfl⟩
  · split
    · exact .inr ⟨_, _, rfl, rfl⟩
    · refine SameOutcome.bind (hD _ _ hb) fun t2 => SameOutcome.bind (SameOutcome.refl _) fun y2 => ?_
      by_cases hc : a = s
      · simp only [if_pos hc]; exact SameOutcome.refl _
      · simp only [if_neg hc]; exact SameOutcome.bind (hD _ _ ha) fun t1 => SameOutcome.refl _

/-- **C106.** With Act/360 or Act/365 only distances between dates matter: moving the settlement date, all maturities and
the two query dates by the same number of days changes no discount factor, at any value type, floats included, and with any
interpolator.  With 30/360 this holds for 400 years. -/
theorem C106_curve [Neg V] [Sub V] [Mul V] [Div V] [FromInt V] [HasExp V] (D : DayCount V) (n : Int)
    (hD : D = DayCount.act360 ∨ D = DayCount.act365 ∨ n = 146097 ∧ ∃ oc, D = DayCount.thirty360 oc) (I : Interpolator V)
    (s s' : Date) (ms ms' : List Date) (ys : List V) (a b a' b' : Date) (hs : IsDaysLater n s s')
    (hm : List.Forall₂ (IsDaysLater n) ms ms') (ha : IsDaysLater n a a') (hb : IsDaysLater n b b') :
    SameOutcome (curveDiscount D I s ms ys a b) (curveDiscount D I s' ms' ys a' b') := by
  have hD' : ∀ m m', IsDaysLater n m m' → SameOutcome (D s m) (D s' m') := fun m m' h => dayCount_shift hD hs h
  have hF := fractions_shift hD' hm
  unfold curveDiscount YieldCurve.new
  rw [hm.length_eq]
  by_cases hl : ms'.length = ys.length
  · simp only [hl, ne_eq, not_true_eq_false, if_false]
    revert hF
    rcases YieldCurve.fractions D s ms with (e | ts) | _ <;> rcases YieldCurve.fractions D s' ms' with (e' | ts') | _ <;>
      intro hF <;> first | exact hF.elim | skip
    · exact hF
    · cases hF
      simp only [Rust.ok_bind]
      rcases I.tryFit I.default (ts.zip ys) with (e | st) | _
      · exact SameOutcome.refl _
      · simp only [Rust.ok_bind, Rust.pure_eq]
        exact discountFactor_shift s s' hs hD' st ha hb
      · exact SameOutcome.refl _
    · trivial
  · simp only [hl, ne_eq, not_false_eq_true, if_true]
    exact SameOutcome.refl _

/-- A curve settled on 1 January 2024 and the same curve six days later, seen from 10 January and 10 March, in `f64`. -/
example [HasExp (Ieee .binary64)] (y₁ y₂ : (Ieee .binary64)) :
    SameOutcome
      (curveDiscount DayCount.act365 (Interpolator.catmullRom _) ⟨2024, 1, 1, by decide⟩
        [⟨2024, 1, 5, by decide⟩, ⟨2024, 2, 29, by decide⟩, ⟨2024, 4, 30, by decide⟩] [y₁, y₂, y₁]
        ⟨2024, 1, 10, by decide⟩ ⟨2024, 3, 10, by decide⟩)
      (curveDiscount DayCount.act365 (Interpolator.catmullRom _) ⟨2024, 1, 7, by decide⟩
        [⟨2024, 1, 11, by decide⟩, ⟨2024, 3, 6, by decide⟩, ⟨2024, 5, 6, by decide⟩] [y₁, y₂, y₁]
        ⟨2024, 1, 16, by decide⟩ ⟨2024, 3, 16, by decide⟩) :=
  C106_curve _ 6 (.inr (.inl rfl)) _ _ _ _ _ _ _ _ _ _ (by unfold IsDaysLater; decide)
    (by
      refine .cons ?_ (.cons ?_ (.cons ?_ .nil)) <;> unfold IsDaysLater <;> decide)
    (by unfold IsDaysLater; decide) (by unfold IsDaysLater; decide)

/-- Moving 30/360 by six days, or by a year, does change fractions: from 28 February 2023 to 1 March there are 3 days, from
1 March to 2 March one. -/
example : DayCount.thirty360Diff true ⟨2023, 2, 28, by decide⟩ ⟨2023, 3, 1, by decide⟩ = .ok (.ok 3) ∧
    DayCount.thirty360Diff true ⟨2023, 3, 1, by decide⟩ ⟨2023, 3, 2, by decide⟩ = .ok (.ok 1) := by decide

/-! ## Bonds four centuries later -/

theorem monthsLater_era {k : Int} {d d' r r' : Date} (hd : IsDaysLater 146097 d d') (h : IsMonthsLater k d r)
    (h' : IsMonthsLater k d' r') : IsDaysLater 146097 r r' := by
  obtain ⟨y, m, dd⟩ := era_fields hd
  obtain ⟨h1, h2⟩ := h
  obtain ⟨h1', h2'⟩ := h'
  unfold monthNumber at h1 h1'
  have hm1 := r.month_pos
  have hm2 := r.month_le
  have hm3 := r'.month_pos
  have hm4 := r'.month_le
  have ey : r'.year = r.year + 400 := by omega
  have em : r'.month = r.month := by omega
  refine serial_era ey em ?_
  unfold IsSameDayClamped at h2 h2'
  rw [ey, em, dd, isLastDay_iff, isLeap_add_400] at h2'
  rw [isLastDay_iff] at h2
  have hd1 := r.day_le
  have hd2 := r'.day_le
  rw [ey, em, isLeap_add_400] at hd2
  omega

theorem addMonths_era {k : Nat} {d d' r r' : Date} (hd : IsDaysLater 146097 d d')
    (h : Date.checkedAddMonths d k = some r) (h' : Date.checkedAddMonths d' k = some r') : IsDaysLater 146097 r r' :=
  monthsLater_era hd ((C07_add_months _ _ _).1 h) ((C07_add_months _ _ _).1 h')

theorem subMonths_era {k : Nat} {d d' r r' : Date} (hd : IsDaysLater 146097 d d')
    (h : Date.checkedSubMonths d k = some r) (h' : Date.checkedSubMonths d' k = some r') : IsDaysLater 146097 r r' := by
  rw [subMonths_eq, diffMonths_eq_some] at h h'
  exact monthsLater_era hd h h'

theorem weekendRoll_era {d d' r r' : Date} (hd : IsDaysLater 146097 d d') (h : Date.weekendRoll d = some r)
    (h' : Date.weekendRoll d' = some r') : IsDaysLater 146097 r r' := by
  have hw : d'.weekday = d.weekday := weekday_eq_of_serial (by have := daysLater_serial.1 hd; omega)
  unfold Date.weekendRoll at h h'
  have e : ∀ x : Date, ¬ (x.month < x.month ∨ x.month = 12 ∧ x.month = 1) := by intro x; omega
  simp only [e, if_false, hw] at h h'
  split at h
  · rename_i hc
    rw [if_pos hc] at h'
    have h1 := (C05_add_days _ _ _).1 h
    have h2 := (C05_add_days _ _ _).1 h'
    unfold IsDaysLater at *
    change r.numDaysFromCe - d.numDaysFromCe = _ at h1
    change r'.numDaysFromCe - d'.numDaysFromCe = _ at h2
    change d'.numDaysFromCe - d.numDaysFromCe = _ at hd
    change r'.numDaysFromCe - r.numDaysFromCe = _
    omega
  · rename_i hc
    rw [if_neg hc] at h'
    cases h; cases h'; exact hd

theorem regularLoop_era {k : Nat} (hk : 0 < k) (coupon : V) {pen pen' : Date} (hp : IsDaysLater 146097 pen pen') :
    ∀ (flows flows' : List (BondCashFlow V)) (d d' : Date), IsDaysLater 146097 d d' →
      Bond.regularLoop k hk coupon pen d = some flows → Bond.regularLoop k hk coupon pen' d' = some flows' →
      List.Forall₂ (IsFlowLater 146097) flows flows' := by
  intro flows
  induction flows with
  | nil =>
    intro flows' d d' hd h h'
    rw [Bond.regularLoop] at h h'
    split at h
    · split at h
      · cases h
      · split at h
        · cases h
        · split at h <;> cases h
    · rename_i hc
      rw [dif_neg (by rw [daysLater_le hd hp]; exact hc)] at h'
      cases h'; exact .nil
  | cons c rest ih =>
    intro flows' d d' hd h h'
    rw [Bond.regularLoop] at h h'
    split at h
    · rename_i hc
      rw [dif_pos (by rw [daysLater_le hd hp]; exact hc)] at h'
      split at h
      · cases h
      · rename_i pd hpd
        split at h
        · cases h
        · rename_i nx hnx
          split at h
          · cases h
          · rename_i rs hrs
            cases h
            split at h'
            · cases h'
            · rename_i pd' hpd'
              split at h'
              · cases h'
              · rename_i nx' hnx'
                split at h'
                · cases h'
                · rename_i rs' hrs'
                  cases h'
                  exact .cons ⟨hd, weekendRoll_era hd hpd hpd', rfl⟩ (ih _ _ _ (addMonths_era hd hnx hnx') hrs hrs')
    · cases h

variable [Add V] [Mul V] [Div V] [FromInt V]

theorem firstCashFlow_era {k : Nat} {coupon : V} {i i' f f' : Date} {l l' r r' : List (BondCashFlow V)}
    (hi : IsDaysLater 146097 i i') (hf : IsDaysLater 146097 f f') (hl : List.Forall₂ (IsFlowLater 146097) l l')
    (h : Bond.firstCashFlow i f k coupon l = .ok (some r)) (h' : Bond.firstCashFlow i' f' k coupon l' = .ok (some r')) :
    List.Forall₂ (IsFlowLater 146097) r r' := by
  unfold Bond.firstCashFlow at h h'
  cases hp : Date.checkedSubMonths f k with
  | none => rw [hp] at h; cases h
  | some p =>
    cases hp' : Date.checkedSubMonths f' k with
    | none => rw [hp'] at h'; cases h'
    | some p' =>
      have he := subMonths_era hf hp hp'
      rw [hp] at h; rw [hp'] at h'
      simp only [daysLater_lt he hi, daysLater_lt hi he, daysLater_sub hi hf, daysLater_sub he hf, daysLater_sub hi he] at h h'
      split at h
      · rename_i hc
        rw [if_pos hc] at h'
        split at h
        · rename_i a b ha hb
          rw [ha, hb] at h'
          simp only at h'
          cases hl with
          | nil => cases h
          | cons hc0 hrest =>
            cases h; cases h'
            exact .cons ⟨hc0.1, hc0.2.1, by simp only [hc0.2.2]⟩ hrest
        · cases h
      · rename_i hc
        rw [if_neg hc] at h'
        split at h
        · rename_i hc2
          rw [if_pos hc2] at h'
          cases hq : Date.checkedSubMonths p k with
          | none => rw [hq] at h; cases h
          | some q =>
            cases hq' : Date.checkedSubMonths p' k with
            | none => rw [hq'] at h'; cases h'
            | some q' =>
              have hqe := subMonths_era he hq hq'
              rw [hq] at h; rw [hq'] at h'
              simp only [daysLater_sub hqe he] at h h'
              split at h
              · rename_i a b ha hb
                rw [ha, hb] at h'
                simp only at h'
                cases hl with
                | nil => cases h
                | cons hc0 hrest =>
                  cases h; cases h'
                  exact .cons ⟨hc0.1, hc0.2.1, by simp only [hc0.2.2]⟩ hrest
              · cases h
        · rename_i hc2
          rw [if_neg hc2] at h'
          cases h; cases h'; exact hl

theorem finalCashFlow_era {k : Nat} {coupon face : V} {p p' m m' : Date} {c c' : BondCashFlow V}
    (hp : IsDaysLater 146097 p p') (hm : IsDaysLater 146097 m m')
    (h : Bond.finalCashFlow p m face k coupon = some c) (h' : Bond.finalCashFlow p' m' face k coupon = some c') :
    IsFlowLater 146097 c c' := by
  unfold Bond.finalCashFlow at h h'
  cases hr : Date.checkedAddMonths p k with
  | none => rw [hr] at h; cases h
  | some r =>
    cases hr' : Date.checkedAddMonths p' k with
    | none => rw [hr'] at h'; cases h'
    | some r' =>
      have he := addMonths_era hp hr hr'
      rw [hr] at h; rw [hr'] at h'
      simp only [daysLater_lt he hm, daysLater_lt hm he, daysLater_sub hp hm, daysLater_sub hp he, daysLater_sub he hm]
        at h h'
      by_cases hc : m < r
      · simp only [if_pos hc] at h h'
        split at h
        · cases h
        · rename_i x hx
          rw [hx] at h'
          cases h; cases h'; exact ⟨hm, hm, rfl⟩
      · simp only [if_neg hc] at h h'
        by_cases hc2 : r < m
        · simp only [if_pos hc2] at h h'
          cases hq : Date.checkedAddMonths r k with
          | none => rw [hq] at h; cases h
          | some q =>
            cases hq' : Date.checkedAddMonths r' k with
            | none => rw [hq'] at h'; cases h'
            | some q' =>
              have hqe := addMonths_era he hq hq'
              rw [hq] at h; rw [hq'] at h'
              simp only [daysLater_sub he hqe] at h h'
              split at h
              · cases h
              · rename_i x hx
                rw [hx] at h'
                cases h; cases h'; exact ⟨hm, hm, rfl⟩
        · simp only [if_neg hc2] at h h'
          cases h; cases h'; exact ⟨hm, hm, rfl⟩

/-- **C106.** A bond issued 400 years (146097 days) later, with all its dates moved, pays the same amounts on dates moved by
the same 146097 days, at any value type.  `C51_in_range_partial` says when both bonds exist. -/
theorem C106_bond (id id' : String) (i f p m i' f' p' m' : Date) (fr : Frequency) (rate face : V) (b b' : Bond V)
    (hi : IsDaysLater 146097 i i') (hf : IsDaysLater 146097 f f') (hp : IsDaysLater 146097 p p')
    (hm : IsDaysLater 146097 m m') (h : Bond.new id i f p m fr rate face = .ok (some b))
    (h' : Bond.new id' i' f' p' m' fr rate face = .ok (some b')) :
    List.Forall₂ (IsFlowLater 146097) b.bondCashFlows b'.bondCashFlows := by
  unfold Bond.new at h h'
  split at h
  · cases h
  · rename_i freq hfreq
    rw [hfreq] at h'
    simp only at h h'
    split at h
    · cases h
    · rename_i l hl
      split at h'
      · cases h'
      · rename_i l' hl'
        have h1 := regularLoop_era _ _ hp _ _ _ _ hf hl hl'
        obtain ⟨o, ho, h⟩ := Rust.bind_eq_ok.1 h
        obtain ⟨o', ho', h'⟩ := Rust.bind_eq_ok.1 h'
        cases o with
        | none => cases h
        | some r =>
          cases o' with
          | none => cases h'
          | some r' =>
            have h2 := firstCashFlow_era hi hf h1 ho ho'
            simp only at h h'
            split at h
            · cases h
            · rename_i c hc
              split at h'
              · cases h'
              · rename_i c' hc'
                cases h; cases h'
                exact List.rel_append h2 (.cons (finalCashFlow_era hp hm hc hc') .nil)

/-- **C106.** Two bonds with the same flows `n` days apart have the same price on curves `n` days apart: with Act/360 and
Act/365 for any `n`, with 30/360 for 400 years, at any value type. -/
theorem C106_price [Zero V] [Neg V] [Sub V] [HasExp V] (D : DayCount V) (n : Int)
    (hD : D = DayCount.act360 ∨ D = DayCount.act365 ∨ n = 146097 ∧ ∃ oc, D = DayCount.thirty360 oc) (I : Interpolator V)
    (s s' t t' : Date) (ms ms' : List Date) (ys : List V) (b b' : Bond V) (hs : IsDaysLater n s s') (ht : IsDaysLater n t t')
    (hm : List.Forall₂ (IsDaysLater n) ms ms') (hb : List.Forall₂ (IsFlowLater n) b.bondCashFlows b'.bondCashFlows) 
    (c c' : YieldCurve V I) (hc : YieldCurve.new D I s ms ys = .ok (.ok c))
    (hc' : YieldCurve.new D I s' ms' ys = .ok (.ok c')) :
    SameOutcome (b.discountedValue D t c) (b'.discountedValue D t' c') := by
  have hD' : ∀ m m', IsDaysLater n m m' → SameOutcome (D s m) (D s' m') := fun m m' h => dayCount_shift hD hs h
  obtain ⟨st, rfl, rfl⟩ : ∃ st, c = ⟨s, st⟩ ∧ c' = ⟨s', st⟩ := by
    have hF := fractions_shift hD' hm
    unfold YieldCurve.new at hc hc'
    split at hc
    · cases hc
    · split at hc'
      · cases hc'
      · obtain ⟨o, ho, hc⟩ := Rust.bind_eq_ok.1 hc
        obtain ⟨o', ho', hc'⟩ := Rust.bind_eq_ok.1 hc'
        rw [ho, ho'] at hF
        cases o with
        | error e => cases hc
        | ok ts =>
          cases o' with
          | error e => cases hc'
          | ok ts' =>
            cases hF
            obtain ⟨q, hq, hc⟩ := Rust.bind_eq_ok.1 hc
            simp only at hc'
            rw [hq, Rust.ok_bind] at hc'
            cases q with
            | error e => cases hc
            | ok st => cases hc; cases hc'; exact ⟨st, rfl, rfl⟩
  unfold Bond.discountedValue
  generalize (0 : V) = pv
  generalize b.bondCashFlows = l at hb ⊢
  generalize b'.bondCashFlows = l' at hb ⊢
  induction hb generalizing pv with
  | nil => exact SameOutcome.refl _
  | cons h _ ih =>
    unfold Bond.pvLoop
    simp only [daysLater_lt ht h.1, h.2.2]
    split
    · have hdf := discountFactor_shift s s' hs hD' st ht h.2.1
      revert hdf
      rcases YieldCurve.discountFactor D (⟨s, st⟩ : YieldCurve V I) t _ with (e | v) | _ <;>
        rcases YieldCurve.discountFactor D (⟨s', st⟩ : YieldCurve V I) t' _ with (e' | v') | _ <;>
        intro hdf <;> first | exact hdf.elim | skip
      · exact hdf
      · cases hdf; exact ih _
      · trivial
    · exact ih _

/-- A bond of 2024 to 2026 and its copy of 2424 to 2426: both exist, and the second has the flows of the first four
centuries later. -/
example : ∃ b b' : Bond ℚ,
    Bond.new "A" ⟨2024, 1, 31, by decide⟩ ⟨2024, 8, 31, by decide⟩ ⟨2025, 8, 31, by decide⟩ ⟨2026, 1, 15, by decide⟩ .sa
      (1 / 20) 100 = .ok (some b) ∧
    Bond.new "B" ⟨2424, 1, 31, by decide⟩ ⟨2424, 8, 31, by decide⟩ ⟨2425, 8, 31, by decide⟩ ⟨2426, 1, 15, by decide⟩ .sa
      (1 / 20) 100 = .ok (some b') ∧ List.Forall₂ (IsFlowLater 146097) b.bondCashFlows b'.bondCashFlows := by
  obtain ⟨b, h⟩ := C51_in_range_partial (id := "A") (issue := ⟨2024, 1, 31, by decide⟩) (first := ⟨2024, 8, 31, by decide⟩)
    (pen := ⟨2025, 8, 31, by decide⟩) (mat := ⟨2026, 1, 15, by decide⟩) (f := .sa) (rate := (1 / 20 : ℚ)) (face := 100)
    (by decide) (by decide) (by decide)
  obtain ⟨b', h'⟩ := C51_in_range_partial (id := "B") (issue := ⟨2424, 1, 31, by decide⟩)
    (first := ⟨2424, 8, 31, by decide⟩) (pen := ⟨2425, 8, 31, by decide⟩) (mat := ⟨2426, 1, 15, by decide⟩) (f := .sa)
    (rate := (1 / 20 : ℚ)) (face := 100) (by decide) (by decide) (by decide)
  exact ⟨b, b', h, h', C106_bond _ _ _ _ _ _ _ _ _ _ _ _ _ _ _ (by unfold IsDaysLater; decide)
    (by unfold IsDaysLater; decide) (by unfold IsDaysLater; decide) (by unfold IsDaysLater; decide) h h'⟩

/-- A flow on 10 March, seen on 10 January on a curve with two pillars, and the same six days later. -/
example [HasExp ℚ] : ∃ c c' : YieldCurve ℚ (Interpolator.linear ℚ),
    YieldCurve.new DayCount.act365 (Interpolator.linear ℚ) ⟨2024, 1, 1, by decide⟩
      [⟨2024, 1, 5, by decide⟩, ⟨2024, 4, 30, by decide⟩] [1 / 20, 1 / 25] = .ok (.ok c) ∧
    YieldCurve.new DayCount.act365 (Interpolator.linear ℚ) ⟨2024, 1, 7, by decide⟩
      [⟨2024, 1, 11, by decide⟩, ⟨2024, 5, 6, by decide⟩] [1 / 20, 1 / 25] = .ok (.ok c') ∧
    SameOutcome
      ((⟨"A", [⟨⟨2024, 3, 10, by decide⟩, ⟨2024, 3, 11, by decide⟩, 100⟩]⟩ : Bond ℚ).discountedValue DayCount.act365 ⟨2024, 1, 10, by decide⟩ c)
      ((⟨"B", [⟨⟨2024, 3, 16, by decide⟩, ⟨2024, 3, 17, by decide⟩, 100⟩]⟩ : Bond ℚ).discountedValue DayCount.act365 ⟨2024, 1, 16, by decide⟩
        c') := by
  refine ⟨_, _, rfl, rfl, ?_⟩
  refine C106_price _ 6 (.inr (.inl rfl)) _ ⟨2024, 1, 1, by decide⟩ ⟨2024, 1, 7, by decide⟩ _ _ [⟨2024, 1, 5, by decide⟩, ⟨2024, 4, 30, by decide⟩]
    [⟨2024, 1, 11, by decide⟩, ⟨2024, 5, 6, by decide⟩] [1 / 20, 1 / 25] _ _ (by unfold IsDaysLater; decide)
    (by unfold IsDaysLater; decide) ?_ ?_ _ _ rfl rfl
  · refine .cons ?_ (.cons ?_ .nil) <;> unfold IsDaysLater <;> decide
  · refine .cons ?_ .nil
    unfold IsFlowLater IsDaysLater
    decide

end

end Qlab.Props
