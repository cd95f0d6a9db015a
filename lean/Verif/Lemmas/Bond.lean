import Verif.Spec.Bond
import Verif.Lemmas.DateOrder
import Verif.Lemmas.Exact
import Verif.Props.Dates
import Verif.Props.Rolling
import Mathlib.Tactic.Ring

/-! # Lemmas about bond construction -/

namespace Qlab

open Spec Props

theorem addMonths_iff {d r : Date} {n : Nat} : Date.checkedAddMonths d n = some r ↔ IsMonthsLater n d r :=
  C07_add_months d r n

theorem subMonths_iff {d r : Date} {n : Nat} : Date.checkedSubMonths d n = some r ↔ IsMonthsLater (-n) d r := by
  rw [C08_sub_months]; unfold IsMonthsLater; rw [Int.sub_eq_add_neg]

theorem isMonthsLater_lt {n : Int} (hn : 0 < n) {a b : Date} (h : IsMonthsLater n a b) : a < b := by
  have := h.1
  rw [lt_iff_monthNumber]; omega

theorem isMonthsLater_unique {n : Int} {a b c : Date} (hb : IsMonthsLater n a b) (hc : IsMonthsLater n a c) :
    b = c := by
  have h1 := (diffMonths_eq_some a b n).2 hb
  have h2 := (diffMonths_eq_some a c n).2 hc
  rw [h1] at h2; simpa using h2

/-- What follows the first date of a schedule is a schedule from the next date. -/
theorem Spec.IsSchedule.tail {n : Int} {first pen d : Date} {l : List Date} (h : IsSchedule n first pen (d :: l)) :
    ∃ next, IsMonthsLater n d next ∧ IsSchedule n next pen l := by
  match l, h with
  | [], h =>
    obtain ⟨next, h1, h2⟩ := h.complete d rfl
    exact ⟨next, h1, ⟨by simpa using h2, by simp, by simp, by simp, by simp⟩⟩
  | e :: l, h =>
    have hc := h.steps
    rw [List.isChain_cons_cons] at hc
    refine ⟨e, hc.1, ⟨by simpa using h.bounded e (by simp), by simp, hc.2,
      fun x hx => h.bounded x (List.mem_cons_of_mem _ hx), fun x hx => h.complete x ?_⟩⟩
    rw [List.getLast?_cons_cons]; exact hx

namespace Bond
variable {V : Type}

theorem regularLoop_nil (m : Nat) (hm : 0 < m) (c : V) {pen d : Date} (h : pen < d) :
    regularLoop m hm c pen d = some [] := by
  rw [regularLoop, dif_neg (not_le.2 h)]

/-- One turn of the loop. -/
theorem regularLoop_cons (m : Nat) (hm : 0 < m) (c : V) {pen d : Date} (h : d ≤ pen) (fl : List (BondCashFlow V)) :
    regularLoop m hm c pen d = some fl ↔
      ∃ p next rest, Date.weekendRoll d = some p ∧ Date.checkedAddMonths d m = some next ∧
        regularLoop m hm c pen next = some rest ∧ fl = ⟨d, p, c⟩ :: rest := by
  rw [regularLoop, dif_pos h]
  cases hw : Date.weekendRoll d with
  | none => simp
  | some p =>
    simp only
    split
    · rename_i hn; simp [hn]
    · rename_i next hn
      cases hr : regularLoop m hm c pen next with
      | none => simp [hn, hr]
      | some rest => simp [hn, hr, eq_comm]

/-- What the loop produces. -/
theorem regularLoop_spec (m : Nat) (hm : 0 < m) (c : V) (pen : Date) (fl : List (BondCashFlow V)) (d : Date)
    (h : regularLoop m hm c pen d = some fl) :
    IsSchedule m d pen (fl.map (·.dueDate)) ∧
      ∀ f ∈ fl, f.paymentAmount = c ∧ Date.weekendRoll f.dueDate = some f.paymentDate := by
  induction fl generalizing d with
  | nil =>
    have hd : pen < d := by
      rw [← not_le]; intro hle
      obtain ⟨_, _, _, _, _, _, h⟩ := (regularLoop_cons m hm c hle []).1 h
      cases h
    exact ⟨⟨by simpa using hd, by simp, by simp, by simp, by simp⟩, by simp⟩
  | cons f fl ih =>
    have hd : d ≤ pen := by
      rw [← not_lt]; intro hlt
      rw [regularLoop_nil m hm c hlt] at h; cases h
    obtain ⟨p, next, rest, hw, hn, hr, he⟩ := (regularLoop_cons m hm c hd (f :: fl)).1 h
    injection he with he1 he2
    subst he1 he2
    obtain ⟨hs, hf⟩ := ih next hr
    have hstep := addMonths_iff.1 hn
    refine ⟨⟨by simpa using hd, by simp, ?_, ?_, ?_⟩, ?_⟩
    · simp only [List.map_cons, List.isChain_cons]
      refine ⟨fun y hy => ?_, hs.steps⟩
      rw [Option.mem_def] at hy
      rw [hs.start y hy]; exact hstep
    · intro x hx
      simp only [List.map_cons, List.mem_cons] at hx
      rcases hx with rfl | hx
      · exact hd
      · exact hs.bounded x hx
    · intro x hx
      match fl, hs with
      | [], hs =>
        simp only [List.map_cons, List.map_nil, List.getLast?_singleton, Option.some.injEq] at hx
        subst hx
        exact ⟨next, hstep, by simpa using hs.empty⟩
      | g :: fl', hs =>
        simp only [List.map_cons, List.getLast?_cons_cons] at hx
        exact hs.complete x (by simpa using hx)
    · intro g hg
      simp only [List.mem_cons] at hg
      rcases hg with rfl | hg
      · exact ⟨rfl, hw⟩
      · exact hf g hg

/-- The loop fails only when a step leaves the supported dates. -/
theorem regularLoop_total (m : Nat) (hm : 0 < m) (c : V) (pen : Date)
    (hp : monthNumber pen.year pen.month + m ≤ monthNumber 262142 12) (d : Date) :
    ∃ fl, regularLoop m hm c pen d = some fl := by
  induction hk : (NaiveDate.numDaysFromCe pen + 1 - NaiveDate.numDaysFromCe d).toNat using Nat.strong_induction_on
    generalizing d with
  | _ k ih =>
    by_cases hd : d ≤ pen
    · obtain ⟨p, hw⟩ := C11_weekend_roll_total d
      cases hn : Date.checkedAddMonths d m with
      | none =>
        rw [C07_add_months_none] at hn
        have : ¬ monthNumber pen.year pen.month < monthNumber d.year d.month := by
          intro h
          exact not_lt.2 hd ((lt_iff_monthNumber _ _).2 (.inl h))
        omega
      | some next =>
        have hlt := C09_add_months_lt d next m hm hn
        have h1 := (NaiveDate.lt_iff_serial _ _).1 hlt
        have h2 := (NaiveDate.le_iff_serial _ _).1 hd
        obtain ⟨rest, hr⟩ := ih _ (by omega) next rfl
        exact ⟨_, (regularLoop_cons m hm c hd _).2 ⟨p, next, rest, hw, hn, hr, rfl⟩⟩
    · exact ⟨[], regularLoop_nil m hm c (not_le.1 hd)⟩

/-- The adjustment of the first flow changes only its amount. -/
theorem firstCashFlow_shape [Add V] [Mul V] [Div V] [FromInt V] {issue first : Date} {m : Nat} {c : V}
    {fl fl' : List (BondCashFlow V)} (h : firstCashFlow issue first m c fl = .ok (some fl')) :
    fl'.map (·.dueDate) = fl.map (·.dueDate) ∧ fl'.map (·.paymentDate) = fl.map (·.paymentDate) ∧
      fl'.tail = fl.tail := by
  unfold firstCashFlow at h
  split at h
  · simp at h
  · split at h
    · split at h
      · cases fl with
        | nil => simp at h
        | cons f fl => simp at h; subst h; simp
      · simp at h
    · split at h
      · split at h
        · simp at h
        · split at h
          · cases fl with
            | nil => simp at h
            | cons f fl => simp at h; subst h; simp
          · simp at h
      · simp at h; subst h; simp

/-- The last flow is at maturity, unrolled. -/
theorem finalCashFlow_dates [Add V] [Mul V] [Div V] [FromInt V] {pen mat : Date} {face : V} {m : Nat} {c : V}
    {f : BondCashFlow V} (h : finalCashFlow pen mat face m c = some f) : f.dueDate = mat ∧ f.paymentDate = mat := by
  unfold finalCashFlow at h
  split at h
  · cases h
  · simp only at h
    split at h
    · cases h
    · injection h with h; subst h; exact ⟨rfl, rfl⟩

/-- Success of `Bond::new`. -/
theorem new_eq_some [Add V] [Mul V] [Div V] [FromInt V] {id : String} {issue first pen mat : Date} {f : Frequency}
    {rate face : V} {b : Bond V} :
    Bond.new id issue first pen mat f rate face = .ok (some b) ↔
      ∃ freq flows flows' final, FromInt.fromInt (V := V) f.toNat = some freq ∧
        regularLoop f.months f.months_pos (rate * face / freq) pen first = some flows ∧
        firstCashFlow issue first f.months (rate * face / freq) flows = .ok (some flows') ∧
        finalCashFlow pen mat face f.months (rate * face / freq) = some final ∧
        b = ⟨id, flows' ++ [final]⟩ := by
  unfold Bond.new
  cases hf : FromInt.fromInt (V := V) f.toNat with
  | none => simp
  | some freq =>
    simp only [Option.some.injEq]
    cases hl : regularLoop f.months f.months_pos (rate * face / freq) pen first with
    | none => simp [hl]
    | some flows =>
      match h1 : firstCashFlow issue first f.months (rate * face / freq) flows with
      | .panic => simp [hl, h1]
      | .ok none => simp [hl, h1]
      | .ok (some flows') =>
        cases h2 : finalCashFlow pen mat face f.months (rate * face / freq) with
        | none => simp [hl, h1, h2]
        | some final => simp [hl, h1, h2, eq_comm]

section
variable {K : Type} [Field K] [FromInt K] [ExactCast K]

theorem cast_sub (a b : Date) : FromInt.fromInt (V := K) (Date.sub b a) = some (days K a b) := ExactCast.fromInt_eq _

/-- The first coupon in exact arithmetic. -/
theorem firstCashFlow_some (issue first : Date) (m : Nat) (c : K) (f : BondCashFlow K) (hf : f.paymentAmount = c)
    (fl fl' : List (BondCashFlow K)) :
    firstCashFlow issue first m c (f :: fl) = .ok (some fl') ↔
      ∃ x : K, IsFirstLength m issue first x ∧ fl' = ⟨f.dueDate, f.paymentDate, c * x⟩ :: fl := by
  unfold firstCashFlow IsFirstLength
  cases hp : Date.checkedSubMonths first m with
  | none =>
    simp only [Rust.ok.injEq, reduceCtorEq, false_iff, not_exists]
    rintro x ⟨⟨prior, h, _⟩, _⟩
    rw [← subMonths_iff, hp] at h; cases h
  | some prior =>
    have hprior := subMonths_iff.1 hp
    have huniq : ∀ q, IsMonthsLater (-m) first q → q = prior := fun q hq => isMonthsLater_unique hq hprior
    simp only [cast_sub]
    by_cases h1 : prior < issue
    · rw [if_pos h1]
      simp only [Rust.ok.injEq, Option.some.injEq]
      constructor
      · rintro rfl
        exact ⟨_, ⟨prior, hprior, .inr (.inl ⟨h1, rfl⟩)⟩, by rw [hf]⟩
      · rintro ⟨x, ⟨q, hq, hx⟩, rfl⟩
        obtain rfl := huniq q hq
        rcases hx with ⟨rfl, _⟩ | ⟨_, rfl⟩ | ⟨h, _⟩
        · exact absurd h1 (lt_irrefl _)
        · rw [hf]
        · exact absurd h (lt_asymm h1)
    · rw [if_neg h1]
      by_cases h2 : issue < prior
      · rw [if_pos h2]
        cases hp2 : Date.checkedSubMonths prior m with
        | none =>
          simp only [Rust.ok.injEq, reduceCtorEq, false_iff, not_exists]
          rintro x ⟨⟨q, hq, hx⟩, _⟩
          obtain rfl := huniq q hq
          rcases hx with ⟨rfl, _⟩ | ⟨h, _⟩ | ⟨_, q2, hq2, _⟩
          · exact lt_irrefl _ h2
          · exact h1 h
          · rw [← subMonths_iff, hp2] at hq2; cases hq2
        | some prior2 =>
          have hprior2 := subMonths_iff.1 hp2
          simp only [Rust.ok.injEq, Option.some.injEq]
          constructor
          · rintro rfl
            refine ⟨_, ⟨prior, hprior, .inr (.inr ⟨h2, prior2, hprior2, rfl⟩)⟩, ?_⟩
            rw [hf]
            simp only [List.cons.injEq, BondCashFlow.mk.injEq, true_and, and_true]
            ring
          · rintro ⟨x, ⟨q, hq, hx⟩, rfl⟩
            obtain rfl := huniq q hq
            rcases hx with ⟨rfl, _⟩ | ⟨h, _⟩ | ⟨_, q2, hq2, rfl⟩
            · exact absurd h2 (lt_irrefl _)
            · exact absurd h h1
            · obtain rfl := isMonthsLater_unique hq2 hprior2
              rw [hf]
              simp only [List.cons.injEq, BondCashFlow.mk.injEq, true_and, and_true]
              ring
      · rw [if_neg h2]
        have he : issue = prior := le_antisymm (not_lt.1 h1) (not_lt.1 h2)
        subst he
        simp only [Rust.ok.injEq, Option.some.injEq]
        constructor
        · rintro rfl
          exact ⟨1, ⟨issue, hprior, .inl ⟨rfl, rfl⟩⟩, by rw [mul_one, ← hf]⟩
        · rintro ⟨x, ⟨q, hq, hx⟩, rfl⟩
          obtain rfl := huniq q hq
          rcases hx with ⟨_, rfl⟩ | ⟨h, _⟩ | ⟨h, _⟩
          · rw [mul_one, ← hf]
          · exact absurd h h1
          · exact absurd h h1

/-- Without flows the first-coupon step succeeds only in the regular case, and then changes nothing. -/
theorem firstCashFlow_nil_some (issue first : Date) (m : Nat) (c : K) (fl' : List (BondCashFlow K)) :
    firstCashFlow issue first m c [] = .ok (some fl') ↔ fl' = [] ∧ IsMonthsLater (-m) first issue := by
  unfold firstCashFlow
  cases hp : Date.checkedSubMonths first m with
  | none =>
    simp only [Rust.ok.injEq, reduceCtorEq, false_iff]
    rintro ⟨_, h⟩
    rw [← subMonths_iff, hp] at h; cases h
  | some prior =>
    have hprior := subMonths_iff.1 hp
    simp only [cast_sub]
    have hne : issue ≠ prior → ¬ IsMonthsLater (-m) first issue := fun h h' => h (isMonthsLater_unique h' hprior)
    by_cases h1 : prior < issue
    · simp [h1, hne (ne_of_gt h1)]
    · rw [if_neg h1]
      by_cases h2 : issue < prior
      · rw [if_pos h2]
        cases hp2 : Date.checkedSubMonths prior m <;> simp [hne (ne_of_lt h2)]
      · rw [if_neg h2]
        have he : issue = prior := le_antisymm (not_lt.1 h1) (not_lt.1 h2)
        subst he
        simp [hprior, eq_comm]

/-- The first-coupon step panics exactly without flows and with an irregular first period. -/
theorem firstCashFlow_panic (issue first : Date) (m : Nat) (c : K) (fl : List (BondCashFlow K)) :
    firstCashFlow issue first m c fl = .panic ↔
      fl = [] ∧ ∃ prior, IsMonthsLater (-m) first prior ∧
        (prior < issue ∨ (issue < prior ∧ ∃ prior2, IsMonthsLater (-m) prior prior2)) := by
  unfold firstCashFlow
  cases hp : Date.checkedSubMonths first m with
  | none =>
    simp only [reduceCtorEq, false_iff]
    rintro ⟨_, prior, h, _⟩
    rw [← subMonths_iff, hp] at h; cases h
  | some prior =>
    have hprior := subMonths_iff.1 hp
    have huniq : ∀ q, IsMonthsLater (-m) first q → q = prior := fun q hq => isMonthsLater_unique hq hprior
    have hex : ∀ P : Date → Prop, (∃ q, IsMonthsLater (-m) first q ∧ P q) ↔ P prior := fun P =>
      ⟨fun ⟨q, hq, hP⟩ => huniq q hq ▸ hP, fun hP => ⟨prior, hprior, hP⟩⟩
    rw [hex]
    simp only [cast_sub]
    by_cases h1 : prior < issue
    · rw [if_pos h1]
      cases fl <;> simp [h1]
    · rw [if_neg h1]
      by_cases h2 : issue < prior
      · rw [if_pos h2]
        cases hp2 : Date.checkedSubMonths prior m with
        | none =>
          simp only [reduceCtorEq, false_iff]
          rintro ⟨_, h | ⟨_, q, hq⟩⟩
          · exact h1 h
          · rw [← subMonths_iff, hp2] at hq; cases hq
        | some prior2 =>
          have := subMonths_iff.1 hp2
          cases fl
          · simp only [true_and, true_iff]
            exact .inr ⟨h2, prior2, this⟩
          · simp
      · rw [if_neg h2]
        simp [h1, h2]

/-- The last flow in exact arithmetic. -/
theorem finalCashFlow_some (pen mat : Date) (face : K) (m : Nat) (c : K) (f : BondCashFlow K) :
    finalCashFlow pen mat face m c = some f ↔
      ∃ x : K, IsLastLength m pen mat x ∧ f = ⟨mat, mat, face + c * x⟩ := by
  unfold finalCashFlow IsLastLength
  cases hp : Date.checkedAddMonths pen m with
  | none =>
    simp only [reduceCtorEq, false_iff, not_exists]
    rintro x ⟨⟨next, h, _⟩, _⟩
    rw [← addMonths_iff, hp] at h; cases h
  | some next =>
    have hnext := addMonths_iff.1 hp
    have huniq : ∀ q, IsMonthsLater m pen q → q = next := fun q hq => isMonthsLater_unique hq hnext
    simp only [cast_sub]
    by_cases h1 : mat < next
    · simp only [if_pos h1, Option.some.injEq]
      constructor
      · rintro rfl
        exact ⟨_, ⟨next, hnext, .inr (.inl ⟨h1, rfl⟩)⟩, rfl⟩
      · rintro ⟨x, ⟨q, hq, hx⟩, rfl⟩
        obtain rfl := huniq q hq
        rcases hx with ⟨rfl, _⟩ | ⟨_, rfl⟩ | ⟨h, _⟩
        · exact absurd h1 (lt_irrefl _)
        · rfl
        · exact absurd h (lt_asymm h1)
    · simp only [if_neg h1]
      by_cases h2 : next < mat
      · simp only [if_pos h2]
        cases hp2 : Date.checkedAddMonths next m with
        | none =>
          simp only [reduceCtorEq, false_iff, not_exists]
          rintro x ⟨⟨q, hq, hx⟩, _⟩
          obtain rfl := huniq q hq
          rcases hx with ⟨rfl, _⟩ | ⟨h, _⟩ | ⟨_, q2, hq2, _⟩
          · exact lt_irrefl _ h2
          · exact h1 h
          · rw [← addMonths_iff, hp2] at hq2; cases hq2
        | some next2 =>
          have hnext2 := addMonths_iff.1 hp2
          simp only [Option.some.injEq]
          constructor
          · rintro rfl
            refine ⟨_, ⟨next, hnext, .inr (.inr ⟨h2, next2, hnext2, rfl⟩)⟩, ?_⟩
            simp only [BondCashFlow.mk.injEq, true_and]
            ring
          · rintro ⟨x, ⟨q, hq, hx⟩, rfl⟩
            obtain rfl := huniq q hq
            rcases hx with ⟨rfl, _⟩ | ⟨h, _⟩ | ⟨_, q2, hq2, rfl⟩
            · exact absurd h2 (lt_irrefl _)
            · exact absurd h h1
            · obtain rfl := isMonthsLater_unique hq2 hnext2
              simp only [BondCashFlow.mk.injEq, true_and]
              ring
      · simp only [if_neg h2, Option.some.injEq]
        have he : mat = next := le_antisymm (not_lt.1 h2) (not_lt.1 h1)
        subst he
        constructor
        · rintro rfl
          exact ⟨1, ⟨mat, hnext, .inl ⟨rfl, rfl⟩⟩, by rw [mul_one]⟩
        · rintro ⟨x, ⟨q, hq, hx⟩, rfl⟩
          obtain rfl := huniq q hq
          rcases hx with ⟨_, rfl⟩ | ⟨h, _⟩ | ⟨h, _⟩
          · rw [mul_one]
          · exact absurd h h1
          · exact absurd h h1

end

end Bond

end Qlab
