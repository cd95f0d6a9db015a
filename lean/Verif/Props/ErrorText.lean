import Verif.Spec.ErrorText
import Verif.Props.BondValue
import Verif.Props.Display

/-! # Texts of errors (C84) -/

namespace Qlab.Props
open Qlab.Spec

/-- A cast error names a number. -/
def NumberCast (e : QLabError) : Prop := ∀ msg, e = .computeError (.castNumberError msg) → ∃ z : Int, msg = toString z

theorem number_chars (z : Int) : ∀ c ∈ (toString z).toList, c = '-' ∨ c.isDigit := by
  intro c hc
  cases z with
  | ofNat m =>
    right
    have : toString (Int.ofNat m) = Nat.repr m := rfl
    rw [this, Nat.repr, String.toList_ofList] at hc
    exact Nat.isDigit_of_mem_toDigits (b := 10) (by decide) (by decide) hc
  | negSucc m =>
    have : toString (Int.negSucc m) = "-" ++ Nat.repr (m + 1) := rfl
    rw [this, String.toList_append] at hc
    rcases List.mem_append.1 hc with hc | hc
    · left; simpa using hc
    · right
      rw [Nat.repr, String.toList_ofList] at hc
      exact Nat.isDigit_of_mem_toDigits (b := 10) (by decide) (by decide) hc

theorem append_right_inj {a b c : String} (h : a ++ c = b ++ c) : a = b := by
  have := congrArg String.toList h
  rw [String.toList_append, String.toList_append] at this
  exact String.toList_inj.1 (List.append_cancel_right this)

theorem append_left_inj {a b c : String} (h : c ++ a = c ++ b) : a = b := by
  have := congrArg String.toList h
  rw [String.toList_append, String.toList_append] at this
  exact String.toList_inj.1 (List.append_cancel_left this)

theorem cast_ne_invalid (z : Int) (m : String) :
    toString z ++ " cannot cast to a primitive type" ≠ "Invalid inputs are passed by: " ++ m := by
  intro h
  have hh := congrArg String.toList h
  rw [String.toList_append, String.toList_append] at hh
  cases hz : (toString z).toList with
  | nil => rw [hz] at hh; simp at hh
  | cons c l =>
    rw [hz] at hh
    have hc : c = 'I' := by
      have := congrArg List.head? hh
      simpa using this
    rcases number_chars z c (by rw [hz]; simp) with h | h
    · rw [hc] at h; exact absurd h (by decide)
    · rw [hc] at h; exact absurd h (by decide)

theorem text_identifies {e e' : QLabError} (he : NumberCast e) (he' : NumberCast e') (h : e.display = e'.display) :
    e = e' := by
  obtain ⟨e⟩ := e
  obtain ⟨e'⟩ := e'
  simp only [QLabError.display] at h
  congr 1
  have zi : ∀ m, "Zero division occurred" ≠ "Invalid inputs are passed by: " ++ m := fun m h => by
    simpa [String.toList_append] using congrArg (fun s => s.toList.head?) h
  have fi : ∀ m, "interpolation failed" ≠ "Invalid inputs are passed by: " ++ m := fun m h => by
    simpa [String.toList_append] using congrArg (fun s => s.toList.head?) h
  have zc : ∀ m, "Zero division occurred" ≠ m ++ " cannot cast to a primitive type" := fun m h => by
    simpa [String.toList_append] using congrArg (fun s => s.toList.getLast?) h
  have fc : ∀ m, "interpolation failed" ≠ m ++ " cannot cast to a primitive type" := fun m h => by
    simpa [String.toList_append] using congrArg (fun s => s.toList.getLast?) h
  have zf : "Zero division occurred" ≠ "interpolation failed" := by simp
  match e, e', h, he, he' with
  | .zeroDivisionError, .zeroDivisionError, _, _, _ => rfl
  | .zeroDivisionError, .castNumberError _, h, _, _ => exact absurd h (zc _)
  | .zeroDivisionError, .invalidInput _, h, _, _ => exact absurd h (zi _)
  | .zeroDivisionError, .interpolationError, h, _, _ => exact absurd h zf
  | .castNumberError _, .zeroDivisionError, h, _, _ => exact absurd h.symm (zc _)
  | .castNumberError _, .castNumberError _, h, _, _ => rw [append_right_inj h]
  | .castNumberError _, .invalidInput _, h, he, _ =>
    obtain ⟨z, rfl⟩ := he _ rfl
    exact absurd h (cast_ne_invalid z _)
  | .castNumberError _, .interpolationError, h, _, _ => exact absurd h.symm (fc _)
  | .invalidInput _, .zeroDivisionError, h, _, _ => exact absurd h.symm (zi _)
  | .invalidInput _, .castNumberError _, h, _, he' =>
    obtain ⟨z, rfl⟩ := he' _ rfl
    exact absurd h.symm (cast_ne_invalid z _)
  | .invalidInput _, .invalidInput _, h, _, _ => rw [append_left_inj h]
  | .invalidInput _, .interpolationError, h, _, _ => exact absurd h.symm (fi _)
  | .interpolationError, .zeroDivisionError, h, _, _ => exact absurd h.symm zf
  | .interpolationError, .castNumberError _, h, _, _ => exact absurd h (fc _)
  | .interpolationError, .invalidInput _, h, _, _ => exact absurd h (fi _)
  | .interpolationError, .interpolationError, _, _, _ => rfl

section
variable {V : Type} [Div V] [FromInt V]

theorem numberCast_dayCount {D : DayCount V}
    (hD : D = DayCount.act360 ∨ D = DayCount.act365 ∨ ∃ oc, D = DayCount.thirty360 oc) {a b : Date} {e : QLabError}
    (h : D a b = .ok (.error e)) : NumberCast e := by
  have hact : ∀ n : Int, (match FromInt.fromInt (V := V) (Date.sub b a) with
      | none => (.ok (.error (.ofCompute (.castNumberError (toString (Date.sub b a))))) : Rust (QLabResult V))
      | some dateDiff => do
        let denomination ← Rust.unwrap (FromInt.fromInt (V := V) n)
        return .ok (dateDiff / denomination)) = .ok (.error e) → NumberCast e := by
    intro n h
    split at h
    · simp only [Rust.ok.injEq, Except.error.injEq] at h
      subst h
      intro msg hm
      simp only [QLabError.ofCompute, QLabError.computeError.injEq, ComputeError.castNumberError.injEq] at hm
      exact ⟨_, hm.symm⟩
    · rw [Rust.bind_eq_ok] at h
      obtain ⟨x, _, hx⟩ := h
      simp [Pure.pure] at hx
  rcases hD with rfl | rfl | ⟨oc, rfl⟩
  · exact hact 360 h
  · exact hact 365 h
  · unfold DayCount.thirty360 at h
    rw [Rust.bind_eq_ok] at h
    obtain ⟨r, hr, h⟩ := h
    match r with
    | .error e' =>
      simp only [Rust.pure_eq, Rust.ok.injEq, Except.error.injEq] at h
      subst h
      unfold DayCount.thirty360Diff at hr
      split at hr
      · simp only [Rust.ok.injEq, Except.error.injEq] at hr
        subst hr
        intro msg hm
        simp [QLabError.ofCompute] at hm
      · simp only [Rust.bind_eq_ok] at hr
        obtain ⟨_, _, _, _, _, _, _, _, _, _, _, _, _, _, hr⟩ := hr
        simp [Pure.pure] at hr
    | .ok diff =>
      simp only at h
      split at h
      · simp only [Rust.pure_eq, Rust.ok.injEq, Except.error.injEq] at h
        subst h
        intro msg hm
        simp only [QLabError.ofCompute, QLabError.computeError.injEq, ComputeError.castNumberError.injEq] at hm
        exact ⟨_, hm.symm⟩
      · split at h
        · simp only [Rust.pure_eq, Rust.ok.injEq, Except.error.injEq] at h
          subst h
          intro msg hm
          simp only [QLabError.ofCompute, QLabError.computeError.injEq, ComputeError.castNumberError.injEq] at hm
          exact ⟨360, hm.symm⟩
        · simp [Pure.pure] at h

omit [Div V] [FromInt V] in
theorem numberCast_fractions {D : DayCount V} (hD : ∀ a b e, D a b = .ok (.error e) → NumberCast e) (s : Date) :
    ∀ (ms : List Date) (e : QLabError), YieldCurve.fractions D s ms = .ok (.error e) → NumberCast e
  | [], e, h => by simp [YieldCurve.fractions] at h
  | m :: ms, e, h => by
    rw [YieldCurve.fractions, Rust.bind_eq_ok] at h
    obtain ⟨r, hr, h⟩ := h
    match r with
    | .error e' =>
      simp only [Rust.pure_eq, Rust.ok.injEq, Except.error.injEq] at h
      exact h ▸ hD _ _ _ hr
    | .ok t =>
      simp only at h
      rw [Rust.bind_eq_ok] at h
      obtain ⟨r', hr', h⟩ := h
      match r' with
      | .error e' =>
        simp only [Rust.pure_eq, Rust.ok.injEq, Except.error.injEq] at h
        exact h ▸ numberCast_fractions hD s ms _ hr'
      | .ok ts => simp [Pure.pure] at h

omit [Div V] [FromInt V] in
theorem numberCast_interpolation (e : InterpolationError V) : NumberCast (.ofInterpolation e) := by
  intro msg h
  simp [QLabError.ofInterpolation] at h

theorem numberCast_invalid (m : String) : NumberCast (.ofCompute (.invalidInput m)) := by
  intro msg h
  simp [QLabError.ofCompute] at h

omit [Div V] [FromInt V] in
theorem numberCast_new {D : DayCount V} (hD : ∀ a b e, D a b = .ok (.error e) → NumberCast e) {I : Interpolator V}
    {s : Date} {ms : List Date} {ys : List V} {e : QLabError} (h : YieldCurve.new D I s ms ys = .ok (.error e)) :
    NumberCast e := by
  unfold YieldCurve.new at h
  split at h
  · simp only [Rust.ok.injEq, Except.error.injEq] at h
    exact h ▸ numberCast_invalid _
  · rw [Rust.bind_eq_ok] at h
    obtain ⟨r, hr, h⟩ := h
    match r with
    | .error e' =>
      simp only [Rust.pure_eq, Rust.ok.injEq, Except.error.injEq] at h
      exact h ▸ numberCast_fractions hD s ms _ hr
    | .ok ts =>
      simp only at h
      rw [Rust.bind_eq_ok] at h
      obtain ⟨r', hr', h⟩ := h
      match r' with
      | .error e' =>
        simp only [Rust.pure_eq, Rust.ok.injEq, Except.error.injEq] at h
        exact h ▸ numberCast_interpolation _
      | .ok _ => simp [Pure.pure] at h

variable [Zero V] [Neg V] [Add V] [Sub V] [Mul V] [HasExp V]

omit [Div V] [FromInt V] [Zero V] [Neg V] [Add V] [Sub V] [Mul V] [HasExp V] in
theorem numberCast_yieldAt {I : Interpolator V} {c : YieldCurve V I} {t : V} {e : QLabError}
    (h : c.yieldAt t = .ok (.error e)) : NumberCast e := by
  unfold YieldCurve.yieldAt at h
  rw [Rust.bind_eq_ok] at h
  obtain ⟨r, _, h⟩ := h
  match r with
  | .error e' =>
    simp only [Rust.pure_eq, Rust.ok.injEq, Except.error.injEq] at h
    exact h ▸ numberCast_interpolation _
  | .ok _ => simp [Pure.pure] at h

omit [Div V] [FromInt V] [Zero V] [Add V] in
theorem numberCast_discount {D : DayCount V} (hD : ∀ a b e, D a b = .ok (.error e) → NumberCast e) {I : Interpolator V}
    {c : YieldCurve V I} {a b : Date} {e : QLabError} (h : c.discountFactor D a b = .ok (.error e)) : NumberCast e := by
  unfold YieldCurve.discountFactor at h
  split at h
  · simp only [Rust.ok.injEq, Except.error.injEq] at h
    exact h ▸ numberCast_invalid _
  split at h
  · simp only [Rust.ok.injEq, Except.error.injEq] at h
    exact h ▸ numberCast_invalid _
  rw [Rust.bind_eq_ok] at h
  obtain ⟨r, hr, h⟩ := h
  match r with
  | .error e' =>
    simp only [Rust.pure_eq, Rust.ok.injEq, Except.error.injEq] at h
    exact h ▸ hD _ _ _ hr
  | .ok t2 =>
    simp only at h
    rw [Rust.bind_eq_ok] at h
    obtain ⟨r, hr, h⟩ := h
    match r with
    | .error e' =>
      simp only [Rust.pure_eq, Rust.ok.injEq, Except.error.injEq] at h
      exact h ▸ numberCast_yieldAt hr
    | .ok y2 =>
      simp only at h
      split at h
      · simp [Pure.pure] at h
      rw [Rust.bind_eq_ok] at h
      obtain ⟨r, hr, h⟩ := h
      match r with
      | .error e' =>
        simp only [Rust.pure_eq, Rust.ok.injEq, Except.error.injEq] at h
        exact h ▸ hD _ _ _ hr
      | .ok t1 =>
        simp only at h
        rw [Rust.bind_eq_ok] at h
        obtain ⟨r, hr, h⟩ := h
        match r with
        | .error e' =>
          simp only [Rust.pure_eq, Rust.ok.injEq, Except.error.injEq] at h
          exact h ▸ numberCast_yieldAt hr
        | .ok y1 => simp [Pure.pure] at h

theorem numberCast_returned {e : QLabError} (h : Returned V e) : NumberCast e := by
  cases h with
  | dayCount hD h => exact numberCast_dayCount hD h
  | newCurve hD h => exact numberCast_new (fun _ _ _ => numberCast_dayCount hD) h
  | discount hD h => exact numberCast_discount (fun _ _ _ => numberCast_dayCount hD) h
  | price hD h =>
    obtain ⟨pre, g, post, dfs, _, _, h⟩ := (C52_error _ _ _ _ _).1 h
    exact numberCast_discount (fun _ _ _ => numberCast_dayCount hD) h

/-- **C84.** Two errors the library returns, from any calls, that print the same text are the same error. -/
theorem C84_text_identifies (e e' : QLabError) (h : Returned V e) (h' : Returned V e') (ht : e.display = e'.display) :
    e = e' := text_identifies (numberCast_returned h) (numberCast_returned h') ht

end

/-- **C84.** Texts of interpolation errors: if different values print differently, so do different errors. -/
theorem C84_interpolation {V : Type} (showV : V → String) (hV : ∀ x y, showV x = showV y → x = y)
    (e e' : InterpolationError V) (h : e.display showV = e'.display showV) : e = e' := by
  have repr_inj : ∀ m n : Nat, Nat.repr m = Nat.repr n → m = n := by
    intro m n h
    have := congrArg String.toList h
    rw [Nat.repr, Nat.repr, String.toList_ofList, String.toList_ofList] at this
    rw [← Nat.ofDigitChars_toDigits (b := 10) (n := m) (by decide) (by decide), this,
      Nat.ofDigitChars_toDigits (by decide) (by decide)]
  have lu : ∀ a b : String, "out of lower bound: " ++ a ≠ "out of upper bound: " ++ b := fun a b h => by
    have := congrArg String.toList h
    simp [String.toList_append] at this
  have pl : ∀ a, "points must be sorted" ≠ "out of lower bound: " ++ a := fun a h => by
    simpa [String.toList_append] using congrArg (fun s => s.toList.head?) h
  have pu : ∀ a, "points must be sorted" ≠ "out of upper bound: " ++ a := fun a h => by
    simpa [String.toList_append] using congrArg (fun s => s.toList.head?) h
  have pn : ∀ a b, "points must be sorted" ≠ "length of inputs: " ++ a ++ b := fun a b h => by
    simpa [String.toList_append] using congrArg (fun s => s.toList.head?) h
  have nl : ∀ a b c, "length of inputs: " ++ a ++ b ≠ "out of lower bound: " ++ c := fun a b c h => by
    simpa [String.toList_append] using congrArg (fun s => s.toList.head?) h
  have nu : ∀ a b c, "length of inputs: " ++ a ++ b ≠ "out of upper bound: " ++ c := fun a b c h => by
    simpa [String.toList_append] using congrArg (fun s => s.toList.head?) h
  match e, e', h with
  | .pointOrderError, .pointOrderError, _ => rfl
  | .pointOrderError, .outOfLowerBound _, h => exact absurd h (pl _)
  | .pointOrderError, .outOfUpperBound _, h => exact absurd h (pu _)
  | .pointOrderError, .insufficientPointsError _, h => exact absurd h (pn _ _)
  | .outOfLowerBound _, .pointOrderError, h => exact absurd h.symm (pl _)
  | .outOfLowerBound _, .outOfLowerBound _, h => rw [hV _ _ (append_left_inj h)]
  | .outOfLowerBound _, .outOfUpperBound _, h => exact absurd h (lu _ _)
  | .outOfLowerBound _, .insufficientPointsError _, h => exact absurd h.symm (nl _ _ _)
  | .outOfUpperBound _, .pointOrderError, h => exact absurd h.symm (pu _)
  | .outOfUpperBound _, .outOfLowerBound _, h => exact absurd h.symm (lu _ _)
  | .outOfUpperBound _, .outOfUpperBound _, h => rw [hV _ _ (append_left_inj h)]
  | .outOfUpperBound _, .insufficientPointsError _, h => exact absurd h.symm (nu _ _ _)
  | .insufficientPointsError _, .pointOrderError, h => exact absurd h.symm (pn _ _)
  | .insufficientPointsError _, .outOfLowerBound _, h => exact absurd h (nl _ _ _)
  | .insufficientPointsError _, .outOfUpperBound _, h => exact absurd h (nu _ _ _)
  | .insufficientPointsError _, .insufficientPointsError _, h => rw [repr_inj _ _ (append_left_inj (append_right_inj h))]

/-! ## Dates in the texts -/

theorem display_chars (d : Date) : ∀ c ∈ (Date.display d).toList, c ≠ ' ' ∧ c ≠ ')' := by
  have two : ∀ n, ∀ c ∈ Date.twoDigits n, c ≠ ' ' ∧ c ≠ ')' := by
    intro n c hc
    have hd : c.isDigit := by
      have h1 := digit_facts ⟨n / 10 % 10, by omega⟩
      have h2 := digit_facts ⟨n % 10, by omega⟩
      simp only at h1 h2
      simp only [Date.twoDigits, List.mem_cons, List.not_mem_nil, or_false] at hc
      rcases hc with rfl | rfl
      · exact h1.1
      · exact h2.1
    constructor <;> rintro rfl <;> exact absurd hd (by decide)
  intro c hc
  rw [Date.display, String.toList_ofList, Date.displayChars] at hc
  simp only [List.append_assoc, List.mem_append, List.mem_cons, List.cons_append] at hc
  rcases hc with hc | rfl | hc | rfl | hc
  · split at hc
    · rcases List.mem_append.1 hc with h | h <;> exact two _ c h
    · rcases List.mem_cons.1 hc with h | h
      · subst h; split <;> decide
      · rcases List.mem_append.1 h with h | h
        · rw [(List.mem_replicate.1 h).2]; decide
        · have := Nat.isDigit_of_mem_toDigits (b := 10) (by decide) (by decide) h
          constructor <;> rintro rfl <;> exact absurd this (by decide)
  · decide
  · exact two _ c hc
  · decide
  · exact two _ c hc

/-- A text up to a stop character that does not occur in it. -/
theorem split_at {α : Type} (x : α) : ∀ (u u' r r' : List α), x ∉ u → x ∉ u' → u ++ x :: r = u' ++ x :: r' → u = u' ∧ r = r'
  | [], [], _, _, _, _, h => by simpa using h
  | [], b :: _, _, _, _, h', h => by
    simp only [List.nil_append, List.cons_append, List.cons.injEq] at h
    exact absurd (h.1 ▸ List.mem_cons_self) h'
  | a :: _, [], _, _, h', _, h => by
    simp only [List.nil_append, List.cons_append, List.cons.injEq] at h
    exact absurd (h.1 ▸ List.mem_cons_self) h'
  | a :: u, b :: u', r, r', h1, h2, h => by
    simp only [List.cons_append, List.cons.injEq] at h
    obtain ⟨e1, e2⟩ := split_at x u u' r r' (fun hm => h1 (List.mem_cons_of_mem _ hm))
      (fun hm => h2 (List.mem_cons_of_mem _ hm)) h.2
    exact ⟨by rw [h.1, e1], e2⟩

theorem display_inj_of_stop (c : Char) (hc : c = ' ' ∨ c = ')') {a b : Date} {r r' : List Char}
    (h : (Date.display a).toList ++ c :: r = (Date.display b).toList ++ c :: r') : a = b ∧ r = r' := by
  have hn : ∀ d : Date, c ∉ (Date.display d).toList := fun d hm => by
    have := display_chars d c hm
    rcases hc with rfl | rfl
    · exact this.1 rfl
    · exact this.2 rfl
  obtain ⟨e1, e2⟩ := split_at c _ _ _ _ (hn a) (hn b) h
  exact ⟨C55_injective a b (String.toList_inj.1 e1), e2⟩

section
variable {V : Type} [Neg V] [Sub V] [Mul V] [HasExp V] {I I' : Interpolator V}

/-- **C84.** The text for dates in the wrong order tells both dates: two such requests for a discount factor with the
same text are for the same dates, whatever the curves. -/
theorem C84_order_dates (D : DayCount V) (c : YieldCurve V I) (c' : YieldCurve V I') (a b a' b' : Date) (e e' : QLabError)
    (hab : b < a) (hab' : b' < a') (h : c.discountFactor D a b = .ok (.error e))
    (h' : c'.discountFactor D a' b' = .ok (.error e')) (ht : e.display = e'.display) : a = a' ∧ b = b' := by
  rw [YieldCurve.discountFactor, if_pos hab] at h
  rw [YieldCurve.discountFactor, if_pos hab'] at h'
  obtain rfl := Except.error.inj (Rust.ok.inj h)
  obtain rfl := Except.error.inj (Rust.ok.inj h')
  have hl := congrArg String.toList (append_left_inj ht)
  simp only [toString, String.toList_append] at hl
  simp only [List.append_assoc] at hl
  have hl := List.append_cancel_left hl
  obtain ⟨e1, e2⟩ := display_inj_of_stop ' ' (.inl rfl) (by simpa using hl)
  refine ⟨e1, ?_⟩
  have e3 : (Date.display b).toList ++ ' ' :: [] = (Date.display b').toList ++ ' ' :: [] := by
    simp at e2
    rw [e2]
  exact (display_inj_of_stop ' ' (.inl rfl) e3).1

/-- **C84.** The text for a date before the settlement date of the curve tells both dates and the settlement date. -/
theorem C84_settlement_dates (D : DayCount V) (c : YieldCurve V I) (c' : YieldCurve V I') (a b a' b' : Date)
    (e e' : QLabError) (hab : a ≤ b) (hab' : a' ≤ b') (hs : a < c.settlementDate) (hs' : a' < c'.settlementDate)
    (h : c.discountFactor D a b = .ok (.error e)) (h' : c'.discountFactor D a' b' = .ok (.error e'))
    (ht : e.display = e'.display) : a = a' ∧ b = b' ∧ c.settlementDate = c'.settlementDate := by
  rw [YieldCurve.discountFactor, if_neg (not_lt.2 hab), if_pos (.inl hs)] at h
  rw [YieldCurve.discountFactor, if_neg (not_lt.2 hab'), if_pos (.inl hs')] at h'
  obtain rfl := Except.error.inj (Rust.ok.inj h)
  obtain rfl := Except.error.inj (Rust.ok.inj h')
  have hl := congrArg String.toList (append_left_inj ht)
  simp only [toString, String.toList_append] at hl
  simp only [List.append_assoc] at hl
  have hl := List.append_cancel_left hl
  obtain ⟨e1, e2⟩ := display_inj_of_stop ' ' (.inl rfl) (by simpa using hl)
  have e3 := List.append_cancel_left (as := ['o', 'r', ' ']) (by simpa using e2)
  obtain ⟨e4, e5⟩ := display_inj_of_stop ' ' (.inl rfl) (by simpa using e3)
  refine ⟨e1, e4, ?_⟩
  simp at e5
  exact C55_injective _ _ (String.toList_inj.1 e5)

end

/-- **C84.** The same for a 30/360 fraction with dates in the wrong order. -/
theorem C84_thirty360_dates {V : Type} [Div V] [FromInt V] (oc : Bool) (a b a' b' : Date) (e e' : QLabError) (hab : b < a)
    (hab' : b' < a') (h : DayCount.thirty360 (V := V) oc a b = .ok (.error e))
    (h' : DayCount.thirty360 (V := V) oc a' b' = .ok (.error e')) (ht : e.display = e'.display) : a = a' ∧ b = b' := by
  rw [DayCount.thirty360, DayCount.thirty360Diff, if_pos hab] at h
  rw [DayCount.thirty360, DayCount.thirty360Diff, if_pos hab'] at h'
  obtain rfl := Except.error.inj (Rust.ok.inj h)
  obtain rfl := Except.error.inj (Rust.ok.inj h')
  have hl := congrArg String.toList (append_left_inj ht)
  simp only [toString, String.toList_append] at hl
  simp only [List.append_assoc] at hl
  have hl := List.append_cancel_left hl
  obtain ⟨e1, e2⟩ := display_inj_of_stop ' ' (.inl rfl) (by simpa using hl)
  refine ⟨e1, ?_⟩
  have e3 : (Date.display b).toList ++ ' ' :: [] = (Date.display b').toList ++ ' ' :: [] := by
    simp at e2
    rw [e2]
  exact (display_inj_of_stop ' ' (.inl rfl) e3).1

theorem glue_two (p u a v b : String) : p ++ (u ++ a ++ v ++ b) = p ++ u ++ a ++ v ++ b := by
  simp only [String.append_assoc]

theorem glue_three (p u a v b w s z : String) :
    p ++ (u ++ a ++ v ++ b ++ w ++ s ++ z) = p ++ u ++ a ++ v ++ b ++ w ++ s ++ z := by
  simp only [String.append_assoc]

/-- **C84.** The texts name the dates in the order they were passed: around them there is a fixed text. -/
theorem C84_date_order {V : Type} [Neg V] [Sub V] [Mul V] [Div V] [FromInt V] [HasExp V] :
    (∃ u v : String, ∀ (I : Interpolator V) (D : DayCount V) (c : YieldCurve V I) (a b : Date), b < a →
      ∃ e, c.discountFactor D a b = .ok (.error e) ∧ e.display = u ++ Date.display a ++ v ++ Date.display b) ∧
    (∃ u v w z : String, ∀ (I : Interpolator V) (D : DayCount V) (c : YieldCurve V I) (a b : Date), a ≤ b →
      a < c.settlementDate → ∃ e, c.discountFactor D a b = .ok (.error e) ∧
        e.display = u ++ Date.display a ++ v ++ Date.display b ++ w ++ Date.display c.settlementDate ++ z) ∧
    (∃ u v : String, ∀ (oc : Bool) (a b : Date), b < a →
      ∃ e, DayCount.thirty360 (V := V) oc a b = .ok (.error e) ∧ e.display = u ++ Date.display a ++ v ++ Date.display b) := by
  refine ⟨⟨"Invalid inputs are passed by: " ++ "d1: ", " must be smaller than d2: ", fun I D c a b hab => ?_⟩,
    ⟨"Invalid inputs are passed by: " ++ "Either ", " or ", " exceeds settlement date: Date(", ")",
      fun I D c a b hab hs => ?_⟩,
    ⟨"Invalid inputs are passed by: " ++ "date1: ", " must precede date2: ", fun oc a b hab => ?_⟩⟩
  · rw [YieldCurve.discountFactor, if_pos hab]
    exact ⟨_, rfl, glue_two ..⟩
  · rw [YieldCurve.discountFactor, if_neg (not_lt.2 hab), if_pos (.inl hs)]
    exact ⟨_, rfl, glue_three ..⟩
  · rw [DayCount.thirty360, DayCount.thirty360Diff, if_pos hab]
    exact ⟨_, rfl, glue_two ..⟩

/-- A rejected request and its text. -/
example : ∃ e, (⟨⟨2024, 1, 1, by decide⟩, ()⟩ : YieldCurve ℝ
      ⟨Unit, (), fun _ _ => .ok (.ok ()), fun _ _ => .ok (.ok 0)⟩).discountFactor DayCount.act360 ⟨2024, 3, 5, by decide⟩
      ⟨2024, 2, 5, by decide⟩ = .ok (.error e) ∧ Returned ℝ e ∧
    e.display = "Invalid inputs are passed by: d1: 2024-03-05 must be smaller than d2: 2024-02-05" :=
  ⟨_, rfl, .discount (D := DayCount.act360) (.inl rfl) (c := ⟨⟨2024, 1, 1, by decide⟩, ()⟩)
    (I := ⟨Unit, (), fun _ _ => .ok (.ok ()), fun _ _ => .ok (.ok 0)⟩) (a := ⟨2024, 3, 5, by decide⟩)
    (b := ⟨2024, 2, 5, by decide⟩) rfl, by decide +kernel⟩

/-- A date before settlement, and its text. -/
example : ∃ e, (⟨⟨2024, 1, 1, by decide⟩, ()⟩ : YieldCurve ℝ
      ⟨Unit, (), fun _ _ => .ok (.ok ()), fun _ _ => .ok (.ok 0)⟩).discountFactor DayCount.act360 ⟨2023, 3, 5, by decide⟩
      ⟨2024, 2, 5, by decide⟩ = .ok (.error e) ∧
    e.display = "Invalid inputs are passed by: Either 2023-03-05 or 2024-02-05 exceeds settlement date: Date(2024-01-01)" :=
  ⟨_, rfl, by decide +kernel⟩

/-- Dates in the wrong order for 30/360. -/
example : ∃ e, DayCount.thirty360 (V := ℝ) true ⟨2024, 3, 5, by decide⟩ ⟨2024, 2, 5, by decide⟩ = .ok (.error e) ∧
    e.display = "Invalid inputs are passed by: date1: 2024-03-05 must precede date2: 2024-02-05" :=
  ⟨_, rfl, by decide +kernel⟩

/-- An interpolation error. -/
example : (InterpolationError.insufficientPointsError 2).display Nat.repr =
      "length of inputs: 2 is not enough points for construction" ∧
    (InterpolationError.outOfLowerBound 2).display Nat.repr = "out of lower bound: 2" := by decide +kernel

/-- The text of an error tells the dates it is about. -/
example (I : Interpolator ℝ) (c : YieldCurve ℝ I) (a b : Date) (h : b < a) (e e' : QLabError)
    (h1 : c.discountFactor DayCount.act360 ⟨2024, 3, 5, by decide⟩ ⟨2024, 2, 5, by decide⟩ = .ok (.error e))
    (h2 : c.discountFactor DayCount.act360 a b = .ok (.error e')) (ht : e.display = e'.display) :
    ⟨2024, 3, 5, by decide⟩ = a ∧ ⟨2024, 2, 5, by decide⟩ = b :=
  C84_order_dates _ c c _ _ _ _ e e' (by decide) h h1 h2 ht

/-- Natural numbers print differently, so two errors about them with the same text are the same. -/
example (x y : Nat) (h : (InterpolationError.outOfLowerBound x).display (fun n => "".pushn 'I' n) =
    (InterpolationError.outOfLowerBound y).display (fun n => "".pushn 'I' n)) : x = y := by
  have := C84_interpolation (fun n : Nat => "".pushn 'I' n) (fun a b h => by
    have := congrArg String.length h
    simpa using this) _ _ h
  injection this

/-- Errors of 30/360 with the same text are about the same dates. -/
example (a b : Date) (h : b < a) (e e' : QLabError)
    (h1 : DayCount.thirty360 (V := ℚ) true ⟨2024, 3, 5, by decide⟩ ⟨2024, 2, 5, by decide⟩ = .ok (.error e))
    (h2 : DayCount.thirty360 (V := ℚ) true a b = .ok (.error e')) (ht : e.display = e'.display) :
    ⟨2024, 3, 5, by decide⟩ = a ∧ ⟨2024, 2, 5, by decide⟩ = b :=
  C84_thirty360_dates true _ _ _ _ e e' (by decide) h h1 h2 ht

/-- Errors about dates before settlement with the same text are about the same dates and the same settlement date. -/
example (I : Interpolator ℝ) (i : I.State) (c : YieldCurve ℝ I) (a b : Date) (h : a ≤ b) (hs : a < c.settlementDate)
    (e e' : QLabError) (h1 : (⟨⟨2024, 1, 1, by decide⟩, i⟩ : YieldCurve ℝ I).discountFactor DayCount.act360
      ⟨2023, 3, 5, by decide⟩ ⟨2024, 2, 5, by decide⟩ = .ok (.error e))
    (h2 : c.discountFactor DayCount.act360 a b = .ok (.error e')) (ht : e.display = e'.display) :
    ⟨2023, 3, 5, by decide⟩ = a ∧ ⟨2024, 2, 5, by decide⟩ = b ∧ ⟨2024, 1, 1, by decide⟩ = c.settlementDate :=
  C84_settlement_dates _ ⟨⟨2024, 1, 1, by decide⟩, i⟩ c _ _ _ _ e e' (by decide) h
    (show (⟨2023, 3, 5, by decide⟩ : Date) < ⟨2024, 1, 1, by decide⟩ by decide) hs h1 h2 ht

/-- Two errors that were returned, with the same text. -/
example (I : Interpolator ℝ) (c c' : YieldCurve ℝ I) (e e' : QLabError)
    (h1 : c.discountFactor DayCount.act360 ⟨2024, 3, 5, by decide⟩ ⟨2024, 2, 5, by decide⟩ = .ok (.error e))
    (h2 : c'.discountFactor DayCount.act365 ⟨2024, 3, 5, by decide⟩ ⟨2024, 2, 5, by decide⟩ = .ok (.error e'))
    (ht : e.display = e'.display) : e = e' :=
  C84_text_identifies (V := ℝ) e e' (.discount (.inl rfl) h1) (.discount (.inr (.inl rfl)) h2) ht

end Qlab.Props
