import Verif.Spec.Curve
import Verif.Lemmas.DateOrder
import Verif.Props.DayCount
import Verif.Props.Linear
import Verif.Props.CatmullRom
import Verif.Props.NaturalCubic

/-!
# Yield curves (C44, C45, C46, C47, C54, C58, C59)
-/

namespace Qlab.Props

open Spec

section
variable {V : Type}

/-! ## C44 -/

theorem fractions_eq_ok {D : DayCount V} {s : Date} {ms : List Date} {ts : List V} (h : HasFractions D s ms ts) :
    YieldCurve.fractions D s ms = .ok (.ok ts) := by
  induction h with
  | nil => rfl
  | cons hd _ ih => simp [YieldCurve.fractions, hd, ih]

theorem fractions_append {D : DayCount V} {s : Date} {pre : List Date} {ts : List V} (m : Date) (post : List Date)
    (h : HasFractions D s pre ts) :
    (∀ e, D s m = .ok (.error e) → YieldCurve.fractions D s (pre ++ m :: post) = .ok (.error e)) ∧
    (D s m = .panic → YieldCurve.fractions D s (pre ++ m :: post) = .panic) := by
  induction h with
  | nil => constructor <;> intros <;> simp [YieldCurve.fractions, *]
  | cons hd _ ih =>
    refine ⟨fun e he => ?_, fun hp => ?_⟩
    · simp [YieldCurve.fractions, hd, ih.1 e he]
    · simp [YieldCurve.fractions, hd, ih.2 hp]

/-- **C44.** Lists of different lengths are rejected with this message. -/
theorem C44_length_mismatch (D : DayCount V) (I : Interpolator V) (s : Date) (ms : List Date) (ys : List V)
    (h : ms.length ≠ ys.length) :
    YieldCurve.new D I s ms ys = .ok (.error (invalidInput "maturities and spot_yields are different lengths")) := by
  unfold YieldCurve.new
  rw [if_pos h]
  rfl

/-- **C44.** With equal lengths and a fraction for every maturity, the default interpolator is fitted to the pairs
(fraction, yield) in order; the curve keeps the settlement date and that fit. -/
theorem C44_fit (D : DayCount V) (I : Interpolator V) (s : Date) (ms : List Date) (ts ys : List V)
    (h : ms.length = ys.length) (ht : HasFractions D s ms ts) :
    (∀ st, I.tryFit I.default (ts.zip ys) = .ok (.ok st) → YieldCurve.new D I s ms ys = .ok (.ok ⟨s, st⟩)) ∧
    (∀ e, I.tryFit I.default (ts.zip ys) = .ok (.error e) →
      YieldCurve.new D I s ms ys = .ok (.error interpolationError)) ∧
    (I.tryFit I.default (ts.zip ys) = .panic → YieldCurve.new D I s ms ys = .panic) := by
  unfold YieldCurve.new
  simp only [h, ne_eq, not_true, if_false, fractions_eq_ok ht, Rust.ok_bind]
  refine ⟨fun st hst => by simp [hst], fun e he => by simp [he]; rfl, fun hp => by simp [hp]⟩

/-- **C44.** With equal lengths, the first maturity for which the day count fails decides the result, whatever
comes after it. -/
theorem C44_first_failure (D : DayCount V) (I : Interpolator V) (s : Date) (pre : List Date) (m : Date)
    (post : List Date) (ts ys : List V) (h : (pre ++ m :: post).length = ys.length) (ht : HasFractions D s pre ts) :
    (∀ e, D s m = .ok (.error e) → YieldCurve.new D I s (pre ++ m :: post) ys = .ok (.error e)) ∧
    (D s m = .panic → YieldCurve.new D I s (pre ++ m :: post) ys = .panic) := by
  unfold YieldCurve.new
  rw [if_neg (by simpa using h)]
  refine ⟨fun e he => by simp [(fractions_append m post ht).1 e he], fun hp => by
    simp [(fractions_append m post ht).2 hp]⟩

/-- **C44.** The three theorems above cover every call: either there is a fraction for every maturity, or there is
a first maturity without one. -/
theorem C44_exhaustive (D : DayCount V) (s : Date) (ms : List Date) :
    (∃ ts, HasFractions D s ms ts) ∨
    ∃ pre m post ts, ms = pre ++ m :: post ∧ HasFractions D s pre ts ∧
      (D s m = .panic ∨ ∃ e, D s m = .ok (.error e)) := by
  induction ms with
  | nil => exact .inl ⟨[], .nil⟩
  | cons m ms ih =>
    match hm : D s m with
    | .panic => exact .inr ⟨[], m, ms, [], rfl, .nil, .inl hm⟩
    | .ok (.error e) => exact .inr ⟨[], m, ms, [], rfl, .nil, .inr ⟨e, hm⟩⟩
    | .ok (.ok t) =>
      rcases ih with ⟨ts, hts⟩ | ⟨pre, m', post, ts, rfl, hts, hf⟩
      · exact .inl ⟨t :: ts, .cons hm hts⟩
      · exact .inr ⟨m :: pre, m', post, t :: ts, rfl, .cons hm hts, hf⟩

theorem hasFractions_length {D : DayCount V} {s : Date} {ms : List Date} {ts : List V}
    (h : HasFractions D s ms ts) : ms.length = ts.length := List.Forall₂.length_eq h

theorem hasFractions_unique {D : DayCount V} {s : Date} {ms : List Date} {ts us : List V}
    (h : HasFractions D s ms ts) (h' : HasFractions D s ms us) : ts = us := by
  have := (fractions_eq_ok h).symm.trans (fractions_eq_ok h')
  simpa using this

/-- **C44.** With Act/360 or Act/365 the error `InvalidInput` is returned exactly on a length mismatch.  Any value
type and interpolator. -/
theorem C44_invalid_input_iff [Div V] [FromInt V] (D : DayCount V) (hD : D = DayCount.act360 ∨ D = DayCount.act365)
    (I : Interpolator V) (s : Date) (ms : List Date) (ys : List V) :
    (∃ msg, YieldCurve.new D I s ms ys = .ok (.error (invalidInput msg))) ↔ ms.length ≠ ys.length := by
  refine ⟨?_, fun h => ⟨_, C44_length_mismatch D I s ms ys h⟩⟩
  rintro ⟨msg, hmsg⟩ hlen
  have hDm : ∀ m e, D s m = .ok (.error e) → e ≠ invalidInput msg := by
    rintro m e he rfl
    rcases hD with rfl | rfl
    all_goals
      simp only [DayCount.act360, DayCount.act365] at he
      split at he
      · simp [invalidInput, QLabError.ofCompute] at he
      · simp only [Rust.bind_eq_ok] at he
        obtain ⟨a, _, ha⟩ := he
        simp at ha
  rcases C44_exhaustive D s ms with ⟨ts, hts⟩ | ⟨pre, m, post, ts, rfl, hts, hp | ⟨e, he⟩⟩
  · have := C44_fit D I s ms ts ys hlen hts
    match hfit : I.tryFit I.default (ts.zip ys) with
    | .panic => rw [this.2.2 hfit] at hmsg; cases hmsg
    | .ok (.error e) => rw [this.2.1 e hfit] at hmsg; simp [interpolationError, invalidInput] at hmsg
    | .ok (.ok st) => rw [this.1 st hfit] at hmsg; cases hmsg
  · rw [(C44_first_failure D I s pre m post ts ys hlen hts).2 hp] at hmsg; cases hmsg
  · rw [(C44_first_failure D I s pre m post ts ys hlen hts).1 e he] at hmsg
    simp only [Rust.ok.injEq, Except.error.injEq] at hmsg
    exact hDm m e he hmsg

end

/-- **C44.** With 30/360 (no overflow checks, exact casts) `InvalidInput` is returned exactly on a length mismatch or
when some maturity precedes settlement. -/
theorem C44_invalid_input_thirty360 {K : Type} [Field K] [LinearOrder K] [IsStrictOrderedRing K] [FromInt K]
    [ExactCast K] (I : Interpolator K) (s : Date) (ms : List Date) (ys : List K) :
    (∃ msg, YieldCurve.new (DayCount.thirty360 false) I s ms ys = .ok (.error (invalidInput msg))) ↔
      ms.length ≠ ys.length ∨ ∃ m ∈ ms, m < s := by
  have hge : ∀ m, s ≤ m → ∃ t, DayCount.thirty360 (V := K) false s m = .ok (.ok t) := fun m h => by
    obtain ⟨t, _, _, h, _⟩ := C19_thirty360_fraction (K := K) s m m h (le_refl m)
    exact ⟨t, h⟩
  have hlt : ∀ m, m < s → ∃ msg, DayCount.thirty360 (V := K) false s m = .ok (.error (invalidInput msg)) := by
    intro m h
    obtain ⟨msg, hm⟩ := (C19_thirty360_error false s m).2 h
    exact ⟨msg, by unfold DayCount.thirty360; rw [hm]; rfl⟩
  by_cases hlen : ms.length = ys.length
  · simp only [hlen, ne_eq, not_true, false_or]
    rcases C44_exhaustive (DayCount.thirty360 (V := K) false) s ms with
      ⟨ts, hts⟩ | ⟨pre, m, post, ts, rfl, hts, hf⟩
    · constructor
      · rintro ⟨msg, h⟩
        have := C44_fit (DayCount.thirty360 false) I s ms ts ys hlen hts
        match hfit : I.tryFit I.default (ts.zip ys) with
        | .panic => rw [this.2.2 hfit] at h; cases h
        | .ok (.error e) => rw [this.2.1 e hfit] at h; simp [interpolationError, invalidInput] at h
        | .ok (.ok st) => rw [this.1 st hfit] at h; cases h
      · rintro ⟨m, hm, hlt'⟩
        obtain ⟨i, hi, rfl⟩ := List.getElem_of_mem hm
        obtain ⟨msg, he⟩ := hlt _ hlt'
        have := List.Forall₂.get hts hi (List.Forall₂.length_eq hts ▸ hi)
        simp only [List.get_eq_getElem] at this
        rw [he] at this; cases this
    · have hm : m < s := by
        rw [← not_le]
        intro h
        obtain ⟨t, ht⟩ := hge m h
        rcases hf with hf | ⟨e, hf⟩ <;> rw [ht] at hf <;> cases hf
      obtain ⟨msg, he⟩ := hlt m hm
      exact ⟨fun _ => ⟨m, by simp, hm⟩, fun _ => ⟨msg,
        (C44_first_failure _ I s pre m post ts ys hlen hts).1 _ he⟩⟩
  · exact ⟨fun _ => .inl hlen, fun _ => ⟨_, C44_length_mismatch _ I s ms ys hlen⟩⟩

/-! ## C45 -/

section
variable {V : Type} [Neg V] [Sub V] [Mul V] [HasExp V] {I : Interpolator V}

/-- **C45.** Reversed dates and dates before settlement are rejected, with these messages. -/
theorem C45_rejected (D : DayCount V) (c : YieldCurve V I) (d1 d2 : Date) :
    (d2 < d1 → c.discountFactor D d1 d2 = .ok (.error (invalidInput
      ("d1: " ++ Date.display d1 ++ " must be smaller than d2: " ++ Date.display d2)))) ∧
    (d1 ≤ d2 → d1 < c.settlementDate → c.discountFactor D d1 d2 = .ok (.error (invalidInput
      ("Either " ++ Date.display d1 ++ " or " ++ Date.display d2 ++ " exceeds settlement date: Date(" ++
        Date.display c.settlementDate ++ ")")))) := by
  unfold YieldCurve.discountFactor
  constructor
  · intro h
    rw [if_pos h]
    rfl
  · intro h h'
    rw [if_neg ((NaiveDate.not_lt_iff _ _).2 h), if_pos (.inl h')]
    rfl

/-- **C45.** Accepted dates: settlement ≤ `d1` ≤ `d2`.  A value is returned exactly in this case, when the day
count and the interpolator return values at `d2` and (unless `d1` is the settlement date) at `d1`. -/
theorem C45_value_iff (D : DayCount V) (c : YieldCurve V I) (d1 d2 : Date) (v : V) :
    c.discountFactor D d1 d2 = .ok (.ok v) ↔
      c.settlementDate ≤ d1 ∧ d1 ≤ d2 ∧
      ∃ t2 y2, D c.settlementDate d2 = .ok (.ok t2) ∧ I.tryValue c.interpolator t2 = .ok (.ok y2) ∧
        ((d1 = c.settlementDate ∧ v = HasExp.exp (-t2 * y2)) ∨
         (d1 ≠ c.settlementDate ∧ ∃ t1 y1, D c.settlementDate d1 = .ok (.ok t1) ∧
            I.tryValue c.interpolator t1 = .ok (.ok y1) ∧ v = HasExp.exp (t1 * y1 - t2 * y2))) := by
  unfold YieldCurve.discountFactor YieldCurve.yieldAt
  by_cases h1 : d2 < d1
  · rw [if_pos h1]
    simp [not_le.2 h1]
  rw [if_neg h1]
  by_cases h2 : d1 < c.settlementDate
  · rw [if_pos (.inl h2)]
    simp [not_le.2 h2]
  rw [if_neg (by
    rintro (h | h)
    · exact h2 h
    · exact h2 (lt_of_le_of_lt (not_lt.1 h1) h))]
  simp only [not_lt.1 h1, not_lt.1 h2, true_and]
  match ht2 : D c.settlementDate d2 with
  | .panic => simp
  | .ok (.error e) => simp
  | .ok (.ok t2) =>
    match hy2 : I.tryValue c.interpolator t2 with
    | .panic => simp [hy2]
    | .ok (.error e) => simp [hy2]
    | .ok (.ok y2) =>
      by_cases hs : d1 = c.settlementDate
      · simp [hs, hy2, eq_comm]
      · match ht1 : D c.settlementDate d1 with
        | .panic => simp [hy2, hs]
        | .ok (.error e) => simp [hy2, hs]
        | .ok (.ok t1) =>
          match hy1 : I.tryValue c.interpolator t1 with
          | .panic => simp [hy2, hs, hy1]
          | .ok (.error e) => simp [hy2, hs, hy1]
          | .ok (.ok y1) => simp [hy2, hs, hy1, eq_comm]

/-- **C45.** On accepted dates an error is the error of the first step that fails: the day count at `d2`, the
interpolator there, then (unless `d1` is the settlement date) the day count at `d1` and the interpolator there. -/
theorem C45_error_iff (D : DayCount V) (c : YieldCurve V I) (d1 d2 : Date) (hs : c.settlementDate ≤ d1)
    (hd : d1 ≤ d2) (e : QLabError) :
    c.discountFactor D d1 d2 = .ok (.error e) ↔
      D c.settlementDate d2 = .ok (.error e) ∨
      ∃ t2, D c.settlementDate d2 = .ok (.ok t2) ∧
        ((∃ ie, I.tryValue c.interpolator t2 = .ok (.error ie) ∧ e = interpolationError) ∨
         ∃ y2, I.tryValue c.interpolator t2 = .ok (.ok y2) ∧ d1 ≠ c.settlementDate ∧
          (D c.settlementDate d1 = .ok (.error e) ∨
           ∃ t1, D c.settlementDate d1 = .ok (.ok t1) ∧
            ∃ ie, I.tryValue c.interpolator t1 = .ok (.error ie) ∧ e = interpolationError)) := by
  unfold YieldCurve.discountFactor YieldCurve.yieldAt interpolationError
  rw [if_neg (not_lt.2 hd), if_neg (by
    rintro (h | h)
    · exact not_lt.2 hs h
    · exact not_lt.2 (le_trans hs hd) h)]
  match ht2 : D c.settlementDate d2 with
  | .panic => simp
  | .ok (.error e) => simp
  | .ok (.ok t2) =>
    match hy2 : I.tryValue c.interpolator t2 with
    | .panic => simp [hy2]
    | .ok (.error e) => simp [hy2, QLabError.ofInterpolation, eq_comm]
    | .ok (.ok y2) =>
      by_cases hs : d1 = c.settlementDate
      · simp [hs, hy2]
      · match ht1 : D c.settlementDate d1 with
        | .panic => simp [hy2, hs]
        | .ok (.error e) => simp [hy2, hs]
        | .ok (.ok t1) =>
          match hy1 : I.tryValue c.interpolator t1 with
          | .panic => simp [hy2, hs, hy1]
          | .ok (.error e) => simp [hy2, hs, hy1, QLabError.ofInterpolation, eq_comm]
          | .ok (.ok y1) => simp [hy2, hs, hy1]

/-- **C45.** `discount_factor` adds no panic of its own. -/
theorem C45_no_panic (D : DayCount V) (c : YieldCurve V I) (d1 d2 : Date)
    (hD : ∀ d, c.settlementDate ≤ d → D c.settlementDate d ≠ .panic)
    (hI : ∀ t, I.tryValue c.interpolator t ≠ .panic) : c.discountFactor D d1 d2 ≠ .panic := by
  unfold YieldCurve.discountFactor YieldCurve.yieldAt
  by_cases h1 : d2 < d1
  · rw [if_pos h1]; simp
  rw [if_neg h1]
  by_cases h2 : d1 < c.settlementDate ∨ d2 < c.settlementDate
  · rw [if_pos h2]; simp
  rw [if_neg h2]
  have hs : c.settlementDate ≤ d1 := not_lt.1 fun h => h2 (.inl h)
  match ht2 : D c.settlementDate d2 with
  | .panic => exact absurd ht2 (hD d2 (le_trans hs (not_lt.1 h1)))
  | .ok (.error e) => simp
  | .ok (.ok t2) =>
    match hy2 : I.tryValue c.interpolator t2 with
    | .panic => exact absurd hy2 (hI t2)
    | .ok (.error e) => simp [hy2]
    | .ok (.ok y2) =>
      by_cases hs' : d1 = c.settlementDate
      · simp [hs', hy2]
      · match ht1 : D c.settlementDate d1 with
        | .panic => exact absurd ht1 (hD d1 hs)
        | .ok (.error e) => simp [hy2, hs']
        | .ok (.ok t1) =>
          match hy1 : I.tryValue c.interpolator t1 with
          | .panic => exact absurd hy1 (hI t1)
          | .ok (.error e) => simp [hy2, hs', hy1]
          | .ok (.ok y1) => simp [hy2, hs', hy1]

/-- On dates in order the shipped day counts never return `InvalidInput`. -/
theorem shipped_not_invalid [Div V] [FromInt V] {D : DayCount V} (hD : IsShippedDayCount D) {a b : Date} (h : a ≤ b)
    (msg : String) : D a b ≠ .ok (.error (invalidInput msg)) := by
  intro he
  rcases hD with rfl | rfl | ⟨oc, rfl⟩
  · simp only [DayCount.act360] at he
    split at he
    · simp [invalidInput, QLabError.ofCompute] at he
    · simp only [Rust.bind_eq_ok] at he
      obtain ⟨_, _, ha⟩ := he
      simp at ha
  · simp only [DayCount.act365] at he
    split at he
    · simp [invalidInput, QLabError.ofCompute] at he
    · simp only [Rust.bind_eq_ok] at he
      obtain ⟨_, _, ha⟩ := he
      simp at ha
  · simp only [DayCount.thirty360, Rust.bind_eq_ok] at he
    obtain ⟨r, hr, he⟩ := he
    match r, hr, he with
    | .error e, hr, _ => exact not_lt.2 h ((C19_thirty360_error oc a b).1.1 ⟨e, hr⟩)
    | .ok n, _, he =>
      simp only at he
      split at he
      · simp [invalidInput, QLabError.ofCompute] at he
      · split at he <;> simp [invalidInput, QLabError.ofCompute] at he

/-- **C45.** With the shipped day counts and any interpolator, `InvalidInput` is returned exactly when the dates are
reversed or one of them precedes settlement.  Any value type, floats included. -/
theorem C45_invalid_input_iff [Div V] [FromInt V] (D : DayCount V) (hD : IsShippedDayCount D) (c : YieldCurve V I)
    (d1 d2 : Date) :
    (∃ msg, c.discountFactor D d1 d2 = .ok (.error (invalidInput msg))) ↔
      d2 < d1 ∨ d1 < c.settlementDate ∨ d2 < c.settlementDate := by
  constructor
  · rintro ⟨msg, h⟩
    by_contra hn
    simp only [not_or, not_lt] at hn
    rw [C45_error_iff D c d1 d2 hn.2.1 hn.1] at h
    rcases h with h | ⟨t2, _, ⟨_, _, h⟩ | ⟨y2, _, _, h | ⟨t1, _, _, _, h⟩⟩⟩
    · exact shipped_not_invalid hD hn.2.2 msg h
    · simp [interpolationError, invalidInput] at h
    · exact shipped_not_invalid hD hn.2.1 msg h
    · simp [interpolationError, invalidInput] at h
  · intro h
    by_cases h1 : d2 < d1
    · exact ⟨_, (C45_rejected D c d1 d2).1 h1⟩
    · refine ⟨_, (C45_rejected D c d1 d2).2 (not_lt.1 h1) ?_⟩
      rcases h with h | h | h
      · exact absurd h h1
      · exact h
      · exact lt_of_le_of_lt (not_lt.1 h1) h

end

/-! ## C46 -/

section
variable {I : Interpolator ℝ} (D : DayCount ℝ) (c : YieldCurve ℝ I)

/-- The shipped day counts give the fraction 0 on equal dates. -/
theorem shipped_self {D : DayCount ℝ} (hD : IsShippedDayCount D) (s : Date) : D s s = .ok (.ok 0) := by
  rcases hD with rfl | rfl | ⟨oc, rfl⟩
  · rw [act360_eq]; simp [C04_sub_serial]
  · rw [act365_eq]; simp [C04_sub_serial]
  · have h := C20_thirty360_no_panic_partial oc s s (le_refl s) (.inr (Nat.le_refl _))
    have h0 : thirty360Days s s = 0 := (C19_thirty360_additive s s s (le_refl s) (le_refl s)).2.1
    unfold DayCount.thirty360
    simp [h, h0, ExactCast.fromInt_eq]

/-- **C46.** The discount factor from settlement is `exp (-t y)`. -/
theorem C46_formula (d : Date) (t y : ℝ) (hd : c.settlementDate ≤ d) (ht : D c.settlementDate d = .ok (.ok t))
    (hy : I.tryValue c.interpolator t = .ok (.ok y)) :
    c.discountFactor D c.settlementDate d = .ok (.ok (Real.exp (-(t * y)))) := by
  rw [C45_value_iff]
  exact ⟨le_refl _, hd, t, y, ht, hy, .inl ⟨rfl, by rw [neg_mul]; rfl⟩⟩

/-- **C46.** Discount factors are positive. -/
theorem C46_positive (d1 d2 : Date) (v : ℝ) (h : c.discountFactor D d1 d2 = .ok (.ok v)) : 0 < v := by
  rw [C45_value_iff] at h
  obtain ⟨_, _, t2, y2, _, _, ⟨_, rfl⟩ | ⟨_, t1, y1, _, _, rfl⟩⟩ := h
  · exact Real.exp_pos _
  · exact Real.exp_pos _

/-- A defined discount factor between `d1` and `d2` is `exp (t1 y1 - t2 y2)`, also from settlement. -/
theorem discount_factor_form (h0 : D c.settlementDate c.settlementDate = .ok (.ok 0)) {d1 d2 : Date} {v : ℝ}
    (h : c.discountFactor D d1 d2 = .ok (.ok v)) :
    c.settlementDate ≤ d1 ∧ d1 ≤ d2 ∧ ∃ t1 t2 y2, D c.settlementDate d1 = .ok (.ok t1) ∧
      D c.settlementDate d2 = .ok (.ok t2) ∧ I.tryValue c.interpolator t2 = .ok (.ok y2) ∧
      ∃ z1, v = Real.exp (z1 - t2 * y2) ∧ ((d1 = c.settlementDate ∧ z1 = 0) ∨
        (d1 ≠ c.settlementDate ∧ ∃ y1, I.tryValue c.interpolator t1 = .ok (.ok y1) ∧ z1 = t1 * y1)) := by
  rw [C45_value_iff] at h
  obtain ⟨hs, hd, t2, y2, ht2, hy2, ⟨rfl, rfl⟩ | ⟨hne, t1, y1, ht1, hy1, rfl⟩⟩ := h
  · exact ⟨hs, hd, 0, t2, y2, h0, ht2, hy2, 0, by rw [zero_sub, neg_mul]; rfl, .inl ⟨rfl, rfl⟩⟩
  · exact ⟨hs, hd, t1, t2, y2, ht1, ht2, hy2, t1 * y1, rfl, .inr ⟨hne, y1, hy1, rfl⟩⟩

/-- **C46.** On equal dates the discount factor is 1 wherever it is defined.  `D s s = 0` holds for the shipped day
counts (`C46_day_counts`). -/
theorem C46_unit (h0 : D c.settlementDate c.settlementDate = .ok (.ok 0)) (d : Date) (v : ℝ)
    (h : c.discountFactor D d d = .ok (.ok v)) : v = 1 := by
  obtain ⟨_, _, t1, t2, y2, ht1, ht2, hy2, z1, rfl, hz⟩ := discount_factor_form D c h0 h
  have e : t1 = t2 := by rw [ht1] at ht2; simpa using ht2
  subst e
  rcases hz with ⟨rfl, rfl⟩ | ⟨_, y1, hy1, rfl⟩
  · have : t1 = 0 := by rw [h0] at ht1; simpa [eq_comm] using ht1
    simp [this]
  · have : y1 = y2 := by rw [hy1] at hy2; simpa using hy2
    simp [this]

/-- **C46.** Discount factors over adjacent periods multiply, and the product is always defined. -/
theorem C46_multiplicative (h0 : D c.settlementDate c.settlementDate = .ok (.ok 0)) (a b d : Date) (u v : ℝ)
    (h1 : c.discountFactor D a b = .ok (.ok u)) (h2 : c.discountFactor D b d = .ok (.ok v)) :
    c.discountFactor D a d = .ok (.ok (u * v)) := by
  obtain ⟨hs, hab, t1, t2, y2, ht1, ht2, hy2, z1, rfl, hz⟩ := discount_factor_form D c h0 h1
  obtain ⟨_, hbd, s1, t3, y3, hs1, ht3, hy3, z2, rfl, hz'⟩ := discount_factor_form D c h0 h2
  have e : s1 = t2 := by rw [ht2] at hs1; simpa [eq_comm] using hs1
  subst e
  have hz2 : z2 = s1 * y2 := by
    rcases hz' with ⟨rfl, rfl⟩ | ⟨_, y1, hy1, rfl⟩
    · have : s1 = 0 := by rw [h0] at ht2; simpa [eq_comm] using ht2
      simp [this]
    · have : y1 = y2 := by rw [hy1] at hy2; simpa using hy2
      rw [this]
  rw [← Real.exp_add, hz2, show z1 - s1 * y2 + (s1 * y2 - t3 * y3) = z1 - t3 * y3 by ring, C45_value_iff]
  refine ⟨hs, le_trans hab hbd, t3, y3, ht3, hy3, ?_⟩
  rcases hz with ⟨rfl, rfl⟩ | ⟨hne, y1, hy1, rfl⟩
  · exact .inl ⟨rfl, by rw [zero_sub, neg_mul]; rfl⟩
  · exact .inr ⟨hne, t1, y1, ht1, hy1, rfl⟩

/-- **C46.** Where `t y` is no smaller at the later date the discount factor is at most 1. -/
theorem C46_le_one_iff (h0 : D c.settlementDate c.settlementDate = .ok (.ok 0)) (d1 d2 : Date) (v t1 y1 t2 y2 : ℝ)
    (ht1 : D c.settlementDate d1 = .ok (.ok t1)) (hy1 : I.tryValue c.interpolator t1 = .ok (.ok y1))
    (ht2 : D c.settlementDate d2 = .ok (.ok t2)) (hy2 : I.tryValue c.interpolator t2 = .ok (.ok y2))
    (h : c.discountFactor D d1 d2 = .ok (.ok v)) : v ≤ 1 ↔ t1 * y1 ≤ t2 * y2 := by
  obtain ⟨_, _, s1, s2, x2, hs1, hs2, hx2, z1, rfl, hz⟩ := discount_factor_form D c h0 h
  have e1 : s1 = t1 := by rw [ht1] at hs1; simpa [eq_comm] using hs1
  have e2 : s2 = t2 := by rw [ht2] at hs2; simpa [eq_comm] using hs2
  subst e1 e2
  have e3 : x2 = y2 := by rw [hy2] at hx2; simpa [eq_comm] using hx2
  subst e3
  have hz1 : z1 = s1 * y1 := by
    rcases hz with ⟨rfl, rfl⟩ | ⟨_, x1, hx1, rfl⟩
    · have : s1 = 0 := by rw [h0] at ht1; simpa [eq_comm] using ht1
      simp [this]
    · have : x1 = y1 := by rw [hy1] at hx1; simpa [eq_comm] using hx1
      rw [this]
  rw [Real.exp_le_one_iff, hz1]
  constructor <;> intro h <;> linarith

/-- **C46.** The hypothesis `D s s = 0` of the theorems above holds for every shipped day count. -/
theorem C46_day_counts {D : DayCount ℝ} (hD : IsShippedDayCount D) (s : Date) : D s s = .ok (.ok 0) :=
  shipped_self hD s

end

/-! ## C47 -/

theorem evaluate_eq_ok {V : Type} {I : Interpolator V} {pts : List (V × V)} {x y : V}
    (h : evaluate I pts x = .ok (.ok y)) :
    ∃ st, I.tryFit I.default pts = .ok (.ok st) ∧ I.tryValue st x = .ok (.ok y) := by
  unfold evaluate at h
  match hf : I.tryFit I.default pts with
  | .panic => simp [hf] at h
  | .ok (.error e) => simp [hf] at h
  | .ok (.ok st) => exact ⟨st, rfl, by simpa [hf] using h⟩

section
variable {I : Interpolator ℝ} {D : DayCount ℝ} {s : Date} {ms : List Date} {ts ys : List ℝ}

/-- The discount factor from settlement in terms of the fitted zero yield. -/
theorem curveDiscount_of_evaluate (hlen : ms.length = ys.length) (ht : HasFractions D s ms ts) {d : Date} {t y : ℝ}
    (hd : s ≤ d) (hdt : D s d = .ok (.ok t)) (hy : evaluate I (ts.zip ys) t = .ok (.ok y)) :
    curveDiscount D I s ms ys s d = .ok (.ok (Real.exp (-(t * y)))) := by
  obtain ⟨st, hf, hv⟩ := evaluate_eq_ok hy
  unfold curveDiscount
  rw [(C44_fit D I s ms ts ys hlen ht).1 st hf]
  exact C46_formula D ⟨s, st⟩ d t y hd hdt hv

theorem strictlyIncreasing_zip (hinc : ts.Pairwise (· < ·)) (ys : List ℝ) : StrictlyIncreasing (ts.zip ys) := by
  unfold StrictlyIncreasing
  rw [List.pairwise_iff_getElem] at hinc ⊢
  intro i j hi hj hij
  simp only [List.getElem_zip]
  exact hinc i j _ _ hij

theorem hasFractions_get (ht : HasFractions D s ms ts) {i : Nat} (hi : i < ms.length) (hi' : i < ts.length) :
    D s ms[i] = .ok (.ok ts[i]) := List.Forall₂.get ht hi hi'

/-- **C47.** Linear interpolation: whatever the day count, if the fractions of the pillars are strictly increasing,
the discount factor to each pillar is `exp (-t y)` with the quoted yield. -/
theorem C47_linear (hlen : ms.length = ys.length) (ht : HasFractions D s ms ts) (hinc : ts.Pairwise (· < ·))
    (h2 : 2 ≤ ms.length) (i : Nat) (hi : i < ms.length) (hs : s ≤ ms[i]) :
    curveDiscount D (Interpolator.linear ℝ) s ms ys s ms[i] =
      .ok (.ok (Real.exp (-(ts[i]'(hasFractions_length ht ▸ hi) * ys[i]'(hlen ▸ hi))))) := by
  have hl := hasFractions_length ht
  refine curveDiscount_of_evaluate hlen ht hs (hasFractions_get ht hi (hl ▸ hi)) ?_
  refine C35_nodes _ (strictlyIncreasing_zip hinc ys) (by simp; omega) i _ _ ?_
  rw [List.getElem?_eq_getElem (by simp; omega), List.getElem_zip]

/-- **C47.** Natural cubic spline: likewise, with at least three pillars. -/
theorem C47_natural_cubic (hlen : ms.length = ys.length) (ht : HasFractions D s ms ts) (hinc : ts.Pairwise (· < ·))
    (h3 : 3 ≤ ms.length) (i : Nat) (hi : i < ms.length) (hs : s ≤ ms[i]) :
    curveDiscount D (Interpolator.naturalCubic ℝ) s ms ys s ms[i] =
      .ok (.ok (Real.exp (-(ts[i]'(hasFractions_length ht ▸ hi) * ys[i]'(hlen ▸ hi))))) := by
  have hl := hasFractions_length ht
  refine curveDiscount_of_evaluate hlen ht hs (hasFractions_get ht hi (hl ▸ hi)) ?_
  refine C40_nodes _ (strictlyIncreasing_zip hinc ys) (by simp; omega) _ _ ?_
  rw [List.mem_iff_getElem]
  exact ⟨i, by simp; omega, by rw [List.getElem_zip]⟩

/-! ## C60 -/

/-- **C60.** Catmull-Rom spline: every pillar but the last is repriced.  Missing for the full property: the last
pillar. -/
theorem C60_catmull_rom_partial (hlen : ms.length = ys.length) (ht : HasFractions D s ms ts)
    (hinc : ts.Pairwise (· < ·)) (h3 : 3 ≤ ms.length) (i : Nat) (hi : i + 1 < ms.length) (hs : s ≤ ms[i]) :
    curveDiscount D (Interpolator.catmullRom ℝ) s ms ys s ms[i] =
      .ok (.ok (Real.exp (-(ts[i]'(by have := hasFractions_length ht; omega) * ys[i])))) := by
  have hl := hasFractions_length ht
  refine curveDiscount_of_evaluate hlen ht hs (hasFractions_get ht (by omega) (by omega)) ?_
  have := C38_nodes_partial _ (strictlyIncreasing_zip hinc ys) (by simp; omega) i (by simp; omega)
  simpa only [List.getElem_zip] using this

/-- **C60.** Refuted: on every curve with a nonzero yield and a nonzero fraction at the last pillar, the discount
factor to that pillar is not the one implied by its quote. -/
theorem C60_refuted (hlen : ms.length = ys.length) (ht : HasFractions D s ms ts)
    (hinc : ts.Pairwise (· < ·)) (n : Nat) (hn : ms.length = n + 3) (hs : s ≤ ms[n + 2])
    (ht0 : ts[n + 2]'(by have := hasFractions_length ht; omega) ≠ 0) (hy0 : ys[n + 2] ≠ 0) :
    ∃ v, curveDiscount D (Interpolator.catmullRom ℝ) s ms ys s ms[n + 2] = .ok (.ok v) ∧
      v ≠ Real.exp (-(ts[n + 2]'(by have := hasFractions_length ht; omega) * ys[n + 2])) := by
  have hl := hasFractions_length ht
  have hzl : (ts.zip ys).length = n + 3 := by simp; omega
  obtain ⟨y, hy, hne⟩ := C38_refuted_last_node _ (strictlyIncreasing_zip hinc ys) (by omega)
    (by simp only [List.getElem_zip, hzl]; exact hy0)
  simp only [List.getElem_zip, hzl, Nat.add_sub_cancel, show n + 3 - 1 = n + 2 from rfl] at hy hne
  refine ⟨_, curveDiscount_of_evaluate hlen ht hs (hasFractions_get ht (by omega) (by omega)) hy, ?_⟩
  intro he
  have := Real.exp_injective he
  have h1 := neg_injective this
  exact hne (mul_left_cancel₀ ht0 h1)

end

/-! ### Actual day counts -/

section
variable {D : DayCount ℝ} {N : ℝ}

theorem isActual_eq (h : IsActual D N) (a b : Date) : D a b = .ok (.ok ((Date.sub b a : ℝ) / N)) := by
  rcases h with ⟨rfl, rfl⟩ | ⟨rfl, rfl⟩
  · exact act360_eq a b
  · exact act365_eq a b

theorem isActual_pos (h : IsActual D N) : 0 < N := by
  rcases h with ⟨_, rfl⟩ | ⟨_, rfl⟩ <;> norm_num

theorem isActual_lt (h : IsActual D N) (s a b : Date) :
    ((Date.sub a s : ℝ) / N < (Date.sub b s : ℝ) / N) ↔ a < b := by
  rw [div_lt_div_iff_of_pos_right (isActual_pos h), Int.cast_lt, C03_serial_lt, C04_sub_serial, C04_sub_serial]
  omega

theorem isActual_fractions (h : IsActual D N) (s : Date) (ms : List Date) :
    HasFractions D s ms (ms.map fun m => (Date.sub m s : ℝ) / N) := by
  induction ms with
  | nil => exact .nil
  | cons m ms ih => exact .cons (isActual_eq h s m) ih

theorem isActual_increasing (h : IsActual D N) (s : Date) {ms : List Date} (hm : ms.Pairwise (· < ·)) :
    (ms.map fun m => (Date.sub m s : ℝ) / N).Pairwise (· < ·) := by
  rw [List.pairwise_map]
  exact hm.imp fun {a b} hab => (isActual_lt h s a b).2 hab

/-- **C47.** In terms of dates: with Act/360 or Act/365, linear or natural cubic interpolation and strictly
increasing maturities, the discount factor to each maturity from settlement on is `exp (-(days / N) y)`. -/
theorem C47_dates (hD : IsActual D N) {I : Interpolator ℝ} {n : Nat}
    (hI : (I = Interpolator.linear ℝ ∧ n = 2) ∨ (I = Interpolator.naturalCubic ℝ ∧ n = 3)) (s : Date)
    (ms : List Date) (ys : List ℝ) (hlen : ms.length = ys.length) (hm : ms.Pairwise (· < ·)) (hn : n ≤ ms.length)
    (i : Nat) (hi : i < ms.length) (hs : s ≤ ms[i]) :
    curveDiscount D I s ms ys s ms[i] =
      .ok (.ok (Real.exp (-((Date.sub ms[i] s : ℝ) / N * ys[i]'(hlen ▸ hi))))) := by
  have hf := isActual_fractions hD s ms
  have hinc := isActual_increasing hD s hm
  rcases hI with ⟨rfl, rfl⟩ | ⟨rfl, rfl⟩
  · have := C47_linear hlen hf hinc hn i hi hs
    simpa using this
  · have := C47_natural_cubic hlen hf hinc hn i hi hs
    simpa using this

/-! ## C58 -/

theorem evaluate_domain {I : Interpolator ℝ} {n : Nat} (hI : IsShippedInterpolator I n) {pts : List (ℝ × ℝ)}
    (hs : StrictlyIncreasing pts) (hn : n ≤ pts.length) (x : ℝ) :
    (InRange pts x → ∃ v, evaluate I pts x = .ok (.ok v)) ∧
    (¬ InRange pts x → ∃ e, evaluate I pts x = .ok (.error e)) := by
  have hb : InRange pts x ↔ ¬ BelowAll pts x ∧ ¬ AboveAll pts x := by
    simp [InRange, BelowAll, AboveAll]
  have hb' : ¬ InRange pts x → BelowAll pts x ∨ AboveAll pts x := by
    rw [hb]; tauto
  rcases hI with ⟨rfl, rfl⟩ | ⟨rfl, rfl⟩ | ⟨rfl, rfl⟩
  · obtain ⟨h1, h2, h3⟩ := C35_domain pts hs hn x
    exact ⟨fun h => h3 (hb.1 h).1 (hb.1 h).2, fun h => (hb' h).elim (fun h => ⟨_, h1 h⟩) fun h => ⟨_, h2 h⟩⟩
  · obtain ⟨h1, h2, h3⟩ := C38_domain pts hs hn x
    exact ⟨h3, fun h => (hb' h).elim (fun h => ⟨_, h1 h⟩) fun h => ⟨_, h2 h⟩⟩
  · obtain ⟨h1, h2, h3⟩ := C40_domain pts hs hn x
    exact ⟨h3, fun h => (hb' h).elim (fun h => ⟨_, h1 h⟩) fun h => ⟨_, h2 h⟩⟩

/-- Fitting succeeds on strictly increasing points. -/
theorem fit_ok {I : Interpolator ℝ} {n : Nat} (hI : IsShippedInterpolator I n) {pts : List (ℝ × ℝ)}
    (hs : StrictlyIncreasing pts) (hn : n ≤ pts.length) :
    ∃ st, I.tryFit I.default pts = .ok (.ok st) ∧ ∀ x, evaluate I pts x = I.tryValue st x := by
  have h0 : 0 < pts.length := by
    rcases hI with ⟨_, rfl⟩ | ⟨_, rfl⟩ | ⟨_, rfl⟩ <;> omega
  obtain ⟨v, hv⟩ := (evaluate_domain hI hs hn pts[0].1).1
    ⟨⟨_, List.getElem_mem h0, le_refl _⟩, ⟨_, List.getElem_mem h0, le_refl _⟩⟩
  obtain ⟨st, hst, _⟩ := evaluate_eq_ok hv
  exact ⟨st, hst, fun x => by unfold evaluate; rw [hst]; rfl⟩

theorem inRange_iff_covers (hD : IsActual D N) (s : Date) (ms : List Date) (ys : List ℝ)
    (hlen : ms.length = ys.length) (d : Date) :
    InRange ((ms.map fun m => (Date.sub m s : ℝ) / N).zip ys) ((Date.sub d s : ℝ) / N) ↔ Covers ms d := by
  have key : ∀ P : ℝ → Prop, (∃ p ∈ (ms.map fun m => (Date.sub m s : ℝ) / N).zip ys, P p.1) ↔
      ∃ m ∈ ms, P ((Date.sub m s : ℝ) / N) := by
    intro P
    constructor
    · rintro ⟨p, hp, hP⟩
      obtain ⟨m, hm, he⟩ := List.mem_map.1 (List.of_mem_zip hp).1
      exact ⟨m, hm, he ▸ hP⟩
    · rintro ⟨m, hm, hP⟩
      obtain ⟨i, hi, rfl⟩ := List.getElem_of_mem hm
      refine ⟨(_, ys[i]), ?_, hP⟩
      rw [List.mem_iff_getElem]
      exact ⟨i, by simp; omega, by simp⟩
  unfold InRange Covers
  rw [key (fun z => z ≤ (Date.sub d s : ℝ) / N), key (fun z => (Date.sub d s : ℝ) / N ≤ z)]
  simp only [← not_lt (a := (_ : ℝ)), isActual_lt hD]
  simp only [not_lt]

/-- **C58.** With Act/360 or Act/365, strictly increasing maturities and any shipped interpolator, the curve gives a
discount factor between accepted dates exactly when the maturities cover `d2` and, unless `d1` is the settlement
date, also `d1`; otherwise the result is `InterpolationError`, never a panic. -/
theorem C58_domain (hD : IsActual D N) {I : Interpolator ℝ} {n : Nat} (hI : IsShippedInterpolator I n) (s : Date)
    (ms : List Date) (ys : List ℝ) (hlen : ms.length = ys.length) (hm : ms.Pairwise (· < ·)) (hn : n ≤ ms.length)
    (d1 d2 : Date) (hs : s ≤ d1) (hd : d1 ≤ d2) :
    ((Covers ms d2 ∧ (d1 = s ∨ Covers ms d1)) → ∃ v, curveDiscount D I s ms ys d1 d2 = .ok (.ok v)) ∧
    (¬ (Covers ms d2 ∧ (d1 = s ∨ Covers ms d1)) →
      curveDiscount D I s ms ys d1 d2 = .ok (.error interpolationError)) := by
  have hf := isActual_fractions hD s ms
  have hinc := strictlyIncreasing_zip (isActual_increasing hD s hm) ys
  have hzn : n ≤ ((ms.map fun m => (Date.sub m s : ℝ) / N).zip ys).length := by simp; omega
  obtain ⟨st, hst, hev⟩ := fit_ok hI hinc hzn
  have hdom : ∀ d, (Covers ms d → ∃ v, I.tryValue st ((Date.sub d s : ℝ) / N) = .ok (.ok v)) ∧
      (¬ Covers ms d → ∃ e, I.tryValue st ((Date.sub d s : ℝ) / N) = .ok (.error e)) := by
    intro d
    have := evaluate_domain hI hinc hzn ((Date.sub d s : ℝ) / N)
    rw [inRange_iff_covers hD s ms ys hlen d, hev] at this
    exact this
  have e2 : D s d2 = _ := isActual_eq hD s d2
  have e1 : D s d1 = _ := isActual_eq hD s d1
  unfold curveDiscount
  rw [(C44_fit D I s ms _ ys hlen hf).1 st hst]
  simp only [Rust.ok_bind]
  constructor
  · rintro ⟨h2, h1⟩
    obtain ⟨y2, hy2⟩ := (hdom d2).1 h2
    by_cases hds : d1 = s
    · exact ⟨_, (C45_value_iff _ _ _ _ _).2 ⟨hs, hd, _, _, e2, hy2, .inl ⟨hds, rfl⟩⟩⟩
    · obtain ⟨y1, hy1⟩ := (hdom d1).1 (h1.resolve_left hds)
      exact ⟨_, (C45_value_iff _ _ _ _ _).2 ⟨hs, hd, _, _, e2, hy2, .inr ⟨hds, _, _, e1, hy1, rfl⟩⟩⟩
  · intro hn
    rw [C45_error_iff _ _ _ _ hs hd]
    by_cases h2 : Covers ms d2
    · obtain ⟨y2, hy2⟩ := (hdom d2).1 h2
      have h1 : ¬ (d1 = s ∨ Covers ms d1) := fun h => hn ⟨h2, h⟩
      simp only [not_or] at h1
      obtain ⟨e, he⟩ := (hdom d1).2 h1.2
      exact .inr ⟨_, e2, .inr ⟨y2, hy2, h1.1, .inr ⟨_, e1, e, he, rfl⟩⟩⟩
    · obtain ⟨e, he⟩ := (hdom d2).2 h2
      exact .inr ⟨_, e2, .inl ⟨e, he, rfl⟩⟩

end

/-! ### A concrete curve -/

section Examples

/-- Settlement 10 October 2023, three pillars. -/
def exSettle : Date := ⟨2023, 10, 10, by decide⟩
/-- Maturities of the example curve. -/
def exMaturities : List Date := [⟨2023, 11, 7, by decide⟩, ⟨2024, 5, 7, by decide⟩, ⟨2024, 11, 7, by decide⟩]
/-- Yields of the example curve. -/
noncomputable def exYields : List ℝ := [0.02, 0.0219, 0.0237]

theorem exMaturities_increasing : exMaturities.Pairwise (· < ·) := by unfold exMaturities; decide

/-- The second pillar is 210 days from settlement and is repriced by linear interpolation with Act/365. -/
example : curveDiscount DayCount.act365 (Interpolator.linear ℝ) exSettle exMaturities exYields exSettle
    ⟨2024, 5, 7, by decide⟩ = .ok (.ok (Real.exp (-(210 / 365 * 0.0219)))) := by
  have h := C47_dates (D := DayCount.act365) (N := 365) (.inr ⟨rfl, rfl⟩) (I := Interpolator.linear ℝ) (n := 2)
    (.inl ⟨rfl, rfl⟩) exSettle exMaturities exYields rfl exMaturities_increasing (by decide) 1 (by decide) (by decide)
  have e : Date.sub (exMaturities[1]'(by decide)) exSettle = 210 := by decide
  simp only [e] at h
  norm_num [exYields] at h ⊢
  exact h

/-- All three pillars are repriced by the natural cubic spline with Act/360. -/
example (i : Nat) (hi : i < 3) :
    ∃ v, curveDiscount DayCount.act360 (Interpolator.naturalCubic ℝ) exSettle exMaturities exYields exSettle
      (exMaturities[i]'hi) = .ok (.ok v) ∧
      v = Real.exp (-((Date.sub (exMaturities[i]'hi) exSettle : ℝ) / 360 * exYields[i]'hi)) :=
  ⟨_, C47_dates (.inl ⟨rfl, rfl⟩) (.inr ⟨rfl, rfl⟩) exSettle exMaturities exYields rfl exMaturities_increasing
    (by decide) i hi (by
      match i, hi with
      | 0, _ => exact (by decide : exSettle ≤ exMaturities[0]'(by decide))
      | 1, _ => exact (by decide : exSettle ≤ exMaturities[1]'(by decide))
      | 2, _ => exact (by decide : exSettle ≤ exMaturities[2]'(by decide))), rfl⟩

/-- The day after the first pillar is covered; the settlement date itself is not, and a discount factor from
settlement to settlement is refused. -/
example : Covers exMaturities ⟨2023, 11, 8, by decide⟩ ∧ ¬ Covers exMaturities exSettle ∧
    curveDiscount DayCount.act365 (Interpolator.linear ℝ) exSettle exMaturities exYields exSettle exSettle =
      .ok (.error interpolationError) := by
  have hc : ¬ Covers exMaturities exSettle := by unfold Covers exMaturities exSettle; decide
  refine ⟨by unfold Covers exMaturities; decide, hc, ?_⟩
  exact (C58_domain (N := 365) (.inr ⟨rfl, rfl⟩) (.inl ⟨rfl, rfl⟩) exSettle exMaturities exYields rfl
    exMaturities_increasing (by decide) exSettle exSettle (le_refl _) (le_refl _)).2 fun h => hc h.1

/-- The last pillar of a Catmull-Rom curve on these quotes is mispriced. -/
example : ∃ v, curveDiscount DayCount.act365 (Interpolator.catmullRom ℝ) exSettle exMaturities exYields exSettle
      ⟨2024, 11, 7, by decide⟩ = .ok (.ok v) ∧ v ≠ Real.exp (-(394 / 365 * 0.0237)) := by
  have hD : IsActual (DayCount.act365 (V := ℝ)) 365 := .inr ⟨rfl, rfl⟩
  have e : Date.sub (⟨2024, 11, 7, by decide⟩ : Date) exSettle = 394 := by decide
  have h := C60_refuted (ys := exYields) rfl (isActual_fractions hD exSettle exMaturities)
    (isActual_increasing hD exSettle exMaturities_increasing) 0 rfl (by decide)
    (by simp [exMaturities, e]) (by norm_num [exYields])
  simpa [exMaturities, exYields, e] using h

/-- A first failure: 30/360 refuses the second of three maturities because it precedes settlement. -/
example : (∃ ts, HasFractions (DayCount.thirty360 (V := ℚ) false) exSettle [⟨2023, 11, 7, by decide⟩] ts) ∧
    ∃ e, DayCount.thirty360 (V := ℚ) false exSettle ⟨2023, 10, 9, by decide⟩ = .ok (.error e) := by
  refine ⟨⟨[27 / 360], .cons (by decide +kernel) .nil⟩, _, rfl⟩

/-- A length mismatch. -/
example : exMaturities.length ≠ ([1, 2] : List ℝ).length := by decide

example : YieldCurve.new DayCount.act365 (Interpolator.linear ℝ) exSettle exMaturities [0.02, 0.0219] =
    .ok (.error (invalidInput "maturities and spot_yields are different lengths")) :=
  C44_length_mismatch _ _ _ _ _ (by decide)

/-- The pillars are 28, 210 and 394 days from settlement. -/
theorem exFractions : HasFractions (DayCount.act365 (V := ℝ)) exSettle exMaturities [28 / 365, 210 / 365, 394 / 365] := by
  have h := isActual_fractions (D := DayCount.act365 (V := ℝ)) (N := 365) (.inr ⟨rfl, rfl⟩) exSettle exMaturities
  have e0 : Date.sub (⟨2023, 11, 7, by decide⟩ : Date) exSettle = 28 := by decide
  have e1 : Date.sub (⟨2024, 5, 7, by decide⟩ : Date) exSettle = 210 := by decide
  have e2 : Date.sub (⟨2024, 11, 7, by decide⟩ : Date) exSettle = 394 := by decide
  simpa [exMaturities, e0, e1, e2] using h

example := (C44_fit DayCount.act365 (Interpolator.linear ℝ) exSettle exMaturities _ exYields rfl exFractions).1

/-- 30/360 refuses a pillar before settlement, after a good one. -/
example (I : Interpolator ℚ) : ∃ e, YieldCurve.new (DayCount.thirty360 false) I exSettle
    ([⟨2023, 11, 7, by decide⟩] ++ ⟨2023, 10, 9, by decide⟩ :: []) [1, 2] = .ok (.error e) :=
  ⟨_, (C44_first_failure _ I exSettle [⟨2023, 11, 7, by decide⟩] ⟨2023, 10, 9, by decide⟩ [] [27 / 360] [1, 2] rfl
    (.cons (by decide +kernel) .nil)).1 _ rfl⟩

example : ∃ msg, YieldCurve.new DayCount.act360 (Interpolator.linear ℝ) exSettle exMaturities [0.02, 0.0219] =
    .ok (.error (invalidInput msg)) :=
  (C44_invalid_input_iff _ (.inl rfl) _ _ _ _).2 (by decide)

/-- The linear example curve, with its yields at the first two pillars. -/
theorem exCurve : ∃ c : YieldCurve ℝ (Interpolator.linear ℝ),
    YieldCurve.new DayCount.act365 (Interpolator.linear ℝ) exSettle exMaturities exYields = .ok (.ok c) ∧
    c.settlementDate = exSettle ∧
    (Interpolator.linear ℝ).tryValue c.interpolator (28 / 365) = .ok (.ok 0.02) ∧
    (Interpolator.linear ℝ).tryValue c.interpolator (210 / 365) = .ok (.ok 0.0219) ∧
    ∀ t, (Interpolator.linear ℝ).tryValue c.interpolator t ≠ .panic := by
  have hs : StrictlyIncreasing (([28 / 365, 210 / 365, 394 / 365] : List ℝ).zip exYields) := by
    unfold StrictlyIncreasing exYields; norm_num
  have h0 := C35_nodes _ hs (by simp [exYields]) 0 (28 / 365) 0.02 rfl
  have h1 := C35_nodes _ hs (by simp [exYields]) 1 (210 / 365) 0.0219 rfl
  obtain ⟨st, hf, hv0⟩ := evaluate_eq_ok h0
  obtain ⟨st', hf', hv1⟩ := evaluate_eq_ok h1
  rw [hf] at hf'
  obtain rfl : st = st' := Except.ok.inj (Rust.ok.inj hf')
  refine ⟨⟨exSettle, st⟩, (C44_fit _ _ exSettle exMaturities _ exYields rfl exFractions).1 st hf, rfl, hv0, hv1, fun t => ?_⟩
  have hd := C35_domain _ hs (by simp [exYields]) t
  have e : evaluate (Interpolator.linear ℝ) (([28 / 365, 210 / 365, 394 / 365] : List ℝ).zip exYields) t =
      (Interpolator.linear ℝ).tryValue st t := by unfold evaluate; rw [hf]; rfl
  rw [e] at hd
  intro hp
  rw [hp] at hd
  simp only [reduceCtorEq, imp_false, exists_false] at hd
  exact hd.2.2 hd.1 hd.2.1

/-- The theorems on rejected dates, errors and panics at the example curve. -/
example : ∃ c : YieldCurve ℝ (Interpolator.linear ℝ),
    (∃ e, c.discountFactor DayCount.act365 ⟨2024, 5, 7, by decide⟩ ⟨2023, 11, 7, by decide⟩ = .ok (.error e)) ∧
    (∃ e, c.discountFactor DayCount.act365 ⟨2023, 10, 9, by decide⟩ ⟨2023, 11, 7, by decide⟩ = .ok (.error e)) ∧
    (∃ msg, c.discountFactor DayCount.act365 ⟨2023, 10, 9, by decide⟩ ⟨2023, 11, 7, by decide⟩ =
      .ok (.error (invalidInput msg))) := by
  obtain ⟨c, -, hs, -⟩ := exCurve
  refine ⟨c, ⟨_, (C45_rejected _ c _ _).1 (by decide)⟩, ⟨_, (C45_rejected _ c _ _).2 (by decide) (by rw [hs]; decide)⟩,
    (C45_invalid_input_iff _ (.inr (.inl rfl)) c _ _).2 (.inr (.inl (by rw [hs]; decide)))⟩

/-- The example curve between its first two pillars. -/
example : ∃ (c : YieldCurve ℝ (Interpolator.linear ℝ)) (u v : ℝ),
    c.discountFactor DayCount.act365 c.settlementDate ⟨2023, 11, 7, by decide⟩ = .ok (.ok u) ∧
    c.discountFactor DayCount.act365 ⟨2023, 11, 7, by decide⟩ ⟨2024, 5, 7, by decide⟩ = .ok (.ok v) ∧
    c.discountFactor DayCount.act365 c.settlementDate ⟨2024, 5, 7, by decide⟩ = .ok (.ok (u * v)) ∧
    0 < u ∧ v ≤ 1 := by
  obtain ⟨c, -, hs, hv0, hv1, -⟩ := exCurve
  have h0 := C46_day_counts (D := DayCount.act365) (.inr (.inl rfl)) c.settlementDate
  have f0 : DayCount.act365 c.settlementDate ⟨2023, 11, 7, by decide⟩ = .ok (.ok (28 / 365 : ℝ)) := by
    rw [hs]; exact hasFractions_get exFractions (i := 0) (by decide) (by simp)
  have f1 : DayCount.act365 c.settlementDate ⟨2024, 5, 7, by decide⟩ = .ok (.ok (210 / 365 : ℝ)) := by
    rw [hs]; exact hasFractions_get exFractions (i := 1) (by decide) (by simp)
  have g0 := C46_formula DayCount.act365 c _ _ _ (by rw [hs]; decide) f0 hv0
  obtain ⟨v, hv⟩ : ∃ v, c.discountFactor DayCount.act365 ⟨2023, 11, 7, by decide⟩ ⟨2024, 5, 7, by decide⟩ = .ok (.ok v) :=
    ⟨_, (C45_value_iff _ c _ _ _).2 ⟨by rw [hs]; decide, by decide, _, _, f1, hv1,
      .inr ⟨by rw [hs]; decide, _, _, f0, hv0, rfl⟩⟩⟩
  refine ⟨c, _, v, g0, hv, C46_multiplicative _ c h0 _ _ _ _ _ g0 hv, C46_positive _ c _ _ _ g0,
    (C46_le_one_iff _ c h0 _ _ _ _ _ _ _ f0 hv0 f1 hv1 hv).2 (by norm_num)⟩

/-- From the first pillar to itself the factor is 1; before the first pillar, and from settlement to itself, the curve
has no yield. -/
example : ∃ c : YieldCurve ℝ (Interpolator.linear ℝ),
    (∀ v, c.discountFactor DayCount.act365 ⟨2023, 11, 7, by decide⟩ ⟨2023, 11, 7, by decide⟩ = .ok (.ok v) → v = 1) ∧
    c.discountFactor DayCount.act365 ⟨2023, 10, 20, by decide⟩ ⟨2023, 11, 7, by decide⟩ ≠ .panic ∧
    (c.discountFactor DayCount.act365 exSettle exSettle = .ok (.error interpolationError) ↔
      ∃ ie, (Interpolator.linear ℝ).tryValue c.interpolator 0 = .ok (.error ie)) := by
  obtain ⟨c, -, hs, -, -, hp⟩ := exCurve
  have h0 := C46_day_counts (D := DayCount.act365) (.inr (.inl rfl)) c.settlementDate
  refine ⟨c, fun v h => C46_unit _ c h0 _ v h, C45_no_panic _ c _ _ (fun d _ => (C18_act365_total (V := ℝ) c.settlementDate d rfl).1) hp, ?_⟩
  · rw [hs] at h0
    rw [C45_error_iff _ c _ _ (by rw [hs]) (le_refl _), hs, h0]
    simp

example := C47_linear (ys := exYields) rfl exFractions (by norm_num) (by decide) 1 (by decide) (by decide)

example := C47_natural_cubic (ys := exYields) rfl exFractions (by norm_num) (by decide) 2 (by decide) (by decide)

example := C60_catmull_rom_partial (ys := exYields) rfl exFractions (by norm_num) (by decide) 1 (by decide) (by decide)

end Examples

/-! ## C59 -/

/-- **C59.** Refuted: equal dates are documented as an error but accepted; wherever the curve is defined the result
is 1. -/
theorem C59_refuted : ∃ (ms : List Date) (ys : List ℝ) (s d : Date),
    curveDiscount DayCount.act365 (Interpolator.linear ℝ) s ms ys d d = .ok (.ok 1) := by
  refine ⟨exMaturities, exYields, exSettle, ⟨2023, 11, 8, by decide⟩, ?_⟩
  have hD : IsActual (DayCount.act365 (V := ℝ)) 365 := .inr ⟨rfl, rfl⟩
  have hc : Covers exMaturities ⟨2023, 11, 8, by decide⟩ := by unfold Covers exMaturities; decide
  obtain ⟨v, hv⟩ := (C58_domain hD (I := Interpolator.linear ℝ) (.inl ⟨rfl, rfl⟩) exSettle exMaturities exYields rfl
    exMaturities_increasing (by decide) ⟨2023, 11, 8, by decide⟩ ⟨2023, 11, 8, by decide⟩ (by decide)
    (le_refl _)).1 ⟨hc, .inr hc⟩
  rw [hv]
  unfold curveDiscount at hv
  match hnew : YieldCurve.new DayCount.act365 (Interpolator.linear ℝ) exSettle exMaturities exYields with
  | .panic => simp [hnew] at hv
  | .ok (.error e) => simp [hnew] at hv
  | .ok (.ok c) =>
    rw [hnew] at hv
    rw [C46_unit DayCount.act365 c (C46_day_counts (.inr (.inl rfl)) _) ⟨2023, 11, 8, by decide⟩ v hv]

/-- **C59.** Every strictly later first date is rejected with `InvalidInput`.  Missing for the full property: equal
dates. -/
theorem C59_strict_partial {V : Type} [Neg V] [Sub V] [Mul V] [HasExp V] {I : Interpolator V} (D : DayCount V)
    (c : YieldCurve V I) (d1 d2 : Date) (h : d2 < d1) :
    ∃ msg, c.discountFactor D d1 d2 = .ok (.error (invalidInput msg)) := ⟨_, (C45_rejected D c d1 d2).1 h⟩

example : (⟨2024, 1, 1, by decide⟩ : Date) < ⟨2024, 1, 2, by decide⟩ := by decide

/-! ## C54, curves -/

/-- The shipped day counts never return `InterpolationError`. -/
theorem shipped_not_interpolation {V : Type} [Div V] [FromInt V] {D : DayCount V} (hD : IsShippedDayCount D)
    (a b : Date) : D a b ≠ .ok (.error interpolationError) := by
  intro he
  rcases hD with rfl | rfl | ⟨oc, rfl⟩
  · simp only [DayCount.act360] at he
    split at he
    · simp [interpolationError, QLabError.ofCompute] at he
    · simp only [Rust.bind_eq_ok] at he
      obtain ⟨_, _, ha⟩ := he
      simp at ha
  · simp only [DayCount.act365] at he
    split at he
    · simp [interpolationError, QLabError.ofCompute] at he
    · simp only [Rust.bind_eq_ok] at he
      obtain ⟨_, _, ha⟩ := he
      simp at ha
  · simp only [DayCount.thirty360, Rust.bind_eq_ok] at he
    obtain ⟨r, hr, he⟩ := he
    match r, hr, he with
    | .error e, hr, he =>
      obtain ⟨msg, hm⟩ := (C19_thirty360_error oc a b).2 ((C19_thirty360_error oc a b).1.1 ⟨e, hr⟩)
      rw [hr] at hm
      simp only [Rust.ok.injEq, Except.error.injEq] at hm
      subst hm
      simp [interpolationError] at he
    | .ok n, _, he =>
      simp only at he
      split at he
      · simp [interpolationError, QLabError.ofCompute] at he
      · split at he <;> simp [interpolationError, QLabError.ofCompute] at he

/-- **C54.** Construction reports `InterpolationError` exactly when the interpolator refuses the points. -/
theorem C54_new_interpolation_iff {V : Type} [Div V] [FromInt V] (D : DayCount V) (hD : IsShippedDayCount D)
    (I : Interpolator V) (s : Date) (ms : List Date) (ys : List V) :
    YieldCurve.new D I s ms ys = .ok (.error interpolationError) ↔
      ms.length = ys.length ∧ ∃ ts, HasFractions D s ms ts ∧ ∃ e, I.tryFit I.default (ts.zip ys) = .ok (.error e) := by
  constructor
  · intro h
    by_cases hlen : ms.length = ys.length
    · refine ⟨hlen, ?_⟩
      rcases C44_exhaustive D s ms with ⟨ts, hts⟩ | ⟨pre, m, post, ts, rfl, hts, hp | ⟨e, he⟩⟩
      · refine ⟨ts, hts, ?_⟩
        have := C44_fit D I s ms ts ys hlen hts
        match hfit : I.tryFit I.default (ts.zip ys) with
        | .panic => rw [this.2.2 hfit] at h; cases h
        | .ok (.error e) => exact ⟨e, rfl⟩
        | .ok (.ok st) => rw [this.1 st hfit] at h; cases h
      · rw [(C44_first_failure D I s pre m post ts ys hlen hts).2 hp] at h; cases h
      · rw [(C44_first_failure D I s pre m post ts ys hlen hts).1 e he] at h
        simp only [Rust.ok.injEq, Except.error.injEq] at h
        subst h
        exact absurd he (shipped_not_interpolation hD s m)
    · rw [C44_length_mismatch D I s ms ys hlen] at h
      simp [invalidInput, interpolationError] at h
  · rintro ⟨hlen, ts, hts, e, he⟩
    exact (C44_fit D I s ms ts ys hlen hts).2.1 e he

/-- One quote is not enough for the natural spline. -/
example : YieldCurve.new DayCount.act365 (Interpolator.naturalCubic ℚ) exSettle [⟨2023, 11, 7, by decide⟩] [1] =
    .ok (.error interpolationError) :=
  (C54_new_interpolation_iff _ (.inr (.inl rfl)) _ _ _ _).2
    ⟨rfl, [28 / 365], .cons (by decide +kernel) .nil, _, rfl⟩

/-- **C54.** `discount_factor` reports `InterpolationError` exactly when the dates are accepted and the interpolator
fails at `d2`, or at `d1` after succeeding at `d2`. -/
theorem C54_discount_interpolation_iff {V : Type} [Neg V] [Sub V] [Mul V] [Div V] [HasExp V] [FromInt V]
    {I : Interpolator V} (D : DayCount V) (hD : IsShippedDayCount D) (c : YieldCurve V I) (d1 d2 : Date) :
    c.discountFactor D d1 d2 = .ok (.error interpolationError) ↔
      c.settlementDate ≤ d1 ∧ d1 ≤ d2 ∧ ∃ t2, D c.settlementDate d2 = .ok (.ok t2) ∧
        ((∃ e, I.tryValue c.interpolator t2 = .ok (.error e)) ∨
         (d1 ≠ c.settlementDate ∧ (∃ y, I.tryValue c.interpolator t2 = .ok (.ok y)) ∧
          ∃ t1 e, D c.settlementDate d1 = .ok (.ok t1) ∧ I.tryValue c.interpolator t1 = .ok (.error e))) := by
  by_cases h1 : d2 < d1
  · rw [(C45_rejected D c d1 d2).1 h1]
    simp [invalidInput, interpolationError, not_le.2 h1]
  by_cases h2 : d1 < c.settlementDate
  · rw [(C45_rejected D c d1 d2).2 (not_lt.1 h1) h2]
    simp [invalidInput, interpolationError, not_le.2 h2]
  rw [C45_error_iff D c d1 d2 (not_lt.1 h2) (not_lt.1 h1)]
  simp only [not_lt.1 h1, not_lt.1 h2, true_and, shipped_not_interpolation hD, false_or, and_true]
  refine exists_congr fun t2 => and_congr_right fun _ => or_congr_right ?_
  constructor
  · rintro ⟨y, hy, hne, t1, ht1, e, he⟩
    exact ⟨hne, ⟨y, hy⟩, t1, e, ht1, he⟩
  · rintro ⟨hne, ⟨y, hy⟩, t1, e, ht1, he⟩
    exact ⟨y, hy, hne, t1, ht1, e, he⟩

/-- **C54.** A day-count error at the first date reached is returned unchanged by both calls. -/
theorem C54_day_count_error {V : Type} [Neg V] [Sub V] [Mul V] [HasExp V] {I : Interpolator V} (D : DayCount V)
    (c : YieldCurve V I) (d1 d2 : Date) (hs : c.settlementDate ≤ d1) (hd : d1 ≤ d2) (e : QLabError)
    (h : D c.settlementDate d2 = .ok (.error e)) : c.discountFactor D d1 d2 = .ok (.error e) :=
  (C45_error_iff D c d1 d2 hs hd e).2 (.inl h)

/-- A day count of the user's own that fails after 2024. -/
example (I : Interpolator ℝ) (st : I.State) (e : QLabError) :
    (⟨exSettle, st⟩ : YieldCurve ℝ I).discountFactor
      (fun _ d => if d.year ≤ 2024 then .ok (.ok 1) else .ok (.error e)) ⟨2024, 5, 7, by decide⟩ ⟨2025, 5, 7, by decide⟩ =
    .ok (.error e) :=
  C54_day_count_error _ _ _ _ (show exSettle ≤ _ by decide) (by decide) e rfl

end Qlab.Props
