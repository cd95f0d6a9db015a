import Verif.Spec.Float
import Verif.Props.FloatLinear
import Verif.Props.YieldCurve

/-!
# Linear curves at two value types

The same maturities with the same yields at two value types: where both year fractions keep the order of the dates,
the interpolator takes the same branch and the discount factor succeeds or fails alike.
-/

namespace Qlab

open Spec Props

/-- Where a date lies among increasing dates. -/
theorem date_segment (ms : List Date) (h2 : 2 ≤ ms.length) (hms : ms.Pairwise (· < ·)) (d : Date) :
    (∀ m ∈ ms, d < m) ∨ (∀ m ∈ ms, m < d) ∨ ms[0]? = some d ∨
      ∃ i m₀ m₁, ms[i]? = some m₀ ∧ ms[i + 1]? = some m₁ ∧ m₀ < d ∧ d ≤ m₁ := by
  induction ms with
  | nil => simp at h2
  | cons a ms ih =>
    obtain ⟨ha, hms⟩ := List.pairwise_cons.1 hms
    rcases lt_trichotomy d a with h | h | h
    · left
      intro m hm
      rcases List.mem_cons.1 hm with rfl | hm
      · exact h
      · exact lt_trans h (ha m hm)
    · right; right; left; simp [h]
    · match ms, h2 with
      | [b], _ =>
        rcases le_or_gt d b with hb | hb
        · exact .inr (.inr (.inr ⟨0, a, b, rfl, rfl, h, hb⟩))
        · right; left
          intro m hm
          simp only [List.mem_cons, List.not_mem_nil, or_false] at hm
          rcases hm with rfl | rfl
          · exact h
          · exact hb
      | b :: c :: ms, _ =>
        rcases le_or_gt d b with hb | hb
        · exact .inr (.inr (.inr ⟨0, a, b, rfl, rfl, h, hb⟩))
        · rcases ih (by simp) hms with h' | h' | h' | ⟨i, m₀, m₁, e0, e1, h'⟩
          · exact absurd (h' b (by simp)) (not_lt.2 hb.le)
          · right; left
            intro m hm
            rcases List.mem_cons.1 hm with rfl | hm
            · exact h
            · exact h' m hm
          · simp only [List.getElem?_cons_zero, Option.some.injEq] at h'
            exact absurd h' hb.ne
          · exact .inr (.inr (.inr ⟨i + 1, m₀, m₁, by simpa using e0, by simpa using e1, h'⟩))

section
variable {V : Type} [LinearOrder V] [Add V] [Sub V] [Mul V] [Div V]

theorem linear_below (pts : List (V × V)) (hs : StrictlyIncreasing pts) (hne : pts ≠ []) (x : V)
    (hb : BelowAll pts x) : evaluate (Interpolator.linear V) pts x = .ok (.error (.outOfLowerBound x)) := by
  have hl := List.length_pos_of_ne_nil hne
  have hs' : (pts.map fun p => (⟨p.1, p.2⟩ : Point2D V)).Pairwise
      fun p q => (HasX.x p : V) ≤ HasX.x q := pairwise_map_point.2 (hs.imp le_of_lt)
  rw [evaluate_linear]
  unfold Linear.tryValue
  have := (C34_lower_iff _ hs' x x).2 ⟨rfl, by simpa using hl, by
    simp only [List.getElem_map]
    exact hb _ (List.getElem_mem (by omega))⟩
  simp only [this]

theorem linear_above (pts : List (V × V)) (hs : StrictlyIncreasing pts) (hne : pts ≠ []) (x : V)
    (ha : AboveAll pts x) : evaluate (Interpolator.linear V) pts x = .ok (.error (.outOfUpperBound x)) := by
  have hl := List.length_pos_of_ne_nil hne
  have hs' : (pts.map fun p => (⟨p.1, p.2⟩ : Point2D V)).Pairwise
      fun p q => (HasX.x p : V) ≤ HasX.x q := pairwise_map_point.2 (hs.imp le_of_lt)
  rw [evaluate_linear]
  unfold Linear.tryValue
  have := (C34_upper_iff _ hs' x x).2 ⟨rfl, by simpa using hl, by
    simp only [List.getElem_map]
    exact ha _ (List.getElem_mem (by simp; omega))⟩
  simp only [this]

variable (f : Date → V) (ms : List Date) (ys : List V) (d : Date)

/-- `f` keeps the order of `d` and the maturities. -/
def KeepsOrder (f : Date → V) (ms : List Date) (d : Date) : Prop :=
  ∀ a ∈ d :: ms, ∀ b ∈ d :: ms, a < b → f a < f b

variable {f ms ys d}

omit [Add V] [Sub V] [Mul V] [Div V] in
theorem KeepsOrder.increasing (hf : KeepsOrder f ms d) (hms : ms.Pairwise (· < ·)) :
    StrictlyIncreasing ((ms.map f).zip ys) := by
  unfold StrictlyIncreasing
  have h : (ms.map f).Pairwise (· < ·) := by
    rw [List.pairwise_map]
    exact hms.imp_of_mem fun ha hb h => hf _ (by simp [ha]) _ (by simp [hb]) h
  rw [List.pairwise_iff_getElem] at h ⊢
  intro i j hi hj hij
  simp only [List.length_zip, List.length_map, lt_min_iff] at hi hj
  have := h i j (by simpa using hi.1) (by simpa using hj.1) hij
  rwa [List.getElem_zip, List.getElem_zip]

omit [LinearOrder V] [Add V] [Sub V] [Mul V] [Div V] in
theorem zip_getElem? {i : Nat} {m : Date} {y : V} (hm : ms[i]? = some m) (hy : ys[i]? = some y) :
    ((ms.map f).zip ys)[i]? = some (f m, y) := by
  rw [List.getElem?_zip_eq_some]
  exact ⟨by simp [hm], hy⟩

theorem eval_below (hf : KeepsOrder f ms d) (hms : ms.Pairwise (· < ·)) (hlen : ms.length = ys.length)
    (h2 : 2 ≤ ms.length) (h : ∀ m ∈ ms, d < m) :
    evaluate (Interpolator.linear V) ((ms.map f).zip ys) (f d) = .ok (.error (.outOfLowerBound (f d))) := by
  refine linear_below _ (hf.increasing hms) ?_ _ ?_
  · intro e
    have := congrArg List.length e
    simp only [List.length_zip, List.length_map, List.length_nil] at this
    omega
  · intro p hp
    obtain ⟨m, hm, e⟩ := List.mem_map.1 (List.of_mem_zip hp).1
    rw [← e]
    exact hf _ (by simp) _ (by simp [hm]) (h m hm)

theorem eval_above (hf : KeepsOrder f ms d) (hms : ms.Pairwise (· < ·)) (hlen : ms.length = ys.length)
    (h2 : 2 ≤ ms.length) (h : ∀ m ∈ ms, m < d) :
    evaluate (Interpolator.linear V) ((ms.map f).zip ys) (f d) = .ok (.error (.outOfUpperBound (f d))) := by
  refine linear_above _ (hf.increasing hms) ?_ _ ?_
  · intro e
    have := congrArg List.length e
    simp only [List.length_zip, List.length_map, List.length_nil] at this
    omega
  · intro p hp
    obtain ⟨m, hm, e⟩ := List.mem_map.1 (List.of_mem_zip hp).1
    rw [← e]
    exact hf _ (by simp [hm]) _ (by simp) (h m hm)

theorem eval_inside (hf : KeepsOrder f ms d) (hms : ms.Pairwise (· < ·)) {i : Nat} {m₀ m₁ : Date} {y₀ y₁ : V}
    (h0 : ms[i]? = some m₀) (h1 : ms[i + 1]? = some m₁) (hy0 : ys[i]? = some y₀) (hy1 : ys[i + 1]? = some y₁)
    (hd0 : m₀ < d) (hd1 : d ≤ m₁) :
    evaluate (Interpolator.linear V) ((ms.map f).zip ys) (f d) =
      .ok (.ok (y₀ + (y₁ - y₀) / (f m₁ - f m₀) * (f d - f m₀))) := by
  have e0 := List.mem_of_getElem? h0
  have e1 := List.mem_of_getElem? h1
  refine linear_eval _ (hf.increasing hms) i _ _ _ _ _ ⟨zip_getElem? h0 hy0, zip_getElem? h1 hy1⟩
    (hf _ (by simp [e0]) _ (by simp) hd0) ?_
  rcases eq_or_lt_of_le hd1 with rfl | h
  · exact le_refl _
  · exact (hf _ (by simp) _ (by simp [e1]) h).le

theorem eval_first (hf : KeepsOrder f ms d) (hms : ms.Pairwise (· < ·)) {m₁ : Date} {y₀ y₁ : V}
    (h0 : ms[0]? = some d) (h1 : ms[1]? = some m₁) (hy0 : ys[0]? = some y₀) (hy1 : ys[1]? = some y₁) :
    evaluate (Interpolator.linear V) ((ms.map f).zip ys) (f d) =
      .ok (.ok (y₀ + (y₁ - y₀) / (f m₁ - f d) * (f d - f d))) := by
  match ms, ys, h0, h1, hy0, hy1 with
  | _ :: _ :: ms, _ :: _ :: ys, h0, h1, hy0, hy1 =>
    simp only [List.getElem?_cons_zero, List.getElem?_cons_succ, Option.some.injEq] at h0 h1 hy0 hy1
    subst h0 h1 hy0 hy1
    exact linear_eval_first _ _ _ _ _ (hf.increasing (ys := _ :: _ :: ys) hms)

end

/-- The curve the caller builds, and its interpolated yields. -/
theorem linear_curve {V : Type} [Neg V] [Add V] [Sub V] [Mul V] [Div V] [LT V] [DecidableLT V] [LE V] [DecidableLE V]
    [HasExp V] {D : DayCount V} {s : Date} {f : Date → V} (hD : ∀ d, D s d = .ok (.ok (f d))) (ms : List Date)
    (ys : List V) (hlen : ms.length = ys.length) :
    ∃ c : YieldCurve V (Interpolator.linear V), YieldCurve.new D (Interpolator.linear V) s ms ys = .ok (.ok c) ∧
      c.settlementDate = s ∧
      (∀ x, (Interpolator.linear V).tryValue c.interpolator x =
        evaluate (Interpolator.linear V) ((ms.map f).zip ys) x) := by
  have hfr : HasFractions D s ms (ms.map f) := by
    clear hlen
    induction ms with
    | nil => exact .nil
    | cons m ms ih => exact .cons (hD m) ih
  exact ⟨_, (C44_fit D (Interpolator.linear V) s ms _ ys hlen hfr).1 _ rfl, rfl, fun x => rfl⟩

/-- Two curves with the same settlement date whose interpolated yields exist at the same dates: their discount factors
fail with the same error or both exist, and then come from related yields. -/
theorem discount_sim {V W : Type} [Neg V] [Sub V] [Mul V] [HasExp V] [Neg W] [Sub W] [Mul W] [HasExp W]
    {I : Interpolator V} {J : Interpolator W} {D : DayCount V} {E : DayCount W} {c : YieldCurve V I}
    {c' : YieldCurve W J} {s : Date} (hc : c.settlementDate = s) (hc' : c'.settlementDate = s) {f : Date → V}
    {g : Date → W} (hD : ∀ d, D s d = .ok (.ok (f d))) (hE : ∀ d, E s d = .ok (.ok (g d))) {R : Date → V → W → Prop}
    (d1 d2 : Date)
    (h : ∀ d, d = d1 ∨ d = d2 → s ≤ d →
      (∃ y y', I.tryValue c.interpolator (f d) = .ok (.ok y) ∧ J.tryValue c'.interpolator (g d) = .ok (.ok y') ∧
        R d y y') ∨
      (∃ e e', I.tryValue c.interpolator (f d) = .ok (.error e) ∧ J.tryValue c'.interpolator (g d) = .ok (.error e'))) :
    (∃ e, c.discountFactor D d1 d2 = .ok (.error e) ∧ c'.discountFactor E d1 d2 = .ok (.error e)) ∨
    (s ≤ d1 ∧ d1 ≤ d2 ∧ ∃ y2 y2', R d2 y2 y2' ∧
      ((d1 = s ∧ c.discountFactor D d1 d2 = .ok (.ok (HasExp.exp (-(f d2) * y2))) ∧
        c'.discountFactor E d1 d2 = .ok (.ok (HasExp.exp (-(g d2) * y2')))) ∨
       (d1 ≠ s ∧ ∃ y1 y1', R d1 y1 y1' ∧
        c.discountFactor D d1 d2 = .ok (.ok (HasExp.exp (f d1 * y1 - f d2 * y2))) ∧
        c'.discountFactor E d1 d2 = .ok (.ok (HasExp.exp (g d1 * y1' - g d2 * y2')))))) := by
  subst hc
  unfold YieldCurve.discountFactor YieldCurve.yieldAt
  rw [hc']
  by_cases h1 : d2 < d1
  · exact .inl ⟨_, by rw [if_pos h1], by rw [if_pos h1]⟩
  rw [if_neg h1, if_neg h1]
  by_cases h2 : d1 < c.settlementDate ∨ d2 < c.settlementDate
  · exact .inl ⟨_, by rw [if_pos h2], by rw [if_pos h2]⟩
  rw [if_neg h2, if_neg h2]
  simp only [not_lt, not_or] at h1 h2
  simp only [hD, hE, Rust.ok_bind]
  rcases h d2 (.inr rfl) h2.2 with ⟨y2, y2', e2, e2', r2⟩ | ⟨e, e', e2, e2'⟩
  swap
  · exact .inl ⟨interpolationError, by simp only [e2, Rust.ok_bind]; rfl, by simp only [e2', Rust.ok_bind]; rfl⟩
  simp only [e2, e2', Rust.ok_bind]
  by_cases hs : d1 = c.settlementDate
  · exact .inr ⟨h2.1, h1, y2, y2', r2, .inl ⟨hs, by simp only [Rust.ok_bind, Rust.pure_eq, if_pos hs],
      by simp only [Rust.ok_bind, Rust.pure_eq, if_pos hs]⟩⟩
  rcases h d1 (.inl rfl) h2.1 with ⟨y1, y1', e1, e1', r1⟩ | ⟨e, e', e1, e1'⟩
  · exact .inr ⟨h2.1, h1, y2, y2', r2, .inr ⟨hs, y1, y1', r1,
      by simp only [Rust.ok_bind, Rust.pure_eq, if_neg hs, e1], by simp only [Rust.ok_bind, Rust.pure_eq, if_neg hs, e1']⟩⟩
  · exact .inl ⟨interpolationError, by simp only [Rust.ok_bind, Rust.pure_eq, if_neg hs, e1]; rfl,
      by simp only [Rust.ok_bind, Rust.pure_eq, if_neg hs, e1']; rfl⟩

end Qlab
