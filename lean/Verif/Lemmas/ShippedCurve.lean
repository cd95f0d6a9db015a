import Verif.Lemmas.LinearCurve
import Verif.Props.FloatSplines
import Verif.Props.FloatNodes

/-!
# Curves with any of the three interpolators at any ordered value type

On strictly increasing abscissae fitting succeeds, and evaluation succeeds in the range and fails outside it.
-/

namespace Qlab

open Spec Props NaturalCubic

section
variable {V : Type} [LinearOrder V] [Zero V] [One V] [Neg V] [Add V] [Sub V] [Mul V] [Div V] [FromInt V]

omit [Zero V] [One V] [Neg V] [Add V] [Sub V] [Mul V] [Div V] [FromInt V] in
theorem not_inRange {pts : List (V × V)} {x : V} (h : ¬ InRange pts x) : BelowAll pts x ∨ AboveAll pts x := by
  by_contra hc
  rw [not_or] at hc
  obtain ⟨h1, h2⟩ := hc
  simp only [BelowAll, AboveAll, not_forall, not_lt] at h1 h2
  obtain ⟨p, hp, h1⟩ := h1
  obtain ⟨q, hq, h2⟩ := h2
  exact h ⟨⟨p, hp, h1⟩, ⟨q, hq, h2⟩⟩

omit [Zero V] [One V] [Neg V] [Add V] [Sub V] [Mul V] [Div V] [FromInt V] in
/-- The search outside the range. -/
theorem findIndex_outside {P : Type} [HasX P V] {points : List P} (hne : 0 < points.length)
    (hs : points.Pairwise fun p q => (HasX.x p : V) < HasX.x q) {x : V}
    (h : (∀ p ∈ points, x < HasX.x p) ∨ ∀ p ∈ points, (HasX.x p : V) < x) :
    ∃ e, findIndexAtLeftBoundary points x = .error e := by
  have hs' := hs.imp fun h => le_of_lt h
  rcases h with h | h
  · exact ⟨_, findIndex_lower' hs' hne (h _ (List.getElem_mem _))⟩
  · exact ⟨_, findIndex_upper hs' hne (h _ (List.getElem_mem _))⟩

variable {I : Interpolator V} {n : Nat}

theorem shipped_length (hI : IsShippedInterpolator I n) : 2 ≤ n := by
  rcases hI with ⟨-, rfl⟩ | ⟨-, rfl⟩ | ⟨-, rfl⟩ <;> omega

theorem shipped_fit (hc : ∀ k : Int, (FromInt.fromInt (V := V) k).isSome) (hI : IsShippedInterpolator I n)
    {pts : List (V × V)} (hs : StrictlyIncreasing pts) (hn : n ≤ pts.length) :
    ∃ st, I.tryFit I.default pts = .ok (.ok st) := by
  rcases hI with ⟨rfl, rfl⟩ | ⟨rfl, rfl⟩ | ⟨rfl, rfl⟩
  · exact ⟨_, rfl⟩
  · obtain ⟨t, ht, -⟩ := (C39_catmull_rom lt_irrefl CatmullRom.default pts).2.2 hn (neverDecreasing_of_strict hs)
    exact ⟨t, ht⟩
  · obtain ⟨t, ht, -⟩ := (C39_natural_cubic lt_irrefl hc NaturalCubic.default pts).2.2 hn (neverDecreasing_of_strict hs)
    exact ⟨t, ht⟩

theorem shipped_outside (hc : ∀ k : Int, (FromInt.fromInt (V := V) k).isSome) (hI : IsShippedInterpolator I n)
    {pts : List (V × V)} (hs : StrictlyIncreasing pts) (hn : n ≤ pts.length) {x : V} (hx : ¬ InRange pts x) :
    ∃ e, evaluate I pts x = .ok (.error e) := by
  have hb := not_inRange hx
  have h2 := shipped_length hI
  rcases hI with ⟨rfl, rfl⟩ | ⟨rfl, rfl⟩ | ⟨rfl, rfl⟩
  · rcases hb with h | h
    · exact ⟨_, linear_below pts hs (by rintro rfl; simp at hn) x h⟩
    · exact ⟨_, linear_above pts hs (by rintro rfl; simp at hn) x h⟩
  · obtain ⟨t, ht, hp⟩ := (C39_catmull_rom lt_irrefl CatmullRom.default pts).2.2 hn (neverDecreasing_of_strict hs)
    have hl : t.points.length = pts.length := by rw [← hp]; simp
    obtain ⟨e, he⟩ := findIndex_outside (points := t.points) (x := x) (by omega)
      (by rw [← hp, StrictlyIncreasing, List.pairwise_map] at hs; exact hs) (by
        rw [← hp] at hb
        exact hb.imp (fun h p hq => h _ (List.mem_map_of_mem hq)) (fun h p hq => h _ (List.mem_map_of_mem hq)))
    refine ⟨e, ?_⟩
    have : evaluate (Interpolator.catmullRom V) pts x = t.tryValue x := by
      unfold evaluate Interpolator.catmullRom
      simp only [ht, Rust.ok_bind]
    rw [this]
    unfold CatmullRom.tryValue
    rw [he]
  · obtain ⟨t, ht, hp⟩ := (C39_natural_cubic lt_irrefl hc NaturalCubic.default pts).2.2 hn (neverDecreasing_of_strict hs)
    have hl : t.points.length = pts.length := by rw [← hp]; simp
    obtain ⟨e, he⟩ := findIndex_outside (points := t.points) (x := x) (by omega)
      (by rw [← hp, StrictlyIncreasing, List.pairwise_map] at hs; exact hs) (by
        rw [← hp] at hb
        exact hb.imp (fun h p hq => h _ (List.mem_map_of_mem hq)) (fun h p hq => h _ (List.mem_map_of_mem hq)))
    refine ⟨e, ?_⟩
    have : evaluate (Interpolator.naturalCubic V) pts x = t.tryValue x := by
      unfold evaluate Interpolator.naturalCubic
      simp only [ht, Rust.ok_bind]
    rw [this]
    unfold NaturalCubic.tryValue
    rw [he]

theorem shipped_inside (k : Int → V) (hk : ∀ m, FromInt.fromInt (V := V) m = some (k m))
    (hI : IsShippedInterpolator I n) {pts : List (V × V)} (hs : StrictlyIncreasing pts) (hn : n ≤ pts.length) {x : V}
    (hx : InRange pts x) : ∃ v, evaluate I pts x = .ok (.ok v) := by
  have h2 := shipped_length hI
  obtain ⟨i, hi, h0, h1⟩ := exists_index hs (by omega) hx
  rcases hI with ⟨rfl, rfl⟩ | ⟨rfl, rfl⟩ | ⟨rfl, rfl⟩
  · rcases h0 with h0 | ⟨rfl, h0⟩
    · exact ⟨_, linear_eval pts hs i _ _ _ _ x ⟨List.getElem?_eq_getElem (by omega), List.getElem?_eq_getElem hi⟩ h0 h1⟩
    · clear h1
      match pts, hs, hn, hi, h0 with
      | p :: q :: l, hs, hn, hi, h0 =>
        rw [← h0]
        exact ⟨_, linear_eval_first _ _ _ _ _ hs⟩
  · exact ⟨_, catmullRom_eval k hk hs hn hi h0 h1⟩
  · have hne : pts ≠ [] := by rintro rfl; simp at hn
    obtain ⟨n, p, hn', rfl⟩ := exists_tab pts hne
    simp only [length_tab, getElem_tab] at hi h0 h1 hn
    exact ⟨_, natural_eval k hk hn hs hi h0 h1⟩

end

/-- The curve the caller builds, and its interpolated yields. -/
theorem shipped_curve {V : Type} [Neg V] [Sub V] [Mul V] [HasExp V] {I : Interpolator V} {D : DayCount V} {s : Date}
    {f : Date → V} (hD : ∀ d, D s d = .ok (.ok (f d))) (ms : List Date) (ys : List V) (hlen : ms.length = ys.length)
    {st : I.State} (hst : I.tryFit I.default ((ms.map f).zip ys) = .ok (.ok st)) :
    ∃ c : YieldCurve V I, YieldCurve.new D I s ms ys = .ok (.ok c) ∧ c.settlementDate = s ∧
      (∀ x, I.tryValue c.interpolator x = evaluate I ((ms.map f).zip ys) x) := by
  have hfr : HasFractions D s ms (ms.map f) := by
    clear hlen hst
    induction ms with
    | nil => exact .nil
    | cons m ms ih => exact .cons (hD m) ih
  refine ⟨_, (C44_fit D I s ms _ ys hlen hfr).1 _ hst, rfl, fun x => ?_⟩
  unfold evaluate
  rw [hst]
  rfl

/-- A date is covered exactly when its year fraction is in the range. -/
theorem KeepsOrder.inRange {V : Type} [LinearOrder V] {f : Date → V} {ms : List Date} {d : Date} (hf : KeepsOrder f ms d)
    {ys : List V} (hlen : ms.length = ys.length) : InRange ((ms.map f).zip ys) (f d) ↔ Covers ms d := by
  have le_iff : ∀ a ∈ d :: ms, ∀ b ∈ d :: ms, (f a ≤ f b ↔ a ≤ b) := by
    intro a ha b hb
    constructor
    · intro h
      by_contra hn
      exact absurd h (not_le.2 (hf b hb a ha (not_le.1 hn)))
    · intro h
      rcases eq_or_lt_of_le h with rfl | h
      · exact le_refl _
      · exact (hf a ha b hb h).le
  have key : ∀ P : V → Prop, (∃ p ∈ (ms.map f).zip ys, P p.1) ↔ ∃ m ∈ ms, P (f m) := by
    intro P
    constructor
    · rintro ⟨p, hp, hP⟩
      obtain ⟨m, hm, he⟩ := List.mem_map.1 (List.of_mem_zip hp).1
      exact ⟨m, hm, he ▸ hP⟩
    · rintro ⟨m, hm, hP⟩
      obtain ⟨i, hi, rfl⟩ := List.getElem_of_mem hm
      refine ⟨(_, ys[i]), ?_, hP⟩
      rw [List.mem_iff_getElem]
      exact ⟨i, by simp; omega, by simp⟩
  unfold InRange Covers
  rw [key (fun z => z ≤ f d), key (fun z => f d ≤ z)]
  constructor
  · rintro ⟨⟨a, ha, h1⟩, ⟨b, hb, h2⟩⟩
    exact ⟨⟨a, ha, (le_iff _ (by simp [ha]) _ (by simp)).1 h1⟩, ⟨b, hb, (le_iff _ (by simp) _ (by simp [hb])).1 h2⟩⟩
  · rintro ⟨⟨a, ha, h1⟩, ⟨b, hb, h2⟩⟩
    exact ⟨⟨a, ha, (le_iff _ (by simp [ha]) _ (by simp)).2 h1⟩, ⟨b, hb, (le_iff _ (by simp) _ (by simp [hb])).2 h2⟩⟩

end Qlab
