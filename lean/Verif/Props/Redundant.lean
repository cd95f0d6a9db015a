import Verif.Props.Hermite
import Verif.Props.CurveShape
import Verif.Props.Mirror

/-!
# Points that are already on the curve (C131)
-/

namespace Qlab.Props

open Spec

section
variable {K : Type} [LinearOrder K] {W R : Type}

/-- A point put between two neighbours changes no value if the segments on its two sides are parts of the old one. -/
theorem insert_same (E : List (K × W) → K → R) (S : K × W → K × W → K → R)
    (hE : ∀ pts, StrictlyIncreasing pts → ∀ i (hi : i + 1 < pts.length), ∀ x, pts[i].1 ≤ x → x ≤ pts[i + 1].1 →
      E pts x = S pts[i] pts[i + 1] x) (l r : List (K × W)) (a q b : K × W)
    (hs : StrictlyIncreasing (l ++ a :: q :: b :: r)) (h1 : ∀ x, a.1 ≤ x → x ≤ q.1 → S a q x = S a b x)
    (h2 : ∀ x, q.1 ≤ x → x ≤ b.1 → S q b x = S a b x) (x : K) (hx : InRange (l ++ a :: b :: r) x) :
    E (l ++ a :: q :: b :: r) x = E (l ++ a :: b :: r) x := by
  have hs' : StrictlyIncreasing (l ++ a :: b :: r) :=
    hs.sublist (List.Sublist.append_left (List.Sublist.cons_cons _ (List.sublist_cons_self _ _)) _)
  obtain ⟨i, hi, h0, h3⟩ := exists_bracket_raw hs' (by simp; omega) hx
  rw [hE _ hs' i hi x h0 h3]
  have gl : ∀ j (hj : j ≤ l.length), (l ++ a :: q :: b :: r)[j]'(by simp; omega) =
      (l ++ a :: b :: r)[j]'(by simp; omega) := by
    intro j hj
    rcases hj.lt_or_eq with h | rfl
    · simp [List.getElem_append_left, h]
    · simp
  have gr : ∀ j (hj : l.length < j) (hj' : j < (l ++ a :: b :: r).length), (l ++ a :: q :: b :: r)[j + 1]'(by simp at hj' ⊢; omega) =
      (l ++ a :: b :: r)[j] := by
    intro j hj hj'
    obtain ⟨k, rfl⟩ : ∃ k, j = l.length + 1 + k := ⟨j - (l.length + 1), by omega⟩
    rw [List.getElem_append_right (by omega), List.getElem_append_right (by omega)]
    simp [show l.length + 1 + k + 1 - l.length = k + 2 by omega, show l.length + 1 + k - l.length = k + 1 by omega]
  have hi' := hi
  simp only [List.length_append, List.length_cons] at hi'
  rcases Nat.lt_trichotomy i l.length with h | h | h
  · have e0 := gl i (by omega)
    have e1 := gl (i + 1) (by omega)
    rw [hE _ hs i (by simp; omega) x (by rw [e0]; exact h0) (by rw [e1]; exact h3), e0, e1]
  · subst h
    have ea : (l ++ a :: b :: r)[l.length] = a := by simp
    have eb : (l ++ a :: b :: r)[l.length + 1] = b := by simp
    have fa : (l ++ a :: q :: b :: r)[l.length]'(by simp) = a := by simp
    have fq : (l ++ a :: q :: b :: r)[l.length + 1]'(by simp) = q := by simp
    have fb : (l ++ a :: q :: b :: r)[l.length + 1 + 1]'(by simp; omega) = b := by
      rw [List.getElem_append_right (by omega)]
      simp [show l.length + 1 + 1 - l.length = 2 by omega]
    rw [ea] at h0
    rw [eb] at h3
    rw [ea, eb]
    rcases le_total x q.1 with hq | hq
    · rw [hE _ hs l.length (by simp) x (by rw [fa]; exact h0) (by rw [fq]; exact hq), fa, fq, h1 x h0 hq]
    · rw [hE _ hs (l.length + 1) (by simp; omega) x (by rw [fq]; exact hq) (by rw [fb]; exact h3), fq, fb, h2 x hq h3]
  · have e0 := gr i h (by omega)
    have e1 := gr (i + 1) (by omega) hi
    rw [hE _ hs (i + 1) (by simp; omega) x (by rw [e0]; exact h0) (by rw [e1]; exact h3), e0, e1]

/-- A list is cut by a new point between its range into neighbours and the rest. -/
theorem cut_of_inRange {l r : List (K × W)} {q : K × W} (hs : StrictlyIncreasing (l ++ q :: r)) (hq : InRange (l ++ r) q.1) :
    ∃ l' a b r', l = l' ++ [a] ∧ r = b :: r' := by
  obtain ⟨⟨u, hu, hu'⟩, ⟨v, hv, hv'⟩⟩ := hq
  unfold StrictlyIncreasing at hs
  rw [List.pairwise_append, List.pairwise_cons] at hs
  obtain ⟨-, ⟨hr, -⟩, hlr⟩ := hs
  rcases List.eq_nil_or_concat l with rfl | ⟨l', a, rfl⟩
  · rw [List.nil_append] at hu
    exact absurd (hr u hu) (not_lt.2 hu')
  · rcases r with _ | ⟨b, r'⟩
    · rw [List.append_nil] at hv
      exact absurd (hlr v hv q (by simp)) (not_lt.2 hv')
    · exact ⟨l', a, b, r', by simp, rfl⟩

theorem inRange_or {pts : List (K × W)} (x : K) : BelowAll pts x ∨ AboveAll pts x ∨ InRange pts x := by
  by_cases h : BelowAll pts x
  · exact .inl h
  · by_cases h' : AboveAll pts x
    · exact .inr (.inl h')
    · unfold BelowAll at h
      unfold AboveAll at h'
      push Not at h h'
      exact .inr (.inr ⟨h, h'⟩)

/-- A point inside the range does not move the ends of the range. -/
theorem outside_insert {l r : List (K × W)} {q : K × W} (hq : InRange (l ++ r) q.1) (x : K) :
    (BelowAll (l ++ r) x → BelowAll (l ++ q :: r) x) ∧ (AboveAll (l ++ r) x → AboveAll (l ++ q :: r) x) := by
  obtain ⟨⟨u, hu, hu'⟩, ⟨v, hv, hv'⟩⟩ := hq
  constructor <;> intro h p hp
  · rcases List.mem_append.1 hp with h' | h'
    · exact h p (List.mem_append_left _ h')
    · rcases List.mem_cons.1 h' with rfl | h'
      · exact (h u hu).trans_le hu'
      · exact h p (List.mem_append_right _ h')
  · rcases List.mem_append.1 hp with h' | h'
    · exact h p (List.mem_append_left _ h')
    · rcases List.mem_cons.1 h' with rfl | h'
      · exact hv'.trans_lt (h v hv)
      · exact h p (List.mem_append_right _ h')

end

variable {K : Type} [Field K] [LinearOrder K]

/-- **C131.** Linear interpolation: a further point changes no outcome if and only if it lies on the curve. -/
theorem C131_linear (l r : List (K × K)) (q : K × K) (hs : StrictlyIncreasing (l ++ q :: r)) (h2 : 2 ≤ (l ++ r).length) :
    (∀ x, evaluate (Interpolator.linear K) (l ++ q :: r) x = evaluate (Interpolator.linear K) (l ++ r) x) ↔
      evaluate (Interpolator.linear K) (l ++ r) q.1 = .ok (.ok q.2) := by
  have h3 : 2 ≤ (l ++ q :: r).length := by simp at h2 ⊢; omega
  constructor
  · intro h
    rw [← h]
    exact C35_nodes _ hs h3 l.length _ _ (by simp)
  · intro h x
    have hs' : StrictlyIncreasing (l ++ r) := hs.sublist (List.Sublist.append_left (List.sublist_cons_self _ _) _)
    have hq : InRange (l ++ r) q.1 := by
      rcases inRange_or (pts := l ++ r) q.1 with hb | ha | hi
      · rw [(C35_domain _ hs' h2 _).1 hb] at h; simp at h
      · rw [(C35_domain _ hs' h2 _).2.1 ha] at h; simp at h
      · exact hi
    rcases inRange_or (pts := l ++ r) x with hb | ha | hi
    · rw [(C35_domain _ hs' h2 _).1 hb, (C35_domain _ hs h3 _).1 ((outside_insert hq x).1 hb)]
    · rw [(C35_domain _ hs' h2 _).2.1 ha, (C35_domain _ hs h3 _).2.1 ((outside_insert hq x).2 ha)]
    · obtain ⟨l', a, b, r', rfl, rfl⟩ := cut_of_inRange hs hq
      simp only [List.append_assoc, List.singleton_append] at hs hs' h hi ⊢
      have hE : ∀ pts : List (K × K), StrictlyIncreasing pts → ∀ i (hi : i + 1 < pts.length), ∀ x, pts[i].1 ≤ x →
          x ≤ pts[i + 1].1 → evaluate (Interpolator.linear K) pts x = .ok (.ok (pts[i].2 +
            (pts[i + 1].2 - pts[i].2) / (pts[i + 1].1 - pts[i].1) * (x - pts[i].1))) := fun pts hs i hi x h0 h1 =>
        (linear_segment pts hs i _ _ _ _ x ⟨List.getElem?_eq_getElem (by omega), List.getElem?_eq_getElem hi⟩ h0 h1).2
      have pw := hs
      unfold StrictlyIncreasing at pw
      simp only [List.pairwise_append, List.pairwise_cons, List.mem_cons, forall_eq_or_imp] at pw
      have haq : a.1 < q.1 := pw.2.1.1.1
      have hqb : q.1 < b.1 := pw.2.1.2.1.1
      have hv := hE _ hs' l'.length (by simp) q.1 (by simpa using haq.le) (by simpa using hqb.le)
      rw [h] at hv
      simp only [Rust.ok.injEq, Except.ok.injEq] at hv
      have ea : (l' ++ a :: b :: r')[l'.length]'(by simp) = a := by simp
      have eb : (l' ++ a :: b :: r')[l'.length + 1]'(by simp) = b := by simp
      rw [ea, eb] at hv
      have n1 : q.1 - a.1 ≠ 0 := sub_ne_zero.2 haq.ne'
      have n2 : b.1 - q.1 ≠ 0 := sub_ne_zero.2 hqb.ne'
      have n3 : b.1 - a.1 ≠ 0 := sub_ne_zero.2 (haq.trans hqb).ne'
      refine insert_same (evaluate (Interpolator.linear K))
        (fun p p' x => .ok (.ok (p.2 + (p'.2 - p.2) / (p'.1 - p.1) * (x - p.1)))) hE l' r' a q b hs ?_ ?_ x hi
      · intro x _ _
        simp only [Rust.ok.injEq, Except.ok.injEq]
        rw [hv]
        field_simp
        ring
      · intro x _ _
        simp only [Rust.ok.injEq, Except.ok.injEq]
        rw [hv]
        field_simp
        ring

/-- The point (2, 4) lies on the line from (1, 2) to (3, 6). -/
example (x : ℚ) : evaluate (Interpolator.linear ℚ) [(1, 2), (2, 4), (3, 6), (4, 0)] x =
    evaluate (Interpolator.linear ℚ) [(1, 2), (3, 6), (4, 0)] x :=
  (C131_linear [(1, 2)] [(3, 6), (4, 0)] (2, 4) (by unfold StrictlyIncreasing; decide +kernel) (by decide)).2
    (by decide +kernel) x

/-- **C131.** Hermite spline: a further point with a slope changes no outcome if and only if the curve already passes
through it with that slope. -/
theorem C131_hermite (l r : List (ℝ × ℝ × ℝ)) (q : ℝ × ℝ × ℝ) (hs : StrictlyIncreasing (l ++ q :: r))
    (h2 : 2 ≤ (l ++ r).length) :
    (∀ x, evaluateHermite (l ++ q :: r) x = evaluateHermite (l ++ r) x) ↔
      InRange (l ++ r) q.1 ∧ ∃ f : ℝ → ℝ, (∀ x, InRange (l ++ r) x → evaluateHermite (l ++ r) x = .ok (.ok (f x))) ∧
        f q.1 = q.2.1 ∧ HasDerivWithinAt f q.2.2 {z | InRange (l ++ r) z} q.1 := by
  have h3 : 2 ≤ (l ++ q :: r).length := by simp at h2 ⊢; omega
  have hs' : StrictlyIncreasing (l ++ r) := hs.sublist (List.Sublist.append_left (List.sublist_cons_self _ _) _)
  constructor
  · intro h
    have hv := C37_nodes _ hs h3 q.1 q.2.1 q.2.2 (by simp)
    rw [h] at hv
    have hq : InRange (l ++ r) q.1 := by
      rcases inRange_or (pts := l ++ r) q.1 with hb | ha | hi
      · rw [(C37_domain _ hs' h2 _).1 hb] at hv; simp at hv
      · rw [(C37_domain _ hs' h2 _).2.1 ha] at hv; simp at hv
      · exact hi
    have sub : ∀ z, InRange (l ++ r) z → InRange (l ++ q :: r) z := by
      rintro z ⟨⟨u, hu, hu'⟩, ⟨v, hv, hv'⟩⟩
      have mem : ∀ w ∈ l ++ r, w ∈ l ++ q :: r := fun w hw =>
        (List.Sublist.append_left (List.sublist_cons_self q r) l).mem hw
      exact ⟨⟨u, mem u hu, hu'⟩, ⟨v, mem v hv, hv'⟩⟩
    obtain ⟨f, f1, f2, -⟩ := C37_slopes _ hs h3
    obtain ⟨e1, e2⟩ := f2 q.1 q.2.1 q.2.2 (by simp)
    exact ⟨hq, f, fun x hx => by rw [← h]; exact f1 x (sub x hx), e1, e2.mono sub⟩
  · rintro ⟨hq, f, hf, hy, hm⟩ x
    rcases inRange_or (pts := l ++ r) x with hb | ha | hi
    · rw [(C37_domain _ hs' h2 _).1 hb, (C37_domain _ hs h3 _).1 ((outside_insert hq x).1 hb)]
    · rw [(C37_domain _ hs' h2 _).2.1 ha, (C37_domain _ hs h3 _).2.1 ((outside_insert hq x).2 ha)]
    · obtain ⟨l', a, b, r', rfl, rfl⟩ := cut_of_inRange hs hq
      simp only [List.append_assoc, List.singleton_append] at hs hs' hf hi hm ⊢
      have hE : ∀ pts : List (ℝ × ℝ × ℝ), StrictlyIncreasing pts → ∀ i (hi : i + 1 < pts.length), ∀ x, pts[i].1 ≤ x →
          x ≤ pts[i + 1].1 → evaluateHermite pts x = .ok (.ok (hermiteCubic pts[i].1 pts[i].2.1 pts[i].2.2
            pts[i + 1].1 pts[i + 1].2.1 pts[i + 1].2.2 x)) := fun pts hs i hi x h0 h1 => hermite_segment hs hi h0 h1
      have pw := hs
      unfold StrictlyIncreasing at pw
      simp only [List.pairwise_append, List.pairwise_cons, List.mem_cons, forall_eq_or_imp] at pw
      have haq : a.1 < q.1 := pw.2.1.1.1
      have hqb : q.1 < b.1 := pw.2.1.2.1.1
      have hab := haq.trans hqb
      have ea : (l' ++ a :: b :: r')[l'.length]'(by simp) = a := by simp
      have eb : (l' ++ a :: b :: r')[l'.length + 1]'(by simp) = b := by simp
      have sub : Set.Icc a.1 b.1 ⊆ {z | InRange (l' ++ a :: b :: r') z} := fun z hz =>
        ⟨⟨a, by simp, hz.1⟩, ⟨b, by simp, hz.2⟩⟩
      have hv : ∀ z ∈ Set.Icc a.1 b.1, f z = hermiteCubic a.1 a.2.1 a.2.2 b.1 b.2.1 b.2.2 z := by
        intro z hz
        have h4 := hE _ hs' l'.length (by simp) z (by rw [ea]; exact hz.1) (by rw [eb]; exact hz.2)
        rw [hf z (sub hz), ea, eb] at h4
        simpa only [Rust.ok.injEq, Except.ok.injEq] using h4
      have hqi : q.1 ∈ Set.Icc a.1 b.1 := ⟨haq.le, hqb.le⟩
      have hd := ((hermiteCubic_hasDerivAt a.1 a.2.1 a.2.2 b.1 b.2.1 b.2.2 q.1).hasDerivWithinAt
        (s := Set.Icc a.1 b.1)).congr hv (hv _ hqi)
      have em := (uniqueDiffOn_Icc hab _ hqi).eq_deriv _ (hm.mono sub) hd
      rw [hv _ hqi] at hy
      have n1 : q.1 - a.1 ≠ 0 := sub_ne_zero.2 haq.ne'
      have n2 : b.1 - q.1 ≠ 0 := sub_ne_zero.2 hqb.ne'
      have n3 : b.1 - a.1 ≠ 0 := sub_ne_zero.2 hab.ne'
      refine insert_same evaluateHermite
        (fun p p' x => .ok (.ok (hermiteCubic p.1 p.2.1 p.2.2 p'.1 p'.2.1 p'.2.2 x))) hE l' r' a q b hs ?_ ?_ x hi
      · intro x _ _
        simp only [Rust.ok.injEq, Except.ok.injEq]
        rw [em, ← hy]
        simp only [hermiteCubic]
        field_simp
        ring
      · intro x _ _
        simp only [Rust.ok.injEq, Except.ok.injEq]
        rw [em, ← hy]
        simp only [hermiteCubic]
        field_simp
        ring

/-- Three nodes of `x³ - x`; the point at 1/2 lies on it. -/
example (x : ℝ) : evaluateHermite ([(0, 0, -1), (1 / 2, -3 / 8, -1 / 4), (1, 0, 2)] : List (ℝ × ℝ × ℝ)) x =
    evaluateHermite ([(0, 0, -1), (1, 0, 2)] : List (ℝ × ℝ × ℝ)) x := by
  have hs : StrictlyIncreasing ([(0, 0, -1), (1, 0, 2)] : List (ℝ × ℝ × ℝ)) := by unfold StrictlyIncreasing; norm_num
  refine (C131_hermite [(0, 0, -1)] [(1, 0, 2)] (1 / 2, -3 / 8, -1 / 4) (by unfold StrictlyIncreasing; norm_num)
    (by simp)).2 ⟨by unfold InRange; norm_num, fun x => x ^ 3 - x, fun x hx => ?_, by norm_num, ?_⟩ x
  · refine (C37_cubics _ hs (by simp) 1 0 (-1) 0 (by simp; norm_num) x hx).trans ?_
    congr 2
    ring
  · refine (((hasDerivAt_pow 3 _).sub (hasDerivAt_id _)).congr_deriv ?_).hasDerivWithinAt
    norm_num

/-- What a curve with linear interpolation returns depends on the interpolated yields only. -/
theorem curveDiscount_congr {D : DayCount ℝ} {N : ℝ} (hD : IsActual D N) {s : Date} {ms ms' : List Date} {ys ys' : List ℝ}
    (hl : ms.length = ys.length) (hl' : ms'.length = ys'.length)
    (h : ∀ t, evaluate (Interpolator.linear ℝ) ((ms.map fun m => (Date.sub m s : ℝ) / N).zip ys) t =
      evaluate (Interpolator.linear ℝ) ((ms'.map fun m => (Date.sub m s : ℝ) / N).zip ys') t) (d1 d2 : Date) :
    curveDiscount D (Interpolator.linear ℝ) s ms ys d1 d2 = curveDiscount D (Interpolator.linear ℝ) s ms' ys' d1 d2 := by
  obtain ⟨st, e⟩ := (C36_panic_iff_partial ((ms.map fun m => (Date.sub m s : ℝ) / N).zip ys) 0).1
  obtain ⟨st', e'⟩ := (C36_panic_iff_partial ((ms'.map fun m => (Date.sub m s : ℝ) / N).zip ys') 0).1
  have hv : ∀ t, (Interpolator.linear ℝ).tryValue st t = (Interpolator.linear ℝ).tryValue st' t := by
    intro t
    have := h t
    unfold evaluate at this
    rw [e, e'] at this
    exact this
  unfold curveDiscount
  rw [(C44_fit D _ s ms _ ys hl (isActual_fractions hD s ms)).1 st e,
    (C44_fit D _ s ms' _ ys' hl' (isActual_fractions hD s ms')).1 st' e']
  simp only [Rust.ok_bind, YieldCurve.discountFactor, YieldCurve.yieldAt, hv]

/-- **C131.** A yield curve with linear interpolation: a further quote changes no discount factor and no error if and
only if the curve already gives its discount factor. -/
theorem C131_curve {D : DayCount ℝ} {N : ℝ} (hD : IsActual D N) (s : Date) (ms ms' : List Date) (m : Date) (ys ys' : List ℝ)
    (y : ℝ) (hl : ms.length = ys.length) (hl' : ms'.length = ys'.length) (hm : (ms ++ m :: ms').Pairwise (· < ·))
    (h2 : 2 ≤ (ms ++ ms').length) (hsm : s < m) :
    (∀ d1 d2, curveDiscount D (Interpolator.linear ℝ) s (ms ++ m :: ms') (ys ++ y :: ys') d1 d2 =
        curveDiscount D (Interpolator.linear ℝ) s (ms ++ ms') (ys ++ ys') d1 d2) ↔
      curveDiscount D (Interpolator.linear ℝ) s (ms ++ ms') (ys ++ ys') s m =
        .ok (.ok (Real.exp (-((Date.sub m s : ℝ) / N * y)))) := by
  have hlen : (ms ++ ms').length = (ys ++ ys').length := by simp [hl, hl']
  have hlen' : (ms ++ m :: ms').length = (ys ++ y :: ys').length := by simp [hl, hl']
  have hm' : (ms ++ ms').Pairwise (· < ·) := hm.sublist (List.Sublist.append_left (List.sublist_cons_self _ _) _)
  constructor
  · intro h
    rw [← h]
    have := C47_dates hD (.inl ⟨rfl, rfl⟩) s (ms ++ m :: ms') (ys ++ y :: ys') hlen' hm (by simp at h2 ⊢; omega) ms.length
      (by simp) (by simpa using le_of_lt hsm)
    simpa [hl] using this
  · intro h
    refine curveDiscount_congr hD hlen' hlen ?_
    have e : ((ms ++ ms').map fun m => (Date.sub m s : ℝ) / N).zip (ys ++ ys') =
        ((ms.map fun m => (Date.sub m s : ℝ) / N).zip ys) ++ ((ms'.map fun m => (Date.sub m s : ℝ) / N).zip ys') := by
      rw [List.map_append, List.zip_append (by simpa using hl)]
    have e' : ((ms ++ m :: ms').map fun m => (Date.sub m s : ℝ) / N).zip (ys ++ y :: ys') =
        ((ms.map fun m => (Date.sub m s : ℝ) / N).zip ys) ++
          ((Date.sub m s : ℝ) / N, y) :: ((ms'.map fun m => (Date.sub m s : ℝ) / N).zip ys') := by
      rw [List.map_append, List.zip_append (by simpa using hl)]
      rfl
    rw [e, e']
    refine (C131_linear _ _ _ (e' ▸ strictlyIncreasing_zip (isActual_increasing hD s hm) _) ?_).2 ?_
    · rw [← e]
      simp at h2 ⊢
      omega
    · rw [← e]
      obtain ⟨-, -, y2, hy, z, hz, hz'⟩ := (curveDiscount_form hD (.inl ⟨rfl, rfl⟩) hlen hm' h2).1 h
      obtain ⟨-, rfl⟩ : _ ∧ z = 0 := hz'.resolve_right fun h => h.1 rfl
      rw [zero_sub, Real.exp_eq_exp, neg_inj] at hz
      have ht : (Date.sub m s : ℝ) / N ≠ 0 := by
        have := (isActual_lt hD s s m).2 hsm
        have h0 : Date.sub s s = 0 := by rw [C04_sub_serial]; omega
        rw [h0] at this
        simp at this
        exact ne_of_gt this
      rw [mul_left_cancel₀ ht hz]
      exact hy

/-- Yields of 2% after 100 days and 4% after 300 days, and a further quote of 3% after 200 days. -/
example (d1 d2 : Date) :
    curveDiscount DayCount.act365 (Interpolator.linear ℝ) ⟨2023, 1, 1, by decide⟩
      [⟨2023, 4, 11, by decide⟩, ⟨2023, 7, 20, by decide⟩, ⟨2023, 10, 28, by decide⟩] [0.02, 0.03, 0.04] d1 d2 =
    curveDiscount DayCount.act365 (Interpolator.linear ℝ) ⟨2023, 1, 1, by decide⟩
      [⟨2023, 4, 11, by decide⟩, ⟨2023, 10, 28, by decide⟩] [0.02, 0.04] d1 d2 := by
  have e1 : Date.sub ⟨2023, 4, 11, by decide⟩ ⟨2023, 1, 1, by decide⟩ = 100 := by decide +kernel
  have e2 : Date.sub ⟨2023, 7, 20, by decide⟩ ⟨2023, 1, 1, by decide⟩ = 200 := by decide +kernel
  have e3 : Date.sub ⟨2023, 10, 28, by decide⟩ ⟨2023, 1, 1, by decide⟩ = 300 := by decide +kernel
  refine (C131_curve (N := 365) (.inr ⟨rfl, rfl⟩) ⟨2023, 1, 1, by decide⟩ [⟨2023, 4, 11, by decide⟩]
    [⟨2023, 10, 28, by decide⟩] ⟨2023, 7, 20, by decide⟩ [0.02] [0.04] 0.03 rfl rfl (by decide) (by simp) (by decide)).2 ?_
    d1 d2
  refine (curveDiscount_form (N := 365) (.inr ⟨rfl, rfl⟩) (.inl ⟨rfl, rfl⟩) rfl (by decide) (by simp)).2
    ⟨by decide, by decide, 0.03, ?_, 0, by rw [zero_sub], .inl ⟨rfl, rfl⟩⟩
  simp only [pillars, List.singleton_append, List.map_cons, List.map_nil, List.zip_cons_cons, List.zip_nil_right, e1, e2, e3]
  rw [(linear_segment _ (by unfold StrictlyIncreasing; norm_num) 0 _ _ _ _ _ ⟨rfl, rfl⟩ (by norm_num) (by norm_num)).2]
  norm_num

/-- **C131.** Natural cubic spline: a further point on the curve changes no value if both curves have a slope at all
their inner points.  Missing for the full property: data for which a curve has a kink, see C41. -/
theorem C131_natural_cubic_partial (l r : List (ℝ × ℝ)) (q : ℝ × ℝ) (hs : StrictlyIncreasing (l ++ q :: r))
    (h3 : 3 ≤ (l ++ r).length) (hd : Smooth (l ++ r)) (hd' : Smooth (l ++ q :: r))
    (hq : evaluate (Interpolator.naturalCubic ℝ) (l ++ r) q.1 = .ok (.ok q.2)) (x : ℝ) :
    evaluate (Interpolator.naturalCubic ℝ) (l ++ q :: r) x = evaluate (Interpolator.naturalCubic ℝ) (l ++ r) x := by
  have h4 : 3 ≤ (l ++ q :: r).length := by simp at h3 ⊢; omega
  have hs' : StrictlyIncreasing (l ++ r) := hs.sublist (List.Sublist.append_left (List.sublist_cons_self _ _) _)
  have hqr : InRange (l ++ r) q.1 := by
    rcases inRange_or (pts := l ++ r) q.1 with hb | ha | hi
    · rw [(C40_domain _ hs' h3 _).1 hb] at hq; simp at hq
    · rw [(C40_domain _ hs' h3 _).2.1 ha] at hq; simp at hq
    · exact hi
  rcases inRange_or (pts := l ++ r) x with hb | ha | hi
  · rw [(C40_domain _ hs' h3 _).1 hb, (C40_domain _ hs h4 _).1 ((outside_insert hqr x).1 hb)]
  · rw [(C40_domain _ hs' h3 _).2.1 ha, (C40_domain _ hs h4 _).2.1 ((outside_insert hqr x).2 ha)]
  have mem : ∀ w ∈ l ++ r, w ∈ l ++ q :: r := fun w hw =>
    (List.Sublist.append_left (List.sublist_cons_self q r) l).mem hw
  have through : ∀ (l : List (ℝ × ℝ)), StrictlyIncreasing l → 3 ≤ l.length → ∀ q ∈ l, naturalCurve l q.1 = q.2 := by
    intro l h1 h2 q hq
    simp only [naturalCurve, C40_nodes l h1 h2 q.1 q.2 hq]
  have first : (l ++ q :: r)[0].1 = (l ++ r)[0].1 := by
    obtain ⟨l', a, b, r', rfl, rfl⟩ := cut_of_inRange hs hqr
    rcases l' with _ | ⟨c, l'⟩ <;> simp
  have last : (l ++ q :: r)[(l ++ q :: r).length - 1].1 = (l ++ r)[(l ++ r).length - 1].1 := by
    obtain ⟨l', a, b, r', rfl, rfl⟩ := cut_of_inRange hs hqr
    rw [List.getElem_length_sub_one_eq_getLast, List.getElem_length_sub_one_eq_getLast]
    simp
  obtain ⟨B, hB, least⟩ := C128_least_partial (l ++ r) hs' h3 hd
  obtain ⟨C, hC, least'⟩ := C128_least_partial (l ++ q :: r) hs h4 hd'
  have h1 := least' (naturalCurve (l ++ r)) B (fun p hp => by
    rcases List.mem_append.1 hp with h | h
    · exact through _ hs' h3 p (List.mem_append_left _ h)
    · rcases List.mem_cons.1 h with rfl | h
      · simp only [naturalCurve, hq]
      · exact through _ hs' h3 p (List.mem_append_right _ h)) (by rw [first, last]; exact hB)
  have h2 := least (naturalCurve (l ++ q :: r)) C (fun p hp => through _ hs h4 p (mem p hp)) (by
    rw [first, last] at hC; exact hC)
  have e := h2.2 (le_antisymm h2.1 h1.1) x hi
  have hi' : InRange (l ++ q :: r) x := by
    obtain ⟨⟨u, hu, hu'⟩, ⟨v, hv, hv'⟩⟩ := hi
    exact ⟨⟨u, mem u hu, hu'⟩, ⟨v, mem v hv, hv'⟩⟩
  obtain ⟨v, hv⟩ := (C40_domain _ hs' h3 x).2.2 hi
  obtain ⟨w, hw⟩ := (C40_domain _ hs h4 x).2.2 hi'
  simp only [naturalCurve, hv, hw] at e
  rw [hv, hw, e]

/-- Without curvature at the last but one point the curve has a slope at all inner points. -/
theorem smooth_of_curvature {n : Nat} {p : Nat → ℝ × ℝ} (hn : 4 ≤ n) (hs : StrictlyIncreasing (tab n p))
    (h : NaturalCubic.curvature n p (n - 2) = 0) : Smooth (tab n p) := by
  intro i h0 hi
  obtain ⟨j, rfl⟩ : ∃ j, i = j + 1 := ⟨i - 1, by omega⟩
  simp only [length_tab] at hi
  rw [getElem_tab, naturalCurve_differentiable (by omega) hs hi, NaturalCubic.kink_eq hn hs hi, h]
  simp

/-- Four points and a fifth one on their curve. -/
example (x : ℝ) : evaluate (Interpolator.naturalCubic ℝ) [(0, 4), (1 / 2, 13 / 8), (1, 0), (2, 0), (3, 1)] x =
    evaluate (Interpolator.naturalCubic ℝ) [(0, 4), (1, 0), (2, 0), (3, 1)] x := by
  let p : Nat → ℝ × ℝ := fun i => if i = 0 then (0, 4) else if i = 1 then (1, 0) else if i = 2 then (2, 0) else (3, 1)
  let p' : Nat → ℝ × ℝ := fun i => if i = 0 then (0, 4) else if i = 1 then (1 / 2, 13 / 8) else if i = 2 then (1, 0)
    else if i = 3 then (2, 0) else (3, 1)
  have e : tab 4 p = [(0, 4), (1, 0), (2, 0), (3, 1)] := by simp [tab, p, List.range_succ]
  have e' : tab 5 p' = [(0, 4), (1 / 2, 13 / 8), (1, 0), (2, 0), (3, 1)] := by
    simp [tab, p', List.range_succ]
  have hs : StrictlyIncreasing [((0 : ℝ), (4 : ℝ)), (1, 0), (2, 0), (3, 1)] := by unfold StrictlyIncreasing; norm_num
  have hs' : StrictlyIncreasing [((0 : ℝ), (4 : ℝ)), (1 / 2, 13 / 8), (1, 0), (2, 0), (3, 1)] := by
    unfold StrictlyIncreasing; norm_num
  refine C131_natural_cubic_partial [(0, 4)] [(1, 0), (2, 0), (3, 1)] (1 / 2, 13 / 8) hs' (by simp) ?_ ?_ ?_ x
  · show Smooth [(0, 4), (1, 0), (2, 0), (3, 1)]
    rw [← e] at hs ⊢
    refine smooth_of_curvature (by omega) hs ?_
    rw [show 4 - 2 = 1 + 1 from rfl, NaturalCubic.curvature_succ p (by omega)]
    simp [NaturalCubic.solved, TridiagonalMatrix.sweepX, TridiagonalMatrix.sweepY, TridiagonalMatrix.sweepC,
      NaturalCubic.bSide, NaturalCubic.bMain, NaturalCubic.rhs, NaturalCubic.gap, NaturalCubic.cMain,
      NaturalCubic.cSide, NaturalCubic.mEnd, NaturalCubic.recip, TridiagonalMatrix.rowProduct, p]
    norm_num
  · show Smooth [(0, 4), (1 / 2, 13 / 8), (1, 0), (2, 0), (3, 1)]
    rw [← e'] at hs' ⊢
    refine smooth_of_curvature (by omega) hs' ?_
    rw [show 5 - 2 = 2 + 1 from rfl, NaturalCubic.curvature_succ p' (by omega)]
    simp [NaturalCubic.solved, TridiagonalMatrix.sweepX, TridiagonalMatrix.sweepY, TridiagonalMatrix.sweepC,
      NaturalCubic.bSide, NaturalCubic.bMain, NaturalCubic.rhs, NaturalCubic.gap, NaturalCubic.cMain,
      NaturalCubic.cSide, NaturalCubic.mEnd, NaturalCubic.recip, TridiagonalMatrix.rowProduct, p']
    norm_num
  · show evaluate (Interpolator.naturalCubic ℝ) [(0, 4), (1, 0), (2, 0), (3, 1)] (1 / 2) = .ok (.ok (13 / 8))
    rw [← e] at hs ⊢
    rw [NaturalCubic.segment (by omega) hs (show 0 + 1 < 4 by omega) (by norm_num [p]) (by norm_num [p])]
    rw [NaturalCubic.curvature_zero, NaturalCubic.curvature_succ p (by omega)]
    simp [NaturalCubic.solved, TridiagonalMatrix.sweepX, TridiagonalMatrix.sweepY, 
      NaturalCubic.bMain, NaturalCubic.rhs, NaturalCubic.gap, NaturalCubic.cMain, NaturalCubic.cubic,
      NaturalCubic.cSide, NaturalCubic.mEnd, NaturalCubic.recip, TridiagonalMatrix.rowProduct, p]
    norm_num

/-- **C131 (violated).** The natural cubic spline through (0, 0), (1, 1), (2, 0), (3, 1) passes through (5/2, 1/4); with
this point added its value at 9/4 is another one. -/
theorem C131_refuted_natural_cubic :
    evaluate (Interpolator.naturalCubic ℚ) [(0, 0), (1, 1), (2, 0), (3, 1)] (5 / 2) = .ok (.ok (1 / 4)) ∧
    evaluate (Interpolator.naturalCubic ℚ) [(0, 0), (1, 1), (2, 0), (3, 1)] (9 / 4) = .ok (.ok (1 / 32)) ∧
    evaluate (Interpolator.naturalCubic ℚ) [(0, 0), (1, 1), (2, 0), (5 / 2, 1 / 4), (3, 1)] (9 / 4) =
      .ok (.ok (9 / 352)) :=
  ⟨by decide +kernel, by decide +kernel, by decide +kernel⟩

/-- **C131 (violated).** The Catmull-Rom spline through (0, 0), (1, 1), (2, 0) passes through (1/2, 5/8); with this point
added its value at 1/4 is another one. -/
theorem C131_refuted_catmull_rom :
    evaluate (Interpolator.catmullRom ℚ) [(0, 0), (1, 1), (2, 0)] (1 / 2) = .ok (.ok (5 / 8)) ∧
    evaluate (Interpolator.catmullRom ℚ) [(0, 0), (1, 1), (2, 0)] (1 / 4) = .ok (.ok (19 / 64)) ∧
    evaluate (Interpolator.catmullRom ℚ) [(0, 0), (1 / 2, 5 / 8), (1, 1), (2, 0)] (1 / 4) = .ok (.ok (21 / 64)) :=
  ⟨by decide +kernel, by decide +kernel, by decide +kernel⟩

end Qlab.Props
