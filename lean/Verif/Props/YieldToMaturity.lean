import Verif.Props.Risk
import Verif.Props.ParRate
import Mathlib.Topology.Order.IntermediateValue

/-!
# The flat yield of a price (C119)

A price determines the yield of the flat curve it is computed on: every positive price belongs to exactly one.
-/

namespace Qlab.Spec

/-- Interpolator and pillars reproduce a flat curve at the payment dates of the flows that remain: linear interpolation,
natural cubic splines with four pillars or more, Catmull-Rom splines up to the last pillar but one (C80). -/
def KeepsFlat (I : Interpolator ℝ) (ms : List Date) (b : Bond ℝ) (settle : Date) : Prop :=
  (I = Interpolator.linear ℝ ∧ 2 ≤ ms.length) ∨ (I = Interpolator.naturalCubic ℝ ∧ 4 ≤ ms.length) ∨
    (I = Interpolator.catmullRom ℝ ∧ ∃ _ : 3 ≤ ms.length, ∀ g ∈ remaining b settle, g.paymentDate ≤ ms[ms.length - 2])

end Qlab.Spec

namespace Qlab.Props

open Spec

/-- Amounts discounted at one continuously compounded yield. -/
noncomputable def flatSum (l : List (ℝ × ℝ)) (y : ℝ) : ℝ := (l.map fun p => p.1 * Real.exp (-(p.2 * y))).sum

theorem flatSum_continuous : ∀ l : List (ℝ × ℝ), Continuous (flatSum l)
  | [] => continuous_const (y := (0 : ℝ))
  | p :: l => by
    have h := flatSum_continuous l
    have : flatSum (p :: l) = fun y => p.1 * Real.exp (-(p.2 * y)) + flatSum l y := by
      funext y; simp [flatSum]
    rw [this]
    fun_prop

theorem flatSum_antitone : ∀ (l : List (ℝ × ℝ)), (∀ p ∈ l, 0 ≤ p.1 ∧ 0 < p.2) → ∀ y z, y ≤ z → flatSum l z ≤ flatSum l y
  | [], _, _, _, _ => by simp [flatSum]
  | p :: l, h, y, z, hyz => by
    have ih := flatSum_antitone l (fun q hq => h q (by simp [hq])) y z hyz
    obtain ⟨h1, h2⟩ := h p (by simp)
    have := mul_le_mul_of_nonneg_left (Real.exp_le_exp.2 (neg_le_neg (mul_le_mul_of_nonneg_left hyz h2.le))) h1
    simp only [flatSum, List.map_cons, List.sum_cons] at ih ⊢
    linarith

theorem flatSum_strictAnti : ∀ (l : List (ℝ × ℝ)), (∀ p ∈ l, 0 ≤ p.1 ∧ 0 < p.2) → (∃ p ∈ l, 0 < p.1) →
    StrictAnti (flatSum l)
  | [], _, ⟨_, hp, _⟩ => by simp at hp
  | p :: l, h, hp => by
    intro y z hyz
    obtain ⟨h1, h2⟩ := h p (by simp)
    have he := Real.exp_lt_exp.2 (neg_lt_neg (mul_lt_mul_of_pos_left hyz h2))
    rcases h1.lt_or_eq with h0 | h0
    · have ih := flatSum_antitone l (fun q hq => h q (by simp [hq])) y z hyz.le
      have := mul_lt_mul_of_pos_left he h0
      simp only [flatSum, List.map_cons, List.sum_cons] at ih ⊢
      linarith
    · have ih := flatSum_strictAnti l (fun q hq => h q (by simp [hq])) (by
        obtain ⟨q, hq, hq0⟩ := hp
        rcases List.mem_cons.1 hq with rfl | hq
        · exact absurd h0 hq0.ne
        · exact ⟨q, hq, hq0⟩) hyz
      simp only [flatSum, List.map_cons, List.sum_cons, ← h0, zero_mul, zero_add] at ih ⊢
      exact ih

theorem flatSum_ge : ∀ (l : List (ℝ × ℝ)), (∀ p ∈ l, 0 ≤ p.1) → ∀ p ∈ l, ∀ y, p.1 * Real.exp (-(p.2 * y)) ≤ flatSum l y
  | q :: l, h, p, hp, y => by
    have hn : 0 ≤ flatSum l y := List.sum_nonneg (by
      intro x hx
      obtain ⟨r, hr, rfl⟩ := List.mem_map.1 hx
      exact mul_nonneg (h r (by simp [hr])) (Real.exp_pos _).le)
    have hq : 0 ≤ q.1 * Real.exp (-(q.2 * y)) := mul_nonneg (h q (by simp)) (Real.exp_pos _).le
    have e : flatSum (q :: l) y = q.1 * Real.exp (-(q.2 * y)) + flatSum l y := by simp [flatSum]
    rw [e]
    rcases List.mem_cons.1 hp with rfl | hp
    · linarith
    · have := flatSum_ge l (fun r hr => h r (by simp [hr])) p hp y
      linarith

/-- The sum gets as small as one likes. -/
theorem flatSum_small : ∀ (l : List (ℝ × ℝ)), (∀ p ∈ l, 0 ≤ p.1 ∧ 0 < p.2) → ∀ v, 0 < v → ∃ y, flatSum l y ≤ v
  | [], _, v, hv => ⟨0, by simpa [flatSum] using hv.le⟩
  | p :: l, h, v, hv => by
    obtain ⟨y, hy⟩ := flatSum_small l (fun q hq => h q (by simp [hq])) (v / 2) (by linarith)
    obtain ⟨h1, h2⟩ := h p (by simp)
    -- `exp t ≥ t + 1`, so `a exp (-t) ≤ a / (t + 1)`
    refine ⟨max y (2 * p.1 / v / p.2), ?_⟩
    have ih := flatSum_antitone l (fun q hq => h q (by simp [hq])) y _ (le_max_left y (2 * p.1 / v / p.2))
    have hz : 2 * p.1 / v ≤ p.2 * max y (2 * p.1 / v / p.2) := by
      have := mul_le_mul_of_nonneg_left (le_max_right y (2 * p.1 / v / p.2)) h2.le
      rwa [mul_div_cancel₀ _ h2.ne'] at this
    have he := Real.add_one_le_exp (p.2 * max y (2 * p.1 / v / p.2))
    have key : p.1 * Real.exp (-(p.2 * max y (2 * p.1 / v / p.2))) ≤ v / 2 := by
      rw [Real.exp_neg, ← div_eq_mul_inv, div_le_iff₀ (Real.exp_pos _)]
      have h3 : 2 * p.1 / v ≤ Real.exp (p.2 * max y (2 * p.1 / v / p.2)) := by linarith
      rw [div_le_iff₀ hv] at h3
      linarith
    simp only [flatSum, List.map_cons, List.sum_cons] at ih hy ⊢
    linarith

/-- Every positive number is the sum at exactly one yield. -/
theorem flatSum_surjective (l : List (ℝ × ℝ)) (h : ∀ p ∈ l, 0 ≤ p.1 ∧ 0 < p.2) (hp : ∃ p ∈ l, 0 < p.1) (v : ℝ)
    (hv : 0 < v) : ∃! y, flatSum l y = v := by
  have hex : ∃ y, flatSum l y = v := by
    obtain ⟨p, hp, h0⟩ := hp
    refine mem_range_of_exists_le_of_exists_ge (flatSum_continuous l) (flatSum_small l h v hv)
      ⟨-(v / p.1 / p.2), le_trans ?_ (flatSum_ge l (fun q hq => (h q hq).1) p hp _)⟩
    have he := Real.add_one_le_exp (v / p.1)
    rw [mul_neg, mul_div_cancel₀ _ (h p hp).2.ne', neg_neg]
    have := mul_le_mul_of_nonneg_left he h0.le
    rw [mul_add, mul_div_cancel₀ _ h0.ne'] at this
    linarith
  obtain ⟨y, hy⟩ := hex
  exact ⟨y, hy, fun z hz => (flatSum_strictAnti l h hp).injective (hz.trans hy.symm)⟩

section
variable {I : Interpolator ℝ} {D : DayCount ℝ} {N : ℝ}

/-- **C119.** On a flat curve a bond is worth its remaining amounts, each discounted at the yield over the days to its
payment. -/
theorem C119_flat_price (hD : IsActual D N) (s : Date) (ms : List Date) (hm : ms.Pairwise (· < ·)) (b : Bond ℝ)
    (settle : Date) (hI : KeepsFlat I ms b settle) (hs : s ≤ settle)
    (hcov : ∀ g ∈ remaining b settle, settle ≤ g.paymentDate ∧ Covers ms g.paymentDate)
    (h1 : settle = s ∨ Covers ms settle) (y : ℝ) :
    curvePrice D I s ms (List.replicate ms.length y) b settle = .ok (.ok ((remaining b settle).map fun g =>
      g.paymentAmount * Real.exp (-((Date.sub g.paymentDate settle : ℝ) / N * y))).sum) := by
  obtain ⟨n, hn, hn'⟩ : ∃ n, IsShippedInterpolator I n ∧ n ≤ ms.length := by
    rcases hI with ⟨h, hn⟩ | ⟨h, hn⟩ | ⟨h, hn, _⟩
    · exact ⟨2, .inl ⟨h, rfl⟩, hn⟩
    · exact ⟨3, .inr (.inr ⟨h, rfl⟩), by omega⟩
    · exact ⟨3, .inr (.inl ⟨h, rfl⟩), hn⟩
  rw [price_iff hD hn (by simp) hn' hm]
  refine ⟨(remaining b settle).map fun g => Real.exp (-((Date.sub g.paymentDate settle : ℝ) / N * y)), ?_, ?_⟩
  · unfold FlowDiscounts
    rw [List.forall₂_map_right_iff, List.forall₂_same]
    intro g hg
    refine C80_flat_partial hD s ms _ (by simp) hm y (by simp) settle g.paymentDate hs (hcov g hg).1 (hcov g hg).2 h1 ?_
    rcases hI with h | h | ⟨h, h3, h4⟩
    · exact .inl h
    · exact .inr (.inl h)
    · exact .inr (.inr ⟨h, h3, h4 g hg⟩)
  · rw [List.zipWith_map_left, List.zipWith_self]
    simp only [mul_comm]

theorem flatSum_eq (l : List (BondCashFlow ℝ)) (settle : Date) (N y : ℝ) :
    (l.map fun g => g.paymentAmount * Real.exp (-((Date.sub g.paymentDate settle : ℝ) / N * y))).sum =
      flatSum (l.map fun g => (g.paymentAmount, (Date.sub g.paymentDate settle : ℝ) / N)) y := by
  simp [flatSum, List.map_map, Function.comp_def]

/-- **C119.** When the remaining payments are in the future, none is negative and one is positive: every positive price
is the price on exactly one flat curve; the price falls strictly as the yield rises; it is the plain sum of the
remaining amounts exactly at yield zero. -/
theorem C119_yield (hD : IsActual D N) (s : Date) (ms : List Date) (hm : ms.Pairwise (· < ·)) (b : Bond ℝ)
    (settle : Date) (hI : KeepsFlat I ms b settle) (hs : s ≤ settle)
    (hcov : ∀ g ∈ remaining b settle, settle < g.paymentDate ∧ Covers ms g.paymentDate)
    (h1 : settle = s ∨ Covers ms settle) (h0 : ∀ g ∈ remaining b settle, 0 ≤ g.paymentAmount)
    (hp : ∃ g ∈ remaining b settle, 0 < g.paymentAmount) :
    (∀ v, 0 < v → ∃! y, curvePrice D I s ms (List.replicate ms.length y) b settle = .ok (.ok v)) ∧
    (∀ y z v w, curvePrice D I s ms (List.replicate ms.length y) b settle = .ok (.ok v) →
      curvePrice D I s ms (List.replicate ms.length z) b settle = .ok (.ok w) → (w < v ↔ y < z)) ∧
    (∀ y v, curvePrice D I s ms (List.replicate ms.length y) b settle = .ok (.ok v) →
      (v = ((remaining b settle).map (·.paymentAmount)).sum ↔ y = 0)) := by
  have key := C119_flat_price hD s ms hm b settle hI hs (fun g hg => ⟨(hcov g hg).1.le, (hcov g hg).2⟩) h1
  simp only [flatSum_eq] at key
  have hl : ∀ p ∈ (remaining b settle).map fun g => (g.paymentAmount, (Date.sub g.paymentDate settle : ℝ) / N),
      0 ≤ p.1 ∧ 0 < p.2 := by
    intro p hp
    obtain ⟨g, hg, rfl⟩ := List.mem_map.1 hp
    exact ⟨h0 g hg, fraction_pos hD (hcov g hg).1⟩
  have hl' : ∃ p ∈ (remaining b settle).map fun g => (g.paymentAmount, (Date.sub g.paymentDate settle : ℝ) / N),
      0 < p.1 := by
    obtain ⟨g, hg, h⟩ := hp
    exact ⟨_, List.mem_map_of_mem hg, h⟩
  have hanti := flatSum_strictAnti _ hl hl'
  refine ⟨fun v hv => ?_, fun y z v w hv hw => ?_, fun y v hv => ?_⟩
  · simp only [key, Rust.ok.injEq, Except.ok.injEq]
    exact flatSum_surjective _ hl hl' v hv
  · simp only [key, Rust.ok.injEq, Except.ok.injEq] at hv hw
    rw [← hv, ← hw]
    exact hanti.lt_iff_gt
  · simp only [key, Rust.ok.injEq, Except.ok.injEq] at hv
    have e : ((remaining b settle).map (·.paymentAmount)).sum = flatSum ((remaining b settle).map fun g =>
        (g.paymentAmount, (Date.sub g.paymentDate settle : ℝ) / N)) 0 := by
      simp [flatSum, List.map_map, Function.comp_def]
    rw [← hv, e]
    exact hanti.injective.eq_iff

/-- **C119.** The same for a bond built with a coupon rate that is not negative and a positive face value, before its
maturity. -/
theorem C119_bond (hD : IsActual D N) (s : Date) (ms : List Date) (hm : ms.Pairwise (· < ·)) {id : String}
    {issue first pen mat : Date} {f : Frequency} {rate face : ℝ} {b : Bond ℝ}
    (h : Bond.new id issue first pen mat f rate face = .ok (some b)) (hif : issue < first) (hpm : pen < mat)
    (hr : 0 ≤ rate) (hf : 0 < face) (settle : Date) (hI : KeepsFlat I ms b settle) (hs : s ≤ settle) (hsm : settle < mat)
    (hcov : ∀ g ∈ remaining b settle, Covers ms g.paymentDate) (h1 : settle = s ∨ Covers ms settle) (v : ℝ) (hv : 0 < v) :
    ∃! y, curvePrice D I s ms (List.replicate ms.length y) b settle = .ok (.ok v) := by
  obtain ⟨l, z, he, ha, h0, ⟨x, hx, hxa⟩, _⟩ := C50_amounts h
  obtain ⟨l', z', he', _, _, hz⟩ := C48_schedule h
  obtain ⟨rfl, hk⟩ := List.append_inj' (he.symm.trans he') rfl
  simp only [List.cons.injEq, and_true] at hk
  subst hk
  have hc : 0 ≤ rate * face / 2 := by have := mul_nonneg hr hf.le; linarith
  have hz0 : 0 < z.paymentAmount := by
    have := mul_nonneg hc (C50_last_length_bounds x hx hpm).1.le
    rw [hxa]
    linarith
  refine (C119_yield hD s ms hm b settle hI hs (fun g hg => ⟨?_, hcov g hg⟩) h1 (fun g hg => ?_) ⟨z, ?_, hz0⟩).1 v hv
  · obtain ⟨hg, hd⟩ := List.mem_filter.1 hg
    exact lt_of_lt_of_le (by simpa using hd) (new_payment_ge h g hg)
  · have hg' := (List.mem_filter.1 hg).1
    rw [he] at hg'
    rcases List.mem_append.1 hg' with hg' | hg'
    · obtain ⟨j, hj, rfl⟩ := List.getElem_of_mem hg'
      rcases Nat.eq_zero_or_pos j with rfl | hj0
      · obtain ⟨y, y1, y2⟩ := h0 l[0] (by rw [List.head?_eq_getElem?]; simp [hj])
        rw [y2]
        exact mul_nonneg hc (C50_first_length_bounds y y1 hif).1.le
      · rw [ha j hj hj0]
        exact hc
    · rw [List.mem_singleton.1 hg']
      exact hz0.le
  · unfold remaining
    rw [List.mem_filter, he]
    exact ⟨by simp, by simpa [hz] using hsm⟩

/-- The price 900 of a bond of nineteen years has one yield. -/
example : ∃ b : Bond ℝ, ∃! y : ℝ, curvePrice DayCount.act365 (Interpolator.linear ℝ) exSettle
    [⟨2023, 11, 7, by decide⟩, ⟨2042, 11, 7, by decide⟩] (List.replicate 2 y) b exSettle = .ok (.ok 900) := by
  obtain ⟨b, c, v, hb, -, -⟩ := parExample
  refine ⟨b, C119_bond (.inr ⟨rfl, rfl⟩) exSettle [⟨2023, 11, 7, by decide⟩, ⟨2042, 11, 7, by decide⟩] (by decide) hb
    (by decide) (by decide) (by norm_num) (by norm_num) exSettle (.inl ⟨rfl, by decide⟩) le_rfl (by decide) (fun g hg => ?_)
    (.inl rfl) 900 (by norm_num)⟩
  have := payments_between hb (by decide) (by decide) (by unfold IsWorkday; decide) g (List.mem_filter.1 hg).1
  exact ⟨⟨_, List.mem_cons_self, this.1⟩, ⟨2042, 11, 7, by decide⟩, by simp, this.2⟩

/-- At yield zero the example flows are worth their sum. -/
example : curvePrice DayCount.act365 (Interpolator.linear ℝ) exSettle exMaturities (List.replicate 3 0)
    (Bond.mk "" (exFlows 1 2 3)) exSettle = .ok (.ok 5) := by
  have hc : ∀ g ∈ remaining (Bond.mk "" (exFlows 1 2 3)) exSettle, exSettle < g.paymentDate ∧ Covers exMaturities g.paymentDate := by
    rw [exFlows_remaining]
    simp only [List.forall_mem_cons, List.not_mem_nil, false_imp_iff, implies_true, and_true]
    exact ⟨⟨by decide, by unfold Covers; decide⟩, by decide, by unfold Covers; decide⟩
  have hI : KeepsFlat (Interpolator.linear ℝ) exMaturities (Bond.mk "" (exFlows 1 2 3)) exSettle := .inl ⟨rfl, by decide⟩
  have hp := C119_flat_price (.inr ⟨rfl, rfl⟩ : IsActual (DayCount.act365 (V := ℝ)) 365) exSettle exMaturities
    exMaturities_increasing _ exSettle hI le_rfl (fun g hg => ⟨(hc g hg).1.le, (hc g hg).2⟩) (.inl rfl) 0
  have h := (C119_yield (.inr ⟨rfl, rfl⟩ : IsActual (DayCount.act365 (V := ℝ)) 365) exSettle exMaturities
    exMaturities_increasing _ exSettle hI le_rfl hc (.inl rfl) (by rw [exFlows_remaining]; simp)
    (by rw [exFlows_remaining]; simp)).2.2 0 _ hp
  refine hp.trans ?_
  rw [h.2 rfl, exFlows_remaining]
  norm_num

end

end Qlab.Props
