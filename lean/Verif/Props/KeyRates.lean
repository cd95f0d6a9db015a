import Verif.Props.Risk

/-!
# Sensitivities to the single yields (C142)
-/

namespace Qlab.Props

open Spec

variable {I : Interpolator ℝ} {D : DayCount ℝ} {N : ℝ} {n : Nat}

/-- Whether a discount factor exists does not depend on the yields. -/
theorem discount_other_yields (hD : IsActual D N) (hI : IsShippedInterpolator I n) {s : Date} {ms : List Date}
    {ys zs : List ℝ} (hy : ms.length = ys.length) (hz : ms.length = zs.length) (hn : n ≤ ms.length)
    (hm : ms.Pairwise (· < ·)) {d1 d2 : Date} {v : ℝ} (h : curveDiscount D I s ms ys d1 d2 = .ok (.ok v)) :
    ∃ w, curveDiscount D I s ms zs d1 d2 = .ok (.ok w) := by
  obtain ⟨hs, hd, -⟩ := (curveDiscount_form hD hI hy hm hn).1 h
  refine (C58_domain hD hI s ms zs hz hm hn d1 d2 hs hd).1 (by_contra fun hc => ?_)
  rw [(C58_domain hD hI s ms ys hy hm hn d1 d2 hs hd).2 hc] at h
  cases h

/-- **C142.** A discount factor is the product, over the pillars, of its value on the curve with yield 1 at this pillar and 0
at all others, raised to the power of the yield. -/
theorem C142_product (hD : IsActual D N) (hI : IsShippedInterpolator I n) (s : Date) (ms : List Date) (ys : List ℝ)
    (hy : ms.length = ys.length) (hn : n ≤ ms.length) (hm : ms.Pairwise (· < ·)) (d1 d2 : Date) (v : ℝ)
    (h : curveDiscount D I s ms ys d1 d2 = .ok (.ok v)) :
    ∃ w : Fin ms.length → ℝ, (∀ i, 0 < w i) ∧
      (∀ i, curveDiscount D I s ms (List.ofFn (Pi.single i (1 : ℝ))) d1 d2 = .ok (.ok (w i))) ∧
      ∀ z : Fin ms.length → ℝ, curveDiscount D I s ms (List.ofFn z) d1 d2 = .ok (.ok (∏ i, w i ^ z i)) := by
  have hl : ∀ f : Fin ms.length → ℝ, ms.length = (List.ofFn f).length := fun f => by simp
  have hex : ∀ i : Fin ms.length, ∃ w, curveDiscount D I s ms (List.ofFn (Pi.single i (1 : ℝ))) d1 d2 = .ok (.ok w) :=
    fun i => discount_other_yields hD hI hy (hl _) hn hm h
  choose w hw using hex
  refine ⟨w, fun i => flowDiscounts_pos hD hI (hl _) hn hm (hw i), hw, fun z => ?_⟩
  have comb : ∀ (a b : ℝ) (f g : Fin ms.length → ℝ), combine a b (List.ofFn f) (List.ofFn g) =
      List.ofFn fun i => a * f i + b * g i := fun a b f g =>
    List.ext_getElem (by simp [combine]) fun i _ _ => by simp [combine]
  have key : ∀ S : Finset (Fin ms.length), curveDiscount D I s ms
      (List.ofFn fun j => if j ∈ S then z j else 0) d1 d2 = .ok (.ok (∏ i ∈ S, w i ^ z i)) := by
    intro S
    induction S using Finset.induction_on with
    | empty =>
      have := C98_discount hD hI s ms ys ys hy hy hn hm 0 0 d1 d2 v v h h
      simp only [Real.rpow_zero, mul_one] at this
      rw [Finset.prod_empty, ← this]
      congr 1
      exact List.ext_getElem (by simp [combine, hy]) fun i _ _ => by simp [combine]
    | insert a S ha ih =>
      have := C98_discount hD hI s ms _ _ (hl _) (hl _) hn hm (z a) 1 d1 d2 _ _ (hw a) ih
      rw [Real.rpow_one, comb] at this
      rw [Finset.prod_insert ha, ← this]
      congr 2
      funext j
      by_cases hj : j = a
      · subst hj; simp [ha]
      · simp [hj]
  have := key Finset.univ
  simpa using this

/-- **C142.** Every price has a sensitivity to each single yield, and as the yields move in any direction the price changes at
the rate of the sum of the sensitivities times the movements.  In particular the effect of a parallel shift is the sum of
the sensitivities. -/
theorem C142_sensitivities (hD : IsActual D N) (hI : IsShippedInterpolator I n) (s : Date) (ms : List Date)
    (y : Fin ms.length → ℝ) (hn : n ≤ ms.length) (hm : ms.Pairwise (· < ·)) (b : Bond ℝ) (settle : Date) (v : ℝ)
    (h : curvePrice D I s ms (List.ofFn y) b settle = .ok (.ok v)) :
    ∃ key : Fin ms.length → ℝ, ∀ z : Fin ms.length → ℝ, ∃ P : ℝ → ℝ,
      (∀ τ, curvePrice D I s ms (List.ofFn fun i => y i + τ * z i) b settle = .ok (.ok (P τ))) ∧
      HasDerivAt P (∑ i, key i * z i) 0 := by
  have hl : ∀ f : Fin ms.length → ℝ, ms.length = (List.ofFn f).length := fun f => by simp
  obtain ⟨vs, hvs, -⟩ := (price_iff hD hI (hl _) hn hm).1 h
  have hex : ∀ g, ∃ w : Fin ms.length → ℝ, (g ∈ remaining b settle → (∀ i, 0 < w i) ∧
      ∀ z : Fin ms.length → ℝ, curveDiscount D I s ms (List.ofFn z) settle g.paymentDate = .ok (.ok (∏ i, w i ^ z i))) := by
    intro g
    by_cases hg : g ∈ remaining b settle
    · obtain ⟨i, hi, rfl⟩ := List.getElem_of_mem hg
      have := hvs.get hi (by rw [← hvs.length_eq]; exact hi)
      obtain ⟨w, h0, -, h2⟩ := C142_product hD hI s ms _ (hl y) hn hm _ _ _ this
      exact ⟨w, fun _ => ⟨h0, h2⟩⟩
    · exact ⟨0, fun h => absurd h hg⟩
  choose w hw using hex
  have hws : ∀ z : Fin ms.length → ℝ, FlowDiscounts D I s ms (List.ofFn z) b settle
      ((remaining b settle).map fun g => ∏ i, w g i ^ z i) := by
    intro z
    unfold FlowDiscounts
    rw [List.forall₂_map_right_iff, List.forall₂_same]
    exact fun g hg => (hw g hg).2 z
  refine ⟨fun i => ((remaining b settle).map fun g => g.paymentAmount * (∏ j, w g j ^ y j) * Real.log (w g i)).sum,
    fun z => ?_⟩
  obtain ⟨P, P', h1, h2, h3, -⟩ := C98_derivatives hD hI s ms _ _ (hl y) (hl z) hn hm b settle _ _ (hws y) (hws z)
  refine ⟨P, fun τ => ?_, ?_⟩
  · rw [← h1 τ]
    congr 1
    exact List.ext_getElem (by simp [combine]) fun i _ _ => by simp [combine]
  · refine (h2 0).congr_deriv ?_
    rw [h3]
    have hlog : ∀ g ∈ remaining b settle, Real.log (∏ i, w g i ^ z i) = ∑ i, z i * Real.log (w g i) := by
      intro g hg
      rw [Real.log_prod fun i _ => (Real.rpow_pos_of_pos ((hw g hg).1 i) _).ne']
      exact Finset.sum_congr rfl fun i _ => Real.log_rpow ((hw g hg).1 i) _
    generalize remaining b settle = l at hlog
    induction l with
    | nil => simp
    | cons g l ih =>
      have := ih fun x hx => hlog x (by simp [hx])
      simp only [List.map_cons, List.zip_cons_cons, List.sum_cons, add_mul, Finset.sum_add_distrib] at this ⊢
      rw [this]
      congr 1
      simp only [hlog g (by simp), Finset.mul_sum]
      exact Finset.sum_congr rfl fun i _ => by ring

/-- Every shipped interpolator, pillars after 360, 720 and 1080 days and a payment after 540 days: the discount factor with
yields 1 %, 2 % and 3 % is a product of powers, and the price has three sensitivities. -/
example (hI : IsShippedInterpolator I n) : ∃ u v w : ℝ, 0 < u ∧ 0 < v ∧ 0 < w ∧
    curveDiscount DayCount.act360 I gridSettle gridMaturities [0.01, 0.02, 0.03] gridSettle gridMid1 =
      .ok (.ok (u ^ (0.01 : ℝ) * v ^ (0.02 : ℝ) * w ^ (0.03 : ℝ))) ∧
    ∃ a b c : ℝ, ∀ x y z : ℝ, ∃ P : ℝ → ℝ, (∀ τ, curvePrice DayCount.act360 I gridSettle gridMaturities
      [0.01 + τ * x, 0.02 + τ * y, 0.03 + τ * z] (zeroBond gridMid1) gridSettle = .ok (.ok (P τ))) ∧
      HasDerivAt P (a * x + b * y + c * z) 0 := by
  have hn : n ≤ gridMaturities.length := by
    rcases hI with ⟨_, rfl⟩ | ⟨_, rfl⟩ | ⟨_, rfl⟩ <;> decide
  have cov : Covers gridMaturities gridMid1 :=
    ⟨⟨_, List.mem_cons_self, by decide⟩, ⟨⟨2025, 12, 16, by decide⟩, by simp [gridMaturities], by decide⟩⟩
  obtain ⟨p, hp⟩ := (C58_domain (N := 360) (.inl ⟨rfl, rfl⟩) hI gridSettle gridMaturities [0.01, 0.02, 0.03] rfl
    gridMaturities_increasing hn gridSettle gridMid1 le_rfl (by decide)).1 ⟨cov, .inl rfl⟩
  obtain ⟨w, w0, -, hw⟩ := C142_product (N := 360) (.inl ⟨rfl, rfl⟩) hI gridSettle gridMaturities [0.01, 0.02, 0.03] rfl hn
    gridMaturities_increasing gridSettle gridMid1 p hp
  have e : remaining (zeroBond gridMid1) gridSettle = [⟨gridMid1, gridMid1, 1⟩] := by
    simp only [remaining, zeroBond]
    rw [List.filter_cons_of_pos (by decide), List.filter_nil]
  have hprice : curvePrice DayCount.act360 I gridSettle gridMaturities [0.01, 0.02, 0.03] (zeroBond gridMid1) gridSettle =
      .ok (.ok (List.zipWith (fun df g => df * g.paymentAmount) [p] (remaining (zeroBond gridMid1) gridSettle)).sum) :=
    (price_iff (N := 360) (.inl ⟨rfl, rfl⟩) hI rfl hn gridMaturities_increasing).2
      ⟨[p], by unfold FlowDiscounts; rw [e]; exact .cons hp .nil, rfl⟩
  obtain ⟨key, hk⟩ := C142_sensitivities (N := 360) (.inl ⟨rfl, rfl⟩) hI gridSettle gridMaturities
    (![0.01, 0.02, 0.03] : Fin 3 → ℝ) hn gridMaturities_increasing (zeroBond gridMid1) gridSettle _ hprice
  have hw' := hw (![0.01, 0.02, 0.03] : Fin 3 → ℝ)
  refine ⟨w (0 : Fin 3), w (1 : Fin 3), w (2 : Fin 3), w0 _, w0 _, w0 _, hw'.trans ?_, key (0 : Fin 3), key (1 : Fin 3),
    key (2 : Fin 3), fun x y z => ?_⟩
  · rw [show (∏ i, w i ^ ((![0.01, 0.02, 0.03] : Fin 3 → ℝ) i)) = _ from Fin.prod_univ_three _]
    rfl
  · obtain ⟨P, h1, h2⟩ := hk (![x, y, z] : Fin 3 → ℝ)
    exact ⟨P, h1, h2.congr_deriv (Fin.sum_univ_three _)⟩

end Qlab.Props
