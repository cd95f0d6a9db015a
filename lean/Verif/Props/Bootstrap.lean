import Verif.Props.YieldToMaturity
import Verif.Props.Locality

/-!
# Fitting a curve to market prices (C120)
-/

namespace Qlab.Spec

/-- The bond without the flows paid after `l`. -/
def paidBy (l : Date) (b : Bond ℝ) : Bond ℝ := { b with bondCashFlows := b.bondCashFlows.filter fun g => g.paymentDate ≤ l }

end Qlab.Spec

namespace Qlab.Props

open Spec

section
variable {I : Interpolator ℝ} {D : DayCount ℝ} {N : ℝ} {n : Nat}

/-- The discount factor to a pillar is `exp (-r y)` with the yield quoted there and a positive `r` that does not depend
on the yields.  For the last pillar of a Catmull-Rom spline `r` is not the time to the pillar. -/
theorem pillar_exponent (hD : IsActual D N) (hI : IsShippedInterpolator I n) (s : Date) (ms : List Date)
    (hm : ms.Pairwise (· < ·)) (hn : n ≤ ms.length) (i : Nat) (hi : i < ms.length) (hs : s < ms[i]) :
    ∃ r, 0 < r ∧ ∀ (ys : List ℝ) (hlen : ms.length = ys.length),
      curveDiscount D I s ms ys s ms[i] = .ok (.ok (Real.exp (-(r * ys[i]'(hlen ▸ hi))))) := by
  have ht := fraction_pos hD hs
  have hinc := isActual_increasing hD s hm
  rcases hI with ⟨rfl, rfl⟩ | ⟨rfl, rfl⟩ | ⟨rfl, rfl⟩
  · exact ⟨_, ht, fun ys hlen => C47_dates hD (.inl ⟨rfl, rfl⟩) s ms ys hlen hm hn i hi hs.le⟩
  · by_cases hlast : i + 1 < ms.length
    · refine ⟨_, ht, fun ys hlen => ?_⟩
      have := C60_catmull_rom_partial hlen (isActual_fractions hD s ms) hinc hn i hlast hs.le
      simpa using this
    · obtain ⟨k, hk⟩ : ∃ k, ms.length = k + 3 := ⟨ms.length - 3, by omega⟩
      obtain rfl : i = k + 2 := by omega
      have pw := List.pairwise_iff_getElem.1 hm
      have g1 := (isActual_lt hD s _ _).2 (pw (k + 1) (k + 2) (by omega) (by omega) (by omega))
      have g2 := (isActual_lt hD s _ _).2 (pw k (k + 1) (by omega) (by omega) (by omega))
      have key : ∀ ys : List ℝ, (hlen : ms.length = ys.length) → _ := fun ys hlen =>
        C38_last_node_value_partial ((ms.map fun m => (Date.sub m s : ℝ) / N).zip ys) (strictlyIncreasing_zip hinc ys) k
          (by simp; omega)
      simp only [List.getElem_zip, List.getElem_map] at key
      refine ⟨(Date.sub ms[k + 2] s : ℝ) / N * (2 - 2 * (((Date.sub ms[k + 2] s : ℝ) / N - (Date.sub ms[k + 1] s : ℝ) / N) /
        (2 * ((Date.sub ms[k + 2] s : ℝ) / N - (Date.sub ms[k + 1] s : ℝ) / N) +
          ((Date.sub ms[k + 1] s : ℝ) / N - (Date.sub ms[k] s : ℝ) / N)))), ?_, fun ys hlen => ?_⟩
      · refine mul_pos ht ?_
        have h5 : ((Date.sub ms[k + 2] s : ℝ) / N - (Date.sub ms[k + 1] s : ℝ) / N) /
            (2 * ((Date.sub ms[k + 2] s : ℝ) / N - (Date.sub ms[k + 1] s : ℝ) / N) +
              ((Date.sub ms[k + 1] s : ℝ) / N - (Date.sub ms[k] s : ℝ) / N)) < 1 := by
          rw [div_lt_one (by linarith)]; linarith
        linarith
      · refine (curveDiscount_of_evaluate hlen (isActual_fractions hD s ms) hs.le (isActual_eq hD s _) (key ys hlen)).trans ?_
        congr 3
        ring
  · exact ⟨_, ht, fun ys hlen => C47_dates hD (.inr ⟨rfl, rfl⟩) s ms ys hlen hm hn i hi hs.le⟩

/-- **C120.** Every shipped interpolator, pillars after settlement: for any positive numbers there is exactly one list of
yields with which the discount factors to the pillars are these numbers. -/
theorem C120_discounts (hD : IsActual D N) (hI : IsShippedInterpolator I n) (s : Date) (ms : List Date)
    (hm : ms.Pairwise (· < ·)) (hn : n ≤ ms.length) (hs : ∀ m ∈ ms, s < m) (ps : List ℝ) (hlen : ms.length = ps.length)
    (hp : ∀ p ∈ ps, 0 < p) : ∃! ys : List ℝ, ms.length = ys.length ∧
      ∀ i (hi : i < ms.length), curveDiscount D I s ms ys s ms[i] = .ok (.ok (ps[i]'(hlen ▸ hi))) := by
  have key := fun (i : Fin ms.length) => pillar_exponent hD hI s ms hm hn i i.2 (hs _ (List.getElem_mem _))
  choose r hr hkey using key
  refine ⟨List.ofFn fun i : Fin ms.length => -Real.log (ps[i.1]'(hlen ▸ i.2)) / r i, ⟨by simp, fun i hi => ?_⟩, ?_⟩
  · have := hkey ⟨i, hi⟩ (List.ofFn fun i : Fin ms.length => -Real.log (ps[i.1]'(hlen ▸ i.2)) / r i) (by simp)
    simp only [List.getElem_ofFn] at this
    rw [this, mul_div_cancel₀ _ (hr _).ne', neg_neg, Real.exp_log (hp _ (List.getElem_mem _))]
  · rintro ys ⟨hl, h⟩
    refine List.ext_getElem (by simp [hl]) fun i hi hi' => ?_
    have h1 := h i (hl ▸ hi)
    have h2 := hkey ⟨i, hl ▸ hi⟩ ys hl
    simp only at h2
    rw [h1] at h2
    simp only [Rust.ok.injEq, Except.ok.injEq] at h2
    rw [List.getElem_ofFn, eq_div_iff (hr _).ne', h2, Real.log_exp]
    ring

/-- **C120.** Two lists of yields that give the pillars the same discount factors are the same. -/
theorem C120_determined (hD : IsActual D N) (hI : IsShippedInterpolator I n) (s : Date) (ms : List Date)
    (hm : ms.Pairwise (· < ·)) (hn : n ≤ ms.length) (hs : ∀ m ∈ ms, s < m) (ys zs : List ℝ) (hy : ms.length = ys.length)
    (hz : ms.length = zs.length) (h : ∀ m ∈ ms, curveDiscount D I s ms ys s m = curveDiscount D I s ms zs s m) :
    ys = zs := by
  refine List.ext_getElem (by omega) fun i hi hi' => ?_
  have hi0 : i < ms.length := by omega
  obtain ⟨r, hr, key⟩ := pillar_exponent hD hI s ms hm hn i hi0 (hs _ (List.getElem_mem _))
  have := h _ (List.getElem_mem hi0)
  rw [key ys hy, key zs hz] at this
  simp only [Rust.ok.injEq, Except.ok.injEq, Real.exp_eq_exp, neg_inj] at this
  exact mul_left_cancel₀ hr.ne' this

theorem pillars_append (s : Date) (ms : List Date) (ys : List ℝ) (hlen : ms.length = ys.length) (m : Date) (y : ℝ) :
    pillars N s (ms ++ [m]) (ys ++ [y]) = pillars N s ms ys ++ [((Date.sub m s : ℝ) / N, y)] := by
  unfold pillars
  rw [List.map_append, List.zip_append (by simpa using hlen)]
  rfl

/-- Up to the last pillar a further pillar changes nothing. -/
theorem append_early (hD : IsActual D N) {s : Date} {ms : List Date} {ys : List ℝ} {m d : Date} {y : ℝ}
    (hm : (ms ++ [m]).Pairwise (· < ·)) (h2 : 2 ≤ ms.length) (hlen : ms.length = ys.length) (hc : Covers ms d) :
    evaluate (Interpolator.linear ℝ) (pillars N s (ms ++ [m]) (ys ++ [y])) ((Date.sub d s : ℝ) / N) =
      evaluate (Interpolator.linear ℝ) (pillars N s ms ys) ((Date.sub d s : ℝ) / N) := by
  have hm' : ms.Pairwise (· < ·) := (List.pairwise_append.1 hm).1
  have hs := pillars_increasing hD s hm' ys
  have hs' := pillars_increasing hD s hm (ys ++ [y])
  have hl : (pillars N s ms ys).length = ms.length := by simp [pillars, hlen]
  obtain ⟨⟨a, ha, had⟩, b, hb, hdb⟩ := hc
  have mem : ∀ a ∈ ms, ∃ y, ((Date.sub a s : ℝ) / N, y) ∈ pillars N s ms ys := by
    intro a ha
    obtain ⟨j, hj, rfl⟩ := List.getElem_of_mem ha
    refine ⟨ys[j], List.mem_iff_getElem.2 ⟨j, by omega, ?_⟩⟩
    simp [pillars]
  have le : ∀ a b : Date, a ≤ b → (Date.sub a s : ℝ) / N ≤ (Date.sub b s : ℝ) / N := by
    intro a b hab
    rw [← not_lt, isActual_lt hD s]
    exact not_lt.2 hab
  obtain ⟨i, x₀, y₀, x₁, y₁, hseg, h0, h1⟩ := exists_segment (pillars N s ms ys) hs (by omega) ((Date.sub d s : ℝ) / N)
    (fun hbel => by
      obtain ⟨z, hz⟩ := mem a ha
      exact absurd (hbel _ hz) (not_lt.2 (le a d had)))
    (fun hab => by
      obtain ⟨z, hz⟩ := mem b hb
      exact absurd (hab _ hz) (not_lt.2 (le d b hdb)))
  refine C108_linear _ _ hs' hs i i x₀ y₀ x₁ y₁ _ ?_ hseg h0 h1
  rw [pillars_append s ms ys hlen]
  obtain ⟨e0, e1⟩ := hseg
  have l0 := (List.getElem?_eq_some_iff.1 e0).1
  have l1 := (List.getElem?_eq_some_iff.1 e1).1
  exact ⟨by rw [List.getElem?_append_left l0]; exact e0, by rw [List.getElem?_append_left l1]; exact e1⟩

/-- Between the last two pillars. -/
theorem append_late (hD : IsActual D N) {s : Date} {ms : List Date} {ys : List ℝ} {l m d : Date} {z y : ℝ}
    (hm : (ms ++ [l] ++ [m]).Pairwise (· < ·)) (hlen : ms.length = ys.length) (h0 : l ≤ d) (h1 : d ≤ m) :
    evaluate (Interpolator.linear ℝ) (pillars N s (ms ++ [l] ++ [m]) (ys ++ [z] ++ [y])) ((Date.sub d s : ℝ) / N) =
      .ok (.ok ((Date.sub m d : ℝ) / (Date.sub m l : ℝ) * z + (Date.sub d l : ℝ) / (Date.sub m l : ℝ) * y)) := by
  have hN := isActual_pos hD
  have hs' := pillars_increasing hD s hm (ys ++ [z] ++ [y])
  have le : ∀ a b : Date, a ≤ b → (Date.sub a s : ℝ) / N ≤ (Date.sub b s : ℝ) / N := by
    intro a b hab
    rw [← not_lt, isActual_lt hD s]
    exact not_lt.2 hab
  have hlm : l < m := (List.pairwise_append.1 hm).2.2 l (by simp) m (by simp)
  have hseg : IsSegment (pillars N s (ms ++ [l] ++ [m]) (ys ++ [z] ++ [y])) ms.length ((Date.sub l s : ℝ) / N) z
      ((Date.sub m s : ℝ) / N) y := by
    have hl : (pillars N s ms ys).length = ms.length := by simp [pillars, hlen]
    rw [pillars_append s _ _ (by simp [hlen]), pillars_append s _ _ hlen]
    constructor
    · rw [List.getElem?_append_left (by simp [hl]), List.getElem?_append_right (by omega)]
      simp [hl]
    · rw [List.getElem?_append_right (by simp [hl])]
      simp [hl]
  obtain ⟨v, hv, e, -⟩ := C35_between _ hs' _ _ _ _ _ _ hseg (le _ _ h0) (le _ _ h1)
  rw [hv]
  have sub : ∀ a b : Date, (Date.sub a s : ℝ) / N - (Date.sub b s : ℝ) / N = (Date.sub a b : ℝ) / N := by
    intro a b
    rw [← sub_div]
    congr 1
    rw [← C04_sub_additive s b a]
    push_cast
    ring
  rw [sub, sub, sub] at e
  have hpos : (0 : ℝ) < Date.sub m l := by exact_mod_cast (C04_sub_pos l m).2 hlm
  congr 2
  field_simp at e ⊢
  linarith

/-- The discount factor of a defined curve from settlement, as a number. -/
noncomputable def factorOr (D : DayCount ℝ) (s : Date) (ms : List Date) (ys : List ℝ) (d : Date) : ℝ :=
  match curveDiscount D (Interpolator.linear ℝ) s ms ys s d with
  | .ok (.ok v) => v
  | _ => 0

theorem sum_split (l : Date) (f g : BondCashFlow ℝ → ℝ) : ∀ L : List (BondCashFlow ℝ),
    (L.map fun c => if c.paymentDate ≤ l then f c else g c).sum =
      ((L.filter fun c => c.paymentDate ≤ l).map f).sum + ((L.filter fun c => ¬ c.paymentDate ≤ l).map g).sum
  | [] => by simp
  | c :: L => by
    by_cases h : c.paymentDate ≤ l
    · simp only [List.map_cons, List.sum_cons, sum_split l f g L, List.filter_cons, h, decide_true, not_true,
        decide_false, if_true, Bool.false_eq_true, if_false]
      ring
    · simp only [List.map_cons, List.sum_cons, sum_split l f g L, List.filter_cons, h, decide_false,
        not_false_eq_true, decide_true, if_true, Bool.false_eq_true, if_false]
      ring

/-- **C120.** Linear interpolation, one pillar at a time: with the yields of all pillars but the last given, the price of
a bond that has no negative flows and is paid in part after the last but one pillar `l` takes every value above `v₀`,
the value of the flows paid by `l` on the curve that ends there, at exactly one last yield, and no other value. -/
theorem C120_bootstrap (hD : IsActual D N) (s : Date) (ms : List Date) (l m : Date)
    (hm : (ms ++ [l] ++ [m]).Pairwise (· < ·)) (h1 : 1 ≤ ms.length) (ys : List ℝ) (z : ℝ) (hlen : ms.length = ys.length)
    (b : Bond ℝ) (hcov : ∀ g ∈ remaining b s, s < g.paymentDate ∧ Covers (ms ++ [l] ++ [m]) g.paymentDate)
    (h0 : ∀ g ∈ remaining b s, 0 ≤ g.paymentAmount)
    (hp : ∃ g ∈ remaining b s, l < g.paymentDate ∧ 0 < g.paymentAmount) :
    ∃ v₀, curvePrice D (Interpolator.linear ℝ) s (ms ++ [l]) (ys ++ [z]) (paidBy l b) s = .ok (.ok v₀) ∧
      (∀ v, v₀ < v → ∃! y, curvePrice D (Interpolator.linear ℝ) s (ms ++ [l] ++ [m]) (ys ++ [z] ++ [y]) b s = .ok (.ok v)) ∧
      ∀ v, v ≤ v₀ → ∀ y, curvePrice D (Interpolator.linear ℝ) s (ms ++ [l] ++ [m]) (ys ++ [z] ++ [y]) b s ≠ .ok (.ok v) := by
  have hI : IsShippedInterpolator (Interpolator.linear ℝ) 2 := .inl ⟨rfl, rfl⟩
  have hm' : (ms ++ [l]).Pairwise (· < ·) := (List.pairwise_append.1 hm).1
  have hlm : l < m := (List.pairwise_append.1 hm).2.2 l (by simp) m (by simp)
  have hlast : ∀ a ∈ ms ++ [l], a ≤ l := by
    intro a ha
    rcases List.mem_append.1 ha with ha | ha
    · exact ((List.pairwise_append.1 hm').2.2 a ha l (by simp)).le
    · rw [List.mem_singleton.1 ha]
  have hupper : ∀ a ∈ ms ++ [l] ++ [m], a ≤ m := by
    intro a ha
    rcases List.mem_append.1 ha with ha | ha
    · exact le_trans (hlast a ha) hlm.le
    · rw [List.mem_singleton.1 ha]
  have hle1 : (ms ++ [l]).length = (ys ++ [z]).length := by simp [hlen]
  have hle2 : ∀ y : ℝ, (ms ++ [l] ++ [m]).length = (ys ++ [z] ++ [y]).length := by intro y; simp [hlen]
  -- flows paid by `l`
  have early : ∀ g ∈ remaining b s, g.paymentDate ≤ l →
      curveDiscount D (Interpolator.linear ℝ) s (ms ++ [l]) (ys ++ [z]) s g.paymentDate =
        .ok (.ok (factorOr D s (ms ++ [l]) (ys ++ [z]) g.paymentDate)) ∧ ∀ y,
      curveDiscount D (Interpolator.linear ℝ) s (ms ++ [l] ++ [m]) (ys ++ [z] ++ [y]) s g.paymentDate =
        .ok (.ok (factorOr D s (ms ++ [l]) (ys ++ [z]) g.paymentDate)) := by
    intro g hg hgl
    obtain ⟨hsg, ⟨a, ha, had⟩, -⟩ := hcov g hg
    have hc : Covers (ms ++ [l]) g.paymentDate := by
      refine ⟨⟨a, ?_, had⟩, l, by simp, hgl⟩
      rcases List.mem_append.1 ha with ha | ha
      · exact ha
      · exact absurd (le_trans (by rwa [List.mem_singleton.1 ha] at had) hgl) (not_le.2 hlm)
    obtain ⟨v, hv⟩ := (C58_domain hD hI s (ms ++ [l]) (ys ++ [z]) hle1 hm' (by simp; omega) s g.paymentDate le_rfl hsg.le).1
      ⟨hc, .inl rfl⟩
    have hf : factorOr D s (ms ++ [l]) (ys ++ [z]) g.paymentDate = v := by unfold factorOr; rw [hv]
    rw [hf]
    refine ⟨hv, fun y => ?_⟩
    rw [curveDiscount_form hD hI (hle2 y) hm (by simp)]
    obtain ⟨e1, e2, y2, ev, z1, e3, e4⟩ := (curveDiscount_form hD hI hle1 hm' (by simp; omega)).1 hv
    refine ⟨e1, e2, y2, ?_, z1, e3, ?_⟩
    · rw [append_early hD hm (by simp; omega) hle1 hc]; exact ev
    · rcases e4 with e4 | ⟨e4, -⟩
      · exact .inl e4
      · exact absurd rfl e4
  -- flows paid later
  have late : ∀ g ∈ remaining b s, ¬ g.paymentDate ≤ l → ∀ y,
      curveDiscount D (Interpolator.linear ℝ) s (ms ++ [l] ++ [m]) (ys ++ [z] ++ [y]) s g.paymentDate =
        .ok (.ok (Real.exp (0 - (Date.sub g.paymentDate s : ℝ) / N * ((Date.sub m g.paymentDate : ℝ) / (Date.sub m l : ℝ) * z +
          (Date.sub g.paymentDate l : ℝ) / (Date.sub m l : ℝ) * y)))) := by
    intro g hg hgl y
    obtain ⟨hsg, -, a, ha, hda⟩ := hcov g hg
    rw [curveDiscount_form hD hI (hle2 y) hm (by simp)]
    exact ⟨le_rfl, hsg.le, _, append_late hD hm hlen (not_le.1 hgl).le (le_trans hda (hupper a ha)), 0, rfl, .inl ⟨rfl, rfl⟩⟩
  have hrem : remaining (paidBy l b) s = (remaining b s).filter fun g => g.paymentDate ≤ l := by
    simp only [remaining, paidBy, List.filter_filter, Bool.and_comm]
  refine ⟨(((remaining b s).filter fun g => g.paymentDate ≤ l).map fun g =>
    factorOr D s (ms ++ [l]) (ys ++ [z]) g.paymentDate * g.paymentAmount).sum, ?_, ?_⟩
  · rw [price_iff hD hI hle1 (by simp; omega) hm', hrem]
    refine ⟨((remaining b s).filter fun g => g.paymentDate ≤ l).map fun g =>
      factorOr D s (ms ++ [l]) (ys ++ [z]) g.paymentDate, ?_, ?_⟩
    · unfold FlowDiscounts
      rw [hrem, List.forall₂_map_right_iff, List.forall₂_same]
      intro g hg
      obtain ⟨hg, hgl⟩ := List.mem_filter.1 hg
      exact (early g hg (by simpa using hgl)).1
    · rw [List.zipWith_map_left, List.zipWith_self]
  have price : ∀ y, curvePrice D (Interpolator.linear ℝ) s (ms ++ [l] ++ [m]) (ys ++ [z] ++ [y]) b s =
      .ok (.ok ((((remaining b s).filter fun g => g.paymentDate ≤ l).map fun g =>
          factorOr D s (ms ++ [l]) (ys ++ [z]) g.paymentDate * g.paymentAmount).sum +
        flatSum (((remaining b s).filter fun g => ¬ g.paymentDate ≤ l).map fun g =>
          (g.paymentAmount * Real.exp (-((Date.sub g.paymentDate s : ℝ) / N * ((Date.sub m g.paymentDate : ℝ) /
              (Date.sub m l : ℝ) * z))),
            (Date.sub g.paymentDate s : ℝ) / N * ((Date.sub g.paymentDate l : ℝ) / (Date.sub m l : ℝ)))) y)) := by
    intro y
    rw [price_iff hD hI (hle2 y) (by simp) hm]
    refine ⟨(remaining b s).map fun g => if g.paymentDate ≤ l then factorOr D s (ms ++ [l]) (ys ++ [z]) g.paymentDate else
      Real.exp (0 - (Date.sub g.paymentDate s : ℝ) / N * ((Date.sub m g.paymentDate : ℝ) / (Date.sub m l : ℝ) * z +
          (Date.sub g.paymentDate l : ℝ) / (Date.sub m l : ℝ) * y)), ?_, ?_⟩
    · unfold FlowDiscounts
      rw [List.forall₂_map_right_iff, List.forall₂_same]
      intro g hg
      split_ifs with hgl
      · exact (early g hg hgl).2 y
      · exact late g hg hgl y
    · rw [List.zipWith_map_left, List.zipWith_self]
      simp only [ite_mul]
      rw [sum_split]
      congr 1
      simp only [flatSum, List.map_map, Function.comp_def]
      congr 1
      refine List.map_congr_left fun g _ => ?_
      rw [mul_assoc, ← Real.exp_add, mul_comm]
      congr 2
      ring
  have hml : (0 : ℝ) < Date.sub m l := by exact_mod_cast (C04_sub_pos l m).2 hlm
  have hl1 : ∀ p ∈ ((remaining b s).filter fun g => ¬ g.paymentDate ≤ l).map fun g =>
      (g.paymentAmount * Real.exp (-((Date.sub g.paymentDate s : ℝ) / N * ((Date.sub m g.paymentDate : ℝ) /
          (Date.sub m l : ℝ) * z))),
        (Date.sub g.paymentDate s : ℝ) / N * ((Date.sub g.paymentDate l : ℝ) / (Date.sub m l : ℝ))),
      0 ≤ p.1 ∧ 0 < p.2 := by
    intro p hp
    obtain ⟨g, hg, rfl⟩ := List.mem_map.1 hp
    obtain ⟨hg, hgl⟩ := List.mem_filter.1 hg
    have hgl : l < g.paymentDate := by simpa using hgl
    exact ⟨mul_nonneg (h0 g hg) (Real.exp_pos _).le, mul_pos (fraction_pos hD (hcov g hg).1)
      (div_pos (by exact_mod_cast (C04_sub_pos l g.paymentDate).2 hgl) hml)⟩
  have hl2 : ∃ p ∈ ((remaining b s).filter fun g => ¬ g.paymentDate ≤ l).map fun g =>
      (g.paymentAmount * Real.exp (-((Date.sub g.paymentDate s : ℝ) / N * ((Date.sub m g.paymentDate : ℝ) /
          (Date.sub m l : ℝ) * z))),
        (Date.sub g.paymentDate s : ℝ) / N * ((Date.sub g.paymentDate l : ℝ) / (Date.sub m l : ℝ))), 0 < p.1 := by
    obtain ⟨g, hg, hgl, h⟩ := hp
    exact ⟨_, List.mem_map_of_mem (List.mem_filter.2 ⟨hg, by simpa using hgl⟩), mul_pos h (Real.exp_pos _)⟩
  simp only [price, Rust.ok.injEq, Except.ok.injEq]
  refine ⟨fun v hv => ?_, fun v hv y => ?_⟩
  · obtain ⟨y, hy, hu⟩ := flatSum_surjective _ hl1 hl2 _ (sub_pos.2 hv)
    exact ⟨y, by simp only [hy]; ring, fun w hw => hu w (by simp only at hw ⊢; linarith)⟩
  · obtain ⟨p, hp, hp0⟩ := hl2
    have h3 := lt_of_lt_of_le (mul_pos hp0 (Real.exp_pos (-(p.2 * y)))) (flatSum_ge _ (fun q hq => (hl1 q hq).1) p hp y)
    intro hc
    simp only [Rust.ok.injEq, Except.ok.injEq] at hc
    exact not_lt.2 hv (hc ▸ lt_add_of_pos_right _ h3)

/-- Three pillars, the discount factors 0.99, 0.97 and 0.96, any interpolator. -/
example (hI : IsShippedInterpolator I n) : ∃! ys : List ℝ, exMaturities.length = ys.length ∧
    ∀ i (hi : i < exMaturities.length), curveDiscount DayCount.act365 I exSettle exMaturities ys exSettle exMaturities[i] =
      .ok (.ok (([0.99, 0.97, 0.96] : List ℝ)[i]'hi)) :=
  C120_discounts (.inr ⟨rfl, rfl⟩) hI exSettle exMaturities exMaturities_increasing
    (by rcases hI with h | h | h <;> rw [h.2] <;> decide) (by decide) [0.99, 0.97, 0.96] rfl (by simp; norm_num)

example (hI : IsShippedInterpolator I n) (ys zs : List ℝ) (hy : 3 = ys.length) (hz : 3 = zs.length)
    (h : ∀ m ∈ exMaturities, curveDiscount DayCount.act365 I exSettle exMaturities ys exSettle m =
      curveDiscount DayCount.act365 I exSettle exMaturities zs exSettle m) : ys = zs :=
  C120_determined (.inr ⟨rfl, rfl⟩) hI exSettle exMaturities exMaturities_increasing
    (by rcases hI with h | h | h <;> rw [h.2] <;> decide) (by decide) ys zs hy hz h

/-- A bond with flows at two pillars and between the last two, the yields of the first two pillars given. -/
example : ∃ v₀, ∀ v, v₀ < v → ∃! y : ℝ, curvePrice DayCount.act365 (Interpolator.linear ℝ) exSettle exMaturities
    [0.02, 0.0219, y] (Bond.mk "" [⟨⟨2023, 11, 7, by decide⟩, ⟨2023, 11, 7, by decide⟩, 3⟩,
      ⟨⟨2024, 5, 7, by decide⟩, ⟨2024, 5, 7, by decide⟩, 3⟩, ⟨⟨2024, 8, 7, by decide⟩, ⟨2024, 8, 7, by decide⟩, 103⟩]) exSettle =
      .ok (.ok v) := by
  have hr : remaining (Bond.mk "" [⟨⟨2023, 11, 7, by decide⟩, ⟨2023, 11, 7, by decide⟩, (3 : ℝ)⟩,
      ⟨⟨2024, 5, 7, by decide⟩, ⟨2024, 5, 7, by decide⟩, 3⟩, ⟨⟨2024, 8, 7, by decide⟩, ⟨2024, 8, 7, by decide⟩, 103⟩]) exSettle =
      [⟨⟨2023, 11, 7, by decide⟩, ⟨2023, 11, 7, by decide⟩, 3⟩, ⟨⟨2024, 5, 7, by decide⟩, ⟨2024, 5, 7, by decide⟩, 3⟩,
        ⟨⟨2024, 8, 7, by decide⟩, ⟨2024, 8, 7, by decide⟩, 103⟩] := by
    have h0 : exSettle < (⟨2023, 11, 7, by decide⟩ : Date) := by decide
    have h1 : exSettle < (⟨2024, 5, 7, by decide⟩ : Date) := by decide
    have h2 : exSettle < (⟨2024, 8, 7, by decide⟩ : Date) := by decide
    simp [remaining, h0, h1, h2]
  obtain ⟨v₀, -, h, -⟩ := C120_bootstrap (.inr ⟨rfl, rfl⟩ : IsActual (DayCount.act365 (V := ℝ)) 365) exSettle
    [⟨2023, 11, 7, by decide⟩] ⟨2024, 5, 7, by decide⟩ ⟨2024, 11, 7, by decide⟩ (by decide) (by decide) [0.02] 0.0219 rfl
    (Bond.mk "" [⟨⟨2023, 11, 7, by decide⟩, ⟨2023, 11, 7, by decide⟩, 3⟩,
      ⟨⟨2024, 5, 7, by decide⟩, ⟨2024, 5, 7, by decide⟩, 3⟩, ⟨⟨2024, 8, 7, by decide⟩, ⟨2024, 8, 7, by decide⟩, 103⟩])
    (by
      rw [hr]
      simp only [List.forall_mem_cons, List.not_mem_nil, false_imp_iff, implies_true, and_true]
      exact ⟨⟨by decide, by unfold Covers; decide⟩, ⟨by decide, by unfold Covers; decide⟩, by decide, by unfold Covers; decide⟩)
    (by rw [hr]; simp) ⟨⟨⟨2024, 8, 7, by decide⟩, ⟨2024, 8, 7, by decide⟩, 103⟩, by rw [hr]; simp, by decide, by norm_num⟩
  exact ⟨v₀, h⟩

end

end Qlab.Props
