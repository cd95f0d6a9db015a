import Verif.Props.BondValue
import Verif.Props.RoundTrips

/-!
# C138: bonds that agree up to a date pay alike up to it; C139: a seasoned bond is a new bond

All theorems hold for every value type, floats included.
-/

namespace Qlab.Props

open Spec

section
variable {V : Type} [Add V] [Mul V] [Div V] [FromInt V] {id id' : String}
  {issue issue' first pen pen' mat mat' : Date} {f : Frequency} {rate face : V} {b b' : Bond V}

omit [Add V] [Mul V] [Div V] [FromInt V] in
theorem regularLoop_prefix {m : Nat} {hm : 0 < m} {c : V} (hp : pen ≤ pen') :
    ∀ {fl fl' : List (BondCashFlow V)} {d : Date}, Bond.regularLoop m hm c pen d = some fl →
      Bond.regularLoop m hm c pen' d = some fl' → ∃ r, fl' = fl ++ r ∧ ∀ g ∈ r, pen < g.dueDate := by
  intro fl
  induction fl with
  | nil =>
    intro fl' d h h'
    refine ⟨fl', rfl, fun g hg => ?_⟩
    have hd : pen < d := by
      rw [← not_le]; intro hle
      obtain ⟨_, _, _, _, _, _, e⟩ := (Bond.regularLoop_cons m hm c hle []).1 h
      cases e
    have hs := (Bond.regularLoop_spec _ _ _ _ _ _ h').1
    have hmem : g.dueDate ∈ fl'.map (·.dueDate) := List.mem_map_of_mem hg
    have hpw := (hs.steps.imp fun a b h => isMonthsLater_lt (by omega) h).pairwise
    cases hl : fl'.map (·.dueDate) with
    | nil => rw [hl] at hmem; cases hmem
    | cons x l =>
      rw [hl] at hmem hpw
      have hx := hs.start x (by rw [hl]; rfl)
      subst hx
      rcases List.mem_cons.1 hmem with e | e
      · rw [e]; exact hd
      · exact lt_trans hd ((List.pairwise_cons.1 hpw).1 _ e)
  | cons x fl ih =>
    intro fl' d h h'
    have hd : d ≤ pen := by
      rw [← not_lt]; intro hlt
      rw [Bond.regularLoop_nil m hm c hlt] at h
      cases h
    obtain ⟨p, n, r, h1, h2, h3, h4⟩ := (Bond.regularLoop_cons m hm c hd _).1 h
    obtain ⟨p', n', r', g1, g2, g3, g4⟩ := (Bond.regularLoop_cons m hm c (le_trans hd hp) _).1 h'
    rw [h1] at g1
    rw [h2] at g2
    cases g1
    cases g2
    cases h4
    obtain ⟨t, e1, e2⟩ := ih h3 g3
    exact ⟨t, by rw [g4, e1]; rfl, e2⟩

/-- The first flow is changed in the same way whatever follows it. -/
theorem firstCashFlow_cons {m : Nat} {c : V} {x : BondCashFlow V} {l r : List (BondCashFlow V)}
    (h : Bond.firstCashFlow issue first m c (x :: l) = .ok (some r)) :
    ∃ y, r = y :: l ∧ y.dueDate = x.dueDate ∧ y.paymentDate = x.paymentDate ∧
      ∀ l', Bond.firstCashFlow issue first m c (x :: l') = .ok (some (y :: l')) := by
  unfold Bond.firstCashFlow at h ⊢
  split at h
  · simp at h
  · split at h
    · rename_i h1 h2
      simp only [h1, if_pos h2]
      split at h
      · simp at h; subst h
        exact ⟨_, rfl, rfl, rfl, fun l' => by simp⟩
      · simp at h
    · rename_i h1 h2
      split at h
      · rename_i h3
        simp only [h1, if_neg h2, if_pos h3]
        split at h
        · simp at h
        · rename_i h4
          split at h
          · simp at h; subst h
            exact ⟨_, rfl, rfl, rfl, fun l' => by simp⟩
          · simp at h
      · rename_i h3
        simp only [h1, if_neg h2, if_neg h3]
        simp at h; subst h
        exact ⟨_, rfl, rfl, rfl, fun l' => rfl⟩

/-- **C138.** Two bonds with the same issue date, first coupon date, rate and face value pay exactly the same on all
dates up to the earlier of their penultimate coupon dates, whatever comes later. -/
theorem C138_alike (h : Bond.new id issue first pen mat f rate face = .ok (some b))
    (h' : Bond.new id' issue first pen' mat' f rate face = .ok (some b')) (hp : pen ≤ pen') (hm : pen < mat)
    (hm' : pen < mat') :
    b.bondCashFlows.filter (fun g => g.dueDate ≤ pen) = b'.bondCashFlows.filter (fun g => g.dueDate ≤ pen) := by
  obtain ⟨freq, fl, fl1, fin, e1, e2, e3, e4, rfl⟩ := Bond.new_eq_some.1 h
  obtain ⟨freq', fl', fl1', fin', g1, g2, g3, g4, rfl⟩ := Bond.new_eq_some.1 h'
  rw [e1] at g1
  cases g1
  obtain ⟨r, hr1, hr2⟩ := regularLoop_prefix hp e2 g2
  subst hr1
  have hf : ¬ fin.dueDate ≤ pen := by rw [(Bond.finalCashFlow_dates e4).1]; exact not_le.2 hm
  have hf' : ¬ fin'.dueDate ≤ pen := by rw [(Bond.finalCashFlow_dates g4).1]; exact not_le.2 hm'
  have hr3 : r.filter (fun g => decide (g.dueDate ≤ pen)) = [] := by
    rw [List.filter_eq_nil_iff]
    intro g hg
    simpa using hr2 g hg
  cases fl with
  | nil =>
    have s1 := (Bond.firstCashFlow_shape e3).1
    have s2 := (Bond.firstCashFlow_shape g3).1
    obtain rfl : fl1 = [] := by simpa using s1
    have : ∀ g ∈ fl1', pen < g.dueDate := by
      intro g hg
      have : g.dueDate ∈ (([] : List (BondCashFlow V)) ++ r).map (·.dueDate) := s2 ▸ List.mem_map_of_mem hg
      obtain ⟨q, hq, hq'⟩ := List.mem_map.1 this
      rw [← hq']
      exact hr2 q (by simpa using hq)
    have hn : fl1'.filter (fun g => decide (g.dueDate ≤ pen)) = [] := by
      rw [List.filter_eq_nil_iff]
      intro g hg
      simpa using this g hg
    simp [List.filter_append, hn, hf, hf']
  | cons x fl =>
    obtain ⟨y, q1, -, -, q2⟩ := firstCashFlow_cons e3
    have q3 := q2 (fl ++ r)
    rw [show (x :: fl) ++ r = x :: (fl ++ r) from rfl, q3] at g3
    cases g3
    subst q1
    simp [List.filter_append, List.filter_cons, hr3, hf, hf']

/-- A bond to November 2042 and one to May 2052. -/
example : ∃ b b' : Bond ℚ, Bond.new "" ⟨2023, 5, 8, by decide⟩ ⟨2023, 11, 7, by decide⟩ ⟨2042, 5, 7, by decide⟩
      ⟨2042, 11, 7, by decide⟩ .sa 0.062 1000 = .ok (some b) ∧
    Bond.new "" ⟨2023, 5, 8, by decide⟩ ⟨2023, 11, 7, by decide⟩ ⟨2051, 11, 7, by decide⟩
      ⟨2052, 5, 7, by decide⟩ .sa 0.062 1000 = .ok (some b') ∧
    b.bondCashFlows.filter (fun g => g.dueDate ≤ ⟨2042, 5, 7, by decide⟩) =
      b'.bondCashFlows.filter (fun g => g.dueDate ≤ ⟨2042, 5, 7, by decide⟩) := by
  obtain ⟨b, hb⟩ := C51_in_range_partial (K := ℚ) (id := "") (issue := ⟨2023, 5, 8, by decide⟩)
    (first := ⟨2023, 11, 7, by decide⟩) (pen := ⟨2042, 5, 7, by decide⟩) (mat := ⟨2042, 11, 7, by decide⟩) (f := .sa)
    (rate := 0.062) (face := 1000) (by decide) (by decide) (by decide)
  obtain ⟨b', hb'⟩ := C51_in_range_partial (K := ℚ) (id := "") (issue := ⟨2023, 5, 8, by decide⟩)
    (first := ⟨2023, 11, 7, by decide⟩) (pen := ⟨2051, 11, 7, by decide⟩) (mat := ⟨2052, 5, 7, by decide⟩) (f := .sa)
    (rate := 0.062) (face := 1000) (by decide) (by decide) (by decide)
  exact ⟨b, b', hb, hb', C138_alike hb hb' (by decide) (by decide) (by decide)⟩

/-- **C138.** The issue date has an effect on the amount of the first flow and on nothing else. -/
theorem C138_issue (h : Bond.new id issue first pen mat f rate face = .ok (some b))
    (h' : Bond.new id' issue' first pen mat f rate face = .ok (some b')) :
    b.bondCashFlows.tail = b'.bondCashFlows.tail ∧
    b.bondCashFlows.map (·.dueDate) = b'.bondCashFlows.map (·.dueDate) ∧
    b.bondCashFlows.map (·.paymentDate) = b'.bondCashFlows.map (·.paymentDate) := by
  obtain ⟨freq, fl, fl1, fin, e1, e2, e3, e4, rfl⟩ := Bond.new_eq_some.1 h
  obtain ⟨freq', fl', fl1', fin', g1, g2, g3, g4, rfl⟩ := Bond.new_eq_some.1 h'
  rw [e1] at g1
  cases g1
  rw [e2] at g2
  cases g2
  rw [e4] at g4
  cases g4
  obtain ⟨s1, s2, s3⟩ := Bond.firstCashFlow_shape e3
  obtain ⟨t1, t2, t3⟩ := Bond.firstCashFlow_shape g3
  refine ⟨?_, by simp [s1, t1], by simp [s2, t2]⟩
  cases fl1 with
  | nil =>
    have : fl1' = [] := by
      have := s1.trans t1.symm
      simpa using this
    rw [this]
  | cons x l =>
    cases fl1' with
    | nil => have := s1.trans t1.symm; simp at this
    | cons x' l' => simpa using s3.trans t3.symm

example : ∃ b b' : Bond ℚ, Bond.new "" ⟨2023, 5, 8, by decide⟩ ⟨2023, 11, 7, by decide⟩ ⟨2042, 5, 7, by decide⟩
      ⟨2042, 11, 7, by decide⟩ .sa 0.062 1000 = .ok (some b) ∧
    Bond.new "" ⟨2022, 12, 8, by decide⟩ ⟨2023, 11, 7, by decide⟩ ⟨2042, 5, 7, by decide⟩
      ⟨2042, 11, 7, by decide⟩ .sa 0.062 1000 = .ok (some b') ∧ b.bondCashFlows.tail = b'.bondCashFlows.tail := by
  obtain ⟨b, hb⟩ := C51_in_range_partial (K := ℚ) (id := "") (issue := ⟨2023, 5, 8, by decide⟩)
    (first := ⟨2023, 11, 7, by decide⟩) (pen := ⟨2042, 5, 7, by decide⟩) (mat := ⟨2042, 11, 7, by decide⟩) (f := .sa)
    (rate := 0.062) (face := 1000) (by decide) (by decide) (by decide)
  obtain ⟨b', hb'⟩ := C51_in_range_partial (K := ℚ) (id := "") (issue := ⟨2022, 12, 8, by decide⟩)
    (first := ⟨2023, 11, 7, by decide⟩) (pen := ⟨2042, 5, 7, by decide⟩) (mat := ⟨2042, 11, 7, by decide⟩) (f := .sa)
    (rate := 0.062) (face := 1000) (by decide) (by decide) (by decide)
  exact ⟨b, b', hb, hb', (C138_issue hb hb').1⟩

omit [Add V] [Mul V] [Div V] [FromInt V] in
theorem regularLoop_drop {m : Nat} {hm : 0 < m} {c : V} : ∀ {fl : List (BondCashFlow V)} {d : Date} {k : Nat}
    {next : Date}, Bond.regularLoop m hm c pen d = some fl → (hk : k < fl.length) →
      Date.checkedAddMonths fl[k].dueDate m = some next → Bond.regularLoop m hm c pen next = some (fl.drop (k + 1)) := by
  intro fl
  induction fl with
  | nil => intro d k next _ hk; exact absurd hk (by simp)
  | cons x fl ih =>
    intro d k next h hk hn
    have hd : d ≤ pen := by
      rw [← not_lt]; intro hlt
      rw [Bond.regularLoop_nil m hm c hlt] at h
      cases h
    obtain ⟨p, n, r, h1, h2, h3, h4⟩ := (Bond.regularLoop_cons m hm c hd _).1 h
    cases h4
    cases k with
    | zero =>
      have hn : Date.checkedAddMonths d m = some next := hn
      rw [h2] at hn
      cases hn
      exact h3
    | succ k => exact ih h3 (by simpa using hk) hn

omit [Add V] [Mul V] [Div V] [FromInt V] in
theorem regularLoop_next {m : Nat} {hm : 0 < m} {c : V} : ∀ {fl : List (BondCashFlow V)} {d : Date} {k : Nat},
    Bond.regularLoop m hm c pen d = some fl → (hk : k < fl.length) →
      ∃ next, Date.checkedAddMonths fl[k].dueDate m = some next := by
  intro fl
  induction fl with
  | nil => intro d k _ hk; exact absurd hk (by simp)
  | cons x fl ih =>
    intro d k h hk
    have hd : d ≤ pen := by
      rw [← not_lt]; intro hlt
      rw [Bond.regularLoop_nil m hm c hlt] at h
      cases h
    obtain ⟨p, n, r, h1, h2, h3, h4⟩ := (Bond.regularLoop_cons m hm c hd _).1 h
    cases h4
    cases k with
    | zero => exact ⟨n, h2⟩
    | succ k => exact ih h3 (by simpa using hk)

/-- **C139**, with the condition it needs: after a coupon due on the same day of the month as the next one, what is left
of a bond is the bond issued on the day of that coupon. -/
theorem C139_seasoned_partial (h : Bond.new id issue first pen mat f rate face = .ok (some b)) (k : Nat)
    (hk : k + 1 < b.bondCashFlows.length) (next : Date)
    (hn : Date.checkedAddMonths b.bondCashFlows[k].dueDate 6 = some next)
    (hs : next.day = b.bondCashFlows[k].dueDate.day) :
    Bond.new id b.bondCashFlows[k].dueDate next pen mat f rate face =
      .ok (some ⟨id, b.bondCashFlows.drop (k + 1)⟩) := by
  obtain ⟨freq, fl, fl1, fin, e1, e2, e3, e4, rfl⟩ := Bond.new_eq_some.1 h
  obtain ⟨s1, -, s3⟩ := Bond.firstCashFlow_shape e3
  have hlen : fl1.length = fl.length := by simpa using congrArg List.length s1
  have hk1 : k < fl1.length := by simpa using hk
  have hk2 : k < fl.length := hlen ▸ hk1
  have hdue : ((fl1 ++ [fin])[k]'(Nat.lt_of_succ_lt hk)).dueDate = fl[k].dueDate := by
    rw [List.getElem_append_left hk1]
    have h1 : (fl1.map (·.dueDate))[k]? = (fl.map (·.dueDate))[k]? := by rw [s1]
    simpa [hk1, hk2] using h1
  simp only [hdue] at hn hs ⊢
  have hs : Date.checkedSubMonths next 6 = some fl[k].dueDate := by
    obtain ⟨q, q1, -, -, -, q2, -⟩ := C134_months_forth_back _ _ _ hn
    rwa [q2.2 hs] at q1
  refine Bond.new_eq_some.2 ⟨freq, fl.drop (k + 1), fl.drop (k + 1), fin, e1, ?_, ?_, e4, ?_⟩
  · exact regularLoop_drop e2 hk2 (by rw [months_eq]; exact hn)
  · unfold Bond.firstCashFlow
    rw [months_eq, hs]
    simp only [lt_irrefl, if_false]
  · congr 1
    rw [List.drop_append_of_le_length (by omega)]
    congr 1
    rw [← List.drop_one, ← List.drop_one] at s3
    rw [show k + 1 = 1 + k by omega, ← List.drop_drop, ← List.drop_drop, s3]

/-- **C139.** The condition holds for all coupons if the first coupon is due on one of the first 28 days of a month. -/
theorem C139_seasoned_28 (h : Bond.new id issue first pen mat f rate face = .ok (some b)) (hd : first.day ≤ 28)
    (k : Nat) (hk : k + 1 < b.bondCashFlows.length) :
    ∃ next, Date.checkedAddMonths b.bondCashFlows[k].dueDate 6 = some next ∧
      Bond.new id b.bondCashFlows[k].dueDate next pen mat f rate face =
        .ok (some ⟨id, b.bondCashFlows.drop (k + 1)⟩) := by
  have hfirst : b.bondCashFlows[0].dueDate = first := by
    obtain ⟨coupons, final, e, hs, -, -⟩ := C48_schedule h
    have hl : 0 < coupons.length := by rw [e] at hk; simp at hk; omega
    simp only [e]
    rw [List.getElem_append_left hl]
    exact hs.start _ (by rw [List.head?_map, List.head?_eq_getElem?, List.getElem?_eq_getElem hl]; rfl)
  obtain ⟨next, hn⟩ : ∃ next, Date.checkedAddMonths b.bondCashFlows[k].dueDate 6 = some next := by
    obtain ⟨freq, fl, fl1, fin, e1, e2, e3, e4, rfl⟩ := Bond.new_eq_some.1 h
    have s1 := (Bond.firstCashFlow_shape e3).1
    have hlen : fl1.length = fl.length := by simpa using congrArg List.length s1
    have hk1 : k < fl1.length := by simpa using hk
    have hk2 : k < fl.length := hlen ▸ hk1
    have hdue : ((fl1 ++ [fin])[k]'(Nat.lt_of_succ_lt hk)).dueDate = fl[k].dueDate := by
      rw [List.getElem_append_left hk1]
      have h1 : (fl1.map (·.dueDate))[k]? = (fl.map (·.dueDate))[k]? := by rw [s1]
      simpa [hk1, hk2] using h1
    simp only [hdue]
    have := regularLoop_next e2 hk2
    rwa [months_eq] at this
  refine ⟨next, hn, C139_seasoned_partial h k hk next hn ?_⟩
  have hday : b.bondCashFlows[k].dueDate.day ≤ 28 :=
    le_trans ((C49_month_partial h k hk).2.1 0 (Nat.zero_le _)) (by rw [hfirst]; exact hd)
  have h2 := ((addMonths_iff (n := 6)).1 hn).2
  have h28 : 28 ≤ monthLen (isLeap next.year) next.month := by
    have key : ∀ b, ∀ m, m ≤ 12 → 1 ≤ m → 28 ≤ monthLen b m := by decide
    exact key _ _ next.month_le next.month_pos
  rcases h2 with h2 | ⟨h2, h3⟩
  · exact h2
  · have := (isLastDay_iff _ _ _).1 h3
    omega

end

section
variable {V : Type} [Zero V] [Neg V] [Add V] [Sub V] [Mul V] [Div V] [HasExp V] [FromInt V] {I : Interpolator V}
  {id : String} {issue first pen mat : Date} {f : Frequency} {rate face : V} {b b' : Bond V}

/-- **C139**, for prices: from the day of the coupon on, the two bonds have the same price on every curve (the same
error, if any). -/
theorem C139_price_partial (D : DayCount V) (c : YieldCurve V I)
    (h : Bond.new id issue first pen mat f rate face = .ok (some b)) (k : Nat)
    (hk : k + 1 < b.bondCashFlows.length) (next settle : Date)
    (hn : Date.checkedAddMonths b.bondCashFlows[k].dueDate 6 = some next)
    (hs : next.day = b.bondCashFlows[k].dueDate.day)
    (h' : Bond.new id b.bondCashFlows[k].dueDate next pen mat f rate face = .ok (some b'))
    (hset : b.bondCashFlows[k].dueDate ≤ settle) :
    b.discountedValue D settle c = b'.discountedValue D settle c := by
  have e := C139_seasoned_partial h k hk next hn hs
  rw [h'] at e
  cases e
  unfold Bond.discountedValue
  rw [pvLoop_filter, pvLoop_filter (l := b.bondCashFlows.drop (k + 1))]
  congr 1
  conv_lhs => rw [← List.take_append_drop (k + 1) b.bondCashFlows]
  rw [List.filter_append]
  have : (b.bondCashFlows.take (k + 1)).filter (fun g => decide (settle < g.dueDate)) = [] := by
    rw [List.filter_eq_nil_iff]
    intro g hg
    obtain ⟨j, hj, rfl⟩ := List.getElem_of_mem hg
    have hj' : j < k + 1 := by
      have := hj
      rw [List.length_take] at this
      omega
    rw [List.getElem_take]
    have hle : b.bondCashFlows[j].dueDate ≤ b.bondCashFlows[k].dueDate := by
      obtain ⟨coupons, final, e, -, hp, -⟩ := C48_schedule h
      simp only [e] at hk ⊢
      have hkc : k < coupons.length := by simpa using hk
      rw [List.getElem_append_left (by omega), List.getElem_append_left hkc]
      rcases Nat.lt_or_ge j k with hjk | hjk
      · have := List.pairwise_iff_getElem.1 hp j k (by simp; omega) (by simpa using hkc) hjk
        simp only [List.getElem_map] at this
        exact le_of_lt this
      · have : j = k := by omega
        subst this
        exact le_refl _
    simpa using le_trans hle hset
  rw [this, List.nil_append]

end

/-- **C139.** The condition is needed: if the next coupon, not the final one, is due on another day of the month, the bond
issued on the day of the coupon has a different first coupon (unless coupons are zero). -/
theorem C139_condition {K : Type} [Field K] [LinearOrder K] [IsStrictOrderedRing K] [FromInt K] [ExactCast K]
    {id id' : String} {issue first pen mat : Date} {f : Frequency} {rate face : K} {b b' : Bond K}
    (h : Bond.new id issue first pen mat f rate face = .ok (some b)) (k : Nat)
    (hk : k + 1 < b.bondCashFlows.length) (next : Date)
    (hn : Date.checkedAddMonths b.bondCashFlows[k].dueDate 6 = some next) (hp : next ≤ pen)
    (hs : next.day ≠ b.bondCashFlows[k].dueDate.day) (hc : rate * face ≠ 0)
    (h' : Bond.new id' b.bondCashFlows[k].dueDate next pen mat f rate face = .ok (some b')) :
    b'.bondCashFlows ≠ b.bondCashFlows.drop (k + 1) := by
  intro heq
  obtain ⟨coupons, final, e, hsch, -, -⟩ := C48_schedule h
  obtain ⟨coupons2, final2, e2, hk2, -⟩ := C50_amounts h
  obtain ⟨rfl, rfl⟩ : coupons = coupons2 ∧ final = final2 := by
    have := e.symm.trans e2
    simpa [List.append_inj'] using List.append_inj' this rfl
  obtain ⟨coupons', final', e', -, h0, -⟩ := C50_amounts h'
  obtain ⟨coupons3, final3, e3, hsch', -, -⟩ := C48_schedule h'
  obtain ⟨rfl, rfl⟩ : coupons' = coupons3 ∧ final' = final3 := by
    have := e'.symm.trans e3
    simpa [List.append_inj'] using List.append_inj' this rfl
  have hkc : k < coupons.length := by rw [e] at hk; simpa using hk
  have hdue : b.bondCashFlows[k].dueDate = coupons[k].dueDate := by
    simp only [e]; rw [List.getElem_append_left hkc]
  rw [hdue] at hn hs
  -- there is a coupon after the coupon
  have hk1 : k + 1 < coupons.length := by
    by_contra hle
    have hl : k + 1 = coupons.length := by omega
    have := hsch.complete coupons[k].dueDate (by
      rw [List.getLast?_eq_getElem?, List.getElem?_map, List.length_map, ← hl, Nat.add_sub_cancel,
        List.getElem?_eq_getElem hkc]; rfl)
    obtain ⟨z, hz1, hz2⟩ := this
    obtain rfl := isMonthsLater_unique hz1 ((addMonths_iff (n := 6)).1 hn)
    exact absurd hp (not_le.2 hz2)
  have hne : coupons' ≠ [] := by
    intro hnil
    have := hsch'.empty.1 (by rw [hnil]; rfl)
    exact absurd hp (not_le.2 this)
  obtain ⟨g, l, rfl⟩ := List.exists_cons_of_ne_nil hne
  obtain ⟨x, hx, hg⟩ := h0 g rfl
  have hlt : coupons[k].dueDate < next := isMonthsLater_lt (n := 6) (by norm_num) ((addMonths_iff (n := 6)).1 hn)
  rw [hdue] at hx
  obtain ⟨-, prior, hp1, -, hp2, -⟩ := C50_first_length_bounds x hx hlt
  have hx1 : x ≠ 1 := by
    intro h1
    have h3 := hp2.1 h1
    subst h3
    obtain ⟨q, q1, -, -, -, q2, -⟩ := C134_months_forth_back _ _ _ hn
    have h4 := (subMonths_iff (n := 6)).2 hp1
    rw [h4] at q1
    cases q1
    exact hs (q2.1 rfl)
  have hgk : g = coupons[k + 1] := by
    rw [e', e] at heq
    have := congrArg (·[0]?) heq
    simp only [List.cons_append, List.getElem?_cons_zero, List.getElem?_drop, Nat.add_zero] at this
    rw [List.getElem?_append_left hk1, List.getElem?_eq_getElem hk1] at this
    exact Option.some.inj this
  have ha := hk2 (k + 1) hk1 (by omega)
  rw [← hgk, hg] at ha
  have hc2 : rate * face / 2 ≠ 0 := div_ne_zero hc two_ne_zero
  exact hx1 (mul_left_cancel₀ hc2 (by rw [ha, mul_one]))

/-- The bond of 7 November and 7 May: after its first coupon it is the bond issued on that day. -/
example : ∃ b : Bond ℚ, Bond.new "" ⟨2023, 5, 8, by decide⟩ ⟨2023, 11, 7, by decide⟩ ⟨2024, 5, 7, by decide⟩
      ⟨2024, 11, 7, by decide⟩ .sa 0.062 1000 = .ok (some b) ∧
    ∀ (k : Nat) (hk : k + 1 < b.bondCashFlows.length), ∃ next,
      Date.checkedAddMonths b.bondCashFlows[k].dueDate 6 = some next ∧
      Bond.new "" b.bondCashFlows[k].dueDate next ⟨2024, 5, 7, by decide⟩ ⟨2024, 11, 7, by decide⟩ .sa 0.062 1000 =
        .ok (some ⟨"", b.bondCashFlows.drop (k + 1)⟩) := by
  obtain ⟨b, hb⟩ := C51_in_range_partial (K := ℚ) (id := "") (issue := ⟨2023, 5, 8, by decide⟩)
    (first := ⟨2023, 11, 7, by decide⟩) (pen := ⟨2024, 5, 7, by decide⟩) (mat := ⟨2024, 11, 7, by decide⟩) (f := .sa)
    (rate := 0.062) (face := 1000) (by decide) (by decide) (by decide)
  exact ⟨b, hb, fun k hk => C139_seasoned_28 hb (by decide) k hk⟩

/-- **C139** fails in general: of the bond with coupons on 31 August 2023 and 29 February 2024 the flows after the first
coupon are not those of the bond issued on 31 August 2023, whose first period is taken for a short one. -/
theorem C139_refuted : ∃ (issue first pen mat next : Date) (b b' : Bond ℚ),
    Bond.new "" issue first pen mat .sa 1 100 = .ok (some b) ∧ Date.checkedAddMonths first 6 = some next ∧
    next ≤ pen ∧ Bond.new "" first next pen mat .sa 1 100 = .ok (some b') ∧
    b.bondCashFlows.tail ≠ b'.bondCashFlows := by
  refine ⟨⟨2023, 2, 28, by decide⟩, ⟨2023, 8, 31, by decide⟩, ⟨2024, 2, 29, by decide⟩, ⟨2024, 8, 29, by decide⟩,
    ⟨2024, 2, 29, by decide⟩,
    ⟨"", [⟨⟨2023, 8, 31, by decide⟩, ⟨2023, 8, 31, by decide⟩, 1 * 100 / 2⟩,
      ⟨⟨2024, 2, 29, by decide⟩, ⟨2024, 2, 29, by decide⟩, 1 * 100 / 2⟩] ++
      [⟨⟨2024, 8, 29, by decide⟩, ⟨2024, 8, 29, by decide⟩, 100 + 1 * 100 / 2⟩]⟩,
    ⟨"", [⟨⟨2024, 2, 29, by decide⟩, ⟨2024, 2, 29, by decide⟩, 1 * 100 / 2 * (182 / 184)⟩] ++
      [⟨⟨2024, 8, 29, by decide⟩, ⟨2024, 8, 29, by decide⟩, 100 + 1 * 100 / 2⟩]⟩,
    Bond.new_eq_some.2 ⟨2, [⟨⟨2023, 8, 31, by decide⟩, ⟨2023, 8, 31, by decide⟩, 1 * 100 / 2⟩,
      ⟨⟨2024, 2, 29, by decide⟩, ⟨2024, 2, 29, by decide⟩, 1 * 100 / 2⟩], _, _, rfl, ?_, ?_, ?_, rfl⟩, by decide,
    by decide,
    Bond.new_eq_some.2 ⟨2, [⟨⟨2024, 2, 29, by decide⟩, ⟨2024, 2, 29, by decide⟩, 1 * 100 / 2⟩], _, _, rfl, ?_, ?_, ?_, rfl⟩, ?_⟩
  · refine (Bond.regularLoop_cons _ _ _ (by decide) _).2 ⟨_, ⟨2024, 2, 29, by decide⟩, _, by decide, by decide, ?_, rfl⟩
    refine (Bond.regularLoop_cons _ _ _ (by decide) _).2 ⟨_, ⟨2024, 8, 29, by decide⟩, _, by decide, by decide, ?_, rfl⟩
    exact Bond.regularLoop_nil _ _ _ (by decide)
  · rfl
  · rfl
  · refine (Bond.regularLoop_cons _ _ _ (by decide) _).2 ⟨_, ⟨2024, 8, 29, by decide⟩, _, by decide, by decide, ?_, rfl⟩
    exact Bond.regularLoop_nil _ _ _ (by decide)
  · rfl
  · rfl
  · norm_num

end Qlab.Props
