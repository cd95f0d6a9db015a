import Verif.Props.IeeeNatural
import Verif.Props.IeeePrice
import Verif.Props.IeeeCurve
import Verif.Props.SplinePrice
import Verif.Props.CurveOvershoot

/-!
# From market data to price with any interpolator in `f32` and `f64` (C99)

The outcome whatever the yields, NaN and infinities included; and for finite yields the accuracy of discount factors and
prices, overflow and underflow included.
-/

namespace Qlab.Props

open Spec NaturalCubic

variable {F : IeeeFormat}

theorem ieee_same_left {I : Interpolator (Ieee F)} {J : Interpolator ℝ} {n : Nat} (h : SameInterpolator I J n) :
    IsShippedInterpolator I n := by
  rcases h with ⟨h, -, e⟩ | ⟨h, -, e⟩ | ⟨h, -, e⟩
  · exact .inl ⟨h, e⟩
  · exact .inr (.inl ⟨h, e⟩)
  · exact .inr (.inr ⟨h, e⟩)

theorem ieee_same_right {I : Interpolator (Ieee F)} {J : Interpolator ℝ} {n : Nat} (h : SameInterpolator I J n) :
    IsShippedInterpolator J n := by
  rcases h with ⟨-, h, e⟩ | ⟨-, h, e⟩ | ⟨-, h, e⟩
  · exact .inl ⟨h, e⟩
  · exact .inr (.inl ⟨h, e⟩)
  · exact .inr (.inr ⟨h, e⟩)

/-- The search fails among data of the format where it fails among their real values. -/
theorem findIndex_fails {P Q : Type} [HasX P (Ieee F)] [HasX Q ℝ] {as : List P} {bs : List Q}
    (h : List.Forall₂ (fun p q => IsNumber (HasX.x p : Ieee F) (HasX.x q : ℝ)) as bs)
    {x : Ieee F} {z : ℝ} (hx : IsNumber x z) (hf : ∃ e, findIndexAtLeftBoundary bs z = .error e) :
    ∃ e, findIndexAtLeftBoundary as x = .error e := by
  have h1 : ∀ i, findIndexAtLeftBoundary as x = .ok i ↔
      findIndexAtLeftBoundary (as.map fun p => (⟨(HasX.x p : Ieee F).toFl.val, 0⟩ : Point2D ℝ)) z = .ok i := by
    refine (findIndex_map _ as x z (fun p hp => ?_) (fun p hp => ?_)).1
    · obtain ⟨j, hj, rfl⟩ := List.getElem_of_mem hp
      have n := forall₂_get h j hj (by rw [← h.length_eq]; exact hj)
      show _ ↔ (HasX.x as[j] : Ieee F).toFl.val < z
      rw [Ieee.toFl_val n, Ieee.lt_number n hx]
    · obtain ⟨j, hj, rfl⟩ := List.getElem_of_mem hp
      have n := forall₂_get h j hj (by rw [← h.length_eq]; exact hj)
      show _ ↔ (HasX.x as[j] : Ieee F).toFl.val ≤ z
      rw [Ieee.toFl_val n, Ieee.le_number n hx]
  have h2 := (findIndex_map (fun q : Q => (⟨(HasX.x q : ℝ), 0⟩ : Point2D ℝ)) bs z z (fun _ _ => Iff.rfl)
    (fun _ _ => Iff.rfl)).1
  have e : (as.map fun p => (⟨(HasX.x p : Ieee F).toFl.val, 0⟩ : Point2D ℝ)) =
      bs.map fun q => (⟨(HasX.x q : ℝ), 0⟩ : Point2D ℝ) := by
    clear h1 h2 hf
    induction h with
    | nil => rfl
    | cons hab _ ih => rw [List.map_cons, List.map_cons, ih, Ieee.toFl_val hab]
  obtain ⟨err, hf⟩ := hf
  match hm : findIndexAtLeftBoundary as x with
  | .error e' => exact ⟨e', rfl⟩
  | .ok i =>
    rw [h1, e, ← h2, hf] at hm
    simp at hm

/-- On abscissae that are numbers and increase strictly, and whatever the ordinates, fitting succeeds, and evaluation
succeeds in the range and fails outside it. -/
theorem ieee_shipped {I : Interpolator (Ieee F)} {n : Nat} (hI : IsShippedInterpolator I n) {pts : List (Ieee F × Ieee F)}
    {qs : List (ℝ × ℝ)} (hd : List.Forall₂ (fun p q => IsNumber p.1 q.1) pts qs) (hs : StrictlyIncreasing qs)
    (hn : n ≤ qs.length) :
    (∃ st, I.tryFit I.default pts = .ok (.ok st)) ∧ ∀ x z, IsNumber x z →
      (InRange qs z → ∃ v, evaluate I pts x = .ok (.ok v)) ∧
      (¬ InRange qs z → ∃ e, evaluate I pts x = .ok (.error e)) := by
  have hl := hd.length_eq
  have hnd : NeverDecreasing pts := neverDecreasing_of_reals (R := fun _ _ => True) (hd.imp fun _ _ h => ⟨h, trivial⟩) hs
  have h2 : 2 ≤ n := by rcases hI with ⟨-, rfl⟩ | ⟨-, rfl⟩ | ⟨-, rfl⟩ <;> omega
  have hs' : (qs.map fun p => (⟨p.1, p.2⟩ : Point2D ℝ)).Pairwise fun p q => (HasX.x p : ℝ) < HasX.x q :=
    pairwise_map_point.2 hs
  have inside : ∀ {z : ℝ}, InRange qs z → ∃ i, i + 1 < qs.length ∧
      findIndexAtLeftBoundary (qs.map fun p => (⟨p.1, p.2⟩ : Point2D ℝ)) z = .ok i := by
    intro z hz
    obtain ⟨i, hi, h0, h1⟩ := exists_index hs (by omega) hz
    exact ⟨i, hi, findIndex_at hs' (i := i) (x := z) (by simpa using hi) (by simp only [List.getElem_map]; exact h0)
      (by simp only [List.getElem_map]; exact h1)⟩
  have outside : ∀ {z}, ¬ InRange qs z →
      ∃ e, findIndexAtLeftBoundary (qs.map fun p => (⟨p.1, p.2⟩ : Point2D ℝ)) z = .error e := by
    intro z hz
    refine findIndex_outside (by simp; omega) hs' ((not_inRange hz).imp (fun h p hp => ?_) (fun h p hp => ?_))
    · obtain ⟨q, hq, rfl⟩ := List.mem_map.1 hp
      exact h q hq
    · obtain ⟨q, hq, rfl⟩ := List.mem_map.1 hp
      exact h q hq
  have rel : ∀ {P : Type} [HasX P (Ieee F)] (g : Ieee F × Ieee F → P), (∀ p, (HasX.x (g p) : Ieee F) = p.1) →
      List.Forall₂ (fun p q => IsNumber (HasX.x p : Ieee F) (HasX.x q : ℝ)) (pts.map g)
        (qs.map fun p => (⟨p.1, p.2⟩ : Point2D ℝ)) := by
    intro P _ g hg
    rw [List.forall₂_map_left_iff, List.forall₂_map_right_iff]
    exact hd.imp fun p q h => by rw [hg]; exact h
  rcases hI with ⟨rfl, rfl⟩ | ⟨rfl, rfl⟩ | ⟨rfl, rfl⟩
  · refine ⟨⟨_, rfl⟩, fun x z hx => ⟨fun hz => ?_, fun hz => ?_⟩⟩
    · obtain ⟨i, hi, hf⟩ := inside hz
      have hf' := findIndex_reals (rel (fun p => (⟨p.1, p.2⟩ : Point2D (Ieee F))) fun _ => rfl) hx hf
      rw [evaluate_linear]
      unfold Linear.tryValue
      rw [hf']
      have i1 : Rust.index (pts.map fun p => (⟨p.1, p.2⟩ : Point2D (Ieee F))) i = .ok ⟨pts[i].1, pts[i].2⟩ :=
        Rust.index_of_eq (by simp)
      have i2 : Rust.index (pts.map fun p => (⟨p.1, p.2⟩ : Point2D (Ieee F))) (i + 1) =
        .ok ⟨pts[i + 1].1, pts[i + 1].2⟩ := Rust.index_of_eq (by simp)
      simp only [i1, i2]
      exact ⟨_, rfl⟩
    · obtain ⟨e, he⟩ := findIndex_fails (rel (fun p => (⟨p.1, p.2⟩ : Point2D (Ieee F))) fun _ => rfl) hx (outside hz)
      rw [evaluate_linear]
      unfold Linear.tryValue
      rw [he]
      exact ⟨_, rfl⟩
  · obtain ⟨t, ht, hp⟩ := (C39_catmull_rom ieee_irrefl CatmullRom.default pts).2.2 (by omega) hnd
    refine ⟨⟨t, ht⟩, fun x z hx => ⟨fun hz => ?_, fun hz => ?_⟩⟩
    · obtain ⟨i, hi, hf⟩ := inside hz
      exact ⟨_, catmullRom_eval_of (ieeeInt F) (fun _ => rfl) (fun _ _ => ieee_irrefl _) hnd (by omega) (i := i) (by omega)
        (findIndex_reals (rel (fun p => (⟨p.1, p.2⟩ : Point2D (Ieee F))) fun _ => rfl) hx hf)⟩
    · have r : List.Forall₂ (fun p q => IsNumber (HasX.x p : Ieee F) (HasX.x q : ℝ)) t.points
          (qs.map fun p => (⟨p.1, p.2⟩ : Point2D ℝ)) := by
        have := hd
        rw [← hp, List.forall₂_map_left_iff] at this
        rw [List.forall₂_map_right_iff]
        exact this
      obtain ⟨e, he⟩ := findIndex_fails r hx (outside hz)
      refine ⟨e, ?_⟩
      have : evaluate (Interpolator.catmullRom (Ieee F)) pts x = t.tryValue x := by
        unfold evaluate Interpolator.catmullRom
        simp only [ht, Rust.ok_bind]
      rw [this]
      unfold CatmullRom.tryValue
      rw [he]
  · obtain ⟨t, ht, hp⟩ := (C39_natural_cubic ieee_irrefl (fun _ => rfl) NaturalCubic.default pts).2.2 (by omega) hnd
    refine ⟨⟨t, ht⟩, fun x z hx => ⟨fun hz => ?_, fun hz => ?_⟩⟩
    · obtain ⟨i, hi, hf⟩ := inside hz
      have hne : pts ≠ [] := by rintro rfl; simp at hl; omega
      obtain ⟨n, p, hn', rfl⟩ := exists_tab pts hne
      simp only [length_tab] at hl
      refine ⟨_, natural_eval_of (ieeeInt F) (fun _ => rfl) ieee_irrefl (by omega) hnd (i := i) (by omega) ?_⟩
      refine findIndex_reals ?_ hx hf
      rw [List.forall₂_map_right_iff]
      refine List.forall₂_iff_get.2 ⟨by simp [hl], fun j h1 h2 => ?_⟩
      have := forall₂_get hd j (by simpa using h1) h2
      simp only [getElem_tab] at this
      simp only [List.get_eq_getElem, getElem_tab]
      exact this
    · have r : List.Forall₂ (fun p q => IsNumber (HasX.x p : Ieee F) (HasX.x q : ℝ)) t.points
          (qs.map fun p => (⟨p.1, p.2⟩ : Point2D ℝ)) := by
        have := hd
        rw [← hp, List.forall₂_map_left_iff] at this
        rw [List.forall₂_map_right_iff]
        exact this
      obtain ⟨e, he⟩ := findIndex_fails r hx (outside hz)
      refine ⟨e, ?_⟩
      have : evaluate (Interpolator.naturalCubic (Ieee F)) pts x = t.tryValue x := by
        unfold evaluate Interpolator.naturalCubic
        simp only [ht, Rust.ok_bind]
      rw [this]
      unfold NaturalCubic.tryValue
      rw [he]

/-- The times of the maturities are numbers. -/
theorem pillars_number (hF : 40 ≤ F.emax) {N : Int} (hN : N = 360 ∨ N = 365) {s : Date} {ms : List Date} {ys : List (Ieee F)}
    {zs : List ℝ} {R : Ieee F → ℝ → Prop} (h : List.Forall₂ R ys zs) :
    List.Forall₂ (fun p q => IsNumber p.1 q.1 ∧ R p.2 q.2) ((ms.map (ieeeYears F N s)).zip ys)
      ((ms.map fun m => (flYears F.arith N s m).val).zip zs) := by
  induction h generalizing ms with
  | nil => simp
  | cons h0 _ ih =>
    cases ms with
    | nil => simp
    | cons m ms => exact .cons ⟨years_number hF rfl hN s m, h0⟩ ih

/-- Whatever the yields: the curve exists, and a date has an interpolated yield exactly when it is covered. -/
theorem ieee_curve [HasExp (Ieee F)] (hF : 40 ≤ F.emax) {D : DayCount (Ieee F)} {N : Int} (hD : IsActualDayCount D N)
    {I : Interpolator (Ieee F)} {n : Nat} (hI : IsShippedInterpolator I n) (s : Date) (ms : List Date) (ys : List (Ieee F))
    (hlen : ms.length = ys.length) (hn : n ≤ ms.length) (hms : ms.Pairwise (· < ·))
    (hr : ∀ m ∈ ms, |Date.sub m s| < 2 ^ (F.prec - 1)) :
    ∃ c : YieldCurve (Ieee F) I, YieldCurve.new D I s ms ys = .ok (.ok c) ∧ c.settlementDate = s ∧
      (∀ x, I.tryValue c.interpolator x = evaluate I ((ms.map (ieeeYears F N s)).zip ys) x) ∧
      ∀ d, |Date.sub d s| < 2 ^ (F.prec - 1) →
        (Covers ms d → ∃ v, evaluate I ((ms.map (ieeeYears F N s)).zip ys) (ieeeYears F N s d) = .ok (.ok v)) ∧
        (¬ Covers ms d → ∃ e, evaluate I ((ms.map (ieeeYears F N s)).zip ys) (ieeeYears F N s d) = .ok (.error e)) := by
  have hN : N = 360 ∨ N = 365 := by rcases hD with ⟨-, h⟩ | ⟨-, h⟩ <;> simp [h]
  have hinc := rounded_increasing F.arith hN hms hr (ys.map fun _ => (0 : ℝ))
  have hd : List.Forall₂ (fun p q => IsNumber p.1 q.1 ∧ True) ((ms.map (ieeeYears F N s)).zip ys)
      ((ms.map fun m => (flYears F.arith N s m).val).zip (ys.map fun _ => (0 : ℝ))) :=
    pillars_number hF hN (R := fun _ _ => True) (by
      rw [List.forall₂_map_right_iff]
      exact List.forall₂_same.2 fun _ _ => trivial)
  obtain ⟨⟨st, hst⟩, hev⟩ := ieee_shipped hI (hd.imp fun _ _ h => h.1) hinc (by simp [← hlen]; omega)
  obtain ⟨c, h1, h2, h3⟩ := shipped_curve (fun d => ieee_actual_eq hD s d) ms ys hlen hst
  refine ⟨c, h1, h2, h3, fun d hd => ?_⟩
  have kf : KeepsOrder (flYears F.arith N s) ms d := flYears_keeps hN (by
    intro e he
    rcases List.mem_cons.1 he with rfl | he
    · exact hd
    · exact hr e he)
  have kf' : KeepsOrder (fun d => (flYears F.arith N s d).val) ms d :=
    fun a ha b hb h => (Fl.lt_iff _ _).1 (kf a ha b hb h)
  have := hev _ _ (years_number hF (A := F.arith) rfl hN s d)
  rwa [kf'.inRange (by simpa using hlen)] at this

section
variable [HasExp (Ieee F)]

/-- The curves in the format and in exact arithmetic fail alike, whatever the yields. -/
theorem ieee_shipped_discounts (hF : 40 ≤ F.emax) {D : DayCount (Ieee F)} {E : DayCount ℝ} {N : Int}
    (hD : IsActualDayCount D N) (hE : IsActualDayCount E N) {I : Interpolator (Ieee F)} {J : Interpolator ℝ} {n : Nat}
    (hI : SameInterpolator I J n) (s : Date) (ms : List Date) (ys : List (Ieee F)) (zs : List ℝ)
    (hlen : ms.length = ys.length) (hlen' : ms.length = zs.length) (hn : n ≤ ms.length) (hms : ms.Pairwise (· < ·))
    (hr : ∀ m ∈ ms, |Date.sub m s| < 2 ^ (F.prec - 1)) :
    ∃ (c : YieldCurve (Ieee F) I) (c' : YieldCurve ℝ J),
      YieldCurve.new D I s ms ys = .ok (.ok c) ∧ YieldCurve.new E J s ms zs = .ok (.ok c') ∧
      ∀ d1 d2, |Date.sub d1 s| < 2 ^ (F.prec - 1) → |Date.sub d2 s| < 2 ^ (F.prec - 1) →
        (∃ e, c.discountFactor D d1 d2 = .ok (.error e) ∧ c'.discountFactor E d1 d2 = .ok (.error e)) ∨
        (∃ w v, c.discountFactor D d1 d2 = .ok (.ok w) ∧ c'.discountFactor E d1 d2 = .ok (.ok v)) := by
  have hN : N = 360 ∨ N = 365 := by rcases hD with ⟨-, h⟩ | ⟨-, h⟩ <;> simp [h]
  have hN0 : 0 < N := by omega
  have hEf : ∀ d, E s d = .ok (.ok (years N s d)) := fun d => real_actual_eq hE s d
  obtain ⟨c, hc, hcs, hcv, hev⟩ := ieee_curve hF hD (ieee_same_left hI) s ms ys hlen hn hms hr
  obtain ⟨st', hst'⟩ := shipped_fit (fun _ => rfl) (ieee_same_right hI) (years_increasing hN0 (s := s) hms zs)
    (show n ≤ ((ms.map (years N s)).zip zs).length by simp; omega)
  obtain ⟨c', hc', hcs', hcv'⟩ := shipped_curve hEf ms zs hlen' hst'
  refine ⟨c, c', hc, hc', fun d1 d2 hr1 hr2 => ?_⟩
  have sim := discount_sim (R := fun _ _ _ => True) hcs hcs' (fun d => ieee_actual_eq hD s d) hEf d1 d2 (by
    intro d hd _
    have hdr : |Date.sub d s| < 2 ^ (F.prec - 1) := by rcases hd with rfl | rfl <;> assumption
    have kr : KeepsOrder (years N s) ms d := years_keeps hN0
    have hl2 : n ≤ ((ms.map (years N s)).zip zs).length := by simp; omega
    rw [hcv, hcv']
    by_cases hcov : Covers ms d
    · obtain ⟨y, hy⟩ := (hev d hdr).1 hcov
      obtain ⟨y', hy'⟩ := shipped_inside (V := ℝ) (fun m => (m : ℝ)) ExactCast.fromInt_eq (ieee_same_right hI)
        (kr.increasing hms) hl2 ((kr.inRange hlen').2 hcov)
      exact .inl ⟨y, y', hy, hy', trivial⟩
    · obtain ⟨e, he⟩ := (hev d hdr).2 hcov
      obtain ⟨e', he'⟩ := shipped_outside (fun _ => rfl) (ieee_same_right hI) (kr.increasing hms) hl2
        (fun h => hcov ((kr.inRange hlen').1 h))
      exact .inr ⟨e, e', he, he'⟩)
  rcases sim with h | ⟨-, -, y, y', -, ⟨-, h1, h2⟩ | ⟨-, y1, y1', -, h1, h2⟩⟩
  · exact .inl h
  · exact .inr ⟨_, _, h1, h2⟩
  · exact .inr ⟨_, _, h1, h2⟩

/-- **C99.** In `f32` and `f64` a curve with any of the three interpolators under Act/360 or Act/365 refuses the same dates
with the same errors as in exact arithmetic, and never panics, whatever the yields: NaN and infinities included. -/
theorem C99_discount_outcome (hF : 40 ≤ F.emax) {D : DayCount (Ieee F)} {E : DayCount ℝ} {N : Int}
    (hD : IsActualDayCount D N) (hE : IsActualDayCount E N) {I : Interpolator (Ieee F)} {J : Interpolator ℝ} {n : Nat}
    (hI : SameInterpolator I J n) (s : Date) (ms : List Date) (ys : List (Ieee F)) (zs : List ℝ)
    (hlen : ms.length = ys.length) (hlen' : ms.length = zs.length) (hn : n ≤ ms.length) (hms : ms.Pairwise (· < ·))
    (d1 d2 : Date) (hr : ∀ d ∈ d1 :: d2 :: ms, |Date.sub d s| < 2 ^ (F.prec - 1)) :
    (∀ e, curveDiscount D I s ms ys d1 d2 = .ok (.error e) ↔ curveDiscount E J s ms zs d1 d2 = .ok (.error e)) ∧
    curveDiscount D I s ms ys d1 d2 ≠ .panic ∧ curveDiscount E J s ms zs d1 d2 ≠ .panic := by
  obtain ⟨c, c', hc, hc', hall⟩ := ieee_shipped_discounts hF hD hE hI s ms ys zs hlen hlen' hn hms
    (fun m hm => hr m (by simp [hm]))
  unfold curveDiscount
  rw [hc, hc']
  simp only [Rust.ok_bind]
  rcases hall d1 d2 (hr _ (by simp)) (hr _ (by simp)) with ⟨e', h1, h2⟩ | ⟨w, v, h1, h2⟩ <;> rw [h1, h2] <;> simp

/-- **C99.** The same for prices: the same errors as in exact arithmetic and no panic, whatever yields, rate and face value,
NaN and infinities included. -/
theorem C99_price_outcome (hF : 40 ≤ F.emax) {D : DayCount (Ieee F)} {E : DayCount ℝ} {N : Int}
    (hD : IsActualDayCount D N) (hE : IsActualDayCount E N) {I : Interpolator (Ieee F)} {J : Interpolator ℝ} {n : Nat}
    (hI : SameInterpolator I J n) (cs : Date) (ms : List Date) (ys : List (Ieee F)) (zs : List ℝ)
    (hlen : ms.length = ys.length) (hlen' : ms.length = zs.length) (hn : n ≤ ms.length) (hms : ms.Pairwise (· < ·))
    (id : String) (issue first pen mat : Date) (f : Frequency) (rate face : Ieee F) (rate' face' : ℝ) (b : Bond (Ieee F))
    (b' : Bond ℝ) (s : Date) (hb : Bond.new id issue first pen mat f rate face = .ok (some b))
    (hb' : Bond.new id issue first pen mat f rate' face' = .ok (some b'))
    (hr : ∀ d ∈ s :: ms ++ b.bondCashFlows.map (·.paymentDate), |Date.sub d cs| < 2 ^ (F.prec - 1)) :
    (∀ e, curvePrice D I cs ms ys b s = .ok (.error e) ↔ curvePrice E J cs ms zs b' s = .ok (.error e)) ∧
    curvePrice D I cs ms ys b s ≠ .panic ∧ curvePrice E J cs ms zs b' s ≠ .panic := by
  obtain ⟨c, c', hc, hc', hout⟩ := ieee_shipped_discounts hF hD hE hI cs ms ys zs hlen hlen' hn hms
    (fun m hm => hr m (by simp [hm]))
  have hrel := bond_rel (fun n => Ieee.ofReal F false n) (fun n => (n : ℝ)) (fun _ => rfl) (fun _ => rfl) (fun _ _ => True)
    (fun _ _ => True) f rate face rate' face' _ _ rfl rfl trivial (fun _ _ _ _ _ => trivial) (fun _ _ _ _ _ _ => trivial)
    (fun _ _ _ => trivial) id issue first pen mat
  rw [hb, hb'] at hrel
  obtain ⟨-, l, l', x, y, e1, e2, hl, hxy⟩ := hrel
  have hall : List.Forall₂ (FlowRel fun _ _ => True) b.bondCashFlows b'.bondCashFlows := by
    rw [e1, e2]
    exact List.rel_append hl (.cons hxy .nil)
  unfold curvePrice Bond.discountedValue
  rw [hc, hc']
  simp only [Rust.ok_bind]
  rcases pv_outcome (D := D) (E := E) (c := c) (c' := c') (s := s) b.bondCashFlows b'.bondCashFlows
    (hall.imp fun _ _ h => ⟨h.1, h.2.1⟩) (by
    intro g hg
    refine hout s g.paymentDate (hr _ (by simp)) (hr _ ?_)
    simp only [List.cons_append, List.mem_cons, List.mem_append, List.mem_map]
    exact .inr (.inr ⟨g, hg, rfl⟩)) 0 0 with ⟨e', h1, h2⟩ | ⟨r, r', h1, h2⟩ <;> rw [h1, h2] <;> simp

/-! ## Accuracy -/

omit [HasExp (Ieee F)] in
/-- At every date within `2 ^ 20` days the two interpolated yields are within `η` of each other and the exact one is within
`M`, or neither exists. -/
def IeeeYieldsNear (F : IeeeFormat) (I : Interpolator (Ieee F)) (J : Interpolator ℝ) (N : Int) (s : Date) (ms : List Date)
    (ys : List (Ieee F)) (η M : ℝ) : Prop :=
  ∀ d, |Date.sub d s| ≤ 2 ^ 20 →
    (∃ y r y', evaluate I ((ms.map (ieeeYears F N s)).zip ys) (ieeeYears F N s d) = .ok (.ok y) ∧ IsNumber y r ∧
      evaluate J ((ms.map (years N s)).zip (ys.map real)) (years N s d) = .ok (.ok y') ∧
      |r - y'| ≤ η ∧ |y'| ≤ M ∧ ∃ m ∈ ms, d ≤ m) ∨
    (∃ e e', evaluate I ((ms.map (ieeeYears F N s)).zip ys) (ieeeYears F N s d) = .ok (.error e) ∧
      evaluate J ((ms.map (years N s)).zip (ys.map real)) (years N s d) = .ok (.error e'))

theorem span_lt (F : IeeeFormat) : (2 : ℤ) ^ 20 < 2 ^ (F.prec - 1) :=
  pow_lt_pow_right₀ (by norm_num) (by have := F.prec_ge; omega)

/-- The two discount factors: the same error, or values close to each other. -/
theorem ieee_near_discounts (hF : 40 ≤ F.emax) {D : DayCount (Ieee F)} {E : DayCount ℝ} {N : Int}
    (hD : IsActualDayCount D N) (hE : IsActualDayCount E N) {I : Interpolator (Ieee F)} {J : Interpolator ℝ} {n : Nat}
    (hI : SameInterpolator I J n) {s : Date} {ms : List Date} {ys : List (Ieee F)} {η M T B ε : ℝ}
    (hε : IeeeExpWithin F B ε) (hε0 : 0 ≤ ε) (hε1 : ε ≤ 1) (hlen : ms.length = ys.length) (hn : n ≤ ms.length)
    (hms : ms.Pairwise (· < ·)) (hr : ∀ m ∈ ms, |Date.sub m s| ≤ 2 ^ 20) (hy : IeeeYieldsNear F I J N s ms ys η M)
    (hη : 0 ≤ η) (hM : 0 ≤ M) (hT : ∀ m ∈ ms, years N s m ≤ T) (hT0 : 0 ≤ T)
    (hB : 2 * T * M + (1.01 * η + 5 * roundoff F * M) * (2 * T) + 2 * smallest F ≤ B) (hB' : B ≤ 2 ^ (F.emax - 1)) :
    ∃ (c : YieldCurve (Ieee F) I) (c' : YieldCurve ℝ J),
      YieldCurve.new D I s ms ys = .ok (.ok c) ∧ YieldCurve.new E J s ms (ys.map real) = .ok (.ok c') ∧
      ∀ d1 d2, |Date.sub d1 s| ≤ 2 ^ 20 → |Date.sub d2 s| ≤ 2 ^ 20 →
        (∃ e, c.discountFactor D d1 d2 = .ok (.error e) ∧ c'.discountFactor E d1 d2 = .ok (.error e)) ∨
        (∃ w r v, c.discountFactor D d1 d2 = .ok (.ok w) ∧ IsNumber w r ∧ c'.discountFactor E d1 d2 = .ok (.ok v) ∧
          s ≤ d1 ∧ d1 ≤ d2 ∧ (∃ m ∈ ms, d2 ≤ m) ∧ 0 < v ∧
          Near ε ((1.01 * η + 5 * roundoff F * M) * (years N s d1 + years N s d2) + 2 * smallest F) v r ∧
          (1 - ε) * Real.exp (-B) ≤ r) := by
  have hN : N = 360 ∨ N = 365 := by rcases hD with ⟨-, h⟩ | ⟨-, h⟩ <;> simp [h]
  have hN0 : 0 < N := by omega
  have hu : 0 < roundoff F := F.arith.unit_pos
  have hu1 : roundoff F ≤ 1 / 16777216 := F.arith.unit_le
  have hs0 : 0 < smallest F := Binary.zpow_pos' _
  have hEf : ∀ d, E s d = .ok (.ok (years N s d)) := fun d => real_actual_eq hE s d
  obtain ⟨c, hc, hcs, hcv, -⟩ := ieee_curve hF hD (ieee_same_left hI) s ms ys hlen hn hms
    (fun m hm => lt_of_le_of_lt (hr m hm) (span_lt F))
  obtain ⟨st', hst'⟩ := shipped_fit (fun _ => rfl) (ieee_same_right hI) (years_increasing hN0 (s := s) hms (ys.map real))
    (show n ≤ ((ms.map (years N s)).zip (ys.map real)).length by simp; omega)
  obtain ⟨c', hc', hcs', hcv'⟩ := shipped_curve hEf ms (ys.map real) (by simpa using hlen) hst'
  refine ⟨c, c', hc, hc', fun d1 d2 hr1 hr2 => ?_⟩
  have sim := discount_sim (R := fun d (y : Ieee F) (y' : ℝ) =>
      I.tryValue c.interpolator (ieeeYears F N s d) = .ok (.ok y) ∧
      ∃ r, IsNumber y r ∧ |r - y'| ≤ η ∧ |y'| ≤ M ∧ ∃ m ∈ ms, d ≤ m)
    hcs hcs' (fun d => ieee_actual_eq hD s d) hEf d1 d2 (by
    intro d hd hsd
    rw [hcv, hcv']
    rcases hy d (by rcases hd with rfl | rfl <;> assumption) with ⟨y, r, y', e1, e2, e3, e4, e5, e6⟩ | h
    · exact .inl ⟨y, y', e1, e3, e1, r, e2, e4, e5, e6⟩
    · exact .inr h)
  -- one product of time and yield
  have prod : ∀ d (y : Ieee F) (y' r : ℝ), |Date.sub d s| ≤ 2 ^ 20 → s ≤ d →
      I.tryValue c.interpolator (ieeeYears F N s d) = .ok (.ok y) → IsNumber y r → |r - y'| ≤ η → |y'| ≤ M →
      (∃ m ∈ ms, d ≤ m) → ∃ z, FiniteTimesYield D c d z ∧
        |z - years N s d * y'| + 3 * roundoff F * |z| ≤ (1.01 * η + 5 * roundoff F * M) * years N s d ∧
        |years N s d * y'| ≤ T * M ∧ 0 ≤ years N s d ∧ years N s d ≤ T := by
    rintro d y y' r hd hsd ey ny e1 e2 ⟨m, hm, hdm⟩
    have t0 := years_nonneg hN0 hsd
    have t1 : years N s d ≤ T := le_trans (years_le hN0 hdm) (hT m hm)
    refine ⟨(flYears F.arith N s d).val * r, ⟨_, y, _, r, by rw [hcs]; exact ieee_actual_eq hD s d, ey,
      years_number hF rfl hN s d, ny, rfl⟩, ?_, ?_, t0, t1⟩
    · have e := flYears_error (A := F.arith) hN0 hsd (lt_of_le_of_lt hd (span_lt F))
      rw [F.unit_arith] at e
      exact time_yield hu hu1 t0 e e1 e2
    · rw [abs_mul, abs_of_nonneg t0]
      exact mul_le_mul t1 e2 (abs_nonneg _) hT0
  have hC0 : 0 ≤ 1.01 * η + 5 * roundoff F * M := by positivity
  -- both cases
  have fin : ∀ z1 z2 a1 a2 t1 t2 v : ℝ, StartTimesYield D c d1 z1 → FiniteTimesYield D c d2 z2 →
      |z1 - a1| + 3 * roundoff F * |z1| ≤ (1.01 * η + 5 * roundoff F * M) * t1 →
      |z2 - a2| + 3 * roundoff F * |z2| ≤ (1.01 * η + 5 * roundoff F * M) * t2 →
      |a1| ≤ T * M → |a2| ≤ T * M → t1 ≤ T → t2 ≤ T → v = Real.exp (a1 - a2) → ∀ w,
      c.discountFactor D d1 d2 = .ok (.ok w) →
      ∃ r, IsNumber w r ∧ 0 < v ∧ Near ε ((1.01 * η + 5 * roundoff F * M) * (t1 + t2) + 2 * smallest F) v r ∧
        (1 - ε) * Real.exp (-B) ≤ r := by
    intro z1 z2 a1 a2 t1 t2 v hz1 hz2 h1 h2 b1 b2 l1 l2 hv w hw
    have k1 := mul_le_mul_of_nonneg_left l1 hC0
    have k2 := mul_le_mul_of_nonneg_left l2 hC0
    have p1 := abs_nonneg z1
    have p2 := abs_nonneg z2
    have q1 : 0 ≤ roundoff F * |z1| := by positivity
    have q2 : 0 ≤ roundoff F * |z2| := by positivity
    have q3 : 0 ≤ T * M := mul_nonneg hT0 hM
    have q4 : 0 ≤ (1.01 * η + 5 * roundoff F * M) * T := mul_nonneg hC0 hT0
    have r1 := abs_add_le (z1 - a1) a1
    have r2 := abs_add_le (z2 - a2) a2
    rw [sub_add_cancel] at r1 r2
    have r3 : |(z1 - z2) - (a1 - a2)| ≤ |z1 - a1| + |z2 - a2| := by
      have : (z1 - z2) - (a1 - a2) = (z1 - a1) - (z2 - a2) := by ring
      rw [this]; exact abs_sub _ _
    have r4 : |z1 - z2| ≤ |(z1 - z2) - (a1 - a2)| + |a1 - a2| := by
      have := abs_add_le ((z1 - z2) - (a1 - a2)) (a1 - a2)
      rwa [sub_add_cancel] at this
    have r5 := abs_sub a1 a2
    have r6 : |z1 - z2| + (3 * roundoff F * (|z1| + |z2|) + 2 * smallest F) ≤ B := by linarith
    obtain ⟨r, n, g1, g2⟩ := C89_error_partial c B ε hε hε0 hε1 d1 d2 w z1 z2 hz1 hz2 (by linarith) (by linarith) r6 hw
    have r7 := abs_le.1 r3
    have r8 := (abs_le.1 (le_refl |z1 - z2|)).1
    refine ⟨r, n, hv ▸ Real.exp_pos _, ⟨?_, ?_⟩, ?_⟩
    · refine le_trans ?_ g1
      rw [hv, mul_assoc (_ : ℝ) (Real.exp _) (Real.exp _), ← Real.exp_add]
      exact mul_le_mul_of_nonneg_left (Real.exp_le_exp.2 (by linarith)) (by linarith)
    · refine g2.trans ?_
      rw [hv, mul_assoc (_ : ℝ) (Real.exp _) (Real.exp _), ← Real.exp_add]
      exact mul_le_mul_of_nonneg_left (Real.exp_le_exp.2 (by linarith)) (by linarith)
    · refine le_trans ?_ g1
      exact mul_le_mul_of_nonneg_left (Real.exp_le_exp.2 (by linarith)) (by linarith)
  rcases sim with h | ⟨hs, hd, y2, y2', ⟨ey2, r2, n2, q1, q2, hm⟩, h⟩
  · exact .inl h
  right
  obtain ⟨z2, f2, g2, k2, -, l2⟩ := prod d2 y2 y2' r2 hr2 (hs.trans hd) ey2 n2 q1 q2 hm
  rcases h with ⟨hds, e1, e2⟩ | ⟨hne, y1, y1', ⟨ey1, r1, n1, p1, p2, hm1⟩, e1, e2⟩
  · obtain ⟨r, m1, m2, m3, m4⟩ := fin 0 z2 0 _ (years N s d1) _ (HasExp.exp (-years N s d2 * y2'))
      (.inl ⟨hds.trans hcs.symm, rfl⟩) f2 (by rw [hds, years_self]; simp) g2 (by rw [abs_zero]; positivity) k2
      (by rw [hds, years_self]; exact hT0) l2 (by rw [zero_sub, ← neg_mul]; rfl) _ e1
    exact ⟨_, r, _, e1, m1, e2, hs, hd, hm, m2, m3, m4⟩
  · obtain ⟨z1, f1, g1, k1, -, l1⟩ := prod d1 y1 y1' r1 hr1 hs ey1 n1 p1 p2 hm1
    obtain ⟨r, m1, m2, m3, m4⟩ := fin z1 z2 _ _ _ _ (HasExp.exp (years N s d1 * y1' - years N s d2 * y2'))
      (.inr ⟨by rw [hcs]; exact hne, f1⟩) f2 g1 g2 k1 k2 l1 l2 rfl _ e1
    exact ⟨_, r, _, e1, m1, e2, hs, hd, hm, m2, m3, m4⟩

/-- A flow of a bond in the format next to one of an exact bond. -/
def IeeeAmountNear (lo : ℤ) (k : ℝ) (g : BondCashFlow (Ieee F)) (g' : BondCashFlow ℝ) : Prop :=
  g.dueDate = g'.dueDate ∧ g.paymentDate = g'.paymentDate ∧ 0 ≤ g'.paymentAmount ∧
    ∃ a, IsNumber g.paymentAmount a ∧ (a = 0 ∨ (2 : ℝ) ^ lo ≤ a) ∧ |a - g'.paymentAmount| ≤ k * g'.paymentAmount

/-- The two running totals. -/
theorem pv_ieee {lo b : ℤ} (hlo : 1 - (F.emax : ℤ) ≤ lo - b) {I : Interpolator (Ieee F)} {J : Interpolator ℝ}
    {D : DayCount (Ieee F)} {E : DayCount ℝ} {c : YieldCurve (Ieee F) I} {c' : YieldCurve ℝ J} {s : Date} {ε δ k : ℝ}
    (hε1 : ε ≤ 1) (hε0 : 0 ≤ ε) (hk0 : 0 ≤ k) (hk : k ≤ 1) (l : List (BondCashFlow (Ieee F))) (l' : List (BondCashFlow ℝ))
    (hl : List.Forall₂ (IeeeAmountNear lo k) l l')
    (h : ∀ g ∈ l, (∃ e, c.discountFactor D s g.paymentDate = .ok (.error e) ∧
        c'.discountFactor E s g.paymentDate = .ok (.error e)) ∨
      (∃ w r v, c.discountFactor D s g.paymentDate = .ok (.ok w) ∧ IsNumber w r ∧
        c'.discountFactor E s g.paymentDate = .ok (.ok v) ∧ 0 < v ∧ Near ε δ v r ∧ (2 : ℝ) ^ (-b) ≤ r))
    (q : Ieee F) (p q' : ℝ) (hp : 0 ≤ p) :
    (∃ e, Bond.pvLoop D s c q l = .ok (.error e) ∧ Bond.pvLoop E s c' q' l' = .ok (.error e)) ∨
    (∃ r S, Bond.pvLoop D s c q l = .ok (.ok r) ∧ Bond.pvLoop E s c' q' l' = .ok (.ok (q' + S)) ∧ 0 ≤ S ∧
      (IsNumber q p → (1 + roundoff F) ^ (l.filter fun g => s < g.dueDate).length * p +
        (1 + roundoff F) ^ ((l.filter fun g => s < g.dueDate).length + 1) *
          ((1 + k) * (1 + ε) * Real.exp δ * S) ≤ F.largest → ∃ x, IsNumber r x ∧
        (1 - roundoff F) ^ (l.filter fun g => s < g.dueDate).length * p +
          (1 - roundoff F) ^ ((l.filter fun g => s < g.dueDate).length + 1) *
            ((1 - k) * (1 - ε) * Real.exp (-δ) * S) ≤ x ∧
        x ≤ (1 + roundoff F) ^ (l.filter fun g => s < g.dueDate).length * p +
          (1 + roundoff F) ^ ((l.filter fun g => s < g.dueDate).length + 1) *
            ((1 + k) * (1 + ε) * Real.exp δ * S))) := by
  have hu : 0 < roundoff F := F.arith.unit_pos
  have hu1 : roundoff F ≤ 1 / 16777216 := F.arith.unit_le
  induction hl generalizing q p q' with
  | nil => exact .inr ⟨q, 0, rfl, by simp [Bond.pvLoop], le_refl _, fun hq _ => ⟨p, hq, by simp, by simp⟩⟩
  | @cons g g' l l' hg hl ih =>
    have ih := ih (fun g hg => h g (by simp [hg]))
    obtain ⟨h1, h2, h3, a, na, ha, h4⟩ := hg
    rw [Bond.pvLoop, Bond.pvLoop, ← h1, ← h2]
    by_cases hdue : s < g.dueDate
    · rw [if_pos hdue, if_pos hdue, List.filter_cons_of_pos (by simpa using hdue), List.length_cons]
      rcases h g (by simp) with ⟨e, e1, e2⟩ | ⟨w, d, v, e1, nw, e2, hv, ⟨hn1, hn2⟩, hb⟩
      · exact .inl ⟨e, by rw [e1]; rfl, by rw [e2]; rfl⟩
      rw [e1, e2]
      simp only [Rust.ok_bind]
      obtain ⟨a1, a2⟩ := abs_le.1 h4
      have ex := Real.exp_pos (-δ)
      have ex' := Real.exp_pos δ
      have hw0 : 0 < d := lt_of_lt_of_le (Binary.zpow_pos' _) hb
      have ha0 : 0 ≤ a := by rcases ha with h | h; exacts [h.ge, le_trans (Binary.zpow_pos' _).le h]
      have hlo' : (1 - k) * (1 - ε) * Real.exp (-δ) * (v * g'.paymentAmount) ≤ d * a := by
        have := mul_le_mul hn1 (show (1 - k) * g'.paymentAmount ≤ a by linarith)
          (mul_nonneg (by linarith) h3) hw0.le
        linarith
      have hhi : d * a ≤ (1 + k) * (1 + ε) * Real.exp δ * (v * g'.paymentAmount) := by
        have := mul_le_mul hn2 (show a ≤ (1 + k) * g'.paymentAmount by linarith) ha0
          (mul_nonneg (mul_nonneg (by linarith) ex'.le) hv.le)
        linarith
      have c0 : 0 ≤ (1 - k) * (1 - ε) * Real.exp (-δ) := mul_nonneg (mul_nonneg (by linarith) (by linarith)) ex.le
      have C0 : 0 ≤ (1 + k) * (1 + ε) * Real.exp δ := mul_nonneg (mul_nonneg (by linarith) (by linarith)) ex'.le
      have x0 : 0 ≤ d * a := mul_nonneg hw0.le ha0
      have f0 : 0 ≤ F.arith.fl (d * a) := F.arith.fl_nonneg x0
      obtain ⟨d1, hd1, f1⟩ := F.arith.fl_factor (d * a)
      obtain ⟨d2, hd2, f2⟩ := F.arith.fl_factor (p + d * a * (1 + d1))
      rw [F.unit_arith] at hd1 hd2
      have hP : F.arith.fl (p + F.arith.fl (d * a)) = (p + d * a * (1 + d1)) * (1 + d2) := by rw [f1, f2]
      have hP0 : 0 ≤ F.arith.fl (p + F.arith.fl (d * a)) := F.arith.fl_nonneg (add_nonneg hp f0)
      have hP1 : F.arith.fl (d * a) ≤ F.arith.fl (p + F.arith.fl (d * a)) := by
        calc F.arith.fl (d * a) = F.arith.fl (F.arith.fl (d * a)) := (F.arith.idem _).symm
          _ ≤ _ := F.arith.mono (by linarith)
      rcases ih (q + w * g.paymentAmount) (F.arith.fl (p + F.arith.fl (d * a))) (q' + v * g'.paymentAmount) hP0 with
        h' | ⟨r, S, r1, r2, r3, r4⟩
      · exact .inl h'
      · refine .inr ⟨r, v * g'.paymentAmount + S, r1, by rw [r2, add_assoc], by positivity, fun hq hle => ?_⟩
        set n := (l.filter fun g => s < g.dueDate).length with hn
        set P := F.arith.fl (p + F.arith.fl (d * a)) with hPd
        have one_le : 1 ≤ (1 + roundoff F) ^ n := one_le_pow₀ (by linarith)
        have pow_le : (1 - roundoff F) ^ n ≤ (1 + roundoff F) ^ n := pow_le_pow_left₀ (by linarith) (by linarith) n
        have up : (1 + roundoff F) ^ n * P + (1 + roundoff F) ^ (n + 1) * ((1 + k) * (1 + ε) * Real.exp δ * S) ≤
            F.largest := by
          refine le_trans (pv_step (c := 0) hu (by linarith) hp hd1 hd2 x0 hP (by rw [zero_mul]; exact x0) hhi (le_refl 0)
            C0 r3 n ?_ (le_refl _)).2.2 hle
          rw [zero_mul, mul_zero, add_zero]
          exact le_add_of_le_of_nonneg (mul_le_mul_of_nonneg_right pow_le hP0)
            (mul_nonneg (by positivity) (mul_nonneg C0 r3))
        have hPL : P ≤ F.largest := by
          have t1 : P ≤ (1 + roundoff F) ^ n * P := le_mul_of_one_le_left hP0 one_le
          have t2 : 0 ≤ (1 + roundoff F) ^ (n + 1) * ((1 + k) * (1 + ε) * Real.exp δ * S) :=
            mul_nonneg (by positivity) (mul_nonneg C0 r3)
          linarith
        have nx : IsNumber (w * g.paymentAmount) (F.arith.fl (d * a)) := by
          refine Ieee.mul_number' nw na (by rw [abs_of_nonneg f0]; linarith) ?_
          rcases ha with h5 | h5
          · left; rw [h5, mul_zero]
          · right
            rw [abs_of_nonneg x0]
            refine le_trans (zpow_le_zpow_right₀ (by norm_num) hlo) ?_
            rw [show lo - b = -b + lo by ring, zpow_add₀ (by norm_num)]
            exact mul_le_mul hb h5 (Binary.zpow_pos' _).le hw0.le
        have nP : IsNumber (q + w * g.paymentAmount) P :=
          Ieee.add_number' hq nx (by rw [← hPd, abs_of_nonneg hP0]; exact hPL)
        obtain ⟨x, nr, s1, s2⟩ := r4 nP up
        exact ⟨x, nr, (pv_step hu (by linarith) hp hd1 hd2 x0 hP hlo' hhi c0 C0 r3 n s1 s2).2⟩
    · rw [if_neg hdue, if_neg hdue, List.filter_cons_of_neg (by simpa using hdue)]
      exact ih q p q' hp

omit [HasExp (Ieee F)] in
/-- The flows of the bond in the format next to those of the exact bond. -/
theorem ieee_flows_near {k : ℕ} (hk : 2 * k + F.prec + 30 ≤ F.emax) {id : String} {issue first pen mat : Date}
    {f : Frequency} {rate face : Ieee F} (hrate : Moderate k rate) (hface : Moderate k face) (hr0 : 0 ≤ rate)
    (hf0 : 0 ≤ face) (hi : issue < first) (hm : pen < mat) {b : Bond (Ieee F)} {b' : Bond ℝ}
    (hb : Bond.new id issue first pen mat f rate face = .ok (some b))
    (hb' : Bond.new id issue first pen mat f (real rate) (real face) = .ok (some b')) :
    List.Forall₂ (IeeeAmountNear (-(2 * k : ℤ) - 28 - F.prec) (10 * roundoff F)) b.bondCashFlows b'.bondCashFlows := by
  have hA : F.arith.fl = F.arith.fl := rfl
  have hu0 : 0 < roundoff F := F.arith.unit_pos
  have hu1 : roundoff F ≤ 1 / 16777216 := F.arith.unit_le
  have hs := bond_number hA hk hrate hface f id issue first pen mat
  rw [hb] at hs
  obtain ⟨ρ, nr, -⟩ := hrate
  obtain ⟨φ, nf, -⟩ := hface
  have er : (toUnbounded hA rate).val = real rate := toUnbounded_real hA ⟨ρ, nr⟩
  have ef : (toUnbounded hA face).val = real face := toUnbounded_real hA ⟨φ, nf⟩
  have pr : 0 ≤ (toUnbounded hA rate).val := by
    rw [toUnbounded_val hA nr]; exact (Ieee.le_number Ieee.zero_number nr).1 hr0
  have pf : 0 ≤ (toUnbounded hA face).val := by
    rw [toUnbounded_val hA nf]; exact (Ieee.le_number Ieee.zero_number nf).1 hf0
  match e : Bond.new id issue first pen mat f (toUnbounded hA rate) (toUnbounded hA face) with
  | .panic => rw [e] at hs; exact hs.elim
  | .ok none => rw [e] at hs; exact hs.elim
  | .ok (some bf) =>
    rw [e] at hs
    have hb'' : Bond.new id issue first pen mat f (toUnbounded hA rate).val (toUnbounded hA face).val = .ok (some b') := by
      rw [er, ef]; exact hb'
    have near := flows_near e hb'' hi hm pr pf
    obtain ⟨-, l, l', x, y, e1, e2, hl, hxy⟩ := hs
    have hall : List.Forall₂ (FlowRel fun (x : Ieee F) (y : Fl F.arith) =>
        IsNumber x y.val ∧ Mag (-(2 * k : ℤ) - 28 - F.prec) (2 * k + 30) y.val) b.bondCashFlows bf.bondCashFlows := by
      rw [e1, e2]
      exact List.rel_append hl (.cons hxy .nil)
    have hl1 := hall.length_eq
    have hl2 := near.length_eq
    refine List.forall₂_iff_get.2 ⟨hl1.trans hl2, fun i h1 h3 => ?_⟩
    obtain ⟨q1, q2, q3, q4⟩ := (List.forall₂_iff_get.1 hall).2 i h1 (by omega)
    obtain ⟨p1, p2, p3, p4⟩ := (List.forall₂_iff_get.1 near).2 i (by omega) h3
    rw [F.unit_arith] at p4
    refine ⟨q1.trans p1, q2.trans p2, p3, _, q3, ?_, p4⟩
    have p6 := (abs_le.1 p4).1
    have p7 := mul_le_mul_of_nonneg_right hu1 p3
    refine q4.imp_right fun h => ?_
    rw [abs_of_nonneg (by linarith)] at h
    exact h.1

/-- Twice the smallest positive number is below the roundoff. -/
theorem smallest_le (F : IeeeFormat) : 2 * smallest F ≤ roundoff F := by
  have he := F.emax_ge
  have hp := F.prec_ge
  have e : (2 : ℝ) * smallest F = 2 ^ (1 + F.bottom) := by
    unfold smallest; rw [zpow_add₀ (by norm_num), zpow_one]
  have e' : roundoff F = 2 ^ (-(F.prec : ℤ)) := by
    unfold roundoff; rw [one_div, inv_pow, zpow_neg, zpow_natCast]
  rw [e, e']
  exact zpow_le_zpow_right₀ (by norm_num) (by unfold IeeeFormat.bottom; omega)

/-- The two prices as a relative error. -/
theorem ieee_near_prices (hF : 40 ≤ F.emax) {D : DayCount (Ieee F)} {E : DayCount ℝ} {N : Int}
    (hD : IsActualDayCount D N) (hE : IsActualDayCount E N) {I : Interpolator (Ieee F)} {J : Interpolator ℝ} {n : Nat}
    (hI : SameInterpolator I J n) {cs : Date} {ms : List Date} {ys : List (Ieee F)} {η M T B ε δ : ℝ}
    (hε : IeeeExpWithin F B ε) (hε0 : 0 ≤ ε) (hε1 : ε ≤ 1 / 2) (hlen : ms.length = ys.length) (hn : n ≤ ms.length)
    (hms : ms.Pairwise (· < ·)) (hy : IeeeYieldsNear F I J N cs ms ys η M)
    (hη : 0 ≤ η) (hM : 0 ≤ M) (hT : ∀ m ∈ ms, years N cs m ≤ T) (hT0 : 0 ≤ T)
    (hB : 2 * T * M + (1.01 * η + 5 * roundoff F * M) * (2 * T) + 2 * smallest F ≤ B) (hB' : B ≤ 2 ^ (F.emax - 1))
    (hδ : (1.01 * η + 5 * roundoff F * M) * 2 ≤ δ) {k c : ℕ} (hkc : 2 * k + c + F.prec + 30 ≤ F.emax)
    (hc : 2 * Real.exp B ≤ 2 ^ c) {id : String}
    {issue first pen mat : Date} {f : Frequency} {rate face : Ieee F} (hrate : Moderate k rate) (hface : Moderate k face)
    (hr0 : 0 ≤ rate) (hf0 : 0 ≤ face) (hi : issue < first) (hm : pen < mat) {b : Bond (Ieee F)} {b' : Bond ℝ} {s : Date}
    (hb : Bond.new id issue first pen mat f rate face = .ok (some b))
    (hb' : Bond.new id issue first pen mat f (real rate) (real face) = .ok (some b'))
    (hr : ∀ d ∈ s :: ms ++ b.bondCashFlows.map (·.paymentDate), |Date.sub d cs| ≤ 2 ^ 20) {v : ℝ}
    (h : curvePrice E J cs ms (ys.map real) b' s = .ok (.ok v)) {X : ℝ}
    (hX : X = ((remaining b s).length + 12) * roundoff F + ε + δ * T) (hX1 : X < 1) (hv : v ≤ (1 - X) * F.largest) :
    ∃ w r, curvePrice D I cs ms ys b s = .ok (.ok w) ∧ IsNumber w r ∧ 0 ≤ v ∧ |r - v| ≤ X / (1 - X) * v := by
  have hu : 0 < roundoff F := F.arith.unit_pos
  have hu1 : roundoff F ≤ 1 / 16777216 := F.arith.unit_le
  have hs0 : 0 < smallest F := Binary.zpow_pos' _
  have hsm := smallest_le F
  have hN0 : 0 < N := by rcases hD with ⟨-, h⟩ | ⟨-, h⟩ <;> omega
  have hC0 : 0 ≤ 1.01 * η + 5 * roundoff F * M := by positivity
  obtain ⟨cv, cv', hc1, hc2, hall⟩ := ieee_near_discounts hF hD hE hI hε hε0 (by linarith) hlen hn hms
    (fun m hm => hr m (by simp [hm])) hy hη hM hT hT0 hB hB'
  have flows := ieee_flows_near (k := k) (by omega) hrate hface hr0 hf0 hi hm hb hb'
  have e : ((remaining b s).length + 1 : ℕ) * roundoff F + 10 * roundoff F + ε + (δ * T + roundoff F) = X := by
    rw [hX]; push_cast; ring
  have hδT : 0 ≤ δ * T := mul_nonneg (by linarith) hT0
  have hδ0 : 0 ≤ δ * T + roundoff F := by linarith
  have hloop := pv_ieee (D := D) (E := E) (c := cv) (c' := cv') (s := s) (ε := ε) (δ := δ * T + roundoff F)
      (k := 10 * roundoff F) (b := c) (by omega) (by linarith) hε0 (by positivity) (by linarith) _ _ flows (by
    intro g hg
    rcases hall s g.paymentDate (hr _ (by simp)) (hr _ (by
      simp only [List.cons_append, List.mem_cons, List.mem_append, List.mem_map]
      exact .inr (.inr ⟨g, hg, rfl⟩))) with h | ⟨w, r, v, h1, hn, h2, h3, h4, ⟨m, hm1, hm2⟩, h5, ⟨h6, h7⟩, h8⟩
    · exact .inl h
    · have t2 : years N cs g.paymentDate ≤ T := le_trans (years_le hN0 hm2) (hT m hm1)
      have t1 : years N cs s ≤ T := le_trans (years_le hN0 h4) t2
      have hle : (1.01 * η + 5 * roundoff F * M) * (years N cs s + years N cs g.paymentDate) + 2 * smallest F ≤
          δ * T + roundoff F := by
        have q1 := mul_le_mul_of_nonneg_left (show years N cs s + years N cs g.paymentDate ≤ 2 * T by linarith) hC0
        have q2 := mul_le_mul_of_nonneg_right hδ hT0
        linarith
      refine .inr ⟨w, r, v, h1, hn, h2, h5, ⟨?_, ?_⟩, ?_⟩
      · exact le_trans (mul_le_mul_of_nonneg_right (mul_le_mul_of_nonneg_left (Real.exp_le_exp.2 (neg_le_neg hle))
          (by linarith)) h5.le) h6
      · exact le_trans h7 (mul_le_mul_of_nonneg_right (mul_le_mul_of_nonneg_left (Real.exp_le_exp.2 hle)
          (by linarith)) h5.le)
      · refine le_trans ?_ h8
        have i3 : (2 : ℝ) ^ (-(c : ℤ)) ≤ 1 / 2 * Real.exp (-B) := by
          rw [zpow_neg, zpow_natCast, Real.exp_neg, one_div, ← mul_inv]
          exact inv_anti₀ (by positivity) hc
        exact i3.trans (mul_le_mul_of_nonneg_right (by linarith) (Real.exp_pos _).le)) 0 0 0 (le_refl _)
  unfold curvePrice Bond.discountedValue at h ⊢
  rw [hc2] at h
  rw [hc1]
  simp only [Rust.ok_bind] at h ⊢
  rcases hloop with ⟨e, -, h'⟩ | ⟨r, S, r1, r2, r3, r4⟩
  · rw [h'] at h; simp at h
  · rw [zero_add] at r2
    rw [r2] at h
    obtain rfl : S = v := by simpa using h
    rw [mul_zero, zero_add, mul_zero, zero_add] at r4
    have up : (1 + roundoff F) ^ ((remaining b s).length + 1) *
        ((1 + 10 * roundoff F) * (1 + ε) * Real.exp (δ * T + roundoff F) * S) ≤ F.largest := by
      have key := relative_error hu.le (by linarith) hε0 (by linarith) hδ0 r3 (e.le.trans_lt hX1)
        (w := (1 + roundoff F) ^ ((remaining b s).length + 1) *
          ((1 + 10 * roundoff F) * (1 + ε) * Real.exp (δ * T + roundoff F) * S)) ?_ (le_refl _)
      · rw [e] at key
        have i1 := (abs_le.1 key).2
        have i2 : 0 < 1 - X := by linarith
        have i3 : S + X / (1 - X) * S = S / (1 - X) := by field_simp; ring
        have i4 : S / (1 - X) ≤ F.largest := by rw [div_le_iff₀ i2, mul_comm]; exact hv
        linarith
      · have g1 : Real.exp (-(δ * T + roundoff F)) ≤ Real.exp (δ * T + roundoff F) := Real.exp_le_exp.2 (by linarith)
        have g2 : (1 - 10 * roundoff F) * (1 - ε) ≤ (1 + 10 * roundoff F) * (1 + ε) :=
          mul_le_mul (by linarith) (by linarith) (by linarith) (by linarith)
        exact mul_le_mul (pow_le_pow_left₀ (by linarith) (by linarith) _) (mul_le_mul_of_nonneg_right
          (mul_le_mul g2 g1 (Real.exp_pos _).le (by positivity)) r3)
          (mul_nonneg (mul_nonneg (mul_nonneg (by linarith) (by linarith)) (Real.exp_pos _).le) r3) (by positivity)
    obtain ⟨x, nx, x1, x2⟩ := r4 Ieee.zero_number up
    refine ⟨r, x, r1, nx, r3, ?_⟩
    rw [← e]
    exact relative_error hu.le (by linarith) hε0 (by linarith) hδ0 r3 (e.le.trans_lt hX1) x1 x2

/-! ## The yields -/

omit [HasExp (Ieee F)] in
/-- What remains to be shown: the values between two neighbouring maturities. -/
theorem ieeeYieldsNear_of (hF : 40 ≤ F.emax) {N : Int} (hN : N = 360 ∨ N = 365) {I : Interpolator (Ieee F)}
    {J : Interpolator ℝ} {n : Nat} (hI : SameInterpolator I J n) {s : Date} {ms : List Date} {ys : List (Ieee F)}
    (hlen : ms.length = ys.length) (hn : n ≤ ms.length) (hms : ms.Pairwise (· < ·))
    (hr : ∀ m ∈ ms, |Date.sub m s| ≤ 2 ^ 20) {η M : ℝ}
    (h : ∀ d, |Date.sub d s| ≤ 2 ^ 20 → ∀ i (hi : i + 1 < ms.length), ms[i] ≤ d → d ≤ ms[i + 1] →
      ∃ y r y', evaluate I ((ms.map (ieeeYears F N s)).zip ys) (ieeeYears F N s d) = .ok (.ok y) ∧ IsNumber y r ∧
        evaluate J ((ms.map (years N s)).zip (ys.map real)) (years N s d) = .ok (.ok y') ∧
        |r - y'| ≤ η ∧ |y'| ≤ M) :
    IeeeYieldsNear F I J N s ms ys η M := by
  intro d hd
  have h2 := shipped_length (ieee_same_right hI)
  have hN0 : 0 < N := by omega
  have kr : KeepsOrder (years N s) ms d := years_keeps hN0
  have hinc := rounded_increasing F.arith hN hms (fun m hm => lt_of_le_of_lt (hr m hm) (span_lt F)) (ys.map fun _ => (0 : ℝ))
  have hnum : List.Forall₂ (fun p q => IsNumber p.1 q.1 ∧ True) ((ms.map (ieeeYears F N s)).zip ys)
      ((ms.map fun m => (flYears F.arith N s m).val).zip (ys.map fun _ => (0 : ℝ))) :=
    pillars_number hF hN (R := fun _ _ => True) (by
      rw [List.forall₂_map_right_iff]
      exact List.forall₂_same.2 fun _ _ => trivial)
  have out : ¬ Covers ms d → ∃ e e',
      evaluate I ((ms.map (ieeeYears F N s)).zip ys) (ieeeYears F N s d) = .ok (.error e) ∧
      evaluate J ((ms.map (years N s)).zip (ys.map real)) (years N s d) = .ok (.error e') := by
    intro hcov
    have kf : KeepsOrder (flYears F.arith N s) ms d := flYears_keeps hN (by
      intro e he
      rcases List.mem_cons.1 he with rfl | he
      · exact lt_of_le_of_lt hd (span_lt F)
      · exact lt_of_le_of_lt (hr e he) (span_lt F))
    have kf' : KeepsOrder (fun d => (flYears F.arith N s d).val) ms d :=
      fun a ha b hb h => (Fl.lt_iff _ _).1 (kf a ha b hb h)
    obtain ⟨e, he⟩ := ((ieee_shipped (ieee_same_left hI) (hnum.imp fun _ _ h => h.1) hinc (by simp [← hlen]; omega)).2 _ _
      (years_number hF (A := F.arith) rfl hN s d)).2 (by rw [kf'.inRange (by simpa using hlen)]; exact hcov)
    obtain ⟨e', he'⟩ := shipped_outside (fun _ => rfl) (ieee_same_right hI) (kr.increasing hms)
      (show n ≤ ((ms.map (years N s)).zip (ys.map real)).length by simp; omega)
      (fun h => hcov ((kr.inRange (by simpa using hlen)).1 h))
    exact ⟨e, e', he, he'⟩
  rcases date_segment ms (by omega) hms d with hlo | hhi | h0 | ⟨i, m₀, m₁, e0, e1, l0, l1⟩
  · exact .inr (out fun ⟨⟨m, hm, hle⟩, _⟩ => absurd (hlo m hm) (not_lt.2 hle))
  · exact .inr (out fun ⟨_, ⟨m, hm, hle⟩⟩ => absurd (hhi m hm) (not_lt.2 hle))
  · left
    obtain ⟨i0, e0⟩ := List.getElem?_eq_some_iff.1 h0
    have l1 := List.pairwise_iff_getElem.1 hms 0 1 i0 (by omega) (by omega)
    obtain ⟨y, r, y', a1, a2, a3, a4, a5⟩ := h d hd 0 (by omega) (by rw [e0]) (by rw [← e0]; exact l1.le)
    exact ⟨y, r, y', a1, a2, a3, a4, a5, ms[1], List.getElem_mem _, by rw [← e0]; exact l1.le⟩
  · left
    obtain ⟨i0, e0⟩ := List.getElem?_eq_some_iff.1 e0
    obtain ⟨i1, e1⟩ := List.getElem?_eq_some_iff.1 e1
    obtain ⟨y, r, y', a1, a2, a3, a4, a5⟩ := h d hd i i1 (by rw [e0]; exact l0.le) (by rw [e1]; exact l1)
    exact ⟨y, r, y', a1, a2, a3, a4, a5, m₁, by rw [← e1]; exact List.getElem_mem _, l1⟩

omit [HasExp (Ieee F)] in
/-- The pillars in the format, with real values. -/
theorem pillars_real (hF : 40 ≤ F.emax) {N : Int} (hN : N = 360 ∨ N = 365) {s : Date} {ms : List Date} {ys : List (Ieee F)}
    (hfin : ∀ y ∈ ys, IsFinite y) :
    List.Forall₂ (fun p q => IsNumber p.1 q.1 ∧ IsNumber p.2 q.2) ((ms.map (ieeeYears F N s)).zip ys)
      ((ms.map fun m => (flYears F.arith N s m).val).zip (ys.map real)) := by
  refine pillars_number hF hN ?_
  rw [List.forall₂_map_right_iff]
  exact List.forall₂_same.2 fun y hy => real_number (hfin y hy)

omit [HasExp (Ieee F)] in
/-- Times within `2 ^ 20` days differ by at most `2 ^ 13` years. -/
theorem pillars_span {N : Int} (hN : N = 360 ∨ N = 365) {s : Date} {ms : List Date} {zs : List ℝ}
    (hr : ∀ m ∈ ms, |Date.sub m s| ≤ 2 ^ 20) :
    ∀ p ∈ (ms.map fun m => (flYears F.arith N s m).val).zip zs, ∀ q ∈ (ms.map fun m => (flYears F.arith N s m).val).zip zs,
      q.1 - p.1 ≤ 2 ^ (13 : ℤ) := by
  rintro ⟨a, a'⟩ ha ⟨b, b'⟩ hb
  obtain ⟨m, hm, rfl⟩ := List.mem_map.1 (List.of_mem_zip ha).1
  obtain ⟨m', hm', rfl⟩ := List.mem_map.1 (List.of_mem_zip hb).1
  exact le_trans (le_abs_self _) (years_sub_mag (A := F.arith) hN (hr m hm) (hr m' hm')).1.le

omit [HasExp (Ieee F)] in
/-- A date between two maturities is in the range of the pillars. -/
theorem date_inRange {N : Int} (hN : N = 360 ∨ N = 365) {s : Date} {ms : List Date} {zs : List ℝ}
    (hlen : ms.length = zs.length) (hr : ∀ m ∈ ms, |Date.sub m s| ≤ 2 ^ 20) {d : Date} (hd : |Date.sub d s| ≤ 2 ^ 20)
    {i : Nat} (hi : i + 1 < ms.length) (h0 : ms[i] ≤ d) (h1 : d ≤ ms[i + 1]) :
    InRange ((ms.map fun m => (flYears F.arith N s m).val).zip zs) (flYears F.arith N s d).val := by
  have kf : KeepsOrder (flYears F.arith N s) ms d := flYears_keeps hN (by
    intro e he
    rcases List.mem_cons.1 he with rfl | he
    · exact lt_of_le_of_lt hd (span_lt F)
    · exact lt_of_le_of_lt (hr e he) (span_lt F))
  have kf' : KeepsOrder (fun d => (flYears F.arith N s d).val) ms d :=
    fun a ha b hb h => (Fl.lt_iff _ _).1 (kf a ha b hb h)
  rw [kf'.inRange hlen]
  exact ⟨⟨_, List.getElem_mem _, h0⟩, ⟨_, List.getElem_mem _, h1⟩⟩

omit [HasExp (Ieee F)] in
/-- The yields on a Catmull-Rom spline. -/
theorem ieee_catmull_yields (hF : 40 ≤ F.emax) {N : Int} (hN : N = 360 ∨ N = 365) {s : Date} {ms : List Date}
    {ys : List (Ieee F)} {κ Y : ℝ} (hlen : ms.length = ys.length) (h3 : 3 ≤ ms.length) (hms : ms.Pairwise (· < ·))
    (hbase : ∀ m ∈ ms, s ≤ m) (hκ : GapRatio s ms κ) (hκu : 16 * roundoff F * κ ≤ 1) (hfin : ∀ y ∈ ys, IsFinite y)
    (hY : ∀ y ∈ ys, |real y| ≤ Y) (hY1 : (2 : ℝ) ^ (12 - (F.emax : ℤ)) ≤ Y) (hY2 : Y ≤ 2 ^ ((F.emax : ℤ) - 11))
    (hr : ∀ m ∈ ms, |Date.sub m s| ≤ 2 ^ 20) :
    1 ≤ κ ∧ IeeeYieldsNear F (Interpolator.catmullRom (Ieee F)) (Interpolator.catmullRom ℝ) N s ms ys
      (704 * κ * roundoff F * Y) (2 * Y) := by
  have hu : 0 < roundoff F := F.arith.unit_pos
  have hr' : ∀ m ∈ ms, |Date.sub m s| < 2 ^ (F.arith.prec - 1) := fun m hm => lt_of_le_of_lt (hr m hm) (span_lt F)
  obtain ⟨hκ1, hY0, hsh⟩ := catmull_shift F.arith hN (zs := ys.map real) (by simpa using hlen) h3 hms hbase hκ
    (by rw [F.unit_arith]; exact hκu) (by simpa using hY) hr'
  refine ⟨hκ1, ieeeYieldsNear_of hF hN (.inr (.inl ⟨rfl, rfl, rfl⟩)) hlen h3 hms hr fun d hd i hi h0 h1 => ?_⟩
  obtain ⟨v, r, w, hv, hn, hw, he⟩ := C96_catmull_rom _ _ (pillars_real hF hN (s := s) (ms := ms) hfin)
    (rounded_increasing F.arith hN hms hr' _) (by simp; omega) (ieeeYears F N s d) _ (years_number hF (A := F.arith) rfl hN s d)
    (date_inRange hN (by simpa using hlen) hr hd hi h0 h1) Y hY2 (by
    rintro ⟨a, b⟩ hab
    obtain ⟨y, hy, rfl⟩ := List.mem_map.1 (List.of_mem_zip hab).2
    exact hY y hy) (fun p hp q hq => le_trans (pillars_span hN hr p hp q hq)
      (zpow_le_zpow_right₀ (by norm_num) (by omega)))
  obtain ⟨w₁, w', e1, e2, e3, hB⟩ := hsh d (lt_of_le_of_lt hd (span_lt F)) i hi h0 h1
  rw [hw] at e1
  obtain rfl : w = w₁ := by simpa using e1
  refine ⟨v, r, w', hv, hn, e2, ?_, hB⟩
  rw [max_eq_left hY1] at he
  rw [F.unit_arith] at e3
  have := abs_add_le (r - w) (w - w')
  rw [sub_add_sub_cancel] at this
  have hle : roundoff F * Y ≤ κ * (roundoff F * Y) := le_mul_of_one_le_left (by positivity) hκ1
  linarith

omit [HasExp (Ieee F)] in
/-- The yields on a natural cubic spline. -/
theorem ieee_natural_yields (hF : 40 ≤ F.emax) {N : Int} (hN : N = 360 ∨ N = 365) {s : Date} {ms : List Date}
    {ys : List (Ieee F)} {κ Y h H : ℝ} (hlen : ms.length = ys.length) (h3 : 3 ≤ ms.length) (hms : ms.Pairwise (· < ·))
    (hbase : ∀ m ∈ ms, s ≤ m) (hκ : GapRatio s ms κ) (hκu : 200 * roundoff F * κ ≤ 1) (hfin : ∀ y ∈ ys, IsFinite y)
    (hY : ∀ y ∈ ys, |real y| ≤ Y) {k : ℕ} (hk : 5 * k + 16 ≤ F.emax) (hk' : 12 ≤ k) (hY1 : (2 : ℝ) ^ (-(k : ℤ)) ≤ Y)
    (hY2 : Y ≤ 2 ^ k) (hh : 1 ≤ h) (hH : H ≤ 2 ^ 20) (hd : DaysApart ms h H) (hr : ∀ m ∈ ms, |Date.sub m s| ≤ 2 ^ 20) :
    1 ≤ κ ∧ 1 ≤ (H / h) ^ 2 ∧
    IeeeYieldsNear F (Interpolator.naturalCubic (Ieee F)) (Interpolator.naturalCubic ℝ) N s ms ys
      (2740 * κ * roundoff F * Y * (H / h) ^ 2) ((1 + 12 / 5 * (H / h) ^ 2) * Y) := by
  have hN0 : 0 < N := by omega
  have hNr : (0 : ℝ) < N := by exact_mod_cast hN0
  have hu : 0 < roundoff F := F.arith.unit_pos
  have hr' : ∀ m ∈ ms, |Date.sub m s| < 2 ^ (F.arith.prec - 1) := fun m hm => lt_of_le_of_lt (hr m hm) (span_lt F)
  have hh0 : 0 < h := by linarith
  obtain ⟨hκ1, hY0, hsq, hgap, hsh⟩ := natural_shift F.arith hN (zs := ys.map real) (by simpa using hlen) h3 hms hbase hκ
    (by rw [F.unit_arith]; exact hκu) (by simpa using hY) hh0 hd hr'
  have h12 : (2 : ℝ) ^ (-(k : ℤ)) ≤ 1 / 4096 := by
    calc (2 : ℝ) ^ (-(k : ℤ)) ≤ 2 ^ (-12 : ℤ) := zpow_le_zpow_right₀ (by norm_num) (by omega)
      _ = 1 / 4096 := by norm_num
  have h12' : (4096 : ℝ) ≤ 2 ^ k := by
    calc (4096 : ℝ) = 2 ^ 12 := by norm_num
      _ ≤ 2 ^ k := pow_le_pow_right₀ (by norm_num) hk'
  have hNb : (360 : ℝ) ≤ N ∧ (N : ℝ) ≤ 365 := by rcases hN with rfl | rfl <;> norm_num
  have lo : (2 : ℝ) ^ (-(k : ℤ)) ≤ 0.99 * (h / N) := by
    refine h12.trans ?_
    have : 1 / 365 ≤ h / N := div_le_div₀ hh0.le hh hNr hNb.2
    linarith
  have hi' : 1.01 * (H / N) ≤ 2 ^ k := by
    refine le_trans ?_ h12'
    have : H / N ≤ 2 ^ 20 / 360 := div_le_div₀ (by norm_num) hH (by norm_num) hNb.1
    norm_num at this ⊢
    linarith
  refine ⟨hκ1, hsq, ieeeYieldsNear_of hF hN (.inr (.inr ⟨rfl, rfl, rfl⟩)) hlen h3 hms hr fun d hd i hi h0 h1 => ?_⟩
  obtain ⟨v, r, w, hv, hn, hw, he⟩ := C96_natural_cubic _ _ (pillars_real hF hN (s := s) (ms := ms) hfin)
    (rounded_increasing F.arith hN hms hr' _) (by simp; omega) (ieeeYears F N s d) _ (years_number hF (A := F.arith) rfl hN s d)
    (date_inRange hN (by simpa using hlen) hr hd hi h0 h1) k hk Y (0.99 * (h / N)) (1.01 * (H / N)) hY2 (by
    rintro ⟨a, b⟩ hab
    obtain ⟨y, hy, rfl⟩ := List.mem_map.1 (List.of_mem_zip hab).2
    exact hY y hy) lo hi' (by
    intro j hj
    have hj2 : j + 1 < ms.length := by simpa [hlen] using hj
    simp only [List.getElem_zip, List.getElem_map]
    exact hgap j hj2)
  obtain ⟨w₁, w', e1, e2, e3, hB⟩ := hsh d (lt_of_le_of_lt hd (span_lt F)) i hi h0 h1
  rw [hw] at e1
  obtain rfl : w = w₁ := by simpa using e1
  refine ⟨v, r, w', hv, hn, e2, ?_, hB⟩
  rw [max_eq_left hY1] at he
  rw [F.unit_arith] at e3
  have := abs_add_le (r - w) (w - w')
  rw [sub_add_sub_cancel] at this
  have q0 : 0 ≤ 2420 * roundoff F * Y := by positivity
  have q1 := mul_le_mul_of_nonneg_left (rounded_ratio (H := H) hNr hh0) q0
  have q2 : 0 ≤ roundoff F * Y * (H / h) ^ 2 := by positivity
  have q3 : roundoff F * Y * (H / h) ^ 2 ≤ κ * (roundoff F * Y * (H / h) ^ 2) := le_mul_of_one_le_left q2 hκ1
  nlinarith

/-- The discount factors, given a bound on the yields. -/
theorem ieee_near_discount (hF : 40 ≤ F.emax) {D : DayCount (Ieee F)} {E : DayCount ℝ} {N : Int}
    (hD : IsActualDayCount D N) (hE : IsActualDayCount E N) {I : Interpolator (Ieee F)} {J : Interpolator ℝ} {n : Nat}
    (hI : SameInterpolator I J n) {s : Date} {ms : List Date} {ys : List (Ieee F)} {η M T B ε C : ℝ}
    (hε : IeeeExpWithin F B ε) (hε0 : 0 ≤ ε) (hε1 : ε ≤ 1) (hlen : ms.length = ys.length) (hn : n ≤ ms.length)
    (hms : ms.Pairwise (· < ·)) (hy : IeeeYieldsNear F I J N s ms ys η M)
    (hη : 0 ≤ η) (hM : 0 ≤ M) (hT : ∀ m ∈ ms, years N s m ≤ T) (hT0 : 0 ≤ T) (hC : 1.01 * η + 5 * roundoff F * M ≤ C)
    (hB : 2 * T * M + C * (2 * T) + 2 * smallest F ≤ B) (hB' : B ≤ 2 ^ (F.emax - 1)) {d1 d2 : Date}
    (hr : ∀ d ∈ d1 :: d2 :: ms, |Date.sub d s| ≤ 2 ^ 20) {v : ℝ}
    (h : curveDiscount E J s ms (ys.map real) d1 d2 = .ok (.ok v)) :
    ∃ w r δ, curveDiscount D I s ms ys d1 d2 = .ok (.ok w) ∧ IsNumber w r ∧
      δ = C * (years N s d1 + years N s d2) + 2 * smallest F ∧
      (1 - ε) * Real.exp (-δ) * v ≤ r ∧ r ≤ (1 + ε) * Real.exp δ * v := by
  have hN0 : 0 < N := by rcases hD with ⟨-, h⟩ | ⟨-, h⟩ <;> omega
  obtain ⟨c, c', hc, hc', hall⟩ := ieee_near_discounts hF hD hE hI hε hε0 hε1 hlen hn hms
    (fun m hm => hr m (by simp [hm])) hy hη hM hT hT0
    (le_trans (by have := mul_le_mul_of_nonneg_right hC (show 0 ≤ 2 * T by linarith); linarith) hB) hB'
  unfold curveDiscount at h ⊢
  rw [hc'] at h
  rw [hc]
  simp only [Rust.ok_bind] at h ⊢
  rcases hall d1 d2 (hr _ (by simp)) (hr _ (by simp)) with ⟨e, -, h'⟩ | ⟨w, r, v', h1, hn, h2, hs1, hs2, -, hv0, ⟨h4, h5⟩, -⟩
  · rw [h'] at h; simp at h
  · rw [h2] at h
    obtain rfl : v' = v := by simpa using h
    have t1 := years_nonneg hN0 hs1
    have t2 := years_nonneg hN0 (hs1.trans hs2)
    have hδ := mul_le_mul_of_nonneg_right hC (show 0 ≤ years N s d1 + years N s d2 by linarith)
    refine ⟨w, r, _, h1, hn, rfl, ?_, ?_⟩
    · exact le_trans (mul_le_mul_of_nonneg_right (mul_le_mul_of_nonneg_left (Real.exp_le_exp.2 (by linarith))
        (by linarith)) hv0.le) h4
    · exact le_trans h5 (mul_le_mul_of_nonneg_right (mul_le_mul_of_nonneg_left (Real.exp_le_exp.2 (by linarith))
        (by linarith)) hv0.le)

omit [HasExp (Ieee F)] in
/-- Two maturities from settlement on span at least a day. -/
theorem horizon_ge {N : Int} (hN : N = 360 ∨ N = 365) {s : Date} {ms : List Date} {T : ℝ} (h2 : 2 ≤ ms.length)
    (hms : ms.Pairwise (· < ·)) (hbase : ∀ m ∈ ms, s ≤ m) (hT : ∀ m ∈ ms, years N s m ≤ T) : 1 / 365 ≤ T := by
  have l1 := List.pairwise_iff_getElem.1 hms 0 1 (by omega) (by omega) (by omega)
  have l2 := hbase _ (List.getElem_mem (show 0 < ms.length by omega))
  have l3 := hT _ (List.getElem_mem (show 1 < ms.length by omega))
  have l4 : 1 ≤ Date.sub ms[1] s := by
    have := years_lt (N := 1) (by norm_num) (s := s) (lt_of_le_of_lt l2 l1)
    rw [years_self, years, Int.cast_one, div_one] at this
    have : 0 < Date.sub ms[1] s := by exact_mod_cast this
    omega
  refine le_trans ?_ l3
  unfold years
  have l5 : (1 : ℝ) ≤ (Date.sub ms[1] s : ℝ) := by exact_mod_cast l4
  rcases hN with rfl | rfl <;> push_cast <;> linarith

omit [HasExp (Ieee F)] in
/-- The smallest numbers are small next to the exponent. -/
theorem smallest_horizon {Y T : ℝ} (hT : 1 / 365 ≤ T) (hY : (2 : ℝ) ^ (12 - (F.emax : ℤ)) ≤ Y) :
    2 * smallest F ≤ 1 / 2 * Y * T := by
  have hp := F.prec_ge
  have e : (2 : ℝ) * smallest F = 2 ^ (1 + F.bottom) := by
    unfold smallest; rw [zpow_add₀ (by norm_num), zpow_one]
  have e1 : (2 : ℝ) ^ (1 + F.bottom) ≤ 2 ^ ((12 - (F.emax : ℤ)) + (-12)) :=
    zpow_le_zpow_right₀ (by norm_num) (by unfold IeeeFormat.bottom; omega)
  rw [zpow_add₀ (by norm_num) (12 - (F.emax : ℤ)) (-12), show ((2 : ℝ) ^ (-12 : ℤ)) = 1 / 4096 by norm_num] at e1
  have p : (0 : ℝ) < 2 ^ (12 - (F.emax : ℤ)) := Binary.zpow_pos' _
  have q : (2 : ℝ) ^ (12 - (F.emax : ℤ)) * (1 / 365) ≤ Y * T := mul_le_mul hY hT (by norm_num) (p.le.trans hY)
  linarith

omit [HasExp (Ieee F)] in
/-- Where `exp B` is below a power of two, so is `B`. -/
theorem exponent_le {B : ℝ} {c : ℕ} (hc : 2 * Real.exp B ≤ 2 ^ c) (h : c ≤ F.emax - 1) : B ≤ 2 ^ (F.emax - 1) := by
  have h1 := Real.add_one_le_exp B
  have h2 := Real.exp_pos B
  exact le_trans (by linarith) (hc.trans (pow_le_pow_right₀ (by norm_num) h))

/-! ## Linear curves -/

omit [HasExp (Ieee F)] in
/-- The yields on a linear curve. -/
theorem ieee_linear_yields (hF : 40 ≤ F.emax) {N : Int} (hN : N = 360 ∨ N = 365) {s : Date} {ms : List Date}
    {ys : List (Ieee F)} {κ Y : ℝ} (hlen : ms.length = ys.length) (h2 : 2 ≤ ms.length) (hms : ms.Pairwise (· < ·))
    (hbase : ∀ m ∈ ms, s ≤ m) (hκ : GapRatio s ms κ) (hκu : 16 * roundoff F * κ ≤ 1) (hfin : ∀ y ∈ ys, IsFinite y)
    (hY : ∀ y ∈ ys, |real y| ≤ Y) (hY1 : (2 : ℝ) ^ (12 - (F.emax : ℤ)) ≤ Y) (hY2 : Y ≤ 2 ^ ((F.emax : ℤ) - 12))
    (hr : ∀ m ∈ ms, |Date.sub m s| ≤ 2 ^ 20) :
    1 ≤ κ ∧ IeeeYieldsNear F (Interpolator.linear (Ieee F)) (Interpolator.linear ℝ) N s ms ys
      (54 * κ * roundoff F * Y) Y := by
  have hN0 : 0 < N := by omega
  have hNr : (0 : ℝ) < N := by exact_mod_cast hN0
  have hu : 0 < roundoff F := F.arith.unit_pos
  have hu1 : roundoff F ≤ 1 / 16777216 := F.arith.unit_le
  have hY0 : 0 < Y := lt_of_lt_of_le (Binary.zpow_pos' _) hY1
  have hr' : ∀ m ∈ ms, |Date.sub m s| < 2 ^ (F.arith.prec - 1) := fun m hm => lt_of_le_of_lt (hr m hm) (span_lt F)
  have gap : ∀ i m₀ m₁, ms[i]? = some m₀ → ms[i + 1]? = some m₁ →
      m₀ < m₁ ∧ years N s m₁ ≤ κ * (years N s m₁ - years N s m₀) := by
    intro i m₀ m₁ e0 e1
    obtain ⟨i0, e0'⟩ := List.getElem?_eq_some_iff.1 e0
    obtain ⟨i1, e1'⟩ := List.getElem?_eq_some_iff.1 e1
    have hlt := List.pairwise_iff_getElem.1 hms i (i + 1) i0 i1 (by omega)
    rw [e0', e1'] at hlt
    refine ⟨hlt, ?_⟩
    have h := hκ i m₀ m₁ e0 e1
    have e : ((Date.sub m₁ m₀ : Int) : ℝ) = (Date.sub m₁ s : Int) - (Date.sub m₀ s : Int) := by
      rw [C04_sub_serial, C04_sub_serial, C04_sub_serial]; push_cast; ring
    rw [e] at h
    unfold years
    rw [← sub_div, ← mul_div_assoc]
    exact div_le_div_of_nonneg_right h hNr.le
  have hκ1 : 1 ≤ κ := by
    obtain ⟨hlt, hg⟩ := gap 0 _ _ (List.getElem?_eq_getElem (by omega)) (List.getElem?_eq_getElem (by omega))
    by_contra hn
    have p0 := years_lt hN0 (s := s) hlt
    have := mul_lt_mul_of_pos_right (not_le.1 hn) (sub_pos.2 p0)
    have := years_nonneg hN0 (hbase _ (List.getElem_mem (show 0 < ms.length by omega)))
    linarith
  refine ⟨hκ1, ieeeYieldsNear_of hF hN (.inl ⟨rfl, rfl, rfl⟩) hlen h2 hms hr fun d hd => ?_⟩
  have hrd : ∀ e ∈ d :: ms, |Date.sub e s| < 2 ^ (F.arith.prec - 1) := by
    intro e he
    rcases List.mem_cons.1 he with rfl | he
    · exact lt_of_le_of_lt hd (span_lt F)
    · exact hr' e he
  have kf := flYears_keeps (A := F.arith) hN hrd
  have kr : KeepsOrder (years N s) ms d := years_keeps hN0
  have core : ∀ i (hi : i + 1 < ms.length), (ms[i] < d ∨ (i = 0 ∧ ms[i] = d)) → d ≤ ms[i + 1] →
      ∃ y r y', evaluate (Interpolator.linear (Ieee F)) ((ms.map (ieeeYears F N s)).zip ys) (ieeeYears F N s d) =
          .ok (.ok y) ∧ IsNumber y r ∧
        evaluate (Interpolator.linear ℝ) ((ms.map (years N s)).zip (ys.map real)) (years N s d) = .ok (.ok y') ∧
        |r - y'| ≤ 54 * κ * roundoff F * Y ∧ |y'| ≤ Y := by
    intro i hi hd0 hd1
    have e0 : ms[i]? = some ms[i] := List.getElem?_eq_getElem (by omega)
    have e1 : ms[i + 1]? = some ms[i + 1] := List.getElem?_eq_getElem hi
    have g0 : (ys.map real)[i]? = some (real ys[i]) := by simp [List.getElem?_eq_getElem (show i < ys.length by omega)]
    have g1 : (ys.map real)[i + 1]? = some (real ys[i + 1]) := by
      simp [List.getElem?_eq_getElem (show i + 1 < ys.length by omega)]
    have y0 := hY _ (List.getElem_mem (show i < ys.length by omega))
    have y1 := hY _ (List.getElem_mem (show i + 1 < ys.length by omega))
    obtain ⟨hlt, hg⟩ := gap i _ _ e0 e1
    have i0 : ms[i] ∈ ms := List.getElem_mem _
    have i1 : ms[i + 1] ∈ ms := List.getElem_mem _
    have b0 := hbase _ i0
    have b1 := hbase _ i1
    have hd0' : ms[i] ≤ d := by rcases hd0 with h | ⟨-, h⟩ <;> [exact h.le; exact h.le]
    have mono : ∀ a ∈ d :: ms, ∀ b ∈ d :: ms, a ≤ b → (flYears F.arith N s a).val ≤ (flYears F.arith N s b).val := by
      intro a ha b hb hab
      rcases eq_or_lt_of_le hab with rfl | hab
      · exact le_refl _
      · exact ((Fl.lt_iff _ _).1 (kf a ha b hb hab)).le
    have lt01 := (Fl.lt_iff _ _).1 (kf _ (by simp [i0]) _ (by simp [i1]) hlt)
    have ye := yield_error (u := roundoff F) hu hu1 hκu (years_nonneg hN0 b0) (years_le hN0 hd0') (years_le hN0 hd1)
      (years_lt hN0 hlt) hg
      (flYears_error hN0 b0 (hr' _ i0)) (flYears_error hN0 b1 (hr' _ i1))
      (flYears_error hN0 (b0.trans hd0') (hrd _ (by simp))) (mono _ (by simp [i0]) _ (by simp) hd0')
      (mono _ (by simp) _ (by simp [i1]) hd1) lt01 y0 y1
      (w := lineThrough (flYears F.arith N s ms[i]).val (real ys[i]) (flYears F.arith N s ms[i + 1]).val (real ys[i + 1])
        (flYears F.arith N s d).val) (by unfold lineThrough; rw [sub_self, abs_zero]; positivity)
    obtain ⟨l0, l1, l2⟩ := ye
    have wide := (years_sub_mag (A := F.arith) hN (hr _ i0) (hr _ i1))
    have wide' := le_trans (le_abs_self _) (years_sub_mag (A := F.arith) hN (hr _ i0) hd).1.le
    have hw1 : (2 : ℝ) ^ (-10 : ℤ) ≤ (flYears F.arith N s ms[i + 1]).val - (flYears F.arith N s ms[i]).val := by
      rcases wide.1 with h | ⟨h, -⟩
      · exact absurd h (wide.2 hlt.ne)
      · rwa [abs_of_pos (sub_pos.2 lt01)] at h
    have hw2 := le_trans (le_abs_self _) wide.1.le
    have hyd : |real ys[i + 1] - real ys[i]| ≤ 2 * Y := (abs_sub _ _).trans (by linarith)
    have ty : 2 * Y ≤ 2 ^ ((F.emax : ℤ) - 11) := by
      rw [show (F.emax : ℤ) - 11 = 1 + (F.emax - 12) by ring, zpow_add₀ (by norm_num), zpow_one]
      linarith
    obtain ⟨y, r, v1, v2, v3⟩ := C96_linear _ _ (pillars_real hF hN (s := s) (ms := ms) hfin)
      (rounded_increasing F.arith hN hms hr' _) i _ _ _ _ _ ⟨zip_getElem? (by simp [e0]) g0, zip_getElem? (by simp [e1]) g1⟩
      (ieeeYears F N s d) (years_number hF (A := F.arith) rfl hN s d)
      (hd0.imp (fun h => (Fl.lt_iff _ _).1 (kf _ (by simp [i0]) _ (by simp) h)) (fun h => ⟨h.1, by rw [h.2]⟩))
      (mono _ (by simp) _ (by simp [i1]) hd1)
      (y0.trans (hY2.trans (zpow_le_zpow_right₀ (by norm_num) (by omega))))
      (y1.trans (hY2.trans (zpow_le_zpow_right₀ (by norm_num) (by omega))))
      (by
        refine hyd.trans (ty.trans ?_)
        have := mul_le_mul_of_nonneg_left hw1 (show (0 : ℝ) ≤ 2 ^ ((F.emax : ℤ) - 1) from (Binary.zpow_pos' _).le)
        rw [← zpow_add₀ (by norm_num)] at this
        exact le_trans (zpow_le_zpow_right₀ (by norm_num) (by omega)) this)
      (hw2.trans (by rw [← zpow_natCast]; exact zpow_le_zpow_right₀ (by norm_num) (by omega)))
    refine ⟨y, r, _, v1, v2, ?_, ?_, l2⟩
    · rcases hd0 with h | ⟨rfl, h⟩
      · exact eval_inside kr hms e0 e1 g0 g1 h hd1
      · have := eval_first kr hms (by rw [e0, h]) e1 g0 g1
        rw [h]
        exact this
    · have t1 := abs_add_le (r - lineThrough (flYears F.arith N s ms[i]).val (real ys[i])
        (flYears F.arith N s ms[i + 1]).val (real ys[i + 1]) (flYears F.arith N s d).val)
        (lineThrough (flYears F.arith N s ms[i]).val (real ys[i]) (flYears F.arith N s ms[i + 1]).val (real ys[i + 1])
        (flYears F.arith N s d).val - (real ys[i] + (real ys[i + 1] - real ys[i]) /
          (years N s ms[i + 1] - years N s ms[i]) * (years N s d - years N s ms[i])))
      rw [sub_add_sub_cancel] at t1
      have sm : (2 : ℝ) ^ F.bottom * ((flYears F.arith N s d).val - (flYears F.arith N s ms[i]).val + 1) ≤
          16 * (roundoff F * Y) := by
        have q1 : (flYears F.arith N s d).val - (flYears F.arith N s ms[i]).val + 1 ≤ 2 ^ (14 : ℤ) := by
          norm_num at wide' ⊢; linarith
        have q2 := mul_le_mul_of_nonneg_left q1 (show (0 : ℝ) ≤ 2 ^ F.bottom from (Binary.zpow_pos' _).le)
        have q3 := mul_le_mul_of_nonneg_left hY1 hu.le
        have e' : roundoff F = 2 ^ (-(F.prec : ℤ)) := by
          unfold roundoff; rw [one_div, inv_pow, zpow_neg, zpow_natCast]
        have q4 : (2 : ℝ) ^ F.bottom * 2 ^ (14 : ℤ) = 16 * (roundoff F * 2 ^ (12 - (F.emax : ℤ))) := by
          rw [e', show (16 : ℝ) = 2 ^ (4 : ℤ) by norm_num, ← zpow_add₀ (by norm_num), ← zpow_add₀ (by norm_num),
            ← zpow_add₀ (by norm_num)]
          congr 1
          unfold IeeeFormat.bottom
          ring
        linarith
      have q5 := mul_le_mul_of_nonneg_left l1 hu.le
      have q6 := mul_le_mul_of_nonneg_left hyd hu.le
      have q7 : roundoff F * Y ≤ κ * (roundoff F * Y) := le_mul_of_one_le_left (by positivity) hκ1
      have q8 : 0 ≤ roundoff F * Y := by positivity
      linarith
  intro i hi hd0 hd1
  rcases eq_or_lt_of_le hd0 with h | h
  · rcases Nat.eq_zero_or_pos i with h0 | h0
    · exact core i hi (.inr ⟨h0, h⟩) hd1
    · obtain ⟨j, rfl⟩ : ∃ j, i = j + 1 := ⟨i - 1, by omega⟩
      exact core j (by omega) (.inl (by rw [← h]; exact List.pairwise_iff_getElem.1 hms j (j + 1) _ _ (by omega))) h.symm.le
  · exact core i hi (.inl h) hd1

omit [HasExp (Ieee F)] in
/-- The exponents on a linear curve. -/
theorem linear_scale {κ Y T B : ℝ} (hκ1 : 1 ≤ κ) (hκu : 120 * roundoff F * κ ≤ 1)
    (hY1 : (2 : ℝ) ^ (12 - (F.emax : ℤ)) ≤ Y) (hT : 1 / 365 ≤ T) (hB : 4 * Y * T ≤ B) :
    1.01 * (54 * κ * roundoff F * Y) + 5 * roundoff F * Y ≤ 60 * κ * roundoff F * Y ∧
    2 * T * Y + 60 * κ * roundoff F * Y * (2 * T) + 2 * smallest F ≤ B := by
  have hu : 0 < roundoff F := F.arith.unit_pos
  have hY0 : 0 < Y := lt_of_lt_of_le (Binary.zpow_pos' _) hY1
  have q2 := smallest_horizon (F := F) hT hY1
  have a1 : 0 ≤ roundoff F * Y := by positivity
  have a2 : roundoff F * Y ≤ κ * (roundoff F * Y) := le_mul_of_one_le_left a1 hκ1
  have q1 := mul_le_mul_of_nonneg_right hκu (show 0 ≤ Y * T by positivity)
  have q3 : 0 ≤ Y * T := by positivity
  constructor
  · linarith
  · linarith

/-- **C99.** From market data to discount factor with linear interpolation, in `f32` and `f64` proper.  The yields are any
finite numbers, the smallest included, bounded by `Y`; all dates are within `2 ^ 20` days of settlement and `exp` is accurate
to `ε` for arguments up to `B`, which is at least `4 Y T`.  Then nothing overflows: where the exact discount factor `v` exists
the one in the format is a finite number, within the given factor of `v`. -/
theorem C99_linear_discount (hF : 40 ≤ F.emax) (B ε : ℝ) (hε : IeeeExpWithin F B ε) (hε0 : 0 ≤ ε) (hε1 : ε ≤ 1)
    {D : DayCount (Ieee F)} {E : DayCount ℝ} {N : Int} (hD : IsActualDayCount D N) (hE : IsActualDayCount E N) (s : Date)
    (ms : List Date) (ys : List (Ieee F)) (κ Y T : ℝ) (hlen : ms.length = ys.length) (h2 : 2 ≤ ms.length)
    (hms : ms.Pairwise (· < ·)) (hbase : ∀ m ∈ ms, s ≤ m) (hκ : GapRatio s ms κ) (hκu : 120 * roundoff F * κ ≤ 1)
    (hfin : ∀ y ∈ ys, IsFinite y) (hY : ∀ y ∈ ys, |real y| ≤ Y) (hY1 : (2 : ℝ) ^ (12 - (F.emax : ℤ)) ≤ Y)
    (hY2 : Y ≤ 2 ^ ((F.emax : ℤ) - 12)) (hT : ∀ m ∈ ms, years N s m ≤ T) (hB : 4 * Y * T ≤ B) (hB' : B ≤ 2 ^ (F.emax - 1))
    (d1 d2 : Date) (hr : ∀ d ∈ d1 :: d2 :: ms, |Date.sub d s| ≤ 2 ^ 20) (v : ℝ)
    (h : curveDiscount E (Interpolator.linear ℝ) s ms (ys.map real) d1 d2 = .ok (.ok v)) :
    ∃ w r δ, curveDiscount D (Interpolator.linear (Ieee F)) s ms ys d1 d2 = .ok (.ok w) ∧ IsNumber w r ∧
      δ = 60 * κ * roundoff F * Y * (years N s d1 + years N s d2) + 2 * smallest F ∧
      (1 - ε) * Real.exp (-δ) * v ≤ r ∧ r ≤ (1 + ε) * Real.exp δ * v := by
  have hN : N = 360 ∨ N = 365 := by rcases hD with ⟨-, h⟩ | ⟨-, h⟩ <;> simp [h]
  have hu : 0 < roundoff F := F.arith.unit_pos
  have hY0 : 0 < Y := lt_of_lt_of_le (Binary.zpow_pos' _) hY1
  have hT1 := horizon_ge hN h2 hms hbase hT
  obtain ⟨hκ1, hy⟩ := ieee_linear_yields hF hN hlen h2 hms hbase hκ (by linarith) hfin hY hY1 hY2
    (fun m hm => hr m (by simp [hm]))
  obtain ⟨c1, c2⟩ := linear_scale hκ1 hκu hY1 hT1 hB
  exact ieee_near_discount hF hD hE (.inl ⟨rfl, rfl, rfl⟩) hε hε0 hε1 hlen h2 hms hy (by positivity) hY0.le
    hT (by linarith) c1 c2 hB' hr h

/-- **C99.** From market data to price with linear interpolation, in `f32` and `f64` proper, for rate and face value that are
zero or between `2 ^ -k` and `2 ^ k`: the price is a finite number within `X / (1 - X)` of the exact one, relative to it, with
`X = (n + 12) u + ε + 120 κ u Y T` below 1; `n` counts the remaining flows. -/
theorem C99_linear_price (B ε : ℝ) (hε : IeeeExpWithin F B ε) (hε0 : 0 ≤ ε) (hε1 : ε ≤ 1 / 2) (k c : ℕ)
    (hkc : 2 * k + c + F.prec + 30 ≤ F.emax) (hc : 2 * Real.exp B ≤ 2 ^ c)
    {D : DayCount (Ieee F)} {E : DayCount ℝ} {N : Int} (hD : IsActualDayCount D N) (hE : IsActualDayCount E N) (cs : Date)
    (ms : List Date) (ys : List (Ieee F)) (κ Y T : ℝ) (hlen : ms.length = ys.length) (h2 : 2 ≤ ms.length)
    (hms : ms.Pairwise (· < ·)) (hbase : ∀ m ∈ ms, cs ≤ m) (hκ : GapRatio cs ms κ) (hκu : 120 * roundoff F * κ ≤ 1)
    (hfin : ∀ y ∈ ys, IsFinite y) (hY : ∀ y ∈ ys, |real y| ≤ Y) (hY1 : (2 : ℝ) ^ (12 - (F.emax : ℤ)) ≤ Y)
    (hY2 : Y ≤ 2 ^ ((F.emax : ℤ) - 12)) (hT : ∀ m ∈ ms, years N cs m ≤ T) (hB : 4 * Y * T ≤ B) (id : String)
    (issue first pen mat : Date) (f : Frequency) (rate face : Ieee F) (hrate : Moderate k rate) (hface : Moderate k face)
    (hr0 : 0 ≤ rate) (hf0 : 0 ≤ face) (hi : issue < first) (hm : pen < mat) (b : Bond (Ieee F)) (b' : Bond ℝ) (s : Date)
    (hb : Bond.new id issue first pen mat f rate face = .ok (some b))
    (hb' : Bond.new id issue first pen mat f (real rate) (real face) = .ok (some b'))
    (hr : ∀ d ∈ s :: ms ++ b.bondCashFlows.map (·.paymentDate), |Date.sub d cs| ≤ 2 ^ 20) (v : ℝ)
    (h : curvePrice E (Interpolator.linear ℝ) cs ms (ys.map real) b' s = .ok (.ok v)) (X : ℝ)
    (hX : X = ((remaining b s).length + 12) * roundoff F + ε + 120 * κ * roundoff F * Y * T) (hX1 : X < 1)
    (hv : v ≤ (1 - X) * F.largest) :
    ∃ w r, curvePrice D (Interpolator.linear (Ieee F)) cs ms ys b s = .ok (.ok w) ∧ IsNumber w r ∧ 0 ≤ v ∧
      |r - v| ≤ X / (1 - X) * v := by
  have hF : 40 ≤ F.emax := by have := F.prec_ge; omega
  have hN : N = 360 ∨ N = 365 := by rcases hD with ⟨-, h⟩ | ⟨-, h⟩ <;> simp [h]
  have hu : 0 < roundoff F := F.arith.unit_pos
  have hY0 : 0 < Y := lt_of_lt_of_le (Binary.zpow_pos' _) hY1
  have hT1 := horizon_ge hN h2 hms hbase hT
  obtain ⟨hκ1, hy⟩ := ieee_linear_yields hF hN hlen h2 hms hbase hκ (by linarith) hfin hY hY1 hY2
    (fun m hm => hr m (by simp [hm]))
  obtain ⟨c1, c2⟩ := linear_scale hκ1 hκu hY1 hT1 hB
  refine ieee_near_prices hF hD hE (.inl ⟨rfl, rfl, rfl⟩) hε hε0 hε1 hlen h2 hms hy (by positivity) hY0.le
    hT (by linarith) (δ := 120 * κ * roundoff F * Y) (le_trans ?_ c2) (exponent_le hc (by omega)) (by linarith) hkc hc hrate
    hface hr0 hf0 hi hm hb hb' hr h hX hX1 hv
  have := mul_le_mul_of_nonneg_right c1 (show 0 ≤ 2 * T by linarith)
  linarith

/-! ## Catmull-Rom splines -/

omit [HasExp (Ieee F)] in
/-- The exponents on a Catmull-Rom spline. -/
theorem catmull_scale {κ Y T B : ℝ} (hκ1 : 1 ≤ κ) (hκu : 1000 * roundoff F * κ ≤ 1)
    (hY1 : (2 : ℝ) ^ (12 - (F.emax : ℤ)) ≤ Y) (hT : 1 / 365 ≤ T) (hB : 6 * Y * T ≤ B) :
    1.01 * (704 * κ * roundoff F * Y) + 5 * roundoff F * (2 * Y) ≤ 725 * κ * roundoff F * Y ∧
    2 * T * (2 * Y) + 725 * κ * roundoff F * Y * (2 * T) + 2 * smallest F ≤ B := by
  have hu : 0 < roundoff F := F.arith.unit_pos
  have hY0 : 0 < Y := lt_of_lt_of_le (Binary.zpow_pos' _) hY1
  have q2 := smallest_horizon (F := F) hT hY1
  have a1 : 0 ≤ roundoff F * Y := by positivity
  have a2 : roundoff F * Y ≤ κ * (roundoff F * Y) := le_mul_of_one_le_left a1 hκ1
  have q1 := mul_le_mul_of_nonneg_right hκu (show 0 ≤ Y * T by positivity)
  have q3 : 0 ≤ Y * T := by positivity
  constructor
  · linarith
  · linarith

/-- **C99.** From market data to discount factor with a Catmull-Rom spline, in `f32` and `f64` proper.  The yields are any
finite numbers, bounded by `Y`; all dates are within `2 ^ 20` days of settlement and `exp` is accurate to `ε` for arguments
up to `B`, which is at least `6 Y T`.  Then nothing overflows: where the exact discount factor `v` exists the one in the
format is a finite number, within the given factor of `v`. -/
theorem C99_catmull_rom_discount (hF : 40 ≤ F.emax) (B ε : ℝ) (hε : IeeeExpWithin F B ε) (hε0 : 0 ≤ ε) (hε1 : ε ≤ 1)
    {D : DayCount (Ieee F)} {E : DayCount ℝ} {N : Int} (hD : IsActualDayCount D N) (hE : IsActualDayCount E N) (s : Date)
    (ms : List Date) (ys : List (Ieee F)) (κ Y T : ℝ) (hlen : ms.length = ys.length) (h3 : 3 ≤ ms.length)
    (hms : ms.Pairwise (· < ·)) (hbase : ∀ m ∈ ms, s ≤ m) (hκ : GapRatio s ms κ) (hκu : 1000 * roundoff F * κ ≤ 1)
    (hfin : ∀ y ∈ ys, IsFinite y) (hY : ∀ y ∈ ys, |real y| ≤ Y) (hY1 : (2 : ℝ) ^ (12 - (F.emax : ℤ)) ≤ Y)
    (hY2 : Y ≤ 2 ^ ((F.emax : ℤ) - 11)) (hT : ∀ m ∈ ms, years N s m ≤ T) (hB : 6 * Y * T ≤ B) (hB' : B ≤ 2 ^ (F.emax - 1))
    (d1 d2 : Date) (hr : ∀ d ∈ d1 :: d2 :: ms, |Date.sub d s| ≤ 2 ^ 20) (v : ℝ)
    (h : curveDiscount E (Interpolator.catmullRom ℝ) s ms (ys.map real) d1 d2 = .ok (.ok v)) :
    ∃ w r δ, curveDiscount D (Interpolator.catmullRom (Ieee F)) s ms ys d1 d2 = .ok (.ok w) ∧ IsNumber w r ∧
      δ = 725 * κ * roundoff F * Y * (years N s d1 + years N s d2) + 2 * smallest F ∧
      (1 - ε) * Real.exp (-δ) * v ≤ r ∧ r ≤ (1 + ε) * Real.exp δ * v := by
  have hN : N = 360 ∨ N = 365 := by rcases hD with ⟨-, h⟩ | ⟨-, h⟩ <;> simp [h]
  have hu : 0 < roundoff F := F.arith.unit_pos
  have hY0 : 0 < Y := lt_of_lt_of_le (Binary.zpow_pos' _) hY1
  have hT1 := horizon_ge hN (by omega) hms hbase hT
  obtain ⟨hκ1, hy⟩ := ieee_catmull_yields hF hN hlen h3 hms hbase hκ (by linarith) hfin hY hY1 hY2
    (fun m hm => hr m (by simp [hm]))
  obtain ⟨c1, c2⟩ := catmull_scale hκ1 hκu hY1 hT1 hB
  exact ieee_near_discount hF hD hE (.inr (.inl ⟨rfl, rfl, rfl⟩)) hε hε0 hε1 hlen h3 hms hy (by positivity) (by positivity)
    hT (by linarith) c1 c2 hB' hr h

/-- **C99.** From market data to price with a Catmull-Rom spline, in `f32` and `f64` proper, for rate and face value that are
zero or between `2 ^ -k` and `2 ^ k`: the price is a finite number within `X / (1 - X)` of the exact one, relative to it, with
`X = (n + 12) u + ε + 1450 κ u Y T` below 1; `n` counts the remaining flows. -/
theorem C99_catmull_rom_price (B ε : ℝ) (hε : IeeeExpWithin F B ε) (hε0 : 0 ≤ ε) (hε1 : ε ≤ 1 / 2) (k c : ℕ)
    (hkc : 2 * k + c + F.prec + 30 ≤ F.emax) (hc : 2 * Real.exp B ≤ 2 ^ c)
    {D : DayCount (Ieee F)} {E : DayCount ℝ} {N : Int} (hD : IsActualDayCount D N) (hE : IsActualDayCount E N) (cs : Date)
    (ms : List Date) (ys : List (Ieee F)) (κ Y T : ℝ) (hlen : ms.length = ys.length) (h3 : 3 ≤ ms.length)
    (hms : ms.Pairwise (· < ·)) (hbase : ∀ m ∈ ms, cs ≤ m) (hκ : GapRatio cs ms κ) (hκu : 1000 * roundoff F * κ ≤ 1)
    (hfin : ∀ y ∈ ys, IsFinite y) (hY : ∀ y ∈ ys, |real y| ≤ Y) (hY1 : (2 : ℝ) ^ (12 - (F.emax : ℤ)) ≤ Y)
    (hY2 : Y ≤ 2 ^ ((F.emax : ℤ) - 11)) (hT : ∀ m ∈ ms, years N cs m ≤ T) (hB : 6 * Y * T ≤ B) (id : String)
    (issue first pen mat : Date) (f : Frequency) (rate face : Ieee F) (hrate : Moderate k rate) (hface : Moderate k face)
    (hr0 : 0 ≤ rate) (hf0 : 0 ≤ face) (hi : issue < first) (hm : pen < mat) (b : Bond (Ieee F)) (b' : Bond ℝ) (s : Date)
    (hb : Bond.new id issue first pen mat f rate face = .ok (some b))
    (hb' : Bond.new id issue first pen mat f (real rate) (real face) = .ok (some b'))
    (hr : ∀ d ∈ s :: ms ++ b.bondCashFlows.map (·.paymentDate), |Date.sub d cs| ≤ 2 ^ 20) (v : ℝ)
    (h : curvePrice E (Interpolator.catmullRom ℝ) cs ms (ys.map real) b' s = .ok (.ok v)) (X : ℝ)
    (hX : X = ((remaining b s).length + 12) * roundoff F + ε + 1450 * κ * roundoff F * Y * T) (hX1 : X < 1)
    (hv : v ≤ (1 - X) * F.largest) :
    ∃ w r, curvePrice D (Interpolator.catmullRom (Ieee F)) cs ms ys b s = .ok (.ok w) ∧ IsNumber w r ∧ 0 ≤ v ∧
      |r - v| ≤ X / (1 - X) * v := by
  have hF : 40 ≤ F.emax := by have := F.prec_ge; omega
  have hN : N = 360 ∨ N = 365 := by rcases hD with ⟨-, h⟩ | ⟨-, h⟩ <;> simp [h]
  have hu : 0 < roundoff F := F.arith.unit_pos
  have hY0 : 0 < Y := lt_of_lt_of_le (Binary.zpow_pos' _) hY1
  have hT1 := horizon_ge hN (by omega) hms hbase hT
  obtain ⟨hκ1, hy⟩ := ieee_catmull_yields hF hN hlen h3 hms hbase hκ (by linarith) hfin hY hY1 hY2
    (fun m hm => hr m (by simp [hm]))
  obtain ⟨c1, c2⟩ := catmull_scale hκ1 hκu hY1 hT1 hB
  refine ieee_near_prices hF hD hE (.inr (.inl ⟨rfl, rfl, rfl⟩)) hε hε0 hε1 hlen h3 hms hy (by positivity) (by positivity)
    hT (by linarith) (δ := 1450 * κ * roundoff F * Y) (le_trans ?_ c2) (exponent_le hc (by omega)) (by linarith) hkc hc hrate
    hface hr0 hf0 hi hm hb hb' hr h hX hX1 hv
  have := mul_le_mul_of_nonneg_right c1 (show 0 ≤ 2 * T by linarith)
  linarith

/-! ## Natural cubic splines -/

omit [HasExp (Ieee F)] in
/-- The exponents on a natural cubic spline. -/
theorem natural_scale {κ Y T q B : ℝ} (hκ1 : 1 ≤ κ) (hq : 1 ≤ q) (hκu : 4000 * roundoff F * κ ≤ 1)
    (hY1 : (2 : ℝ) ^ (12 - (F.emax : ℤ)) ≤ Y) (hT : 1 / 365 ≤ T) (hB : 9 * Y * q * T ≤ B) :
    1.01 * (2740 * κ * roundoff F * Y * q) + 5 * roundoff F * ((1 + 12 / 5 * q) * Y) ≤ 2785 * κ * roundoff F * Y * q ∧
    2 * T * ((1 + 12 / 5 * q) * Y) + 2785 * κ * roundoff F * Y * q * (2 * T) + 2 * smallest F ≤ B := by
  have hu : 0 < roundoff F := F.arith.unit_pos
  have hY0 : 0 < Y := lt_of_lt_of_le (Binary.zpow_pos' _) hY1
  have q2 := smallest_horizon (F := F) hT hY1
  have a1 : Y ≤ Y * q := le_mul_of_one_le_right hY0.le hq
  have a2 : roundoff F * (Y * q) ≤ κ * (roundoff F * (Y * q)) := le_mul_of_one_le_left (by positivity) hκ1
  have a3 := mul_le_mul_of_nonneg_left a1 hu.le
  have a4 := mul_le_mul_of_nonneg_right a1 (show 0 ≤ T by linarith)
  have q1 := mul_le_mul_of_nonneg_right hκu (show 0 ≤ Y * q * T by positivity)
  have q3 : 0 ≤ Y * q * T := by positivity
  have q4 : 0 ≤ roundoff F * (Y * q) := by positivity
  constructor
  · linarith
  · linarith

omit [HasExp (Ieee F)] in
theorem natural_small {k : ℕ} {Y : ℝ} (hk : 5 * k + 16 ≤ F.emax) (hY1 : (2 : ℝ) ^ (-(k : ℤ)) ≤ Y) :
    (2 : ℝ) ^ (12 - (F.emax : ℤ)) ≤ Y :=
  le_trans (zpow_le_zpow_right₀ (by norm_num) (by omega)) hY1

/-- **C99.** The same with a natural cubic spline whose maturities are from `h` to `H` days apart, for finite yields with a
bound `Y` between `2 ^ -k` and `2 ^ k`. -/
theorem C99_natural_cubic_discount (B ε : ℝ) (hε : IeeeExpWithin F B ε) (hε0 : 0 ≤ ε) (hε1 : ε ≤ 1) (k : ℕ)
    (hk : 5 * k + 16 ≤ F.emax) (hk' : 12 ≤ k)
    {D : DayCount (Ieee F)} {E : DayCount ℝ} {N : Int} (hD : IsActualDayCount D N) (hE : IsActualDayCount E N) (s : Date)
    (ms : List Date) (ys : List (Ieee F)) (κ Y T h H : ℝ) (hlen : ms.length = ys.length) (h3 : 3 ≤ ms.length)
    (hms : ms.Pairwise (· < ·)) (hbase : ∀ m ∈ ms, s ≤ m) (hκ : GapRatio s ms κ) (hκu : 4000 * roundoff F * κ ≤ 1)
    (hfin : ∀ y ∈ ys, IsFinite y) (hY : ∀ y ∈ ys, |real y| ≤ Y) (hY1 : (2 : ℝ) ^ (-(k : ℤ)) ≤ Y) (hY2 : Y ≤ 2 ^ k)
    (hh : 1 ≤ h) (hH : H ≤ 2 ^ 20) (hd : DaysApart ms h H) (hT : ∀ m ∈ ms, years N s m ≤ T)
    (hB : 9 * Y * (H / h) ^ 2 * T ≤ B) (hB' : B ≤ 2 ^ (F.emax - 1))
    (d1 d2 : Date) (hr : ∀ d ∈ d1 :: d2 :: ms, |Date.sub d s| ≤ 2 ^ 20) (v : ℝ)
    (hv : curveDiscount E (Interpolator.naturalCubic ℝ) s ms (ys.map real) d1 d2 = .ok (.ok v)) :
    ∃ w r δ, curveDiscount D (Interpolator.naturalCubic (Ieee F)) s ms ys d1 d2 = .ok (.ok w) ∧ IsNumber w r ∧
      δ = 2785 * κ * roundoff F * Y * (H / h) ^ 2 * (years N s d1 + years N s d2) + 2 * smallest F ∧
      (1 - ε) * Real.exp (-δ) * v ≤ r ∧ r ≤ (1 + ε) * Real.exp δ * v := by
  have hF : 40 ≤ F.emax := by omega
  have hN : N = 360 ∨ N = 365 := by rcases hD with ⟨-, h⟩ | ⟨-, h⟩ <;> simp [h]
  have hu : 0 < roundoff F := F.arith.unit_pos
  have hY0 : 0 < Y := lt_of_lt_of_le (Binary.zpow_pos' _) hY1
  have hT1 := horizon_ge hN (by omega) hms hbase hT
  obtain ⟨hκ1, hq, hy⟩ := ieee_natural_yields hF hN hlen h3 hms hbase hκ (by linarith) hfin hY hk hk' hY1 hY2 hh hH hd
    (fun m hm => hr m (by simp [hm]))
  obtain ⟨c1, c2⟩ := natural_scale hκ1 hq hκu (natural_small hk hY1) hT1 hB
  exact ieee_near_discount hF hD hE (.inr (.inr ⟨rfl, rfl, rfl⟩)) hε hε0 hε1 hlen h3 hms hy (by positivity) (by positivity)
    hT (by linarith) c1 c2 hB' hr hv

/-- **C99.** From market data to price with a natural cubic spline, in `f32` and `f64` proper. -/
theorem C99_natural_cubic_price (B ε : ℝ) (hε : IeeeExpWithin F B ε) (hε0 : 0 ≤ ε) (hε1 : ε ≤ 1 / 2) (k j c : ℕ)
    (hk : 5 * k + 16 ≤ F.emax) (hk' : 12 ≤ k) (hjc : 2 * j + c + F.prec + 30 ≤ F.emax) (hc : 2 * Real.exp B ≤ 2 ^ c)
    {D : DayCount (Ieee F)} {E : DayCount ℝ} {N : Int} (hD : IsActualDayCount D N) (hE : IsActualDayCount E N) (cs : Date)
    (ms : List Date) (ys : List (Ieee F)) (κ Y T h H : ℝ) (hlen : ms.length = ys.length) (h3 : 3 ≤ ms.length)
    (hms : ms.Pairwise (· < ·)) (hbase : ∀ m ∈ ms, cs ≤ m) (hκ : GapRatio cs ms κ) (hκu : 4000 * roundoff F * κ ≤ 1)
    (hfin : ∀ y ∈ ys, IsFinite y) (hY : ∀ y ∈ ys, |real y| ≤ Y) (hY1 : (2 : ℝ) ^ (-(k : ℤ)) ≤ Y) (hY2 : Y ≤ 2 ^ k)
    (hh : 1 ≤ h) (hH : H ≤ 2 ^ 20) (hd : DaysApart ms h H) (hT : ∀ m ∈ ms, years N cs m ≤ T)
    (hB : 9 * Y * (H / h) ^ 2 * T ≤ B) (id : String)
    (issue first pen mat : Date) (f : Frequency) (rate face : Ieee F) (hrate : Moderate j rate) (hface : Moderate j face)
    (hr0 : 0 ≤ rate) (hf0 : 0 ≤ face) (hi : issue < first) (hm : pen < mat) (b : Bond (Ieee F)) (b' : Bond ℝ) (s : Date)
    (hb : Bond.new id issue first pen mat f rate face = .ok (some b))
    (hb' : Bond.new id issue first pen mat f (real rate) (real face) = .ok (some b'))
    (hr : ∀ d ∈ s :: ms ++ b.bondCashFlows.map (·.paymentDate), |Date.sub d cs| ≤ 2 ^ 20) (v : ℝ)
    (hv : curvePrice E (Interpolator.naturalCubic ℝ) cs ms (ys.map real) b' s = .ok (.ok v)) (X : ℝ)
    (hX : X = ((remaining b s).length + 12) * roundoff F + ε + 5570 * κ * roundoff F * Y * (H / h) ^ 2 * T) (hX1 : X < 1)
    (hl : v ≤ (1 - X) * F.largest) :
    ∃ w r, curvePrice D (Interpolator.naturalCubic (Ieee F)) cs ms ys b s = .ok (.ok w) ∧ IsNumber w r ∧ 0 ≤ v ∧
      |r - v| ≤ X / (1 - X) * v := by
  have hF : 40 ≤ F.emax := by omega
  have hN : N = 360 ∨ N = 365 := by rcases hD with ⟨-, h⟩ | ⟨-, h⟩ <;> simp [h]
  have hu : 0 < roundoff F := F.arith.unit_pos
  have hY0 : 0 < Y := lt_of_lt_of_le (Binary.zpow_pos' _) hY1
  have hT1 := horizon_ge hN (by omega) hms hbase hT
  obtain ⟨hκ1, hq, hy⟩ := ieee_natural_yields hF hN hlen h3 hms hbase hκ (by linarith) hfin hY hk hk' hY1 hY2 hh hH hd
    (fun m hm => hr m (by simp [hm]))
  obtain ⟨c1, c2⟩ := natural_scale hκ1 hq hκu (natural_small hk hY1) hT1 hB
  refine ieee_near_prices hF hD hE (.inr (.inr ⟨rfl, rfl, rfl⟩)) hε hε0 hε1 hlen h3 hms hy (by positivity) (by positivity)
    hT (by linarith) (δ := 5570 * κ * roundoff F * Y * (H / h) ^ 2) (le_trans ?_ c2) (exponent_le hc (by omega))
    (by linarith) hjc hc hrate hface hr0 hf0 hi hm hb hb' hr hv hX hX1 hl
  have := mul_le_mul_of_nonneg_right c1 (show 0 ≤ 2 * T by linarith)
  linarith

end

/-! ## Examples -/

/-- Four maturities a year apart. -/
def fourDates : List Date :=
  [⟨2024, 7, 1, by decide⟩, ⟨2025, 7, 1, by decide⟩, ⟨2026, 7, 1, by decide⟩, ⟨2027, 7, 1, by decide⟩]

/-- Four yields in `f32`. -/
noncomputable def fourYields : List (Ieee .binary32) := [1, 0, 1, 0]

theorem fourYields_real : fourYields.map real = [1, 0, 1, 0] := by
  have r0 : real (0 : Ieee .binary32) = 0 := real_eq Ieee.zero_number
  have r1 : real (1 : Ieee .binary32) = 1 := real_eq Ieee.one_number
  simp [fourYields, r0, r1]

theorem fourYields_ok : (∀ y ∈ fourYields, IsFinite y) ∧ ∀ y ∈ fourYields, |real y| ≤ 1 := by
  have r0 : real (0 : Ieee .binary32) = 0 := real_eq Ieee.zero_number
  have r1 : real (1 : Ieee .binary32) = 1 := real_eq Ieee.one_number
  constructor <;> intro y hy <;> simp only [fourYields, List.mem_cons, List.not_mem_nil, or_false] at hy <;>
    rcases hy with rfl | rfl | rfl | rfl
  · exact ⟨1, Ieee.one_number⟩
  · exact ⟨0, Ieee.zero_number⟩
  · exact ⟨1, Ieee.one_number⟩
  · exact ⟨0, Ieee.zero_number⟩
  · rw [r1]; norm_num
  · rw [r0]; norm_num
  · rw [r1]; norm_num
  · rw [r0]; norm_num

theorem fourDates_gaps : GapRatio ⟨2024, 7, 1, by decide⟩ fourDates 3 ∧ DaysApart fourDates 365 365 ∧
    (∀ m ∈ fourDates, years 365 ⟨2024, 7, 1, by decide⟩ m ≤ 3) ∧
    ∀ m ∈ fourDates, |Date.sub m ⟨2024, 7, 1, by decide⟩| ≤ 2 ^ 20 := by
  have k0 : Date.sub ⟨2024, 7, 1, by decide⟩ ⟨2024, 7, 1, by decide⟩ = 0 := by decide +kernel
  have k1 : Date.sub ⟨2025, 7, 1, by decide⟩ ⟨2024, 7, 1, by decide⟩ = 365 := by decide +kernel
  have k2 : Date.sub ⟨2026, 7, 1, by decide⟩ ⟨2025, 7, 1, by decide⟩ = 365 := by decide +kernel
  have k3 : Date.sub ⟨2026, 7, 1, by decide⟩ ⟨2024, 7, 1, by decide⟩ = 730 := by decide +kernel
  have k4 : Date.sub ⟨2027, 7, 1, by decide⟩ ⟨2026, 7, 1, by decide⟩ = 365 := by decide +kernel
  have k5 : Date.sub ⟨2027, 7, 1, by decide⟩ ⟨2024, 7, 1, by decide⟩ = 1095 := by decide +kernel
  refine ⟨?_, ?_, ?_, ?_⟩
  · intro i m₀ m₁ h0 h1
    match i with
    | 0 => simp [fourDates] at h0 h1; subst h0 h1; rw [k1]; norm_num
    | 1 => simp [fourDates] at h0 h1; subst h0 h1; rw [k2, k3]; norm_num
    | 2 => simp [fourDates] at h0 h1; subst h0 h1; rw [k4, k5]; norm_num
    | i + 3 => simp [fourDates] at h1
  · intro i m₀ m₁ h0 h1
    match i with
    | 0 => simp [fourDates] at h0 h1; subst h0 h1; rw [k1]; norm_num
    | 1 => simp [fourDates] at h0 h1; subst h0 h1; rw [k2]; norm_num
    | 2 => simp [fourDates] at h0 h1; subst h0 h1; rw [k4]; norm_num
    | i + 3 => simp [fourDates] at h1
  · intro m hm
    simp only [fourDates, List.mem_cons, List.not_mem_nil, or_false] at hm
    rcases hm with rfl | rfl | rfl | rfl
    · rw [years, k0]; norm_num
    · rw [years, k1]; norm_num
    · rw [years, k3]; norm_num
    · rw [years, k5]; norm_num
  · intro m hm
    simp only [fourDates, List.mem_cons, List.not_mem_nil, or_false] at hm
    rcases hm with rfl | rfl | rfl | rfl
    · rw [k0]; norm_num
    · rw [k1]; norm_num
    · rw [k3]; norm_num
    · rw [k5]; norm_num

theorem f32_unit : roundoff .binary32 = 1 / 2 ^ 24 := by
  show ((1 / 2) ^ 24 : ℝ) = _
  norm_num

theorem f32_smallest : 2 * smallest .binary32 ≤ 1 / 2 ^ 24 := by
  rw [← f32_unit]; exact smallest_le _

theorem f32_exp : @IeeeExpWithin .binary32 (roundedExp .binary32) 27 (roundoff .binary32) := fun a z h1 h2 =>
  roundedExp_within .binary32 (by norm_num [IeeeFormat.binary32]) a z h1 (by linarith)

theorem exp_27 : 2 * Real.exp 27 ≤ 2 ^ 41 := by
  have e : Real.exp 27 = Real.exp 1 ^ 27 := by rw [← Real.exp_nat_mul]; norm_num
  have h1 : Real.exp 1 ≤ 2.72 := by have := Real.exp_one_lt_d9; linarith
  have := pow_le_pow_left₀ (Real.exp_pos 1).le h1 27
  rw [e]
  norm_num at this ⊢
  linarith

theorem one_bounds : (2 : ℝ) ^ (12 - (IeeeFormat.binary32.emax : ℤ)) ≤ 1 ∧
    (1 : ℝ) ≤ 2 ^ ((IeeeFormat.binary32.emax : ℤ) - 11) ∧ (1 : ℝ) ≤ 2 ^ ((IeeeFormat.binary32.emax : ℤ) - 12) ∧
    (27 : ℝ) ≤ 2 ^ (IeeeFormat.binary32.emax - 1) ∧ (2 : ℝ) ^ (-((12 : ℕ) : ℤ)) ≤ 1 := by
  refine ⟨zpow_le_one_of_nonpos₀ (by norm_num) (by norm_num [IeeeFormat.binary32]),
    one_le_zpow₀ (by norm_num) (by norm_num [IeeeFormat.binary32]),
    one_le_zpow₀ (by norm_num) (by norm_num [IeeeFormat.binary32]), ?_, by norm_num⟩
  calc (27 : ℝ) ≤ 2 ^ 5 := by norm_num
    _ ≤ 2 ^ (IeeeFormat.binary32.emax - 1) := pow_le_pow_right₀ (by norm_num) (by norm_num [IeeeFormat.binary32])

theorem four_discounts {J : Interpolator ℝ} {n : Nat} (hJ : IsShippedInterpolator J n) :
    ∃ v, curveDiscount DayCount.act365 J ⟨2024, 7, 1, by decide⟩ fourDates [1, 0, 1, 0] ⟨2024, 7, 1, by decide⟩
      ⟨2025, 1, 1, by decide⟩ = .ok (.ok v) := by
  have hn : n ≤ 4 := by rcases hJ with ⟨-, h⟩ | ⟨-, h⟩ | ⟨-, h⟩ <;> omega
  exact (C58_domain (D := DayCount.act365) (Or.inr ⟨rfl, rfl⟩) hJ ⟨2024, 7, 1, by decide⟩ fourDates [1, 0, 1, 0] rfl
    (by decide) hn ⟨2024, 7, 1, by decide⟩ ⟨2025, 1, 1, by decide⟩ (by decide) (by decide)).1
    ⟨⟨⟨⟨2024, 7, 1, by decide⟩, by simp [fourDates], by decide⟩, ⟨⟨2026, 7, 1, by decide⟩, by simp [fourDates],
      by decide⟩⟩, Or.inl rfl⟩

/-- Half a year in `f32`, all three curves: a finite discount factor close to the exact one. -/
example : letI := roundedExp .binary32
    (∃ w r v δ, curveDiscount DayCount.act365 (Interpolator.linear (Ieee .binary32)) ⟨2024, 7, 1, by decide⟩ fourDates
        fourYields ⟨2024, 7, 1, by decide⟩ ⟨2025, 1, 1, by decide⟩ = .ok (.ok w) ∧ IsNumber w r ∧
      curveDiscount DayCount.act365 (Interpolator.linear ℝ) ⟨2024, 7, 1, by decide⟩ fourDates [1, 0, 1, 0]
        ⟨2024, 7, 1, by decide⟩ ⟨2025, 1, 1, by decide⟩ = .ok (.ok v) ∧
      δ ≤ 100 / 2 ^ 24 ∧ (1 - 1 / 2 ^ 24) * Real.exp (-δ) * v ≤ r ∧ r ≤ (1 + 1 / 2 ^ 24) * Real.exp δ * v) ∧
    (∃ w r v δ, curveDiscount DayCount.act365 (Interpolator.catmullRom (Ieee .binary32)) ⟨2024, 7, 1, by decide⟩ fourDates
        fourYields ⟨2024, 7, 1, by decide⟩ ⟨2025, 1, 1, by decide⟩ = .ok (.ok w) ∧ IsNumber w r ∧
      curveDiscount DayCount.act365 (Interpolator.catmullRom ℝ) ⟨2024, 7, 1, by decide⟩ fourDates [1, 0, 1, 0]
        ⟨2024, 7, 1, by decide⟩ ⟨2025, 1, 1, by decide⟩ = .ok (.ok v) ∧
      δ ≤ 1100 / 2 ^ 24 ∧ (1 - 1 / 2 ^ 24) * Real.exp (-δ) * v ≤ r ∧ r ≤ (1 + 1 / 2 ^ 24) * Real.exp δ * v) ∧
    ∃ w r v δ, curveDiscount DayCount.act365 (Interpolator.naturalCubic (Ieee .binary32)) ⟨2024, 7, 1, by decide⟩ fourDates
        fourYields ⟨2024, 7, 1, by decide⟩ ⟨2025, 1, 1, by decide⟩ = .ok (.ok w) ∧ IsNumber w r ∧
      curveDiscount DayCount.act365 (Interpolator.naturalCubic ℝ) ⟨2024, 7, 1, by decide⟩ fourDates [1, 0, 1, 0]
        ⟨2024, 7, 1, by decide⟩ ⟨2025, 1, 1, by decide⟩ = .ok (.ok v) ∧
      δ ≤ 4300 / 2 ^ 24 ∧ (1 - 1 / 2 ^ 24) * Real.exp (-δ) * v ≤ r ∧ r ≤ (1 + 1 / 2 ^ 24) * Real.exp δ * v := by
  let _ := roundedExp .binary32
  have k0 : Date.sub ⟨2024, 7, 1, by decide⟩ ⟨2024, 7, 1, by decide⟩ = 0 := by decide +kernel
  have k1 : Date.sub ⟨2025, 1, 1, by decide⟩ ⟨2024, 7, 1, by decide⟩ = 184 := by decide +kernel
  obtain ⟨g1, g2, g3, g4⟩ := fourDates_gaps
  obtain ⟨y1, y2⟩ := fourYields_ok
  obtain ⟨b1, b2, b3, b4, b5⟩ := one_bounds
  have hu := f32_unit
  have hs := f32_smallest
  have hr : ∀ d ∈ (⟨2024, 7, 1, by decide⟩ : Date) :: ⟨2025, 1, 1, by decide⟩ :: fourDates,
      |Date.sub d ⟨2024, 7, 1, by decide⟩| ≤ 2 ^ 20 := by
    intro d hd
    simp only [List.mem_cons] at hd
    rcases hd with rfl | rfl | hd
    · rw [k0]; norm_num
    · rw [k1]; norm_num
    · exact g4 d hd
  refine ⟨?_, ?_, ?_⟩
  · obtain ⟨v, hv⟩ := four_discounts (.inl ⟨rfl, rfl⟩)
    obtain ⟨w, r, δ, h1, h2, h3, h4, h5⟩ := C99_linear_discount (F := .binary32) (by norm_num [IeeeFormat.binary32]) 27
      _ f32_exp (by rw [hu]; positivity) (by rw [hu]; norm_num) (D := DayCount.act365) (E := DayCount.act365) (N := 365)
      (Or.inr ⟨rfl, rfl⟩) (Or.inr ⟨rfl, rfl⟩) ⟨2024, 7, 1, by decide⟩ fourDates fourYields 3 1 3 rfl (by decide) (by decide)
      (by decide) g1 (by rw [hu]; norm_num) y1 y2 b1 b3 g3 (by norm_num) b4 _ _ hr v (by rw [fourYields_real]; exact hv)
    rw [hu] at h4 h5
    refine ⟨w, r, v, δ, h1, h2, hv, ?_, h4, h5⟩
    rw [h3, hu, years, years, k0, k1]
    norm_num at hs ⊢
    linarith
  · obtain ⟨v, hv⟩ := four_discounts (.inr (.inl ⟨rfl, rfl⟩))
    obtain ⟨w, r, δ, h1, h2, h3, h4, h5⟩ := C99_catmull_rom_discount (F := .binary32) (by norm_num [IeeeFormat.binary32]) 27
      _ f32_exp (by rw [hu]; positivity) (by rw [hu]; norm_num) (D := DayCount.act365) (E := DayCount.act365) (N := 365)
      (Or.inr ⟨rfl, rfl⟩) (Or.inr ⟨rfl, rfl⟩) ⟨2024, 7, 1, by decide⟩ fourDates fourYields 3 1 3 rfl (by decide) (by decide)
      (by decide) g1 (by rw [hu]; norm_num) y1 y2 b1 b2 g3 (by norm_num) b4 _ _ hr v (by rw [fourYields_real]; exact hv)
    rw [hu] at h4 h5
    refine ⟨w, r, v, δ, h1, h2, hv, ?_, h4, h5⟩
    rw [h3, hu, years, years, k0, k1]
    norm_num at hs ⊢
    linarith
  · obtain ⟨v, hv⟩ := four_discounts (.inr (.inr ⟨rfl, rfl⟩))
    obtain ⟨w, r, δ, h1, h2, h3, h4, h5⟩ := C99_natural_cubic_discount (F := .binary32) 27
      _ f32_exp (by rw [hu]; positivity) (by rw [hu]; norm_num) 12 (by norm_num [IeeeFormat.binary32]) (le_refl _)
      (D := DayCount.act365) (E := DayCount.act365) (N := 365)
      (Or.inr ⟨rfl, rfl⟩) (Or.inr ⟨rfl, rfl⟩) ⟨2024, 7, 1, by decide⟩ fourDates fourYields 3 1 3 365 365 rfl (by decide)
      (by decide) (by decide) g1 (by rw [hu]; norm_num) y1 y2 b5 (by norm_num) (by norm_num) (by norm_num) g2 g3
      (by norm_num) b4 _ _ hr v (by rw [fourYields_real]; exact hv)
    rw [hu] at h4 h5
    refine ⟨w, r, v, δ, h1, h2, hv, ?_, h4, h5⟩
    rw [h3, hu, years, years, k0, k1]
    norm_num at hs ⊢
    linarith

/-- Discount factors up to `K` give a price up to `K` times the sum of the flows. -/
theorem price_le {I : Interpolator ℝ} {D : DayCount ℝ} {s : Date} {c : YieldCurve ℝ I} {b : Bond ℝ} {v K : ℝ}
    (h : b.discountedValue D s c = .ok (.ok v)) (hb : ∀ g ∈ remaining b s, 0 ≤ g.paymentAmount)
    (hd : ∀ g ∈ remaining b s, ∀ df, c.discountFactor D s g.paymentDate = .ok (.ok df) → df ≤ K) :
    v ≤ K * ((remaining b s).map (·.paymentAmount)).sum := by
  obtain ⟨dfs, h1, rfl⟩ := (C52_sum D c s b v).1 h
  clear h
  generalize remaining b s = l at *
  induction h1 with
  | nil => simp
  | cons hr h1 ih =>
    simp only [List.zipWith_cons_cons, List.sum_cons, List.map_cons]
    have := ih (fun g hg => hb g (by simp [hg])) fun g hg => hd g (by simp [hg])
    have := mul_le_mul_of_nonneg_right (hd _ List.mem_cons_self _ hr) (hb _ List.mem_cons_self)
    linarith

/-- The exact prices of the bond below. -/
theorem four_prices {J : Interpolator ℝ} {n : Nat} (hJ : IsShippedInterpolator J n) {b' : Bond ℝ}
    (hb' : Bond.new "b" ⟨2024, 7, 1, by decide⟩ ⟨2025, 1, 1, by decide⟩ ⟨2025, 1, 1, by decide⟩ ⟨2025, 7, 1, by decide⟩ .sa
      (1 : ℝ) 1 = .ok (some b')) :
    ∃ v, curvePrice DayCount.act365 J ⟨2024, 7, 1, by decide⟩ fourDates [1, 0, 1, 0] b' ⟨2024, 7, 1, by decide⟩ = .ok (.ok v) ∧
      v ≤ 16 := by
  have hn : n ≤ 4 := by rcases hJ with ⟨-, h⟩ | ⟨-, h⟩ | ⟨-, h⟩ <;> omega
  have hq' : FromInt.fromInt (V := ℝ) 2 = some ((2 : Int) : ℝ) := rfl
  rw [one_coupon_bond ((2 : Int) : ℝ) (1 : ℝ) 1 hq'] at hb'
  have hB : (⟨"b", [⟨⟨2025, 1, 1, by decide⟩, ⟨2025, 1, 1, by decide⟩, (1 : ℝ) * 1 / ((2 : Int) : ℝ)⟩,
    ⟨⟨2025, 7, 1, by decide⟩, ⟨2025, 7, 1, by decide⟩, 1 + 1 * 1 / ((2 : Int) : ℝ)⟩]⟩ : Bond ℝ) = b' := by simpa using hb'
  have hfl : ∀ g ∈ b'.bondCashFlows, g.dueDate = g.paymentDate ∧
      (g.paymentDate = ⟨2025, 1, 1, by decide⟩ ∨ g.paymentDate = ⟨2025, 7, 1, by decide⟩) := by
    rw [← hB]; simp
  have hrem : remaining b' ⟨2024, 7, 1, by decide⟩ = b'.bondCashFlows := by
    rw [remaining, List.filter_eq_self]
    intro g hg
    obtain ⟨h1, h2⟩ := hfl g hg
    rw [h1]
    rcases h2 with h | h <;> rw [h] <;> decide
  have hamt : ∀ g ∈ b'.bondCashFlows, 0 < g.paymentAmount := by rw [← hB]; simp; norm_num
  have hsum : (b'.bondCashFlows.map (·.paymentAmount)).sum = 2 := by rw [← hB]; simp; norm_num
  obtain ⟨v, hv⟩ := (C52_shipped_domain (D := DayCount.act365) (Or.inr ⟨rfl, rfl⟩) hJ
    ⟨2024, 7, 1, by decide⟩ fourDates [1, 0, 1, 0] rfl (by decide) hn b' ⟨2024, 7, 1, by decide⟩ (by decide)
    (fun g hg => (hfl g hg).1.le)).1 ⟨by
      intro g hg
      rcases (hfl g (List.mem_filter.1 hg).1).2 with h | h <;> rw [h] <;>
        exact ⟨⟨⟨2024, 7, 1, by decide⟩, by simp [fourDates], by decide⟩,
          ⟨⟨2026, 7, 1, by decide⟩, by simp [fourDates], by decide⟩⟩, Or.inr (Or.inl rfl)⟩
  refine ⟨v, hv, ?_⟩
  obtain ⟨c, hc, hcv⟩ := curvePrice_eq_ok.1 hv
  have h8 : Real.exp (6 / 5) ≤ 8 := by
    have e : Real.exp 2 = Real.exp 1 ^ 2 := by rw [← Real.exp_nat_mul]; norm_num
    have h1 : Real.exp 1 ≤ 2.72 := by have := Real.exp_one_lt_d9; linarith
    have h2 := pow_le_pow_left₀ (Real.exp_pos 1).le h1 2
    have h3 := Real.exp_le_exp.2 (show (6 / 5 : ℝ) ≤ 2 by norm_num)
    rw [e] at h3
    exact h3.trans (h2.trans (by norm_num))
  have k1 : Date.sub ⟨2025, 1, 1, by decide⟩ ⟨2024, 7, 1, by decide⟩ = 184 := by decide +kernel
  have k2 : Date.sub ⟨2025, 7, 1, by decide⟩ ⟨2024, 7, 1, by decide⟩ = 365 := by decide +kernel
  have yb : ∀ y ∈ ([1, 0, 1, 0] : List ℝ), 0 ≤ y ∧ y ≤ 1 := by simp
  have key := price_le (K := 8) hcv (by rw [hrem]; exact fun g hg => (hamt g hg).le) (by
    rw [hrem]
    intro g hg df hdf
    have hdf' : curveDiscount DayCount.act365 J ⟨2024, 7, 1, by decide⟩ fourDates [1, 0, 1, 0] ⟨2024, 7, 1, by decide⟩
        g.paymentDate = .ok (.ok df) := by
      unfold curveDiscount
      rw [hc]
      exact hdf
    have ht : 0 ≤ (Date.sub g.paymentDate ⟨2024, 7, 1, by decide⟩ : ℝ) / 365 ∧
        (Date.sub g.paymentDate ⟨2024, 7, 1, by decide⟩ : ℝ) / 365 ≤ 1 := by
      rcases (hfl g hg).2 with h | h <;> rw [h]
      · rw [k1]; norm_num
      · rw [k2]; norm_num
    rcases hJ with ⟨rfl, -⟩ | ⟨rfl, -⟩ | ⟨rfl, -⟩
    · refine ((C95_discount_linear (D := DayCount.act365) (Or.inr ⟨rfl, rfl⟩) _ _ _ rfl (by decide) (by decide) 0 1 yb _ _
        hdf').2.trans (Real.exp_le_exp.2 ?_)).trans h8
      norm_num
    · refine ((C95_discount_catmull_rom_partial (D := DayCount.act365) (Or.inr ⟨rfl, rfl⟩) _ _ _ rfl (by decide) (by decide)
        0 1 yb _ (by rcases (hfl g hg).2 with h | h <;> rw [h] <;> decide) _ hdf').2.trans (Real.exp_le_exp.2 ?_)).trans h8
      linarith
    · refine ((C95_discount_natural_cubic_partial (D := DayCount.act365) (Or.inr ⟨rfl, rfl⟩) _ _ _ rfl (by decide) (by decide)
        0 1 365 365 yb (by norm_num) (fun i hi => fourDates_gaps.2.1 i _ _ (List.getElem?_eq_getElem (by omega))
          (List.getElem?_eq_getElem hi)) _ _ hdf').2.trans (Real.exp_le_exp.2 ?_)).trans h8
      norm_num at ht ⊢
      linarith)
  rw [hrem, hsum] at key
  linarith

/-- A bond with two flows in `f32`, all three curves: a finite price within one per cent of the exact one. -/
example : letI := roundedExp .binary32
    ∃ (b : Bond (Ieee .binary32)) (b' : Bond ℝ),
    Bond.new "b" ⟨2024, 7, 1, by decide⟩ ⟨2025, 1, 1, by decide⟩ ⟨2025, 1, 1, by decide⟩ ⟨2025, 7, 1, by decide⟩ .sa
      (1 : Ieee .binary32) 1 = .ok (some b) ∧
    Bond.new "b" ⟨2024, 7, 1, by decide⟩ ⟨2025, 1, 1, by decide⟩ ⟨2025, 1, 1, by decide⟩ ⟨2025, 7, 1, by decide⟩ .sa
      (1 : ℝ) 1 = .ok (some b') ∧
    (∃ w r v, curvePrice DayCount.act365 (Interpolator.linear (Ieee .binary32)) ⟨2024, 7, 1, by decide⟩ fourDates fourYields b
        ⟨2024, 7, 1, by decide⟩ = .ok (.ok w) ∧ IsNumber w r ∧
      curvePrice DayCount.act365 (Interpolator.linear ℝ) ⟨2024, 7, 1, by decide⟩ fourDates [1, 0, 1, 0] b'
        ⟨2024, 7, 1, by decide⟩ = .ok (.ok v) ∧ |r - v| ≤ 1 / 100 * v) ∧
    (∃ w r v, curvePrice DayCount.act365 (Interpolator.catmullRom (Ieee .binary32)) ⟨2024, 7, 1, by decide⟩ fourDates
        fourYields b ⟨2024, 7, 1, by decide⟩ = .ok (.ok w) ∧ IsNumber w r ∧
      curvePrice DayCount.act365 (Interpolator.catmullRom ℝ) ⟨2024, 7, 1, by decide⟩ fourDates [1, 0, 1, 0] b'
        ⟨2024, 7, 1, by decide⟩ = .ok (.ok v) ∧ |r - v| ≤ 1 / 100 * v) ∧
    ∃ w r v, curvePrice DayCount.act365 (Interpolator.naturalCubic (Ieee .binary32)) ⟨2024, 7, 1, by decide⟩ fourDates
        fourYields b ⟨2024, 7, 1, by decide⟩ = .ok (.ok w) ∧ IsNumber w r ∧
      curvePrice DayCount.act365 (Interpolator.naturalCubic ℝ) ⟨2024, 7, 1, by decide⟩ fourDates [1, 0, 1, 0] b'
        ⟨2024, 7, 1, by decide⟩ = .ok (.ok v) ∧ |r - v| ≤ 1 / 100 * v := by
  let _ := roundedExp .binary32
  obtain ⟨q, hq⟩ : ∃ q, FromInt.fromInt (V := Ieee .binary32) 2 = some q := ⟨_, rfl⟩
  have hq' : FromInt.fromInt (V := ℝ) 2 = some ((2 : Int) : ℝ) := rfl
  have hb := one_coupon_bond q 1 1 hq
  have hb' := one_coupon_bond ((2 : Int) : ℝ) (1 : ℝ) 1 hq'
  have m1 : Moderate 1 (1 : Ieee .binary32) := ⟨1, Ieee.one_number, Or.inr ⟨by norm_num, by norm_num⟩⟩
  have r1 : real (1 : Ieee .binary32) = 1 := real_eq Ieee.one_number
  have pos1 : (0 : Ieee .binary32) ≤ 1 := (Ieee.le_number Ieee.zero_number Ieee.one_number).2 (by norm_num)
  generalize hB : (⟨"b", [⟨⟨2025, 1, 1, by decide⟩, ⟨2025, 1, 1, by decide⟩, (1 : ℝ) * 1 / ((2 : Int) : ℝ)⟩,
    ⟨⟨2025, 7, 1, by decide⟩, ⟨2025, 7, 1, by decide⟩, 1 + 1 * 1 / ((2 : Int) : ℝ)⟩]⟩ : Bond ℝ) = b' at hb'
  generalize hB' : (⟨"b", [⟨⟨2025, 1, 1, by decide⟩, ⟨2025, 1, 1, by decide⟩, 1 * 1 / q⟩,
    ⟨⟨2025, 7, 1, by decide⟩, ⟨2025, 7, 1, by decide⟩, 1 + 1 * 1 / q⟩]⟩ : Bond (Ieee .binary32)) = b at hb
  have hfl' : ∀ g ∈ b.bondCashFlows, g.paymentDate = ⟨2025, 1, 1, by decide⟩ ∨ g.paymentDate = ⟨2025, 7, 1, by decide⟩ := by
    rw [← hB']; simp
  have hlen : (remaining b ⟨2024, 7, 1, by decide⟩).length ≤ 2 := by
    rw [← hB']; exact List.length_filter_le _ _
  have hlen' : ((remaining b ⟨2024, 7, 1, by decide⟩).length : ℝ) ≤ 2 := by exact_mod_cast hlen
  have k0 : Date.sub ⟨2024, 7, 1, by decide⟩ ⟨2024, 7, 1, by decide⟩ = 0 := by decide +kernel
  have k1 : Date.sub ⟨2025, 1, 1, by decide⟩ ⟨2024, 7, 1, by decide⟩ = 184 := by decide +kernel
  have k2 : Date.sub ⟨2025, 7, 1, by decide⟩ ⟨2024, 7, 1, by decide⟩ = 365 := by decide +kernel
  obtain ⟨g1, g2, g3, g4⟩ := fourDates_gaps
  obtain ⟨y1, y2⟩ := fourYields_ok
  obtain ⟨b1, b2, b3, b4, b5⟩ := one_bounds
  have hu := f32_unit
  have hlarge : (64 : ℝ) ≤ IeeeFormat.binary32.largest := by
    refine le_trans ?_ IeeeFormat.binary32.largest_ge
    calc (64 : ℝ) = 2 ^ 6 := by norm_num
      _ ≤ 2 ^ IeeeFormat.binary32.emax := pow_le_pow_right₀ (by norm_num) (by norm_num [IeeeFormat.binary32])
  have hr : ∀ d ∈ (⟨2024, 7, 1, by decide⟩ : Date) :: fourDates ++ b.bondCashFlows.map (·.paymentDate),
      |Date.sub d ⟨2024, 7, 1, by decide⟩| ≤ 2 ^ 20 := by
    intro d hd
    simp only [List.cons_append, List.mem_cons, List.mem_append, List.mem_map] at hd
    rcases hd with rfl | hd | ⟨g, hg, rfl⟩
    · rw [k0]; norm_num
    · exact g4 d hd
    · rcases hfl' g hg with h | h <;> rw [h]
      · rw [k1]; norm_num
      · rw [k2]; norm_num
  have small : ∀ X v : ℝ, 0 ≤ v → X ≤ 60000 / 2 ^ 24 → X / (1 - X) * v ≤ 1 / 100 * v := by
    intro X v hv hX
    refine mul_le_mul_of_nonneg_right ?_ hv
    rw [div_le_iff₀ (by linarith [show (60000 / 2 ^ 24 : ℝ) < 1 by norm_num])]
    norm_num at hX ⊢
    linarith
  have fits : ∀ X v : ℝ, v ≤ 16 → X ≤ 60000 / 2 ^ 24 → v ≤ (1 - X) * IeeeFormat.binary32.largest := by
    intro X v hv hX
    have := mul_le_mul (show (1 : ℝ) / 2 ≤ 1 - X by norm_num at hX; linarith) hlarge (by norm_num)
      (by norm_num at hX; linarith)
    linarith
  refine ⟨b, b', hb, hb', ?_, ?_, ?_⟩
  · obtain ⟨v, hv, hv1⟩ := four_prices (.inl ⟨rfl, rfl⟩) hb'
    have hX : ((remaining b ⟨2024, 7, 1, by decide⟩).length + 12) * roundoff .binary32 + roundoff .binary32 +
        120 * 3 * roundoff .binary32 * 1 * 3 ≤ 60000 / 2 ^ 24 := by rw [hu]; linarith
    obtain ⟨w, r, h1, h2, h3, h4⟩ := C99_linear_price (F := .binary32) 27 _ f32_exp (by rw [hu]; positivity)
      (by rw [hu]; norm_num) 1 41 (by norm_num [IeeeFormat.binary32]) exp_27 (D := DayCount.act365) (E := DayCount.act365)
      (N := 365) (Or.inr ⟨rfl, rfl⟩) (Or.inr ⟨rfl, rfl⟩) ⟨2024, 7, 1, by decide⟩ fourDates fourYields 3 1 3 rfl (by decide)
      (by decide) (by decide) g1 (by rw [hu]; norm_num) y1 y2 b1 b3 g3 (by norm_num) "b" _ _ _ _ _ _ _ m1 m1 pos1 pos1
      (by decide) (by decide) b b' ⟨2024, 7, 1, by decide⟩ hb (by rw [r1]; exact hb') hr v
      (by rw [fourYields_real]; exact hv) _ rfl (by norm_num at hX ⊢; linarith) (fits _ _ hv1 hX)
    exact ⟨w, r, v, h1, h2, hv, h4.trans (small _ _ h3 hX)⟩
  · obtain ⟨v, hv, hv1⟩ := four_prices (.inr (.inl ⟨rfl, rfl⟩)) hb'
    have hX : ((remaining b ⟨2024, 7, 1, by decide⟩).length + 12) * roundoff .binary32 + roundoff .binary32 +
        1450 * 3 * roundoff .binary32 * 1 * 3 ≤ 60000 / 2 ^ 24 := by rw [hu]; linarith
    obtain ⟨w, r, h1, h2, h3, h4⟩ := C99_catmull_rom_price (F := .binary32) 27 _ f32_exp (by rw [hu]; positivity)
      (by rw [hu]; norm_num) 1 41 (by norm_num [IeeeFormat.binary32]) exp_27 (D := DayCount.act365) (E := DayCount.act365)
      (N := 365) (Or.inr ⟨rfl, rfl⟩) (Or.inr ⟨rfl, rfl⟩) ⟨2024, 7, 1, by decide⟩ fourDates fourYields 3 1 3 rfl (by decide)
      (by decide) (by decide) g1 (by rw [hu]; norm_num) y1 y2 b1 b2 g3 (by norm_num) "b" _ _ _ _ _ _ _ m1 m1 pos1 pos1
      (by decide) (by decide) b b' ⟨2024, 7, 1, by decide⟩ hb (by rw [r1]; exact hb') hr v
      (by rw [fourYields_real]; exact hv) _ rfl (by norm_num at hX ⊢; linarith) (fits _ _ hv1 hX)
    exact ⟨w, r, v, h1, h2, hv, h4.trans (small _ _ h3 hX)⟩
  · obtain ⟨v, hv, hv1⟩ := four_prices (.inr (.inr ⟨rfl, rfl⟩)) hb'
    have hX : ((remaining b ⟨2024, 7, 1, by decide⟩).length + 12) * roundoff .binary32 + roundoff .binary32 +
        5570 * 3 * roundoff .binary32 * 1 * (365 / 365 : ℝ) ^ 2 * 3 ≤ 60000 / 2 ^ 24 := by rw [hu]; norm_num; linarith
    obtain ⟨w, r, h1, h2, h3, h4⟩ := C99_natural_cubic_price (F := .binary32) 27 _ f32_exp (by rw [hu]; positivity)
      (by rw [hu]; norm_num) 12 1 41 (by norm_num [IeeeFormat.binary32]) (le_refl _) (by norm_num [IeeeFormat.binary32]) exp_27
      (D := DayCount.act365) (E := DayCount.act365)
      (N := 365) (Or.inr ⟨rfl, rfl⟩) (Or.inr ⟨rfl, rfl⟩) ⟨2024, 7, 1, by decide⟩ fourDates fourYields 3 1 3 365 365 rfl
      (by decide) (by decide) (by decide) g1 (by rw [hu]; norm_num) y1 y2 b5 (by norm_num) (by norm_num) (by norm_num) g2 g3
      (by norm_num) "b" _ _ _ _ _ _ _ m1 m1 pos1 pos1
      (by decide) (by decide) b b' ⟨2024, 7, 1, by decide⟩ hb (by rw [r1]; exact hb') hr v
      (by rw [fourYields_real]; exact hv) _ rfl (by norm_num at hX ⊢; linarith) (fits _ _ hv1 hX)
    exact ⟨w, r, v, h1, h2, hv, h4.trans (small _ _ h3 hX)⟩

/-- With NaN and infinity for yields, all three curves in `f64`: a date behind the last maturity is refused, one before is
not. -/
example {I : Interpolator (Ieee .binary64)} {J : Interpolator ℝ} {n : Nat} (hI : SameInterpolator I J n) :
    letI := roundedExp .binary64
    curveDiscount DayCount.act365 I ⟨2024, 7, 1, by decide⟩ fourDates [.nan, .inf true, 0, .inf false]
      ⟨2024, 7, 1, by decide⟩ ⟨2028, 7, 1, by decide⟩ = .ok (.error interpolationError) ∧
    ∃ w, curveDiscount DayCount.act365 I ⟨2024, 7, 1, by decide⟩ fourDates [.nan, .inf true, 0, .inf false]
      ⟨2024, 7, 1, by decide⟩ ⟨2025, 1, 1, by decide⟩ = .ok (.ok w) := by
  let _ := roundedExp .binary64
  have hn : n ≤ 4 := by rcases hI with ⟨-, -, h⟩ | ⟨-, -, h⟩ | ⟨-, -, h⟩ <;> omega
  have hr : ∀ d d' : Date, |Date.sub d d'| < (2 : Int) ^ (IeeeFormat.binary64.prec - 1) := fun d d' =>
    lt_of_lt_of_le (sub_abs_lt _ _) (by show (2 : Int) ^ 28 ≤ 2 ^ 52; norm_num)
  have key := fun d => C99_discount_outcome (F := .binary64) (by norm_num [IeeeFormat.binary64]) (D := DayCount.act365)
    (E := DayCount.act365) (N := 365) (Or.inr ⟨rfl, rfl⟩) (Or.inr ⟨rfl, rfl⟩) hI ⟨2024, 7, 1, by decide⟩
    fourDates [.nan, .inf true, 0, .inf false] [1, 0, 1, 0] rfl rfl hn (by decide)
    ⟨2024, 7, 1, by decide⟩ d (fun d _ => hr _ _)
  refine ⟨?_, ?_⟩
  · rw [(key _).1]
    refine (C58_domain (D := DayCount.act365) (Or.inr ⟨rfl, rfl⟩) (ieee_same_right hI) ⟨2024, 7, 1, by decide⟩ fourDates
      [1, 0, 1, 0] rfl (by decide) hn ⟨2024, 7, 1, by decide⟩ ⟨2028, 7, 1, by decide⟩ (by decide) (by decide)).2 ?_
    rintro ⟨⟨-, m, hm, h⟩, -⟩
    simp only [fourDates, List.mem_cons, List.not_mem_nil, or_false] at hm
    rcases hm with rfl | rfl | rfl | rfl <;> revert h <;> decide
  · obtain ⟨x, hx⟩ := four_discounts (ieee_same_right hI)
    obtain ⟨k1, k2, -⟩ := key ⟨2025, 1, 1, by decide⟩
    match h : curveDiscount DayCount.act365 I ⟨2024, 7, 1, by decide⟩ fourDates [.nan, .inf true, 0, .inf false]
      ⟨2024, 7, 1, by decide⟩ ⟨2025, 1, 1, by decide⟩ with
    | .panic => exact absurd h k2
    | .ok (.error e) => rw [k1, hx] at h; simp at h
    | .ok (.ok w) => exact ⟨w, rfl⟩

/-- A bond of NaN rate and infinite face value on such a curve still has a price, if not a useful one. -/
example {I : Interpolator (Ieee .binary64)} {J : Interpolator ℝ} {n : Nat} (hI : SameInterpolator I J n) :
    letI := roundedExp .binary64
    ∃ b w, Bond.new "b" ⟨2024, 7, 1, by decide⟩ ⟨2025, 1, 1, by decide⟩ ⟨2025, 1, 1, by decide⟩ ⟨2025, 7, 1, by decide⟩ .sa
      (.nan : Ieee .binary64) (.inf false) = .ok (some b) ∧
    curvePrice DayCount.act365 I ⟨2024, 7, 1, by decide⟩ fourDates [.nan, .inf true, 0, .inf false] b
      ⟨2024, 7, 1, by decide⟩ = .ok (.ok w) := by
  let _ := roundedExp .binary64
  have hn : n ≤ 4 := by rcases hI with ⟨-, -, h⟩ | ⟨-, -, h⟩ | ⟨-, -, h⟩ <;> omega
  obtain ⟨q, hq⟩ : ∃ q, FromInt.fromInt (V := Ieee .binary64) 2 = some q := ⟨_, rfl⟩
  have hq' : FromInt.fromInt (V := ℝ) 2 = some ((2 : Int) : ℝ) := rfl
  have hb := one_coupon_bond q .nan (.inf false) hq
  have hb' := one_coupon_bond ((2 : Int) : ℝ) (1 : ℝ) 1 hq'
  obtain ⟨x, hx, -⟩ := four_prices (ieee_same_right hI) hb'
  have hr : ∀ d d' : Date, |Date.sub d d'| < (2 : Int) ^ (IeeeFormat.binary64.prec - 1) := fun d d' =>
    lt_of_lt_of_le (sub_abs_lt _ _) (by show (2 : Int) ^ 28 ≤ 2 ^ 52; norm_num)
  obtain ⟨k1, k2, -⟩ := C99_price_outcome (F := .binary64) (by norm_num [IeeeFormat.binary64]) (D := DayCount.act365)
    (E := DayCount.act365) (N := 365) (Or.inr ⟨rfl, rfl⟩) (Or.inr ⟨rfl, rfl⟩) hI ⟨2024, 7, 1, by decide⟩
    fourDates [.nan, .inf true, 0, .inf false] [1, 0, 1, 0] rfl rfl hn (by decide) "b" _ _ _ _ _ _ _ _ _ _ _
    ⟨2024, 7, 1, by decide⟩ hb hb' (fun d _ => hr _ _)
  generalize (⟨"b", _⟩ : Bond (Ieee .binary64)) = b at hb k1 k2
  match h : curvePrice DayCount.act365 I ⟨2024, 7, 1, by decide⟩ fourDates [.nan, .inf true, 0, .inf false] b
    ⟨2024, 7, 1, by decide⟩ with
  | .panic => exact absurd h k2
  | .ok (.error e) => rw [k1, hx] at h; simp at h
  | .ok (.ok w) => exact ⟨b, w, hb, h⟩

end Qlab.Props
