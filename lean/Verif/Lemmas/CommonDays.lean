import Verif.Lemmas.HolidayRuns
import Verif.Lemmas.CommonDayTable

/-!
# A check that all the shipped calendars share a business day in every month

`Holiday.mayIn` over-approximates the days on which a holiday can fall in a year with known Easter Mondays;
`sharedIn` checks one day of one month in every tabulated year (1901 to 2199) against the holidays of all calendars.
-/

namespace Qlab

open Spec

deriving instance DecidableEq for Holiday

/-- A holiday can fall on day `d` of month `m`, weekday `w` (0 is Monday) and day `o` of the year `y` whose (Orthodox)
Easter Monday is day `em` (`om`); lists of single days are left to `singlesFree`.  (The recursor evaluates faster than
a recursive definition.) -/
noncomputable def Spec.Holiday.mayIn (y m d w o em om : Nat) (h : Holiday) : Bool :=
  @Holiday.rec (fun _ => Bool)
    (fun m' d' => Nat.beq m m' && Nat.beq d d')
    (fun m' d' ws k => Nat.beq m (landing m' d' k).1 && Nat.beq d (landing m' d' k).2 &&
      ws.any fun w' => Nat.beq w (w'.shift k).fromMonday)
    (fun n w' m' => Nat.beq m m' && Nat.beq w w'.fromMonday && Nat.ble (7 * (n - 1) + 1) d && Nat.ble d (7 * n))
    (fun w' m' => Nat.beq m m' && Nat.beq w w'.fromMonday && Nat.ble (monthLen false m' + 1) (d + 7))
    (fun w' m' d' => Nat.beq m m' && Nat.beq w w'.fromMonday && Nat.ble d' d && Nat.ble d (d' + 6))
    (fun k => Nat.beq (o + 99) (em + (k + 98).toNat))
    (fun k => Nat.beq (o + 99) (om + (k + 98).toNat))
    (fun m' a b => Nat.beq m m' && Nat.ble a d && Nat.ble d b)
    (fun _ _ => true)
    (fun w' y' m' d' => Nat.beq y y'.toNat && Nat.beq w w'.fromMonday &&
      (Nat.ble (m' + 1) m || (Nat.beq m m' && Nat.ble d' d)))
    (fun y' _ r => Nat.ble y'.toNat y && r)
    (fun y' _ r => Nat.ble y y'.toNat && r)
    (fun _ _ r => r)
    (fun _ _ r => r) h

/-- All the elements pass the test. -/
noncomputable def allRec {α : Type} (p : α → Bool) (l : List α) : Bool := List.rec true (fun a _ r => p a && r) l

/-- The holiday can fall in month `m` of some year. -/
def Spec.Holiday.everInMonth (m : Nat) : Holiday → Bool
  | .on m' _ => Nat.beq m m'
  | .moved m' d' _ k => Nat.beq m (landing m' d' k).1
  | .nth _ _ m' => Nat.beq m m'
  | .last _ m' => Nat.beq m m'
  | .firstFrom _ m' _ => Nat.beq m m'
  | .span m' _ _ => Nat.beq m m'
  | .since _ h | .till _ h | .only _ h | .except _ h => h.everInMonth m
  | _ => true

/-- The holiday can fall in month `m` of some year and is not a list of single days of a year (these are left to
`singlesFree`). -/
def Spec.Holiday.recurs (m : Nat) : Holiday → Bool
  | .dates _ _ => false
  | h => h.everInMonth m

/-- `f n`, written so that the kernel evaluates `n` first. -/
def force (n : Nat) (f : Nat → Bool) : Bool :=
  match n with
  | 0 => f 0
  | k + 1 => f (k + 1)

theorem force_eq (n : Nat) (f : Nat → Bool) : force n f = f n := by cases n <;> rfl

/-- Day `d` of month `m`, day `o` of the year, is a Monday to Thursday on which no holiday of the list falls. -/
noncomputable def freeDay (y : Nat) (m em om : Nat) (l : List Holiday) (d o : Nat) : Bool :=
  force ((o + 364 - em) % 7) fun w => Nat.ble w 3 && allRec (fun h => !h.mayIn y m d w o em om) l

/-- In month `m` of the years from `i` on, the listed days are such days. -/
noncomputable def daysFree (m : Nat) (l : List Holiday) : Nat → List Nat → List Nat → List Nat → Bool
  | i, a :: as, b :: bs, d :: ds => force i fun i =>
    (force (daysBeforeMonth (isLeap i) m + d) fun o =>
      Nat.ble 1 d && Nat.ble d (monthLen (isLeap i) m) && freeDay i m a b l d o) && daysFree m l (i + 1) as bs ds
  | _, _, _, _ => true

/-- None of the single days of a year in the list is the day listed for that year (from 1901 on). -/
def singlesFree (m : Nat) (ds : List Nat) (l : List Holiday) : Bool :=
  l.all fun h => match h with
    | .dates y t => match ds[(y - 1901).toNat]? with
      | none => true
      | some d => t.all fun p => !(Nat.beq m p.1 && Nat.beq d p.2)
    | _ => true

/-- From the day `x` of month `m` of a year from `i` on to the day `y` of the next month there are at most 31 days. -/
def gapsSmall (m : Nat) : Nat → List Nat → List Nat → Bool
  | i, x :: xs, y :: ys => force i fun i =>
    Nat.ble (monthLen (isLeap i) m + y) (31 + x) && gapsSmall m (i + 1) xs ys
  | _, _, _ => true

/-- All the shipped calendars. -/
def allShipped : List Shipped := [
  .argentina, .botswana, .chile, .china, .czechRepublic, .denmark, .finland, .hongKong, .hungary, .iceland, .india,
  .indonesia, .israel, .japan, .mexico, .newZealand, .norway, .poland, .romania, .singapore, .slovakia, .southAfrica,
  .southKorea, .sweden, .switzerland, .taiwan, .target, .thailand, .turkey, .ukraine, .weekendsOnly,
  .australia none, .australia (some .Settlement), .australia (some .ASX),
  .austria none, .austria (some .Settlement), .austria (some .Exchange),
  .brazil none, .brazil (some .Settlement), .brazil (some .Exchange),
  .canada none, .canada (some .Settlement), .canada (some .TSX),
  .france none, .france (some .Settlement), .france (some .Exchange),
  .germany none, .germany (some .Settlement), .germany (some .FrankfurtStockExchange), .germany (some .Xetra),
  .germany (some .Eurex), .germany (some .Euwax),
  .italy none, .italy (some .Settlement), .italy (some .Exchange),
  .russia none, .russia (some .Settlement), .russia (some .Exchange),
  .unitedKingdom none, .unitedKingdom (some .Settlement), .unitedKingdom (some .Exchange),
  .unitedKingdom (some .Metals),
  .unitedStates none, .unitedStates (some .Settlement), .unitedStates (some .Libor), .unitedStates (some .NYSE),
  .unitedStates (some .GovernmentBond), .unitedStates (some .SOFR), .unitedStates (some .NERC),
  .unitedStates (some .FederalReserve)]

theorem mem_allShipped (s : Shipped) : s ∈ allShipped := by
  cases s <;> first
    | (simp [allShipped]; done)
    | (rename_i m; cases m <;> first
        | (simp [allShipped]; done)
        | (rename_i m; cases m <;> simp [allShipped]))

/-- `recurring m` has all the holidays that recur in month `m`. -/
def recurringComplete (m : Nat) : Bool :=
  (allShipped.flatMap holidays).all fun h => !h.recurs m || (recurring m).contains h

/-- The check of the days `ds` in month `m`. -/
noncomputable def sharedIn (m : Nat) (ds : List Nat) : Bool :=
  Nat.beq ds.length 299 && daysFree m (recurring m) 1901 easterMondayTable orthodoxEasterMondayTable ds &&
    singlesFree m ds (allShipped.flatMap holidays)

theorem falls_mayIn {x : Date} {y em om : Nat} (hx : x.year = y) (he : easterMonday x.year = .ok em)
    (ho : orthodoxEasterMonday x.year = .ok om) (h2 : x.year ≤ 2199) (h : Holiday) (hw : h.wf = true)
    (hf : h.Falls x) : h.mayIn y x.month x.day x.weekday.fromMonday x.ordinal em om = true := by
  have hmay := fun (h : Holiday) (hw : h.wf = true) hf => falls_may (t := h.years) (x := x) h hw (fun _ h => h) hf
  have htest := fun (h : Holiday) (hw : h.wf = true) (hf : h.Falls x) =>
    (falls_iff (x := x) (em := em) (om := om) h hw fun _ => ⟨em, om, he, ho, rfl, rfl, h2⟩).1 hf
  induction h with
  | on m d => exact hmay (.on m d) hw hf
  | moved m d ws k => exact hmay (.moved m d ws k) hw hf
  | nth n w m => exact hmay (.nth n w m) hw hf
  | last w m => exact hmay (.last w m) hw hf
  | firstFrom w m d => exact hmay (.firstFrom w m d) hw hf
  | easter k =>
    have h := htest (.easter k) hw hf
    simp only [Holiday.test] at h
    simp only [Holiday.wf, decide_eq_true_eq] at hw
    show Nat.beq _ _ = true
    rw [Nat.beq_eq]
    omega
  | orthodoxEaster k =>
    have h := htest (.orthodoxEaster k) hw hf
    simp only [Holiday.test] at h
    simp only [Holiday.wf, decide_eq_true_eq] at hw
    show Nat.beq _ _ = true
    rw [Nat.beq_eq]
    omega
  | span m a b => exact hmay (.span m a b) hw hf
  | dates y l => rfl
  | weekly w y' m d =>
    obtain ⟨h1, h2, h3⟩ := hf
    show (Nat.beq _ _ && Nat.beq _ _ && (Nat.ble _ _ || (Nat.beq _ _ && Nat.ble _ _))) = true
    simp only [Bool.and_eq_true, Bool.or_eq_true, Nat.beq_eq, Nat.ble_eq, h1]
    refine ⟨⟨by omega, trivial⟩, ?_⟩
    omega
  | since y' h ih =>
    have := ih hw hf.2
    have := hf.1
    show (Nat.ble _ _ && Holiday.mayIn _ _ _ _ _ _ _ h) = true
    simp only [Bool.and_eq_true, Nat.ble_eq]
    exact ⟨by omega, ih hw hf.2⟩
  | till y' h ih =>
    have := hf.1
    show (Nat.ble _ _ && Holiday.mayIn _ _ _ _ _ _ _ h) = true
    simp only [Bool.and_eq_true, Nat.ble_eq]
    exact ⟨by omega, ih hw hf.2⟩
  | only ys h ih => exact ih hw hf.2
  | except ys h ih => exact ih hw hf.2

theorem falls_everInMonth {x : Date} (h : Holiday) (hw : h.wf = true) (hf : h.Falls x) :
    h.everInMonth x.month = true := by
  have hmay := fun (h : Holiday) (hw : h.wf = true) hf =>
    (may_inMonth h (falls_may (t := h.years) (x := x) h hw (fun _ h => h) hf)).2
  induction h with
  | on m d => exact hmay (.on m d) hw hf
  | moved m d ws k => exact hmay (.moved m d ws k) hw hf
  | nth n w m => exact hmay (.nth n w m) hw hf
  | last w m => exact hmay (.last w m) hw hf
  | firstFrom w m d => exact hmay (.firstFrom w m d) hw hf
  | span m a b => exact hmay (.span m a b) hw hf
  | since y' h ih => exact ih hw hf.2
  | till y' h ih => exact ih hw hf.2
  | only ys h ih => exact ih hw hf.2
  | except ys h ih => exact ih hw hf.2
  | _ => rfl

theorem allRec_true {α : Type} {p : α → Bool} {l : List α} (h : allRec p l = true) : ∀ a ∈ l, p a = true := by
  induction l with
  | nil => simp
  | cons b l ih =>
    have h' : (p b && allRec p l) = true := h
    rw [Bool.and_eq_true] at h'
    intro a ha
    rcases List.mem_cons.1 ha with rfl | ha
    · exact h'.1
    · exact ih h'.2 a ha

theorem daysFree_at {m : Nat} {l : List Holiday} : ∀ {i : Nat} {as bs ds : List Nat},
    daysFree m l i as bs ds = true → ∀ {j a b d : Nat}, as[j]? = some a → bs[j]? = some b → ds[j]? = some d →
    1 ≤ d ∧ d ≤ monthLen (isLeap ((i + j : Nat) : Int)) m ∧
      freeDay (i + j) m a b l d (daysBeforeMonth (isLeap ((i + j : Nat) : Int)) m + d) = true
  | i, a' :: as, b' :: bs, d' :: ds, h, j, a, b, d, ha, hb, hd => by
    unfold daysFree at h
    rw [force_eq, force_eq, Bool.and_eq_true, Bool.and_eq_true, Bool.and_eq_true, Nat.ble_eq, Nat.ble_eq] at h
    cases j with
    | zero =>
      simp only [List.getElem?_cons_zero, Option.some.injEq] at ha hb hd
      subst ha hb hd
      exact ⟨h.1.1.1, h.1.1.2, h.1.2⟩
    | succ j =>
      simp only [List.getElem?_cons_succ] at ha hb hd
      have := daysFree_at h.2 ha hb hd
      rw [show i + 1 + j = i + (j + 1) by omega] at this
      exact this
  | _, [], _, _, _, _, _, _, _, ha, _, _ => by simp at ha
  | _, _ :: _, [], _, _, _, _, _, _, _, hb, _ => by simp at hb
  | _, _ :: _, _ :: _, [], _, _, _, _, _, _, _, hd => by simp at hd

theorem gapsSmall_at {m : Nat} : ∀ {i : Nat} {xs ys : List Nat}, gapsSmall m i xs ys = true →
    ∀ {j x y : Nat}, xs[j]? = some x → ys[j]? = some y → monthLen (isLeap ((i + j : Nat) : Int)) m + y ≤ 31 + x
  | i, x' :: xs, y' :: ys, h, j, x, y, hx, hy => by
    unfold gapsSmall at h
    rw [force_eq, Bool.and_eq_true, Nat.ble_eq] at h
    cases j with
    | zero =>
      simp only [List.getElem?_cons_zero, Option.some.injEq] at hx hy
      subst hx hy
      exact h.1
    | succ j =>
      simp only [List.getElem?_cons_succ] at hx hy
      have := gapsSmall_at h.2 hx hy
      rw [show i + 1 + j = i + (j + 1) by omega] at this
      exact this
  | _, [], _, _, _, _, _, hx, _ => by simp at hx
  | _, _ :: _, [], _, _, _, _, _, hy => by simp at hy

/-- What the checks show: the day listed for a year is a Monday to Thursday and no shipped calendar has a holiday on
it. -/
theorem sharedIn_sound {m : Nat} {ds : List Nat} (hm1 : 1 ≤ m) (hm2 : m ≤ 12)
    (hwf : (allShipped.flatMap holidays).all Holiday.wf = true) (hc : recurringComplete m = true)
    (h : sharedIn m ds = true) {y : Int} (h1 : 1901 ≤ y) (h2 : y ≤ 2199) :
    ∃ x : Date, x.year = y ∧ x.month = m ∧ ds[(y - 1901).toNat]? = some x.day ∧ x.weekday.fromMonday ≤ 3 ∧
      ∀ s : Shipped, ¬ HolidayOn (holidays s) x := by
  unfold sharedIn at h
  rw [Bool.and_eq_true, Bool.and_eq_true, Nat.beq_eq] at h
  obtain ⟨⟨hlen, hfree⟩, hsingle⟩ := h
  obtain ⟨em, he⟩ := easterMonday_total h1 h2
  obtain ⟨om, ho⟩ := orthodoxEasterMonday_total h1 h2
  obtain ⟨d, hd⟩ : ∃ d, ds[(y - 1901).toNat]? = some d :=
    ⟨_, List.getElem?_eq_getElem (by rw [hlen]; omega)⟩
  obtain ⟨hd1, hd2, hfr⟩ := daysFree_at hfree (easterLookup_eq_ok.1 he).2 (easterLookup_eq_ok.1 ho).2 hd
  have hy : ((1901 + (y - 1901).toNat : Nat) : Int) = y := by omega
  rw [hy] at hd2 hfr
  let x : Date := ⟨y, m, d, by unfold minYear; omega, by unfold maxYear; omega, hm1, hm2, hd1, hd2⟩
  unfold freeDay at hfr
  rw [force_eq, Bool.and_eq_true, Nat.ble_eq] at hfr
  have hord : x.ordinal = daysBeforeMonth (isLeap y) m + d := rfl
  have hrow := easterMonday_row he
  have hw : (daysBeforeMonth (isLeap y) m + d + 364 - em) % 7 = x.weekday.fromMonday := by
    have a := weekday_fromMonday x
    have b : x.numDaysFromCe = daysBeforeYear y + x.ordinal := rfl
    omega
  rw [hw, ← hord] at hfr
  refine ⟨x, rfl, rfl, hd, hfr.1, ?_⟩
  rintro s ⟨h, hs, hf⟩
  have hmem : h ∈ allShipped.flatMap holidays := List.mem_flatMap.2 ⟨s, mem_allShipped s, hs⟩
  have hwf' := List.all_eq_true.1 hwf h hmem
  have hmo := falls_everInMonth h hwf' hf
  by_cases hr : h.recurs m = true
  · have hin := List.all_eq_true.1 hc h hmem
    rw [hr] at hin
    have hin : h ∈ recurring m := by simpa using hin
    have h3 := allRec_true hfr.2 h hin
    have h4 := falls_mayIn (x := x) (y := 1901 + (y - 1901).toNat) hy.symm he ho h2 h hwf' hf
    rw [show Holiday.mayIn _ m d _ _ _ _ h = true from h4] at h3
    cases h3
  · cases h with
    | dates y' t =>
      have h5 := List.all_eq_true.1 hsingle _ hmem
      obtain ⟨g1, g2⟩ := hf
      have g1 : y = y' := g1
      subst g1
      simp only [hd] at h5
      have := List.all_eq_true.1 h5 _ g2
      simp [x] at this
    | _ => exact hr hmo

end Qlab
