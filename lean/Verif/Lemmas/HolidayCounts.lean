import Verif.Lemmas.CommonDays

/-!
# Counting the weekdays on which a calendar is closed

`Holiday.exactIn` decides `Holiday.Falls` with natural numbers only; `yearCounts` counts, for every year whose Easter
Monday is tabulated, the Mondays to Fridays on which a holiday of a list falls.
-/

namespace Qlab

open Spec

/-- The holiday falls on day `d` of month `m`, weekday `w` (0 is Monday) and day `o` of the year `y` whose (Orthodox)
Easter Monday is day `em` (`om`).  (The recursor evaluates faster than a recursive definition.) -/
noncomputable def Spec.Holiday.exactIn (y m d w o em om : Nat) (h : Holiday) : Bool :=
  @Holiday.rec (fun _ => Bool)
    (fun m' d' => Nat.beq m m' && Nat.beq d d')
    (fun m' d' ws k => Nat.beq m (landing m' d' k).1 && Nat.beq d (landing m' d' k).2 &&
      ws.any fun w' => Nat.beq w (w'.shift k).fromMonday)
    (fun n w' m' => Nat.beq m m' && Nat.beq w w'.fromMonday && Nat.ble (7 * (n - 1) + 1) d && Nat.ble d (7 * n))
    (fun w' m' => Nat.beq m m' && Nat.beq w w'.fromMonday && Nat.ble (monthLen false m' + 1) (d + 7))
    (fun w' m' d' => Nat.beq m m' && Nat.beq w w'.fromMonday && Nat.ble d' d && Nat.ble d (d' + 6))
    (fun k => Nat.beq (o + 99) (em + (k + 98).toNat))
    (fun k => Nat.beq (o + 99) (om + (k + 98).toNat))
    (fun m' a b => Nat.beq m m' && Nat.ble a d && Nat.ble d b)
    (fun y' l => Nat.beq y y'.toNat && l.any fun p => Nat.beq m p.1 && Nat.beq d p.2)
    (fun w' y' m' d' => Nat.beq y y'.toNat && Nat.beq w w'.fromMonday &&
      (Nat.ble (m' + 1) m || (Nat.beq m m' && Nat.ble d' d)))
    (fun y' _ r => Nat.ble y'.toNat y && r)
    (fun y' _ r => Nat.ble y y'.toNat && r)
    (fun ys _ r => (ys.any fun y' => Nat.beq y y'.toNat) && r)
    (fun ys _ r => !(ys.any fun y' => Nat.beq y y'.toNat) && r)
    h

/-- `f n`, written so that the kernel evaluates `n` first. -/
def forced {α : Type} (n : Nat) (f : Nat → α) : α :=
  match n with
  | 0 => f 0
  | k + 1 => f (k + 1)

theorem forced_eq {α : Type} (n : Nat) (f : Nat → α) : forced n f = f n := by cases n <;> rfl

/-- `p` holds of some element.  (The recursor evaluates faster.) -/
noncomputable def anyRec {α : Type} (p : α → Bool) (l : List α) : Bool := List.rec false (fun a _ r => p a || r) l

/-- Day `d` of month `m`, day `o` of the year, is a Monday to Friday on which some holiday of the list falls. -/
noncomputable def closedWeekday (y m em om : Nat) (l : List Holiday) (d o : Nat) : Bool :=
  forced ((o + 364 - em) % 7) fun w => Nat.ble w 4 && anyRec (fun h => h.exactIn y m d w o em om) l

/-- The days among the `n` days of month `m` from day `d`, day `o` of the year, on that are such days. -/
noncomputable def closedFrom (y m em om : Nat) (l : List Holiday) : Nat → Nat → Nat → List Nat
  | 0, _, _ => []
  | n + 1, d, o => forced d fun d => forced o fun o =>
    bif closedWeekday y m em om l d o then d :: closedFrom y m em om l n (d + 1) (o + 1)
    else closedFrom y m em om l n (d + 1) (o + 1)

/-- Such days among the `n` days of month `m` from day `a` on. -/
noncomputable def closedInMonth (y m em om : Nat) (l : List Holiday) (a n : Nat) : List Nat :=
  closedFrom y m em om l n a (daysBeforeMonth (isLeap y) m + a)

/-- Their number in the months from `m` on, with a list of holidays and a range of days for each month. -/
noncomputable def closedCount (y em om : Nat) : Nat → List (List Holiday × Nat × Nat) → Nat
  | _, [] => 0
  | m, (l, a, n) :: ls => forced m fun m => (closedInMonth y m em om l a n).length + closedCount y em om (m + 1) ls

/-- In the years from `i` on that number is `e` of the year. -/
noncomputable def yearCounts (e : Nat → Nat) (ls : List (List Holiday × Nat × Nat)) : Nat → List Nat → List Nat → Bool
  | i, a :: as, b :: bs => forced i fun i =>
    Nat.beq (closedCount i a b 1 ls) (e i) && yearCounts e ls (i + 1) as bs
  | _, _, _ => true

/-- The holiday can fall in month `m` of some year. -/
def Spec.Holiday.mayMonth (m : Nat) : Holiday → Bool
  | .dates _ l => l.any fun p => Nat.beq m p.1
  | .easter k => decide ((daysBeforeMonth false m : Int) + 1 ≤ 115 + k ∧
      82 + k ≤ daysBeforeMonth true m + monthLen true m)
  | h => h.everInMonth m

/-- In month `m` the holiday can fall only on the `n` days from day `a` on. -/
def Spec.Holiday.within (m a n : Nat) : Holiday → Bool
  | .on _ d => Nat.ble a d && Nat.ble (d + 1) (a + n)
  | .moved m' d' _ k => Nat.ble a (landing m' d' k).2 && Nat.ble ((landing m' d' k).2 + 1) (a + n)
  | .nth k _ _ => Nat.ble a (7 * (k - 1) + 1) && Nat.ble (7 * k + 1) (a + n)
  | .last _ m' => Nat.ble (a + 6) (monthLen false m') && Nat.ble (monthLen true m + 1) (a + n)
  | .firstFrom _ _ d => Nat.ble a d && Nat.ble (d + 7) (a + n)
  | .span _ x z => Nat.ble a x && Nat.ble (z + 1) (a + n)
  | .dates _ l => l.all fun p => !Nat.beq m p.1 || (Nat.ble a p.2 && Nat.ble (p.2 + 1) (a + n))
  | .since _ h | .till _ h | .only _ h | .except _ h => h.within m a n
  | _ => Nat.ble a 1 && Nat.ble (monthLen true m + 1) (a + n)

/-- The lists, one for each month from `m` on, have all the holidays of the calendar that can fall in the month, and
no others, and these fall in the ranges of days given with them. -/
def monthsOk (s : Shipped) : Nat → List (List Holiday × Nat × Nat) → Bool
  | _, [] => true
  | m, (l, a, n) :: ls => decide ((holidays s).filter (·.mayMonth m) = l) && l.all (·.within m a n) && Nat.ble 1 a &&
    (Nat.ble (a + n) (monthLen false m + 1) || Nat.beq n 0) && monthsOk s (m + 1) ls

theorem exactIn_iff {y m d o em om : Nat} {w : Weekday} (hy : 1 ≤ y) (h : Holiday) (hw : h.wf = true) :
    h.exactIn y m d w.fromMonday o em om = true ↔ h.test (y : Int) m d w o em om := by
  have hfm : ∀ a b : Weekday, a.fromMonday = b.fromMonday ↔ a = b := fun a b => by cases a <;> cases b <;> decide
  induction h with
  | on m' d' =>
    show (Nat.beq _ _ && Nat.beq _ _) = true ↔ _
    simp only [Bool.and_eq_true, Nat.beq_eq, Holiday.test]
  | moved m' d' ws k =>
    show (Nat.beq _ _ && Nat.beq _ _ && List.any _ _) = true ↔ _
    simp only [Bool.and_eq_true, Nat.beq_eq, Holiday.test, List.any_eq_true, List.mem_map, hfm, and_assoc]
    refine and_congr Iff.rfl (and_congr Iff.rfl ?_)
    exact ⟨fun ⟨a, h1, h2⟩ => ⟨a, h1, h2.symm⟩, fun ⟨a, h1, h2⟩ => ⟨a, h1, h2.symm⟩⟩
  | nth n w' m' =>
    show (Nat.beq _ _ && Nat.beq _ _ && Nat.ble _ _ && Nat.ble _ _) = true ↔ _
    simp only [Bool.and_eq_true, Nat.beq_eq, Nat.ble_eq, Holiday.test, hfm, and_assoc]
    refine and_congr Iff.rfl (and_congr Iff.rfl ?_)
    omega
  | last w' m' =>
    show (Nat.beq _ _ && Nat.beq _ _ && Nat.ble _ _) = true ↔ _
    simp only [Bool.and_eq_true, Nat.beq_eq, Nat.ble_eq, Holiday.test, hfm, and_assoc]
    exact Iff.rfl
  | firstFrom w' m' d' =>
    show (Nat.beq _ _ && Nat.beq _ _ && Nat.ble _ _ && Nat.ble _ _) = true ↔ _
    simp only [Bool.and_eq_true, Nat.beq_eq, Nat.ble_eq, Holiday.test, hfm, and_assoc]
  | easter k =>
    simp only [Holiday.wf, decide_eq_true_eq] at hw
    show Nat.beq _ _ = true ↔ _
    simp only [Nat.beq_eq, Holiday.test]
    omega
  | orthodoxEaster k =>
    simp only [Holiday.wf, decide_eq_true_eq] at hw
    show Nat.beq _ _ = true ↔ _
    simp only [Nat.beq_eq, Holiday.test]
    omega
  | span m' a b =>
    show (Nat.beq _ _ && Nat.ble _ _ && Nat.ble _ _) = true ↔ _
    simp only [Bool.and_eq_true, Nat.beq_eq, Nat.ble_eq, Holiday.test, and_assoc]
  | dates y' l =>
    show (Nat.beq _ _ && List.any _ _) = true ↔ _
    simp only [Bool.and_eq_true, Nat.beq_eq, Holiday.test, List.any_eq_true]
    refine and_congr (by omega) ⟨?_, fun h => ⟨(m, d), h, rfl, rfl⟩⟩
    rintro ⟨⟨a, b⟩, h1, rfl, rfl⟩
    exact h1
  | weekly w' y' m' d' =>
    show (Nat.beq _ _ && Nat.beq _ _ && (Nat.ble _ _ || (Nat.beq _ _ && Nat.ble _ _))) = true ↔ _
    simp only [Bool.and_eq_true, Bool.or_eq_true, Nat.beq_eq, Nat.ble_eq, Holiday.test, hfm]
    have : y = y'.toNat ↔ (y : Int) = y' := by omega
    rw [this]
    constructor
    · rintro ⟨⟨h1, h2⟩, h3⟩; exact ⟨h2, h1, h3⟩
    · rintro ⟨h1, h2, h3⟩; exact ⟨⟨h2, h1⟩, h3⟩
  | since y' h ih =>
    show (Nat.ble _ _ && Holiday.exactIn _ _ _ _ _ _ _ h) = true ↔ _
    simp only [Bool.and_eq_true, Nat.ble_eq, Holiday.test]
    exact and_congr (by omega) (ih hw)
  | till y' h ih =>
    show (Nat.ble _ _ && Holiday.exactIn _ _ _ _ _ _ _ h) = true ↔ _
    simp only [Bool.and_eq_true, Nat.ble_eq, Holiday.test]
    exact and_congr (by omega) (ih hw)
  | only ys h ih =>
    show (List.any _ _ && Holiday.exactIn _ _ _ _ _ _ _ h) = true ↔ _
    simp only [Bool.and_eq_true, List.any_eq_true, Nat.beq_eq, Holiday.test]
    refine and_congr ⟨?_, fun h => ⟨y, h, by omega⟩⟩ (ih hw)
    rintro ⟨a, h1, h2⟩
    rwa [show (y : Int) = a by omega]
  | except ys h ih =>
    show (!List.any _ _ && Holiday.exactIn _ _ _ _ _ _ _ h) = true ↔ _
    simp only [Bool.and_eq_true, Bool.not_eq_true', Bool.eq_false_iff, ne_eq, List.any_eq_true, Nat.beq_eq,
      Holiday.test]
    refine and_congr (not_congr ⟨?_, fun h => ⟨y, h, by omega⟩⟩) (ih hw)
    rintro ⟨a, h1, h2⟩
    rwa [show (y : Int) = a by omega]

theorem anyRec_iff {α : Type} {p : α → Bool} {l : List α} : anyRec p l = true ↔ ∃ a ∈ l, p a = true := by
  induction l with
  | nil => exact ⟨fun h => Bool.noConfusion h, fun ⟨_, h, _⟩ => absurd h List.not_mem_nil⟩
  | cons b l ih =>
    show (p b || anyRec p l) = true ↔ _
    rw [Bool.or_eq_true, ih]
    simp

theorem mem_closedFrom {y m em om : Nat} {l : List Holiday} : ∀ {n d o z : Nat},
    z ∈ closedFrom y m em om l n d o ↔ d ≤ z ∧ z < d + n ∧ closedWeekday y m em om l z (o + (z - d)) = true
  | 0, d, o, z => by simp [closedFrom]; omega
  | n + 1, d, o, z => by
    rw [closedFrom, forced_eq, forced_eq]
    have ih := mem_closedFrom (y := y) (m := m) (em := em) (om := om) (l := l) (n := n) (d := d + 1) (o := o + 1) (z := z)
    have key : (d + 1 ≤ z ∧ z < d + 1 + n ∧ closedWeekday y m em om l z (o + 1 + (z - (d + 1))) = true) ↔
        (d + 1 ≤ z ∧ z < d + (n + 1) ∧ closedWeekday y m em om l z (o + (z - d)) = true) := by
      constructor
      · rintro ⟨h1, h2, h3⟩
        rw [show o + 1 + (z - (d + 1)) = o + (z - d) by omega] at h3
        exact ⟨h1, by omega, h3⟩
      · rintro ⟨h1, h2, h3⟩
        rw [show o + 1 + (z - (d + 1)) = o + (z - d) by omega]
        exact ⟨h1, by omega, h3⟩
    cases hc : closedWeekday y m em om l d o
    · rw [cond_false, ih, key]
      refine ⟨fun ⟨h1, h2, h3⟩ => ⟨by omega, h2, h3⟩, fun ⟨h1, h2, h3⟩ => ⟨?_, h2, h3⟩⟩
      rcases Nat.lt_or_ge d z with h | h
      · omega
      · obtain rfl : z = d := by omega
        rw [Nat.sub_self, Nat.add_zero, hc] at h3
        cases h3
    · rw [cond_true, List.mem_cons, ih, key]
      constructor
      · rintro (rfl | ⟨h1, h2, h3⟩)
        · exact ⟨by omega, by omega, by rw [Nat.sub_self, Nat.add_zero, hc]⟩
        · exact ⟨by omega, h2, h3⟩
      · rintro ⟨h1, h2, h3⟩
        by_cases h : z = d
        · exact .inl h
        · exact .inr ⟨by omega, h2, h3⟩

theorem nodup_closedFrom {y m em om : Nat} {l : List Holiday} : ∀ {n d o : Nat}, (closedFrom y m em om l n d o).Nodup
  | 0, d, o => by simp [closedFrom]
  | n + 1, d, o => by
    rw [closedFrom, forced_eq, forced_eq]
    cases closedWeekday y m em om l d o
    · exact nodup_closedFrom
    · rw [cond_true, List.nodup_cons]
      refine ⟨fun h => ?_, nodup_closedFrom⟩
      have := (mem_closedFrom.1 h).1
      omega

/-- Months and days together. -/
noncomputable def closedPairs (y em om : Nat) : Nat → List (List Holiday × Nat × Nat) → List (Nat × Nat)
  | _, [] => []
  | m, (l, a, n) :: ls => (closedInMonth y m em om l a n).map (m, ·) ++ closedPairs y em om (m + 1) ls

theorem length_closedPairs {y em om : Nat} : ∀ {m : Nat} {ls : List (List Holiday × Nat × Nat)},
    (closedPairs y em om m ls).length = closedCount y em om m ls
  | _, [] => rfl
  | m, (l, a, n) :: ls => by
    rw [closedPairs, closedCount, forced_eq, List.length_append, List.length_map, length_closedPairs]

theorem mem_closedPairs {y em om : Nat} : ∀ {m : Nat} {ls : List (List Holiday × Nat × Nat)} {p : Nat × Nat},
    p ∈ closedPairs y em om m ls ↔
      m ≤ p.1 ∧ ∃ l a n, ls[p.1 - m]? = some (l, a, n) ∧ p.2 ∈ closedInMonth y p.1 em om l a n
  | _, [], p => by simp [closedPairs]
  | m, (l, a, n) :: ls, p => by
    rw [closedPairs, List.mem_append, mem_closedPairs, List.mem_map]
    constructor
    · rintro (⟨d, h1, rfl⟩ | ⟨h1, k, c, e, h2, h3⟩)
      · exact ⟨Nat.le_refl _, l, a, n, by simp, h1⟩
      · refine ⟨by omega, k, c, e, ?_, h3⟩
        rw [show p.1 - m = p.1 - (m + 1) + 1 by omega]
        exact h2
    · rintro ⟨h1, k, c, e, h2, h3⟩
      rcases Nat.lt_or_ge m p.1 with h | h
      · refine .inr ⟨h, k, c, e, ?_, h3⟩
        rwa [show p.1 - m = p.1 - (m + 1) + 1 by omega] at h2
      · obtain ⟨x, z⟩ := p
        obtain rfl : x = m := Nat.le_antisymm h h1
        simp only [Nat.sub_self, List.getElem?_cons_zero, Option.some.injEq, Prod.mk.injEq] at h2
        obtain ⟨rfl, rfl, rfl⟩ := h2
        exact .inl ⟨z, h3, rfl⟩

theorem nodup_closedPairs {y em om : Nat} : ∀ {m : Nat} {ls : List (List Holiday × Nat × Nat)},
    (closedPairs y em om m ls).Nodup
  | _, [] => List.nodup_nil
  | m, (l, a, n) :: ls => by
    rw [closedPairs, List.nodup_append]
    refine ⟨?_, nodup_closedPairs, ?_⟩
    · exact List.Pairwise.map _ (fun a b h h' => h (Prod.mk.inj h').2) nodup_closedFrom
    · rintro p h1 q h2 rfl
      obtain ⟨d, -, rfl⟩ := List.mem_map.1 h1
      have := (mem_closedPairs.1 h2).1
      simp only at this
      omega

theorem monthsOk_at {s : Shipped} : ∀ {m : Nat} {ls : List (List Holiday × Nat × Nat)}, monthsOk s m ls = true →
    ∀ {j : Nat} {l : List Holiday} {a n : Nat}, ls[j]? = some (l, a, n) →
      (holidays s).filter (·.mayMonth (m + j)) = l ∧ (∀ h ∈ l, h.within (m + j) a n = true) ∧ 1 ≤ a ∧
        (a + n ≤ monthLen false (m + j) + 1 ∨ n = 0)
  | m, (l', a', n') :: ls, h, j, l, a, n, hj => by
    rw [monthsOk, Bool.and_eq_true, Bool.and_eq_true, Bool.and_eq_true, Bool.and_eq_true, Bool.or_eq_true,
      decide_eq_true_eq, Nat.ble_eq, Nat.ble_eq, Nat.beq_eq, List.all_eq_true] at h
    cases j with
    | zero =>
      simp only [List.getElem?_cons_zero, Option.some.injEq, Prod.mk.injEq] at hj
      obtain ⟨rfl, rfl, rfl⟩ := hj
      exact ⟨h.1.1.1.1, h.1.1.1.2, h.1.1.2, h.1.2⟩
    | succ j =>
      simp only [List.getElem?_cons_succ] at hj
      have := monthsOk_at h.2 hj
      rwa [show m + 1 + j = m + (j + 1) by omega] at this
  | _, [], _, _, _, _, _, hj => by simp at hj

theorem exactIn_within {y m d w o em om a n : Nat} (hd1 : 1 ≤ d) (hd2 : d ≤ monthLen true m) (h : Holiday)
    (he : h.exactIn y m d w o em om = true) (hw : h.within m a n = true) : a ≤ d ∧ d < a + n := by
  induction h with
  | on m' d' =>
    have he : (Nat.beq _ _ && Nat.beq _ _) = true := he
    simp only [Holiday.within, Bool.and_eq_true, Nat.beq_eq, Nat.ble_eq] at he hw
    omega
  | moved m' d' ws k =>
    have he : (Nat.beq _ _ && Nat.beq _ _ && List.any _ _) = true := he
    simp only [Holiday.within, Bool.and_eq_true, Nat.beq_eq, Nat.ble_eq] at he hw
    omega
  | nth k w' m' =>
    have he : (Nat.beq _ _ && Nat.beq _ _ && Nat.ble _ _ && Nat.ble _ _) = true := he
    simp only [Holiday.within, Bool.and_eq_true, Nat.beq_eq, Nat.ble_eq] at he hw
    omega
  | last w' m' =>
    have he : (Nat.beq _ _ && Nat.beq _ _ && Nat.ble _ _) = true := he
    simp only [Holiday.within, Bool.and_eq_true, Nat.beq_eq, Nat.ble_eq] at he hw
    omega
  | firstFrom w' m' d' =>
    have he : (Nat.beq _ _ && Nat.beq _ _ && Nat.ble _ _ && Nat.ble _ _) = true := he
    simp only [Holiday.within, Bool.and_eq_true, Nat.beq_eq, Nat.ble_eq] at he hw
    omega
  | span m' x z =>
    have he : (Nat.beq _ _ && Nat.ble _ _ && Nat.ble _ _) = true := he
    simp only [Holiday.within, Bool.and_eq_true, Nat.beq_eq, Nat.ble_eq] at he hw
    omega
  | dates y' l =>
    have he : (Nat.beq _ _ && List.any _ _) = true := he
    rw [Bool.and_eq_true, List.any_eq_true] at he
    obtain ⟨-, p, hp, hp2⟩ := he
    have hw := List.all_eq_true.1 hw p hp
    rw [Bool.and_eq_true, Nat.beq_eq, Nat.beq_eq] at hp2
    simp only [Bool.or_eq_true, Bool.not_eq_true', Bool.eq_false_iff, ne_eq, Bool.and_eq_true, Nat.beq_eq,
      Nat.ble_eq] at hw
    omega
  | since y' h ih =>
    have he : (Nat.ble _ _ && Holiday.exactIn _ _ _ _ _ _ _ h) = true := he
    exact ih (Bool.and_eq_true _ _ ▸ he).2 hw
  | till y' h ih =>
    have he : (Nat.ble _ _ && Holiday.exactIn _ _ _ _ _ _ _ h) = true := he
    exact ih (Bool.and_eq_true _ _ ▸ he).2 hw
  | only ys h ih =>
    have he : (List.any _ _ && Holiday.exactIn _ _ _ _ _ _ _ h) = true := he
    exact ih (Bool.and_eq_true _ _ ▸ he).2 hw
  | except ys h ih =>
    have he : (!List.any _ _ && Holiday.exactIn _ _ _ _ _ _ _ h) = true := he
    exact ih (Bool.and_eq_true _ _ ▸ he).2 hw
  | easter k => simp only [Holiday.within, Bool.and_eq_true, Nat.ble_eq] at hw; omega
  | orthodoxEaster k => simp only [Holiday.within, Bool.and_eq_true, Nat.ble_eq] at hw; omega
  | weekly w' y' m' d' => simp only [Holiday.within, Bool.and_eq_true, Nat.ble_eq] at hw; omega

theorem yearCounts_at {e : Nat → Nat} {ls : List (List Holiday × Nat × Nat)} : ∀ {i : Nat} {as bs : List Nat},
    yearCounts e ls i as bs = true → ∀ {j a b : Nat}, as[j]? = some a → bs[j]? = some b →
    closedCount (i + j) a b 1 ls = e (i + j)
  | i, a' :: as, b' :: bs, h, j, a, b, ha, hb => by
    unfold yearCounts at h
    rw [forced_eq, Bool.and_eq_true, Nat.beq_eq] at h
    cases j with
    | zero =>
      simp only [List.getElem?_cons_zero, Option.some.injEq] at ha hb
      subst ha hb
      exact h.1
    | succ j =>
      simp only [List.getElem?_cons_succ] at ha hb
      have := yearCounts_at h.2 ha hb
      rw [show i + 1 + j = i + (j + 1) by omega] at this
      exact this
  | _, [], _, _, _, _, _, ha, _ => by simp at ha
  | _, _ :: _, [], _, _, _, _, _, hb => by simp at hb

theorem falls_mayMonth {x : Date} (h1 : 1901 ≤ x.year) (h2 : x.year ≤ 2199) (h : Holiday) (hw : h.wf = true)
    (hf : h.Falls x) : h.mayMonth x.month = true := by
  cases h with
  | dates y l => exact List.any_eq_true.2 ⟨_, hf.2, Nat.beq_refl _⟩
  | easter k =>
    obtain ⟨em, he⟩ := easterMonday_total h1 h2
    obtain ⟨om, ho⟩ := orthodoxEasterMonday_total h1 h2
    have ht := (falls_iff (x := x) (em := em) (om := om) _ hw fun _ => ⟨em, om, he, ho, rfl, rfl, h2⟩).1 hf
    have hr := easterMonday_row he
    have ht : (x.ordinal : Int) = em - 1 + k := ht
    have hord : x.ordinal = daysBeforeMonth (isLeap x.year) x.month + x.day := rfl
    have hm1 := x.valid.2.2.1
    have hm2 := x.valid.2.2.2.1
    have hd1 := x.valid.2.2.2.2.1
    have hd2 := x.valid.2.2.2.2.2
    have key : ∀ m, m ≤ 12 → ∀ b, daysBeforeMonth false m ≤ daysBeforeMonth b m ∧
        daysBeforeMonth b m + monthLen b m ≤ daysBeforeMonth true m + monthLen true m := by decide
    have := key _ hm2 (isLeap x.year)
    simp only [Holiday.mayMonth, decide_eq_true_eq]
    omega
  | _ => exact falls_everInMonth _ hw hf

end Qlab
