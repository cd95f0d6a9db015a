import Verif.Lemmas.Holidays
import Verif.Spec.HolidayTables

/-!
# A check that a list of holidays leaves a business day in every half month

`Holiday.may` over-approximates the days on which a holiday can fall, given the month, the day, the weekday and
the year (`none` for a year without single closings); `halvesOpen` checks all months, weekdays and listed years.
-/

namespace Qlab

open Spec

/-- A holiday can fall on day `d` of month `m` if that is weekday `w` (0 is Monday) and the year is `y`. -/
def Spec.Holiday.may (y : Option Int) (m d w : Nat) : Holiday → Bool
  | .on m' d' => Nat.beq m m' && Nat.beq d d'
  | .moved m' d' ws k => Nat.beq m (landing m' d' k).1 && Nat.beq d (landing m' d' k).2 &&
      ws.any fun w' => Nat.beq w (w'.shift k).fromMonday
  | .nth n w' m' => Nat.beq m m' && Nat.beq w w'.fromMonday && Nat.ble (7 * (n - 1) + 1) d && Nat.ble d (7 * n)
  | .last w' m' => Nat.beq m m' && Nat.beq w w'.fromMonday && Nat.ble (monthLen false m' + 1) (d + 7)
  | .firstFrom w' m' d' => Nat.beq m m' && Nat.beq w w'.fromMonday && Nat.ble d' d && Nat.ble d (d' + 6)
  | .easter k => Nat.beq w (Weekday.Sun.shift k).fromMonday
  | .orthodoxEaster k => Nat.beq w (Weekday.Sun.shift k).fromMonday
  | .span m' a b => Nat.beq m m' && Nat.ble a d && Nat.ble d b
  | .dates y' l => decide (y = some y') && l.any fun p => Nat.beq m p.1 && Nat.beq d p.2
  | .weekly w' y' m' d' => decide (y = some y') && Nat.beq w w'.fromMonday &&
      (Nat.ble (m' + 1) m || (Nat.beq m m' && Nat.ble d' d))
  | .since _ h | .till _ h | .only _ h | .except _ h => h.may y m d w

/-- The years the holiday singles out. -/
def Spec.Holiday.years : Holiday → List Int
  | .dates y _ => [y]
  | .weekly _ y _ _ => [y]
  | .since _ h | .till _ h | .only _ h | .except _ h => h.years
  | _ => []

/-- The holiday can fall in the year. -/
def Spec.Holiday.inYear (y : Option Int) : Holiday → Bool
  | .dates y' _ => decide (y = some y')
  | _ => true

/-- The holiday can fall in month `m` of the year. -/
def Spec.Holiday.inMonth (y : Option Int) (m : Nat) : Holiday → Bool
  | .on m' _ => Nat.beq m m'
  | .moved m' d' _ k => Nat.beq m (landing m' d' k).1
  | .nth _ _ m' => Nat.beq m m'
  | .last _ m' => Nat.beq m m'
  | .firstFrom _ m' _ => Nat.beq m m'
  | .span m' _ _ => Nat.beq m m'
  | .dates y' l => decide (y = some y') && l.any fun p => Nat.beq m p.1
  | .since _ h | .till _ h | .only _ h | .except _ h => h.inMonth y m
  | _ => true

/-- Days `a` to `b` of month `m` whose first day is weekday `w` contain a day that is neither a rest day nor a
holiday. -/
def openBetween (rest : Nat → Bool) (y : Option Int) (l : List Holiday) (m w a b : Nat) : Bool :=
  (List.range' a (b + 1 - a)).any fun d =>
    !rest ((w + d - 1) % 7) && l.all fun h => !h.may y m d ((w + d - 1) % 7)

/-- Both halves of month `m` have such a day, whatever the weekday of its first day. -/
def halvesOpenIn (rest : Nat → Bool) (y : Option Int) (l : List Holiday) (m : Nat) : Bool :=
  (List.range 7).all fun w => openBetween rest y l m w 1 14 && openBetween rest y l m w 15 28

/-- In every year every month has such a day among its first 14 and among the next 14 days. -/
def halvesOpen (rest : Nat → Bool) (l : List Holiday) : Bool :=
  (none :: ((l.flatMap (·.years)).eraseDups.map some)).all fun y => (List.range' 1 12).all fun m =>
    halvesOpenIn rest y ((l.filter (·.inYear y)).filter (·.inMonth y m)) m

/-- The weekly rest days of a shipped calendar, 0 is Monday. -/
def restDays : Shipped → Nat → Bool
  | .israel, w => Nat.beq w 4 || Nat.beq w 5
  | _, w => Nat.beq w 5 || Nat.beq w 6

theorem restDay_restDays {s : Shipped} {d : Date} (h : RestDay s d) : restDays s d.weekday.fromMonday = true := by
  unfold RestDay at h
  split at h
  · rcases h with h | h <;> rw [h] <;> rfl
  · rcases h.1 with h | h <;> rw [h] <;> rfl
  · unfold restDays
    rcases h with h | h <;> rw [h] <;> (split <;> simp_all [Weekday.fromMonday])

/-- The year as `Holiday.may` sees it. -/
def yearKey (t : List Int) (y : Int) : Option Int := if y ∈ t then some y else none

theorem fromMonday_inj {a b : Weekday} (h : a.fromMonday = b.fromMonday) : a = b := by
  cases a <;> cases b <;> simp_all [Weekday.fromMonday]

theorem falls_may {t : List Int} {x : Date} (h : Holiday) (hw : h.wf = true) (ht : ∀ y ∈ h.years, y ∈ t)
    (hf : h.Falls x) : h.may (yearKey t x.year) x.month x.day x.weekday.fromMonday = true := by
  induction h with
  | on m d => obtain ⟨h1, h2⟩ := hf; simp [Holiday.may, h1, h2]
  | moved m d ws k =>
    obtain ⟨h1, h2, h3⟩ := (falls_iff (em := 0) (om := 0) (.moved m d ws k) hw (fun hc => by cases hc)).1 hf
    simp only [Holiday.may, ← h1, ← h2, Nat.beq_refl, Bool.true_and, List.any_eq_true]
    rw [List.mem_map] at h3
    obtain ⟨w, hw1, hw2⟩ := h3
    exact ⟨w, hw1, by rw [← hw2]; exact Nat.beq_refl _⟩
  | nth n w m =>
    obtain ⟨h1, h2, h3, h4⟩ := (nth_iff (by simpa [Holiday.wf] using hw) w m x).1 hf
    simp [Holiday.may, h1, h2]; omega
  | last w m =>
    obtain ⟨h1, h2, h3⟩ := (last_iff (by simpa [Holiday.wf] using hw) w x).1 hf
    simp [Holiday.may, h1, h2]; omega
  | firstFrom w m d =>
    have hw' : 1 ≤ m ∧ m ≤ 12 ∧ 1 ≤ d ∧ d + 6 ≤ monthLen false m := by simpa [Holiday.wf] using hw
    obtain ⟨h1, h2, h3, h4⟩ := (firstFrom_iff hw'.1 hw'.2.1 hw'.2.2.1 hw'.2.2.2 w x).1 hf
    simp [Holiday.may, h1, h2]; omega
  | easter k => simp [Holiday.may, weekday_of_easter hf]
  | orthodoxEaster k =>
    have : x.weekday = Weekday.Sun.shift k := by
      obtain ⟨s, hs, hd⟩ := hf
      rw [← hs.1]
      exact weekday_shift (by unfold Date.serialDate at hd; show x.numDaysFromCe - s.numDaysFromCe = k; omega)
    simp [Holiday.may, this]
  | span m a b => obtain ⟨h1, h2, h3⟩ := hf; simp [Holiday.may, h1, h2, h3]
  | dates y l =>
    obtain ⟨h1, h2⟩ := hf
    have hk : yearKey t x.year = some y := by
      unfold yearKey; rw [h1, if_pos (ht y (by simp [Holiday.years]))]
    simp only [Holiday.may, hk, decide_true, Bool.true_and, List.any_eq_true]
    exact ⟨_, h2, by simp⟩
  | weekly w y m d =>
    obtain ⟨h1, h2, h3⟩ := hf
    have hk : yearKey t x.year = some y := by
      unfold yearKey; rw [h2, if_pos (ht y (by simp [Holiday.years]))]
    simp [Holiday.may, hk, h1]; omega
  | since y h ih => exact ih hw ht hf.2
  | till y h ih => exact ih hw ht hf.2
  | only ys h ih => exact ih hw ht hf.2
  | except ys h ih => exact ih hw ht hf.2

theorem may_inMonth {y : Option Int} {m d w : Nat} (h : Holiday) (hm : h.may y m d w = true) :
    h.inYear y = true ∧ h.inMonth y m = true := by
  induction h with
  | dates y' l =>
    simp only [Holiday.may, Bool.and_eq_true, decide_eq_true_eq, List.any_eq_true] at hm
    obtain ⟨h1, p, h2, h3, h4⟩ := hm
    refine ⟨by simp [Holiday.inYear, h1], ?_⟩
    simp only [Holiday.inMonth, h1, decide_true, Bool.true_and, List.any_eq_true]
    exact ⟨p, h2, h3⟩
  | since y' h ih => exact ⟨rfl, (ih hm).2⟩
  | till y' h ih => exact ⟨rfl, (ih hm).2⟩
  | only ys h ih => exact ⟨rfl, (ih hm).2⟩
  | except ys h ih => exact ⟨rfl, (ih hm).2⟩
  | easter k => exact ⟨rfl, rfl⟩
  | orthodoxEaster k => exact ⟨rfl, rfl⟩
  | weekly w' y' m' d' => exact ⟨rfl, rfl⟩
  | _ =>
    simp only [Holiday.may, Bool.and_eq_true] at hm
    refine ⟨rfl, ?_⟩
    simp only [Holiday.inMonth]
    simp_all

/-- The weekday of a day from the weekday of the first day of its month. -/
theorem weekday_from_first {f d : Date} (h1 : f.year = d.year) (h2 : f.month = d.month) (h3 : f.day = 1) :
    d.weekday.fromMonday = (f.weekday.fromMonday + d.day - 1) % 7 := by
  have s1 := serial_same_year h2 h3
  have s2 := serial_same_year (x := d) rfl rfl
  have a := weekday_fromMonday f
  have b := weekday_fromMonday d
  have := NaiveDate.day_pos d
  rw [h1] at s1
  push_cast at s1 s2
  omega

/-- What the check shows: both halves of every month of every year contain a day that is neither a rest day nor
a holiday. -/
theorem halvesOpen_sound {rest : Nat → Bool} {l : List Holiday} (hw : l.all Holiday.wf = true)
    (h : halvesOpen rest l = true) {y : Int} {m : Nat} (hy1 : minYear ≤ y) (hy2 : y ≤ maxYear) (hm1 : 1 ≤ m)
    (hm2 : m ≤ 12) (second : Bool) :
    ∃ d : Date, d.year = y ∧ d.month = m ∧ (if second then 15 else 1) ≤ d.day ∧
      d.day ≤ (if second then 28 else 14) ∧ rest d.weekday.fromMonday = false ∧ ¬ HolidayOn l d := by
  have key := h
  unfold halvesOpen at key
  rw [List.all_eq_true] at key
  generalize ht : l.flatMap (·.years) = t at key
  have hk := key (yearKey t y) (by
    unfold yearKey
    split
    · rename_i hmem
      exact List.mem_cons_of_mem _ (List.mem_map.2 ⟨y, List.mem_eraseDups.2 hmem, rfl⟩)
    · exact List.mem_cons_self)
  rw [List.all_eq_true] at hk
  have hk := hk m (by rw [List.mem_range'_1]; omega)
  unfold halvesOpenIn at hk
  rw [List.all_eq_true] at hk
  have hlen : 28 ≤ monthLen (isLeap y) m := by have := monthLen_ge (isLeap y) hm1 hm2; omega
  let f : Date := ⟨y, m, 1, hy1, hy2, hm1, hm2, by omega, by omega⟩
  have hk := hk f.weekday.fromMonday (by
    rw [List.mem_range]; cases f.weekday <;> simp [Weekday.fromMonday])
  rw [Bool.and_eq_true] at hk
  have aux : ∀ a b : Nat, 1 ≤ a → b ≤ 28 →
      openBetween rest (yearKey t y) ((l.filter (·.inYear (yearKey t y))).filter (·.inMonth (yearKey t y) m)) m
        f.weekday.fromMonday a b = true →
      ∃ d : Date, d.year = y ∧ d.month = m ∧ a ≤ d.day ∧ d.day ≤ b ∧ rest d.weekday.fromMonday = false ∧
        ¬ HolidayOn l d := by
    intro a b ha hb ho
    unfold openBetween at ho
    rw [List.any_eq_true] at ho
    obtain ⟨k, hk1, hk2⟩ := ho
    rw [List.mem_range'_1] at hk1
    rw [Bool.and_eq_true, Bool.not_eq_true', List.all_eq_true] at hk2
    let d : Date := ⟨y, m, k, hy1, hy2, hm1, hm2, by omega, by omega⟩
    have hwd : d.weekday.fromMonday = (f.weekday.fromMonday + k - 1) % 7 := weekday_from_first rfl rfl rfl
    refine ⟨d, rfl, rfl, hk1.1, by show k ≤ b; omega, by rw [hwd]; exact hk2.1, ?_⟩
    rintro ⟨hd, hmem, hf⟩
    have hm := falls_may (t := t) hd (List.all_eq_true.1 hw hd hmem)
      (fun z hz => by rw [← ht]; exact List.mem_flatMap.2 ⟨hd, hmem, hz⟩) hf
    have hin := may_inMonth hd hm
    have := hk2.2 hd (List.mem_filter.2 ⟨List.mem_filter.2 ⟨hmem, hin.1⟩, hin.2⟩)
    rw [← hwd] at this
    have hm' : hd.may (yearKey t y) m k d.weekday.fromMonday = true := hm
    rw [hm'] at this; cases this
  cases second
  · exact aux 1 14 (by omega) (by omega) hk.1
  · exact aux 15 28 (by omega) (by omega) hk.2

end Qlab
