import Verif.Spec.Holidays
import Verif.Lemmas.Calendars
import Verif.Lemmas.Date
import Mathlib.Tactic.ByContra

/-!
# Deciding the holiday vocabulary

`Holiday.test` decides `Holiday.Falls` from the year, month, day, weekday and day of year of a date and the
tabulated Easter Mondays; `falls_iff` proves that it does.
-/

namespace Qlab

open Spec

/-- The weekday `k` days later. -/
def Weekday.shift (w : Weekday) (k : Int) : Weekday := .ofMonday ((w.fromMonday + k) % 7).toNat

theorem weekday_shift {x e : Date} {k : Int} (h : Date.sub x e = k) : x.weekday = e.weekday.shift k := by
  unfold Weekday.shift
  rw [show x.weekday = .ofMonday ((x.numDaysFromCe - 1) % 7).toNat from rfl]
  have h1 := weekday_fromMonday e
  have h2 : x.numDaysFromCe - e.numDaysFromCe = k := h
  congr 2
  omega

theorem shift_inj {a b : Weekday} {k : Int} (h : a.shift k = b.shift k) : a = b := by
  unfold Weekday.shift at h
  have key : ∀ i, i < 7 → ∀ j, j < 7 → Weekday.ofMonday i = Weekday.ofMonday j → i = j := by decide
  have h' := key _ (by omega) _ (by omega) h
  have : a.fromMonday = b.fromMonday := by
    have ha : a.fromMonday < 7 := by cases a <;> decide
    have hb : b.fromMonday < 7 := by cases b <;> decide
    omega
  revert this; cases a <;> cases b <;> simp [Weekday.fromMonday]

/-- The day (month, day) that is `k` days after (m, d) in every year. -/
def landing (m d : Nat) (k : Int) : Nat × Nat :=
  if m = 1 ∧ d = 1 ∧ k = -1 then (12, 31)
  else if 1 ≤ (d : Int) + k then
    if (d : Int) + k ≤ monthLen false m then (m, ((d : Int) + k).toNat)
    else (m + 1, ((d : Int) + k - monthLen false m).toNat)
  else (m - 1, ((d : Int) + k + monthLen false (m - 1)).toNat)

/-- `landing` is right in leap years and in other years, within one year. -/
def landsInYear (m d : Nat) (k : Int) : Bool :=
  let p := landing m d k
  [false, true].all fun l =>
    decide (1 ≤ m ∧ m ≤ 12 ∧ 1 ≤ d ∧ d ≤ monthLen false m ∧ 1 ≤ p.1 ∧ p.1 ≤ 12 ∧ 1 ≤ p.2 ∧
      p.2 ≤ monthLen false p.1 ∧ (daysBeforeMonth l m + d : Int) + k = daysBeforeMonth l p.1 + p.2)

theorem monthLen_false_le (l : Bool) (m : Nat) : monthLen false m ≤ monthLen l m := by
  unfold monthLen; split <;> cases l <;> simp

theorem serial_same_year {x : Date} {m d : Nat} (hm : x.month = m) (hd : x.day = d) :
    x.numDaysFromCe = daysBeforeYear x.year + (daysBeforeMonth (isLeap x.year) m + d : Nat) := by
  subst hm; subst hd; rfl

theorem exists_in_year (x : Date) {m d : Nat} (h1 : 1 ≤ m) (h2 : m ≤ 12) (h3 : 1 ≤ d)
    (h4 : d ≤ monthLen false m) : ∃ e : Date, e.year = x.year ∧ e.month = m ∧ e.day = d :=
  ⟨⟨x.year, m, d, x.valid.1, x.valid.2.1, h1, h2, h3, Nat.le_trans h4 (monthLen_false_le _ _)⟩, rfl, rfl, rfl⟩

theorem moved_iff {m d : Nat} {k : Int} (h : landsInYear m d k = true) (ws : List Weekday) (x : Date) :
    (Holiday.moved m d ws k).Falls x ↔
      x.month = (landing m d k).1 ∧ x.day = (landing m d k).2 ∧ x.weekday ∈ ws.map (·.shift k) := by
  have hl : ∀ l : Bool, 1 ≤ m ∧ m ≤ 12 ∧ 1 ≤ d ∧ d ≤ monthLen false m ∧ 1 ≤ (landing m d k).1 ∧
      (landing m d k).1 ≤ 12 ∧ 1 ≤ (landing m d k).2 ∧ (landing m d k).2 ≤ monthLen false (landing m d k).1 ∧
      (daysBeforeMonth l m + d : Int) + k = daysBeforeMonth l (landing m d k).1 + (landing m d k).2 := by
    unfold landsInYear at h
    rw [List.all_eq_true] at h
    intro l
    have := h l (by cases l <;> simp)
    simpa using this
  generalize landing m d k = p at hl
  obtain ⟨m', d'⟩ := p
  simp only at hl ⊢
  constructor
  · rintro ⟨e, hm, hd, hw, hs⟩
    obtain ⟨a1, a2, a3, a4, a5, a6, a7, a8, a9⟩ := hl (isLeap e.year)
    obtain ⟨t, ty, tm, td⟩ := exists_in_year e a5 a6 a7 a8
    have s1 := serial_same_year hm hd
    have s2 := serial_same_year tm td
    have hs' : x.numDaysFromCe - e.numDaysFromCe = k := hs
    rw [ty] at s2
    have : x = t := NaiveDate.serial_inj (by push_cast at s1 s2; omega)
    subst this
    refine ⟨tm, td, ?_⟩
    rw [List.mem_map]
    exact ⟨_, hw, (weekday_shift hs).symm⟩
  · rintro ⟨hm, hd, hw⟩
    obtain ⟨a1, a2, a3, a4, a5, a6, a7, a8, a9⟩ := hl (isLeap x.year)
    obtain ⟨e, ey, em, ed⟩ := exists_in_year x a1 a2 a3 a4
    have s1 := serial_same_year em ed
    have s2 := serial_same_year hm hd
    rw [ey] at s1
    have hs : Date.sub x e = k := by
      show x.numDaysFromCe - e.numDaysFromCe = k
      push_cast at s1 s2; omega
    refine ⟨e, em, ed, ?_, hs⟩
    rw [List.mem_map] at hw
    obtain ⟨w, hw1, hw2⟩ := hw
    rw [weekday_shift hs] at hw2
    rwa [← shift_inj hw2]

/-- The day before 1 January. -/
theorem moved_eve_iff (ws : List Weekday) (x : Date) (hx : x.year < maxYear ∨ x.weekday ∉ ws.map (·.shift (-1))) :
    (Holiday.moved 1 1 ws (-1)).Falls x ↔
      x.month = 12 ∧ x.day = 31 ∧ x.weekday ∈ ws.map (·.shift (-1)) := by
  constructor
  · rintro ⟨e, hm, hd, hw, hs⟩
    refine ⟨?_, ?_, by rw [List.mem_map]; exact ⟨_, hw, (weekday_shift hs).symm⟩⟩ <;>
    · have hs' : x.numDaysFromCe - e.numDaysFromCe = -1 := hs
      have hp : NaiveDate.predOpt e = some x := NaiveDate.predOpt_eq_some.2 (by omega)
      unfold NaiveDate.predOpt at hp
      rw [hm, hd] at hp
      simp only [Nat.lt_irrefl, if_false] at hp
      have := fromYmdOpt_eq_some.1 hp
      simp_all
  · rintro ⟨hm, hd, hw⟩
    have hy : x.year < maxYear := by
      rcases hx with h | h
      · exact h
      · exact absurd hw h
    have hv : IsValid (x.year + 1) 1 1 := by
      have := x.valid.1
      refine ⟨by omega, by omega, by omega, by omega, by omega, ?_⟩
      simp [monthLen]
    have hs : NaiveDate.succOpt x = some ⟨x.year + 1, 1, 1, hv⟩ := by
      unfold NaiveDate.succOpt
      rw [hm, hd]
      simp only [monthLen, Nat.lt_irrefl, if_false]
      exact fromYmdOpt_of_valid _
    have hs' := NaiveDate.succOpt_eq_some.1 hs
    have hk : Date.sub x ⟨x.year + 1, 1, 1, hv⟩ = -1 := by
      show x.numDaysFromCe - NaiveDate.numDaysFromCe ⟨x.year + 1, 1, 1, hv⟩ = -1
      omega
    refine ⟨⟨x.year + 1, 1, 1, hv⟩, rfl, rfl, ?_, hk⟩
    rw [List.mem_map] at hw
    obtain ⟨w, hw1, hw2⟩ := hw
    rw [weekday_shift hk] at hw2
    rwa [← shift_inj hw2]

theorem weekday_eq_iff (d e : Date) : d.weekday = e.weekday ↔ d.numDaysFromCe % 7 = e.numDaysFromCe % 7 := by
  constructor
  · intro h
    have h1 := weekday_fromMonday d
    have h2 := weekday_fromMonday e
    rw [h] at h1
    omega
  · intro h
    show Weekday.ofMonday _ = Weekday.ofMonday _
    congr 2; omega

/-- The first `w` on or after a date is the one within the next six days. -/
theorem firstWeekday_iff (w : Weekday) (f x : Date) :
    IsFirstOnOrAfter (fun z => z.weekday = w) f x ↔ x.weekday = w ∧ 0 ≤ Date.sub x f ∧ Date.sub x f ≤ 6 := by
  constructor
  · rintro ⟨h1, h2, h3⟩
    rw [NaiveDate.le_iff_serial] at h1
    refine ⟨h2, ?_, ?_⟩
    · show 0 ≤ x.numDaysFromCe - f.numDaysFromCe; omega
    · show x.numDaysFromCe - f.numDaysFromCe ≤ 6
      by_contra hc
      have b1 := NaiveDate.serial_ge f
      have b2 := NaiveDate.serial_le x
      obtain ⟨z, _, hz⟩ := ofDays_isSome (x.numDaysFromCe - 7) (by omega) (by omega)
      refine h3 z ((NaiveDate.le_iff_serial _ _).2 (by omega)) ((NaiveDate.lt_iff_serial _ _).2 (by omega)) ?_
      show z.weekday = w
      rw [← h2, weekday_eq_iff]; omega
  · rintro ⟨h1, h2, h3⟩
    have h2' : 0 ≤ x.numDaysFromCe - f.numDaysFromCe := h2
    have h3' : x.numDaysFromCe - f.numDaysFromCe ≤ 6 := h3
    refine ⟨(NaiveDate.le_iff_serial _ _).2 (by omega), h1, ?_⟩
    intro z hz1 hz2 hz3
    rw [NaiveDate.le_iff_serial] at hz1
    rw [NaiveDate.lt_iff_serial] at hz2
    have := (weekday_eq_iff z x).1 (hz3.trans h1.symm)
    omega

theorem firstFrom_iff {m d : Nat} (h1 : 1 ≤ m) (h2 : m ≤ 12) (h3 : 1 ≤ d) (h4 : d + 6 ≤ monthLen false m)
    (w : Weekday) (x : Date) : (Holiday.firstFrom w m d).Falls x ↔
      x.month = m ∧ x.weekday = w ∧ d ≤ x.day ∧ x.day ≤ d + 6 := by
  constructor
  · rintro ⟨f, hm, hd, hf⟩
    rw [firstWeekday_iff] at hf
    obtain ⟨hw, a, b⟩ := hf
    have a' : 0 ≤ x.numDaysFromCe - f.numDaysFromCe := a
    have b' : x.numDaysFromCe - f.numDaysFromCe ≤ 6 := b
    obtain ⟨t, ty, tm, td⟩ := exists_in_year f (d := d + (x.numDaysFromCe - f.numDaysFromCe).toNat) h1 h2
      (by omega) (by omega)
    have s1 := serial_same_year hm hd
    have s2 := serial_same_year tm td
    rw [ty] at s2
    have : x = t := NaiveDate.serial_inj (by push_cast at s1 s2; omega)
    subst this
    exact ⟨tm, hw, by omega, by omega⟩
  · rintro ⟨hm, hw, a, b⟩
    obtain ⟨f, fy, fm, fd⟩ := exists_in_year x h1 h2 h3 (d := d) (by omega)
    refine ⟨f, fm, fd, (firstWeekday_iff _ _ _).2 ⟨hw, ?_⟩⟩
    have s1 := serial_same_year fm fd
    have s2 := serial_same_year hm rfl
    rw [fy] at s1
    show 0 ≤ x.numDaysFromCe - f.numDaysFromCe ∧ x.numDaysFromCe - f.numDaysFromCe ≤ 6
    push_cast at s1 s2; omega

theorem nth_iff {n : Nat} (hn : 1 ≤ n) (w : Weekday) (m : Nat) (x : Date) :
    (Holiday.nth n w m).Falls x ↔ x.month = m ∧ x.weekday = w ∧ 7 * (n - 1) < x.day ∧ x.day ≤ 7 * n := by
  have aux : ∀ f : Date, IsFirstOfMonthOf x f → x.numDaysFromCe - f.numDaysFromCe = (x.day : Int) - 1 := by
    rintro f ⟨⟨fy, fm⟩, fd⟩
    have s1 := serial_same_year fm fd
    have s2 := serial_same_year (x := x) rfl rfl
    rw [fy] at s1
    push_cast at s1 s2; omega
  constructor
  · rintro ⟨hm, f, e, hf, he, hs⟩
    have hf' := aux f hf
    rw [firstWeekday_iff] at he
    obtain ⟨hw, a, b⟩ := he
    have a' : 0 ≤ e.numDaysFromCe - f.numDaysFromCe := a
    have b' : e.numDaysFromCe - f.numDaysFromCe ≤ 6 := b
    have hs' : x.numDaysFromCe - e.numDaysFromCe = 7 * ((n : Int) - 1) := hs
    refine ⟨hm, ?_, by omega, by omega⟩
    rw [← hw, weekday_eq_iff]; omega
  · rintro ⟨hm, hw, a, b⟩
    obtain ⟨f, fy, fm, fd⟩ := exists_in_year x (NaiveDate.month_pos x) (NaiveDate.month_le x) (d := 1) (by omega)
      (by have := monthLen_ge false (NaiveDate.month_pos x) (NaiveDate.month_le x); omega)
    have hf : IsFirstOfMonthOf x f := ⟨⟨fy, fm⟩, fd⟩
    have hf' := aux f hf
    have b1 := NaiveDate.serial_ge f
    have b2 := NaiveDate.serial_le x
    obtain ⟨e, _, hz⟩ := ofDays_isSome (x.numDaysFromCe - 7 * ((n : Int) - 1)) (by omega) (by omega)
    refine ⟨hm, f, e, hf, (firstWeekday_iff _ _ _).2 ⟨?_, ?_, ?_⟩, ?_⟩
    · rw [← hw, weekday_eq_iff]; omega
    · show 0 ≤ e.numDaysFromCe - f.numDaysFromCe; omega
    · show e.numDaysFromCe - f.numDaysFromCe ≤ 6; omega
    · show x.numDaysFromCe - e.numDaysFromCe = _; omega

theorem last_iff {m : Nat} (hm : m ≠ 2) (w : Weekday) (x : Date) :
    (Holiday.last w m).Falls x ↔ x.month = m ∧ x.weekday = w ∧ monthLen false m < x.day + 7 := by
  have hlen : monthLen (isLeap x.year) m = monthLen false m := by
    unfold monthLen; split <;> first | rfl | contradiction
  constructor
  · rintro ⟨h1, h2, h3⟩
    refine ⟨h1, h2, ?_⟩
    by_contra hc
    obtain ⟨t, ty, tm, td⟩ := exists_in_year x (m := m) (d := x.day + 7) (h1 ▸ NaiveDate.month_pos x)
      (h1 ▸ NaiveDate.month_le x) (by omega) (by omega)
    have s1 := serial_same_year h1 rfl
    have s2 := serial_same_year tm td
    rw [ty] at s2
    have hle := h3 t ⟨ty, tm.trans h1.symm⟩ (by rw [← h2, weekday_eq_iff]; push_cast at s1 s2; omega)
    rw [NaiveDate.le_iff_serial] at hle
    push_cast at s1 s2; omega
  · rintro ⟨h1, h2, h3⟩
    refine ⟨h1, h2, ?_⟩
    rintro e ⟨ey, em⟩ ew
    rw [NaiveDate.le_iff_serial]
    have s1 := serial_same_year h1 rfl
    have s2 := serial_same_year (em.trans h1) rfl
    rw [ey] at s2
    have := (weekday_eq_iff e x).1 (ew.trans h2.symm)
    have hd := NaiveDate.day_le e
    rw [ey, em, h1, hlen] at hd
    push_cast at s1 s2; omega

/-- Decides `Holiday.Falls` from the components of a date: year, month, day, weekday, day of the year, and the
days of the year of the two Easter Mondays. -/
def Spec.Holiday.test (y : Int) (m d : Nat) (w : Weekday) (o em om : Int) : Holiday → Prop
  | .on m' d' => m = m' ∧ d = d'
  | .moved m' d' ws k => m = (landing m' d' k).1 ∧ d = (landing m' d' k).2 ∧ w ∈ ws.map (·.shift k)
  | .nth n w' m' => m = m' ∧ w = w' ∧ 7 * (n - 1) < d ∧ d ≤ 7 * n
  | .last w' m' => m = m' ∧ w = w' ∧ monthLen false m' < d + 7
  | .firstFrom w' m' d' => m = m' ∧ w = w' ∧ d' ≤ d ∧ d ≤ d' + 6
  | .easter k => o = em - 1 + k
  | .orthodoxEaster k => o = om - 1 + k
  | .span m' a b => m = m' ∧ a ≤ d ∧ d ≤ b
  | .dates y' l => y = y' ∧ (m, d) ∈ l
  | .weekly w' y' m' d' => w = w' ∧ y = y' ∧ (m' < m ∨ (m = m' ∧ d' ≤ d))
  | .since y' h => y' ≤ y ∧ h.test y m d w o em om
  | .till y' h => y ≤ y' ∧ h.test y m d w o em om
  | .only ys h => y ∈ ys ∧ h.test y m d w o em om
  | .except ys h => y ∉ ys ∧ h.test y m d w o em om

/-- The description is one `Holiday.test` understands (a condition on the numbers in it). -/
def Spec.Holiday.wf : Holiday → Bool
  | .moved m d ws k => landsInYear m d k || decide (m = 1 ∧ d = 1 ∧ k = -1 ∧ Weekday.Mon ∉ ws.map (·.shift k))
  | .nth n _ _ => decide (1 ≤ n)
  | .last _ m => decide (m ≠ 2)
  | .firstFrom _ m d => decide (1 ≤ m ∧ m ≤ 12 ∧ 1 ≤ d ∧ d + 6 ≤ monthLen false m)
  | .easter k | .orthodoxEaster k => decide (-80 ≤ k ∧ k ≤ 230)
  | .since _ h | .till _ h | .only _ h | .except _ h => h.wf
  | _ => true

/-- The description mentions (Orthodox) Easter. -/
def Spec.Holiday.movable : Holiday → Bool
  | .easter _ | .orthodoxEaster _ => true
  | .since _ h | .till _ h | .only _ h | .except _ h => h.movable
  | _ => false

theorem max_weekday {x : Date} (h : ¬ x.year < maxYear) (hm : x.month = 12) (hd : x.day = 31) :
    x.weekday = .Mon := by
  have : x = NaiveDate.MAX := by
    have := NaiveDate.year_le x
    unfold maxYear at h
    exact NaiveDate.ext (by show x.year = 262142; omega) hm hd
  subst this; decide

theorem falls_iff {x : Date} {em om : Int} (h : Holiday) (hw : h.wf = true)
    (he : h.movable = true → ∃ a b : Nat, easterMonday x.year = .ok a ∧ orthodoxEasterMonday x.year = .ok b ∧
      em = a ∧ om = b ∧ x.year ≤ 2199) :
    h.Falls x ↔ h.test x.year x.month x.day x.weekday x.ordinal em om := by
  induction h with
  | on m d => rfl
  | moved m d ws k =>
    simp only [Holiday.wf, Bool.or_eq_true, decide_eq_true_eq] at hw
    rcases hw with hw | ⟨h1, h2, h3, h4⟩
    · exact moved_iff hw ws x
    · subst h1; subst h2; subst h3
      by_cases hx : x.year < maxYear
      · exact moved_eve_iff ws x (.inl hx)
      · by_cases hmd : x.month = 12 ∧ x.day = 31
        · refine moved_eve_iff ws x (.inr ?_)
          rw [max_weekday hx hmd.1 hmd.2]; exact h4
        · have hn : ¬ (Holiday.moved 1 1 ws (-1)).test x.year x.month x.day x.weekday x.ordinal em om :=
            fun h => hmd ⟨h.1, h.2.1⟩
          refine iff_of_false ?_ hn
          rintro ⟨e, hm, hd, _, hs⟩
          have hs' : x.numDaysFromCe - e.numDaysFromCe = -1 := hs
          have hp : NaiveDate.predOpt e = some x := NaiveDate.predOpt_eq_some.2 (by omega)
          unfold NaiveDate.predOpt at hp
          rw [hm, hd] at hp
          simp only [Nat.lt_irrefl, if_false] at hp
          have := fromYmdOpt_eq_some.1 hp
          exact hmd (by simp_all)
  | nth n w m => exact nth_iff (by simpa [Holiday.wf] using hw) w m x
  | last w m => exact last_iff (by simpa [Holiday.wf] using hw) w x
  | firstFrom w m d =>
    have hw' : 1 ≤ m ∧ m ≤ 12 ∧ 1 ≤ d ∧ d + 6 ≤ monthLen false m := by simpa [Holiday.wf] using hw
    exact firstFrom_iff hw'.1 hw'.2.1 hw'.2.2.1 hw'.2.2.2 w x
  | easter k =>
    obtain ⟨a, b, ha, hb, rfl, rfl, hy⟩ := he rfl
    have hw' : -80 ≤ k ∧ k ≤ 230 := by simpa [Holiday.wf] using hw
    exact (easter_offset ha hy rfl hw'.1 (by omega)).symm
  | orthodoxEaster k =>
    obtain ⟨a, b, ha, hb, rfl, rfl, hy⟩ := he rfl
    have hw' : -80 ≤ k ∧ k ≤ 230 := by simpa [Holiday.wf] using hw
    exact (orthodox_offset hb hy rfl hw'.1 hw'.2).symm
  | span m a b => rfl
  | dates y l => rfl
  | weekly w y m d => rfl
  | since y h ih => exact and_congr_right fun _ => ih hw he
  | till y h ih => exact and_congr_right fun _ => ih hw he
  | only ys h ih => exact and_congr_right fun _ => ih hw he
  | except ys h ih => exact and_congr_right fun _ => ih hw he

/-- `HolidayOn` decided by `Holiday.test`, for lists that mention Easter. -/
theorem holidayOn_iff {l : List Holiday} (hl : l.all Holiday.wf = true) {x : Date} {a b : Nat}
    (ha : easterMonday x.year = .ok a) (hb : orthodoxEasterMonday x.year = .ok b) (hy : x.year ≤ 2199) :
    HolidayOn l x ↔ ∃ h ∈ l, Holiday.test x.year x.month x.day x.weekday x.ordinal a b h := by
  rw [List.all_eq_true] at hl
  exact exists_congr fun h => and_congr_right fun hm => falls_iff h (hl h hm) fun _ => ⟨a, b, ha, hb, rfl, rfl, hy⟩

/-- `HolidayOn` decided by `Holiday.test`, for lists that do not mention Easter. -/
theorem holidayOn_iff' {l : List Holiday} (hl : l.all Holiday.wf = true)
    (hm : (l.all fun h => !h.movable) = true) {x : Date} :
    HolidayOn l x ↔ ∃ h ∈ l, Holiday.test x.year x.month x.day x.weekday x.ordinal 0 0 h := by
  rw [List.all_eq_true] at hl hm
  refine exists_congr fun h => and_congr_right fun hh => falls_iff h (hl h hh) fun hc => ?_
  have := hm h hh
  rw [hc] at this; cases this

/-- The Wednesdays from ordinal 163 on in 1968 are those from 12 June on (11 June was a Tuesday). -/
theorem nyse_four_day_week (d : Date) :
    (d.year = 1968 ∧ 163 ≤ d.ordinal ∧ d.weekday = .Wed) ↔
      (d.weekday = .Wed ∧ d.year = 1968 ∧ (6 < d.month ∨ (d.month = 6 ∧ 12 ≤ d.day))) := by
  constructor
  · rintro ⟨hy, ho, hw⟩
    refine ⟨hw, hy, ?_⟩
    have hne : ¬ (d.month = 6 ∧ d.day = 11) := by
      rintro ⟨hm, hd⟩
      have : d = ⟨1968, 6, 11, by decide⟩ := NaiveDate.ext hy hm hd
      rw [this] at hw
      exact absurd hw (by decide)
    have ho' : d.ordinal = daysBeforeMonth (isLeap d.year) d.month + d.day := rfl
    have hl : isLeap d.year = true := by rw [hy]; decide
    have hd := NaiveDate.day_le d
    rw [hl] at ho' hd
    rcases month_cases (NaiveDate.month_pos d) (NaiveDate.month_le d) with h | h | h | h | h | h | h | h | h | h | h | h <;>
      rw [h] at ho' hd hne ⊢ <;> simp [daysBeforeMonth, monthLen] at ho' hd hne ⊢ <;> omega
  · rintro ⟨hw, hy, hx⟩
    refine ⟨hy, ?_, hw⟩
    have ho' : d.ordinal = daysBeforeMonth (isLeap d.year) d.month + d.day := rfl
    have hl : isLeap d.year = true := by rw [hy]; decide
    rw [hl] at ho'
    rcases month_cases (NaiveDate.month_pos d) (NaiveDate.month_le d) with h | h | h | h | h | h | h | h | h | h | h | h <;>
      rw [h] at ho' hx <;> simp [daysBeforeMonth] at ho' hx <;> omega

/-- The years of the election days of the New York Stock Exchange. -/
theorem election_years {y : Int} (h : 1901 ≤ y) :
    (y ≤ 1968 ∨ (y ≤ 1980 ∧ Int.tmod y 4 = 0)) ↔ (y ≤ 1968 ∨ y = 1972 ∨ y = 1976 ∨ y = 1980) := by
  rw [Int.tmod_eq_emod_of_nonneg (by omega)]; omega

theorem weekday_of_easter {d : Date} {k : Int} (h : DaysFromEaster d k) : d.weekday = Weekday.Sun.shift k := by
  obtain ⟨s, hs, hd⟩ := h
  rw [← hs.1]
  exact weekday_shift (by unfold Date.serialDate at hd; show d.numDaysFromCe - s.numDaysFromCe = k; omega)

theorem electionDay_iff (d : Date) :
    IsElectionDay d ↔ d.month = 11 ∧ d.weekday = .Tue ∧ 2 ≤ d.day ∧ d.day ≤ 8 := by
  constructor
  · rintro ⟨e, he, hs⟩
    rw [nth_iff (by omega)] at he
    obtain ⟨hm, hw, a, b⟩ := he
    have hlen : monthLen (isLeap e.year) 11 = 30 := rfl
    obtain ⟨t, ty, tm, td⟩ := exists_in_year e (m := 11) (d := e.day + 1) (by omega) (by omega) (by omega)
      (by show _ ≤ 30; omega)
    have s1 := serial_same_year hm rfl
    have s2 := serial_same_year tm td
    rw [ty] at s2
    have hs' : d.numDaysFromCe - e.numDaysFromCe = 1 := hs
    have : d = t := NaiveDate.serial_inj (by push_cast at s1 s2; omega)
    have hwd := weekday_shift hs
    rw [hw] at hwd
    subst this
    exact ⟨tm, hwd, by omega, by omega⟩
  · rintro ⟨hm, hw, a, b⟩
    obtain ⟨t, ty, tm, td⟩ := exists_in_year d (m := 11) (d := d.day - 1) (by omega) (by omega) (by omega)
      (by show _ ≤ 30; omega)
    have s1 := serial_same_year hm rfl
    have s2 := serial_same_year tm td
    rw [ty] at s2
    have hs : d.numDaysFromCe - t.numDaysFromCe = 1 := by push_cast at s1 s2; omega
    refine ⟨t, ?_, hs⟩
    rw [nth_iff (by omega)]
    refine ⟨tm, ?_, by omega, by omega⟩
    have hwd := weekday_shift (x := d) (e := t) hs
    rw [hw] at hwd
    exact shift_inj (k := 1) (hwd.symm.trans (by rfl))

end Qlab
