import Verif.Model.Rolling
import Verif.Spec.Dates
import Verif.Lemmas.Date

/-! # Helper lemmas for rolling -/

namespace Qlab

open Spec

theorem date_le_refl (a : Date) : a ≤ a := (NaiveDate.le_iff_serial a a).2 (Int.le_refl _)

theorem date_le_trans {a b c : Date} (h1 : a ≤ b) (h2 : b ≤ c) : a ≤ c := by
  rw [NaiveDate.le_iff_serial] at *; omega

theorem date_le_antisymm {a b : Date} (h1 : a ≤ b) (h2 : b ≤ a) : a = b := by
  rw [NaiveDate.le_iff_serial] at *; exact NaiveDate.serial_inj (by omega)

theorem date_lt_or_ge (a b : Date) : a < b ∨ b ≤ a := by
  rw [NaiveDate.le_iff_serial, NaiveDate.lt_iff_serial]; omega

theorem date_le_of_lt {a b : Date} (h : a < b) : a ≤ b := by
  rw [NaiveDate.le_iff_serial]; rw [NaiveDate.lt_iff_serial] at h; omega

theorem date_lt_irrefl (a : Date) : ¬ a < a := by rw [NaiveDate.lt_iff_serial]; omega

theorem date_eq_or_lt {a b : Date} (h : a ≤ b) : a = b ∨ a < b := by
  rw [NaiveDate.le_iff_serial] at h; rw [← NaiveDate.serial_eq_iff, NaiveDate.lt_iff_serial]; omega

theorem open_not_closed {c : Calendar} {d : Date} (h1 : Open c d) (h2 : Closed c d) : False := by
  unfold Open at h1; unfold Closed at h2; rw [h1] at h2; cases h2

/-- Either the loop meets an open day, or a crash, or only closed days until the end of the range. -/
theorem followLoop_spec (c : Calendar) (d : Date) :
    (∃ r, Date.followLoop c d = .ok (some r) ∧ IsFollowing c d r) ∨
    (Date.followLoop c d = .ok none ∧ ∀ x, d ≤ x → Closed c x) ∨
    (Date.followLoop c d = .panic ∧ ∃ r, d ≤ r ∧ Crashes c r ∧ ∀ x, d ≤ x → x < r → Closed c x) := by
  induction hn : (95745399 - d.numDaysFromCe).toNat using Nat.strongRecOn generalizing d with
  | _ n ih =>
  rw [Date.followLoop]
  unfold Calendar.dateIsBusinessDay
  split
  · rename_i h
    exact Or.inr (Or.inr ⟨rfl, d, date_le_refl d, h, fun x h1 h2 => by
      rw [← NaiveDate.not_lt_iff] at h1; exact absurd h2 h1⟩)
  · rename_i h
    exact Or.inl ⟨d, rfl, date_le_refl d, h, fun x h1 h2 => by
      rw [← NaiveDate.not_lt_iff] at h1; exact absurd h2 h1⟩
  · rename_i h
    have ext : ∀ d' : Date, d.succOpt = some d' → ∀ x : Date, d ≤ x → x = d ∨ d' ≤ x := by
      intro d' hs x hx
      have := NaiveDate.succOpt_eq_some.1 hs
      rw [NaiveDate.le_iff_serial] at hx
      rw [NaiveDate.le_iff_serial, ← NaiveDate.serial_eq_iff]; omega
    split
    · rename_i hs
      refine Or.inr (Or.inl ⟨rfl, fun x hx => ?_⟩)
      have hmax := NaiveDate.succOpt_eq_none.1 hs
      have : x = d := date_le_antisymm (hmax ▸ x.le_MAX) hx
      rw [this]; exact h
    · rename_i d' hs
      have hser := NaiveDate.succOpt_eq_some.1 hs
      have hle : d ≤ d' := by rw [NaiveDate.le_iff_serial]; omega
      have hlt := d'.serial_le
      rcases ih _ (by omega) d' rfl with ⟨r, h1, h2, h3, h4⟩ | ⟨h1, h2⟩ | ⟨h1, r, h2, h3, h4⟩
      · refine Or.inl ⟨r, h1, date_le_trans hle h2, h3, fun x hx hxr => ?_⟩
        rcases ext d' hs x hx with rfl | hx'
        · exact h
        · exact h4 x hx' hxr
      · refine Or.inr (Or.inl ⟨h1, fun x hx => ?_⟩)
        rcases ext d' hs x hx with rfl | hx'
        · exact h
        · exact h2 x hx'
      · refine Or.inr (Or.inr ⟨h1, r, date_le_trans hle h2, h3, fun x hx hxr => ?_⟩)
        rcases ext d' hs x hx with rfl | hx'
        · exact h
        · exact h4 x hx' hxr

theorem precedeLoop_spec (c : Calendar) (d : Date) :
    (∃ r, Date.precedeLoop c d = .ok (some r) ∧ IsPreceding c d r) ∨
    (Date.precedeLoop c d = .ok none ∧ ∀ x, x ≤ d → Closed c x) ∨
    (Date.precedeLoop c d = .panic ∧ ∃ r, r ≤ d ∧ Crashes c r ∧ ∀ x, r < x → x ≤ d → Closed c x) := by
  induction hn : (d.numDaysFromCe + 95746129).toNat using Nat.strongRecOn generalizing d with
  | _ n ih =>
  rw [Date.precedeLoop]
  unfold Calendar.dateIsBusinessDay
  split
  · rename_i h
    exact Or.inr (Or.inr ⟨rfl, d, date_le_refl d, h, fun x h1 h2 => by
      rw [← NaiveDate.not_lt_iff] at h2; exact absurd h1 h2⟩)
  · rename_i h
    exact Or.inl ⟨d, rfl, date_le_refl d, h, fun x h1 h2 => by
      rw [← NaiveDate.not_lt_iff] at h2; exact absurd h1 h2⟩
  · rename_i h
    have ext : ∀ d' : Date, d.predOpt = some d' → ∀ x : Date, x ≤ d → x = d ∨ x ≤ d' := by
      intro d' hs x hx
      have := NaiveDate.predOpt_eq_some.1 hs
      rw [NaiveDate.le_iff_serial] at hx
      rw [NaiveDate.le_iff_serial, ← NaiveDate.serial_eq_iff]; omega
    split
    · rename_i hs
      refine Or.inr (Or.inl ⟨rfl, fun x hx => ?_⟩)
      have hmin := NaiveDate.predOpt_eq_none.1 hs
      have : x = d := date_le_antisymm hx (hmin ▸ x.MIN_le)
      rw [this]; exact h
    · rename_i d' hs
      have hser := NaiveDate.predOpt_eq_some.1 hs
      have hle : d' ≤ d := by rw [NaiveDate.le_iff_serial]; omega
      have hlt := d'.serial_ge
      rcases ih _ (by omega) d' rfl with ⟨r, h1, h2, h3, h4⟩ | ⟨h1, h2⟩ | ⟨h1, r, h2, h3, h4⟩
      · refine Or.inl ⟨r, h1, date_le_trans h2 hle, h3, fun x hx hxr => ?_⟩
        rcases ext d' hs x hxr with rfl | hx'
        · exact h
        · exact h4 x hx hx'
      · refine Or.inr (Or.inl ⟨h1, fun x hx => ?_⟩)
        rcases ext d' hs x hx with rfl | hx'
        · exact h
        · exact h2 x hx'
      · refine Or.inr (Or.inr ⟨h1, r, date_le_trans h2 hle, h3, fun x hx hxr => ?_⟩)
        rcases ext d' hs x hxr with rfl | hx'
        · exact h
        · exact h4 x hx hx'

theorem isFollowing_unique {c : Calendar} {d r s : Date} (hr : IsFollowing c d r)
    (hs : IsFollowing c d s) : r = s := by
  obtain ⟨r1, r2, r3⟩ := hr
  obtain ⟨s1, s2, s3⟩ := hs
  rcases NaiveDate.trichotomy r s with h | h | h
  · exact (open_not_closed r2 (s3 r r1 h)).elim
  · exact h
  · exact (open_not_closed s2 (r3 s s1 h)).elim

theorem isPreceding_unique {c : Calendar} {d r s : Date} (hr : IsPreceding c d r)
    (hs : IsPreceding c d s) : r = s := by
  obtain ⟨r1, r2, r3⟩ := hr
  obtain ⟨s1, s2, s3⟩ := hs
  rcases NaiveDate.trichotomy r s with h | h | h
  · exact (open_not_closed s2 (r3 s h s1)).elim
  · exact h
  · exact (open_not_closed r2 (s3 r h r1)).elim

theorem followLoop_eq_some {c : Calendar} {d r : Date} :
    Date.followLoop c d = .ok (some r) ↔ IsFollowing c d r := by
  rcases followLoop_spec c d with ⟨s, h1, h2⟩ | ⟨h1, h2⟩ | ⟨h1, s, h2, h3, h4⟩
  · rw [h1]; simp only [Rust.ok.injEq, Option.some.injEq]
    exact ⟨fun h => h ▸ h2, fun h => isFollowing_unique h2 h⟩
  · rw [h1]; simp only [Rust.ok.injEq, reduceCtorEq, false_iff]
    intro h; exact open_not_closed h.2.1 (h2 r h.1)
  · rw [h1]; simp only [reduceCtorEq, false_iff]
    rintro ⟨g1, g2, g3⟩
    rcases NaiveDate.trichotomy r s with h | h | h
    · exact open_not_closed g2 (h4 r g1 h)
    · unfold Open at g2; unfold Crashes at h3; rw [h, h3] at g2; cases g2
    · have := g3 s h2 h; unfold Closed at this; unfold Crashes at h3; rw [h3] at this; cases this

theorem precedeLoop_eq_some {c : Calendar} {d r : Date} :
    Date.precedeLoop c d = .ok (some r) ↔ IsPreceding c d r := by
  rcases precedeLoop_spec c d with ⟨s, h1, h2⟩ | ⟨h1, h2⟩ | ⟨h1, s, h2, h3, h4⟩
  · rw [h1]; simp only [Rust.ok.injEq, Option.some.injEq]
    exact ⟨fun h => h ▸ h2, fun h => isPreceding_unique h2 h⟩
  · rw [h1]; simp only [Rust.ok.injEq, reduceCtorEq, false_iff]
    intro h; exact open_not_closed h.2.1 (h2 r h.1)
  · rw [h1]; simp only [reduceCtorEq, false_iff]
    rintro ⟨g1, g2, g3⟩
    rcases NaiveDate.trichotomy r s with h | h | h
    · have := g3 s h h2; unfold Closed at this; unfold Crashes at h3; rw [h3] at this; cases this
    · unfold Open at g2; unfold Crashes at h3; rw [h, h3] at g2; cases g2
    · exact open_not_closed g2 (h4 r h g1)

theorem followLoop_eq_none {c : Calendar} {d : Date} :
    Date.followLoop c d = .ok none ↔ ∀ x, d ≤ x → Closed c x := by
  rcases followLoop_spec c d with ⟨s, h1, h2⟩ | ⟨h1, h2⟩ | ⟨h1, s, h2, h3, h4⟩
  · rw [h1]; simp only [Rust.ok.injEq, reduceCtorEq, false_iff]
    intro h; exact open_not_closed h2.2.1 (h s h2.1)
  · rw [h1]; simp only [true_iff]; exact h2
  · rw [h1]; simp only [reduceCtorEq, false_iff]
    intro h; have := h s h2; unfold Closed at this; unfold Crashes at h3; rw [h3] at this; cases this

theorem precedeLoop_eq_none {c : Calendar} {d : Date} :
    Date.precedeLoop c d = .ok none ↔ ∀ x, x ≤ d → Closed c x := by
  rcases precedeLoop_spec c d with ⟨s, h1, h2⟩ | ⟨h1, h2⟩ | ⟨h1, s, h2, h3, h4⟩
  · rw [h1]; simp only [Rust.ok.injEq, reduceCtorEq, false_iff]
    intro h; exact open_not_closed h2.2.1 (h s h2.1)
  · rw [h1]; simp only [true_iff]; exact h2
  · rw [h1]; simp only [reduceCtorEq, false_iff]
    intro h; have := h s h2; unfold Closed at this; unfold Crashes at h3; rw [h3] at this; cases this

theorem followLoop_eq_panic {c : Calendar} {d : Date} :
    Date.followLoop c d = .panic ↔ ∃ r, d ≤ r ∧ Crashes c r ∧ ∀ x, d ≤ x → x < r → Closed c x := by
  constructor
  · intro h
    rcases followLoop_spec c d with ⟨s, h1, h2⟩ | ⟨h1, h2⟩ | ⟨h1, h2⟩
    · rw [h1] at h; cases h
    · rw [h1] at h; cases h
    · exact h2
  · rintro ⟨s, h2, h3, h4⟩
    rcases followLoop_spec c d with ⟨r, h1, g1, g2, g3⟩ | ⟨h1, g⟩ | ⟨h1, _⟩
    · exfalso
      rcases NaiveDate.trichotomy r s with h | h | h
      · exact open_not_closed g2 (h4 r g1 h)
      · unfold Open at g2; unfold Crashes at h3; rw [h, h3] at g2; cases g2
      · have := g3 s h2 h; unfold Closed at this; unfold Crashes at h3; rw [h3] at this; cases this
    · exfalso
      have := g s h2; unfold Closed at this; unfold Crashes at h3; rw [h3] at this; cases this
    · exact h1

theorem precedeLoop_eq_panic {c : Calendar} {d : Date} :
    Date.precedeLoop c d = .panic ↔ ∃ r, r ≤ d ∧ Crashes c r ∧ ∀ x, r < x → x ≤ d → Closed c x := by
  constructor
  · intro h
    rcases precedeLoop_spec c d with ⟨s, h1, h2⟩ | ⟨h1, h2⟩ | ⟨h1, h2⟩
    · rw [h1] at h; cases h
    · rw [h1] at h; cases h
    · exact h2
  · rintro ⟨s, h2, h3, h4⟩
    rcases precedeLoop_spec c d with ⟨r, h1, g1, g2, g3⟩ | ⟨h1, g⟩ | ⟨h1, _⟩
    · exfalso
      rcases NaiveDate.trichotomy r s with h | h | h
      · have := g3 s h h2; unfold Closed at this; unfold Crashes at h3; rw [h3] at this; cases this
      · unfold Open at g2; unfold Crashes at h3; rw [h, h3] at g2; cases g2
      · exact open_not_closed g2 (h4 r h g1)
    · exfalso
      have := g s h2; unfold Closed at this; unfold Crashes at h3; rw [h3] at this; cases this
    · exact h1

theorem rollFollowing_eq_some {p : Period} {c : Calendar} {d r : Date} :
    Date.rollFollowing p c d = .ok (some r) ↔ ∃ u, p.checkedAdd d = .ok (some u) ∧ IsFollowing c u r := by
  unfold Date.rollFollowing Date.rollUnadjusted
  rw [Rust.bind_eq_ok]
  constructor
  · rintro ⟨o, h1, h2⟩
    cases o with
    | none => simp at h2
    | some u => exact ⟨u, h1, followLoop_eq_some.1 h2⟩
  · rintro ⟨u, h1, h2⟩
    exact ⟨some u, h1, followLoop_eq_some.2 h2⟩

theorem rollPreceding_eq_some {p : Period} {c : Calendar} {d r : Date} :
    Date.rollPreceding p c d = .ok (some r) ↔ ∃ u, p.checkedAdd d = .ok (some u) ∧ IsPreceding c u r := by
  unfold Date.rollPreceding Date.rollUnadjusted
  rw [Rust.bind_eq_ok]
  constructor
  · rintro ⟨o, h1, h2⟩
    cases o with
    | none => simp at h2
    | some u => exact ⟨u, h1, precedeLoop_eq_some.1 h2⟩
  · rintro ⟨u, h1, h2⟩
    exact ⟨some u, h1, precedeLoop_eq_some.2 h2⟩

theorem rollFollowing_eq_none {p : Period} {c : Calendar} {d : Date} :
    Date.rollFollowing p c d = .ok none ↔ p.checkedAdd d = .ok none ∨
      ∃ u, p.checkedAdd d = .ok (some u) ∧ ∀ x, u ≤ x → Closed c x := by
  unfold Date.rollFollowing Date.rollUnadjusted
  rw [Rust.bind_eq_ok]
  constructor
  · rintro ⟨o, h1, h2⟩
    cases o with
    | none => exact Or.inl h1
    | some u => exact Or.inr ⟨u, h1, followLoop_eq_none.1 h2⟩
  · rintro (h | ⟨u, h1, h2⟩)
    · exact ⟨none, h, rfl⟩
    · exact ⟨some u, h1, followLoop_eq_none.2 h2⟩

theorem rollPreceding_eq_none {p : Period} {c : Calendar} {d : Date} :
    Date.rollPreceding p c d = .ok none ↔ p.checkedAdd d = .ok none ∨
      ∃ u, p.checkedAdd d = .ok (some u) ∧ ∀ x, x ≤ u → Closed c x := by
  unfold Date.rollPreceding Date.rollUnadjusted
  rw [Rust.bind_eq_ok]
  constructor
  · rintro ⟨o, h1, h2⟩
    cases o with
    | none => exact Or.inl h1
    | some u => exact Or.inr ⟨u, h1, precedeLoop_eq_none.1 h2⟩
  · rintro (h | ⟨u, h1, h2⟩)
    · exact ⟨none, h, rfl⟩
    · exact ⟨some u, h1, precedeLoop_eq_none.2 h2⟩

theorem isWeekend_iff (d : NaiveDate) : isWeekend d = true ↔ 5 ≤ d.weekday.fromMonday := by
  unfold isWeekend; cases d.weekday <;> simp [Weekday.fromMonday]

theorem isWorkday_iff (d : Date) : IsWorkday d ↔ d.weekday.fromMonday ≤ 4 := by
  unfold IsWorkday; cases d.weekday <;> simp [Weekday.fromMonday]

/-- A date a few days later in the same month. -/
theorem sameMonth_addDays (d r : NaiveDate) (k : Nat) (h : r.numDaysFromCe = d.numDaysFromCe + k) :
    (r.year = d.year ∧ r.month = d.month) ↔ d.day + k ≤ monthLen (isLeap d.year) d.month := by
  constructor
  · rintro ⟨e1, e2⟩
    have hr := r.day_le
    have : r.day = d.day + k := by
      unfold NaiveDate.numDaysFromCe NaiveDate.ordinal at h; rw [e1, e2] at h; omega
    rw [e1, e2] at hr; omega
  · intro hle
    have hv : IsValid d.year d.month (d.day + k) :=
      ⟨d.valid.1, d.valid.2.1, d.month_pos, d.month_le, by have := d.day_pos; omega, hle⟩
    have : r = ⟨d.year, d.month, d.day + k, hv⟩ := by
      apply NaiveDate.serial_inj
      rw [h]; simp only [NaiveDate.numDaysFromCe, NaiveDate.ordinal]; omega
    rw [this]; exact ⟨rfl, rfl⟩

end Qlab
