import Verif.Model.Chrono

/-!
# Checking a statement for all dates of a range of years
-/

namespace Qlab

/-- `f` holds on every date of the `n` years from `y`. -/
def forDates (y : Int) (n : Nat) (f : NaiveDate → Bool) : Bool :=
  (List.range n).all fun i => (List.range 12).all fun m => (List.range 31).all fun d =>
    if h : IsValid (y + (i : Nat)) (m + 1) (d + 1) then f ⟨y + (i : Nat), m + 1, d + 1, h⟩ else true

theorem forDates_date {y : Int} {n : Nat} {f : NaiveDate → Bool} (h : forDates y n f = true) (x : NaiveDate)
    (h1 : y ≤ x.year) (h2 : x.year < y + n) : f x = true := by
  obtain ⟨xy, xm, xd, hv⟩ := x
  have hd : xd ≤ 31 := by
    obtain ⟨-, -, -, -, -, b⟩ := hv
    refine Nat.le_trans b ?_
    unfold monthLen; split <;> (try split) <;> decide
  simp only at h1 h2
  have hm := hv.2.2.1
  have hm' := hv.2.2.2.1
  have hd1 := hv.2.2.2.2.1
  have e := List.all_eq_true.1 (List.all_eq_true.1 (List.all_eq_true.1 h (xy - y).toNat
    (List.mem_range.2 (by omega))) (xm - 1) (List.mem_range.2 (by omega))) (xd - 1) (List.mem_range.2 (by omega))
  obtain ⟨i, rfl⟩ : ∃ i : Nat, xy = y + (i : Nat) := ⟨(xy - y).toNat, by omega⟩
  obtain ⟨m, rfl⟩ : ∃ m : Nat, xm = m + 1 := ⟨xm - 1, by omega⟩
  obtain ⟨d, rfl⟩ : ∃ d : Nat, xd = d + 1 := ⟨xd - 1, by omega⟩
  rw [show (y + (i : Nat) - y).toNat = i by omega] at e
  simp only [Nat.add_sub_cancel] at e
  rw [dif_pos hv] at e
  exact e

end Qlab
