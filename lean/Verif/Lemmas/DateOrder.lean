import Verif.Lemmas.Chrono
import Mathlib.Order.Basic
import Mathlib.Order.Defs.LinearOrder

/-! # Dates as a linear order -/

namespace Qlab

instance : LinearOrder NaiveDate where
  le := (· ≤ ·)
  lt := (· < ·)
  le_refl a := (NaiveDate.le_iff_serial a a).2 (Int.le_refl _)
  le_trans a b c h1 h2 := by
    rw [NaiveDate.le_iff_serial] at h1 h2 ⊢; omega
  lt_iff_le_not_ge a b := by
    rw [NaiveDate.le_iff_serial, NaiveDate.le_iff_serial, NaiveDate.lt_iff_serial]; omega
  le_antisymm a b h1 h2 := by
    rw [NaiveDate.le_iff_serial] at h1 h2
    exact NaiveDate.serial_inj (by omega)
  le_total a b := by
    rw [NaiveDate.le_iff_serial, NaiveDate.le_iff_serial]; omega
  toDecidableLE := fun a b => inferInstanceAs (Decidable (a ≤ b))
  toDecidableLT := fun a b => inferInstanceAs (Decidable (a < b))
  toDecidableEq := inferInstance

end Qlab
