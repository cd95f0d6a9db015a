import Verif.Lemmas.CommonDays

/-! # The checks of the shared business days, month by month -/

namespace Qlab

open Spec

set_option maxRecDepth 100000

theorem allShipped_wf : (allShipped.flatMap holidays).all Holiday.wf = true := by decide +kernel

theorem recurringComplete_all : (List.range' 1 12).all recurringComplete = true := by decide +kernel

theorem gapsSmall_all : (List.range' 1 11).all (fun m => gapsSmall m 1901 (lastShared m) (firstShared (m + 1))) = true ∧
    gapsSmall 12 1901 (lastShared 12) (firstShared 1).tail = true := by decide +kernel

theorem firstShared_1 : sharedIn 1 (firstShared 1) = true := by decide +kernel
theorem lastShared_1 : sharedIn 1 (lastShared 1) = true := by decide +kernel
theorem firstShared_2 : sharedIn 2 (firstShared 2) = true := by decide +kernel
theorem lastShared_2 : sharedIn 2 (lastShared 2) = true := by decide +kernel
theorem firstShared_3 : sharedIn 3 (firstShared 3) = true := by decide +kernel
theorem lastShared_3 : sharedIn 3 (lastShared 3) = true := by decide +kernel
theorem firstShared_4 : sharedIn 4 (firstShared 4) = true := by decide +kernel
theorem lastShared_4 : sharedIn 4 (lastShared 4) = true := by decide +kernel
theorem firstShared_5 : sharedIn 5 (firstShared 5) = true := by decide +kernel
theorem lastShared_5 : sharedIn 5 (lastShared 5) = true := by decide +kernel
theorem firstShared_6 : sharedIn 6 (firstShared 6) = true := by decide +kernel
theorem lastShared_6 : sharedIn 6 (lastShared 6) = true := by decide +kernel
theorem firstShared_7 : sharedIn 7 (firstShared 7) = true := by decide +kernel
theorem lastShared_7 : sharedIn 7 (lastShared 7) = true := by decide +kernel
theorem firstShared_8 : sharedIn 8 (firstShared 8) = true := by decide +kernel
theorem lastShared_8 : sharedIn 8 (lastShared 8) = true := by decide +kernel
theorem firstShared_9 : sharedIn 9 (firstShared 9) = true := by decide +kernel
theorem lastShared_9 : sharedIn 9 (lastShared 9) = true := by decide +kernel
theorem firstShared_10 : sharedIn 10 (firstShared 10) = true := by decide +kernel
theorem lastShared_10 : sharedIn 10 (lastShared 10) = true := by decide +kernel
theorem firstShared_11 : sharedIn 11 (firstShared 11) = true := by decide +kernel
theorem lastShared_11 : sharedIn 11 (lastShared 11) = true := by decide +kernel
theorem firstShared_12 : sharedIn 12 (firstShared 12) = true := by decide +kernel
theorem lastShared_12 : sharedIn 12 (lastShared 12) = true := by decide +kernel

theorem firstShared_ok {m : Nat} (h1 : 1 ≤ m) (h2 : m ≤ 12) : sharedIn m (firstShared m) = true := by
  rcases (by omega : m = 1 ∨ m = 2 ∨ m = 3 ∨ m = 4 ∨ m = 5 ∨ m = 6 ∨ m = 7 ∨ m = 8 ∨ m = 9 ∨ m = 10 ∨ m = 11 ∨ m = 12)
    with rfl | rfl | rfl | rfl | rfl | rfl | rfl | rfl | rfl | rfl | rfl | rfl
  · exact firstShared_1
  · exact firstShared_2
  · exact firstShared_3
  · exact firstShared_4
  · exact firstShared_5
  · exact firstShared_6
  · exact firstShared_7
  · exact firstShared_8
  · exact firstShared_9
  · exact firstShared_10
  · exact firstShared_11
  · exact firstShared_12

theorem lastShared_ok {m : Nat} (h1 : 1 ≤ m) (h2 : m ≤ 12) : sharedIn m (lastShared m) = true := by
  rcases (by omega : m = 1 ∨ m = 2 ∨ m = 3 ∨ m = 4 ∨ m = 5 ∨ m = 6 ∨ m = 7 ∨ m = 8 ∨ m = 9 ∨ m = 10 ∨ m = 11 ∨ m = 12)
    with rfl | rfl | rfl | rfl | rfl | rfl | rfl | rfl | rfl | rfl | rfl | rfl
  · exact lastShared_1
  · exact lastShared_2
  · exact lastShared_3
  · exact lastShared_4
  · exact lastShared_5
  · exact lastShared_6
  · exact lastShared_7
  · exact lastShared_8
  · exact lastShared_9
  · exact lastShared_10
  · exact lastShared_11
  · exact lastShared_12

end Qlab
