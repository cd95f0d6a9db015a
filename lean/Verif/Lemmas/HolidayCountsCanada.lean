import Verif.Lemmas.HolidayCounts
import Verif.Spec.HolidayCounts

/-! # The holidays of the Canadian years, counted by the kernel -/

namespace Qlab

open Spec

set_option maxRecDepth 8000

/-- The Canadian holidays by month, with the first and the number of the days on which they can fall; `r` are those of
November. -/
def canadaMonths (r : List Holiday × Nat × Nat) : List (List Holiday × Nat × Nat) := [
  ([.on 1 1, .moved 1 1 [.Sat] 2, .moved 1 1 [.Sun] 1], 1, 3),
  ([.since 2008 (.nth 3 .Mon 2)], 15, 7),
  ([.easter (-2)], 1, 31),
  ([.easter (-2)], 1, 30),
  ([.firstFrom .Mon 5 18], 18, 7),
  ([], 1, 0),
  ([.on 7 1, .moved 7 1 [.Sat] 2, .moved 7 1 [.Sun] 1], 1, 3),
  ([.nth 1 .Mon 8], 1, 7),
  ([.nth 1 .Mon 9, .since 2021 (.on 9 30)], 1, 30),
  ([.since 2021 (.moved 9 30 [.Sat] 2), .since 2021 (.moved 9 30 [.Sun] 1), .nth 2 .Mon 10], 1, 14),
  r,
  ([.on 12 25, .moved 12 25 [.Sat, .Sun] 2, .on 12 26, .moved 12 26 [.Sat, .Sun] 2], 25, 4)]

theorem canadaMonths_ok : monthsOk (.canada none) 1
    (canadaMonths ([.on 11 11, .moved 11 11 [.Sat] 2, .moved 11 11 [.Sun] 1], 11, 3)) = true := by decide +kernel

theorem tsxMonths_ok : monthsOk (.canada (some .TSX)) 1 (canadaMonths ([], 1, 0)) = true := by decide +kernel

theorem canadaCounts : yearCounts (fun y => canadianHolidays none y)
    (canadaMonths ([.on 11 11, .moved 11 11 [.Sat] 2, .moved 11 11 [.Sun] 1], 11, 3)) 1901 easterMondayTable
    orthodoxEasterMondayTable = true := by decide +kernel

theorem tsxCounts : yearCounts (fun y => canadianHolidays (some .TSX) y) (canadaMonths ([], 1, 0)) 1901 easterMondayTable
    orthodoxEasterMondayTable = true := by decide +kernel

end Qlab
