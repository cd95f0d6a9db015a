import Verif.Lemmas.HolidayCounts
import Verif.Spec.HolidayCounts

/-! # The holidays of the New Zealand years, counted by the kernel -/

namespace Qlab

open Spec

set_option maxRecDepth 8000

/-- The New Zealand holidays by month, with the first and the number of the days on which they can fall. -/
def newZealandMonths : List (List Holiday × Nat × Nat) := [
  ([.on 1 1, .moved 1 1 [.Sat, .Sun] 2, .on 1 2, .moved 1 2 [.Sat, .Sun] 2, .firstFrom .Mon 1 19], 1, 25),
  ([.on 2 6, .since 2014 (.moved 2 6 [.Sat] 2), .since 2014 (.moved 2 6 [.Sun] 1)], 6, 3),
  ([.easter (-2), .easter 1], 1, 31),
  ([.easter (-2), .easter 1, .on 4 25, .since 2014 (.moved 4 25 [.Sat] 2), .since 2014 (.moved 4 25 [.Sun] 1)], 1, 30),
  ([], 1, 0),
  ([.nth 1 .Mon 6, .dates 2022 [(6, 24)], .dates 2024 [(6, 28)], .dates 2025 [(6, 20)], .dates 2027 [(6, 25)],
    .dates 2030 [(6, 21)], .dates 2033 [(6, 24)], .dates 2035 [(6, 29)], .dates 2038 [(6, 25)], .dates 2044 [(6, 24)],
    .dates 2046 [(6, 29)], .dates 2049 [(6, 25)], .dates 2051 [(6, 30)], .dates 2052 [(6, 21)]], 1, 30),
  ([.dates 2023 [(7, 14)], .dates 2026 [(7, 10)], .dates 2028 [(7, 14)], .dates 2029 [(7, 6)], .dates 2031 [(7, 11)],
    .dates 2032 [(7, 2)], .dates 2034 [(7, 7)], .dates 2036 [(7, 18)], .dates 2037 [(7, 10)], .dates 2039 [(7, 15)],
    .dates 2040 [(7, 6)], .dates 2041 [(7, 19)], .dates 2042 [(7, 11)], .dates 2043 [(7, 3)], .dates 2045 [(7, 7)],
    .dates 2047 [(7, 19)], .dates 2048 [(7, 3)], .dates 2050 [(7, 15)]], 2, 18),
  ([], 1, 0),
  ([], 1, 0),
  ([.nth 4 .Mon 10], 22, 7),
  ([], 1, 0),
  ([.on 12 25, .moved 12 25 [.Sat, .Sun] 2, .on 12 26, .moved 12 26 [.Sat, .Sun] 2], 25, 4)]

theorem newZealandMonths_ok : monthsOk .newZealand 1 newZealandMonths = true := by decide +kernel

theorem newZealandCounts : yearCounts (fun y => newZealandHolidays y) newZealandMonths 2014
    (easterMondayTable.drop 113) (orthodoxEasterMondayTable.drop 113) = true := by decide +kernel

end Qlab
