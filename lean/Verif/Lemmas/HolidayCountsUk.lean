import Verif.Lemmas.HolidayCounts
import Verif.Spec.HolidayCounts

/-! # The holidays of the British years, counted by the kernel -/

namespace Qlab

open Spec

set_option maxRecDepth 8000

/-- The British holidays by month, with the first and the number of the days on which they can fall. -/
def ukMonths : List (List Holiday × Nat × Nat) := [
  ([.on 1 1, .moved 1 1 [.Sat] 2, .moved 1 1 [.Sun] 1], 1, 3),
  ([], 1, 0),
  ([.easter (-2), .easter 1], 1, 31),
  ([.easter (-2), .easter 1, .dates 2011 [(4, 29)]], 1, 30),
  ([.except [1995, 2020] (.nth 1 .Mon 5), .only [1995, 2020] (.on 5 8), .except [2002, 2012, 2022] (.last .Mon 5),
    .dates 2023 [(5, 8)]], 1, 31),
  ([.dates 2002 [(6, 3), (6, 4)], .dates 2012 [(6, 4), (6, 5)], .dates 2022 [(6, 2), (6, 3)]], 2, 4),
  ([], 1, 0),
  ([.last .Mon 8], 25, 7),
  ([.dates 2022 [(9, 19)]], 19, 1),
  ([], 1, 0),
  ([], 1, 0),
  ([.on 12 25, .moved 12 25 [.Sat, .Sun] 2, .on 12 26, .moved 12 26 [.Sat, .Sun] 2, .dates 1999 [(12, 31)]], 25, 7)]

theorem ukMonths_ok (mk : Option UnitedKingdomMarket) : monthsOk (.unitedKingdom mk) 1 ukMonths = true := by
  have h : monthsOk (.unitedKingdom none) 1 ukMonths = true := by decide +kernel
  exact h

theorem ukCounts : yearCounts (fun y => britishHolidays y) ukMonths 1901 easterMondayTable
    orthodoxEasterMondayTable = true := by decide +kernel

end Qlab
