import Verif.Lemmas.HolidayRuns

/-!
# Every shipped calendar leaves a business day in every half month: the checks (calendars with many single closings)

Each check covers all years (`none` stands for the years without single closings), months and weekdays.
-/

namespace Qlab

open Spec

theorem halvesOpen_hongKong :
    halvesOpen (restDays .hongKong) (holidays .hongKong) = true ∧ (holidays .hongKong).all Holiday.wf = true := by
  decide +kernel

theorem halvesOpen_india :
    halvesOpen (restDays .india) (holidays .india) = true ∧ (holidays .india).all Holiday.wf = true := by
  decide +kernel

theorem halvesOpen_indonesia :
    halvesOpen (restDays .indonesia) (holidays .indonesia) = true ∧ (holidays .indonesia).all Holiday.wf = true := by
  decide +kernel

theorem halvesOpen_israel :
    halvesOpen (restDays .israel) (holidays .israel) = true ∧ (holidays .israel).all Holiday.wf = true := by
  decide +kernel

theorem halvesOpen_singapore :
    halvesOpen (restDays .singapore) (holidays .singapore) = true ∧ (holidays .singapore).all Holiday.wf = true := by
  decide +kernel

theorem halvesOpen_southKorea :
    halvesOpen (restDays .southKorea) (holidays .southKorea) = true ∧ (holidays .southKorea).all Holiday.wf = true := by
  decide +kernel

theorem halvesOpen_taiwan :
    halvesOpen (restDays .taiwan) (holidays .taiwan) = true ∧ (holidays .taiwan).all Holiday.wf = true := by
  decide +kernel

theorem halvesOpen_turkey :
    halvesOpen (restDays .turkey) (holidays .turkey) = true ∧ (holidays .turkey).all Holiday.wf = true := by
  decide +kernel

end Qlab
