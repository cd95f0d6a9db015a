import Verif.Model.Calendar
import Verif.Model.EasterTable

/-!
# Easter look-ups

`Calendar::easter_monday` and `Calendar::orthodox_easter_monday`
(`third-parties/calendar/src/lib.rs:182-188`).
-/

namespace Qlab

/-- `TABLE[year as usize - 1901usize]`.  For a year below 1901 the subtraction overflows (a panic with
overflow checks) or wraps to an index beyond the table (a panic without them); a negative year becomes a
huge `usize`, again an index beyond the table.  Simplification: the profiles are not distinguished because
both panic. -/
def easterLookup (table : List Nat) (year : Int) : Rust Nat :=
  if year < 1901 then .panic else Rust.unwrap table[(year - 1901).toNat]?

/-- `easter_monday` (`third-parties/calendar/src/lib.rs:182-184`): day of the year of Easter Monday. -/
def easterMonday (year : Int) : Rust Nat := easterLookup easterMondayTable year

/-- `orthodox_easter_monday` (`third-parties/calendar/src/lib.rs:186-188`). -/
def orthodoxEasterMonday (year : Int) : Rust Nat := easterLookup orthodoxEasterMondayTable year

end Qlab
