import Verif.Spec.Calendars

/-! # Specification: the years for which a shipped calendar answers -/

namespace Qlab.Spec

/-- The first year for which the calendar answers: 1901 with Easter, else the first representable year. -/
def firstYear (s : Shipped) : Int := if UsesEaster s then 1901 else minYear

/-- The last year for which the calendar answers: 2199 with Easter, else the last representable year. -/
def lastYear (s : Shipped) : Int := if UsesEaster s then 2199 else maxYear

end Qlab.Spec
