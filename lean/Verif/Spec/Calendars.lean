import Verif.Model.Shipped
import Verif.Spec.Easter

/-!
# Specification vocabulary for the shipped calendars

Facts about the shipped calendars that the documentation of `third-parties/calendar` states, as plain
tables: which calendars consult Easter, which dates are closed every year, which feasts are closed.
-/

namespace Qlab.Spec

/-- The calendars that look Easter up (Western or Orthodox). -/
def UsesEaster : Shipped → Bool
  | .china | .israel | .japan | .russia _ | .southKorea | .taiwan | .turkey | .weekendsOnly => false
  | .unitedStates m => m = some .NYSE ∨ m = some .GovernmentBond ∨ m = some .SOFR
  | _ => true

/-- The saturdays and sundays on which the Russian exchange was open (`russia.rs:46-54`). -/
def RussianWorkingWeekend (d : Date) : Prop :=
  (d.year, d.month, d.day) ∈ [((2012 : Int), 3, 11), (2012, 4, 28), (2012, 5, 5), (2012, 5, 12), (2012, 6, 9),
    (2016, 2, 20), (2018, 4, 28), (2018, 6, 9), (2018, 12, 29)]

/-- Every business day of `a` is a business day of `b`. -/
def OpenSubset (a b : Shipped) : Prop := ∀ d : Date, Open a.calendar d → Open b.calendar d

/-- Dates (month, day) closed every year. -/
def FixedHolidays : Shipped → List (Nat × Nat)
  | .argentina => [(1, 1), (5, 1), (5, 25), (7, 9), (12, 8), (12, 24), (12, 31)]
  | .australia _ => [(1, 1), (1, 26), (4, 25), (12, 25), (12, 26)]
  | .austria (some .Exchange) => [(1, 1), (5, 1), (12, 24), (12, 25), (12, 26), (12, 31)]
  | .austria _ => [(1, 1), (1, 6), (5, 1), (8, 15), (11, 1), (12, 8), (12, 25), (12, 26)]
  | .botswana => [(1, 1), (5, 1), (7, 1), (9, 30), (10, 1), (12, 25), (12, 26)]
  | .brazil (some .Exchange) => [(1, 1), (1, 25), (4, 21), (5, 1), (7, 9), (9, 7), (10, 12), (11, 2), (11, 15),
      (12, 24), (12, 25), (12, 31)]
  | .brazil _ => [(1, 1), (4, 21), (5, 1), (9, 7), (10, 12), (11, 2), (11, 15), (12, 25)]
  | .canada (some .TSX) => [(1, 1), (7, 1), (12, 25), (12, 26)]
  | .canada _ => [(1, 1), (7, 1), (11, 11), (12, 25), (12, 26)]
  | .chile => [(1, 1), (5, 1), (5, 21), (7, 16), (8, 15), (9, 18), (9, 19), (11, 1), (12, 8), (12, 25)]
  | .china => [(1, 1)]
  | .czechRepublic => [(1, 1), (5, 1), (5, 8), (7, 5), (7, 6), (9, 28), (10, 28), (11, 17), (12, 24), (12, 25),
      (12, 26)]
  | .denmark => [(1, 1), (6, 5), (12, 24), (12, 25), (12, 26), (12, 31)]
  | .finland => [(1, 1), (1, 6), (5, 1), (12, 6), (12, 24), (12, 25), (12, 26)]
  | .france (some .Exchange) => [(1, 1), (5, 1), (12, 24), (12, 25), (12, 26), (12, 31)]
  | .france _ => [(1, 1), (5, 1), (5, 8), (5, 10), (5, 21), (7, 14), (8, 15), (11, 1), (11, 11), (12, 25)]
  | .germany (some .Settlement) => [(1, 1), (5, 1), (10, 3), (12, 24), (12, 25), (12, 26)]
  | .germany (some .Eurex) => [(1, 1), (5, 1), (12, 24), (12, 25), (12, 26), (12, 31)]
  | .germany _ => [(1, 1), (5, 1), (12, 24), (12, 25), (12, 26)]
  | .hongKong => [(1, 1), (5, 1), (7, 1), (10, 1), (12, 25), (12, 26)]
  | .hungary => [(1, 1), (3, 15), (5, 1), (8, 20), (10, 23), (11, 1), (12, 25), (12, 26)]
  | .iceland => [(1, 1), (5, 1), (6, 17), (12, 25), (12, 26)]
  | .india => [(1, 26), (4, 14), (5, 1), (8, 15), (10, 2), (12, 25)]
  | .indonesia => [(1, 1), (8, 17), (12, 25)]
  | .israel => []
  | .italy (some .Exchange) => [(1, 1), (5, 1), (8, 15), (12, 24), (12, 25), (12, 26), (12, 31)]
  | .italy _ => [(1, 1), (1, 6), (4, 25), (5, 1), (8, 15), (11, 1), (12, 8), (12, 25), (12, 26)]
  | .japan => [(1, 1), (1, 2), (1, 3), (2, 11), (4, 29), (5, 3), (5, 4), (5, 5), (11, 3), (11, 23), (12, 31)]
  | .mexico => [(1, 1), (5, 1), (9, 16), (11, 2), (12, 12), (12, 25)]
  | .newZealand => [(1, 1), (1, 2), (2, 6), (4, 25), (12, 25), (12, 26)]
  | .norway => [(1, 1), (5, 1), (5, 17), (12, 25), (12, 26)]
  | .poland => [(1, 1), (5, 1), (5, 3), (8, 15), (11, 1), (11, 11), (12, 25), (12, 26)]
  | .romania => [(1, 1), (1, 2), (1, 24), (5, 1), (8, 15), (11, 30), (12, 1), (12, 25), (12, 26)]
  | .russia (some .Exchange) => [(2, 23), (3, 8), (5, 1), (5, 9), (6, 12), (11, 4), (12, 31)]
  | .russia _ => [(1, 1), (1, 2), (1, 7), (2, 23), (3, 8), (5, 1), (5, 9), (6, 12), (11, 4)]
  | .singapore => [(1, 1), (5, 1), (8, 9), (12, 25)]
  | .slovakia => [(1, 1), (1, 6), (5, 1), (5, 8), (7, 5), (8, 29), (9, 1), (9, 15), (11, 1), (11, 17), (12, 24),
      (12, 25), (12, 26)]
  | .southAfrica => [(1, 1), (3, 21), (4, 27), (5, 1), (6, 16), (8, 9), (9, 24), (12, 16), (12, 25), (12, 26)]
  | .southKorea => [(1, 1), (3, 1), (5, 1), (5, 5), (6, 6), (8, 15), (10, 3), (12, 25)]
  | .sweden => [(1, 1), (1, 6), (5, 1), (12, 24), (12, 25), (12, 26), (12, 31)]
  | .switzerland => [(1, 1), (1, 2), (5, 1), (8, 1), (12, 25), (12, 26)]
  | .taiwan => [(1, 1), (2, 28), (5, 1), (10, 10)]
  | .target => [(1, 1), (12, 25)]
  | .thailand => [(1, 1), (4, 6), (4, 13), (4, 14), (4, 15), (5, 1), (8, 12), (12, 5), (12, 10), (12, 31)]
  | .turkey => [(1, 1), (4, 23), (5, 1), (5, 19), (8, 30), (10, 29)]
  | .ukraine => [(1, 1), (1, 7), (3, 8), (5, 1), (5, 2), (5, 9), (6, 28), (8, 24)]
  | .unitedKingdom _ => [(1, 1), (12, 25), (12, 26)]
  | .unitedStates _ => [(1, 1), (7, 4), (12, 25)]
  | .weekendsOnly => []

/-- Days after Western Easter Sunday closed every year: -48 and -47 Carnival, -3 Maundy Thursday, -2 Good
Friday, -1 Holy Saturday, 1 Easter Monday, 39 Ascension, 50 Whit Monday, 60 Corpus Christi. -/
def EasterHolidays : Shipped → List Int
  | .argentina => [-3, -2]
  | .australia _ => [-2, 1]
  | .austria (some .Exchange) => [-2, 1, 50]
  | .austria _ => [1, 39, 50, 60]
  | .botswana => [-2, 1, 39]
  | .brazil _ => [-48, -47, -2, 60]
  | .canada _ => [-2]
  | .chile => [-2, -1]
  | .czechRepublic => [1]
  | .denmark => [-3, -2, 1, 39, 50]
  | .finland => [-2, 1, 39]
  | .france (some .Exchange) => [-2, 1]
  | .france _ => [1]
  | .germany (some .Settlement) => [-2, 1, 39, 50, 60]
  | .germany (some .Euwax) => [-2, 1, 50]
  | .germany _ => [-2, 1]
  | .hongKong => [-2, 1]
  | .hungary => [1, 50]
  | .iceland => [-3, -2, 1, 39, 50]
  | .india => [-2]
  | .indonesia => [-2, 39]
  | .italy (some .Exchange) => [-2, 1]
  | .italy _ => [1]
  | .mexico => [-3, -2]
  | .newZealand => [-2, 1]
  | .norway => [-3, -2, 1, 39, 50]
  | .poland => [1, 60]
  | .singapore => [-2]
  | .slovakia => [-2, 1]
  | .southAfrica => [-2, 1]
  | .sweden => [-2, 1, 39]
  | .switzerland => [-2, 1, 39, 50]
  | .unitedKingdom _ => [-2, 1]
  | .unitedStates (some .NYSE) => [-2]
  | _ => []

/-- Saturday or Sunday. -/
def IsSaturdayOrSunday (d : Date) : Prop := d.weekday = .Sat ∨ d.weekday = .Sun

end Qlab.Spec
