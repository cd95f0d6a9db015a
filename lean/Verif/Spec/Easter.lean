import Verif.Spec.Dates

/-!
# Specification of Easter

Easter Sunday is the first Sunday strictly after the paschal full moon.  The full moon comes from the
ecclesiastical tables: the Gregorian one with Clavius' epact (Knuth, TAOCP vol. 1, 1.3.2 ex. 14), the
Orthodox one with the Julian calendar.
-/

namespace Qlab.Spec

/-- Position of a year in the 19-year lunar cycle. -/
def goldenNumber (y : Int) : Int := y % 19 + 1

/-- Number of omitted leap days (solar correction), offset as in Clavius' rule. -/
def solarCorrection (y : Int) : Int := 3 * (y / 100 + 1) / 4 - 12

/-- Lunar correction of the century. -/
def lunarCorrection (y : Int) : Int := (8 * (y / 100 + 1) + 5) / 25 - 5

/-- Age of the moon at the start of the year. -/
def epact (y : Int) : Int :=
  let e := (11 * goldenNumber y + 20 + lunarCorrection y - solarCorrection y) % 30
  if (e = 25 ∧ 11 < goldenNumber y) ∨ e = 24 then e + 1 else e

/-- The paschal full moon of the Gregorian calendar, as a day of March (32 is 1 April). -/
def paschalMoonMarch (y : Int) : Int :=
  if 44 - epact y < 21 then 44 - epact y + 30 else 44 - epact y

/-- Gregorian Easter Sunday. -/
def IsEasterSunday (s : Date) : Prop :=
  s.weekday = .Sun ∧ ∃ march1 : Date, march1.year = s.year ∧ march1.month = 3 ∧ march1.day = 1 ∧
    Date.serialDate march1 + (paschalMoonMarch s.year - 1) < Date.serialDate s ∧
    Date.serialDate s ≤ Date.serialDate march1 + (paschalMoonMarch s.year - 1) + 7

/-- The day after Gregorian Easter Sunday. -/
def IsEasterMonday (d : Date) : Prop :=
  ∃ s : Date, IsEasterSunday s ∧ Date.serialDate d = Date.serialDate s + 1

/-- The paschal full moon of the Julian calendar, as a day of the Julian March. -/
def julianPaschalMoonMarch (y : Int) : Int := 21 + (19 * (y % 19) + 15) % 30

/-- Serial number of day `n` of the Julian March of year `y`: every fourth year is leap, and Julian
3 January of year 1 is Gregorian 1 January of year 1, which has serial number 1. -/
def julianMarchSerial (y n : Int) : Int :=
  (365 * (y - 1) + (y - 1) / 4 + (if 4 ∣ y then 60 else 59) + n) - 2

/-- Orthodox Easter Sunday: the first Sunday strictly after the Julian paschal full moon. -/
def IsOrthodoxEasterSunday (s : Date) : Prop :=
  s.weekday = .Sun ∧
    julianMarchSerial s.year (julianPaschalMoonMarch s.year) < Date.serialDate s ∧
    Date.serialDate s ≤ julianMarchSerial s.year (julianPaschalMoonMarch s.year) + 7

/-- The day after Orthodox Easter Sunday. -/
def IsOrthodoxEasterMonday (d : Date) : Prop :=
  ∃ s : Date, IsOrthodoxEasterSunday s ∧ Date.serialDate d = Date.serialDate s + 1

/-- Date `d` is `k` days after Gregorian Easter Sunday (before it if `k` is negative). -/
def DaysFromEaster (d : Date) (k : Int) : Prop :=
  ∃ s : Date, IsEasterSunday s ∧ Date.serialDate d = Date.serialDate s + k

/-- Date `d` is `k` days after Orthodox Easter Sunday (before it if `k` is negative). -/
def DaysFromOrthodoxEaster (d : Date) (k : Int) : Prop :=
  ∃ s : Date, IsOrthodoxEasterSunday s ∧ Date.serialDate d = Date.serialDate s + k

end Qlab.Spec
