import Verif.Spec.Dates

/-!
# Specification of the Hebrew calendar

The year begins on the day of the mean new moon (molad) of Tishri, unless one of the four postponements applies.
Feasts are at fixed distances from the new year, because the six months from Nisan to Elul have fixed lengths.
Days are serial numbers, in which 1 is Monday, 1 January of year 1.
-/

namespace Qlab.Spec.Hebrew

/-- Seven of every nineteen years have a thirteenth month. -/
def IsLeap (h : Int) : Prop := (7 * h + 1) % 19 < 7

instance (h : Int) : Decidable (IsLeap h) := by unfold IsLeap; infer_instance

/-- Number of months before year `h`. -/
def monthsBefore (h : Int) : Int := (235 * h - 234) / 19

/-- The molad of Tishri of year `h`, in parts (1080 to the hour, 25920 to the day) since the beginning of a Sunday.
The first one was on the Monday, 5 hours and 204 parts; a month has 29 days, 12 hours and 793 parts. -/
def molad (h : Int) : Int :=
  (25920 + 5 * 1080 + 204) + (29 * 25920 + 12 * 1080 + 793) * monthsBefore h

/-- The new year is not on the day of the molad: the molad is at noon or later; or it is on a Tuesday, 9 hours and
204 parts or later, of a common year; or on a Monday, 15 hours and 589 parts or later, after a leap year. -/
def IsPostponed (h : Int) : Prop :=
  18 * 1080 ≤ molad h % 25920 ∨
  (molad h / 25920 % 7 = 2 ∧ 9 * 1080 + 204 ≤ molad h % 25920 ∧ ¬ IsLeap h) ∨
  (molad h / 25920 % 7 = 1 ∧ 15 * 1080 + 589 ≤ molad h % 25920 ∧ IsLeap (h - 1))

instance (h : Int) : Decidable (IsPostponed h) := by unfold IsPostponed; infer_instance

/-- The day after, if the day is a Sunday, a Wednesday or a Friday. -/
def avoidSundayWednesdayFriday (day : Int) : Int :=
  if day % 7 = 0 ∨ day % 7 = 3 ∨ day % 7 = 5 then day + 1 else day

/-- Serial number of the new year, 1 Tishri, of year `h`. -/
def newYear (h : Int) : Int :=
  avoidSundayWednesdayFriday (molad h / 25920 + if IsPostponed h then 1 else 0) - 1373428

/-- The new year in the autumn of the Gregorian year `y`. -/
def roshHashanah (y : Int) : Int := newYear (y + 3761)

/-- Passover, 15 Nisan, in the spring of the Gregorian year `y`: 163 days before the new year. -/
def passover (y : Int) : Int := roshHashanah y - 163

/-- 14 Adar, the last month before Nisan. -/
def purim (y : Int) : Int := passover y - 30

/-- The fiftieth day after Passover. -/
def shavuot (y : Int) : Int := passover y + 50

/-- Independence Day: 5 Iyar, 20 days after Passover; the Thursday before if that is a Friday or a Saturday, the
Tuesday after if it is a Monday. -/
def independenceDay (y : Int) : Int :=
  let day := passover y + 20
  if day % 7 = 5 then day - 1 else if day % 7 = 6 then day - 2 else if day % 7 = 1 then day + 1 else day

/-- The fast of 9 Av, 112 days after Passover; the Sunday after if that is a Saturday. -/
def fastOfAv (y : Int) : Int :=
  let day := passover y + 112
  if day % 7 = 6 then day + 1 else day

/-- 10 Tishri. -/
def yomKippur (y : Int) : Int := roshHashanah y + 9

/-- 15 Tishri. -/
def sukkot (y : Int) : Int := roshHashanah y + 14

/-- 22 Tishri. -/
def simchatTorah (y : Int) : Int := roshHashanah y + 21

/-- The holidays of the Gregorian year `y`: Purim, the first and the seventh day of Passover, Memorial Day and
Independence Day, Shavuot, 9 Av, both days of the new year, and Yom Kippur, Sukkot and Simchat Torah, each with
the day before. -/
def holidays (y : Int) : List Int :=
  [purim y, passover y, passover y + 6, independenceDay y - 1, independenceDay y, shavuot y, fastOfAv y,
   roshHashanah y, roshHashanah y + 1, yomKippur y - 1, yomKippur y, sukkot y - 1, sukkot y,
   simchatTorah y - 1, simchatTorah y]

/-- The days before the first and the seventh day of Passover, before Shavuot and before the new year. -/
def furtherEves (y : Int) : List Int := [passover y - 1, passover y + 5, shavuot y - 1, roshHashanah y - 1]

/-- The date is a holiday; the further eves count up to 2020. -/
def IsHoliday (d : Date) : Prop :=
  Date.serialDate d ∈ holidays d.year ∨ (d.year ≤ 2020 ∧ Date.serialDate d ∈ furtherEves d.year)

instance (d : Date) : Decidable (IsHoliday d) := by unfold IsHoliday; infer_instance

end Qlab.Spec.Hebrew
