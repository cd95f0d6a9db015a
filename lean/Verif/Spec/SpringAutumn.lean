import Verif.Spec.LunarFestivals

/-!
# Specification of three more festivals of the Chinese lunisolar calendar

Ching Ming is the day on which the sun reaches 15 degrees of longitude.  In this century that is given by a formula.
Buddha's birthday is the eighth day of the fourth month, Chung Yeung the ninth of the ninth.  These days depend on the
hour of the new moon and are given as tables.
-/

namespace Qlab.Spec

/-- Day of April on which the sun reaches 15 degrees, Chinese time, 2001 to 2099. -/
def chingMingDay (y : Int) : Int := (2422 * (y - 2000) + 48100) / 10000 - (y - 2000) / 4

/-- The date is Ching Ming, 2004 to 2026. -/
def IsChingMing (d : Date) : Prop := 2004 ≤ d.year ∧ d.year ≤ 2026 ∧ d.month = 4 ∧ (d.day : Int) = chingMingDay d.year

/-- Buddha's birthdays, 2004 to 2026, Chinese time. -/
def buddhasBirthdays : List (Int × Nat × Nat) :=
  [(2004, 5, 26), (2005, 5, 15), (2006, 5, 5), (2007, 5, 24), (2008, 5, 12), (2009, 5, 2), (2010, 5, 21),
   (2011, 5, 10), (2012, 4, 28), (2013, 5, 17), (2014, 5, 6), (2015, 5, 25), (2016, 5, 14), (2017, 5, 3),
   (2018, 5, 22), (2019, 5, 12), (2020, 4, 30), (2021, 5, 19), (2022, 5, 8), (2023, 5, 26), (2024, 5, 15),
   (2025, 5, 5), (2026, 5, 24)]

/-- Chung Yeung, 2004 to 2026. -/
def chungYeungs : List (Int × Nat × Nat) :=
  [(2004, 10, 22), (2005, 10, 11), (2006, 10, 30), (2007, 10, 19), (2008, 10, 7), (2009, 10, 26), (2010, 10, 16),
   (2011, 10, 5), (2012, 10, 23), (2013, 10, 13), (2014, 10, 2), (2015, 10, 21), (2016, 10, 9), (2017, 10, 28),
   (2018, 10, 17), (2019, 10, 7), (2020, 10, 25), (2021, 10, 14), (2022, 10, 4), (2023, 10, 23), (2024, 10, 11),
   (2025, 10, 29), (2026, 10, 18)]

/-- The date is Buddha's birthday. -/
def IsBuddhasBirthday (d : Date) : Prop := (d.year, d.month, d.day) ∈ buddhasBirthdays

/-- The date is Buddha's birthday in Korea: in 2023 the new moon was after midnight there, and the month a day later. -/
def IsBuddhasBirthdayInKorea (d : Date) : Prop :=
  if d.year = 2023 then d.month = 5 ∧ d.day = 27 else IsBuddhasBirthday d

/-- The date is Chung Yeung. -/
def IsChungYeung (d : Date) : Prop := (d.year, d.month, d.day) ∈ chungYeungs

end Qlab.Spec
