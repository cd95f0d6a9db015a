import Verif.Spec.Dates

/-!
# Specification of three festivals of the Chinese lunisolar calendar

The new year is the first day of the first month, the Dragon Boat Festival the fifth of the fifth month, the
Mid-Autumn Festival the fifteenth of the eighth.  The days depend on the hour of the new moon and are given as tables.
-/

namespace Qlab.Spec

/-- First days of the lunar year, 2004 to 2026. -/
def lunarNewYears : List (Int × Nat × Nat) :=
  [(2004, 1, 22), (2005, 2, 9), (2006, 1, 29), (2007, 2, 18), (2008, 2, 7), (2009, 1, 26), (2010, 2, 14),
   (2011, 2, 3), (2012, 1, 23), (2013, 2, 10), (2014, 1, 31), (2015, 2, 19), (2016, 2, 8), (2017, 1, 28),
   (2018, 2, 16), (2019, 2, 5), (2020, 1, 25), (2021, 2, 12), (2022, 2, 1), (2023, 1, 22), (2024, 2, 10),
   (2025, 1, 29), (2026, 2, 17)]

/-- Mid-Autumn Festivals, 2004 to 2026. -/
def midAutumns : List (Int × Nat × Nat) :=
  [(2004, 9, 28), (2005, 9, 18), (2006, 10, 6), (2007, 9, 25), (2008, 9, 14), (2009, 10, 3), (2010, 9, 22),
   (2011, 9, 12), (2012, 9, 30), (2013, 9, 19), (2014, 9, 8), (2015, 9, 27), (2016, 9, 15), (2017, 10, 4),
   (2018, 9, 24), (2019, 9, 13), (2020, 10, 1), (2021, 9, 21), (2022, 9, 10), (2023, 9, 29), (2024, 9, 17),
   (2025, 10, 6), (2026, 9, 25)]

/-- Dragon Boat Festivals, 2004 to 2024. -/
def dragonBoats : List (Int × Nat × Nat) :=
  [(2004, 6, 22), (2005, 6, 11), (2006, 5, 31), (2007, 6, 19), (2008, 6, 8), (2009, 5, 28), (2010, 6, 16),
   (2011, 6, 6), (2012, 6, 23), (2013, 6, 12), (2014, 6, 2), (2015, 6, 20), (2016, 6, 9), (2017, 5, 30),
   (2018, 6, 18), (2019, 6, 7), (2020, 6, 25), (2021, 6, 14), (2022, 6, 3), (2023, 6, 22), (2024, 6, 10)]

/-- The date is the first day of a lunar year. -/
def IsLunarNewYear (d : Date) : Prop := (d.year, d.month, d.day) ∈ lunarNewYears

/-- The date is a Mid-Autumn Festival. -/
def IsMidAutumn (d : Date) : Prop := (d.year, d.month, d.day) ∈ midAutumns

/-- The date is a Dragon Boat Festival. -/
def IsDragonBoat (d : Date) : Prop := (d.year, d.month, d.day) ∈ dragonBoats

/-- `d` is at least `lo` and at most `hi` days after `n`. -/
def DaysAfter (n : Date) (lo hi : Int) (d : Date) : Prop :=
  Date.serialDate n + lo ≤ Date.serialDate d ∧ Date.serialDate d ≤ Date.serialDate n + hi

end Qlab.Spec
