import Verif.Props.Accuracy
import Verif.Props.Bending
import Verif.Props.Bond
import Verif.Props.BondInterest
import Verif.Props.BondParts
import Verif.Props.BondValue
import Verif.Props.Bootstrap
import Verif.Props.BusinessDayCounts
import Verif.Props.BusinessDayRuns
import Verif.Props.CalendarTrait
import Verif.Props.Calendars
import Verif.Props.CatmullRom
import Verif.Props.CatmullRomLines
import Verif.Props.Convex
import Verif.Props.ConvexExact
import Verif.Props.ConvexNatural
import Verif.Props.CurveAccuracy
import Verif.Props.CurveOvershoot
import Verif.Props.CurveShape
import Verif.Props.Dates
import Verif.Props.DayCount
import Verif.Props.Display
import Verif.Props.Easter
import Verif.Props.Equinoxes
import Verif.Props.ErrorText
import Verif.Props.ExactDomains
import Verif.Props.FeastsAsia
import Verif.Props.FixedHolidays
import Verif.Props.FlatExact
import Verif.Props.FlatFloat
import Verif.Props.FloatBond
import Verif.Props.FloatCurve
import Verif.Props.FloatDayCount
import Verif.Props.FloatFlows
import Verif.Props.FloatLinear
import Verif.Props.FloatNatural
import Verif.Props.FloatNodes
import Verif.Props.FloatPrice
import Verif.Props.FloatSplines
import Verif.Props.FlowCount
import Verif.Props.Forward
import Verif.Props.ForwardExact
import Verif.Props.ForwardFloat
import Verif.Props.Hermite
import Verif.Props.HolidayCounts
import Verif.Props.HolidayGaps
import Verif.Props.HolidaysAfricaOceania
import Verif.Props.HolidaysAll
import Verif.Props.HolidaysAmericas
import Verif.Props.HolidaysCentralEurope
import Verif.Props.HolidaysEastAsia
import Verif.Props.HolidaysNorthernEurope
import Verif.Props.HolidaysSouthAsia
import Verif.Props.HolidaysSouthernEurope
import Verif.Props.HolidaysUnitedStates
import Verif.Props.IeeeAccept
import Verif.Props.IeeeBond
import Verif.Props.IeeeCurve
import Verif.Props.IeeeDayCount
import Verif.Props.IeeeFlows
import Verif.Props.IeeeLinear
import Verif.Props.IeeeNatural
import Verif.Props.IeeeOrder
import Verif.Props.IeeePrice
import Verif.Props.IeeeSplinePrice
import Verif.Props.IeeeSplines
import Verif.Props.Invariance
import Verif.Props.IslamicFeasts
import Verif.Props.JewishHolidays
import Verif.Props.JointCalendars
import Verif.Props.KeyRates
import Verif.Props.Lengths
import Verif.Props.Linear
import Verif.Props.Locality
import Verif.Props.LunarFestivals
import Verif.Props.Mirror
import Verif.Props.ModifiedOrder
import Verif.Props.Monotone
import Verif.Props.MonotoneExact
import Verif.Props.NaturalCubic
import Verif.Props.Overshoot
import Verif.Props.OvershootSharp
import Verif.Props.ParRate
import Verif.Props.Periods
import Verif.Props.PillarEffect
import Verif.Props.PillarEffectNatural
import Verif.Props.Redundant
import Verif.Props.Refit
import Verif.Props.Risk
import Verif.Props.Rolling
import Verif.Props.RoundTrips
import Verif.Props.ScheduleDays
import Verif.Props.SplinePrice
import Verif.Props.SpringAutumn
import Verif.Props.Stepping
import Verif.Props.Stretch
import Verif.Props.Superposition
import Verif.Props.Symmetries
import Verif.Props.Tenors
import Verif.Props.ThaiFullMoons
import Verif.Props.Tridiagonal
import Verif.Props.Units
import Verif.Props.YieldCurve
import Verif.Props.YieldToMaturity
import Verif.Conformance.Calendars2023
import Verif.Conformance.Tests
