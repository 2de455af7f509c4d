import Verif.Check.FloatRun
import Verif.Py.Real
import Verif.Props.Guard
import Verif.Props.Naive
import Verif.Props.Time
import Verif.Props.Instant
import Verif.Props.Direction
import Verif.Props.Sky
import Verif.Props.Fast
import Verif.Props.Refraction
import Verif.Props.Radiation
import Verif.Props.Elevation
import Verif.Props.Irradiance
import Verif.Props.Sunrise
import Verif.Props.Simulate
import Verif.Props.Horizon
import Verif.Props.Switch
import Verif.Props.Rest
import Verif.Props.Cache
import Verif.Props.DeltaTGen
import Verif.Props.Backends
import Verif.Spec.SunDirection
import Verif.Props.Accuracy
import Verif.Props.Formulas
import Verif.Proofs.Motion
import Verif.Props.Motion
import Verif.Spec.Rest2
import Verif.Props.RestFormulas
import Verif.Props.IrradianceFormulas
import Verif.Check.UsnoCsv
import Verif.Model.SharedDict
import Verif.Props.SharedDict
import Verif.Py.Rounded
import Verif.Proofs.Binary64
import Verif.Props.Float
import Verif.Props.FloatAltitude
import Verif.Props.FastAccuracy
import Verif.Props.Seasons
import Verif.Props.SkyMotion
import Verif.Props.SunriseAccuracy
import Verif.Model.QueryUsno
import Verif.Props.Daylight
import Verif.Props.DayCourse
import Verif.Props.QueryUsno
import Verif.Props.FloatFast
import Verif.Props.FloatRadiation
import Verif.Proofs.FloatSunrise
import Verif.Props.FloatSunrise
import Verif.Spec.Almanac
import Verif.Proofs.Almanac
import Verif.Props.Almanac
import Verif.Py.RoundedNumpy
import Verif.Proofs.FloatNumpy
import Verif.Props.FloatNumpy
import Verif.Spec.SpaTables
import Verif.Proofs.SpaTables
import Verif.Props.SpaTables
import Verif.Proofs.FloatPole
import Verif.Props.FloatPole
import Verif.Props.Defaults
import Verif.Proofs.FloatIrr
import Verif.Props.FloatIrradiance
import Verif.Proofs.FloatElev
import Verif.Props.FloatElevation
import Verif.Props.RestLog
import Verif.Props.Mixed
import Verif.Props.DeltaTText
import Verif.Py.Interval
import Verif.Proofs.Interval
import Verif.Model.SolarTest
import Verif.Props.SolarTest
import Verif.Props.SolarTestLines
import Verif.Props.SolarTestDay
import Verif.Props.SimulateExact
import Verif.Py.Shapes
import Verif.Proofs.Shapes
import Verif.Props.Shapes
import Verif.Model.ElevationTest
import Verif.Props.ElevationTest
import Verif.Model.QueryUsnoMain
import Verif.Props.QueryUsnoMain
import Verif.Py.Call
import Verif.Model.Signatures
import Verif.Props.Stubs
import Verif.Model.SimulateFloat
import Verif.Props.SimulateFloat
import Verif.Props.StubEffects
import Verif.Props.NightRadiation
import Verif.Model.UnitTests
import Verif.Props.UnitTests
import Verif.Py.Default
import Verif.Proofs.Default
import Verif.Props.Default
import Verif.Props.DefaultErrors
import Verif.Model.DocExamples
import Verif.Props.DocExamples
import Verif.Proofs.Raises
import Verif.Props.Exceptions
import Verif.Proofs.Steady
import Verif.Props.Steady
import Verif.Props.Apparent
import Verif.Props.Climb
import Verif.Props.FloatClimb
import Verif.Props.MidSwitch
import Verif.Props.Notebook
import Verif.Props.QueryUsnoGather
import Verif.Props.MorningRadiation
import Verif.Props.Turning
import Verif.Props.FastCourse
import Verif.Props.FloatTurning
import Verif.Props.Place
import Verif.Proofs.HalfDay
import Verif.Proofs.SunriseStep
import Verif.Props.SunriseShift
import Verif.Proofs.BallExp
import Verif.Proofs.RestBall
import Verif.Props.FloatRest
import Verif.Proofs.NonFinite
import Verif.Props.Undefined
import Verif.Props.SimulateNaive
import Verif.Props.FastPlace
import Verif.Props.Atmosphere
import Verif.Props.InfiniteElevation
import Verif.Props.RadiationSlope
import Verif.Props.Incidence
import Verif.Props.FastZenith
import Verif.Props.FastEquinox
import Verif.Props.BearingDouble
import Verif.Props.AngleRange
import Verif.Props.NonNegative
import Verif.Props.Underflow
import Verif.Props.YearlyRange
import Verif.Props.RadiationSlopeSample
import Verif.Props.RestFraction
import Verif.Props.PressureDouble
import Verif.Props.RadiationMono
import Verif.Props.EphemerisDouble
import Verif.Props.SolarDayDouble
import Verif.Props.ExtraterrestrialDouble
import Verif.Props.UtilRange
import Verif.Props.ClearIndexDouble
import Verif.Props.DirectExcess
import Verif.Props.DiffuseZenith
import Verif.Props.SkyOrder
import Verif.Props.RatioDouble
import Verif.Props.TransmittanceDouble
import Verif.Props.DiffuseDouble
import Verif.Props.DocumentedDouble
