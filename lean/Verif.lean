import Verif.Model.AdjustN2
import Verif.Model.Align
import Verif.Model.AlignDerived
import Verif.Model.Attrs
import Verif.Model.AttrsAverage
import Verif.Model.AttrsReference
import Verif.Model.Average
import Verif.Model.AverageDS
import Verif.Model.Calendar
import Verif.Model.Coriolis
import Verif.Model.DA
import Verif.Model.Dataset
import Verif.Model.Derived
import Verif.Model.Dz
import Verif.Model.DzBare
import Verif.Model.Eos
import Verif.Model.Fl
import Verif.Model.Geolocate
import Verif.Model.Grid
import Verif.Model.N2Interfaces
import Verif.Model.Overflow
import Verif.Model.Pinv
import Verif.Model.PyStr
import Verif.Model.Rounding
import Verif.Model.RoundingArea
import Verif.Model.RoundingAverage
import Verif.Model.RoundingDz
import Verif.Model.RoundingGlobal
import Verif.Model.RoundingN2
import Verif.Model.RoundingSpice
import Verif.Model.RoundingSurface
import Verif.Model.RoundingUnits
import Verif.Model.RoundingVort
import Verif.Model.RoundingWave
import Verif.Model.Season
import Verif.Model.Spice
import Verif.Model.Steric
import Verif.Model.TestData
import Verif.Model.Tidegauge
import Verif.Model.TimeStub
import Verif.Model.Trend
import Verif.Model.TrendCut
import Verif.Model.Util
import Verif.Model.Validate
import Verif.Model.XGrid
import Verif.Spec.Attrs
import Verif.Spec.Average
import Verif.Spec.Beside
import Verif.Spec.Calendar
import Verif.Spec.Cells
import Verif.Spec.Column
import Verif.Spec.Corner
import Verif.Spec.Dz
import Verif.Spec.Eos
import Verif.Spec.Flament
import Verif.Spec.Geolocate
import Verif.Spec.Gradient
import Verif.Spec.Labels
import Verif.Spec.Linear
import Verif.Spec.Order
import Verif.Spec.Pick
import Verif.Spec.Pressure
import Verif.Spec.Refine
import Verif.Spec.Rounding
import Verif.Spec.RoundingAverage
import Verif.Spec.Season
import Verif.Spec.SeasonTimes
import Verif.Spec.Sphere
import Verif.Spec.Sum
import Verif.Spec.TestData
import Verif.Spec.Tidegauge
import Verif.Spec.TimeSeries
import Verif.Spec.Transpose
import Verif.Spec.Trend
import Verif.Spec.Validate
import Verif.Spec.Wave
import Verif.Lemmas.AdjustN2
import Verif.Lemmas.Align
import Verif.Lemmas.Bernstein
import Verif.Lemmas.Calendar
import Verif.Lemmas.Combos
import Verif.Lemmas.DA
import Verif.Lemmas.Deseason
import Verif.Lemmas.Dz
import Verif.Lemmas.Gradient
import Verif.Lemmas.GradientError
import Verif.Lemmas.Group
import Verif.Lemmas.Interp
import Verif.Lemmas.Labels
import Verif.Lemmas.LeastSquares
import Verif.Lemmas.Midpoint
import Verif.Lemmas.MidpointRule
import Verif.Lemmas.Near
import Verif.Lemmas.Oscillation
import Verif.Lemmas.Overflow
import Verif.Lemmas.Pick
import Verif.Lemmas.Rounding
import Verif.Lemmas.Season
import Verif.Lemmas.Spice
import Verif.Lemmas.Steric
import Verif.Lemmas.Sum
import Verif.Lemmas.TimeSeries
import Verif.Lemmas.Transpose
import Verif.Lemmas.Trend
import Verif.Lemmas.Wright
import Verif.Lemmas.WrightBounds
import Verif.Lemmas.WrightDiff
import Verif.Lemmas.WrightPressure
import Verif.Lemmas.WrightSalt
import Verif.Lemmas.XGrid
import Verif.Props.AdjustN2
import Verif.Props.Align
import Verif.Props.AlignDerived
import Verif.Props.AlignExamples
import Verif.Props.AlignGlobal
import Verif.Props.AlignSame
import Verif.Props.Annual
import Verif.Props.AnnualCycle
import Verif.Props.Attrs
import Verif.Props.AttrsAverage
import Verif.Props.AttrsReference
import Verif.Props.AverageDS
import Verif.Props.AverageOrder
import Verif.Props.Barometer
import Verif.Props.Bottom
import Verif.Props.CellSize
import Verif.Props.ChangeRef
import Verif.Props.Coriolis
import Verif.Props.CycleStats
import Verif.Props.DailyAnnual
import Verif.Props.DailyCycle
import Verif.Props.DailyExtremes
import Verif.Props.Deseason
import Verif.Props.DeseasonAttrs
import Verif.Props.DimOrder
import Verif.Props.DimOrderDerived
import Verif.Props.DimOrderSeason
import Verif.Props.Dz
import Verif.Props.DzBare
import Verif.Props.DzErrors
import Verif.Props.DzLimits
import Verif.Props.DzRange
import Verif.Props.Eos
import Verif.Props.ExamplesDerived
import Verif.Props.ExamplesMisc
import Verif.Props.ExamplesSteric
import Verif.Props.GaugeTime
import Verif.Props.Geolocate
import Verif.Props.GeolocateErrors
import Verif.Props.GeolocateParts
import Verif.Props.Grid
import Verif.Props.LevelCoords
import Verif.Props.Linear
import Verif.Props.LinearSeries
import Verif.Props.Local
import Verif.Props.LocalTime
import Verif.Props.Mass
import Verif.Props.MeanHeight
import Verif.Props.Monthly
import Verif.Props.N2
import Verif.Props.N2Error
import Verif.Props.N2Interfaces
import Verif.Props.N2Sensitivity
import Verif.Props.N2Sign
import Verif.Props.NoDepths
import Verif.Props.Overflow
import Verif.Props.Poles
import Verif.Props.PotentialOrder
import Verif.Props.PressureDims
import Verif.Props.PvEdges
import Verif.Props.Recorded
import Verif.Props.ReferenceMissing
import Verif.Props.Refine
import Verif.Props.RefineGlobal
import Verif.Props.Reorder
import Verif.Props.RossbyErrors
import Verif.Props.Rounding
import Verif.Props.RoundingArea
import Verif.Props.RoundingAverage
import Verif.Props.RoundingDz
import Verif.Props.RoundingGlobal
import Verif.Props.RoundingN2
import Verif.Props.RoundingSpice
import Verif.Props.RoundingSurface
import Verif.Props.RoundingUnits
import Verif.Props.RoundingVort
import Verif.Props.RoundingWave
import Verif.Props.Season
import Verif.Props.SeasonCases
import Verif.Props.SeasonLinear
import Verif.Props.SeasonOrigin
import Verif.Props.SeasonSampling
import Verif.Props.SeasonSize
import Verif.Props.SeasonTimes
import Verif.Props.SeasonTrend
import Verif.Props.SmoothSeries
import Verif.Props.Spice
import Verif.Props.SpiceErrors
import Verif.Props.SpiceSign
import Verif.Props.Stability
import Verif.Props.StabilityFloor
import Verif.Props.StabilityRatio
import Verif.Props.Steric
import Verif.Props.StericAnnual
import Verif.Props.StericErrors
import Verif.Props.StericErrorsGlobal
import Verif.Props.StericQuadrature
import Verif.Props.StericRun
import Verif.Props.StericSuccess
import Verif.Props.StericVariants
import Verif.Props.SurfaceErrors
import Verif.Props.TestData
import Verif.Props.TestDataTime
import Verif.Props.TestDataUse
import Verif.Props.Tidegauge
import Verif.Props.TidegaugeCases
import Verif.Props.TidegaugeErrors
import Verif.Props.TidegaugeMask
import Verif.Props.Tiles
import Verif.Props.TimeStub
import Verif.Props.TotalError
import Verif.Props.Trend
import Verif.Props.TrendCases
import Verif.Props.TrendCut
import Verif.Props.TrendModes
import Verif.Props.TrendSamples
import Verif.Props.TrendSize
import Verif.Props.TrendSmooth
import Verif.Props.TrendUnits
import Verif.Props.TrendYear
import Verif.Props.Util
import Verif.Props.Validate
import Verif.Props.VortSensitivity
import Verif.Props.Vorticity
import Verif.Props.VorticityError
import Verif.Props.VorticityFlows
import Verif.Props.WaveColumn
import Verif.Props.WaveError
import Verif.Props.WaveSensitivity
import Verif.Props.WaveSpeed
import Verif.Props.WrightCurvature
import Verif.Props.WrightSize
import Verif.Audit
