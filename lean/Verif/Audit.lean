import Lean
import Verif.Props.AdjustN2
import Verif.Props.Align
import Verif.Props.AlignDerived
import Verif.Props.AlignExamples
import Verif.Props.AlignGlobal
import Verif.Props.AlignSame
import Verif.Props.Annual
import Verif.Props.AnnualCycle
import Verif.Props.Attrs
import Verif.Props.AttrsAverage
import Verif.Props.AttrsReference
import Verif.Props.AverageDS
import Verif.Props.AverageOrder
import Verif.Props.Barometer
import Verif.Props.Bottom
import Verif.Props.CellSize
import Verif.Props.ChangeRef
import Verif.Props.Coriolis
import Verif.Props.CycleStats
import Verif.Props.DailyAnnual
import Verif.Props.DailyCycle
import Verif.Props.DailyExtremes
import Verif.Props.Deseason
import Verif.Props.DeseasonAttrs
import Verif.Props.DimOrder
import Verif.Props.DimOrderDerived
import Verif.Props.DimOrderSeason
import Verif.Props.Dz
import Verif.Props.DzBare
import Verif.Props.DzErrors
import Verif.Props.DzLimits
import Verif.Props.DzRange
import Verif.Props.Eos
import Verif.Props.ExamplesDerived
import Verif.Props.ExamplesMisc
import Verif.Props.ExamplesSteric
import Verif.Props.GaugeTime
import Verif.Props.Geolocate
import Verif.Props.GeolocateErrors
import Verif.Props.GeolocateParts
import Verif.Props.Grid
import Verif.Props.LevelCoords
import Verif.Props.Linear
import Verif.Props.LinearSeries
import Verif.Props.Local
import Verif.Props.LocalTime
import Verif.Props.Mass
import Verif.Props.MeanHeight
import Verif.Props.Monthly
import Verif.Props.N2
import Verif.Props.N2Error
import Verif.Props.N2Interfaces
import Verif.Props.N2Sensitivity
import Verif.Props.N2Sign
import Verif.Props.NoDepths
import Verif.Props.Overflow
import Verif.Props.Poles
import Verif.Props.PotentialOrder
import Verif.Props.PressureDims
import Verif.Props.PvEdges
import Verif.Props.Recorded
import Verif.Props.ReferenceMissing
import Verif.Props.Refine
import Verif.Props.RefineGlobal
import Verif.Props.Reorder
import Verif.Props.RossbyErrors
import Verif.Props.Rounding
import Verif.Props.RoundingArea
import Verif.Props.RoundingAverage
import Verif.Props.RoundingDz
import Verif.Props.RoundingGlobal
import Verif.Props.RoundingN2
import Verif.Props.RoundingSpice
import Verif.Props.RoundingSurface
import Verif.Props.RoundingUnits
import Verif.Props.RoundingVort
import Verif.Props.RoundingWave
import Verif.Props.Season
import Verif.Props.SeasonCases
import Verif.Props.SeasonLinear
import Verif.Props.SeasonOrigin
import Verif.Props.SeasonSampling
import Verif.Props.SeasonSize
import Verif.Props.SeasonTimes
import Verif.Props.SeasonTrend
import Verif.Props.SmoothSeries
import Verif.Props.Spice
import Verif.Props.SpiceErrors
import Verif.Props.SpiceSign
import Verif.Props.Stability
import Verif.Props.StabilityFloor
import Verif.Props.StabilityRatio
import Verif.Props.Steric
import Verif.Props.StericAnnual
import Verif.Props.StericErrors
import Verif.Props.StericErrorsGlobal
import Verif.Props.StericQuadrature
import Verif.Props.StericRun
import Verif.Props.StericSuccess
import Verif.Props.StericVariants
import Verif.Props.SurfaceErrors
import Verif.Props.TestData
import Verif.Props.TestDataTime
import Verif.Props.TestDataUse
import Verif.Props.Tidegauge
import Verif.Props.TidegaugeCases
import Verif.Props.TidegaugeErrors
import Verif.Props.TidegaugeMask
import Verif.Props.Tiles
import Verif.Props.TimeStub
import Verif.Props.TotalError
import Verif.Props.Trend
import Verif.Props.TrendCases
import Verif.Props.TrendCut
import Verif.Props.TrendModes
import Verif.Props.TrendSamples
import Verif.Props.TrendSize
import Verif.Props.TrendSmooth
import Verif.Props.TrendUnits
import Verif.Props.TrendYear
import Verif.Props.Util
import Verif.Props.Validate
import Verif.Props.VortSensitivity
import Verif.Props.Vorticity
import Verif.Props.VorticityError
import Verif.Props.VorticityFlows
import Verif.Props.WaveColumn
import Verif.Props.WaveError
import Verif.Props.WaveSensitivity
import Verif.Props.WaveSpeed
import Verif.Props.WrightCurvature
import Verif.Props.WrightSize

/-!
# Axiom audit

Fails the build if any theorem of `Momlevel` rests on an axiom other than the three standard ones.
-/

open Lean Elab Command in
run_cmd do
  let env ← getEnv
  let ok := [``propext, ``Classical.choice, ``Quot.sound]
  let mut n : Nat := 0
  for (name, info) in env.constants.toList do
    if (`Momlevel).isPrefixOf name then
      if let .thmInfo _ := info then
        let axs ← liftCoreM (collectAxioms name)
        for a in axs do
          unless ok.contains a do
            throwError "theorem {name} depends on axiom {a}"
        if (`Momlevel.Props).isPrefixOf name && !name.isInternal then n := n + 1
  logInfo m!"audited: {n} theorems in Momlevel.Props, axioms ⊆ {ok}"
