import Verif.Model.Utils
import Verif.Model.Bed
import Verif.Proofs.Utils
import Verif.Proofs.Bed
import Verif.Proofs.BedUpdate
import Verif.Model.Interp
import Verif.Proofs.Interp
import Verif.Model.Rotate
import Verif.Props.Bed
import Verif.Props.BedMore
import Verif.Props.Interp
import Verif.Props.Utils
import Verif.Model.PyDict
import Verif.Proofs.PyDict
import Verif.Model.State
import Verif.Spec.State
import Verif.Proofs.State
import Verif.Props.State
import Verif.Model.Run
import Verif.Proofs.Run
import Verif.Props.Run
import Verif.Model.Output
import Verif.Spec.Output
import Verif.Proofs.Output
import Verif.Props.Output
import Verif.Model.Avalanche
import Verif.Proofs.Avalanche
import Verif.Props.Avalanche
import Verif.Model.Weights
import Verif.Model.Solver
import Verif.Spec.Solver
import Verif.Spec.SolverOrder
import Verif.Proofs.Solver
import Verif.Proofs.SolverMatrix
import Verif.Proofs.SolverSolution
import Verif.Proofs.SolverBudget
import Verif.Props.Weights
import Verif.Props.SolverSystem
import Verif.Model.PyStr
import Verif.Model.XReal
import Verif.Model.Transport
import Verif.Spec.Transport
import Verif.Proofs.Transport
import Verif.Props.Transport
import Verif.Props.TransportMore
import Verif.Model.Threshold
import Verif.Spec.Threshold
import Verif.Proofs.Threshold
import Verif.Props.Threshold
import Verif.Props.MoistThreshold
import Verif.Props.ThresholdMore
import Verif.Model.Hydro
import Verif.Model.Moisture
import Verif.Model.Groundwater
import Verif.Proofs.Hydro
import Verif.Proofs.Moisture
import Verif.Props.Hydro
import Verif.Props.Moisture
import Verif.Props.Scanning
import Verif.Props.Groundwater
import Verif.Model.Vegetation
import Verif.Model.Wind
import Verif.Model.Lee
import Verif.Props.Vegetation
import Verif.Props.VegetationMore
import Verif.Props.Wind
import Verif.Props.WindMore
import Verif.Props.Lee
import Verif.Model.Config
import Verif.Spec.Config
import Verif.Spec.ConfigFile
import Verif.Proofs.Config
import Verif.Proofs.ConfigPrint
import Verif.Proofs.ConfigFile
import Verif.Props.Config
import Verif.Props.ConfigFile
import Verif.Props.Backup
import Verif.Model.Generator
import Verif.Model.Erosion
import Verif.Model.Grid
import Verif.Proofs.Generator
import Verif.Props.Generator
import Verif.Props.Erosion
import Verif.Props.Grid
import Verif.Model.SolverFV
import Verif.Spec.SolverFV
import Verif.Proofs.SolverFVMatrix
import Verif.Proofs.SolverFVForm
import Verif.Proofs.SolverFVSolution
import Verif.Proofs.SolverFVUnique
import Verif.Proofs.SolverFVBudget
import Verif.Proofs.SolverFVNonneg
import Verif.Proofs.SolverFVLoop
import Verif.Props.SolverFV
import Verif.Props.SolverEnds
import Verif.Model.BedGrid
import Verif.Proofs.BedGrid
import Verif.Props.BedGrid
import Verif.Model.Runner
import Verif.Spec.Runner
import Verif.Proofs.Runner
import Verif.Proofs.RunnerProgress
import Verif.Props.Runner
import Verif.Model.SolverSteady
import Verif.Spec.SolverSteady
import Verif.Proofs.SolverSteady
import Verif.Props.SolverSteady
import Verif.Props.SolverOrder
import Verif.Props.SolverRows
import Verif.Props.StepLimit
import Verif.Props.AnySettings
import Verif.Props.GroundwaterMore
import Verif.Model.Resample
import Verif.Spec.Resample
import Verif.Model.Shear
import Verif.Spec.Shear
import Verif.Proofs.Resample
import Verif.Proofs.ShearGrid
import Verif.Proofs.ShearFourier
import Verif.Proofs.ShearStress
import Verif.Props.Resample
import Verif.Props.Shear
import Verif.Props.ShearWaves
import Verif.Props.ShearFilter
import Verif.Model.Separation1d
import Verif.Proofs.Separation1d
import Verif.Props.Separation1d
import Verif.Model.Fence2d
import Verif.Proofs.Fence2d
import Verif.Props.Fence2d
import Verif.Proofs.SolverBudgetAny
import Verif.Props.SolverBudgetAny
import Verif.Model.Sand
import Verif.Spec.Sand
import Verif.Proofs.Sand
import Verif.Props.SandBudget
import Verif.Proofs.BedLarge
import Verif.Props.BedLarge
import Verif.Model.Arrays
import Verif.Proofs.Arrays
import Verif.Props.InputGrids
import Verif.Props.Dump
import Verif.Model.Metadata
import Verif.Props.Metadata
import Verif.Model.Session
import Verif.Props.Session
import Verif.Props.SandAvalanche
import Verif.Model.SandStep
import Verif.Props.SandInvariant
import Verif.Model.HydroStep
import Verif.Proofs.HydroStep
import Verif.Props.HydroStep
import Verif.Model.Whole
import Verif.Proofs.Whole
import Verif.Props.Whole
import Verif.Props.WholeErosion
import Verif.Proofs.SolverTransect
import Verif.Props.SolverTransect
import Verif.Props.SolverBound
import Verif.Props.WholeBound
import Verif.Props.WholeExamples
import Verif.Model.Duran
import Verif.Props.Duran
import Verif.Model.Coupled
import Verif.Props.Coupled
import Verif.Props.WholeBudget
import Verif.Props.Fractions
import Verif.Proofs.SolveTrace
import Verif.Props.WholeTrace
import Verif.Props.WholeOffshore
import Verif.Model.Full
import Verif.Proofs.Full
import Verif.Props.Full
import Verif.Props.FullRun
import Verif.Props.FullBudget
import Verif.Props.FullWater
import Verif.Props.FullRange
import Verif.Props.FullSlopes
import Verif.Props.NoLayer
import Verif.Model.PlanarGround
import Verif.Proofs.PlanarGround
import Verif.Props.PlanarGround
import Verif.Props.GroundTrace
import Verif.Model.Planar
import Verif.Proofs.Planar
import Verif.Props.Planar
import Verif.Props.PlanarRun
import Verif.Props.PlanarBudget
import Verif.Props.PlanarWater
import Verif.Props.PlanarRange
import Verif.Props.PlanarSlopes
import Verif.Props.PlanarExamples
import Verif.Model.Program
import Verif.Props.Program
import Verif.Model.PlanarProgram
import Verif.Props.PlanarProgram
import Verif.Props.ProgramAny
import Verif.Props.PlanarProgramAny
import Verif.Props.Renumbered
import Verif.Props.AvalancheFrame
import Verif.Props.SolverReversed
import Verif.Props.SolverTurned
import Verif.Props.AvalancheDepth
import Verif.Props.DatumWhole
import Verif.Props.Datum
import Verif.Props.DatumFull
import Verif.Props.DatumProgram
import Verif.Props.TimeOrigin
import Verif.Props.PlanarTime
import Verif.Props.PlanarDatum
import Verif.Props.SolverColumns
