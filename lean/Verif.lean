import Verif.Conformance
import Verif.Lemmas.AutoDiff
import Verif.Lemmas.BSpline
import Verif.Lemmas.ComputeApi
import Verif.Lemmas.ContCall
import Verif.Lemmas.ContScene
import Verif.Lemmas.ElementPoint
import Verif.Lemmas.Energy
import Verif.Lemmas.ExampleBody
import Verif.Lemmas.ExampleScene
import Verif.Lemmas.Fill
import Verif.Lemmas.Fisher
import Verif.Lemmas.Fold
import Verif.Lemmas.GridBox
import Verif.Lemmas.GridEmbed
import Verif.Lemmas.Kernel1D
import Verif.Lemmas.KernelDeriv
import Verif.Lemmas.Kick
import Verif.Lemmas.LatAflip
import Verif.Lemmas.LatForces
import Verif.Lemmas.LatKernel
import Verif.Lemmas.LatObstacle
import Verif.Lemmas.LatScene
import Verif.Lemmas.LatSym
import Verif.Lemmas.LatTransfer
import Verif.Lemmas.Local
import Verif.Lemmas.LocalScene
import Verif.Lemmas.Ravel
import Verif.Lemmas.RealFns
import Verif.Lemmas.SceneEst
import Verif.Lemmas.SceneGrid
import Verif.Lemmas.SceneRel
import Verif.Lemmas.SceneUnique
import Verif.Lemmas.SceneWall
import Verif.Lemmas.SlabSum
import Verif.Lemmas.SplitScene
import Verif.Lemmas.Stencil
import Verif.Lemmas.StressRun
import Verif.Lemmas.Tensor
import Verif.Lemmas.Transfer
import Verif.Lemmas.TransferBox
import Verif.Lemmas.UnitScene
import Verif.Lemmas.Units
import Verif.Model.Asflip
import Verif.Model.AutoDiff
import Verif.Model.Basic
import Verif.Model.Builder
import Verif.Model.Calibration
import Verif.Model.CamClay
import Verif.Model.Derived
import Verif.Model.ElementTest
import Verif.Model.Figures
import Verif.Model.Float
import Verif.Model.FloatScatter
import Verif.Model.Floor
import Verif.Model.Forces
import Verif.Model.Generate
import Verif.Model.Grid
import Verif.Model.IEEE
import Verif.Model.LawTable
import Verif.Model.Laws
import Verif.Model.Mapping
import Verif.Model.MaterialPoints
import Verif.Model.MathHelpers
import Verif.Model.Procedures
import Verif.Model.Restart
import Verif.Model.Rounding
import Verif.Model.Scripts
import Verif.Model.Sdf
import Verif.Model.SdfDiff
import Verif.Model.SdfMore
import Verif.Model.ShapeFn
import Verif.Model.SimIO
import Verif.Model.Step
import Verif.Model.Study
import Verif.Model.TrxFigure
import Verif.Model.Uepi
import Verif.Model.Usl
import Verif.Model.Visual
import Verif.Props.Accuracy
import Verif.Props.AffineEnergy
import Verif.Props.AflipMomentum
import Verif.Props.Angular
import Verif.Props.AutoDiff
import Verif.Props.Blend
import Verif.Props.Builder
import Verif.Props.Calibration
import Verif.Props.CamClay
import Verif.Props.CamClayReturn
import Verif.Props.CamClaySolution
import Verif.Props.Contact
import Verif.Props.Continuity
import Verif.Props.ContinuityYield
import Verif.Props.Coulomb
import Verif.Props.CoulombRun
import Verif.Props.CriticalRobust
import Verif.Props.CriticalState
import Verif.Props.CriticalTest
import Verif.Props.CubicWall
import Verif.Props.DampingEnergy
import Verif.Props.DampingRest
import Verif.Props.Deformation
import Verif.Props.Dependence
import Verif.Props.DependenceContact
import Verif.Props.Derived
import Verif.Props.DomainSize
import Verif.Props.DrainedExists
import Verif.Props.DrainedLimit
import Verif.Props.DrainedState
import Verif.Props.DrainedTest
import Verif.Props.DriverControl
import Verif.Props.DriverDrained
import Verif.Props.DriverYield
import Verif.Props.DruckerPrager
import Verif.Props.Elastic
import Verif.Props.ElasticWork
import Verif.Props.ElementLink
import Verif.Props.ElementTest
import Verif.Props.EnergyBalance
import Verif.Props.Failure
import Verif.Props.Figures
import Verif.Props.FloatGrid
import Verif.Props.FloatScatter
import Verif.Props.Floor
import Verif.Props.Flow
import Verif.Props.Frame
import Verif.Props.FreeFall
import Verif.Props.Galilean
import Verif.Props.GalileanAflip
import Verif.Props.Gather
import Verif.Props.Generate
import Verif.Props.GradNan
import Verif.Props.Helpers
import Verif.Props.Invariants
import Verif.Props.Inversion
import Verif.Props.Isotropy
import Verif.Props.LatticeAflip
import Verif.Props.LatticeSymmetry
import Verif.Props.Locality
import Verif.Props.Mapping
import Verif.Props.MaxPrinciple
import Verif.Props.Momentum
import Verif.Props.NewtonLoop
import Verif.Props.NormalNan
import Verif.Props.ObstacleEnergy
import Verif.Props.ObstacleRest
import Verif.Props.PatchExample
import Verif.Props.PatchTest
import Verif.Props.PlasticWork
import Verif.Props.PointForces
import Verif.Props.Procedures
import Verif.Props.RateFree
import Verif.Props.Renumbering
import Verif.Props.Reset
import Verif.Props.Restart
import Verif.Props.Rounding
import Verif.Props.Scatter
import Verif.Props.Scripts
import Verif.Props.Sdf
import Verif.Props.SdfDistance
import Verif.Props.SdfHollow
import Verif.Props.SdfNormal
import Verif.Props.SdfStar
import Verif.Props.SdfTable
import Verif.Props.SharedGrid
import Verif.Props.ShortSteps
import Verif.Props.SimIO
import Verif.Props.Slab
import Verif.Props.SlabClay
import Verif.Props.SlabClayExample
import Verif.Props.SlabExample
import Verif.Props.SlabFluid
import Verif.Props.SlabFluidExample
import Verif.Props.SlabRun
import Verif.Props.SlabSand
import Verif.Props.SlabSandExample
import Verif.Props.SlabThickness
import Verif.Props.SlopeFlow
import Verif.Props.Spin
import Verif.Props.Splitting
import Verif.Props.SplittingAflip
import Verif.Props.SplittingLaws
import Verif.Props.StableStep
import Verif.Props.Steady
import Verif.Props.Study
import Verif.Props.Symmetry
import Verif.Props.Transfer
import Verif.Props.TrxFigure
import Verif.Props.Uepi
import Verif.Props.UepiSolution
import Verif.Props.UepiUnique
import Verif.Props.Units
import Verif.Props.Visual
import Verif.Props.Walls
import Verif.Props.WholeCells
import Verif.Props.WholeCellsAflip
import Verif.Spec.Interp
import Verif.Spec.Stress
