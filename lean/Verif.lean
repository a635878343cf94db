import Verif.Props.Vector
import Verif.Props.Renumber
import Verif.Props.VectorPartitioned
import Verif.Props.Matrix
import Verif.Props.MatrixPartitioned
import Verif.Props.SolverHistory
import Verif.Props.MatrixDiagonal
import Verif.Props.TyingsPeriodic
import Verif.Props.VectorPartitionedTyings
import Verif.Props.MatrixPartitionedTyings
import Verif.Props.StopList
import Verif.Props.MeshRegular2d
import Verif.Props.MeshTri3
import Verif.Props.MeshHex8
import Verif.Props.ElementBasic
import Verif.Props.ElementQuad4
import Verif.Props.ElementQuad4Mech
import Verif.Props.ElementPlanar
import Verif.Props.ElementAxi
import Verif.Props.Allocate
import Verif.Props.Incidence
import Verif.Props.RefineRegular
import Verif.Props.MeshMeasures
import Verif.Props.ElementHex8
import Verif.Props.ElementGeneric
import Verif.Props.Stitch
import Verif.Props.StitchManual
import Verif.Props.Vstack
import Verif.Props.FineLayer
import Verif.Props.FineLayerEdges
import Verif.Props.FineLayerRoll
import Verif.Props.FineLayerGrid
import Verif.Props.FineLayerAround
import Verif.Props.FineLayerMapping
import Verif.Props.FineLayer2Regular
import Verif.Props.FineLayer3
import Verif.Props.FineLayer3Tiling
import Verif.Props.FineLayer3Sets
import Verif.Props.Surface
import Verif.Props.RectMesh
import Verif.Props.Patch
import Verif.Props.Stiffness
import Verif.Props.Statics
import Verif.Props.PeriodicCell
import Verif.Props.Dynamics
import Verif.Props.VelocityVerlet
import Verif.Props.ParallelElement
import Verif.Props.Parallel
import Verif.Props.ParallelMesh
import Verif.Props.ReproducibleElement
import Verif.Props.Reproducible
import Verif.Spec.Box
import Verif.Lemmas.Box
import Verif.Lemmas.BoxRigid
import Verif.Props.Box
import Verif.Props.Statics3
import Verif.Props.Linear3
import Verif.Lemmas.ExactUU
import Verif.Spec.Static
import Verif.Lemmas.Static
import Verif.Lemmas.StaticBc
import Verif.Props.Static
import Verif.Props.StaticExamples
import Verif.Props.StaticPeriodic
import Verif.Props.StaticMeshes
import Verif.Lemmas.Newton
import Verif.Lemmas.NewtonLoop
import Verif.Props.Newton
import Verif.Props.FiniteStrain
import Verif.Props.StaticManual
import Verif.Spec.Ldlt
import Verif.Props.Spd
import Verif.Lemmas.NewtonFinite
import Verif.Props.NewtonFinite
import Verif.Lemmas.Sheared
import Verif.Props.NewtonHomogeneous
import Verif.Spec.PeriodicCell3
import Verif.Lemmas.Cell3
import Verif.Lemmas.CellState3
import Verif.Props.PeriodicCell3
import Verif.Spec.Axi
import Verif.Lemmas.Axi
import Verif.Props.Axi
import Verif.Props.AxiStatics
import Verif.Props.AxiMeshes
import Verif.Lemmas.Sides
import Verif.Props.Stack
import Verif.Props.StackRegular
import Verif.Model.Python
import Verif.Props.Python
import Verif.Props.Stability
import Verif.Spec.Quadrature
import Verif.Spec.Rounding
import Verif.Lemmas.Rounding
import Verif.Lemmas.RoundingSim
import Verif.Lemmas.RoundingNew
import Verif.Props.Rounding
import Verif.Props.RoundingMatrix
import Verif.Spec.Debug
import Verif.Model.Debug
import Verif.Lemmas.Debug
import Verif.Props.Debug
import Verif.Props.DebugMatrix
import Verif.Props.DebugTyings
import Verif.Model.DebugElement
import Verif.Props.DebugElement
import Verif.Model.DebugMesh
import Verif.Props.DebugMesh
import Verif.Model.DebugFine
import Verif.Props.DebugFine
import Verif.Props.MatrixAssembled
import Verif.Spec.Energy
import Verif.Props.Energy
import Verif.Props.EnergyMeshes
import Verif.Props.Homogenised
import Verif.Spec.SameStructure
import Verif.Props.SameStructure
import Verif.Props.Homogenised3
import Verif.Spec.Energy3
import Verif.Props.Energy3
import Verif.Props.EnergyMeshes3
import Verif.Spec.SameStructure3
import Verif.Props.SameStructure3
import Verif.Spec.EnergyAxi
import Verif.Props.EnergyAxi
import Verif.Props.EnergyMeshesAxi
import Verif.Spec.RefineSolve
import Verif.Lemmas.RefineEnergy
import Verif.Props.RefineEnergy
import Verif.Props.FineLayerEnergy
import Verif.Props.FineLayer3Quad
import Verif.Props.Dynamics3
import Verif.Props.Stability3
import Verif.Props.DynamicsAxi
import Verif.Props.StabilityAxi
import Verif.Props.CriticalStep
import Verif.Props.CriticalAxi
import Verif.Props.StabilityAxiMode
import Verif.Props.CriticalFineLayer
import Verif.Tests.Check
import Verif.Tests.Quad4Regular
import Verif.Tests.Tri3Regular
import Verif.Tests.Hex8Regular
import Verif.Tests.Quad4FineLayer
import Verif.Tests.Hex8FineLayer
import Verif.Tests.Quad4FineLayerGrid
import Verif.Tests.Mesh
import Verif.Tests.Vectors
import Verif.Props.RoundingAxi
import Verif.Props.RoundingVolume
import Verif.Props.RoundingAxiVolume
import Verif.Props.RoundingVolumeHex8
import Verif.Props.RoundingShape
import Verif.Props.RoundingShapeHex8
import Verif.Props.RoundingGrad
import Verif.Props.RoundingGradAxi
