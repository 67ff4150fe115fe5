import Verif.Lemmas.Beam
import Verif.Lemmas.Coefficients
import Verif.Lemmas.ContactKernels
import Verif.Lemmas.ContactMesh
import Verif.Lemmas.ContactProblem
import Verif.Lemmas.ContactProblemGood
import Verif.Lemmas.ContactProblemKernels
import Verif.Lemmas.ContactProblemSteps
import Verif.Lemmas.Coulomb
import Verif.Lemmas.Driver
import Verif.Lemmas.DriverQuadratic
import Verif.Lemmas.Elasticity
import Verif.Lemmas.Energy
import Verif.Lemmas.Entities
import Verif.Lemmas.Extent
import Verif.Lemmas.ExtentTie
import Verif.Lemmas.FacetGeometry
import Verif.Lemmas.FirstStep
import Verif.Lemmas.FrictionDerivative
import Verif.Lemmas.Ghosting
import Verif.Lemmas.Hertz
import Verif.Lemmas.KernelDerivative
import Verif.Lemmas.LocalSolve
import Verif.Lemmas.MeshTieData
import Verif.Lemmas.MeshTieDataGood
import Verif.Lemmas.MeshTieDataRows
import Verif.Lemmas.MeshTieKernels
import Verif.Lemmas.MeshTiePoisson
import Verif.Lemmas.Minimiser
import Verif.Lemmas.NearStep
import Verif.Lemmas.Newton
import Verif.Lemmas.NewtonCallbacks
import Verif.Lemmas.NewtonFrames
import Verif.Lemmas.NewtonSim
import Verif.Lemmas.Nullspace
import Verif.Lemmas.ObstacleForm
import Verif.Lemmas.OneSided
import Verif.Lemmas.OneSidedDriver
import Verif.Lemmas.Output
import Verif.Lemmas.Packing
import Verif.Lemmas.PiecewiseLinear
import Verif.Lemmas.Quadratic
import Verif.Lemmas.RigidKernels
import Verif.Lemmas.Scalars
import Verif.Lemmas.Snes
import Verif.Lemmas.SubMesh
import Verif.Lemmas.System
import Verif.Lemmas.SystemForm
import Verif.Lemmas.SystemJacobian
import Verif.Lemmas.SystemTangent
import Verif.Lemmas.ThermoDemo
import Verif.Lemmas.TieDemos
import Verif.Lemmas.TieEnergy
import Verif.Lemmas.TieSystem
import Verif.Lemmas.TieSystemAssembly
import Verif.Lemmas.TieSystemForm
import Verif.Lemmas.TieSystemRow
import Verif.Lemmas.UflDriver
import Verif.Lemmas.UflEnergy
import Verif.Lemmas.UflError
import Verif.Lemmas.UflForm
import Verif.Lemmas.UflNewton
import Verif.Lemmas.Wedges
import Verif.Lemmas.Zarantonello
import Verif.Lib.AddsAt
import Verif.Lib.Arr
import Verif.Lib.Puts
import Verif.Lib.Radix
import Verif.Lib.Sort
import Verif.Model.Assembly
import Verif.Model.Beam
import Verif.Model.Coefficients
import Verif.Model.Comparison
import Verif.Model.ContactKernels
import Verif.Model.ContactMesh
import Verif.Model.ContactMeshOld
import Verif.Model.ContactMeshes
import Verif.Model.ContactProblem
import Verif.Model.Dispatch
import Verif.Model.Distributed
import Verif.Model.Driver
import Verif.Model.Elasticity
import Verif.Model.Entities
import Verif.Model.FacetMarkers
import Verif.Model.ForceDriven
import Verif.Model.Geometry
import Verif.Model.GhostReads
import Verif.Model.Ghosting
import Verif.Model.Helpers
import Verif.Model.Hertz
import Verif.Model.HertzSteps
import Verif.Model.Krylov
import Verif.Model.LoadSchedule
import Verif.Model.Manufactured
import Verif.Model.Matrix
import Verif.Model.MeshTieData
import Verif.Model.MeshTieKernels
import Verif.Model.Meshing
import Verif.Model.Newton
import Verif.Model.NewtonCallbacks
import Verif.Model.Normals
import Verif.Model.Nullspace
import Verif.Model.OneSided
import Verif.Model.OneSidedDriver
import Verif.Model.Output
import Verif.Model.Packing
import Verif.Model.ParallelDriver
import Verif.Model.Phases
import Verif.Model.Projection
import Verif.Model.Rates
import Verif.Model.RayTracing
import Verif.Model.RigidGap
import Verif.Model.RigidKernels
import Verif.Model.Scalars
import Verif.Model.Search
import Verif.Model.SnesDriver
import Verif.Model.SplitBox
import Verif.Model.SubMesh
import Verif.Model.System
import Verif.Model.Tags
import Verif.Model.ThermoContact
import Verif.Model.ThermoDemo
import Verif.Model.TieArrays
import Verif.Model.TieDemos
import Verif.Model.TieSystem
import Verif.Model.Tree
import Verif.Model.TreePairs
import Verif.Model.UflDriver
import Verif.Model.Wedges
import Verif.Props.Assembly
import Verif.Props.Beam
import Verif.Props.Coefficients
import Verif.Props.Comparison
import Verif.Props.Consistency
import Verif.Props.ContactConsistency
import Verif.Props.ContactEnergy
import Verif.Props.ContactKernels
import Verif.Props.ContactMesh
import Verif.Props.ContactMeshOld
import Verif.Props.ContactMeshes
import Verif.Props.ContactProblem
import Verif.Props.Continuity
import Verif.Props.CoulombWellPosed
import Verif.Props.Detection
import Verif.Props.DetectionModes
import Verif.Props.Dispatch
import Verif.Props.Distributed
import Verif.Props.Driver
import Verif.Props.DriverLocal
import Verif.Props.DriverQuadratic
import Verif.Props.Elasticity
import Verif.Props.Entities
import Verif.Props.FacetMarkers
import Verif.Props.ForceBalance
import Verif.Props.ForceDriven
import Verif.Props.FrictionLimit
import Verif.Props.GapStability
import Verif.Props.Geometry
import Verif.Props.GhostReads
import Verif.Props.Ghosting
import Verif.Props.Helpers
import Verif.Props.Hertz
import Verif.Props.HertzSteps
import Verif.Props.Krylov
import Verif.Props.LastStep
import Verif.Props.LeastEnergy
import Verif.Props.LoadSchedule
import Verif.Props.LoadStep
import Verif.Props.LocalNewton
import Verif.Props.Manufactured
import Verif.Props.MeshTieData
import Verif.Props.MeshTieKernels
import Verif.Props.Meshing
import Verif.Props.Moments
import Verif.Props.Newton
import Verif.Props.NewtonCallbacks
import Verif.Props.NewtonStep
import Verif.Props.Normals
import Verif.Props.Nullspace
import Verif.Props.OneSided
import Verif.Props.OneSidedDriver
import Verif.Props.OneSidedEnergy
import Verif.Props.OneSidedLocal
import Verif.Props.OneSidedStep
import Verif.Props.Output
import Verif.Props.Packing
import Verif.Props.PairOrder
import Verif.Props.ParallelDriver
import Verif.Props.Partition
import Verif.Props.PartitionMatrix
import Verif.Props.Phases
import Verif.Props.Projection
import Verif.Props.Quadratic
import Verif.Props.Rates
import Verif.Props.RayTracing
import Verif.Props.Reactions
import Verif.Props.RigidGap
import Verif.Props.RigidKernels
import Verif.Props.Rotation
import Verif.Props.Scalars
import Verif.Props.Search
import Verif.Props.SlidingBlock
import Verif.Props.SmallFriction
import Verif.Props.Snes
import Verif.Props.SnesUnique
import Verif.Props.Sparsity
import Verif.Props.SplitBox
import Verif.Props.Stability
import Verif.Props.SubMesh
import Verif.Props.System
import Verif.Props.SystemBalance
import Verif.Props.SystemMonotone
import Verif.Props.SystemTangent
import Verif.Props.Tags
import Verif.Props.ThermoContact
import Verif.Props.ThermoDemo
import Verif.Props.TieArrays
import Verif.Props.TieDemos
import Verif.Props.TieLocal
import Verif.Props.TieMoments
import Verif.Props.TieOrder
import Verif.Props.TiePartition
import Verif.Props.TieRotation
import Verif.Props.TieSystem
import Verif.Props.TieUnits
import Verif.Props.TieWellPosed
import Verif.Props.Tree
import Verif.Props.TreeBoundary
import Verif.Props.TreePairs
import Verif.Props.TrescaLimit
import Verif.Props.TrescaSliding
import Verif.Props.UflDriver
import Verif.Props.UflEnergy
import Verif.Props.Units
import Verif.Props.Wedges
import Verif.Props.WellPosed
import Verif.Props.ZeroFriction
import Verif.Spec.Assembly
import Verif.Spec.Beam
import Verif.Spec.Comparison
import Verif.Spec.ContactConsistency
import Verif.Spec.ContactEnergy
import Verif.Spec.ContactLaw
import Verif.Spec.ContactMesh
import Verif.Spec.ContactMeshes
import Verif.Spec.ContactProblem
import Verif.Spec.CoulombWellPosed
import Verif.Spec.Detection
import Verif.Spec.DetectionModes
import Verif.Spec.Distributed
import Verif.Spec.Driver
import Verif.Spec.DriverQuadratic
import Verif.Spec.Elasticity
import Verif.Spec.Energy
import Verif.Spec.FacetGeometry
import Verif.Spec.FacetMarkers
import Verif.Spec.ForceBalance
import Verif.Spec.ForceDriven
import Verif.Spec.FrictionLimit
import Verif.Spec.GapStability
import Verif.Spec.Geometry
import Verif.Spec.GhostReads
import Verif.Spec.Hertz
import Verif.Spec.HertzSteps
import Verif.Spec.Kernels
import Verif.Spec.Krylov
import Verif.Spec.LoadSchedule
import Verif.Spec.LoadStep
import Verif.Spec.Manufactured
import Verif.Spec.MeshTie
import Verif.Spec.MeshTieData
import Verif.Spec.Meshing
import Verif.Spec.Moments
import Verif.Spec.Newton
import Verif.Spec.NewtonCallbacks
import Verif.Spec.NewtonStep
import Verif.Spec.Nullspace
import Verif.Spec.ObstacleEnergy
import Verif.Spec.OneSided
import Verif.Spec.OneSidedDriver
import Verif.Spec.OneSidedWellPosed
import Verif.Spec.Output
import Verif.Spec.Packing
import Verif.Spec.PairOrder
import Verif.Spec.ParallelDriver
import Verif.Spec.Partition
import Verif.Spec.Phases
import Verif.Spec.Projection
import Verif.Spec.Quadratic
import Verif.Spec.Rates
import Verif.Spec.Ray
import Verif.Spec.Reactions
import Verif.Spec.Rigid
import Verif.Spec.RigidGap
import Verif.Spec.Rotation
import Verif.Spec.SlidingBlock
import Verif.Spec.Snes
import Verif.Spec.Sparsity
import Verif.Spec.SplitBox
import Verif.Spec.System
import Verif.Spec.SystemTangent
import Verif.Spec.Tags
import Verif.Spec.ThermoContact
import Verif.Spec.ThermoDemo
import Verif.Spec.TieDemos
import Verif.Spec.TieLocal
import Verif.Spec.TieMoments
import Verif.Spec.TiePartition
import Verif.Spec.TieRotation
import Verif.Spec.TieSystem
import Verif.Spec.TieUnits
import Verif.Spec.TieWellPosed
import Verif.Spec.Tree
import Verif.Spec.TreeBoundary
import Verif.Spec.TreePairs
import Verif.Spec.TrescaLimit
import Verif.Spec.Tuples
import Verif.Spec.UflDriver
import Verif.Spec.UflEnergy
import Verif.Spec.Units
import Verif.Spec.Vec
import Verif.Spec.Wedges
import Verif.Spec.WellPosed
import Verif.Spec.ZeroFriction
