import Verif.Lemmas.AdvanceUnits
import Verif.Lemmas.Alike
import Verif.Lemmas.Along
import Verif.Lemmas.AmrSand
import Verif.Lemmas.BinaryBudget
import Verif.Lemmas.BinaryDisk
import Verif.Lemmas.BinaryExtend
import Verif.Lemmas.BinaryFlux
import Verif.Lemmas.BinaryFluxes
import Verif.Lemmas.BinaryPositive
import Verif.Lemmas.BinarySetup
import Verif.Lemmas.BinarySources
import Verif.Lemmas.BinaryUnits
import Verif.Lemmas.BinaryUpdate
import Verif.Lemmas.BufferSteps
import Verif.Lemmas.Buffers
import Verif.Lemmas.CloudFound
import Verif.Lemmas.Config
import Verif.Lemmas.Counted
import Verif.Lemmas.Double
import Verif.Lemmas.FluxCorrection
import Verif.Lemmas.GridInverse
import Verif.Lemmas.Grids
import Verif.Lemmas.Hdf5
import Verif.Lemmas.Hlle
import Verif.Lemmas.Kepler
import Verif.Lemmas.KeplerNewton
import Verif.Lemmas.Lines
import Verif.Lemmas.ListHeap
import Verif.Lemmas.Mesh
import Verif.Lemmas.MeshLines
import Verif.Lemmas.Mpi
import Verif.Lemmas.NdArray
import Verif.Lemmas.NdIter
import Verif.Lemmas.NdOps
import Verif.Lemmas.Newton
import Verif.Lemmas.Orbit
import Verif.Lemmas.OrbitElements
import Verif.Lemmas.OrbitUnits
import Verif.Lemmas.Path
import Verif.Lemmas.Prolong
import Verif.Lemmas.Quadtree
import Verif.Lemmas.QuadtreeBlocks
import Verif.Lemmas.QuadtreeDouble
import Verif.Lemmas.QuadtreeLookup
import Verif.Lemmas.Rational
import Verif.Lemmas.Relate
import Verif.Lemmas.Restart
import Verif.Lemmas.Runs
import Verif.Lemmas.RunsExist
import Verif.Lemmas.Schedule
import Verif.Lemmas.Secant
import Verif.Lemmas.SedovBy
import Verif.Lemmas.SourceUnits
import Verif.Lemmas.StdMap
import Verif.Lemmas.StepUnits
import Verif.Lemmas.Text
import Verif.Lemmas.ThreadPool
import Verif.Lemmas.Tree
import Verif.Lemmas.Tree2
import Verif.Model.AmrSand
import Verif.Model.AmrSandRun
import Verif.Model.Atmosphere
import Verif.Model.Binary
import Verif.Model.BinaryDiagnostics
import Verif.Model.BinaryDouble
import Verif.Model.BinarySeries
import Verif.Model.BinarySetup
import Verif.Model.BinaryStep
import Verif.Model.Buffers
import Verif.Model.Cloud
import Verif.Model.CloudDiagnostics
import Verif.Model.CloudFiles
import Verif.Model.CloudGas
import Verif.Model.CloudInflow
import Verif.Model.CloudSetup
import Verif.Model.Config
import Verif.Model.Double
import Verif.Model.Envelope
import Verif.Model.Euler
import Verif.Model.FileSystem
import Verif.Model.FluxCorrection
import Verif.Model.Geometry
import Verif.Model.GroupFiles
import Verif.Model.Groups
import Verif.Model.Handles
import Verif.Model.Hdf5
import Verif.Model.Hyperslab
import Verif.Model.Iso2d
import Verif.Model.JetNozzle
import Verif.Model.LinkedList
import Verif.Model.ListHeap
import Verif.Model.Loop
import Verif.Model.Main
import Verif.Model.Mpi
import Verif.Model.Nan
import Verif.Model.NdArray
import Verif.Model.NdFreeze
import Verif.Model.NdGather
import Verif.Model.NdOps
import Verif.Model.Outcome
import Verif.Model.Parallel
import Verif.Model.ParallelThrows
import Verif.Model.Partdom
import Verif.Model.Path
import Verif.Model.Plm
import Verif.Model.PlmDouble
import Verif.Model.Polynomial
import Verif.Model.Prolong
import Verif.Model.Quadtree
import Verif.Model.QuadtreeDouble
import Verif.Model.Rational
import Verif.Model.Requests
import Verif.Model.Runs
import Verif.Model.Schedule
import Verif.Model.Sedov
import Verif.Model.SedovDouble
import Verif.Model.SedovFiles
import Verif.Model.SedovGas
import Verif.Model.SedovSeries
import Verif.Model.Sequence
import Verif.Model.SequenceDerived
import Verif.Model.Shock
import Verif.Model.SolutionFile
import Verif.Model.Srhd
import Verif.Model.StdMap
import Verif.Model.Text
import Verif.Model.ThreadPool
import Verif.Model.Tree
import Verif.Model.TreeSerialize
import Verif.Model.TwoBody
import Verif.Model.Units
import Verif.Model.Wrap
import Verif.Props.AmrSand
import Verif.Props.AmrSandRun
import Verif.Props.AppRestart
import Verif.Props.Atmosphere
import Verif.Props.Binary
import Verif.Props.BinaryDiagnostics
import Verif.Props.BinaryDisk
import Verif.Props.BinaryDiskMass
import Verif.Props.BinaryDouble
import Verif.Props.BinaryEnds
import Verif.Props.BinaryGas
import Verif.Props.BinaryPositive
import Verif.Props.BinaryRun
import Verif.Props.BinarySafety
import Verif.Props.BinarySeries
import Verif.Props.BinarySetup
import Verif.Props.BinaryShort
import Verif.Props.BinaryStep
import Verif.Props.BinaryTimestep
import Verif.Props.BinaryUnits
import Verif.Props.Buffers
import Verif.Props.Cloud
import Verif.Props.CloudBudget
import Verif.Props.CloudDiagnostics
import Verif.Props.CloudEnds
import Verif.Props.CloudFiles
import Verif.Props.CloudGas
import Verif.Props.CloudLocal
import Verif.Props.CloudMirror
import Verif.Props.CloudSetup
import Verif.Props.Config
import Verif.Props.DoubleRuns
import Verif.Props.EdgeDouble
import Verif.Props.Envelope
import Verif.Props.Euler
import Verif.Props.EulerEigen
import Verif.Props.EulerRiemann
import Verif.Props.FileSystem
import Verif.Props.FluxCorrection
import Verif.Props.Frame
import Verif.Props.FrameRecover
import Verif.Props.Geometry
import Verif.Props.GroupFiles
import Verif.Props.Groups
import Verif.Props.Handles
import Verif.Props.Hilbert
import Verif.Props.Hllc
import Verif.Props.Hyperslab
import Verif.Props.Iso2d
import Verif.Props.JetNozzle
import Verif.Props.LinkedList
import Verif.Props.Linspace
import Verif.Props.ListHeap
import Verif.Props.Main
import Verif.Props.Mpi
import Verif.Props.MpiIrecv
import Verif.Props.MpiValues
import Verif.Props.Nan
import Verif.Props.NdArray
import Verif.Props.NdFreeze
import Verif.Props.NdGather
import Verif.Props.NdOps
import Verif.Props.Parallel
import Verif.Props.ParallelThrows
import Verif.Props.Partdom
import Verif.Props.Path
import Verif.Props.Plm
import Verif.Props.PlmDouble
import Verif.Props.Polynomial
import Verif.Props.Prolong
import Verif.Props.ProlongDouble
import Verif.Props.Quadtree
import Verif.Props.QuadtreeDouble
import Verif.Props.QuadtreeLevels
import Verif.Props.QuadtreeLookup
import Verif.Props.Rational
import Verif.Props.Requests
import Verif.Props.Restart
import Verif.Props.RestartRefused
import Verif.Props.RunEnds
import Verif.Props.Schedule
import Verif.Props.Sedov
import Verif.Props.SedovDouble
import Verif.Props.SedovFiles
import Verif.Props.SedovGas
import Verif.Props.SedovPositive
import Verif.Props.SedovSeries
import Verif.Props.SedovStep
import Verif.Props.Sequence
import Verif.Props.SequenceDerived
import Verif.Props.Shock
import Verif.Props.SolutionFile
import Verif.Props.SphericalSource
import Verif.Props.Srhd
import Verif.Props.SrhdRecover
import Verif.Props.SrhdRiemann
import Verif.Props.Thermo
import Verif.Props.ThreadPool
import Verif.Props.Tree
import Verif.Props.TreeIndex
import Verif.Props.TreeSerialize
import Verif.Props.TwoBody
import Verif.Props.TwoBodyChanges
import Verif.Props.TwoBodyDrift
import Verif.Props.TwoBodyElements
import Verif.Props.TwoBodyFull
import Verif.Props.Units
import Verif.Props.Wrap
import Verif.Spec.AmrSand
import Verif.Spec.Atmosphere
import Verif.Spec.Binary
import Verif.Spec.BinaryGas
import Verif.Spec.BinaryMesh
import Verif.Spec.BinaryReach
import Verif.Spec.BinaryRun
import Verif.Spec.BinarySeries
import Verif.Spec.BinarySetup
import Verif.Spec.BinaryUnits
import Verif.Spec.Buffers
import Verif.Spec.Cloud
import Verif.Spec.CloudDiagnostics
import Verif.Spec.CloudFiles
import Verif.Spec.CloudLocal
import Verif.Spec.CloudMirror
import Verif.Spec.Config
import Verif.Spec.FileSystem
import Verif.Spec.Frame
import Verif.Spec.Groups
import Verif.Spec.Handles
import Verif.Spec.Hyperslab
import Verif.Spec.Lines
import Verif.Spec.ListHeap
import Verif.Spec.Mesh
import Verif.Spec.NdArray
import Verif.Spec.Partdom
import Verif.Spec.Quadtree
import Verif.Spec.QuadtreeDouble
import Verif.Spec.Rational
import Verif.Spec.Requests
import Verif.Spec.Runs
import Verif.Spec.Schedule
import Verif.Spec.SedovDouble
import Verif.Spec.SedovFiles
import Verif.Spec.SedovPositive
import Verif.Spec.SedovSeries
import Verif.Spec.SedovStep
import Verif.Spec.Spherical
import Verif.Spec.ThreadPool
import Verif.Spec.Tree
import Verif.Spec.TwoBody
import Verif.Axioms
