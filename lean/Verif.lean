import Verif.Basic.Arr
import Verif.Lemmas.Conn
import Verif.Lemmas.Fvm
import Verif.Model.Comm
import Verif.Model.Conn
import Verif.Model.Domain
import Verif.Model.DomainBC
import Verif.Model.DomainNodes
import Verif.Model.DomainPer
import Verif.Model.Frames
import Verif.Model.FramesRun
import Verif.Model.Fvm
import Verif.Model.Geometry
import Verif.Model.Gmsh
import Verif.Model.HaloGhost
import Verif.Model.Interp
import Verif.Model.Job
import Verif.Model.LinRun
import Verif.Model.LinSolve
import Verif.Model.LinSys
import Verif.Model.MeshFile
import Verif.Model.Names
import Verif.Model.Output
import Verif.Model.Part
import Verif.Model.Periodic
import Verif.Model.Proc
import Verif.Model.Run
import Verif.Model.RunDarcy
import Verif.Model.RunPer
import Verif.Model.RunRebind
import Verif.Model.RunSW
import Verif.Model.RunStreamer
import Verif.Model.RunVar
import Verif.Model.SW
import Verif.Model.Streamer
import Verif.Model.Variable
import Verif.Props.Affine
import Verif.Props.AffineDir
import Verif.Props.AffineNeg
import Verif.Props.Comm
import Verif.Props.Conn
import Verif.Props.Constitutive
import Verif.Props.DarcyBounds
import Verif.Props.DarcyConst
import Verif.Props.Diamond
import Verif.Props.Diffusion
import Verif.Props.DomainGeometry
import Verif.Props.ExampleMesh
import Verif.Props.Frames
import Verif.Props.FramesRun
import Verif.Props.Fvm
import Verif.Props.FvmStability
import Verif.Props.Gauss
import Verif.Props.Geometry
import Verif.Props.Gmsh
import Verif.Props.Gradient
import Verif.Props.HaloGhost
import Verif.Props.Interp
import Verif.Props.Interp3
import Verif.Props.Job
import Verif.Props.JobRun
import Verif.Props.Limiter
import Verif.Props.LinBoundary
import Verif.Props.LinSolve
import Verif.Props.LinSys
import Verif.Props.LinSys3
import Verif.Props.Linear
import Verif.Props.MeshFile
import Verif.Props.Moved
import Verif.Props.MovedFit
import Verif.Props.MovedKern
import Verif.Props.MovedMesh
import Verif.Props.MovedNode
import Verif.Props.MovedOrder1
import Verif.Props.MovedRun
import Verif.Props.MovedVar
import Verif.Props.Names
import Verif.Props.Output
import Verif.Props.ParBalance
import Verif.Props.ParBuild2
import Verif.Props.ParBuild3
import Verif.Props.ParCorner
import Verif.Props.ParDiff
import Verif.Props.ParFaceGrad
import Verif.Props.ParFlow
import Verif.Props.ParGeom2
import Verif.Props.ParGeom3
import Verif.Props.ParGhosts
import Verif.Props.ParGlue
import Verif.Props.ParHalo
import Verif.Props.ParInsul
import Verif.Props.ParLaunch
import Verif.Props.ParLin
import Verif.Props.ParLinEq
import Verif.Props.ParMesh
import Verif.Props.ParNodePair2
import Verif.Props.ParNodePair3
import Verif.Props.ParNodeVals
import Verif.Props.ParNodes
import Verif.Props.ParRank
import Verif.Props.ParRank2
import Verif.Props.ParRank3
import Verif.Props.ParRun
import Verif.Props.ParSW
import Verif.Props.ParSWRun
import Verif.Props.ParSerial2
import Verif.Props.ParSerial3
import Verif.Props.ParSides
import Verif.Props.ParSolGrad
import Verif.Props.ParSolid
import Verif.Props.ParSpread
import Verif.Props.ParStencil
import Verif.Props.ParStencilEq
import Verif.Props.ParTopo
import Verif.Props.ParValues
import Verif.Props.ParVar
import Verif.Props.Parallel
import Verif.Props.Parallel3
import Verif.Props.ParallelLin
import Verif.Props.ParallelVar
import Verif.Props.Part
import Verif.Props.PerCross
import Verif.Props.PerDiff
import Verif.Props.PerDir
import Verif.Props.PerDom
import Verif.Props.PerFlow
import Verif.Props.PerGrad
import Verif.Props.PerNode
import Verif.Props.PerRun
import Verif.Props.PerSer2
import Verif.Props.PerSer3
import Verif.Props.PerUpd
import Verif.Props.PerWorld
import Verif.Props.Periodic
import Verif.Props.PeriodicExample
import Verif.Props.PeriodicPar
import Verif.Props.PeriodicRun
import Verif.Props.Proc
import Verif.Props.Rebind
import Verif.Props.Renum
import Verif.Props.RenumMesh
import Verif.Props.RenumNode
import Verif.Props.RenumRun
import Verif.Props.RenumVar
import Verif.Props.RunDarcy
import Verif.Props.RunEnd
import Verif.Props.RunFlow
import Verif.Props.RunStreamer
import Verif.Props.SW
import Verif.Props.SWFirst
import Verif.Props.SWFlux
import Verif.Props.SWGlue
import Verif.Props.SWLake
import Verif.Props.SWRun
import Verif.Props.SWTracer
import Verif.Props.Slip
import Verif.Props.StepSize
import Verif.Props.StrCharge
import Verif.Props.StrGauss
import Verif.Props.StrStale
import Verif.Props.Streamer
import Verif.Props.Superpose
import Verif.Props.SuperposePer
import Verif.Props.TimeUnit
import Verif.Props.Variable
import Verif.Props.ZeroPoint
import Verif.Spec.Affine
import Verif.Spec.Conn
import Verif.Spec.Constitutive
import Verif.Spec.DarcyRun
import Verif.Spec.Frames
import Verif.Spec.FramesRun
import Verif.Spec.Fvm
import Verif.Spec.Geometry
import Verif.Spec.Gmsh
import Verif.Spec.HaloGhost
import Verif.Spec.Interp
import Verif.Spec.LinField
import Verif.Spec.LinSolve
import Verif.Spec.LinSys
import Verif.Spec.Motion
import Verif.Spec.Names
import Verif.Spec.Output
import Verif.Spec.Parallel
import Verif.Spec.ParallelBC
import Verif.Spec.ParallelRun
import Verif.Spec.Part
import Verif.Spec.Periodic
import Verif.Spec.PeriodicDiff
import Verif.Spec.PeriodicGrad
import Verif.Spec.PeriodicRun
import Verif.Spec.Renum
import Verif.Spec.RunFlow
import Verif.Spec.SW
import Verif.Spec.SWRun
import Verif.Spec.Schedule
import Verif.Spec.StepSize
import Verif.Spec.Streamer
import Verif.Spec.StreamerRun
import Verif.Spec.Superpose
import Verif.Spec.TimeUnit
import Verif.Spec.Variable
import Verif.Spec.ZeroPoint
