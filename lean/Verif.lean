import Verif.Base.Py
import Verif.Base.V3
import Verif.Examples.FlatDerivs
import Verif.Examples.FlatWing
import Verif.Examples.LL
import Verif.Examples.LineBackend
import Verif.Examples.Prop
import Verif.Examples.UnitPlane
import Verif.Lemmas.Again
import Verif.Lemmas.BiotSavart
import Verif.Lemmas.Calc
import Verif.Lemmas.ControlSlopes
import Verif.Lemmas.CutGrid
import Verif.Lemmas.CutPiece
import Verif.Lemmas.CutPlane
import Verif.Lemmas.CutSection
import Verif.Lemmas.CutSeg
import Verif.Lemmas.DeadControl
import Verif.Lemmas.Follow
import Verif.Lemmas.FollowMir
import Verif.Lemmas.FollowSim
import Verif.Lemmas.Geometry
import Verif.Lemmas.GeometryPos
import Verif.Lemmas.Grid
import Verif.Lemmas.GridGeom
import Verif.Lemmas.GridMap
import Verif.Lemmas.GridMirror
import Verif.Lemmas.Halves
import Verif.Lemmas.Imitate
import Verif.Lemmas.InputFile
import Verif.Lemmas.Jet
import Verif.Lemmas.LLApi
import Verif.Lemmas.LLCalc
import Verif.Lemmas.LLCalcApi
import Verif.Lemmas.LLInputs
import Verif.Lemmas.LLKernel
import Verif.Lemmas.LLSim
import Verif.Lemmas.LineWing
import Verif.Lemmas.ListImage
import Verif.Lemmas.Lock
import Verif.Lemmas.MMatrix
import Verif.Lemmas.MU
import Verif.Lemmas.MUFrame
import Verif.Lemmas.Memory
import Verif.Lemmas.NoLift
import Verif.Lemmas.Omitted
import Verif.Lemmas.OneMore
import Verif.Lemmas.OutOfWay
import Verif.Lemmas.Paired
import Verif.Lemmas.Placed
import Verif.Lemmas.PlaneMirror
import Verif.Lemmas.PlaneMove
import Verif.Lemmas.PlaneOrder
import Verif.Lemmas.PlaneScale
import Verif.Lemmas.Prop
import Verif.Lemmas.PropEnds
import Verif.Lemmas.PropFirst
import Verif.Lemmas.PropMirror
import Verif.Lemmas.PropNames
import Verif.Lemmas.PropOrder
import Verif.Lemmas.PropReads
import Verif.Lemmas.PropSim
import Verif.Lemmas.Relabel
import Verif.Lemmas.SimDerivs
import Verif.Lemmas.Slopes
import Verif.Lemmas.SolveSim
import Verif.Lemmas.Stations
import Verif.Lemmas.Steps
import Verif.Lemmas.Stl
import Verif.Lemmas.StraightFlow
import Verif.Lemmas.StraightGrid
import Verif.Lemmas.Trails
import Verif.Lemmas.Waits
import Verif.Lemmas.WaitsProp
import Verif.Model.AeroCenter
import Verif.Model.Distrib
import Verif.Model.Geometry
import Verif.Model.Goates
import Verif.Model.Grid
import Verif.Model.GridGet
import Verif.Model.InputFile
import Verif.Model.LL
import Verif.Model.LLState
import Verif.Model.MU
import Verif.Model.MUCalls
import Verif.Model.MUInit
import Verif.Model.MUPlane
import Verif.Model.MachUp
import Verif.Model.MachUpFull
import Verif.Model.PropGeom
import Verif.Model.PropGet
import Verif.Model.PropSolve
import Verif.Model.Propwash
import Verif.Model.Session
import Verif.Model.Stall
import Verif.Model.Stl
import Verif.Model.StlCall
import Verif.Spec.AeroCenter
import Verif.Spec.BiotSavart
import Verif.Spec.Blade
import Verif.Spec.CgFree
import Verif.Spec.ControlLine
import Verif.Spec.ControlSlopes
import Verif.Spec.CutWing
import Verif.Spec.DeadControl
import Verif.Spec.Decoupled
import Verif.Spec.Distrib
import Verif.Spec.Flap
import Verif.Spec.FlatControl
import Verif.Spec.FlightCond
import Verif.Spec.Geometry
import Verif.Spec.Grid
import Verif.Spec.Halves
import Verif.Spec.Incomplete
import Verif.Spec.InputFile
import Verif.Spec.Jet
import Verif.Spec.Json
import Verif.Spec.LLConditions
import Verif.Spec.LLEquation
import Verif.Spec.LLInputs
import Verif.Spec.LLSections
import Verif.Spec.MU
import Verif.Spec.MUExact
import Verif.Spec.MUFiles
import Verif.Spec.MUStall
import Verif.Spec.MUTrim
import Verif.Spec.MirrorCalls
import Verif.Spec.Naca
import Verif.Spec.NoLift
import Verif.Spec.Omitted
import Verif.Spec.OutOfWay
import Verif.Spec.Placed
import Verif.Spec.PlaneImage
import Verif.Spec.Prop
import Verif.Spec.PropCalls
import Verif.Spec.PropElement
import Verif.Spec.PropEnds
import Verif.Spec.PropGet
import Verif.Spec.PropInduced
import Verif.Spec.PropKeys
import Verif.Spec.PropNames
import Verif.Spec.PropOrder
import Verif.Spec.PropPair
import Verif.Spec.PropPower
import Verif.Spec.PropReads
import Verif.Spec.PropSim
import Verif.Spec.Rename
import Verif.Spec.Similar
import Verif.Spec.Similarity
import Verif.Spec.Slipstream
import Verif.Spec.Slopes
import Verif.Spec.Stl
import Verif.Spec.StraightWing
import Verif.Spec.Waits
import Verif.Spec.Wake
import Verif.Spec.WingCalls
import Verif.Thm.AeroCenter
import Verif.Thm.BiotSavart
import Verif.Thm.Blade
import Verif.Thm.CgFree
import Verif.Thm.Continuity
import Verif.Thm.ControlSlopes
import Verif.Thm.CraftCg
import Verif.Thm.CraftDerivs
import Verif.Thm.CraftMove
import Verif.Thm.CraftSimilar
import Verif.Thm.CutWing
import Verif.Thm.DeadControl
import Verif.Thm.DeadDistrib
import Verif.Thm.Decoupled
import Verif.Thm.Distrib
import Verif.Thm.DistribAligned
import Verif.Thm.DistribFile
import Verif.Thm.DistribRows
import Verif.Thm.Flap
import Verif.Thm.FlapSection
import Verif.Thm.FlatControl
import Verif.Thm.GeometryBuild
import Verif.Thm.GeometryPos
import Verif.Thm.Goates
import Verif.Thm.Grid
import Verif.Thm.GridCalls
import Verif.Thm.GridExists
import Verif.Thm.GridGet
import Verif.Thm.Halves
import Verif.Thm.Incomplete
import Verif.Thm.InputFile
import Verif.Thm.LLConditions
import Verif.Thm.LLControls
import Verif.Thm.LLEquation
import Verif.Thm.LLKernel
import Verif.Thm.LLRotation
import Verif.Thm.LLScaling
import Verif.Thm.LLSections
import Verif.Thm.LLState
import Verif.Thm.MUAirspeed
import Verif.Thm.MUDefaults
import Verif.Thm.MUDerivs
import Verif.Thm.MUExact
import Verif.Thm.MUFiles
import Verif.Thm.MUFrame
import Verif.Thm.MUFull
import Verif.Thm.MUHistory
import Verif.Thm.MUInit
import Verif.Thm.MUScaling
import Verif.Thm.MUStall
import Verif.Thm.MUTarget
import Verif.Thm.MUTrim
import Verif.Thm.MirrorCalls
import Verif.Thm.Naca
import Verif.Thm.NoLift
import Verif.Thm.Omitted
import Verif.Thm.OutOfWay
import Verif.Thm.Placed
import Verif.Thm.PlaneAfter
import Verif.Thm.PlaneMirror
import Verif.Thm.PlaneOrder
import Verif.Thm.PlanePlaced
import Verif.Thm.PlaneSimilar
import Verif.Thm.PropBlade
import Verif.Thm.PropCalls
import Verif.Thm.PropElement
import Verif.Thm.PropEnds
import Verif.Thm.PropGet
import Verif.Thm.PropHistory
import Verif.Thm.PropInduced
import Verif.Thm.PropKeys
import Verif.Thm.PropKeysDistrib
import Verif.Thm.PropMemory
import Verif.Thm.PropMirror
import Verif.Thm.PropNames
import Verif.Thm.PropOrder
import Verif.Thm.PropPair
import Verif.Thm.PropPower
import Verif.Thm.PropReads
import Verif.Thm.PropReadsCalls
import Verif.Thm.PropRot
import Verif.Thm.PropSame
import Verif.Thm.PropScaling
import Verif.Thm.PropStall
import Verif.Thm.PropState
import Verif.Thm.Propwash
import Verif.Thm.Rename
import Verif.Thm.Searches
import Verif.Thm.Session
import Verif.Thm.SlipVelocity
import Verif.Thm.Slipstream
import Verif.Thm.Slopes
import Verif.Thm.Stall
import Verif.Thm.Stl
import Verif.Thm.StlCall
import Verif.Thm.StlClosed
import Verif.Thm.StlGeom
import Verif.Thm.StlSpan
import Verif.Thm.StraightDrag
import Verif.Thm.StraightTurn
import Verif.Thm.StraightWing
import Verif.Thm.Symmetric
import Verif.Thm.Waits
import Verif.Thm.WaitsDistrib
import Verif.Thm.Wake
import Verif.Thm.WingCalls
import Verif.Thm.WingConnect
import Verif.Thm.WingRejected
import Verif.Thm.WingShape
