import Verif.Model.Interpolation
import Verif.Spec.RealInst
import Verif.Spec.Float
import Verif.Props.Scalar
import Verif.Props.Response
import Verif.Props.Interp
import Verif.Props.Tridiagonal
import Verif.Props.GaussJordan
import Verif.Props.Vectors
import Verif.Model.Slerp
import Verif.Props.MatProducts
import Verif.Props.MatDet
import Verif.Props.MatFlags
import Verif.Props.MatEntry
import Verif.Props.MatAffine
import Verif.Props.MatInverse
import Verif.Props.Rotations
import Verif.Props.Quaternions
import Verif.Props.QuatMatrix
import Verif.Props.QuatDirs
import Verif.Props.QuatInterp
import Verif.Props.VecSlerp
import Verif.Props.Transform
import Verif.Props.Boxes
import Verif.Props.CBoxes
import Verif.Props.Slabs
import Verif.Props.BoxBalls
import Verif.Props.Balls
import Verif.Props.Planes
import Verif.Props.Frusta
import Verif.Props.Lines
import Verif.Props.Splines
import Verif.Props.SplineSolvers
import Verif.Props.Colors
import Verif.Props.Rounding
import Verif.Props.Definedness
import Verif.Props.Components
import Verif.Props.Local
import Verif.Props.Casts
import Verif.Props.BallArith
import Verif.Model.Local
import Verif.Model.Cast
import Verif.Spec.Components
import Verif.Spec.NumberLists
import Verif.Props.MatSlerp
import Verif.Props.Squad
import Verif.Props.EaseFloat
import Verif.Model.EaseFloat
import Verif.Props.StaleFlags
import Verif.Spec.RoundSpec
import Verif.Proof.RelErr
import Verif.Props.RoundedVectors
import Verif.Props.RoundedForward
import Verif.Props.RoundedPredicates
import Verif.Props.RoundedSymmetry
import Verif.Spec.Ieee
import Verif.Proof.Ieee
import Verif.Proof.IeeeVec
import Verif.Conformance.Ieee
import Verif.Conformance.Layout
import Verif.Props.Polar
import Verif.Props.IeeeNormalize
import Verif.Props.IeeeBalls
import Verif.Props.RoundedInverse
import Verif.Props.IeeeInverse
import Verif.Model.Heap
import Verif.Spec.HeapSpec
import Verif.Proof.Heap
import Verif.Proof.HeapSolvers
import Verif.Proof.HeapSim
import Verif.Proof.HeapAlias
import Verif.Proof.HeapSplines
import Verif.Props.HeapClean
import Verif.Model.OwnParts
import Verif.Props.OwnParts
import Verif.Props.SquareInPlace
import Verif.Model.Matchers
import Verif.Spec.IeeeValid
import Verif.Proof.IeeeMono
import Verif.Proof.IeeeOrder
import Verif.Props.Matchers
import Verif.Props.IeeeBoxes
import Verif.Props.IeeeCenter
import Verif.Props.IeeeScalars
import Verif.Model.Constants
import Verif.Proof.RneNearest
import Verif.Props.Constants
import Verif.Props.OwnPoints
import Verif.Proof.TriRun
import Verif.Proof.TriRound
import Verif.Props.RoundedTri
import Verif.Proof.SplineRun
import Verif.Proof.Apx
import Verif.Props.RoundedSplines
import Verif.Props.RoundedCurves
import Verif.Proof.FwdRound
import Verif.Props.RoundedFwdDiff
import Verif.Props.SmallRotations
import Verif.Props.RoundedChain
import Verif.Props.Layout
import Verif.Props.UnitObjects
import Verif.Props.IeeeLerp
import Verif.Props.SolverSafety
import Verif.Props.RoundedSlabs
import Verif.Props.NanQueries
import Verif.Props.RoundedBalls
import Verif.Props.RoundedRotations
import Verif.Props.RoundedEasing
import Verif.Props.MatErrors
import Verif.Props.RoundedColors
import Verif.Props.RoundedQuatMatrix
import Verif.Props.RoundedTurns
import Verif.Props.RoundedSlerp
import Verif.Props.SlerpSpeed
import Verif.Props.RoundedGauss
import Verif.Props.RoundedClosed
import Verif.Props.RoundedCyclic
import Verif.Props.RoundedInverse4
import Verif.Props.RoundedPlanes
import Verif.Props.RoundedBallLine
import Verif.Props.HeapGauss
import Verif.Props.RoundedLines
import Verif.Props.RoundedFrusta
import Verif.Props.RoundedFrames
import Verif.Props.RoundedBoxBalls
import Verif.Props.RoundedFrenet
import Verif.Props.RoundedSplit
import Verif.Props.RoundedLength
import Verif.Props.RoundedRandom
import Verif.Props.RoundedResponse
import Verif.Props.RoundedClerp
import Verif.Props.RoundedBoxes
import Verif.Props.RoundedAngles
import Verif.Props.RoundedCrossing
import Verif.Props.RoundedHue
import Verif.Props.RoundedPolar
import Verif.Props.RoundedVecSlerp
import Verif.Props.RoundedAxisAngle
import Verif.Props.RoundedQuatDirs
import Verif.Props.RoundedQuatExp
import Verif.Props.RoundedFmod
import Verif.Props.RoundedPlanePoints
import Verif.Props.RoundedBallHit
import Verif.Props.RoundedPlaneProject
import Verif.Props.RoundedSquad
import Verif.Props.RoundedBoxArea
import Verif.Props.RoundedBoxScale
import Verif.Props.RoundedPlaneMove
import Verif.Props.RoundedMat4Vec
import Verif.Props.RoundedAffine
import Verif.Props.RoundedEnds
import Verif.Props.RoundedAxisTurn
import Verif.Audit
import Verif.Conformance.Aabb2
import Verif.Conformance.Aabb3
import Verif.Conformance.Base
import Verif.Conformance.Caabb2
import Verif.Conformance.Caabb3
import Verif.Conformance.Circle
import Verif.Conformance.Colorhsv
import Verif.Conformance.Colorrgb
import Verif.Conformance.Colorrgba
import Verif.Conformance.Frustum
import Verif.Conformance.Functions
import Verif.Conformance.Interpolation
import Verif.Conformance.Line2
import Verif.Conformance.Line3
import Verif.Conformance.Linearequations
import Verif.Conformance.Mat2
import Verif.Conformance.Mat3
import Verif.Conformance.Mat34
import Verif.Conformance.Mat4
import Verif.Conformance.Plane
import Verif.Conformance.Quat
import Verif.Conformance.Ray2
import Verif.Conformance.Ray3
import Verif.Conformance.Sphere
import Verif.Conformance.Spline3
import Verif.Conformance.Tri2
import Verif.Conformance.Vec2
import Verif.Conformance.Vec3
import Verif.Conformance.Vec4
