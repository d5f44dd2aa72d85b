import Lean.Elab.Command
import Verif.Model.Interpolation
import Verif.Spec.RealInst
import Verif.Spec.Float
import Verif.Props.Scalar
import Verif.Props.Response
import Verif.Props.Interp
import Verif.Props.Tridiagonal
import Verif.Props.GaussJordan
import Verif.Props.Vectors
import Verif.Model.Slerp
import Verif.Props.MatProducts
import Verif.Props.MatDet
import Verif.Props.MatFlags
import Verif.Props.MatEntry
import Verif.Props.MatAffine
import Verif.Props.MatInverse
import Verif.Props.Rotations
import Verif.Props.Quaternions
import Verif.Props.QuatMatrix
import Verif.Props.QuatDirs
import Verif.Props.QuatInterp
import Verif.Props.VecSlerp
import Verif.Props.Transform
import Verif.Props.Boxes
import Verif.Props.CBoxes
import Verif.Props.Slabs
import Verif.Props.BoxBalls
import Verif.Props.Balls
import Verif.Props.Planes
import Verif.Props.Frusta
import Verif.Props.Lines
import Verif.Props.Splines
import Verif.Props.SplineSolvers
import Verif.Props.Colors
import Verif.Props.Rounding
import Verif.Props.Definedness
import Verif.Props.RoundedAxisTurn
import Verif.Props.RoundedEnds
import Verif.Props.RoundedAffine
import Verif.Props.RoundedMat4Vec
import Verif.Props.RoundedPlaneMove
import Verif.Props.RoundedBoxScale
import Verif.Props.RoundedBoxArea
import Verif.Props.RoundedSquad
import Verif.Props.RoundedPlaneProject
import Verif.Props.RoundedBallHit
import Verif.Props.RoundedPlanePoints
import Verif.Props.RoundedFmod
import Verif.Props.RoundedQuatExp
import Verif.Props.RoundedQuatDirs
import Verif.Props.RoundedAxisAngle
import Verif.Props.RoundedVecSlerp
import Verif.Props.RoundedPolar
import Verif.Props.RoundedHue
import Verif.Props.RoundedCrossing
import Verif.Props.RoundedAngles
import Verif.Props.RoundedBoxes
import Verif.Props.RoundedClerp
import Verif.Props.RoundedResponse
import Verif.Props.RoundedRandom
import Verif.Props.RoundedLength
import Verif.Props.RoundedSplit
import Verif.Props.RoundedFrenet
import Verif.Props.RoundedBoxBalls
import Verif.Props.RoundedFrames
import Verif.Props.RoundedFrusta
import Verif.Props.RoundedLines
import Verif.Props.HeapGauss
import Verif.Props.RoundedBallLine
import Verif.Props.RoundedPlanes
import Verif.Props.RoundedInverse4
import Verif.Props.RoundedCyclic
import Verif.Props.RoundedClosed
import Verif.Props.RoundedGauss
import Verif.Props.SlerpSpeed
import Verif.Props.RoundedSlerp
import Verif.Props.RoundedTurns
import Verif.Props.RoundedQuatMatrix
import Verif.Props.RoundedColors
import Verif.Props.MatErrors
import Verif.Props.RoundedEasing
import Verif.Props.RoundedRotations
import Verif.Props.RoundedBalls
import Verif.Props.NanQueries
import Verif.Props.RoundedSlabs
import Verif.Props.SolverSafety
import Verif.Props.IeeeLerp
import Verif.Props.UnitObjects
import Verif.Props.Layout
import Verif.Props.RoundedChain
import Verif.Props.SmallRotations
import Verif.Props.RoundedFwdDiff
import Verif.Props.RoundedCurves
import Verif.Props.RoundedSplines
import Verif.Props.RoundedTri
import Verif.Props.OwnPoints
import Verif.Props.Constants
import Verif.Props.IeeeScalars
import Verif.Props.IeeeCenter
import Verif.Props.IeeeBoxes
import Verif.Props.Matchers
import Verif.Props.SquareInPlace
import Verif.Props.OwnParts
import Verif.Props.HeapClean
import Verif.Props.IeeeInverse
import Verif.Props.RoundedInverse
import Verif.Props.IeeeBalls
import Verif.Props.IeeeNormalize
import Verif.Props.Polar
import Verif.Props.RoundedSymmetry
import Verif.Props.RoundedPredicates
import Verif.Props.RoundedForward
import Verif.Props.RoundedVectors
import Verif.Props.StaleFlags
import Verif.Props.EaseFloat
import Verif.Props.Squad
import Verif.Props.MatSlerp
import Verif.Props.BallArith
import Verif.Props.Casts
import Verif.Props.Local
import Verif.Props.Components

/-!
# Audit

Fails the build unless every declaration of the modules `Verif.*`, followed through everything it
uses, rests on no axioms besides `propext`, `Classical.choice` and `Quot.sound`.
-/

open Lean

/-- the axioms that `c` depends on, sharing the set of visited constants -/
private partial def visit (env : Environment) (c : Name) : StateM (NameSet × NameSet) Unit := do
  if (← get).1.contains c then return
  modify fun (seen, ax) => (seen.insert c, ax)
  let some info := env.find? c | return
  if info matches .axiomInfo _ then modify fun (seen, ax) => (seen, ax.insert c)
  for d in info.type.getUsedConstants do visit env d
  if let some v := info.value? (allowOpaque := true) then
    for d in v.getUsedConstants do visit env d
  if let .inductInfo i := info then
    for d in i.ctors do visit env d

run_cmd do
  let env ← getEnv
  let mut todo : Array Name := #[]
  for (c, _) in env.constants.map₁.toList do
    if let some i := env.getModuleIdxFor? c then
      if (`Verif).isPrefixOf env.header.moduleNames[i]! then todo := todo.push c
  let (_, ax) := (todo.forM (visit env) |>.run ({}, {})).2
  for a in ax.toList do
    unless a ∈ [``propext, ``Classical.choice, ``Quot.sound] do
      throwError "unexpected axiom {a}"
  logInfo m!"{todo.size} declarations checked, axioms: {ax.toList}"
