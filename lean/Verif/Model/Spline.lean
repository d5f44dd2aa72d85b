import Verif.Model.LinearEquations
import Verif.Model.Mat3

/-! # Model of `spline3.h`

`assert`s are compiled in: a parameter outside [0, 1] is an assertion fault. -/

namespace MathLib

variable {R : Type} [Zero R] [One R] [NatCast R] [Add R] [Sub R] [Mul R] [Div R] [Neg R]
  [LT R] [LE R] [DecidableLT R] [DecidableLE R] [BEq R] [MathFns R]

/-! ## Hermite segments -/

/-- `class HermiteSplineSegment3`, spline3.h; the constructor (impl/spline3.h:14-21) and `set` (23-30) fill the
members, `p1/p4/r1/r4` (32-54) return them. -/
structure HermiteSplineSegment3 (R : Type) where
  P1 : Vec3 R
  P4 : Vec3 R
  R1 : Vec3 R
  R4 : Vec3 R
  deriving DecidableEq

namespace HermiteSplineSegment3
/-- `HermiteSplineSegment3::pointAt`, impl/spline3.h:56-70. -/
def pointAt (s : HermiteSplineSegment3 R) (t : R) : Res (Vec3 R) :=
  if t ≥ 0 ∧ t ≤ 1 then
    let t2 := t * t
    let t3 := t2 * t
    let cp4 := -2 * t3 + 3 * t2
    let cp1 := 1 - cp4
    let cr1 := t3 - 2 * t2 + t
    let cr4 := t3 - t2
    .ok (s.P1 * cp1 + s.P4 * cp4 + s.R1 * cr1 + s.R4 * cr4)
  else .error .assertion
/-- `HermiteSplineSegment3::tangentAt`, impl/spline3.h:72-84. -/
def tangentAt (s : HermiteSplineSegment3 R) (t : R) : Res (Vec3 R) :=
  if t ≥ 0 ∧ t ≤ 1 then
    let t2 := t * t
    let cp4 := -6 * t2 + 6 * t
    let cp1 := -cp4
    let cr1 := 3 * t2 - 4 * t + 1
    let cr4 := 3 * t2 - 2 * t
    .ok (s.P1 * cp1 + s.P4 * cp4 + s.R1 * cr1 + s.R4 * cr4)
  else .error .assertion
/-- `HermiteSplineSegment3::hp1`, impl/spline3.h:86-91. -/
def hp1 (t : R) : R := let t2 := t * t; 2 * t * t2 - 3 * t2 + 1
/-- `HermiteSplineSegment3::hp4`, impl/spline3.h:93-98. -/
def hp4 (t : R) : R := let t2 := t * t; -2 * t * t2 + 3 * t2
/-- `HermiteSplineSegment3::hr1`, impl/spline3.h:100-105. -/
def hr1 (t : R) : R := let t2 := t * t; t * t2 - 2 * t2 + t
/-- `HermiteSplineSegment3::hr4`, impl/spline3.h:107-112. -/
def hr4 (t : R) : R := let t2 := t * t; t * t2 - t2
/-- `HermiteSplineSegment3::dhp1`, impl/spline3.h:114-119. -/
def dhp1 (t : R) : R := let t2 := t * t; 6 * t2 - 6 * t
/-- `HermiteSplineSegment3::dhp4`, impl/spline3.h:121-126. -/
def dhp4 (t : R) : R := let t2 := t * t; -6 * t2 + 6 * t
/-- `HermiteSplineSegment3::dhr1`, impl/spline3.h:128-133. -/
def dhr1 (t : R) : R := let t2 := t * t; 3 * t2 - 4 * t + 1
/-- `HermiteSplineSegment3::dhr4`, impl/spline3.h:135-140. -/
def dhr4 (t : R) : R := let t2 := t * t; 3 * t2 - 2 * t
end HermiteSplineSegment3

/-! ## Bezier segments -/

/-- `class BezierSegment3`, spline3.h; the constructor (impl/spline3.h:151-158) and `set` (160-167) fill the
members, `p1 … p4` (169-191) return them. -/
structure BezierSegment3 (R : Type) where
  P1 : Vec3 R
  P2 : Vec3 R
  P3 : Vec3 R
  P4 : Vec3 R
  deriving DecidableEq

namespace BezierSegment3
/-- `BezierSegment3::r1`, impl/spline3.h:193-197. -/
def r1 (s : BezierSegment3 R) : Vec3 R := (s.P2 - s.P1) * (3 : R)
/-- `BezierSegment3::r4`, impl/spline3.h:199-203. -/
def r4 (s : BezierSegment3 R) : Vec3 R := (s.P4 - s.P3) * (3 : R)
/-- `BezierSegment3::pointAt`, impl/spline3.h:205-218. -/
def pointAt (s : BezierSegment3 R) (t : R) : Res (Vec3 R) :=
  if t ≥ 0 ∧ t ≤ 1 then
    let t2 := t * t
    let t3 := t2 * t
    let cp1 := -t3 + 3 * t2 - 3 * t + 1
    let cp2 := 3 * t3 - 6 * t2 + 3 * t
    let cp3 := -3 * t3 + 3 * t2
    let cp4 := t3
    .ok (s.P1 * cp1 + s.P2 * cp2 + s.P3 * cp3 + s.P4 * cp4)
  else .error .assertion
/-- `BezierSegment3::tangentAt`, impl/spline3.h:220-232. -/
def tangentAt (s : BezierSegment3 R) (t : R) : Res (Vec3 R) :=
  if t ≥ 0 ∧ t ≤ 1 then
    let t2 := t * t
    let cp1 := -3 * t2 + 6 * t - 3
    let cp2 := 9 * t2 - 12 * t + 3
    let cp3 := -9 * t2 + 6 * t
    let cp4 := 3 * t2
    .ok (s.P1 * cp1 + s.P2 * cp2 + s.P3 * cp3 + s.P4 * cp4)
  else .error .assertion
/-- `BezierSegment3::frenetFrameAt`, impl/spline3.h:234-279; `none` for the return value `false` (the frame is
left as it was). -/
def frenetFrameAt (s : BezierSegment3 R) (t : R) : Res (Option (Mat3 R)) :=
  if t ≥ 0 ∧ t ≤ 1 then
    let t2 := t * t
    let fd1 := -3 * t2 + 6 * t - 3
    let fd2 := 9 * t2 - 12 * t + 3
    let fd3 := -9 * t2 + 6 * t
    let fd4 := 3 * t2
    let tangent := s.P1 * fd1 + s.P2 * fd2 + s.P3 * fd3 + s.P4 * fd4
    let sd1 := -6 * t + 6
    let sd2 := 18 * t - 12
    let sd3 := -18 * t + 6
    let sd4 := 6 * t
    let sd := s.P1 * sd1 + s.P2 * sd2 + s.P3 * sd3 + s.P4 * sd4
    let binormal := tangent.cross sd
    let T := tangent.normalize 1
    if T.2 == 0 then .ok none
    else
      let B := binormal.normalize 1
      if B.2 == 0 then .ok none
      else
        let n := B.1.cross T.1
        if n.isNull then .ok none else .ok (some (Mat3.ofCols B.1 T.1 n))
  else .error .assertion

/-- `BezierSegment3::split`, impl/spline3.h:281-302, statement by statement on a store of segments: `start` and
`end` are references and may be the object itself or each other. -/
def split {ι : Type} [DecidableEq ι] (m : ι → BezierSegment3 R) (this start «end» : ι) (a : R) :
    Res (ι → BezierSegment3 R) :=
  if a ≥ 0 ∧ a ≤ 1 then
    let a2 := a * a
    let a3 := a * a2
    let ca := 1 - a
    let ca2 := ca * ca
    let ca3 := ca * ca2
    let m := Function.update m start { m start with P1 := (m this).P1 }
    let m := Function.update m start { m start with P2 := (m this).P1 * ca + (m this).P2 * a }
    let m := Function.update m start { m start with
      P3 := (m this).P1 * ca2 + (m this).P2 * (2 * a * ca) + (m this).P3 * a2 }
    let m := Function.update m start { m start with
      P4 := (m this).P1 * ca3 + (m this).P2 * (3 * a * ca2) + (m this).P3 * (3 * a2 * ca) + (m this).P4 * a3 }
    let m := Function.update m «end» { m «end» with
      P1 := (m this).P1 * ca3 + (m this).P2 * (3 * a * ca2) + (m this).P3 * (3 * a2 * ca) + (m this).P4 * a3 }
    let m := Function.update m «end» { m «end» with
      P2 := (m this).P2 * ca2 + (m this).P3 * (2 * a * ca) + (m this).P4 * a2 }
    let m := Function.update m «end» { m «end» with P3 := (m this).P3 * ca + (m this).P4 * a }
    let m := Function.update m «end» { m «end» with P4 := (m this).P4 }
    .ok m
  else .error .assertion

/-- Loop state of `length`, impl/spline3.h:304-335. -/
structure LenSt (R : Type) where
  P : Vec3 R
  dP : Vec3 R
  d2P : Vec3 R
  result : R

/-- `BezierSegment3::length`, impl/spline3.h:304-335 (default `steps = 10`, spline3.h:71).  `Real(1) / steps`
converts the int. -/
def length (s : BezierSegment3 R) (steps : Int) : Res R :=
  if steps > 0 then do
    let d : R := 1 / (steps.toNat : R)
    let d2 := d * d
    let d3 := d2 * d
    let P4_P1 := s.P4 - s.P1
    let P3_P2 := s.P3 - s.P2
    let P2_P1 := s.P2 - s.P1
    let dP := P4_P1 * d3 + P3_P2 * ((d2 - d3) * 3) + P2_P1 * ((d - d2) * 3)
    let d2P := P4_P1 * (d3 * 6) + P3_P2 * ((d2 - d3 * 3) * 6) + P2_P1 * (-d2 * 6)
    let d3P := P4_P1 * (d3 * 6) + P3_P2 * (-d3 * 18)
    let st ← loop 0 (steps - 1).toNat (fun _ (st : LenSt R) =>
      .ok ⟨st.P + st.dP, st.dP + st.d2P, st.d2P + d3P, st.result + st.dP.length⟩) ⟨s.P1, dP, d2P, 0⟩
    .ok (st.result + (s.P4 - st.P).length)
  else .error .assertion

/-- `BezierSegment3::hp1`, impl/spline3.h:337-342. -/
def hp1 (t : R) : R := let ct := 1 - t; ct * ct * ct
/-- `BezierSegment3::hp2`, impl/spline3.h:344-349. -/
def hp2 (t : R) : R := let ct := 1 - t; 3 * t * ct * ct
/-- `BezierSegment3::hp3`, impl/spline3.h:351-356. -/
def hp3 (t : R) : R := let ct := 1 - t; 3 * t * t * ct
/-- `BezierSegment3::hp4`, impl/spline3.h:358-362. -/
def hp4 (t : R) : R := t * t * t
/-- `BezierSegment3::dhp1`, impl/spline3.h:364-369. -/
def dhp1 (t : R) : R := let ct := 1 - t; -3 * ct * ct
/-- `BezierSegment3::dhp2`, impl/spline3.h:371-376. -/
def dhp2 (t : R) : R := let ct := 1 - t; 3 * ct * ct - 6 * t * ct
/-- `BezierSegment3::dhp3`, impl/spline3.h:378-383. -/
def dhp3 (t : R) : R := let ct := 1 - t; 6 * t * ct - 3 * t * t
/-- `BezierSegment3::dhp4`, impl/spline3.h:385-389. -/
def dhp4 (t : R) : R := 3 * t * t
end BezierSegment3

/-! ## Forward differences -/

/-- `class BezierSegment3FwdDiff`, spline3.h. -/
structure BezierSegment3FwdDiff (R : Type) where
  P : Vec3 R
  dP : Vec3 R
  d2P : Vec3 R
  d3P : Vec3 R
  T : Vec3 R
  dT : Vec3 R
  d2T : Vec3 R
  deriving DecidableEq

namespace BezierSegment3FwdDiff
/-- `BezierSegment3FwdDiff::BezierSegment3FwdDiff`, impl/spline3.h:421-439. -/
def init (P1 P2 P3 P4 : Vec3 R) (d : R) : BezierSegment3FwdDiff R :=
  let d2 := d * d
  let d3 := d2 * d
  let P4_P1 := P4 - P1
  let P3_P2 := P3 - P2
  let P2_P1 := P2 - P1
  { P := P1
    dP := P4_P1 * d3 + P3_P2 * ((d2 - d3) * 3) + P2_P1 * ((d - d2) * 3)
    d2P := P4_P1 * (d3 * 6) + P3_P2 * ((d2 - d3 * 3) * 6) + P2_P1 * (-d2 * 6)
    d3P := P4_P1 * (d3 * 6) + P3_P2 * (-d3 * 18)
    T := P2_P1 * (3 : R)
    dT := P4_P1 * (d2 * 3) + P3_P2 * (d * 6 - d2 * 9) + P2_P1 * (-d * 6)
    d2T := P4_P1 * (d2 * 6) + P3_P2 * (-d2 * 18) }
/-- `BezierSegment3FwdDiff::stepForward`, impl/spline3.h:441-450. -/
def stepForward (s : BezierSegment3FwdDiff R) : BezierSegment3FwdDiff R :=
  let s := { s with P := s.P + s.dP }
  let s := { s with dP := s.dP + s.d2P }
  let s := { s with d2P := s.d2P + s.d3P }
  let s := { s with T := s.T + s.dT }
  { s with dT := s.dT + s.d2T }
/-- `currentPoint`, impl/spline3.h:452-456. -/
def currentPoint (s : BezierSegment3FwdDiff R) : Vec3 R := s.P
/-- `currentTangent`, impl/spline3.h:458-462. -/
def currentTangent (s : BezierSegment3FwdDiff R) : Vec3 R := s.T
end BezierSegment3FwdDiff

/-! ## Spline solvers

`p1`, `p2` and `p3` are taken to be separate arrays. -/

namespace SplineSolver3

/-- `SplineSolver3::naturalBezierSpline`, impl/spline3.h:471-534.  Returns the return value and the contents of
`p2` and `p3`. -/
def naturalBezierSpline (n : Nat) (p1 p2 p3 : Buf (Vec3 R)) : Res (Bool × Buf (Vec3 R) × Buf (Vec3 R)) :=
  if n ≥ 2 then
    if n = 2 then do
      let k1 ← p1.get 1
      let k0 ← p1.get 0
      let t ← (k1 - k0).div (3 : R)
      let p2 ← p2.set 0 (k0 + t)
      let p3 ← p3.set 0 (k1 - t)
      .ok (true, p2, p3)
    else do
      let n := n - 1
      let a : Buf R := Buf.alloc (n - 1)
      let b : Buf R := Buf.alloc n
      let c : Buf R := Buf.alloc (n - 1)
      let r : Buf (Vec3 R) := Buf.alloc n
      let (a, b, c) ← loop 0 (n - 1) (fun i (s : Buf R × Buf R × Buf R) => do
        let a ← s.1.set i 1
        let b ← s.2.1.set i 4
        let c ← s.2.2.set i 1
        .ok (a, b, c)) (a, b, c)
      let b ← b.set 0 2
      let a ← a.set (n - 2) 2
      let b ← b.set (n - 1) 7
      let r ← loop 1 (n - 1) (fun i (r : Buf (Vec3 R)) => do
        let ki ← p1.get i
        let kj ← p1.get (i + 1)
        r.set i (ki * (4 : R) + kj * (2 : R))) r
      let k0 ← p1.get 0
      let k1 ← p1.get 1
      let r ← r.set 0 (k0 + k1 * (2 : R))
      let kl ← p1.get (n - 1)
      let kn ← p1.get n
      let r ← r.set (n - 1) (kl * (8 : R) + kn)
      let (ret, p2) ← TriDiagonal.solve3 a b c r p2 n
      if !ret then .ok (false, p2, p3)
      else
        let p3 ← loop 0 (n - 1) (fun i (p3 : Buf (Vec3 R)) => do
          let k ← p1.get (i + 1)
          let q ← p2.get (i + 1)
          p3.set i (k * (2 : R) - q)) p3
        let kn ← p1.get n
        let ql ← p2.get (n - 1)
        let v ← (kn + ql).div (2 : R)
        let p3 ← p3.set (n - 1) v
        .ok (true, p2, p3)
  else .error .assertion

/-- `SplineSolver3::bezierSpline`, impl/spline3.h:536-600. -/
def bezierSpline (n : Nat) (p1 : Buf (Vec3 R)) (p2start p3end : Vec3 R) (p2 p3 : Buf (Vec3 R)) :
    Res (Bool × Buf (Vec3 R) × Buf (Vec3 R)) :=
  if n ≥ 2 then
    if n = 2 then do
      let k1 ← p1.get 1
      let k0 ← p1.get 0
      let _t ← (k1 - k0).div (3 : R)
      let p2 ← p2.set 0 p2start
      let p3 ← p3.set 0 p3end
      .ok (true, p2, p3)
    else do
      let n := n - 1
      let a : Buf R := Buf.alloc (n - 1)
      let b : Buf R := Buf.alloc n
      let c : Buf R := Buf.alloc (n - 1)
      let r : Buf (Vec3 R) := Buf.alloc n
      let (a, b, c) ← loop 0 (n - 1) (fun i (s : Buf R × Buf R × Buf R) => do
        let a ← s.1.set i 1
        let b ← s.2.1.set i 4
        let c ← s.2.2.set i 1
        .ok (a, b, c)) (a, b, c)
      let b ← b.set 0 1
      let b ← b.set (n - 1) 4
      let c ← c.set 0 0
      let r ← loop 1 (n - 1) (fun i (r : Buf (Vec3 R)) => do
        let ki ← p1.get i
        let kj ← p1.get (i + 1)
        r.set i (ki * (4 : R) + kj * (2 : R))) r
      let r ← r.set 0 p2start
      let kl ← p1.get (n - 1)
      let r ← r.set (n - 1) (p3end + kl * (4 : R))
      let (ret, p2) ← TriDiagonal.solve3 a b c r p2 n
      if !ret then .ok (false, p2, p3)
      else
        let p3 ← loop 0 (n - 1) (fun i (p3 : Buf (Vec3 R)) => do
          let k ← p1.get (i + 1)
          let q ← p2.get (i + 1)
          p3.set i (k * (2 : R) - q)) p3
        let p3 ← p3.set (n - 1) p3end
        .ok (true, p2, p3)
  else .error .assertion

/-- component `c` of a vector in memory order (impl/linearequations.h:255-259) -/
def comp (v : Vec3 R) (c : Nat) : R := match c with | 0 => v.x | 1 => v.y | _ => v.z

/-- the array of vectors seen through `&b->x`: their components one after the other (impl/linearequations.h:255-259) -/
def flat (b : Buf (Vec3 R)) : Buf R := ⟨b.size * 3, fun k => (b.data (k / 3)).map fun v => comp v (k % 3)⟩

/-- and back: the vectors whose components are in the array (impl/linearequations.h:255-259) -/
def unflat (b : Buf R) : Buf (Vec3 R) := ⟨b.size / 3, fun i =>
  match b.data (i * 3), b.data (i * 3 + 1), b.data (i * 3 + 2) with
  | some x, some y, some z => some ⟨x, y, z⟩
  | _, _, _ => none⟩

/-- `SplineSolver3::closedBezierSpline`, impl/spline3.h:602-649; `absf` as in `GaussJordan::solve`, whose
overload for `Vec3*` (impl/linearequations.h:255-259) passes `&b->x`.  When it fails the contents of `p2` are
not tracked. -/
def closedBezierSpline (absf : R → R) (n : Nat) (p1 p2 p3 : Buf (Vec3 R)) :
    Res (Bool × Buf (Vec3 R) × Buf (Vec3 R)) :=
  if n ≥ 2 then do
    let a : Buf R := Buf.alloc (n * n)
    let a ← loopDown (fun i (a : Buf R) => a.set i 0) (n * n) a
    let a ← loop 1 (n - 1) (fun i (a : Buf R) => do
      let a ← a.set (i * n + i - 1) 1
      let a ← a.set (i * n + i) 4
      a.set (i * n + i + 1) 1) a
    let a ← a.set 0 4
    let a ← a.set 1 1
    let a ← a.set (n - 1) 1
    let a ← a.set ((n - 1) * n) 1
    let a ← a.set ((n - 1) * n + n - 2) 1
    let a ← a.set ((n - 1) * n + n - 1) 4
    let p2 ← loop 0 (n - 1) (fun i (p2 : Buf (Vec3 R)) => do
      let ki ← p1.get i
      let kj ← p1.get (i + 1)
      p2.set i (ki * (4 : R) + kj * (2 : R))) p2
    let kl ← p1.get (n - 1)
    let k0 ← p1.get 0
    let p2 ← p2.set (n - 1) (kl * (4 : R) + k0 * (2 : R))
    match ← GaussJordan.solve absf a n (flat p2) 3 with
    | none => .ok (false, p2, p3)
    | some (_, b) =>
      let p2 := unflat b
      let p3 ← loop 0 (n - 1) (fun i (p3 : Buf (Vec3 R)) => do
        let k ← p1.get (i + 1)
        let q ← p2.get (i + 1)
        p3.set i (k * (2 : R) - q)) p3
      let qm ← p2.get (n - 2)
      let ql ← p2.get (n - 1)
      let kl ← p1.get (n - 1)
      let p3 ← p3.set (n - 1) (qm + ql * (4 : R) - kl * (4 : R))
      .ok (true, p2, p3)
  else .error .assertion

end SplineSolver3

end MathLib
