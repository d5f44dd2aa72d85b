import Verif.Model.Buffer
import Verif.Model.Vec

/-! # Model of `linearequations.h`

`delete[]` of the scratch arrays is left out, allocation is assumed to succeed and the arrays passed to one
call are different objects.  `Model/Heap.lean` has the same functions with the heap; C128-C130 relate the two. -/

namespace MathLib

variable {R : Type} [Zero R] [One R] [Add R] [Sub R] [Mul R] [Div R] [Neg R]
  [LT R] [LE R] [DecidableLT R] [DecidableLE R] [BEq R]

namespace TriDiagonal

/-- State of the loops of `TriDiagonal::solve`: `gam`, `bet`, `u` (impl/linearequations.h:12-15). -/
structure St (R V : Type) where
  gam : Buf R
  bet : R
  u : Buf V

/-- Common text of both overloads of `TriDiagonal::solve` from the test of `b[0]` on,
impl/linearequations.h:9-34 and 43-68.  `V` is the type of the right-hand side, `vdiv` its
`operator/`, `vsub` its `operator-` and `vmul` the product with a scalar (written `a*u` in the
first and `u*a` in the second overload).  Returns the contents of `u` and the return value. -/
def solveCore {V : Type} (vsub : V → V → V) (vmul : V → R → V) (vdiv : V → R → Res V)
    (a b c : Buf R) (r u : Buf V) (n : Nat) : Res (Bool × Buf V) := do
  let b0 ← b.get 0
  if b0 == 0 then return (false, u)
  let gam : Buf R := Buf.alloc n
  let bet := b0
  let r0 ← r.get 0
  let q0 ← vdiv r0 bet
  let u ← u.set 0 q0
  -- the partially filled `u` is lost on early return: its contents are unspecified then
  let st ← loopBreak 1 n (fun j (st : St R V) => do
    let cj ← c.get (j - 1)
    let gam ← st.gam.set j (cj / st.bet)
    let gj ← gam.get j
    let bj ← b.get j
    let aj ← a.get (j - 1)
    let bet := bj - aj * gj
    if bet == 0 then return none
    let rj ← r.get j
    let uj ← st.u.get (j - 1)
    let q ← vdiv (vsub rj (vmul uj aj)) bet
    let u ← st.u.set j q
    return some ⟨gam, bet, u⟩) ⟨gam, bet, u⟩
  match st with
  | none => return (false, u)
  | some st =>
    let u ← loopDown (fun j (u : Buf V) => do
      let uj ← u.get j
      let g ← st.gam.get (j + 1)
      let u1 ← u.get (j + 1)
      u.set j (vsub uj (vmul u1 g))) (n - 1) st.u
    return (true, u)

/-- `TriDiagonal::solve`, impl/linearequations.h:3-35.  Division of scalars never faults. -/
def solve (a b c r u : Buf R) (n : Nat) : Res (Bool × Buf R) :=
  if n = 0 then .error .assertion
  else solveCore (fun x y => x - y) (fun x k => k * x) (fun x k => .ok (x / k)) a b c r u n

/-- `TriDiagonal::solve` with `Vec3` right-hand side, impl/linearequations.h:37-69 (no assertion
on `n`). -/
def solve3 (a b c : Buf R) (r u : Buf (Vec3 R)) (n : Nat) : Res (Bool × Buf (Vec3 R)) :=
  solveCore (fun x y => x - y) (fun x k => x * k) Vec3.div a b c r u n

/-- `TriDiagonal::solveCyclic`, impl/linearequations.h:71-119. -/
def solveCyclic (a b c : Buf R) (alpha beta : R) (r x : Buf R) (n : Nat) : Res (Bool × Buf R) := do
  if n ≤ 2 then return (false, x)
  if alpha == 0 && beta == 0 then return ← solve a b c r x n
  let bb : Buf R := Buf.alloc n
  let u : Buf R := Buf.alloc n
  let z : Buf R := Buf.alloc n
  let b0 ← b.get 0
  let gamma := -b0
  let bb ← bb.set 0 (b0 - gamma)
  let bl ← b.get (n - 1)
  let bb ← bb.set (n - 1) (bl - alpha * beta / gamma)
  let bb ← loop 1 (n - 1) (fun i (bb : Buf R) => do
    let bi ← b.get i
    bb.set i bi) bb
  let (result, x) ← solve a bb c r x n
  if !result then return (false, x)
  let u ← u.set 0 gamma
  let u ← u.set (n - 1) alpha
  let u ← loop 1 (n - 1) (fun i (u : Buf R) => u.set i 0) u
  let (result, z) ← solve a bb c u z n
  if !result then return (false, x)
  let x0 ← x.get 0
  let xl ← x.get (n - 1)
  let z0 ← z.get 0
  let zl ← z.get (n - 1)
  let fact := (x0 + beta * xl / gamma) / (1 + z0 + beta * zl / gamma)
  let x ← loop 0 n (fun i (x : Buf R) => do
    let xi ← x.get i
    let zi ← z.get i
    x.set i (xi - fact * zi)) x
  return (true, x)

end TriDiagonal

namespace GaussJordan

/-- `SWAP(p[i], p[j])`, impl/linearequations.h:121-127. -/
def swap {α : Type} (p : Buf α) (i j : Nat) : Res (Buf α) := do
  let temp ← p.get i
  let pj ← p.get j
  let p ← p.set i pj
  p.set j temp

/-- Result of the pivot search: `big`, and `irow`, `icol` (`none` while uninitialised), impl/linearequations.h:133-134. -/
structure Piv (R : Type) where
  big : R
  irow : Option Nat
  icol : Option Nat

/-- A local variable that may be uninitialised (impl/linearequations.h:133, `icol`, `irow`). -/
def readVar {α : Type} : Option α → Res α
  | some v => .ok v
  | none => .error .uninit

/-- The pivot search, impl/linearequations.h:148-167.  `absf` is `fabsf`: the absolute value,
preceded by a conversion to `float` when `Real` is `double`. -/
def search (absf : R → R) (a : Buf R) (ipiv : Buf Int) (n : Nat) (p : Piv R) : Res (Piv R) :=
  loop 0 n (fun j p => do
    let pj ← ipiv.get j
    if pj = 0 then return p
    loop 0 n (fun k (p : Piv R) => do
      let pk ← ipiv.get k
      if pk ≠ -1 then return p
      let v ← a.get (j * n + k)
      if absf v ≥ p.big then return ⟨absf v, some j, some k⟩
      return p) p) { p with big := 0 }

/-- The two exchange loops, impl/linearequations.h:180-188: rows `irow` and `icol` of an array with
`w` columns. -/
def swapRows (p : Buf R) (w irow icol : Nat) : Res (Buf R) :=
  loop 0 w (fun l p => swap p (irow * w + l) (icol * w + l)) p

/-- The exchange under its test `irow != icol`, impl/linearequations.h:178-189. -/
def exchange (p : Buf R) (w irow icol : Nat) : Res (Buf R) :=
  if irow ≠ icol then swapRows p w irow icol else .ok p

/-- `p[row*w+l] *= k` for all `l < w`, impl/linearequations.h:205-206 and 208-209. -/
def scaleRow (p : Buf R) (w row : Nat) (k : R) : Res (Buf R) :=
  loop 0 w (fun l p => do
    let v ← p.get (row * w + l)
    p.set (row * w + l) (v * k)) p

/-- `p[ll*w+l] -= p[row*w+l]*dum` for all `l < w`, impl/linearequations.h:218-219 and 221-222. -/
def reduceRow (p : Buf R) (w row ll : Nat) (dum : R) : Res (Buf R) :=
  loop 0 w (fun l p => do
    let v ← p.get (ll * w + l)
    let q ← p.get (row * w + l)
    p.set (ll * w + l) (v - q * dum)) p

/-- The reduction of the other rows, impl/linearequations.h:212-224. -/
def reduce (a b : Buf R) (n m icol : Nat) : Res (Buf R × Buf R) :=
  loop 0 n (fun ll (ab : Buf R × Buf R) => do
    if ll = icol then return ab
    let dum ← ab.1.get (ll * n + icol)
    let a ← reduceRow ab.1 n icol ll dum
    let a ← a.set (ll * n + icol) 0
    let b ← reduceRow ab.2 m icol ll dum
    return (a, b)) (a, b)

/-- State of the main loop (impl/linearequations.h:132-134). -/
structure St (R : Type) where
  a : Buf R
  b : Buf R
  indxc : Buf Nat
  indxr : Buf Nat
  ipiv : Buf Int
  piv : Piv R

/-- One turn of the main loop, impl/linearequations.h:147-224; `none` is `return false`.
(On `return false` the contents of `a` and `b` are those of the state before this turn with rows
exchanged; they are not returned.) -/
def step (absf : R → R) (n m : Nat) (i : Nat) (s : St R) : Res (Option (St R)) := do
  let piv ← search absf s.a s.ipiv n s.piv
  let icol ← readVar piv.icol
  let irow ← readVar piv.irow
  let pc ← s.ipiv.get icol
  let ipiv ← s.ipiv.set icol (pc + 1)
  let a ← exchange s.a n irow icol
  let b ← exchange s.b m irow icol
  let indxr ← s.indxr.set i irow
  let indxc ← s.indxc.set i icol
  let p ← a.get (icol * n + icol)
  if p == 0 then return none
  let pivinv := 1 / p
  let a ← scaleRow a n icol pivinv
  let a ← a.set (icol * n + icol) 1
  let b ← scaleRow b m icol pivinv
  let (a, b) ← reduce a b n m icol
  return some ⟨a, b, indxc, indxr, ipiv, piv⟩

/-- The final column exchanges, impl/linearequations.h:230-239. -/
def unscramble (a : Buf R) (indxr indxc : Buf Nat) (n : Nat) : Res (Buf R) :=
  loopDown (fun l a => do
    let ir ← indxr.get l
    let ic ← indxc.get l
    if ir = ic then return a
    loop 0 n (fun k a => swap a (k * n + ir) (k * n + ic)) a) n a

/-- `GaussJordan::solve(Real*, int, Real*, int)`, impl/linearequations.h:129-247.
Returns `none` for `false`, the new contents of `a` and `b` for `true`.  The overloads for `Vec2`
and `Vec3` right-hand sides (249-259) are the same call with `m = 2`, `m = 3`. -/
def solve (absf : R → R) (a : Buf R) (n : Nat) (b : Buf R) (m : Nat) :
    Res (Option (Buf R × Buf R)) := do
  let indxc : Buf Nat := Buf.alloc n
  let indxr : Buf Nat := Buf.alloc n
  let ipiv : Buf Int := Buf.alloc n
  let ipiv ← loop 0 n (fun j (p : Buf Int) => p.set j (-1)) ipiv
  let r ← loopBreak 0 n (step absf n m) ⟨a, b, indxc, indxr, ipiv, ⟨0, none, none⟩⟩
  match r with
  | none => return none
  | some s =>
    let a ← unscramble s.a s.indxr s.indxc n
    return some (a, s.b)

end GaussJordan

end MathLib
