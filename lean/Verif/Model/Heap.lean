import Verif.Model.Spline

/-! # The solvers of `linearequations.h` and `spline3.h` with their heap

`Model/LinearEquations.lean` and `Model/Spline.lean` leave out `delete[]`, assume that `new` succeeds and that
the arrays passed to one call are different objects.  Here the same functions are written on a heap: arrays are
reached through pointers, which may be equal; `new` may throw `std::bad_alloc`; `delete[]` of a block that is not
allocated and any use of such a block are faults of their own.  A `throw` leaves the functions at once, since none
of them contains a `catch` and the pointers are plain (no destructors).

Simplifications: pointers point to the beginning of a block; pointers of different types never alias, except in
the call of `GaussJordan::solve` with `&b->x`. -/

namespace MathLib

/-- element types of the arrays: `Real`, `int` (pivot marks, and indices, which are kept apart as natural numbers),
`Vec3<Real>`; impl/linearequations.h:5-12, 132-139, impl/spline3.h:488-491 -/
inductive Ty where
  | real | int | idx | vec
  deriving DecidableEq

/-- the values of the element types (impl/linearequations.h:5-12, 132-139, impl/spline3.h:488-491) -/
abbrev Ty.den (R : Type) : Ty → Type
  | real => R
  | int => Int
  | idx => Nat
  | vec => Vec3 R

/-- The heap: the allocated blocks by type and number, the number of the next block, and which of the future
allocations will fail (impl/linearequations.h:12, 83-85, 137-139, impl/spline3.h:488-491). -/
structure Heap (R : Type) where
  block : (q : Ty × Nat) → Option (Buf (q.1.den R))
  next : Nat
  oom : Nat → Bool

/-- Faults: those of the array model, use of a block that is not allocated, and `delete[]` of such a block
(impl/linearequations.h:23, 32). -/
inductive HFault where
  | fault (f : Fault)
  | dangling
  | badFree

/-- A C++ statement on the heap: a fault, or a new heap and a value, or `none` for an exception (which `new` may
throw, impl/linearequations.h:12). -/
def HM (R α : Type) : Type := Heap R → Except HFault (Option α × Heap R)

namespace HM
variable {R α β : Type}

/-- statements one after the other; an exception leaves the function (no `catch` in impl/linearequations.h) -/
instance : Monad (HM R) where
  pure a := fun h => .ok (some a, h)
  bind m f := fun h => match m h with
    | .error e => .error e
    | .ok (none, h) => .ok (none, h)
    | .ok (some a, h) => f a h

/-- a computation that does not use the heap (e.g. impl/linearequations.h:16) -/
def lift (r : Res α) : HM R α := fun h => match r with
  | .ok a => .ok (some a, h)
  | .error f => .error (.fault f)

/-- `new T[n]` (impl/linearequations.h:12) -/
def new (t : Ty) (n : Nat) : HM R Nat := fun h =>
  if h.oom h.next then .ok (none, { h with next := h.next + 1 })
  else .ok (some h.next, { h with block := Function.update h.block (t, h.next) (some (Buf.alloc n)), next := h.next + 1 })

/-- `delete[] p` (impl/linearequations.h:23, 32) -/
def delete (t : Ty) (p : Nat) : HM R Unit := fun h =>
  match h.block (t, p) with
  | none => .error .badFree
  | some _ => .ok (some (), { h with block := Function.update h.block (t, p) none })

/-- the whole array that `p` points to (e.g. `a` in impl/linearequations.h:130) -/
def deref (t : Ty) (p : Nat) : HM R (Buf (t.den R)) := fun h =>
  match h.block (t, p) with
  | none => .error .dangling
  | some b => .ok (some b, h)

/-- overwrite the array that `p` points to (e.g. `a` in impl/linearequations.h:130) -/
def put (t : Ty) (p : Nat) (b : Buf (t.den R)) : HM R Unit := fun h =>
  match h.block (t, p) with
  | none => .error .dangling
  | some _ => .ok (some (), { h with block := Function.update h.block (t, p) (some b) })

/-- `p[i]` (as in impl/linearequations.h:16) -/
def load (t : Ty) (p i : Nat) : HM R (t.den R) := do
  let b ← deref t p
  lift (b.get i)

/-- `p[i] = v` (as in impl/linearequations.h:16) -/
def store (t : Ty) (p i : Nat) (v : t.den R) : HM R Unit := do
  let b ← deref t p
  let b ← lift (b.set i v)
  put t p b

/-- `for (i = lo; i < lo + k; i++) s = f(i, s)` (as in impl/linearequations.h:17-30, 142) -/
def forFrom (f : Nat → α → HM R α) : (lo k : Nat) → α → HM R α
  | _, 0, s => pure s
  | lo, k + 1, s => do
    let s ← f lo s
    forFrom f (lo + 1) k s

/-- `for (i = lo; i < hi; i++) f(i)` (as in impl/linearequations.h:17-30, 142) -/
def for' (lo hi : Nat) (f : Nat → HM R Unit) : HM R Unit := forFrom (fun i _ => f i) lo (hi - lo) ()

/-- `for (i = lo; i < lo + k; i++) s = f(i, s)` left early when `f` gives `none` (as in impl/linearequations.h:17-30, 142) -/
def forBreakFrom (f : Nat → α → HM R (Option α)) : (lo k : Nat) → α → HM R (Option α)
  | _, 0, s => pure (some s)
  | lo, k + 1, s => do
    match ← f lo s with
    | none => pure none
    | some s => forBreakFrom f (lo + 1) k s

/-- `for (i = lo; i < hi; i++) s = f(i, s)` left early when `f` gives `none` (as in impl/linearequations.h:17-30, 142) -/
def forBreak (lo hi : Nat) (f : Nat → α → HM R (Option α)) (s : α) : HM R (Option α) := forBreakFrom f lo (hi - lo) s

/-- `for (j = k - 1; j >= 0; j--) f(j)` (as in impl/linearequations.h:17-30, 142) -/
def forDown (f : Nat → HM R Unit) : Nat → HM R Unit
  | 0 => pure ()
  | k + 1 => do
    f k
    forDown f k

end HM

open HM

variable {R : Type} [Zero R] [One R] [NatCast R] [Add R] [Sub R] [Mul R] [Div R] [Neg R]
  [LT R] [LE R] [DecidableLT R] [DecidableLE R] [BEq R]

namespace TriDiagonal

/-- Common text of both overloads of `TriDiagonal::solve` from the test of `b[0]` on,
impl/linearequations.h:9-34 and 43-68, as in `solveCore`.  `t` is the element type of `r` and `u`. -/
def solveCoreH (t : Ty) (vsub : t.den R → t.den R → t.den R) (vmul : t.den R → R → t.den R)
    (vdiv : t.den R → R → Res (t.den R)) (a b c r u : Nat) (n : Nat) : HM R Bool := do
  let b0 : R ← load .real b 0
  if b0 == 0 then return false
  let gam ← new .real n
  let r0 ← load t r 0
  let q0 ← lift (vdiv r0 b0)
  store t u 0 q0
  let bet ← forBreak 1 n (fun j (bet : R) => do
    let cj : R ← load .real c (j - 1)
    store .real gam j (cj / bet)
    let gj : R ← load .real gam j
    let bj : R ← load .real b j
    let aj : R ← load .real a (j - 1)
    let bet := bj - aj * gj
    if bet == 0 then return none
    let rj ← load t r j
    let uj ← load t u (j - 1)
    let q ← lift (vdiv (vsub rj (vmul uj aj)) bet)
    store t u j q
    return some bet) b0
  match bet with
  | none =>
    delete .real gam
    return false
  | some _ =>
    forDown (fun j => do
      let uj ← load t u j
      let g : R ← load .real gam (j + 1)
      let u1 ← load t u (j + 1)
      store t u j (vsub uj (vmul u1 g))) (n - 1)
    delete .real gam
    return true

/-- `TriDiagonal::solve`, impl/linearequations.h:3-35. -/
def solveH (a b c r u : Nat) (n : Nat) : HM R Bool :=
  if n = 0 then lift (.error .assertion)
  else solveCoreH .real (fun x y => x - y) (fun x k => k * x) (fun x k => .ok (x / k)) a b c r u n

/-- `TriDiagonal::solve` with `Vec3` right-hand side, impl/linearequations.h:37-69. -/
def solve3H (a b c r u : Nat) (n : Nat) : HM R Bool :=
  solveCoreH .vec (fun (x y : Vec3 R) => x - y) (fun (x : Vec3 R) k => x * k) Vec3.div a b c r u n

/-- `TriDiagonal::solveCyclic`, impl/linearequations.h:71-119. -/
def solveCyclicH (a b c : Nat) (alpha beta : R) (r x : Nat) (n : Nat) : HM R Bool := do
  if n ≤ 2 then return false
  if alpha == 0 && beta == 0 then return ← solveH a b c r x n
  let bb ← new .real n
  let u ← new .real n
  let z ← new .real n
  let b0 : R ← load .real b 0
  let gamma := -b0
  store .real bb 0 (b0 - gamma)
  let bl : R ← load .real b (n - 1)
  store .real bb (n - 1) (bl - alpha * beta / gamma)
  for' 1 (n - 1) (fun i => do
    let bi : R ← load .real b i
    store .real bb i bi)
  let result ← solveH a bb c r x n
  let result ← if result then do
      store .real u 0 gamma
      store .real u (n - 1) alpha
      for' 1 (n - 1) (fun i => store .real u i (0 : R))
      let result ← solveH a bb c u z n
      if result then do
        let x0 : R ← load .real x 0
        let xl : R ← load .real x (n - 1)
        let z0 : R ← load .real z 0
        let zl : R ← load .real z (n - 1)
        let fact := (x0 + beta * xl / gamma) / (1 + z0 + beta * zl / gamma)
        for' 0 n (fun i => do
          let xi : R ← load .real x i
          let zi : R ← load .real z i
          store .real x i (xi - fact * zi))
      pure result
    else pure result
  delete .real z
  delete .real u
  delete .real bb
  return result

end TriDiagonal

namespace GaussJordan

/-- the right-hand side of `GaussJordan::solve`: an array of scalars, or one of vectors passed as `&b->x`
(impl/linearequations.h:255-259) -/
inductive Rhs where
  | reals (p : Nat)
  | vecs (p : Nat)

/-- where the right-hand side is stored, impl/linearequations.h:130, 255-259 -/
def Rhs.addr : Rhs → Ty × Nat
  | reals p => (.real, p)
  | vecs p => (.vec, p)

/-- its components (impl/linearequations.h:255-259) -/
def Rhs.get : Rhs → HM R (Buf R)
  | reals p => deref .real p
  | vecs p => do
    let b ← deref .vec p
    return SplineSolver3.flat b

/-- writing its components (impl/linearequations.h:255-259) -/
def Rhs.put (b : Buf R) : Rhs → HM R Unit
  | reals p => HM.put .real p b
  | vecs p => HM.put .vec p (SplineSolver3.unflat b)

/-- `GaussJordan::solve(Real*, int, Real*, int)`, impl/linearequations.h:129-247.  One turn of the main loop is the
one of the array model, `step`, run on the blocks which the five pointers point to; so is the final exchange of
columns.  The turn that ends with `return false` leaves the blocks as they were before it (in the code rows may
have been exchanged). -/
def solveH (absf : R → R) (a n : Nat) (b : Rhs) (m : Nat) : HM R Bool := do
  let indxc ← new .idx n
  let indxr ← new .idx n
  let ipiv ← new .int n
  for' 0 n (fun j => store .int ipiv j (-1 : Int))
  let piv ← forBreak 0 n (fun i (piv : Piv R) => do
    let av ← deref .real a
    let bv ← b.get
    let cv ← deref .idx indxc
    let rv ← deref .idx indxr
    let pv ← deref .int ipiv
    match ← lift (step absf n m i ⟨av, bv, cv, rv, pv, piv⟩) with
    | none => return none
    | some s =>
      HM.put .real a s.a
      b.put s.b
      HM.put .idx indxc s.indxc
      HM.put .idx indxr s.indxr
      HM.put .int ipiv s.ipiv
      return some s.piv) ⟨0, none, none⟩
  match piv with
  | none =>
    delete .idx indxc
    delete .idx indxr
    delete .int ipiv
    return false
  | some _ =>
    let av ← deref .real a
    let rv ← deref .idx indxr
    let cv ← deref .idx indxc
    let av ← lift (unscramble av rv cv n)
    HM.put .real a av
    delete .idx indxc
    delete .idx indxr
    delete .int ipiv
    return true

end GaussJordan

namespace SplineSolver3

/-- `SplineSolver3::naturalBezierSpline`, impl/spline3.h:470-534. -/
def naturalBezierSplineH (n p1 p2 p3 : Nat) : HM R Bool :=
  if n ≥ 2 then
    if n = 2 then do
      let k1 : Vec3 R ← load .vec p1 1
      let k0 : Vec3 R ← load .vec p1 0
      let t ← lift ((k1 - k0).div (3 : R))
      let k0 : Vec3 R ← load .vec p1 0
      store .vec p2 0 (k0 + t)
      let k1 : Vec3 R ← load .vec p1 1
      store .vec p3 0 (k1 - t)
      return true
    else do
      let n := n - 1
      let a ← new .real (n - 1)
      let b ← new .real n
      let c ← new .real (n - 1)
      let r ← new .vec n
      for' 0 (n - 1) (fun i => do
        store .real a i (1 : R)
        store .real b i (4 : R)
        store .real c i (1 : R))
      store .real b 0 (2 : R)
      store .real a (n - 2) (2 : R)
      store .real b (n - 1) (7 : R)
      for' 1 (n - 1) (fun i => do
        let ki : Vec3 R ← load .vec p1 i
        let kj : Vec3 R ← load .vec p1 (i + 1)
        store .vec r i (ki * (4 : R) + kj * (2 : R)))
      let k0 : Vec3 R ← load .vec p1 0
      let k1 : Vec3 R ← load .vec p1 1
      store .vec r 0 (k0 + k1 * (2 : R))
      let kl : Vec3 R ← load .vec p1 (n - 1)
      let kn : Vec3 R ← load .vec p1 n
      store .vec r (n - 1) (kl * (8 : R) + kn)
      let ret ← TriDiagonal.solve3H a b c r p2 n
      if !ret then do
        delete .real a
        delete .real b
        delete .real c
        delete .vec r
        return false
      for' 0 (n - 1) (fun i => do
        let k : Vec3 R ← load .vec p1 (i + 1)
        let q : Vec3 R ← load .vec p2 (i + 1)
        store .vec p3 i (k * (2 : R) - q))
      let kn : Vec3 R ← load .vec p1 n
      let ql : Vec3 R ← load .vec p2 (n - 1)
      let v ← lift ((kn + ql).div (2 : R))
      store .vec p3 (n - 1) v
      delete .real a
      delete .real b
      delete .real c
      delete .vec r
      return true
  else lift (.error .assertion)

/-- `SplineSolver3::bezierSpline`, impl/spline3.h:536-600. -/
def bezierSplineH (n p1 : Nat) (p2start p3end : Vec3 R) (p2 p3 : Nat) : HM R Bool :=
  if n ≥ 2 then
    if n = 2 then do
      let k1 : Vec3 R ← load .vec p1 1
      let k0 : Vec3 R ← load .vec p1 0
      let _t ← lift ((k1 - k0).div (3 : R))
      store .vec p2 0 p2start
      store .vec p3 0 p3end
      return true
    else do
      let n := n - 1
      let a ← new .real (n - 1)
      let b ← new .real n
      let c ← new .real (n - 1)
      let r ← new .vec n
      for' 0 (n - 1) (fun i => do
        store .real a i (1 : R)
        store .real b i (4 : R)
        store .real c i (1 : R))
      store .real b 0 (1 : R)
      store .real b (n - 1) (4 : R)
      store .real c 0 (0 : R)
      for' 1 (n - 1) (fun i => do
        let ki : Vec3 R ← load .vec p1 i
        let kj : Vec3 R ← load .vec p1 (i + 1)
        store .vec r i (ki * (4 : R) + kj * (2 : R)))
      store .vec r 0 p2start
      let kl : Vec3 R ← load .vec p1 (n - 1)
      store .vec r (n - 1) (p3end + kl * (4 : R))
      let ret ← TriDiagonal.solve3H a b c r p2 n
      if !ret then do
        delete .real a
        delete .real b
        delete .real c
        delete .vec r
        return false
      for' 0 (n - 1) (fun i => do
        let k : Vec3 R ← load .vec p1 (i + 1)
        let q : Vec3 R ← load .vec p2 (i + 1)
        store .vec p3 i (k * (2 : R) - q))
      store .vec p3 (n - 1) p3end
      delete .real a
      delete .real b
      delete .real c
      delete .vec r
      return true
  else lift (.error .assertion)

/-- `SplineSolver3::closedBezierSpline`, impl/spline3.h:602-649. -/
def closedBezierSplineH (absf : R → R) (n p1 p2 p3 : Nat) : HM R Bool :=
  if n ≥ 2 then do
    let a ← new .real (n * n)
    forDown (fun i => store .real a i (0 : R)) (n * n)
    for' 1 (n - 1) (fun i => do
      store .real a (i * n + i - 1) (1 : R)
      store .real a (i * n + i) (4 : R)
      store .real a (i * n + i + 1) (1 : R))
    store .real a 0 (4 : R)
    store .real a 1 (1 : R)
    store .real a (n - 1) (1 : R)
    store .real a ((n - 1) * n) (1 : R)
    store .real a ((n - 1) * n + n - 2) (1 : R)
    store .real a ((n - 1) * n + n - 1) (4 : R)
    for' 0 (n - 1) (fun i => do
      let ki : Vec3 R ← load .vec p1 i
      let kj : Vec3 R ← load .vec p1 (i + 1)
      store .vec p2 i (ki * (4 : R) + kj * (2 : R)))
    let kl : Vec3 R ← load .vec p1 (n - 1)
    let k0 : Vec3 R ← load .vec p1 0
    store .vec p2 (n - 1) (kl * (4 : R) + k0 * (2 : R))
    let ret ← GaussJordan.solveH absf a n (.vecs p2) 3
    if !ret then do
      delete .real a
      return false
    for' 0 (n - 1) (fun i => do
      let k : Vec3 R ← load .vec p1 (i + 1)
      let q : Vec3 R ← load .vec p2 (i + 1)
      store .vec p3 i (k * (2 : R) - q))
    let qm : Vec3 R ← load .vec p2 (n - 2)
    let ql : Vec3 R ← load .vec p2 (n - 1)
    let kl : Vec3 R ← load .vec p1 (n - 1)
    store .vec p3 (n - 1) (qm + ql * (4 : R) - kl * (4 : R))
    delete .real a
    return true
  else lift (.error .assertion)

end SplineSolver3

end MathLib
