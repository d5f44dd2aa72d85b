import Verif.Model.Functions
import Verif.Model.Interpolation

/-! # Model of `colorrgb.h`, `colorrgba.h`, `colorhsv.h` and their implementations

Not modelled: the default constructors (they leave every member uninitialised), `data()`
(a pointer to the first member) and `set`, which assigns the members it is given.  `interp` writes
each member of `*this` after its last read of that member of `a` and `b`, so the result does not
depend on aliasing. -/

namespace MathLib

/-- `ColorRGB`, colorrgb.h:62. -/
@[ext] structure ColorRGB (R : Type) where
  r : R
  g : R
  b : R
  deriving DecidableEq, Repr

/-- `ColorRGBA`, colorrgba.h:62. -/
@[ext] structure ColorRGBA (R : Type) where
  r : R
  g : R
  b : R
  a : R
  deriving DecidableEq, Repr

/-- `ColorHSV`, colorhsv.h:47; hue in degrees. -/
@[ext] structure ColorHSV (R : Type) where
  h : R
  s : R
  v : R
  deriving DecidableEq, Repr

variable {R : Type} [Zero R] [One R] [NatCast R] [Add R] [Sub R] [Mul R] [Div R] [Neg R]
  [LT R] [LE R] [DecidableLT R] [DecidableLE R] [BEq R] [MathFns R]

namespace ColorRGB

/-- `ColorRGB(Real)`, impl/colorrgb.h:29-33. -/
def ofGrey (k : R) : ColorRGB R := ⟨k, k, k⟩

/-- `ColorRGB(int,int,int)`, impl/colorrgb.h:41-45.  `toR` is the `int` to `Real` conversion. -/
def ofInts (toR : Int → R) (r g b : Int) : ColorRGB R := ⟨toR r / 255, toR g / 255, toR b / 255⟩

/-- the named colours, impl/colorrgb.h:5-18 -/
def Black : ColorRGB R := ⟨0, 0, 0⟩
/-- `ColorRGB::White`, impl/colorrgb.h:8-9. -/
def White : ColorRGB R := ⟨1, 1, 1⟩
/-- `ColorRGB::Red`, impl/colorrgb.h:11-12. -/
def Red : ColorRGB R := ⟨1, 0, 0⟩
/-- `ColorRGB::Green`, impl/colorrgb.h:14-15. -/
def Green : ColorRGB R := ⟨0, 1, 0⟩
/-- `ColorRGB::Blue`, impl/colorrgb.h:17-18. -/
def Blue : ColorRGB R := ⟨0, 0, 1⟩

/-- `interp`, impl/colorrgb.h:81-95 (`fromInterp`, 51-57, is the same on a fresh object). -/
def interp (a b : ColorRGB R) (ratio : R) : ColorRGB R :=
  if ratio == 0 then a
  else if ratio == 1 then b
  else ⟨a.r + (b.r - a.r) * ratio, a.g + (b.g - a.g) * ratio, a.b + (b.b - a.b) * ratio⟩

/-- `operator+`, impl/colorrgb.h:142-146 and `+=`, 101-108. -/
def add (x c : ColorRGB R) : ColorRGB R := ⟨x.r + c.r, x.g + c.g, x.b + c.b⟩

/-- unary `operator-`, impl/colorrgb.h:148-152. -/
def neg (x : ColorRGB R) : ColorRGB R := ⟨-x.r, -x.g, -x.b⟩

/-- `operator-`, impl/colorrgb.h:154-158 and `-=`, 110-117. -/
def sub (x c : ColorRGB R) : ColorRGB R := ⟨x.r - c.r, x.g - c.g, x.b - c.b⟩

/-- `operator*`, impl/colorrgb.h:160-164 and `*=`, 119-126. -/
def mul (x : ColorRGB R) (k : R) : ColorRGB R := ⟨x.r * k, x.g * k, x.b * k⟩

/-- `operator/`, impl/colorrgb.h:166-171 and `/=`, 128-136. -/
def div (x : ColorRGB R) (k : R) : Res (ColorRGB R) :=
  if k == 0 then .error .assertion else .ok ⟨x.r / k, x.g / k, x.b / k⟩

/-- `operator==`, impl/colorrgb.h:178-182. -/
def eq (x c : ColorRGB R) : Bool := x.r == c.r && x.g == c.g && x.b == c.b

/-- `operator!=`, impl/colorrgb.h:184-188. -/
def ne (x c : ColorRGB R) : Bool := x.r != c.r || x.g != c.g || x.b != c.b

/-- `toRGBA`, impl/colorrgb.h:196-200. -/
def toRGBA (x : ColorRGB R) (alpha : R) : ColorRGBA R := ⟨x.r, x.g, x.b, alpha⟩

/-- `low` of `toHSV`, impl/colorrgb.h:209, 211, 213. -/
def low (x : ColorRGB R) : R :=
  let l := x.r
  let l := if x.g < l then x.g else l
  if x.b < l then x.b else l

/-- `vee` of `toHSV`, impl/colorrgb.h:210, 212, 214. -/
def vee (x : ColorRGB R) : R :=
  let v := x.r
  let v := if x.g > v then x.g else v
  if x.b > v then x.b else v

/-- `toHSV`, impl/colorrgb.h:202-257. -/
def toHSV (x : ColorRGB R) : ColorHSV R :=
  let low := x.low
  let vee := x.vee
  if vee > low then
    let s := (vee - low) / vee
    let h : R :=
      if vee == x.r then (x.g - x.b) / (vee - low)
      else if vee == x.g then 2 + (x.b - x.r) / (vee - low)
      else if vee == x.b then 4 + (x.r - x.g) / (vee - low)
      else 0
    let h := if h < 0 then h + 6 else if h ≥ 6 then h - 6 else h
    ⟨h * 60, s, vee⟩
  else ⟨0, 0, vee⟩

/-- `cast`, impl/colorrgb.h:271-280; `conv` is the `static_cast`. -/
def cast {S : Type} (conv : R → S) (x : ColorRGB R) : ColorRGB S := ⟨conv x.r, conv x.g, conv x.b⟩

/-- `random`, impl/colorrgb.h:282-290.  `r1 r2 r3` are the values of the three calls of `::rand()`
and `m` is `RAND_MAX`, converted to `Real`. -/
def random (m r1 r2 r3 : R) : ColorRGB R := ⟨randReal m r1 1, randReal m r2 1, randReal m r3 1⟩

end ColorRGB

namespace ColorRGBA

/-- `ColorRGBA(Real,Real)`, impl/colorrgba.h:29-33. -/
def ofGrey (k a : R) : ColorRGBA R := ⟨k, k, k, a⟩

/-- `ColorRGBA(int,int,int,int)`, impl/colorrgba.h:41-45. -/
def ofInts (toR : Int → R) (r g b a : Int) : ColorRGBA R :=
  ⟨toR r / 255, toR g / 255, toR b / 255, toR a / 255⟩

/-- the named colours, impl/colorrgba.h:5-18 -/
def Black : ColorRGBA R := ⟨0, 0, 0, 1⟩
/-- `ColorRGBA::White`, impl/colorrgba.h:8-9. -/
def White : ColorRGBA R := ⟨1, 1, 1, 1⟩
/-- `ColorRGBA::Red`, impl/colorrgba.h:11-12. -/
def Red : ColorRGBA R := ⟨1, 0, 0, 1⟩
/-- `ColorRGBA::Green`, impl/colorrgba.h:14-15. -/
def Green : ColorRGBA R := ⟨0, 1, 0, 1⟩
/-- `ColorRGBA::Blue`, impl/colorrgba.h:17-18. -/
def Blue : ColorRGBA R := ⟨0, 0, 1, 1⟩

/-- `interp`, impl/colorrgba.h:83-98 (`fromInterp`, 51-57, is the same on a fresh object). -/
def interp (a b : ColorRGBA R) (ratio : R) : ColorRGBA R :=
  if ratio == 0 then a
  else if ratio == 1 then b
  else ⟨a.r + (b.r - a.r) * ratio, a.g + (b.g - a.g) * ratio, a.b + (b.b - a.b) * ratio,
    a.a + (b.a - a.a) * ratio⟩

/-- `operator+=`, impl/colorrgba.h:104-111. -/
def addAssign (x c : ColorRGBA R) : ColorRGBA R :=
  { x with r := x.r + c.r, g := x.g + c.g, b := x.b + c.b }

/-- `operator-=`, impl/colorrgba.h:113-120. -/
def subAssign (x c : ColorRGBA R) : ColorRGBA R :=
  { x with r := x.r - c.r, g := x.g - c.g, b := x.b - c.b }

/-- `operator*=`, impl/colorrgba.h:122-129. -/
def mulAssign (x : ColorRGBA R) (k : R) : ColorRGBA R :=
  { x with r := x.r * k, g := x.g * k, b := x.b * k }

/-- `operator/=`, impl/colorrgba.h:131-139. -/
def divAssign (x : ColorRGBA R) (k : R) : Res (ColorRGBA R) :=
  if k == 0 then .error .assertion
  else .ok { x with r := x.r / k, g := x.g / k, b := x.b / k }

/-- `operator+`, impl/colorrgba.h:145-149. -/
def add (x c : ColorRGBA R) : ColorRGBA R := ⟨x.r + c.r, x.g + c.g, x.b + c.b, x.a⟩

/-- unary `operator-`, impl/colorrgba.h:151-155. -/
def neg (x : ColorRGBA R) : ColorRGBA R := ⟨-x.r, -x.g, -x.b, x.a⟩

/-- `operator-`, impl/colorrgba.h:157-161. -/
def sub (x c : ColorRGBA R) : ColorRGBA R := ⟨x.r - c.r, x.g - c.g, x.b - c.b, x.a⟩

/-- `operator*`, impl/colorrgba.h:163-167. -/
def mul (x : ColorRGBA R) (k : R) : ColorRGBA R := ⟨x.r * k, x.g * k, x.b * k, x.a⟩

/-- `operator/`, impl/colorrgba.h:169-174. -/
def div (x : ColorRGBA R) (k : R) : Res (ColorRGBA R) :=
  if k == 0 then .error .assertion else .ok ⟨x.r / k, x.g / k, x.b / k, x.a⟩

/-- `operator==`, impl/colorrgba.h:181-185. -/
def eq (x c : ColorRGBA R) : Bool := x.r == c.r && x.g == c.g && x.b == c.b && x.a == c.a

/-- `operator!=`, impl/colorrgba.h:187-191. -/
def ne (x c : ColorRGBA R) : Bool := x.r != c.r || x.g != c.g || x.b != c.b || x.a != c.a

/-- `toRGB`, impl/colorrgba.h:198-202. -/
def toRGB (x : ColorRGBA R) : ColorRGB R := ⟨x.r, x.g, x.b⟩

/-- `toHSV`, impl/colorrgba.h:204-208. -/
def toHSV (x : ColorRGBA R) : ColorHSV R := x.toRGB.toHSV

/-- `cast`, impl/colorrgba.h:222-232. -/
def cast {S : Type} (conv : R → S) (x : ColorRGBA R) : ColorRGBA S :=
  ⟨conv x.r, conv x.g, conv x.b, conv x.a⟩

/-- `random(a)`, impl/colorrgba.h:234-243; see `ColorRGB.random`. -/
def random (m r1 r2 r3 a : R) : ColorRGBA R :=
  ⟨randReal m r1 1, randReal m r2 1, randReal m r3 1, a⟩

end ColorRGBA

namespace ColorHSV

/-- the named colours, impl/colorhsv.h:5-18 -/
def Black : ColorHSV R := ⟨0, 0, 0⟩
/-- `ColorHSV::White`, impl/colorhsv.h:8-9. -/
def White : ColorHSV R := ⟨0, 0, 1⟩
/-- `ColorHSV::Red`, impl/colorhsv.h:11-12. -/
def Red : ColorHSV R := ⟨0, 1, 1⟩
/-- `ColorHSV::Green`, impl/colorhsv.h:14-15. -/
def Green : ColorHSV R := ⟨120, 1, 1⟩
/-- `ColorHSV::Blue`, impl/colorhsv.h:17-18. -/
def Blue : ColorHSV R := ⟨240, 1, 1⟩

/-- `interp`, impl/colorhsv.h:69-86 (`fromInterp`, 39-45, is the same on a fresh object). -/
def interp (a b : ColorHSV R) (ratio : R) : Res (ColorHSV R) :=
  if ratio == 0 then .ok a
  else if ratio == 1 then .ok b
  else do
    let d := b.h - a.h
    let delta := d + (if abs' d > 180 then (if d < 0 then 360 else -360) else 0)
    let h ← fmodPositive (a.h + delta * ratio) 360
    .ok ⟨h, lerp a.s b.s ratio, lerp a.v b.v ratio⟩

/-- `operator==`, impl/colorhsv.h:92-96. -/
def eq (x c : ColorHSV R) : Bool := x.h == c.h && x.s == c.s && x.v == c.v

/-- `operator!=`, impl/colorhsv.h:98-102. -/
def ne (x c : ColorHSV R) : Bool := x.h != c.h || x.s != c.s || x.v != c.v

/-- `toRGB`, impl/colorhsv.h:109-162.  `p0` is `0 ≤ p0` or not a number; converting the latter to
`int` is undefined, like any value that does not fit.  `i` is converted back to `Real` for the
subtraction (`i ≥ 0`, so `toNat` does not change it).  The `switch` has no `default`: for any other
`i` the returned object was never initialised. -/
def toRGB (x : ColorHSV R) : Res (ColorRGB R) := do
  let p0 ← fmodPositive (x.h / 60) 6
  if p0 == p0 then
    let i ← mkInt (MathFns.trunc p0)
    let f := p0 - (i.toNat : R)
    let p1 := x.v * (1 - x.s)
    let p2 := x.v * (1 - x.s * f)
    let p3 := x.v * (1 - x.s * (1 - f))
    if i = 0 then .ok ⟨x.v, p3, p1⟩
    else if i = 1 then .ok ⟨p2, x.v, p1⟩
    else if i = 2 then .ok ⟨p1, x.v, p3⟩
    else if i = 3 then .ok ⟨p1, p2, x.v⟩
    else if i = 4 then .ok ⟨p3, p1, x.v⟩
    else if i = 5 then .ok ⟨x.v, p1, p2⟩
    else .error .uninit
  else .error .intOverflow

/-- `toRGBA`, impl/colorhsv.h:164-168. -/
def toRGBA (x : ColorHSV R) (alpha : R) : Res (ColorRGBA R) := do
  let c ← x.toRGB
  .ok (c.toRGBA alpha)

/-- `cast`, impl/colorhsv.h:182-191. -/
def cast {S : Type} (conv : R → S) (x : ColorHSV R) : ColorHSV S := ⟨conv x.h, conv x.s, conv x.v⟩

/-- `random`, impl/colorhsv.h:193-201; see `ColorRGB.random`. -/
def random (m r1 r2 r3 : R) : ColorHSV R := ⟨randReal m r1 360, randReal m r2 1, randReal m r3 1⟩

end ColorHSV

end MathLib
