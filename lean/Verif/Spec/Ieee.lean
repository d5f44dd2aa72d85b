import Verif.Spec.FloatReal
import Verif.Model.QuatBase

/-! # IEEE-754 arithmetic with infinities, signed zeros, gradual underflow and NaN

`Ieee K p emax` has the values of a binary format with `p` bits of significand and greatest exponent `emax`
(binary32: 24 and 127, binary64: 53 and 1023).  `K` is the ordered field in which the exact results are
formed, ℚ to compute, ℝ to reason.  The constructor `num` holds the finite values other than zero; that
they are representable is not built into the type, but every operation yields representable values.
NaNs are not told apart. -/

namespace MathLib

inductive Ieee (K : Type) (p : ℕ) (emax : ℤ) where
  | nan
  | inf (neg : Bool)
  | zero (neg : Bool)
  | num (v : K)

namespace Ieee

section
variable {K : Type} [Field K] [LinearOrder K] [IsStrictOrderedRing K] [FloorRing K] {p : ℕ} {emax : ℤ}

/-- Rounding to nearest, ties to even, on the grid of the format without its upper end: `p` significant
bits, fewer below `2 ^ (1 - emax)`. -/
def grid (p : ℕ) (emax : ℤ) (x : K) : K :=
  if x = 0 then 0
  else
    let e : ℤ := max (Int.log 2 |x|) (1 - emax) - (p - 1)
    roundHalfEven (x / (2 : K) ^ e) * (2 : K) ^ e

/-- The result of an operation whose exact result is `x`; `s` is the sign of a result that is exactly
zero.  From `2 ^ (emax + 1)` on the result is an infinity. -/
def round (x : K) (s : Bool) : Ieee K p emax :=
  let r := grid p emax x
  if (2 : K) ^ (emax + 1) ≤ |r| then inf (decide (x < 0))
  else if r = 0 then zero (if x = 0 then s else decide (x < 0))
  else num r

/-- the sign bit (false for NaN, which no operation looks at) -/
def sign : Ieee K p emax → Bool
  | nan => false
  | inf s => s
  | zero s => s
  | num v => decide (v < 0)

def neg : Ieee K p emax → Ieee K p emax
  | nan => nan
  | inf s => inf !s
  | zero s => zero !s
  | num v => num (-v)

/-- the value of a finite number -/
def fin? : Ieee K p emax → Option K
  | zero _ => some 0
  | num v => some v
  | _ => none

def add (a b : Ieee K p emax) : Ieee K p emax :=
  match a, b with
  | nan, _ | _, nan => nan
  | inf s, inf t => if s = t then inf s else nan
  | inf s, _ => inf s
  | _, inf t => inf t
  | zero s, zero t => zero (s && t)
  | zero _, num w => round w false
  | num v, zero _ => round v false
  | num v, num w => round (v + w) false

def mul (a b : Ieee K p emax) : Ieee K p emax :=
  match a, b with
  | nan, _ | _, nan => nan
  | inf _, zero _ | zero _, inf _ => nan
  | inf s, b => inf (s ^^ b.sign)
  | a, inf t => inf (a.sign ^^ t)
  | zero s, b => zero (s ^^ b.sign)
  | a, zero t => zero (a.sign ^^ t)
  | num v, num w => round (v * w) false

def div (a b : Ieee K p emax) : Ieee K p emax :=
  match a, b with
  | nan, _ | _, nan => nan
  | inf _, inf _ | zero _, zero _ => nan
  | inf s, b => inf (s ^^ b.sign)
  | a, inf t => zero (a.sign ^^ t)
  | a, zero t => inf (a.sign ^^ t)
  | zero s, b => zero (s ^^ b.sign)
  | num v, num w => round (v / w) false

def ltB (a b : Ieee K p emax) : Bool :=
  match a, b with
  | nan, _ | _, nan => false
  | inf s, inf t => s && !t
  | inf s, _ => s
  | _, inf t => !t
  | zero _, zero _ => false
  | zero _, num w => 0 < w
  | num v, zero _ => v < 0
  | num v, num w => v < w

def leB (a b : Ieee K p emax) : Bool :=
  match a, b with
  | nan, _ | _, nan => false
  | inf s, inf t => s || !t
  | inf s, _ => s
  | _, inf t => !t
  | zero _, zero _ => true
  | zero _, num w => 0 ≤ w
  | num v, zero _ => v ≤ 0
  | num v, num w => v ≤ w

def eqB (a b : Ieee K p emax) : Bool :=
  match a, b with
  | inf s, inf t => s == t
  | zero _, zero _ => true
  | zero _, num w => 0 = w
  | num v, zero _ => v = 0
  | num v, num w => v = w
  | _, _ => false

instance : Zero (Ieee K p emax) := ⟨zero false⟩
instance : One (Ieee K p emax) := ⟨num 1⟩
instance : NatCast (Ieee K p emax) := ⟨fun n => round n false⟩
instance : Neg (Ieee K p emax) := ⟨neg⟩
instance : Add (Ieee K p emax) := ⟨add⟩
instance : Sub (Ieee K p emax) := ⟨fun a b => add a (neg b)⟩
instance : Mul (Ieee K p emax) := ⟨mul⟩
instance : Div (Ieee K p emax) := ⟨div⟩
instance : BEq (Ieee K p emax) := ⟨eqB⟩
instance : LT (Ieee K p emax) := ⟨fun a b => ltB a b = true⟩
instance : LE (Ieee K p emax) := ⟨fun a b => leB a b = true⟩
instance : DecidableLT (Ieee K p emax) := fun a b => inferInstanceAs (Decidable (ltB a b = true))
instance : DecidableLE (Ieee K p emax) := fun a b => inferInstanceAs (Decidable (leB a b = true))

end

/-- The square root is the IEEE one.  The other functions are the exact ones, correctly rounded, with the
special values of the C standard for infinities and zeros; `pow` is only given for positive finite bases
and finite exponents, `trunc` is the conversion to an integer (undefined in C++ for NaN and infinities,
0 here). -/
noncomputable instance {p : ℕ} {emax : ℤ} : MathFns (Ieee ℝ p emax) where
  sqrt a := match a with
    | nan => nan
    | inf s => if s then nan else inf false
    | zero s => zero s
    | num v => if v < 0 then nan else round (√v) false
  sin a := match a with
    | zero s => zero s
    | num v => round (Real.sin v) false
    | _ => nan
  cos a := match a with
    | zero _ => num 1
    | num v => round (Real.cos v) false
    | _ => nan
  asin a := match a with
    | zero s => zero s
    | num v => if v < -1 ∨ 1 < v then nan else round (Real.arcsin v) false
    | _ => nan
  acos a := match a with
    | zero _ => round (Real.pi / 2) false
    | num v => if v < -1 ∨ 1 < v then nan else round (Real.arccos v) false
    | _ => nan
  atan2 a b :=
    let sg (s : Bool) (x : ℝ) : ℝ := if s then -x else x
    match a, b with
    | nan, _ | _, nan => nan
    | inf s, inf t => round (sg s (if t then 3 * Real.pi / 4 else Real.pi / 4)) false
    | inf s, _ => round (sg s (Real.pi / 2)) false
    | a, inf t => if t then round (sg a.sign Real.pi) false else zero a.sign
    | zero s, b => if b.sign then round (sg s Real.pi) false else zero s
    | num y, zero _ => round (sg (decide (y < 0)) (Real.pi / 2)) false
    | num y, num x => round (Complex.arg ⟨x, y⟩) false
  pow a b := match a, b with
    | num a, num b => if a ≤ 0 then nan else round (a ^ b) false
    | num a, zero _ => if a ≤ 0 then nan else num 1
    | _, _ => nan
  fmod a b := match a, b with
    | nan, _ | _, nan => nan
    | inf _, _ | _, zero _ => nan
    | a, inf _ => a
    | zero s, _ => zero s
    | num v, num w => round (fmodR v w) (decide (v < 0))
  trunc a := match a with
    | num v => truncR v
    | _ => 0
  pi := round Real.pi false

end Ieee

/-- A number that is a multiple of `2 ^ g`, of size at most `2 ^ h`; so are, for example, all numbers of `p` bits that
are zero or of size between `2 ^ (g + p - 1)` and `2 ^ h`. -/
def Ieee.OnGrid {K : Type} [Field K] [LinearOrder K] (g h : ℤ) (v : K) : Prop :=
  (∃ m : ℤ, v = m * (2 : K) ^ g) ∧ |v| ≤ 2 ^ h
/-- all coordinates are -/
def Vec2.OnGrid (g h : ℤ) (v : Vec2 ℝ) : Prop := Ieee.OnGrid g h v.x ∧ Ieee.OnGrid g h v.y
def Vec3.OnGrid (g h : ℤ) (v : Vec3 ℝ) : Prop := Ieee.OnGrid g h v.x ∧ Ieee.OnGrid g h v.y ∧ Ieee.OnGrid g h v.z

/-- `float` -/
abbrev B32 := Ieee ℝ 24 127
/-- `double` -/
abbrev B64 := Ieee ℝ 53 1023

/-- zero, or of size between `2^(-k)` and `2^k` -/
def Moderate (k : ℤ) (x : ℝ) : Prop := x = 0 ∨ ((2 : ℝ) ^ (-k) ≤ |x| ∧ |x| ≤ 2 ^ k)

section
variable {p : ℕ} {emax : ℤ}
/-- finite, with the given coordinates -/
def Vec2.Is (v : Vec2 (Ieee ℝ p emax)) (r : Vec2 ℝ) : Prop := v.x.fin? = some r.x ∧ v.y.fin? = some r.y
def Vec3.Is (v : Vec3 (Ieee ℝ p emax)) (r : Vec3 ℝ) : Prop :=
  v.x.fin? = some r.x ∧ v.y.fin? = some r.y ∧ v.z.fin? = some r.z
def Quat.Is (q : Quat (Ieee ℝ p emax)) (r : Quat ℝ) : Prop :=
  q.x.fin? = some r.x ∧ q.y.fin? = some r.y ∧ q.z.fin? = some r.z ∧ q.w.fin? = some r.w
end

end MathLib
