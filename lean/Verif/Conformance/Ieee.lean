import Verif.Spec.Ieee

/-!
# `Ieee ℚ 24 127` against the hardware `Float32`

The four operations and the three comparisons, on all pairs from a list of special and ordinary bit
patterns.  Evidence that `Spec/Ieee.lean` is the arithmetic meant; no theorem depends on it.
-/

namespace MathLib.Conformance
set_option linter.all false

abbrev Q32 := Ieee ℚ 24 127

/-- The number with the given binary32 encoding. -/
def ofBits (b : UInt32) : Q32 :=
  let s := b >>> 31 == 1
  let e := ((b >>> 23) &&& 0xff).toNat
  let m := (b &&& 0x7fffff).toNat
  let sg : ℚ := if s then -1 else 1
  if e == 255 then (if m == 0 then .inf s else .nan)
  else if e == 0 then
    (if m == 0 then .zero s else .num (sg * m * (2 : ℚ) ^ (-149 : ℤ)))
  else .num (sg * (m + 8388608 : ℕ) * (2 : ℚ) ^ ((e : ℤ) - 150))

/-- Same value, the sign of zero included. -/
def same : Q32 → Q32 → Bool
  | .nan, .nan => true
  | .inf s, .inf t => s == t
  | .zero s, .zero t => s == t
  | .num v, .num w => v == w
  | _, _ => false

def pats : List UInt32 :=
  let pos : List UInt32 := [0, 1, 2, 3, 0x7fffff, 0x800000, 0x800001, 0x1000000, 0x3f800000, 0x3f800001,
    0x3f7fffff, 0x40490fdb, 0x3eaaaaab, 0x4b800000, 0x4b7fffff, 0x5f3759df, 0x1f800000, 0x20000001,
    0x7f7fffff, 0x7f000000, 0x7e800001, 0x7f800000, 0x7fc00000, 0x33800000, 0x34000000, 0x12345678,
    0x2468ace0, 0x6789abcd, 0x5bcdef12, 0x42f6e979]
  pos ++ pos.map (· ||| 0x80000000)

def ieeeAgrees : Bool :=
  pats.all fun a => pats.all fun b =>
    let x := Float32.ofBits a
    let y := Float32.ofBits b
    let u := ofBits a
    let v := ofBits b
    same (u + v) (ofBits (x + y).toBits) && same (u - v) (ofBits (x - y).toBits) &&
    same (u * v) (ofBits (x * y).toBits) && same (u / v) (ofBits (x / y).toBits) &&
    same (-u) (ofBits (-x).toBits) &&
    (decide (u < v) == decide (x < y)) && (decide (u ≤ v) == decide (x ≤ y)) && ((u == v) == (x == y))

#guard ieeeAgrees

end MathLib.Conformance
