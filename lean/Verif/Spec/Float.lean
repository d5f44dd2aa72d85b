import Verif.Model.Basic
import Mathlib.Algebra.Order.Field.Basic
import Mathlib.Algebra.Order.Field.Rat
import Mathlib.Data.Rat.Floor
import Mathlib.Data.Int.Log

/-! # Scalars with an undefined value and rounding

`Fl K rnd` is "not a number, or a number of `K`"; every arithmetic operation is computed in `K`
and rounded by `rnd`.  Division by zero gives `nan` (IEEE gives an infinity or a NaN; both are
lumped together as "not a finite number"); there is no overflow and no signed zero. -/

namespace MathLib

inductive Fl (K : Type) (rnd : K → K) where
  | nan
  | num (v : K)
  deriving DecidableEq

namespace Fl
variable {K : Type} {rnd : K → K}

/-- Apply a rounded binary operation. -/
def op2 (f : K → K → K) : Fl K rnd → Fl K rnd → Fl K rnd
  | num a, num b => num (rnd (f a b))
  | _, _ => nan

instance [Zero K] : Zero (Fl K rnd) := ⟨num 0⟩
instance [One K] : One (Fl K rnd) := ⟨num 1⟩
instance [NatCast K] : NatCast (Fl K rnd) := ⟨fun n => num (rnd n)⟩
instance [Add K] : Add (Fl K rnd) := ⟨op2 (· + ·)⟩
instance [Sub K] : Sub (Fl K rnd) := ⟨op2 (· - ·)⟩
instance [Mul K] : Mul (Fl K rnd) := ⟨op2 (· * ·)⟩
instance [Div K] [Zero K] [DecidableEq K] : Div (Fl K rnd) :=
  ⟨fun a b => match a, b with
    | num a, num b => if b = 0 then nan else num (rnd (a / b))
    | _, _ => nan⟩
instance [Neg K] : Neg (Fl K rnd) :=
  ⟨fun a => match a with
    | num a => num (-a)
    | nan => nan⟩
/-- IEEE comparisons: every comparison with a NaN is false. -/
def ltB [LT K] [DecidableLT K] : Fl K rnd → Fl K rnd → Bool
  | num a, num b => a < b
  | _, _ => false
def leB [LE K] [DecidableLE K] : Fl K rnd → Fl K rnd → Bool
  | num a, num b => a ≤ b
  | _, _ => false
instance [LT K] [DecidableLT K] : LT (Fl K rnd) := ⟨fun a b => ltB a b = true⟩
instance [LE K] [DecidableLE K] : LE (Fl K rnd) := ⟨fun a b => leB a b = true⟩
instance [LT K] [DecidableLT K] : DecidableLT (Fl K rnd) :=
  fun a b => inferInstanceAs (Decidable (ltB a b = true))
instance [LE K] [DecidableLE K] : DecidableLE (Fl K rnd) :=
  fun a b => inferInstanceAs (Decidable (leB a b = true))
/-- IEEE `==`: a NaN is different from everything, itself included. -/
instance [DecidableEq K] : BEq (Fl K rnd) :=
  ⟨fun a b => match a, b with
    | num a, num b => decide (a = b)
    | _, _ => false⟩

@[simp] theorem num_lt [LT K] [DecidableLT K] (a b : K) :
    (num a : Fl K rnd) < num b ↔ a < b := by
  change (ltB (num a) (num b) = true) ↔ _; simp [ltB]
@[simp] theorem num_le [LE K] [DecidableLE K] (a b : K) :
    (num a : Fl K rnd) ≤ num b ↔ a ≤ b := by
  change (leB (num a) (num b) = true) ↔ _; simp [leB]
@[simp] theorem nan_lt [LT K] [DecidableLT K] (a : Fl K rnd) : ¬ ((nan : Fl K rnd) < a) := by
  change ¬ (ltB nan a = true); simp [ltB]
@[simp] theorem lt_nan [LT K] [DecidableLT K] (a : Fl K rnd) : ¬ (a < (nan : Fl K rnd)) := by
  change ¬ (ltB a nan = true); cases a <;> simp [ltB]
@[simp] theorem nan_le [LE K] [DecidableLE K] (a : Fl K rnd) : ¬ ((nan : Fl K rnd) ≤ a) := by
  change ¬ (leB nan a = true); simp [leB]
@[simp] theorem le_nan [LE K] [DecidableLE K] (a : Fl K rnd) : ¬ (a ≤ (nan : Fl K rnd)) := by
  change ¬ (leB a nan = true); cases a <;> simp [leB]
@[simp] theorem num_beq [DecidableEq K] (a b : K) :
    ((num a : Fl K rnd) == num b) = decide (a = b) := rfl
@[simp] theorem nan_beq [DecidableEq K] (a : Fl K rnd) : ((nan : Fl K rnd) == a) = false := rfl
@[simp] theorem beq_nan [DecidableEq K] (a : Fl K rnd) : (a == (nan : Fl K rnd)) = false := by
  cases a <;> rfl
@[simp] theorem num_add [Add K] (a b : K) : (num a : Fl K rnd) + num b = num (rnd (a + b)) := rfl
@[simp] theorem num_sub [Sub K] (a b : K) : (num a : Fl K rnd) - num b = num (rnd (a - b)) := rfl
@[simp] theorem num_mul [Mul K] (a b : K) : (num a : Fl K rnd) * num b = num (rnd (a * b)) := rfl
@[simp] theorem num_neg [Neg K] (a : K) : -(num a : Fl K rnd) = num (-a) := rfl
@[simp] theorem num_div [Div K] [Zero K] [DecidableEq K] (a b : K) :
    (num a : Fl K rnd) / num b = if b = 0 then nan else num (rnd (a / b)) := rfl
theorem zero_def [Zero K] : (0 : Fl K rnd) = num 0 := rfl
theorem one_def [One K] : (1 : Fl K rnd) = num 1 := rfl
theorem natCast_def [NatCast K] (n : ℕ) : (n : Fl K rnd) = num (rnd n) := rfl
theorem ofNat_def [NatCast K] (n : ℕ) [n.AtLeastTwo] :
    (OfNat.ofNat n : Fl K rnd) = num (rnd (OfNat.ofNat n : ℕ)) := rfl

end Fl

/-! ## Round to nearest, ties to even, `p` significant bits, unbounded exponent -/

section
variable {K : Type} [Field K] [LinearOrder K] [IsStrictOrderedRing K] [FloorRing K]

/-- Round to the nearest integer, ties to even. -/
def roundHalfEven (x : K) : ℤ :=
  let f := ⌊x⌋
  let d := x - f
  if d < 1 / 2 then f else if d > 1 / 2 then f + 1 else if f % 2 = 0 then f else f + 1

/-- IEEE-style rounding to `p` bits: scale so that the magnitude is in `[2^(p-1), 2^p)`,
round to an integer, scale back. -/
def rne (p : ℕ) (x : K) : K :=
  if x = 0 then 0
  else
    let e : ℤ := Int.log 2 |x| - (p - 1)
    roundHalfEven (x / (2 : K) ^ e) * (2 : K) ^ e

end

/-- binary32 significand width (24 bits). -/
abbrev F32 := Fl ℚ (rne 24)

end MathLib
