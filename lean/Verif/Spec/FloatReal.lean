import Verif.Spec.Float
import Verif.Spec.RealInst

/-! # `Fl ℝ rnd`: exact results followed by rounding, with domain errors as `nan` -/

namespace MathLib

open Fl in
/-- `sqrt` of a negative number, `asin`/`acos` outside `[-1,1]`, `fmod` by zero and `pow` of a
non-positive base are invalid operations. -/
noncomputable instance {rnd : ℝ → ℝ} : MathFns (Fl ℝ rnd) where
  sqrt a := match a with
    | num a => if a < 0 then nan else num (rnd (√a))
    | nan => nan
  sin a := match a with
    | num a => num (rnd (Real.sin a))
    | nan => nan
  cos a := match a with
    | num a => num (rnd (Real.cos a))
    | nan => nan
  asin a := match a with
    | num a => if a < -1 ∨ 1 < a then nan else num (rnd (Real.arcsin a))
    | nan => nan
  acos a := match a with
    | num a => if a < -1 ∨ 1 < a then nan else num (rnd (Real.arccos a))
    | nan => nan
  atan2 a b := match a, b with
    | num y, num x => num (rnd (Complex.arg ⟨x, y⟩))
    | _, _ => nan
  pow a b := match a, b with
    | num a, num b => if a ≤ 0 then nan else num (rnd (a ^ b))
    | _, _ => nan
  fmod a b := match a, b with
    | num a, num b => if b = 0 then nan else num (rnd (fmodR a b))
    | _, _ => nan
  trunc a := match a with
    | num a => truncR a
    | nan => 0
  pi := num (rnd Real.pi)

/-- Exact arithmetic with an explicit "undefined" value. -/
abbrev XR := Fl ℝ id

namespace Fl
variable {rnd : ℝ → ℝ}
@[simp] theorem fl_sqrt (a : ℝ) :
    MathFns.sqrt (num a : Fl ℝ rnd) = if a < 0 then nan else num (rnd (√a)) := rfl
@[simp] theorem fl_sin (a : ℝ) : MathFns.sin (num a : Fl ℝ rnd) = num (rnd (Real.sin a)) := rfl
@[simp] theorem fl_cos (a : ℝ) : MathFns.cos (num a : Fl ℝ rnd) = num (rnd (Real.cos a)) := rfl
@[simp] theorem fl_asin (a : ℝ) : MathFns.asin (num a : Fl ℝ rnd) =
    if a < -1 ∨ 1 < a then nan else num (rnd (Real.arcsin a)) := rfl
@[simp] theorem fl_acos (a : ℝ) : MathFns.acos (num a : Fl ℝ rnd) =
    if a < -1 ∨ 1 < a then nan else num (rnd (Real.arccos a)) := rfl
@[simp] theorem fl_atan2 (y x : ℝ) : MathFns.atan2 (num y : Fl ℝ rnd) (num x) =
    num (rnd (Complex.arg ⟨x, y⟩)) := rfl
@[simp] theorem fl_pow (a b : ℝ) : MathFns.pow (num a : Fl ℝ rnd) (num b) =
    if a ≤ 0 then nan else num (rnd (a ^ b)) := rfl
@[simp] theorem fl_fmod (a b : ℝ) : MathFns.fmod (num a : Fl ℝ rnd) (num b) =
    if b = 0 then nan else num (rnd (fmodR a b)) := rfl
@[simp] theorem fl_trunc (a : ℝ) : MathFns.trunc (num a : Fl ℝ rnd) = truncR a := rfl
@[simp] theorem fl_pi : (MathFns.pi : Fl ℝ rnd) = num (rnd Real.pi) := rfl
end Fl

end MathLib
