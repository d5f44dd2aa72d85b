import Verif.Spec.FloatReal
import Verif.Model.Mat34
import Verif.Model.Mat4
import Mathlib.Analysis.Real.Sqrt

/-! # What it means that a rounded computation is accurate -/

namespace MathLib

/-- relative error at most `u`, as for a binary format with `u = 2^-p` when there is no underflow or overflow -/
structure IsRel (rnd : ℝ → ℝ) (u : ℝ) : Prop where
  nonneg : 0 ≤ u
  lt_one : u < 1
  err : ∀ x, |rnd x - x| ≤ u * |x|

/-- the bound for `n` successive relative errors: about `n * u`, see `gam_le` -/
noncomputable def gam (u : ℝ) (n : ℕ) : ℝ := ((1 - u) ^ n)⁻¹ - 1

/-- `a` is a number at a distance of at most `e` from `x` -/
def Fl.Within {rnd : ℝ → ℝ} (a : Fl ℝ rnd) (e x : ℝ) : Prop := ∃ v, a = .num v ∧ |v - x| ≤ e

/-- a vector of numbers -/
def Vec3.num {K : Type} {rnd : K → K} (v : Vec3 K) : Vec3 (Fl K rnd) := ⟨.num v.x, .num v.y, .num v.z⟩
/-- a vector of numbers -/
def Vec2.num {K : Type} {rnd : K → K} (v : Vec2 K) : Vec2 (Fl K rnd) := ⟨.num v.x, .num v.y⟩

variable {rnd : ℝ → ℝ}
/-- objects whose entries are numbers -/
def Vec4.num (v : Vec4 ℝ) : Vec4 (Fl ℝ rnd) := ⟨.num v.x, .num v.y, .num v.z, .num v.w⟩
def Quat.num (q : Quat ℝ) : Quat (Fl ℝ rnd) := ⟨.num q.x, .num q.y, .num q.z, .num q.w⟩
end MathLib
