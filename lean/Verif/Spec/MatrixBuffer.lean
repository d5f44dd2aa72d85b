import Verif.Spec.Buffer
import Mathlib.Data.Matrix.Basic

/-! # Matrices in row-major arrays -/

namespace MathLib

/-- The first `n * w` cells of `b` hold the matrix `A` in row-major order. -/
def Buf.HoldsMat {K : Type} {n w : ℕ} (b : Buf K) (A : Matrix (Fin n) (Fin w) K) : Prop :=
  n * w ≤ b.size ∧ ∀ (i : Fin n) (j : Fin w), b.data (i * w + j) = some (A i j)

end MathLib
