import Mathlib.LinearAlgebra.Matrix.Determinant.Basic

/-! # Tridiagonal and cyclic tridiagonal matrices (specification vocabulary) -/

namespace MathLib
variable {K : Type} [Zero K]

/-- The `n × n` matrix with diagonal `b`, sub-diagonal `a` (row `i+1`, column `i`) and
super-diagonal `c` (row `i`, column `i+1`). -/
def tridiag (n : ℕ) (a b c : ℕ → K) : Matrix (Fin n) (Fin n) K := fun i j =>
  if (i : ℕ) = j then b i else if (i : ℕ) = j + 1 then a j else if (i : ℕ) + 1 = j then c i else 0

/-- The same with corner entries `alpha` (bottom left) and `beta` (top right). -/
def cyclicTridiag [Add K] (n : ℕ) (a b c : ℕ → K) (alpha beta : K) : Matrix (Fin n) (Fin n) K :=
  fun i j => tridiag n a b c i j +
    (if (i : ℕ) + 1 = n ∧ (j : ℕ) = 0 then alpha else 0) +
    (if (i : ℕ) = 0 ∧ (j : ℕ) + 1 = n then beta else 0)

end MathLib
