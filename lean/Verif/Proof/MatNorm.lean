import Verif.Proof.MatLemmas
import Verif.Spec.RealInst
import Mathlib.Analysis.Matrix.Normed

/-! # Frobenius norms of matrices -/

namespace MathLib
open scoped Matrix Matrix.Norms.Frobenius

section general
variable {n : Type} [Fintype n] [DecidableEq n]

theorem frob_sq (A : Matrix n n ℝ) : ‖A‖ ^ 2 = ∑ i, ∑ j, A i j ^ 2 := by
  have h0 : 0 ≤ ∑ i, ∑ j, A i j ^ 2 :=
    Finset.sum_nonneg fun i _ => Finset.sum_nonneg fun j _ => sq_nonneg _
  rw [Matrix.frobenius_norm_def]
  have : (∑ i, ∑ j, ‖A i j‖ ^ (2 : ℝ)) = ∑ i, ∑ j, A i j ^ 2 := by
    refine Finset.sum_congr rfl fun i _ => Finset.sum_congr rfl fun j _ => ?_
    rw [Real.rpow_two, Real.norm_eq_abs, sq_abs]
  rw [this, ← Real.sqrt_eq_rpow, Real.sq_sqrt h0]

theorem frob_trace (A : Matrix n n ℝ) : ‖A‖ ^ 2 = (Aᵀ * A).trace := by
  rw [frob_sq, Finset.sum_comm]
  simp [Matrix.trace, Matrix.mul_apply, sq]

theorem trace_mul_le (A B : Matrix n n ℝ) : (A * B).trace ≤ ‖A‖ * ‖B‖ := by
  have e : (A * B).trace = ∑ p : n × n, A p.1 p.2 * B p.2 p.1 := by
    simp [Matrix.trace, Matrix.mul_apply, Fintype.sum_prod_type]
  have eA : ‖A‖ ^ 2 = ∑ p : n × n, A p.1 p.2 ^ 2 := by
    rw [frob_sq, Fintype.sum_prod_type]
  have eB : ‖B‖ ^ 2 = ∑ p : n × n, B p.2 p.1 ^ 2 := by
    rw [frob_sq, Fintype.sum_prod_type, Finset.sum_comm]
  have h := Finset.sum_mul_sq_le_sq_mul_sq Finset.univ (fun p : n × n => A p.1 p.2)
    (fun p => B p.2 p.1)
  rw [← e, ← eA, ← eB, ← mul_pow] at h
  exact le_of_abs_le (abs_le_of_sq_le_sq h (by positivity))

/-- `M Mᵀ` is as far from the identity as `Mᵀ M`. -/
theorem gram_transpose (M : Matrix n n ℝ) : ‖M * Mᵀ - 1‖ = ‖Mᵀ * M - 1‖ := by
  have h : ‖M * Mᵀ - 1‖ ^ 2 = ‖Mᵀ * M - 1‖ ^ 2 := by
    rw [frob_trace, frob_trace]
    simp only [Matrix.transpose_sub, Matrix.transpose_mul, Matrix.transpose_transpose,
      Matrix.transpose_one, sub_mul, mul_sub, one_mul, mul_one, Matrix.trace_sub]
    have e1 : (M * Mᵀ * (M * Mᵀ)).trace = (Mᵀ * M * (Mᵀ * M)).trace := by
      rw [Matrix.mul_assoc, Matrix.trace_mul_comm]; simp only [Matrix.mul_assoc]
    rw [e1, Matrix.trace_mul_comm M]
  exact (sq_eq_sq₀ (norm_nonneg _) (norm_nonneg _)).1 h

/-- Multiplying by a nearly orthonormal matrix on the right. -/
theorem norm_mul_gram (X B : Matrix n n ℝ) : ‖X * B‖ ^ 2 ≤ ‖X‖ ^ 2 * (1 + ‖Bᵀ * B - 1‖) := by
  have e : ‖X * B‖ ^ 2 = ‖X‖ ^ 2 + ((Xᵀ * X) * (B * Bᵀ - 1)).trace := by
    rw [frob_trace, frob_trace X, mul_sub, mul_one, Matrix.trace_sub, Matrix.transpose_mul,
      Matrix.mul_assoc, Matrix.trace_mul_comm]
    simp only [Matrix.mul_assoc, add_sub_cancel]
  have h1 := trace_mul_le (Xᵀ * X) (B * Bᵀ - 1)
  have h2 : ‖Xᵀ * X‖ ≤ ‖X‖ * ‖X‖ := by
    have := norm_mul_le (Xᵀ) X; rwa [Matrix.frobenius_norm_transpose] at this
  rw [gram_transpose] at h1
  rw [e]
  nlinarith [mul_le_mul_of_nonneg_right h2 (norm_nonneg (Bᵀ * B - 1))]

/-- Defects of orthonormality multiply. -/
theorem gram_mul (A B : Matrix n n ℝ) :
    1 + ‖(A * B)ᵀ * (A * B) - 1‖ ≤ (1 + ‖Aᵀ * A - 1‖) * (1 + ‖Bᵀ * B - 1‖) := by
  have e : (A * B)ᵀ * (A * B) - 1 = Bᵀ * ((Aᵀ * A - 1) * B) + (Bᵀ * B - 1) := by
    rw [Matrix.transpose_mul, sub_mul, mul_sub, one_mul]; simp only [Matrix.mul_assoc]; abel
  have h1 := norm_mul_gram (Aᵀ * A - 1) B
  have h2 := norm_mul_gram ((Aᵀ * A - 1) * B)ᵀ B
  have h3 : ‖((Aᵀ * A - 1) * B)ᵀ * B‖ = ‖Bᵀ * ((Aᵀ * A - 1) * B)‖ := by
    rw [← Matrix.frobenius_norm_transpose, Matrix.transpose_mul, Matrix.transpose_transpose]
  rw [h3, Matrix.frobenius_norm_transpose] at h2
  have hB : 0 ≤ 1 + ‖Bᵀ * B - 1‖ := by positivity
  have h4 : ‖Bᵀ * ((Aᵀ * A - 1) * B)‖ ≤ ‖Aᵀ * A - 1‖ * (1 + ‖Bᵀ * B - 1‖) := by
    refine le_of_abs_le (abs_le_of_sq_le_sq ?_ (by positivity))
    calc _ ≤ _ := h2
      _ ≤ ‖Aᵀ * A - 1‖ ^ 2 * (1 + ‖Bᵀ * B - 1‖) * (1 + ‖Bᵀ * B - 1‖) :=
        mul_le_mul_of_nonneg_right h1 hB
      _ = _ := by ring
  have h5 := norm_add_le (Bᵀ * ((Aᵀ * A - 1) * B)) (Bᵀ * B - 1)
  rw [e]
  nlinarith

end general

/-! The errors computed by the library are squared Frobenius norms. -/

theorem Mat2.identityError_eq (m : Mat2 ℝ) : m.identityError = ‖m.toM - 1‖ ^ 2 := by
  rw [frob_sq]
  simp [Mat2.identityError, Mat2.toM, Fin.sum_univ_succ, Vec2.lengthSqr, Matrix.one_apply]
  ring
theorem Mat3.identityError_eq (m : Mat3 ℝ) : m.identityError = ‖m.toM - 1‖ ^ 2 := by
  rw [frob_sq]
  simp [Mat3.identityError, Mat3.toM, Fin.sum_univ_succ, Vec3.lengthSqr, Matrix.one_apply]
  ring
theorem Mat4.identityError_eq (m : Mat4 ℝ) : m.identityError = ‖m.toM - 1‖ ^ 2 := by
  rw [frob_sq]
  simp [Mat4.identityError, Mat4.toM, Fin.sum_univ_succ, Vec4.lengthSqr, Matrix.one_apply]
  ring
theorem Mat2.gramError_eq (m : Mat2 ℝ) :
    m.normalError + 2 * m.orthogonalError = ‖m.toMᵀ * m.toM - 1‖ ^ 2 := by
  rw [frob_sq]
  simp [Mat2.normalError, Mat2.orthogonalError, Vec2.dot, Mat2.toM, Fin.sum_univ_succ,
    Matrix.one_apply, Matrix.mul_apply]
  ring
theorem Mat3.gramError_eq (m : Mat3 ℝ) :
    m.normalError + 2 * m.orthogonalError = ‖m.toMᵀ * m.toM - 1‖ ^ 2 := by
  rw [frob_sq]
  simp [Mat3.normalError, Mat3.orthogonalError, Vec3.dot, Mat3.toM, Fin.sum_univ_succ,
    Matrix.one_apply, Matrix.mul_apply]
  ring

end MathLib
