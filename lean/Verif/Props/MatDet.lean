import Verif.Proof.MatLemmas
import Mathlib.Tactic.FinCases
import Mathlib.LinearAlgebra.Matrix.Adjugate

/-! # Properties C38 (transposition), C39 (determinants and adjugates) -/

namespace MathLib
open scoped Matrix

/-! ## C38 -/

theorem C38_mat2 {K : Type} [CommRing K] (a b : Mat2 K) (v : Vec2 K)
    (ha : a.isIdentity → a.toM = 1) (hb : b.isIdentity → b.toM = 1) :
    a.transposed.toM = a.toMᵀ ∧ a.transposed.transposed = a ∧ a.transpose = a.transposed ∧
    a.transposed.determinant = a.determinant ∧ a.transposed.trace = a.trace ∧
    (a.mul b).transposed.toM = (b.transposed.mul a.transposed).toM ∧
    a.transposed.mulVec v = Mat2.vecMul v a := by
  have h : ∀ m : Mat2 K, m.transposed.toM = m.toMᵀ := by
    intro m; ext i j; fin_cases i <;> fin_cases j <;> rfl
  have hx : ∀ m : Mat2 K, (m.isIdentity → m.toM = 1) → m.transposed.isIdentity →
      m.transposed.toM = 1 := by
    intro m hm hi; rw [h, hm hi, Matrix.transpose_one]
  refine ⟨h a, rfl, rfl, ?_, rfl, ?_, ?_⟩
  · simp [Mat2.transposed, Mat2.determinant]; ring
  · rw [h, Mat2.toM_mul a b ha hb, Mat2.toM_mul _ _ (hx b hb) (hx a ha), h, h,
      Matrix.transpose_mul]
  · ext <;> simp [Mat2.mulVec, Mat2.transposed, Mat2.vecMul]

example : ∃ a b : Mat2 ℚ, (a.isIdentity → a.toM = 1) ∧ (b.isIdentity → b.toM = 1) ∧
    a.toM * b.toM ≠ b.toM * a.toM :=
  ⟨Mat2.ofCols ⟨1, 2⟩ ⟨3, 4⟩, Mat2.ofCols ⟨0, 1⟩ ⟨5, 0⟩, by decide +kernel⟩

theorem C38_mat3 {K : Type} [CommRing K] (a b : Mat3 K) (v : Vec3 K)
    (ha : a.isIdentity → a.toM = 1) (hb : b.isIdentity → b.toM = 1) :
    a.transposed.toM = a.toMᵀ ∧ a.transposed.transposed = a ∧ a.transpose = a.transposed ∧
    a.transposed.determinant = a.determinant ∧ a.transposed.trace = a.trace ∧
    (a.mul b).transposed.toM = (b.transposed.mul a.transposed).toM ∧
    a.transposed.mulVec v = Mat3.vecMul v a := by
  have h : ∀ m : Mat3 K, m.transposed.toM = m.toMᵀ := by
    intro m; ext i j; fin_cases i <;> fin_cases j <;> rfl
  have hx : ∀ m : Mat3 K, (m.isIdentity → m.toM = 1) → m.transposed.isIdentity →
      m.transposed.toM = 1 := by
    intro m hm hi; rw [h, hm hi, Matrix.transpose_one]
  refine ⟨h a, rfl, rfl, ?_, rfl, ?_, ?_⟩
  · simp [Mat3.transposed, Mat3.determinant]; ring
  · rw [h, Mat3.toM_mul a b ha hb, Mat3.toM_mul _ _ (hx b hb) (hx a ha), h, h,
      Matrix.transpose_mul]
  · ext <;> simp [Mat3.mulVec, Mat3.transposed, Mat3.vecMul]

example : ∃ a b : Mat3 ℚ, (a.isIdentity → a.toM = 1) ∧ (b.isIdentity → b.toM = 1) ∧
    a.toM * b.toM ≠ b.toM * a.toM :=
  ⟨Mat3.ofCols ⟨1, 2, 0⟩ ⟨3, 4, 0⟩ ⟨1, 0, 1⟩, Mat3.ofCols ⟨0, 1, 0⟩ ⟨5, 0, 1⟩ ⟨0, 0, 1⟩,
    by decide +kernel⟩

/-- `det` of a 4×4 matrix as the expression in the code -/
theorem Mat4.det_eq {K : Type} [CommRing K] (m : Mat4 K) : m.determinant = m.toM.det := by
  rw [Matrix.det_succ_row_zero]
  simp only [Fin.sum_univ_succ, Matrix.det_fin_three]
  simp [Mat4.toM, Mat4.determinant, Fin.succAbove]
  ring

theorem C38_mat4 {K : Type} [CommRing K] (a b : Mat4 K)
    (ha : a.isIdentity → a.toM = 1) (hb : b.isIdentity → b.toM = 1) :
    a.transposed.toM = a.toMᵀ ∧ a.transposed.transposed = a ∧ a.transpose = a.transposed ∧
    a.transposed.determinant = a.determinant ∧ a.transposed.trace = a.trace ∧
    (a.mul b).transposed.toM = (b.transposed.mul a.transposed).toM := by
  have h : ∀ m : Mat4 K, m.transposed.toM = m.toMᵀ := by
    intro m; ext i j; fin_cases i <;> fin_cases j <;> rfl
  have hx : ∀ m : Mat4 K, (m.isIdentity → m.toM = 1) → m.transposed.isIdentity →
      m.transposed.toM = 1 := by
    intro m hm hi; rw [h, hm hi, Matrix.transpose_one]
  refine ⟨h a, rfl, rfl, ?_, rfl, ?_⟩
  · rw [Mat4.det_eq, Mat4.det_eq, h, Matrix.det_transpose]
  · rw [h, Mat4.toM_mul a b ha hb, Mat4.toM_mul _ _ (hx b hb) (hx a ha), h, h,
      Matrix.transpose_mul]

example : ∃ a b : Mat4 ℚ, (a.isIdentity → a.toM = 1) ∧ (b.isIdentity → b.toM = 1) ∧
    a.toM * b.toM ≠ b.toM * a.toM :=
  ⟨Mat4.ofCols ⟨1, 2, 0, 1⟩ ⟨3, 4, 0, 0⟩ ⟨1, 0, 1, 0⟩ ⟨1, 2, 3, 1⟩,
   Mat4.ofCols ⟨0, 1, 0, 0⟩ ⟨5, 0, 1, 0⟩ ⟨0, 0, 1, 0⟩ ⟨0, 0, 0, 1⟩, by decide +kernel⟩

/-- The claim that the flags kept by `transposed` remain true is false: a matrix with normalised but
not orthogonal columns keeps `Normal`, one with orthogonal columns of different lengths keeps
`Orthogonal`, a translation keeps `Trs`; the errors of the results are far above the tolerance
`1/1000`. -/
theorem C38_flags_refuted :
    (∃ m : Mat2 ℚ, m = Mat2.ofCols ⟨3/5, 4/5⟩ ⟨3/5, 4/5⟩ ∧ m.isNormal ∧ m.transposed.isNormal ∧
      m.transposed.normalError = 98/625) ∧
    (∃ m : Mat2 ℚ, m = Mat2.ofCols ⟨1, 1⟩ ⟨2, -2⟩ ∧ m.isOrthogonal ∧ m.transposed.isOrthogonal ∧
      m.transposed.orthogonalError = 9) ∧
    (∃ m : Mat3 ℚ, m = Mat3.ofCols ⟨3/5, 4/5, 0⟩ ⟨3/5, 4/5, 0⟩ ⟨0, 0, 1⟩ ∧ m.isNormal ∧
      m.transposed.isNormal ∧ m.transposed.normalError = 98/625) ∧
    (∃ m : Mat3 ℚ, m = Mat3.ofCols ⟨1, 1, 0⟩ ⟨2, -2, 0⟩ ⟨0, 0, 1⟩ ∧ m.isOrthogonal ∧
      m.transposed.isOrthogonal ∧ m.transposed.orthogonalError = 9) ∧
    (∃ m : Mat4 ℚ, m = Mat4.ofCols3 ⟨1, 0, 0⟩ ⟨0, 1, 0⟩ ⟨0, 0, 1⟩ ⟨1, 2, 3⟩ ∧
      m.transposed.isTrs ∧ m.transposed.x.w = 1 ∧ m.transposed.isOrthonormal) :=
  ⟨⟨_, rfl, by decide +kernel⟩, ⟨_, rfl, by decide +kernel⟩, ⟨_, rfl, by decide +kernel⟩,
    ⟨_, rfl, by decide +kernel⟩, ⟨_, rfl, by decide +kernel⟩⟩

/-- What remains true of the flags after transposition: both together, up to a factor 3 in the
tolerance, and `Identity`.  (For `Mat4` this needs matrices without translation.)  Missing: `Normal`
or `Orthogonal` alone, for which it is false. -/
theorem C38_flags_partial {K : Type} [Field K] [LinearOrder K] [IsStrictOrderedRing K] :
    (∀ m : Mat2 K, m.transposed.normalError + 2 * m.transposed.orthogonalError =
        m.normalError + 2 * m.orthogonalError ∧ m.transposed.identityError = m.identityError) ∧
    (∀ m : Mat3 K, m.transposed.normalError + 2 * m.transposed.orthogonalError =
        m.normalError + 2 * m.orthogonalError ∧ m.transposed.identityError = m.identityError) ∧
    (∀ m : Mat4 K, m.transposed.identityError = m.identityError) ∧
    (∀ (m : Mat2 K) (t : MatTol K), (m.optimizeTol t).transposed.isOrthonormal →
      m.transposed.normalError ≤ t.normal + 2 * t.orthogonal ∧
      2 * m.transposed.orthogonalError ≤ t.normal + 2 * t.orthogonal) ∧
    (∀ (m : Mat3 K) (t : MatTol K), (m.optimizeTol t).transposed.isOrthonormal →
      m.transposed.normalError ≤ t.normal + 2 * t.orthogonal ∧
      2 * m.transposed.orthogonalError ≤ t.normal + 2 * t.orthogonal) := by
  have h2 : ∀ m : Mat2 K, m.transposed.normalError + 2 * m.transposed.orthogonalError =
      m.normalError + 2 * m.orthogonalError := by
    intro m
    simp [Mat2.normalError, Mat2.orthogonalError, Mat2.transposed, Vec2.dot]; ring
  have h3 : ∀ m : Mat3 K, m.transposed.normalError + 2 * m.transposed.orthogonalError =
      m.normalError + 2 * m.orthogonalError := by
    intro m
    simp [Mat3.normalError, Mat3.orthogonalError, Mat3.transposed, Vec3.dot]; ring
  refine ⟨fun m => ⟨h2 m, ?_⟩, fun m => ⟨h3 m, ?_⟩, fun m => ?_, fun m t ht => ?_, fun m t ht => ?_⟩
  · simp [Mat2.identityError, Mat2.transposed, Vec2.lengthSqr]; ring
  · simp [Mat3.identityError, Mat3.transposed, Vec3.lengthSqr]; ring
  · simp [Mat4.identityError, Mat4.transposed, Vec4.lengthSqr]; ring
  · simp only [Mat2.transposed, Mat2.isOrthonormal, Mat2.optimizeTol, Bool.and_eq_true,
      decide_eq_true_eq] at ht
    have := h2 m
    have e1 : 0 ≤ m.transposed.normalError := by
      simp only [Mat2.normalError]; exact add_nonneg (mul_self_nonneg _) (mul_self_nonneg _)
    have e2 : 0 ≤ m.transposed.orthogonalError := by
      simp only [Mat2.orthogonalError]; exact mul_self_nonneg _
    constructor <;> linarith [ht.1, ht.2]
  · simp only [Mat3.transposed, Mat3.isOrthonormal, Mat3.optimizeTol, Bool.and_eq_true,
      decide_eq_true_eq] at ht
    have := h3 m
    have e1 : 0 ≤ m.transposed.normalError := by
      simp only [Mat3.normalError]
      exact add_nonneg (add_nonneg (mul_self_nonneg _) (mul_self_nonneg _)) (mul_self_nonneg _)
    have e2 : 0 ≤ m.transposed.orthogonalError := by
      simp only [Mat3.orthogonalError]
      exact add_nonneg (add_nonneg (mul_self_nonneg _) (mul_self_nonneg _)) (mul_self_nonneg _)
    constructor <;> linarith [ht.1, ht.2]

/-- a rotation by 3-4-5 keeps its flags -/
example : ∃ (m : Mat3 ℚ), (m.optimizeTol MatTol.default).transposed.isOrthonormal ∧ m.toM ≠ 1 :=
  ⟨⟨⟨3/5, 4/5, 0⟩, ⟨-4/5, 3/5, 0⟩, ⟨0, 0, 1⟩, Flags.start⟩, by decide +kernel⟩

/-! ## C39 -/

theorem C39_mat2 {K : Type} [Field K] [LinearOrder K] [IsStrictOrderedRing K] (m a : Mat2 K)
    (hm : m.isIdentity → m.toM = 1) (ha : a.isIdentity → a.toM = 1) :
    m.determinant = m.toM.det ∧ m.trace = m.toM.trace ∧ m.adjoint.toM = m.toM.adjugate ∧
    m.cofactors.toM = m.toM.adjugateᵀ ∧ (m.mul a).determinant = m.determinant * a.determinant := by
  have hd : ∀ m : Mat2 K, m.determinant = m.toM.det := by
    intro m; simp [Mat2.determinant, Matrix.det_fin_two, Mat2.toM]; ring
  refine ⟨hd m, ?_, ?_, ?_, ?_⟩
  · simp [Mat2.trace, Matrix.trace, Mat2.toM, Fin.sum_univ_succ]
  · rw [Matrix.adjugate_fin_two]
    simp [Mat2.adjoint, Mat2.ofCols, Mat2.optimize, Mat2.optimizeTol, Mat2.toM]
  · rw [Matrix.adjugate_fin_two]
    ext i j; fin_cases i <;> fin_cases j <;>
      simp [Mat2.cofactors, Mat2.ofCols, Mat2.optimize, Mat2.optimizeTol, Mat2.toM]
  · rw [hd, hd, hd, Mat2.toM_mul m a hm ha, Matrix.det_mul]

theorem C39_mat3 {K : Type} [Field K] [LinearOrder K] [IsStrictOrderedRing K] (m a : Mat3 K)
    (hm : m.isIdentity → m.toM = 1) (ha : a.isIdentity → a.toM = 1) :
    m.determinant = m.toM.det ∧ m.trace = m.toM.trace ∧ m.adjoint.toM = m.toM.adjugate ∧
    m.cofactors.toM = m.toM.adjugateᵀ ∧ (m.mul a).determinant = m.determinant * a.determinant := by
  have hd : ∀ m : Mat3 K, m.determinant = m.toM.det := by
    intro m; simp [Mat3.determinant, Matrix.det_fin_three, Mat3.toM]; ring
  refine ⟨hd m, ?_, ?_, ?_, ?_⟩
  · simp [Mat3.trace, Matrix.trace, Mat3.toM, Fin.sum_univ_succ, add_assoc]
  · rw [Matrix.adjugate_fin_three]
    ext i j; fin_cases i <;> fin_cases j <;>
      simp [Mat3.adjoint, Mat3.ofCols, Mat3.optimize, Mat3.optimizeTol, Mat3.toM] <;> ring
  · rw [Matrix.adjugate_fin_three]
    ext i j; fin_cases i <;> fin_cases j <;>
      simp [Mat3.cofactors, Mat3.ofCols, Mat3.optimize, Mat3.optimizeTol, Mat3.toM] <;> ring
  · rw [hd, hd, hd, Mat3.toM_mul m a hm ha, Matrix.det_mul]

/-- The matrix of cofactors that `Mat4::invert` and `inversed` divide by the determinant is the
adjugate, and the determinant they compute from it is the determinant. -/
theorem C39_mat4 {K : Type} [CommRing K] (m a : Mat4 K)
    (hm : m.isIdentity → m.toM = 1) (ha : a.isIdentity → a.toM = 1) :
    m.determinant = m.toM.det ∧ m.trace = m.toM.trace ∧ m.adj.toM = m.toM.adjugate ∧
    m.adjDet m.adj = m.toM.det ∧ (m.mul a).determinant = m.determinant * a.determinant := by
  refine ⟨m.det_eq, ?_, ?_, ?_, ?_⟩
  · simp [Mat4.trace, Matrix.trace, Mat4.toM, Fin.sum_univ_succ, add_assoc]
  · ext i j
    rw [Matrix.adjugate_fin_succ_eq_det_submatrix, Matrix.det_fin_three]
    fin_cases i <;> fin_cases j <;>
      simp [Mat4.adj, Mat4.toM, Fin.succAbove] <;> ring
  · rw [← m.det_eq]; rfl
  · rw [Mat4.det_eq, Mat4.det_eq, Mat4.det_eq, Mat4.toM_mul m a hm ha, Matrix.det_mul]

example : ∃ m : Mat4 ℚ, (m.isIdentity → m.toM = 1) ∧ m.determinant ≠ 0 :=
  ⟨Mat4.ofCols ⟨1, 2, 0, 1⟩ ⟨3, 4, 0, 0⟩ ⟨1, 0, 1, 0⟩ ⟨1, 2, 3, 1⟩, by decide +kernel⟩

end MathLib
