import Verif.Props.MatDet

/-! # C43: what the flags say, in terms of the matrix

`Aᵀ A` has the squared lengths of the columns on its diagonal and their inner products beside it. -/

namespace MathLib
open scoped Matrix
variable {K : Type} [Field K] [LinearOrder K]

/-- how far the columns are from unit length -/
def offUnit {n : ℕ} (A : Matrix (Fin n) (Fin n) K) : K := ∑ i, ((Aᵀ * A) i i - 1) ^ 2
/-- how far the columns are from being orthogonal to each other -/
def offOrtho {n : ℕ} (A : Matrix (Fin n) (Fin n) K) : K := ∑ i, ∑ j, if i < j then (Aᵀ * A) i j ^ 2 else 0
/-- how far the matrix is from the identity -/
def offOne {n : ℕ} (A : Matrix (Fin n) (Fin n) K) : K := ∑ i, ∑ j, (A i j - (1 : Matrix (Fin n) (Fin n) K) i j) ^ 2

/-- C43: `optimize` sets the flags of a `Mat2` to what its columns deserve, and nothing else changes. -/
theorem C43_optimize2 (m : Mat2 K) (t : MatTol K) :
    ((m.optimizeTol t).isNormal ↔ offUnit m.toM ≤ t.normal) ∧
    ((m.optimizeTol t).isOrthogonal ↔ offOrtho m.toM ≤ t.orthogonal) ∧
    ((m.optimizeTol t).isIdentity ↔
      offUnit m.toM ≤ t.normal ∧ offOrtho m.toM ≤ t.orthogonal ∧ offOne m.toM ≤ t.identity) ∧
    (m.optimizeTol t).toM = m.toM ∧ (m.optimizeTol t).isInitialized := by
  have e1 : m.normalError = offUnit m.toM := by
    simp [Mat2.normalError, offUnit, Mat2.toM, Matrix.mul_apply, Fin.sum_univ_two, Vec2.dot]; ring
  have e2 : m.orthogonalError = offOrtho m.toM := by
    simp [Mat2.orthogonalError, offOrtho, Mat2.toM, Matrix.mul_apply, Fin.sum_univ_two, Vec2.dot]; ring
  have e3 : m.identityError = offOne m.toM := by
    simp [Mat2.identityError, offOne, Mat2.toM, Fin.sum_univ_two, Vec2.lengthSqr]; ring
  refine ⟨?_, ?_, ?_, rfl, rfl⟩ <;>
  simp [Mat2.optimizeTol, Mat2.isNormal, Mat2.isOrthogonal, Mat2.isIdentity, e1, e2, e3, and_assoc]

/-- C43: the same for `Mat3`. -/
theorem C43_optimize3 (m : Mat3 K) (t : MatTol K) :
    ((m.optimizeTol t).isNormal ↔ offUnit m.toM ≤ t.normal) ∧
    ((m.optimizeTol t).isOrthogonal ↔ offOrtho m.toM ≤ t.orthogonal) ∧
    ((m.optimizeTol t).isIdentity ↔
      offUnit m.toM ≤ t.normal ∧ offOrtho m.toM ≤ t.orthogonal ∧ offOne m.toM ≤ t.identity) ∧
    (m.optimizeTol t).toM = m.toM ∧ (m.optimizeTol t).isInitialized := by
  have e1 : m.normalError = offUnit m.toM := by
    simp [Mat3.normalError, offUnit, Mat3.toM, Matrix.mul_apply, Fin.sum_univ_three, Vec3.dot]; ring
  have e2 : m.orthogonalError = offOrtho m.toM := by
    simp [Mat3.orthogonalError, offOrtho, Mat3.toM, Matrix.mul_apply, Fin.sum_univ_three, Vec3.dot]; ring
  have e3 : m.identityError = offOne m.toM := by
    simp [Mat3.identityError, offOne, Mat3.toM, Fin.sum_univ_three, Vec3.lengthSqr]; ring
  refine ⟨?_, ?_, ?_, rfl, rfl⟩ <;>
  simp [Mat3.optimizeTol, Mat3.isNormal, Mat3.isOrthogonal, Mat3.isIdentity, e1, e2, e3, and_assoc]

/-- the part of a `Mat4` that acts on directions -/
def linearPart (A : Matrix (Fin 4) (Fin 4) K) : Matrix (Fin 3) (Fin 3) K := A.submatrix Fin.castSucc Fin.castSucc
/-- how far the first three columns of a `Mat4` are from being orthogonal to each other -/
def firstThree (A : Matrix (Fin 4) (Fin 4) K) : K :=
  ∑ i : Fin 3, ∑ j : Fin 3, if i < j then (Aᵀ * A) i.castSucc j.castSucc ^ 2 else 0

/-- C43: `Mat4::optimize` finds the affine matrices, and for these looks at the linear part only; for the others
`Normal` speaks of all four columns, `Orthogonal` of the first three. -/
theorem C43_optimize4 (m : Mat4 K) (t : MatTol K) :
    ((m.optimizeTol t).isTrs ↔ m.toM 3 = ![0, 0, 0, 1]) ∧
    ((m.optimizeTol t).isTrs → ((m.optimizeTol t).isNormal ↔ offUnit (linearPart m.toM) ≤ t.normal) ∧
      ((m.optimizeTol t).isOrthogonal ↔ offOrtho (linearPart m.toM) ≤ t.orthogonal)) ∧
    (¬ (m.optimizeTol t).isTrs → ((m.optimizeTol t).isNormal ↔ offUnit m.toM ≤ t.normal) ∧
      ((m.optimizeTol t).isOrthogonal ↔ firstThree m.toM ≤ t.orthogonal)) ∧
    ((m.optimizeTol t).isIdentity ↔ (m.optimizeTol t).isNormal ∧ (m.optimizeTol t).isOrthogonal ∧
      offOne m.toM ≤ t.identity) ∧
    (m.optimizeTol t).toM = m.toM ∧ (m.optimizeTol t).isInitialized := by
  set b := m.x.w == 0 && m.y.w == 0 && m.z.w == 0 && m.t.w == 1 with hb
  have ht : (m.optimizeTol t).isTrs = b := rfl
  have e3 : m.identityError = offOne m.toM := by
    simp [Mat4.identityError, offOne, Mat4.toM, Fin.sum_univ_four, Vec4.lengthSqr, Matrix.one_apply]; ring
  have e4 : ({ m with flags.trs := b } : Mat4 K).identityError = m.identityError := rfl
  rw [ht]
  refine ⟨?_, fun h => ?_, fun h => ?_, ?_, rfl, rfl⟩
  · simp [b, Mat4.toM, funext_iff, Fin.forall_fin_succ, and_assoc]
  · have e1 : ({ m with flags.trs := b } : Mat4 K).normalError = offUnit (linearPart m.toM) := by
      simp [Mat4.normalError, h, offUnit, linearPart, Mat4.toM, Matrix.mul_apply, Fin.sum_univ_three]; ring
    have e2 : ({ m with flags.trs := b } : Mat4 K).orthogonalError = offOrtho (linearPart m.toM) := by
      simp [Mat4.orthogonalError, h, offOrtho, linearPart, Mat4.toM, Matrix.mul_apply, Fin.sum_univ_three]; ring
    rw [← e1, ← e2]
    simp [Mat4.optimizeTol, Mat4.isNormal, Mat4.isOrthogonal, b]
  · rw [Bool.not_eq_true] at h
    have e1 : ({ m with flags.trs := b } : Mat4 K).normalError = offUnit m.toM := by
      simp [Mat4.normalError, h, offUnit, Mat4.toM, Matrix.mul_apply, Fin.sum_univ_four, Vec4.dot]; ring
    have e2 : ({ m with flags.trs := b } : Mat4 K).orthogonalError = firstThree m.toM := by
      simp [Mat4.orthogonalError, h, firstThree, Mat4.toM, Matrix.mul_apply, Fin.sum_univ_three, Fin.sum_univ_four,
        Vec4.dot]; ring
    rw [← e1, ← e2]
    simp [Mat4.optimizeTol, Mat4.isNormal, Mat4.isOrthogonal, b]
  · rw [← e3, ← e4]
    simp [Mat4.optimizeTol, Mat4.isNormal, Mat4.isOrthogonal, Mat4.isIdentity, b, and_assoc]

/-- The flags of a matrix that is not affine do not speak of its fourth column: this one is flagged orthonormal, though
it is singular and its first and last columns are equal. -/
theorem C43_fourth_column_refuted :
    let m : Mat4 ℚ := Mat4.ofCols ⟨1, 0, 0, 0⟩ ⟨0, 1, 0, 0⟩ ⟨0, 0, 1, 0⟩ ⟨1, 0, 0, 0⟩
    m.isOrthonormal ∧ ¬ m.isTrs ∧ m.toM.det = 0 ∧ offOrtho m.toM = 1 := by
  intro m
  refine ⟨by decide +kernel, by decide +kernel, ?_, by decide +kernel⟩
  rw [← Mat4.det_eq]; decide +kernel

/-- the tolerances separate: normal but not orthogonal, orthogonal but not normal, both but not the identity -/
example : let t : MatTol ℚ := ⟨1 / 1000, 1 / 1000, 1 / 1000⟩
    (offUnit (Mat2.ofCols ⟨3/5, 4/5⟩ ⟨1, 0⟩ : Mat2 ℚ).toM ≤ t.normal ∧
      ¬ offOrtho (Mat2.ofCols ⟨3/5, 4/5⟩ ⟨1, 0⟩ : Mat2 ℚ).toM ≤ t.orthogonal) ∧
    (offOrtho (Mat3.ofCols ⟨2, 0, 0⟩ ⟨0, 1, 0⟩ ⟨0, 0, 1⟩ : Mat3 ℚ).toM ≤ t.orthogonal ∧
      ¬ offUnit (Mat3.ofCols ⟨2, 0, 0⟩ ⟨0, 1, 0⟩ ⟨0, 0, 1⟩ : Mat3 ℚ).toM ≤ t.normal) ∧
    (offUnit (Mat3.ofCols ⟨0, 1, 0⟩ ⟨0, 0, 1⟩ ⟨1, 0, 0⟩ : Mat3 ℚ).toM = 0 ∧
      offOne (Mat3.ofCols ⟨0, 1, 0⟩ ⟨0, 0, 1⟩ ⟨1, 0, 0⟩ : Mat3 ℚ).toM = 6) := by
  decide +kernel

end MathLib
