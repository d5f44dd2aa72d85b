import Verif.Props.MatProducts

/-! # Property C37, continued: exactly which matrices are squared in place -/

namespace MathLib
open scoped Matrix

variable {K : Type} [CommRing K]

/-- the part of a matrix below the diagonal -/
def strictLower (A : Matrix (Fin 3) (Fin 3) K) : Matrix (Fin 3) (Fin 3) K :=
  Matrix.of fun i j => if j < i then A i j else 0
/-- the part of a matrix above the diagonal -/
def strictUpper (A : Matrix (Fin 3) (Fin 3) K) : Matrix (Fin 3) (Fin 3) K :=
  Matrix.of fun i j => if i < j then A i j else 0

omit [CommRing K] in
private theorem toM_iff (N : Mat3 K) (A : Matrix (Fin 3) (Fin 3) K) : N.toM = A ↔
    (N.x.x = A 0 0 ∧ N.y.x = A 0 1 ∧ N.z.x = A 0 2) ∧
    (N.x.y = A 1 0 ∧ N.y.y = A 1 1 ∧ N.z.y = A 1 2) ∧
    (N.x.z = A 2 0 ∧ N.y.z = A 2 1 ∧ N.z.z = A 2 2) := by
  rw [← Matrix.ext_iff]
  simp [Fin.forall_fin_succ, Mat3.toM]

private theorem sq_apply (m : Mat3 K) :
    (m.toM * m.toM) 0 0 = m.x.x * m.x.x + m.y.x * m.x.y + m.z.x * m.x.z ∧
    (m.toM * m.toM) 0 1 = m.x.x * m.y.x + m.y.x * m.y.y + m.z.x * m.y.z ∧
    (m.toM * m.toM) 0 2 = m.x.x * m.z.x + m.y.x * m.z.y + m.z.x * m.z.z ∧
    (m.toM * m.toM) 1 0 = m.x.y * m.x.x + m.y.y * m.x.y + m.z.y * m.x.z ∧
    (m.toM * m.toM) 1 1 = m.x.y * m.y.x + m.y.y * m.y.y + m.z.y * m.y.z ∧
    (m.toM * m.toM) 1 2 = m.x.y * m.z.x + m.y.y * m.z.y + m.z.y * m.z.z ∧
    (m.toM * m.toM) 2 0 = m.x.z * m.x.x + m.y.z * m.x.y + m.z.z * m.x.z ∧
    (m.toM * m.toM) 2 1 = m.x.z * m.y.x + m.y.z * m.y.y + m.z.z * m.y.z ∧
    (m.toM * m.toM) 2 2 = m.x.z * m.z.x + m.y.z * m.z.y + m.z.z * m.z.z := by
  refine ⟨?_, ?_, ?_, ?_, ?_, ?_, ?_, ?_, ?_⟩ <;>
    simp [Mat3.toM, Matrix.mul_apply, Fin.sum_univ_succ, add_assoc]

private theorem lower_iff (m : Mat3 K) : strictLower m.toM * (m.toM * m.toM - m.toM) = 0 ↔
    m.x.y * ((m.x.x * m.x.x + m.y.x * m.x.y + m.z.x * m.x.z) - m.x.x) = 0 ∧
    m.x.y * ((m.x.x * m.y.x + m.y.x * m.y.y + m.z.x * m.y.z) - m.y.x) = 0 ∧
    m.x.y * ((m.x.x * m.z.x + m.y.x * m.z.y + m.z.x * m.z.z) - m.z.x) = 0 ∧
    m.x.z * ((m.x.x * m.x.x + m.y.x * m.x.y + m.z.x * m.x.z) - m.x.x) + m.y.z * ((m.x.y * m.x.x + m.y.y * m.x.y + m.z.y * m.x.z) - m.x.y) = 0 ∧
    m.x.z * ((m.x.x * m.y.x + m.y.x * m.y.y + m.z.x * m.y.z) - m.y.x) + m.y.z * ((m.x.y * m.y.x + m.y.y * m.y.y + m.z.y * m.y.z) - m.y.y) = 0 ∧
    m.x.z * ((m.x.x * m.z.x + m.y.x * m.z.y + m.z.x * m.z.z) - m.z.x) + m.y.z * ((m.x.y * m.z.x + m.y.y * m.z.y + m.z.y * m.z.z) - m.z.y) = 0 := by
  have key : ∀ A D : Matrix (Fin 3) (Fin 3) K, strictLower A * D = 0 ↔
      A 1 0 * D 0 0 = 0 ∧ A 1 0 * D 0 1 = 0 ∧ A 1 0 * D 0 2 = 0 ∧
      A 2 0 * D 0 0 + A 2 1 * D 1 0 = 0 ∧ A 2 0 * D 0 1 + A 2 1 * D 1 1 = 0 ∧
      A 2 0 * D 0 2 + A 2 1 * D 1 2 = 0 := by
    intro A D
    rw [← Matrix.ext_iff]
    simp [Fin.forall_fin_succ, Matrix.mul_apply, Fin.sum_univ_succ, strictLower]
    tauto
  obtain ⟨a00, a01, a02, a10, a11, a12, a20, a21, a22⟩ := sq_apply m
  rw [key]
  simp only [Matrix.sub_apply, a00, a01, a02, a10, a11, a12]
  rfl

private theorem upper_iff (m : Mat3 K) : (m.toM * m.toM - m.toM) * strictUpper m.toM = 0 ↔
    ((m.x.x * m.x.x + m.y.x * m.x.y + m.z.x * m.x.z) - m.x.x) * m.y.x = 0 ∧
    ((m.x.y * m.x.x + m.y.y * m.x.y + m.z.y * m.x.z) - m.x.y) * m.y.x = 0 ∧
    ((m.x.z * m.x.x + m.y.z * m.x.y + m.z.z * m.x.z) - m.x.z) * m.y.x = 0 ∧
    ((m.x.x * m.x.x + m.y.x * m.x.y + m.z.x * m.x.z) - m.x.x) * m.z.x + ((m.x.x * m.y.x + m.y.x * m.y.y + m.z.x * m.y.z) - m.y.x) * m.z.y = 0 ∧
    ((m.x.y * m.x.x + m.y.y * m.x.y + m.z.y * m.x.z) - m.x.y) * m.z.x + ((m.x.y * m.y.x + m.y.y * m.y.y + m.z.y * m.y.z) - m.y.y) * m.z.y = 0 ∧
    ((m.x.z * m.x.x + m.y.z * m.x.y + m.z.z * m.x.z) - m.x.z) * m.z.x + ((m.x.z * m.y.x + m.y.z * m.y.y + m.z.z * m.y.z) - m.y.z) * m.z.y = 0 := by
  have key : ∀ A D : Matrix (Fin 3) (Fin 3) K, D * strictUpper A = 0 ↔
      D 0 0 * A 0 1 = 0 ∧ D 1 0 * A 0 1 = 0 ∧ D 2 0 * A 0 1 = 0 ∧
      D 0 0 * A 0 2 + D 0 1 * A 1 2 = 0 ∧ D 1 0 * A 0 2 + D 1 1 * A 1 2 = 0 ∧
      D 2 0 * A 0 2 + D 2 1 * A 1 2 = 0 := by
    intro A D
    rw [← Matrix.ext_iff]
    simp [Fin.forall_fin_succ, Matrix.mul_apply, Fin.sum_univ_succ, strictUpper]
    tauto
  obtain ⟨a00, a01, a02, a10, a11, a12, a20, a21, a22⟩ := sq_apply m
  rw [key]
  simp only [Matrix.sub_apply, a00, a01, a10, a11, a20, a21]
  rfl

/-- 3×3: exactly when each in-place product squares `m`.  `m *= m` and `rotatePre` need
`L (m² - m) = 0` with the strictly lower part `L` of `m`; `rotate` needs `(m² - m) U = 0` with the
strictly upper part `U`.  Missing: the remaining matrices, which are not squared. -/
theorem C37_mat3_partial (m : Mat3 K) (hm : m.isIdentity → m.toM = 1) :
    (m.mulAssignSelf.toM = m.toM * m.toM ↔ strictLower m.toM * (m.toM * m.toM - m.toM) = 0) ∧
    (m.rotatePreSelf.toM = m.toM * m.toM ↔ strictLower m.toM * (m.toM * m.toM - m.toM) = 0) ∧
    (m.rotateSelf.toM = m.toM * m.toM ↔ (m.toM * m.toM - m.toM) * strictUpper m.toM = 0) := by
  by_cases h : m.isIdentity
  · simp [Mat3.mulAssignSelf, Mat3.mulAssignG, Mat3.rotatePreSelf, Mat3.rotatePreG, Mat3.rotateSelf,
      Mat3.rotateG, h, hm h]
  · obtain ⟨a00, a01, a02, a10, a11, a12, a20, a21, a22⟩ := sq_apply m
    have hc : m.mulAssignSelf.toM = m.toM * m.toM ↔
        strictLower m.toM * (m.toM * m.toM - m.toM) = 0 := by
      obtain ⟨r, hr⟩ : ∃ r, r = m.mulAssignSelf := ⟨_, rfl⟩
      have b00 : r.x.x = m.x.x * m.x.x + m.y.x * m.x.y + m.z.x * m.x.z := by
        rw [hr]; simp [Mat3.mulAssignSelf, Mat3.mulAssignG, h]
      have b01 : r.y.x = m.x.x * m.y.x + m.y.x * m.y.y + m.z.x * m.y.z := by
        rw [hr]; simp [Mat3.mulAssignSelf, Mat3.mulAssignG, h]
      have b02 : r.z.x = m.x.x * m.z.x + m.y.x * m.z.y + m.z.x * m.z.z := by
        rw [hr]; simp [Mat3.mulAssignSelf, Mat3.mulAssignG, h]
      have b10 : r.x.y = m.x.y * r.x.x + m.y.y * m.x.y + m.z.y * m.x.z := by
        rw [hr]; simp [Mat3.mulAssignSelf, Mat3.mulAssignG, h]
      have b11 : r.y.y = m.x.y * r.y.x + m.y.y * m.y.y + m.z.y * m.y.z := by
        rw [hr]; simp [Mat3.mulAssignSelf, Mat3.mulAssignG, h]
      have b12 : r.z.y = m.x.y * r.z.x + m.y.y * m.z.y + m.z.y * m.z.z := by
        rw [hr]; simp [Mat3.mulAssignSelf, Mat3.mulAssignG, h]
      have b20 : r.x.z = m.x.z * r.x.x + m.y.z * r.x.y + m.z.z * m.x.z := by
        rw [hr]; simp [Mat3.mulAssignSelf, Mat3.mulAssignG, h]
      have b21 : r.y.z = m.x.z * r.y.x + m.y.z * r.y.y + m.z.z * m.y.z := by
        rw [hr]; simp [Mat3.mulAssignSelf, Mat3.mulAssignG, h]
      have b22 : r.z.z = m.x.z * r.z.x + m.y.z * r.z.y + m.z.z * m.z.z := by
        rw [hr]; simp [Mat3.mulAssignSelf, Mat3.mulAssignG, h]
      rw [← hr, toM_iff, lower_iff, a00, a01, a02, a10, a11, a12, a20, a21, a22]
      constructor
      · rintro ⟨⟨p00, p01, p02⟩, ⟨p10, p11, p12⟩, p20, p21, p22⟩
        exact ⟨by linear_combination p10 - b10 - m.x.y * p00,
          by linear_combination p11 - b11 - m.x.y * p01,
          by linear_combination p12 - b12 - m.x.y * p02,
          by linear_combination p20 - b20 - m.x.z * p00 - m.y.z * p10,
          by linear_combination p21 - b21 - m.x.z * p01 - m.y.z * p11,
          by linear_combination p22 - b22 - m.x.z * p02 - m.y.z * p12⟩
      · rintro ⟨q10, q11, q12, q20, q21, q22⟩
        have p00 : r.x.x = m.x.x * m.x.x + m.y.x * m.x.y + m.z.x * m.x.z :=
          b00
        have p01 : r.y.x = m.x.x * m.y.x + m.y.x * m.y.y + m.z.x * m.y.z :=
          b01
        have p02 : r.z.x = m.x.x * m.z.x + m.y.x * m.z.y + m.z.x * m.z.z :=
          b02
        have p10 : r.x.y = m.x.y * m.x.x + m.y.y * m.x.y + m.z.y * m.x.z :=
          by linear_combination b10 + m.x.y * p00 + q10
        have p11 : r.y.y = m.x.y * m.y.x + m.y.y * m.y.y + m.z.y * m.y.z :=
          by linear_combination b11 + m.x.y * p01 + q11
        have p12 : r.z.y = m.x.y * m.z.x + m.y.y * m.z.y + m.z.y * m.z.z :=
          by linear_combination b12 + m.x.y * p02 + q12
        have p20 : r.x.z = m.x.z * m.x.x + m.y.z * m.x.y + m.z.z * m.x.z :=
          by linear_combination b20 + m.x.z * p00 + m.y.z * p10 + q20
        have p21 : r.y.z = m.x.z * m.y.x + m.y.z * m.y.y + m.z.z * m.y.z :=
          by linear_combination b21 + m.x.z * p01 + m.y.z * p11 + q21
        have p22 : r.z.z = m.x.z * m.z.x + m.y.z * m.z.y + m.z.z * m.z.z :=
          by linear_combination b22 + m.x.z * p02 + m.y.z * p12 + q22
        exact ⟨⟨p00, p01, p02⟩, ⟨p10, p11, p12⟩, p20, p21, p22⟩
    refine ⟨hc, hc, ?_⟩
    obtain ⟨r, hr⟩ : ∃ r, r = m.rotateSelf := ⟨_, rfl⟩
    have b00 : r.x.x = m.x.x * m.x.x + m.y.x * m.x.y + m.z.x * m.x.z := by
      rw [hr]; simp [Mat3.rotateSelf, Mat3.rotateG, h]
    have b01 : r.y.x = r.x.x * m.y.x + m.y.x * m.y.y + m.z.x * m.y.z := by
      rw [hr]; simp [Mat3.rotateSelf, Mat3.rotateG, h]
    have b02 : r.z.x = r.x.x * m.z.x + r.y.x * m.z.y + m.z.x * m.z.z := by
      rw [hr]; simp [Mat3.rotateSelf, Mat3.rotateG, h]
    have b10 : r.x.y = m.x.y * m.x.x + m.y.y * m.x.y + m.z.y * m.x.z := by
      rw [hr]; simp [Mat3.rotateSelf, Mat3.rotateG, h]
    have b11 : r.y.y = r.x.y * m.y.x + m.y.y * m.y.y + m.z.y * m.y.z := by
      rw [hr]; simp [Mat3.rotateSelf, Mat3.rotateG, h]
    have b12 : r.z.y = r.x.y * m.z.x + r.y.y * m.z.y + m.z.y * m.z.z := by
      rw [hr]; simp [Mat3.rotateSelf, Mat3.rotateG, h]
    have b20 : r.x.z = m.x.z * m.x.x + m.y.z * m.x.y + m.z.z * m.x.z := by
      rw [hr]; simp [Mat3.rotateSelf, Mat3.rotateG, h]
    have b21 : r.y.z = r.x.z * m.y.x + m.y.z * m.y.y + m.z.z * m.y.z := by
      rw [hr]; simp [Mat3.rotateSelf, Mat3.rotateG, h]
    have b22 : r.z.z = r.x.z * m.z.x + r.y.z * m.z.y + m.z.z * m.z.z := by
      rw [hr]; simp [Mat3.rotateSelf, Mat3.rotateG, h]
    rw [← hr, toM_iff, upper_iff, a00, a01, a02, a10, a11, a12, a20, a21, a22]
    constructor
    · rintro ⟨⟨p00, p01, p02⟩, ⟨p10, p11, p12⟩, p20, p21, p22⟩
      exact ⟨by linear_combination p01 - b01 - m.y.x * p00,
        by linear_combination p11 - b11 - m.y.x * p10,
        by linear_combination p21 - b21 - m.y.x * p20,
        by linear_combination p02 - b02 - m.z.x * p00 - m.z.y * p01,
        by linear_combination p12 - b12 - m.z.x * p10 - m.z.y * p11,
        by linear_combination p22 - b22 - m.z.x * p20 - m.z.y * p21⟩
    · rintro ⟨q10, q11, q12, q20, q21, q22⟩
      have p00 : r.x.x = m.x.x * m.x.x + m.y.x * m.x.y + m.z.x * m.x.z :=
        b00
      have p10 : r.x.y = m.x.y * m.x.x + m.y.y * m.x.y + m.z.y * m.x.z :=
        b10
      have p20 : r.x.z = m.x.z * m.x.x + m.y.z * m.x.y + m.z.z * m.x.z :=
        b20
      have p01 : r.y.x = m.x.x * m.y.x + m.y.x * m.y.y + m.z.x * m.y.z :=
        by linear_combination b01 + m.y.x * p00 + q10
      have p11 : r.y.y = m.x.y * m.y.x + m.y.y * m.y.y + m.z.y * m.y.z :=
        by linear_combination b11 + m.y.x * p10 + q11
      have p21 : r.y.z = m.x.z * m.y.x + m.y.z * m.y.y + m.z.z * m.y.z :=
        by linear_combination b21 + m.y.x * p20 + q12
      have p02 : r.z.x = m.x.x * m.z.x + m.y.x * m.z.y + m.z.x * m.z.z :=
        by linear_combination b02 + m.z.x * p00 + m.z.y * p01 + q20
      have p12 : r.z.y = m.x.y * m.z.x + m.y.y * m.z.y + m.z.y * m.z.z :=
        by linear_combination b12 + m.z.x * p10 + m.z.y * p11 + q21
      have p22 : r.z.z = m.x.z * m.z.x + m.y.z * m.z.y + m.z.z * m.z.z :=
        by linear_combination b22 + m.z.x * p20 + m.z.y * p21 + q22
      exact ⟨⟨p00, p01, p02⟩, ⟨p10, p11, p12⟩, p20, p21, p22⟩

private theorem block_iff (m : Mat34 K) (r : Mat3 K) (t : Vec3 K) (ht : t = m.t + m.rs.mulVec m.t) :
    (Mat34.mk r t).toM = m.toM * m.toM ↔ r.toM = m.rs.toM * m.rs.toM := by
  refine ⟨fun h => ?_, fun h => Mat34.block_mul m.rs m.rs r m.t m.t t h ht⟩
  ext i j
  have := congrFun (congrFun h i.castSucc) j.castSucc
  rw [Matrix.mul_apply, Fin.sum_univ_castSucc] at this
  rw [Matrix.mul_apply]
  fin_cases i <;> fin_cases j <;> simpa [Mat34.toM, Mat3.toM, Fin.sum_univ_succ] using this

/-- `Mat34`: exactly when each in-place product squares the homogeneous matrix; the translation is
right in every case.  Missing: the remaining matrices, which are not squared. -/
theorem C37_mat34_partial (m : Mat34 K) (hm : m.rs.isIdentity → m.rs.toM = 1) :
    let A := m.rs.toM
    (m.transformPreSelf.toM = m.toM * m.toM ↔ strictLower A * (A * A - A) = 0) ∧
    (m.transformSelf.toM = m.toM * m.toM ↔ (A * A - A) * strictUpper A = 0) ∧
    m.transformPreSelf.t = m.t + m.rs.mulVec m.t ∧ m.transformSelf.t = m.t + m.rs.mulVec m.t := by
  intro A
  have ht : m.mulVec m.t = m.t + m.rs.mulVec m.t := by
    ext <;> simp [Mat34.mulVec, Mat3.mulVec] <;> ring
  obtain ⟨h1, -, h2⟩ := C37_mat3_partial m.rs hm
  exact ⟨(block_iff m m.rs.mulAssignSelf _ rfl).trans h1, (block_iff m m.rs.rotateSelf _ ht).trans h2,
    rfl, ht⟩

/-- `a.transform(a.rs)`: exactly when the linear part is squared and the translation is turned once;
the second statement uses the new linear part. -/
theorem C37_mat34_rs_partial (m : Mat34 K) (hm : m.rs.isIdentity → m.rs.toM = 1) :
    let A := m.rs.toM
    (m.transformRs.rs.toM = A * A ∧ m.transformRs.t = m.rs.mulVec m.t ↔
      (A * A - A) * strictUpper A = 0 ∧ (A * A - A) *ᵥ ![m.t.x, m.t.y, m.t.z] = 0) := by
  intro A
  obtain ⟨-, -, h2⟩ := C37_mat3_partial m.rs hm
  have e : m.transformRs.rs.toM = m.rs.rotateSelf.toM := rfl
  have et : m.transformRs.t = m.rs.rotateSelf.mulVec m.t := rfl
  rw [e, et, ← h2]
  refine and_congr_right fun h => ?_
  have key : ∀ (r : Mat3 K) (u : Vec3 K), r.toM *ᵥ ![u.x, u.y, u.z] =
      ![(r.mulVec u).x, (r.mulVec u).y, (r.mulVec u).z] := by
    intro r u
    ext i; fin_cases i <;>
      simp [Mat3.toM, Mat3.mulVec, Matrix.mulVec, dotProduct, Fin.sum_univ_succ] <;> ring
  rw [Matrix.sub_mulVec, ← h, key, key, sub_eq_zero, Vec3.ext_iff]
  simp

/-- Lower triangular matrices satisfy the condition for `rotate`, upper triangular ones that for
`*=`, idempotent ones both. -/
theorem C37_sufficient (A : Matrix (Fin 3) (Fin 3) K) :
    ((∀ i j, j < i → A i j = 0) → strictLower A * (A * A - A) = 0) ∧
    ((∀ i j, i < j → A i j = 0) → (A * A - A) * strictUpper A = 0) ∧
    (A * A = A → strictLower A * (A * A - A) = 0 ∧ (A * A - A) * strictUpper A = 0) := by
  refine ⟨fun h => ?_, fun h => ?_, fun h => by simp [h]⟩
  · have : strictLower A = 0 := by
      ext i j; by_cases hij : j < i <;> simp [strictLower, hij]; exact h i j hij
    rw [this, zero_mul]
  · have : strictUpper A = 0 := by
      ext i j; by_cases hij : i < j <;> simp [strictUpper, hij]; exact h i j hij
    rw [this, mul_zero]

/-- a projection that is not triangular is squared, a quarter turn is not -/
example : (let m : Mat3 ℚ := Mat3.ofCols ⟨1 / 2, 1 / 2, 0⟩ ⟨1 / 2, 1 / 2, 0⟩ ⟨0, 0, 1⟩
    (m.isIdentity → m.toM = 1) ∧ m.rotateSelf.toM = m.toM * m.toM ∧ m.x.y ≠ 0 ∧ m.y.x ≠ 0) ∧
    (let m : Mat3 ℚ := Mat3.ofCols ⟨0, 1, 0⟩ ⟨-1, 0, 0⟩ ⟨0, 0, 1⟩
    (m.isIdentity → m.toM = 1) ∧ m.rotateSelf.toM ≠ m.toM * m.toM ∧
      m.mulAssignSelf.toM ≠ m.toM * m.toM) :=
  ⟨by decide +kernel, by decide +kernel⟩

end MathLib
