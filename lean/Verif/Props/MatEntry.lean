import Verif.Props.MatDet

/-! # Property C49: entrywise matrix operations -/

namespace MathLib
open scoped Matrix

section
variable {K : Type} [Field K] [LinearOrder K]

theorem C49_mat2 (m n : Mat2 K) (k : K) (v : Vec2 K) :
    m.neg.toM = -m.toM ∧ (m.smul k).toM = k • m.toM ∧ (m.smulAssign k).toM = k • m.toM ∧
    (k ≠ 0 → ∃ d, m.sdiv k = .ok d ∧ d.toM = k⁻¹ • m.toM) ∧
    (k ≠ 0 → ∃ d, m.sdivAssign k = .ok d ∧ d.toM = k⁻¹ • m.toM) ∧
    (∃ d, m.sdiv 0 = .ok d ∧ d.toM = 0) ∧ m.sdivAssign 0 = .error .assertion ∧
    (m.eq n ↔ m.toM = n.toM) ∧ m.ne n = !m.eq n ∧
    (m.smul k).mulVec v = m.mulVec v * k ∧ (m.smul k).mulVec v = m.mulVec (v * k) := by
  have hs : (m.smul k).toM = k • m.toM := by
    unfold Mat2.smul
    split_ifs with h0 h1
    · simp only [beq_iff_eq] at h0; subst h0
      ext i j; fin_cases i <;> fin_cases j <;> simp [Mat2.toM, Mat2.zero, Mat2.ofScalar]
    · simp only [beq_iff_eq] at h1; subst h1; simp
    · ext i j; fin_cases i <;> fin_cases j <;>
        simp [Mat2.toM, Mat2.ofCols, Mat2.optimize, Mat2.optimizeTol, mul_comm]
  have hv : (m.smul k).mulVec v = m.mulVec v * k := by
    rw [← Vec2.toFn_inj, Mat2.toM_mulVec, hs]
    ext i; fin_cases i <;>
      simp [Mat2.toM, Mat2.mulVec, Vec2.toFn, Matrix.mulVec, dotProduct, Fin.sum_univ_succ] <;> ring
  refine ⟨?_, hs, ?_, fun hk => ?_, fun hk => ?_, ?_, ?_, ?_, ?_, hv, ?_⟩
  · ext i j; fin_cases i <;> fin_cases j <;>
      simp [Mat2.toM, Mat2.neg, Mat2.ofCols, Mat2.optimize, Mat2.optimizeTol]
  · unfold Mat2.smulAssign
    split_ifs with h1
    · simp only [beq_iff_eq] at h1; subst h1; simp
    · ext i j; fin_cases i <;> fin_cases j <;>
        simp [Mat2.toM, Mat2.optimize, Mat2.optimizeTol, Vec2.mulAssign, mul_comm]
  · unfold Mat2.sdiv
    rw [if_neg (by simpa using hk)]
    split_ifs with h1
    · simp only [beq_iff_eq] at h1; subst h1; exact ⟨m, rfl, by simp⟩
    · simp only [Vec2.div, beq_iff_eq, hk, if_false, bind, Except.bind]
      refine ⟨_, rfl, ?_⟩
      ext i j; fin_cases i <;> fin_cases j <;>
        simp [Mat2.toM, Mat2.ofCols, Mat2.optimize, Mat2.optimizeTol, div_eq_inv_mul]
  · unfold Mat2.sdivAssign
    rw [if_neg (by simpa using hk)]
    split_ifs with h1
    · simp only [beq_iff_eq] at h1; subst h1; exact ⟨m, rfl, by simp⟩
    · simp only [Vec2.divAssign, beq_iff_eq, hk, if_false, bind, Except.bind]
      refine ⟨_, rfl, ?_⟩
      ext i j; fin_cases i <;> fin_cases j <;>
        simp [Mat2.toM, Mat2.optimize, Mat2.optimizeTol, div_eq_inv_mul]
  · refine ⟨Mat2.zero, by simp [Mat2.sdiv], ?_⟩
    ext i j; fin_cases i <;> fin_cases j <;> simp [Mat2.toM, Mat2.zero, Mat2.ofScalar]
  · simp [Mat2.sdivAssign]
  · rw [Mat2.toM_ext]; simp [Mat2.eq, Vec2.eq, Vec2.ext_iff]
  · simp [Mat2.eq, Mat2.ne, Vec2.eq, Vec2.ne, bne]
  · rw [hv]; ext <;> simp [Mat2.mulVec] <;> ring

theorem C49_mat3 (m n : Mat3 K) (k : K) (v : Vec3 K) :
    m.neg.toM = -m.toM ∧ (m.smul k).toM = k • m.toM ∧ (m.smulAssign k).toM = k • m.toM ∧
    (k ≠ 0 → ∃ d, m.sdiv k = .ok d ∧ d.toM = k⁻¹ • m.toM) ∧
    (k ≠ 0 → ∃ d, m.sdivAssign k = .ok d ∧ d.toM = k⁻¹ • m.toM) ∧
    (∃ d, m.sdiv 0 = .ok d ∧ d.toM = 0) ∧ m.sdivAssign 0 = .error .assertion ∧
    (m.eq n ↔ m.toM = n.toM) ∧ m.ne n = !m.eq n ∧
    (m.smul k).mulVec v = m.mulVec v * k ∧ (m.smul k).mulVec v = m.mulVec (v * k) := by
  have hs : (m.smul k).toM = k • m.toM := by
    unfold Mat3.smul
    split_ifs with h0 h1
    · simp only [beq_iff_eq] at h0; subst h0
      ext i j; fin_cases i <;> fin_cases j <;> simp [Mat3.toM, Mat3.zero, Mat3.ofScalar]
    · simp only [beq_iff_eq] at h1; subst h1; simp
    · ext i j; fin_cases i <;> fin_cases j <;>
        simp [Mat3.toM, Mat3.ofCols, Mat3.optimize, Mat3.optimizeTol, mul_comm]
  have hv : (m.smul k).mulVec v = m.mulVec v * k := by
    rw [← Vec3.toFn_inj, Mat3.toM_mulVec, hs]
    ext i; fin_cases i <;>
      simp [Mat3.toM, Mat3.mulVec, Vec3.toFn, Matrix.mulVec, dotProduct, Fin.sum_univ_succ] <;> ring
  refine ⟨?_, hs, ?_, fun hk => ?_, fun hk => ?_, ?_, ?_, ?_, ?_, hv, ?_⟩
  · ext i j; fin_cases i <;> fin_cases j <;>
      simp [Mat3.toM, Mat3.neg, Mat3.ofCols, Mat3.optimize, Mat3.optimizeTol]
  · unfold Mat3.smulAssign
    split_ifs with h1
    · simp only [beq_iff_eq] at h1; subst h1; simp
    · ext i j; fin_cases i <;> fin_cases j <;>
        simp [Mat3.toM, Mat3.optimize, Mat3.optimizeTol, Vec3.mulAssign, mul_comm]
  · unfold Mat3.sdiv
    rw [if_neg (by simpa using hk)]
    split_ifs with h1
    · simp only [beq_iff_eq] at h1; subst h1; exact ⟨m, rfl, by simp⟩
    · simp only [Vec3.div, beq_iff_eq, hk, if_false, bind, Except.bind]
      refine ⟨_, rfl, ?_⟩
      ext i j; fin_cases i <;> fin_cases j <;>
        simp [Mat3.toM, Mat3.ofCols, Mat3.optimize, Mat3.optimizeTol, div_eq_inv_mul]
  · unfold Mat3.sdivAssign
    rw [if_neg (by simpa using hk)]
    split_ifs with h1
    · simp only [beq_iff_eq] at h1; subst h1; exact ⟨m, rfl, by simp⟩
    · simp only [Vec3.divAssign, beq_iff_eq, hk, if_false, bind, Except.bind]
      refine ⟨_, rfl, ?_⟩
      ext i j; fin_cases i <;> fin_cases j <;>
        simp [Mat3.toM, Mat3.optimize, Mat3.optimizeTol, div_eq_inv_mul]
  · refine ⟨Mat3.zero, by simp [Mat3.sdiv], ?_⟩
    ext i j; fin_cases i <;> fin_cases j <;> simp [Mat3.toM, Mat3.zero, Mat3.ofScalar]
  · simp [Mat3.sdivAssign]
  · rw [Mat3.toM_ext]; simp [Mat3.eq, Vec3.eq, Vec3.ext_iff, and_assoc]
  · simp [Mat3.eq, Mat3.ne, Vec3.eq, Vec3.ne, bne]
  · rw [hv]; ext <;> simp [Mat3.mulVec] <;> ring

theorem C49_mat4 (m n : Mat4 K) (k : K) (v : Vec4 K) :
    m.neg.toM = -m.toM ∧ (m.smul k).toM = k • m.toM ∧ (m.smulAssign k).toM = k • m.toM ∧
    (k ≠ 0 → (m.sdiv k).toM = k⁻¹ • m.toM) ∧
    (k ≠ 0 → ∃ d, m.sdivAssign k = .ok d ∧ d.toM = k⁻¹ • m.toM) ∧
    (m.sdiv 0).toM = 0 ∧ m.sdivAssign 0 = .error .assertion ∧
    (m.eq n ↔ m.toM = n.toM) ∧ m.ne n = !m.eq n ∧
    (m.smul k).mulVec4 v = m.mulVec4 v * k ∧ (m.smul k).mulVec4 v = m.mulVec4 (v * k) := by
  have hz : (Mat4.zero : Mat4 K).toM = 0 := by
    ext i j; fin_cases i <;> fin_cases j <;>
      simp [Mat4.toM, Mat4.zero, Mat4.ofCols, Mat4.optimize, Mat4.optimizeTol]
  have hs : (m.smul k).toM = k • m.toM := by
    unfold Mat4.smul
    split_ifs with h0 h1
    · simp only [beq_iff_eq] at h0; subst h0; rw [hz, zero_smul]
    · simp only [beq_iff_eq] at h1; subst h1; simp
    · ext i j; fin_cases i <;> fin_cases j <;>
        simp [Mat4.toM, Mat4.ofCols, Mat4.optimize, Mat4.optimizeTol, mul_comm]
  have hv : (m.smul k).mulVec4 v = m.mulVec4 v * k := by
    rw [← Vec4.toFn_inj, Mat4.toM_mulVec4, hs]
    ext i; fin_cases i <;>
      simp [Mat4.toM, Mat4.mulVec4, Vec4.toFn, Matrix.mulVec, dotProduct, Fin.sum_univ_succ] <;> ring
  refine ⟨?_, hs, ?_, fun hk => ?_, fun hk => ?_, ?_, ?_, ?_, ?_, hv, ?_⟩
  · ext i j; fin_cases i <;> fin_cases j <;>
      simp [Mat4.toM, Mat4.neg, Mat4.ofCols, Mat4.optimize, Mat4.optimizeTol]
  · unfold Mat4.smulAssign
    split_ifs with h1
    · simp only [beq_iff_eq] at h1; subst h1; simp
    · ext i j; fin_cases i <;> fin_cases j <;>
        simp [Mat4.toM, Mat4.optimize, Mat4.optimizeTol, Vec4.mulAssign, mul_comm]
  · unfold Mat4.sdiv
    rw [if_neg (by simpa using hk)]
    split_ifs with h1
    · simp only [beq_iff_eq] at h1; subst h1; simp
    · ext i j; fin_cases i <;> fin_cases j <;>
        simp [Mat4.toM, Mat4.ofCols, Mat4.optimize, Mat4.optimizeTol, mul_comm]
  · unfold Mat4.sdivAssign
    rw [if_neg (by simpa using hk)]
    split_ifs with h1
    · simp only [beq_iff_eq] at h1; subst h1; exact ⟨m, rfl, by simp⟩
    · refine ⟨_, rfl, ?_⟩
      ext i j; fin_cases i <;> fin_cases j <;>
        simp [Mat4.toM, Mat4.optimize, Mat4.optimizeTol, Vec4.mulAssign, mul_comm]
  · simpa [Mat4.sdiv] using hz
  · simp [Mat4.sdivAssign]
  · rw [Mat4.toM_ext]; simp [Mat4.eq, Vec4.eq, Vec4.ext_iff, and_assoc]
  · simp [Mat4.eq, Mat4.ne, Vec4.eq, Vec4.ne, bne]
  · rw [hv]; ext <;> simp [Mat4.mulVec4] <;> ring

/-- Affine maps: negation and comparison. -/
theorem C49_mat34 (m n : Mat34 K) (v : Vec3 K) :
    m.neg.mulVec v = -(m.mulVec v) ∧ (m.eq n ↔ m.toM = n.toM) ∧ m.ne n = !m.eq n := by
  refine ⟨?_, ?_, ?_⟩
  · ext <;> simp [Mat34.neg, Mat34.mulVec, Mat3.neg, Mat3.ofCols, Mat3.optimize, Mat3.optimizeTol]
      <;> ring
  · rw [Mat34.toM_ext, ← (C49_mat3 m.rs n.rs 1 v).2.2.2.2.2.2.2.1]
    simp [Mat34.eq, Vec3.eq, Vec3.ext_iff, and_assoc]
  · simp [Mat34.eq, Mat34.ne, Mat3.eq, Mat3.ne, Vec3.eq, Vec3.ne, bne]

end
end MathLib
