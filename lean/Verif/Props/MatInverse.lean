import Verif.Proof.MatNorm
import Verif.Props.MatEntry

/-! # Properties C40–C42: inverses -/

namespace MathLib
open scoped Matrix

section
variable {K : Type} [Field K] [LinearOrder K] [IsStrictOrderedRing K]

/-! ## C40 -/

omit [IsStrictOrderedRing K] in
theorem C40_mat2 (m : Mat2 K) :
    (m.toM.det ≠ 0 → ∃ n, m.inversed = .ok n ∧ n.toM * m.toM = 1 ∧ m.toM * n.toM = 1) ∧
    (m.toM.det = 0 → ∃ n, m.inversed = .ok n ∧ n.toM = 0) := by
  have hd : m.determinant = m.toM.det := by
    simp [Mat2.determinant, Matrix.det_fin_two, Mat2.toM]; ring
  have ha : m.adjoint.toM = m.toM.adjugate := by
    rw [Matrix.adjugate_fin_two]
    simp [Mat2.adjoint, Mat2.ofCols, Mat2.optimize, Mat2.optimizeTol, Mat2.toM]
  constructor
  · intro h
    obtain ⟨n, hn, hn'⟩ := (C49_mat2 m.adjoint m m.toM.det ⟨0, 0⟩).2.2.2.1 h
    refine ⟨n, ?_, ?_, ?_⟩
    · unfold Mat2.inversed; simp only [hd, beq_iff_eq, h, if_false]; exact hn
    · rw [hn', ha, Matrix.smul_mul, Matrix.adjugate_mul, smul_smul, inv_mul_cancel₀ h, one_smul]
    · rw [hn', ha, Matrix.mul_smul, Matrix.mul_adjugate, smul_smul, inv_mul_cancel₀ h, one_smul]
  · intro h
    refine ⟨Mat2.zero, by simp [Mat2.inversed, hd, h], ?_⟩
    ext i j; fin_cases i <;> fin_cases j <;> simp [Mat2.toM, Mat2.zero, Mat2.ofScalar]

theorem C40_mat3 (m : Mat3 K) (ho : m.isOrthonormal → m.toMᵀ * m.toM = 1) :
    (m.toM.det ≠ 0 → ∃ n, m.inversed = .ok n ∧ n.toM * m.toM = 1 ∧ m.toM * n.toM = 1) ∧
    (m.toM.det ≠ 0 → ∃ n, m.invert = .ok n ∧ n.toM * m.toM = 1 ∧ m.toM * n.toM = 1) ∧
    (m.toM.det = 0 → ∃ n, m.inversed = .ok n ∧ n.toM = 0) ∧
    (m.toM.det = 0 → ∃ n, m.invert = .ok n ∧ n.toM = 0) := by
  have hd : m.determinant = m.toM.det := by
    simp [Mat3.determinant, Matrix.det_fin_three, Mat3.toM]; ring
  have ha : m.adjoint.toM = m.toM.adjugate := by
    rw [Matrix.adjugate_fin_three]
    ext i j; fin_cases i <;> fin_cases j <;>
      simp [Mat3.adjoint, Mat3.ofCols, Mat3.optimize, Mat3.optimizeTol, Mat3.toM] <;> ring
  have hz : (Mat3.zero : Mat3 K).toM = 0 := by
    ext i j; fin_cases i <;> fin_cases j <;> simp [Mat3.toM, Mat3.zero, Mat3.ofScalar]
  have ht : m.transpose.toM = m.toMᵀ := by
    ext i j; fin_cases i <;> fin_cases j <;> rfl
  have hinv : m.toM.det ≠ 0 → ∃ n, m.adjoint.sdiv m.toM.det = .ok n ∧ n.toM * m.toM = 1 ∧
      m.toM * n.toM = 1 := by
    intro h
    obtain ⟨n, hn, hn'⟩ := (C49_mat3 m.adjoint m m.toM.det ⟨0, 0, 0⟩).2.2.2.1 h
    refine ⟨n, hn, ?_, ?_⟩
    · rw [hn', ha, Matrix.smul_mul, Matrix.adjugate_mul, smul_smul, inv_mul_cancel₀ h, one_smul]
    · rw [hn', ha, Matrix.mul_smul, Matrix.mul_adjugate, smul_smul, inv_mul_cancel₀ h, one_smul]
  refine ⟨fun h => ?_, fun h => ?_, fun h => ?_, fun h => ?_⟩
  · unfold Mat3.inversed; simp only [hd, beq_iff_eq, h, if_false]; exact hinv h
  · unfold Mat3.invert
    split_ifs with h1
    · refine ⟨_, rfl, ?_, ?_⟩
      · rw [ht, ho h1]
      · rw [ht, mul_eq_one_comm, ho h1]
    · simp only [hd, beq_iff_eq, h, if_false]; exact hinv h
  · exact ⟨Mat3.zero, by simp [Mat3.inversed, hd, h], hz⟩
  · have : m.isOrthonormal = false := by
      by_contra h1
      have h2 := congrArg Matrix.det (ho (by simpa using h1))
      rw [Matrix.det_mul, h, mul_zero, Matrix.det_one] at h2
      exact one_ne_zero h2.symm
    exact ⟨Mat3.zero, by simp [Mat3.invert, this, hd, h], hz⟩

example : ∃ m : Mat3 ℚ, (m.isOrthonormal → m.toMᵀ * m.toM = 1) ∧ m.isOrthonormal ∧ m.toM ≠ 1 ∧
    m.toM.det ≠ 0 :=
  ⟨Mat3.ofCols ⟨3/5, 4/5, 0⟩ ⟨-4/5, 3/5, 0⟩ ⟨0, 0, 1⟩, by decide +kernel⟩

open scoped Matrix.Norms.Frobenius in
/-- If the flag is only true within a tolerance, `invert` is off by the errors computed by the
library: the squared distance of `M⁻¹M` and of `MM⁻¹` from the identity is
`normalError + 2 * orthogonalError`. -/
theorem C40_mat3_tolerance (m : Mat3 ℝ) (h : m.isOrthonormal) :
    ∃ n, m.invert = .ok n ∧ ‖n.toM * m.toM - 1‖ ^ 2 = m.normalError + 2 * m.orthogonalError ∧
      ‖m.toM * n.toM - 1‖ ^ 2 = m.normalError + 2 * m.orthogonalError := by
  have ht : m.transpose.toM = m.toMᵀ := by
    ext i j; fin_cases i <;> fin_cases j <;> rfl
  refine ⟨m.transpose, by simp [Mat3.invert, h], ?_, ?_⟩
  · rw [ht, Mat3.gramError_eq]
  · rw [ht, gram_transpose, Mat3.gramError_eq]

/-! ## C42 -/

theorem C42_mat34 (m : Mat34 K) (ho : m.rs.isOrthonormal → m.rs.toMᵀ * m.rs.toM = 1)
    (hi : m.rs.isIdentity → m.rs.toM = 1) (hd : m.rs.toM.det ≠ 0) :
    ∃ n, m.invert = .ok n ∧ n.toM * m.toM = 1 ∧ m.toM * n.toM = 1 ∧
      ∀ v, n.mulVec (m.mulVec v) = v ∧ m.mulVec (n.mulVec v) = v := by
  suffices h : ∃ n, m.invert = .ok n ∧ n.toM * m.toM = 1 by
    obtain ⟨n, hn, h1⟩ := h
    have h2 := mul_eq_one_comm.1 h1
    refine ⟨n, hn, h1, h2, fun v => ⟨?_, ?_⟩⟩
    · rw [← Vec3.toH_inj, Mat34.toM_mulVec, Mat34.toM_mulVec, Matrix.mulVec_mulVec, h1,
        Matrix.one_mulVec]
    · rw [← Vec3.toH_inj, Mat34.toM_mulVec, Mat34.toM_mulVec, Matrix.mulVec_mulVec, h2,
        Matrix.one_mulVec]
  have one : ∀ n : Mat34 K, n.rs.toM = 1 → n.t = ⟨0, 0, 0⟩ → n.toM = 1 := by
    intro n h1 h2
    have e : ∀ i j, n.rs.toM i j = (1 : Matrix (Fin 3) (Fin 3) K) i j := fun i j => by rw [h1]
    have h00 := e 0 0
    have h01 := e 0 1
    have h02 := e 0 2
    have h10 := e 1 0
    have h11 := e 1 1
    have h12 := e 1 2
    have h20 := e 2 0
    have h21 := e 2 1
    have h22 := e 2 2
    simp [Mat3.toM] at h00 h01 h02 h10 h11 h12 h20 h21 h22
    ext i j; fin_cases i <;> fin_cases j <;> simp [Mat34.toM, *]
  -- an inverse of the linear part with translation `-(n * t)`
  have key : ∀ (N : Mat3 K), N.toM * m.rs.toM = 1 →
      (Mat34.mk N (-(N.mulVec m.t))).toM * m.toM = 1 := by
    intro N hN
    let C : Mat3 K := ⟨⟨1, 0, 0⟩, ⟨0, 1, 0⟩, ⟨0, 0, 1⟩, Flags.start⟩
    have hC : C.toM = 1 := by
      ext i j; fin_cases i <;> fin_cases j <;> simp [C, Mat3.toM]
    rw [← Mat34.block_mul N m.rs C _ m.t ⟨0, 0, 0⟩ (by rw [hC, hN]) (by ext <;> simp)]
    exact one _ hC rfl
  unfold Mat34.invert
  split_ifs with h1 h2
  · simp only [Mat34.isIdentity, Bool.and_eq_true, Vec3.isNull, beq_iff_eq] at h1
    have e : m.toM = 1 := one m (hi h1.1) (Vec3.ext h1.2.1.1 h1.2.1.2 h1.2.2)
    exact ⟨m, rfl, by rw [e, one_mul]⟩
  · refine ⟨_, rfl, ?_⟩
    have ht : m.rs.transpose.toM = m.rs.toMᵀ := by
      ext i j; fin_cases i <;> fin_cases j <;> rfl
    have := key m.rs.transpose (by rw [ht]; exact ho h2)
    convert this using 4
    ext <;> simp [Mat3.vecMul, Mat3.mulVec, Mat3.transpose] <;> ring
  · obtain ⟨N, hN, h3, -⟩ := (C40_mat3 m.rs ho).2.1 hd
    refine ⟨⟨N, -(N.mulVec m.t)⟩, ?_, key N h3⟩
    simp [hN, bind, Except.bind]

example : ∃ m : Mat34 ℚ, (m.rs.isOrthonormal → m.rs.toMᵀ * m.rs.toM = 1) ∧
    (m.rs.isIdentity → m.rs.toM = 1) ∧ m.rs.toM.det ≠ 0 ∧ m.rs.isOrthonormal ∧ m.t.x ≠ 0 :=
  ⟨Mat34.ofCols ⟨3/5, 4/5, 0⟩ ⟨-4/5, 3/5, 0⟩ ⟨0, 0, 1⟩ ⟨1, 2, 3⟩, by decide +kernel⟩
example : ∃ m : Mat34 ℚ, (m.rs.isOrthonormal → m.rs.toMᵀ * m.rs.toM = 1) ∧
    (m.rs.isIdentity → m.rs.toM = 1) ∧ m.rs.toM.det ≠ 0 ∧ ¬m.rs.isOrthonormal ∧ m.t.x ≠ 0 :=
  ⟨Mat34.ofCols ⟨1, 4, 0⟩ ⟨-4, 3, 0⟩ ⟨0, 0, 1⟩ ⟨1, 2, 3⟩, by decide +kernel⟩

/-! ## C41 -/

/-- The claim is false of matrices with flags as computed by the library: `Orthonormal` does not look
at the fourth column, but inversion treats such matrices as rigid motions.  Moreover `invert()` of a
matrix with determinant one that is not orthonormal leaves an object flagged as uninitialised, so
that its `isInitialized()` is false. -/
theorem C41_refuted :
    (let m : Mat4 ℚ := Mat4.ofCols ⟨0, 0, 0, 1⟩ ⟨0, 1, 0, 0⟩ ⟨0, 0, 1, 0⟩ ⟨1, 0, 0, 0⟩
     m.determinant = -1 ∧ m.invert.toM * m.toM ≠ 1 ∧
      ∃ n, m.inversed = .ok n ∧ n.toM * m.toM ≠ 1) ∧
    (let m : Mat4 ℚ := Mat4.ofCols3 ⟨2, 0, 0⟩ ⟨0, 1/2, 0⟩ ⟨0, 0, 1⟩ ⟨0, 0, 0⟩
     m.isInitialized ∧ m.determinant = 1 ∧ m.invert.toM * m.toM = 1 ∧
      m.invert.isInitialized = false) := by
  refine ⟨⟨by decide +kernel, by decide +kernel, ?_⟩, by decide +kernel⟩
  have h : (match (Mat4.ofCols ⟨0, 0, 0, 1⟩ ⟨0, 1, 0, 0⟩ ⟨0, 0, 1, 0⟩ ⟨1, 0, 0, 0⟩ : Mat4 ℚ).inversed with
      | .ok n => decide (n.toM * (Mat4.ofCols ⟨0, 0, 0, 1⟩ ⟨0, 1, 0, 0⟩ ⟨0, 0, 1, 0⟩ ⟨1, 0, 0, 0⟩ :
          Mat4 ℚ).toM ≠ 1)
      | .error _ => false) = true := by decide +kernel
  split at h
  · rename_i n hn; exact ⟨n, hn, of_decide_eq_true h⟩
  · simp at h

/-- A rigid motion: orthonormal linear part and last row `0 0 0 1`. -/
def Mat4.Rigid (m : Mat4 K) : Prop :=
  m.x.w = 0 ∧ m.y.w = 0 ∧ m.z.w = 0 ∧ m.t.w = 1 ∧
  m.x.toVec3.dot m.x.toVec3 = 1 ∧ m.y.toVec3.dot m.y.toVec3 = 1 ∧ m.z.toVec3.dot m.z.toVec3 = 1 ∧
  m.x.toVec3.dot m.y.toVec3 = 0 ∧ m.x.toVec3.dot m.z.toVec3 = 0 ∧ m.y.toVec3.dot m.z.toVec3 = 0

/-- What remains true: with the orthonormal flag set only on (exact) rigid motions both functions
invert; for a vanishing determinant they give the zero matrix; the result of `inversed` is
initialised, that of `invert` unless the determinant is one.  Missing: orthonormal flags on other
matrices, and the initialised state of `invert`. -/
theorem C41_partial (m : Mat4 K) (ho : m.isOrthonormal → m.Rigid) (hi : m.isInitialized) :
    (m.toM.det ≠ 0 → ∃ n, m.inversed = .ok n ∧ n.toM * m.toM = 1 ∧ m.toM * n.toM = 1 ∧
      n.isInitialized) ∧
    (m.toM.det ≠ 0 → m.invert.toM * m.toM = 1 ∧ m.toM * m.invert.toM = 1 ∧
      (m.toM.det ≠ 1 → m.invert.isInitialized)) ∧
    (m.toM.det = 0 → ∃ n, m.inversed = .ok n ∧ n.toM = 0 ∧ m.invert.toM = 0) := by
  have hD : m.adjDet m.adj = m.toM.det := by rw [← m.det_eq]; rfl
  have ha : m.adj.toM = m.toM.adjugate := by
    ext i j
    rw [Matrix.adjugate_fin_succ_eq_det_submatrix, Matrix.det_fin_three]
    fin_cases i <;> fin_cases j <;>
      simp [Mat4.adj, Mat4.toM, Fin.succAbove] <;> ring
  have hz : (Mat4.zero : Mat4 K).toM = 0 := by
    ext i j; fin_cases i <;> fin_cases j <;>
      simp [Mat4.toM, Mat4.zero, Mat4.ofCols, Mat4.optimize, Mat4.optimizeTol]
  have hl : ∀ n : Mat4 K, m.toM.det ≠ 0 → n.toM = (m.toM.det)⁻¹ • m.adj.toM →
      n.toM * m.toM = 1 ∧ m.toM * n.toM = 1 := by
    intro n h hn
    constructor
    · rw [hn, ha, Matrix.smul_mul, Matrix.adjugate_mul, smul_smul, inv_mul_cancel₀ h, one_smul]
    · rw [hn, ha, Matrix.mul_smul, Matrix.mul_adjugate, smul_smul, inv_mul_cancel₀ h, one_smul]
  -- rigid motions
  have hr : ∀ (M : Mat4 K) (n : Mat4 K), M.Rigid →
      n.x = ⟨M.x.x, M.y.x, M.z.x, 0⟩ → n.y = ⟨M.x.y, M.y.y, M.z.y, 0⟩ →
      n.z = ⟨M.x.z, M.y.z, M.z.z, 0⟩ →
      n.t = ⟨-(M.x.x * M.t.x + M.x.y * M.t.y + M.x.z * M.t.z),
        -(M.y.x * M.t.x + M.y.y * M.t.y + M.y.z * M.t.z),
        -(M.z.x * M.t.x + M.z.y * M.t.y + M.z.z * M.t.z), 1⟩ → n.toM * M.toM = 1 := by
    intro M n h h1 h2 h3 h4
    obtain ⟨w1, w2, w3, w4, d1, d2, d3, d4, d5, d6⟩ := h
    simp only [Vec3.dot, Vec4.toVec3] at d1 d2 d3 d4 d5 d6
    ext i j
    fin_cases i <;> fin_cases j <;>
      simp [Mat4.toM, Matrix.mul_apply, Fin.sum_univ_succ, h1, h2, h3, h4, w1, w2, w3, w4] <;>
      first
        | linear_combination d1
        | linear_combination d2
        | linear_combination d3
        | linear_combination d4
        | linear_combination d5
        | linear_combination d6
  by_cases h1 : m.isOrthonormal
  · have R := ho h1
    have e1 : ∀ n : Mat4 K, n.toM * m.toM = 1 → n.toM * m.toM = 1 ∧ m.toM * n.toM = 1 :=
      fun n h => ⟨h, mul_eq_one_comm.1 h⟩
    have hinv : m.invert.toM * m.toM = 1 := by
      refine hr m _ R ?_ ?_ ?_ ?_ <;> simp [Mat4.invert, h1, R.1, R.2.1, R.2.2.1, R.2.2.2.1]
    have hdet : m.toM.det ≠ 0 := by
      intro h0
      have := congrArg Matrix.det hinv
      rw [Matrix.det_mul, h0, mul_zero, Matrix.det_one] at this
      exact zero_ne_one this
    refine ⟨fun _ => ?_, fun _ => ?_, fun h => absurd h hdet⟩
    · have he : ∃ n, m.inversed = .ok n ∧ n.toM * m.toM = 1 ∧ n.isInitialized := by
        unfold Mat4.inversed
        rw [if_pos h1]
        refine ⟨_, rfl, hr m _ R rfl rfl rfl ?_, hi⟩
        ext <;> simp
      obtain ⟨n, hn, h2, h3⟩ := he
      exact ⟨n, hn, h2, mul_eq_one_comm.1 h2, h3⟩
    · refine ⟨hinv, mul_eq_one_comm.1 hinv, fun _ => ?_⟩
      have : m.invert.flags = m.flags := by simp [Mat4.invert, h1]
      simpa [Mat4.isInitialized, this] using hi
  · refine ⟨fun h => ?_, fun h => ?_, fun h => ?_⟩
    · obtain ⟨n, hn, hn'⟩ := (C49_mat4 m.adj m m.toM.det ⟨0, 0, 0, 0⟩).2.2.2.2.1 h
      refine ⟨n.optimize, ?_, ?_⟩
      · unfold Mat4.inversed
        rw [if_neg h1]
        simp only [hD, beq_iff_eq, h, if_false, hn, bind, Except.bind]
      · have e : n.optimize.toM = n.toM := rfl
        rw [e]
        exact ⟨(hl n h hn').1, (hl n h hn').2, rfl⟩
    · have hn := (C49_mat4 m.adj m m.toM.det ⟨0, 0, 0, 0⟩).2.2.2.1 h
      have e : m.invert = m.adj.sdiv m.toM.det := by
        unfold Mat4.invert
        rw [if_neg h1]
        simp only [hD, beq_iff_eq, h, if_false]
      rw [e]
      refine ⟨(hl _ h hn).1, (hl _ h hn).2, fun h2 => ?_⟩
      simp [Mat4.sdiv, h, h2, Mat4.isInitialized, Mat4.ofCols, Mat4.optimize, Mat4.optimizeTol]
    · refine ⟨Mat4.zero, ?_, hz, ?_⟩
      · unfold Mat4.inversed
        rw [if_neg h1]
        simp only [hD, h, beq_self_eq_true, if_true]
      · unfold Mat4.invert
        rw [if_neg h1]
        simp only [hD, h, beq_self_eq_true, if_true]
        exact hz

example : ∃ m : Mat4 ℚ, m.isOrthonormal ∧ m.Rigid ∧ m.isInitialized ∧ m.toM.det ≠ 0 ∧ m.t.x ≠ 0 := by
  refine ⟨Mat4.ofCols3 ⟨3/5, 4/5, 0⟩ ⟨-4/5, 3/5, 0⟩ ⟨0, 0, 1⟩ ⟨1, 2, 3⟩, ?_⟩
  unfold Mat4.Rigid
  rw [← Mat4.det_eq]
  decide +kernel

end
end MathLib
