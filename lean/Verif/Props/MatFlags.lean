import Verif.Proof.MatNorm
import Verif.Spec.MatReach
import Verif.Props.MatProducts
import Verif.Props.MatDet

/-! # Properties C35 (cost of the identity shortcut), C43 (truth of the cached flags)

Matrix norms are Frobenius norms. -/

namespace MathLib
open scoped Matrix Matrix.Norms.Frobenius
noncomputable section

/-! ## C35 -/

private theorem le_sqrt_sq {a t : ℝ} (h : a ^ 2 ≤ t) : a ≤ √t :=
  (le_abs_self a).trans (Real.abs_le_sqrt h)

theorem C35_mat2 (A B : Mat2 ℝ) (tol : ℝ) (hA : A.isIdentity → A.identityError ≤ tol)
    (hB : B.isIdentity → B.identityError ≤ tol) :
    (A.isIdentity → ‖(A.mul B).toM - A.toM * B.toM‖ ≤ √tol * ‖B.toM‖) ∧
    (¬A.isIdentity → B.isIdentity → ‖(A.mul B).toM - A.toM * B.toM‖ ≤ √tol * ‖A.toM‖) ∧
    (¬A.isIdentity → ¬B.isIdentity → (A.mul B).toM = A.toM * B.toM) := by
  refine ⟨fun h => ?_, fun h1 h2 => ?_, fun h1 h2 => ?_⟩
  · have e : (A.mul B).toM - A.toM * B.toM = -((A.toM - 1) * B.toM) := by
      rw [Mat2.mul, if_pos h, sub_mul, one_mul]; abel
    have := le_sqrt_sq (A.identityError_eq ▸ hA h)
    rw [e, norm_neg]
    exact (norm_mul_le _ _).trans (mul_le_mul_of_nonneg_right this (norm_nonneg _))
  · have e : (A.mul B).toM - A.toM * B.toM = -(A.toM * (B.toM - 1)) := by
      rw [Mat2.mul, if_neg h1, if_pos h2, mul_sub, mul_one]; abel
    have := le_sqrt_sq (B.identityError_eq ▸ hB h2)
    rw [e, norm_neg, mul_comm (√tol)]
    exact (norm_mul_le _ _).trans (mul_le_mul_of_nonneg_left this (norm_nonneg _))
  · exact Mat2.toM_mul A B (fun h => absurd h h1) (fun h => absurd h h2)

theorem C35_mat3 (A B : Mat3 ℝ) (tol : ℝ) (hA : A.isIdentity → A.identityError ≤ tol)
    (hB : B.isIdentity → B.identityError ≤ tol) :
    (A.isIdentity → ‖(A.mul B).toM - A.toM * B.toM‖ ≤ √tol * ‖B.toM‖) ∧
    (¬A.isIdentity → B.isIdentity → ‖(A.mul B).toM - A.toM * B.toM‖ ≤ √tol * ‖A.toM‖) ∧
    (¬A.isIdentity → ¬B.isIdentity → (A.mul B).toM = A.toM * B.toM) := by
  refine ⟨fun h => ?_, fun h1 h2 => ?_, fun h1 h2 => ?_⟩
  · have e : (A.mul B).toM - A.toM * B.toM = -((A.toM - 1) * B.toM) := by
      rw [Mat3.mul, if_pos h, sub_mul, one_mul]; abel
    have := le_sqrt_sq (A.identityError_eq ▸ hA h)
    rw [e, norm_neg]
    exact (norm_mul_le _ _).trans (mul_le_mul_of_nonneg_right this (norm_nonneg _))
  · have e : (A.mul B).toM - A.toM * B.toM = -(A.toM * (B.toM - 1)) := by
      rw [Mat3.mul, if_neg h1, if_pos h2, mul_sub, mul_one]; abel
    have := le_sqrt_sq (B.identityError_eq ▸ hB h2)
    rw [e, norm_neg, mul_comm (√tol)]
    exact (norm_mul_le _ _).trans (mul_le_mul_of_nonneg_left this (norm_nonneg _))
  · exact Mat3.toM_mul A B (fun h => absurd h h1) (fun h => absurd h h2)

theorem C35_mat4 (A B : Mat4 ℝ) (tol : ℝ) (hA : A.isIdentity → A.identityError ≤ tol)
    (hB : B.isIdentity → B.identityError ≤ tol) :
    (A.isIdentity → ‖(A.mul B).toM - A.toM * B.toM‖ ≤ √tol * ‖B.toM‖) ∧
    (¬A.isIdentity → B.isIdentity → ‖(A.mul B).toM - A.toM * B.toM‖ ≤ √tol * ‖A.toM‖) ∧
    (¬A.isIdentity → ¬B.isIdentity → (A.mul B).toM = A.toM * B.toM) := by
  refine ⟨fun h => ?_, fun h1 h2 => ?_, fun h1 h2 => ?_⟩
  · have e : (A.mul B).toM - A.toM * B.toM = -((A.toM - 1) * B.toM) := by
      rw [Mat4.mul, if_pos h, sub_mul, one_mul]; abel
    have := le_sqrt_sq (A.identityError_eq ▸ hA h)
    rw [e, norm_neg]
    exact (norm_mul_le _ _).trans (mul_le_mul_of_nonneg_right this (norm_nonneg _))
  · have e : (A.mul B).toM - A.toM * B.toM = -(A.toM * (B.toM - 1)) := by
      rw [Mat4.mul, if_neg h1, if_pos h2, mul_sub, mul_one]; abel
    have := le_sqrt_sq (B.identityError_eq ▸ hB h2)
    rw [e, norm_neg, mul_comm (√tol)]
    exact (norm_mul_le _ _).trans (mul_le_mul_of_nonneg_left this (norm_nonneg _))
  · exact Mat4.toM_mul A B (fun h => absurd h h1) (fun h => absurd h h2)

/-- The hypotheses of the above are met by the flags that `optimize` computes, so for arbitrary
entries and any tolerance the product of two optimised matrices is within `√tol` times the larger
norm of the exact product. -/
theorem C35_optimised (t : MatTol ℝ) :
    (∀ A B : Mat2 ℝ, ‖((A.optimizeTol t).mul (B.optimizeTol t)).toM - A.toM * B.toM‖ ≤
      √t.identity * max ‖A.toM‖ ‖B.toM‖) ∧
    (∀ A B : Mat3 ℝ, ‖((A.optimizeTol t).mul (B.optimizeTol t)).toM - A.toM * B.toM‖ ≤
      √t.identity * max ‖A.toM‖ ‖B.toM‖) ∧
    (∀ A B : Mat4 ℝ, ‖((A.optimizeTol t).mul (B.optimizeTol t)).toM - A.toM * B.toM‖ ≤
      √t.identity * max ‖A.toM‖ ‖B.toM‖) := by
  have h0 : ∀ x y : ℝ, 0 ≤ x → 0 ≤ √t.identity * max x y := fun x y hx =>
    mul_nonneg (Real.sqrt_nonneg _) (hx.trans (le_max_left _ _))
  refine ⟨fun A B => ?_, fun A B => ?_, fun A B => ?_⟩
  · have hA : (A.optimizeTol t).isIdentity → (A.optimizeTol t).identityError ≤ t.identity := by
      intro h
      simp only [Mat2.optimizeTol, Mat2.isIdentity, Bool.and_eq_true] at h
      exact of_decide_eq_true h.2
    have hB : (B.optimizeTol t).isIdentity → (B.optimizeTol t).identityError ≤ t.identity := by
      intro h
      simp only [Mat2.optimizeTol, Mat2.isIdentity, Bool.and_eq_true] at h
      exact of_decide_eq_true h.2
    obtain ⟨c1, c2, c3⟩ := C35_mat2 _ _ _ hA hB
    have eA : (A.optimizeTol t).toM = A.toM := rfl
    have eB : (B.optimizeTol t).toM = B.toM := rfl
    rw [eA, eB] at c1 c2 c3
    by_cases h1 : (A.optimizeTol t).isIdentity
    · exact (c1 h1).trans (mul_le_mul_of_nonneg_left (le_max_right _ _) (Real.sqrt_nonneg _))
    · by_cases h2 : (B.optimizeTol t).isIdentity
      · exact (c2 h1 h2).trans (mul_le_mul_of_nonneg_left (le_max_left _ _) (Real.sqrt_nonneg _))
      · rw [c3 h1 h2, sub_self, norm_zero]; exact h0 _ _ (norm_nonneg _)
  · have hA : (A.optimizeTol t).isIdentity → (A.optimizeTol t).identityError ≤ t.identity := by
      intro h
      simp only [Mat3.optimizeTol, Mat3.isIdentity, Bool.and_eq_true] at h
      exact of_decide_eq_true h.2
    have hB : (B.optimizeTol t).isIdentity → (B.optimizeTol t).identityError ≤ t.identity := by
      intro h
      simp only [Mat3.optimizeTol, Mat3.isIdentity, Bool.and_eq_true] at h
      exact of_decide_eq_true h.2
    obtain ⟨c1, c2, c3⟩ := C35_mat3 _ _ _ hA hB
    have eA : (A.optimizeTol t).toM = A.toM := rfl
    have eB : (B.optimizeTol t).toM = B.toM := rfl
    rw [eA, eB] at c1 c2 c3
    by_cases h1 : (A.optimizeTol t).isIdentity
    · exact (c1 h1).trans (mul_le_mul_of_nonneg_left (le_max_right _ _) (Real.sqrt_nonneg _))
    · by_cases h2 : (B.optimizeTol t).isIdentity
      · exact (c2 h1 h2).trans (mul_le_mul_of_nonneg_left (le_max_left _ _) (Real.sqrt_nonneg _))
      · rw [c3 h1 h2, sub_self, norm_zero]; exact h0 _ _ (norm_nonneg _)
  · have hA : (A.optimizeTol t).isIdentity → (A.optimizeTol t).identityError ≤ t.identity := by
      intro h
      simp only [Mat4.optimizeTol, Mat4.isIdentity, Bool.and_eq_true] at h
      exact of_decide_eq_true h.2
    have hB : (B.optimizeTol t).isIdentity → (B.optimizeTol t).identityError ≤ t.identity := by
      intro h
      simp only [Mat4.optimizeTol, Mat4.isIdentity, Bool.and_eq_true] at h
      exact of_decide_eq_true h.2
    obtain ⟨c1, c2, c3⟩ := C35_mat4 _ _ _ hA hB
    have eA : (A.optimizeTol t).toM = A.toM := rfl
    have eB : (B.optimizeTol t).toM = B.toM := rfl
    rw [eA, eB] at c1 c2 c3
    by_cases h1 : (A.optimizeTol t).isIdentity
    · exact (c1 h1).trans (mul_le_mul_of_nonneg_left (le_max_right _ _) (Real.sqrt_nonneg _))
    · by_cases h2 : (B.optimizeTol t).isIdentity
      · exact (c2 h1 h2).trans (mul_le_mul_of_nonneg_left (le_max_left _ _) (Real.sqrt_nonneg _))
      · rw [c3 h1 h2, sub_self, norm_zero]; exact h0 _ _ (norm_nonneg _)

/-- a flagged matrix that is not the identity -/
example : ∃ A : Mat3 ℚ, A.isIdentity ∧ A.identityError ≤ 1/1000 ∧ A.toM ≠ 1 :=
  ⟨Mat3.ofCols ⟨1, 1/100, 0⟩ ⟨0, 1, 0⟩ ⟨0, 0, 1⟩, by decide +kernel⟩

/-! ## C43 -/

/-- Truth of the flags of a `Mat3`, with a bound on the defect of orthonormality for products of `n`
matrices. -/
def Mat3.Truthful (n : ℕ) (m : Mat3 ℝ) : Prop :=
  m.isInitialized ∧ (m.isIdentity → m.isOrthonormal ∧ ‖m.toM - 1‖ ^ 2 ≤ 1 / 1000) ∧
  (m.isOrthonormal → 1 + ‖m.toMᵀ * m.toM - 1‖ ≤ (1 + √(3 / 1000)) ^ n)

def Mat2.Truthful (n : ℕ) (m : Mat2 ℝ) : Prop :=
  m.isInitialized ∧ (m.isIdentity → m.isOrthonormal ∧ ‖m.toM - 1‖ ^ 2 ≤ 1 / 1000) ∧
  (m.isOrthonormal → 1 + ‖m.toMᵀ * m.toM - 1‖ ≤ (1 + √(3 / 1000)) ^ n)

private theorem one_le_e : (1 : ℝ) ≤ 1 + √(3 / 1000) := by
  have := Real.sqrt_nonneg (3 / 1000); linarith

theorem Mat3.Truthful.mono {n k : ℕ} {m : Mat3 ℝ} (h : m.Truthful n) (hk : n ≤ k) : m.Truthful k :=
  ⟨h.1, h.2.1, fun ho => (h.2.2 ho).trans (pow_le_pow_right₀ one_le_e hk)⟩
theorem Mat2.Truthful.mono {n k : ℕ} {m : Mat2 ℝ} (h : m.Truthful n) (hk : n ≤ k) : m.Truthful k :=
  ⟨h.1, h.2.1, fun ho => (h.2.2 ho).trans (pow_le_pow_right₀ one_le_e hk)⟩

/-- every matrix whose flags were just recomputed -/
theorem Mat3.truthful_optimize (m : Mat3 ℝ) : m.optimize.Truthful 1 := by
  refine ⟨rfl, ?_, ?_⟩
  · intro h
    simp only [Mat3.isIdentity, Mat3.optimize, Mat3.optimizeTol, Bool.and_eq_true,
      decide_eq_true_eq] at h
    refine ⟨by simp [Mat3.isOrthonormal, Mat3.optimize, Mat3.optimizeTol, h.1.1, h.1.2], ?_⟩
    have : m.optimize.toM = m.toM := rfl
    rw [this, ← Mat3.identityError_eq]; exact h.2
  · intro h
    simp only [Mat3.isOrthonormal, Mat3.optimize, Mat3.optimizeTol, Bool.and_eq_true,
      decide_eq_true_eq] at h
    have e : m.optimize.toM = m.toM := rfl
    have := le_sqrt_sq (t := 3 / 1000) (a := ‖m.toMᵀ * m.toM - 1‖) (by
      rw [← Mat3.gramError_eq]
      have h1 : m.normalError ≤ 1 / 1000 := h.1
      have h2 : m.orthogonalError ≤ 1 / 1000 := h.2
      linarith)
    rw [e, pow_one]; linarith
theorem Mat2.truthful_optimize (m : Mat2 ℝ) : m.optimize.Truthful 1 := by
  refine ⟨rfl, ?_, ?_⟩
  · intro h
    simp only [Mat2.isIdentity, Mat2.optimize, Mat2.optimizeTol, Bool.and_eq_true,
      decide_eq_true_eq] at h
    refine ⟨by simp [Mat2.isOrthonormal, Mat2.optimize, Mat2.optimizeTol, h.1.1, h.1.2], ?_⟩
    have : m.optimize.toM = m.toM := rfl
    rw [this, ← Mat2.identityError_eq]; exact h.2
  · intro h
    simp only [Mat2.isOrthonormal, Mat2.optimize, Mat2.optimizeTol, Bool.and_eq_true,
      decide_eq_true_eq] at h
    have e : m.optimize.toM = m.toM := rfl
    have := le_sqrt_sq (t := 3 / 1000) (a := ‖m.toMᵀ * m.toM - 1‖) (by
      rw [← Mat2.gramError_eq]
      have h1 : m.normalError ≤ 1 / 1000 := h.1
      have h2 : m.orthogonalError ≤ 1 / 1000 := h.2
      linarith)
    rw [e, pow_one]; linarith

theorem Mat3.truthful_exact (m : Mat3 ℝ) (h : m.toM = 1) (hi : m.isInitialized)
    (ho : m.isIdentity → m.isOrthonormal) : m.Truthful 1 := by
  refine ⟨hi, fun k => ⟨ho k, by rw [h]; norm_num⟩, fun _ => ?_⟩
  rw [h, Matrix.transpose_one, one_mul, sub_self, norm_zero, pow_one]; linarith [one_le_e]
theorem Mat2.truthful_exact (m : Mat2 ℝ) (h : m.toM = 1) (hi : m.isInitialized)
    (ho : m.isIdentity → m.isOrthonormal) : m.Truthful 1 := by
  refine ⟨hi, fun k => ⟨ho k, by rw [h]; norm_num⟩, fun _ => ?_⟩
  rw [h, Matrix.transpose_one, one_mul, sub_self, norm_zero, pow_one]; linarith [one_le_e]

theorem Mat3.truthful_setIdentity : (Mat3.setIdentity : Mat3 ℝ).Truthful 1 :=
  Mat3.truthful_exact _ (by
    ext i j; fin_cases i <;> fin_cases j <;>
      simp [Mat3.toM, Mat3.setIdentity, Vec3.oneX, Vec3.oneY, Vec3.oneZ]) rfl fun _ => rfl
theorem Mat2.truthful_setIdentity : (Mat2.setIdentity : Mat2 ℝ).Truthful 1 :=
  Mat2.truthful_exact _ (by
    ext i j; fin_cases i <;> fin_cases j <;>
      simp [Mat2.toM, Mat2.setIdentity, Vec2.oneX, Vec2.oneY]) rfl fun _ => rfl

theorem Mat3.truthful_ofScalar (k : ℝ) : (Mat3.ofScalar k).Truthful 1 := by
  by_cases h : k = 1
  · subst h
    refine Mat3.truthful_exact _ ?_ rfl fun _ => ?_
    · ext i j; fin_cases i <;> fin_cases j <;> simp [Mat3.toM, Mat3.ofScalar]
    · simp [Mat3.isOrthonormal, Mat3.ofScalar]
  · refine ⟨rfl, fun hi => ?_, fun ho => ?_⟩
    · simp [Mat3.isIdentity, Mat3.ofScalar, h] at hi
    · simp [Mat3.isOrthonormal, Mat3.ofScalar, h] at ho
theorem Mat2.truthful_ofScalar (k : ℝ) : (Mat2.ofScalar k).Truthful 1 := by
  by_cases h : k = 1
  · subst h
    refine Mat2.truthful_exact _ ?_ rfl fun _ => ?_
    · ext i j; fin_cases i <;> fin_cases j <;> simp [Mat2.toM, Mat2.ofScalar]
    · simp [Mat2.isOrthonormal, Mat2.ofScalar]
  · refine ⟨rfl, fun hi => ?_, fun ho => ?_⟩
    · simp [Mat2.isIdentity, Mat2.ofScalar, h] at hi
    · simp [Mat2.isOrthonormal, Mat2.ofScalar, h] at ho

theorem Mat3.Truthful.mul {n k : ℕ} {a b : Mat3 ℝ} (ha : a.Truthful n) (hb : b.Truthful k) :
    (a.mul b).Truthful (n + k) := by
  by_cases h1 : a.isIdentity
  · rw [Mat3.mul, if_pos h1]; exact hb.mono (by omega)
  by_cases h2 : b.isIdentity
  · rw [Mat3.mul, if_neg h1, if_pos h2]; exact ha.mono (by omega)
  have e := Mat3.toM_mul a b (fun h => absurd h h1) (fun h => absurd h h2)
  have ef : (a.mul b).flags = a.flags.and b.flags := by
    rw [Mat3.mul, if_neg h1, if_neg h2]
  refine ⟨?_, fun hi => ?_, fun ho => ?_⟩
  · have := ha.1
    simp_all [Mat3.isInitialized, Flags.and]
  · simp_all [Mat3.isIdentity, Flags.and]
  · have hoa : a.isOrthonormal := by simp_all [Mat3.isOrthonormal, Flags.and]
    have hob : b.isOrthonormal := by simp_all [Mat3.isOrthonormal, Flags.and]
    rw [e, pow_add]
    exact (gram_mul _ _).trans (mul_le_mul (ha.2.2 hoa) (hb.2.2 hob) (by positivity)
      (by have := one_le_e; positivity))
theorem Mat2.Truthful.mul {n k : ℕ} {a b : Mat2 ℝ} (ha : a.Truthful n) (hb : b.Truthful k) :
    (a.mul b).Truthful (n + k) := by
  by_cases h1 : a.isIdentity
  · rw [Mat2.mul, if_pos h1]; exact hb.mono (by omega)
  by_cases h2 : b.isIdentity
  · rw [Mat2.mul, if_neg h1, if_pos h2]; exact ha.mono (by omega)
  have e := Mat2.toM_mul a b (fun h => absurd h h1) (fun h => absurd h h2)
  have ef : (a.mul b).flags = a.flags.and b.flags := by
    rw [Mat2.mul, if_neg h1, if_neg h2]
  refine ⟨?_, fun hi => ?_, fun ho => ?_⟩
  · have := ha.1
    simp_all [Mat2.isInitialized, Flags.and]
  · simp_all [Mat2.isIdentity, Flags.and]
  · have hoa : a.isOrthonormal := by simp_all [Mat2.isOrthonormal, Flags.and]
    have hob : b.isOrthonormal := by simp_all [Mat2.isOrthonormal, Flags.and]
    rw [e, pow_add]
    exact (gram_mul _ _).trans (mul_le_mul (ha.2.2 hoa) (hb.2.2 hob) (by positivity)
      (by have := one_le_e; positivity))

theorem Mat3.Truthful.mulAssign {n k : ℕ} {a b : Mat3 ℝ} (ha : a.Truthful n) (hb : b.Truthful k) :
    (a.mulAssign b).Truthful (n + k) := by
  by_cases h : a.isIdentity ∧ b.isIdentity
  · rw [(C36_mulAssign.2.2.2 a b h).1]; exact ha.mono (by omega)
  · rw [C36_mulAssign.2.1 a b h]; exact ha.mul hb
theorem Mat2.Truthful.mulAssign {n k : ℕ} {a b : Mat2 ℝ} (ha : a.Truthful n) (hb : b.Truthful k) :
    (a.mulAssign b).Truthful (n + k) := by
  by_cases h : a.isIdentity ∧ b.isIdentity
  · rw [(C36_mulAssign.2.2.1 a b h).1]; exact ha.mono (by omega)
  · rw [C36_mulAssign.1 a b h]; exact ha.mul hb

theorem Mat3.Truthful.rotate {n k : ℕ} {a b : Mat3 ℝ} (ha : a.Truthful n) (hb : b.Truthful k) :
    (a.rotate b).Truthful (n + k) := by
  rw [(C36_rotate3 a b).1, add_comm]; exact hb.mul ha

theorem Mat3.Truthful.transposed {n : ℕ} {a : Mat3 ℝ} (ha : a.Truthful n) :
    a.transposed.Truthful n := by
  have e : a.transposed.toM = a.toMᵀ := by
    ext i j; fin_cases i <;> fin_cases j <;> rfl
  refine ⟨ha.1, fun h => ⟨(ha.2.1 h).1, ?_⟩, fun h => ?_⟩
  · have := (ha.2.1 h).2
    rw [e, ← Matrix.frobenius_norm_transpose, Matrix.transpose_sub, Matrix.transpose_transpose,
      Matrix.transpose_one]
    exact this
  · rw [e, Matrix.transpose_transpose, gram_transpose]; exact ha.2.2 h
theorem Mat2.Truthful.transposed {n : ℕ} {a : Mat2 ℝ} (ha : a.Truthful n) :
    a.transposed.Truthful n := by
  have e : a.transposed.toM = a.toMᵀ := by
    ext i j; fin_cases i <;> fin_cases j <;> rfl
  refine ⟨ha.1, fun h => ⟨(ha.2.1 h).1, ?_⟩, fun h => ?_⟩
  · have := (ha.2.1 h).2
    rw [e, ← Matrix.frobenius_norm_transpose, Matrix.transpose_sub, Matrix.transpose_transpose,
      Matrix.transpose_one]
    exact this
  · rw [e, Matrix.transpose_transpose, gram_transpose]; exact ha.2.2 h

theorem Mat3.sdiv_cases {m m' : Mat3 ℝ} {k : ℝ} (h : m.sdiv k = .ok m') :
    m' = Mat3.ofScalar 0 ∨ m' = m ∨ ∃ u, m' = Mat3.optimize u := by
  unfold Mat3.sdiv at h
  split_ifs at h
  · left; cases h; rfl
  · right; left; cases h; rfl
  · right; right
    cases hx : m.x.div k with
    | error e => simp [hx, bind, Except.bind] at h
    | ok x =>
      cases hy : m.y.div k with
      | error e => simp [hx, hy, bind, Except.bind] at h
      | ok y =>
        cases hz : m.z.div k with
        | error e => simp [hx, hy, hz, bind, Except.bind] at h
        | ok z =>
          simp only [hx, hy, hz, bind, Except.bind] at h
          cases h; exact ⟨_, rfl⟩
theorem Mat2.sdiv_cases {m m' : Mat2 ℝ} {k : ℝ} (h : m.sdiv k = .ok m') :
    m' = Mat2.ofScalar 0 ∨ m' = m ∨ ∃ u, m' = Mat2.optimize u := by
  unfold Mat2.sdiv at h
  split_ifs at h
  · left; cases h; rfl
  · right; left; cases h; rfl
  · right; right
    cases hx : m.x.div k with
    | error e => simp [hx, bind, Except.bind] at h
    | ok x =>
      cases hy : m.y.div k with
      | error e => simp [hx, hy, bind, Except.bind] at h
      | ok y =>
        simp only [hx, hy, bind, Except.bind] at h
        cases h; exact ⟨_, rfl⟩
theorem Mat3.sdivAssign_cases {m m' : Mat3 ℝ} {k : ℝ} (h : m.sdivAssign k = .ok m') :
    m' = m ∨ ∃ u, m' = Mat3.optimize u := by
  unfold Mat3.sdivAssign at h
  split_ifs at h
  · left; cases h; rfl
  · right
    cases hx : m.x.divAssign k with
    | error e => simp [hx, bind, Except.bind] at h
    | ok x =>
      cases hy : m.y.divAssign k with
      | error e => simp [hx, hy, bind, Except.bind] at h
      | ok y =>
        cases hz : m.z.divAssign k with
        | error e => simp [hx, hy, hz, bind, Except.bind] at h
        | ok z =>
          simp only [hx, hy, hz, bind, Except.bind] at h
          cases h; exact ⟨_, rfl⟩
theorem Mat2.sdivAssign_cases {m m' : Mat2 ℝ} {k : ℝ} (h : m.sdivAssign k = .ok m') :
    m' = m ∨ ∃ u, m' = Mat2.optimize u := by
  unfold Mat2.sdivAssign at h
  split_ifs at h
  · left; cases h; rfl
  · right
    cases hx : m.x.divAssign k with
    | error e => simp [hx, bind, Except.bind] at h
    | ok x =>
      cases hy : m.y.divAssign k with
      | error e => simp [hx, hy, bind, Except.bind] at h
      | ok y =>
        simp only [hx, hy, bind, Except.bind] at h
        cases h; exact ⟨_, rfl⟩

theorem Mat2.Reach.pos {n : ℕ} {m : Mat2 ℝ} (h : Mat2.Reach n m) : 1 ≤ n := by
  induction h <;> omega
theorem Mat3.Reach.pos {P : Prop} {n : ℕ} {m : Mat3 ℝ} (h : Mat3.Reach P n m) : 1 ≤ n := by
  induction h <;> omega

/-- The claim that a set flag is true of the entries fails:
* rotating the identity about a coordinate axis leaves it flagged as the identity;
* the product of two matrices with normalised columns is flagged `Normal`, that of two matrices with
  orthogonal columns `Orthogonal`, though the columns of the product are neither;
* a `Mat4` whose fourth column is not orthogonal to the others is flagged orthonormal. -/
theorem C43_refuted :
    (∃ m, Mat3.Reach True 2 m ∧ m.isIdentity ∧ m.identityError = 8) ∧
    (∃ m, Mat3.Reach False 2 m ∧ m.isNormal ∧ m.normalError > 1 / 10) ∧
    (∃ m, Mat3.Reach False 2 m ∧ m.isOrthogonal ∧ m.orthogonalError > 1) ∧
    (∃ m, Mat4.Reach False False m ∧ m.isOrthonormal ∧ m.x = m.t) := by
  refine ⟨?_, ?_, ?_, ?_⟩
  · refine ⟨_, Mat3.Reach.rotateCoord .X Real.pi trivial (Mat3.Reach.setIdentity) rfl, rfl, ?_⟩
    simp [Mat3.identityError, Vec3.lengthSqr, Mat3.setIdentity, Vec3.oneX, Vec3.oneY, Vec3.oneZ]
    norm_num
  · refine ⟨_, Mat3.Reach.mul (Mat3.Reach.ofCols ⟨3/5, 4/5, 0⟩ ⟨3/5, 4/5, 0⟩ ⟨0, 0, 1⟩)
      (Mat3.Reach.ofCols ⟨3/5, 4/5, 0⟩ ⟨-4/5, 3/5, 0⟩ ⟨0, 0, 1⟩), ?_, ?_⟩ <;>
    norm_num [Mat3.mul, Mat3.ofCols, Mat3.optimize, Mat3.optimizeTol, Mat3.isIdentity,
      Mat3.isNormal, Flags.and, Mat3.normalError, Mat3.orthogonalError, Mat3.identityError,
      Vec3.lengthSqr, Vec3.dot, MatTol.default]
  · refine ⟨_, Mat3.Reach.mul (Mat3.Reach.ofCols ⟨1, 0, 0⟩ ⟨0, 2, 0⟩ ⟨0, 0, 1⟩)
      (Mat3.Reach.ofCols ⟨1, 1, 0⟩ ⟨1, -1, 0⟩ ⟨0, 0, 1⟩), ?_, ?_⟩ <;>
    norm_num [Mat3.mul, Mat3.ofCols, Mat3.optimize, Mat3.optimizeTol, Mat3.isIdentity,
      Mat3.isOrthogonal, Flags.and, Mat3.normalError, Mat3.orthogonalError, Vec3.dot,
      MatTol.default]
  · refine ⟨_, Mat4.Reach.ofCols ⟨0, 0, 0, 1⟩ ⟨1, 0, 0, 0⟩ ⟨0, 1, 0, 0⟩ ⟨0, 0, 0, 1⟩, ?_, rfl⟩
    norm_num [Mat4.ofCols, Mat4.optimize, Mat4.optimizeTol, Mat4.isOrthonormal, Mat4.normalError,
      Mat4.orthogonalError, Vec4.dot, MatTol.default]

/-- What remains true, for every sequence of operations of `Mat2`: it is initialised, a set
`Identity` flag means a squared distance of at most `1/1000` from the identity, and `Normal` and
`Orthogonal` together mean that `MᵀM` is within `(1 + √0.003)ⁿ - 1` of the identity, `n` being the
number of factors multiplied together.  Missing: `Normal` or `Orthogonal` alone, for which the claim
is false. -/
theorem C43_mat2_partial {n : ℕ} {m : Mat2 ℝ} (h : Mat2.Reach n m) : m.Truthful n := by
  induction h with
  | ofScalar k => exact Mat2.truthful_ofScalar k
  | setIdentity => exact Mat2.truthful_setIdentity
  | ofCols x y => exact Mat2.truthful_optimize _
  | ofAngle a => exact Mat2.truthful_optimize _
  | slerp a b w => exact Mat2.truthful_optimize _
  | slerpMaxAngle a b w => exact Mat2.truthful_optimize _
  | optimize h ih => exact Mat2.truthful_optimize _
  | orthonormalise h ih => exact Mat2.truthful_optimize _
  | smulAssign k h ih =>
    unfold Mat2.smulAssign; split_ifs
    · exact ih
    · exact (Mat2.truthful_optimize _).mono h.pos
  | sdivAssign k h hm ih =>
    obtain rfl | ⟨u, rfl⟩ := Mat2.sdivAssign_cases hm
    · exact ih
    · exact (Mat2.truthful_optimize _).mono h.pos
  | neg h ih => exact (Mat2.truthful_optimize _).mono h.pos
  | smul k h ih =>
    unfold Mat2.smul; split_ifs
    · exact (Mat2.truthful_ofScalar _).mono h.pos
    · exact ih
    · exact (Mat2.truthful_optimize _).mono h.pos
  | sdiv k h hm ih =>
    obtain rfl | rfl | ⟨u, rfl⟩ := Mat2.sdiv_cases hm
    · exact (Mat2.truthful_ofScalar _).mono h.pos
    · exact ih
    · exact (Mat2.truthful_optimize _).mono h.pos
  | scale c h ih => exact (Mat2.truthful_optimize _).mono h.pos
  | scaled c h ih => exact (Mat2.truthful_optimize _).mono h.pos
  | rotate c h ih => exact (Mat2.truthful_optimize _).mono h.pos
  | rotated c h ih => exact (Mat2.truthful_optimize _).mono h.pos
  | rotatePre c h ih => exact (Mat2.truthful_optimize _).mono h.pos
  | mul h k ih ik => exact ih.mul ik
  | mulAssign h k ih ik => exact ih.mulAssign ik
  | transpose h ih => exact ih.transposed
  | transposed h ih => exact ih.transposed
  | cofactors h ih => exact (Mat2.truthful_optimize _).mono h.pos
  | adjoint h ih => exact (Mat2.truthful_optimize _).mono h.pos
  | @inversed n m m' h hm ih =>
    unfold Mat2.inversed at hm
    dsimp only at hm
    split_ifs at hm
    · cases hm; exact (Mat2.truthful_ofScalar _).mono h.pos
    · obtain rfl | rfl | ⟨u, rfl⟩ := Mat2.sdiv_cases hm
      · exact (Mat2.truthful_ofScalar _).mono h.pos
      · exact (Mat2.truthful_optimize _).mono h.pos
      · exact (Mat2.truthful_optimize _).mono h.pos

/-- The same for `Mat3`, leaving out the rotations about a coordinate axis. -/
theorem C43_mat3_partial {n : ℕ} {m : Mat3 ℝ} (h : Mat3.Reach False n m) : m.Truthful n := by
  induction h with
  | ofScalar k => exact Mat3.truthful_ofScalar k
  | setIdentity => exact Mat3.truthful_setIdentity
  | ofCols x y z => exact Mat3.truthful_optimize _
  | ofQuat q => exact Mat3.truthful_optimize _
  | ofExactApprox e u a v hm =>
    unfold Mat3.ofExactApprox at hm
    dsimp only at hm
    split_ifs at hm
    · cases hm; exact Mat3.truthful_setIdentity
    · cases hm; exact Mat3.truthful_setIdentity
    · split at hm <;> cases hm <;> exact Mat3.truthful_optimize _
  | ofAxisAngle u a => exact Mat3.truthful_optimize _
  | ofCoordAngle c a hm => cases c <;> cases hm <;> exact Mat3.truthful_optimize _
  | slerp a b w hm =>
    unfold Mat3.slerp at hm
    cases hq : Quat.slerp (Quat.ofMat3 a) (Quat.ofMat3 b) w with
    | error e => simp [hq, bind, Except.bind] at hm
    | ok q => simp only [hq, bind, Except.bind] at hm; cases hm; exact Mat3.truthful_optimize _
  | slerpMaxAngle a b w hm =>
    unfold Mat3.slerpMaxAngle at hm
    cases hq : Quat.slerpMaxAngle (Quat.ofMat3 a) (Quat.ofMat3 b) w with
    | error e => simp [hq, bind, Except.bind] at hm
    | ok q => simp only [hq, bind, Except.bind] at hm; cases hm; exact Mat3.truthful_optimize _
  | optimize h ih => exact Mat3.truthful_optimize _
  | orthonormalise h ih => exact Mat3.truthful_optimize _
  | smulAssign k h ih =>
    unfold Mat3.smulAssign; split_ifs
    · exact ih
    · exact (Mat3.truthful_optimize _).mono h.pos
  | sdivAssign k h hm ih =>
    obtain rfl | ⟨u, rfl⟩ := Mat3.sdivAssign_cases hm
    · exact ih
    · exact (Mat3.truthful_optimize _).mono h.pos
  | neg h ih => exact (Mat3.truthful_optimize _).mono h.pos
  | smul k h ih =>
    unfold Mat3.smul; split_ifs
    · exact (Mat3.truthful_ofScalar _).mono h.pos
    · exact ih
    · exact (Mat3.truthful_optimize _).mono h.pos
  | sdiv k h hm ih =>
    obtain rfl | rfl | ⟨u, rfl⟩ := Mat3.sdiv_cases hm
    · exact (Mat3.truthful_ofScalar _).mono h.pos
    · exact ih
    · exact (Mat3.truthful_optimize _).mono h.pos
  | scale c h ih => exact (Mat3.truthful_optimize _).mono h.pos
  | scaled c h ih => exact (Mat3.truthful_optimize _).mono h.pos
  | mul h k ih ik => exact ih.mul ik
  | mulAssign h k ih ik => exact ih.mulAssign ik
  | rotate h k ih ik => exact ih.rotate ik
  | rotated h k ih ik => exact ih.rotate ik
  | rotatePre h k ih ik => exact ih.mulAssign ik
  | rotatedPre h k ih ik => exact ih.mulAssign ik
  | rotateQuat q h ih => exact ih.rotate (Mat3.truthful_optimize _)
  | rotatedQuat q h ih => exact ih.rotate (Mat3.truthful_optimize _)
  | rotatePreQuat q h ih => exact ih.mulAssign (Mat3.truthful_optimize _)
  | rotatedPreQuat q h ih => exact ih.mulAssign (Mat3.truthful_optimize _)
  | rotateAxis u a h ih => exact ih.rotate (Mat3.truthful_optimize _)
  | rotatedAxis u a h ih => exact ih.rotate (Mat3.truthful_optimize _)
  | rotatePreAxis u a h ih => exact ih.mulAssign (Mat3.truthful_optimize _)
  | rotatedPreAxis u a h ih => exact ih.mulAssign (Mat3.truthful_optimize _)
  | transpose h ih => exact ih.transposed
  | transposed h ih => exact ih.transposed
  | cofactors h ih => exact (Mat3.truthful_optimize _).mono h.pos
  | adjoint h ih => exact (Mat3.truthful_optimize _).mono h.pos
  | @inversed n m m' h hm ih =>
    unfold Mat3.inversed at hm
    dsimp only at hm
    split_ifs at hm
    · cases hm; exact (Mat3.truthful_ofScalar _).mono h.pos
    · obtain rfl | rfl | ⟨u, rfl⟩ := Mat3.sdiv_cases hm
      · exact (Mat3.truthful_ofScalar _).mono h.pos
      · exact (Mat3.truthful_optimize _).mono h.pos
      · exact (Mat3.truthful_optimize _).mono h.pos
  | @invert n m m' h hm ih =>
    unfold Mat3.invert at hm
    dsimp only at hm
    split_ifs at hm
    · cases hm; exact ih.transposed
    · cases hm; exact (Mat3.truthful_ofScalar _).mono h.pos
    · obtain rfl | rfl | ⟨u, rfl⟩ := Mat3.sdiv_cases hm
      · exact (Mat3.truthful_ofScalar _).mono h.pos
      · exact (Mat3.truthful_optimize _).mono h.pos
      · exact (Mat3.truthful_optimize _).mono h.pos
  | rotateCoord c a f => exact f.elim
  | rotatePreCoord c a f => exact f.elim
  | rotatedCoord c a f => exact f.elim
  | rotatedPreCoord c a f => exact f.elim

def Mat4.TrsTrue (m : Mat4 ℝ) : Prop :=
  m.isTrs → m.x.w = 0 ∧ m.y.w = 0 ∧ m.z.w = 0 ∧ m.t.w = 1
def Mat4.IdTrue (m : Mat4 ℝ) : Prop := m.isIdentity → m.identityError ≤ 1 / 1000

/-- What remains true for `Mat4`, for every sequence of operations except transposition: a set `Trs`
flag means that the last row is `0 0 0 1`. -/
theorem C43_mat4_trs_partial {m : Mat4 ℝ} (h : Mat4.Reach False True m) (ht : m.isTrs) :
    m.x.w = 0 ∧ m.y.w = 0 ∧ m.z.w = 0 ∧ m.t.w = 1 := by
  have fresh : ∀ u : Mat4 ℝ, u.optimize.TrsTrue := fun u h => by
    simpa [Mat4.isTrs, Mat4.optimize, Mat4.optimizeTol, and_assoc] using h
  have hmul : ∀ a b : Mat4 ℝ, a.TrsTrue → b.TrsTrue → (a.mul b).TrsTrue := by
    intro a b ha hb h
    unfold Mat4.mul at h ⊢
    split_ifs at h ⊢
    · exact hb h
    · exact ha h
    · simp only [Mat4.isTrs, Flags.and, Bool.and_eq_true] at h
      obtain ⟨a1, a2, a3, a4⟩ := ha h.1
      obtain ⟨b1, b2, b3, b4⟩ := hb h.2
      simp [a1, a2, a3, a4, b1, b2, b3, b4]
  have htr : ∀ a b : Mat4 ℝ, a.TrsTrue → b.TrsTrue → (a.transform b).TrsTrue := fun a b ha hb => by
    rw [(C36_mat4 a b).1]; exact hmul b a hb ha
  have htp : ∀ a b : Mat4 ℝ, a.TrsTrue → b.TrsTrue → (a.transformPre b).TrsTrue := by
    intro a b ha hb
    unfold Mat4.transformPre
    split_ifs
    · exact ha
    · exact hb
    · exact hmul a b ha hb
  have hco : ∀ c θ (m : Mat4 ℝ), Mat4.ofCoordAngle c θ = .ok m → m.TrsTrue := by
    intro c θ m hm; cases c <;> cases hm <;> exact fresh _
  have hda : ∀ (m m' : Mat4 ℝ) k, m.sdivAssign k = .ok m' → m.TrsTrue → m'.TrsTrue := by
    intro m m' k hm ih
    unfold Mat4.sdivAssign at hm
    split_ifs at hm <;> cases hm
    · exact ih
    · exact fresh _
  have hd : ∀ (m : Mat4 ℝ) k, m.TrsTrue → (m.sdiv k).TrsTrue := by
    intro m k ih
    unfold Mat4.sdiv
    split_ifs
    · exact fresh _
    · exact ih
    · exact fresh _
  have hid : (Mat4.setIdentity : Mat4 ℝ).TrsTrue := fun _ => ⟨rfl, rfl, rfl, rfl⟩
  refine (?_ : m.TrsTrue) ht
  clear ht
  induction h with
  | ofScalar k => exact fun _ => ⟨rfl, rfl, rfl, rfl⟩
  | setIdentity => exact hid
  | ofCols x y z t => exact fresh _
  | ofCols3 x y z t => exact fresh _
  | ofQuat q t => exact fresh _
  | ofExactApprox e u a v hm =>
    unfold Mat4.ofExactApprox at hm
    dsimp only at hm
    split_ifs at hm
    · cases hm; exact hid
    · cases hm; exact hid
    · split at hm <;> cases hm <;> exact fresh _
  | ofAxisAngle u a => exact fresh _
  | ofCoordAngle c a hm => exact hco c a _ hm
  | optimize h ih => exact fresh _
  | orthonormalise h ih => exact fresh _
  | smulAssign k h ih =>
    unfold Mat4.smulAssign; split_ifs
    · exact ih
    · exact fresh _
  | sdivAssign k h hm ih => exact hda _ _ _ hm ih
  | neg h ih => exact fresh _
  | smul k h ih =>
    unfold Mat4.smul; split_ifs
    · exact fresh _
    · exact ih
    · exact fresh _
  | sdiv k h ih => exact hd _ _ ih
  | mul h k ih ik => exact hmul _ _ ih ik
  | transform h k ih ik => exact htr _ _ ih ik
  | transformed h k ih ik => exact htr _ _ ih ik
  | transformPre h k ih ik => exact htp _ _ ih ik
  | transformedPre h k ih ik => exact htp _ _ ih ik
  | rotateQuat q h ih => exact htr _ _ ih (fresh _)
  | rotatedQuat q h ih => exact htr _ _ ih (fresh _)
  | rotateAxis u a h ih => exact htr _ _ ih (fresh _)
  | rotatedAxis u a h ih => exact htr _ _ ih (fresh _)
  | rotateCoord c a h hm ih =>
    unfold Mat4.rotateCoord at hm
    cases hq : (Mat4.ofCoordAngle c a : Res (Mat4 ℝ)) with
    | error e => simp [hq, bind, Except.bind] at hm
    | ok q => simp only [hq, bind, Except.bind] at hm; cases hm; exact htr _ _ ih (hco c a _ hq)
  | rotatedCoord c a h hm ih =>
    unfold Mat4.rotatedCoord at hm
    cases hq : (Mat4.ofCoordAngle c a : Res (Mat4 ℝ)) with
    | error e => simp [hq, bind, Except.bind] at hm
    | ok q => simp only [hq, bind, Except.bind] at hm; cases hm; exact htr _ _ ih (hco c a _ hq)
  | rotatePreQuat q h ih => exact htp _ _ ih (fresh _)
  | rotatedPreQuat q h ih => exact htp _ _ ih (fresh _)
  | rotatePreAxis u a h ih => exact htp _ _ ih (fresh _)
  | rotatedPreAxis u a h ih => exact htp _ _ ih (fresh _)
  | rotatePreCoord c a h hm ih =>
    unfold Mat4.rotatePreCoord at hm
    cases hq : (Mat4.ofCoordAngle c a : Res (Mat4 ℝ)) with
    | error e => simp [hq, bind, Except.bind] at hm
    | ok q => simp only [hq, bind, Except.bind] at hm; cases hm; exact htp _ _ ih (hco c a _ hq)
  | rotatedPreCoord c a h hm ih =>
    unfold Mat4.rotatedPreCoord at hm
    cases hq : (Mat4.ofCoordAngle c a : Res (Mat4 ℝ)) with
    | error e => simp [hq, bind, Except.bind] at hm
    | ok q => simp only [hq, bind, Except.bind] at hm; cases hm; exact htp _ _ ih (hco c a _ hq)
  | translate v h ih =>
    intro ht
    unfold Mat4.translate at ht ⊢
    split_ifs at ht ⊢ <;> simpa [Vec4.addVec3] using ih ht
  | translatePre v h ih =>
    intro ht
    unfold Mat4.translatePre at ht ⊢
    dsimp only at ht ⊢
    split_ifs at ht ⊢ <;> simpa [Vec4.addVec3] using ih ht
  | translated v h ih => exact fresh _
  | translatedPre v h ih => exact fresh _
  | scale v h ih =>
    intro ht
    unfold Mat4.scale at ht ⊢
    dsimp only at ht ⊢
    split_ifs at ht ⊢ <;>
      (obtain ⟨h1, h2, h3, h4⟩ := ih ht; simp [Vec4.mulAssign, h1, h2, h3, h4])
  | scalePre v h ih =>
    intro ht
    unfold Mat4.scalePre at ht ⊢
    dsimp only at ht ⊢
    split_ifs at ht ⊢ <;>
      (obtain ⟨h1, h2, h3, h4⟩ := ih ht; simp [Vec4.mulAssign, h1, h2, h3, h4])
  | scaled v h ih => exact fresh _
  | scaledPre v h ih => exact fresh _
  | transpose f => exact f.elim
  | transposed f => exact f.elim
  | @invert m _ h ih =>
    unfold Mat4.invert
    split_ifs
    · exact fun ht => ih ht
    · dsimp only
      split_ifs
      · exact fresh _
      · exact hd _ _ fun ht => by simp [Mat4.isTrs, Mat4.adj, Flags.start] at ht
  | @inversed m m' _ h hm ih =>
    unfold Mat4.inversed at hm
    dsimp only at hm
    split_ifs at hm
    · cases hm; exact fun _ => ⟨rfl, rfl, rfl, rfl⟩
    · cases hm; exact fresh _
    · cases hq : m.adj.sdivAssign (m.adjDet m.adj) with
      | error e => simp [hq, bind, Except.bind] at hm
      | ok q => simp only [hq, bind, Except.bind] at hm; cases hm; exact fresh _

/-- What remains true for `Mat4`, for every sequence of operations except inversion: a set `Identity`
flag means a squared distance of at most `1/1000` from the identity. -/
theorem C43_mat4_identity_partial {m : Mat4 ℝ} (h : Mat4.Reach True False m) (hi : m.isIdentity) :
    ‖m.toM - 1‖ ^ 2 ≤ 1 / 1000 := by
  have fresh : ∀ u : Mat4 ℝ, u.optimize.IdTrue := fun u h => by
    simp only [Mat4.isIdentity, Mat4.optimize, Mat4.optimizeTol, Bool.and_eq_true] at h
    exact of_decide_eq_true h.2
  have hmul : ∀ a b : Mat4 ℝ, a.IdTrue → b.IdTrue → (a.mul b).IdTrue := by
    intro a b ha hb h
    unfold Mat4.mul at h ⊢
    split_ifs at h ⊢ with h1 h2
    · exact hb h
    · exact ha h
    · simp_all [Mat4.isIdentity, Flags.and]
  have htr : ∀ a b : Mat4 ℝ, a.IdTrue → b.IdTrue → (a.transform b).IdTrue := fun a b ha hb => by
    rw [(C36_mat4 a b).1]; exact hmul b a hb ha
  have htp : ∀ a b : Mat4 ℝ, a.IdTrue → b.IdTrue → (a.transformPre b).IdTrue := by
    intro a b ha hb
    unfold Mat4.transformPre
    split_ifs
    · exact ha
    · exact hb
    · exact hmul a b ha hb
  have hco : ∀ c θ (m : Mat4 ℝ), Mat4.ofCoordAngle c θ = .ok m → m.IdTrue := by
    intro c θ m hm; cases c <;> cases hm <;> exact fresh _
  have hid : (Mat4.setIdentity : Mat4 ℝ).IdTrue := fun _ => by
    simp [Mat4.identityError, Mat4.setIdentity, Vec4.lengthSqr]
  have htt : ∀ m : Mat4 ℝ, m.IdTrue → m.transposed.IdTrue := fun m ih h => by
    rw [(C38_flags_partial (K := ℝ)).2.2.1 m]; exact ih h
  rw [← Mat4.identityError_eq]
  refine (?_ : m.IdTrue) hi
  clear hi
  induction h with
  | ofScalar k =>
    intro h
    simp only [Mat4.isIdentity, Mat4.ofScalar, beq_iff_eq] at h
    subst h
    simp [Mat4.identityError, Mat4.ofScalar, Vec4.lengthSqr]
  | setIdentity => exact hid
  | ofCols x y z t => exact fresh _
  | ofCols3 x y z t => exact fresh _
  | ofQuat q t => exact fresh _
  | ofExactApprox e u a v hm =>
    unfold Mat4.ofExactApprox at hm
    dsimp only at hm
    split_ifs at hm
    · cases hm; exact hid
    · cases hm; exact hid
    · split at hm <;> cases hm <;> exact fresh _
  | ofAxisAngle u a => exact fresh _
  | ofCoordAngle c a hm => exact hco c a _ hm
  | optimize h ih => exact fresh _
  | orthonormalise h ih => exact fresh _
  | smulAssign k h ih =>
    unfold Mat4.smulAssign; split_ifs
    · exact ih
    · exact fresh _
  | sdivAssign k h hm ih =>
    unfold Mat4.sdivAssign at hm
    split_ifs at hm <;> cases hm
    · exact ih
    · exact fresh _
  | neg h ih => exact fresh _
  | smul k h ih =>
    unfold Mat4.smul; split_ifs
    · exact fresh _
    · exact ih
    · exact fresh _
  | sdiv k h ih =>
    unfold Mat4.sdiv; split_ifs
    · exact fresh _
    · exact ih
    · exact fresh _
  | mul h k ih ik => exact hmul _ _ ih ik
  | transform h k ih ik => exact htr _ _ ih ik
  | transformed h k ih ik => exact htr _ _ ih ik
  | transformPre h k ih ik => exact htp _ _ ih ik
  | transformedPre h k ih ik => exact htp _ _ ih ik
  | rotateQuat q h ih => exact htr _ _ ih (fresh _)
  | rotatedQuat q h ih => exact htr _ _ ih (fresh _)
  | rotateAxis u a h ih => exact htr _ _ ih (fresh _)
  | rotatedAxis u a h ih => exact htr _ _ ih (fresh _)
  | rotateCoord c a h hm ih =>
    unfold Mat4.rotateCoord at hm
    cases hq : (Mat4.ofCoordAngle c a : Res (Mat4 ℝ)) with
    | error e => simp [hq, bind, Except.bind] at hm
    | ok q => simp only [hq, bind, Except.bind] at hm; cases hm; exact htr _ _ ih (hco c a _ hq)
  | rotatedCoord c a h hm ih =>
    unfold Mat4.rotatedCoord at hm
    cases hq : (Mat4.ofCoordAngle c a : Res (Mat4 ℝ)) with
    | error e => simp [hq, bind, Except.bind] at hm
    | ok q => simp only [hq, bind, Except.bind] at hm; cases hm; exact htr _ _ ih (hco c a _ hq)
  | rotatePreQuat q h ih => exact htp _ _ ih (fresh _)
  | rotatedPreQuat q h ih => exact htp _ _ ih (fresh _)
  | rotatePreAxis u a h ih => exact htp _ _ ih (fresh _)
  | rotatedPreAxis u a h ih => exact htp _ _ ih (fresh _)
  | rotatePreCoord c a h hm ih =>
    unfold Mat4.rotatePreCoord at hm
    cases hq : (Mat4.ofCoordAngle c a : Res (Mat4 ℝ)) with
    | error e => simp [hq, bind, Except.bind] at hm
    | ok q => simp only [hq, bind, Except.bind] at hm; cases hm; exact htp _ _ ih (hco c a _ hq)
  | rotatedPreCoord c a h hm ih =>
    unfold Mat4.rotatedPreCoord at hm
    cases hq : (Mat4.ofCoordAngle c a : Res (Mat4 ℝ)) with
    | error e => simp [hq, bind, Except.bind] at hm
    | ok q => simp only [hq, bind, Except.bind] at hm; cases hm; exact htp _ _ ih (hco c a _ hq)
  | @translate m v h ih =>
    intro ht
    unfold Mat4.translate at ht ⊢
    by_cases hv : v.isNull
    · have hv' := hv
      simp only [Vec3.isNull, Bool.and_eq_true, beq_iff_eq] at hv'
      simp only [hv, Bool.not_true, Bool.false_eq_true, if_false] at ht ⊢
      have := ih ht
      simpa [Mat4.identityError, Vec4.addVec3, hv'] using this
    · simp [hv, Mat4.isIdentity] at ht
  | @translatePre m v h ih =>
    intro ht
    unfold Mat4.translatePre at ht ⊢
    by_cases hv : v.isNull
    · have hv' := hv
      simp only [Vec3.isNull, Bool.and_eq_true, beq_iff_eq] at hv'
      simp only [hv, Bool.not_true, Bool.false_eq_true, if_false] at ht ⊢
      have := ih ht
      simpa [Mat4.identityError, Vec4.addVec3, hv', Mat4.transformVector3] using this
    · simp [hv, Mat4.isIdentity] at ht
  | translated v h ih => exact fresh _
  | translatedPre v h ih => exact fresh _
  | @scale m v h ih =>
    intro ht
    unfold Mat4.scale at ht ⊢
    dsimp only at ht ⊢
    split_ifs at ht ⊢ with hc
    · simp [Mat4.isIdentity] at ht
    · simp only [bne_iff_ne, Bool.or_eq_true, not_or, ne_eq, not_not] at hc
      have := ih ht
      simpa [Mat4.identityError, Vec4.mulAssign, hc] using this
  | @scalePre m v h ih =>
    intro ht
    unfold Mat4.scalePre at ht ⊢
    dsimp only at ht ⊢
    split_ifs at ht ⊢ with hc
    · simp [Mat4.isIdentity] at ht
    · simp only [bne_iff_ne, Bool.or_eq_true, not_or, ne_eq, not_not] at hc
      have := ih ht
      simpa [Mat4.identityError, Vec4.mulAssign, hc] using this
  | scaled v h ih => exact fresh _
  | scaledPre v h ih => exact fresh _
  | transpose f h ih => exact htt _ ih
  | transposed f h ih => exact htt _ ih
  | invert f => exact f.elim
  | inversed f => exact f.elim

/-- Both restrictions are needed: transposing a translation leaves it flagged `Trs`, and inverting a
nearly unit scaling with a small translation again and again multiplies the translation each time,
leaving the `Identity` flag set. -/
theorem C43_mat4_refuted :
    (∃ m, Mat4.Reach True False m ∧ m.isTrs ∧ m.x.w = 1) ∧
    (∃ m, Mat4.Reach False True m ∧ m.isIdentity ∧ m.t.x > 1) := by
  constructor
  · refine ⟨_, Mat4.Reach.transposed trivial
      (Mat4.Reach.ofCols3 ⟨1, 0, 0⟩ ⟨0, 1, 0⟩ ⟨0, 0, 1⟩ ⟨1, 0, 0⟩), ?_, ?_⟩
    · simp [Mat4.transposed, Mat4.isTrs, Mat4.ofCols3, Mat4.ofCols, Mat4.optimize,
        Mat4.optimizeTol, Vec4.ofVec3]
    · rfl
  · -- after `n` inversions: scale 1001/1000, translation ± (1001/1000)^n / 100
    let f : Flags := ⟨true, true, true, true, false⟩
    let k : ℝ := 1001 / 1000
    let M : ℝ → Mat4 ℝ := fun a => ⟨⟨k, 0, 0, 0⟩, ⟨0, k, 0, 0⟩, ⟨0, 0, k, 0⟩, ⟨a, 0, 0, 1⟩, f⟩
    have step : ∀ a, (M a).invert = M (-(k * a)) := by
      intro a
      simp [M, f, Mat4.invert, Mat4.isOrthonormal]
    have h0 : Mat4.Reach False True (M (1 / 100)) := by
      have e : Mat4.ofCols3 ⟨k, 0, 0⟩ ⟨0, k, 0⟩ ⟨0, 0, k⟩ ⟨1 / 100, 0, 0⟩ = M (1 / 100) := by
        norm_num [Mat4.ofCols3, Mat4.ofCols, Mat4.optimize, Mat4.optimizeTol, Vec4.ofVec3, M, f, k,
          Mat4.normalError, Mat4.orthogonalError, Mat4.identityError, Vec4.lengthSqr, Vec4.dot,
          MatTol.default]
      rw [← e]; exact Mat4.Reach.ofCols3 _ _ _ _
    have hn : ∀ n : ℕ, Mat4.Reach False True (M (k ^ (2 * n) / 100)) := by
      intro n
      induction n with
      | zero => simpa using h0
      | succ n ih =>
        have h1 := Mat4.Reach.invert trivial (Mat4.Reach.invert trivial ih)
        rw [step, step] at h1
        convert h1 using 2
        ring
    obtain ⟨n, hn'⟩ := pow_unbounded_of_one_lt (100 : ℝ) (show (1 : ℝ) < k ^ 2 by norm_num [k])
    refine ⟨_, hn n, rfl, ?_⟩
    show 1 < k ^ (2 * n) / 100
    rw [pow_mul, lt_div_iff₀ (by norm_num), one_mul]; exact hn'

/-- A default constructed matrix claims nothing, whatever its entries are, and says that it is not
initialised; `optimize` makes it say what its entries deserve, whatever the flags were before. -/
theorem C43_default (a b : Vec2 ℝ) (x y z t : Vec3 ℝ) (u v w s : Vec4 ℝ) (f : Flags) :
    ((⟨a, b, .start⟩ : Mat2 ℝ).isNormal = false ∧ (⟨a, b, .start⟩ : Mat2 ℝ).isInitialized = false ∧
      (⟨a, b, .start⟩ : Mat2 ℝ).isIdentity = false ∧ (⟨a, b, .start⟩ : Mat2 ℝ).isOrthogonal = false) ∧
    ((⟨x, y, z, .start⟩ : Mat3 ℝ).isInitialized = false ∧ (⟨⟨x, y, z, .start⟩, t⟩ : Mat34 ℝ).isInitialized = false ∧
      (⟨⟨x, y, z, .start⟩, t⟩ : Mat34 ℝ).isIdentity = false ∧
      (⟨⟨x, y, z, .start⟩, t⟩ : Mat34 ℝ).isNormal = false ∧
      (⟨⟨x, y, z, .start⟩, t⟩ : Mat34 ℝ).isOrthogonal = false) ∧
    ((⟨u, v, w, s, .start⟩ : Mat4 ℝ).isInitialized = false ∧ (⟨u, v, w, s, .start⟩ : Mat4 ℝ).isIdentity = false ∧
      (⟨u, v, w, s, .start⟩ : Mat4 ℝ).isNormal = false ∧ (⟨u, v, w, s, .start⟩ : Mat4 ℝ).isOrthogonal = false ∧
      (⟨u, v, w, s, .start⟩ : Mat4 ℝ).isTrs = false) ∧
    (⟨a, b, f⟩ : Mat2 ℝ).optimize.isInitialized ∧ (⟨x, y, z, f⟩ : Mat3 ℝ).optimize.isInitialized ∧
    (⟨u, v, w, s, f⟩ : Mat4 ℝ).optimize.isInitialized ∧
    (⟨u, v, w, s, f⟩ : Mat4 ℝ).optimize = (⟨u, v, w, s, .start⟩ : Mat4 ℝ).optimize := by
  exact ⟨⟨rfl, rfl, rfl, rfl⟩, ⟨rfl, rfl, rfl, rfl, rfl⟩, ⟨rfl, rfl, rfl, rfl, rfl⟩, rfl, rfl, rfl, rfl⟩

/-- non-vacuity: flagged matrices are reachable -/
example : ∃ m, Mat4.Reach False False m ∧ m.isTrs ∧ m.isIdentity := ⟨_, .setIdentity, rfl, rfl⟩
example : ∃ m, Mat3.Reach False 2 m ∧ m.isOrthonormal ∧ m.toM ≠ 1 := by
  refine ⟨_, Mat3.Reach.mul (Mat3.Reach.ofCols ⟨3/5, 4/5, 0⟩ ⟨-4/5, 3/5, 0⟩ ⟨0, 0, 1⟩)
      (Mat3.Reach.ofCols ⟨3/5, 4/5, 0⟩ ⟨-4/5, 3/5, 0⟩ ⟨0, 0, 1⟩), ?_, fun h => ?_⟩
  · norm_num [Mat3.mul, Mat3.ofCols, Mat3.optimize, Mat3.optimizeTol, Mat3.isIdentity,
      Mat3.isOrthonormal, Flags.and, Mat3.normalError, Mat3.orthogonalError, Mat3.identityError,
      Vec3.lengthSqr, Vec3.dot, MatTol.default]
  · have h00 := congrFun (congrFun h 0) 0
    norm_num [Mat3.toM, Mat3.mul, Mat3.ofCols, Mat3.optimize, Mat3.optimizeTol, Mat3.isIdentity,
      Flags.and, Mat3.normalError, Mat3.orthogonalError, Mat3.identityError,
      Vec3.lengthSqr, Vec3.dot, MatTol.default] at h00

end
end MathLib
