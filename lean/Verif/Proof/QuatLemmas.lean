import Verif.Spec.Rotation
import Verif.Proof.MatLemmas
import Verif.Props.Vectors

/-! # Lemmas on quaternions and rotation matrices -/

namespace MathLib
open scoped Matrix Quaternion

section
variable {K : Type} [CommRing K]

theorem Quat.toQ_inj {p q : Quat K} : p.toQ = q.toQ ↔ p = q := by
  constructor
  · intro h
    have h1 := congrArg QuaternionAlgebra.re h
    have h2 := congrArg QuaternionAlgebra.imI h
    have h3 := congrArg QuaternionAlgebra.imJ h
    have h4 := congrArg QuaternionAlgebra.imK h
    exact Quat.ext h2 h3 h4 h1
  · rintro rfl; rfl

@[simp] theorem Quat.toQ_re (q : Quat K) : q.toQ.re = q.w := rfl
@[simp] theorem Quat.toQ_imI (q : Quat K) : q.toQ.imI = q.x := rfl
@[simp] theorem Quat.toQ_imJ (q : Quat K) : q.toQ.imJ = q.y := rfl
@[simp] theorem Quat.toQ_imK (q : Quat K) : q.toQ.imK = q.z := rfl
@[simp] theorem Vec3.toQ_re (q : Vec3 K) : q.toQ.re = 0 := rfl
@[simp] theorem Vec3.toQ_imI (q : Vec3 K) : q.toQ.imI = q.x := rfl
@[simp] theorem Vec3.toQ_imJ (q : Vec3 K) : q.toQ.imJ = q.y := rfl
@[simp] theorem Vec3.toQ_imK (q : Vec3 K) : q.toQ.imK = q.z := rfl

/-- the rotation matrix with every entry homogeneous of degree two -/
def Quat.rot (q : Quat K) : Matrix (Fin 3) (Fin 3) K :=
  !![q.w * q.w + q.x * q.x - q.y * q.y - q.z * q.z, 2 * (q.x * q.y - q.w * q.z), 2 * (q.z * q.x + q.w * q.y);
     2 * (q.x * q.y + q.w * q.z), q.w * q.w - q.x * q.x + q.y * q.y - q.z * q.z, 2 * (q.y * q.z - q.w * q.x);
     2 * (q.z * q.x - q.w * q.y), 2 * (q.y * q.z + q.w * q.x), q.w * q.w - q.x * q.x - q.y * q.y + q.z * q.z]

theorem Quat.rot_mul (p q : Quat K) : (p.mul q).rot = p.rot * q.rot := by
  ext i j; fin_cases i <;> fin_cases j <;>
    simp [Quat.rot, Quat.mul, Matrix.mul_apply, Fin.sum_univ_succ] <;> ring

theorem Quat.rot_gram (q : Quat K) :
    q.rotᵀ * q.rot = (q.x ^ 2 + q.y ^ 2 + q.z ^ 2 + q.w ^ 2) ^ 2 • (1 : Matrix (Fin 3) (Fin 3) K) := by
  ext i j; fin_cases i <;> fin_cases j <;>
    simp [Quat.rot, Matrix.mul_apply, Fin.sum_univ_succ] <;> ring

theorem Quat.rot_det (q : Quat K) :
    q.rot.det = (q.x ^ 2 + q.y ^ 2 + q.z ^ 2 + q.w ^ 2) ^ 3 := by
  rw [Matrix.det_fin_three]; simp [Quat.rot]; ring

theorem Quat.IsUnit.rotation {q : Quat K} (h : q.IsUnit) : IsRotation q.rot := by
  unfold Quat.IsUnit at h
  constructor
  · rw [Quat.rot_gram, h]; simp
  · rw [Quat.rot_det, h]; simp

theorem Quat.IsUnit.mul {p q : Quat K} (hp : p.IsUnit) (hq : q.IsUnit) : (p.mul q).IsUnit := by
  unfold Quat.IsUnit at *
  have : (p.mul q).x ^ 2 + (p.mul q).y ^ 2 + (p.mul q).z ^ 2 + (p.mul q).w ^ 2 =
      (p.x ^ 2 + p.y ^ 2 + p.z ^ 2 + p.w ^ 2) * (q.x ^ 2 + q.y ^ 2 + q.z ^ 2 + q.w ^ 2) := by
    simp only [Quat.mul]; ring
  rw [this, hp, hq, one_mul]

end

theorem Quat.ofQuat_toM {K : Type} [Field K] [LinearOrder K] (q : Quat K) (h : q.IsUnit) :
    (Mat3.ofQuat q).toM = q.rot := by
  unfold Quat.IsUnit at h
  ext i j; fin_cases i <;> fin_cases j <;>
    simp [Quat.rot, Mat3.toM, Mat3.ofQuat, Mat3.optimize, Mat3.optimizeTol] <;>
    linear_combination (-1 : K) * h

/-- components of a normalised vector -/
theorem Vec3.normalized_unit {v : Vec3 ℝ} (h : v ≠ Vec3.zero) :
    (v.normalized 1).x ^ 2 + (v.normalized 1).y ^ 2 + (v.normalized 1).z ^ 2 = 1 ∧
    v = v.normalized 1 * v.length ∧ 0 < v.length := by
  obtain ⟨h1, h2, h3⟩ := (C22_normalize3 v 1).2.2.2 h
  refine ⟨?_, ?_, h1⟩
  · have := C22_length.2.1 (v.normalized 1)
    rw [h3, abs_one] at this
    have h4 := this.2
    rw [← this.1] at h4
    simp only [Vec3.lengthSqr] at h4
    linear_combination h4
  · rw [h2]; ext <;> simp <;> field_simp

theorem Quat.ofAxisAngle_eq {a : Vec3 ℝ} (h : a ≠ Vec3.zero) (θ : ℝ) :
    Quat.ofAxisAngle a θ = ⟨(a.normalized 1).x * Real.sin (θ / 2), (a.normalized 1).y * Real.sin (θ / 2),
      (a.normalized 1).z * Real.sin (θ / 2), Real.cos (θ / 2)⟩ := by
  obtain ⟨h1, h2, -⟩ := (C22_normalize3 a 1).2.2.2 h
  have e : θ * 2⁻¹ = θ / 2 := by ring
  rw [h2]
  ext <;> simp [Quat.ofAxisAngle, h1.ne', e] <;> ring

theorem Quat.ofAxisAngle_unit (a : Vec3 ℝ) (θ : ℝ) : (Quat.ofAxisAngle a θ).IsUnit := by
  by_cases h : a = Vec3.zero
  · have := (C22_length_norm.2.1 a).2 h
    simp [Quat.ofAxisAngle, this, Quat.identity, Quat.IsUnit]
  · rw [Quat.ofAxisAngle_eq h]
    have h1 := (Vec3.normalized_unit h).1
    have h2 := Real.sin_sq_add_cos_sq (θ / 2)
    simp only [Quat.IsUnit]
    linear_combination (Real.sin (θ / 2)) ^ 2 * h1 + h2

theorem Quat.ofAxisAngle_mul (a : Vec3 ℝ) (θ φ : ℝ) :
    (Quat.ofAxisAngle a θ).mul (Quat.ofAxisAngle a φ) = Quat.ofAxisAngle a (θ + φ) := by
  by_cases h : a = Vec3.zero
  · have := (C22_length_norm.2.1 a).2 h
    simp [Quat.ofAxisAngle, this, Quat.identity, Quat.mul]
  · rw [Quat.ofAxisAngle_eq h, Quat.ofAxisAngle_eq h, Quat.ofAxisAngle_eq h]
    have h1 := (Vec3.normalized_unit h).1
    have e : (θ + φ) / 2 = θ / 2 + φ / 2 := by ring
    rw [e, Real.sin_add, Real.cos_add]
    ext <;> simp only [Quat.mul]
    · ring
    · ring
    · ring
    · linear_combination (-(Real.sin (θ / 2)) * Real.sin (φ / 2)) * h1

/-- both axis/angle constructors describe the same rotation -/
theorem Quat.ofAxisAngle_rot {a : Vec3 ℝ} (h : a ≠ Vec3.zero) (θ : ℝ) :
    (Mat3.ofAxisAngle a θ).toM = (Quat.ofAxisAngle a θ).rot := by
  rw [Quat.ofAxisAngle_eq h]
  have h1 := (Vec3.normalized_unit h).1
  have h2 := Real.sin_sq_add_cos_sq (θ / 2)
  have hc : Real.cos θ = 1 - 2 * Real.sin (θ / 2) ^ 2 := by
    have := Real.cos_two_mul (θ / 2)
    rw [mul_div_cancel₀ θ two_ne_zero] at this
    rw [this]; linear_combination 2 * h2
  have hs : Real.sin θ = 2 * Real.sin (θ / 2) * Real.cos (θ / 2) := by
    have := Real.sin_two_mul (θ / 2)
    rwa [mul_div_cancel₀ θ two_ne_zero] at this
  ext i j; fin_cases i <;> fin_cases j <;>
    simp [Mat3.ofAxisAngle, Mat3.toM, Mat3.optimize, Mat3.optimizeTol, Quat.rot, hc, hs] <;>
    first
      | ring1
      | linear_combination (Real.sin (θ / 2)) ^ 2 * h1 - h2

/-- rotation by the homogeneous matrix is conjugation -/
theorem Quat.rot_conj {K : Type} [CommRing K] (q : Quat K) (v w : Vec3 K) (h : w.toFn = q.rot *ᵥ v.toFn) :
    w.toQ = q.toQ * v.toQ * star q.toQ := by
  have h0 := congrFun h 0
  have h1 := congrFun h 1
  have h2 := congrFun h 2
  simp [Quat.rot, Vec3.toFn, Matrix.mulVec, dotProduct, Fin.sum_univ_succ] at h0 h1 h2
  ext <;> simp [h0, h1, h2] <;> ring

/-- Rodrigues' formula for the matrix of `ofAxisAngle`. -/
theorem Mat3.ofAxisAngle_mulVec {a : Vec3 ℝ} (h : a ≠ Vec3.zero) (θ : ℝ) (v : Vec3 ℝ) :
    (Mat3.ofAxisAngle a θ).mulVec v = rodrigues (a.normalized 1) θ v := by
  have h1 := (Vec3.normalized_unit h).1
  ext <;>
    simp [Mat3.ofAxisAngle, Mat3.mulVec, Mat3.optimize, Mat3.optimizeTol, rodrigues, Vec3.cross,
      Vec3.dot] <;> ring

end MathLib
