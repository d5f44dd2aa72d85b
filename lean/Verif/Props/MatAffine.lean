import Verif.Props.MatDet

/-! # Property C46: translation and scaling -/

namespace MathLib
open scoped Matrix

section
variable {K : Type} [Field K] [LinearOrder K]

/-- translation and scaling matrices -/
def Tm (d : Vec3 K) : Matrix (Fin 4) (Fin 4) K :=
  !![1, 0, 0, d.x; 0, 1, 0, d.y; 0, 0, 1, d.z; 0, 0, 0, 1]
def Sm (c : Vec3 K) : Matrix (Fin 4) (Fin 4) K :=
  !![c.x, 0, 0, 0; 0, c.y, 0, 0; 0, 0, c.z, 0; 0, 0, 0, 1]

theorem C46_mat34 (m : Mat34 K) (d c : Vec3 K) :
    (m.translate d).toM = Tm d * m.toM ∧ (m.translatePre d).toM = m.toM * Tm d ∧
    (m.scalePre c).toM = m.toM * Sm c := by
  refine ⟨?_, ?_, ?_⟩ <;> ext i j <;> fin_cases i <;> fin_cases j <;>
    simp [Mat34.translate, Mat34.translatePre, Mat34.scalePre, Tm, Sm, Mat34.toM,
      Matrix.mul_apply, Fin.sum_univ_succ, Vec3.addAssign, Mat3.mulVec, Mat3.scale,
      Vec3.mulAssign, Mat3.optimize, Mat3.optimizeTol] <;> ring

theorem C46_mat4 (m : Mat4 K) (d c : Vec3 K)
    (hm : m.x.w = 0 ∧ m.y.w = 0 ∧ m.z.w = 0 ∧ m.t.w = 1) :
    (m.translate d).toM = Tm d * m.toM ∧ (m.translatePre d).toM = m.toM * Tm d ∧
    (m.scalePre c).toM = m.toM * Sm c ∧
    (m.translated d).toM = Tm d * m.toM ∧ (m.translatedPre d).toM = m.toM * Tm d ∧
    (m.scaledPre c).toM = m.toM * Sm c := by
  obtain ⟨h1, h2, h3, h4⟩ := hm
  have e1 : (m.translate d).toM = (m.translated d).toM := by
    unfold Mat4.translate Mat4.translated
    split_ifs <;> rw [Mat4.toM_ext] <;>
      simp [Mat4.ofCols, Mat4.optimize, Mat4.optimizeTol, Vec4.addVec3, Vec4.ofVec3,
        Vec4.ext_iff]
  have e2 : (m.translatePre d).toM = (m.translatedPre d).toM := by
    unfold Mat4.translatePre Mat4.translatedPre
    dsimp only
    split_ifs <;> rw [Mat4.toM_ext] <;>
      simp [Mat4.ofCols, Mat4.optimize, Mat4.optimizeTol, Vec4.addVec3, Vec4.ofVec3,
        Vec4.ext_iff]
  have e3 : (m.scalePre c).toM = (m.scaledPre c).toM := by
    unfold Mat4.scalePre Mat4.scaledPre
    dsimp only
    split_ifs <;> rw [Mat4.toM_ext] <;>
      simp [Mat4.ofCols, Mat4.optimize, Mat4.optimizeTol, Vec4.mulAssign, Vec4.ext_iff]
  have f1 : (m.translated d).toM = Tm d * m.toM := by
    ext i j; fin_cases i <;> fin_cases j <;>
      simp [Mat4.translated, Mat4.ofCols, Mat4.optimize, Mat4.optimizeTol, Tm, Mat4.toM,
        Matrix.mul_apply, Fin.sum_univ_succ, Vec4.ofVec3, h1, h2, h3, h4]
  have f2 : (m.translatedPre d).toM = m.toM * Tm d := by
    ext i j; fin_cases i <;> fin_cases j <;>
      simp [Mat4.translatedPre, Mat4.ofCols, Mat4.optimize, Mat4.optimizeTol, Tm, Mat4.toM,
        Matrix.mul_apply, Fin.sum_univ_succ, Vec4.ofVec3, h1, h2, h3, h4,
        Mat4.transformVector3] <;> ring
  have f3 : (m.scaledPre c).toM = m.toM * Sm c := by
    ext i j; fin_cases i <;> fin_cases j <;>
      simp [Mat4.scaledPre, Mat4.ofCols, Mat4.optimize, Mat4.optimizeTol, Sm, Mat4.toM,
        Matrix.mul_apply, Fin.sum_univ_succ]
  exact ⟨e1.trans f1, e2.trans f2, e3.trans f3, f1, f2, f3⟩

example : ∃ m : Mat4 ℚ, (m.x.w = 0 ∧ m.y.w = 0 ∧ m.z.w = 0 ∧ m.t.w = 1) ∧ m.t.x ≠ 0 :=
  ⟨Mat4.ofCols3 ⟨1, 2, 0⟩ ⟨0, 1, 0⟩ ⟨0, 0, 1⟩ ⟨1, 2, 3⟩, by decide +kernel⟩

/-- `scale` is not `S * M`: it scales the columns of the linear part (as `M * S` does) and the
coordinates of the translation (as `S * M` does), so that it is neither. -/
theorem C46_scale_refuted :
    (∃ (m : Mat34 ℚ) (c : Vec3 ℚ), (m.scale c).toM ≠ Sm c * m.toM ∧ (m.scale c).toM ≠ m.toM * Sm c) ∧
    (∃ (m : Mat4 ℚ) (c : Vec3 ℚ), m.isTrs ∧ (m.scale c).toM ≠ Sm c * m.toM ∧
      (m.scale c).toM ≠ m.toM * Sm c ∧ (m.scaled c).toM = (m.scale c).toM) := by
  refine ⟨⟨Mat34.ofCols ⟨0, 1, 0⟩ ⟨-1, 0, 0⟩ ⟨0, 0, 1⟩ ⟨1, 1, 1⟩, ⟨2, 3, 1⟩, ?_⟩,
    ⟨Mat4.ofCols3 ⟨0, 1, 0⟩ ⟨-1, 0, 0⟩ ⟨0, 0, 1⟩ ⟨1, 1, 1⟩, ⟨2, 3, 1⟩, ?_⟩⟩ <;>
  · unfold Sm; decide +kernel

/-- What remains true of `scale`: it is `S * M` exactly when every off-diagonal entry of the linear
part that is not zero sits between equal coefficients; in particular for uniform scaling and for
diagonal linear parts.  Missing: all other matrices, for which it is false. -/
theorem C46_scale_partial (m : Mat34 K) (c : Vec3 K) :
    ((m.scale c).toM = Sm c * m.toM ↔
      m.rs.x.y * (c.x - c.y) = 0 ∧ m.rs.x.z * (c.x - c.z) = 0 ∧ m.rs.y.x * (c.y - c.x) = 0 ∧
      m.rs.y.z * (c.y - c.z) = 0 ∧ m.rs.z.x * (c.z - c.x) = 0 ∧ m.rs.z.y * (c.z - c.y) = 0) ∧
    (∀ n : Mat4 K, n.x.w = 0 ∧ n.y.w = 0 ∧ n.z.w = 0 ∧ n.t.w = 1 →
      (n.scaled c).toM = (n.scale c).toM ∧
      (n.scale c).toM = (Mat34.scale ⟨⟨n.x.toVec3, n.y.toVec3, n.z.toVec3, Flags.start⟩,
        n.t.toVec3⟩ c).toM) := by
  refine ⟨?_, ?_⟩
  · have e1 : (m.scale c).toM =
        !![m.rs.x.x * c.x, m.rs.y.x * c.y, m.rs.z.x * c.z, m.t.x * c.x;
           m.rs.x.y * c.x, m.rs.y.y * c.y, m.rs.z.y * c.z, m.t.y * c.y;
           m.rs.x.z * c.x, m.rs.y.z * c.y, m.rs.z.z * c.z, m.t.z * c.z;
           0, 0, 0, 1] := by
      simp [Mat34.scale, Mat34.toM, Mat3.scale, Vec3.mulAssign, Mat3.optimize, Mat3.optimizeTol]
    have e2 : Sm c * m.toM =
        !![m.rs.x.x * c.x, m.rs.y.x * c.x, m.rs.z.x * c.x, m.t.x * c.x;
           m.rs.x.y * c.y, m.rs.y.y * c.y, m.rs.z.y * c.y, m.t.y * c.y;
           m.rs.x.z * c.z, m.rs.y.z * c.z, m.rs.z.z * c.z, m.t.z * c.z;
           0, 0, 0, 1] := by
      ext i j; fin_cases i <;> fin_cases j <;>
        simp [Sm, Mat34.toM, Matrix.mul_apply, Fin.sum_univ_succ, mul_comm]
    rw [e1, e2]
    constructor
    · intro h
      have e : ∀ i j, _ = _ := fun i j => congrFun (congrFun h i) j
      have h1 := e 1 0
      have h2 := e 2 0
      have h3 := e 0 1
      have h4 := e 2 1
      have h5 := e 0 2
      have h6 := e 1 2
      simp only [Matrix.of_apply, Matrix.cons_val] at h1 h2 h3 h4 h5 h6
      refine ⟨?_, ?_, ?_, ?_, ?_, ?_⟩ <;> rw [mul_sub, sub_eq_zero] <;> assumption
    · rintro ⟨h1, h2, h3, h4, h5, h6⟩
      rw [mul_sub, sub_eq_zero] at h1 h2 h3 h4 h5 h6
      rw [h1, h2, h3, h4, h5, h6]
  · rintro n ⟨h1, h2, h3, h4⟩
    have e : (n.scaled c).toM = (n.scale c).toM := by
      unfold Mat4.scale Mat4.scaled
      dsimp only
      split_ifs <;> rw [Mat4.toM_ext] <;>
        simp [Mat4.ofCols, Mat4.optimize, Mat4.optimizeTol, Vec4.mulAssign, Vec4.ext_iff]
    refine ⟨e, ?_⟩
    rw [← e]
    ext i j; fin_cases i <;> fin_cases j <;>
      simp [Mat4.scaled, Mat4.ofCols, Mat4.optimize, Mat4.optimizeTol, Mat4.toM, Mat34.toM,
        Mat34.scale, Mat3.scale, Vec3.mulAssign, Mat3.optimize, Mat3.optimizeTol, Vec4.toVec3,
        h1, h2, h3, h4]

example : ∃ (m : Mat34 ℚ) (c : Vec3 ℚ), (m.scale c).toM = Sm c * m.toM ∧ c.x ≠ 1 ∧ m.rs.x.y ≠ 0 :=
  ⟨Mat34.ofCols ⟨0, 1, 0⟩ ⟨-1, 0, 0⟩ ⟨0, 0, 1⟩ ⟨1, 1, 1⟩, ⟨2, 2, 3⟩, by unfold Sm; decide +kernel⟩

end
end MathLib
