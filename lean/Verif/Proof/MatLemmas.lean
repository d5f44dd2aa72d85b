import Verif.Spec.MatSpec
import Verif.Proof.VecLemmas
import Mathlib.Tactic.LinearCombination

/-! # Entry lemmas for the matrix models -/

namespace MathLib
open scoped Matrix
variable {K : Type}

theorem Mat2.toM_ext {a b : Mat2 K} : a.toM = b.toM ↔ a.x = b.x ∧ a.y = b.y := by
  constructor
  · intro h
    have h00 := congrFun (congrFun h 0) 0
    have h01 := congrFun (congrFun h 0) 1
    have h10 := congrFun (congrFun h 1) 0
    have h11 := congrFun (congrFun h 1) 1
    simp [Mat2.toM] at h00 h01 h10 h11
    exact ⟨Vec2.ext h00 h10, Vec2.ext h01 h11⟩
  · rintro ⟨h1, h2⟩; simp [Mat2.toM, h1, h2]

theorem Mat3.toM_ext {a b : Mat3 K} : a.toM = b.toM ↔ a.x = b.x ∧ a.y = b.y ∧ a.z = b.z := by
  constructor
  · intro h
    have e : ∀ i j, a.toM i j = b.toM i j := fun i j => by rw [h]
    have h00 := e 0 0
    have h01 := e 0 1
    have h02 := e 0 2
    have h10 := e 1 0
    have h11 := e 1 1
    have h12 := e 1 2
    have h20 := e 2 0
    have h21 := e 2 1
    have h22 := e 2 2
    simp [Mat3.toM] at h00 h01 h02 h10 h11 h12 h20 h21 h22
    exact ⟨Vec3.ext h00 h10 h20, Vec3.ext h01 h11 h21, Vec3.ext h02 h12 h22⟩
  · rintro ⟨h1, h2, h3⟩; simp [Mat3.toM, h1, h2, h3]

theorem Mat4.toM_ext {a b : Mat4 K} :
    a.toM = b.toM ↔ a.x = b.x ∧ a.y = b.y ∧ a.z = b.z ∧ a.t = b.t := by
  constructor
  · intro h
    have e : ∀ i j, a.toM i j = b.toM i j := fun i j => by rw [h]
    have c0 : a.x = b.x := by
      have h0 := e 0 0; have h1 := e 1 0; have h2 := e 2 0; have h3 := e 3 0
      simp [Mat4.toM] at h0 h1 h2 h3; exact Vec4.ext h0 h1 h2 h3
    have c1 : a.y = b.y := by
      have h0 := e 0 1; have h1 := e 1 1; have h2 := e 2 1; have h3 := e 3 1
      simp [Mat4.toM] at h0 h1 h2 h3; exact Vec4.ext h0 h1 h2 h3
    have c2 : a.z = b.z := by
      have h0 := e 0 2; have h1 := e 1 2; have h2 := e 2 2; have h3 := e 3 2
      simp [Mat4.toM] at h0 h1 h2 h3; exact Vec4.ext h0 h1 h2 h3
    have c3 : a.t = b.t := by
      have h0 := e 0 3; have h1 := e 1 3; have h2 := e 2 3; have h3 := e 3 3
      simp [Mat4.toM] at h0 h1 h2 h3; exact Vec4.ext h0 h1 h2 h3
    exact ⟨c0, c1, c2, c3⟩
  · rintro ⟨h1, h2, h3, h4⟩; simp [Mat4.toM, h1, h2, h3, h4]

theorem Mat34.toM_ext [Zero K] [One K] {a b : Mat34 K} :
    a.toM = b.toM ↔ a.rs.toM = b.rs.toM ∧ a.t = b.t := by
  constructor
  · intro h
    have e : ∀ i j, a.toM i j = b.toM i j := fun i j => by rw [h]
    rw [Mat3.toM_ext]
    have c0 : a.rs.x = b.rs.x := by
      have h0 := e 0 0; have h1 := e 1 0; have h2 := e 2 0
      simp [Mat34.toM] at h0 h1 h2; exact Vec3.ext h0 h1 h2
    have c1 : a.rs.y = b.rs.y := by
      have h0 := e 0 1; have h1 := e 1 1; have h2 := e 2 1
      simp [Mat34.toM] at h0 h1 h2; exact Vec3.ext h0 h1 h2
    have c2 : a.rs.z = b.rs.z := by
      have h0 := e 0 2; have h1 := e 1 2; have h2 := e 2 2
      simp [Mat34.toM] at h0 h1 h2; exact Vec3.ext h0 h1 h2
    have c3 : a.t = b.t := by
      have h0 := e 0 3; have h1 := e 1 3; have h2 := e 2 3
      simp [Mat34.toM] at h0 h1 h2; exact Vec3.ext h0 h1 h2
    exact ⟨⟨c0, c1, c2⟩, c3⟩
  · rintro ⟨h1, h2⟩
    rw [Mat3.toM_ext] at h1
    obtain ⟨h1, h3, h4⟩ := h1
    simp [Mat34.toM, h1, h2, h3, h4]

section
variable [CommRing K]

/-- the plain product of the entries, ignoring the identity shortcuts -/
theorem Mat2.raw_mul (a b : Mat2 K) (f : Flags) :
    (Mat2.mk ⟨a.x.x * b.x.x + a.y.x * b.x.y, a.x.y * b.x.x + a.y.y * b.x.y⟩
     ⟨a.x.x * b.y.x + a.y.x * b.y.y, a.x.y * b.y.x + a.y.y * b.y.y⟩ f).toM = a.toM * b.toM := by
  ext i j; fin_cases i <;> fin_cases j <;> simp [Mat2.toM, Matrix.mul_apply, Fin.sum_univ_succ]

theorem Mat2.toM_mul (a b : Mat2 K) (ha : a.isIdentity → a.toM = 1)
    (hb : b.isIdentity → b.toM = 1) : (a.mul b).toM = a.toM * b.toM := by
  unfold Mat2.mul
  split_ifs with h1 h2
  · rw [ha h1, one_mul]
  · rw [hb h2, mul_one]
  · exact raw_mul a b _

theorem Mat3.toM_mul (a b : Mat3 K) (ha : a.isIdentity → a.toM = 1)
    (hb : b.isIdentity → b.toM = 1) : (a.mul b).toM = a.toM * b.toM := by
  unfold Mat3.mul
  split_ifs with h1 h2
  · rw [ha h1, one_mul]
  · rw [hb h2, mul_one]
  · ext i j
    fin_cases i <;> fin_cases j <;> simp [Mat3.toM, Matrix.mul_apply, Fin.sum_univ_succ, add_assoc]

theorem Mat4.toM_mul (a b : Mat4 K) (ha : a.isIdentity → a.toM = 1)
    (hb : b.isIdentity → b.toM = 1) : (a.mul b).toM = a.toM * b.toM := by
  unfold Mat4.mul
  split_ifs with h1 h2
  · rw [ha h1, one_mul]
  · rw [hb h2, mul_one]
  · ext i j
    fin_cases i <;> fin_cases j <;> simp [Mat4.toM, Matrix.mul_apply, Fin.sum_univ_succ, add_assoc]

theorem Mat2.toM_mulVec (a : Mat2 K) (v : Vec2 K) : (a.mulVec v).toFn = a.toM *ᵥ v.toFn := by
  ext i; fin_cases i <;>
    simp [Mat2.toM, Mat2.mulVec, Vec2.toFn, Matrix.mulVec, dotProduct, Fin.sum_univ_succ, mul_comm]

theorem Mat3.toM_mulVec (a : Mat3 K) (v : Vec3 K) : (a.mulVec v).toFn = a.toM *ᵥ v.toFn := by
  ext i; fin_cases i <;>
    simp [Mat3.toM, Mat3.mulVec, Vec3.toFn, Matrix.mulVec, dotProduct, Fin.sum_univ_succ, mul_comm,
      add_assoc]

theorem Mat34.toM_mulVec (a : Mat34 K) (v : Vec3 K) : (a.mulVec v).toH = a.toM *ᵥ v.toH := by
  ext i; fin_cases i <;>
    simp [Mat34.toM, Mat34.mulVec, Vec3.toH, Matrix.mulVec, dotProduct, Fin.sum_univ_succ, mul_comm,
      add_assoc]

theorem Mat4.toM_mulVec4 (a : Mat4 K) (v : Vec4 K) : (a.mulVec4 v).toFn = a.toM *ᵥ v.toFn := by
  ext i; fin_cases i <;>
    simp [Mat4.toM, Mat4.mulVec4, Vec4.toFn, Matrix.mulVec, dotProduct, Fin.sum_univ_succ, mul_comm,
      add_assoc]

theorem Vec3.add_toFn (u v : Vec3 K) : (u + v).toFn = u.toFn + v.toFn := by
  ext i; fin_cases i <;> simp [Vec3.toFn]

omit [CommRing K] in
theorem Vec3.toFn_inj {u v : Vec3 K} : u.toFn = v.toFn ↔ u = v := by
  refine ⟨fun h => Vec3.ext (congrFun h 0) (congrFun h 1) (congrFun h 2), fun h => by rw [h]⟩
omit [CommRing K] in
theorem Vec2.toFn_inj {u v : Vec2 K} : u.toFn = v.toFn ↔ u = v := by
  refine ⟨fun h => Vec2.ext (congrFun h 0) (congrFun h 1), fun h => by rw [h]⟩
omit [CommRing K] in
theorem Vec4.toFn_inj {u v : Vec4 K} : u.toFn = v.toFn ↔ u = v := by
  refine ⟨fun h => Vec4.ext (congrFun h 0) (congrFun h 1) (congrFun h 2) (congrFun h 3),
    fun h => by rw [h]⟩
theorem Vec3.toH_inj {u v : Vec3 K} : u.toH = v.toH ↔ u = v := by
  refine ⟨fun h => Vec3.ext (congrFun h 0) (congrFun h 1) (congrFun h 2), fun h => by rw [h]⟩

/-- homogeneous product of two affine matrices given blockwise -/
theorem Mat34.block_mul (A B C : Mat3 K) (s t u : Vec3 K) (hC : C.toM = A.toM * B.toM)
    (hu : u = s + A.mulVec t) :
    (Mat34.mk C u).toM = (Mat34.mk A s).toM * (Mat34.mk B t).toM := by
  have e : ∀ i j, C.toM i j = (A.toM * B.toM) i j := fun i j => by rw [hC]
  have h00 := e 0 0
  have h01 := e 0 1
  have h02 := e 0 2
  have h10 := e 1 0
  have h11 := e 1 1
  have h12 := e 1 2
  have h20 := e 2 0
  have h21 := e 2 1
  have h22 := e 2 2
  simp only [Mat3.toM, Matrix.mul_apply, Fin.sum_univ_succ] at h00 h01 h02 h10 h11 h12 h20 h21 h22
  simp at h00 h01 h02 h10 h11 h12 h20 h21 h22
  subst hu
  ext i j
  fin_cases i <;> fin_cases j <;>
    simp [Mat34.toM, Mat3.mulVec, Matrix.mul_apply, Fin.sum_univ_succ, *] <;> ring

theorem Mat34.toM_mul (a b : Mat34 K) (ha : a.rs.isIdentity → a.rs.toM = 1)
    (hb : b.rs.isIdentity → b.rs.toM = 1) : (a.mul b).toM = a.toM * b.toM :=
  Mat34.block_mul a.rs b.rs _ a.t b.t _ (Mat3.toM_mul a.rs b.rs ha hb) rfl

theorem Mat2.exact_mul (a b : Mat2 K) (ha : a.isIdentity → a.toM = 1)
    (hb : b.isIdentity → b.toM = 1) : (a.mul b).isIdentity → (a.mul b).toM = 1 := by
  unfold Mat2.mul
  split_ifs with h1 h2
  · exact hb
  · exact ha
  · intro h; simp_all [Mat2.isIdentity, Flags.and]

theorem Mat3.exact_mul (a b : Mat3 K) (ha : a.isIdentity → a.toM = 1)
    (hb : b.isIdentity → b.toM = 1) : (a.mul b).isIdentity → (a.mul b).toM = 1 := by
  unfold Mat3.mul
  split_ifs with h1 h2
  · exact hb
  · exact ha
  · intro h; simp_all [Mat3.isIdentity, Flags.and]

theorem Mat4.exact_mul (a b : Mat4 K) (ha : a.isIdentity → a.toM = 1)
    (hb : b.isIdentity → b.toM = 1) : (a.mul b).isIdentity → (a.mul b).toM = 1 := by
  unfold Mat4.mul
  split_ifs with h1 h2
  · exact hb
  · exact ha
  · intro h; simp_all [Mat4.isIdentity, Flags.and]

end
end MathLib
