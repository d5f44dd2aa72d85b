import Verif.Proof.VecLemmas
import Verif.Spec.VecSpec
import Verif.Spec.RealInst
import Verif.Spec.Float
import Mathlib.LinearAlgebra.Matrix.Determinant.Basic
import Mathlib.Tactic.LinearCombination
import Mathlib.Tactic.Positivity

/-! # Properties C21-C30, C33: vectors -/

namespace MathLib
open scoped Matrix

/-! ## C21 -/

/-- The operators are the standard ones of `K²`, `K³`, `K⁴`. -/
theorem C21_ops {K : Type} [CommRing K] (k : K) :
    (∀ u v : Vec2 K, (u + v).toFn = u.toFn + v.toFn ∧ (u - v).toFn = u.toFn - v.toFn ∧
      (-u).toFn = -u.toFn ∧ (u * k).toFn = k • u.toFn ∧ u.dot v = u.toFn ⬝ᵥ v.toFn) ∧
    (∀ u v : Vec3 K, (u + v).toFn = u.toFn + v.toFn ∧ (u - v).toFn = u.toFn - v.toFn ∧
      (-u).toFn = -u.toFn ∧ (u * k).toFn = k • u.toFn ∧ u.dot v = u.toFn ⬝ᵥ v.toFn) ∧
    (∀ u v : Vec4 K, (u + v).toFn = u.toFn + v.toFn ∧ (u - v).toFn = u.toFn - v.toFn ∧
      (-u).toFn = -u.toFn ∧ (u * k).toFn = k • u.toFn ∧ u.dot v = u.toFn ⬝ᵥ v.toFn) := by
  refine ⟨fun u v => ⟨?_, ?_, ?_, ?_, ?_⟩, fun u v => ⟨?_, ?_, ?_, ?_, ?_⟩,
    fun u v => ⟨?_, ?_, ?_, ?_, ?_⟩⟩
  all_goals simp only [Vec2.toFn, Vec3.toFn, Vec4.toFn, Vec2.dot, Vec3.dot, Vec4.dot]
  all_goals first
    | (ext i; fin_cases i <;> simp [mul_comm])
    | simp [dotProduct, Fin.sum_univ_succ, add_assoc]

/-- Cross products: the 2-D one is the determinant of the pair, the 3-D one Mathlib's. -/
theorem C21_cross {K : Type} [CommRing K] :
    (∀ u v : Vec2 K, u.cross v = Matrix.det !![u.x, u.y; v.x, v.y]) ∧
    (∀ a b c : Vec2 K, Vec2.crossProduct a b c = (b - a).cross (c - a)) ∧
    (∀ u v : Vec3 K, (u.cross v).toFn = u.toFn ⨯₃ v.toFn) := by
  refine ⟨fun u v => ?_, fun a b c => ?_, fun u v => ?_⟩
  · simp [Vec2.cross, Matrix.det_fin_two_of]
  · simp only [Vec2.crossProduct, Vec2.cross, Vec2.sub_x, Vec2.sub_y]; ring
  · ext i; fin_cases i <;> simp [Vec3.cross, Vec3.toFn, cross_apply]

/-- Orthogonality, anticommutativity, Lagrange, Jacobi, triple product and double cross product. -/
theorem C21_identities {K : Type} [CommRing K] (u v w : Vec3 K) :
    u.dot (u.cross v) = 0 ∧ v.dot (u.cross v) = 0 ∧ u.cross v = -(v.cross u) ∧
    (u.cross v).lengthSqr = u.lengthSqr * v.lengthSqr - u.dot v * u.dot v ∧
    u.cross (v.cross w) + v.cross (w.cross u) + w.cross (u.cross v) = Vec3.zero ∧
    u.dot (v.cross w) = Matrix.det !![u.x, u.y, u.z; v.x, v.y, v.z; w.x, w.y, w.z] ∧
    u.cross (v.cross w) = v * u.dot w - w * u.dot v := by
  refine ⟨?_, ?_, ?_, ?_, ?_, ?_, ?_⟩
  · simp only [Vec3.dot, Vec3.cross]; ring
  · simp only [Vec3.dot, Vec3.cross]; ring
  · ext <;> simp only [Vec3.cross, Vec3.neg_x, Vec3.neg_y, Vec3.neg_z] <;> ring
  · simp only [Vec3.dot, Vec3.cross, Vec3.lengthSqr]; ring
  · ext <;> simp only [Vec3.cross, Vec3.add_x, Vec3.add_y, Vec3.add_z, Vec3.zero] <;> ring
  · rw [Matrix.det_fin_three]
    simp [Vec3.dot, Vec3.cross]; ring
  · ext <;> simp only [Vec3.dot, Vec3.cross, Vec3.sub_x, Vec3.sub_y, Vec3.sub_z, Vec3.mul_x,
      Vec3.mul_y, Vec3.mul_z] <;> ring

/-- Compound assignments agree with the binary operators, whatever the scalar type (so also under
rounding), and also when the argument aliases the object. -/
theorem C21_compound {R : Type} [Zero R] [BEq R] [Add R] [Sub R] [Mul R] [Div R] (k : R) :
    (∀ u v : Vec2 R, u.addAssign v = u + v ∧ u.subAssign v = u - v ∧ u.mulAssign k = u * k ∧
      u.divAssign k = u.div k ∧ u.addAssignSelf = u + u ∧ u.subAssignSelf = u - u) ∧
    (∀ u v : Vec3 R, u.addAssign v = u + v ∧ u.subAssign v = u - v ∧ u.mulAssign k = u * k ∧
      u.divAssign k = u.div k ∧ u.addAssignSelf = u + u ∧ u.subAssignSelf = u - u ∧
      u.crossAssign v = u.cross v) ∧
    (∀ u v : Vec4 R, u.addAssign v = u + v ∧ u.subAssign v = u - v ∧ u.mulAssign k = u * k ∧
      u.divAssign k = u.div k ∧ u.addAssignSelf = u + u ∧ u.subAssignSelf = u - u) :=
  ⟨fun _ _ => ⟨rfl, rfl, rfl, rfl, rfl, rfl⟩, fun _ _ => ⟨rfl, rfl, rfl, rfl, rfl, rfl, rfl⟩,
    fun _ _ => ⟨rfl, rfl, rfl, rfl, rfl, rfl⟩⟩

/-- Division undoes multiplication; dividing by 0 trips the assertion. -/
theorem C21_div {K : Type} [Field K] [BEq K] [LawfulBEq K] (k : K) :
    (k ≠ 0 → (∀ u : Vec2 K, (u * k).div k = .ok u ∧ ∃ w, u.div k = .ok w ∧ w * k = u) ∧
      (∀ u : Vec3 K, (u * k).div k = .ok u ∧ ∃ w, u.div k = .ok w ∧ w * k = u) ∧
      (∀ u : Vec4 K, (u * k).div k = .ok u ∧ ∃ w, u.div k = .ok w ∧ w * k = u)) ∧
    (∀ u : Vec2 K, u.div 0 = .error .assertion) ∧ (∀ u : Vec3 K, u.div 0 = .error .assertion) ∧
    (∀ u : Vec4 K, u.div 0 = .error .assertion) := by
  refine ⟨fun hk => ⟨fun u => ?_, fun u => ?_, fun u => ?_⟩, fun u => by simp [Vec2.div],
    fun u => by simp [Vec3.div], fun u => by simp [Vec4.div]⟩
  · simp only [Vec2.div, beq_iff_eq, hk, if_false, Vec2.mul_x, Vec2.mul_y, mul_div_cancel_right₀,
      ne_eq, not_false_eq_true, true_and]
    exact ⟨_, rfl, by ext <;> simp [hk]⟩
  · simp only [Vec3.div, beq_iff_eq, hk, if_false, Vec3.mul_x, Vec3.mul_y, Vec3.mul_z,
      mul_div_cancel_right₀, ne_eq, not_false_eq_true, true_and]
    exact ⟨_, rfl, by ext <;> simp [hk]⟩
  · simp only [Vec4.div, beq_iff_eq, hk, if_false, Vec4.mul_x, Vec4.mul_y, Vec4.mul_z, Vec4.mul_w,
      mul_div_cancel_right₀, ne_eq, not_false_eq_true, true_and]
    exact ⟨_, rfl, by ext <;> simp [hk]⟩

example : (⟨2, 4, 6⟩ : Vec3 ℚ).div 2 = .ok ⟨1, 2, 3⟩ := by decide +kernel
example : (⟨2, 4⟩ : Vec2 ℚ).div 0 = .error .assertion := by decide +kernel

/-! ## C22 -/

/-- `length` is the Euclidean norm; hence it is 0 only for the null vector and obeys the triangle
inequality. -/
theorem C22_length :
    (∀ u : Vec2 ℝ, u.length = ‖u.toE‖ ∧ u.lengthSqr = ‖u.toE‖ ^ 2) ∧
    (∀ u : Vec3 ℝ, u.length = ‖u.toE‖ ∧ u.lengthSqr = ‖u.toE‖ ^ 2) ∧
    (∀ u : Vec4 ℝ, u.length = ‖u.toE‖ ∧ u.lengthSqr = ‖u.toE‖ ^ 2) := by
  refine ⟨fun u => ?_, fun u => ?_, fun u => ?_⟩
  · simp [Vec2.length, Vec2.lengthSqr, Vec2.toE, Vec2.toFn, EuclideanSpace.norm_eq,
      Fin.sum_univ_succ, ← sq]
    rw [Real.sq_sqrt (by positivity)]
  · simp [Vec3.length, Vec3.lengthSqr, Vec3.toE, Vec3.toFn, EuclideanSpace.norm_eq,
      Fin.sum_univ_succ, ← sq, add_assoc]
    rw [Real.sq_sqrt (by positivity)]
  · simp [Vec4.length, Vec4.lengthSqr, Vec4.toE, Vec4.toFn, EuclideanSpace.norm_eq,
      Fin.sum_univ_succ, ← sq, add_assoc]
    rw [Real.sq_sqrt (by positivity)]

/-- Consequences, stated on the API. -/
theorem C22_length_norm :
    (∀ u : Vec2 ℝ, u.length = 0 ↔ u = Vec2.zero) ∧ (∀ u : Vec3 ℝ, u.length = 0 ↔ u = Vec3.zero) ∧
    (∀ u : Vec4 ℝ, u.length = 0 ↔ u = Vec4.zero) ∧
    (∀ u v : Vec2 ℝ, (u + v).length ≤ u.length + v.length) ∧
    (∀ u v : Vec3 ℝ, (u + v).length ≤ u.length + v.length) ∧
    (∀ u v : Vec4 ℝ, (u + v).length ≤ u.length + v.length) := by
  obtain ⟨h2, h3, h4⟩ := C22_length
  refine ⟨fun u => ?_, fun u => ?_, fun u => ?_, fun u v => ?_, fun u v => ?_, fun u v => ?_⟩
  · rw [(h2 u).1, norm_eq_zero]
    constructor
    · intro h
      have := fun i => congrArg (fun w : EuclideanSpace ℝ (Fin 2) => w i) h
      have h0 := this 0; have h1 := this 1
      simp [Vec2.toE, Vec2.toFn] at h0 h1
      ext <;> simpa [Vec2.zero]
    · rintro rfl
      ext i; fin_cases i <;> simp [Vec2.toE, Vec2.toFn, Vec2.zero]
  · rw [(h3 u).1, norm_eq_zero]
    constructor
    · intro h
      have := fun i => congrArg (fun w : EuclideanSpace ℝ (Fin 3) => w i) h
      have h0 := this 0; have h1 := this 1; have h2 := this 2
      simp [Vec3.toE, Vec3.toFn] at h0 h1 h2
      ext <;> simpa [Vec3.zero]
    · rintro rfl
      ext i; fin_cases i <;> simp [Vec3.toE, Vec3.toFn, Vec3.zero]
  · rw [(h4 u).1, norm_eq_zero]
    constructor
    · intro h
      have := fun i => congrArg (fun w : EuclideanSpace ℝ (Fin 4) => w i) h
      have h0 := this 0; have h1 := this 1; have h2 := this 2; have h3 := this 3
      simp [Vec4.toE, Vec4.toFn] at h0 h1 h2 h3
      ext <;> simpa [Vec4.zero]
    · rintro rfl
      ext i; fin_cases i <;> simp [Vec4.toE, Vec4.toFn, Vec4.zero]
  · rw [(h2 _).1, (h2 _).1, (h2 _).1]
    have : (u + v).toE = u.toE + v.toE := by
      ext i; fin_cases i <;> simp [Vec2.toE, Vec2.toFn]
    rw [this]; exact norm_add_le _ _
  · rw [(h3 _).1, (h3 _).1, (h3 _).1]
    have : (u + v).toE = u.toE + v.toE := by
      ext i; fin_cases i <;> simp [Vec3.toE, Vec3.toFn]
    rw [this]; exact norm_add_le _ _
  · rw [(h4 _).1, (h4 _).1, (h4 _).1]
    have : (u + v).toE = u.toE + v.toE := by
      ext i; fin_cases i <;> simp [Vec4.toE, Vec4.toFn]
    rw [this]; exact norm_add_le _ _

/-- `normalize`/`normalized`: for a non-null vector the result is `v * (k/|v|)` and has length
`|k|` (so for `k > 0` it is a positive multiple of `v` of length `k`); for the null vector it is the
null vector; `normalize` returns the old length. -/
theorem C22_normalize2 (v : Vec2 ℝ) (k : ℝ) :
    (v.normalize k).1 = v.normalized k ∧ (v.normalize k).2 = v.length ∧
    (v = Vec2.zero → v.normalized k = Vec2.zero) ∧
    (v ≠ Vec2.zero → 0 < v.length ∧ v.normalized k = v * (k / v.length) ∧
      (v.normalized k).length = |k|) := by
  by_cases h : v.length = 0
  · have hv := (C22_length_norm.1 v).1 h
    simp [Vec2.normalize, Vec2.normalized, hv, Vec2.zero]
  · have hv : v ≠ Vec2.zero := fun e => h ((C22_length_norm.1 v).2 e)
    have hpos : 0 < v.length := lt_of_le_of_ne (Real.sqrt_nonneg _) (Ne.symm h)
    have e : v.normalized k = v * (k / v.length) := by
      ext <;> simp [Vec2.normalized, h] <;> ring
    refine ⟨?_, ?_, fun e => absurd e hv, fun _ => ⟨hpos, e, ?_⟩⟩
    · ext <;> simp [Vec2.normalize, Vec2.normalized, h] <;> ring
    · simp [Vec2.normalize, h]
    · rw [e]
      have hsq : v.length * v.length = v.x * v.x + v.y * v.y :=
        Real.mul_self_sqrt (add_nonneg (mul_self_nonneg _) (mul_self_nonneg _))
      simp only [Vec2.length, Vec2.mul_x, Vec2.mul_y, real_sqrt]
      rw [← Real.sqrt_sq_eq_abs]
      congr 1
      change v.x * (k / v.length) * (v.x * (k / v.length)) +
        v.y * (k / v.length) * (v.y * (k / v.length)) = k ^ 2
      field_simp
      linear_combination (-k ^ 2) * hsq

theorem C22_normalize3 (v : Vec3 ℝ) (k : ℝ) :
    (v.normalize k).1 = v.normalized k ∧ (v.normalize k).2 = v.length ∧
    (v = Vec3.zero → v.normalized k = Vec3.zero) ∧
    (v ≠ Vec3.zero → 0 < v.length ∧ v.normalized k = v * (k / v.length) ∧
      (v.normalized k).length = |k|) := by
  by_cases h : v.length = 0
  · have hv := (C22_length_norm.2.1 v).1 h
    simp [Vec3.normalize, Vec3.normalized, hv, Vec3.zero]
  · have hv : v ≠ Vec3.zero := fun e => h ((C22_length_norm.2.1 v).2 e)
    have hpos : 0 < v.length := lt_of_le_of_ne (Real.sqrt_nonneg _) (Ne.symm h)
    have e : v.normalized k = v * (k / v.length) := by
      ext <;> simp [Vec3.normalized, h]
    refine ⟨?_, ?_, fun e => absurd e hv, fun _ => ⟨hpos, e, ?_⟩⟩
    · ext <;> simp [Vec3.normalize, Vec3.normalized, h]
    · simp [Vec3.normalize, h]
    · rw [e]
      have hsq : v.length * v.length = v.x * v.x + v.y * v.y + v.z * v.z :=
        Real.mul_self_sqrt (add_nonneg (add_nonneg (mul_self_nonneg _) (mul_self_nonneg _))
          (mul_self_nonneg _))
      simp only [Vec3.length, Vec3.mul_x, Vec3.mul_y, Vec3.mul_z, real_sqrt]
      rw [← Real.sqrt_sq_eq_abs]
      congr 1
      change v.x * (k / v.length) * (v.x * (k / v.length)) +
        v.y * (k / v.length) * (v.y * (k / v.length)) +
        v.z * (k / v.length) * (v.z * (k / v.length)) = k ^ 2
      field_simp
      linear_combination (-k ^ 2) * hsq

example : (⟨3, 4⟩ : Vec2 ℝ) ≠ Vec2.zero := by simp [Vec2.zero]
example : (⟨3, 0, 4⟩ : Vec3 ℝ).length = 5 := by
  simp [Vec3.length]
  rw [show (3 * 3 + 4 * 4 : ℝ) = 5 ^ 2 by norm_num, Real.sqrt_sq (by norm_num)]

/-! ## C23 -/

/-- `Vec2::rotate`: linear isometry group, positively oriented. -/
theorem C23_rotate2 (u v : Vec2 ℝ) (a b : ℝ) :
    u.rotate a = u.rotated a ∧
    (u.rotate a).dot (v.rotate a) = u.dot v ∧ (u.rotate a).cross (v.rotate a) = u.cross v ∧
    (u.rotate a).length = u.length ∧
    (u.rotate a).rotate b = u.rotate (a + b) ∧ u.rotate 0 = u ∧ (u.rotate a).rotate (-a) = u ∧
    (Vec2.oneX : Vec2 ℝ).rotate a = ⟨Real.cos a, Real.sin a⟩ := by
  have hs := Real.sin_sq_add_cos_sq a
  refine ⟨rfl, ?_, ?_, ?_, ?_, ?_, ?_, ?_⟩
  · simp only [Vec2.dot, Vec2.rotate, real_sin, real_cos]
    linear_combination (u.x * v.x + u.y * v.y) * hs
  · simp only [Vec2.cross, Vec2.rotate, real_sin, real_cos]
    linear_combination (u.x * v.y - u.y * v.x) * hs
  · simp only [Vec2.length, Vec2.rotate, real_sin, real_cos, real_sqrt]
    congr 1
    linear_combination (u.x * u.x + u.y * u.y) * hs
  · ext <;> simp only [Vec2.rotate, real_sin, real_cos, Real.sin_add, Real.cos_add] <;> ring
  · ext <;> simp [Vec2.rotate]
  · ext <;> simp only [Vec2.rotate, real_sin, real_cos, Real.sin_neg, Real.cos_neg]
    · linear_combination u.x * hs
    · linear_combination u.y * hs
  · ext <;> simp [Vec2.rotate, Vec2.oneX]

/-- `Vec3::rotate` about a coordinate axis: isometry group fixing the axis, right-handed. -/
theorem C23_rotate3 (c : Coord) (hc : c = .X ∨ c = .Y ∨ c = .Z) (u v : Vec3 ℝ) (a b : ℝ) :
    u.rotate c a = u.rotated c a ∧
    (u.rotate c a).dot (v.rotate c a) = u.dot v ∧
    (u.rotate c a).cross (v.rotate c a) = (u.cross v).rotate c a ∧
    (u.rotate c a).length = u.length ∧
    (u.rotate c a).rotate c b = u.rotate c (a + b) ∧ u.rotate c 0 = u ∧
    (u.rotate c a).rotate c (-a) = u ∧ (u.rotate c a).get c = u.get c := by
  have hs := Real.sin_sq_add_cos_sq a
  rcases hc with rfl | rfl | rfl
  all_goals
    refine ⟨rfl, ?_, ?_, ?_, ?_, ?_, ?_, ?_⟩
    · simp only [Vec3.dot, Vec3.rotate, real_sin, real_cos]
      first
        | linear_combination (u.y * v.y + u.z * v.z) * hs
        | linear_combination (u.x * v.x + u.z * v.z) * hs
        | linear_combination (u.x * v.x + u.y * v.y) * hs
    · ext <;> simp only [Vec3.cross, Vec3.rotate, real_sin, real_cos] <;>
        first
          | ring1
          | linear_combination (u.y * v.z - u.z * v.y) * hs
          | linear_combination (u.z * v.x - u.x * v.z) * hs
          | linear_combination (u.x * v.y - u.y * v.x) * hs
    · simp only [Vec3.length, Vec3.rotate, real_sin, real_cos, real_sqrt]
      congr 1
      first
        | linear_combination (u.y * u.y + u.z * u.z) * hs
        | linear_combination (u.x * u.x + u.z * u.z) * hs
        | linear_combination (u.x * u.x + u.y * u.y) * hs
    · ext <;> simp only [Vec3.rotate, real_sin, real_cos, Real.sin_add, Real.cos_add] <;> ring
    · ext <;> simp [Vec3.rotate]
    · ext <;> simp only [Vec3.rotate, real_sin, real_cos, Real.sin_neg, Real.cos_neg] <;>
        first
          | rfl
          | linear_combination u.x * hs
          | linear_combination u.y * hs
          | linear_combination u.z * hs
    · rfl

/-- Orientation of the three axis rotations (right-hand rule). -/
theorem C23_orientation (a : ℝ) :
    (Vec3.oneY : Vec3 ℝ).rotate .X a = ⟨0, Real.cos a, Real.sin a⟩ ∧
    (Vec3.oneZ : Vec3 ℝ).rotate .Y a = ⟨Real.sin a, 0, Real.cos a⟩ ∧
    (Vec3.oneX : Vec3 ℝ).rotate .Z a = ⟨Real.cos a, Real.sin a, 0⟩ := by
  refine ⟨?_, ?_, ?_⟩ <;> ext <;> simp [Vec3.rotate, Vec3.oneX, Vec3.oneY, Vec3.oneZ]

/-! ## C24 -/

/-- Quarter turns are exact for every scalar type whose negation is an involution (floating point
included): four of them are the identity, two a negation, opposite ones cancel. -/
theorem C24_rotate90 {R : Type} [Neg R] (hneg : ∀ a : R, - -a = a) (v : Vec2 R) :
    v.rotate90.rotate90.rotate90.rotate90 = v ∧ v.rotate90.rotate90 = -v ∧
    v.rotate90.rotate270 = v ∧ v.rotate270.rotate90 = v ∧ v.rotate180 = -v ∧
    v.rotate180.rotate180 = v ∧ v.rotate90.rotate90.rotate90 = v.rotate270 ∧
    v.rotated90 = v.rotate90 ∧ v.rotated180 = v.rotate180 ∧ v.rotated270 = v.rotate270 := by
  refine ⟨?_, rfl, ?_, ?_, rfl, ?_, ?_, rfl, rfl, rfl⟩ <;>
    ext <;> simp [Vec2.rotate90, Vec2.rotate270, Vec2.rotate180, hneg]

/-- They are the rotations by a quarter, half and three quarters of a turn. -/
theorem C24_is_rotation (v : Vec2 ℝ) :
    v.rotate90 = v.rotate (Real.pi / 2) ∧ v.rotate180 = v.rotate Real.pi ∧
    v.rotate270 = v.rotate (3 * Real.pi / 2) ∧ v.rotate270 = v.rotate (-(Real.pi / 2)) := by
  have h1 : Real.cos (3 * Real.pi / 2) = 0 := by
    rw [show 3 * Real.pi / 2 = Real.pi / 2 + Real.pi by ring, Real.cos_add_pi]; simp
  have h2 : Real.sin (3 * Real.pi / 2) = -1 := by
    rw [show 3 * Real.pi / 2 = Real.pi / 2 + Real.pi by ring, Real.sin_add_pi]; simp
  refine ⟨?_, ?_, ?_, ?_⟩ <;> ext <;>
    simp [Vec2.rotate90, Vec2.rotate180, Vec2.rotate270, Vec2.rotate, h1, h2]

/-- The hypothesis on negation holds for floating point numbers. -/
example (x : F32) : - -x = x := by
  cases x <;> simp [Neg.neg]
  exact neg_neg (_ : ℚ)

/-! ## C25 -/

/-- `majorCoord`/`minorCoord` of a `Vec2`. -/
theorem C25_coord2 {K : Type} [Field K] [LinearOrder K] [IsStrictOrderedRing K] (v : Vec2 K) :
    v.majorCoord ≠ v.minorCoord ∧
    (∃ m, v.get v.majorCoord = .ok m ∧ |v.x| ≤ |m| ∧ |v.y| ≤ |m|) ∧
    (∃ m, v.get v.minorCoord = .ok m ∧ |m| ≤ |v.x| ∧ |m| ≤ |v.y|) := by
  have ha : ∀ t : K, (if t ≥ 0 then t else -t) = |t| := fun t => by
    split_ifs with h
    · exact (abs_of_nonneg h).symm
    · exact (abs_of_neg (lt_of_not_ge h)).symm
  simp only [Vec2.majorCoord, Vec2.minorCoord, ha]
  by_cases h : |v.x| ≥ |v.y|
  · simp [h, not_lt.2 h, Vec2.get]
  · have h' := lt_of_not_ge h
    simp [h', not_le.2 h', Vec2.get, h'.le]

/-- `majorCoord`/`minorCoord` of a `Vec3`. -/
theorem C25_coord3 {K : Type} [Field K] [LinearOrder K] [IsStrictOrderedRing K] (v : Vec3 K) :
    v.majorCoord ≠ v.minorCoord ∧
    (∃ m, v.get v.majorCoord = .ok m ∧ |v.x| ≤ |m| ∧ |v.y| ≤ |m| ∧ |v.z| ≤ |m|) ∧
    (∃ m, v.get v.minorCoord = .ok m ∧ |m| ≤ |v.x| ∧ |m| ≤ |v.y| ∧ |m| ≤ |v.z|) := by
  have ha : ∀ t : K, (if t ≥ 0 then t else -t) = |t| := fun t => by
    split_ifs with h
    · exact (abs_of_nonneg h).symm
    · exact (abs_of_neg (lt_of_not_ge h)).symm
  simp only [Vec3.majorCoord, Vec3.minorCoord, ha]
  refine ⟨?_, ?_, ?_⟩
  · split_ifs <;> first | decide | (exfalso; order)
  · split_ifs <;> simp only [Vec3.get] <;> refine ⟨_, rfl, ?_⟩ <;> refine ⟨?_, ?_, ?_⟩ <;> order
  · split_ifs <;> simp only [Vec3.get] <;> refine ⟨_, rfl, ?_⟩ <;> refine ⟨?_, ?_, ?_⟩ <;> order

/-! ## C26 -/

/-- `mirror` on the coordinates of the vector: negates exactly that component, is an involution and
agrees with `mirrored`.  Missing: the remaining coordinate arguments, see `C26_refuted`. -/
theorem C26_mirror_partial {K : Type} [AddGroup K] :
    (∀ (v : Vec2 K) (c : Coord), (c = .X ∨ c = .Y) → v.mirror c = v.mirrored c ∧
      (v.mirror c).mirror c = v ∧
      (v.mirror c).x = (if c = .X then -v.x else v.x) ∧
      (v.mirror c).y = (if c = .Y then -v.y else v.y)) ∧
    (∀ (v : Vec3 K) (c : Coord), (c = .X ∨ c = .Y ∨ c = .Z) → v.mirror c = v.mirrored c ∧
      (v.mirror c).mirror c = v ∧
      (v.mirror c).x = (if c = .X then -v.x else v.x) ∧
      (v.mirror c).y = (if c = .Y then -v.y else v.y) ∧
      (v.mirror c).z = (if c = .Z then -v.z else v.z)) := by
  constructor
  · rintro v c (rfl | rfl) <;> simp [Vec2.mirror, Vec2.mirrored]
  · rintro v c (rfl | rfl | rfl) <;> simp [Vec3.mirror, Vec3.mirrored]

/-- For any other coordinate argument `mirror` keeps the vector but `mirrored` returns the null
vector: they disagree on every non-null vector. -/
theorem C26_refuted {K : Type} [AddGroup K] :
    (∀ (v : Vec2 K) (c : Coord), c ≠ .X → c ≠ .Y →
      v.mirror c = v ∧ v.mirrored c = Vec2.zero) ∧
    (∀ (v : Vec3 K) (c : Coord), c ≠ .X → c ≠ .Y → c ≠ .Z →
      v.mirror c = v ∧ v.mirrored c = Vec3.zero) ∧
    ((⟨1, 2⟩ : Vec2 ℚ).mirror .Z ≠ (⟨1, 2⟩ : Vec2 ℚ).mirrored .Z) := by
  refine ⟨?_, ?_, by decide +kernel⟩
  · rintro v (_ | _ | _ | _ | _) h1 h2 <;>
      simp_all [Vec2.mirror, Vec2.mirrored, Vec2.zero]
  · rintro v (_ | _ | _ | _ | _) h1 h2 h3 <;>
      simp_all [Vec3.mirror, Vec3.mirrored, Vec3.zero]

/-! ## C27 -/

/-- Embedding then dropping: `toVec2` gives the vector back for every coordinate, the constructor
`Vec2(Vec3, Coord)` only for X and Z.  Missing: the constructor with Y (`C27_refuted`). -/
theorem C27_roundtrip_partial {R : Type} [Zero R] (u : Vec2 R) :
    (∀ c, (Vec3.ofVec2 u c).toVec2 c = u) ∧
    (∀ c, c = .X ∨ c = .Z → Vec2.ofVec3 (Vec3.ofVec2 u c) c = .ok u) ∧
    (∀ c, c = .X ∨ c = .Y ∨ c = .Z → (Vec3.ofVec2 u c).get c = .ok 0) := by
  refine ⟨?_, ?_, ?_⟩
  · rintro (_ | _ | _ | _ | _) <;> rfl
  · rintro c (rfl | rfl) <;> rfl
  · rintro c (rfl | rfl | rfl) <;> rfl

/-- With Y the constructor swaps the two components. -/
theorem C27_refuted {R : Type} [Zero R] (u : Vec2 R) :
    Vec2.ofVec3 (Vec3.ofVec2 u .Y) .Y = .ok ⟨u.y, u.x⟩ ∧
    Vec2.ofVec3 (Vec3.ofVec2 (⟨1, 2⟩ : Vec2 ℚ) .Y) .Y ≠ .ok ⟨1, 2⟩ :=
  ⟨rfl, by decide +kernel⟩

/-! ## C28 -/

/-- unit vector of a coordinate -/
def coordVec {K : Type} [Zero K] [One K] : Coord → Option (Vec3 K)
  | .X => some ⟨1, 0, 0⟩
  | .Y => some ⟨0, 1, 0⟩
  | .Z => some ⟨0, 0, 1⟩
  | _ => none

/-- unit vector of a signed axis -/
def axisVec {K : Type} [Zero K] [One K] [Neg K] : Axis → Option (Vec3 K)
  | .X => some ⟨1, 0, 0⟩
  | .Y => some ⟨0, 1, 0⟩
  | .Z => some ⟨0, 0, 1⟩
  | .NX => some ⟨-1, 0, 0⟩
  | .NY => some ⟨0, -1, 0⟩
  | .NZ => some ⟨0, 0, -1⟩
  | .Undefined => none

/-- `v % Coord`, `v % Axis` and their compound forms are the cross product with the unit vector, and
assert on every other argument. -/
theorem C28_cross_axis {K : Type} [CommRing K] (v : Vec3 K) :
    (∀ c, v.crossCoord c = (match coordVec c with
      | some e => .ok (v.cross e) | none => .error .assertion)) ∧
    (∀ a, v.crossAxis a = (match axisVec a with
      | some e => .ok (v.cross e) | none => .error .assertion)) ∧
    (∀ c, v.crossAssignCoord c = v.crossCoord c) ∧ (∀ a, v.crossAssignAxis a = v.crossAxis a) := by
  refine ⟨?_, ?_, ?_, ?_⟩
  · rintro (_ | _ | _ | _ | _) <;> simp [Vec3.crossCoord, coordVec, Vec3.cross]
  · rintro (_ | _ | _ | _ | _ | _ | _) <;> simp [Vec3.crossAxis, axisVec, Vec3.cross]
  · rintro (_ | _ | _ | _ | _) <;> rfl
  · rintro (_ | _ | _ | _ | _ | _ | _) <;> rfl

/-! ## C29 -/

/-- `intersection`: 0 exactly when the directions are parallel (then both parameters are 0);
otherwise 1 and the parameters are the unique solution. -/
theorem C29_intersection {K : Type} [Field K] [BEq K] [LawfulBEq K] (p q a b : Vec2 K) :
    ∃ ret s t, Vec2.intersection p q a b = (ret, s, t) ∧
    (ret = 0 ∨ ret = 1) ∧ (ret = 0 ↔ (q - p).cross (b - a) = 0) ∧ (ret = 0 → s = 0 ∧ t = 0) ∧
    (ret = 1 → p + (q - p) * s = a + (b - a) * t ∧
      ∀ s' t', p + (q - p) * s' = a + (b - a) * t' → s' = s ∧ t' = t) := by
  simp only [Vec2.intersection, Vec2.sub_x, Vec2.sub_y, Vec2.cross, beq_iff_eq]
  by_cases h : (q.x - p.x) * (b.y - a.y) - (q.y - p.y) * (b.x - a.x) = 0
  · exact ⟨0, 0, 0, by simp [h], by simp, by simp [h], by simp, by simp⟩
  · refine ⟨1, _, _, by rw [if_neg (by simpa using h)], by simp, by simp [h], by simp, fun _ => ⟨?_, ?_⟩⟩
    · obtain ⟨D, hD⟩ : ∃ D, D = (q.x - p.x) * (b.y - a.y) - (q.y - p.y) * (b.x - a.x) := ⟨_, rfl⟩
      rw [← hD] at h ⊢
      ext <;> simp only [Vec2.add_x, Vec2.add_y, Vec2.mul_x, Vec2.mul_y, Vec2.sub_x, Vec2.sub_y] <;>
        field_simp <;> rw [hD] <;> ring
    · intro s' t' e
      have e1 := congrArg Vec2.x e
      have e2 := congrArg Vec2.y e
      simp only [Vec2.add_x, Vec2.add_y, Vec2.mul_x, Vec2.mul_y, Vec2.sub_x, Vec2.sub_y] at e1 e2
      constructor
      · rw [eq_div_iff h]
        linear_combination (b.y - a.y) * e1 - (b.x - a.x) * e2
      · rw [eq_div_iff h]
        linear_combination (q.y - p.y) * e1 - (q.x - p.x) * e2

example : Vec2.intersection (⟨0, 0⟩ : Vec2 ℚ) ⟨2, 2⟩ ⟨0, 2⟩ ⟨2, 0⟩ = (1, 1/2, 1/2) := by
  decide +kernel
example : Vec2.intersection (⟨0, 0⟩ : Vec2 ℚ) ⟨2, 2⟩ ⟨0, 1⟩ ⟨1, 2⟩ = (0, 0, 0) := by
  decide +kernel

/-! ## C30 -/

/-- `!=` is the complement of `==` and `isNull` is comparison with `Zero`, for every scalar type
(in particular with NaNs). -/
theorem C30_eq {R : Type} [BEq R] [Zero R] :
    (∀ u v : Vec2 R, u.ne v = !u.eq v ∧ (u.eq v = true ↔ (u.x == v.x) ∧ (u.y == v.y)) ∧
      u.isNull = u.eq Vec2.zero) ∧
    (∀ u v : Vec3 R, u.ne v = !u.eq v ∧
      (u.eq v = true ↔ (u.x == v.x) ∧ (u.y == v.y) ∧ (u.z == v.z)) ∧ u.isNull = u.eq Vec3.zero) ∧
    (∀ u v : Vec4 R, u.ne v = !u.eq v ∧
      (u.eq v = true ↔ (u.x == v.x) ∧ (u.y == v.y) ∧ (u.z == v.z) ∧ (u.w == v.w)) ∧
      u.isNull = u.eq Vec4.zero) := by
  refine ⟨fun u v => ⟨?_, ?_, rfl⟩, fun u v => ⟨?_, ?_, rfl⟩, fun u v => ⟨?_, ?_, rfl⟩⟩
  all_goals
    simp [Vec2.ne, Vec3.ne, Vec4.ne, Vec2.eq, Vec3.eq, Vec4.eq, bne, and_assoc, Bool.not_and]

/-- Where the scalar comparison is an equality test (no NaN), so is the vector comparison. -/
theorem C30_lawful {R : Type} [BEq R] [LawfulBEq R] :
    (∀ u v : Vec2 R, u.eq v = true ↔ u = v) ∧ (∀ u v : Vec3 R, u.eq v = true ↔ u = v) ∧
    (∀ u v : Vec4 R, u.eq v = true ↔ u = v) := by
  refine ⟨fun u v => ?_, fun u v => ?_, fun u v => ?_⟩
  · simp [Vec2.eq, Vec2.ext_iff]
  · simp [Vec3.eq, Vec3.ext_iff, and_assoc]
  · simp [Vec4.eq, Vec4.ext_iff, and_assoc]

/-- Where the scalar `==` is symmetric and transitive (IEEE comparison is, NaNs and signed zeros
included) so is the vector comparison, and a vector equals itself iff all its components do, i.e. iff
it has no NaN. -/
theorem C30_equivalence {R : Type} [BEq R] [PartialEquivBEq R] :
    (∀ u v w : Vec2 R, (u.eq v = true → v.eq u = true) ∧
      (u.eq v = true → v.eq w = true → u.eq w = true) ∧ (u.eq u = true ↔ (u.x == u.x) ∧ (u.y == u.y))) ∧
    (∀ u v w : Vec3 R, (u.eq v = true → v.eq u = true) ∧
      (u.eq v = true → v.eq w = true → u.eq w = true) ∧
      (u.eq u = true ↔ (u.x == u.x) ∧ (u.y == u.y) ∧ (u.z == u.z))) ∧
    (∀ u v w : Vec4 R, (u.eq v = true → v.eq u = true) ∧
      (u.eq v = true → v.eq w = true → u.eq w = true) ∧
      (u.eq u = true ↔ (u.x == u.x) ∧ (u.y == u.y) ∧ (u.z == u.z) ∧ (u.w == u.w))) := by
  refine ⟨fun u v w => ⟨?_, ?_, ?_⟩, fun u v w => ⟨?_, ?_, ?_⟩, fun u v w => ⟨?_, ?_, ?_⟩⟩
  all_goals simp only [Vec2.eq, Vec3.eq, Vec4.eq, Bool.and_eq_true, and_assoc]
  · rintro ⟨h1, h2⟩; exact ⟨PartialEquivBEq.symm h1, PartialEquivBEq.symm h2⟩
  · rintro ⟨h1, h2⟩ ⟨k1, k2⟩; exact ⟨PartialEquivBEq.trans h1 k1, PartialEquivBEq.trans h2 k2⟩
  · rintro ⟨h1, h2, h3⟩
    exact ⟨PartialEquivBEq.symm h1, PartialEquivBEq.symm h2, PartialEquivBEq.symm h3⟩
  · rintro ⟨h1, h2, h3⟩ ⟨k1, k2, k3⟩
    exact ⟨PartialEquivBEq.trans h1 k1, PartialEquivBEq.trans h2 k2, PartialEquivBEq.trans h3 k3⟩
  · rintro ⟨h1, h2, h3, h4⟩
    exact ⟨PartialEquivBEq.symm h1, PartialEquivBEq.symm h2, PartialEquivBEq.symm h3,
      PartialEquivBEq.symm h4⟩
  · rintro ⟨h1, h2, h3, h4⟩ ⟨k1, k2, k3, k4⟩
    exact ⟨PartialEquivBEq.trans h1 k1, PartialEquivBEq.trans h2 k2, PartialEquivBEq.trans h3 k3,
      PartialEquivBEq.trans h4 k4⟩

/-- The comparison of the floating point model, NaN included, meets the hypothesis. -/
instance : PartialEquivBEq F32 where
  symm := by
    rintro (_ | a) (_ | b) h
    · exact h
    · exact h
    · exact h
    · simp only [Fl.num_beq, decide_eq_true_eq] at h ⊢; exact h.symm
  trans := by
    intro a b c h k
    cases a <;> cases b <;> cases c <;> simp_all
example : (⟨.nan, 1, 2⟩ : Vec3 F32).eq ⟨.nan, 1, 2⟩ = false ∧
    (⟨.nan, 1, 2⟩ : Vec3 F32).ne ⟨.nan, 1, 2⟩ = true := by constructor <;> rfl

/-! ## C33 -/

/-- Whatever is drawn, a vector that is returned has length 1. -/
theorem C33_unit :
    (∀ (draws : List ℝ) (v : Vec2 ℝ), Vec2.randomUnitVector draws = some v → v.length = 1) ∧
    (∀ (draws : List ℝ) (v : Vec3 ℝ), Vec3.randomUnitVector draws = some v → v.length = 1) := by
  constructor
  · intro draws v h
    fun_induction Vec2.randomUnitVector draws with
    | case1 a b rest n l e hl ih => exact ih h
    | case2 a b rest n l e hl =>
      obtain ⟨h1, h2, -, h4⟩ := C22_normalize2 ⟨a, b⟩ 1
      have hl' : l ≠ 0 := by simpa using hl
      rw [e] at h1 h2
      simp only at h1 h2
      have hz : (⟨a, b⟩ : Vec2 ℝ) ≠ Vec2.zero := fun hz =>
        hl' (h2.trans ((C22_length_norm.1 _).2 hz))
      obtain ⟨-, -, h5⟩ := h4 hz
      cases h
      rw [h1, h5, abs_one]
    | case3 => simp at h
  · intro draws v h
    fun_induction Vec3.randomUnitVector draws with
    | case1 a b c rest n l e hl ih => exact ih h
    | case2 a b c rest n l e hl =>
      obtain ⟨h1, h2, -, h4⟩ := C22_normalize3 ⟨a, b, c⟩ 1
      have hl' : l ≠ 0 := by simpa using hl
      rw [e] at h1 h2
      simp only at h1 h2
      have hz : (⟨a, b, c⟩ : Vec3 ℝ) ≠ Vec3.zero := fun hz =>
        hl' (h2.trans ((C22_length_norm.2.1 _).2 hz))
      obtain ⟨-, -, h5⟩ := h4 hz
      cases h
      rw [h1, h5, abs_one]
    | case3 => simp at h

/-- `rand(1)` is never negative, so only directions of the closed positive quadrant/octant can be
returned: "every direction" is false. -/
theorem C33_directions_refuted :
    (∀ (draws : List ℝ), (∀ d ∈ draws, 0 ≤ d) → ∀ v : Vec2 ℝ,
      Vec2.randomUnitVector draws = some v → 0 ≤ v.x ∧ 0 ≤ v.y) ∧
    (∀ (draws : List ℝ), (∀ d ∈ draws, 0 ≤ d) → ∀ v : Vec3 ℝ,
      Vec3.randomUnitVector draws = some v → 0 ≤ v.x ∧ 0 ≤ v.y ∧ 0 ≤ v.z) := by
  constructor
  · intro draws hd v h
    fun_induction Vec2.randomUnitVector draws with
    | case1 a b rest n l e hl ih => exact ih (fun d hm => hd d (by simp [hm])) h
    | case2 a b rest n l e hl =>
      have hl' : l ≠ 0 := by simpa using hl
      obtain ⟨h1, h2, h3, h4⟩ := C22_normalize2 ⟨a, b⟩ 1
      rw [e] at h1 h2
      simp only at h1 h2
      have hz : (⟨a, b⟩ : Vec2 ℝ) ≠ Vec2.zero := fun hz =>
        hl' (h2.trans ((C22_length_norm.1 _).2 hz))
      obtain ⟨h5, h6, -⟩ := h4 hz
      cases h
      have ha := hd a (by simp)
      have hb := hd b (by simp)
      rw [h1, h6]
      constructor
      · simp only [Vec2.mul_x]; positivity
      · simp only [Vec2.mul_y]; positivity
    | case3 => simp at h
  · intro draws hd v h
    fun_induction Vec3.randomUnitVector draws with
    | case1 a b c rest n l e hl ih => exact ih (fun d hm => hd d (by simp [hm])) h
    | case2 a b c rest n l e hl =>
      have hl' : l ≠ 0 := by simpa using hl
      obtain ⟨h1, h2, h3, h4⟩ := C22_normalize3 ⟨a, b, c⟩ 1
      rw [e] at h1 h2
      simp only at h1 h2
      have hz : (⟨a, b, c⟩ : Vec3 ℝ) ≠ Vec3.zero := fun hz =>
        hl' (h2.trans ((C22_length_norm.2.1 _).2 hz))
      obtain ⟨h5, h6, -⟩ := h4 hz
      cases h
      have ha := hd a (by simp)
      have hb := hd b (by simp)
      have hc := hd c (by simp)
      rw [h1, h6]
      refine ⟨?_, ?_, ?_⟩
      · simp only [Vec3.mul_x]; positivity
      · simp only [Vec3.mul_y]; positivity
      · simp only [Vec3.mul_z]; positivity
    | case3 => simp at h

/-- Every direction of the closed positive quadrant/octant is returned for some draws in `[0,1)`.
Missing: the other directions (`C33_directions_refuted`). -/
theorem C33_directions_partial :
    (∀ v : Vec2 ℝ, v.length = 1 → 0 ≤ v.x → 0 ≤ v.y →
      ∃ a b : ℝ, (0 ≤ a ∧ a < 1) ∧ (0 ≤ b ∧ b < 1) ∧ Vec2.randomUnitVector [a, b] = some v) ∧
    (∀ v : Vec3 ℝ, v.length = 1 → 0 ≤ v.x → 0 ≤ v.y → 0 ≤ v.z →
      ∃ a b c : ℝ, (0 ≤ a ∧ a < 1) ∧ (0 ≤ b ∧ b < 1) ∧ (0 ≤ c ∧ c < 1) ∧
        Vec3.randomUnitVector [a, b, c] = some v) := by
  constructor
  · intro v hv hx hy
    have hsq : v.x * v.x + v.y * v.y = 1 := by
      have := Real.mul_self_sqrt (add_nonneg (mul_self_nonneg v.x) (mul_self_nonneg v.y))
      rw [show √(v.x * v.x + v.y * v.y) = 1 from hv] at this
      linarith
    have hl : (⟨v.x / 2, v.y / 2⟩ : Vec2 ℝ).length = 1 / 2 := by
      simp only [Vec2.length, real_sqrt]
      rw [show v.x / 2 * (v.x / 2) + v.y / 2 * (v.y / 2) = (1 / 2) ^ 2 by linear_combination hsq / 4]
      exact Real.sqrt_sq (by norm_num)
    refine ⟨v.x / 2, v.y / 2, ⟨by positivity, by nlinarith⟩, ⟨by positivity, by nlinarith⟩, ?_⟩
    simp only [Vec2.randomUnitVector, Vec2.normalize, hl]
    norm_num
  · intro v hv hx hy hz
    have hsq : v.x * v.x + v.y * v.y + v.z * v.z = 1 := by
      have := Real.mul_self_sqrt (add_nonneg (add_nonneg (mul_self_nonneg v.x)
        (mul_self_nonneg v.y)) (mul_self_nonneg v.z))
      rw [show √(v.x * v.x + v.y * v.y + v.z * v.z) = 1 from hv] at this
      linarith
    have hl : (⟨v.x / 2, v.y / 2, v.z / 2⟩ : Vec3 ℝ).length = 1 / 2 := by
      simp only [Vec3.length, real_sqrt]
      rw [show v.x / 2 * (v.x / 2) + v.y / 2 * (v.y / 2) + v.z / 2 * (v.z / 2) = (1 / 2) ^ 2 by
        linear_combination hsq / 4]
      exact Real.sqrt_sq (by norm_num)
    refine ⟨v.x / 2, v.y / 2, v.z / 2, ⟨by positivity, by nlinarith⟩, ⟨by positivity, by nlinarith⟩,
      ⟨by positivity, by nlinarith⟩, ?_⟩
    simp only [Vec3.randomUnitVector, Vec3.normalize, hl]
    norm_num

end MathLib
