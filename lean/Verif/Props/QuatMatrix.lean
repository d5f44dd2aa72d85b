import Verif.Spec.FloatReal
import Verif.Props.Quaternions

/-! # Property C53: matrix to quaternion and back -/

namespace MathLib
open scoped Matrix

section
variable {a b c d e f g h i : ℝ}

/-- Relations between the entries of a rotation matrix. -/
theorem so3_rel (H : IsRotation !![a, b, c; d, e, f; g, h, i]) :
    (1 + a + e + i) * (1 + a - e - i) = (h - f) ^ 2 ∧ (1 + a + e + i) * (1 - a + e - i) = (c - g) ^ 2 ∧
    (1 + a + e + i) * (1 - a - e + i) = (d - b) ^ 2 ∧ (1 + a + e + i) * (b + d) = (h - f) * (c - g) ∧
    (1 + a + e + i) * (c + g) = (h - f) * (d - b) ∧ (1 + a + e + i) * (f + h) = (c - g) * (d - b) := by
  obtain ⟨h1, h2⟩ := H
  have h3 := mul_eq_one_comm.1 h1
  have h4 : (!![a, b, c; d, e, f; g, h, i] : Matrix _ _ ℝ).adjugate = (!![a, b, c; d, e, f; g, h, i])ᵀ := by
    have e1 := Matrix.adjugate_mul (!![a, b, c; d, e, f; g, h, i] : Matrix _ _ ℝ)
    rw [h2, one_smul] at e1
    calc _ = (!![a, b, c; d, e, f; g, h, i] : Matrix _ _ ℝ).adjugate * (!![a, b, c; d, e, f; g, h, i] *
          (!![a, b, c; d, e, f; g, h, i])ᵀ) := by rw [h3, Matrix.mul_one]
      _ = _ := by rw [← Matrix.mul_assoc, e1, Matrix.one_mul]
  rw [Matrix.adjugate_fin_three] at h4
  have col : ∀ p q, _ = _ := fun p q => congrFun (congrFun h1 p) q
  have row : ∀ p q, _ = _ := fun p q => congrFun (congrFun h3 p) q
  have adj : ∀ p q, _ = _ := fun p q => congrFun (congrFun h4 p) q
  have c00 := col 0 0; have c11 := col 1 1; have c22 := col 2 2
  have c01 := col 0 1; have c02 := col 0 2; have c12 := col 1 2
  have r00 := row 0 0; have r11 := row 1 1; have r22 := row 2 2
  have r01 := row 0 1; have r02 := row 0 2; have r12 := row 1 2
  have a00 := adj 0 0; have a01 := adj 0 1; have a02 := adj 0 2
  have a10 := adj 1 0; have a11 := adj 1 1; have a12 := adj 1 2
  have a20 := adj 2 0; have a21 := adj 2 1; have a22 := adj 2 2
  simp [Matrix.mul_apply, Fin.sum_univ_succ] at c00 c11 c22 c01 c02 c12 r00 r11 r22 r01 r02 r12 a00 a01 a02 a10 a11 a12 a20 a21 a22
  refine ⟨?_, ?_, ?_, ?_, ?_, ?_⟩
  · linear_combination r00 - c11 - c22 - 2 * a00
  · linear_combination r11 - c00 - c22 - 2 * a11
  · linear_combination r22 - c00 - c11 - 2 * a22
  · linear_combination c01 + r01 - a01 - a10
  · linear_combination c02 + r02 - a02 - a20
  · linear_combination c12 + r12 - a12 - a21

/-- Changing the sign of two columns. -/
theorem so3_flip (H : IsRotation !![a, b, c; d, e, f; g, h, i]) :
    IsRotation !![a, -b, -c; d, -e, -f; g, -h, -i] ∧ IsRotation !![-a, b, -c; -d, e, -f; -g, h, -i] ∧
    IsRotation !![-a, -b, c; -d, -e, f; -g, -h, i] := by
  have key : ∀ s t u : ℝ, s * s = 1 → t * t = 1 → u * u = 1 → s * t * u = 1 →
      IsRotation !![s * a, t * b, u * c; s * d, t * e, u * f; s * g, t * h, u * i] := by
    intro s t u hs ht hu hd
    have e1 : !![s * a, t * b, u * c; s * d, t * e, u * f; s * g, t * h, u * i] =
        !![a, b, c; d, e, f; g, h, i] * Matrix.diagonal ![s, t, u] := by
      ext p q; fin_cases p <;> fin_cases q <;> simp [Matrix.mul_apply, Fin.sum_univ_succ, mul_comm]
    rw [e1]
    constructor
    · rw [Matrix.transpose_mul, Matrix.mul_assoc, ← Matrix.mul_assoc _ _ (Matrix.diagonal _), H.1,
        Matrix.one_mul, Matrix.diagonal_transpose, Matrix.diagonal_mul_diagonal, ← Matrix.diagonal_one]
      congr 1; ext p; fin_cases p <;> simp [hs, ht, hu]
    · rw [Matrix.det_mul, H.2, Matrix.det_diagonal, one_mul]
      simp [Fin.prod_univ_succ, ← mul_assoc, hd]
  refine ⟨?_, ?_, ?_⟩
  · simpa using key 1 (-1) (-1) (by norm_num) (by norm_num) (by norm_num) (by norm_num)
  · simpa using key (-1) 1 (-1) (by norm_num) (by norm_num) (by norm_num) (by norm_num)
  · simpa using key (-1) (-1) 1 (by norm_num) (by norm_num) (by norm_num) (by norm_num)

/-- From the products of the components to the matrix. -/
theorem rot_of_products (q : Quat ℝ) (ww : 4 * (q.w * q.w) = 1 + a + e + i)
    (xx : 4 * (q.x * q.x) = 1 + a - e - i) (yy : 4 * (q.y * q.y) = 1 - a + e - i)
    (zz : 4 * (q.z * q.z) = 1 - a - e + i) (wx : 4 * (q.w * q.x) = h - f)
    (wy : 4 * (q.w * q.y) = c - g) (wz : 4 * (q.w * q.z) = d - b) (xy : 4 * (q.x * q.y) = b + d)
    (xz : 4 * (q.x * q.z) = c + g) (yz : 4 * (q.y * q.z) = f + h) :
    q.IsUnit ∧ q.rot = !![a, b, c; d, e, f; g, h, i] := by
  constructor
  · unfold Quat.IsUnit; linarith
  · ext p r; fin_cases p <;> fin_cases r <;> simp [Quat.rot] <;> linarith

end

theorem root_prod {P T u v : ℝ} (hp : 0 < P) (h : P * T = u * v) :
    4 * (u / (Real.sqrt P * 2) * (v / (Real.sqrt P * 2))) = T := by
  have hs := (Real.sqrt_pos.2 hp).ne'
  have hq := Real.mul_self_sqrt hp.le
  generalize Real.sqrt P = s at *
  field_simp
  first | linear_combination (-1 : ℝ) * h - T * hq | linear_combination (-4 : ℝ) * h - 4 * T * hq

theorem root_mul {P u : ℝ} (hp : 0 < P) : 4 * (Real.sqrt P * 2 / 4 * (u / (Real.sqrt P * 2))) = u ∧
    4 * (u / (Real.sqrt P * 2) * (Real.sqrt P * 2 / 4)) = u ∧
    4 * (Real.sqrt P * 2 / 4 * (Real.sqrt P * 2 / 4)) = P := by
  have hs := (Real.sqrt_pos.2 hp).ne'
  have hq := Real.mul_self_sqrt hp.le
  generalize Real.sqrt P = s at *
  refine ⟨by field_simp, by field_simp, ?_⟩
  linear_combination hq

/-- The extraction of the quaternion from a rotation matrix, whichever branch is taken.  In every
branch the number under the root is positive. -/
theorem ofCols_rot (x y z : Vec3 ℝ) (H : IsRotation !![x.x, y.x, z.x; x.y, y.y, z.y; x.z, y.z, z.z]) :
    (Quat.ofCols x y z (x.x + y.y + z.z)).IsUnit ∧
    (Quat.ofCols x y z (x.x + y.y + z.z)).rot = !![x.x, y.x, z.x; x.y, y.y, z.y; x.z, y.z, z.z] := by
  obtain ⟨a1, a2, a3, a4, a5, a6⟩ := so3_rel H
  obtain ⟨F1, F2, F3⟩ := so3_flip H
  obtain ⟨b1, b2, b3, b4, b5, b6⟩ := so3_rel F1
  obtain ⟨c1, c2, c3, c4, c5, c6⟩ := so3_rel F2
  obtain ⟨d1, d2, d3, d4, d5, d6⟩ := so3_rel F3
  unfold Quat.ofCols
  simp only [real_sqrt]
  split_ifs with h1 h2 h3
  · have hp : 0 < 1 + (x.x + y.y + z.z) := by linarith
    apply rot_of_products
    · rw [(root_mul (u := 0) hp).2.2]; ring
    · exact root_prod hp (by linear_combination a1)
    · exact root_prod hp (by linear_combination a2)
    · exact root_prod hp (by linear_combination a3)
    · exact (root_mul hp).1
    · exact (root_mul hp).1
    · exact (root_mul hp).1
    · exact root_prod hp (by linear_combination a4)
    · exact root_prod hp (by linear_combination a5)
    · exact root_prod hp (by linear_combination a6)
  · have hp : 0 < 1 + x.x - y.y - z.z := by linarith [h2.1, h2.2]
    apply rot_of_products
    · exact root_prod hp (by first | linear_combination b1 | linear_combination -b1)
    · rw [(root_mul (u := 0) hp).2.2]
    · exact root_prod hp (by first | linear_combination b3 | linear_combination -b3)
    · exact root_prod hp (by first | linear_combination b2 | linear_combination -b2)
    · exact (root_mul hp).2.1
    · exact root_prod hp (by first | linear_combination b5 | linear_combination -b5)
    · exact root_prod hp (by first | linear_combination b4 | linear_combination -b4)
    · rw [(root_mul hp).1]
    · rw [(root_mul hp).1]
    · exact root_prod hp (by first | linear_combination b6 | linear_combination -b6)
  · have h4 : x.x ≤ y.y := by
      by_contra h4
      exact h2 ⟨by linarith, by linarith⟩
    have hp : 0 < 1 + y.y - x.x - z.z := by linarith
    apply rot_of_products
    · exact root_prod hp (by first | linear_combination c2 | linear_combination -c2)
    · exact root_prod hp (by first | linear_combination c3 | linear_combination -c3)
    · rw [(root_mul (u := 0) hp).2.2]; ring
    · exact root_prod hp (by first | linear_combination c1 | linear_combination -c1)
    · exact root_prod hp (by first | linear_combination c6 | linear_combination -c6)
    · exact (root_mul hp).2.1
    · exact root_prod hp (by first | linear_combination c4 | linear_combination -c4)
    · exact (root_mul hp).2.1
    · exact root_prod hp (by first | linear_combination c5 | linear_combination -c5)
    · rw [(root_mul hp).1]
  · have h4 : x.x ≤ z.z := by
      by_contra h4
      exact h2 ⟨by linarith, by linarith⟩
    have hp : 0 < 1 + z.z - x.x - y.y := by linarith
    apply rot_of_products
    · exact root_prod hp (by first | linear_combination d3 | linear_combination -d3)
    · exact root_prod hp (by first | linear_combination d2 | linear_combination -d2)
    · exact root_prod hp (by first | linear_combination d1 | linear_combination -d1)
    · rw [(root_mul (u := 0) hp).2.2]; ring
    · exact root_prod hp (by first | linear_combination d6 | linear_combination -d6)
    · exact root_prod hp (by first | linear_combination d5 | linear_combination -d5)
    · exact (root_mul hp).2.1
    · exact root_prod hp (by first | linear_combination d4 | linear_combination -d4)
    · exact (root_mul hp).2.1
    · rw [(root_mul hp).2.1]

/-- Two unit quaternions with the same matrix are equal up to sign. -/
theorem rot_inj (p q : Quat ℝ) (hp : p.IsUnit) (hq : q.IsUnit) (h : p.rot = q.rot) :
    p = q ∨ p = q.neg := by
  have e : ∀ i j, _ = _ := fun i j => congrFun (congrFun h i) j
  have h00 := e 0 0; have h01 := e 0 1; have h02 := e 0 2
  have h10 := e 1 0; have h11 := e 1 1; have h12 := e 1 2
  have h20 := e 2 0; have h21 := e 2 1; have h22 := e 2 2
  simp [Quat.rot] at h00 h01 h02 h10 h11 h12 h20 h21 h22
  unfold Quat.IsUnit at hp hq
  have xx : p.x * p.x = q.x * q.x := by linarith
  have yy : p.y * p.y = q.y * q.y := by linarith
  have zz : p.z * p.z = q.z * q.z := by linarith
  have ww : p.w * p.w = q.w * q.w := by linarith
  have xy : p.x * p.y = q.x * q.y := by linarith
  have xz : p.x * p.z = q.x * q.z := by linarith
  have xw : p.x * p.w = q.x * q.w := by linarith
  have yz : p.y * p.z = q.y * q.z := by linarith
  have yw : p.y * p.w = q.y * q.w := by linarith
  have zw : p.z * p.w = q.z * q.w := by linarith
  -- the square of the scalar product is one
  have hd : (p.x * q.x + p.y * q.y + p.z * q.z + p.w * q.w) ^ 2 = 1 := by
    have e1 : (p.x * q.x + p.y * q.y + p.z * q.z + p.w * q.w) ^ 2 =
        p.x * p.x * (q.x * q.x) + p.y * p.y * (q.y * q.y) + p.z * p.z * (q.z * q.z) +
        p.w * p.w * (q.w * q.w) + 2 * (p.x * p.y * (q.x * q.y) + p.x * p.z * (q.x * q.z) +
        p.x * p.w * (q.x * q.w) + p.y * p.z * (q.y * q.z) + p.y * p.w * (q.y * q.w) +
        p.z * p.w * (q.z * q.w)) := by ring
    rw [e1, xx, yy, zz, ww, xy, xz, xw, yz, yw, zw]
    linear_combination (q.x ^ 2 + q.y ^ 2 + q.z ^ 2 + q.w ^ 2 + 1) * hq
  rcases mul_self_eq_one_iff.1 ((sq _).symm.trans hd) with h1 | h1
  · left
    have : (p.x - q.x) ^ 2 + (p.y - q.y) ^ 2 + (p.z - q.z) ^ 2 + (p.w - q.w) ^ 2 = 0 := by
      linear_combination hp + hq - 2 * h1
    have e1 := sq_nonneg (p.x - q.x); have e2 := sq_nonneg (p.y - q.y)
    have e3 := sq_nonneg (p.z - q.z); have e4 := sq_nonneg (p.w - q.w)
    ext
    · exact sub_eq_zero.1 (pow_eq_zero_iff two_ne_zero |>.1 (by linarith))
    · exact sub_eq_zero.1 (pow_eq_zero_iff two_ne_zero |>.1 (by linarith))
    · exact sub_eq_zero.1 (pow_eq_zero_iff two_ne_zero |>.1 (by linarith))
    · exact sub_eq_zero.1 (pow_eq_zero_iff two_ne_zero |>.1 (by linarith))
  · right
    have : (p.x + q.x) ^ 2 + (p.y + q.y) ^ 2 + (p.z + q.z) ^ 2 + (p.w + q.w) ^ 2 = 0 := by
      linear_combination hp + hq + 2 * h1
    have e1 := sq_nonneg (p.x + q.x); have e2 := sq_nonneg (p.y + q.y)
    have e3 := sq_nonneg (p.z + q.z); have e4 := sq_nonneg (p.w + q.w)
    ext
    · exact eq_neg_of_add_eq_zero_left (pow_eq_zero_iff two_ne_zero |>.1 (by linarith))
    · exact eq_neg_of_add_eq_zero_left (pow_eq_zero_iff two_ne_zero |>.1 (by linarith))
    · exact eq_neg_of_add_eq_zero_left (pow_eq_zero_iff two_ne_zero |>.1 (by linarith))
    · exact eq_neg_of_add_eq_zero_left (pow_eq_zero_iff two_ne_zero |>.1 (by linarith))

/-- Every rotation matrix is the matrix of the extracted unit quaternion, and a unit quaternion is
recovered from its matrix up to sign. -/
theorem C53_roundtrip :
    (∀ m : Mat3 ℝ, IsRotation m.toM → (Quat.ofMat3 m).IsUnit ∧
      (Mat3.ofQuat (Quat.ofMat3 m)).toM = m.toM) ∧
    (∀ q : Quat ℝ, q.IsUnit → Quat.ofMat3 (Mat3.ofQuat q) = q ∨ Quat.ofMat3 (Mat3.ofQuat q) = q.neg) := by
  have h1 : ∀ m : Mat3 ℝ, IsRotation m.toM → (Quat.ofMat3 m).IsUnit ∧ (Quat.ofMat3 m).rot = m.toM :=
    fun m hm => ofCols_rot m.x m.y m.z hm
  refine ⟨fun m hm => ⟨(h1 m hm).1, ?_⟩, fun q hq => ?_⟩
  · rw [Quat.ofQuat_toM _ (h1 m hm).1, (h1 m hm).2]
  · have hr : IsRotation (Mat3.ofQuat q).toM := by rw [Quat.ofQuat_toM q hq]; exact hq.rotation
    obtain ⟨k1, k2⟩ := h1 _ hr
    exact rot_inj _ _ k1 hq (by rw [k2, Quat.ofQuat_toM q hq])

/-- No branch divides by zero or takes the root of a negative number, whatever the matrix: the same
code run on `XR`, where such an operation yields `nan`, gives the real result. -/
theorem C53_defined (x y z : Vec3 ℝ) :
    let up (v : Vec3 ℝ) : Vec3 XR := ⟨.num v.x, .num v.y, .num v.z⟩
    let q := Quat.ofCols x y z (x.x + y.y + z.z)
    Quat.ofCols (up x) (up y) (up z) ((up x).x + (up y).y + (up z).z) =
      (⟨.num q.x, .num q.y, .num q.z, .num q.w⟩ : Quat XR) := by
  have key : ∀ a : ℝ, 0 < a → ¬ a < 0 ∧ ¬ √a * 2 = 0 := fun a ha =>
    ⟨by linarith, by positivity⟩
  intro up q
  simp only [q, up, Quat.ofCols, Fl.num_add, Fl.num_sub, Fl.num_mul, Fl.zero_def, Fl.one_def, gt_iff_lt,
    Fl.num_lt, id, real_sqrt]
  by_cases h1 : 0 < x.x + y.y + z.z
  · obtain ⟨k1, k2⟩ := key (1 + (x.x + y.y + z.z)) (by linarith)
    simp [h1, k1, k2, Fl.ofNat_def]
  by_cases h2 : y.y < x.x ∧ z.z < x.x
  · obtain ⟨k1, k2⟩ := key (1 + x.x - y.y - z.z) (by linarith [h2.1, h2.2])
    simp [h1, h2, k1, k2, Fl.ofNat_def]
  by_cases h3 : z.z < y.y
  · have h4 : x.x ≤ y.y := by
      by_contra h4
      exact h2 ⟨by linarith, by linarith⟩
    obtain ⟨k1, k2⟩ := key (1 + y.y - x.x - z.z) (by linarith)
    simp [h1, h2, h3, k1, k2, Fl.ofNat_def]
  · have h4 : x.x ≤ z.z := by
      by_contra h4
      exact h2 ⟨by linarith, by linarith⟩
    obtain ⟨k1, k2⟩ := key (1 + z.z - x.x - y.y) (by linarith)
    simp [h1, h2, h3, k1, k2, Fl.ofNat_def]

/-- The 4×4 overload reads the upper left block only. -/
theorem C53_mat4 (m : Mat4 ℝ)
    (h : IsRotation !![m.x.x, m.y.x, m.z.x; m.x.y, m.y.y, m.z.y; m.x.z, m.y.z, m.z.z]) :
    m.toQuat.IsUnit ∧ (Mat3.ofQuat m.toQuat).toM =
      !![m.x.x, m.y.x, m.z.x; m.x.y, m.y.y, m.z.y; m.x.z, m.y.z, m.z.z] := by
  obtain ⟨h1, h2⟩ := ofCols_rot m.x.toVec3 m.y.toVec3 m.z.toVec3 h
  refine ⟨h1, ?_⟩
  rw [Quat.ofQuat_toM m.toQuat h1]
  exact h2

example : IsRotation (Mat3.ofQuat (⟨1/2, 1/2, 1/2, 1/2⟩ : Quat ℝ)).toM :=
  (C44_quat _ (by norm_num [Quat.IsUnit])).1
/-- representatives of the four branches -/
example : (Mat3.ofQuat (⟨0, 0, 0, 1⟩ : Quat ℚ)).trace > 0 ∧
    (let m := Mat3.ofQuat (⟨1, 0, 0, 0⟩ : Quat ℚ); ¬m.trace > 0 ∧ m.x.x > m.y.y ∧ m.x.x > m.z.z) ∧
    (let m := Mat3.ofQuat (⟨0, 1, 0, 0⟩ : Quat ℚ); ¬m.trace > 0 ∧ ¬m.x.x > m.y.y ∧ m.y.y > m.z.z) ∧
    (let m := Mat3.ofQuat (⟨0, 0, 1, 0⟩ : Quat ℚ); ¬m.trace > 0 ∧ ¬m.x.x > m.y.y ∧ ¬m.y.y > m.z.z) := by
  decide +kernel

end MathLib
