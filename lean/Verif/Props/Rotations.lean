import Verif.Proof.QuatLemmas

/-! # Properties C44 (rotation constructors) and C45 (frames from two directions) -/

namespace MathLib
open scoped Matrix

theorem toM_ofCols {K : Type} [Field K] [LinearOrder K] (x y z : Vec3 K) :
    (Mat3.ofCols x y z).toM = !![x.x, y.x, z.x; x.y, y.y, z.y; x.z, y.z, z.z] := by
  simp [Mat3.ofCols, Mat3.optimize, Mat3.optimizeTol, Mat3.toM]

/-! ## C44 -/

theorem C44_mat2 (θ φ : ℝ) (v : Vec2 ℝ) :
    IsRotation (Mat2.ofAngle θ).toM ∧ (Mat2.ofAngle θ).isOrthonormal ∧
    (Mat2.ofAngle θ).toM * (Mat2.ofAngle φ).toM = (Mat2.ofAngle (θ + φ)).toM ∧
    (Mat2.ofAngle θ).toM.trace = 2 * Real.cos θ ∧
    (Mat2.ofAngle θ).mulVec v =
      ⟨v.x * Real.cos θ - v.y * Real.sin θ, v.x * Real.sin θ + v.y * Real.cos θ⟩ := by
  have h := Real.sin_sq_add_cos_sq θ
  have h' : Real.cos θ * Real.cos θ + Real.sin θ * Real.sin θ = 1 := by linear_combination h
  refine ⟨⟨?_, ?_⟩, ?_, ?_, ?_, ?_⟩
  · ext i j; fin_cases i <;> fin_cases j <;>
      simp [Mat2.ofAngle, Mat2.toM, Mat2.optimize, Mat2.optimizeTol, Matrix.mul_apply,
        Fin.sum_univ_succ] <;> first | ring1 | linear_combination h
  · simp [Mat2.ofAngle, Mat2.toM, Mat2.optimize, Mat2.optimizeTol, Matrix.det_fin_two]
    linear_combination h
  · have e1 : Real.sin θ * Real.sin θ + Real.cos θ * Real.cos θ - 1 = 0 := by linear_combination h
    have e2 : -(Real.cos θ * Real.sin θ) + Real.sin θ * Real.cos θ = 0 := by ring
    simp [Mat2.isOrthonormal, Mat2.ofAngle, Mat2.optimize, Mat2.optimizeTol, Mat2.normalError,
      Mat2.orthogonalError, Vec2.dot, h', e1, e2, MatTol.default]
  · ext i j; fin_cases i <;> fin_cases j <;>
      simp [Mat2.ofAngle, Mat2.toM, Mat2.optimize, Mat2.optimizeTol, Matrix.mul_apply,
        Fin.sum_univ_succ, Real.sin_add, Real.cos_add] <;> ring
  · simp [Mat2.ofAngle, Mat2.toM, Mat2.optimize, Mat2.optimizeTol, Matrix.trace,
        Fin.sum_univ_succ]; ring
  · ext <;> simp [Mat2.ofAngle, Mat2.mulVec, Mat2.optimize, Mat2.optimizeTol]; ring

/-- The matrix of an axis and an angle: a rotation that fixes the axis, of trace `1 + 2 cos`, given by
Rodrigues' formula, composing additively. -/
theorem C44_axis (a : Vec3 ℝ) (ha : a ≠ Vec3.zero) (θ φ : ℝ) (v : Vec3 ℝ) :
    IsRotation (Mat3.ofAxisAngle a θ).toM ∧ (Mat3.ofAxisAngle a θ).mulVec a = a ∧
    (Mat3.ofAxisAngle a θ).toM.trace = 1 + 2 * Real.cos θ ∧
    (Mat3.ofAxisAngle a θ).toM * (Mat3.ofAxisAngle a φ).toM = (Mat3.ofAxisAngle a (θ + φ)).toM ∧
    (Mat3.ofAxisAngle a θ).mulVec v = rodrigues (a.normalized 1) θ v := by
  obtain ⟨h1, h2, -⟩ := Vec3.normalized_unit ha
  refine ⟨?_, ?_, ?_, ?_, Mat3.ofAxisAngle_mulVec ha θ v⟩
  · rw [Quat.ofAxisAngle_rot ha]; exact (Quat.ofAxisAngle_unit a θ).rotation
  · rw [Mat3.ofAxisAngle_mulVec ha]
    conv_lhs => rw [rodrigues]
    generalize a.normalized 1 = u at h1 h2 ⊢
    generalize a.length = l at h2
    subst h2
    ext <;> simp [Vec3.cross, Vec3.dot]
    · linear_combination (u.x * l * (1 - Real.cos θ)) * h1
    · linear_combination (u.y * l * (1 - Real.cos θ)) * h1
    · linear_combination (u.z * l * (1 - Real.cos θ)) * h1
  · simp [Mat3.ofAxisAngle, Mat3.toM, Mat3.optimize, Mat3.optimizeTol, Matrix.trace,
      Fin.sum_univ_succ]
    linear_combination (1 - Real.cos θ) * h1
  · rw [Quat.ofAxisAngle_rot ha, Quat.ofAxisAngle_rot ha, Quat.ofAxisAngle_rot ha,
      ← Quat.ofAxisAngle_mul, Quat.rot_mul]

example : (⟨1, 2, 2⟩ : Vec3 ℝ) ≠ Vec3.zero := by simp [Vec3.zero]

/-- The coordinate axes: the same matrices as for the unit vectors; other coordinates are refused. -/
theorem C44_coord (θ : ℝ) :
    (∃ M, Mat3.ofCoordAngle .X θ = .ok M ∧ M.toM = (Mat3.ofAxisAngle ⟨1, 0, 0⟩ θ).toM) ∧
    (∃ M, Mat3.ofCoordAngle .Y θ = .ok M ∧ M.toM = (Mat3.ofAxisAngle ⟨0, 1, 0⟩ θ).toM) ∧
    (∃ M, Mat3.ofCoordAngle .Z θ = .ok M ∧ M.toM = (Mat3.ofAxisAngle ⟨0, 0, 1⟩ θ).toM) ∧
    (∀ c, c ∉ [Coord.X, .Y, .Z] → Mat3.ofCoordAngle c θ = .error .assertion) := by
  have n1 : (⟨1, 0, 0⟩ : Vec3 ℝ).normalized 1 = ⟨1, 0, 0⟩ := by
    simp [Vec3.normalized, Vec3.length]
  have n2 : (⟨0, 1, 0⟩ : Vec3 ℝ).normalized 1 = ⟨0, 1, 0⟩ := by
    simp [Vec3.normalized, Vec3.length]
  have n3 : (⟨0, 0, 1⟩ : Vec3 ℝ).normalized 1 = ⟨0, 0, 1⟩ := by
    simp [Vec3.normalized, Vec3.length]
  refine ⟨⟨_, rfl, ?_⟩, ⟨_, rfl, ?_⟩, ⟨_, rfl, ?_⟩, fun c hc => ?_⟩
  case refine_4 => cases c <;> first | rfl | exact absurd (by simp) hc
  all_goals rw [toM_ofCols]
  all_goals
    simp [Mat3.ofAxisAngle, n1, n2, n3, Mat3.toM, Mat3.optimize, Mat3.optimizeTol]

/-- The matrix of a unit quaternion is a rotation that fixes the vector part and has trace
`1 + 2 cos (2 acos w)`. -/
theorem C44_quat (q : Quat ℝ) (hq : q.IsUnit) :
    IsRotation (Mat3.ofQuat q).toM ∧ (Mat3.ofQuat q).mulVec ⟨q.x, q.y, q.z⟩ = ⟨q.x, q.y, q.z⟩ ∧
    (Mat3.ofQuat q).toM.trace = 1 + 2 * Real.cos (2 * Real.arccos q.w) := by
  refine ⟨?_, ?_, ?_⟩
  · rw [Quat.ofQuat_toM q hq]; exact hq.rotation
  · ext <;> simp [Mat3.ofQuat, Mat3.mulVec, Mat3.optimize, Mat3.optimizeTol] <;> ring
  · unfold Quat.IsUnit at hq
    have h1 : -1 ≤ q.w := by nlinarith [sq_nonneg q.x, sq_nonneg q.y, sq_nonneg q.z]
    have h2 : q.w ≤ 1 := by nlinarith [sq_nonneg q.x, sq_nonneg q.y, sq_nonneg q.z]
    rw [Real.cos_two_mul, Real.cos_arccos h1 h2]
    simp [Mat3.ofQuat, Mat3.toM, Mat3.optimize, Mat3.optimizeTol, Matrix.trace, Fin.sum_univ_succ]
    linear_combination (-4 : ℝ) * hq

example : (⟨1/2, 1/2, 1/2, 1/2⟩ : Quat ℝ).IsUnit := by norm_num [Quat.IsUnit]

/-- The null axis is not treated specially: half a turn "around" it gives the point reflection,
of determinant -1. -/
theorem C44_null_refuted : (Mat3.ofAxisAngle (Vec3.zero : Vec3 ℝ) Real.pi).toM = -1 ∧
    ¬IsRotation (Mat3.ofAxisAngle (Vec3.zero : Vec3 ℝ) Real.pi).toM := by
  have n : (⟨0, 0, 0⟩ : Vec3 ℝ).normalized 1 = ⟨0, 0, 0⟩ := (C22_normalize3 Vec3.zero 1).2.2.1 rfl
  have e : (Mat3.ofAxisAngle (Vec3.zero : Vec3 ℝ) Real.pi).toM = -1 := by
    ext i j; fin_cases i <;> fin_cases j <;>
      simp [Mat3.ofAxisAngle, n, Vec3.zero, Mat3.toM, Mat3.optimize, Mat3.optimizeTol]
  refine ⟨e, fun h => ?_⟩
  have := h.2
  rw [e, Matrix.det_neg] at this
  norm_num at this

/-- What the null axis gives: the scaling by the cosine, hence the identity exactly for whole turns.
Missing from the claim: all other angles. -/
theorem C44_null_partial (θ : ℝ) :
    (Mat3.ofAxisAngle (Vec3.zero : Vec3 ℝ) θ).toM = Real.cos θ • 1 ∧
    ((Mat3.ofAxisAngle (Vec3.zero : Vec3 ℝ) θ).toM = 1 ↔ ∃ k : ℤ, θ = k * (2 * Real.pi)) := by
  have n : (⟨0, 0, 0⟩ : Vec3 ℝ).normalized 1 = ⟨0, 0, 0⟩ := (C22_normalize3 Vec3.zero 1).2.2.1 rfl
  have e : (Mat3.ofAxisAngle (Vec3.zero : Vec3 ℝ) θ).toM = Real.cos θ • 1 := by
    ext i j; fin_cases i <;> fin_cases j <;>
      simp [Mat3.ofAxisAngle, n, Vec3.zero, Mat3.toM, Mat3.optimize, Mat3.optimizeTol]
  refine ⟨e, ?_⟩
  rw [e]
  constructor
  · intro h
    have h0 := congrFun (congrFun h 0) 0
    simp at h0
    obtain ⟨k, hk⟩ := (Real.cos_eq_one_iff θ).1 h0
    exact ⟨k, hk.symm⟩
  · rintro ⟨k, hk⟩
    rw [(Real.cos_eq_one_iff θ).2 ⟨k, hk.symm⟩, one_smul]

/-! ## C45 -/

/-- The column of a matrix that belongs to a coordinate. -/
def Mat3.col {K : Type} (m : Mat3 K) : Coord → Option (Vec3 K)
  | .X => some m.x
  | .Y => some m.y
  | .Z => some m.z
  | _ => none

theorem C45_frame (ec ac : Coord) (hec : ec = .X ∨ ec = .Y ∨ ec = .Z)
    (hac : ac = .X ∨ ac = .Y ∨ ac = .Z) (hne : ec ≠ ac)
    (e a : Vec3 ℝ) (h : e.cross a ≠ Vec3.zero) :
    ∃ M ca, Mat3.ofExactApprox ec e ac a = .ok M ∧ IsRotation M.toM ∧
      M.col ec = some (e.normalized 1) ∧ M.col ac = some ca ∧
      (∃ p q : ℝ, 0 < q ∧ ca = e * p + a * q) ∧ 0 < ca.dot a := by
  have he : e ≠ Vec3.zero := by
    rintro rfl; apply h; simp [Vec3.cross, Vec3.zero]
  obtain ⟨h1, h2, hl⟩ := Vec3.normalized_unit he
  set u := e.normalized 1 with hu
  set l := e.length
  have hc : a.cross u ≠ Vec3.zero := by
    intro h0
    apply h
    rw [h2]
    have hx := congrArg Vec3.x h0
    have hy := congrArg Vec3.y h0
    have hz := congrArg Vec3.z h0
    simp [Vec3.cross, Vec3.zero] at hx hy hz
    ext <;> simp [Vec3.cross, Vec3.zero]
    · linear_combination (-l) * hx
    · linear_combination (-l) * hy
    · linear_combination (-l) * hz
  obtain ⟨k1, k2, kl⟩ := Vec3.normalized_unit hc
  have knorm : ((a.cross u).normalize 1).1 = (a.cross u).normalized 1 := (C22_normalize3 _ 1).1
  set v := (a.cross u).normalized 1 with hv
  set r := (a.cross u).length
  have vx : u.z * a.y - u.y * a.z = v.x * r := by
    have := congrArg Vec3.x k2; simp [Vec3.cross] at this; linear_combination this
  have vy : u.x * a.z - u.z * a.x = v.y * r := by
    have := congrArg Vec3.y k2; simp [Vec3.cross] at this; linear_combination this
  have vz : u.y * a.x - u.x * a.y = v.z * r := by
    have := congrArg Vec3.z k2; simp [Vec3.cross] at this; linear_combination this
  have huv : u.x * v.x + u.y * v.y + u.z * v.z = 0 := by
    have : (u.x * v.x + u.y * v.y + u.z * v.z) * r = 0 := by
      linear_combination -u.x * vx - u.y * vy - u.z * vz
    exact (mul_eq_zero.1 this).resolve_right kl.ne'
  -- w = u × v lies in the plane of e and a
  have hw : u.cross v = e * (-(u.dot a) / (r * l)) + a * (1 / r) := by
    rw [h2]
    have hr := kl.ne'
    have hl' := hl.ne'
    ext <;> simp only [Vec3.cross, Vec3.dot, Vec3.add_x, Vec3.add_y, Vec3.add_z, Vec3.mul_x, Vec3.mul_y, Vec3.mul_z] <;>
      field_simp
    · linear_combination (-u.y) * vz + u.z * vy + a.x * h1
    · linear_combination (-u.z) * vx + u.x * vz + a.y * h1
    · linear_combination (-u.x) * vy + u.y * vx + a.z * h1
  have hpos : 0 < (u.cross v).dot a := by
    have : (u.cross v).dot a = r := by
      simp only [Vec3.cross, Vec3.dot]
      linear_combination v.x * vx + v.y * vy + v.z * vz + r * k1
    rw [this]; exact kl
  have rot : ∀ x y z : Vec3 ℝ, (x.x ^ 2 + x.y ^ 2 + x.z ^ 2 = 1) → (y.x ^ 2 + y.y ^ 2 + y.z ^ 2 = 1) →
      x.x * y.x + x.y * y.y + x.z * y.z = 0 → z = x.cross y → IsRotation (Mat3.ofCols x y z).toM := by
    rintro x y z hx hy hxy rfl
    rw [toM_ofCols]
    constructor
    · ext i j; fin_cases i <;> fin_cases j <;>
        simp [Matrix.mul_apply, Fin.sum_univ_succ, Vec3.cross] <;>
        first
          | linear_combination hx
          | linear_combination hy
          | linear_combination hxy
          | ring1
          | linear_combination (y.x ^ 2 + y.y ^ 2 + y.z ^ 2) * hx + hy - (x.x * y.x + x.y * y.y + x.z * y.z) * hxy
    · rw [Matrix.det_fin_three]
      simp [Vec3.cross]
      linear_combination (y.x ^ 2 + y.y ^ 2 + y.z ^ 2) * hx + hy - (x.x * y.x + x.y * y.y + x.z * y.z) * hxy
  have hww : (u.cross v).x ^ 2 + (u.cross v).y ^ 2 + (u.cross v).z ^ 2 = 1 := by
    simp only [Vec3.cross]
    linear_combination (v.x ^ 2 + v.y ^ 2 + v.z ^ 2) * h1 + k1 - (u.x * v.x + u.y * v.y + u.z * v.z) * huv
  have hex : (e.x == 0 && e.y == 0 && e.z == 0) = false := by
    by_contra hcon
    simp only [Bool.not_eq_false, Bool.and_eq_true, beq_iff_eq] at hcon
    exact he (Vec3.ext hcon.1.1 hcon.1.2 hcon.2)
  have hvx : ((a.cross u).x == 0 && (a.cross u).y == 0 && (a.cross u).z == 0) = false := by
    by_contra hcon
    simp only [Bool.not_eq_false, Bool.and_eq_true, beq_iff_eq] at hcon
    exact hc (Vec3.ext hcon.1.1 hcon.1.2 hcon.2)
  have colx : ∀ x y z : Vec3 ℝ, (Mat3.ofCols x y z).x = x ∧ (Mat3.ofCols x y z).y = y ∧
    (Mat3.ofCols x y z).z = z := fun _ _ _ => ⟨rfl, rfl, rfl⟩
  have hplane : ∃ p q : ℝ, 0 < q ∧ u.cross v = e * p + a * q := ⟨_, _, by positivity, hw⟩
  unfold Mat3.ofExactApprox
  rw [hex, ← hu]
  simp only [Bool.false_eq_true, if_false, hvx, knorm]
  rcases hec with rfl | rfl | rfl <;> rcases hac with rfl | rfl | rfl <;>
    first | exact absurd rfl hne | skip
  all_goals refine ⟨_, _, rfl, ?_, rfl, rfl, hplane, hpos⟩
  · refine rot _ _ _ h1 hww ?_ ?_
    · simp only [Vec3.cross]; ring
    · ext <;> simp [Vec3.cross]
      · linear_combination -u.x * huv + v.x * h1
      · linear_combination -u.y * huv + v.y * h1
      · linear_combination -u.z * huv + v.z * h1
  · exact rot _ _ _ h1 k1 huv rfl
  · refine rot _ _ _ hww h1 ?_ ?_
    · simp only [Vec3.cross]; ring
    · ext <;> simp [Vec3.cross]
      · linear_combination u.x * huv - v.x * h1
      · linear_combination u.y * huv - v.y * h1
      · linear_combination u.z * huv - v.z * h1
  · refine rot _ _ _ ?_ h1 ?_ ?_
    · simp; linear_combination k1
    · simp; linear_combination -huv
    · ext <;> simp [Vec3.cross] <;> ring
  · refine rot _ _ _ hww ?_ ?_ ?_
    · simp; linear_combination k1
    · simp [Vec3.cross]; ring
    · ext <;> simp [Vec3.cross]
      · linear_combination v.x * huv - u.x * k1
      · linear_combination v.y * huv - u.y * k1
      · linear_combination v.z * huv - u.z * k1
  · refine rot _ _ _ k1 hww ?_ ?_
    · simp [Vec3.cross]; ring
    · ext <;> simp [Vec3.cross]
      · linear_combination v.x * huv - u.x * k1
      · linear_combination v.y * huv - u.y * k1
      · linear_combination v.z * huv - u.z * k1

example : (⟨1, 0, 0⟩ : Vec3 ℝ).cross ⟨1, 1, 0⟩ ≠ Vec3.zero := by simp [Vec3.cross, Vec3.zero]

/-- Parallel vectors give the identity, equal or unsupported coordinates fail the assertion. -/
theorem C45_degenerate (ec ac : Coord) (e a : Vec3 ℝ) :
    (e.cross a = Vec3.zero → Mat3.ofExactApprox ec e ac a = .ok Mat3.setIdentity) ∧
    (e.cross a ≠ Vec3.zero → (ec = ac ∨ ec ∉ [.X, .Y, .Z] ∨ ac ∉ [.X, .Y, .Z]) →
      Mat3.ofExactApprox ec e ac a = .error .assertion) := by
  by_cases he : e = Vec3.zero
  · subst he
    refine ⟨fun _ => by simp [Mat3.ofExactApprox, Vec3.zero], fun h => absurd ?_ h⟩
    simp [Vec3.cross, Vec3.zero]
  have hex : (e.x == 0 && e.y == 0 && e.z == 0) = false := by
    by_contra hcon
    simp only [Bool.not_eq_false, Bool.and_eq_true, beq_iff_eq] at hcon
    exact he (Vec3.ext hcon.1.1 hcon.1.2 hcon.2)
  obtain ⟨h1, h2, hl⟩ := Vec3.normalized_unit he
  have key : ((a.cross (e.normalized 1)).x == 0 && (a.cross (e.normalized 1)).y == 0 &&
      (a.cross (e.normalized 1)).z == 0) = true ↔ e.cross a = Vec3.zero := by
    generalize e.length = l at *
    generalize e.normalized 1 = u at *
    subst h2
    simp only [Bool.and_eq_true, beq_iff_eq, Vec3.ext_iff, Vec3.cross, Vec3.zero, Vec3.mul_x,
      Vec3.mul_y, Vec3.mul_z]
    constructor
    · rintro ⟨⟨hx, hy⟩, hz⟩
      exact ⟨by linear_combination (-l) * hx, by linear_combination (-l) * hy,
        by linear_combination (-l) * hz⟩
    · rintro ⟨hx, hy, hz⟩
      refine ⟨⟨?_, ?_⟩, ?_⟩ <;> refine (mul_eq_zero.1 (?_ : _ * l = 0)).resolve_right hl.ne'
      · linear_combination -hx
      · linear_combination -hy
      · linear_combination -hz
  unfold Mat3.ofExactApprox
  rw [hex]
  simp only [Bool.false_eq_true, if_false]
  constructor
  · intro h
    rw [if_pos (key.2 h)]
  · intro h hc
    rw [if_neg (fun h' => h (key.1 h'))]
    rcases hc with rfl | hc | hc
    · cases ec <;> rfl
    · cases ec <;> first | (cases ac <;> rfl) | exact absurd (by simp) hc
    · cases ac <;> first | (cases ec <;> rfl) | exact absurd (by simp) hc

end MathLib
