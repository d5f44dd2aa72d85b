import Verif.Props.QuatDirs
import Verif.Props.QuatInterp
import Verif.Props.QuatMatrix
import Verif.Props.Rotations
import Verif.Props.Interp

/-! # Properties C112-C114: interpolation between rotations, orthonormalise, rigid motions -/

namespace MathLib

/-! ## C112, plane rotations -/

/-- A plane rotation is the rotation by its `angle()`. -/
theorem Mat2.ofAngle_angle {m : Mat2 ℝ} (h : IsRotation m.toM) : (Mat2.ofAngle m.angle).toM = m.toM := by
  obtain ⟨h1, h2⟩ := h
  have e00 := congrFun (congrFun h1 0) 0
  have e01 := congrFun (congrFun h1 0) 1
  have e11 := congrFun (congrFun h1 1) 1
  simp [Mat2.toM, Matrix.mul_apply, Fin.sum_univ_succ] at e00 e01 e11
  simp [Mat2.toM, Matrix.det_fin_two] at h2
  have hx : m.y.x = -m.x.y := by
    linear_combination (-m.y.x) * e00 + m.x.x * e01 - m.x.y * h2
  have hy : m.y.y = m.x.x := by
    linear_combination (-m.y.y) * e00 + m.x.y * e01 + m.x.x * h2
  have hz : (⟨m.x.x, m.x.y⟩ : ℂ) ≠ 0 := by
    intro h0
    rw [Complex.ext_iff] at h0
    simp at h0
    rw [h0.1, h0.2] at e00
    norm_num at e00
  have hn : ‖(⟨m.x.x, m.x.y⟩ : ℂ)‖ = 1 := by
    rw [Complex.norm_def, Complex.normSq_mk, e00, Real.sqrt_one]
  have hc : Real.cos (Complex.arg ⟨m.x.x, m.x.y⟩) = m.x.x := by
    rw [Complex.cos_arg hz, hn, div_one]
  have hs : Real.sin (Complex.arg ⟨m.x.x, m.x.y⟩) = m.x.y := by
    rw [Complex.sin_arg, hn, div_one]
  ext i j
  fin_cases i <;> fin_cases j <;>
    simp [Mat2.ofAngle, Mat2.toM, Mat2.optimize, Mat2.optimizeTol, Mat2.angle, hc, hs, hx, hy]

/-- C112, plane: `slerp` gives a rotation, hits both ends and turns at constant speed; the whole turn is
at most half a revolution if the second angle is at least the first minus half a revolution (else C13). -/
theorem C112_mat2 (a b : Mat2 ℝ) (ha : IsRotation a.toM) (hb : IsRotation b.toM) :
    (∀ w, IsRotation (Mat2.slerp a b w).toM) ∧ (Mat2.slerp a b 0).toM = a.toM ∧
    (Mat2.slerp a b 1).toM = b.toM ∧
    ∃ θ : ℝ, (-Real.pi ≤ b.angle - a.angle → |θ| ≤ Real.pi) ∧
      ∀ w, (Mat2.slerp a b w).toM = (Mat2.ofAngle (w * θ)).toM * a.toM := by
  obtain ⟨h0, -, hc, hs, hl⟩ := C13_ends a.angle b.angle
  refine ⟨fun w => (C44_mat2 _ 0 ⟨0, 0⟩).1, ?_, ?_, clerp a.angle b.angle 1 - a.angle, fun h => ?_, fun w => ?_⟩
  · rw [Mat2.slerp, h0, Mat2.ofAngle_angle ha]
  · rw [← Mat2.ofAngle_angle hb]
    ext i j
    fin_cases i <;> fin_cases j <;>
      simp [Mat2.slerp, Mat2.ofAngle, Mat2.toM, Mat2.optimize, Mat2.optimizeTol, hc, hs]
  · exact (C13_shortest_partial _ _ h).1
  · rw [← Mat2.ofAngle_angle ha, (C44_mat2 _ _ ⟨0, 0⟩).2.2.1, Mat2.slerp, hl w, add_comm]

/-- C112, plane, limited: the result is `a` turned by at most `maxAngle`, and it is `b` when the turn
from `a` to `b` fits. -/
theorem C112_mat2_maxAngle (a b : Mat2 ℝ) (ha : IsRotation a.toM) (hb : IsRotation b.toM) (k : ℝ)
    (hk : 0 ≤ k) :
    (∃ θ : ℝ, |θ| ≤ k ∧ (Mat2.slerpMaxAngle a b k).toM = (Mat2.ofAngle θ).toM * a.toM) ∧
    (|clerp a.angle b.angle 1 - a.angle| ≤ k → (Mat2.slerpMaxAngle a b k).toM = b.toM) := by
  obtain ⟨h1, h2, -⟩ := C14_bounded a.angle b.angle k hk
  refine ⟨⟨_, h1, ?_⟩, fun h => ?_⟩
  · rw [← Mat2.ofAngle_angle ha, (C44_mat2 _ _ ⟨0, 0⟩).2.2.1, sub_add_cancel, Mat2.slerpMaxAngle]
  · obtain ⟨-, hc, hs⟩ := h2 h
    rw [← Mat2.ofAngle_angle hb]
    ext i j
    fin_cases i <;> fin_cases j <;>
      simp [Mat2.slerpMaxAngle, Mat2.ofAngle, Mat2.toM, Mat2.optimize, Mat2.optimizeTol, hc, hs]

example : ∃ a b : Mat2 ℝ, IsRotation a.toM ∧ IsRotation b.toM ∧ a.toM ≠ b.toM := by
  refine ⟨Mat2.ofAngle 0, Mat2.ofAngle Real.pi, (C44_mat2 _ 0 ⟨0, 0⟩).1, (C44_mat2 _ 0 ⟨0, 0⟩).1, fun h => ?_⟩
  have := congrFun (congrFun h 0) 0
  norm_num [Mat2.ofAngle, Mat2.toM, Mat2.optimize, Mat2.optimizeTol] at this

/-! ## C112, space rotations -/

theorem Mat3.ofQuat_neg (q : Quat ℝ) : (Mat3.ofQuat q.neg).toM = (Mat3.ofQuat q).toM := by
  ext i j
  fin_cases i <;> fin_cases j <;>
    simp [Mat3.ofQuat, Quat.neg, Mat3.toM, Mat3.optimize, Mat3.optimizeTol]

/-- C112, space: `slerp` between rotations gives a rotation and hits both ends; weights outside [0,1]
fail. -/
theorem C112_mat3 (a b : Mat3 ℝ) (ha : IsRotation a.toM) (hb : IsRotation b.toM) :
    (∀ w, 0 ≤ w → w ≤ 1 → ∃ r, Mat3.slerp a b w = .ok r ∧ IsRotation r.toM) ∧
    (∃ r, Mat3.slerp a b 0 = .ok r ∧ r.toM = a.toM) ∧ (∃ r, Mat3.slerp a b 1 = .ok r ∧ r.toM = b.toM) ∧
    ∀ w, ¬ (0 ≤ w ∧ w ≤ 1) → Mat3.slerp a b w = .error .assertion := by
  obtain ⟨pa, ea⟩ := C53_roundtrip.1 a ha
  obtain ⟨pb, eb⟩ := C53_roundtrip.1 b hb
  have h := C55_slerp _ _ pa pb
  refine ⟨fun w h0 h1 => ?_, ?_, ?_, fun w hw => ?_⟩
  · obtain ⟨r, hr, hu⟩ := (h w h0 h1).1
    exact ⟨Mat3.ofQuat r, by rw [Mat3.slerp, hr]; rfl, (C44_quat r hu).1⟩
  · exact ⟨_, by rw [Mat3.slerp, (h 0 le_rfl zero_le_one).2.1]; rfl, ea⟩
  · refine ⟨_, by rw [Mat3.slerp, (h 0 le_rfl zero_le_one).2.2]; rfl, ?_⟩
    split_ifs
    · rw [Mat3.ofQuat_neg, eb]
    · exact eb
  · rw [Mat3.slerp, Quat.slerp, if_neg (by simpa using hw)]; rfl

/-- Full statement for `slerpMaxAngle`: a limit at least the angle between the rotations gives the
second rotation. -/
def C112_maxAngle_full : Prop :=
  ∀ a b : Mat3 ℝ, IsRotation a.toM → IsRotation b.toM →
    ∃ r, Mat3.slerpMaxAngle a b (2 * Real.pi) = .ok r ∧ r.toM = b.toM

/-- False: between a rotation and itself it gives the identity (`from` is dropped, as in C57). -/
theorem C112_maxAngle_refuted : ¬ C112_maxAngle_full := by
  intro h
  have hu : (⟨1, 0, 0, 0⟩ : Quat ℝ).IsUnit := by simp [Quat.IsUnit]
  have hr := (C44_quat _ hu).1
  obtain ⟨r, h1, h2⟩ := h _ _ hr hr
  have hp := Real.pi_pos
  have h0 : ¬ (2 * Real.pi < 0) := by linarith
  have q1 : (⟨1, 0, 0, 0⟩ : Quat ℝ).slerpMaxAngle ⟨1, 0, 0, 0⟩ (2 * Real.pi) = .ok ⟨0, 0, 0, 1⟩ := by
    norm_num [Quat.slerpMaxAngle, Quat.inverse, Quat.mul, Quat.toAxisAngle, bind, Except.bind, Vec3.oneX,
      Quat.ofAxisAngle, Vec3.length, min', h0, hp, hp.not_gt]
  have q2 : (⟨1, 0, 0, 0⟩ : Quat ℝ).neg.slerpMaxAngle (⟨1, 0, 0, 0⟩ : Quat ℝ).neg (2 * Real.pi) =
      .ok ⟨0, 0, 0, 1⟩ := by
    norm_num [Quat.slerpMaxAngle, Quat.inverse, Quat.mul, Quat.toAxisAngle, bind, Except.bind, Vec3.oneX,
      Quat.ofAxisAngle, Vec3.length, min', h0, hp, hp.not_gt, Quat.neg]
  have e : r = Mat3.ofQuat ⟨0, 0, 0, 1⟩ := by
    rcases C53_roundtrip.2 _ hu with e | e <;> rw [Mat3.slerpMaxAngle, e] at h1
    · rw [q1] at h1; cases h1; rfl
    · rw [q2] at h1; cases h1; rfl
  subst e
  have := congrFun (congrFun h2 1) 1
  norm_num [Mat3.ofQuat, Mat3.toM, Mat3.optimize, Mat3.optimizeTol] at this

/-- What is computed: the relative turn, limited.  `a` times the result is `b` when the limit is at
least the angle between the two, and the result itself is `b` only when `a` is the identity.
Missing: the claim for other `a` (false, above), and turns by less than about 1e-3 rad (C52). -/
theorem C112_maxAngle_partial (a b : Mat3 ℝ) (ha : IsRotation a.toM) (hb : IsRotation b.toM) (k : ℝ)
    (hk : 0 ≤ k)
    (hd : let d := (Quat.ofMat3 a).inverse.mul (Quat.ofMat3 b); 8796093 / 8796093022208 < d.x ^ 2 + d.y ^ 2 + d.z ^ 2) :
    ∃ axis : Vec3 ℝ, ∃ angle r, Mat3.slerpMaxAngle a b k = .ok r ∧ axis.length = 1 ∧ 0 ≤ angle ∧
      angle ≤ 2 * Real.pi ∧ a.toM * (Mat3.ofAxisAngle axis angle).toM = b.toM ∧
      r.toM = (Mat3.ofAxisAngle axis (min angle k)).toM ∧ IsRotation r.toM ∧
      (angle ≤ k → a.toM * r.toM = b.toM) := by
  obtain ⟨pa, ea⟩ := C53_roundtrip.1 a ha
  obtain ⟨pb, eb⟩ := C53_roundtrip.1 b hb
  obtain ⟨axis, angle, q, h1, h2, h3, h4, h5, h6, h7, h8, -⟩ := C57_partial _ _ pa pb k hk hd
  have hax : axis ≠ Vec3.zero := by
    rintro rfl
    simp [Vec3.length, Vec3.zero] at h2
  have rot : ∀ θ, (Mat3.ofQuat (Quat.ofAxisAngle axis θ)).toM = (Mat3.ofAxisAngle axis θ).toM := fun θ => by
    rw [Quat.ofAxisAngle_rot hax, Quat.ofQuat_toM _ (Quat.ofAxisAngle_unit axis θ)]
  have hm : a.toM * (Mat3.ofAxisAngle axis angle).toM = b.toM := by
    rw [← rot, ← ea, ← eb, ← h5]
    rw [Quat.ofQuat_toM _ pa, Quat.ofQuat_toM _ (Quat.ofAxisAngle_unit axis angle),
      Quat.ofQuat_toM _ (pa.mul (Quat.ofAxisAngle_unit axis angle)), Quat.rot_mul]
  refine ⟨axis, angle, Mat3.ofQuat q, by rw [Mat3.slerpMaxAngle, h1]; rfl, h2, h3, h4, hm, by rw [h6, rot],
    (C44_quat q h7).1, fun h => ?_⟩
  rw [h6, rot, min_eq_left h, hm]

example : let d := (⟨0, 0, 0, 1⟩ : Quat ℝ).inverse.mul ⟨1, 0, 0, 0⟩;
    8796093 / 8796093022208 < d.x ^ 2 + d.y ^ 2 + d.z ^ 2 := by
  norm_num [Quat.inverse, Quat.mul]

/-! ## C112, rigid motions -/

/-- Full statement for `Mat34::slerp`: weights 0 and 1 give the first and the second motion. -/
def C112_mat34_full : Prop :=
  ∀ a b : Mat34 ℝ, IsRotation a.rs.toM → IsRotation b.rs.toM →
    (∃ r, Mat34.slerp a b 0 = .ok r ∧ r.toM = a.toM) ∧ (∃ r, Mat34.slerp a b 1 = .ok r ∧ r.toM = b.toM)

/-- False: the translation of the result is always zero. -/
theorem C112_mat34_refuted : ¬ C112_mat34_full := by
  intro h
  have hr : IsRotation (Mat3.setIdentity : Mat3 ℝ).toM := by
    rw [show (Mat3.setIdentity : Mat3 ℝ).toM = 1 from by
      ext i j; fin_cases i <;> fin_cases j <;> simp [Mat3.setIdentity, Mat3.toM, Vec3.oneX, Vec3.oneY, Vec3.oneZ]]
    exact ⟨by simp, by simp⟩
  obtain ⟨r, h1, h2⟩ := (h ⟨Mat3.setIdentity, ⟨1, 0, 0⟩⟩ ⟨Mat3.setIdentity, ⟨1, 0, 0⟩⟩ hr hr).1
  have ht : r.t = Vec3.zero := by
    rw [Mat34.slerp] at h1
    cases h3 : Mat3.slerp (Mat3.setIdentity : Mat3 ℝ) Mat3.setIdentity 0 with
    | error e => rw [h3] at h1; cases h1
    | ok s => rw [h3] at h1; cases h1; rfl
  have := congrFun (congrFun h2 0) 3
  simp [Mat34.toM, ht, Vec3.zero] at this

/-- The linear parts are interpolated as in `C112_mat3`, and for pure rotations the ends are hit.
Missing: translations (always dropped). -/
theorem C112_mat34_partial (a b : Mat34 ℝ) (ha : IsRotation a.rs.toM) (hb : IsRotation b.rs.toM) :
    (∀ w, 0 ≤ w → w ≤ 1 → ∃ r, Mat34.slerp a b w = .ok r ∧ Mat3.slerp a.rs b.rs w = .ok r.rs ∧
      IsRotation r.rs.toM ∧ r.t = ⟨0, 0, 0⟩) ∧
    (∃ r, Mat34.slerp a b 0 = .ok r ∧ (r.toM = a.toM ↔ a.t = ⟨0, 0, 0⟩)) ∧
    (∃ r, Mat34.slerp a b 1 = .ok r ∧ (r.toM = b.toM ↔ b.t = ⟨0, 0, 0⟩)) := by
  obtain ⟨h1, ⟨r0, e0, m0⟩, ⟨r1, e1, m1⟩, -⟩ := C112_mat3 a.rs b.rs ha hb
  have key : ∀ (r : Mat3 ℝ) (c : Mat34 ℝ), r.toM = c.rs.toM →
      ((Mat34.mk r Vec3.zero).toM = c.toM ↔ c.t = ⟨0, 0, 0⟩) := by
    intro r c h
    rw [Mat34.toM_ext]
    exact ⟨fun e => e.2.symm, fun e => ⟨h, e.symm⟩⟩
  refine ⟨fun w w0 w1 => ?_, ⟨⟨r0, Vec3.zero⟩, by rw [Mat34.slerp, e0]; rfl, key _ _ m0⟩,
    ⟨⟨r1, Vec3.zero⟩, by rw [Mat34.slerp, e1]; rfl, key _ _ m1⟩⟩
  obtain ⟨r, hr, hrot⟩ := h1 w w0 w1
  exact ⟨⟨r, Vec3.zero⟩, by rw [Mat34.slerp, hr]; rfl, hr, hrot, rfl⟩

/-- `Mat34::slerpMaxAngle` is `Mat3::slerpMaxAngle` of the linear parts without translation. -/
theorem C112_mat34_maxAngle (a b : Mat34 ℝ) (k : ℝ) (r : Mat34 ℝ) :
    Mat34.slerpMaxAngle a b k = .ok r ↔ Mat3.slerpMaxAngle a.rs b.rs k = .ok r.rs ∧ r.t = ⟨0, 0, 0⟩ := by
  rw [Mat34.slerpMaxAngle]
  cases h : Mat3.slerpMaxAngle a.rs b.rs k with
  | error e =>
    constructor
    · intro h; cases h
    · rintro ⟨h, -⟩; cases h
  | ok s =>
    constructor
    · intro h; cases h; exact ⟨rfl, rfl⟩
    · rintro ⟨h, ht⟩
      cases h
      obtain ⟨rs, t⟩ := r
      simp only at ht
      subst ht; rfl

/-! ## C113 orthonormalise -/

/-- C113, plane: the result is the rotation that keeps the direction of the x axis; rotations stay, a
positive factor disappears. -/
theorem C113_mat2 (m : Mat2 ℝ) :
    IsRotation m.orthonormalise.toM ∧
    ((m.x.x ≠ 0 ∨ m.x.y ≠ 0) → ∃ k : ℝ, 0 < k ∧ m.x = m.orthonormalise.x * k) ∧
    (∀ (n : Mat2 ℝ) (k : ℝ), 0 < k → IsRotation n.toM → m.toM = k • n.toM → m.orthonormalise.toM = n.toM) := by
  refine ⟨(C44_mat2 _ 0 ⟨0, 0⟩).1, fun h => ?_, fun n k hk hn e => ?_⟩
  · have hz : (⟨m.x.x, m.x.y⟩ : ℂ) ≠ 0 := by
      intro h0
      rw [Complex.ext_iff] at h0
      simp at h0
      tauto
    have hp := norm_pos_iff.2 hz
    refine ⟨_, hp, ?_⟩
    ext
    · simp only [Mat2.orthonormalise, Mat2.ofAngle, Mat2.angle, Mat2.optimize, Mat2.optimizeTol, real_cos,
        real_atan2, Vec2.mul_x, Complex.cos_arg hz]
      field_simp
    · simp only [Mat2.orthonormalise, Mat2.ofAngle, Mat2.angle, Mat2.optimize, Mat2.optimizeTol, real_sin,
        real_atan2, Vec2.mul_y, Complex.sin_arg]
      field_simp
  · rw [← Mat2.ofAngle_angle hn, Mat2.orthonormalise]
    have e0 := congrFun (congrFun e 0) 0
    have e1 := congrFun (congrFun e 1) 0
    simp [Mat2.toM] at e0 e1
    have : m.angle = n.angle := by
      rw [Mat2.angle, Mat2.angle, e0, e1, real_atan2, real_atan2]
      rw [show (⟨k * n.x.x, k * n.x.y⟩ : ℂ) = (k : ℂ) * ⟨n.x.x, n.x.y⟩ by
        apply Complex.ext <;> simp]
      exact Complex.arg_real_mul _ hk
    rw [this]

/-- C113, space: the result is always a rotation, and rotations stay. -/
theorem C113_mat3 (m : Mat3 ℝ) :
    IsRotation m.orthonormalise.toM ∧ (IsRotation m.toM → m.orthonormalise.toM = m.toM) := by
  refine ⟨(C44_quat _ (C50_normalize _).1).1, fun h => ?_⟩
  obtain ⟨p, e⟩ := C53_roundtrip.1 m h
  rw [Mat3.orthonormalise, (C50_normalize _).2.1 p, e]

theorem C113_mat4 (m : Mat4 ℝ) :
    (∃ n : Mat3 ℝ, IsRotation n.toM ∧ m.orthonormalise.toM = (Mat34.mk n ⟨0, 0, 0⟩).toM) ∧
    (∀ n : Mat34 ℝ, IsRotation n.rs.toM → m.toM = n.toM →
      m.orthonormalise.toM = (Mat34.mk n.rs ⟨0, 0, 0⟩).toM) := by
  have key : ∀ q : Quat ℝ, (Mat4.ofQuat q Vec3.zero).toM = (Mat34.mk (Mat3.ofQuat q) ⟨0, 0, 0⟩).toM := by
    intro q
    ext i j
    fin_cases i <;> fin_cases j <;>
      simp [Mat4.ofQuat, Mat4.toM, Mat34.toM, Mat3.ofQuat, Mat3.optimize, Mat3.optimizeTol, Mat4.optimize,
        Mat4.optimizeTol, Vec3.zero, Vec4.ofVec3]
  refine ⟨⟨_, (C44_quat _ (C50_normalize m.toQuat).1).1, key _⟩, fun n hn e => ?_⟩
  have e' : !![m.x.x, m.y.x, m.z.x; m.x.y, m.y.y, m.z.y; m.x.z, m.y.z, m.z.z] = n.rs.toM := by
    ext i j
    have := congrFun (congrFun e i.castSucc) j.castSucc
    fin_cases i <;> fin_cases j <;> simpa [Mat4.toM, Mat34.toM, Mat3.toM] using this
  obtain ⟨p, h⟩ := C53_mat4 m (by rw [e']; exact hn)
  rw [Mat4.orthonormalise, key, (C50_normalize _).2.1 p]
  rw [Mat34.toM_ext]
  exact ⟨h.trans e', rfl⟩

/-- Full statement: a uniformly scaled rotation becomes the rotation. -/
def C113_scale_full : Prop :=
  ∀ (m n : Mat3 ℝ) (k : ℝ), 0 < k → IsRotation n.toM → m.toM = k • n.toM → m.orthonormalise.toM = n.toM

theorem ofQuat_normalize_x (q : Quat ℝ) (h : 0 < q.x * q.x + q.y * q.y + q.z * q.z + q.w * q.w) :
    (Mat3.ofQuat q.normalize).x.x =
      1 - 2 * (q.y * q.y + q.z * q.z) / (q.x * q.x + q.y * q.y + q.z * q.z + q.w * q.w) := by
  have hs := Real.mul_self_sqrt h.le
  have hp := Real.sqrt_pos.2 h
  simp only [Mat3.ofQuat, Mat3.optimize, Mat3.optimizeTol, Quat.normalize, real_sqrt, beq_iff_eq, hp.ne',
    if_false]
  generalize √(q.x * q.x + q.y * q.y + q.z * q.z + q.w * q.w) = n at hs hp
  rw [← hs]
  field_simp

/-- False: a quarter turn about z scaled by 2 becomes the turn with cosine -7/25 (about 106 degrees):
the quaternion of a scaled matrix is not the scaled quaternion. -/
theorem C113_scale_refuted : ¬ C113_scale_full ∧
    (Mat3.ofCols ⟨0, 2, 0⟩ ⟨-2, 0, 0⟩ ⟨0, 0, 2⟩ : Mat3 ℝ).orthonormalise.x.x = -7 / 25 := by
  have e : (Mat3.ofCols ⟨0, 2, 0⟩ ⟨-2, 0, 0⟩ ⟨0, 0, 2⟩ : Mat3 ℝ).orthonormalise.x.x = -7 / 25 := by
    have e3 : √(1 + 2 : ℝ) * √(1 + 2 : ℝ) = 3 := by rw [Real.mul_self_sqrt (by norm_num)]; norm_num
    have hp : 0 < √(1 + 2 : ℝ) := Real.sqrt_pos.2 (by norm_num)
    have eq : Quat.ofMat3 (Mat3.ofCols ⟨0, 2, 0⟩ ⟨-2, 0, 0⟩ ⟨0, 0, 2⟩ : Mat3 ℝ) =
        ⟨0, 0, 4 / (√(1 + 2) * 2), √(1 + 2) * 2 / 4⟩ := by
      norm_num [Quat.ofMat3, Quat.ofCols, Mat3.trace, Mat3.ofCols, Mat3.optimize, Mat3.optimizeTol]
    have hz : 4 / (√(1 + 2 : ℝ) * 2) * (4 / (√(1 + 2 : ℝ) * 2)) = 4 / 3 := by
      rw [← e3]; field_simp; norm_num
    have hw : √(1 + 2 : ℝ) * 2 / 4 * (√(1 + 2 : ℝ) * 2 / 4) = 3 / 4 := by
      linear_combination (1 / 4 : ℝ) * e3
    rw [Mat3.orthonormalise, eq, ofQuat_normalize_x]
    · simp only [hz, hw]; norm_num
    · simp only [hz, hw]; norm_num
  refine ⟨fun h => ?_, e⟩
  have hr : (Mat3.ofCols ⟨0, 1, 0⟩ ⟨-1, 0, 0⟩ ⟨0, 0, 1⟩ : Mat3 ℝ).toM = !![0, -1, 0; 1, 0, 0; 0, 0, 1] := by
    ext i j
    fin_cases i <;> fin_cases j <;> simp [Mat3.ofCols, Mat3.toM, Mat3.optimize, Mat3.optimizeTol]
  have := h (Mat3.ofCols ⟨0, 2, 0⟩ ⟨-2, 0, 0⟩ ⟨0, 0, 2⟩) (Mat3.ofCols ⟨0, 1, 0⟩ ⟨-1, 0, 0⟩ ⟨0, 0, 1⟩) 2
    (by norm_num) ?_ ?_
  · have := congrFun (congrFun this 0) 0
    rw [hr] at this
    simp only [Mat3.toM] at this
    rw [Matrix.of_apply] at this
    simp [e] at this
  · rw [hr]
    constructor
    · ext i j
      fin_cases i <;> fin_cases j <;> simp [Matrix.mul_apply, Fin.sum_univ_succ]
    · simp [Matrix.det_fin_three]
  · rw [hr]
    ext i j
    fin_cases i <;> fin_cases j <;> simp [Mat3.ofCols, Mat3.toM, Mat3.optimize, Mat3.optimizeTol]

/-- a unit quaternion that is a positive multiple of another is that quaternion -/
theorem Quat.eq_of_pos_smul {p q : Quat ℝ} (hp : p.IsUnit) (hq : q.IsUnit) {j : ℝ} (hj : 0 < j)
    (h : p = ⟨j * q.x, j * q.y, j * q.z, j * q.w⟩) : p = q := by
  have hq' : q.x ^ 2 + q.y ^ 2 + q.z ^ 2 + q.w ^ 2 = 1 := hq
  have hp' : p.x ^ 2 + p.y ^ 2 + p.z ^ 2 + p.w ^ 2 = 1 := hp
  rw [h] at hp'
  have : j = 1 := by
    have h2 : j ^ 2 = 1 := by
      simp only at hp'
      linear_combination hp' - j ^ 2 * hq'
    nlinarith
  rw [h, this]
  simp

/-- equal rotations about one axis are by equal angles -/
theorem Mat3.ofAxisAngle_inj {a : Vec3 ℝ} (ha : a ≠ Vec3.zero) {α β : ℝ}
    (h : (Mat3.ofAxisAngle a α).toM = (Mat3.ofAxisAngle a β).toM) :
    Real.cos α = Real.cos β ∧ Real.sin α = Real.sin β := by
  obtain ⟨hv, -, -⟩ := Vec3.normalized_unit ha
  have hij : ∀ i j, (Mat3.ofAxisAngle a α).toM i j = (Mat3.ofAxisAngle a β).toM i j := fun i j => by rw [h]
  have c0 := hij 0 0; have c1 := hij 0 1; have c2 := hij 0 2
  have c3 := hij 1 0; have c4 := hij 1 1; have c5 := hij 1 2
  have c6 := hij 2 0; have c7 := hij 2 1; have c8 := hij 2 2
  simp only [Mat3.toM, Mat3.ofAxisAngle, Mat3.optimize, Mat3.optimizeTol, Matrix.of_apply, Matrix.cons_val',
    Matrix.cons_val_zero, Matrix.cons_val_one, Matrix.cons_val, real_cos, real_sin] at c0 c1 c2 c3 c4 c5 c6 c7 c8
  generalize a.normalized 1 = v at hv c0 c1 c2 c3 c4 c5 c6 c7 c8
  constructor
  · linear_combination (c0 + c4 + c8) / 2 + (Real.cos α - Real.cos β) / 2 * hv
  · linear_combination (v.x * (c7 - c5) + v.y * (c2 - c6) + v.z * (c3 - c1)) / 2 -
      (Real.sin α - Real.sin β) * hv

/-- What `orthonormalise` makes of a scaled rotation by an angle with positive trace: a rotation about the
same axis by another angle, the right one exactly if nothing was scaled or nothing turned. -/
theorem C113_scale_angle (a : Vec3 ℝ) (ha : a ≠ Vec3.zero) (θ k : ℝ) (hk : 0 < k) (ht : 0 < 1 + 2 * Real.cos θ)
    (m : Mat3 ℝ) (hm : m.toM = k • (Mat3.ofAxisAngle a θ).toM) :
    m.orthonormalise.toM =
      (Mat3.ofAxisAngle a (2 * Real.arctan (2 * k * Real.sin θ / (1 + k + 2 * k * Real.cos θ)))).toM ∧
    (m.orthonormalise.toM = (Mat3.ofAxisAngle a θ).toM ↔ k = 1 ∨ Real.sin θ = 0) := by
  obtain ⟨hv, -, -⟩ := Vec3.normalized_unit ha
  obtain ⟨v, hvd⟩ : ∃ v, v = a.normalized 1 := ⟨_, rfl⟩
  rw [← hvd] at hv
  obtain ⟨c, hc⟩ : ∃ c, c = Real.cos θ := ⟨_, rfl⟩
  obtain ⟨s, hs⟩ : ∃ s, s = Real.sin θ := ⟨_, rfl⟩
  have hcs : s ^ 2 + c ^ 2 = 1 := by rw [hc, hs]; exact Real.sin_sq_add_cos_sq θ
  rw [← hc] at ht
  have hij : ∀ i j, m.toM i j = k * (Mat3.ofAxisAngle a θ).toM i j := fun i j => by rw [hm]; rfl
  have c0 := hij 0 0; have c1 := hij 0 1; have c2 := hij 0 2
  have c3 := hij 1 0; have c4 := hij 1 1; have c5 := hij 1 2
  have c6 := hij 2 0; have c7 := hij 2 1; have c8 := hij 2 2
  simp [Mat3.toM, Mat3.ofAxisAngle, Mat3.optimize, Mat3.optimizeTol, ← hvd, ← hc, ← hs] at c0 c1 c2 c3 c4 c5 c6 c7 c8
  have htr : m.trace = k * (1 + 2 * c) := by
    simp only [Mat3.trace, c0, c4, c8]
    linear_combination k * (1 - c) * hv
  have hp : 0 < m.trace := by rw [htr]; positivity
  obtain ⟨W, hW⟩ : ∃ W, W = √(1 + m.trace) := ⟨_, rfl⟩
  have hW0 : 0 < W := by rw [hW]; exact Real.sqrt_pos.2 (by linarith)
  have hW2 : W ^ 2 = 1 + k + 2 * k * c := by
    rw [hW, Real.sq_sqrt (by linarith), htr]; ring
  have hD : 0 < 1 + k + 2 * k * c := by rw [← hW2]; positivity
  obtain ⟨x, hx⟩ : ∃ x, x = 2 * k * s / (1 + k + 2 * k * c) := ⟨_, rfl⟩
  have hx' : x * W ^ 2 = 2 * k * s := by rw [hW2, hx]; field_simp
  have e : Quat.ofMat3 m = ⟨W / 2 * (v.x * x), W / 2 * (v.y * x), W / 2 * (v.z * x), W / 2⟩ := by
    have f : 2 * k * s / (W * 2) = W / 2 * x := by
      field_simp
      linear_combination -hx'
    simp only [Quat.ofMat3, Quat.ofCols, gt_iff_lt, hp, if_true, real_sqrt, ← hW]
    rw [Quat.mk.injEq]
    refine ⟨?_, ?_, ?_, by ring⟩
    · rw [c7, c5]; rw [show W / 2 * (v.x * x) = v.x * (W / 2 * x) by ring, ← f]; ring
    · rw [c2, c6]; rw [show W / 2 * (v.y * x) = v.y * (W / 2 * x) by ring, ← f]; ring
    · rw [c3, c1]; rw [show W / 2 * (v.z * x) = v.z * (W / 2 * x) by ring, ← f]; ring
  have hn : (Quat.ofMat3 m).normalize = Quat.ofAxisAngle a (2 * Real.arctan x) := by
    obtain ⟨hu, -, hz⟩ := C50_normalize (Quat.ofMat3 m)
    obtain ⟨j, hj, hq⟩ := hz (by
      rw [e]; intro h0; rw [Quat.mk.injEq] at h0; linarith [h0.2.2.2])
    have hr : 0 < √(1 + x ^ 2) := Real.sqrt_pos.2 (by positivity)
    refine Quat.eq_of_pos_smul hu (Quat.ofAxisAngle_unit a _) (j := j * (W / 2) * √(1 + x ^ 2)) (by positivity) ?_
    rw [Quat.ofAxisAngle_eq ha, ← hvd, mul_div_cancel_left₀ _ two_ne_zero, Real.sin_arctan, Real.cos_arctan]
    have q0 := congrArg QuaternionAlgebra.re hq
    have q1 := congrArg QuaternionAlgebra.imI hq
    have q2 := congrArg QuaternionAlgebra.imJ hq
    have q3 := congrArg QuaternionAlgebra.imK hq
    generalize (Quat.ofMat3 m).normalize = N at q0 q1 q2 q3 ⊢
    rw [e] at q0 q1 q2 q3
    simp only [Quat.toQ] at q0 q1 q2 q3
    refine Quat.ext ?_ ?_ ?_ ?_ <;> simp only
    · refine q1.trans ?_
      change j * _ = _
      field_simp
    · refine q2.trans ?_
      change j * _ = _
      field_simp
    · refine q3.trans ?_
      change j * _ = _
      field_simp
    · refine q0.trans ?_
      change j * _ = _
      field_simp
  have main : m.orthonormalise.toM = (Mat3.ofAxisAngle a (2 * Real.arctan x)).toM := by
    rw [Mat3.orthonormalise, hn, ((C52_construct a _ 0).2.1 ha).1]
  rw [← hc, ← hs, ← hx]
  refine ⟨main, ?_⟩
  rw [main]
  have hx1 : 0 < 1 + x ^ 2 := by positivity
  have hca : Real.cos (Real.arctan x) ^ 2 = 1 / (1 + x ^ 2) := Real.cos_sq_arctan x
  have hta : Real.sin (Real.arctan x) = x * Real.cos (Real.arctan x) := by
    rw [Real.sin_arctan, Real.cos_arctan]; ring
  constructor
  · intro h
    obtain ⟨h1, h2⟩ := Mat3.ofAxisAngle_inj ha h
    rw [← hc, Real.cos_two_mul, hca] at h1
    rw [← hs, Real.sin_two_mul, hta, show 2 * (x * Real.cos (Real.arctan x)) * Real.cos (Real.arctan x) =
      2 * x * Real.cos (Real.arctan x) ^ 2 by ring, hca] at h2
    have h3 : s = x * (1 + c) := by
      rw [← h1, ← h2]; field_simp; ring
    rw [hx] at h3
    have h4 : s * (k - 1) = 0 := by
      have : s * (1 + k + 2 * k * c) = 2 * k * s * (1 + c) := by
        rw [div_mul_eq_mul_div, eq_div_iff hD.ne'] at h3; exact h3
      linear_combination -this
    rcases mul_eq_zero.1 h4 with h | h
    · exact .inr h
    · exact .inl (by linarith)
  · intro h
    have h3 : s = x * (1 + c) := by
      rw [hx, div_mul_eq_mul_div, eq_div_iff hD.ne']
      rcases h with h | h
      · rw [h]; ring
      · rw [h]; ring
    have h5 : (1 + x ^ 2) * (1 + c) = 2 := by
      have h6 : 1 + c ≠ 0 := by linarith
      apply mul_left_cancel₀ h6
      have : s ^ 2 = x ^ 2 * (1 + c) ^ 2 := by rw [h3]; ring
      linear_combination hcs - this
    have e1 : Real.cos (2 * Real.arctan x) = Real.cos θ := by
      rw [Real.cos_two_mul, hca, ← hc]; field_simp; linear_combination -h5
    have e2 : Real.sin (2 * Real.arctan x) = Real.sin θ := by
      rw [Real.sin_two_mul, hta, show 2 * (x * Real.cos (Real.arctan x)) * Real.cos (Real.arctan x) =
        2 * x * Real.cos (Real.arctan x) ^ 2 by ring, hca, ← hs, h3, mul_one_div, div_eq_iff hx1.ne']
      linear_combination -x * h5
    simp only [Mat3.ofAxisAngle, real_cos, real_sin, e1, e2]

/-- a turn by 60 degrees, doubled -/
example : (0 : ℝ) < 1 + 2 * Real.cos (Real.pi / 3) ∧
    ((2 : ℝ) • (Mat3.ofAxisAngle (⟨0, 0, 1⟩ : Vec3 ℝ) (Real.pi / 3)).toM) =
      (Mat3.mk (⟨1, √3, 0⟩ : Vec3 ℝ) ⟨-√3, 1, 0⟩ ⟨0, 0, 2⟩ Flags.start).toM := by
  constructor
  · rw [Real.cos_pi_div_three]; norm_num
  · ext i j
    fin_cases i <;> fin_cases j <;>
      simp [Mat3.ofAxisAngle, Mat3.toM, Mat3.optimize, Mat3.optimizeTol, Vec3.normalized, Vec3.length] <;> ring

/-- What does hold of a uniformly scaled rotation: a multiple of the identity becomes the identity, and for
turns with positive trace the axis (direction of the antisymmetric part) is kept.
Missing: the angle (false, above). -/
theorem C113_scale_partial (m n : Mat3 ℝ) (k : ℝ) (hk : 0 < k) (h : m.toM = k • n.toM) :
    (n.toM = 1 → m.orthonormalise.toM = 1) ∧
    (0 < n.trace → let v : Vec3 ℝ := ⟨n.y.z - n.z.y, n.z.x - n.x.z, n.x.y - n.y.x⟩
      m.orthonormalise.mulVec v = v) := by
  have hm : ∀ i j, m.toM i j = k * n.toM i j := fun i j => by rw [h]; rfl
  have c := hm 0 0; have c1 := hm 0 1; have c2 := hm 0 2
  have c3 := hm 1 0; have c4 := hm 1 1; have c5 := hm 1 2
  have c6 := hm 2 0; have c7 := hm 2 1; have c8 := hm 2 2
  simp [Mat3.toM] at c c1 c2 c3 c4 c5 c6 c7 c8
  have ht : m.trace = k * n.trace := by simp only [Mat3.trace, c, c4, c8]; ring
  have key : 0 < n.trace → ∃ a b : ℝ, 0 < a ∧ (Quat.ofMat3 m).normalize =
      ⟨a * (n.y.z - n.z.y), a * (n.z.x - n.x.z), a * (n.x.y - n.y.x), b⟩ := by
    intro hn
    have hp : 0 < m.trace := by rw [ht]; positivity
    have hs : 0 < √(1 + m.trace) := Real.sqrt_pos.2 (by linarith)
    have e : Quat.ofMat3 m = ⟨k / (√(1 + m.trace) * 2) * (n.y.z - n.z.y),
        k / (√(1 + m.trace) * 2) * (n.z.x - n.x.z), k / (√(1 + m.trace) * 2) * (n.x.y - n.y.x),
        √(1 + m.trace) * 2 / 4⟩ := by
      simp only [Quat.ofMat3, Quat.ofCols, gt_iff_lt, hp, if_true, real_sqrt, c1, c2, c3, c5, c6, c7]
      rw [Quat.mk.injEq]
      refine ⟨?_, ?_, ?_, rfl⟩ <;> ring
    obtain ⟨-, -, hz⟩ := C50_normalize (Quat.ofMat3 m)
    obtain ⟨c, hc, hq⟩ := hz (by
      rw [e]; intro h0; rw [Quat.mk.injEq] at h0; linarith [h0.2.2.2])
    rw [e] at hq ⊢
    refine ⟨c * (k / (√(1 + m.trace) * 2)), c * (√(1 + m.trace) * 2 / 4), by positivity, ?_⟩
    have q0 := congrArg QuaternionAlgebra.re hq
    have q1 := congrArg QuaternionAlgebra.imI hq
    have q2 := congrArg QuaternionAlgebra.imJ hq
    have q3 := congrArg QuaternionAlgebra.imK hq
    simp only [Quat.toQ] at q0 q1 q2 q3
    refine Quat.ext ?_ ?_ ?_ ?_
    · exact q1.trans (mul_assoc _ _ _).symm
    · exact q2.trans (mul_assoc _ _ _).symm
    · exact q3.trans (mul_assoc _ _ _).symm
    · exact q0
  constructor
  · intro h1
    have d : ∀ i j, n.toM i j = (1 : Matrix (Fin 3) (Fin 3) ℝ) i j := fun i j => by rw [h1]
    have d0 := d 0 0; have d1 := d 0 1; have d2 := d 0 2
    have d3 := d 1 0; have d4 := d 1 1; have d5 := d 1 2
    have d6 := d 2 0; have d7 := d 2 1; have d8 := d 2 2
    simp [Mat3.toM] at d0 d1 d2 d3 d4 d5 d6 d7 d8
    obtain ⟨a, b, -, e⟩ := key (by simp only [Mat3.trace, d0, d4, d8]; norm_num)
    rw [Mat3.orthonormalise, e, d1, d2, d3, d5, d6, d7]
    ext i j
    fin_cases i <;> fin_cases j <;> simp [Mat3.ofQuat, Mat3.toM, Mat3.optimize, Mat3.optimizeTol]
  · intro hn
    obtain ⟨a, b, ha, e⟩ := key hn
    have hu := (C50_normalize (Quat.ofMat3 m)).1
    have hv := (C44_quat _ hu).2.1
    show (Mat3.ofQuat (Quat.ofMat3 m).normalize).mulVec _ = _
    generalize (Mat3.ofQuat (Quat.ofMat3 m).normalize) = M at hv ⊢
    rw [e] at hv
    have v1 := congrArg Vec3.x hv
    have v2 := congrArg Vec3.y hv
    have v3 := congrArg Vec3.z hv
    simp only [Mat3.mulVec] at v1 v2 v3 ⊢
    ext
    · apply mul_left_cancel₀ ha.ne'; linear_combination v1
    · apply mul_left_cancel₀ ha.ne'; linear_combination v2
    · apply mul_left_cancel₀ ha.ne'; linear_combination v3

example : 0 < (Mat3.ofCols ⟨0, 1, 0⟩ ⟨-1, 0, 0⟩ ⟨0, 0, 1⟩ : Mat3 ℝ).trace := by
  norm_num [Mat3.trace, Mat3.ofCols, Mat3.optimize, Mat3.optimizeTol]

/-! ## C114 rigid motions -/

/-- C114: the `Mat34` constructors turn first and move then; the ones without translation argument leave
the origin in place. -/
theorem C114_constructors (axis t v : Vec3 ℝ) (θ : ℝ) :
    (axis ≠ Vec3.zero → (Mat34.ofAxisAngle axis θ t).mulVec v = rodrigues (axis.normalized 1) θ v + t) ∧
    (∃ r, Mat34.ofCoordAngle .X θ t = .ok r ∧ r.mulVec v = rodrigues ⟨1, 0, 0⟩ θ v + t) ∧
    (∃ r, Mat34.ofCoordAngle .Y θ t = .ok r ∧ r.mulVec v = rodrigues ⟨0, 1, 0⟩ θ v + t) ∧
    (∃ r, Mat34.ofCoordAngle .Z θ t = .ok r ∧ r.mulVec v = rodrigues ⟨0, 0, 1⟩ θ v + t) ∧
    (∀ c, c ∉ [Coord.X, .Y, .Z] → Mat34.ofCoordAngle c θ t = .error .assertion) ∧
    (∀ q : Quat ℝ, (Mat34.ofQuat q t).mulVec v = q.rotated v + t) ∧
    (∀ (ec ac : Coord) (e a : Vec3 ℝ) (r : Mat34 ℝ), Mat34.ofExactApprox ec e ac a = .ok r ↔
      Mat3.ofExactApprox ec e ac a = .ok r.rs ∧ r.t = ⟨0, 0, 0⟩) ∧
    (Mat34.setIdentity : Mat34 ℝ).mulVec v = v ∧ (Mat34.one : Mat34 ℝ).mulVec v = v ∧
    (Mat34.zero : Mat34 ℝ).mulVec v = ⟨0, 0, 0⟩ ∧ (∀ k, (Mat34.ofScalar k : Mat34 ℝ).mulVec v = v * k) := by
  have block : ∀ (m : Mat3 ℝ) (t : Vec3 ℝ), (Mat34.mk m t).mulVec v = m.mulVec v + t := by
    intro m t
    ext <;> simp [Mat34.mulVec, Mat3.mulVec]
  obtain ⟨⟨mx, ex, hx⟩, ⟨my, ey, hy⟩, ⟨mz, ez, hz⟩, hc⟩ := C44_coord θ
  have n1 : (⟨1, 0, 0⟩ : Vec3 ℝ).normalized 1 = ⟨1, 0, 0⟩ := by simp [Vec3.normalized, Vec3.length]
  have n2 : (⟨0, 1, 0⟩ : Vec3 ℝ).normalized 1 = ⟨0, 1, 0⟩ := by simp [Vec3.normalized, Vec3.length]
  have n3 : (⟨0, 0, 1⟩ : Vec3 ℝ).normalized 1 = ⟨0, 0, 1⟩ := by simp [Vec3.normalized, Vec3.length]
  have step : ∀ (m : Mat3 ℝ) (u : Vec3 ℝ), u ≠ Vec3.zero → u.normalized 1 = u →
      m.toM = (Mat3.ofAxisAngle u θ).toM → (Mat34.mk m t).mulVec v = rodrigues u θ v + t := by
    intro m u h0 hn hm
    rw [block]
    have := (C44_axis u h0 θ 0 v).2.2.2.2
    rw [hn] at this
    rw [← this]
    congr 1
    rw [Mat3.toM_ext] at hm
    obtain ⟨a, b, c⟩ := hm
    simp only [Mat3.mulVec, a, b, c]
  refine ⟨fun h => ?_, ⟨_, by rw [Mat34.ofCoordAngle, ex]; rfl, step _ _ (by simp [Vec3.zero]) n1 hx⟩,
    ⟨_, by rw [Mat34.ofCoordAngle, ey]; rfl, step _ _ (by simp [Vec3.zero]) n2 hy⟩,
    ⟨_, by rw [Mat34.ofCoordAngle, ez]; rfl, step _ _ (by simp [Vec3.zero]) n3 hz⟩,
    fun c h => by rw [Mat34.ofCoordAngle, hc c h]; rfl, fun q => block _ _, fun ec ac e a r => ?_, ?_, ?_, ?_,
    fun k => ?_⟩
  · rw [Mat34.ofAxisAngle, block, (C44_axis axis h θ 0 v).2.2.2.2]
  · rw [Mat34.ofExactApprox]
    cases h : Mat3.ofExactApprox ec e ac a with
    | error e =>
      constructor
      · intro h; cases h
      · rintro ⟨h, -⟩; cases h
    | ok s =>
      constructor
      · intro h; cases h; exact ⟨rfl, rfl⟩
      · rintro ⟨h, ht⟩
        cases h
        obtain ⟨rs, t⟩ := r
        simp only at ht
        subst ht; rfl
  all_goals
    ext <;> simp [Mat34.setIdentity, Mat34.one, Mat34.zero, Mat34.ofScalar, Mat3.ofScalar, Mat34.mulVec,
      Mat3.setIdentity, Vec3.oneX, Vec3.oneY, Vec3.oneZ, Vec3.zero, mul_comm]

/-- C114: the `Mat4` constructors make the same motions as those of `Mat34`, which C114_constructors describes. -/
theorem C114_mat4_constructors (axis t : Vec3 ℝ) (θ : ℝ) :
    (Mat4.ofAxisAngle axis θ).toM = (Mat34.ofAxisAngle axis θ ⟨0, 0, 0⟩).toM ∧
    (∀ c, (Mat4.ofCoordAngle c θ).map Mat4.toM = (Mat34.ofCoordAngle c θ ⟨0, 0, 0⟩).map Mat34.toM) ∧
    (∀ q : Quat ℝ, (Mat4.ofQuat q t).toM = (Mat34.ofQuat q t).toM) ∧
    (∀ x y z : Vec3 ℝ, (Mat4.ofCols3 x y z t).toM = (Mat34.ofCols x y z t).toM) ∧
    (∀ (ec ac : Coord) (e a : Vec3 ℝ), (Mat4.ofExactApprox ec e ac a).map Mat4.toM =
      (Mat34.ofExactApprox ec e ac a).map Mat34.toM) ∧
    (Mat4.setIdentity : Mat4 ℝ).toM = 1 ∧ (Mat4.one : Mat4 ℝ).toM = 1 ∧ (Mat4.zero : Mat4 ℝ).toM = 0 := by
  refine ⟨?_, fun c => ?_, fun q => ?_, fun x y z => ?_, fun ec ac e a => ?_, ?_, ?_, ?_⟩
  · ext i j
    fin_cases i <;> fin_cases j <;>
      simp [Mat4.ofAxisAngle, Mat34.ofAxisAngle, Mat3.ofAxisAngle, Mat4.toM, Mat34.toM, Mat3.optimize, Mat3.optimizeTol,
        Mat4.optimize, Mat4.optimizeTol]
  · cases c <;> rfl
  · ext i j
    fin_cases i <;> fin_cases j <;>
      simp [Mat4.ofQuat, Mat34.ofQuat, Mat3.ofQuat, Mat4.toM, Mat34.toM, Mat3.optimize, Mat3.optimizeTol, Mat4.optimize,
        Mat4.optimizeTol, Vec4.ofVec3]
  · ext i j
    fin_cases i <;> fin_cases j <;>
      simp [Mat4.ofCols3, Mat4.ofCols, Mat34.ofCols, Mat3.ofCols, Mat4.toM, Mat34.toM, Mat3.optimize, Mat3.optimizeTol,
        Mat4.optimize, Mat4.optimizeTol, Vec4.ofVec3]
  · have id : (Mat4.setIdentity : Mat4 ℝ).toM = (Mat34.mk Mat3.setIdentity Vec3.zero).toM := by
      ext i j
      fin_cases i <;> fin_cases j <;>
        simp [Mat4.setIdentity, Mat3.setIdentity, Mat4.toM, Mat34.toM, Vec3.oneX, Vec3.oneY, Vec3.oneZ, Vec3.zero]
    rw [Mat34.ofExactApprox, Mat4.ofExactApprox, Mat3.ofExactApprox]
    split
    · simp only [Except.map]; exact congrArg Except.ok id
    · dsimp only
      split
      · exact congrArg Except.ok id
      · cases ec <;> cases ac <;> rfl
  all_goals
    ext i j
    fin_cases i <;> fin_cases j <;>
      simp [Mat4.setIdentity, Mat4.one, Mat4.zero, Mat4.ofScalar, Mat4.ofCols, Mat4.optimize, Mat4.optimizeTol, Mat4.toM]

/-- `optimize` changes no entry and makes the flags truthful of the linear part; the tests then say what they are
named for up to the tolerance. -/
theorem C114_flags (m : Mat34 ℝ) :
    m.optimize.toM = m.toM ∧ m.optimize.isInitialized ∧
    (m.optimize.isNormal ↔ (m.rs.x.dot m.rs.x - 1) ^ 2 + (m.rs.y.dot m.rs.y - 1) ^ 2 +
      (m.rs.z.dot m.rs.z - 1) ^ 2 ≤ 1 / 1000) ∧
    (m.optimize.isOrthogonal ↔ m.rs.x.dot m.rs.y ^ 2 + m.rs.x.dot m.rs.z ^ 2 + m.rs.y.dot m.rs.z ^ 2 ≤
      1 / 1000) ∧
    (IsRotation m.rs.toM → m.optimize.isNormal ∧ m.optimize.isOrthogonal ∧ m.optimize.isOrthonormal) := by
  have h1 : m.optimize.isNormal ↔ (m.rs.x.dot m.rs.x - 1) ^ 2 + (m.rs.y.dot m.rs.y - 1) ^ 2 +
      (m.rs.z.dot m.rs.z - 1) ^ 2 ≤ 1 / 1000 := by
    simp only [Mat34.optimize, Mat34.isNormal, Mat3.optimize, Mat3.optimizeTol, Mat3.isNormal, Mat3.normalError,
      MatTol.default, decide_eq_true_eq, sq]
    norm_num
  have h2 : m.optimize.isOrthogonal ↔ m.rs.x.dot m.rs.y ^ 2 + m.rs.x.dot m.rs.z ^ 2 +
      m.rs.y.dot m.rs.z ^ 2 ≤ 1 / 1000 := by
    simp only [Mat34.optimize, Mat34.isOrthogonal, Mat3.optimize, Mat3.optimizeTol, Mat3.isOrthogonal,
      Mat3.orthogonalError, MatTol.default, decide_eq_true_eq, sq]
    norm_num
  refine ⟨rfl, rfl, h1, h2, fun h => ?_⟩
  have e : ∀ i j, (m.rs.toM.transpose * m.rs.toM) i j = (1 : Matrix (Fin 3) (Fin 3) ℝ) i j := fun i j => by rw [h.1]
  have e0 := e 0 0; have e1 := e 0 1; have e2 := e 0 2; have e3 := e 1 1; have e4 := e 1 2; have e5 := e 2 2
  simp [Mat3.toM, Matrix.mul_apply, Fin.sum_univ_succ] at e0 e1 e2 e3 e4 e5
  have hn : m.optimize.isNormal := by
    rw [h1]
    simp only [Vec3.dot, add_assoc, e0, e3, e5]
    norm_num
  have ho : m.optimize.isOrthogonal := by
    rw [h2]
    simp only [Vec3.dot, add_assoc, e1, e2, e4]
    norm_num
  refine ⟨hn, ho, ?_⟩
  simp only [Mat34.isNormal, Mat34.isOrthogonal, Mat34.isOrthonormal, Mat3.isNormal, Mat3.isOrthogonal,
    Mat3.isOrthonormal] at *
  simp [hn, ho]

/-- `Mat34::transpose` transposes the linear part and keeps the translation: for a rigid motion it is the
inverse exactly if the motion has no translation or turns it round. -/
theorem C114_transpose (m : Mat34 ℝ) :
    m.transpose.rs.toM = m.rs.toM.transpose ∧ m.transpose.t = m.t ∧ m.transpose.transpose = m ∧
    (IsRotation m.rs.toM →
      ((∀ v, m.transpose.mulVec (m.mulVec v) = v) ↔ m.transpose.rs.mulVec m.t = -m.t)) := by
  refine ⟨?_, rfl, rfl, fun h => ?_⟩
  · ext i j
    fin_cases i <;> fin_cases j <;> rfl
  have e : ∀ i j, (m.rs.toM.transpose * m.rs.toM) i j = (1 : Matrix (Fin 3) (Fin 3) ℝ) i j := fun i j => by rw [h.1]
  have e0 := e 0 0; have e1 := e 0 1; have e2 := e 0 2; have e3 := e 1 1; have e4 := e 1 2; have e5 := e 2 2
  simp [Mat3.toM, Matrix.mul_apply, Fin.sum_univ_succ] at e0 e1 e2 e3 e4 e5
  have key : ∀ v, m.transpose.mulVec (m.mulVec v) = v + (m.transpose.rs.mulVec m.t + m.t) := by
    intro v
    ext
    · simp [Mat34.mulVec, Mat34.transpose, Mat3.transpose, Mat3.mulVec]
      linear_combination v.x * e0 + v.y * e1 + v.z * e2
    · simp [Mat34.mulVec, Mat34.transpose, Mat3.transpose, Mat3.mulVec]
      linear_combination v.x * e1 + v.y * e3 + v.z * e4
    · simp [Mat34.mulVec, Mat34.transpose, Mat3.transpose, Mat3.mulVec]
      linear_combination v.x * e2 + v.y * e4 + v.z * e5
  constructor
  · intro hv
    have := hv ⟨0, 0, 0⟩
    rw [key] at this
    have a := congrArg Vec3.x this
    have b := congrArg Vec3.y this
    have c := congrArg Vec3.z this
    simp at a b c
    ext <;> simp <;> linarith
  · intro ht v
    rw [key, ht]
    ext <;> simp

/-- C37 for `a.transform(a.rs)`: the rotation is not applied to the matrix it comes from. -/
theorem C37_rs_refuted : ∃ m : Mat34 ℚ, m = Mat34.ofCols ⟨0, 1, 0⟩ ⟨-1, 0, 0⟩ ⟨0, 0, 1⟩ ⟨1, 0, 0⟩ ∧
    m.transformRs.rs.toM ≠ m.rs.toM * m.rs.toM ∧ m.transformRs.t ≠ m.rs.mulVec m.t :=
  ⟨_, rfl, by decide +kernel, by decide +kernel⟩

/-- What remains: with a (truthfully flagged) identity as linear part nothing changes.
Missing: other linear parts (false). -/
theorem C37_rs_partial (m : Mat34 ℝ) (hm : m.rs.isIdentity) (h : m.rs.toM = 1) :
    m.transformRs.rs.toM = m.rs.toM * m.rs.toM ∧ m.transformRs.t = m.rs.mulVec m.t := by
  simp only [Mat34.transformRs, Mat3.rotateSelf, Mat3.rotateG, id, hm, if_true, h, one_mul, and_self]

end MathLib
