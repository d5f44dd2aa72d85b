import Verif.Props.MatProducts
import Verif.Props.Rotations
import Verif.Proof.MatNorm
import Mathlib.Analysis.Real.Pi.Bounds

/-! # Property C144: many small rotations

A caller who turns an object by a small angle every frame expects the turns to add up: after `n` calls
of `rotate(axis, θ)` the object has been turned by `n θ`.  `Mat3`, `Mat34` and `Mat4` do not always do
that even in exact arithmetic, because a rotation matrix close enough to the identity is flagged as the
identity when it is built, and products with a flagged matrix are skipped. -/

namespace MathLib
open scoped Matrix
noncomputable section

/-! ## The flag of a rotation -/

private theorem dots3 {m : Mat3 ℝ} (h : m.toMᵀ * m.toM = 1) :
    m.x.dot m.x = 1 ∧ m.y.dot m.y = 1 ∧ m.z.dot m.z = 1 ∧ m.x.dot m.y = 0 ∧ m.x.dot m.z = 0 ∧
      m.y.dot m.z = 0 := by
  have e := fun i j => congrFun (congrFun h i) j
  have e00 := e 0 0
  have e11 := e 1 1
  have e22 := e 2 2
  have e01 := e 0 1
  have e02 := e 0 2
  have e12 := e 1 2
  simp [Mat3.toM, Matrix.mul_apply, Fin.sum_univ_succ] at e00 e11 e22 e01 e02 e12
  simp only [Vec3.dot]
  refine ⟨?_, ?_, ?_, ?_, ?_, ?_⟩ <;> linarith

/-- A rotation is flagged as the identity when `6 - 2 tr` is within the tolerance. -/
theorem Mat3.flagged_iff (m : Mat3 ℝ) (h : m.toMᵀ * m.toM = 1) :
    m.optimize.isIdentity ↔ 6 - 2 * m.toM.trace ≤ 1 / 1000 := by
  obtain ⟨h1, h2, h3, h4, h5, h6⟩ := dots3 h
  have hid : m.identityError = 6 - 2 * m.toM.trace := by
    simp only [Mat3.identityError, Vec3.lengthSqr, Mat3.toM, Matrix.trace, Fin.sum_univ_succ]
    simp [Vec3.dot] at h1 h2 h3 ⊢
    linear_combination h1 + h2 + h3
  have hn : m.normalError = 0 := by
    simp only [Mat3.normalError, h1, h2, h3]; norm_num
  have ho : m.orthogonalError = 0 := by
    simp only [Mat3.orthogonalError, h4, h5, h6]; norm_num
  simp only [Mat3.optimize, Mat3.optimizeTol, Mat3.isIdentity, MatTol.default, hid, hn, ho,
    Bool.and_eq_true, decide_eq_true_eq]
  norm_num

/-- Bordering a matrix with zeros and a one does not change the verdict. -/
private theorem flag4 (m : Mat3 ℝ) (f : Flags) :
    (Mat4.optimize ⟨⟨m.x.x, m.x.y, m.x.z, 0⟩, ⟨m.y.x, m.y.y, m.y.z, 0⟩, ⟨m.z.x, m.z.y, m.z.z, 0⟩,
      ⟨0, 0, 0, 1⟩, f⟩).isIdentity = m.optimize.isIdentity := by
  have e1 : ∀ a b : ℝ, a = b → ∀ c : ℝ, decide (a ≤ c) = decide (b ≤ c) := by rintro a b rfl c; rfl
  simp only [Mat4.isIdentity, Mat3.isIdentity, Mat4.optimize, Mat3.optimize, Mat4.optimizeTol,
    Mat3.optimizeTol, beq_self_eq_true, Bool.and_self, Mat4.normalError, Mat4.orthogonalError, if_true]
  congr 1
  · congr 1
    exact e1 _ _ (by simp [Mat3.normalError, Vec3.dot]) _
  · exact e1 _ _ (by simp [Mat4.identityError, Mat3.identityError, Vec4.lengthSqr, Vec3.lengthSqr]) _

private theorem flag4_axis (u : Vec3 ℝ) (θ : ℝ) :
    (Mat4.ofAxisAngle u θ).isIdentity = (Mat3.ofAxisAngle u θ).isIdentity :=
  flag4 (Mat3.ofAxisAngle u θ) _

private theorem flag4_quat (q : Quat ℝ) :
    (Mat4.ofQuat q ⟨0, 0, 0⟩).isIdentity = (Mat3.ofQuat q).isIdentity :=
  flag4 (Mat3.ofQuat q) _

/-- Exactly which rotations are taken for the identity when they are built: those by at most
`arccos (1 - 1/4000)`, about `1.28°`, whatever the axis and however they are given. -/
theorem C144_threshold :
    (∀ (u : Vec3 ℝ) (θ : ℝ), u ≠ Vec3.zero →
      ((Mat3.ofAxisAngle u θ).isIdentity ↔ 4 * (1 - Real.cos θ) ≤ 1 / 1000) ∧
      ((Mat4.ofAxisAngle u θ).isIdentity ↔ 4 * (1 - Real.cos θ) ≤ 1 / 1000)) ∧
    (∀ q : Quat ℝ, q.IsUnit →
      ((Mat3.ofQuat q).isIdentity ↔ 8 * (1 - q.w ^ 2) ≤ 1 / 1000) ∧
      ((Mat4.ofQuat q ⟨0, 0, 0⟩).isIdentity ↔ 8 * (1 - q.w ^ 2) ≤ 1 / 1000)) ∧
    (∀ (c : Coord) (θ : ℝ), c = .X ∨ c = .Y ∨ c = .Z → ∃ m m', Mat3.ofCoordAngle c θ = .ok m ∧
      Mat4.ofCoordAngle c θ = .ok m' ∧ (m.isIdentity ↔ 4 * (1 - Real.cos θ) ≤ 1 / 1000) ∧
      (m'.isIdentity ↔ 4 * (1 - Real.cos θ) ≤ 1 / 1000)) := by
  have axis : ∀ (u : Vec3 ℝ) (θ : ℝ), u ≠ Vec3.zero →
      ((Mat3.ofAxisAngle u θ).isIdentity ↔ 4 * (1 - Real.cos θ) ≤ 1 / 1000) := fun u θ hu => by
    obtain ⟨h1, -, h3, -⟩ := C44_axis u hu θ 0 u
    have := Mat3.flagged_iff (Mat3.ofAxisAngle u θ) h1.1
    rw [h3] at this
    have e : (Mat3.ofAxisAngle u θ).optimize = Mat3.ofAxisAngle u θ := rfl
    rw [e] at this
    rw [this]
    constructor <;> intro h <;> linarith
  refine ⟨fun u θ hu => ⟨axis u θ hu, by rw [flag4_axis]; exact axis u θ hu⟩, fun q hq => ?_, fun c θ hc => ?_⟩
  · have : (Mat3.ofQuat q).isIdentity ↔ 8 * (1 - q.w ^ 2) ≤ 1 / 1000 := by
      have h := Mat3.flagged_iff (Mat3.ofQuat q) (C44_quat q hq).1.1
      have e : (Mat3.ofQuat q).optimize = Mat3.ofQuat q := rfl
      have ht : (Mat3.ofQuat q).toM.trace = 4 * q.w ^ 2 - 1 := by
        rw [Quat.ofQuat_toM q hq]
        simp only [Quat.IsUnit] at hq
        simp [Quat.rot, Matrix.trace, Fin.sum_univ_succ]
        linear_combination (-1 : ℝ) * hq
      rw [e, ht] at h
      rw [h]
      constructor <;> intro h <;> linarith
    exact ⟨this, by rw [flag4_quat]; exact this⟩
  · have hs := Real.sin_sq_add_cos_sq θ
    have hid : (1 - Real.cos θ) ^ 2 * 2 + Real.sin θ ^ 2 * 2 = 4 * (1 - Real.cos θ) := by
      linear_combination 2 * hs
    have n1 : Real.cos θ * Real.cos θ + Real.sin θ * Real.sin θ - 1 = 0 := by linear_combination hs
    have n2 : Real.sin θ * Real.sin θ + Real.cos θ * Real.cos θ - 1 = 0 := by linear_combination hs
    have o1 : -(Real.cos θ * Real.sin θ) + Real.sin θ * Real.cos θ = 0 := by ring
    have o2 : Real.cos θ * Real.sin θ + -(Real.sin θ * Real.cos θ) = 0 := by ring
    rcases hc with rfl | rfl | rfl <;> refine ⟨_, _, rfl, rfl, ?_, ?_⟩ <;>
    · simp [Mat3.ofCols, Mat3.optimize, Mat3.optimizeTol, Mat3.isIdentity, Mat3.normalError,
        Mat3.orthogonalError, Mat3.identityError, Vec3.lengthSqr, Vec3.dot, MatTol.default,
        Mat4.ofCols, Mat4.optimize, Mat4.optimizeTol, Mat4.isIdentity, Mat4.normalError,
        Mat4.orthogonalError, Mat4.identityError, Vec4.lengthSqr, n1, n2, o1, o2]
      rw [← hid]
      constructor <;> intro h <;> linarith

/-! ## Repeating a rotation -/

/-- The flag of a product with an unflagged matrix is off. -/
private theorem unflag3 {a b : Mat3 ℝ} (hb : ¬b.isIdentity) : ¬(b.mul a).isIdentity := by
  unfold Mat3.mul
  rw [if_neg hb]
  split_ifs with h
  · exact hb
  · intro h'
    simp only [Mat3.isIdentity, Flags.and, Bool.and_eq_true] at h'
    exact hb h'.1

private theorem unflag4 {a b : Mat4 ℝ} (hb : ¬b.isIdentity) : ¬(b.mul a).isIdentity := by
  unfold Mat4.mul
  rw [if_neg hb]
  split_ifs with h
  · exact hb
  · intro h'
    simp only [Mat4.isIdentity, Flags.and, Bool.and_eq_true] at h'
    exact hb h'.1

private theorem iter3 (r A : Mat3 ℝ) (hr : ¬r.isIdentity) (hA : A.isIdentity → A.toM = 1) (n : ℕ) :
    ((fun B => B.rotate r)^[n] A).toM = r.toM ^ n * A.toM ∧
      (((fun B => B.rotate r)^[n] A).isIdentity → ((fun B => B.rotate r)^[n] A).toM = 1) := by
  induction n with
  | zero => simpa using hA
  | succ k ih =>
    rw [Function.iterate_succ_apply', (C36_rotate3 _ r).1]
    refine ⟨?_, fun h => absurd h (unflag3 hr)⟩
    rw [Mat3.toM_mul _ _ (fun h => absurd h hr) ih.2, ih.1, pow_succ', mul_assoc]

private theorem iter4 (r A : Mat4 ℝ) (hr : ¬r.isIdentity) (hA : A.isIdentity → A.toM = 1) (n : ℕ) :
    ((fun B => B.transform r)^[n] A).toM = r.toM ^ n * A.toM ∧
      (((fun B => B.transform r)^[n] A).isIdentity → ((fun B => B.transform r)^[n] A).toM = 1) := by
  induction n with
  | zero => simpa using hA
  | succ k ih =>
    rw [Function.iterate_succ_apply', (C36_mat4 _ r).1]
    refine ⟨?_, fun h => absurd h (unflag4 hr)⟩
    rw [Mat4.toM_mul _ _ (fun h => absurd h hr) ih.2, ih.1, pow_succ', mul_assoc]

private theorem zero_turn {u : Vec3 ℝ} (hu : u ≠ Vec3.zero) : (Mat3.ofAxisAngle u 0).toM = 1 := by
  rw [Quat.ofAxisAngle_rot hu, Quat.ofAxisAngle_eq hu]
  ext i j; fin_cases i <;> fin_cases j <;> simp [Quat.rot]

private theorem pow3 {u : Vec3 ℝ} (hu : u ≠ Vec3.zero) (θ : ℝ) (n : ℕ) :
    (Mat3.ofAxisAngle u θ).toM ^ n = (Mat3.ofAxisAngle u (n * θ)).toM := by
  induction n with
  | zero => simp [zero_turn hu]
  | succ k ih =>
    rw [pow_succ, ih, (C44_axis u hu (k * θ) θ u).2.2.2.1]
    congr 2; push_cast; ring

private theorem border (m : Mat3 ℝ) : (Mat34.mk m ⟨0, 0, 0⟩).toM =
    !![m.toM 0 0, m.toM 0 1, m.toM 0 2, 0; m.toM 1 0, m.toM 1 1, m.toM 1 2, 0;
       m.toM 2 0, m.toM 2 1, m.toM 2 2, 0; 0, 0, 0, 1] := by
  ext i j; fin_cases i <;> fin_cases j <;> simp [Mat34.toM, Mat3.toM]

private theorem axis4 (u : Vec3 ℝ) (θ : ℝ) :
    (Mat4.ofAxisAngle u θ).toM = (Mat34.mk (Mat3.ofAxisAngle u θ) ⟨0, 0, 0⟩).toM := by
  ext i j; fin_cases i <;> fin_cases j <;>
    simp [Mat4.ofAxisAngle, Mat3.ofAxisAngle, Mat4.toM, Mat34.toM, Mat3.optimize, Mat3.optimizeTol,
      Mat4.optimize, Mat4.optimizeTol]

private theorem pow4 {u : Vec3 ℝ} (hu : u ≠ Vec3.zero) (θ : ℝ) (n : ℕ) :
    (Mat4.ofAxisAngle u θ).toM ^ n = (Mat4.ofAxisAngle u (n * θ)).toM := by
  have add : ∀ θ φ : ℝ, (Mat4.ofAxisAngle u θ).toM * (Mat4.ofAxisAngle u φ).toM =
      (Mat4.ofAxisAngle u (θ + φ)).toM := fun θ φ => by
    have e := fun i j => congrFun (congrFun (C44_axis u hu θ φ u).2.2.2.1 i) j
    simp only [Matrix.mul_apply, Fin.sum_univ_succ] at e
    rw [axis4, axis4, axis4, border, border, border]
    ext i j; fin_cases i <;> fin_cases j <;>
      simp [Matrix.mul_apply, Fin.sum_univ_succ] <;> rw [← e] <;> simp
  induction n with
  | zero =>
    simp only [pow_zero, Nat.cast_zero, zero_mul]
    rw [axis4, border, zero_turn hu]
    ext i j; fin_cases i <;> fin_cases j <;> simp
  | succ k ih =>
    rw [pow_succ, ih, add]
    congr 2; push_cast; ring

private theorem iter3' (r A : Mat3 ℝ) (hr : ¬r.isIdentity) (hA : A.isIdentity → A.toM = 1) (n : ℕ) :
    ((fun B => B.rotatePre r)^[n] A).toM = A.toM * r.toM ^ n ∧
      (((fun B => B.rotatePre r)^[n] A).isIdentity → ((fun B => B.rotatePre r)^[n] A).toM = 1) := by
  induction n with
  | zero => simpa using hA
  | succ k ih =>
    rw [Function.iterate_succ_apply', (C36_rotate3 _ r).2.2.1, C36_mulAssign.2.1 _ _ (fun h => hr h.2)]
    refine ⟨?_, fun h => absurd h ?_⟩
    · rw [Mat3.toM_mul _ _ ih.2 (fun h => absurd h hr), ih.1, pow_succ, mul_assoc]
    · unfold Mat3.mul
      rw [if_neg hr]
      split_ifs
      · exact hr
      · intro h'
        simp only [Mat3.isIdentity, Flags.and, Bool.and_eq_true] at h'
        exact hr h'.2

private theorem iter4' (r A : Mat4 ℝ) (hr : ¬r.isIdentity) (hA : A.isIdentity → A.toM = 1) (n : ℕ) :
    ((fun B => B.transformPre r)^[n] A).toM = A.toM * r.toM ^ n ∧
      (((fun B => B.transformPre r)^[n] A).isIdentity → ((fun B => B.transformPre r)^[n] A).toM = 1) := by
  induction n with
  | zero => simpa using hA
  | succ k ih =>
    rw [Function.iterate_succ_apply', (C36_mat4 _ r).2.2.2.1 (fun h => hr h.2)]
    refine ⟨?_, fun h => absurd h ?_⟩
    · rw [Mat4.toM_mul _ _ ih.2 (fun h => absurd h hr), ih.1, pow_succ, mul_assoc]
    · unfold Mat4.mul
      rw [if_neg hr]
      split_ifs
      · exact hr
      · intro h'
        simp only [Mat4.isIdentity, Flags.and, Bool.and_eq_true] at h'
        exact hr h'.2

private theorem iter34 {u : Vec3 ℝ} (hu : u ≠ Vec3.zero) (θ : ℝ) (A : Mat34 ℝ) (n : ℕ) :
    ((fun B => B.rotateAxis u θ)^[n] A).rs = (fun B => B.rotateAxis u θ)^[n] A.rs ∧
      ((fun B => B.rotateAxis u θ)^[n] A).t = (Mat3.ofAxisAngle u (n * θ)).mulVec A.t := by
  induction n with
  | zero =>
    refine ⟨rfl, ?_⟩
    rw [← Vec3.toFn_inj, Mat3.toM_mulVec, Nat.cast_zero, zero_mul, zero_turn hu, Matrix.one_mulVec]; rfl
  | succ k ih =>
    simp only [Function.iterate_succ_apply']
    refine ⟨by rw [← ih.1]; rfl, ?_⟩
    change (Mat3.ofAxisAngle u θ).mulVec _ = _
    rw [ih.2, ← Vec3.toFn_inj, Mat3.toM_mulVec, Mat3.toM_mulVec, Mat3.toM_mulVec, Matrix.mulVec_mulVec,
      (C44_axis u hu θ (k * θ) u).2.2.2.1]
    congr 3; push_cast; ring

/-! ## The claim -/

/-- The full claim: `n` turns by `θ` are one turn by `n θ`. -/
def C144_full : Prop :=
  ∀ (u : Vec3 ℝ) (θ : ℝ) (n : ℕ), u ≠ Vec3.zero →
    (∀ A : Mat3 ℝ, (A.isIdentity → A.toM = 1) →
      ((fun B => B.rotateAxis u θ)^[n] A).toM = (Mat3.ofAxisAngle u (n * θ)).toM * A.toM) ∧
    (∀ A : Mat34 ℝ, (A.rs.isIdentity → A.rs.toM = 1) →
      ((fun B => B.rotateAxis u θ)^[n] A).rs.toM = (Mat3.ofAxisAngle u (n * θ)).toM * A.rs.toM ∧
      ((fun B => B.rotateAxis u θ)^[n] A).t = (Mat3.ofAxisAngle u (n * θ)).mulVec A.t) ∧
    (∀ A : Mat4 ℝ, (A.isIdentity → A.toM = 1) →
      ((fun B => B.rotateAxis u θ)^[n] A).toM = (Mat4.ofAxisAngle u (n * θ)).toM * A.toM)

/-- What holds: a turn too large to be flagged (`C144_threshold`) adds up exactly, in `Mat3`, `Mat34` and
`Mat4`, before and after; a flagged one never turns the axes at all, and in `Mat34` it still moves the
origin.  Missing: small turns, for which the claim is false. -/
theorem C144_turns_partial (u : Vec3 ℝ) (hu : u ≠ Vec3.zero) (θ : ℝ) (n : ℕ) :
    (1 / 1000 < 4 * (1 - Real.cos θ) →
      (∀ A : Mat3 ℝ, (A.isIdentity → A.toM = 1) →
        ((fun B => B.rotateAxis u θ)^[n] A).toM = (Mat3.ofAxisAngle u (n * θ)).toM * A.toM ∧
        ((fun B => B.rotatePreAxis u θ)^[n] A).toM = A.toM * (Mat3.ofAxisAngle u (n * θ)).toM) ∧
      (∀ A : Mat34 ℝ, (A.rs.isIdentity → A.rs.toM = 1) →
        ((fun B => B.rotateAxis u θ)^[n] A).rs.toM = (Mat3.ofAxisAngle u (n * θ)).toM * A.rs.toM ∧
        ((fun B => B.rotateAxis u θ)^[n] A).t = (Mat3.ofAxisAngle u (n * θ)).mulVec A.t) ∧
      (∀ A : Mat4 ℝ, (A.isIdentity → A.toM = 1) →
        ((fun B => B.rotateAxis u θ)^[n] A).toM = (Mat4.ofAxisAngle u (n * θ)).toM * A.toM ∧
        ((fun B => B.rotatePreAxis u θ)^[n] A).toM = A.toM * (Mat4.ofAxisAngle u (n * θ)).toM)) ∧
    (4 * (1 - Real.cos θ) ≤ 1 / 1000 →
      (∀ A : Mat3 ℝ, (fun B => B.rotateAxis u θ)^[n] A = A ∧ (fun B => B.rotatePreAxis u θ)^[n] A = A) ∧
      (∀ A : Mat34 ℝ, ((fun B => B.rotateAxis u θ)^[n] A).rs = A.rs ∧
        ((fun B => B.rotateAxis u θ)^[n] A).t = (Mat3.ofAxisAngle u (n * θ)).mulVec A.t) ∧
      (∀ A : Mat4 ℝ, (fun B => B.rotateAxis u θ)^[n] A = A ∧ (fun B => B.rotatePreAxis u θ)^[n] A = A)) := by
  obtain ⟨i3, i4⟩ := C144_threshold.1 u θ hu
  refine ⟨fun h => ?_, fun h => ?_⟩
  · have h3 : ¬(Mat3.ofAxisAngle u θ).isIdentity := fun c => (i3.1 c).not_gt h
    have h4 : ¬(Mat4.ofAxisAngle u θ).isIdentity := fun c => (i4.1 c).not_gt h
    refine ⟨fun A hA => ⟨?_, ?_⟩, fun A hA => ⟨?_, (iter34 hu θ A n).2⟩, fun A hA => ⟨?_, ?_⟩⟩
    · rw [← pow3 hu]; exact (iter3 _ A h3 hA n).1
    · rw [← pow3 hu]; exact (iter3' _ A h3 hA n).1
    · rw [(iter34 hu θ A n).1, ← pow3 hu]; exact (iter3 _ A.rs h3 hA n).1
    · rw [← pow4 hu]; exact (iter4 _ A h4 hA n).1
    · rw [← pow4 hu]; exact (iter4' _ A h4 hA n).1
  · have h3 := i3.2 h
    have h4 := i4.2 h
    have r3 : ∀ A : Mat3 ℝ, A.rotateAxis u θ = A := fun A => by
      rw [Mat3.rotateAxis, (C36_rotate3 _ _).1, Mat3.mul, if_pos h3]
    have r3' : ∀ A : Mat3 ℝ, A.rotatePreAxis u θ = A := fun A => by
      rw [Mat3.rotatePreAxis, Mat3.rotatePre, Mat3.rotatePreG, if_pos h3]
    have r4 : ∀ A : Mat4 ℝ, A.rotateAxis u θ = A := fun A => by
      rw [Mat4.rotateAxis, Mat4.transform, if_pos h4]
    have r4' : ∀ A : Mat4 ℝ, A.rotatePreAxis u θ = A := fun A => by
      rw [Mat4.rotatePreAxis, Mat4.transformPre, if_pos h4]
    refine ⟨fun A => ⟨Function.iterate_fixed (r3 A) n, Function.iterate_fixed (r3' A) n⟩,
      fun A => ⟨?_, (iter34 hu θ A n).2⟩,
      fun A => ⟨Function.iterate_fixed (r4 A) n, Function.iterate_fixed (r4' A) n⟩⟩
    rw [(iter34 hu θ A n).1]
    exact Function.iterate_fixed (r3 A.rs) n

private theorem degree : 4 * (1 - Real.cos (Real.pi / 180)) ≤ 1 / 1000 := by
  have h := Real.one_sub_sq_div_two_le_cos (x := Real.pi / 180)
  have h2 := Real.pi_lt_d2
  have h3 := Real.pi_pos
  have : (Real.pi / 180) ^ 2 ≤ (3.15 / 180) ^ 2 := by
    apply pow_le_pow_left₀ (by positivity); linarith
  norm_num at this
  linarith

/-- Turning by one degree, 180 times, about the third axis: a `Mat3` and a `Mat4` have not moved, and a
`Mat34` has been carried to the opposite side without turning. -/
theorem C144_refuted : ¬C144_full ∧
    (∀ A : Mat3 ℝ, (fun B => B.rotateAxis ⟨0, 0, 1⟩ (Real.pi / 180))^[180] A = A) ∧
    (∀ A : Mat4 ℝ, (fun B => B.rotateAxis ⟨0, 0, 1⟩ (Real.pi / 180))^[180] A = A) ∧
    (∀ (r : Mat3 ℝ) (x y z : ℝ),
      (fun B => B.rotateAxis ⟨0, 0, 1⟩ (Real.pi / 180))^[180] (Mat34.mk r ⟨x, y, z⟩) = ⟨r, ⟨-x, -y, z⟩⟩) := by
  have hu : (⟨0, 0, 1⟩ : Vec3 ℝ) ≠ Vec3.zero := by simp [Vec3.zero]
  have nu : (⟨0, 0, 1⟩ : Vec3 ℝ).normalized 1 = ⟨0, 0, 1⟩ := by simp [Vec3.normalized, Vec3.length]
  have e : ((180 : ℕ) : ℝ) * (Real.pi / 180) = Real.pi := by push_cast; ring
  obtain ⟨c3, c34, c4⟩ := (C144_turns_partial ⟨0, 0, 1⟩ hu (Real.pi / 180) 180).2 degree
  refine ⟨fun h => ?_, fun A => (c3 A).1, fun A => (c4 A).1, fun r x y z => ?_⟩
  · have := (h ⟨0, 0, 1⟩ (Real.pi / 180) 180 hu).1 Mat3.setIdentity (fun _ => by
      ext i j; fin_cases i <;> fin_cases j <;> simp [Mat3.setIdentity, Mat3.toM, Vec3.oneX, Vec3.oneY, Vec3.oneZ])
    rw [(c3 _).1, e] at this
    have := congrFun (congrFun this 0) 0
    simp [Mat3.setIdentity, Mat3.toM, Vec3.oneX, Mat3.ofAxisAngle, nu, Mat3.optimize, Mat3.optimizeTol, Matrix.mul_apply,
      Fin.sum_univ_succ] at this
    norm_num at this
  · obtain ⟨h1, h2⟩ := c34 ⟨r, ⟨x, y, z⟩⟩
    rw [e] at h2
    refine Mat34.ext h1 (h2.trans ?_)
    simp [Mat3.ofAxisAngle, nu, Mat3.mulVec, Mat3.optimize, Mat3.optimizeTol]

/-- The hypotheses of the exact case are met by turning the identity by a third of a half turn. -/
example : 1 / 1000 < 4 * (1 - Real.cos (Real.pi / 3)) ∧
    ((Mat3.setIdentity : Mat3 ℝ).isIdentity → (Mat3.setIdentity : Mat3 ℝ).toM = 1) := by
  refine ⟨by rw [Real.cos_pi_div_three]; norm_num, fun _ => ?_⟩
  ext i j; fin_cases i <;> fin_cases j <;>
    simp [Mat3.setIdentity, Mat3.toM, Vec3.oneX, Vec3.oneY, Vec3.oneZ]

/-- Where no flag is consulted the turns always add up: `Mat2::rotate` and, in its entries,
`Mat3::rotate(Coord, θ)`. -/
theorem C144_unflagged (θ : ℝ) (n : ℕ) :
    (∀ A : Mat2 ℝ, ((fun B => B.rotate θ)^[n] A).toM = (Mat2.ofAngle (n * θ)).toM * A.toM) ∧
    (∀ (c : Coord) (A : Mat3 ℝ), c = .X ∨ c = .Y ∨ c = .Z →
      ∃ B r, (fun b : Res (Mat3 ℝ) => b.bind fun B => B.rotateCoord c θ)^[n] (.ok A) = .ok B ∧
        Mat3.ofCoordAngle c (n * θ) = .ok r ∧ B.toM = r.toM * A.toM) := by
  refine ⟨fun A => ?_, fun c A hc => ?_⟩
  · induction n with
    | zero =>
      have : (Mat2.ofAngle (0 : ℝ)).toM = 1 := by
        ext i j; fin_cases i <;> fin_cases j <;>
          simp [Mat2.ofAngle, Mat2.toM, Mat2.optimize, Mat2.optimizeTol]
      simp [this]
    | succ k ih =>
      rw [Function.iterate_succ_apply', (C36_rotate2 _ θ).1, ih, ← mul_assoc,
        (C44_mat2 θ (k * θ) ⟨0, 0⟩).2.2.1]
      congr 3; push_cast; ring
  · obtain ⟨u, hu, e⟩ : ∃ u : Vec3 ℝ, u ≠ Vec3.zero ∧
        ∀ φ, ∃ M, Mat3.ofCoordAngle c φ = .ok M ∧ M.toM = (Mat3.ofAxisAngle u φ).toM := by
      rcases hc with rfl | rfl | rfl
      · exact ⟨⟨1, 0, 0⟩, by simp [Vec3.zero], fun φ => (C44_coord φ).1⟩
      · exact ⟨⟨0, 1, 0⟩, by simp [Vec3.zero], fun φ => (C44_coord φ).2.1⟩
      · exact ⟨⟨0, 0, 1⟩, by simp [Vec3.zero], fun φ => (C44_coord φ).2.2.1⟩
    induction n with
    | zero =>
      obtain ⟨M, hM, hMu⟩ := e ((0 : ℕ) * θ)
      refine ⟨A, M, rfl, hM, ?_⟩
      rw [hMu, Nat.cast_zero, zero_mul, zero_turn hu, one_mul]
    | succ k ih =>
      obtain ⟨B, r, hB, hr, hBr⟩ := ih
      obtain ⟨M, hM, hMu⟩ := e ((k + 1 : ℕ) * θ)
      obtain ⟨rθ, m, -, h1, h2, h3, -⟩ :=
        (C36_rotate3_overloads B ⟨0, 0, 0, 1⟩ u θ c).2.2.2.2.2.2.2.2.2.2 hc
      obtain ⟨M1, hM1, hM1u⟩ := e θ
      obtain ⟨M2, hM2, hM2u⟩ := e (k * θ)
      obtain rfl : rθ = M1 := by rw [h1] at hM1; injection hM1
      obtain rfl : r = M2 := by rw [hr] at hM2; injection hM2
      refine ⟨m, M, ?_, hM, ?_⟩
      · rw [Function.iterate_succ_apply', hB]; exact h2
      · rw [h3, hBr, hM1u, hM2u, hMu, ← mul_assoc, (C44_axis u hu θ (k * θ) u).2.2.2.1]
        congr 3; push_cast; ring

end
end MathLib
