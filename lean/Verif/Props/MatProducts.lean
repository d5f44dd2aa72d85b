import Verif.Proof.MatLemmas

/-! # Properties C34, C36, C37: matrix products -/

namespace MathLib
open scoped Matrix

/-! ## C34

The hypotheses say that the identity flag is only set on exact identity matrices; C35 treats the
case where it is set within a tolerance. -/

theorem C34_mat2 {K : Type} [CommRing K] (A B C : Mat2 K) (v : Vec2 K)
    (hA : A.isIdentity → A.toM = 1) (hB : B.isIdentity → B.toM = 1)
    (hC : C.isIdentity → C.toM = 1) :
    (A.mul B).toM = A.toM * B.toM ∧
    (A.mulVec v).toFn = A.toM *ᵥ v.toFn ∧
    (A.mul B).mulVec v = A.mulVec (B.mulVec v) ∧
    ((A.mul B).mul C).toM = (A.mul (B.mul C)).toM ∧
    (Mat2.vecMul v A).toFn = v.toFn ᵥ* A.toM ∧
    Mat2.vecMulAssign v A = Mat2.vecMul v A := by
  refine ⟨Mat2.toM_mul A B hA hB, Mat2.toM_mulVec A v, ?_, ?_, ?_, rfl⟩
  · rw [← Vec2.toFn_inj]
    simp only [Mat2.toM_mulVec, Mat2.toM_mul A B hA hB, Matrix.mulVec_mulVec]
  · rw [Mat2.toM_mul _ C (Mat2.exact_mul A B hA hB) hC,
      Mat2.toM_mul A _ hA (Mat2.exact_mul B C hB hC), Mat2.toM_mul A B hA hB,
      Mat2.toM_mul B C hB hC, mul_assoc]
  · ext i; fin_cases i <;>
      simp [Mat2.toM, Mat2.vecMul, Vec2.toFn, Matrix.vecMul, dotProduct, Fin.sum_univ_succ]

/-- the hypotheses allow a flagged identity next to general matrices -/
example : ∃ A B C : Mat2 ℚ, (A.isIdentity → A.toM = 1) ∧ (B.isIdentity → B.toM = 1) ∧
    (C.isIdentity → C.toM = 1) ∧ A.isIdentity ∧ ¬ B.isIdentity ∧ B.toM ≠ 1 :=
  ⟨Mat2.one, Mat2.ofCols ⟨1, 2⟩ ⟨3, 4⟩, Mat2.ofCols ⟨0, 1⟩ ⟨5, 0⟩, by decide +kernel⟩

theorem C34_mat3 {K : Type} [CommRing K] (A B C : Mat3 K) (v : Vec3 K)
    (hA : A.isIdentity → A.toM = 1) (hB : B.isIdentity → B.toM = 1)
    (hC : C.isIdentity → C.toM = 1) :
    (A.mul B).toM = A.toM * B.toM ∧
    (A.mulVec v).toFn = A.toM *ᵥ v.toFn ∧
    (A.mul B).mulVec v = A.mulVec (B.mulVec v) ∧
    ((A.mul B).mul C).toM = (A.mul (B.mul C)).toM ∧
    (Mat3.vecMul v A).toFn = v.toFn ᵥ* A.toM ∧
    Mat3.vecMulAssign v A = Mat3.vecMul v A := by
  refine ⟨Mat3.toM_mul A B hA hB, Mat3.toM_mulVec A v, ?_, ?_, ?_, rfl⟩
  · rw [← Vec3.toFn_inj]
    simp only [Mat3.toM_mulVec, Mat3.toM_mul A B hA hB, Matrix.mulVec_mulVec]
  · rw [Mat3.toM_mul _ C (Mat3.exact_mul A B hA hB) hC,
      Mat3.toM_mul A _ hA (Mat3.exact_mul B C hB hC), Mat3.toM_mul A B hA hB,
      Mat3.toM_mul B C hB hC, mul_assoc]
  · ext i; fin_cases i <;>
      simp [Mat3.toM, Mat3.vecMul, Vec3.toFn, Matrix.vecMul, dotProduct, Fin.sum_univ_succ,
        add_assoc]

example : ∃ A B C : Mat3 ℚ, (A.isIdentity → A.toM = 1) ∧ (B.isIdentity → B.toM = 1) ∧
    (C.isIdentity → C.toM = 1) ∧ A.isIdentity ∧ ¬ B.isIdentity ∧ B.toM ≠ 1 :=
  ⟨Mat3.one, Mat3.ofCols ⟨1, 2, 3⟩ ⟨3, 4, 5⟩ ⟨0, 1, 0⟩, Mat3.ofCols ⟨0, 1, 1⟩ ⟨5, 0, 2⟩ ⟨0, 0, 3⟩,
    by decide +kernel⟩

/-- Affine maps: `Mat34 * Mat34`, `Mat34 * Mat3` and `Mat34 * Vec3`. -/
theorem C34_mat34 {K : Type} [CommRing K] (A B C : Mat34 K) (m : Mat3 K) (v : Vec3 K)
    (hA : A.rs.isIdentity → A.rs.toM = 1) (hB : B.rs.isIdentity → B.rs.toM = 1)
    (hC : C.rs.isIdentity → C.rs.toM = 1) (hm : m.isIdentity → m.toM = 1) :
    (A.mul B).toM = A.toM * B.toM ∧
    A.mulVec v = A.rs.mulVec v + A.t ∧
    (A.mul B).mulVec v = A.mulVec (B.mulVec v) ∧
    ((A.mul B).mul C).toM = (A.mul (B.mul C)).toM ∧
    (A.mulMat3 m).toM = A.toM * (Mat34.mk m Vec3.zero).toM ∧
    (A.mulMat3 m).mulVec v = A.mulVec (m.mulVec v) := by
  have hAm : (A.mulMat3 m).toM = A.toM * (Mat34.mk m Vec3.zero).toM := by
    refine Mat34.block_mul A.rs m _ A.t _ _ (Mat3.toM_mul A.rs m hA hm) ?_
    ext <;> simp [Mat3.mulVec, Vec3.zero]
  refine ⟨Mat34.toM_mul A B hA hB, ?_, ?_, ?_, hAm, ?_⟩
  · ext <;> simp [Mat34.mulVec, Mat3.mulVec]
  · rw [← Vec3.toH_inj]
    simp only [Mat34.toM_mulVec, Mat34.toM_mul A B hA hB, Matrix.mulVec_mulVec]
  · rw [Mat34.toM_mul _ C (Mat3.exact_mul A.rs B.rs hA hB) hC,
      Mat34.toM_mul A (B.mul C) hA (Mat3.exact_mul B.rs C.rs hB hC), Mat34.toM_mul A B hA hB,
      Mat34.toM_mul B C hB hC, mul_assoc]
  · rw [← Vec3.toH_inj, Mat34.toM_mulVec, hAm, ← Matrix.mulVec_mulVec, ← Mat34.toM_mulVec,
      ← Mat34.toM_mulVec, Vec3.toH_inj]
    congr 1
    ext <;> simp [Mat34.mulVec, Mat3.mulVec, Vec3.zero]

example : ∃ A B : Mat34 ℚ, (A.rs.isIdentity → A.rs.toM = 1) ∧ (B.rs.isIdentity → B.rs.toM = 1) ∧
    A.rs.isIdentity ∧ A.t ≠ Vec3.zero ∧ B.rs.toM ≠ 1 :=
  ⟨⟨Mat3.one, ⟨1, 2, 3⟩⟩, ⟨Mat3.ofCols ⟨1, 2, 3⟩ ⟨3, 4, 5⟩ ⟨0, 1, 0⟩, ⟨1, 1, 1⟩⟩, by decide +kernel⟩

/-- 4×4 matrices on homogeneous vectors. -/
theorem C34_mat4 {K : Type} [CommRing K] (A B C : Mat4 K) (v : Vec4 K)
    (hA : A.isIdentity → A.toM = 1) (hB : B.isIdentity → B.toM = 1)
    (hC : C.isIdentity → C.toM = 1) :
    (A.mul B).toM = A.toM * B.toM ∧
    (A.mulVec4 v).toFn = A.toM *ᵥ v.toFn ∧
    (A.mul B).mulVec4 v = A.mulVec4 (B.mulVec4 v) ∧
    ((A.mul B).mul C).toM = (A.mul (B.mul C)).toM ∧
    A.transformVector4 v = A.mulVec4 { v with w := 0 } := by
  refine ⟨Mat4.toM_mul A B hA hB, Mat4.toM_mulVec4 A v, ?_, ?_, ?_⟩
  · rw [← Vec4.toFn_inj]
    simp only [Mat4.toM_mulVec4, Mat4.toM_mul A B hA hB, Matrix.mulVec_mulVec]
  · rw [Mat4.toM_mul _ C (Mat4.exact_mul A B hA hB) hC,
      Mat4.toM_mul A _ hA (Mat4.exact_mul B C hB hC), Mat4.toM_mul A B hA hB,
      Mat4.toM_mul B C hB hC, mul_assoc]
  · ext <;> simp [Mat4.transformVector4, Mat4.mulVec4]

/-- 4×4 matrices on points and directions (`Vec3`): `M * p` is the first three components of the
homogeneous product with `(p, 1)`, `transformVector` that with `(d, 0)`, and both compose when the
inner matrix is affine (last row `0 0 0 1`). -/
theorem C34_mat4_vec3 {K : Type} [CommRing K] (A B : Mat4 K) (v : Vec3 K)
    (hA : A.isIdentity → A.toM = 1) (hB : B.isIdentity → B.toM = 1) :
    A.mulVec3 v = (A.mulVec4 (Vec4.ofVec3 v 1)).toVec3 ∧
    A.transformVector3 v = (A.mulVec4 (Vec4.ofVec3 v 0)).toVec3 ∧
    (B.x.w = 0 → B.y.w = 0 → B.z.w = 0 → B.t.w = 1 →
      (A.mul B).mulVec3 v = A.mulVec3 (B.mulVec3 v)) ∧
    (B.x.w = 0 → B.y.w = 0 → B.z.w = 0 →
      (A.mul B).transformVector3 v = A.transformVector3 (B.transformVector3 v)) := by
  have e1 : ∀ (M : Mat4 K) (u : Vec3 K), M.mulVec3 u = (M.mulVec4 (Vec4.ofVec3 u 1)).toVec3 := by
    intro M u; ext <;> simp [Mat4.mulVec3, Mat4.mulVec4, Vec4.ofVec3, Vec4.toVec3]
  have e2 : ∀ (M : Mat4 K) (u : Vec3 K),
      M.transformVector3 u = (M.mulVec4 (Vec4.ofVec3 u 0)).toVec3 := by
    intro M u; ext <;> simp [Mat4.transformVector3, Mat4.mulVec4, Vec4.ofVec3, Vec4.toVec3]
  have hm : ∀ u, (A.mul B).mulVec4 u = A.mulVec4 (B.mulVec4 u) := fun u =>
    (C34_mat4 A B B u hA hB hB).2.2.1
  refine ⟨e1 A v, e2 A v, fun h1 h2 h3 h4 => ?_, fun h1 h2 h3 => ?_⟩
  · rw [e1, e1, hm, e1]
    congr 2
    ext <;> simp [Mat4.mulVec4, Vec4.ofVec3, Vec4.toVec3, h1, h2, h3, h4]
  · rw [e2, e2, hm, e2]
    congr 2
    ext <;> simp [Mat4.mulVec4, Vec4.ofVec3, Vec4.toVec3, h1, h2, h3]

example : ∃ A B : Mat4 ℚ, (A.isIdentity → A.toM = 1) ∧ (B.isIdentity → B.toM = 1) ∧
    A.x.w ≠ 0 ∧ B.x.w = 0 ∧ B.y.w = 0 ∧ B.z.w = 0 ∧ B.t.w = 1 ∧ B.t.x ≠ 0 :=
  ⟨Mat4.ofCols ⟨1, 2, 3, 4⟩ ⟨3, 4, 5, 0⟩ ⟨0, 1, 0, 1⟩ ⟨1, 1, 1, 1⟩,
   Mat4.ofCols ⟨1, 2, 3, 0⟩ ⟨3, 4, 5, 0⟩ ⟨0, 1, 0, 0⟩ ⟨7, 1, 1, 1⟩, by decide +kernel⟩

/-! ## C36

Entries and flags; the scalars are arbitrary, so this includes floating point. -/

theorem Flags.and_comm (f g : Flags) : f.and g = g.and f := by
  simp [Flags.and, Bool.and_comm]

/-- `A *= B`, for two different objects, leaves exactly the value of `A * B` in `A`, flags included;
if both are flagged as identities the result is `A` in one case and `B` in the other. -/
theorem C36_mulAssign {R : Type} [Add R] [Mul R] :
    (∀ A B : Mat2 R, ¬(A.isIdentity ∧ B.isIdentity) → A.mulAssign B = A.mul B) ∧
    (∀ A B : Mat3 R, ¬(A.isIdentity ∧ B.isIdentity) → A.mulAssign B = A.mul B) ∧
    (∀ A B : Mat2 R, A.isIdentity ∧ B.isIdentity → A.mulAssign B = A ∧ A.mul B = B) ∧
    (∀ A B : Mat3 R, A.isIdentity ∧ B.isIdentity → A.mulAssign B = A ∧ A.mul B = B) := by
  refine ⟨fun A B h => ?_, fun A B h => ?_, fun A B h => ?_, fun A B h => ?_⟩
  · unfold Mat2.mulAssign Mat2.mulAssignG Mat2.mul
    by_cases h1 : A.isIdentity <;> by_cases h2 : B.isIdentity <;> simp_all
  · unfold Mat3.mulAssign Mat3.mulAssignG Mat3.mul
    by_cases h1 : A.isIdentity <;> by_cases h2 : B.isIdentity <;> simp_all
  · simp [Mat2.mulAssign, Mat2.mulAssignG, Mat2.mul, h.1, h.2]
  · simp [Mat3.mulAssign, Mat3.mulAssignG, Mat3.mul, h.1, h.2]

example : ∃ A B : Mat3 ℚ, ¬(A.isIdentity ∧ B.isIdentity) ∧ A.isIdentity ∧ B ≠ A :=
  ⟨Mat3.one, Mat3.ofCols ⟨1, 2, 3⟩ ⟨3, 4, 5⟩ ⟨0, 1, 0⟩, by decide +kernel⟩

/-- `A.rotate(B)` is `B * A`, `A.rotatePre(B)` is `A * B`; `rotated`/`rotatedPre` agree with them. -/
theorem C36_rotate3 {R : Type} [Add R] [Mul R] (A B : Mat3 R) :
    A.rotate B = B.mul A ∧ A.rotated B = B.mul A ∧
    A.rotatePre B = A.mulAssign B ∧ A.rotatedPre B = A.mulAssign B := by
  refine ⟨?_, ?_, ?_, ?_⟩
  · unfold Mat3.rotate Mat3.rotateG Mat3.mul; rw [Flags.and_comm B.flags]
  · unfold Mat3.rotated Mat3.mul; rw [Flags.and_comm B.flags]
  · rfl
  · rfl

/-- The overloads taking a quaternion, an axis and an angle, or a coordinate axis are the overloads
taking a matrix, applied to the corresponding rotation matrix.  For a coordinate axis the in-place
and copying variants agree in entries and flags, and their entries are those of the product. -/
theorem C36_rotate3_overloads {K : Type} [Field K] [LinearOrder K] [IsStrictOrderedRing K]
    [MathFns K] (A : Mat3 K) (q : Quat K) (u : Vec3 K) (θ : K) (c : Coord) :
    A.rotateQuat q = A.rotate (Mat3.ofQuat q) ∧ A.rotatedQuat q = A.rotate (Mat3.ofQuat q) ∧
    A.rotatePreQuat q = A.rotatePre (Mat3.ofQuat q) ∧
    A.rotatedPreQuat q = A.rotatePre (Mat3.ofQuat q) ∧
    A.rotateAxis u θ = A.rotate (Mat3.ofAxisAngle u θ) ∧
    A.rotatedAxis u θ = A.rotate (Mat3.ofAxisAngle u θ) ∧
    A.rotatePreAxis u θ = A.rotatePre (Mat3.ofAxisAngle u θ) ∧
    A.rotatedPreAxis u θ = A.rotatePre (Mat3.ofAxisAngle u θ) ∧
    A.rotatedCoord c θ = A.rotateCoord c θ ∧ A.rotatedPreCoord c θ = A.rotatePreCoord c θ ∧
    (c = .X ∨ c = .Y ∨ c = .Z → ∃ r m n, Mat3.ofCoordAngle c θ = .ok r ∧
      A.rotateCoord c θ = .ok m ∧ m.toM = r.toM * A.toM ∧
      A.rotatePreCoord c θ = .ok n ∧ n.toM = A.toM * r.toM) := by
  refine ⟨rfl, rfl, rfl, rfl, rfl, rfl, rfl, rfl, ?_, ?_, ?_⟩
  · cases c <;> rfl
  · cases c <;> rfl
  · rintro (rfl | rfl | rfl) <;> refine ⟨_, _, _, rfl, rfl, ?_, rfl, ?_⟩ <;> ext i j <;>
      fin_cases i <;> fin_cases j <;>
      simp [Mat3.toM, Mat3.ofCols, Mat3.optimize, Mat3.optimizeTol, Matrix.mul_apply,
        Fin.sum_univ_succ] <;> ring

/-- `Mat2`: `rotate(θ)` is `R(θ) * A`, `rotatePre(θ)` is `A * R(θ)`, and `rotated` agrees with
`rotate`, flags included (`Mat2` has no `Trs` flag). -/
theorem C36_rotate2 {K : Type} [Field K] [LinearOrder K] [IsStrictOrderedRing K] [MathFns K]
    (A : Mat2 K) (θ : K) :
    (A.rotate θ).toM = (Mat2.ofAngle θ).toM * A.toM ∧
    (A.rotatePre θ).toM = A.toM * (Mat2.ofAngle θ).toM ∧
    (A.flags.trs = false → A.rotated θ = A.rotate θ) ∧
    (A.flags.trs = false → ∀ v, A.scaled v = A.scale v) := by
  refine ⟨?_, ?_, fun h => ?_, fun h v => ?_⟩
  · ext i j; fin_cases i <;> fin_cases j <;>
      simp [Mat2.toM, Mat2.rotate, Mat2.ofAngle, Mat2.optimize, Mat2.optimizeTol, Matrix.mul_apply,
        Fin.sum_univ_succ] <;> ring
  · ext i j; fin_cases i <;> fin_cases j <;>
      simp [Mat2.toM, Mat2.rotatePre, Mat2.ofAngle, Mat2.optimize, Mat2.optimizeTol,
        Matrix.mul_apply, Fin.sum_univ_succ]
  · obtain ⟨x, y, f⟩ := A
    simp only at h
    simp only [Mat2.rotated, Mat2.rotate, Mat2.optimize, Mat2.optimizeTol, h]
    rfl
  · obtain ⟨x, y, f⟩ := A
    simp only at h
    simp only [Mat2.scaled, Mat2.scale, Mat2.ofCols, Mat2.optimize, Mat2.optimizeTol, h]
    rfl

example : ∃ A : Mat2 ℚ, A.flags.trs = false ∧ A.toM ≠ 1 :=
  ⟨Mat2.ofCols ⟨1, 2⟩ ⟨3, 4⟩, by decide +kernel⟩

/-- `scale(v)` and `scaled(v)` multiply by a diagonal matrix from the right (they scale along the axes before
the rest is applied), and agree in the flags too. -/
theorem C36_scale {K : Type} [Field K] [LinearOrder K] [IsStrictOrderedRing K]
    (A : Mat2 K) (B : Mat3 K) (u : Vec2 K) (v : Vec3 K) :
    (A.scale u).toM = A.toM * Matrix.diagonal ![u.x, u.y] ∧
    (A.scaled u).toM = A.toM * Matrix.diagonal ![u.x, u.y] ∧
    (B.scale v).toM = B.toM * Matrix.diagonal ![v.x, v.y, v.z] ∧
    (B.scaled v).toM = B.toM * Matrix.diagonal ![v.x, v.y, v.z] ∧
    (B.flags.trs = false → B.scaled v = B.scale v) ∧
    (∀ w, (A.scale u).mulVec w = A.mulVec ⟨u.x * w.x, u.y * w.y⟩) ∧
    (∀ w, (B.scaled v).mulVec w = B.mulVec ⟨v.x * w.x, v.y * w.y, v.z * w.z⟩) := by
  refine ⟨?_, ?_, ?_, ?_, fun h => ?_, fun w => ?_, fun w => ?_⟩
  · ext i j; fin_cases i <;> fin_cases j <;>
      simp [Mat2.toM, Mat2.scale, Mat2.optimize, Mat2.optimizeTol, Matrix.mul_apply, Vec2.mulAssign,
        Fin.sum_univ_succ]
  · ext i j; fin_cases i <;> fin_cases j <;>
      simp [Mat2.toM, Mat2.scaled, Mat2.ofCols, Mat2.optimize, Mat2.optimizeTol, Matrix.mul_apply,
        Fin.sum_univ_succ]
  · ext i j; fin_cases i <;> fin_cases j <;>
      simp [Mat3.toM, Mat3.scale, Mat3.optimize, Mat3.optimizeTol, Matrix.mul_apply, Vec3.mulAssign,
        Fin.sum_univ_succ]
  · ext i j; fin_cases i <;> fin_cases j <;>
      simp [Mat3.toM, Mat3.scaled, Mat3.ofCols, Mat3.optimize, Mat3.optimizeTol, Matrix.mul_apply,
        Fin.sum_univ_succ]
  · obtain ⟨x, y, z, f⟩ := B
    simp only at h
    simp only [Mat3.scaled, Mat3.scale, Mat3.ofCols, Mat3.optimize, Mat3.optimizeTol, h]
    rfl
  · ext <;> simp [Mat2.mulVec, Mat2.scale, Mat2.optimize, Mat2.optimizeTol, Vec2.mulAssign] <;> ring
  · ext <;> simp [Mat3.mulVec, Mat3.scaled, Mat3.ofCols, Mat3.optimize, Mat3.optimizeTol] <;> ring

example : ∃ B : Mat3 ℚ, B.flags.trs = false ∧ B.toM ≠ 1 :=
  ⟨Mat3.ofCols ⟨1, 2, 0⟩ ⟨3, 4, 0⟩ ⟨0, 0, 2⟩, by decide +kernel⟩

/-- Affine maps: `transformPre`/`*=` is `A * B` and `transform` is `B * A`, for exact identity
flags. -/
theorem C36_mat34 {K : Type} [CommRing K] (A B : Mat34 K) (m : Mat3 K)
    (hA : A.rs.isIdentity → A.rs.toM = 1) (hB : B.rs.isIdentity → B.rs.toM = 1)
    (hm : m.isIdentity → m.toM = 1) :
    (A.transformPre B).toM = (A.mul B).toM ∧ (A.transform B).toM = (B.mul A).toM ∧
    (A.transformPreMat3 m).toM = (A.mulMat3 m).toM ∧
    (A.transformMat3 m).toM = ((Mat34.mk m Vec3.zero).mul A).toM := by
  have hma : ∀ X Y : Mat3 K, (X.isIdentity → X.toM = 1) → (Y.isIdentity → Y.toM = 1) →
      (X.mulAssign Y).toM = (X.mul Y).toM := by
    intro X Y hX hY
    by_cases h : X.isIdentity ∧ Y.isIdentity
    · obtain ⟨h1, h2⟩ := C36_mulAssign.2.2.2 X Y h
      rw [h1, h2, hX h.1, hY h.2]
    · rw [C36_mulAssign.2.1 X Y h]
  refine ⟨?_, ?_, ?_, ?_⟩
  · rw [Mat34.toM_ext]; exact ⟨hma _ _ hA hB, rfl⟩
  · rw [Mat34.toM_ext]
    refine ⟨congrArg Mat3.toM (C36_rotate3 A.rs B.rs).1, ?_⟩
    ext <;> simp [Mat34.transform, Mat34.mul, Mat34.mulVec, Mat3.mulVec] <;> ring
  · rw [Mat34.toM_ext]; exact ⟨hma _ _ hA hm, rfl⟩
  · rw [Mat34.toM_ext]
    refine ⟨congrArg Mat3.toM (C36_rotate3 A.rs m).1, ?_⟩
    ext <;> simp [Mat34.transformMat3, Mat34.mul, Vec3.zero]

/-- The other overloads of `Mat34::rotate`/`rotatePre`. -/
theorem C36_mat34_overloads {R : Type} [Zero R] [One R] [NatCast R] [Add R] [Sub R] [Mul R] [Div R]
    [Neg R] [LT R] [LE R] [DecidableLT R] [DecidableLE R] [BEq R] [MathFns R] (A : Mat34 R)
    (q : Quat R) (u : Vec3 R) (θ : R) (c : Coord) :
    A.rotateQuat q = A.transformMat3 (Mat3.ofQuat q) ∧
    A.rotateAxis u θ = A.transformMat3 (Mat3.ofAxisAngle u θ) ∧
    A.rotateCoord c θ = (Mat3.ofCoordAngle c θ).map A.transformMat3 ∧
    A.rotatePreQuat q = A.transformPreMat3 (Mat3.ofQuat q) ∧
    A.rotatePreAxis u θ = A.transformPreMat3 (Mat3.ofAxisAngle u θ) ∧
    A.rotatePreCoord c θ = (Mat3.ofCoordAngle c θ).map A.transformPreMat3 := by
  refine ⟨rfl, rfl, ?_, rfl, rfl, ?_⟩ <;> cases c <;> rfl

/-- `Mat4`: `transform`/`transformed` is `B * A` and `transformPre`/`transformedPre` is `A * B`
(flags included, with the same remark on two flagged identities), also when `B` is `A`. -/
theorem C36_mat4 {R : Type} [Add R] [Mul R] (A B : Mat4 R) :
    A.transform B = B.mul A ∧ A.transformed B = B.mul A ∧
    A.transformedPre B = A.transformPre B ∧
    (¬(A.isIdentity ∧ B.isIdentity) → A.transformPre B = A.mul B) ∧
    (A.isIdentity ∧ B.isIdentity → A.transformPre B = A ∧ A.mul B = B) := by
  refine ⟨?_, ?_, rfl, fun h => ?_, fun h => ?_⟩
  · unfold Mat4.transform Mat4.mul
    by_cases h1 : A.isIdentity <;> by_cases h2 : B.isIdentity <;> simp_all
  · unfold Mat4.transformed Mat4.mul
    by_cases h1 : A.isIdentity <;> by_cases h2 : B.isIdentity <;> simp_all
  · unfold Mat4.transformPre Mat4.mul
    by_cases h1 : A.isIdentity <;> by_cases h2 : B.isIdentity <;> simp_all
  · simp [Mat4.transformPre, Mat4.mul, h.1, h.2]

/-- The other overloads of `Mat4::rotate…`. -/
theorem C36_mat4_overloads {R : Type} [Zero R] [One R] [NatCast R] [Add R] [Sub R] [Mul R] [Div R]
    [Neg R] [LT R] [LE R] [DecidableLT R] [DecidableLE R] [BEq R] [MathFns R] (A : Mat4 R)
    (q : Quat R) (u : Vec3 R) (θ : R) (c : Coord) :
    A.rotateQuat q = A.transform (Mat4.ofQuat q Vec3.zero) ∧ A.rotatedQuat q = A.rotateQuat q ∧
    A.rotateAxis u θ = A.transform (Mat4.ofAxisAngle u θ) ∧ A.rotatedAxis u θ = A.rotateAxis u θ ∧
    A.rotateCoord c θ = (Mat4.ofCoordAngle c θ).map A.transform ∧
    A.rotatedCoord c θ = A.rotateCoord c θ ∧
    A.rotatePreQuat q = A.transformPre (Mat4.ofQuat q Vec3.zero) ∧
    A.rotatedPreQuat q = A.rotatePreQuat q ∧
    A.rotatePreAxis u θ = A.transformPre (Mat4.ofAxisAngle u θ) ∧
    A.rotatedPreAxis u θ = A.rotatePreAxis u θ ∧
    A.rotatePreCoord c θ = (Mat4.ofCoordAngle c θ).map A.transformPre ∧
    A.rotatedPreCoord c θ = A.rotatePreCoord c θ := by
  refine ⟨rfl, rfl, rfl, rfl, ?_, rfl, rfl, rfl, rfl, rfl, ?_, rfl⟩ <;> cases c <;> rfl

/-! ## C37

The claim is that `m *= m` squares `m`.  It is false: the loop-free code overwrites entries of the
argument that it still needs. -/

/-- `m *= m` does not square `m`. -/
theorem C37_refuted :
    (∃ m : Mat2 ℚ, m = Mat2.ofCols ⟨1, 1⟩ ⟨1, 0⟩ ∧ m.mulAssignSelf.toM ≠ m.toM * m.toM) ∧
    (∃ m : Mat3 ℚ, m = Mat3.ofCols ⟨1, 1, 0⟩ ⟨1, 0, 0⟩ ⟨0, 0, 1⟩ ∧
      m.mulAssignSelf.toM ≠ m.toM * m.toM ∧ m.rotateSelf.toM ≠ m.toM * m.toM ∧
      m.rotatePreSelf.toM ≠ m.toM * m.toM) ∧
    (∃ m : Mat34 ℚ, m = Mat34.ofCols ⟨1, 1, 0⟩ ⟨1, 0, 0⟩ ⟨0, 0, 1⟩ ⟨0, 0, 0⟩ ∧
      m.transformPreSelf.toM ≠ m.toM * m.toM ∧ m.transformSelf.toM ≠ m.toM * m.toM) :=
  ⟨⟨_, rfl, by decide +kernel⟩, ⟨_, rfl, by decide +kernel⟩, ⟨_, rfl, by decide +kernel⟩⟩

/-- What remains true.  2×2: exactly when `m *= m` squares `m`. -/
theorem C37_mat2_partial {K : Type} [CommRing K] (m : Mat2 K) (hm : m.isIdentity = false) :
    m.mulAssignSelf.toM = m.toM * m.toM ↔
      m.x.y * (m.x.x * m.x.x + m.y.x * m.x.y) = m.x.y * m.x.x ∧
      m.x.y * (m.x.x * m.y.x + m.y.x * m.y.y) = m.x.y * m.y.x := by
  have h1 : m.mulAssignSelf.toM =
      !![m.x.x * m.x.x + m.y.x * m.x.y, m.x.x * m.y.x + m.y.x * m.y.y;
        m.x.y * (m.x.x * m.x.x + m.y.x * m.x.y) + m.y.y * m.x.y,
        m.x.y * (m.x.x * m.y.x + m.y.x * m.y.y) + m.y.y * m.y.y] := by
    simp [Mat2.mulAssignSelf, Mat2.mulAssignG, hm, Mat2.toM]
  have h2 : m.toM * m.toM =
      !![m.x.x * m.x.x + m.y.x * m.x.y, m.x.x * m.y.x + m.y.x * m.y.y;
        m.x.y * m.x.x + m.y.y * m.x.y, m.x.y * m.y.x + m.y.y * m.y.y] := by
    ext i j; fin_cases i <;> fin_cases j <;> simp [Mat2.toM, Matrix.mul_apply, Fin.sum_univ_succ]
  rw [h1, h2]
  constructor
  · intro h
    have a := congrFun (congrFun h 1) 0
    have b := congrFun (congrFun h 1) 1
    simp only [Matrix.of_apply, Matrix.cons_val_zero, Matrix.cons_val_one] at a b
    exact ⟨by simpa using a, by simpa using b⟩
  · rintro ⟨a, b⟩; rw [a, b]

/-- What remains true: upper triangular matrices are squared, and a (truthfully) flagged identity is
kept.  Missing: all other matrices, for which the claim is false in general. -/
theorem C37_triangular_partial {K : Type} [CommRing K] :
    (∀ m : Mat2 K, (m.isIdentity → m.toM = 1) → m.x.y = 0 → m.mulAssignSelf.toM = m.toM * m.toM) ∧
    (∀ m : Mat3 K, (m.isIdentity → m.toM = 1) → m.x.y = 0 → m.x.z = 0 → m.y.z = 0 →
      m.mulAssignSelf.toM = m.toM * m.toM ∧ m.rotatePreSelf.toM = m.toM * m.toM) ∧
    (∀ m : Mat34 K, (m.rs.isIdentity → m.rs.toM = 1) → m.rs.x.y = 0 → m.rs.x.z = 0 →
      m.rs.y.z = 0 → m.transformPreSelf.toM = m.toM * m.toM) := by
  have h3 : ∀ m : Mat3 K, (m.isIdentity → m.toM = 1) → m.x.y = 0 → m.x.z = 0 → m.y.z = 0 →
      m.mulAssignSelf.toM = m.toM * m.toM := by
    intro m hm h1 h2 h3
    by_cases h : m.isIdentity
    · simp [Mat3.mulAssignSelf, Mat3.mulAssignG, h, hm h]
    · ext i j
      fin_cases i <;> fin_cases j <;>
        simp [Mat3.mulAssignSelf, Mat3.mulAssignG, h, Mat3.toM, Matrix.mul_apply,
          Fin.sum_univ_succ, h1, h2, h3, add_assoc]
  refine ⟨fun m hm h1 => ?_, fun m hm h1 h2 h4 => ⟨h3 m hm h1 h2 h4, h3 m hm h1 h2 h4⟩,
    fun m hm h1 h2 h4 => ?_⟩
  · by_cases h : m.isIdentity
    · simp [Mat2.mulAssignSelf, Mat2.mulAssignG, h, hm h]
    · rw [C37_mat2_partial m (by simpa using h)]; simp [h1]
  · exact Mat34.block_mul m.rs m.rs _ m.t m.t _ (h3 m.rs hm h1 h2 h4) rfl

example : ∃ m : Mat3 ℚ, (m.isIdentity → m.toM = 1) ∧ m.x.y = 0 ∧ m.x.z = 0 ∧ m.y.z = 0 ∧
    m.z.x ≠ 0 ∧ m.toM * m.toM ≠ m.toM :=
  ⟨Mat3.ofCols ⟨1, 0, 0⟩ ⟨3, 4, 0⟩ ⟨2, 1, 5⟩, by decide +kernel⟩

/-- `Mat4` forms the product in a local object, so squaring in place is correct there. -/
theorem C37_mat4 {K : Type} [CommRing K] (m : Mat4 K) (hm : m.isIdentity → m.toM = 1) :
    (m.transform m).toM = m.toM * m.toM ∧ (m.transformPre m).toM = m.toM * m.toM := by
  obtain ⟨h1, -, -, h2, h3⟩ := C36_mat4 m m
  refine ⟨by rw [h1]; exact Mat4.toM_mul m m hm hm, ?_⟩
  by_cases h : m.isIdentity
  · rw [(h3 ⟨h, h⟩).1, hm h, one_mul]
  · rw [h2 (fun k => h k.1)]; exact Mat4.toM_mul m m hm hm

end MathLib
