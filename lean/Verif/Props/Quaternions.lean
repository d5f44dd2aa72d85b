import Verif.Props.Rotations

/-! # Properties C50–C53, C58: quaternion algebra, rotation, axis/angle, matrices, division -/

namespace MathLib
open scoped Matrix Quaternion

/-! ## C50 -/

theorem C50_product {K : Type} [CommRing K] (p q r : Quat K) :
    (p.mul q).toQ = p.toQ * q.toQ ∧ (Quat.identity : Quat K).toQ = 1 ∧ p.inverse.toQ = star p.toQ ∧
    p.neg.toQ = -p.toQ ∧
    (p.mul q).mul r = p.mul (q.mul r) ∧ p.mul Quat.identity = p ∧ Quat.identity.mul p = p ∧
    Quaternion.normSq (p.mul q).toQ = Quaternion.normSq p.toQ * Quaternion.normSq q.toQ ∧
    (p.IsUnit ↔ Quaternion.normSq p.toQ = 1) ∧
    (p.IsUnit → p.mul p.inverse = Quat.identity ∧ p.inverse.mul p = Quat.identity ∧
      p.inverse.IsUnit) := by
  have hm : ∀ p q : Quat K, (p.mul q).toQ = p.toQ * q.toQ := fun p q => by
    ext <;> simp [Quat.mul] <;> ring
  have h1 : (Quat.identity : Quat K).toQ = 1 := by ext <;> simp [Quat.identity]
  refine ⟨hm p q, h1, ?_, ?_, ?_, ?_, ?_, ?_, ?_, ?_⟩
  · ext <;> simp [Quat.inverse]
  · ext <;> simp [Quat.neg]
  · rw [← Quat.toQ_inj, hm, hm, hm, hm, mul_assoc]
  · rw [← Quat.toQ_inj, hm, h1, mul_one]
  · rw [← Quat.toQ_inj, hm, h1, one_mul]
  · rw [hm, map_mul]
  · rw [Quaternion.normSq_def']
    simp only [Quat.toQ_re, Quat.toQ_imI, Quat.toQ_imJ, Quat.toQ_imK, Quat.IsUnit]
    constructor <;> intro h <;> linear_combination h
  · intro h
    unfold Quat.IsUnit at h
    refine ⟨?_, ?_, ?_⟩
    · ext <;> simp [Quat.mul, Quat.inverse, Quat.identity]
      · ring
      · ring
      · ring
      · linear_combination h
    · ext <;> simp [Quat.mul, Quat.inverse, Quat.identity]
      · ring
      · ring
      · ring
      · linear_combination h
    · simp [Quat.IsUnit, Quat.inverse, h]

/-- `normalize` gives a unit quaternion, positively proportional to a non-zero argument. -/
theorem C50_normalize (q : Quat ℝ) :
    q.normalize.IsUnit ∧ (q.IsUnit → q.normalize = q) ∧
    (q ≠ ⟨0, 0, 0, 0⟩ → ∃ k : ℝ, 0 < k ∧ q.normalize.toQ = k • q.toQ) := by
  set n2 := q.x * q.x + q.y * q.y + q.z * q.z + q.w * q.w with hn2
  have h0 : 0 ≤ n2 := by
    have := mul_self_nonneg q.x; have := mul_self_nonneg q.y; have := mul_self_nonneg q.z
    have := mul_self_nonneg q.w
    linarith
  by_cases hz : n2 = 0
  · have e : q.normalize = Quat.identity := by simp [Quat.normalize, ← hn2, hz]
    refine ⟨by simp [e, Quat.identity, Quat.IsUnit], fun hu => ?_, fun hq => absurd ?_ hq⟩
    · unfold Quat.IsUnit at hu; exfalso; linarith
    · have e1 := mul_self_nonneg q.x; have e2 := mul_self_nonneg q.y
      have e3 := mul_self_nonneg q.z; have e4 := mul_self_nonneg q.w
      ext
      · exact mul_self_eq_zero.1 (by linarith)
      · exact mul_self_eq_zero.1 (by linarith)
      · exact mul_self_eq_zero.1 (by linarith)
      · exact mul_self_eq_zero.1 (by linarith)
  · have hpos : 0 < n2 := lt_of_le_of_ne h0 (Ne.symm hz)
    have hs : 0 < Real.sqrt n2 := Real.sqrt_pos.2 hpos
    have hsq := Real.sq_sqrt h0
    have e : q.normalize = ⟨q.x * (1 / Real.sqrt n2), q.y * (1 / Real.sqrt n2),
        q.z * (1 / Real.sqrt n2), q.w * (1 / Real.sqrt n2)⟩ := by
      simp [Quat.normalize, ← hn2, hs.ne']
    refine ⟨?_, fun hu => ?_, fun _ => ⟨1 / Real.sqrt n2, by positivity, ?_⟩⟩
    · rw [e]
      simp only [Quat.IsUnit]
      field_simp
      rw [hsq, hn2]; ring
    · have : n2 = 1 := by unfold Quat.IsUnit at hu; linarith
      rw [e, this]; simp
    · rw [e]; ext <;> simp [mul_comm]

example : (⟨1/2, 1/2, 1/2, 1/2⟩ : Quat ℚ).IsUnit := by norm_num [Quat.IsUnit]

/-! ## C51 -/

theorem C51_rotated {K : Type} [Field K] [LinearOrder K] [IsStrictOrderedRing K] (p q : Quat K)
    (hp : p.IsUnit) (hq : q.IsUnit) (v w : Vec3 K) :
    (q.rotated v).toQ = q.toQ * v.toQ * star q.toQ ∧
    (q.rotated v).lengthSqr = v.lengthSqr ∧
    (q.rotated v).dot (q.rotated w) = v.dot w ∧
    (q.rotated v).cross (q.rotated w) = q.rotated (v.cross w) ∧
    (p.mul q).rotated v = p.rotated (q.rotated v) ∧
    q.rotatedCoord .X = .ok (q.rotated ⟨1, 0, 0⟩) ∧ q.rotatedCoord .Y = .ok (q.rotated ⟨0, 1, 0⟩) ∧
    q.rotatedCoord .Z = .ok (q.rotated ⟨0, 0, 1⟩) ∧
    (∀ c, c ∉ [Coord.X, .Y, .Z] → q.rotatedCoord c = .error .assertion) ∧
    (q.rotated v).toFn = (Mat3.ofQuat q).toM *ᵥ v.toFn := by
  have hr : ∀ q : Quat K, q.IsUnit → ∀ v, (q.rotated v).toFn = q.rot *ᵥ v.toFn := fun q hq v => by
    rw [Quat.rotated, Mat3.toM_mulVec, Quat.ofQuat_toM q hq]
  have hR := hq.rotation
  have hx : ∀ v, (q.rotated v).x = q.rot 0 0 * v.x + q.rot 0 1 * v.y + q.rot 0 2 * v.z := fun v => by
    have := congrFun (hr q hq v) 0
    simpa [Vec3.toFn, Matrix.mulVec, dotProduct, Fin.sum_univ_succ, add_assoc] using this
  have hy : ∀ v, (q.rotated v).y = q.rot 1 0 * v.x + q.rot 1 1 * v.y + q.rot 1 2 * v.z := fun v => by
    have := congrFun (hr q hq v) 1
    simpa [Vec3.toFn, Matrix.mulVec, dotProduct, Fin.sum_univ_succ, add_assoc] using this
  have hz : ∀ v, (q.rotated v).z = q.rot 2 0 * v.x + q.rot 2 1 * v.y + q.rot 2 2 * v.z := fun v => by
    have := congrFun (hr q hq v) 2
    simpa [Vec3.toFn, Matrix.mulVec, dotProduct, Fin.sum_univ_succ, add_assoc] using this
  have hdot : ∀ v w : Vec3 K, (q.rotated v).dot (q.rotated w) = v.dot w := by
    intro v w
    have d : ∀ a b : Vec3 K, a.dot b = a.toFn ⬝ᵥ b.toFn := fun a b => by
      simp [Vec3.dot, Vec3.toFn, dotProduct, Fin.sum_univ_succ, add_assoc]
    rw [d, d, hr q hq, hr q hq, Matrix.dotProduct_mulVec, ← Matrix.mulVec_transpose, Matrix.mulVec_mulVec,
      hR.1, Matrix.one_mulVec]
  refine ⟨Quat.rot_conj q v _ (hr q hq v), ?_, hdot v w, ?_, ?_, ?_, ?_, ?_, ?_, ?_⟩
  · have := hdot v v
    simpa [Vec3.dot, Vec3.lengthSqr] using this
  · unfold Quat.IsUnit at hq
    ext <;> simp only [Vec3.cross, hx, hy, hz] <;> simp [Quat.rot]
    · linear_combination (-((q.w * q.w + q.x * q.x - q.y * q.y - q.z * q.z) * (w.y * v.z - v.y * w.z) +
        2 * (q.x * q.y - q.w * q.z) * (v.x * w.z - w.x * v.z) +
        2 * (q.z * q.x + q.w * q.y) * (w.x * v.y - v.x * w.y))) * hq
    · linear_combination (-((q.w * q.w - q.x * q.x + q.y * q.y - q.z * q.z) * (v.x * w.z - w.x * v.z) +
        2 * (q.x * q.y + q.w * q.z) * (w.y * v.z - v.y * w.z) +
        2 * (q.y * q.z - q.w * q.x) * (w.x * v.y - v.x * w.y))) * hq
    · linear_combination (-((q.w * q.w - q.x * q.x - q.y * q.y + q.z * q.z) * (w.x * v.y - v.x * w.y) +
        2 * (q.z * q.x - q.w * q.y) * (w.y * v.z - v.y * w.z) +
        2 * (q.y * q.z + q.w * q.x) * (v.x * w.z - w.x * v.z))) * hq
  · rw [← Vec3.toFn_inj, hr _ (hp.mul hq), Quat.rot_mul, ← Matrix.mulVec_mulVec, ← hr q hq, ← hr p hp]
  · simp only [Quat.rotatedCoord]; congr 1
    ext <;> simp [Quat.rotated, Mat3.mulVec, Mat3.ofQuat, Mat3.optimize, Mat3.optimizeTol] <;> ring
  · simp only [Quat.rotatedCoord]; congr 1
    ext <;> simp [Quat.rotated, Mat3.mulVec, Mat3.ofQuat, Mat3.optimize, Mat3.optimizeTol] <;> ring
  · simp only [Quat.rotatedCoord]; congr 1
    ext <;> simp [Quat.rotated, Mat3.mulVec, Mat3.ofQuat, Mat3.optimize, Mat3.optimizeTol] <;> ring
  · intro c hc; cases c <;> first | rfl | exact absurd (by simp) hc
  · rw [Quat.rotated, Mat3.toM_mulVec]

/-- `operator*(const Vec3&)` is not that rotation: it is the vector part of the product `q v`, without
the conjugate on the right. -/
theorem C51_operator (q : Quat ℝ) (v : Vec3 ℝ) :
    (q.mulVec v).toQ = (q.toQ * v.toQ).im ∧
    (∃ (q : Quat ℝ) (v : Vec3 ℝ), q.IsUnit ∧ q.mulVec v ≠ q.rotated v) := by
  constructor
  · ext <;> simp [Quat.mulVec]; ring
  · refine ⟨⟨1, 0, 0, 0⟩, ⟨1, 0, 0⟩, by simp [Quat.IsUnit], fun h => ?_⟩
    have := congrArg Vec3.x h
    norm_num [Quat.mulVec, Quat.rotated, Mat3.mulVec, Mat3.ofQuat, Mat3.optimize,
      Mat3.optimizeTol] at this

/-! ## C52 -/

theorem C52_construct (a : Vec3 ℝ) (θ φ : ℝ) :
    (Quat.ofAxisAngle a θ).IsUnit ∧
    (a ≠ Vec3.zero → (Mat3.ofQuat (Quat.ofAxisAngle a θ)).toM = (Mat3.ofAxisAngle a θ).toM ∧
      ∀ v, (Quat.ofAxisAngle a θ).rotated v = rodrigues (a.normalized 1) θ v) ∧
    (a = Vec3.zero → Quat.ofAxisAngle a θ = Quat.identity) ∧
    (Quat.ofAxisAngle a θ).mul (Quat.ofAxisAngle a φ) = Quat.ofAxisAngle a (θ + φ) := by
  refine ⟨Quat.ofAxisAngle_unit a θ, fun h => ?_, fun h => ?_, Quat.ofAxisAngle_mul a θ φ⟩
  · have e : (Mat3.ofQuat (Quat.ofAxisAngle a θ)).toM = (Mat3.ofAxisAngle a θ).toM := by
      rw [Quat.ofQuat_toM _ (Quat.ofAxisAngle_unit a θ), Quat.ofAxisAngle_rot h]
    refine ⟨e, fun v => ?_⟩
    rw [← Mat3.ofAxisAngle_mulVec h, ← Vec3.toFn_inj, Quat.rotated, Mat3.toM_mulVec, Mat3.toM_mulVec, e]
  · have := (C22_length_norm.2.1 a).2 h
    simp [Quat.ofAxisAngle, this]

/-- The extraction loses rotations whose vector part is shorter than 1e-3: they come out as the
rotation by angle 0. -/
theorem C52_extract_refuted :
    ∃ q : Quat ℝ, q.IsUnit ∧ q.toAxisAngle = .ok (⟨1, 0, 0⟩, 0) ∧
      Quat.ofAxisAngle ⟨1, 0, 0⟩ 0 ≠ q ∧ q.rotated ⟨0, 1, 0⟩ ≠ ⟨0, 1, 0⟩ := by
  refine ⟨⟨20000 / 100000001, 0, 0, 99999999 / 100000001⟩, ?_, ?_, ?_, ?_⟩
  · norm_num [Quat.IsUnit]
  · norm_num [Quat.toAxisAngle, Vec3.oneX]
  · intro h
    have := congrArg Quat.x h
    norm_num [Quat.ofAxisAngle, Vec3.length, Quat.identity] at this
  · intro h
    have := congrArg Vec3.z h
    norm_num [Quat.rotated, Mat3.mulVec, Mat3.ofQuat, Mat3.optimize, Mat3.optimizeTol] at this

/-- What remains: extraction never fails on a unit quaternion and always returns a unit axis; the
quaternion is rebuilt exactly if its vector part is longer than 1e-3; otherwise the quaternion or its
negative (the same rotation) is within `1.5e-3` of the identity that is rebuilt.
Missing: exactness for small angles, which is false. -/
theorem C52_extract_partial (q : Quat ℝ) (hq : q.IsUnit) :
    ∃ axis angle, q.toAxisAngle = .ok (axis, angle) ∧ axis.length = 1 ∧ 0 ≤ angle ∧
      angle ≤ 2 * Real.pi ∧
      (8796093 / 8796093022208 < q.x ^ 2 + q.y ^ 2 + q.z ^ 2 → Quat.ofAxisAngle axis angle = q) ∧
      (q.x ^ 2 + q.y ^ 2 + q.z ^ 2 ≤ 8796093 / 8796093022208 → Quat.ofAxisAngle axis angle = Quat.identity ∧
        q.x ^ 2 + q.y ^ 2 + q.z ^ 2 + (|q.w| - 1) ^ 2 ≤ 2 / 1000000) := by
  unfold Quat.IsUnit at hq
  have h1 : -1 ≤ q.w := by nlinarith [sq_nonneg q.x, sq_nonneg q.y, sq_nonneg q.z]
  have h2 : q.w ≤ 1 := by nlinarith [sq_nonneg q.x, sq_nonneg q.y, sq_nonneg q.z]
  have e1 : q.x * q.x + q.y * q.y + q.z * q.z = q.x ^ 2 + q.y ^ 2 + q.z ^ 2 := by ring
  have e2 : 1 - q.w * q.w = q.x ^ 2 + q.y ^ 2 + q.z ^ 2 := by linear_combination -hq
  unfold Quat.toAxisAngle
  rw [if_pos ⟨h1, h2⟩]
  simp only [e1, e2]
  by_cases hb : 8796093 / 8796093022208 < q.x ^ 2 + q.y ^ 2 + q.z ^ 2
  · have hpos : 0 < q.x ^ 2 + q.y ^ 2 + q.z ^ 2 := lt_trans (by norm_num) hb
    rw [if_pos ⟨by norm_num at hb ⊢; exact hb, hpos⟩]
    set r := Real.sqrt (q.x ^ 2 + q.y ^ 2 + q.z ^ 2) with hr
    have hr0 : 0 < r := Real.sqrt_pos.2 hpos
    have hrs : r ^ 2 = q.x ^ 2 + q.y ^ 2 + q.z ^ 2 := Real.sq_sqrt hpos.le
    have hl : (⟨q.x * (1 / r), q.y * (1 / r), q.z * (1 / r)⟩ : Vec3 ℝ).length = 1 := by
      have : q.x * (1 / r) * (q.x * (1 / r)) + q.y * (1 / r) * (q.y * (1 / r)) +
          q.z * (1 / r) * (q.z * (1 / r)) = 1 := by
        field_simp; rw [hrs]
      simp only [Vec3.length, real_sqrt, this, Real.sqrt_one]
    have hn : ((⟨q.x * (1 / r), q.y * (1 / r), q.z * (1 / r)⟩ : Vec3 ℝ).normalize 1).1 =
        ⟨q.x * (1 / r), q.y * (1 / r), q.z * (1 / r)⟩ := by
      rw [(C22_normalize3 _ 1).1]
      simp only [Vec3.normalized, hl]; simp
    have ha : acos' q.w = Real.arccos q.w := by
      simp [acos', not_lt.2 h1, not_lt.2 h2]
    refine ⟨_, _, rfl, ?_, ?_, ?_, fun _ => ?_, fun h => absurd hb (not_lt.2 h)⟩
    · simp only [real_sqrt, ← hr, hn, hl]
    · rw [ha]; have := Real.arccos_nonneg q.w; positivity
    · rw [ha]; have := Real.arccos_le_pi q.w; linarith
    · have e3 : (2 * Real.arccos q.w) / 2 = Real.arccos q.w := by ring
      have e4 : 2 * Real.arccos q.w * (1 / 2) = Real.arccos q.w := by ring
      simp only [real_sqrt, ← hr, hn]
      simp only [Quat.ofAxisAngle, hl, ha, real_sin, real_cos, e4, Real.cos_arccos h1 h2,
        Real.sin_arccos]
      have e5 : 1 - q.w ^ 2 = q.x ^ 2 + q.y ^ 2 + q.z ^ 2 := by linear_combination -hq
      rw [e5, ← hr]
      ext <;> simp <;> field_simp
  · rw [if_neg (fun h => hb (by have := h.1; norm_num at this ⊢; exact this))]
    refine ⟨_, _, rfl, ?_, le_refl _, by positivity, fun h => absurd h hb, fun h => ⟨?_, ?_⟩⟩
    · simp [Vec3.oneX, Vec3.length]
    · simp [Vec3.oneX, Vec3.length, Quat.ofAxisAngle, Quat.identity]
    · have h3 : |q.w| ≤ 1 := abs_le.2 ⟨h1, h2⟩
      have h4 : |q.w| ^ 2 = q.w ^ 2 := sq_abs _
      nlinarith [abs_nonneg q.w]

/-! ## C58 -/

/-- `operator/` multiplies instead of dividing. -/
theorem C58_refuted :
    ∃ a q : Quat ℝ, a.IsUnit ∧ q.IsUnit ∧ (a.div q).mul q ≠ a ∧ q.div q ≠ Quat.identity := by
  refine ⟨⟨0, 0, 0, 1⟩, ⟨3/5, 0, 0, 4/5⟩, by simp [Quat.IsUnit], by norm_num [Quat.IsUnit], ?_, ?_⟩
  · intro h
    have h1 : Real.sqrt (3 / 5 * (3 / 5) + 4 / 5 * (4 / 5)) = 1 := by norm_num
    have := congrArg Quat.x h
    norm_num [Quat.div, Quat.mul, Quat.mk', Quat.normalize, h1] at this
  · intro h
    have := congrArg Quat.x h
    norm_num [Quat.div, Quat.mul, Quat.mk', Quat.normalize, Quat.identity] at this

/-- Exactly when division by a unit quaternion is what it should be: the divisor is real or pure.
Missing: all other divisors, for which it is false. -/
theorem C58_partial (a q : Quat ℝ) (ha : a.IsUnit) (hq : q.IsUnit) :
    (a.div q).mul q = a ↔ q.w = 0 ∨ (q.x = 0 ∧ q.y = 0 ∧ q.z = 0) := by
  have hr : Quat.mk' (-q.x) (-q.y) (-q.z) q.w true = ⟨-q.x, -q.y, -q.z, q.w⟩ := by
    simp only [Quat.mk', if_true]
    exact (C50_normalize _).2.1 (by unfold Quat.IsUnit at hq ⊢; simpa using hq)
  set D := q.w ^ 2 - (q.x ^ 2 + q.y ^ 2 + q.z ^ 2) with hD
  -- `a / q = (a q) / D`, hence `(a / q) q = a q² / D`
  have hdiv : (a.div q).mul q = ⟨(a.mul (q.mul q)).x / D, (a.mul (q.mul q)).y / D,
      (a.mul (q.mul q)).z / D, (a.mul (q.mul q)).w / D⟩ := by
    have hs : 1 / (q.w * q.w - -q.x * -q.x - -q.y * -q.y - -q.z * -q.z) = 1 / D := by
      congr 1; rw [hD]; ring
    simp only [Quat.div, hr, hs]
    ext <;> simp only [Quat.mul] <;> ring
  unfold Quat.IsUnit at ha hq
  rw [hdiv]
  constructor
  · intro h
    have hx := congrArg Quat.x h
    have hy := congrArg Quat.y h
    have hz := congrArg Quat.z h
    have hw := congrArg Quat.w h
    have hD0 : D ≠ 0 := by
      intro h0
      rw [h0] at hx hy hz hw
      simp at hx hy hz hw
      rw [← hx, ← hy, ← hz, ← hw] at ha
      norm_num at ha
    simp only at hx hy hz hw
    rw [div_eq_iff hD0] at hx hy hz hw
    simp only [Quat.mul] at hx hy hz hw
    -- q² = D: compare the vector part, multiplying by the conjugate of `a`
    have kx : 2 * q.w * q.x = 0 := by
      linear_combination a.w * hx - a.x * hw - a.y * hz + a.z * hy - 2 * q.w * q.x * ha
    have ky : 2 * q.w * q.y = 0 := by
      linear_combination a.w * hy - a.y * hw - a.z * hx + a.x * hz - 2 * q.w * q.y * ha
    have kz : 2 * q.w * q.z = 0 := by
      linear_combination a.w * hz - a.z * hw - a.x * hy + a.y * hx - 2 * q.w * q.z * ha
    by_cases hw0 : q.w = 0
    · exact Or.inl hw0
    · right
      refine ⟨?_, ?_, ?_⟩
      · simpa [hw0] using kx
      · simpa [hw0] using ky
      · simpa [hw0] using kz
  · rintro (h | ⟨h1, h2, h3⟩)
    · have hD1 : D = -1 := by rw [hD]; rw [h] at hq ⊢; linear_combination -hq
      rw [hD1]
      rw [h] at hq
      ext <;> simp only [Quat.mul, h]
      · linear_combination a.x * hq
      · linear_combination a.y * hq
      · linear_combination a.z * hq
      · linear_combination a.w * hq
    · have hD1 : D = 1 := by rw [hD]; rw [h1, h2, h3] at hq ⊢; linear_combination hq
      rw [hD1]
      rw [h1, h2, h3] at hq
      ext <;> simp only [Quat.mul, h1, h2, h3]
      · linear_combination a.x * hq
      · linear_combination a.y * hq
      · linear_combination a.z * hq
      · linear_combination a.w * hq

example : (⟨1, 0, 0, 0⟩ : Quat ℝ).IsUnit ∧ (⟨1, 0, 0, 0⟩ : Quat ℝ).w = 0 := by simp [Quat.IsUnit]

end MathLib
