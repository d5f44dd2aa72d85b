import Verif.Props.Quaternions
import Mathlib.Analysis.Normed.Algebra.QuaternionExponential

/-! # Properties C54, C57, C59: quaternion from two directions, `slerpMaxAngle`, log/exp -/

namespace MathLib
open scoped Matrix Quaternion

/-! ## C54 -/

/-- Opposite directions give the identity rotation (`w = -1`), and nearly equal but different
directions give the identity as well. -/
theorem C54_refuted :
    (∃ a b : Vec3 ℝ, a ≠ Vec3.zero ∧ b ≠ Vec3.zero ∧ a = -b ∧
      (Quat.ofVecs a b).rotated (a.normalized 1) = a.normalized 1 ∧ a.normalized 1 ≠ b.normalized 1) ∧
    (∃ a b : Vec3 ℝ, a ≠ Vec3.zero ∧ b ≠ Vec3.zero ∧ 0 < a.dot b ∧
      (Quat.ofVecs a b).rotated (a.normalized 1) ≠ b.normalized 1) := by
  have n1 : (⟨1, 0, 0⟩ : Vec3 ℝ).normalized 1 = ⟨1, 0, 0⟩ := by
    simp [Vec3.normalized, Vec3.length]
  have n2 : (⟨-1, 0, 0⟩ : Vec3 ℝ).normalized 1 = ⟨-1, 0, 0⟩ := by
    simp [Vec3.normalized, Vec3.length]
  have n3 : (⟨999999 / 1000001, 2000 / 1000001, 0⟩ : Vec3 ℝ).normalized 1 =
      ⟨999999 / 1000001, 2000 / 1000001, 0⟩ := by
    norm_num [Vec3.normalized, Vec3.length]
  refine ⟨⟨⟨1, 0, 0⟩, ⟨-1, 0, 0⟩, ?_, ?_, ?_, ?_, ?_⟩,
    ⟨⟨1, 0, 0⟩, ⟨999999 / 1000001, 2000 / 1000001, 0⟩, ?_, ?_, ?_, ?_⟩⟩
  · simp [Vec3.zero]
  · simp [Vec3.zero]
  · ext <;> simp
  · rw [n1]
    norm_num [Quat.ofVecs, n1, n2, Vec3.dot, Quat.rotated, Mat3.mulVec, Mat3.ofQuat, Mat3.optimize,
      Mat3.optimizeTol]
  · rw [n1, n2]; norm_num
  · simp [Vec3.zero]
  · simp [Vec3.zero]
  · norm_num [Vec3.dot]
  · rw [n1, n3]
    norm_num [Quat.ofVecs, n1, n3, Vec3.dot, Quat.rotated, Mat3.mulVec, Mat3.ofQuat, Mat3.optimize,
      Mat3.optimizeTol]

/-- Always a unit quaternion for non-null vectors.  Exact unless the cosine of the angle between the
vectors is beyond `±0.99999`; above, the directions differ by less than `√2e-5` and the identity is
returned.  Below `-0.99999` the claim is false (`C54_refuted`): `-1` is returned, which turns nothing, so
that every direction stays where it is, up to `√2e-5` opposite to the one asked for. -/
theorem C54_partial (a b : Vec3 ℝ) (ha : a ≠ Vec3.zero) (hb : b ≠ Vec3.zero) :
    let f := a.normalized 1
    let t := b.normalized 1
    (Quat.ofVecs a b).IsUnit ∧
    (|f.dot t| ≤ 99999 / 100000 → (Quat.ofVecs a b).rotated f = t ∧
      (Quat.ofVecs a b).rotated a = t * a.length) ∧
    (99999 / 100000 < f.dot t → Quat.ofVecs a b = Quat.identity ∧
      (f.x - t.x) ^ 2 + (f.y - t.y) ^ 2 + (f.z - t.z) ^ 2 < 2 / 100000) ∧
    (f.dot t < -(99999 / 100000) → (∀ v, (Quat.ofVecs a b).rotated v = v) ∧
      (Quat.ofVecs a b).rotated f ≠ t ∧
      (f.x + t.x) ^ 2 + (f.y + t.y) ^ 2 + (f.z + t.z) ^ 2 < 2 / 100000) := by
  obtain ⟨hf, hfa, -⟩ := Vec3.normalized_unit ha
  obtain ⟨ht, -, -⟩ := Vec3.normalized_unit hb
  intro f t
  change f.x ^ 2 + f.y ^ 2 + f.z ^ 2 = 1 at hf
  change t.x ^ 2 + t.y ^ 2 + t.z ^ 2 = 1 at ht
  obtain ⟨c, hc⟩ : ∃ c, c = f.dot t := ⟨_, rfl⟩
  have hc' : c = f.x * t.x + f.y * t.y + f.z * t.z := hc
  have e : Quat.ofVecs a b = if c > 99999 / 100000 then ⟨0, 0, 0, 1⟩
      else if c < -(99999 / 100000) then ⟨0, 0, 0, -1⟩
      else ⟨((f.cross t).normalized 1).x * √(1 / 2 * (1 - c)), ((f.cross t).normalized 1).y * √(1 / 2 * (1 - c)),
        ((f.cross t).normalized 1).z * √(1 / 2 * (1 - c)), √(1 / 2 * (1 + c))⟩ := by
    rw [hc]; rfl
  rw [← hc]
  by_cases h1 : 99999 / 100000 < c
  · rw [e, if_pos h1]
    refine ⟨by simp [Quat.IsUnit], fun h => absurd h1 (not_lt.2 (abs_le.1 h).2), fun _ => ⟨rfl, ?_⟩,
      fun h => absurd h (by linarith)⟩
    nlinarith
  rw [if_neg h1] at e
  by_cases h2 : c < -(99999 / 100000)
  · rw [e, if_pos h2]
    have hid : ∀ v : Vec3 ℝ, (⟨0, 0, 0, -1⟩ : Quat ℝ).rotated v = v := by
      intro v
      ext <;> simp [Quat.rotated, Mat3.mulVec, Mat3.ofQuat, Mat3.optimize, Mat3.optimizeTol]
    refine ⟨by simp [Quat.IsUnit], fun h => absurd h2 (not_lt.2 (abs_le.1 h).1), fun h => absurd h h1,
      fun _ => ⟨hid, ?_, ?_⟩⟩
    · rw [hid]
      intro h
      rw [← h] at hc'
      nlinarith
    · nlinarith
  rw [if_neg h2] at e
  push Not at h1 h2
  obtain ⟨k, hk⟩ : ∃ k, k = f.cross t := ⟨_, rfl⟩
  have hkx : k.x = f.y * t.z - f.z * t.y := by rw [hk]; rfl
  have hky : k.y = f.z * t.x - f.x * t.z := by rw [hk]; rfl
  have hkz : k.z = f.x * t.y - f.y * t.x := by rw [hk]; rfl
  have hk2 : k.x ^ 2 + k.y ^ 2 + k.z ^ 2 = 1 - c ^ 2 := by
    rw [hkx, hky, hkz, hc']
    linear_combination (t.x ^ 2 + t.y ^ 2 + t.z ^ 2) * hf + ht
  have hk2pos : 0 < 1 - c ^ 2 := by nlinarith
  have hkne : k ≠ Vec3.zero := by
    intro h; rw [h] at hk2; simp [Vec3.zero] at hk2; linarith
  obtain ⟨hn, hkn, hl⟩ := Vec3.normalized_unit hkne
  rw [← hk] at e
  obtain ⟨u, hu⟩ : ∃ u, u = k.normalized 1 := ⟨_, rfl⟩
  rw [← hu] at e hn hkn
  obtain ⟨s, hs⟩ : ∃ s, s = √(1 / 2 * (1 - c)) := ⟨_, rfl⟩
  obtain ⟨w, hw⟩ : ∃ w, w = √(1 / 2 * (1 + c)) := ⟨_, rfl⟩
  rw [← hs, ← hw] at e
  have hs2 : s ^ 2 = 1 / 2 * (1 - c) := by rw [hs]; exact Real.sq_sqrt (by linarith)
  have hw2 : w ^ 2 = 1 / 2 * (1 + c) := by rw [hw]; exact Real.sq_sqrt (by linarith)
  have hs0 : 0 ≤ s := by rw [hs]; exact Real.sqrt_nonneg _
  have hw0 : 0 < w := by rw [hw]; exact Real.sqrt_pos.2 (by linarith)
  obtain ⟨l, hl'⟩ : ∃ l, l = k.length := ⟨_, rfl⟩
  rw [← hl'] at hl hkn
  have kx : k.x = u.x * l := congrArg Vec3.x hkn
  have ky : k.y = u.y * l := congrArg Vec3.y hkn
  have kz : k.z = u.z * l := congrArg Vec3.z hkn
  have hl2 : l ^ 2 = 1 - c ^ 2 := by
    rw [← hk2, kx, ky, kz]; linear_combination -l ^ 2 * hn
  have hlsw : l = 2 * s * w := by
    have : l ^ 2 = (2 * s * w) ^ 2 := by
      rw [hl2]; linear_combination (-4 * w ^ 2) * hs2 - 4 * (1 / 2 * (1 - c)) * hw2
    exact (pow_left_inj₀ hl.le (by positivity) two_ne_zero).1 this
  have hunit : (Quat.ofVecs a b).IsUnit := by
    rw [e]; simp only [Quat.IsUnit]
    linear_combination s ^ 2 * hn + hs2 + hw2
  have key : ∀ v : Vec3 ℝ, (Quat.ofVecs a b).rotated v =
      ⟨(w ^ 2 - s ^ 2) * v.x + 2 * s ^ 2 * (u.x * v.x + u.y * v.y + u.z * v.z) * u.x +
        2 * w * s * (u.y * v.z - u.z * v.y),
       (w ^ 2 - s ^ 2) * v.y + 2 * s ^ 2 * (u.x * v.x + u.y * v.y + u.z * v.z) * u.y +
        2 * w * s * (u.z * v.x - u.x * v.z),
       (w ^ 2 - s ^ 2) * v.z + 2 * s ^ 2 * (u.x * v.x + u.y * v.y + u.z * v.z) * u.z +
        2 * w * s * (u.x * v.y - u.y * v.x)⟩ := by
    intro v
    have h := Mat3.toM_mulVec (Mat3.ofQuat (Quat.ofVecs a b)) v
    rw [Quat.ofQuat_toM _ hunit, e] at h
    have h0 := congrFun h 0
    have h1 := congrFun h 1
    have h2 := congrFun h 2
    simp [Quat.rot, Vec3.toFn, Matrix.mulVec, dotProduct, Fin.sum_univ_succ] at h0 h1 h2
    rw [← e] at h0 h1 h2
    ext
    · change ((Mat3.ofQuat (Quat.ofVecs a b)).mulVec v).x = _
      rw [h0]; simp only; linear_combination -s ^ 2 * v.x * hn
    · change ((Mat3.ofQuat (Quat.ofVecs a b)).mulVec v).y = _
      rw [h1]; simp only; linear_combination -s ^ 2 * v.y * hn
    · change ((Mat3.ofQuat (Quat.ofVecs a b)).mulVec v).z = _
      rw [h2]; simp only; linear_combination -s ^ 2 * v.z * hn
  -- `u` is orthogonal to `f`, and `2 w s (u × f) = k × f = t - c f`
  have huf : u.x * f.x + u.y * f.y + u.z * f.z = 0 := by
    have : (u.x * f.x + u.y * f.y + u.z * f.z) * l = 0 := by
      have : (u.x * l) * f.x + (u.y * l) * f.y + (u.z * l) * f.z = 0 := by
        rw [← kx, ← ky, ← kz, hkx, hky, hkz]; ring
      linear_combination this
    exact (mul_eq_zero.1 this).resolve_right hl.ne'
  have hx : 2 * w * s * (u.y * f.z - u.z * f.y) = t.x - c * f.x := by
    have : 2 * w * s * (u.y * f.z - u.z * f.y) = (u.y * l) * f.z - (u.z * l) * f.y := by rw [hlsw]; ring
    rw [this, ← ky, ← kz, hky, hkz, hc']; linear_combination t.x * hf
  have hy : 2 * w * s * (u.z * f.x - u.x * f.z) = t.y - c * f.y := by
    have : 2 * w * s * (u.z * f.x - u.x * f.z) = (u.z * l) * f.x - (u.x * l) * f.z := by rw [hlsw]; ring
    rw [this, ← kx, ← kz, hkx, hkz, hc']; linear_combination t.y * hf
  have hz : 2 * w * s * (u.x * f.y - u.y * f.x) = t.z - c * f.z := by
    have : 2 * w * s * (u.x * f.y - u.y * f.x) = (u.x * l) * f.y - (u.y * l) * f.x := by rw [hlsw]; ring
    rw [this, ← kx, ← ky, hkx, hky, hc']; linear_combination t.z * hf
  have hmain : (Quat.ofVecs a b).rotated f = t := by
    rw [key f, huf, hx, hy, hz]
    ext <;> simp only
    · linear_combination f.x * hw2 - f.x * hs2
    · linear_combination f.y * hw2 - f.y * hs2
    · linear_combination f.z * hw2 - f.z * hs2
  refine ⟨hunit, fun _ => ⟨hmain, ?_⟩, fun h => absurd h (not_lt.2 h1),
    fun h => absurd h (not_lt.2 h2)⟩
  have lin : (Quat.ofVecs a b).rotated (f * a.length) = (Quat.ofVecs a b).rotated f * a.length := by
    rw [key, key]; ext <;> simp <;> ring
  rw [← hmain, ← lin]
  exact congrArg _ hfa

/-- perpendicular directions meet the hypotheses -/
example : |((⟨2, 0, 0⟩ : Vec3 ℝ).normalized 1).dot ((⟨0, 3, 0⟩ : Vec3 ℝ).normalized 1)| ≤ 99999 / 100000 := by
  norm_num [Vec3.normalized, Vec3.length, Vec3.dot]

/-! ## C57 -/

/-- `from` is ignored in the result: turning a quaternion to itself gives the identity. -/
theorem C57_refuted :
    ∃ q : Quat ℝ, q.IsUnit ∧ ∃ r, q.slerpMaxAngle q 1 = .ok r ∧ r ≠ q ∧ r ≠ q.neg ∧
      r.rotated ⟨0, 1, 0⟩ ≠ q.rotated ⟨0, 1, 0⟩ := by
  have h : (⟨1, 0, 0, 0⟩ : Quat ℝ).slerpMaxAngle ⟨1, 0, 0, 0⟩ 1 = .ok ⟨0, 0, 0, 1⟩ := by
    norm_num [Quat.slerpMaxAngle, Quat.inverse, Quat.mul, Quat.toAxisAngle, bind, Except.bind, Vec3.oneX,
      Quat.ofAxisAngle, Vec3.length, min']
  refine ⟨⟨1, 0, 0, 0⟩, by simp [Quat.IsUnit], _, h, by simp, by simp [Quat.neg], fun h => ?_⟩
  have := congrArg Vec3.y h
  norm_num [Quat.rotated, Mat3.mulVec, Mat3.ofQuat, Mat3.optimize, Mat3.optimizeTol] at this

/-- What is computed is the *relative* turn: a rotation about the axis of `from⁻¹ * to` by
`min angle maxAngle`.  Multiplying `from` by it gives the documented result: it is `to` if `maxAngle` is
at least the angle between them.  So the function is right exactly when `from` is the identity.
Requires the vector part of `from⁻¹ * to` to be longer than 1e-3 (otherwise see C52).
Missing: the multiplication by `from`, which the code does not do. -/
theorem C57_partial (p q : Quat ℝ) (hp : p.IsUnit) (hq : q.IsUnit) (m : ℝ) (hm : 0 ≤ m)
    (hd : let d := p.inverse.mul q; 8796093 / 8796093022208 < d.x ^ 2 + d.y ^ 2 + d.z ^ 2) :
    ∃ axis angle r, p.slerpMaxAngle q m = .ok r ∧ axis.length = 1 ∧ 0 ≤ angle ∧ angle ≤ 2 * Real.pi ∧
      p.mul (Quat.ofAxisAngle axis angle) = q ∧ r = Quat.ofAxisAngle axis (min angle m) ∧ r.IsUnit ∧
      (angle ≤ m → p.mul r = q) ∧ (p = Quat.identity → angle ≤ m → r = q) := by
  have hpi := ((C50_product p p p).2.2.2.2.2.2.2.2.2 hp)
  have hu : (p.inverse.mul q).IsUnit := hpi.2.2.mul hq
  obtain ⟨axis, angle, h1, h2, h3, h4, h5, -⟩ := C52_extract_partial _ hu
  have h6 := h5 hd
  have hpq : p.mul (p.inverse.mul q) = q := by
    rw [← (C50_product p p.inverse q).2.2.2.2.1, hpi.1, (C50_product q q q).2.2.2.2.2.2.1]
  have hmin : min' angle m = min angle m := by
    unfold min'; split_ifs with h
    · exact (min_eq_left h.le).symm
    · exact (min_eq_right (not_lt.1 h)).symm
  refine ⟨axis, angle, Quat.ofAxisAngle axis (min angle m), ?_, h2, h3, h4, by rw [h6, hpq], rfl,
    Quat.ofAxisAngle_unit _ _, fun h => by rw [min_eq_left h, h6, hpq], fun hp1 h => ?_⟩
  · simp [Quat.slerpMaxAngle, hm, h1, bind, Except.bind, hmin]
  · rw [min_eq_left h, h6, hp1]
    ext <;> simp [Quat.mul, Quat.inverse, Quat.identity]

example : let p : Quat ℝ := ⟨0, 0, 3/5, 4/5⟩
    let d := p.inverse.mul (⟨0, 0, 4/5, 3/5⟩ : Quat ℝ); 8796093 / 8796093022208 < d.x ^ 2 + d.y ^ 2 + d.z ^ 2 := by
  norm_num [Quat.inverse, Quat.mul]

/-! ## C59 -/

/-- The logarithm of the unit quaternion `-1` is taken to be zero. -/
theorem C59_refuted :
    ∃ q : Quat ℝ, q.IsUnit ∧ q.log.exp ≠ q := by
  refine ⟨⟨0, 0, 0, -1⟩, by simp [Quat.IsUnit], fun h => ?_⟩
  have := congrArg Quat.w h
  norm_num [Quat.log, Quat.exp, acos'] at this

/-- `exp (log q) = q` for every unit quaternion but `-1`; `log (exp v) = v` for pure `v` shorter than
`π`; `exp` of a pure quaternion is the quaternion exponential, of unit norm; `log` is pure.
Missing: `exp (log (-1)) = -1`, which is false. -/
theorem C59_partial :
    (∀ q : Quat ℝ, q.IsUnit → q.w ≠ -1 → q.log.exp = q) ∧
    (∀ v : Quat ℝ, v.w = 0 → v.x ^ 2 + v.y ^ 2 + v.z ^ 2 < Real.pi ^ 2 → v.exp.log = v) ∧
    (∀ v : Quat ℝ, v.w = 0 → v.exp.toQ = NormedSpace.exp v.toQ ∧ v.exp.IsUnit) ∧
    (∀ q : Quat ℝ, q.log.w = 0) := by
  have hac : ∀ w : ℝ, -1 ≤ w → w ≤ 1 → acos' w = Real.arccos w := fun w h1 h2 => by
    simp [acos', not_lt.2 h1, not_lt.2 h2]
  refine ⟨fun q hq hw => ?_, fun v hw hv => ?_, fun v hw => ?_, fun q => ?_⟩
  · unfold Quat.IsUnit at hq
    have h1 : -1 ≤ q.w := by nlinarith [sq_nonneg q.x, sq_nonneg q.y, sq_nonneg q.z]
    have h2 : q.w ≤ 1 := by nlinarith [sq_nonneg q.x, sq_nonneg q.y, sq_nonneg q.z]
    obtain ⟨a, ha⟩ : ∃ a, a = Real.arccos q.w := ⟨_, rfl⟩
    have hcos : Real.cos a = q.w := by rw [ha, Real.cos_arccos h1 h2]
    rcases eq_or_lt_of_le h2 with h3 | h3
    · have hx : q.x = 0 := by rw [h3] at hq; nlinarith [sq_nonneg q.x, sq_nonneg q.y, sq_nonneg q.z]
      have hy : q.y = 0 := by rw [h3] at hq; nlinarith [sq_nonneg q.x, sq_nonneg q.y, sq_nonneg q.z]
      have hz : q.z = 0 := by rw [h3] at hq; nlinarith [sq_nonneg q.x, sq_nonneg q.y, sq_nonneg q.z]
      have : q = ⟨0, 0, 0, 1⟩ := Quat.ext hx hy hz h3
      rw [this]
      ext <;> simp [Quat.log, Quat.exp, acos']
    · have ha0 : 0 < a := by rw [ha]; exact Real.arccos_pos.2 h3
      have hapi : a < Real.pi := by
        rcases lt_or_eq_of_le (Real.arccos_le_pi q.w) with h | h
        · rw [ha]; exact h
        · exfalso; rw [Real.arccos_eq_pi] at h; exact hw (le_antisymm h h1)
      have hs : 0 < Real.sin a := Real.sin_pos_of_pos_of_lt_pi ha0 hapi
      have hs2 : Real.sin a ^ 2 = q.x ^ 2 + q.y ^ 2 + q.z ^ 2 := by
        have := Real.sin_sq_add_cos_sq a
        rw [hcos] at this; linarith
      have hlog : q.log = ⟨a * q.x / Real.sin a, a * q.y / Real.sin a, a * q.z / Real.sin a, 0⟩ := by
        simp only [Quat.log, hac _ h1 h2, ← ha, real_sin, gt_iff_lt, hs, if_true]
      have hnorm : √(a * q.x / Real.sin a * (a * q.x / Real.sin a) +
          a * q.y / Real.sin a * (a * q.y / Real.sin a) +
          a * q.z / Real.sin a * (a * q.z / Real.sin a)) = a := by
        rw [← Real.sqrt_sq ha0.le]
        congr 1
        rw [Real.sqrt_sq ha0.le]
        field_simp
        linear_combination -hs2
      rw [hlog]
      simp only [Quat.exp, real_sqrt, hnorm, real_sin, real_cos, gt_iff_lt, ha0, if_true]
      ext <;> simp only [hcos]
      · field_simp
      · field_simp
      · field_simp
  · obtain ⟨a, ha⟩ : ∃ a, a = √(v.x * v.x + v.y * v.y + v.z * v.z) := ⟨_, rfl⟩
    have hnn : 0 ≤ v.x * v.x + v.y * v.y + v.z * v.z := by
      have := mul_self_nonneg v.x; have := mul_self_nonneg v.y; have := mul_self_nonneg v.z; linarith
    have ha2 : a ^ 2 = v.x * v.x + v.y * v.y + v.z * v.z := by rw [ha]; exact Real.sq_sqrt hnn
    have ha0 : 0 ≤ a := by rw [ha]; exact Real.sqrt_nonneg _
    have hapi : a < Real.pi := by
      refine lt_of_pow_lt_pow_left₀ 2 Real.pi_pos.le ?_
      rw [ha2]; linarith
    simp only [Quat.exp, real_sqrt, ← ha, real_sin, real_cos, gt_iff_lt]
    rcases eq_or_lt_of_le ha0 with h0 | h0
    · rw [← h0] at ha2
      have e1 := mul_self_nonneg v.x; have e2 := mul_self_nonneg v.y; have e3 := mul_self_nonneg v.z
      have hx : v.x = 0 := mul_self_eq_zero.1 (by linarith)
      have hy : v.y = 0 := mul_self_eq_zero.1 (by linarith)
      have hz : v.z = 0 := mul_self_eq_zero.1 (by linarith)
      rw [← h0]
      ext <;> simp [Quat.log, acos', hx, hy, hz, hw]
    · have hs : 0 < Real.sin a := Real.sin_pos_of_pos_of_lt_pi h0 hapi
      simp only [h0, if_true, Quat.log, hac _ (Real.neg_one_le_cos a) (Real.cos_le_one a),
        Real.arccos_cos ha0 hapi.le, real_sin, gt_iff_lt, hs]
      ext
      · simp only; field_simp
      · simp only; field_simp
      · simp only; field_simp
      · simp only [hw]
  · obtain ⟨a, ha⟩ : ∃ a, a = √(v.x * v.x + v.y * v.y + v.z * v.z) := ⟨_, rfl⟩
    have hnn : 0 ≤ v.x * v.x + v.y * v.y + v.z * v.z := by
      have := mul_self_nonneg v.x; have := mul_self_nonneg v.y; have := mul_self_nonneg v.z; linarith
    have ha0 : 0 ≤ a := by rw [ha]; exact Real.sqrt_nonneg _
    have hn : ‖v.toQ‖ = a := by
      have h : ‖v.toQ‖ ^ 2 = a ^ 2 := by
        rw [sq, ← Quaternion.normSq_eq_norm_mul_self, Quaternion.normSq_def', ha, Real.sq_sqrt hnn]
        simp [hw]; ring
      exact (pow_left_inj₀ (norm_nonneg _) ha0 two_ne_zero).1 h
    have hexp : v.exp.toQ = NormedSpace.exp v.toQ := by
      rw [Quaternion.exp_of_re_eq_zero _ (by simp [hw]), hn]
      simp only [Quat.exp, real_sqrt, ← ha, real_sin, real_cos, gt_iff_lt]
      rcases eq_or_lt_of_le ha0 with h0 | h0
      · simp only [← h0]
        ext <;> simp
      · simp only [h0, if_true]
        ext <;> simp [hw] <;> ring
    refine ⟨hexp, ?_⟩
    rw [(C50_product v.exp v v).2.2.2.2.2.2.2.2.1, hexp, Quaternion.normSq_exp]
    simp [hw]
  · simp only [Quat.log]; split_ifs <;> rfl

example : (⟨3/5, 0, 0, 4/5⟩ : Quat ℝ).IsUnit ∧ (4/5 : ℝ) ≠ -1 := by norm_num [Quat.IsUnit]
example : (1 : ℝ) ^ 2 + 1 ^ 2 + 1 ^ 2 < Real.pi ^ 2 := by nlinarith [Real.two_le_pi]

end MathLib
