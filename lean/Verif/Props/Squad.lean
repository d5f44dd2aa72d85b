import Verif.Props.QuatInterp
import Verif.Props.Interp

/-! # Properties C115, C116: `squad`, circular interpolation of plane vectors -/

namespace MathLib

/-! ## C115 squad -/

private theorem ok_bind' {α β : Type} (a : α) (f : α → Res β) : ((Except.ok a : Res α) >>= f) = f a := rfl

/-- Full statement: for unit quaternions `squad` is defined at the ends and gives the first and the second
quaternion there. -/
def C115_full : Prop :=
  ∀ p q a b : Quat ℝ, p.IsUnit → q.IsUnit → a.IsUnit → b.IsUnit →
    Quat.squad p.up q.up a.up b.up (.num 0) = .ok p.up ∧ Quat.squad p.up q.up a.up b.up (.num 1) = .ok q.up

/-- False: with a control quaternion opposite to the end (the same rotation) everything is `nan`. -/
theorem C115_refuted : ¬ C115_full := by
  intro h
  have := (h ⟨0, 0, 0, 1⟩ ⟨0, 0, 0, 1⟩ ⟨0, 0, 0, -1⟩ ⟨0, 0, 0, -1⟩ (by simp [Quat.IsUnit]) (by simp [Quat.IsUnit])
    (by simp [Quat.IsUnit]) (by simp [Quat.IsUnit])).1
  have e1 : (1 : XR) = .num 1 := rfl
  have e0 : (0 : XR) = .num 0 := rfl
  have e2 : (2 : XR) = .num 2 := rfl
  have e95 : (15938355 : XR) = .num 15938355 := rfl
  have e100 : (16777216 : XR) = .num 16777216 := rfl
  have s1 : (Quat.up ⟨0, 0, 0, 1⟩).slerpNoInvert (Quat.up ⟨0, 0, 0, 1⟩) (.num 0) = .ok (Quat.up ⟨0, 0, 0, 1⟩) := by
    simp only [Quat.slerpNoInvert, Quat.up, Quat.dot, Quat.lerp, Quat.normalize, e1, e0, e95, e100]
    norm_num
  have s2 : (Quat.up ⟨0, 0, 0, -1⟩).slerpNoInvert (Quat.up ⟨0, 0, 0, -1⟩) (.num 0) =
      .ok (Quat.up ⟨0, 0, 0, -1⟩) := by
    simp only [Quat.slerpNoInvert, Quat.up, Quat.dot, Quat.lerp, Quat.normalize, e1, e0, e95, e100]
    norm_num
  have s3 : (Quat.up ⟨0, 0, 0, 1⟩).slerpNoInvert (Quat.up ⟨0, 0, 0, -1⟩) (.num 0) =
      .ok ⟨.nan, .nan, .nan, .nan⟩ := by
    simp only [Quat.slerpNoInvert, Quat.up, Quat.dot, Quat.slerpArc, acos', e1, e0, e95, e100]
    norm_num
    rfl
  have e : (2 : XR) * .num 0 * (1 - .num 0) = .num 0 := by rw [e2, e1]; norm_num
  have g : (.num 0 : XR) ≥ 0 ∧ (.num 0 : XR) ≤ 1 := by rw [e0, e1]; norm_num
  rw [Quat.squad, if_pos g, s1, s2, ok_bind', ok_bind', e, s3] at this
  cases this

/-- Provided no two quaternions that get interpolated are opposite, `squad` hits the ends, stays on the unit
quaternions in between, and fails for weights outside [0,1].
Missing: opposite pairs (false at least in some cases). -/
theorem C115_partial (p q a b : Quat ℝ) (hp : p.IsUnit) (hq : q.IsUnit) (ha : a.IsUnit) (hb : b.IsUnit)
    (h1 : q ≠ p.neg) (h2 : b ≠ a.neg) :
    (a ≠ p.neg → Quat.squad p q a b 0 = .ok p) ∧ (b ≠ q.neg → Quat.squad p q a b 1 = .ok q) ∧
    (∀ w, 0 ≤ w → w ≤ 1 → ∃ s t, s.IsUnit ∧ t.IsUnit ∧ p.slerpNoInvert q w = .ok s ∧
      a.slerpNoInvert b w = .ok t ∧ (t ≠ s.neg → ∃ r, Quat.squad p q a b w = .ok r ∧ r.IsUnit)) ∧
    (∀ w, ¬ (0 ≤ w ∧ w ≤ 1) → Quat.squad p q a b w = .error .assertion) := by
  have z := C55_noInvert_partial p q hp hq h1
  have y := C55_noInvert_partial a b ha hb h2
  refine ⟨fun h => ?_, fun h => ?_, fun w w0 w1 => ?_, fun w hw => ?_⟩
  · rw [Quat.squad, if_pos (by norm_num), (z 0 le_rfl zero_le_one).2.1, (y 0 le_rfl zero_le_one).2.1, ok_bind',
      ok_bind', show (2 : ℝ) * 0 * (1 - 0) = 0 by norm_num]
    exact (C55_noInvert_partial p a hp ha h 0 le_rfl zero_le_one).2.1
  · rw [Quat.squad, if_pos (by norm_num), (z 0 le_rfl zero_le_one).2.2, (y 0 le_rfl zero_le_one).2.2, ok_bind',
      ok_bind', show (2 : ℝ) * 1 * (1 - 1) = 0 by norm_num]
    exact (C55_noInvert_partial q b hq hb h 0 le_rfl zero_le_one).2.1
  · obtain ⟨s, hs, us⟩ := (z w w0 w1).1
    obtain ⟨t, ht, ut⟩ := (y w w0 w1).1
    refine ⟨s, t, us, ut, hs, ht, fun h => ?_⟩
    rw [Quat.squad, if_pos ⟨w0, w1⟩, hs, ht, ok_bind', ok_bind']
    exact (C55_noInvert_partial s t us ut h _ (by nlinarith) (by nlinarith [sq_nonneg (2 * w - 1)])).1
  · rw [Quat.squad, if_neg (by simpa using hw)]

example : ∃ p q a b : Quat ℝ, p.IsUnit ∧ q.IsUnit ∧ a.IsUnit ∧ b.IsUnit ∧ q ≠ p.neg ∧ b ≠ a.neg ∧ a ≠ p.neg ∧
    b ≠ q.neg ∧ p ≠ q := by
  refine ⟨⟨0, 0, 0, 1⟩, ⟨1, 0, 0, 0⟩, ⟨0, 1, 0, 0⟩, ⟨0, 0, 1, 0⟩, ?_⟩
  simp [Quat.IsUnit, Quat.neg]

/-! ## C116 circular interpolation of plane vectors -/

theorem Vec2.ofAngle_angle (v : Vec2 ℝ) : Vec2.ofAngle v.angle v.length = v := by
  have hn : v.length = ‖(⟨v.x, v.y⟩ : ℂ)‖ := by
    rw [Complex.norm_def, Complex.normSq_mk, Vec2.length, real_sqrt]
  by_cases hz : (⟨v.x, v.y⟩ : ℂ) = 0
  · have h0 := hz
    rw [Complex.ext_iff] at h0
    simp at h0
    rw [hz, norm_zero] at hn
    ext <;> simp [Vec2.ofAngle, hn, h0.1, h0.2]
  · have hp := norm_pos_iff.2 hz
    ext
    · simp only [Vec2.ofAngle, Vec2.angle, real_cos, real_atan2, hn, Complex.cos_arg hz]
      field_simp
    · simp only [Vec2.ofAngle, Vec2.angle, real_sin, real_atan2, hn, Complex.sin_arg]
      field_simp

theorem Vec2.ofAngle_length (θ l : ℝ) : (Vec2.ofAngle θ l).length = |l| := by
  rw [Vec2.length, Vec2.ofAngle, real_sqrt, real_cos, real_sin, ← Real.sqrt_sq_eq_abs]
  congr 1
  linear_combination l ^ 2 * Real.sin_sq_add_cos_sq θ

/-- C116: the angle runs evenly from that of `u` to that of `v`, the length evenly from `|u|` to `|v|`, both
ends are hit exactly, and ratios outside [0,1] fail. -/
theorem C116_clerp (u v : Vec2 ℝ) :
    Vec2.clerp u v 0 = .ok u ∧ Vec2.clerp u v 1 = .ok v ∧
    (∃ θ : ℝ, (-Real.pi ≤ v.angle - u.angle → |θ| ≤ Real.pi) ∧ ∀ r, 0 ≤ r → r ≤ 1 →
      ∃ w, Vec2.clerp u v r = .ok w ∧ w = Vec2.ofAngle (u.angle + r * θ) ((1 - r) * u.length + r * v.length) ∧
        w.length = (1 - r) * u.length + r * v.length) ∧
    (∀ r, ¬ (0 ≤ r ∧ r ≤ 1) → Vec2.clerp u v r = .error .assertion) := by
  obtain ⟨h0, -, hc, hs, hl⟩ := C13_ends u.angle v.angle
  have g1 : Vec2.clerp u v 0 = .ok u := by simp [Vec2.clerp]
  have g2 : Vec2.clerp u v 1 = .ok v := by simp [Vec2.clerp]
  have eu := Vec2.ofAngle_angle u
  have ev := Vec2.ofAngle_angle v
  have lu : 0 ≤ u.length := Real.sqrt_nonneg _
  have lv : 0 ≤ v.length := Real.sqrt_nonneg _
  refine ⟨g1, g2, ⟨clerp u.angle v.angle 1 - u.angle, fun h => (C13_shortest_partial _ _ h).1, fun r r0 r1 => ?_⟩,
    fun r hr => ?_⟩
  · have len : (Vec2.ofAngle (u.angle + r * (clerp u.angle v.angle 1 - u.angle))
        ((1 - r) * u.length + r * v.length)).length = (1 - r) * u.length + r * v.length := by
      rw [Vec2.ofAngle_length, abs_of_nonneg]
      have := mul_nonneg (sub_nonneg.2 r1) lu
      have := mul_nonneg r0 lv
      linarith
    refine ⟨_, ?_, rfl, len⟩
    by_cases h0' : r = 0
    · subst h0'
      rw [g1]
      congr 1
      rw [← eu]
      simp [eu]
    by_cases h1' : r = 1
    · subst h1'
      rw [g2]
      congr 1
      conv_lhs => rw [← ev]
      simp only [Vec2.ofAngle, real_cos, real_sin, one_mul, add_sub_cancel, hc, hs, sub_self, zero_mul, zero_add]
    · simp only [Vec2.clerp, ge_iff_le, r0, r1, and_self, not_true, if_false, beq_iff_eq, h0', h1', lerp]
      rw [hl r]
      congr 2
      ring
  · rw [Vec2.clerp, if_pos (by simpa using hr)]

/-- Full statement for the limited version: the length stays between those of the ends, and the second vector
is reached when the limit is large enough. -/
def C116_maxAngle_full : Prop :=
  ∀ (u v : Vec2 ℝ) (k : ℝ), 0 ≤ k → ∃ w, Vec2.clerpMaxAngle u v k = .ok w ∧
    min u.length v.length ≤ w.length ∧ w.length ≤ max u.length v.length ∧
    (|clerp u.angle v.angle 1 - u.angle| ≤ k → w = v)

/-- False: from (0,1) to (-2,0) with limit pi gives (-3,0), because the ratio is the final angle over
the turn (C14). -/
theorem C116_maxAngle_refuted : ¬ C116_maxAngle_full ∧
    Vec2.clerpMaxAngle (⟨0, 1⟩ : Vec2 ℝ) ⟨-2, 0⟩ Real.pi = .ok ⟨-3, 0⟩ := by
  have hp := Real.pi_pos
  have a1 : (⟨0, 1⟩ : Vec2 ℝ).angle = Real.pi / 2 := by
    rw [Vec2.angle, real_atan2]
    exact Complex.arg_I
  have a2 : (⟨-2, 0⟩ : Vec2 ℝ).angle = Real.pi := by
    rw [Vec2.angle, real_atan2]
    have := Complex.arg_ofReal_of_neg (x := -2) (by norm_num)
    rwa [Complex.ofReal_def] at this
  have ht : truncR ((Real.pi - Real.pi / 2 + Real.pi) / (Real.pi * 2)) = 0 := by
    have : (Real.pi - Real.pi / 2 + Real.pi) / (Real.pi * 2) = 3 / 4 := by field_simp; ring
    rw [this, truncR, if_pos (by norm_num), Int.floor_eq_iff]
    norm_num
  have hd : clerpDelta (Real.pi / 2) Real.pi = Real.pi / 2 := by
    simp only [clerpDelta, piTimes2, real_pi, real_fmod, fmodR, ht]; push_cast; ring
  have l1 : (⟨0, 1⟩ : Vec2 ℝ).length = 1 := by simp [Vec2.length]
  have l2 : (⟨-2, 0⟩ : Vec2 ℝ).length = 2 := by
    simp [Vec2.length]
  have e : Vec2.clerpMaxAngle (⟨0, 1⟩ : Vec2 ℝ) ⟨-2, 0⟩ Real.pi = .ok ⟨-3, 0⟩ := by
    have c1 : ¬ (Real.pi / 2 > Real.pi) := by linarith
    have c2 : Real.pi / 2 ≥ 0 := by linarith
    have c3 : (Real.pi / 2 + Real.pi / 2) / (Real.pi / 2) = 2 := by field_simp; norm_num
    simp only [Vec2.clerpMaxAngle, clerpMaxAngleRatio, a1, a2, hd, l1, l2, ge_iff_le, hp.le, not_true, if_false,
      beq_iff_eq, hp.ne', c1, c2, if_true, lerp, add_halves]
    norm_num [Vec2.ofAngle]
  refine ⟨fun h => ?_, e⟩
  obtain ⟨w, h1, h2, h3, h4⟩ := h ⟨0, 1⟩ ⟨-2, 0⟩ Real.pi hp.le
  rw [e] at h1
  cases h1
  rw [l1, l2] at h3
  have : (⟨-3, 0⟩ : Vec2 ℝ).length = 3 := by
    simp [Vec2.length]
  rw [this] at h3
  norm_num at h3

/-- What `clerpMaxAngle` computes when there is a turn to make: the angle turns by the turn cut off at the
limit, the length is interpolated with that angle plus the angle of `u` over the turn.  The length is thus
the right one exactly if `u` points along the positive x axis or both lengths are equal. -/
theorem C116_maxAngle_exact (u v : Vec2 ℝ) (k : ℝ) (hk : 0 < k) (hne : clerp u.angle v.angle 1 ≠ u.angle) :
    let turn := clerp u.angle v.angle 1 - u.angle
    let θ := max (-k) (min k turn)
    let right := u.length + θ / turn * (v.length - u.length)
    ∃ l, Vec2.clerpMaxAngle u v k = .ok (Vec2.ofAngle (u.angle + θ) l) ∧
      l = right + u.angle / turn * (v.length - u.length) ∧
      (l = right ↔ u.angle = 0 ∨ u.length = v.length) := by
  intro turn θ right
  have ht : turn ≠ 0 := sub_ne_zero.2 hne
  obtain ⟨-, r, hr1, hr2⟩ := C14_ratio_iff u.angle v.angle k hne
  obtain ⟨b1, b2, b3, b4, b5⟩ := C14_bounded u.angle v.angle k hk.le
  have hθ : clerpMaxAngle u.angle v.angle k = u.angle + θ := by
    change _ = u.angle + max (-k) (min k turn)
    rcases lt_or_ge k turn with h | h
    · rw [min_eq_left h.le, max_eq_right (by linarith)]; linarith [b3 h]
    rcases lt_or_ge turn (-k) with h' | h'
    · rw [min_eq_right h, max_eq_left h'.le]; linarith [b4 h']
    · rw [min_eq_right h, max_eq_right h', (b2 (abs_le.2 ⟨h', h⟩)).1]
      change _ = u.angle + (clerp u.angle v.angle 1 - u.angle)
      ring
  have hr : r = θ / turn := by
    rw [b5, hθ] at hr1
    rw [eq_div_iff ht]
    change r * (clerp u.angle v.angle 1 - u.angle) = θ
    linarith
  refine ⟨right + u.angle / turn * (v.length - u.length), ?_, rfl, ?_⟩
  · simp only [Vec2.clerpMaxAngle, ge_iff_le, hk.le, not_true, if_false, beq_iff_eq, hk.ne']
    congr 1
    rw [b5, hθ, hr2, hr]
    congr 1
    simp only [lerp]
    change u.length + (v.length - u.length) * (θ / turn + u.angle / turn) =
      u.length + θ / turn * (v.length - u.length) + u.angle / turn * (v.length - u.length)
    ring
  · rw [add_eq_left, mul_eq_zero, div_eq_zero_iff]
    constructor
    · rintro ((h | h) | h)
      · exact .inl h
      · exact absurd h ht
      · exact .inr (sub_eq_zero.1 h).symm
    · rintro (h | h)
      · exact .inl (.inl h)
      · exact .inr (sub_eq_zero.2 h.symm)

/-- from (0,1) to (-2,0) there is a turn -/
example : clerp (⟨0, 1⟩ : Vec2 ℝ).angle (⟨-2, 0⟩ : Vec2 ℝ).angle 1 ≠ (⟨0, 1⟩ : Vec2 ℝ).angle := by
  intro h
  have hp := Real.pi_pos
  have a1 : (⟨0, 1⟩ : Vec2 ℝ).angle = Real.pi / 2 := by
    rw [Vec2.angle, real_atan2]
    exact Complex.arg_I
  have a2 : (⟨-2, 0⟩ : Vec2 ℝ).angle = Real.pi := by
    rw [Vec2.angle, real_atan2]
    have := Complex.arg_ofReal_of_neg (x := -2) (by norm_num)
    rwa [Complex.ofReal_def] at this
  have := (C13_ends (⟨0, 1⟩ : Vec2 ℝ).angle (⟨-2, 0⟩ : Vec2 ℝ).angle).2.2.2.1
  rw [h, a1, a2, Real.sin_pi_div_two, Real.sin_pi] at this
  norm_num at this

/-- What holds: the angle turns by at most the limit; a limit 0 gives `u`; and if `u` points along the
positive x axis and the turn is not zero, the whole claim.
Missing: other directions of `u` (false), equal angles (0/0, `C104_clerp_undefined`). -/
theorem C116_maxAngle_partial (u v : Vec2 ℝ) (k : ℝ) (hk : 0 ≤ k) :
    Vec2.clerpMaxAngle u v 0 = .ok u ∧
    (∃ w θ l, Vec2.clerpMaxAngle u v k = .ok w ∧ w = Vec2.ofAngle (u.angle + θ) l ∧ |θ| ≤ k) ∧
    (u.angle = 0 → clerp 0 v.angle 1 ≠ 0 → ∃ w, Vec2.clerpMaxAngle u v k = .ok w ∧
      min u.length v.length ≤ w.length ∧ w.length ≤ max u.length v.length ∧
      (|clerp 0 v.angle 1 - 0| ≤ k → w = v)) ∧
    (∀ k < 0, Vec2.clerpMaxAngle u v k = .error .assertion) := by
  have g0 : Vec2.clerpMaxAngle u v 0 = .ok u := by simp [Vec2.clerpMaxAngle]
  have lu : 0 ≤ u.length := Real.sqrt_nonneg _
  have lv : 0 ≤ v.length := Real.sqrt_nonneg _
  have gk : k ≠ 0 → Vec2.clerpMaxAngle u v k = .ok (Vec2.ofAngle (clerpMaxAngle u.angle v.angle k)
      (lerp u.length v.length (clerpMaxAngleRatio u.angle v.angle k).2)) := by
    intro h
    simp only [Vec2.clerpMaxAngle, ge_iff_le, hk, not_true, if_false, beq_iff_eq, h]
    rfl
  refine ⟨g0, ?_, fun ha hne => ?_, fun j hj => ?_⟩
  · by_cases h : k = 0
    · subst h
      exact ⟨u, 0, u.length, g0, by rw [add_zero, Vec2.ofAngle_angle], by simp⟩
    · exact ⟨_, clerpMaxAngle u.angle v.angle k - u.angle, _, gk h, by rw [add_sub_cancel],
        (C14_bounded u.angle v.angle k hk).1⟩
  · by_cases h : k = 0
    · subst h
      refine ⟨u, g0, min_le_left _ _, le_max_left _ _, fun h => ?_⟩
      rw [sub_zero] at h
      exact absurd (abs_nonpos_iff.1 h) hne
    · obtain ⟨r1, r2, r3⟩ := C14_ratio_partial v.angle k hk hne
      obtain ⟨b1, b2, -⟩ := C14_bounded 0 v.angle k hk
      rw [gk h, ha]
      set ρ := (clerpMaxAngleRatio 0 v.angle k).2
      have hlen : 0 ≤ lerp u.length v.length ρ ∧ min u.length v.length ≤ lerp u.length v.length ρ ∧
          lerp u.length v.length ρ ≤ max u.length v.length := by
        have e : lerp u.length v.length ρ = (1 - ρ) * u.length + ρ * v.length := by simp only [lerp]; ring
        have a1 := min_le_left u.length v.length
        have a2 := min_le_right u.length v.length
        have a3 := le_max_left u.length v.length
        have a4 := le_max_right u.length v.length
        have hm : min u.length v.length ≤ lerp u.length v.length ρ := by
          rw [e]; nlinarith [mul_nonneg (sub_nonneg.2 r3) (sub_nonneg.2 a1), mul_nonneg r2 (sub_nonneg.2 a2)]
        refine ⟨(le_min lu lv).trans hm, hm, ?_⟩
        rw [e]; nlinarith [mul_nonneg (sub_nonneg.2 r3) (sub_nonneg.2 a3), mul_nonneg r2 (sub_nonneg.2 a4)]
      refine ⟨_, rfl, ?_, ?_, fun hf => ?_⟩
      · rw [Vec2.ofAngle_length, abs_of_nonneg hlen.1]; exact hlen.2.1
      · rw [Vec2.ofAngle_length, abs_of_nonneg hlen.1]; exact hlen.2.2
      · obtain ⟨c1, c2, c3⟩ := b2 hf
        have hr : ρ = 1 := by
          have hfst : (clerpMaxAngleRatio 0 v.angle k).1 = clerp 0 v.angle 1 := c1
          rw [hfst, sub_zero, zero_add] at r1
          exact mul_right_cancel₀ hne (r1.trans (one_mul _).symm)
        rw [hr]
        conv_rhs => rw [← Vec2.ofAngle_angle v]
        simp only [Vec2.ofAngle, real_cos, real_sin, c2, c3, lerp, mul_one, add_sub_cancel]
  · rw [Vec2.clerpMaxAngle, if_pos (by simpa using hj)]

example : (⟨1, 0⟩ : Vec2 ℝ).angle = 0 := by
  rw [Vec2.angle, real_atan2]
  exact Complex.arg_one

end MathLib
