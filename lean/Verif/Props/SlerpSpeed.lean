import Verif.Props.RoundedSlerp

/-! # Property C159: how far `slerp` is from the arc at constant speed -/

namespace MathLib

namespace SlerpErr

theorem cubic {w : ℝ} (w0 : 0 ≤ w) (w1 : w ≤ 1) : |w * (1 - w) * (2 * w - 1)| ≤ 0.0963 := by
  apply abs_le_of_sq_le_sq _ (by norm_num)
  have h : (w * (1 - w) * (2 * w - 1)) ^ 2 ≤ 1 / 108 := by
    have : (w * (1 - w) * (2 * w - 1)) ^ 2 = 1 / 108 - ((2 * w - 1) ^ 2 - 1 / 3) ^ 2 * (4 / 3 - (2 * w - 1) ^ 2) / 16 := by ring
    have k : 0 ≤ 4 / 3 - (2 * w - 1) ^ 2 := by nlinarith
    rw [this]
    have := mul_nonneg (sq_nonneg ((2 * w - 1) ^ 2 - 1 / 3)) k
    linarith
  exact h.trans (by norm_num)

/-- the sine of the angle between the chord's point and the arc's, times the length of the chord vector -/
theorem gap {θ w : ℝ} (h0 : 0 ≤ θ) (h1 : θ ≤ 0.32) (w0 : 0 ≤ w) (w1 : w ≤ 1) :
    |w * Real.sin (θ * (1 - w)) - (1 - w) * Real.sin (θ * w)| ≤ 0.00058 := by
  have b : ∀ t : ℝ, 0 ≤ t → t ≤ 1 → |Real.sin (θ * t) - (θ * t - (θ * t) ^ 3 / 6)| ≤ (θ * t) ^ 4 * (5 / 96) := fun t t0 t1 => by
    have k0 : 0 ≤ θ * t := mul_nonneg h0 t0
    have := Real.sin_bound (x := θ * t) (by rw [abs_of_nonneg k0]; nlinarith)
    rw [abs_of_nonneg k0] at this
    refine this.trans ?_
    have k1 : θ * t ≤ 1 := by nlinarith
    nlinarith [pow_nonneg k0 4, mul_le_mul_of_nonneg_left k1 (pow_nonneg k0 4)]
  have e1 := abs_le.1 (b (1 - w) (by linarith) (by linarith))
  have e2 := abs_le.1 (b w w0 w1)
  have c := abs_le.1 (cubic w0 w1)
  have v0 : 0 ≤ 1 - w := by linarith
  have t3 : θ ^ 3 ≤ 0.032768 := by
    have := pow_le_pow_left₀ h0 h1 3; norm_num at this ⊢; linarith
  have t4 : θ ^ 4 ≤ 0.010486 := by
    have := pow_le_pow_left₀ h0 h1 4; norm_num at this ⊢; linarith
  have q : w * (1 - w) ^ 4 + (1 - w) * w ^ 4 ≤ 1 / 12 := by
    have : w * (1 - w) ^ 4 + (1 - w) * w ^ 4 = 1 / 12 - 3 * (w * (1 - w) - 1 / 6) ^ 2 := by ring
    nlinarith [sq_nonneg (w * (1 - w) - 1 / 6)]
  have q0 : 0 ≤ w * (1 - w) ^ 4 + (1 - w) * w ^ 4 := by positivity
  have m1 : |w * (1 - w) * (2 * w - 1) * θ ^ 3| ≤ 0.0963 * 0.032768 := by
    rw [abs_mul, abs_of_nonneg (pow_nonneg h0 3)]
    exact mul_le_mul (cubic w0 w1) t3 (pow_nonneg h0 3) (by norm_num)
  have m2 : (w * (1 - w) ^ 4 + (1 - w) * w ^ 4) * θ ^ 4 ≤ 1 / 12 * 0.010486 := mul_le_mul q t4 (pow_nonneg h0 4) (by norm_num)
  have m3 := abs_le.1 m1
  have a1 := mul_le_mul_of_nonneg_left e1.1 w0
  have a2 := mul_le_mul_of_nonneg_left e1.2 w0
  have a3 := mul_le_mul_of_nonneg_left e2.1 v0
  have a4 := mul_le_mul_of_nonneg_left e2.2 v0
  have id : w * (θ * (1 - w) - (θ * (1 - w)) ^ 3 / 6) - (1 - w) * (θ * w - (θ * w) ^ 3 / 6) =
    w * (1 - w) * (2 * w - 1) * θ ^ 3 / 6 := by ring
  rw [abs_le]
  constructor <;> norm_num at m3 m2 ⊢ <;> nlinarith

theorem angle_small {d : ℝ} (h : 0.9497 ≤ d) (h1 : d ≤ 1) : Real.arccos d ≤ 0.32 := by
  have h2 := Real.cos_arccos (by linarith) h1
  by_contra h3
  have h3 := not_le.1 h3
  have h4 : Real.cos (Real.arccos d) ≤ Real.cos 0.32 :=
    Real.cos_le_cos_of_nonneg_of_le_pi (by norm_num) (Real.arccos_le_pi d) h3.le
  have h5 := (abs_le.1 (Real.cos_bound (x := 0.32) (by norm_num))).2
  norm_num at h5
  linarith

theorem coslow {θ w : ℝ} (t0 : 0 ≤ θ) (t1 : θ ≤ 0.32) (w0 : 0 ≤ w) (w1 : w ≤ 1) :
    0.94 ≤ (1 - w) * Real.cos (θ * w) + w * Real.cos (θ * (1 - w)) := by
  have hcos : ∀ t : ℝ, 0 ≤ t → t ≤ 1 → 0.94 ≤ Real.cos (θ * t) := fun t k0 k1 => by
    have := Real.one_sub_sq_div_two_le_cos (x := θ * t)
    have : (θ * t) ^ 2 ≤ 0.32 ^ 2 := pow_le_pow_left₀ (mul_nonneg t0 k0) (by nlinarith) 2
    norm_num at this ⊢
    linarith
  have h1 := mul_le_mul_of_nonneg_left (hcos w w0 w1) (sub_nonneg.2 w1)
  have h2 := mul_le_mul_of_nonneg_left (hcos (1 - w) (by linarith) (by linarith)) w0
  linarith

theorem close {n C S d : ℝ} (n1 : 0.98 ≤ n) (C1 : 0.94 ≤ C) (g : |S| ≤ 0.00058) (hcr : n * d = C) (n3 : n ^ 2 = C ^ 2 + S ^ 2) :
    2 - 2 * d ≤ (1 / 1500) ^ 2 := by
  have S2 : S ^ 2 ≤ 0.00058 ^ 2 := sq_le_sq' (abs_le.1 g).1 (abs_le.1 g).2
  have k : n * (n + C) * (2 - 2 * d) = 2 * S ^ 2 := by
    linear_combination (-2) * (n + C) * hcr + 2 * n3
  have k2 : 0.98 * 1.92 ≤ n * (n + C) := mul_le_mul n1 (by linarith) (by norm_num) (by linarith)
  by_contra hh
  have k3 := mul_le_mul k2 (not_le.1 hh).le (by norm_num) (by nlinarith)
  rw [k] at k3
  norm_num at S2 k3
  linarith

/-- the squared distance between the two points -/
theorem dist {P Q : Quat ℝ} (hP : P.IsUnit) (hQ : Q.IsUnit) (h : 0.9497 ≤ P.dot Q) (h1 : P.dot Q < 1) {w : ℝ} (w0 : 0 ≤ w) (w1 : w ≤ 1) :
    let c := P.chordPoint Q w
    let r := P.arcPoint Q w
    (c.x - r.x) ^ 2 + (c.y - r.y) ^ 2 + (c.z - r.z) ^ 2 + (c.w - r.w) ^ 2 ≤ (1 / 1500) ^ 2 := by
  intro c r
  obtain ⟨ru, rp, rq⟩ := (C158_points hP hQ w0 w1).1 (by rw [abs_lt]; constructor <;> linarith)
  obtain ⟨cu, -⟩ := (C158_points hP hQ w0 w1).2 (by linarith)
  change r.IsUnit at ru
  change P.dot r = _ at rp
  change Q.dot r = _ at rq
  change c.IsUnit at cu
  obtain ⟨θ, hθ⟩ : ∃ θ, θ = Real.arccos (P.dot Q) := ⟨_, rfl⟩
  have t0 : 0 ≤ θ := by rw [hθ]; exact Real.arccos_nonneg _
  have t1 : θ ≤ 0.32 := by rw [hθ]; exact angle_small h h1.le
  have hc : Real.cos θ = P.dot Q := by rw [hθ]; exact Real.cos_arccos (by linarith) h1.le
  rw [← hθ, mul_comm] at rp rq
  have g := gap t0 t1 w0 w1
  have cl := chord_long hP hQ (by linarith) w0 w1
  obtain ⟨n, hn⟩ : ∃ n, n = √(((1 - w) * P.x + w * Q.x) ^ 2 + ((1 - w) * P.y + w * Q.y) ^ 2 + ((1 - w) * P.z + w * Q.z) ^ 2 +
      ((1 - w) * P.w + w * Q.w) ^ 2) := ⟨_, rfl⟩
  have n1 : 0.98 ≤ n := by rw [hn]; exact Real.le_sqrt_of_sq_le cl
  have n2 : n ^ 2 = ((1 - w) * P.x + w * Q.x) ^ 2 + ((1 - w) * P.y + w * Q.y) ^ 2 + ((1 - w) * P.z + w * Q.z) ^ 2 +
      ((1 - w) * P.w + w * Q.w) ^ 2 := by rw [hn]; exact Real.sq_sqrt (le_trans (by norm_num) cl)
  have cx : c = ⟨((1 - w) * P.x + w * Q.x) / n, ((1 - w) * P.y + w * Q.y) / n, ((1 - w) * P.z + w * Q.z) / n,
    ((1 - w) * P.w + w * Q.w) / n⟩ := by rw [hn]; rfl
  obtain ⟨C, hC⟩ : ∃ C, C = (1 - w) * Real.cos (θ * w) + w * Real.cos (θ * (1 - w)) := ⟨_, rfl⟩
  obtain ⟨S, hS⟩ : ∃ S, S = w * Real.sin (θ * (1 - w)) - (1 - w) * Real.sin (θ * w) := ⟨_, rfl⟩
  rw [← hS] at g
  have hcr : n * c.dot r = C := by
    have : n * c.dot r = (1 - w) * P.dot r + w * Q.dot r := by
      rw [cx]; simp only [Quat.dot]; field_simp; ring
    rw [this, rp, rq, hC]
  have n3 : n ^ 2 = C ^ 2 + S ^ 2 := by
    have e : n ^ 2 = (1 - w) ^ 2 + w ^ 2 + 2 * (w * (1 - w)) * Real.cos (θ * w + θ * (1 - w)) := by
      rw [n2, ← mul_add, show w + (1 - w) = 1 by ring, mul_one, hc]
      unfold Quat.IsUnit at hP hQ; unfold Quat.dot; linear_combination (1 - w) ^ 2 * hP + w ^ 2 * hQ
    rw [e, hC, hS, Real.cos_add]
    have s1 := Real.sin_sq_add_cos_sq (θ * w)
    have s2 := Real.sin_sq_add_cos_sq (θ * (1 - w))
    linear_combination -(1 - w) ^ 2 * s1 - w ^ 2 * s2
  have D : (c.x - r.x) ^ 2 + (c.y - r.y) ^ 2 + (c.z - r.z) ^ 2 + (c.w - r.w) ^ 2 = 2 - 2 * c.dot r := by
    unfold Quat.IsUnit at ru cu; unfold Quat.dot; linear_combination ru + cu
  rw [D]
  exact close n1 (by rw [hC]; exact coslow t0 t1 w0 w1) g hcr n3

theorem lerp_eq {P Q : Quat ℝ} (hP : P.IsUnit) (hQ : Q.IsUnit) (h : -1 < P.dot Q) {w : ℝ} (w0 : 0 ≤ w) (w1 : w ≤ 1) :
    P.lerp Q w = .ok (P.chordPoint Q w) := by
  have e : ((1 - w) * P.x + w * Q.x) ^ 2 + ((1 - w) * P.y + w * Q.y) ^ 2 + ((1 - w) * P.z + w * Q.z) ^ 2 +
      ((1 - w) * P.w + w * Q.w) ^ 2 = (1 - w) ^ 2 + w ^ 2 + 2 * (w * (1 - w)) * P.dot Q := by
    unfold Quat.IsUnit at hP hQ; unfold Quat.dot; linear_combination (1 - w) ^ 2 * hP + w ^ 2 * hQ
  have pos : 0 < ((1 - w) * P.x + w * Q.x) ^ 2 + ((1 - w) * P.y + w * Q.y) ^ 2 + ((1 - w) * P.z + w * Q.z) ^ 2 +
      ((1 - w) * P.w + w * Q.w) ^ 2 := by
    rw [e]
    rcases eq_or_lt_of_le (mul_nonneg w0 (sub_nonneg.2 w1)) with k | k
    · rw [← k]; nlinarith
    · nlinarith [mul_lt_mul_of_pos_left h k, sq_nonneg (1 - w - w)]
  have sp := Real.sqrt_pos.2 pos
  have c : ∀ x y : ℝ, x + (y - x) * w = (1 - w) * x + w * y := fun x y => by ring
  simp only [Quat.lerp, ge_iff_le, w0, w1, and_self, if_true, c, Quat.normalize, real_sqrt, ← sq, Quat.chordPoint]
  rw [if_neg (by simpa using sp.ne')]
  simp only [mul_one_div]

/-- `slerp` in exact arithmetic -/
theorem slerp_eq {P Q : Quat ℝ} (hP : P.IsUnit) (hQ : Q.IsUnit) {w : ℝ} (w0 : 0 ≤ w) (w1 : w ≤ 1) :
    ∃ Q', (Q' = Q ∨ Q' = Q.neg) ∧ Q'.IsUnit ∧ 0 ≤ P.dot Q' ∧
      P.slerp Q w = .ok (if P.dot Q' < 95 / 100 then P.arcPoint Q' w else P.chordPoint Q' w) := by
  obtain ⟨q', hq'⟩ : ∃ q', q' = if P.dot Q < 0 then Q.neg else Q := ⟨_, rfl⟩
  have hu : q'.IsUnit := by
    rw [hq']; split_ifs
    · exact Quat.neg_unit hQ
    · exact hQ
  have hd : P.dot q' = |P.dot Q| := by
    rw [hq']; split_ifs with h
    · rw [abs_of_neg h]; simp [Quat.dot, Quat.neg]; ring
    · rw [abs_of_nonneg (not_lt.1 h)]
  have d0 : 0 ≤ P.dot q' := by rw [hd]; exact abs_nonneg _
  have e : P.slerp Q w = if P.dot q' < 95 / 100 then .ok (Quat.slerpArc P q' (P.dot q') w) else P.lerp q' w := by
    rw [hd, hq']
    simp only [Quat.slerp, ge_iff_le, w0, w1, and_self, if_true]
    by_cases h : P.dot Q < 0
    · simp only [h, if_true, abs_of_neg h]; rfl
    · simp only [h, if_false, abs_of_nonneg (not_lt.1 h)]
  refine ⟨q', by rw [hq']; split_ifs <;> simp, hu, d0, ?_⟩
  rw [e]
  split_ifs with h
  · rw [arcPoint_eq (by linarith) (by linarith)]
  · exact lerp_eq hP hu (by linarith) w0 w1

end SlerpErr

open SlerpErr

/-- What one expects: at the weight `w` the turn is the fraction `w` of the whole. -/
def C159_full : Prop := ∀ (P Q : Quat ℝ) (w : ℝ), P.IsUnit → Q.IsUnit → 0 ≤ w → w ≤ 1 →
  ∃ r Q', P.slerp Q w = .ok r ∧ (Q' = Q ∨ Q' = Q.neg) ∧ 0 ≤ P.dot Q' ∧ P.dot r = Real.cos (w * Real.arccos (P.dot Q'))

/-- Not so where the chord is taken for the arc. -/
theorem C159_refuted : ¬ C159_full := by
  intro h
  have hP : (⟨0, 0, 0, 1⟩ : Quat ℝ).IsUnit := by norm_num [Quat.IsUnit]
  have hQ : (⟨0, 0, 7 / 25, 24 / 25⟩ : Quat ℝ).IsUnit := by norm_num [Quat.IsUnit]
  obtain ⟨r, Q', e, hQ', hd, hr⟩ := h ⟨0, 0, 0, 1⟩ ⟨0, 0, 7 / 25, 24 / 25⟩ (1 / 3) hP hQ (by norm_num) (by norm_num)
  have hQ1 : Q' = ⟨0, 0, 7 / 25, 24 / 25⟩ := by
    rcases hQ' with h | h
    · exact h
    · rw [h] at hd; norm_num [Quat.dot, Quat.neg] at hd
  subst hQ1
  have dv : (⟨0, 0, 0, 1⟩ : Quat ℝ).dot ⟨0, 0, 7 / 25, 24 / 25⟩ = 24 / 25 := by norm_num [Quat.dot]
  have e' : (⟨0, 0, 0, 1⟩ : Quat ℝ).slerp ⟨0, 0, 7 / 25, 24 / 25⟩ (1 / 3) =
      .ok (Quat.chordPoint ⟨0, 0, 0, 1⟩ ⟨0, 0, 7 / 25, 24 / 25⟩ (1 / 3)) := by
    rw [← lerp_eq hP hQ (by rw [dv]; norm_num) (by norm_num) (by norm_num)]
    unfold Quat.slerp
    rw [dv]
    norm_num
  rw [e'] at e
  injection e with e
  rw [← e, dv] at hr
  have c3 := Real.cos_three_mul (1 / 3 * Real.arccos (24 / 25))
  rw [show 3 * (1 / 3 * Real.arccos (24 / 25)) = Real.arccos (24 / 25) by ring, Real.cos_arccos (by norm_num) (by norm_num), ← hr] at c3
  have k2 : ((⟨0, 0, 0, 1⟩ : Quat ℝ).dot (Quat.chordPoint ⟨0, 0, 0, 1⟩ ⟨0, 0, 7 / 25, 24 / 25⟩ (1 / 3))) ^ 2 = 5476 / 5525 := by
    simp only [Quat.dot, Quat.chordPoint, zero_mul, zero_add, one_mul]
    rw [div_pow, Real.sq_sqrt (by norm_num)]
    norm_num
  generalize (⟨0, 0, 0, 1⟩ : Quat ℝ).dot (Quat.chordPoint ⟨0, 0, 0, 1⟩ ⟨0, 0, 7 / 25, 24 / 25⟩ (1 / 3)) = k at c3 k2
  have c4 : k * (4 * (5476 / 5525) - 3) = 24 / 25 := by rw [← k2]; linear_combination -c3
  have c5 : (5476 / 5525 : ℝ) * (4 * (5476 / 5525) - 3) ^ 2 = (24 / 25) ^ 2 := by rw [← c4, mul_pow, k2]
  norm_num at c5

/-- Never by much: the result is within 1/1500 of the point of the arc (which is undefined only if the two quaternions agree;
then the result is that quaternion).
Missing: the exact point (false, `C159_refuted`). -/
theorem C159_slerp_partial {P Q : Quat ℝ} (hP : P.IsUnit) (hQ : Q.IsUnit) {w : ℝ} (w0 : 0 ≤ w) (w1 : w ≤ 1) :
    ∃ r Q', P.slerp Q w = .ok r ∧ (Q' = Q ∨ Q' = Q.neg) ∧ Q'.IsUnit ∧ 0 ≤ P.dot Q' ∧
      (P.dot Q' < 95 / 100 → r = P.arcPoint Q' w) ∧
      (P.dot Q' < 1 → (r.x - (P.arcPoint Q' w).x) ^ 2 + (r.y - (P.arcPoint Q' w).y) ^ 2 + (r.z - (P.arcPoint Q' w).z) ^ 2 +
        (r.w - (P.arcPoint Q' w).w) ^ 2 ≤ (1 / 1500) ^ 2) ∧
      (P.dot Q' = 1 → Q' = P ∧ r = P) := by
  obtain ⟨Q', h1, hu, h2, e⟩ := slerp_eq hP hQ w0 w1
  refine ⟨_, Q', e, h1, hu, h2, fun h => if_pos h, fun h => ?_, fun h => ?_⟩
  · split_ifs with k
    · norm_num
    · exact dist hP hu (by norm_num at k ⊢; linarith) h w0 w1
  · have q : Q' = P := by
      have z : (Q'.x - P.x) ^ 2 + (Q'.y - P.y) ^ 2 + (Q'.z - P.z) ^ 2 + (Q'.w - P.w) ^ 2 = 0 := by
        unfold Quat.IsUnit at hP hu; unfold Quat.dot at h; linear_combination hP + hu - 2 * h
      have z1 := sq_nonneg (Q'.x - P.x); have z2 := sq_nonneg (Q'.y - P.y)
      have z3 := sq_nonneg (Q'.z - P.z); have z4 := sq_nonneg (Q'.w - P.w)
      ext
      · exact sub_eq_zero.1 (pow_eq_zero_iff two_ne_zero |>.1 (by linarith))
      · exact sub_eq_zero.1 (pow_eq_zero_iff two_ne_zero |>.1 (by linarith))
      · exact sub_eq_zero.1 (pow_eq_zero_iff two_ne_zero |>.1 (by linarith))
      · exact sub_eq_zero.1 (pow_eq_zero_iff two_ne_zero |>.1 (by linarith))
    subst q
    refine ⟨rfl, ?_⟩
    rw [if_neg (by rw [h]; norm_num)]
    have c : ∀ x : ℝ, (1 - w) * x + w * x = x := fun x => by ring
    simp only [Quat.chordPoint, c]
    rw [show Q'.x ^ 2 + Q'.y ^ 2 + Q'.z ^ 2 + Q'.w ^ 2 = 1 from hP, Real.sqrt_one]
    simp only [div_one]

/-- At the ends and half way the result is exact. -/
theorem C159_half {P Q : Quat ℝ} (hP : P.IsUnit) (hQ : Q.IsUnit) :
    ∃ r Q', P.slerp Q (1 / 2) = .ok r ∧ (Q' = Q ∨ Q' = Q.neg) ∧ 0 ≤ P.dot Q' ∧ r.IsUnit ∧
      P.dot r = Real.cos (Real.arccos (P.dot Q') / 2) ∧ Q'.dot r = Real.cos (Real.arccos (P.dot Q') / 2) := by
  obtain ⟨Q', h1, hu, h2, e⟩ := slerp_eq hP hQ (w := 1 / 2) (by norm_num) (by norm_num)
  refine ⟨_, Q', e, h1, h2, ?_⟩
  have pts := C158_points hP hu (w := 1 / 2) (by norm_num) (by norm_num)
  split_ifs with h
  · obtain ⟨k1, k2, k3⟩ := pts.1 (by rw [abs_lt]; constructor <;> linarith)
    refine ⟨k1, ?_, ?_⟩
    · rw [k2]; congr 1; ring
    · rw [k3]; congr 1; ring
  · have hd : P.dot Q' ≤ 1 := by
      have z1 := sq_nonneg (Q'.x - P.x); have z2 := sq_nonneg (Q'.y - P.y)
      have z3 := sq_nonneg (Q'.z - P.z); have z4 := sq_nonneg (Q'.w - P.w)
      unfold Quat.IsUnit at hP hu; unfold Quat.dot; linarith
    refine ⟨(pts.2 (by linarith)).1, ?_⟩
    have n2 : ((1 - 1 / 2) * P.x + 1 / 2 * Q'.x) ^ 2 + ((1 - 1 / 2) * P.y + 1 / 2 * Q'.y) ^ 2 +
        ((1 - 1 / 2) * P.z + 1 / 2 * Q'.z) ^ 2 + ((1 - 1 / 2) * P.w + 1 / 2 * Q'.w) ^ 2 = (1 + P.dot Q') / 2 := by
      unfold Quat.IsUnit at hP hu; unfold Quat.dot; linear_combination hP / 4 + hu / 4
    have n0 : 0 < √((1 + P.dot Q') / 2) := Real.sqrt_pos.2 (by linarith)
    have nn := Real.mul_self_sqrt (show 0 ≤ (1 + P.dot Q') / 2 by linarith)
    rw [Real.cos_half (by linarith [Real.arccos_nonneg (P.dot Q'), Real.pi_pos]) (Real.arccos_le_pi _),
      Real.cos_arccos (by linarith) hd]
    have cx : P.chordPoint Q' (1 / 2) = ⟨((1 - 1 / 2) * P.x + 1 / 2 * Q'.x) / √((1 + P.dot Q') / 2),
        ((1 - 1 / 2) * P.y + 1 / 2 * Q'.y) / √((1 + P.dot Q') / 2), ((1 - 1 / 2) * P.z + 1 / 2 * Q'.z) / √((1 + P.dot Q') / 2),
        ((1 - 1 / 2) * P.w + 1 / 2 * Q'.w) / √((1 + P.dot Q') / 2)⟩ := by rw [← n2]; rfl
    rw [cx]
    generalize hn : √((1 + P.dot Q') / 2) = n at n0 nn
    unfold Quat.IsUnit at hP hu; unfold Quat.dot at nn ⊢
    dsimp only
    constructor
    · field_simp; linear_combination -2 * nn + hP
    · field_simp; linear_combination -2 * nn + hu

/-- In floating point: the same, plus the errors of C158. -/
theorem C159_float_partial {rnd : ℝ → ℝ} {u : ℝ} (hr : IsRel rnd u) (hu : u ≤ 1 / 1048576) {a b : Quat (Fl ℝ rnd)} {P Q : Quat ℝ}
    (hP : P.IsUnit) (hQ : Q.IsUnit) (ha : a.Near (8 * u) P) (hb : b.Near (8 * u) Q) (hPQ : |P.dot Q| < 1)
    {w : ℝ} (w0 : 0 ≤ w) (w1 : w ≤ 1) :
    ∃ r Q', a.slerp b (.num w) = .ok r ∧ (Q' = Q ∨ Q' = Q.neg) ∧ -(72 * u) ≤ P.dot Q' ∧
      r.Near (1 / 1500 + 5100 * u) (P.arcPoint Q' w) := by
  have h0 := hr.nonneg
  obtain ⟨r, Q', e, h1, h2, h3⟩ := C158_slerp hr hu hP hQ ha hb w0 w1
  refine ⟨r, Q', e, h1, h2, ?_⟩
  have hu' : Q'.IsUnit := by rcases h1 with rfl | rfl; exacts [hQ, Quat.neg_unit hQ]
  have hd : P.dot Q' < 1 := by
    obtain ⟨k1, k2⟩ := abs_lt.1 hPQ
    rcases h1 with rfl | rfl
    · exact k2
    · have e : P.dot Q.neg = -P.dot Q := by simp only [Quat.dot, Quat.neg]; ring
      linarith
  rcases h3 with ⟨-, h3⟩ | ⟨k, h3⟩
  · have m : ∀ {x : Fl ℝ rnd} {y : ℝ}, x.Within (5100 * u) y → x.Within (1 / 1500 + 5100 * u) y := fun ⟨z, h1, h2⟩ =>
      ⟨z, h1, h2.trans (by linarith)⟩
    exact ⟨m h3.1, m h3.2.1, m h3.2.2.1, m h3.2.2.2⟩
  · have D := dist hP hu' (by linarith) hd w0 w1
    dsimp only at D
    have m : ∀ {x : Fl ℝ rnd} {y z : ℝ}, x.Within (97 * u) y → (y - z) ^ 2 ≤ (1 / 1500) ^ 2 → x.Within (1 / 1500 + 5100 * u) z :=
      fun ⟨v, h1, h2⟩ h3 => ⟨v, h1, by
        have h4 := abs_le_of_sq_le_sq h3 (by norm_num)
        have := abs_sub_le v _ _ |>.trans (add_le_add h2 h4)
        linarith⟩
    have e1 := sq_nonneg ((P.chordPoint Q' w).x - (P.arcPoint Q' w).x)
    have e2 := sq_nonneg ((P.chordPoint Q' w).y - (P.arcPoint Q' w).y)
    have e3 := sq_nonneg ((P.chordPoint Q' w).z - (P.arcPoint Q' w).z)
    have e4 := sq_nonneg ((P.chordPoint Q' w).w - (P.arcPoint Q' w).w)
    exact ⟨m h3.1 (by linarith), m h3.2.1 (by linarith), m h3.2.2.1 (by linarith), m h3.2.2.2 (by linarith)⟩

private theorem half_deg : (⟨0, 0, 7 / 25, 24 / 25⟩ : Quat ℝ).IsUnit := by norm_num [Quat.IsUnit]

/-- A third of a turn by 32.5 degrees, where the chord is taken. -/
example : ∃ r Q', (⟨0, 0, 0, 1⟩ : Quat ℝ).slerp ⟨0, 0, 7 / 25, 24 / 25⟩ (1 / 3) = .ok r ∧
    (Q' = ⟨0, 0, 7 / 25, 24 / 25⟩ ∨ Q' = (⟨0, 0, 7 / 25, 24 / 25⟩ : Quat ℝ).neg) := by
  obtain ⟨r, Q', h1, h2, -⟩ := C159_slerp_partial (P := ⟨0, 0, 0, 1⟩) (by norm_num [Quat.IsUnit]) half_deg (w := 1 / 3) (by norm_num) (by norm_num)
  exact ⟨r, Q', h1, h2⟩

example := C159_half (P := ⟨0, 0, 0, 1⟩) (by norm_num [Quat.IsUnit]) half_deg

example := C159_float_partial (isRel_rne 24 (by norm_num)) (by norm_num : (2 : ℝ) ^ (-((24 : ℕ) : ℤ)) ≤ 1 / 1048576)
  (P := ⟨0, 0, 0, 1⟩) (by norm_num [Quat.IsUnit]) half_deg (exact (isRel_rne 24 (by norm_num)) _) (exact (isRel_rne 24 (by norm_num)) _)
  (by norm_num [Quat.dot, abs_lt]) (w := 1 / 3) (by norm_num) (by norm_num)

end MathLib
