import Mathlib.Analysis.SpecialFunctions.Trigonometric.Bounds
import Verif.Props.Quaternions
import Verif.Spec.FloatReal

/-! # Properties C55, C56: quaternion interpolation -/

namespace MathLib
open scoped Matrix Quaternion

/-- the inputs of a run on `XR`, where an invalid operation yields `nan` -/
def Quat.up (q : Quat ℝ) : Quat XR := ⟨.num q.x, .num q.y, .num q.z, .num q.w⟩

/-- angle between unit quaternions seen as points of the 3-sphere -/
noncomputable def Quat.arc (p q : Quat ℝ) : ℝ :=
  Real.arccos (p.x * q.x + p.y * q.y + p.z * q.z + p.w * q.w)

theorem Quat.dot_sq {p q : Quat ℝ} (hp : p.IsUnit) (hq : q.IsUnit) :
    -1 ≤ p.dot q ∧ p.dot q ≤ 1 ∧ (p.dot q = -1 → q = p.neg) := by
  unfold Quat.IsUnit at hp hq
  have h1 : (p.x - q.x) ^ 2 + (p.y - q.y) ^ 2 + (p.z - q.z) ^ 2 + (p.w - q.w) ^ 2 = 2 - 2 * p.dot q := by
    unfold Quat.dot; linear_combination hp + hq
  have h2 : (p.x + q.x) ^ 2 + (p.y + q.y) ^ 2 + (p.z + q.z) ^ 2 + (p.w + q.w) ^ 2 = 2 + 2 * p.dot q := by
    unfold Quat.dot; linear_combination hp + hq
  have e1 := sq_nonneg (p.x + q.x); have e2 := sq_nonneg (p.y + q.y)
  have e3 := sq_nonneg (p.z + q.z); have e4 := sq_nonneg (p.w + q.w)
  refine ⟨by linarith, ?_, fun h => ?_⟩
  · have := sq_nonneg (p.x - q.x); have := sq_nonneg (p.y - q.y)
    have := sq_nonneg (p.z - q.z); have := sq_nonneg (p.w - q.w)
    linarith
  · ext
    · exact eq_neg_of_add_eq_zero_right (pow_eq_zero_iff two_ne_zero |>.1 (by linarith))
    · exact eq_neg_of_add_eq_zero_right (pow_eq_zero_iff two_ne_zero |>.1 (by linarith))
    · exact eq_neg_of_add_eq_zero_right (pow_eq_zero_iff two_ne_zero |>.1 (by linarith))
    · exact eq_neg_of_add_eq_zero_right (pow_eq_zero_iff two_ne_zero |>.1 (by linarith))

theorem acos'_eq {d : ℝ} (h1 : -1 ≤ d) (h2 : d ≤ 1) : acos' d = Real.arccos d := by
  simp [acos', not_lt.2 h1, not_lt.2 h2]

/-- Everything there is to know about the spherical branch. -/
theorem Quat.slerpArc_spec {p q : Quat ℝ} (hp : p.IsUnit) (hq : q.IsUnit) (h1 : -1 < p.dot q)
    (h2 : p.dot q < 1) (t : ℝ) (ht0 : 0 ≤ t) (ht1 : t ≤ 1) :
    let r := Quat.slerpArc p q (p.dot q) t
    let θ := Real.arccos (p.dot q)
    0 < Real.sin θ ∧ r.IsUnit ∧ p.dot r = Real.cos (t * θ) ∧ q.dot r = Real.cos ((1 - t) * θ) ∧
    (t = 0 → r = p) ∧ (t = 1 → r = q) ∧
    ∃ a b : ℝ, 0 ≤ a ∧ 0 ≤ b ∧ r.toQ = a • p.toQ + b • q.toQ := by
  intro r θ
  have hθ0 : 0 < θ := Real.arccos_pos.2 h2
  have hθpi : θ < Real.pi := by
    rcases lt_or_eq_of_le (Real.arccos_le_pi (p.dot q)) with h | h
    · exact h
    · rw [Real.arccos_eq_pi] at h; linarith
  have hcos : Real.cos θ = p.dot q := Real.cos_arccos h1.le h2.le
  have hs : 0 < Real.sin θ := Real.sin_pos_of_pos_of_lt_pi hθ0 hθpi
  have hr : r = ⟨(p.x * Real.sin (θ * (1 - t)) + q.x * Real.sin (θ * t)) * (1 / Real.sin θ),
      (p.y * Real.sin (θ * (1 - t)) + q.y * Real.sin (θ * t)) * (1 / Real.sin θ),
      (p.z * Real.sin (θ * (1 - t)) + q.z * Real.sin (θ * t)) * (1 / Real.sin θ),
      (p.w * Real.sin (θ * (1 - t)) + q.w * Real.sin (θ * t)) * (1 / Real.sin θ)⟩ := by
    simp only [r, Quat.slerpArc, acos'_eq h1.le h2.le, real_sin]; rfl
  obtain ⟨A, hA⟩ : ∃ A, A = θ * (1 - t) := ⟨_, rfl⟩
  obtain ⟨B, hB⟩ : ∃ B, B = θ * t := ⟨_, rfl⟩
  have hAB : θ = A + B := by rw [hA, hB]; ring
  have hA0 : 0 ≤ Real.sin A := Real.sin_nonneg_of_nonneg_of_le_pi (by rw [hA]; nlinarith) (by rw [hA]; nlinarith)
  have hB0 : 0 ≤ Real.sin B := Real.sin_nonneg_of_nonneg_of_le_pi (by rw [hB]; nlinarith) (by rw [hB]; nlinarith)
  rw [← hA, ← hB] at hr
  have ca := Real.sin_sq_add_cos_sq A
  have cb := Real.sin_sq_add_cos_sq B
  obtain ⟨i, hi⟩ : ∃ i, i = 1 / Real.sin θ := ⟨_, rfl⟩
  have his : i * Real.sin θ = 1 := by rw [hi]; field_simp
  have hi0 : 0 < i := by rw [hi]; positivity
  rw [← hi] at hr
  have hc2 : Real.cos A * Real.cos B - Real.sin A * Real.sin B = p.dot q := by
    rw [← hcos, hAB, Real.cos_add]
  have hs2 : i * (Real.sin A * Real.cos B + Real.cos A * Real.sin B) = 1 := by
    rw [← his, hAB, Real.sin_add]
  unfold Quat.IsUnit at hp hq
  obtain ⟨d, hd⟩ : ∃ d, d = p.dot q := ⟨_, rfl⟩
  have hd' : p.x * q.x + p.y * q.y + p.z * q.z + p.w * q.w = d := by rw [hd]; rfl
  rw [← hd] at hc2
  refine ⟨hs, ?_, ?_, ?_, fun h => ?_, fun h => ?_, Real.sin A * i, Real.sin B * i, by positivity,
    by positivity, ?_⟩
  · rw [hr]; simp only [Quat.IsUnit]
    have : i ^ 2 * (Real.sin A ^ 2 + Real.sin B ^ 2 + 2 * Real.sin A * Real.sin B * d) = 1 := by
      rw [← hc2]
      linear_combination (i * (Real.sin A * Real.cos B + Real.cos A * Real.sin B) + 1) * hs2 +
        i ^ 2 * (- Real.sin A ^ 2 * cb - Real.sin B ^ 2 * ca + 2 * Real.sin A ^ 2 * 0) +
        i ^ 2 * (Real.sin A ^ 2 + Real.sin B ^ 2 - Real.sin A ^ 2 - Real.sin B ^ 2)
    linear_combination this + i ^ 2 * Real.sin A ^ 2 * hp + i ^ 2 * Real.sin B ^ 2 * hq +
      2 * i ^ 2 * Real.sin A * Real.sin B * hd'
  · have : t * θ = B := by rw [hB]; ring
    rw [this, hr]; simp only [Quat.dot]
    linear_combination Real.sin A * i * hp + Real.sin B * i * hd' - Real.sin B * i * hc2 +
      Real.cos B * hs2 + Real.sin A * i * (-cb) * 1
  · have : (1 - t) * θ = A := by rw [hA]; ring
    rw [this, hr]; simp only [Quat.dot]
    linear_combination Real.sin B * i * hq + Real.sin A * i * hd' - Real.sin A * i * hc2 +
      Real.cos A * hs2 + Real.sin B * i * (-ca) * 1
  · have hBz : B = 0 := by rw [hB, h]; ring
    have hAz : Real.sin A * i = 1 := by
      rw [hBz, add_zero] at hAB; rw [← hAB, mul_comm]; exact his
    rw [hr, hBz, Real.sin_zero]
    ext <;> simp only
    · linear_combination p.x * hAz
    · linear_combination p.y * hAz
    · linear_combination p.z * hAz
    · linear_combination p.w * hAz
  · have hAz : A = 0 := by rw [hA, h]; ring
    have hBz : Real.sin B * i = 1 := by
      rw [hAz, zero_add] at hAB; rw [← hAB, mul_comm]; exact his
    rw [hr, hAz, Real.sin_zero]
    ext <;> simp only
    · linear_combination q.x * hBz
    · linear_combination q.y * hBz
    · linear_combination q.z * hBz
    · linear_combination q.w * hBz
  · rw [hr]
    ext <;> simp <;> ring

/-! ## C55 -/

/-- Straight interpolation followed by normalisation. -/
theorem C55_lerp (p q : Quat ℝ) (hp : p.IsUnit) (hq : q.IsUnit) (t : ℝ) (h0 : 0 ≤ t) (h1 : t ≤ 1) :
    (∃ r, p.lerp q t = .ok r ∧ r.IsUnit) ∧ p.lerp q 0 = .ok p ∧ p.lerp q 1 = .ok q := by
  refine ⟨?_, ?_, ?_⟩
  · simp only [Quat.lerp, ge_iff_le, h0, h1, and_self, if_true]
    exact ⟨_, rfl, (C50_normalize _).1⟩
  · simp [Quat.lerp]
    exact (C50_normalize p).2.1 hp
  · simp [Quat.lerp]
    exact (C50_normalize q).2.1 hq

theorem Quat.neg_unit {q : Quat ℝ} (h : q.IsUnit) : q.neg.IsUnit := by
  unfold Quat.IsUnit at *; simp only [Quat.neg]; linear_combination h

/-- `slerp`: the minor arc to `q` or `-q`, whichever is nearer. -/
theorem C55_slerp (p q : Quat ℝ) (hp : p.IsUnit) (hq : q.IsUnit) (t : ℝ) (h0 : 0 ≤ t) (h1 : t ≤ 1) :
    (∃ r, p.slerp q t = .ok r ∧ r.IsUnit) ∧ p.slerp q 0 = .ok p ∧
    p.slerp q 1 = .ok (if p.dot q < 0 then q.neg else q) := by
  obtain ⟨q', hq'⟩ : ∃ q', q' = if p.dot q < 0 then q.neg else q := ⟨_, rfl⟩
  have hu : q'.IsUnit := by
    rw [hq']; split_ifs
    · exact Quat.neg_unit hq
    · exact hq
  have hd : p.dot q' = |p.dot q| := by
    rw [hq']; split_ifs with h
    · rw [abs_of_neg h]; simp [Quat.dot, Quat.neg]; ring
    · rw [abs_of_nonneg (not_lt.1 h)]
  have e : ∀ s, 0 ≤ s → s ≤ 1 → p.slerp q s =
      if p.dot q' < 95 / 100 then .ok (Quat.slerpArc p q' (p.dot q') s) else p.lerp q' s := by
    intro s hs0 hs1
    rw [hd, hq']
    simp only [Quat.slerp, ge_iff_le, hs0, hs1, and_self, if_true]
    by_cases h : p.dot q < 0
    · simp only [h, if_true, abs_of_neg h]; rfl
    · simp only [h, if_false, abs_of_nonneg (not_lt.1 h)]
  rw [← hq', e t h0 h1, e 0 le_rfl zero_le_one, e 1 zero_le_one le_rfl]
  obtain ⟨l1, l2, l3⟩ := C55_lerp p q' hp hu t h0 h1
  by_cases hb : p.dot q' < 95 / 100
  · simp only [hb, if_true]
    have hm : -1 < p.dot q' := by rw [hd]; linarith [abs_nonneg (p.dot q)]
    have hl : p.dot q' < 1 := by linarith
    refine ⟨⟨_, rfl, (Quat.slerpArc_spec hp hu hm hl t h0 h1).2.1⟩, ?_, ?_⟩
    · rw [(Quat.slerpArc_spec hp hu hm hl 0 le_rfl zero_le_one).2.2.2.2.1 rfl]
    · rw [(Quat.slerpArc_spec hp hu hm hl 1 zero_le_one le_rfl).2.2.2.2.2.1 rfl]
  · simp only [hb, if_false]
    exact ⟨l1, l2, l3⟩

/-- `slerpNoInvert` of opposite quaternions divides by `sin π = 0`. -/
theorem C55_noInvert_refuted :
    ∃ p q : Quat ℝ, p.IsUnit ∧ q.IsUnit ∧ p.up.slerpNoInvert q.up (.num (1 / 2)) =
      .ok ⟨.nan, .nan, .nan, .nan⟩ := by
  refine ⟨⟨0, 0, 0, 1⟩, ⟨0, 0, 0, -1⟩, by simp [Quat.IsUnit], by simp [Quat.IsUnit], ?_⟩
  have e1 : (1 : XR) = .num 1 := rfl
  have e0 : (0 : XR) = .num 0 := rfl
  have e95 : (15938355 : XR) = .num 15938355 := rfl
  have e100 : (16777216 : XR) = .num 16777216 := rfl
  simp only [Quat.slerpNoInvert, Quat.up, Quat.dot, Quat.slerpArc, acos', e1, e0, e95, e100]
  norm_num
  rfl

/-- Without the sign change: everything holds unless the quaternions are opposite.
Missing: opposite quaternions (false). -/
theorem C55_noInvert_partial (p q : Quat ℝ) (hp : p.IsUnit) (hq : q.IsUnit) (hne : q ≠ p.neg)
    (t : ℝ) (h0 : 0 ≤ t) (h1 : t ≤ 1) :
    (∃ r, p.slerpNoInvert q t = .ok r ∧ r.IsUnit) ∧ p.slerpNoInvert q 0 = .ok p ∧
    p.slerpNoInvert q 1 = .ok q := by
  obtain ⟨d1, d2, d3⟩ := Quat.dot_sq hp hq
  have hm : -1 < p.dot q := lt_of_le_of_ne d1 (fun h => hne (d3 h.symm))
  have e : ∀ s, 0 ≤ s → s ≤ 1 → p.slerpNoInvert q s =
      if p.dot q < 15938355 / 16777216 then .ok (Quat.slerpArc p q (p.dot q) s) else p.lerp q s := by
    intro s hs0 hs1
    simp only [Quat.slerpNoInvert, ge_iff_le, hs0, hs1, and_self, if_true]
  rw [e t h0 h1, e 0 le_rfl zero_le_one, e 1 zero_le_one le_rfl]
  by_cases hb : p.dot q < 15938355 / 16777216
  · simp only [hb, if_true]
    have hl : p.dot q < 1 := by linarith
    refine ⟨⟨_, rfl, (Quat.slerpArc_spec hp hq hm hl t h0 h1).2.1⟩, ?_, ?_⟩
    · rw [(Quat.slerpArc_spec hp hq hm hl 0 le_rfl zero_le_one).2.2.2.2.1 rfl]
    · rw [(Quat.slerpArc_spec hp hq hm hl 1 zero_le_one le_rfl).2.2.2.2.2.1 rfl]
  · simp only [hb, if_false]
    exact C55_lerp p q hp hq t h0 h1

theorem Quat.up_normalize (q : Quat ℝ) : q.up.normalize = q.normalize.up := by
  have hnn : ¬ q.x * q.x + q.y * q.y + q.z * q.z + q.w * q.w < 0 := by
    have := mul_self_nonneg q.x; have := mul_self_nonneg q.y; have := mul_self_nonneg q.z
    have := mul_self_nonneg q.w
    linarith
  have e1 : (1 : XR) = .num 1 := rfl
  have e0 : (0 : XR) = .num 0 := rfl
  by_cases h : √(q.x * q.x + q.y * q.y + q.z * q.z + q.w * q.w) = 0
  · simp [Quat.normalize, Quat.up, hnn, h, Quat.identity, e1, e0]
  · simp [Quat.normalize, Quat.up, hnn, h, e1, e0]

theorem Quat.up_slerpArc (p q : Quat ℝ) (d t : ℝ) (h1 : -1 < d) (h2 : d < 1) :
    p.up.slerpArc q.up (.num d) (.num t) = (p.slerpArc q d t).up := by
  have e1 : (1 : XR) = .num 1 := rfl
  have em : (-1 : XR) = .num (-1) := rfl
  have ha : acos' (.num d : XR) = .num (Real.arccos d) := by
    simp [acos', e1, not_lt.2 h1.le, not_lt.2 h2.le]
  have hs : Real.sin (Real.arccos d) ≠ 0 := by
    rw [Real.sin_arccos]; exact (Real.sqrt_pos.2 (by nlinarith)).ne'
  simp [Quat.slerpArc, ha, acos'_eq h1.le h2.le, Quat.up, e1, hs]

/-- No division by zero and no invalid `acos`: the same code on `XR` gives the real results. -/
theorem C55_defined (p q : Quat ℝ) (hp : p.IsUnit) (hq : q.IsUnit) (t : ℝ) :
    p.up.lerp q.up (.num t) = (p.lerp q t).map Quat.up ∧
    p.up.slerp q.up (.num t) = (p.slerp q t).map Quat.up ∧
    (q ≠ p.neg → p.up.slerpNoInvert q.up (.num t) = (p.slerpNoInvert q t).map Quat.up) := by
  have e1 : (1 : XR) = .num 1 := rfl
  have e0 : (0 : XR) = .num 0 := rfl
  have e95 : (95 / 100 : XR) = .num (95 / 100) := by
    change (.num 95 / .num 100 : XR) = _
    simp
  have e95' : (15938355 / 16777216 : XR) = .num (15938355 / 16777216) := by
    change (.num 15938355 / .num 16777216 : XR) = _
    simp
  have hl : ∀ a b : Quat ℝ, a.up.lerp b.up (.num t) = (a.lerp b t).map Quat.up := by
    intro a b
    have := Quat.up_normalize ⟨a.x + (b.x - a.x) * t, a.y + (b.y - a.y) * t, a.z + (b.z - a.z) * t,
      a.w + (b.w - a.w) * t⟩
    simp only [Quat.lerp, ge_iff_le, e0, e1, Fl.num_le]
    split_ifs
    · simp only [Except.map]
      rw [← this]
      simp [Quat.up]
    · rfl
  have hdot : ∀ a b : Quat ℝ, a.up.dot b.up = .num (a.dot b) := by
    intro a b; simp [Quat.dot, Quat.up]
  obtain ⟨d1, d2, d3⟩ := Quat.dot_sq hp hq
  refine ⟨hl p q, ?_, fun hne => ?_⟩
  · simp only [Quat.slerp, ge_iff_le, e0, e1, Fl.num_le, hdot, Fl.num_lt, e95]
    by_cases hb : 0 ≤ t ∧ t ≤ 1
    · by_cases hn : p.dot q < 0
      · have hneg : (⟨-q.up.x, -q.up.y, -q.up.z, -q.up.w⟩ : Quat XR) = q.neg.up := by
          simp [Quat.up, Quat.neg]
        simp only [hb, and_self, hn, if_true, hneg, Fl.num_neg, Fl.num_lt]
        by_cases h95 : -p.dot q < 95 / 100
        · simp only [h95, if_true, Except.map]
          rw [Quat.up_slerpArc _ _ _ _ (by linarith) (by linarith)]; rfl
        · simp only [h95, if_false]; exact hl p q.neg
      · simp only [hb, and_self, hn, if_true, if_false, Fl.num_lt]
        by_cases h95 : p.dot q < 95 / 100
        · simp only [h95, if_true, Except.map]
          rw [Quat.up_slerpArc _ _ _ _ (by linarith) (by linarith)]
        · simp only [h95, if_false]; exact hl p q
    · simp only [hb, if_false]; rfl
  · have hm : -1 < p.dot q := lt_of_le_of_ne d1 (fun h => hne (d3 h.symm))
    simp only [Quat.slerpNoInvert, ge_iff_le, e0, e1, Fl.num_le, hdot, Fl.num_lt, e95']
    by_cases hb : 0 ≤ t ∧ t ≤ 1
    · simp only [hb, and_self, if_true]
      by_cases h95 : p.dot q < 15938355 / 16777216
      · simp only [h95, if_true, Except.map]
        rw [Quat.up_slerpArc _ _ _ _ hm (by linarith)]
      · simp only [h95, if_false]; exact hl p q
    · simp only [hb, if_false]; rfl

example : (⟨0, 0, 3/5, 4/5⟩ : Quat ℝ).IsUnit ∧ (⟨4/5, 0, 0, -3/5⟩ : Quat ℝ).IsUnit ∧
    (⟨4/5, 0, 0, -3/5⟩ : Quat ℝ) ≠ (⟨0, 0, 3/5, 4/5⟩ : Quat ℝ).neg := by
  norm_num [Quat.IsUnit, Quat.neg]

/-! ## C56 -/

/-- When the quaternions are close (scalar product at least 0.95) `slerp` falls back on `lerp`, whose
angular speed is not constant. -/
theorem C56_refuted :
    ∃ p q : Quat ℝ, p.IsUnit ∧ q.IsUnit ∧ 0 ≤ p.dot q ∧ ∃ r, p.slerp q (1 / 4) = .ok r ∧
      p.arc r ≠ 1 / 4 * p.arc q := by
  obtain ⟨n, hn⟩ : ∃ n, n = √(985 / 1000 : ℝ) := ⟨_, rfl⟩
  have hn2 : n ^ 2 = 985 / 1000 := by rw [hn]; exact Real.sq_sqrt (by norm_num)
  have hn0 : 0 < n := by rw [hn]; exact Real.sqrt_pos.2 (by norm_num)
  refine ⟨⟨0, 0, 0, 1⟩, ⟨0, 0, 28 / 100, 96 / 100⟩, by norm_num [Quat.IsUnit], by norm_num [Quat.IsUnit],
    by norm_num [Quat.dot], ⟨0, 0, 7 / 100 * (1 / n), 99 / 100 * (1 / n)⟩, ?_, fun h => ?_⟩
  · have e : √(7 / 100 * (7 / 100) + 99 / 100 * (99 / 100) : ℝ) = n := by rw [hn]; norm_num
    norm_num [Quat.slerp, Quat.dot, Quat.lerp, Quat.normalize] at e ⊢
    rw [← e, inv_div]
  · have h4 : Real.cos (4 * Real.arccos (99 / 100 * (1 / n))) = 96 / 100 := by
      have : 4 * Real.arccos (99 / 100 * (1 / n)) = Real.arccos (96 / 100) := by
        simp only [Quat.arc] at h; norm_num at h ⊢; linarith
      rw [this, Real.cos_arccos] <;> norm_num
    have hc : Real.cos (Real.arccos (99 / 100 * (1 / n))) = 99 / 100 * (1 / n) := by
      have h1 : (99 / 100 : ℝ) ≤ n := by nlinarith
      refine Real.cos_arccos ?_ ?_
      · have : 0 < 99 / 100 * (1 / n) := by positivity
        linarith
      · rw [mul_one_div, div_le_one hn0]; exact h1
    have e4 : 4 * Real.arccos (99 / 100 * (1 / n)) = 2 * (2 * Real.arccos (99 / 100 * (1 / n))) := by ring
    rw [e4, Real.cos_two_mul, Real.cos_two_mul, hc] at h4
    have e5 : (99 / 100 * (1 / n)) ^ 2 = 9801 / 9850 := by
      rw [mul_pow, one_div, inv_pow, hn2]; norm_num
    rw [e5] at h4
    norm_num at h4

/-- In the spherical branch the speed is constant: `slerp(p,q,t)` is at angle `t θ` from `p` and at
`(1-t) θ` from the nearer of `±q`, with `θ ≤ π/2`, and it lies on the minor arc.  In the other branch
(`|p·q| ≥ 0.95`) only the arc is guaranteed: a non-negative combination of the ends.
Missing: constant speed when `|p·q| ≥ 0.95` (false). -/
theorem C56_partial (p q : Quat ℝ) (hp : p.IsUnit) (hq : q.IsUnit) (t : ℝ) (h0 : 0 ≤ t) (h1 : t ≤ 1) :
    ∃ r q' : Quat ℝ, p.slerp q t = .ok r ∧ (q' = q ∨ q' = q.neg) ∧ r.IsUnit ∧
      p.arc q' ≤ Real.pi / 2 ∧
      (∃ a b : ℝ, 0 ≤ a ∧ 0 ≤ b ∧ r.toQ = a • p.toQ + b • q'.toQ) ∧
      (|p.x * q.x + p.y * q.y + p.z * q.z + p.w * q.w| < 95 / 100 →
        p.arc r = t * p.arc q' ∧ q'.arc r = (1 - t) * p.arc q') := by
  obtain ⟨q', hq'⟩ : ∃ q', q' = if p.dot q < 0 then q.neg else q := ⟨_, rfl⟩
  have hu : q'.IsUnit := by
    rw [hq']; split_ifs
    · exact Quat.neg_unit hq
    · exact hq
  have hd : p.dot q' = |p.dot q| := by
    rw [hq']; split_ifs with h
    · rw [abs_of_neg h]; simp [Quat.dot, Quat.neg]; ring
    · rw [abs_of_nonneg (not_lt.1 h)]
  have hd0 : 0 ≤ p.dot q' := by rw [hd]; exact abs_nonneg _
  have e : p.slerp q t =
      if p.dot q' < 95 / 100 then .ok (Quat.slerpArc p q' (p.dot q') t) else p.lerp q' t := by
    rw [hd, hq']
    simp only [Quat.slerp, ge_iff_le, h0, h1, and_self, if_true]
    by_cases h : p.dot q < 0
    · simp only [h, if_true, abs_of_neg h]; rfl
    · simp only [h, if_false, abs_of_nonneg (not_lt.1 h)]
  have hor : q' = q ∨ q' = q.neg := by rw [hq']; split_ifs <;> simp
  have harc : p.arc q' ≤ Real.pi / 2 := Real.arccos_le_pi_div_two.2 hd0
  have harc0 : 0 ≤ p.arc q' := Real.arccos_nonneg _
  have hpi := Real.pi_pos
  rw [e]
  by_cases hb : p.dot q' < 95 / 100
  · simp only [hb, if_true]
    obtain ⟨-, s1, s2, s3, -, -, s4⟩ :=
      Quat.slerpArc_spec hp hu (by linarith) (by linarith) t h0 h1
    refine ⟨_, q', rfl, hor, s1, harc, s4, fun _ => ⟨?_, ?_⟩⟩
    · change Real.arccos (p.dot _) = t * p.arc q'
      rw [s2]
      change Real.arccos (Real.cos (t * p.arc q')) = _
      rw [Real.arccos_cos (by positivity) (by nlinarith)]
    · change Real.arccos (q'.dot _) = (1 - t) * p.arc q'
      rw [s3]
      change Real.arccos (Real.cos ((1 - t) * p.arc q')) = _
      rw [Real.arccos_cos (mul_nonneg (by linarith) harc0) (by nlinarith)]
  · simp only [hb, if_false]
    obtain ⟨⟨r, hr, hru⟩, -, -⟩ := C55_lerp p q' hp hu t h0 h1
    refine ⟨r, q', hr, hor, hru, harc, ?_, fun h => absurd (by rw [hd]; exact h) hb⟩
    simp only [Quat.lerp, ge_iff_le, h0, h1, and_self, if_true, Except.ok.injEq] at hr
    have hne : (⟨p.x + (q'.x - p.x) * t, p.y + (q'.y - p.y) * t, p.z + (q'.z - p.z) * t,
        p.w + (q'.w - p.w) * t⟩ : Quat ℝ) ≠ ⟨0, 0, 0, 0⟩ := by
      intro h
      have hx := congrArg Quat.x h; have hy := congrArg Quat.y h
      have hz := congrArg Quat.z h; have hw := congrArg Quat.w h
      simp only at hx hy hz hw
      have hpp : p.x ^ 2 + p.y ^ 2 + p.z ^ 2 + p.w ^ 2 = 1 := hp
      have hdd : p.dot q' = p.x * q'.x + p.y * q'.y + p.z * q'.z + p.w * q'.w := rfl
      have : (1 - t) + t * p.dot q' = 0 := by
        rw [hdd]
        linear_combination p.x * hx + p.y * hy + p.z * hz + p.w * hw - (1 - t) * hpp
      have h95 := not_lt.1 hb
      nlinarith
    obtain ⟨k, hk, hkr⟩ := (C50_normalize _).2.2 hne
    rw [hr] at hkr
    refine ⟨k * (1 - t), k * t, mul_nonneg hk.le (by linarith), by positivity, ?_⟩
    rw [hkr]
    ext <;> simp <;> ring

example : |(0 : ℝ) * (4/5) + 0 * 0 + 3/5 * 0 + 4/5 * (-3/5)| < 95 / 100 := by
  rw [abs_lt]; norm_num

theorem arccos_le_32 {c : ℝ} (h : 95 / 100 ≤ c) : Real.arccos c ≤ 32 / 100 := by
  have hb := Real.cos_bound (x := 32 / 100) (by rw [abs_of_pos] <;> norm_num)
  have h1 : Real.cos (32 / 100) ≤ 95 / 100 := by
    have := (abs_le.1 hb).2
    rw [abs_of_pos (by norm_num : (0 : ℝ) < 32 / 100)] at this
    norm_num at this ⊢
    linarith
  rw [← Real.arccos_cos (x := 32 / 100) (by norm_num) (by linarith [Real.two_le_pi])]
  exact Real.arccos_le_arccos (h1.trans h)

theorem near_angles {c t k : ℝ} (hc : 95 / 100 ≤ c) (hc1 : c ≤ 1) (h0 : 0 ≤ t) (h1 : t ≤ 1) (hk : 0 < k)
    (hn : k ^ 2 * ((1 - t) ^ 2 + t ^ 2 + 2 * t * (1 - t) * c) = 1) :
    Real.arccos (k * ((1 - t) + t * c)) + Real.arccos (k * (t + (1 - t) * c)) = Real.arccos c ∧
    t * Real.sin (Real.arccos c) ≤ Real.arccos (k * ((1 - t) + t * c)) ∧
    (1 - t) * Real.sin (Real.arccos c) ≤ Real.arccos (k * (t + (1 - t) * c)) ∧
    |Real.arccos (k * ((1 - t) + t * c)) - t * Real.arccos c| ≤
      Real.arccos c - Real.sin (Real.arccos c) ∧
    |Real.arccos (k * ((1 - t) + t * c)) - t * Real.arccos c| < 1 / 180 := by
  have ht : 0 ≤ 1 - t := by linarith
  have a0 : 0 ≤ k * ((1 - t) + t * c) := by positivity
  have b0 : 0 ≤ k * (t + (1 - t) * c) := by positivity
  obtain ⟨θ, hθ⟩ : ∃ θ, θ = Real.arccos c := ⟨_, rfl⟩
  obtain ⟨s, hs⟩ : ∃ s, s = Real.sin θ := ⟨_, rfl⟩
  have cθ : Real.cos θ = c := by rw [hθ, Real.cos_arccos (by linarith) hc1]
  have θ0 : 0 ≤ θ := by rw [hθ]; exact Real.arccos_nonneg _
  have θ1 : θ ≤ 32 / 100 := by rw [hθ]; exact arccos_le_32 hc
  have hpi := Real.two_le_pi
  have s0 : 0 ≤ s := by rw [hs]; exact Real.sin_nonneg_of_nonneg_of_le_pi θ0 (by linarith)
  have s2 : s ^ 2 = 1 - c ^ 2 := by
    have := Real.sin_sq_add_cos_sq θ
    rw [← hs, cθ] at this; linarith
  have k1 : 1 ≤ k := by
    by_contra h
    push Not at h
    have : k ^ 2 < 1 := by nlinarith
    have h2 : (1 - t) ^ 2 + t ^ 2 + 2 * t * (1 - t) * c ≤ 1 := by nlinarith [mul_nonneg h0 ht]
    have h3 : 0 ≤ (1 - t) ^ 2 + t ^ 2 + 2 * t * (1 - t) * c := by positivity
    nlinarith
  have asq : (k * ((1 - t) + t * c)) ^ 2 + (k * (t * s)) ^ 2 = 1 := by
    linear_combination hn + k ^ 2 * t ^ 2 * s2
  have bsq : (k * (t + (1 - t) * c)) ^ 2 + (k * ((1 - t) * s)) ^ 2 = 1 := by
    linear_combination hn + k ^ 2 * (1 - t) ^ 2 * s2
  have le1 : ∀ a b : ℝ, 0 ≤ a → a ^ 2 + b ^ 2 = 1 → a ≤ 1 := fun a b ha h => by nlinarith [sq_nonneg b]
  have a1 := le1 _ _ a0 asq
  have b1 := le1 _ _ b0 bsq
  obtain ⟨φ, hφ⟩ : ∃ φ, φ = Real.arccos (k * ((1 - t) + t * c)) := ⟨_, rfl⟩
  obtain ⟨ψ, hψ⟩ : ∃ ψ, ψ = Real.arccos (k * (t + (1 - t) * c)) := ⟨_, rfl⟩
  have cφ : Real.cos φ = k * ((1 - t) + t * c) := by rw [hφ, Real.cos_arccos (by linarith) a1]
  have cψ : Real.cos ψ = k * (t + (1 - t) * c) := by rw [hψ, Real.cos_arccos (by linarith) b1]
  have φ0 : 0 ≤ φ := by rw [hφ]; exact Real.arccos_nonneg _
  have ψ0 : 0 ≤ ψ := by rw [hψ]; exact Real.arccos_nonneg _
  have φ1 : φ ≤ Real.pi / 2 := by rw [hφ]; exact Real.arccos_le_pi_div_two.2 a0
  have ψ1 : ψ ≤ Real.pi / 2 := by rw [hψ]; exact Real.arccos_le_pi_div_two.2 b0
  have sφ : Real.sin φ = k * (t * s) := by
    have h := Real.sin_sq_add_cos_sq φ
    rw [cφ] at h
    exact (pow_left_inj₀ (Real.sin_nonneg_of_nonneg_of_le_pi φ0 (by linarith)) (by positivity)
      two_ne_zero).1 (by linarith)
  have sψ : Real.sin ψ = k * ((1 - t) * s) := by
    have h := Real.sin_sq_add_cos_sq ψ
    rw [cψ] at h
    exact (pow_left_inj₀ (Real.sin_nonneg_of_nonneg_of_le_pi ψ0 (by linarith)) (by positivity)
      two_ne_zero).1 (by linarith)
  have sum : φ + ψ = θ := by
    apply Real.injOn_cos ⟨by linarith, by linarith⟩ ⟨θ0, by linarith⟩
    rw [Real.cos_add, cφ, cψ, sφ, sψ, cθ]
    linear_combination c * hn - k ^ 2 * t * (1 - t) * s2
  have lφ : t * s ≤ φ := by
    have h := Real.sin_le φ0
    rw [sφ] at h
    have : t * s ≤ k * (t * s) := le_mul_of_one_le_left (by positivity) k1
    linarith
  have lψ : (1 - t) * s ≤ ψ := by
    have h := Real.sin_le ψ0
    rw [sψ] at h
    have : (1 - t) * s ≤ k * ((1 - t) * s) := le_mul_of_one_le_left (by positivity) k1
    linarith
  have hsθ : s ≤ θ := by rw [hs]; exact Real.sin_le θ0
  rw [← hφ, ← hψ, ← hθ, ← hs]
  have hb : |φ - t * θ| ≤ θ - s := by
    rw [abs_le]
    constructor
    · linarith [mul_nonneg ht (sub_nonneg.2 hsθ)]
    · linarith [mul_nonneg h0 (sub_nonneg.2 hsθ)]
  refine ⟨sum, lφ, lψ, hb, lt_of_le_of_lt hb ?_⟩
  rcases eq_or_lt_of_le θ0 with h | h
  · rw [← h] at hs ⊢
    rw [hs, Real.sin_zero]; norm_num
  · have := Real.sin_gt_sub_cube h
    rw [← hs] at this
    have c1 : θ ^ 3 ≤ (32 / 100) ^ 3 := pow_le_pow_left₀ θ0 θ1 3
    norm_num at c1
    linarith

/-- The linear fallback of `slerp`, for close orientations: the result lies on the arc, the speed is not
constant, but the angle is off by at most `θ - sin θ`, which is less than 1/180 (a third of a degree). -/
theorem C56_near_partial (p q : Quat ℝ) (hp : p.IsUnit) (hq : q.IsUnit) (t : ℝ) (h0 : 0 ≤ t) (h1 : t ≤ 1)
    (hn : 95 / 100 ≤ |p.x * q.x + p.y * q.y + p.z * q.z + p.w * q.w|) :
    ∃ r q' : Quat ℝ, p.slerp q t = .ok r ∧ (q' = q ∨ q' = q.neg) ∧
      p.arc r + q'.arc r = p.arc q' ∧
      t * Real.sin (p.arc q') ≤ p.arc r ∧ (1 - t) * Real.sin (p.arc q') ≤ q'.arc r ∧
      |p.arc r - t * p.arc q'| ≤ p.arc q' - Real.sin (p.arc q') ∧
      |p.arc r - t * p.arc q'| < 1 / 180 := by
  obtain ⟨q', hq'⟩ : ∃ q', q' = if p.dot q < 0 then q.neg else q := ⟨_, rfl⟩
  have hu : q'.IsUnit := by
    rw [hq']; split_ifs
    · exact Quat.neg_unit hq
    · exact hq
  have hd : p.dot q' = |p.dot q| := by
    rw [hq']; split_ifs with h
    · rw [abs_of_neg h]; simp [Quat.dot, Quat.neg]; ring
    · rw [abs_of_nonneg (not_lt.1 h)]
  have hc95 : 95 / 100 ≤ p.dot q' := by rw [hd]; exact hn
  have e : p.slerp q t = p.lerp q' t := by
    rw [hq']
    simp only [Quat.slerp, ge_iff_le, h0, h1, and_self, if_true]
    by_cases h : p.dot q < 0
    · rw [hd, abs_of_neg h] at hc95
      simp only [h, if_true]
      rw [if_neg (not_lt.2 hc95)]
      rfl
    · rw [hd, abs_of_nonneg (not_lt.1 h)] at hc95
      simp only [h, if_false]
      rw [if_neg (not_lt.2 hc95)]
  have hor : q' = q ∨ q' = q.neg := by rw [hq']; split_ifs <;> simp
  obtain ⟨⟨r, hr, hru⟩, -, -⟩ := C55_lerp p q' hp hu t h0 h1
  refine ⟨r, q', by rw [e, hr], hor, ?_⟩
  have hpp : p.x ^ 2 + p.y ^ 2 + p.z ^ 2 + p.w ^ 2 = 1 := hp
  have hqq : q'.x ^ 2 + q'.y ^ 2 + q'.z ^ 2 + q'.w ^ 2 = 1 := hu
  have hrr : r.x ^ 2 + r.y ^ 2 + r.z ^ 2 + r.w ^ 2 = 1 := hru
  obtain ⟨c, hc⟩ : ∃ c, c = p.dot q' := ⟨_, rfl⟩
  have hdd : c = p.x * q'.x + p.y * q'.y + p.z * q'.z + p.w * q'.w := hc
  rw [← hc] at hc95
  have hc1 : c ≤ 1 := by
    rw [hdd]
    nlinarith [sq_nonneg (p.x - q'.x), sq_nonneg (p.y - q'.y), sq_nonneg (p.z - q'.z),
      sq_nonneg (p.w - q'.w)]
  simp only [Quat.lerp, ge_iff_le, h0, h1, and_self, if_true, Except.ok.injEq] at hr
  have hne : (⟨p.x + (q'.x - p.x) * t, p.y + (q'.y - p.y) * t, p.z + (q'.z - p.z) * t,
      p.w + (q'.w - p.w) * t⟩ : Quat ℝ) ≠ ⟨0, 0, 0, 0⟩ := by
    intro h
    have hx := congrArg Quat.x h; have hy := congrArg Quat.y h
    have hz := congrArg Quat.z h; have hw := congrArg Quat.w h
    simp only at hx hy hz hw
    have : (1 - t) + t * c = 0 := by
      rw [hdd]
      linear_combination p.x * hx + p.y * hy + p.z * hz + p.w * hw - (1 - t) * hpp
    nlinarith
  obtain ⟨k, hk, hkr⟩ := (C50_normalize _).2.2 hne
  rw [hr] at hkr
  have rx : r.x = k * (p.x + (q'.x - p.x) * t) := by simpa using congrArg QuaternionAlgebra.imI hkr
  have ry : r.y = k * (p.y + (q'.y - p.y) * t) := by simpa using congrArg QuaternionAlgebra.imJ hkr
  have rz : r.z = k * (p.z + (q'.z - p.z) * t) := by simpa using congrArg QuaternionAlgebra.imK hkr
  have rw' : r.w = k * (p.w + (q'.w - p.w) * t) := by simpa using congrArg QuaternionAlgebra.re hkr
  have hk1 : k ^ 2 * ((1 - t) ^ 2 + t ^ 2 + 2 * t * (1 - t) * c) = 1 := by
    rw [rx, ry, rz, rw'] at hrr
    rw [hdd]
    linear_combination hrr - k ^ 2 * (1 - t) ^ 2 * hpp - k ^ 2 * t ^ 2 * hqq
  have e1 : p.arc q' = Real.arccos c := by rw [hc]; rfl
  have e2 : p.arc r = Real.arccos (k * ((1 - t) + t * c)) := by
    unfold Quat.arc
    congr 1
    rw [rx, ry, rz, rw', hdd]
    linear_combination k * (1 - t) * hpp
  have e3 : q'.arc r = Real.arccos (k * (t + (1 - t) * c)) := by
    unfold Quat.arc
    congr 1
    rw [rx, ry, rz, rw', hdd]
    linear_combination k * t * hqq
  rw [e1, e2, e3]
  exact near_angles hc95 hc1 h0 h1 hk hk1

example : (95 / 100 : ℝ) ≤ |(0 : ℝ) * 0 + 0 * 0 + 0 * (28 / 100) + 1 * (96 / 100)| := by
  rw [abs_of_pos (by norm_num)]; norm_num

end MathLib
