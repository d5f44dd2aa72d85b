import Verif.Proof.VecSlerpErr
import Mathlib.Analysis.Calculus.Deriv.MeanValue

/-! # Properties C186, C187: `Quat::exp` and `Quat::log` in floating point -/

namespace MathLib

open VSlerp

namespace QExp

variable {p : ℕ}

theorem rel_rne (hp : 20 ≤ p) (t : ℝ) : Rel ((2 : ℝ) ^ (-(p : ℤ))) 1 t (.num (rne p t) : Fl ℝ (rne p)) := by
  obtain ⟨θ, h1, h2⟩ := (isRel_rne p (show 1 ≤ p by omega)).fac t
  exact ⟨θ, h1, by rw [h2]⟩

/-- `exp`, relative to the computed length `A` -/
theorem exp_core (hp : 20 ≤ p) (v : Quat ℝ) (hv : 0 < √(v.x ^ 2 + v.y ^ 2 + v.z ^ 2)) :
    ∃ A X Y Z : ℝ, 0 < A ∧ |A - √(v.x ^ 2 + v.y ^ 2 + v.z ^ 2)| ≤ 3.001 * (2 : ℝ) ^ (-(p : ℤ)) * √(v.x ^ 2 + v.y ^ 2 + v.z ^ 2) ∧
      (Quat.num v : Quat (Fl ℝ (rne p))).exp = Quat.num ⟨X, Y, Z, rne p (Real.cos A)⟩ ∧
      |X - Real.sin A / A * v.x| ≤ 3.001 * (2 : ℝ) ^ (-(p : ℤ)) * |Real.sin A / A * v.x| ∧
      |Y - Real.sin A / A * v.y| ≤ 3.001 * (2 : ℝ) ^ (-(p : ℤ)) * |Real.sin A / A * v.y| ∧
      |Z - Real.sin A / A * v.z| ≤ 3.001 * (2 : ℝ) ^ (-(p : ℤ)) * |Real.sin A / A * v.z| := by
  have hr := isRel_rne p (show 1 ≤ p by omega)
  have u0 := hr.nonneg
  have hu := u20 hp
  obtain ⟨g3, -, -, -⟩ := gams u0 hu
  obtain ⟨A, eA, hA⟩ := (Vec3.rel_length hr ⟨v.x, v.y, v.z⟩).error hr
  simp only [← sq] at hA
  rw [abs_of_pos hv] at hA
  have hA' := hA.trans (mul_le_mul_of_nonneg_right g3 hv.le)
  have A0 : 0 < A := by
    have := (abs_le.1 hA').1
    have := mul_le_mul_of_nonneg_right (show 3.001 * (2 : ℝ) ^ (-(p : ℤ)) ≤ 1 / 2 by linarith) hv.le
    linarith
  have comp : ∀ x : ℝ, ∃ X, (MathFns.sin (.num A) * .num x / .num A : Fl ℝ (rne p)) = .num X ∧
      |X - Real.sin A / A * x| ≤ 3.001 * (2 : ℝ) ^ (-(p : ℤ)) * |Real.sin A / A * x| := fun x => by
    obtain ⟨X, e, hX⟩ := (Rel.div hr (Rel.mul hr (rel_rne hp (Real.sin A)) (Rel.exact hr x) (k := 2)) (Rel.exact hr A) A0.ne' (k := 3)).error hr
    refine ⟨X, e, ?_⟩
    rw [show Real.sin A * x / A = Real.sin A / A * x by ring] at hX
    exact hX.trans (mul_le_mul_of_nonneg_right g3 (abs_nonneg _))
  obtain ⟨X, eX, hX⟩ := comp v.x
  obtain ⟨Y, eY, hY⟩ := comp v.y
  obtain ⟨Z, eZ, hZ⟩ := comp v.z
  refine ⟨A, X, Y, Z, A0, hA', ?_, hX, hY, hZ⟩
  have i : (.num A : Fl ℝ (rne p)) > 0 := by rw [gt_iff_lt, Fl.zero_def, Fl.num_lt]; exact A0
  have eA' : MathFns.sqrt ((Quat.num v : Quat (Fl ℝ (rne p))).x * (Quat.num v).x + (Quat.num v).y * (Quat.num v).y +
    (Quat.num v).z * (Quat.num v).z) = .num A := eA
  unfold Quat.exp
  simp only [eA']
  rw [if_pos i]
  have z : (Quat.num v : Quat (Fl ℝ (rne p))) = ⟨.num v.x, .num v.y, .num v.z, .num v.w⟩ := rfl
  simp only [z, eX, eY, eZ]
  rfl

theorem sin_lip (a b : ℝ) : |Real.sin a - Real.sin b| ≤ |a - b| := by
  have := turn_near (a := 0) (b := 1) (θ := a) (φ := b) (by norm_num)
  simpa using this

theorem cos_lip (a b : ℝ) : |Real.cos a - Real.cos b| ≤ |a - b| := by
  have := turn_near (a := 1) (b := 0) (θ := a) (φ := b) (by norm_num)
  simpa using this

/-- the half turn's worth of `log`: relative to the exact `arccos w` -/
theorem log_core (hp : 20 ≤ p) (q : Quat ℝ) (h1 : -1 < q.w) (h2 : q.w < 1) {κ : ℝ} (hκ : Real.arccos q.w ≤ κ * √(1 - q.w ^ 2))
    (hκu : κ * (2 : ℝ) ^ (-(p : ℤ)) ≤ 1 / 1000) :
    ∃ X Y Z : ℝ, (Quat.num q : Quat (Fl ℝ (rne p))).log = Quat.num ⟨X, Y, Z, 0⟩ ∧
      (let l := Real.arccos q.w / √(1 - q.w ^ 2)
       |X - l * q.x| ≤ (1.01 * κ + 4.1) * (2 : ℝ) ^ (-(p : ℤ)) * |l * q.x| ∧ |Y - l * q.y| ≤ (1.01 * κ + 4.1) * (2 : ℝ) ^ (-(p : ℤ)) * |l * q.y| ∧
       |Z - l * q.z| ≤ (1.01 * κ + 4.1) * (2 : ℝ) ^ (-(p : ℤ)) * |l * q.z|) := by
  have hr := isRel_rne p (show 1 ≤ p by omega)
  have u0 := hr.nonneg
  have hu := u20 hp
  have hα0 : 0 < Real.arccos q.w := Real.arccos_pos.2 h2
  have hs : Real.sin (Real.arccos q.w) = √(1 - q.w ^ 2) := Real.sin_arccos q.w
  have S0 : 0 < √(1 - q.w ^ 2) := Real.sqrt_pos.2 (by nlinarith)
  have eα := hr.err (Real.arccos q.w)
  rw [abs_of_pos hα0] at eα
  have hα1 : 0 < rne p (Real.arccos q.w) := rne_pos p (by omega) _ hα0
  have hsin : |Real.sin (rne p (Real.arccos q.w)) - √(1 - q.w ^ 2)| ≤ κ * (2 : ℝ) ^ (-(p : ℤ)) * √(1 - q.w ^ 2) := by
    rw [← hs]
    refine (sin_lip _ _).trans (eα.trans ?_)
    rw [hs]
    have := mul_le_mul_of_nonneg_left hκ u0
    linarith
  have hsin0 : 0 < Real.sin (rne p (Real.arccos q.w)) := by
    have := (abs_le.1 hsin).1
    have := mul_le_mul_of_nonneg_right hκu S0.le
    linarith
  have hrs0 : 0 < rne p (Real.sin (rne p (Real.arccos q.w))) := rne_pos p (by omega) _ hsin0
  have comp : ∀ x : ℝ, ∃ X, (.num (rne p (Real.arccos q.w)) * .num x / .num (rne p (Real.sin (rne p (Real.arccos q.w)))) : Fl ℝ (rne p)) = .num X ∧
      |X - Real.arccos q.w / √(1 - q.w ^ 2) * x| ≤ (1.01 * κ + 4.1) * (2 : ℝ) ^ (-(p : ℤ)) * |Real.arccos q.w / √(1 - q.w ^ 2) * x| := fun x => by
    obtain ⟨g3, g5, g7, g2⟩ := gams u0 hu
    have g4 : gam ((2 : ℝ) ^ (-(p : ℤ))) 4 ≤ 4.001 * (2 : ℝ) ^ (-(p : ℤ)) := by
      refine (gam_le hr.lt_one (n := 4) (by push_cast; linarith)).trans ?_
      push_cast
      rw [div_le_iff₀ (by linarith)]
      nlinarith
    obtain ⟨X, e, hX⟩ := (Rel.div hr (Rel.mul hr (rel_rne hp (Real.arccos q.w)) (Rel.exact hr x) (k := 2))
      (rel_rne hp (Real.sin (rne p (Real.arccos q.w)))) hsin0.ne' (k := 4)).error hr
    refine ⟨X, e, ?_⟩
    have hX' := hX.trans (mul_le_mul_of_nonneg_right g4 (abs_nonneg _))
    -- replace the sine
    generalize Real.sin (rne p (Real.arccos q.w)) = σ at *
    generalize √(1 - q.w ^ 2) = S at *
    generalize Real.arccos q.w = α at *
    generalize (2 : ℝ) ^ (-(p : ℤ)) = u at *
    have e1 : α * x / σ = α / S * x * (S / σ) := by field_simp
    have κ0 : 0 < κ := by
      by_contra h
      push_neg at h
      have := mul_nonpos_of_nonpos_of_nonneg h S0.le
      linarith
    have κu0 : 0 ≤ κ * u := mul_nonneg κ0.le u0
    have lo : (1 - κ * u) * S ≤ σ := by
      have := (abs_le.1 hsin).1
      linarith
    have hi : σ ≤ (1 + κ * u) * S := by
      have := (abs_le.1 hsin).2
      linarith
    have d : |S / σ - 1| ≤ 1.0011 * (κ * u) := by
      rw [show S / σ - 1 = (S - σ) / σ by field_simp, abs_div, abs_of_pos hsin0, div_le_iff₀ hsin0, abs_sub_comm]
      refine hsin.trans ?_
      have h3 : S ≤ 1.0011 * σ := by
        have := mul_le_mul_of_nonneg_right hκu S0.le
        linarith
      have := mul_le_mul_of_nonneg_left h3 κu0
      linarith
    rw [e1] at hX'
    generalize α / S * x = m at *
    generalize S / σ = ρ at *
    have hm := abs_nonneg m
    have ρ1 : |ρ| ≤ 1.0011 := by
      rw [abs_le] at d ⊢
      constructor <;> linarith
    have f1 : |m * ρ| ≤ 1.0011 * |m| := by
      rw [abs_mul, mul_comm]
      exact mul_le_mul_of_nonneg_right ρ1 hm
    have f2 : |m * ρ - m| ≤ 1.0011 * (κ * u) * |m| := by
      rw [show m * ρ - m = (ρ - 1) * m by ring, abs_mul]
      exact mul_le_mul_of_nonneg_right d hm
    have f3 := mul_le_mul_of_nonneg_left f1 (show 0 ≤ 4.001 * u by positivity)
    have f4 := abs_sub_le X (m * ρ) m
    have f5 := mul_nonneg κu0 hm
    have f6 := mul_nonneg u0 hm
    linarith
  obtain ⟨X, eX, hX⟩ := comp q.x
  obtain ⟨Y, eY, hY⟩ := comp q.y
  obtain ⟨Z, eZ, hZ⟩ := comp q.z
  refine ⟨X, Y, Z, ?_, hX, hY, hZ⟩
  have z : (Quat.num q : Quat (Fl ℝ (rne p))) = ⟨.num q.x, .num q.y, .num q.z, .num q.w⟩ := rfl
  have i : (.num (rne p (Real.sin (rne p (Real.arccos q.w)))) : Fl ℝ (rne p)) > 0 := by rw [gt_iff_lt, Fl.zero_def, Fl.num_lt]; exact hrs0
  unfold Quat.log
  simp only [z, acos_num, Fl.fl_sin]
  rw [if_pos i, eX, eY, eZ]
  rfl

/-- `t / sin t` as a function of `cos t` has slope at most 2 up to the right angle -/
theorem ratio_lip {a b : ℝ} (ha : 0 < a) (hab : a ≤ b) (hb : b ≤ Real.pi / 2) :
    |b / Real.sin b - a / Real.sin a| ≤ 2 * |Real.cos b - Real.cos a| := by
  rcases hab.eq_or_lt with rfl | hab
  · simp
  have hs : ∀ t, 0 < t → t ≤ b → 0 < Real.sin t := fun t h1 h2 => Real.sin_pos_of_pos_of_lt_pi h1 (by linarith [Real.pi_pos])
  obtain ⟨c, ⟨c1, c2⟩, hc⟩ := exists_ratio_hasDerivAt_eq_ratio_slope (fun t => t / Real.sin t)
    (fun t => (1 * Real.sin t - t * Real.cos t) / Real.sin t ^ 2) hab
    (ContinuousOn.div continuousOn_id Real.continuous_sin.continuousOn fun t ht => (hs t (by linarith [ht.1]) ht.2).ne')
    (fun t ht => (hasDerivAt_id t).div (Real.hasDerivAt_sin t) (hs t (by linarith [ht.1]) ht.2.le).ne')
    Real.cos (fun t => -Real.sin t) Real.continuous_cos.continuousOn (fun t _ => Real.hasDerivAt_cos t)
  have sc := hs c (by linarith) c2.le
  have c0 : 0 < c := by linarith
  have e : b / Real.sin b - a / Real.sin a = -((Real.cos b - Real.cos a) * ((1 * Real.sin c - c * Real.cos c) / Real.sin c ^ 3)) := by
    have h : (b / Real.sin b - a / Real.sin a) * Real.sin c = -((Real.cos b - Real.cos a) * ((1 * Real.sin c - c * Real.cos c) / Real.sin c ^ 2)) := by
      linarith
    rw [← mul_left_inj' sc.ne', h]
    field_simp
  have k : |(1 * Real.sin c - c * Real.cos c) / Real.sin c ^ 3| ≤ 2 := by
    have n0 : 0 ≤ 1 * Real.sin c - c * Real.cos c := by
      have ct : Real.cos c * c ≤ Real.sin c := by
        have h1 := Real.lt_tan (x := c) c0 (by linarith)
        have cc : 0 < Real.cos c := Real.cos_pos_of_mem_Ioo ⟨by linarith [Real.pi_pos], by linarith⟩
        rw [Real.tan_eq_sin_div_cos, lt_div_iff₀ cc] at h1
        linarith
      linarith
    rw [abs_of_nonneg (by positivity), div_le_iff₀ (by positivity)]
    have h1 := Real.sin_le c0.le
    have h2 := Real.one_sub_sq_div_two_le_cos (x := c)
    have h3 := Real.mul_le_sin c0.le (by linarith)
    have h4 : 0.6366 * c ≤ Real.sin c := by
      refine le_trans (mul_le_mul_of_nonneg_right ?_ c0.le) h3
      rw [le_div_iff₀ Real.pi_pos]
      linarith [Real.pi_lt_d4]
    have h5 := pow_le_pow_left₀ (by positivity) h4 3
    have h6 := mul_le_mul_of_nonneg_left h2 c0.le
    have h7 : 0 < c ^ 3 := by positivity
    have e7 : c * (1 - c ^ 2 / 2) = c - c ^ 3 / 2 := by ring
    rw [mul_pow] at h5
    norm_num at h5
    linarith
  rw [e, abs_neg, abs_mul, mul_comm]
  exact mul_le_mul_of_nonneg_right k (abs_nonneg _)

end QExp

open QExp

variable {p : ℕ}

/-- **C186.** `exp` of a quaternion with the vector part `v` of length `a`: for a null vector exactly 1, otherwise
`(v sin a / a, cos a)` with an error of at most `(3.1 a + 6.1) u` times the direction cosine in each coordinate of the vector part, and
`(3.1 a + 1) u` in w. -/
theorem C186_exp (hp : 20 ≤ p) (v : Quat ℝ) :
    (v.x = 0 → v.y = 0 → v.z = 0 → (Quat.num v : Quat (Fl ℝ (rne p))).exp = Quat.num ⟨0, 0, 0, 1⟩) ∧
    (v.x ≠ 0 ∨ v.y ≠ 0 ∨ v.z ≠ 0 → ∃ r : Quat ℝ, (Quat.num v : Quat (Fl ℝ (rne p))).exp = Quat.num r ∧
      (let a := √(v.x ^ 2 + v.y ^ 2 + v.z ^ 2)
       |r.x - Real.sin a / a * v.x| ≤ (3.1 * a + 6.1) * (2 : ℝ) ^ (-(p : ℤ)) * (|v.x| / a) ∧
       |r.y - Real.sin a / a * v.y| ≤ (3.1 * a + 6.1) * (2 : ℝ) ^ (-(p : ℤ)) * (|v.y| / a) ∧
       |r.z - Real.sin a / a * v.z| ≤ (3.1 * a + 6.1) * (2 : ℝ) ^ (-(p : ℤ)) * (|v.z| / a) ∧
       |r.w - Real.cos a| ≤ (3.1 * a + 1) * (2 : ℝ) ^ (-(p : ℤ)))) := by
  have hp1 : 1 ≤ p := by omega
  have hr := isRel_rne p hp1
  have u0 := hr.nonneg
  have hu := u20 hp
  constructor
  · intro h1 h2 h3
    have r1 : rne p (1 : ℝ) = 1 := rne_of_rep hp1 (by have := Rep.nat (p := p) (K := ℝ) 1 Nat.one_le_two_pow; rwa [Nat.cast_one] at this)
    simp [Quat.exp, Quat.num, h1, h2, h3, rne_zero, Fl.zero_def, r1]
  · intro h
    have hv : 0 < √(v.x ^ 2 + v.y ^ 2 + v.z ^ 2) := by
      apply Real.sqrt_pos.2
      rcases h with h | h | h <;> positivity
    obtain ⟨A, X, Y, Z, A0, hA, e, hX, hY, hZ⟩ := exp_core hp v hv
    refine ⟨_, e, ?_⟩
    generalize √(v.x ^ 2 + v.y ^ 2 + v.z ^ 2) = a at *
    have hw := hr.err (Real.cos A)
    generalize rne p (Real.cos A) = W at *
    generalize (2 : ℝ) ^ (-(p : ℤ)) = u at *
    have hsA := sin_lip A a
    have hcA := cos_lip A a
    have s1 := Real.abs_sin_le_one A
    have s2 := Real.abs_sin_le_one a
    have c1 := Real.abs_cos_le_one A
    have lo : 0.99999 * a ≤ A := by
      have := (abs_le.1 hA).1
      have := mul_le_mul_of_nonneg_right (show 3.001 * u ≤ 0.00001 by linarith) hv.le
      linarith
    have iA : 1 / A ≤ 1.00002 / a := by
      rw [div_le_div_iff₀ A0 hv]
      linarith
    have uia : 0 ≤ u / a := div_nonneg u0 hv.le
    have comp : ∀ {x X : ℝ}, |X - Real.sin A / A * x| ≤ 3.001 * u * |Real.sin A / A * x| →
        |X - Real.sin a / a * x| ≤ (3.1 * a + 6.1) * u * (|x| / a) := by
      intro x X hX
      have d1 : |Real.sin A / A - Real.sin a / a| ≤ 3.0012 * u * (a + 1) / a := by
        have e1 : Real.sin A / A - Real.sin a / a = ((Real.sin A - Real.sin a) * a - Real.sin a * (A - a)) / a * (1 / A) := by
          field_simp; ring
        rw [e1, abs_mul, abs_div, abs_of_pos hv, abs_of_pos (show 0 < 1 / A by positivity)]
        have k1 : |(Real.sin A - Real.sin a) * a - Real.sin a * (A - a)| ≤ 3.001 * u * a * a + 1 * (3.001 * u * a) := by
          refine (abs_sub _ _).trans ?_
          rw [abs_mul, abs_mul, abs_of_pos hv]
          exact add_le_add (mul_le_mul_of_nonneg_right (hsA.trans hA) hv.le) (mul_le_mul s2 hA (abs_nonneg _) zero_le_one)
        have k2 : |(Real.sin A - Real.sin a) * a - Real.sin a * (A - a)| / a ≤ 3.001 * u * (a + 1) := by
          rw [div_le_iff₀ hv]; linarith
        refine (mul_le_mul k2 iA (by positivity) (by positivity)).trans ?_
        have : 3.001 * u * (a + 1) * (1.00002 / a) = 3.00106002 * (u * (a + 1) / a) := by ring
        rw [this, show 3.0012 * u * (a + 1) / a = 3.0012 * (u * (a + 1) / a) by ring]
        exact mul_le_mul_of_nonneg_right (by norm_num) (by positivity)
      have d2 : |Real.sin A / A * x| ≤ 1.00002 / a * |x| := by
        rw [abs_mul, abs_div, abs_of_pos A0]
        refine mul_le_mul_of_nonneg_right (le_trans ?_ iA) (abs_nonneg _)
        exact div_le_div_of_nonneg_right s1 A0.le
      have d3 := mul_le_mul_of_nonneg_left d2 (show 0 ≤ 3.001 * u by positivity)
      have d4 : |Real.sin A / A * x - Real.sin a / a * x| ≤ 3.0012 * u * (a + 1) / a * |x| := by
        rw [← sub_mul, abs_mul]
        exact mul_le_mul_of_nonneg_right d1 (abs_nonneg _)
      have d5 := abs_sub_le X (Real.sin A / A * x) (Real.sin a / a * x)
      have e1 : 3.0012 * u * (a + 1) / a * |x| = 3.0012 * (u * |x|) + 3.0012 * (u / a * |x|) := by field_simp
      have e2 : 3.001 * u * (1.00002 / a * |x|) = 3.00106002 * (u / a * |x|) := by ring
      have e3 : (3.1 * a + 6.1) * u * (|x| / a) = 3.1 * (u * |x|) + 6.1 * (u / a * |x|) := by field_simp
      rw [e3]
      have := mul_nonneg u0 (abs_nonneg x)
      have := mul_nonneg uia (abs_nonneg x)
      linarith
    refine ⟨comp hX, comp hY, comp hZ, ?_⟩
    have := abs_sub_le W (Real.cos A) (Real.cos a)
    have := mul_le_mul_of_nonneg_left c1 u0
    have := mul_nonneg u0 hv.le
    have h7 := hcA.trans hA
    show |W - Real.cos a| ≤ _
    linarith

/-- (1, 2, 2), of length 3, is not null. -/
example : (⟨1, 2, 2, 0⟩ : Quat ℝ).x ≠ 0 ∧ √((1 : ℝ) ^ 2 + 2 ^ 2 + 2 ^ 2) = 3 := by
  refine ⟨by norm_num, ?_⟩
  rw [show (1 : ℝ) ^ 2 + 2 ^ 2 + 2 ^ 2 = 3 ^ 2 by norm_num]
  exact Real.sqrt_sq (by norm_num)

private theorem quarter {w : ℝ} (h0 : 0 ≤ w) : Real.arccos w ≤ 1.5709 * √(1 - w ^ 2) := by
  rw [← Real.sin_arccos]
  have h1 := Real.arccos_nonneg w
  have h2 := Real.arccos_le_pi_div_two.2 h0
  have h3 := Real.mul_le_sin h1 h2
  have hpi := Real.pi_lt_d4
  rw [div_mul_eq_mul_div, div_le_iff₀ Real.pi_pos] at h3
  have := mul_le_mul_of_nonneg_left hpi.le (Real.sin_nonneg_of_nonneg_of_le_pi h1 (Real.arccos_le_pi w))
  linarith

/-- **C187 (`log`).** Compared with the exact function at the same argument, `v arccos w / √(1 - w²)`, each coordinate of `log` has
a relative error of at most 5.7 units for `0 ≤ w < 1`, and of at most `3.2 / √(1 - w²) + 4.1` units for `-1 < w < 1` as long as
`√(1 - w²)` is at least 3200 units. -/
theorem C187_log (hp : 20 ≤ p) (q : Quat ℝ) (h1 : -1 < q.w) (h2 : q.w < 1) (c : ℝ)
    (hc : (0 ≤ q.w ∧ c = 5.7) ∨ (3200 * (2 : ℝ) ^ (-(p : ℤ)) ≤ √(1 - q.w ^ 2) ∧ c = 3.2 / √(1 - q.w ^ 2) + 4.1)) :
    ∃ r : Quat ℝ, (Quat.num q : Quat (Fl ℝ (rne p))).log = Quat.num r ∧ r.w = 0 ∧
      (let l := Real.arccos q.w / √(1 - q.w ^ 2)
       |r.x - l * q.x| ≤ c * (2 : ℝ) ^ (-(p : ℤ)) * |l * q.x| ∧ |r.y - l * q.y| ≤ c * (2 : ℝ) ^ (-(p : ℤ)) * |l * q.y| ∧
       |r.z - l * q.z| ≤ c * (2 : ℝ) ^ (-(p : ℤ)) * |l * q.z|) := by
  have hr := isRel_rne p (show 1 ≤ p by omega)
  have u0 := hr.nonneg
  have hu := u20 hp
  have fin : ∀ κ : ℝ, Real.arccos q.w ≤ κ * √(1 - q.w ^ 2) → κ * (2 : ℝ) ^ (-(p : ℤ)) ≤ 1 / 1000 → 1.01 * κ + 4.1 ≤ c →
      ∃ r : Quat ℝ, (Quat.num q : Quat (Fl ℝ (rne p))).log = Quat.num r ∧ r.w = 0 ∧
      (let l := Real.arccos q.w / √(1 - q.w ^ 2)
       |r.x - l * q.x| ≤ c * (2 : ℝ) ^ (-(p : ℤ)) * |l * q.x| ∧ |r.y - l * q.y| ≤ c * (2 : ℝ) ^ (-(p : ℤ)) * |l * q.y| ∧
       |r.z - l * q.z| ≤ c * (2 : ℝ) ^ (-(p : ℤ)) * |l * q.z|) := by
    intro κ k1 k2 k3
    obtain ⟨X, Y, Z, e, hX, hY, hZ⟩ := log_core hp q h1 h2 k1 k2
    have m : ∀ t : ℝ, (1.01 * κ + 4.1) * (2 : ℝ) ^ (-(p : ℤ)) * |t| ≤ c * (2 : ℝ) ^ (-(p : ℤ)) * |t| := fun t =>
      mul_le_mul_of_nonneg_right (mul_le_mul_of_nonneg_right k3 u0) (abs_nonneg t)
    exact ⟨_, e, rfl, hX.trans (m _), hY.trans (m _), hZ.trans (m _)⟩
  rcases hc with ⟨hw, rfl⟩ | ⟨hs, rfl⟩
  · exact fin 1.5709 (quarter hw) (by linarith) (by norm_num)
  · have S0 : 0 < √(1 - q.w ^ 2) := Real.sqrt_pos.2 (by nlinarith)
    refine fin (3.1416 / √(1 - q.w ^ 2)) ?_ ?_ ?_
    · rw [div_mul_cancel₀ _ S0.ne']
      exact (Real.arccos_le_pi _).trans Real.pi_lt_d4.le
    · rw [div_mul_eq_mul_div, div_le_iff₀ S0]
      linarith
    · have : 0 < 1 / √(1 - q.w ^ 2) := by positivity
      have e1 : 3.1416 / √(1 - q.w ^ 2) = 3.1416 * (1 / √(1 - q.w ^ 2)) := by ring
      have e2 : 3.2 / √(1 - q.w ^ 2) = 3.2 * (1 / √(1 - q.w ^ 2)) := by ring
      rw [e1, e2]
      linarith

/-- `w = 3/5` and `w = -3/5`, for which the square root is 4/5, meet the hypotheses. -/
example : (0 : ℝ) ≤ 3 / 5 ∧ (3 / 5 : ℝ) < 1 ∧ 3200 * (2 : ℝ) ^ (-(24 : ℤ)) ≤ √(1 - (-3 / 5) ^ 2) := by
  refine ⟨by norm_num, by norm_num, ?_⟩
  rw [show (1 : ℝ) - (-3 / 5) ^ 2 = (4 / 5) ^ 2 by norm_num, Real.sqrt_sq (by norm_num)]
  norm_num

/-- **C187 (one or more).** For `w ≥ 1` the result of `log` is null, whatever the vector part. -/
theorem C187_one (hp : 20 ≤ p) (q : Quat ℝ) (h : 1 ≤ q.w) : (Quat.num q : Quat (Fl ℝ (rne p))).log = Quat.num ⟨0, 0, 0, 0⟩ := by
  have z : (Quat.num q : Quat (Fl ℝ (rne p))) = ⟨.num q.x, .num q.y, .num q.z, .num q.w⟩ := rfl
  simp [Quat.log, z, acos_num, Real.arccos_of_one_le h, rne_zero, Fl.zero_def, Quat.num]

/-- **C187 (there and back).** If the length of the vector part lies between `1.6 √u` and 1.57, `log (exp v)` has each coordinate
of `v` up to 11 units, relatively. -/
theorem C187_back_partial (hp : 20 ≤ p) (v : Quat ℝ) (h1 : 1.6 * √((2 : ℝ) ^ (-(p : ℤ))) ≤ √(v.x ^ 2 + v.y ^ 2 + v.z ^ 2))
    (h2 : √(v.x ^ 2 + v.y ^ 2 + v.z ^ 2) ≤ 1.57) :
    ∃ r : Quat ℝ, (Quat.num v : Quat (Fl ℝ (rne p))).exp.log = Quat.num r ∧ r.w = 0 ∧
      |r.x - v.x| ≤ 11 * (2 : ℝ) ^ (-(p : ℤ)) * |v.x| ∧ |r.y - v.y| ≤ 11 * (2 : ℝ) ^ (-(p : ℤ)) * |v.y| ∧
      |r.z - v.z| ≤ 11 * (2 : ℝ) ^ (-(p : ℤ)) * |v.z| := by
  have hp1 : 1 ≤ p := by omega
  have hr := isRel_rne p hp1
  have u0 := hr.nonneg
  have up : (0 : ℝ) < 2 ^ (-(p : ℤ)) := by positivity
  have hu := u20 hp
  have hv : 0 < √(v.x ^ 2 + v.y ^ 2 + v.z ^ 2) := lt_of_lt_of_le (by positivity) h1
  obtain ⟨A, X, Y, Z, A0, hA, e, hX, hY, hZ⟩ := exp_core hp v hv
  have hA1 : A ≤ 1.5701 := by
    have := (abs_le.1 hA).2
    have := mul_le_mul_of_nonneg_left h2 (show 0 ≤ 3.001 * (2 : ℝ) ^ (-(p : ℤ)) by positivity)
    linarith
  have hA2 : 2.55 * (2 : ℝ) ^ (-(p : ℤ)) ≤ A ^ 2 := by
    have k1 : 0.99999 * √(v.x ^ 2 + v.y ^ 2 + v.z ^ 2) ≤ A := by
      have := (abs_le.1 hA).1
      have := mul_le_mul_of_nonneg_right (show 3.001 * (2 : ℝ) ^ (-(p : ℤ)) ≤ 0.00001 by linarith) hv.le
      linarith
    have k2 : 1.5999 * √((2 : ℝ) ^ (-(p : ℤ))) ≤ A := by
      have := Real.sqrt_nonneg ((2 : ℝ) ^ (-(p : ℤ)))
      linarith
    have k3 := pow_le_pow_left₀ (by positivity) k2 2
    rw [mul_pow, Real.sq_sqrt u0] at k3
    norm_num at k3 ⊢
    have : (0 : ℝ) < (2 ^ p)⁻¹ := by positivity
    linarith
  have hpi := Real.pi_gt_d4
  have cp : 0 < Real.cos A := Real.cos_pos_of_mem_Ioo ⟨by linarith, by linarith⟩
  have cu : Real.cos A ≤ 1 - 1.1 * (2 : ℝ) ^ (-(p : ℤ)) := by
    rcases le_total A 1 with h | h
    · have b := Real.cos_bound (x := A) (by rw [abs_of_pos A0]; exact h)
      rw [abs_of_pos A0, abs_le] at b
      have : A ^ 4 ≤ A ^ 2 * 1 := by
        rw [show A ^ 4 = A ^ 2 * A ^ 2 by ring]
        exact mul_le_mul_of_nonneg_left (pow_le_one₀ A0.le h) (sq_nonneg A)
      linarith [b.2]
    · have := Real.cos_le_cos_of_nonneg_of_le_pi zero_le_one (by linarith) h
      have := Real.cos_one_le
      linarith
  have hw := hr.err (Real.cos A)
  rw [abs_of_pos cp] at hw
  have w1 : rne p (Real.cos A) < 1 := by
    have := (abs_le.1 hw).2
    have k := mul_le_mul_of_nonneg_left cu u0
    have := mul_pos up up
    linarith
  have w0 : 0 < rne p (Real.cos A) := rne_pos p hp1 _ cp
  obtain ⟨R, S, T, e2, hR, hS, hT⟩ := log_core hp ⟨X, Y, Z, rne p (Real.cos A)⟩ (show -1 < rne p (Real.cos A) by linarith) w1
    (quarter w0.le) (by linarith)
  rw [← e] at e2
  refine ⟨_, e2, rfl, ?_⟩
  have sA : 0 < Real.sin A := Real.sin_pos_of_pos_of_lt_pi A0 (by linarith)
  have ge1 : 1 ≤ A / Real.sin A := by rw [le_div_iff₀ sA]; linarith [Real.sin_le A0.le]
  have hwu : |rne p (Real.cos A) - Real.cos A| ≤ (2 : ℝ) ^ (-(p : ℤ)) := by
    have := mul_le_mul_of_nonneg_left (Real.cos_le_one A) u0
    linarith
  have hl : |Real.arccos (rne p (Real.cos A)) / √(1 - rne p (Real.cos A) ^ 2) - A / Real.sin A| ≤ 2 * (2 : ℝ) ^ (-(p : ℤ)) := by
    rw [← Real.sin_arccos]
    have t0 : 0 < Real.arccos (rne p (Real.cos A)) := Real.arccos_pos.2 w1
    have t1 : Real.arccos (rne p (Real.cos A)) ≤ Real.pi / 2 := Real.arccos_le_pi_div_two.2 w0.le
    have ct : Real.cos (Real.arccos (rne p (Real.cos A))) = rne p (Real.cos A) := Real.cos_arccos (by linarith) w1.le
    rcases le_total A (Real.arccos (rne p (Real.cos A))) with h | h
    · have := ratio_lip A0 h t1
      rw [ct] at this
      linarith
    · have := ratio_lip t0 h (by linarith)
      rw [ct] at this
      rw [abs_sub_comm]
      rw [abs_sub_comm (Real.cos A)] at this
      linarith
  have iA : Real.sin A / A * (A / Real.sin A) = 1 := by field_simp
  simp only at hR hS hT
  generalize Real.arccos (rne p (Real.cos A)) / √(1 - rne p (Real.cos A) ^ 2) = l at *
  generalize Real.sin A / A = k at *
  generalize A / Real.sin A = m at *
  generalize (2 : ℝ) ^ (-(p : ℤ)) = u at *
  clear hw hwu cu hA2 hA1 hA h1 h2 e e2 cp sA w0 w1 A0 hv up
  have comp : ∀ {x X R : ℝ}, |X - k * x| ≤ 3.001 * u * |k * x| → |R - l * X| ≤ (1.01 * 1.5709 + 4.1) * u * |l * X| → |R - x| ≤ 11 * u * |x| := by
    intro x X R hX hR
    have m0 : 0 < m := by linarith
    -- `m X` is near `x`
    have a1 : |m * X - x| ≤ 3.001 * u * |x| := by
      have e1 : m * X - x = m * (X - k * x) := by linear_combination x * iA
      have e2 : m * |k * x| = |x| := by
        have : m * (k * x) = x := by linear_combination x * iA
        have h3 := congrArg abs this
        rwa [abs_mul, abs_of_pos m0] at h3
      rw [e1, abs_mul, abs_of_pos m0]
      have := mul_le_mul_of_nonneg_left hX m0.le
      have e3 : m * (3.001 * u * |k * x|) = 3.001 * u * (m * |k * x|) := by ring
      rw [e3, e2] at this
      exact this
    have x0 := abs_nonneg x
    have ux := mul_nonneg u0 x0
    have ux2 : u * (u * |x|) ≤ 1 / 1048576 * (u * |x|) := mul_le_mul_of_nonneg_right hu ux
    have a2 : |m * X| ≤ |x| + 3.001 * u * |x| := by
      have := abs_sub_abs_le_abs_sub (m * X) x
      linarith
    have a3 : |l * X - m * X| ≤ 2 * u * |m * X| := by
      rw [← sub_mul, abs_mul]
      have h3 : |X| ≤ |m * X| := by
        rw [abs_mul, abs_of_pos m0]
        have := mul_le_mul_of_nonneg_right ge1 (abs_nonneg X)
        linarith
      exact mul_le_mul hl h3 (abs_nonneg _) (by linarith)
    have a4 := mul_le_mul_of_nonneg_left a2 (show 0 ≤ 2 * u by linarith)
    have a5 : |l * X - x| ≤ 5.002 * u * |x| := by
      have := abs_sub_le (l * X) (m * X) x
      linarith
    have a6 : |l * X| ≤ |x| + 5.002 * u * |x| := by
      have := abs_sub_abs_le_abs_sub (l * X) x
      linarith
    have a7 := mul_le_mul_of_nonneg_left a6 (show 0 ≤ (1.01 * 1.5709 + 4.1) * u by linarith)
    have a8 := abs_sub_le R (l * X) x
    linarith
  exact ⟨comp hX hR, comp hY hS, comp hZ hT⟩

/-- (1/2, 1/2, 1/2) in single precision. -/
example : 1.6 * √((2 : ℝ) ^ (-(24 : ℤ))) ≤ √((1 / 2) ^ 2 + (1 / 2) ^ 2 + (1 / 2) ^ 2) ∧ √((1 / 2 : ℝ) ^ 2 + (1 / 2) ^ 2 + (1 / 2) ^ 2) ≤ 1.57 := by
  constructor
  · rw [show (2 : ℝ) ^ (-(24 : ℤ)) = (1 / 4096) ^ 2 by norm_num, Real.sqrt_sq (by norm_num)]
    apply Real.le_sqrt_of_sq_le
    norm_num
  · apply Real.sqrt_le_iff.2
    norm_num

/-- **C187 (lost).** If the vector part is shorter than `0.99 √u`, `log (exp v)` is exactly null: `exp` rounds w to 1, and `log` then
takes the rotation for none, though the vector part still has all its digits. -/
theorem C187_lost (hp : 20 ≤ p) (v : Quat ℝ) (h : √(v.x ^ 2 + v.y ^ 2 + v.z ^ 2) ≤ 0.99 * √((2 : ℝ) ^ (-(p : ℤ)))) :
    (Quat.num v : Quat (Fl ℝ (rne p))).exp.log = Quat.num ⟨0, 0, 0, 0⟩ := by
  have hp1 : 1 ≤ p := by omega
  have hr := isRel_rne p hp1
  have u0 := hr.nonneg
  have up : (0 : ℝ) < 2 ^ (-(p : ℤ)) := by positivity
  have hu := u20 hp
  rcases (Real.sqrt_nonneg (v.x ^ 2 + v.y ^ 2 + v.z ^ 2)).eq_or_lt with h0 | hv
  · have h0' : v.x ^ 2 + v.y ^ 2 + v.z ^ 2 = 0 := (Real.sqrt_eq_zero (by positivity)).1 h0.symm
    have q1 := sq_nonneg v.x
    have q2 := sq_nonneg v.y
    have q3 := sq_nonneg v.z
    rw [(C186_exp hp v).1 (pow_eq_zero_iff two_ne_zero |>.1 (by linarith)) (pow_eq_zero_iff two_ne_zero |>.1 (by linarith))
      (pow_eq_zero_iff two_ne_zero |>.1 (by linarith))]
    exact C187_one hp _ le_rfl
  obtain ⟨A, X, Y, Z, A0, hA, e, -, -, -⟩ := exp_core hp v hv
  rw [e]
  apply C187_one hp
  show 1 ≤ rne p (Real.cos A)
  have hA2 : A ^ 2 ≤ 0.9802 * (2 : ℝ) ^ (-(p : ℤ)) := by
    have k1 : A ≤ 1.00001 * √(v.x ^ 2 + v.y ^ 2 + v.z ^ 2) := by
      have := (abs_le.1 hA).2
      have := mul_le_mul_of_nonneg_right (show 3.001 * (2 : ℝ) ^ (-(p : ℤ)) ≤ 0.00001 by linarith) hv.le
      linarith
    have k2 : A ≤ 0.99001 * √((2 : ℝ) ^ (-(p : ℤ))) := by
      have := Real.sqrt_nonneg ((2 : ℝ) ^ (-(p : ℤ)))
      linarith
    have k3 := pow_le_pow_left₀ A0.le k2 2
    rw [mul_pow, Real.sq_sqrt u0] at k3
    linarith
  have c := Real.one_sub_sq_div_two_le_cos (x := A)
  have c1 := Real.cos_le_one A
  rcases c1.eq_or_lt with h1 | h1
  · have r1 : rne p (1 : ℝ) = 1 := rne_of_rep hp1 (by have := Rep.nat (p := p) (K := ℝ) 1 Nat.one_le_two_pow; rwa [Nat.cast_one] at this)
    rw [h1, r1]
  · have e1 : ((2 ^ p : ℤ) : ℝ) * 2 ^ (-(p : ℤ)) = 1 := by
      push_cast
      rw [zpow_neg, zpow_natCast]
      exact mul_inv_cancel₀ (by positivity)
    have e2 : (2 : ℝ) ^ (-(p : ℤ) + ((p : ℤ) - 1)) = 1 / 2 := by
      rw [show -(p : ℤ) + ((p : ℤ) - 1) = -1 by ring]; norm_num
    have e3 : (2 : ℝ) ^ (-(p : ℤ) + (p : ℤ)) = 1 := by
      rw [show -(p : ℤ) + (p : ℤ) = 0 by ring]; norm_num
    have := rne_eq (p := p) (x := Real.cos A) (-(p : ℤ)) (2 ^ p) (by rw [e2]; linarith) (by rw [e3]; exact h1)
      (by rw [e1, abs_lt]; constructor <;> linarith)
    rw [this, e1]

/-- **C187, the full statement**: `log (exp v)` is `v` up to half of each coordinate. -/
def C187_full (p : ℕ) : Prop :=
  ∀ v r : Quat ℝ, √(v.x ^ 2 + v.y ^ 2 + v.z ^ 2) ≤ 1.57 → (Quat.num v : Quat (Fl ℝ (rne p))).exp.log = Quat.num r →
    |r.x - v.x| ≤ 1 / 2 * |v.x|

/-- **C187 (refuted).** It fails in every precision, at `v = (u, 0, 0)`. -/
theorem C187_refuted (hp : 20 ≤ p) : ¬ C187_full p := by
  intro h
  have up : (0 : ℝ) < 2 ^ (-(p : ℤ)) := by positivity
  have hu := u20 hp
  have e : √(((2 : ℝ) ^ (-(p : ℤ))) ^ 2 + 0 ^ 2 + 0 ^ 2) = 2 ^ (-(p : ℤ)) := by
    rw [zero_pow two_ne_zero, add_zero, add_zero]
    exact Real.sqrt_sq up.le
  have k := h ⟨2 ^ (-(p : ℤ)), 0, 0, 0⟩ ⟨0, 0, 0, 0⟩ (by
    show √(((2 : ℝ) ^ (-(p : ℤ))) ^ 2 + 0 ^ 2 + 0 ^ 2) ≤ 1.57
    rw [e]; linarith) (C187_lost hp _ (by
    show √(((2 : ℝ) ^ (-(p : ℤ))) ^ 2 + 0 ^ 2 + 0 ^ 2) ≤ _
    rw [e]
    have s := Real.sq_sqrt up.le
    have s0 := Real.sqrt_pos.2 up
    have s1 : √((2 : ℝ) ^ (-(p : ℤ))) ≤ 0.99 := by
      apply Real.sqrt_le_iff.2
      norm_num at hu ⊢
      linarith
    nlinarith))
  simp only [zero_sub, abs_neg, abs_of_pos up] at k
  linarith

end MathLib
