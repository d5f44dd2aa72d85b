import Mathlib.Analysis.SpecialFunctions.Trigonometric.Bounds
import Mathlib.Analysis.Real.Pi.Bounds
import Mathlib.Analysis.Real.Pi.Irrational
import Verif.Proof.RelErr
import Verif.Proof.RneNearest
import Verif.Proof.BallLine
import Verif.Props.RoundedSymmetry

/-! # Property C178: degrees, radians and the clamped inverse functions in floating point -/

namespace MathLib

variable {p : ℕ}

private theorem lit180 (hp : 12 ≤ p) : (180 : Fl ℝ (rne p)) = .num 180 := by
  rw [Fl.ofNat_def]
  have : Rep p ((180 : ℕ) : ℝ) := Rep.nat 180 (by
    calc 180 ≤ 2 ^ 12 := by norm_num
      _ ≤ 2 ^ p := Nat.pow_le_pow_right (by norm_num) hp)
  rw [rne_of_rep (by omega) this]; norm_num

private theorem pi_rnd (hp : 12 ≤ p) : 0 < rne p Real.pi := rne_pos p (by omega) _ Real.pi_pos

private theorem deg_num (hp : 12 ≤ p) (x : ℝ) :
    degreeToRadian (.num x : Fl ℝ (rne p)) = .num (rne p (rne p (x * rne p Real.pi) / 180)) := by
  rw [degreeToRadian, Fl.fl_pi, lit180 hp, Fl.num_mul, Fl.num_div, if_neg (by norm_num)]

private theorem rad_num (hp : 12 ≤ p) (x : ℝ) :
    radianToDegree (.num x : Fl ℝ (rne p)) = .num (rne p (rne p (x * 180) / rne p Real.pi)) := by
  rw [radianToDegree, Fl.fl_pi, lit180 hp, Fl.num_mul, Fl.num_div, if_neg (pi_rnd hp).ne']

private theorem uq (hp : 12 ≤ p) : (2 : ℝ) ^ (-(p : ℤ)) ≤ 1 / 4096 := by
  have : (2 : ℝ) ^ (-(p : ℤ)) ≤ 2 ^ (-12 : ℤ) := zpow_le_zpow_right₀ one_le_two (by omega)
  refine this.trans (by norm_num)

/-- C178: the conversions keep the order and the sign, and are within three roundings of the exact angle. -/
theorem C178_convert (hp : 12 ≤ p) (x : ℝ) :
    (∃ v, degreeToRadian (.num x : Fl ℝ (rne p)) = .num v ∧ degreeToRadian (.num (-x) : Fl ℝ (rne p)) = .num (-v) ∧
      |v - x * (Real.pi / 180)| ≤ 3.02 * (2 : ℝ) ^ (-(p : ℤ)) * |x * (Real.pi / 180)| ∧
      ∀ y, x ≤ y → ∃ w, degreeToRadian (.num y : Fl ℝ (rne p)) = .num w ∧ v ≤ w) ∧
    (∃ v, radianToDegree (.num x : Fl ℝ (rne p)) = .num v ∧ radianToDegree (.num (-x) : Fl ℝ (rne p)) = .num (-v) ∧
      |v - x * (180 / Real.pi)| ≤ 3.02 * (2 : ℝ) ^ (-(p : ℤ)) * |x * (180 / Real.pi)| ∧
      ∀ y, x ≤ y → ∃ w, radianToDegree (.num y : Fl ℝ (rne p)) = .num w ∧ v ≤ w) := by
  have hp1 : 1 ≤ p := by omega
  have hr := isRel_rne p hp1
  have P0 := pi_rnd hp
  have g := BallLine.gam_small hr.nonneg (uq hp) 3 (by norm_num)
  have hpi : Rel ((2 : ℝ) ^ (-(p : ℤ))) 1 Real.pi (MathFns.pi : Fl ℝ (rne p)) := by
    obtain ⟨ψ, h, e⟩ := hr.fac Real.pi
    exact ⟨ψ, h, by rw [Fl.fl_pi, e]⟩
  have h180 : Rel ((2 : ℝ) ^ (-(p : ℤ))) 0 180 (180 : Fl ℝ (rne p)) := by rw [lit180 hp]; exact Rel.exact hr 180
  constructor
  · have r : Rel _ 3 (x * Real.pi / 180) (degreeToRadian (.num x : Fl ℝ (rne p))) :=
      ((Rel.exact hr x).mul hr hpi (k := 2)).div hr h180 (by norm_num)
    obtain ⟨v, hv, he⟩ := r.error hr
    rw [deg_num hp, Fl.num.injEq] at hv
    refine ⟨v, by rw [deg_num hp, hv], by rw [deg_num hp, neg_mul, rne_neg, neg_div, rne_neg, hv], ?_, fun y hy => ⟨_, deg_num hp y, ?_⟩⟩
    · rw [← mul_div_assoc]
      refine he.trans (mul_le_mul_of_nonneg_right (g.1.trans ?_) (abs_nonneg _))
      push_cast; nlinarith [hr.nonneg]
    · rw [← hv]
      refine rne_mono p hp1 (div_le_div_of_nonneg_right (rne_mono p hp1 ?_) (by norm_num))
      exact mul_le_mul_of_nonneg_right hy P0.le
  · have r : Rel _ 3 (x * 180 / Real.pi) (radianToDegree (.num x : Fl ℝ (rne p))) :=
      ((Rel.exact hr x).mul hr h180 (k := 1)).div hr hpi Real.pi_ne_zero
    obtain ⟨v, hv, he⟩ := r.error hr
    rw [rad_num hp, Fl.num.injEq] at hv
    refine ⟨v, by rw [rad_num hp, hv], by rw [rad_num hp, neg_mul, rne_neg, neg_div, rne_neg, hv], ?_, fun y hy => ⟨_, rad_num hp y, ?_⟩⟩
    · rw [← mul_div_assoc]
      refine he.trans (mul_le_mul_of_nonneg_right (g.1.trans ?_) (abs_nonneg _))
      push_cast; nlinarith [hr.nonneg]
    · rw [← hv]
      refine rne_mono p hp1 (div_le_div_of_nonneg_right (rne_mono p hp1 ?_) P0.le)
      exact mul_le_mul_of_nonneg_right hy (by norm_num)

/-- C178, what holds of the claim that the conversions are inverse to each other: there and back is the same up to four roundings, the
rounding of pi not counting.  Missing: the claim itself is false (`C178_refuted`). -/
theorem C178_roundtrip_partial (hp : 12 ≤ p) (x : ℝ) :
    (∃ v, radianToDegree (degreeToRadian (.num x : Fl ℝ (rne p))) = .num v ∧ |v - x| ≤ 4.02 * (2 : ℝ) ^ (-(p : ℤ)) * |x|) ∧
    (∃ v, degreeToRadian (radianToDegree (.num x : Fl ℝ (rne p))) = .num v ∧ |v - x| ≤ 4.02 * (2 : ℝ) ^ (-(p : ℤ)) * |x|) := by
  have hp1 : 1 ≤ p := by omega
  have hr := isRel_rne p hp1
  have P0 := pi_rnd hp
  have g := BallLine.gam_small hr.nonneg (uq hp) 4 (by norm_num)
  have hpi : Rel ((2 : ℝ) ^ (-(p : ℤ))) 0 (rne p Real.pi) (MathFns.pi : Fl ℝ (rne p)) := Rel.exact hr _
  have h180 : Rel ((2 : ℝ) ^ (-(p : ℤ))) 0 180 (180 : Fl ℝ (rne p)) := by rw [lit180 hp]; exact Rel.exact hr 180
  have fin : gam ((2 : ℝ) ^ (-(p : ℤ))) 4 * |x| ≤ 4.02 * (2 : ℝ) ^ (-(p : ℤ)) * |x| := by
    refine mul_le_mul_of_nonneg_right (g.1.trans ?_) (abs_nonneg _)
    push_cast; nlinarith [hr.nonneg]
  constructor
  · have r1 : Rel _ 2 (x * rne p Real.pi / 180) (degreeToRadian (.num x : Fl ℝ (rne p))) :=
      ((Rel.exact hr x).mul hr hpi (k := 1)).div hr h180 (by norm_num)
    have r2 : Rel _ 4 (x * rne p Real.pi / 180 * 180 / rne p Real.pi) (radianToDegree (degreeToRadian (.num x : Fl ℝ (rne p)))) :=
      (r1.mul hr h180 (k := 3)).div hr hpi P0.ne'
    rw [show x * rne p Real.pi / 180 * 180 / rne p Real.pi = x by field_simp] at r2
    obtain ⟨v, hv, he⟩ := r2.error hr
    exact ⟨v, hv, he.trans fin⟩
  · have r1 : Rel _ 2 (x * 180 / rne p Real.pi) (radianToDegree (.num x : Fl ℝ (rne p))) :=
      ((Rel.exact hr x).mul hr h180 (k := 1)).div hr hpi P0.ne'
    have r2 : Rel _ 4 (x * 180 / rne p Real.pi * rne p Real.pi / 180) (degreeToRadian (radianToDegree (.num x : Fl ℝ (rne p)))) :=
      (r1.mul hr hpi (k := 3)).div hr h180 (by norm_num)
    rw [show x * 180 / rne p Real.pi * rne p Real.pi / 180 = x by field_simp] at r2
    obtain ⟨v, hv, he⟩ := r2.error hr
    exact ⟨v, hv, he.trans fin⟩

private theorem pi24 : rne 24 Real.pi = 13176795 * (2 : ℝ) ^ (-22 : ℤ) := by
  have h1 := Real.pi_gt_d20
  have h2 := Real.pi_lt_d20
  have := rne_eq (p := 24) (x := Real.pi) (-22) 13176795 (by norm_num; linarith) (by norm_num; linarith)
    (by rw [abs_lt]; constructor <;> norm_num <;> linarith)
  rw [this]; norm_num

private theorem turn24 : rne 24 (180 * (13176795 * (2 : ℝ) ^ (-22 : ℤ))) = 9264934 * (2 : ℝ) ^ (-14 : ℤ) := by
  rw [rne_eq (-14) 9264934 (by norm_num) (by norm_num) (by rw [abs_lt]; norm_num)]; norm_num

/-- C178 for `float`: half a turn times a power of two, so 45, 90, 180 and 360 degrees, is converted to `float` pi times the power of two,
and back to the same degrees. -/
theorem C178_turns (k : ℤ) :
    degreeToRadian (.num (180 * 2 ^ k) : Fl ℝ (rne 24)) = .num (rne 24 Real.pi * 2 ^ k) ∧
    radianToDegree (.num (rne 24 Real.pi * 2 ^ k) : Fl ℝ (rne 24)) = .num (180 * 2 ^ k) := by
  constructor
  · rw [deg_num (by norm_num), show (180 : ℝ) * 2 ^ k * rne 24 Real.pi = 180 * rne 24 Real.pi * 2 ^ k by ring, rne_mul_zpow,
      mul_div_right_comm, rne_mul_zpow, pi24, turn24, rne_eq (-22) 13176795 (by norm_num) (by norm_num) (by rw [abs_lt]; norm_num)]
    norm_num
  · rw [rad_num (by norm_num), show rne 24 Real.pi * 2 ^ k * 180 = 180 * rne 24 Real.pi * 2 ^ k by ring, rne_mul_zpow,
      mul_div_right_comm, rne_mul_zpow, pi24, turn24, rne_eq (-16) 11796480 (by norm_num) (by norm_num) (by rw [abs_lt]; norm_num)]
    norm_num

/-- C178 is false for `float`: eleven degrees, converted to radians and back, are `11534337 / 2^20`, one unit more than eleven. -/
theorem C178_refuted : radianToDegree (degreeToRadian (.num 11 : Fl ℝ (rne 24))) = .num (11 + 2 ^ (-20 : ℤ)) := by
  rw [deg_num (by norm_num), rad_num (by norm_num), pi24]
  rw [show rne 24 (11 * (13176795 * (2 : ℝ) ^ (-22 : ℤ))) = 9059047 * (2 : ℝ) ^ (-18 : ℤ) by
    rw [rne_eq (-18) 9059047 (by norm_num) (by norm_num) (by rw [abs_lt]; norm_num)]; norm_num]
  rw [show rne 24 (9059047 * (2 : ℝ) ^ (-18 : ℤ) / 180) = 12883978 * (2 : ℝ) ^ (-26 : ℤ) by
    rw [rne_eq (-26) 12883978 (by norm_num) (by norm_num) (by rw [abs_lt]; norm_num)]; norm_num]
  rw [show rne 24 (12883978 * (2 : ℝ) ^ (-26 : ℤ) * 180) = 9059047 * (2 : ℝ) ^ (-18 : ℤ) by
    rw [rne_eq (-18) 9059047 (by norm_num) (by norm_num) (by rw [abs_lt]; norm_num)]; norm_num]
  rw [rne_eq (-20) 11534337 (by norm_num) (by norm_num) (by rw [abs_lt]; norm_num)]
  norm_num

/-! ## `asin` and `acos` -/

private theorem one_lit : (1 : Fl ℝ (rne p)) = .num 1 := Fl.one_def

theorem asin_num (s : ℝ) : asin' (.num s : Fl ℝ (rne p)) = .num (rne p (Real.arcsin s)) := by
  simp only [asin', one_lit, Fl.num_neg, gt_iff_lt, Fl.num_lt]
  by_cases c1 : 1 < s
  · rw [if_pos c1]
    simp only [Fl.num_lt]
    rw [if_neg (by norm_num), Fl.fl_asin, if_neg (by norm_num), Real.arcsin_one, Real.arcsin_of_one_le c1.le]
  · rw [if_neg c1]
    simp only [Fl.num_lt]
    by_cases c2 : s < -1
    · rw [if_pos c2, Fl.fl_asin, if_neg (by norm_num), Real.arcsin_neg_one, Real.arcsin_of_le_neg_one c2.le]
    · rw [if_neg c2, Fl.fl_asin, if_neg (by tauto)]

theorem acos_num (s : ℝ) : acos' (.num s : Fl ℝ (rne p)) = .num (rne p (Real.arccos s)) := by
  simp only [acos', one_lit, Fl.num_neg, gt_iff_lt, Fl.num_lt]
  by_cases c1 : 1 < s
  · rw [if_pos c1]
    simp only [Fl.num_lt]
    rw [if_neg (by norm_num), Fl.fl_acos, if_neg (by norm_num), Real.arccos_one, Real.arccos_of_one_le c1.le]
  · rw [if_neg c1]
    simp only [Fl.num_lt]
    by_cases c2 : s < -1
    · rw [if_pos c2, Fl.fl_acos, if_neg (by norm_num), Real.arccos_neg_one, Real.arccos_of_le_neg_one c2.le]
    · rw [if_neg c2, Fl.fl_acos, if_neg (by tauto)]

/-- C178: `asin` and `acos` return a number for every number, between the rounded ends of their range, keep (reverse) the order, and saturate
outside `[-1,1]`. -/
theorem C178_asin_acos (hp : 1 ≤ p) (s : ℝ) :
    (∃ v, asin' (.num s : Fl ℝ (rne p)) = .num v ∧ -rne p (Real.pi / 2) ≤ v ∧ v ≤ rne p (Real.pi / 2) ∧
      asin' (.num (-s) : Fl ℝ (rne p)) = .num (-v) ∧ (1 ≤ s → v = rne p (Real.pi / 2)) ∧
      ∀ t, s ≤ t → ∃ w, asin' (.num t : Fl ℝ (rne p)) = .num w ∧ v ≤ w) ∧
    (∃ v, acos' (.num s : Fl ℝ (rne p)) = .num v ∧ 0 ≤ v ∧ v ≤ rne p Real.pi ∧ (1 ≤ s → v = 0) ∧ (s ≤ -1 → v = rne p Real.pi) ∧
      ∀ t, s ≤ t → ∃ w, acos' (.num t : Fl ℝ (rne p)) = .num w ∧ w ≤ v) := by
  refine ⟨⟨_, asin_num s, ?_, rne_mono p hp (Real.arcsin_le_pi_div_two s), ?_, fun h => by rw [Real.arcsin_of_one_le h],
    fun t h => ⟨_, asin_num t, rne_mono p hp (Real.monotone_arcsin h)⟩⟩, ⟨_, acos_num s, ?_, rne_mono p hp (Real.arccos_le_pi s),
    fun h => by rw [Real.arccos_of_one_le h, rne_zero], fun h => by rw [Real.arccos_of_le_neg_one h],
    fun t h => ⟨_, acos_num t, rne_mono p hp (Real.antitone_arccos h)⟩⟩⟩
  · rw [← rne_neg]; exact rne_mono p hp (Real.neg_pi_div_two_le_arcsin s)
  · rw [asin_num, Real.arcsin_neg, rne_neg]
  · have := rne_mono p hp (Real.arccos_nonneg s); rwa [rne_zero] at this

private theorem arcsin_le (s : ℝ) (h : -1 ≤ s) (h' : s ≤ 1) : |Real.arcsin s| ≤ Real.pi / 2 * |s| := by
  have key : ∀ s : ℝ, 0 ≤ s → s ≤ 1 → Real.arcsin s ≤ Real.pi / 2 * s := fun s h0 h1 => by
    have := Real.mul_le_sin (Real.arcsin_nonneg.2 h0) (Real.arcsin_le_pi_div_two s)
    rw [Real.sin_arcsin (by linarith) h1] at this
    have pp := Real.pi_pos
    have := mul_le_mul_of_nonneg_left this (show 0 ≤ Real.pi / 2 by positivity)
    rwa [show Real.pi / 2 * (2 / Real.pi * Real.arcsin s) = Real.arcsin s by field_simp] at this
  rcases le_total 0 s with h0 | h0
  · rw [abs_of_nonneg h0, abs_of_nonneg (Real.arcsin_nonneg.2 h0)]; exact key s h0 h'
  · rw [abs_of_nonpos h0, abs_of_nonpos (Real.arcsin_nonpos.2 h0), ← Real.arcsin_neg]; exact key (-s) (by linarith) (by linarith)

/-- C178, what holds of the claim that `asin` and `acos` are inverse to `sin` and `cos`: `sin` of `asin` is within a relative error of
`2.58 u`, `cos` of `acos` within an absolute error of `4.15 u`, however close the argument is to the ends.  Missing: `cos` of `acos` is not
relatively accurate, see `C178_acos_zero`. -/
theorem C178_inverse_partial (hp : 12 ≤ p) (s : ℝ) (h : -1 ≤ s) (h' : s ≤ 1) :
    (∃ v, MathFns.sin (asin' (.num s : Fl ℝ (rne p))) = .num v ∧ |v - s| ≤ 2.58 * (2 : ℝ) ^ (-(p : ℤ)) * |s|) ∧
    (∃ v, MathFns.cos (acos' (.num s : Fl ℝ (rne p))) = .num v ∧ |v - s| ≤ 4.15 * (2 : ℝ) ^ (-(p : ℤ))) := by
  have hr := isRel_rne p (by omega)
  have hu := uq hp
  have u0 := hr.nonneg
  have hpi := Real.pi_lt_d2
  rw [asin_num, acos_num, Fl.fl_sin, Fl.fl_cos]
  constructor
  · refine ⟨_, rfl, ?_⟩
    have e1 := hr.err (Real.arcsin s)
    have e2 := hr.err (Real.sin (rne p (Real.arcsin s)))
    have e3 := Real.abs_sin_sub_sin_le (rne p (Real.arcsin s)) (Real.arcsin s)
    rw [Real.sin_arcsin h h'] at e3
    generalize (2 : ℝ) ^ (-(p : ℤ)) = u at *
    have e4 := e3.trans (e1.trans (mul_le_mul_of_nonneg_left (arcsin_le s h h') u0))
    have s0 := abs_nonneg s
    have us := mul_nonneg u0 s0
    have e5 : u * (Real.pi / 2 * |s|) ≤ 1.575 * (u * |s|) := by nlinarith
    have e6 : |Real.sin (rne p (Real.arcsin s))| ≤ |s| + 1.575 * (u * |s|) := by
      have := abs_sub_abs_le_abs_sub (Real.sin (rne p (Real.arcsin s))) s; linarith
    have e7 := e2.trans (mul_le_mul_of_nonneg_left e6 u0)
    have uus : u * (u * |s|) ≤ 1 / 4096 * (u * |s|) := mul_le_mul_of_nonneg_right hu us
    have := abs_sub_le (rne p (Real.sin (rne p (Real.arcsin s)))) (Real.sin (rne p (Real.arcsin s))) s
    linarith
  · refine ⟨_, rfl, ?_⟩
    have e1 := hr.err (Real.arccos s)
    have e2 := hr.err (Real.cos (rne p (Real.arccos s)))
    have e3 := Real.abs_cos_sub_cos_le (rne p (Real.arccos s)) (Real.arccos s)
    rw [Real.cos_arccos h h'] at e3
    have a1 : |Real.arccos s| ≤ 3.15 := by
      rw [abs_of_nonneg (Real.arccos_nonneg s)]; have := Real.arccos_le_pi s; linarith
    have a2 := Real.abs_cos_le_one (rne p (Real.arccos s))
    generalize (2 : ℝ) ^ (-(p : ℤ)) = u at *
    have e4 := e3.trans (e1.trans (mul_le_mul_of_nonneg_left a1 u0))
    have e5 := e2.trans (mul_le_mul_of_nonneg_left a2 u0)
    have := abs_sub_le (rne p (Real.cos (rne p (Real.arccos s)))) (Real.cos (rne p (Real.arccos s))) s
    linarith

/-- C178 fails for `acos` in every precision: `cos` of `acos` of zero is not zero. -/
theorem C178_acos_zero (hp : 1 ≤ p) : ∃ v, MathFns.cos (acos' (.num 0 : Fl ℝ (rne p))) = .num v ∧ v ≠ 0 := by
  rw [acos_num, Fl.fl_cos]
  refine ⟨_, rfl, fun h => ?_⟩
  have rat : ∀ x : ℝ, Rep p x → ∃ q : ℚ, x = q := fun x ⟨n, e, _, h⟩ => ⟨n * 2 ^ e, by rw [h]; push_cast; rfl⟩
  have hc : Real.cos (rne p (Real.arccos 0)) = 0 := by
    by_contra hne
    rcases lt_or_gt_of_ne hne with h0 | h0
    · have := rne_pos p hp _ (neg_pos.2 h0); rw [rne_neg, h] at this; linarith
    · exact (rne_pos p hp _ h0).ne' h
  obtain ⟨k, hk⟩ := Real.cos_eq_zero_iff.1 hc
  obtain ⟨q, hq⟩ := rat _ (rep_rne p hp (Real.arccos 0))
  rw [hq] at hk
  have k0 : (2 * (k : ℝ) + 1) ≠ 0 := by
    have : (2 * k + 1 : ℤ) ≠ 0 := by omega
    exact_mod_cast this
  refine irrational_pi ⟨2 * q / (2 * k + 1), ?_⟩
  push_cast
  rw [hk]; field_simp

/-- one degree in `float`, and the arcs of a half -/
example : (∃ v, radianToDegree (degreeToRadian (.num 1 : Fl ℝ (rne 24))) = .num v ∧ |v - 1| ≤ 4.02 * (2 : ℝ) ^ (-(24 : ℤ)) * |1|) ∧
    (∃ v, MathFns.sin (asin' (.num (1 / 2) : Fl ℝ (rne 24))) = .num v ∧ |v - 1 / 2| ≤ 2.58 * (2 : ℝ) ^ (-(24 : ℤ)) * |1 / 2|) :=
  ⟨(C178_roundtrip_partial (p := 24) (by norm_num) 1).1, (C178_inverse_partial (p := 24) (by norm_num) (1 / 2) (by norm_num) (by norm_num)).1⟩

/-- ninety degrees is `float` pi halves -/
example : degreeToRadian (.num 90 : Fl ℝ (rne 24)) = .num (rne 24 Real.pi * 2 ^ (-1 : ℤ)) := by
  have := (C178_turns (-1)).1
  rwa [show (180 : ℝ) * 2 ^ (-1 : ℤ) = 90 by norm_num] at this

/-- `float` and `double` have enough bits for `C178_convert` and `C178_asin_acos`, which then hold of two and a half -/
example : (∃ v, degreeToRadian (.num 2.5 : Fl ℝ (rne 53)) = .num v) ∧ (∃ v, acos' (.num 2.5 : Fl ℝ (rne 53)) = .num v ∧ v = 0) := by
  obtain ⟨v, hv, -⟩ := (C178_convert (p := 53) (by norm_num) 2.5).1
  obtain ⟨w, hw, -, -, h, -⟩ := (C178_asin_acos (p := 53) (by norm_num) 2.5).2
  exact ⟨⟨v, hv⟩, w, hw, h (by norm_num)⟩

end MathLib
