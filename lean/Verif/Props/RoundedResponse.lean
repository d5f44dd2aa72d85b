import Mathlib.Analysis.Convex.SpecificFunctions.Basic
import Verif.Proof.RneNearest
import Verif.Proof.BallLine
import Verif.Props.Response

/-! # Property C175: response curves in floating point -/

namespace MathLib
variable {p : ℕ}
open ResponseCurveType

private theorem nonneg' (hp : 1 ≤ p) {x : ℝ} (h : 0 ≤ x) : 0 ≤ rne p x := by
  have := rne_mono p hp h
  rwa [rne_zero] at this

private theorem one' (hp : 1 ≤ p) : rne p (1 : ℝ) = 1 := by simpa using rne_of_rep (K := ℝ) hp (Rep.zpow 0)

/-- the rescaled value -/
private noncomputable def resc (p : ℕ) (v t : ℝ) : ℝ :=
  if -t ≤ v ∧ v ≤ t then 0
  else if 0 ≤ v then rne p (rne p (v - t) / rne p (1 - t)) else rne p (rne p (v + t) / rne p (1 - t))

/-- the constant of the cosine curve -/
private noncomputable def C (p : ℕ) : ℝ := rne p (rne p 157079633 / rne p 100000000)

/-- the curves -/
private noncomputable def crv (p : ℕ) (c : ResponseCurveType) (x : ℝ) : ℝ :=
  match c with
  | .Zero => 0
  | .Linear => x
  | .Parabolic => if 0 ≤ x then rne p (x * x) else rne p (-x * x)
  | .Cubic => rne p (rne p (x * x) * x)
  | .Exponential => if 0 ≤ x then rne p (rne p ((2 : ℝ) ^ x) - 1) else -rne p (rne p ((2 : ℝ) ^ (-x)) - 1)
  | .Cosine => if 0 ≤ x then
        (if 1 ≤ x then 1 else rne p (rne p (1 - rne p (Real.cos (rne p (x * C p)))) / rne p (1 - rne p (Real.cos (C p)))))
      else
        (if x ≤ -1 then -1 else rne p (-rne p (1 - rne p (Real.cos (rne p (-x * C p)))) / rne p (1 - rne p (Real.cos (C p)))))
  | .Undefined => 0

private theorem small (hp : 12 ≤ p) : (2 : ℝ) ^ (-(p : ℤ)) ≤ 1 / 4096 :=
  (zpow_le_zpow_right₀ one_le_two (by omega : -(p : ℤ) ≤ -12)).trans (by norm_num)

private theorem C_bounds (hp : 12 ≤ p) : 1.56 ≤ C p ∧ C p ≤ 1.58 ∧ rne p (C p) = C p := by
  have hr := isRel_rne p (by omega : 1 ≤ p)
  have hu := small hp
  have h0 := hr.nonneg
  have a := abs_le.1 (hr.err 157079633)
  have b := abs_le.1 (hr.err 100000000)
  rw [abs_of_pos (by norm_num)] at a b
  have b1 : 99970000 ≤ rne p (100000000 : ℝ) := by linarith [b.1]
  have b2 : rne p (100000000 : ℝ) ≤ 100030000 := by linarith [b.2]
  have a1 : 157030000 ≤ rne p (157079633 : ℝ) := by linarith [a.1]
  have a2 : rne p (157079633 : ℝ) ≤ 157130000 := by linarith [a.2]
  have q1 : 1.569 ≤ rne p (157079633 : ℝ) / rne p (100000000 : ℝ) := by
    rw [le_div_iff₀ (by linarith)]; linarith
  have q2 : rne p (157079633 : ℝ) / rne p (100000000 : ℝ) ≤ 1.573 := by
    rw [div_le_iff₀ (by linarith)]; linarith
  have c := abs_le.1 (hr.err (rne p (157079633 : ℝ) / rne p (100000000 : ℝ)))
  rw [abs_of_pos (by linarith)] at c
  refine ⟨?_, ?_, rne_rne p (by omega) _⟩
  · unfold C; nlinarith [c.1]
  · unfold C; nlinarith [c.2]

private theorem D_pos (hp : 12 ≤ p) : 0 < rne p (1 - rne p (Real.cos (C p))) := by
  obtain ⟨h1, h2, -⟩ := C_bounds hp
  apply rne_pos p (by omega)
  have hc : Real.cos (C p) ≤ 1 / 2 := by
    rw [← Real.cos_pi_div_three]
    exact Real.cos_le_cos_of_nonneg_of_le_pi (by positivity) (by linarith [Real.pi_gt_d2]) (by linarith [Real.pi_lt_d2])
  have hh : rne p (1 / 2 : ℝ) = 1 / 2 := by
    have := rne_of_rep (K := ℝ) (p := p) (by omega) (Rep.zpow (-1))
    norm_num at this
    norm_num [this]
  have := rne_mono p (by omega) hc
  rw [hh] at this
  linarith

private theorem eval_num (hp : 12 ≤ p) {v t : ℝ} (h0 : 0 ≤ t) (h1 : t < 1) {c} (hc : c ≠ Undefined) :
    evaluate (.num v : Fl ℝ (rne p)) (.num t) c = .ok (.num (crv p c (resc p v t))) := by
  have hp1 : 1 ≤ p := by omega
  have hD : rne p (1 - t) ≠ 0 := (rne_pos p hp1 _ (by linarith)).ne'
  have ht : ¬ ¬ ((Fl.num t : Fl ℝ (rne p)) ≥ 0 ∧ (Fl.num t : Fl ℝ (rne p)) < 1) := by
    simp only [not_not, Fl.zero_def, Fl.one_def, ge_iff_le, Fl.num_le, Fl.num_lt]; exact ⟨h0, h1⟩
  have l2 : (2 : Fl ℝ (rne p)) = .num 2 :=
    (Fl.ofNat_def 2).trans (congrArg Fl.num (by simpa using rne_of_rep (K := ℝ) hp1 (Rep.zpow 1)))
  have hb : rne p (100000000 : ℝ) ≠ 0 := (rne_pos p hp1 _ (by norm_num)).ne'
  have lc : (157079633 / 100000000 : Fl ℝ (rne p)) = .num (C p) := by
    rw [(Fl.ofNat_def 157079633 : (157079633 : Fl ℝ (rne p)) = _), (Fl.ofNat_def 100000000 : (100000000 : Fl ℝ (rne p)) = _), Fl.num_div]
    rw [if_neg (by simpa using hb)]
    simp [C]
  have hval : (if (Fl.num v : Fl ℝ (rne p)) ≥ -(Fl.num t) ∧ (Fl.num v : Fl ℝ (rne p)) ≤ .num t then (0 : Fl ℝ (rne p))
      else if (Fl.num v : Fl ℝ (rne p)) ≥ 0 then (.num v - .num t) / (1 - .num t) else (.num v + .num t) / (1 - .num t)) =
      .num (resc p v t) := by
    rw [Fl.zero_def, Fl.one_def, Fl.num_neg, Fl.num_sub, Fl.num_sub, Fl.num_add, Fl.num_div, Fl.num_div, if_neg hD, if_neg hD]
    simp only [ge_iff_le, Fl.num_le]
    unfold resc
    by_cases a : -t ≤ v ∧ v ≤ t
    · rw [if_pos a, if_pos a]
    · rw [if_neg a, if_neg a]
      by_cases b : 0 ≤ v
      · rw [if_pos b, if_pos b]
      · rw [if_neg b, if_neg b]
  have hD' : rne p (1 - rne p (Real.cos (C p))) ≠ 0 := (D_pos hp).ne'
  have ge0 : ∀ x : ℝ, ((Fl.num x : Fl ℝ (rne p)) ≥ 0) = (0 ≤ x) := fun x => by rw [Fl.zero_def, ge_iff_le, Fl.num_le]
  have pw : ∀ x : ℝ, MathFns.pow (.num 2 : Fl ℝ (rne p)) (.num x) = .num (rne p ((2 : ℝ) ^ x)) := fun x => by
    show (if (2 : ℝ) ≤ 0 then Fl.nan else .num (rne p ((2 : ℝ) ^ x))) = _
    rw [if_neg (by norm_num)]
  unfold evaluate
  rw [if_neg ht]
  simp only [hval, lc, l2]
  generalize resc p v t = x
  cases c
  · rfl
  · rfl
  · simp only [crv, ge0]; split_ifs <;> rfl
  · rfl
  · simp only [crv, ge0, Fl.num_neg, pw, Fl.one_def, Fl.num_sub]; split_ifs <;> rfl
  · simp only [crv, ge_iff_le, Fl.zero_def, Fl.num_le, Fl.fl_cos, Fl.num_neg, Fl.one_def, Fl.num_sub, Fl.num_mul, Fl.num_div, if_neg hD']
    split_ifs <;> rfl
  · exact absurd rfl hc

private theorem resc_neg (v : ℝ) {t : ℝ} (h0 : 0 ≤ t) : resc p (-v) t = -resc p v t := by
  unfold resc
  by_cases h : -t ≤ v ∧ v ≤ t
  · rw [if_pos h, if_pos ⟨by linarith [h.2], by linarith [h.1]⟩, neg_zero]
  · rw [if_neg h, if_neg (fun k => h ⟨by linarith [k.2], by linarith [k.1]⟩)]
    rcases lt_trichotomy v 0 with a | a | a
    · rw [if_pos (by linarith), if_neg (by linarith), ← rne_neg, neg_div', ← rne_neg, neg_add, sub_eq_add_neg]
    · exact absurd ⟨by linarith, by linarith⟩ h
    · rw [if_neg (by linarith), if_pos a.le, ← rne_neg, neg_div', ← rne_neg, neg_sub]
      congr 3; ring

private theorem resc_mono (hp : 1 ≤ p) {t : ℝ} (h0 : 0 ≤ t) (h1 : t < 1) : Monotone fun v => resc p v t := by
  apply monotone_of_odd_of_monotoneOn_nonneg (fun v => resc_neg v h0)
  intro a ha b hb hab
  have ha : 0 ≤ a := ha
  have hb : 0 ≤ b := hb
  have hD := rne_pos p hp (1 - t) (by linarith)
  show resc p a t ≤ resc p b t
  unfold resc
  by_cases h : -t ≤ a ∧ a ≤ t
  · rw [if_pos h]
    split_ifs with k
    · exact le_rfl
    · apply nonneg' hp
      refine div_nonneg (nonneg' hp ?_) hD.le
      have : t < b := by
        by_contra hh
        exact k ⟨by linarith, not_lt.1 hh⟩
      linarith
  · have k : ¬ (-t ≤ b ∧ b ≤ t) := fun k => h ⟨by linarith, by linarith [k.2]⟩
    rw [if_neg h, if_neg k, if_pos ha, if_pos hb]
    exact rne_mono p hp (div_le_div_of_nonneg_right (rne_mono p hp (by linarith)) hD.le)

private theorem resc_one (hp : 1 ≤ p) {t : ℝ} (h1 : t < 1) : resc p 1 t = 1 := by
  unfold resc
  rw [if_neg (by rintro ⟨-, h⟩; linarith), if_pos zero_le_one, div_self (rne_pos p hp _ (by linarith)).ne', one' hp]

private theorem crv_zero (hp : 1 ≤ p) (c : ResponseCurveType) : crv p c 0 = 0 := by
  cases c <;> norm_num [crv, rne_zero, one' hp]

private theorem crv_odd (hp : 1 ≤ p) (c : ResponseCurveType) (x : ℝ) : crv p c (-x) = -crv p c x := by
  rcases eq_or_ne x 0 with rfl | hx
  · rw [neg_zero, crv_zero hp, neg_zero]
  cases c <;> simp only [crv]
  · simp
  · rcases lt_or_gt_of_ne hx with h | h
    · rw [if_pos (by linarith), if_neg (by linarith), ← rne_neg]; congr 1; ring
    · rw [if_neg (by linarith), if_pos h.le, ← rne_neg]; congr 1; ring
  · rw [neg_mul_neg, mul_neg, rne_neg]
  · rcases lt_or_gt_of_ne hx with h | h
    · rw [if_pos (by linarith), if_neg (by linarith), neg_neg]
    · rw [if_neg (by linarith), if_pos h.le, neg_neg]
  · rcases lt_or_gt_of_ne hx with h | h
    · rw [if_pos (show 0 ≤ -x by linarith), if_neg (show ¬ 0 ≤ x by linarith)]
      by_cases k : x ≤ -1
      · rw [if_pos (by linarith), if_pos k, neg_neg]
      · rw [if_neg (by linarith), if_neg k, ← rne_neg, neg_div, neg_neg]
    · rw [if_neg (show ¬ 0 ≤ -x by linarith), if_pos (show 0 ≤ x from h.le)]
      by_cases k : 1 ≤ x
      · rw [if_pos (by linarith), if_pos k]
      · rw [if_neg (by linarith), if_neg k, neg_neg, neg_div, rne_neg]
  · simp

private theorem crv_mono (hp : 12 ≤ p) (c : ResponseCurveType) : Monotone (crv p c) := by
  have hp1 : 1 ≤ p := by omega
  apply monotone_of_odd_of_monotoneOn_nonneg (crv_odd hp1 c)
  intro a ha b hb hab
  have ha : 0 ≤ a := ha
  have hb : 0 ≤ b := hb
  have m := rne_mono p hp1 (K := ℝ)
  cases c <;> simp only [crv, ha, hb, if_true, le_refl]
  · exact hab
  · exact m (by nlinarith)
  · exact m (mul_le_mul (m (by nlinarith)) hab ha (nonneg' hp1 (by positivity)))
  · exact m (by linarith [m (Real.rpow_le_rpow_of_exponent_le (x := 2) one_le_two hab)])
  · obtain ⟨c1, c2, c3⟩ := C_bounds hp
    have hD := D_pos hp
    have key : ∀ y z : ℝ, 0 ≤ y → y ≤ z → z ≤ 1 →
        rne p (1 - rne p (Real.cos (rne p (y * C p)))) ≤ rne p (1 - rne p (Real.cos (rne p (z * C p)))) := by
      intro y z hy hyz hz
      have z1 : rne p (z * C p) ≤ C p := by
        rw [← c3]; refine m ?_; rw [c3]; nlinarith
      refine m ?_
      have := m (Real.cos_le_cos_of_nonneg_of_le_pi (nonneg' hp1 (by nlinarith : 0 ≤ y * C p))
        (by linarith [Real.pi_gt_d2]) (m (by nlinarith : y * C p ≤ z * C p)))
      linarith
    by_cases hb1 : 1 ≤ b
    · rw [if_pos hb1]
      by_cases ha1 : 1 ≤ a
      · rw [if_pos ha1]
      · rw [if_neg ha1]
        have k := key a 1 ha (not_le.1 ha1).le le_rfl
        rw [one_mul, c3] at k
        calc _ ≤ rne p (1 : ℝ) := m ((div_le_one hD).2 k)
          _ = 1 := one' hp1
    · rw [if_neg hb1, if_neg (by linarith)]
      exact m (div_le_div_of_nonneg_right (key a b ha hab (not_le.1 hb1).le) hD.le)

private theorem crv_one (hp : 1 ≤ p) (c : ResponseCurveType) (hc : c ≠ .Zero) (hc' : c ≠ Undefined) : crv p c 1 = 1 := by
  have r2 : rne p (2 : ℝ) = 2 := by simpa using rne_of_rep (K := ℝ) hp (Rep.zpow 1)
  cases c <;> simp [crv, one' hp, r2] at *
  norm_num [one' hp]

/-- C175: in floating point every response curve still is an odd, monotone function that is zero on the dead zone, maps `[-1,1]`
into itself and 1 to 1. -/
theorem C175_shape (hp : 12 ≤ p) {t : ℝ} (h0 : 0 ≤ t) (h1 : t < 1) (c : ResponseCurveType) (hc : c ≠ Undefined) :
    ∃ f : ℝ → ℝ, (∀ v, evaluate (.num v : Fl ℝ (rne p)) (.num t) c = .ok (.num (f v))) ∧ (∀ v, f (-v) = -f v) ∧ Monotone f ∧
      (∀ v, |v| ≤ t → f v = 0) ∧ (∀ v, |v| ≤ 1 → |f v| ≤ 1) ∧ (c ≠ .Zero → f 1 = 1 ∧ f (-1) = -1) := by
  have hp1 : 1 ≤ p := by omega
  have odd : ∀ v, crv p c (resc p (-v) t) = -crv p c (resc p v t) := fun v => by rw [resc_neg v h0, crv_odd hp1]
  have mono : Monotone fun v => crv p c (resc p v t) := (crv_mono hp c).comp (resc_mono hp1 h0 h1)
  have top : crv p c (resc p 1 t) ≤ 1 := by
    rw [resc_one hp1 h1]
    rcases eq_or_ne c .Zero with rfl | hz
    · exact zero_le_one
    · exact (crv_one hp1 c hz hc).le
  refine ⟨fun v => crv p c (resc p v t), fun v => eval_num hp h0 h1 hc, odd, mono, ?_, ?_, ?_⟩
  · intro v hv
    show crv p c (resc p v t) = 0
    have : resc p v t = 0 := if_pos (abs_le.1 hv)
    rw [this, crv_zero hp1]
  · intro v hv
    obtain ⟨a, b⟩ := abs_le.1 hv
    rw [abs_le]
    constructor
    · have := mono a
      simp only [odd] at this
      show _ ≤ crv p c (resc p v t)
      linarith
    · exact (mono b).trans top
  · intro hz
    show crv p c (resc p 1 t) = 1 ∧ crv p c (resc p (-1) t) = -1
    rw [odd, resc_one hp1 h1, crv_one hp1 c hz hc]
    exact ⟨rfl, rfl⟩

private theorem resc_rel (hp : 12 ≤ p) {v t : ℝ} (h0 : 0 ≤ t) (h1 : t < 1) (hv : t < v) :
    Rel ((2 : ℝ) ^ (-(p : ℤ))) 3 (rescale v t) (.num (resc p v t) : Fl ℝ (rne p)) := by
  have hr := isRel_rne p (by omega : 1 ≤ p)
  have hD : rne p (1 - t) ≠ 0 := (rne_pos p (by omega) _ (by linarith)).ne'
  have e1 : rescale v t = (v - t) / (1 - t) := by
    unfold rescale; rw [if_neg (by rintro ⟨-, h⟩; linarith), if_pos (by linarith)]
  have e2 : (.num (resc p v t) : Fl ℝ (rne p)) = (.num v - .num t) / (.num 1 - .num t) := by
    rw [Fl.num_sub, Fl.num_sub, Fl.num_div, if_neg hD]
    unfold resc; rw [if_neg (by rintro ⟨-, h⟩; linarith), if_pos (by linarith)]
  rw [e1, e2]
  exact Rel.div hr (Rel.sub hr v t) (Rel.sub hr 1 t) (by linarith)

private theorem accurate (hp : 12 ≤ p) {v t : ℝ} (h0 : 0 ≤ t) (h1 : t < 1) (hv : t < v) {c : ResponseCurveType}
    (hc : c = Linear ∨ c = Parabolic ∨ c = Cubic) :
    |crv p c (resc p v t) - curveFn c (rescale v t)| ≤ 12 * (2 : ℝ) ^ (-(p : ℤ)) * |curveFn c (rescale v t)| := by
  have hr := isRel_rne p (by omega : 1 ≤ p)
  have rel := resc_rel hp h0 h1 hv
  have x0 : 0 ≤ resc p v t := by
    have := resc_mono (p := p) (by omega) h0 h1 (h0.trans hv.le)
    simp only at this
    rwa [show resc p 0 t = 0 from if_pos ⟨by linarith, h0⟩] at this
  have y0 : 0 ≤ rescale v t := by
    unfold rescale; rw [if_neg (by rintro ⟨-, h⟩; linarith), if_pos (by linarith)]
    exact div_nonneg (by linarith) (by linarith)
  have key : Rel ((2 : ℝ) ^ (-(p : ℤ))) 11 (curveFn c (rescale v t)) (.num (crv p c (resc p v t)) : Fl ℝ (rne p)) := by
    rcases hc with rfl | rfl | rfl
    · exact rel.mono hr (by norm_num)
    · simp only [crv, curveFn, if_pos x0, if_pos (show rescale v t ≥ 0 from y0)]
      exact (Rel.mul hr rel rel (k := 7)).mono hr (by norm_num)
    · exact Rel.mul hr (Rel.mul hr rel rel (k := 7)) rel
  obtain ⟨w, ew, hw⟩ := key.error hr
  rw [← Fl.num.inj ew] at hw
  obtain ⟨g, -⟩ := BallLine.gam_small hr.nonneg (small hp) 11 (by norm_num)
  push_cast at g
  refine hw.trans (mul_le_mul_of_nonneg_right ?_ (abs_nonneg _))
  linarith [hr.nonneg]

/-- C175 for the linear, parabolic and cubic curve: the value is the exact one up to a relative error of `12 * 2^-p`; in
particular it is zero in the dead zone only.  The other two curves are zero outside it too (`C175_refuted`). -/
theorem C175_accurate_partial (hp : 12 ≤ p) {t : ℝ} (h0 : 0 ≤ t) (h1 : t < 1) (v : ℝ) (c : ResponseCurveType)
    (hc : c = Linear ∨ c = Parabolic ∨ c = Cubic) :
    ∃ x y : ℝ, evaluate (.num v : Fl ℝ (rne p)) (.num t) c = .ok (.num x) ∧ evaluate v t c = .ok y ∧
      |x - y| ≤ 12 * (2 : ℝ) ^ (-(p : ℤ)) * |y| ∧ (x = 0 ↔ |v| ≤ t) := by
  have hp1 : 1 ≤ p := by omega
  have hu : c ≠ Undefined := by rcases hc with rfl | rfl | rfl <;> simp
  have hz : c ≠ .Zero := by rcases hc with rfl | rfl | rfl <;> simp
  have hs := small hp
  have acc : |crv p c (resc p v t) - curveFn c (rescale v t)| ≤ 12 * (2 : ℝ) ^ (-(p : ℤ)) * |curveFn c (rescale v t)| := by
    rcases le_or_gt |v| t with h | h
    · have a : resc p v t = 0 := if_pos (abs_le.1 h)
      have b : rescale v t = 0 := (rescale_eq_zero v t h0 h1).2 h
      rw [a, b, crv_zero hp1, (curveFn_eq_zero c hz hu 0).2 rfl]; simp
    · rcases lt_abs.1 h with k | k
      · exact accurate hp h0 h1 k hc
      · have := accurate hp h0 h1 k hc
        rw [resc_neg v h0, crv_odd hp1, rescale_neg v t h0, curveFn_odd, abs_neg] at this
        rwa [← abs_neg, neg_sub', ]
  refine ⟨_, _, eval_num hp h0 h1 hu, evaluate_eq v t h0 h1 c hu, acc, ?_⟩
  rw [← rescale_eq_zero v t h0 h1, ← curveFn_eq_zero c hz hu (rescale v t)]
  constructor
  · intro h
    rw [h, zero_sub, abs_neg] at acc
    have : |curveFn c (rescale v t)| ≤ 0 := by nlinarith [abs_nonneg (curveFn c (rescale v t))]
    exact abs_nonpos_iff.1 this
  · intro h
    rw [h, abs_zero, mul_zero, sub_zero] at acc
    exact abs_nonpos_iff.1 acc

/-- the claim of C175 about the dead zone -/
def C175_full : Prop :=
  ∀ (t v : ℝ) (c : ResponseCurveType), 0 ≤ t → t < 1 → Rep 24 t → Rep 24 v → c ≠ .Zero → c ≠ Undefined →
    (evaluate (.num v : Fl ℝ (rne 24)) (.num t) c = .ok (.num 0) ↔ |v| ≤ t)

/-- In `float` the exponential and the cosine curve are zero at `2^-30` though the threshold is zero. -/
theorem C175_flat :
    evaluate (.num (1 / 2 ^ 30) : Fl ℝ (rne 24)) (.num 0) Exponential = .ok (.num 0) ∧
    evaluate (.num (1 / 2 ^ 30) : Fl ℝ (rne 24)) (.num 0) Cosine = .ok (.num 0) := by
  have r1 := one' (p := 24) (by norm_num)
  have m := rne_mono 24 (K := ℝ) (by norm_num)
  have rx : rne 24 (1 / 2 ^ 30 : ℝ) = 1 / 2 ^ 30 :=
    rne_of_rep (by norm_num) ⟨1, -30, by norm_num, by norm_num⟩
  have e : resc 24 (1 / 2 ^ 30) 0 = 1 / 2 ^ 30 := by
    unfold resc
    rw [if_neg (by norm_num), if_pos (by norm_num), sub_zero, sub_zero, r1, div_one, rx, rx]
  rw [eval_num (by norm_num) le_rfl zero_lt_one (by simp), eval_num (by norm_num) le_rfl zero_lt_one (by simp), e]
  constructor
  · have h1 : rne 24 ((2 : ℝ) ^ (1 / 2 ^ 30 : ℝ)) = 1 := by
      apply le_antisymm
      · have b : (2 : ℝ) ^ (1 / 2 ^ 30 : ℝ) ≤ 1 + 1 / 2 ^ 30 := by
          have := rpow_one_add_le_one_add_mul_self (s := 1) (p := 1 / 2 ^ 30) (by norm_num) (by norm_num) (by norm_num)
          norm_num at this ⊢
          exact this
        refine (m b).trans (le_of_eq ?_)
        rw [rne_eq (-23) 8388608 (by norm_num) (by norm_num) (by rw [abs_lt]; norm_num)]; norm_num
      · have b : (1 : ℝ) ≤ (2 : ℝ) ^ (1 / 2 ^ 30 : ℝ) := Real.one_le_rpow one_le_two (by norm_num)
        have := m b
        rwa [r1] at this
    simp only [crv]
    rw [if_pos (by norm_num), h1, sub_self, rne_zero]
  · obtain ⟨c1, c2, -⟩ := C_bounds (p := 24) (by norm_num)
    have y0 : 0 ≤ rne 24 (1 / 2 ^ 30 * C 24) := nonneg' (by norm_num) (by positivity)
    have y1 : rne 24 (1 / 2 ^ 30 * C 24) ≤ 1 / 2 ^ 29 := by
      have r : rne 24 (1 / 2 ^ 29 : ℝ) = 1 / 2 ^ 29 := rne_of_rep (by norm_num) ⟨1, -29, by norm_num, by norm_num⟩
      rw [← r]
      exact m (by linarith)
    have h1 : rne 24 (Real.cos (rne 24 (1 / 2 ^ 30 * C 24))) = 1 := by
      apply le_antisymm
      · have := m (Real.cos_le_one (rne 24 (1 / 2 ^ 30 * C 24)))
        rwa [r1] at this
      · have b := Real.one_sub_sq_div_two_le_cos (x := rne 24 (1 / 2 ^ 30 * C 24))
        have b' : (1 - 1 / 2 ^ 26 : ℝ) ≤ Real.cos (rne 24 (1 / 2 ^ 30 * C 24)) := by nlinarith
        refine le_trans (le_of_eq ?_) (m b')
        rw [rne_eq (-24) 16777216 (by norm_num) (by norm_num) (by rw [abs_lt]; norm_num)]; norm_num
    simp only [crv]
    rw [if_pos (by norm_num), if_neg (by norm_num), h1, sub_self, rne_zero, zero_div, rne_zero]

/-- The claim is false. -/
theorem C175_refuted : ¬ C175_full := by
  intro h
  have := (h 0 (1 / 2 ^ 30) Exponential le_rfl zero_lt_one (Rep.zero _) ⟨1, -30, by norm_num, by norm_num⟩ (by simp) (by simp)).1
    C175_flat.1
  norm_num [abs_of_pos] at this

/-- a concrete case -/
example : (0 : ℝ) ≤ 1 / 10 ∧ (1 / 10 : ℝ) < 1 ∧ ¬ |(-1 / 2 : ℝ)| ≤ 1 / 10 ∧ (12 : ℕ) ≤ 24 := by norm_num [abs_of_neg]

/-- The model writes the literal `1.57079633` as a quotient of integers; in `float` and `double` the rounded quotient is the
rounded literal. -/
example : C 24 = rne 24 1.57079633 ∧ C 53 = rne 53 1.57079633 := by
  constructor
  · have a : rne 24 (157079633 : ℝ) = 157079632 := by
      rw [rne_eq 4 9817477 (by norm_num) (by norm_num) (by rw [abs_lt]; norm_num)]; norm_num
    have b : rne 24 (100000000 : ℝ) = 100000000 := rne_of_rep (by norm_num) ⟨12500000, 3, by norm_num, by norm_num⟩
    unfold C
    rw [a, b, rne_eq (-23) 13176795 (by norm_num) (by norm_num) (by rw [abs_lt]; norm_num),
      rne_eq (-23) 13176795 (by norm_num) (by norm_num) (by rw [abs_lt]; norm_num)]
  · have a : rne 53 (157079633 : ℝ) = 157079633 := rne_of_rep (by norm_num) ⟨157079633, 0, by norm_num, by norm_num⟩
    have b : rne 53 (100000000 : ℝ) = 100000000 := rne_of_rep (by norm_num) ⟨100000000, 0, by norm_num, by norm_num⟩
    unfold C
    rw [a, b]
    norm_num

end MathLib
