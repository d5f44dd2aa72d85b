import Verif.Model.Functions
import Verif.Spec.RealInst
import Mathlib.Analysis.Real.Pi.Bounds
import Mathlib.Order.Monotone.Odd
import Mathlib.Tactic.Linarith
import Mathlib.Tactic.Ring
import Mathlib.Tactic.FieldSimp
import Mathlib.Tactic.NormNum

/-! # Property C08: response curves -/

namespace MathLib
open ResponseCurveType hiding Zero

/-! ## helper functions (used in proofs only) -/

noncomputable def rescale (v thr : ℝ) : ℝ :=
  if v ≥ -thr ∧ v ≤ thr then 0
  else if v ≥ 0 then (v - thr) / (1 - thr) else (v + thr) / (1 - thr)

noncomputable def curveFn (c : ResponseCurveType) (value : ℝ) : ℝ :=
  match c with
  | .Zero => 0
  | .Linear => value
  | .Parabolic => if value ≥ 0 then value * value else -value * value
  | .Cubic => value * value * value
  | .Exponential => if value ≥ 0 then (2 : ℝ) ^ value - 1 else -((2 : ℝ) ^ (-value) - 1)
  | .Cosine => if value ≥ 0 then
        (if value ≥ 1 then 1
         else (1 - Real.cos (value * (157079633 / 100000000))) /
          (1 - Real.cos (157079633 / 100000000)))
      else
        (if value ≤ -1 then -1
         else -(1 - Real.cos ((-value) * (157079633 / 100000000))) /
          (1 - Real.cos (157079633 / 100000000)))
  | .Undefined => 0

theorem evaluate_eq (v thr : ℝ) (h0 : 0 ≤ thr) (h1 : thr < 1) (c) (hc : c ≠ Undefined) :
    evaluate v thr c = .ok (curveFn c (rescale v thr)) := by
  have : ¬ ¬ (thr ≥ 0 ∧ thr < 1) := by simp [h0, h1]
  cases c <;> simp [evaluate, curveFn, rescale, h0, h1] at *

theorem rescale_nonneg_eq (v thr : ℝ) (h0 : 0 ≤ thr) (hv : 0 ≤ v) :
    rescale v thr = max 0 (v - thr) / (1 - thr) := by
  unfold rescale
  by_cases h : v ≤ thr
  · rw [if_pos ⟨by linarith, h⟩, max_eq_left (by linarith)]; simp
  · rw [if_neg (by tauto), if_pos hv, max_eq_right (by linarith)]

theorem rescale_neg (v thr : ℝ) (h0 : 0 ≤ thr) : rescale (-v) thr = -rescale v thr := by
  unfold rescale
  by_cases h : v ≥ -thr ∧ v ≤ thr
  · rw [if_pos h, if_pos ⟨by linarith [h.2], by linarith [h.1]⟩]; simp
  · rw [if_neg h, if_neg (fun h' => h ⟨by linarith [h'.2], by linarith [h'.1]⟩)]
    rcases lt_trichotomy v 0 with hv | hv | hv
    · rw [if_pos (by linarith), if_neg (by linarith)]; ring
    · exfalso; apply h; constructor <;> linarith
    · rw [if_neg (by linarith), if_pos hv.le]; ring

theorem rescale_mono (thr : ℝ) (h0 : 0 ≤ thr) (h1 : thr < 1) :
    Monotone (fun v => rescale v thr) := by
  apply monotone_of_odd_of_monotoneOn_nonneg (fun v => rescale_neg v thr h0)
  intro a ha b hb hab
  simp only [rescale_nonneg_eq _ _ h0 ha, rescale_nonneg_eq _ _ h0 hb]
  have : 0 < 1 - thr := by linarith
  apply div_le_div_of_nonneg_right _ this.le
  exact max_le_max le_rfl (by linarith)

theorem rescale_one (thr : ℝ) (h0 : 0 ≤ thr) (h1 : thr < 1) : rescale 1 thr = 1 := by
  have : 0 < 1 - thr := by linarith
  rw [rescale_nonneg_eq _ _ h0 zero_le_one, max_eq_right this.le, div_self this.ne']

theorem rescale_eq_zero (v thr : ℝ) (h0 : 0 ≤ thr) (h1 : thr < 1) :
    rescale v thr = 0 ↔ |v| ≤ thr := by
  have h : 0 < 1 - thr := by linarith
  rw [abs_le]
  unfold rescale
  split_ifs with c1 c2
  · simp; exact c1
  · rw [div_eq_zero_iff]
    constructor
    · rintro (h' | h') <;> [constructor <;> linarith; linarith]
    · rintro h'; exact absurd h' c1
  · rw [div_eq_zero_iff]
    constructor
    · rintro (h' | h') <;> [constructor <;> linarith; linarith]
    · rintro h'; exact absurd h' c1

theorem cos_lt_one {x : ℝ} (h0 : 0 < x) (h1 : x ≤ Real.pi) : Real.cos x < 1 := by
  have := Real.cos_lt_cos_of_nonneg_of_le_pi le_rfl h1 h0
  rwa [Real.cos_zero] at this

theorem cosc_pos : 0 < 1 - Real.cos (157079633 / 100000000) := by
  have := cos_lt_one (x := 157079633 / 100000000) (by norm_num) (by linarith [Real.pi_gt_d2])
  linarith

theorem cos_scaled_le {a b : ℝ} (ha : 0 ≤ a) (hab : a ≤ b) (hb : b ≤ 1) :
    Real.cos (b * (157079633 / 100000000)) ≤ Real.cos (a * (157079633 / 100000000)) := by
  apply Real.cos_le_cos_of_nonneg_of_le_pi
  · positivity
  · nlinarith [Real.pi_gt_d2]
  · nlinarith

theorem curveFn_odd (c) (u : ℝ) : curveFn c (-u) = -curveFn c u := by
  cases c <;> simp only [curveFn]
  · simp
  · rcases lt_trichotomy u 0 with h | h | h
    · rw [if_pos (by linarith), if_neg (by linarith)]; ring
    · subst h; simp
    · rw [if_neg (by linarith), if_pos h.le]; ring
  · ring
  · rcases lt_trichotomy u 0 with h | h | h
    · rw [if_pos (by linarith), if_neg (by linarith)]; ring
    · subst h; simp
    · rw [if_neg (by linarith), if_pos h.le]; simp
  · rcases lt_trichotomy u 0 with h | h | h
    · rw [if_pos (show -u ≥ 0 by linarith), if_neg (show ¬ u ≥ 0 by linarith)]
      by_cases h' : u ≤ -1
      · rw [if_pos (show -u ≥ 1 by linarith), if_pos h']; simp
      · rw [if_neg (show ¬ -u ≥ 1 by linarith), if_neg h']; ring
    · subst h; norm_num
    · rw [if_neg (show ¬ -u ≥ 0 by linarith), if_pos (show u ≥ 0 from h.le)]
      by_cases h' : u ≥ 1
      · rw [if_pos (show -u ≤ -1 by linarith), if_pos h']
      · rw [if_neg (show ¬ -u ≤ -1 by linarith), if_neg h', neg_neg]; ring
  · simp

theorem curveFn_mono (c) : Monotone (curveFn c) := by
  apply monotone_of_odd_of_monotoneOn_nonneg (curveFn_odd c)
  intro a ha b hb hab
  have ha : 0 ≤ a := ha
  have hb : 0 ≤ b := hb
  cases c <;> simp only [curveFn, ge_iff_le, ha, hb, if_true, le_refl]
  · exact hab
  · nlinarith
  · exact mul_le_mul (mul_le_mul hab hab ha hb) hab ha (by positivity)
  · have := Real.rpow_le_rpow_of_exponent_le (x := 2) one_le_two hab
    linarith
  · by_cases hb1 : 1 ≤ b
    · rw [if_pos hb1]
      by_cases ha1 : 1 ≤ a
      · rw [if_pos ha1]
      · rw [if_neg ha1, div_le_one cosc_pos]
        have := cos_scaled_le ha (not_le.1 ha1).le le_rfl
        rw [one_mul] at this
        linarith
    · rw [if_neg hb1, if_neg (by linarith)]
      apply div_le_div_of_nonneg_right _ cosc_pos.le
      have := cos_scaled_le ha hab (not_le.1 hb1).le
      linarith

theorem curveFn_one (c) (hc : c ≠ .Zero) (hc' : c ≠ Undefined) : curveFn c 1 = 1 := by
  cases c <;> simp [curveFn] at * ; norm_num

theorem curveFn_pos (c) (hc : c ≠ .Zero) (hc' : c ≠ Undefined) (u : ℝ) (hu : 0 < u) :
    0 < curveFn c u := by
  cases c <;> simp only [curveFn, ge_iff_le, hu.le, if_true] <;> try contradiction
  · exact hu
  · positivity
  · positivity
  · have := Real.one_lt_rpow (x := 2) one_lt_two hu
    linarith
  · split_ifs with h
    · norm_num
    · apply div_pos _ cosc_pos
      have := cos_lt_one (x := u * (157079633 / 100000000))
        (by positivity) (by nlinarith [Real.pi_gt_d2])
      linarith

theorem curveFn_eq_zero (c) (hc : c ≠ .Zero) (hc' : c ≠ Undefined) (u : ℝ) :
    curveFn c u = 0 ↔ u = 0 := by
  constructor
  · intro h
    rcases lt_trichotomy u 0 with hu | hu | hu
    · have := curveFn_pos c hc hc' (-u) (by linarith)
      rw [curveFn_odd] at this; linarith
    · exact hu
    · have := curveFn_pos c hc hc' u hu; linarith
  · rintro rfl
    have := curveFn_odd c 0
    simp at this
    linarith

/-! ## The property -/

/-- Zero exactly on the dead zone. -/
theorem C08_deadzone (v thr : ℝ) (h0 : 0 ≤ thr) (h1 : thr < 1) (c : ResponseCurveType)
    (hc : c ≠ .Zero) (hc' : c ≠ Undefined) :
    evaluate v thr c = .ok 0 ↔ |v| ≤ thr := by
  rw [evaluate_eq v thr h0 h1 c hc', Except.ok.injEq, curveFn_eq_zero c hc hc',
    rescale_eq_zero v thr h0 h1]

/-- Odd, monotone, `[-1,1]` into itself, `±1` to `±1`; always returns a value. -/
theorem C08_shape (thr : ℝ) (h0 : 0 ≤ thr) (h1 : thr < 1) (c : ResponseCurveType)
    (hc' : c ≠ Undefined) :
    ∃ f : ℝ → ℝ, (∀ v, evaluate v thr c = .ok (f v)) ∧ (∀ v, f (-v) = -f v) ∧ Monotone f ∧
      (∀ v, |v| ≤ 1 → |f v| ≤ 1) ∧ (c ≠ .Zero → f 1 = 1 ∧ f (-1) = -1) ∧
      (c = .Zero → ∀ v, f v = 0) := by
  refine ⟨fun v => curveFn c (rescale v thr), fun v => evaluate_eq v thr h0 h1 c hc', ?_, ?_, ?_,
    ?_, ?_⟩
  · intro v; simp only [rescale_neg v thr h0, curveFn_odd]
  · exact (curveFn_mono c).comp (rescale_mono thr h0 h1)
  · have hf1 : curveFn c (rescale 1 thr) ≤ 1 := by
      rw [rescale_one thr h0 h1]
      by_cases hc : c = .Zero
      · subst hc; simp [curveFn]
      · rw [curveFn_one c hc hc']
    have mono := (curveFn_mono c).comp (rescale_mono thr h0 h1)
    intro v hv
    rw [abs_le] at *
    have hu := mono hv.2
    have hl := mono hv.1
    simp only [Function.comp, rescale_neg _ thr h0, curveFn_odd] at hu hl
    constructor <;> linarith
  · intro hc
    simp only [rescale_neg _ thr h0, rescale_one thr h0 h1, curveFn_odd, curveFn_one c hc hc',
      and_self]
  · rintro rfl v; rfl

/-- Closed forms: with `u = (v - thr)/(1 - thr)` for `v > thr`, the curves are `u`, `u^2`, `u^3`,
`2^u - 1` and (up to `u = 1`) `(1 - cos(c*u))/(1 - cos c)`. -/
theorem C08_formula (v thr : ℝ) (h0 : 0 ≤ thr) (h1 : thr < 1) (hv : thr < v) (u : ℝ)
    (hu : u * (1 - thr) = v - thr) :
    evaluate v thr Linear = .ok u ∧ evaluate v thr Parabolic = .ok (u ^ 2) ∧
    evaluate v thr Cubic = .ok (u ^ 3) ∧ evaluate v thr Exponential = .ok ((2 : ℝ) ^ u - 1) ∧
    (v < 1 → evaluate v thr Cosine =
      .ok ((1 - Real.cos (1.57079633 * u)) / (1 - Real.cos 1.57079633))) := by
  have hp : 0 < 1 - thr := by linarith
  have e : rescale v thr = u := by
    rw [rescale_nonneg_eq v thr h0 (by linarith), max_eq_right (by linarith), ← hu]
    field_simp
  have hu0 : 0 ≤ u := by
    have : 0 < u * (1 - thr) := by linarith
    exact (pos_of_mul_pos_left this hp.le).le
  refine ⟨?_, ?_, ?_, ?_, ?_⟩
  · rw [evaluate_eq v thr h0 h1 _ (by decide), e]; rfl
  · rw [evaluate_eq v thr h0 h1 _ (by decide), e]; simp only [curveFn, ge_iff_le, hu0, if_true]
    ring_nf
  · rw [evaluate_eq v thr h0 h1 _ (by decide), e]; simp only [curveFn]; ring_nf
  · rw [evaluate_eq v thr h0 h1 _ (by decide), e]; simp only [curveFn, ge_iff_le, hu0, if_true]
  · intro hv1
    have hu1 : ¬ (1 ≤ u) := by
      intro h
      nlinarith
    rw [evaluate_eq v thr h0 h1 _ (by decide), e]
    simp only [curveFn, ge_iff_le, hu0, if_true, hu1, if_false]
    norm_num [mul_comm]

/-- The assertions fire exactly outside the documented domain. -/
theorem C08_assert (v thr : ℝ) (c : ResponseCurveType) :
    (∃ e, evaluate v thr c = .error e) ↔ ¬ (0 ≤ thr ∧ thr < 1) ∨ c = Undefined := by
  by_cases h : 0 ≤ thr ∧ thr < 1
  · by_cases hc : c = Undefined
    · subst hc; simp [evaluate]
    · rw [evaluate_eq v thr h.1 h.2 c hc]; simp [h, hc]
  · have : ¬ (thr ≥ 0 ∧ thr < 1) := h
    simp only [evaluate, this, not_false_eq_true, if_true, true_or, iff_true]
    exact ⟨_, rfl⟩

example : (0 : ℝ) ≤ 1 / 4 ∧ (1 / 4 : ℝ) < 1 ∧ (1 / 4 : ℝ) < 1 / 2 := by norm_num

end MathLib
