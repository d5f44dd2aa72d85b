import Verif.Model.Interpolation
import Verif.Spec.RealInst
import Mathlib.Analysis.Convex.SpecificFunctions.Basic
import Mathlib.Analysis.Real.Pi.Bounds
import Mathlib.Tactic.Linarith
import Mathlib.Tactic.Ring
import Mathlib.Tactic.FieldSimp
import Mathlib.Tactic.NormNum

/-! # Easing families: every mode is an "in" shape, its dual, or the in/out gluing -/

namespace MathLib
open InterpolationMode

/-- The three ways an ease curve is made from its "in" function. -/
inductive EaseKind | inn | out | inOut
  deriving DecidableEq

def easeKind : InterpolationMode → EaseKind
  | QuadraticOut | CubicOut | QuarticOut | QuinticOut | SinusoidalOut | ExponentialOut
  | Exponential2Out | CircularOut => .out
  | QuadraticInOut | CubicInOut | QuarticInOut | QuinticInOut | SinusoidalInOut | ExponentialInOut
  | Exponential2InOut | CircularInOut => .inOut
  | _ => .inn

noncomputable def easeBase : InterpolationMode → ℝ → ℝ
  | Linear => fun t => t
  | Parabolic | QuadraticIn | QuadraticOut | QuadraticInOut => fun t => t ^ 2
  | .Cubic | CubicIn | CubicOut | CubicInOut => fun t => t ^ 3
  | QuarticIn | QuarticOut | QuarticInOut => fun t => t ^ 4
  | QuinticIn | QuinticOut | QuinticInOut => fun t => t ^ 5
  | .Exponential => fun t => (2 : ℝ) ^ t - 1
  | Cosine | SinusoidalIn | SinusoidalOut | SinusoidalInOut =>
    fun t => 1 - Real.cos (t * (Real.pi / 2))
  | ExponentialIn | ExponentialOut | ExponentialInOut =>
    fun t => ((2 : ℝ) ^ (10 * (t - 1)) - 2097153 / 2147483648) * (8396829 / 8388608)
  | Exponential2In | Exponential2Out | Exponential2InOut => fun t => (2 : ℝ) ^ (20 * (t - 1))
  | CircularIn | CircularOut | CircularInOut => fun t => 1 - √(1 - t ^ 2)

noncomputable def easeShape (k : EaseKind) (g : ℝ → ℝ) (t : ℝ) : ℝ :=
  match k with
  | .inn => g t
  | .out => 1 - g (1 - t)
  | .inOut => if t < 1 / 2 then g (2 * t) / 2 else 1 - g (2 - 2 * t) / 2

theorem switch_eq_shape (t : ℝ) (m : InterpolationMode) :
    interpolationSwitch t m = easeShape (easeKind m) (easeBase m) t := by
  cases m <;> simp only [interpolationSwitch, easeShape, easeKind, easeBase, real_pow, real_cos,
    real_sin, real_sqrt, real_pi, piOver2, POW_2_M10, INV_POW]
  case QuadraticInOut => split_ifs <;> ring
  case CubicInOut => split_ifs <;> ring
  case QuarticInOut => split_ifs <;> ring
  case QuinticInOut => split_ifs <;> ring
  case SinusoidalIn => ring_nf
  case Cosine => ring_nf
  case SinusoidalOut =>
    rw [show (1 - t) * (Real.pi / 2) = Real.pi / 2 - t * (Real.pi * (1 / 2)) by ring,
      Real.cos_pi_div_two_sub]; ring
  case SinusoidalInOut =>
    split_ifs
    · rw [show 2 * t * (Real.pi / 2) = t * Real.pi by ring]; ring
    · rw [show (2 - 2 * t) * (Real.pi / 2) = Real.pi - t * Real.pi by ring, Real.cos_pi_sub]; ring
  case ExponentialOut =>
    rw [show (10 : ℝ) * (1 - t - 1) = -10 * t by ring]
  case ExponentialInOut =>
    split_ifs
    · rw [show (10 : ℝ) * (2 * t - 1) = 20 * t - 10 by ring]; norm_num; ring
    · rw [show (10 : ℝ) * (2 - 2 * t - 1) = 10 - 20 * t by ring]; norm_num; ring
  case Exponential2Out => ring_nf
  case Exponential2InOut =>
    split_ifs
    · rw [show (20 : ℝ) * (2 * t - 1) = 40 * t - 20 by ring]; ring
    · rw [show (20 : ℝ) * (2 - 2 * t - 1) = 20 - 40 * t by ring]; ring
  case CircularIn => ring_nf
  case CircularOut => rw [show 1 - (1 - t) ^ 2 = 1 - (t - 1) * (t - 1) by ring]; ring
  case CircularInOut =>
    split_ifs
    · rw [show 1 - (2 * t) ^ 2 = 1 - 4 * t * t by ring]; ring
    · rw [show 1 - (2 - 2 * t) ^ 2 = 1 - (4 * t - 8) * t - 4 by ring]; ring
  all_goals ring

/-- modes built on the flawed exponential family (`POW_2_M10`, `INV_POW_…` rounded constants) -/
def InterpolationMode.isExp10 : InterpolationMode → Bool
  | ExponentialIn | ExponentialOut | ExponentialInOut => true
  | _ => false

theorem easeBase_mono (m : InterpolationMode) : MonotoneOn (easeBase m) (Set.Icc 0 1) := by
  have two : ∀ a b : ℝ, a ≤ b → (2 : ℝ) ^ a ≤ (2 : ℝ) ^ b := fun a b h =>
    Real.rpow_le_rpow_of_exponent_le one_le_two h
  have hpow : ∀ n : ℕ, MonotoneOn (fun t : ℝ => t ^ n) (Set.Icc 0 1) := fun n a ha b hb hab =>
    pow_le_pow_left₀ ha.1 hab n
  have hcos : MonotoneOn (fun t : ℝ => 1 - Real.cos (t * (Real.pi / 2))) (Set.Icc 0 1) := by
    intro a ha b hb hab
    have hp := Real.pi_pos
    have := Real.cos_le_cos_of_nonneg_of_le_pi (x := a * (Real.pi / 2)) (y := b * (Real.pi / 2))
      (mul_nonneg ha.1 (by positivity)) (by nlinarith [hb.2]) (by nlinarith)
    simp only; linarith
  have hcirc : MonotoneOn (fun t : ℝ => 1 - √(1 - t ^ 2)) (Set.Icc 0 1) := by
    intro a ha b hb hab
    have : √(1 - b ^ 2) ≤ √(1 - a ^ 2) := Real.sqrt_le_sqrt (by nlinarith [ha.1, hb.2])
    simp only; linarith
  have hexp : MonotoneOn (fun t : ℝ => ((2 : ℝ) ^ (10 * (t - 1)) - 2097153 / 2147483648) * (8396829 / 8388608))
      (Set.Icc 0 1) := by
    intro a ha b hb hab
    have := two (10 * (a - 1)) (10 * (b - 1)) (by linarith)
    simp only
    apply mul_le_mul_of_nonneg_right _ (by norm_num)
    linarith
  have hexp2 : MonotoneOn (fun t : ℝ => (2 : ℝ) ^ (20 * (t - 1))) (Set.Icc 0 1) :=
    fun a ha b hb hab => two _ _ (by linarith)
  cases m <;> simp only [easeBase] <;>
    first | exact hpow _ | exact hcos | exact hcirc | exact hexp | exact hexp2 | skip
  · exact fun a ha b hb hab => hab
  · intro a ha b hb hab
    have := two a b hab
    simp only; linarith

theorem easeBase_one (m : InterpolationMode) (hm : m.isExp10 = false) : easeBase m 1 = 1 := by
  cases m <;> simp [easeBase, InterpolationMode.isExp10] at * ; norm_num

theorem easeBase_zero (m : InterpolationMode) (hm : m.isExp10 = false) : 0 ≤ easeBase m 0 := by
  cases m <;> simp [easeBase, InterpolationMode.isExp10] at *

theorem easeBase_range (m : InterpolationMode) (hm : m.isExp10 = false) (t : ℝ)
    (ht : t ∈ Set.Icc (0 : ℝ) 1) : easeBase m t ∈ Set.Icc (0 : ℝ) 1 := by
  constructor
  · exact (easeBase_zero m hm).trans (easeBase_mono m ⟨le_rfl, zero_le_one⟩ ht ht.1)
  · have := easeBase_mono m ht ⟨zero_le_one, le_rfl⟩ ht.2
    rwa [easeBase_one m hm] at this

/-- gluing: if the base is monotone and has values in `[lo,hi]`, so has the shape -/
theorem easeShape_range (k : EaseKind) (g : ℝ → ℝ) (e : ℝ) (he : 0 ≤ e)
    (hg : ∀ t ∈ Set.Icc (0 : ℝ) 1, g t ∈ Set.Icc (-e) (1 + e)) (t : ℝ) (ht : t ∈ Set.Icc (0 : ℝ) 1) :
    easeShape k g t ∈ Set.Icc (-e) (1 + e) := by
  cases k <;> simp only [easeShape]
  · exact hg t ht
  · have := hg (1 - t) ⟨by linarith [ht.2], by linarith [ht.1]⟩
    exact ⟨by linarith [this.2], by linarith [this.1]⟩
  · split_ifs with h
    · have := hg (2 * t) ⟨by linarith [ht.1], by linarith⟩
      exact ⟨by linarith [this.1], by linarith [this.2]⟩
    · have := hg (2 - 2 * t) ⟨by linarith [ht.2], by linarith⟩
      exact ⟨by linarith [this.2], by linarith [this.1]⟩

theorem easeShape_mono (k : EaseKind) (g : ℝ → ℝ) (hg : MonotoneOn g (Set.Icc 0 1))
    (h1 : k = .inOut → g 1 ≤ 1) : MonotoneOn (easeShape k g) (Set.Icc 0 1) := by
  intro a ha b hb hab
  cases k <;> simp only [easeShape]
  · exact hg ha hb hab
  · have := hg (a := 1 - b) (b := 1 - a) ⟨by linarith [hb.2], by linarith [hb.1]⟩
      ⟨by linarith [ha.2], by linarith [ha.1]⟩ (by linarith)
    linarith
  · have h1 := h1 rfl
    by_cases hb' : b < 1 / 2
    · rw [if_pos hb', if_pos (by linarith)]
      have := hg (a := 2 * a) (b := 2 * b) ⟨by linarith [ha.1], by linarith⟩
        ⟨by linarith [hb.1], by linarith⟩ (by linarith)
      linarith
    · rw [if_neg hb']
      by_cases ha' : a < 1 / 2
      · rw [if_pos ha']
        have i1 := hg (a := 2 * a) (b := 1) ⟨by linarith [ha.1], by linarith⟩
          ⟨by linarith, by linarith⟩ (by linarith)
        have i2 := hg (a := 2 - 2 * b) (b := 1) ⟨by linarith [hb.2], by linarith⟩
          ⟨by linarith, by linarith⟩ (by linarith)
        linarith
      · rw [if_neg ha']
        have := hg (a := 2 - 2 * b) (b := 2 - 2 * a) ⟨by linarith [hb.2], by linarith⟩
          ⟨by linarith [ha.2], by linarith⟩ (by linarith)
        linarith

theorem two_rpow_le {x : ℝ} (h0 : 0 ≤ x) (h1 : x ≤ 1) : (2 : ℝ) ^ x ≤ 1 + x := by
  have := rpow_one_add_le_one_add_mul_self (s := 1) (by norm_num) h0 h1
  norm_num at this
  exact this

theorem two_rpow_neg_ge {x : ℝ} (h0 : 0 ≤ x) (h1 : x ≤ 1) : 1 - x ≤ (2 : ℝ) ^ (-x) := by
  rw [Real.rpow_neg (by norm_num)]
  have h := two_rpow_le h0 h1
  have hp : (0 : ℝ) < 2 ^ x := Real.rpow_pos_of_pos (by norm_num) x
  have : (1 + x)⁻¹ ≤ (2 ^ x : ℝ)⁻¹ := inv_anti₀ hp h
  refine le_trans ?_ this
  rw [← one_div, le_div_iff₀ (by linarith)]; nlinarith

theorem exp10Base_range (t : ℝ) (ht : t ∈ Set.Icc (0 : ℝ) 1) :
    ((2 : ℝ) ^ (10 * (t - 1)) - 2097153 / 2147483648) * (8396829 / 8388608) ∈
      Set.Icc (-(3e-6) : ℝ) (1 + 3e-6) := by
  have h0 : (2 : ℝ) ^ (10 * ((0 : ℝ) - 1)) ≤ (2 : ℝ) ^ (10 * (t - 1)) :=
    Real.rpow_le_rpow_of_exponent_le one_le_two (by linarith [ht.1])
  have h1 : (2 : ℝ) ^ (10 * (t - 1)) ≤ (2 : ℝ) ^ (10 * ((1 : ℝ) - 1)) :=
    Real.rpow_le_rpow_of_exponent_le one_le_two (by linarith [ht.2])
  have e0 : (2 : ℝ) ^ (10 * ((0 : ℝ) - 1)) = 1 / 1024 := by
    rw [show (10 : ℝ) * ((0 : ℝ) - 1) = -((10 : ℕ) : ℝ) by norm_num, Real.rpow_neg (by norm_num),
      Real.rpow_natCast]; norm_num
  rw [e0] at h0
  norm_num at h1
  constructor <;> norm_num <;> linarith

end MathLib
