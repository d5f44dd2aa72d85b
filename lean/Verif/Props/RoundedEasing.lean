import Verif.Props.Interp
import Verif.Proof.Apx
import Verif.Proof.RneTie
import Mathlib.Analysis.SpecialFunctions.Trigonometric.Bounds
import Mathlib.Analysis.Real.Pi.Bounds
import Verif.Spec.FloatReal

/-! # Property C154: easing in floating point -/

namespace MathLib
open InterpolationMode

/-- What the easing modes need of the rounding: it keeps the order, is symmetric, and leaves powers of two and their
fivefold alone. -/
structure OrderlyRnd (rnd : ℝ → ℝ) : Prop where
  mono : Monotone rnd
  neg : ∀ x, rnd (-x) = -rnd x
  pow : ∀ k : ℤ, rnd (2 ^ k) = 2 ^ k
  five : ∀ k : ℤ, rnd (5 * 2 ^ k) = 5 * 2 ^ k

/-- The modes which are computed by steps that keep the order one by one. -/
def InterpolationMode.stepwise (m : InterpolationMode) : Prop :=
  m = Linear ∨ m = Parabolic ∨ m = Cubic ∨ m = QuadraticIn ∨ m = CubicIn ∨ m = QuarticIn ∨ m = QuinticIn ∨
  m = QuarticOut ∨ m = QuinticOut ∨ m = QuarticInOut ∨ m = QuinticInOut ∨ m = CircularIn ∨ m = CircularOut ∨
  m = Exponential ∨ m = Exponential2In ∨ m = Exponential2Out ∨ m = Exponential2InOut

namespace OrderlyRnd
variable {rnd : ℝ → ℝ} (hr : OrderlyRnd rnd)
include hr

theorem zero : rnd 0 = 0 := by have := hr.neg 0; simp at this; linarith
theorem one : rnd 1 = 1 := by have := hr.pow 0; simpa using this
theorem two : rnd 2 = 2 := by have := hr.pow 1; simpa using this
theorem four : rnd 4 = 4 := by have := hr.pow 2; norm_num at this; exact this
theorem eight : rnd 8 = 8 := by have := hr.pow 3; norm_num at this; exact this
theorem sixteen : rnd 16 = 16 := by have := hr.pow 4; norm_num at this; exact this
theorem half : rnd 2⁻¹ = 2⁻¹ := by have := hr.pow (-1); norm_num at this ⊢; exact this

/-- between fixed points -/
theorem le {x c : ℝ} (h : x ≤ c) (hc : rnd c = c) : rnd x ≤ c := hc ▸ hr.mono h
theorem ge {x c : ℝ} (h : c ≤ x) (hc : rnd c = c) : c ≤ rnd x := by
  have := hr.mono h; rwa [hc] at this
theorem nonneg {x : ℝ} (h : 0 ≤ x) : 0 ≤ rnd x := hr.ge h hr.zero

/-- one multiplication of ordered factors -/
theorem mul {a b c d A C : ℝ} (h : 0 ≤ a ∧ a ≤ b ∧ b ≤ A) (k : 0 ≤ c ∧ c ≤ d ∧ d ≤ C) (hf : rnd (A * C) = A * C) :
    0 ≤ rnd (a * c) ∧ rnd (a * c) ≤ rnd (b * d) ∧ rnd (b * d) ≤ A * C :=
  ⟨hr.nonneg (mul_nonneg h.1 k.1), hr.mono (mul_le_mul h.2.1 k.2.1 k.1 (h.1.trans h.2.1)),
    hr.le (mul_le_mul h.2.2 k.2.2 (k.1.trans k.2.1) ((h.1.trans h.2.1).trans h.2.2)) hf⟩

/-- the constants of the modes -/
theorem consts : (2 : Fl ℝ rnd) = .num 2 ∧ (4 : Fl ℝ rnd) = .num 4 ∧ (8 : Fl ℝ rnd) = .num 8 ∧
    (16 : Fl ℝ rnd) = .num 16 ∧ (1 / 2 : Fl ℝ rnd) = .num (1 / 2) := by
  have h2 : (2 : Fl ℝ rnd) = .num 2 := by
    rw [Fl.ofNat_def]; norm_num [hr.two]
  refine ⟨h2, ?_, ?_, ?_, ?_⟩
  · rw [Fl.ofNat_def]; norm_num [hr.four]
  · rw [Fl.ofNat_def]; norm_num [hr.eight]
  · rw [Fl.ofNat_def]; norm_num [hr.sixteen]
  · rw [h2, Fl.one_def, Fl.num_div, if_neg (by norm_num)]
    have := hr.half
    norm_num at this ⊢; exact this

omit hr in
theorem le_zero {t : ℝ} : (.num t : Fl ℝ rnd) ≤ 0 ↔ t ≤ 0 := Fl.num_le _ _
omit hr in
theorem ge_one {t : ℝ} : (.num t : Fl ℝ rnd) ≥ 1 ↔ 1 ≤ t := Fl.num_le _ _
theorem lt_half {t : ℝ} : (.num t : Fl ℝ rnd) < 1 / 2 ↔ t < 1 / 2 := by
  rw [hr.consts.2.2.2.2]; exact Fl.num_lt _ _

omit hr in
theorem ratio_nonpos {t : ℝ} (h : t ≤ 0) (m : InterpolationMode) :
    interpolationRatio (.num t : Fl ℝ rnd) m = .num 0 := by
  rw [interpolationRatio, if_pos (le_zero.2 h)]; rfl
omit hr in
theorem ratio_ge {t : ℝ} (h : 1 ≤ t) (m : InterpolationMode) :
    interpolationRatio (.num t : Fl ℝ rnd) m = .num 1 := by
  rw [interpolationRatio, if_neg (fun h' => absurd (le_zero.1 h') (by linarith)), if_pos (ge_one.2 h)]
  rfl
omit hr in
theorem ratio_mid {t : ℝ} (h0 : 0 < t) (h1 : t < 1) (m : InterpolationMode) :
    interpolationRatio (.num t : Fl ℝ rnd) m = interpolationSwitch (.num t) m := by
  rw [interpolationRatio, if_neg (fun h' => absurd (le_zero.1 h') (by linarith)),
    if_neg (fun h' => absurd (ge_one.1 h') (by linarith))]

omit hr in
/-- the results for `a ≤ b` are numbers in `[lo,hi]`, in this order -/
def Step (rnd : ℝ → ℝ) (m : InterpolationMode) (a b lo hi : ℝ) : Prop :=
  ∃ x y, interpolationSwitch (.num a : Fl ℝ rnd) m = .num x ∧ interpolationSwitch (.num b : Fl ℝ rnd) m = .num y ∧
    lo ≤ x ∧ x ≤ y ∧ y ≤ hi

omit hr in
theorem Step.glue {m : InterpolationMode} (lo : ∀ a b, 0 < a → a ≤ b → b < 1 / 2 → Step rnd m a b 0 (1 / 2))
    (hi : ∀ a b, 1 / 2 ≤ a → a ≤ b → b < 1 → Step rnd m a b (1 / 2) 1) {a b : ℝ} (ha : 0 < a) (hab : a ≤ b) (hb : b < 1) :
    Step rnd m a b 0 1 := by
  rcases lt_or_ge b (1 / 2) with h | h
  · obtain ⟨x, y, h1, h2, h3, h4, h5⟩ := lo a b ha hab h
    exact ⟨x, y, h1, h2, h3, h4, by linarith⟩
  rcases lt_or_ge a (1 / 2) with h' | h'
  · obtain ⟨x, x', h1, h2, h3, h4, h5⟩ := lo a a ha le_rfl h'
    obtain ⟨y, y', k1, k2, k3, k4, k5⟩ := hi b b h le_rfl hb
    exact ⟨x, y, h1, k1, h3, by linarith, by linarith⟩
  · obtain ⟨x, y, h1, h2, h3, h4, h5⟩ := hi a b h' hab hb
    exact ⟨x, y, h1, h2, by linarith, h4, h5⟩


/-- powers of ordered numbers in `[0,1]` -/
theorem powers {a b : ℝ} (h : 0 ≤ a ∧ a ≤ b ∧ b ≤ 1) :
    (0 ≤ rnd (a * a) ∧ rnd (a * a) ≤ rnd (b * b) ∧ rnd (b * b) ≤ 1) ∧
    (0 ≤ rnd (rnd (a * a) * a) ∧ rnd (rnd (a * a) * a) ≤ rnd (rnd (b * b) * b) ∧ rnd (rnd (b * b) * b) ≤ 1) ∧
    (0 ≤ rnd (rnd (rnd (a * a) * a) * a) ∧ rnd (rnd (rnd (a * a) * a) * a) ≤ rnd (rnd (rnd (b * b) * b) * b) ∧
      rnd (rnd (rnd (b * b) * b) * b) ≤ 1) ∧
    (0 ≤ rnd (rnd (rnd (rnd (a * a) * a) * a) * a) ∧
      rnd (rnd (rnd (rnd (a * a) * a) * a) * a) ≤ rnd (rnd (rnd (rnd (b * b) * b) * b) * b) ∧
      rnd (rnd (rnd (rnd (b * b) * b) * b) * b) ≤ 1) := by
  have f : rnd (1 * 1) = 1 * 1 := by simpa using hr.one
  have e : (1 : ℝ) * 1 = 1 := one_mul 1
  have h2 := hr.mul h h f
  rw [e] at h2
  have h3 := hr.mul h2 h f
  rw [e] at h3
  have h4 := hr.mul h3 h f
  rw [e] at h4
  have h5 := hr.mul h4 h f
  rw [e] at h5
  exact ⟨h2, h3, h4, h5⟩

/-- the lower halves: `c` times a power of numbers below one half -/
theorem lower {a b A : ℝ} (h : 0 ≤ a ∧ a ≤ b ∧ b ≤ A) {c d : ℝ} (k : 0 ≤ c ∧ c ≤ d ∧ d ≤ 1 / 2) (i : ℤ) (hA : A = 2 ^ i) :
    0 ≤ rnd (a * c) ∧ rnd (a * c) ≤ rnd (b * d) ∧ rnd (b * d) ≤ A / 2 := by
  have e : A * (1 / 2) = 2 ^ (i - 1) := by rw [hA, zpow_sub_one₀ two_ne_zero]; norm_num
  have := hr.mul h k (by rw [e]; exact hr.pow _)
  rwa [mul_one_div] at this

/-- the distance from the upper end, for the modes that are mirrored there -/
theorem upper {a b : ℝ} (ha : 1 / 2 ≤ a) (hab : a ≤ b) (hb : b < 1) :
    (0 ≤ rnd (2 - rnd (2 * b)) ∧ rnd (2 - rnd (2 * b)) ≤ rnd (2 - rnd (2 * a)) ∧ rnd (2 - rnd (2 * a)) ≤ 1) ∧
    ∀ x, rnd (rnd (2 * x) - 2) = -rnd (2 - rnd (2 * x)) := by
  have h1 : 1 ≤ rnd (2 * a) := hr.ge (by linarith) hr.one
  have h2 : rnd (2 * a) ≤ rnd (2 * b) := hr.mono (by linarith)
  have h3 : rnd (2 * b) ≤ 2 := hr.le (by linarith) hr.two
  refine ⟨⟨hr.nonneg (by linarith), hr.mono (by linarith), hr.le (by linarith) hr.one⟩, fun x => ?_⟩
  rw [← hr.neg]; congr 1; ring

/-- the same for the modes that are mirrored on the whole interval -/
theorem outer {a b : ℝ} (ha : 0 < a) (hab : a ≤ b) (hb : b < 1) :
    (0 ≤ rnd (1 - b) ∧ rnd (1 - b) ≤ rnd (1 - a) ∧ rnd (1 - a) ≤ 1) ∧ ∀ x, rnd (x - 1) = -rnd (1 - x) := by
  refine ⟨⟨hr.nonneg (by linarith), hr.mono (by linarith), hr.le (by linarith) hr.one⟩, fun x => ?_⟩
  rw [← hr.neg]; congr 1; ring

theorem quarticInOut {a b : ℝ} (ha : 0 < a) (hab : a ≤ b) (hb : b < 1) : Step rnd QuarticInOut a b 0 1 := by
  refine Step.glue ?_ ?_ ha hab hb
  · intro a b ha hab hb
    have l0 := hr.lower (a := 8) (b := 8) (A := 8) ⟨by norm_num, le_rfl, le_rfl⟩ ⟨ha.le, hab, hb.le⟩ 3 (by norm_num)
    have l1 := hr.lower l0 ⟨ha.le, hab, hb.le⟩ 2 (by norm_num)
    have l2 := hr.lower l1 ⟨ha.le, hab, hb.le⟩ 1 (by norm_num)
    have l3 := hr.lower l2 ⟨ha.le, hab, hb.le⟩ 0 (by norm_num)
    have ev : ∀ x, x < 1 / 2 → interpolationSwitch (.num x : Fl ℝ rnd) QuarticInOut =
        .num (rnd (rnd (rnd (rnd (8 * x) * x) * x) * x)) := fun x hx => by
      simp only [interpolationSwitch]
      rw [if_pos (hr.lt_half.2 hx), hr.consts.2.2.1]
      rfl
    exact ⟨_, _, ev _ (hab.trans_lt hb), ev _ hb, l3.1, l3.2.1, l3.2.2.trans (by norm_num)⟩
  · intro a b ha hab hb
    obtain ⟨k, hk⟩ := hr.upper ha hab hb
    obtain ⟨-, -, l, -⟩ := hr.powers k
    have ev : ∀ x, 1 / 2 ≤ x → interpolationSwitch (.num x : Fl ℝ rnd) QuarticInOut =
        .num (rnd (1 / 2 * rnd (2 - rnd (rnd (rnd (rnd (2 - rnd (2 * x)) * rnd (2 - rnd (2 * x))) *
          rnd (2 - rnd (2 * x))) * rnd (2 - rnd (2 * x)))))) := fun x hx => by
      simp only [interpolationSwitch]
      rw [if_neg (fun h => absurd (hr.lt_half.1 h) (by linarith)), hr.consts.2.2.2.2, hr.consts.1]
      simp only [Fl.num_mul, Fl.num_sub, Fl.num_neg, hk, neg_mul, mul_neg, neg_neg, hr.neg]
      rw [← hr.neg, ← mul_neg, ← hr.neg, neg_sub]
    refine ⟨_, _, ev _ ha, ev _ (ha.trans hab), ?_, ?_, ?_⟩
    · have := hr.ge (x := 2 - _) (c := 1) (by linarith only [l.2.2]) hr.one
      exact hr.ge (by linarith only [this]) (by simpa using hr.half)
    · refine hr.mono (mul_le_mul_of_nonneg_left (hr.mono ?_) (by norm_num))
      linarith only [l.2.1]
    · have := hr.le (x := 2 - _) (c := 2) (by linarith only [l.1]) hr.two
      exact hr.le (by linarith only [this]) hr.one

theorem quinticInOut {a b : ℝ} (ha : 0 < a) (hab : a ≤ b) (hb : b < 1) : Step rnd QuinticInOut a b 0 1 := by
  refine Step.glue ?_ ?_ ha hab hb
  · intro a b ha hab hb
    have l0 := hr.lower (a := 16) (b := 16) (A := 16) ⟨by norm_num, le_rfl, le_rfl⟩ ⟨ha.le, hab, hb.le⟩ 4 (by norm_num)
    have l1 := hr.lower l0 ⟨ha.le, hab, hb.le⟩ 3 (by norm_num)
    have l2 := hr.lower l1 ⟨ha.le, hab, hb.le⟩ 2 (by norm_num)
    have l3 := hr.lower l2 ⟨ha.le, hab, hb.le⟩ 1 (by norm_num)
    have l4 := hr.lower l3 ⟨ha.le, hab, hb.le⟩ 0 (by norm_num)
    have ev : ∀ x, x < 1 / 2 → interpolationSwitch (.num x : Fl ℝ rnd) QuinticInOut =
        .num (rnd (rnd (rnd (rnd (rnd (16 * x) * x) * x) * x) * x)) := fun x hx => by
      simp only [interpolationSwitch]
      rw [if_pos (hr.lt_half.2 hx), hr.consts.2.2.2.1]
      rfl
    exact ⟨_, _, ev _ (hab.trans_lt hb), ev _ hb, l4.1, l4.2.1, l4.2.2.trans (by norm_num)⟩
  · intro a b ha hab hb
    obtain ⟨k, hk⟩ := hr.upper ha hab hb
    obtain ⟨-, -, -, l⟩ := hr.powers k
    have ev : ∀ x, 1 / 2 ≤ x → interpolationSwitch (.num x : Fl ℝ rnd) QuinticInOut =
        .num (rnd (1 / 2 * rnd (-rnd (rnd (rnd (rnd (rnd (2 - rnd (2 * x)) * rnd (2 - rnd (2 * x))) *
          rnd (2 - rnd (2 * x))) * rnd (2 - rnd (2 * x))) * rnd (2 - rnd (2 * x))) + 2))) := fun x hx => by
      simp only [interpolationSwitch]
      rw [if_neg (fun h => absurd (hr.lt_half.1 h) (by linarith)), hr.consts.2.2.2.2, hr.consts.1]
      simp only [Fl.num_mul, Fl.num_sub, Fl.num_add, hk, neg_mul, mul_neg, neg_neg, hr.neg]
    refine ⟨_, _, ev _ ha, ev _ (ha.trans hab), ?_, ?_, ?_⟩
    · have := hr.ge (x := -_ + 2) (c := 1) (by linarith only [l.2.2]) hr.one
      exact hr.ge (by linarith only [this]) (by simpa using hr.half)
    · refine hr.mono (mul_le_mul_of_nonneg_left (hr.mono ?_) (by norm_num))
      linarith only [l.2.1]
    · have := hr.le (x := -_ + 2) (c := 2) (by linarith only [l.1]) hr.two
      exact hr.le (by linarith only [this]) hr.one

theorem quarticOut {a b : ℝ} (ha : 0 < a) (hab : a ≤ b) (hb : b < 1) : Step rnd QuarticOut a b 0 1 := by
  obtain ⟨k, hk⟩ := hr.outer ha hab hb
  obtain ⟨-, -, l, -⟩ := hr.powers k
  have ev : ∀ x, interpolationSwitch (.num x : Fl ℝ rnd) QuarticOut =
      .num (rnd (-rnd (rnd (rnd (rnd (1 - x) * rnd (1 - x)) * rnd (1 - x)) * rnd (1 - x)) + 1)) := fun x => by
    simp only [interpolationSwitch, Fl.one_def, Fl.num_mul, Fl.num_sub, Fl.num_add, Fl.num_neg, hk, neg_mul, mul_neg,
      neg_neg, hr.neg]
  refine ⟨_, _, ev _, ev _, ?_, ?_, ?_⟩
  · exact hr.nonneg (by linarith only [l.2.2])
  · exact hr.mono (by linarith only [l.2.1])
  · exact hr.le (by linarith only [l.1]) hr.one

theorem quinticOut {a b : ℝ} (ha : 0 < a) (hab : a ≤ b) (hb : b < 1) : Step rnd QuinticOut a b 0 1 := by
  obtain ⟨k, hk⟩ := hr.outer ha hab hb
  obtain ⟨-, -, -, l⟩ := hr.powers k
  have ev : ∀ x, interpolationSwitch (.num x : Fl ℝ rnd) QuinticOut =
      .num (rnd (-rnd (rnd (rnd (rnd (rnd (1 - x) * rnd (1 - x)) * rnd (1 - x)) * rnd (1 - x)) * rnd (1 - x)) + 1)) :=
    fun x => by
    simp only [interpolationSwitch, Fl.one_def, Fl.num_mul, Fl.num_sub, Fl.num_add, hk, neg_mul, mul_neg,
      neg_neg, hr.neg]
  refine ⟨_, _, ev _, ev _, ?_, ?_, ?_⟩
  · exact hr.nonneg (by linarith only [l.2.2])
  · exact hr.mono (by linarith only [l.2.1])
  · exact hr.le (by linarith only [l.1]) hr.one

/-- the square root of numbers in `[0,1]` -/
theorem sqrt {a b : ℝ} (h : 0 ≤ a ∧ a ≤ b ∧ b ≤ 1) : 0 ≤ rnd (√a) ∧ rnd (√a) ≤ rnd (√b) ∧ rnd (√b) ≤ 1 :=
  ⟨hr.nonneg (Real.sqrt_nonneg _), hr.mono (Real.sqrt_le_sqrt h.2.1),
    hr.le (Real.sqrt_le_one.2 h.2.2) hr.one⟩

theorem circularIn {a b : ℝ} (ha : 0 < a) (hab : a ≤ b) (hb : b < 1) : Step rnd CircularIn a b 0 1 := by
  obtain ⟨l, -⟩ := hr.powers ⟨ha.le, hab, hb.le⟩
  have k : 0 ≤ rnd (1 - rnd (b * b)) ∧ rnd (1 - rnd (b * b)) ≤ rnd (1 - rnd (a * a)) ∧ rnd (1 - rnd (a * a)) ≤ 1 :=
    ⟨hr.nonneg (by linarith), hr.mono (by linarith), hr.le (by linarith) hr.one⟩
  have q := hr.sqrt k
  have ev : ∀ x, 0 ≤ rnd (1 - rnd (x * x)) → interpolationSwitch (.num x : Fl ℝ rnd) CircularIn =
      .num (rnd (1 - rnd √(rnd (1 - rnd (x * x))))) := fun x hx => by
    simp only [interpolationSwitch, Fl.one_def, Fl.num_mul, Fl.num_sub, Fl.fl_sqrt, if_neg (not_lt.2 hx)]
  exact ⟨_, _, ev _ (k.1.trans k.2.1), ev _ k.1, hr.nonneg (by linarith), hr.mono (by linarith), hr.le (by linarith) hr.one⟩

theorem circularOut {a b : ℝ} (ha : 0 < a) (hab : a ≤ b) (hb : b < 1) : Step rnd CircularOut a b 0 1 := by
  obtain ⟨o, hk⟩ := hr.outer ha hab hb
  obtain ⟨l, -⟩ := hr.powers o
  have k : 0 ≤ rnd (1 - rnd (rnd (1 - a) * rnd (1 - a))) ∧ rnd (1 - rnd (rnd (1 - a) * rnd (1 - a))) ≤
      rnd (1 - rnd (rnd (1 - b) * rnd (1 - b))) ∧ rnd (1 - rnd (rnd (1 - b) * rnd (1 - b))) ≤ 1 :=
    ⟨hr.nonneg (by linarith), hr.mono (by linarith), hr.le (by linarith) hr.one⟩
  have q := hr.sqrt k
  have ev : ∀ x, 0 ≤ rnd (1 - rnd (rnd (1 - x) * rnd (1 - x))) → interpolationSwitch (.num x : Fl ℝ rnd) CircularOut =
      .num (rnd √(rnd (1 - rnd (rnd (1 - x) * rnd (1 - x))))) := fun x hx => by
    simp only [interpolationSwitch, Fl.one_def, Fl.num_mul, Fl.num_sub, hk, neg_mul, mul_neg, neg_neg, Fl.fl_sqrt,
      if_neg (not_lt.2 hx)]
  exact ⟨_, _, ev _ k.1, ev _ (k.1.trans k.2.1), q⟩

theorem big : (10 : Fl ℝ rnd) = .num 10 ∧ (20 : Fl ℝ rnd) = .num 20 ∧ (40 : Fl ℝ rnd) = .num 40 ∧ rnd 20 = 20 := by
  have h1 := hr.five 1
  have h2 := hr.five 2
  have h3 := hr.five 3
  norm_num at h1 h2 h3
  refine ⟨?_, ?_, ?_, h2⟩ <;> rw [Fl.ofNat_def] <;> norm_num [h1, h2, h3]

/-- powers of two with exponents at most 0 -/
theorem pow2 {a b : ℝ} (h : a ≤ b) (hb : b ≤ 0) :
    0 ≤ rnd (2 ^ a) ∧ rnd ((2 : ℝ) ^ a) ≤ rnd (2 ^ b) ∧ rnd ((2 : ℝ) ^ b) ≤ 1 :=
  ⟨hr.nonneg (by positivity), hr.mono (Real.rpow_le_rpow_of_exponent_le one_le_two h),
    hr.le (Real.rpow_le_one_of_one_le_of_nonpos one_le_two hb) hr.one⟩

omit hr in
theorem fl_pow2 (x : ℝ) : MathFns.pow (.num 2 : Fl ℝ rnd) (.num x) = .num (rnd (2 ^ x)) := by
  rw [Fl.fl_pow, if_neg (by norm_num)]

theorem exponential {a b : ℝ} (ha : 0 < a) (hab : a ≤ b) (hb : b < 1) : Step rnd Exponential a b 0 1 := by
  have ev : ∀ x, interpolationSwitch (.num x : Fl ℝ rnd) Exponential = .num (rnd (rnd (2 ^ x) - 1)) := fun x => by
    simp only [interpolationSwitch]
    rw [hr.consts.1, fl_pow2]; rfl
  have h1 : 1 ≤ rnd (2 ^ a) := hr.ge (Real.one_le_rpow one_le_two ha.le) hr.one
  have h2 : rnd ((2 : ℝ) ^ a) ≤ rnd (2 ^ b) := hr.mono (Real.rpow_le_rpow_of_exponent_le one_le_two hab)
  have h3 : rnd ((2 : ℝ) ^ b) ≤ 2 := hr.le (by
    have := Real.rpow_le_rpow_of_exponent_le (x := 2) one_le_two hb.le
    rwa [Real.rpow_one] at this) hr.two
  exact ⟨_, _, ev _, ev _, hr.nonneg (by linarith), hr.mono (by linarith), hr.le (by linarith) hr.one⟩

theorem exponential2In {a b : ℝ} (hab : a ≤ b) (hb : b < 1) : Step rnd Exponential2In a b 0 1 := by
  have ev : ∀ x, interpolationSwitch (.num x : Fl ℝ rnd) Exponential2In = .num (rnd (2 ^ rnd (20 * rnd (x - 1)))) :=
    fun x => by
    simp only [interpolationSwitch]
    rw [hr.consts.1, hr.big.2.1, ← fl_pow2]; rfl
  have h1 : rnd (a - 1) ≤ rnd (b - 1) := hr.mono (by linarith)
  have h2 : rnd (b - 1) ≤ 0 := hr.le (by linarith) hr.zero
  exact ⟨_, _, ev _, ev _, hr.pow2 (hr.mono (by linarith)) (hr.le (by linarith) hr.zero)⟩

theorem exponential2Out {a b : ℝ} (ha : 0 < a) (hab : a ≤ b) : Step rnd Exponential2Out a b 0 1 := by
  have ev : ∀ x, interpolationSwitch (.num x : Fl ℝ rnd) Exponential2Out = .num (rnd (1 - rnd (2 ^ rnd (-20 * x)))) :=
    fun x => by
    simp only [interpolationSwitch]
    rw [hr.consts.1, hr.big.2.1, Fl.num_neg, Fl.num_mul, fl_pow2]; rfl
  have h := hr.pow2 (a := rnd (-20 * b)) (b := rnd (-20 * a)) (hr.mono (by linarith)) (hr.le (by linarith) hr.zero)
  exact ⟨_, _, ev _, ev _, hr.nonneg (by linarith), hr.mono (by linarith), hr.le (by linarith) hr.one⟩

theorem exponential2InOut {a b : ℝ} (ha : 0 < a) (hab : a ≤ b) (hb : b < 1) : Step rnd Exponential2InOut a b 0 1 := by
  refine Step.glue ?_ ?_ ha hab hb
  · intro a b ha hab hb
    have ev : ∀ x, x < 1 / 2 → interpolationSwitch (.num x : Fl ℝ rnd) Exponential2InOut =
        .num (rnd (1 / 2 * rnd (2 ^ rnd (rnd (40 * x) - 20)))) := fun x hx => by
      simp only [interpolationSwitch]
      rw [if_pos (hr.lt_half.2 hx), hr.consts.2.2.2.2, hr.consts.1, hr.big.2.1, hr.big.2.2.1, Fl.num_mul, Fl.num_sub,
        fl_pow2, Fl.num_mul]
    have h1 : rnd (40 * a) ≤ rnd (40 * b) := hr.mono (by linarith)
    have h2 : rnd (40 * b) ≤ 20 := hr.le (by linarith) hr.big.2.2.2
    have h := hr.pow2 (a := rnd (rnd (40 * a) - 20)) (b := rnd (rnd (40 * b) - 20)) (hr.mono (by linarith))
      (hr.le (by linarith) hr.zero)
    exact ⟨_, _, ev _ (hab.trans_lt hb), ev _ hb, hr.nonneg (by linarith), hr.mono (by linarith),
      hr.le (by linarith) (by simpa using hr.half)⟩
  · intro a b ha hab hb
    have ev : ∀ x, 1 / 2 ≤ x → interpolationSwitch (.num x : Fl ℝ rnd) Exponential2InOut =
        .num (rnd (1 / 2 * rnd (2 - rnd (2 ^ rnd (20 - rnd (40 * x)))))) := fun x hx => by
      simp only [interpolationSwitch]
      rw [if_neg (fun h => absurd (hr.lt_half.1 h) (by linarith)), hr.consts.2.2.2.2, hr.consts.1, hr.big.2.1,
        hr.big.2.2.1, Fl.num_mul, Fl.num_sub, fl_pow2, Fl.num_sub, Fl.num_mul]
    have h1 : rnd (40 * a) ≤ rnd (40 * b) := hr.mono (by linarith)
    have h2 : 20 ≤ rnd (40 * a) := hr.ge (by linarith) hr.big.2.2.2
    have h := hr.pow2 (a := rnd (20 - rnd (40 * b))) (b := rnd (20 - rnd (40 * a))) (hr.mono (by linarith))
      (hr.le (by linarith) hr.zero)
    have k1 := hr.ge (x := 2 - rnd (2 ^ rnd (20 - rnd (40 * a)))) (c := 1) (by linarith) hr.one
    have k2 := hr.le (x := 2 - rnd (2 ^ rnd (20 - rnd (40 * b)))) (c := 2) (by linarith) hr.two
    have k3 := hr.mono (a := 2 - rnd (2 ^ rnd (20 - rnd (40 * a)))) (b := 2 - rnd (2 ^ rnd (20 - rnd (40 * b))))
      (by linarith)
    exact ⟨_, _, ev _ ha, ev _ (ha.trans hab), hr.ge (by linarith) (by simpa using hr.half), hr.mono (by linarith),
      hr.le (by linarith) hr.one⟩

theorem step {m : InterpolationMode} (hm : m.stepwise) {a b : ℝ} (ha : 0 < a) (hab : a ≤ b) (hb : b < 1) :
    Step rnd m a b 0 1 := by
  have l := hr.powers ⟨ha.le, hab, hb.le⟩
  rcases hm with rfl | rfl | rfl | rfl | rfl | rfl | rfl | rfl | rfl | rfl | rfl | rfl | rfl | rfl | rfl | rfl | rfl
  · exact ⟨a, b, rfl, rfl, ha.le, hab, hb.le⟩
  · exact ⟨_, _, rfl, rfl, l.1⟩
  · exact ⟨_, _, rfl, rfl, l.2.1⟩
  · exact ⟨_, _, rfl, rfl, l.1⟩
  · exact ⟨_, _, rfl, rfl, l.2.1⟩
  · exact ⟨_, _, rfl, rfl, l.2.2.1⟩
  · exact ⟨_, _, rfl, rfl, l.2.2.2⟩
  · exact hr.quarticOut ha hab hb
  · exact hr.quinticOut ha hab hb
  · exact hr.quarticInOut ha hab hb
  · exact hr.quinticInOut ha hab hb
  · exact hr.circularIn ha hab hb
  · exact hr.circularOut ha hab hb
  · exact hr.exponential ha hab hb
  · exact hr.exponential2In hab hb
  · exact hr.exponential2Out ha hab
  · exact hr.exponential2InOut ha hab hb

end OrderlyRnd

/-- from the open interval to all numbers -/
theorem OrderlyRnd.of_step {rnd : ℝ → ℝ} {m : InterpolationMode}
    (st : ∀ a b, 0 < a → a ≤ b → b < 1 → OrderlyRnd.Step rnd m a b 0 1) {s t : ℝ} (h : s ≤ t) :
    ∃ x y, interpolationRatio (.num s : Fl ℝ rnd) m = .num x ∧ interpolationRatio (.num t : Fl ℝ rnd) m = .num y ∧
      0 ≤ x ∧ x ≤ y ∧ y ≤ 1 := by
  have one : ∀ t, ∃ y, interpolationRatio (.num t : Fl ℝ rnd) m = .num y ∧ 0 ≤ y ∧ y ≤ 1 := fun t => by
    rcases le_or_gt t 0 with h0 | h0
    · exact ⟨0, OrderlyRnd.ratio_nonpos h0 m, le_rfl, zero_le_one⟩
    rcases le_or_gt 1 t with h1 | h1
    · exact ⟨1, OrderlyRnd.ratio_ge h1 m, zero_le_one, le_rfl⟩
    obtain ⟨x, y, hx, hy, h2, h3, h4⟩ := st t t h0 le_rfl h1
    exact ⟨x, by rw [OrderlyRnd.ratio_mid h0 h1, hx], h2, h3.trans h4⟩
  obtain ⟨x, hx, x0, x1⟩ := one s
  obtain ⟨y, hy, y0, y1⟩ := one t
  rcases le_or_gt s 0 with h0 | h0
  · exact ⟨0, y, OrderlyRnd.ratio_nonpos h0 m, hy, le_rfl, y0, y1⟩
  rcases le_or_gt 1 t with h1 | h1
  · exact ⟨x, 1, hx, OrderlyRnd.ratio_ge h1 m, x0, x1, le_rfl⟩
  rw [OrderlyRnd.ratio_mid h0 (h.trans_lt h1), OrderlyRnd.ratio_mid (h0.trans_le h) h1]
  exact st s t h0 h h1

/-- C154: the modes that are computed by steps which keep the order stay in [0,1] and are monotone in floating point,
whatever the rounding, as long as it keeps the order, is symmetric, and leaves powers of two and their fivefold alone. -/
theorem C154_stepwise {rnd : ℝ → ℝ} (hr : OrderlyRnd rnd) (m : InterpolationMode) (hm : m.stepwise) {s t : ℝ}
    (h : s ≤ t) :
    ∃ x y, interpolationRatio (.num s : Fl ℝ rnd) m = .num x ∧ interpolationRatio (.num t : Fl ℝ rnd) m = .num y ∧
      0 ≤ x ∧ x ≤ y ∧ y ≤ 1 :=
  OrderlyRnd.of_step (fun _ _ ha hab hb => hr.step hm ha hab hb) h

theorem orderly_rne {p : ℕ} (hp : 3 ≤ p) : OrderlyRnd (rne p : ℝ → ℝ) where
  mono := rne_mono p (by omega)
  neg := rne_neg p
  pow k := rne_of_rep (by omega) (Rep.zpow k)
  five k := rne_of_rep (by omega) (by
    have : (5 : ℤ) ≤ 2 ^ p := le_trans (by norm_num) (pow_le_pow_right₀ (by norm_num : (1 : ℤ) ≤ 2) hp)
    have h := (Rep.int (K := ℝ) (p := p) 5 (by simpa using this)).mul_zpow k
    simpa using h)

namespace Trig
variable {p : ℕ} (hp : 3 ≤ p)

/-- the computed `pi / 2` -/
noncomputable def c (p : ℕ) : ℝ := rne p Real.pi / 2

include hp
theorem c_rep : rne p (c p) = c p := by
  refine rne_of_rep (by omega) ?_
  have := (rep_rne p (by omega) Real.pi).mul_zpow (-1)
  rwa [zpow_neg_one, ← div_eq_mul_inv] at this

omit hp in
theorem pi_near : |rne p Real.pi - Real.pi| ≤ 2 * 2 ^ (-(p : ℤ)) := by
  have h := rne_err p Real.pi Real.pi_ne_zero
  have hl : Int.log 2 |Real.pi| = 1 := by
    rw [abs_of_pos Real.pi_pos]
    apply le_antisymm
    · have := (Int.lt_zpow_iff_log_lt (R := ℝ) (b := 2) (by norm_num) (x := 2) Real.pi_pos).1
        (by norm_num; linarith [Real.pi_lt_four])
      omega
    · exact (Int.zpow_le_iff_le_log (R := ℝ) (b := 2) (by norm_num) Real.pi_pos).1
        (by norm_num; linarith [Real.pi_gt_three])
  rw [hl, sub_eq_add_neg 1, zpow_add₀ two_ne_zero, zpow_one] at h
  rwa [abs_sub_comm]

theorem w_le : (2 : ℝ) ^ (-(p : ℤ)) ≤ 1 / 8 := by
  have : (2 : ℝ) ^ (-(p : ℤ)) ≤ 2 ^ (-3 : ℤ) := zpow_le_zpow_right₀ one_le_two (by omega)
  norm_num at this ⊢; exact this

theorem c_bounds : 0 ≤ c p ∧ |c p - Real.pi / 2| ≤ 2 ^ (-(p : ℤ)) := by
  have h := pi_near (p := p)
  have hw := w_le hp
  constructor
  · rw [abs_le] at h
    unfold c; linarith [h.1, Real.pi_gt_three]
  · rw [show c p - Real.pi / 2 = (rne p Real.pi - Real.pi) / 2 by unfold c; ring, abs_div, abs_two]
    linarith

/-- the argument of the trigonometric functions -/
theorem arg {d a b : ℝ} (hd : 0 ≤ d) (hdr : rne p d = d) (ha : 0 < a) (hab : a ≤ b) (hb : b < 1) :
    0 ≤ rne p (a * d) ∧ rne p (a * d) ≤ rne p (b * d) ∧ rne p (b * d) ≤ d := by
  have hr := orderly_rne hp
  exact ⟨hr.nonneg (mul_nonneg ha.le hd), hr.mono (mul_le_mul_of_nonneg_right hab hd),
    hr.le (mul_le_of_le_one_left hd hb.le) hdr⟩

theorem piOver2_eq : (piOver2 : Fl ℝ (rne p)) = .num (c p) := by
  have hr := orderly_rne hp
  unfold piOver2
  rw [hr.consts.2.2.2.2]
  change Fl.num (rne p (rne p Real.pi * (1 / 2))) = _
  rw [mul_one_div]
  exact congrArg _ (c_rep hp)

theorem cosine {a b : ℝ} (ha : 0 < a) (hab : a ≤ b) (hb : b < 1) :
    OrderlyRnd.Step (rne p) Cosine a b 0 1 ∧ OrderlyRnd.Step (rne p) SinusoidalIn a b 0 1 := by
  have hr := orderly_rne hp
  obtain ⟨c0, c1⟩ := c_bounds hp
  have hw := w_le hp
  obtain ⟨h1, h2, h3⟩ := arg hp c0 (c_rep hp) ha hab hb
  have c2 := (abs_le.1 c1).2
  have ev : ∀ x : ℝ, (1 - MathFns.cos (.num x * piOver2) : Fl ℝ (rne p)) =
      .num (rne p (1 - rne p (Real.cos (rne p (x * c p))))) := fun x => by
    rw [piOver2_eq hp]; rfl
  have k1 : Real.cos (rne p (b * c p)) ≤ Real.cos (rne p (a * c p)) :=
    Real.cos_le_cos_of_nonneg_of_le_pi h1 (by linarith [Real.pi_gt_three]) h2
  have k2 : -(2 : ℝ) ^ (-(p : ℤ)) ≤ Real.cos (rne p (b * c p)) := by
    have := Real.cos_le_cos_of_nonneg_of_le_pi (h1.trans h2) (by linarith [Real.pi_gt_three]) h3
    refine le_trans ?_ this
    rcases le_or_gt (c p) (Real.pi / 2) with h | h
    · have := Real.cos_nonneg_of_neg_pi_div_two_le_of_le (by linarith [Real.pi_gt_three]) h
      linarith [zpow2_pos (K := ℝ) (-(p : ℤ))]
    · have := Real.sin_le (x := c p - Real.pi / 2) (by linarith)
      rw [Real.sin_sub_pi_div_two] at this
      linarith
  have k3 : -(2 : ℝ) ^ (-(p : ℤ)) ≤ rne p (Real.cos (rne p (b * c p))) :=
    hr.ge k2 (by rw [hr.neg, hr.pow])
  have k4 : rne p (1 - rne p (Real.cos (rne p (b * c p)))) ≤ 1 := by
    have := rne_tie_above (K := ℝ) (p := p) (by omega) 0 (x := 1 - rne p (Real.cos (rne p (b * c p))))
      (by rw [zpow_zero, zero_sub]; linarith)
    simpa using this
  have k5 : 0 ≤ rne p (1 - rne p (Real.cos (rne p (a * c p)))) :=
    hr.nonneg (by linarith [hr.le (Real.cos_le_one (rne p (a * c p))) hr.one])
  have k6 : rne p (1 - rne p (Real.cos (rne p (a * c p)))) ≤ rne p (1 - rne p (Real.cos (rne p (b * c p)))) :=
    hr.mono (by linarith [hr.mono k1])
  exact ⟨⟨_, _, ev a, ev b, k5, k6, k4⟩, ⟨_, _, ev a, ev b, k5, k6, k4⟩⟩

theorem sinOut {a b : ℝ} (ha : 0 < a) (hab : a ≤ b) (hb : b < 1) : OrderlyRnd.Step (rne p) SinusoidalOut a b 0 1 := by
  have hr := orderly_rne hp
  obtain ⟨c0, c1⟩ := c_bounds hp
  have hw := w_le hp
  have hw0 := zpow2_pos (K := ℝ) (-(p : ℤ))
  obtain ⟨h1, h2, h3⟩ := arg hp c0 (c_rep hp) ha hab hb
  have c2 := (abs_le.1 c1).2
  have ev : ∀ x : ℝ, interpolationSwitch (.num x : Fl ℝ (rne p)) SinusoidalOut =
      .num (rne p (Real.sin (rne p (x * c p)))) := fun x => by
    simp only [interpolationSwitch]
    rw [piOver2_eq hp]; rfl
  refine ⟨_, _, ev a, ev b, ?_, ?_, hr.le (Real.sin_le_one _) hr.one⟩
  · exact hr.nonneg (Real.sin_nonneg_of_nonneg_of_le_pi h1 (by linarith [Real.pi_gt_three]))
  · rcases le_or_gt (rne p (b * c p)) (Real.pi / 2) with h | h
    · exact hr.mono (Real.sin_le_sin_of_le_of_le_pi_div_two (by linarith [Real.pi_gt_three]) h h2)
    · refine (hr.le (Real.sin_le_one _) hr.one).trans ?_
      have e := Real.one_sub_sq_div_two_le_cos (x := rne p (b * c p) - Real.pi / 2)
      rw [Real.cos_sub_pi_div_two] at e
      have := rne_tie_below (K := ℝ) (p := p) (by omega) 0 (x := Real.sin (rne p (b * c p))) (by
        rw [zpow_zero, zero_sub, zpow_sub_one₀ two_ne_zero]
        nlinarith)
      simpa using this

theorem sinInOut {a b : ℝ} (ha : 0 < a) (hab : a ≤ b) (hb : b < 1) :
    OrderlyRnd.Step (rne p) SinusoidalInOut a b 0 1 := by
  have hr := orderly_rne hp
  have c1 := pi_near (p := p)
  have hw := w_le hp
  have hw0 := zpow2_pos (K := ℝ) (-(p : ℤ))
  have c2 := (abs_le.1 c1).2
  have c3 := (abs_le.1 c1).1
  obtain ⟨h1, h2, h3⟩ := arg hp (d := rne p Real.pi) (by linarith [Real.pi_gt_three]) (rne_rne p (by omega) _) ha hab hb
  have ev : ∀ x : ℝ, interpolationSwitch (.num x : Fl ℝ (rne p)) SinusoidalInOut =
      .num (rne p (1 / 2 * rne p (1 - rne p (Real.cos (rne p (x * rne p Real.pi)))))) := fun x => by
    simp only [interpolationSwitch]
    rw [hr.consts.2.2.2.2]; rfl
  have key : rne p (Real.cos (rne p (b * rne p Real.pi))) ≤ rne p (Real.cos (rne p (a * rne p Real.pi))) := by
    rcases le_or_gt (rne p (b * rne p Real.pi)) Real.pi with h | h
    · exact hr.mono (Real.cos_le_cos_of_nonneg_of_le_pi h1 h h2)
    · refine le_trans ?_ (hr.ge (Real.neg_one_le_cos _) (by rw [hr.neg, hr.one]))
      have e := Real.one_sub_sq_div_two_le_cos (x := rne p (b * rne p Real.pi) - Real.pi)
      rw [Real.cos_sub_pi] at e
      have := rne_tie_below (K := ℝ) (p := p) (by omega) 0 (x := -Real.cos (rne p (b * rne p Real.pi))) (by
        rw [zpow_zero, zero_sub, zpow_sub_one₀ two_ne_zero]
        nlinarith)
      rw [rne_neg, zpow_zero] at this
      linarith
  have k1 : rne p (Real.cos (rne p (a * rne p Real.pi))) ≤ 1 := hr.le (Real.cos_le_one _) hr.one
  have k2 : -1 ≤ rne p (Real.cos (rne p (b * rne p Real.pi))) :=
    hr.ge (Real.neg_one_le_cos _) (by rw [hr.neg, hr.one])
  have l1 := hr.nonneg (x := 1 - rne p (Real.cos (rne p (a * rne p Real.pi)))) (by linarith)
  have l2 := hr.mono (a := 1 - rne p (Real.cos (rne p (a * rne p Real.pi))))
    (b := 1 - rne p (Real.cos (rne p (b * rne p Real.pi)))) (by linarith)
  have l3 := hr.le (x := 1 - rne p (Real.cos (rne p (b * rne p Real.pi)))) (c := 2) (by linarith) hr.two
  exact ⟨_, _, ev a, ev b, hr.nonneg (by linarith), hr.mono (by linarith), hr.le (by linarith) hr.one⟩

end Trig

/-- The modes which are monotone in floating point. -/
def InterpolationMode.orderly (m : InterpolationMode) : Prop :=
  m.stepwise ∨ m = Cosine ∨ m = SinusoidalIn ∨ m = SinusoidalOut ∨ m = SinusoidalInOut

/-- C154: these modes stay in [0,1] and are monotone in floating point of any precision, if the trigonometric functions
and `pi` are rounded correctly: though the computed angles exceed `pi / 2` and `pi` for some precisions, rounding hides
it. -/
theorem C154_monotone_partial {p : ℕ} (hp : 3 ≤ p) (m : InterpolationMode) (hm : m.orderly) {s t : ℝ} (h : s ≤ t) :
    ∃ x y, interpolationRatio (.num s : Fl ℝ (rne p)) m = .num x ∧
      interpolationRatio (.num t : Fl ℝ (rne p)) m = .num y ∧ 0 ≤ x ∧ x ≤ y ∧ y ≤ 1 := by
  refine OrderlyRnd.of_step (fun a b ha hab hb => ?_) h
  rcases hm with hm | rfl | rfl | rfl | rfl
  · exact (orderly_rne hp).step hm ha hab hb
  · exact (Trig.cosine hp ha hab hb).1
  · exact (Trig.cosine hp ha hab hb).2
  · exact Trig.sinOut hp ha hab hb
  · exact Trig.sinInOut hp ha hab hb

/-! ## The other modes -/

section near
variable {p : ℕ} (hp : 4 ≤ p)

/-- `2^-p` -/
local notation "w" => (2 : ℝ) ^ (-(p : ℤ))

theorem rne_fix {p : ℕ} (hp : 1 ≤ p) {x : ℝ} (m e : ℤ) (hm : |m| ≤ 2 ^ p) (hx : x = m * 2 ^ e) : rne p x = x :=
  rne_of_rep hp ⟨m, e, hm, hx⟩

private theorem pow_w (k : ℤ) : (2 : ℝ) ^ (k - (p : ℤ)) = 2 ^ k * w := by
  rw [sub_eq_add_neg, zpow_add₀ two_ne_zero]

private theorem two_w (n : ℕ) (h : n ≤ p) : ((2 ^ (p - n) : ℤ) : ℝ) * (2 ^ n * w) = 1 := by
  have : (2 : ℝ) ^ (p - n) * 2 ^ n = 2 ^ p := by rw [← pow_add, Nat.sub_add_cancel h]
  push_cast
  rw [← mul_assoc, this, ← zpow_natCast, ← zpow_add₀ two_ne_zero, add_neg_cancel, zpow_zero]

include hp in
private theorem w_small : w ≤ 1 / 16 := by
  have : w ≤ 2 ^ (-4 : ℤ) := zpow_le_zpow_right₀ one_le_two (by omega)
  norm_num at this ⊢; exact this

include hp in
/-- the numbers just below 1 -/
private theorem below (k : ℤ) (h0 : 0 ≤ k) (h : k ≤ 8) (j : ℤ) : rne p (2 ^ j * (1 - k * w)) = 2 ^ j * (1 - k * w) := by
  have e := two_w (p := p) 0 (by omega)
  have h16 : (2 : ℤ) ^ 4 ≤ 2 ^ p := pow_le_pow_right₀ (by norm_num) hp
  rw [Nat.sub_zero, pow_zero, one_mul] at e
  refine rne_fix (by omega) (2 ^ p - k) (j - p) (by rw [abs_le]; constructor <;> linarith) ?_
  rw [pow_w]
  push_cast at e ⊢
  linear_combination (-(2 : ℝ) ^ j) * e

include hp in
/-- the numbers just above 1: `1 + 2 w`, `1 + 4 w`, `1 + 8 w` -/
private theorem above (n : ℕ) (h0 : 1 ≤ n) (h : n ≤ 3) (j : ℤ) :
    rne p (2 ^ j * (1 + 2 ^ n * w)) = 2 ^ j * (1 + 2 ^ n * w) := by
  have e := two_w (p := p) n (by omega)
  have h16 : (2 : ℤ) ^ (p - n) * 2 ≤ 2 ^ p := by
    rw [← pow_succ]; exact pow_le_pow_right₀ (by norm_num) (by omega)
  have h1 : (1 : ℤ) ≤ 2 ^ (p - n) := one_le_pow₀ (by norm_num)
  refine rne_fix (by omega) (2 ^ (p - n) + 1) (j + n - p) (by rw [abs_le]; constructor <;> linarith) ?_
  rw [pow_w, zpow_add₀ two_ne_zero, zpow_natCast]
  push_cast at e ⊢
  linear_combination (-(2 : ℝ) ^ j) * e

include hp in
/-- `1 + 2 w` is next to 1 -/
private theorem next (j : ℤ) {x : ℝ} (h : |x - 2 ^ j * (1 + 2 * w)| < 2 ^ j * w) : rne p x = 2 ^ j * (1 + 2 * w) := by
  have e := two_w (p := p) 1 (by omega)
  have hj := zpow2_pos (K := ℝ) j
  have hw := w_small hp
  have hw0 := zpow2_pos (K := ℝ) (-(p : ℤ))
  rw [abs_lt] at h
  have := rne_eq (K := ℝ) (p := p) (x := x) (j + 1 - p) (2 ^ (p - 1) + 1) ?_ ?_ ?_
  · rw [this, pow_w, zpow_add_one₀ two_ne_zero]
    push_cast at e ⊢
    linear_combination (2 : ℝ) ^ j * e
  · rw [show j + 1 - (p : ℤ) + (p - 1) = j by ring]; nlinarith [h.1]
  · rw [show j + 1 - (p : ℤ) + p = j + 1 by ring, zpow_add_one₀ two_ne_zero]; nlinarith [h.2]
  · rw [pow_w, zpow_add_one₀ two_ne_zero]
    push_cast at e ⊢
    rw [show ((2 : ℝ) ^ (p - 1) + 1) * (2 ^ j * 2 * w) = 2 ^ j * (1 + 2 * w) by linear_combination (2 : ℝ) ^ j * e,
      abs_lt]
    constructor <;> nlinarith [h.1, h.2]

include hp in
/-- a number that close above or below a power of two becomes the power -/
private theorem snap (j : ℤ) {x : ℝ} (h1 : 2 ^ j * (1 - w / 2) ≤ x) (h2 : x ≤ 2 ^ j * (1 + w)) : rne p x = 2 ^ j := by
  apply le_antisymm
  · exact rne_tie_above (by omega) j (by rw [pow_w]; linarith)
  · refine rne_tie_below (by omega) j ?_
    rw [zpow_sub_one₀ two_ne_zero, pow_w]; linarith

include hp in
private theorem small (n : ℤ) (h : |n| ≤ 16) : rne p (n : ℝ) = n := by
  have h16 : (2 : ℤ) ^ 4 ≤ 2 ^ p := pow_le_pow_right₀ (by norm_num) hp
  exact rne_fix (by omega) n 0 (h.trans (by linarith)) (by simp)

include hp in
private theorem lits : (3 : Fl ℝ (rne p)) = .num 3 ∧ (12 : Fl ℝ (rne p)) = .num 12 := by
  have h3 := small hp 3 (by norm_num)
  have h12 := small hp 12 (by norm_num)
  push_cast at h3 h12
  constructor <;> rw [Fl.ofNat_def] <;> norm_num [h3, h12]

/-- C154, refuted for `CubicOut` and `CubicInOut`: in every precision the ratio exceeds 1 for the second number below 1. -/
theorem C154_cubic_refuted (hp : 4 ≤ p) :
    interpolationRatio (.num (1 - 2 * w) : Fl ℝ (rne p)) CubicOut = .num (1 + 2 * w) ∧
    interpolationRatio (.num (1 - 2 * w) : Fl ℝ (rne p)) CubicInOut = .num (1 + 8 * w) := by
  have hr := orderly_rne (p := p) (by omega)
  have hw := w_small hp
  have hw0 := zpow2_pos (K := ℝ) (-(p : ℤ))
  obtain ⟨l3, l12⟩ := lits hp
  have m0 : (0 : ℝ) < 1 - 2 * w := by linarith
  have m1 : 1 - 2 * w < 1 := by linarith
  constructor
  · rw [OrderlyRnd.ratio_mid m0 m1]
    simp only [interpolationSwitch]
    rw [l3]
    simp only [Fl.num_sub, Fl.num_mul, Fl.num_add]
    have r1 : rne p (1 - 2 * w - 3) = -2 := by
      have := snap hp 1 (x := 2 + 2 * w) (by linarith) (by linarith)
      rw [show 1 - 2 * w - 3 = -(2 + 2 * w) by ring, rne_neg, this, zpow_one]
    have r2 : rne p ((1 - 2 * w) * -2) = -(2 * (1 - 2 * w)) := by
      have := below hp 2 (by norm_num) (by norm_num) 1
      push_cast at this
      rw [zpow_one] at this
      rw [show (1 - 2 * w) * -2 = -(2 * (1 - 2 * w)) by ring, rne_neg, this]
    have r3 : rne p (-(2 * (1 - 2 * w)) + 3) = 1 + 4 * w := by
      have := above hp 2 (by norm_num) (by norm_num) 0
      rw [zpow_zero, one_mul] at this
      norm_num at this
      rw [show -(2 * (1 - 2 * w)) + 3 = 1 + 4 * w by ring, zpow_neg, zpow_natCast, this]
    have r4 : rne p ((1 - 2 * w) * (1 + 4 * w)) = 1 + 2 * w := by
      have := next hp 0 (x := (1 - 2 * w) * (1 + 4 * w)) (by
        rw [zpow_zero, one_mul, one_mul, abs_lt]; constructor <;> nlinarith)
      rw [this, zpow_zero, one_mul]
    rw [r1, r2, r3, r4]
  · rw [OrderlyRnd.ratio_mid m0 m1]
    simp only [interpolationSwitch]
    rw [if_neg (fun h => absurd (hr.lt_half.1 h) (by linarith)), l3, l12, hr.consts.2.1]
    simp only [Fl.num_sub, Fl.num_mul, Fl.num_add]
    have r0 : rne p (4 * (1 - 2 * w)) = 4 * (1 - 2 * w) := by
      have := below hp 2 (by norm_num) (by norm_num) 2
      norm_num at this ⊢; exact this
    have r1 : rne p (4 * (1 - 2 * w) - 12) = -8 := by
      have := snap hp 3 (x := 8 + 8 * w) (by norm_num1; linarith) (by norm_num1; linarith)
      rw [show 4 * (1 - 2 * w) - 12 = -(8 + 8 * w) by ring, rne_neg, this]; norm_num
    have r2 : rne p (-8 * (1 - 2 * w)) = -(8 * (1 - 2 * w)) := by
      have := below hp 2 (by norm_num) (by norm_num) 3
      rw [show -8 * (1 - 2 * w) = -(8 * (1 - 2 * w)) by ring, rne_neg]
      norm_num at this ⊢; exact this
    have r3 : rne p (-(8 * (1 - 2 * w)) + 12) = 4 * (1 + 4 * w) := by
      have := above hp 2 (by norm_num) (by norm_num) 2
      rw [show -(8 * (1 - 2 * w)) + 12 = 4 * (1 + 4 * w) by ring]
      norm_num at this ⊢; exact this
    have r4 : rne p (4 * (1 + 4 * w) * (1 - 2 * w)) = 4 * (1 + 2 * w) := by
      have := next hp 2 (x := 4 * (1 + 4 * w) * (1 - 2 * w)) (by
        rw [abs_lt]; constructor <;> norm_num1 <;> nlinarith)
      rw [this]; norm_num
    have r5 : rne p (4 * (1 + 2 * w) - 3) = 1 + 8 * w := by
      have := above hp 3 (by norm_num) (by norm_num) 0
      rw [show 4 * (1 + 2 * w) - 3 = 1 + 8 * w by ring]
      norm_num at this ⊢; exact this
    rw [r0, r1, r2, r3, r4, r5]

/-- C154, refuted for `QuadraticOut` and `QuadraticInOut`: in every precision the ratio is 1 for the second number below 1
and less than 1 for the first one. -/
theorem C154_quadratic_refuted (hp : 4 ≤ p) :
    interpolationRatio (.num (1 - 2 * w) : Fl ℝ (rne p)) QuadraticOut = .num 1 ∧
    interpolationRatio (.num (1 - w) : Fl ℝ (rne p)) QuadraticOut = .num (1 - w) ∧
    interpolationRatio (.num (1 - 2 * w) : Fl ℝ (rne p)) QuadraticInOut = .num 1 ∧
    interpolationRatio (.num (1 - w) : Fl ℝ (rne p)) QuadraticInOut = .num (1 - 2 * w) := by
  have hr := orderly_rne (p := p) (by omega)
  have hw := w_small hp
  have hw0 := zpow2_pos (K := ℝ) (-(p : ℤ))
  have b1 : rne p (1 - w) = 1 - w := by
    have := below hp 1 (by norm_num) (by norm_num) 0
    norm_num at this ⊢; exact this
  have b2 : rne p (1 - 2 * w) = 1 - 2 * w := by
    have := below hp 2 (by norm_num) (by norm_num) 0
    norm_num at this ⊢; exact this
  have d1 : rne p (2 * (1 - w)) = 2 * (1 - w) := by
    have := below hp 1 (by norm_num) (by norm_num) 1
    norm_num at this ⊢; exact this
  have d2 : rne p (2 * (1 - 2 * w)) = 2 * (1 - 2 * w) := by
    have := below hp 2 (by norm_num) (by norm_num) 1
    norm_num at this ⊢; exact this
  refine ⟨?_, ?_, ?_, ?_⟩
  · rw [OrderlyRnd.ratio_mid (by linarith) (by linarith)]
    simp only [interpolationSwitch]
    rw [hr.consts.1]
    simp only [Fl.num_sub, Fl.num_mul]
    have r1 : rne p (2 - (1 - 2 * w)) = 1 + 2 * w := by
      have := above hp 1 (by norm_num) (by norm_num) 0
      rw [show 2 - (1 - 2 * w) = 1 + 2 * w by ring]
      norm_num at this ⊢; exact this
    rw [r1, snap hp 0 (by norm_num1; nlinarith) (by norm_num1; nlinarith), zpow_zero]
  · rw [OrderlyRnd.ratio_mid (by linarith) (by linarith)]
    simp only [interpolationSwitch]
    rw [hr.consts.1]
    simp only [Fl.num_sub, Fl.num_mul]
    rw [snap hp 0 (x := 2 - (1 - w)) (by norm_num1; linarith) (by norm_num1; linarith), zpow_zero, mul_one, b1]
  · rw [OrderlyRnd.ratio_mid (by linarith) (by linarith)]
    simp only [interpolationSwitch]
    rw [if_neg (fun h => absurd (hr.lt_half.1 h) (by linarith)), hr.consts.1, hr.consts.2.1]
    simp only [Fl.num_sub, Fl.num_mul, Fl.num_add, Fl.num_neg, Fl.one_def]
    have r2 : rne p (-(2 * (1 - 2 * w)) + 4) = 2 * (1 + 2 * w) := by
      have := above hp 1 (by norm_num) (by norm_num) 1
      rw [show -(2 * (1 - 2 * w)) + 4 = 2 * (1 + 2 * w) by ring]
      norm_num at this ⊢; exact this
    rw [neg_mul, rne_neg, d2, r2, snap hp 1 (x := 2 * (1 + 2 * w) * (1 - 2 * w)) (by norm_num1; nlinarith)
      (by norm_num1; nlinarith), zpow_one, show (2 : ℝ) - 1 = 1 by norm_num, hr.one]
  · rw [OrderlyRnd.ratio_mid (by linarith) (by linarith)]
    simp only [interpolationSwitch]
    rw [if_neg (fun h => absurd (hr.lt_half.1 h) (by linarith)), hr.consts.1, hr.consts.2.1]
    simp only [Fl.num_sub, Fl.num_mul, Fl.num_add, Fl.num_neg, Fl.one_def]
    rw [neg_mul, rne_neg, d1, snap hp 1 (x := -(2 * (1 - w)) + 4) (by norm_num1; nlinarith) (by norm_num1; nlinarith),
      zpow_one, d1, show 2 * (1 - w) - 1 = 1 - 2 * w by ring, b2]

/-- rounding errors between powers of two -/
private theorem err_between (k : ℤ) {x : ℝ} (h1 : 2 ^ k ≤ x) (h2 : x < 2 ^ (k + 1)) : |rne p x - x| ≤ 2 ^ k * w := by
  have hx : 0 < x := (zpow2_pos k).trans_le h1
  have h := rne_err p x hx.ne'
  have hl : Int.log 2 |x| = k := by
    rw [abs_of_pos hx]
    apply le_antisymm
    · have := (Int.lt_zpow_iff_log_lt (R := ℝ) (b := 2) (by norm_num) (x := k + 1) hx).1 (by exact_mod_cast h2)
      omega
    · exact (Int.zpow_le_iff_le_log (R := ℝ) (b := 2) (by norm_num) hx).1 (by exact_mod_cast h1)
  rw [hl, pow_w] at h
  rwa [abs_sub_comm]

/-- multiples of numbers of the format by powers of two -/
private theorem scale (hp : 4 ≤ p) {t : ℝ} (ht : Rep p t) (k : ℤ) : rne p (2 ^ k * t) = 2 ^ k * t :=
  rne_of_rep (by omega) (by rw [mul_comm]; exact ht.mul_zpow k)

/-- C154: `QuadraticOut`, `QuadraticInOut` and `CircularInOut`, which are not monotone, are still defined and in [0,1]
for all numbers of the format. -/
theorem C154_range_partial (hp : 4 ≤ p) (m : InterpolationMode) (hm : m = QuadraticOut ∨ m = QuadraticInOut ∨ m = CircularInOut)
    {t : ℝ} (ht : Rep p t) :
    ∃ x, interpolationRatio (.num t : Fl ℝ (rne p)) m = .num x ∧ 0 ≤ x ∧ x ≤ 1 := by
  rcases le_or_gt t 0 with h0 | h0
  · exact ⟨0, OrderlyRnd.ratio_nonpos h0 m, le_rfl, zero_le_one⟩
  rcases le_or_gt 1 t with h1 | h1
  · exact ⟨1, OrderlyRnd.ratio_ge h1 m, zero_le_one, le_rfl⟩
  rw [OrderlyRnd.ratio_mid h0 h1]
  have hr := orderly_rne (p := p) (by omega)
  have hw := w_small hp
  have hw0 := zpow2_pos (K := ℝ) (-(p : ℤ))
  have up : ∀ (k : ℤ) {x : ℝ}, x ≤ 2 ^ k * (1 + w) → rne p x ≤ 2 ^ k := fun k x hx =>
    rne_tie_above (by omega) k (by rw [pow_w]; linarith)
  rcases hm with rfl | rfl | rfl
  · have e : interpolationSwitch (.num t : Fl ℝ (rne p)) QuadraticOut = .num (rne p (t * rne p (2 - t))) := by
      simp only [interpolationSwitch]
      rw [hr.consts.1]; rfl
    have h2 := (abs_le.1 (err_between (p := p) 0 (x := 2 - t) (by norm_num1; linarith) (by norm_num1; linarith))).2
    have h3 := hr.nonneg (x := 2 - t) (by linarith)
    rw [zpow_zero, one_mul] at h2
    refine ⟨_, e, hr.nonneg (mul_nonneg h0.le h3), ?_⟩
    have := up 0 (x := t * rne p (2 - t)) (by norm_num1; nlinarith [sq_nonneg (t - 1)])
    simpa using this
  · rcases lt_or_ge t (1 / 2) with hh | hh
    · have e : interpolationSwitch (.num t : Fl ℝ (rne p)) QuadraticInOut = .num (rne p (rne p (2 * t) * t)) := by
        simp only [interpolationSwitch]
        rw [if_pos (hr.lt_half.2 hh), hr.consts.1]; rfl
      have l0 := hr.lower (a := 2) (b := 2) (A := 2) ⟨by norm_num, le_rfl, le_rfl⟩ ⟨h0.le, le_rfl, hh.le⟩ 1 (by norm_num)
      have l1 := hr.lower l0 ⟨h0.le, le_rfl, hh.le⟩ 0 (by norm_num)
      exact ⟨_, e, l1.1, l1.2.2.trans (by norm_num)⟩
    · have d := scale hp ht 1
      rw [zpow_one] at d
      have e : interpolationSwitch (.num t : Fl ℝ (rne p)) QuadraticInOut =
          .num (rne p (rne p (rne p (-(2 * t) + 4) * t) - 1)) := by
        simp only [interpolationSwitch]
        rw [if_neg (fun h => absurd (hr.lt_half.1 h) (by linarith)), hr.consts.1, hr.consts.2.1]
        simp only [Fl.num_sub, Fl.num_mul, Fl.num_add, Fl.num_neg, Fl.one_def, neg_mul, rne_neg, d]
      have h2 := (abs_le.1 (err_between (p := p) 1 (x := -(2 * t) + 4) (by norm_num1; linarith)
        (by norm_num1; linarith))).2
      have h3 : 2 ≤ rne p (-(2 * t) + 4) := hr.ge (by linarith) hr.two
      rw [zpow_one] at h2
      have h4 := up 1 (x := rne p (-(2 * t) + 4) * t) (by norm_num1; nlinarith [sq_nonneg (t - 1)])
      have h5 : 1 ≤ rne p (rne p (-(2 * t) + 4) * t) := hr.ge (by nlinarith) hr.one
      rw [zpow_one] at h4
      exact ⟨_, e, hr.nonneg (by linarith), hr.le (by linarith) hr.one⟩
  · rcases lt_or_ge t (1 / 2) with hh | hh
    · have l0 := hr.lower (a := 4) (b := 4) (A := 4) ⟨by norm_num, le_rfl, le_rfl⟩ ⟨h0.le, le_rfl, hh.le⟩ 2 (by norm_num)
      have l1 := hr.lower l0 ⟨h0.le, le_rfl, hh.le⟩ 1 (by norm_num)
      have l2 : 0 ≤ rne p (1 - rne p (rne p (4 * t) * t)) := hr.nonneg (by linarith)
      have l3 : rne p (1 - rne p (rne p (4 * t) * t)) ≤ 1 := hr.le (by linarith) hr.one
      have l4 := hr.sqrt ⟨l2, le_rfl, l3⟩
      have e : interpolationSwitch (.num t : Fl ℝ (rne p)) CircularInOut =
          .num (rne p (1 / 2 * rne p (1 - rne p (√(rne p (1 - rne p (rne p (4 * t) * t))))))) := by
        simp only [interpolationSwitch]
        rw [if_pos (hr.lt_half.2 hh), hr.consts.2.2.2.2, hr.consts.2.1]
        simp only [Fl.num_sub, Fl.num_mul, Fl.one_def, Fl.fl_sqrt, if_neg (not_lt.2 l2)]
      have l5 := hr.nonneg (x := 1 - rne p (√(rne p (1 - rne p (rne p (4 * t) * t))))) (by linarith)
      have l6 := hr.le (x := 1 - rne p (√(rne p (1 - rne p (rne p (4 * t) * t))))) (c := 1) (by linarith) hr.one
      exact ⟨_, e, hr.nonneg (by linarith), hr.le (by linarith) hr.one⟩
    · have d := scale hp ht 2
      have f4 : (2 : ℝ) ^ (2 : ℤ) = 4 := by norm_num
      rw [f4] at d
      have h2 := abs_le.1 (err_between (p := p) 2 (x := 8 - 4 * t) (by norm_num1; linarith) (by norm_num1; linarith))
      rw [f4] at h2
      have h4 := up 2 (x := rne p (8 - 4 * t) * t) (by rw [f4]; nlinarith [sq_nonneg (t - 1), h2.2])
      rw [f4] at h4
      have s3 := small hp 3 (by norm_num)
      have s5 := small hp 5 (by norm_num)
      have s6 := small hp 6 (by norm_num)
      push_cast at s3 s5 s6
      have h5 : 3 ≤ rne p (rne p (8 - 4 * t) * t) := by
        refine hr.ge ?_ s3
        rcases hh.eq_or_lt with h | h
        · rw [← h, show (8 : ℝ) - 4 * (1 / 2) = 6 by norm_num, s6]; norm_num
        · have g : 1 / 2 + w ≤ t := by
            obtain ⟨n, hn⟩ := ht.multiple (by omega) (-1) (by
              rw [abs_of_pos h0]; norm_num1; linarith)
            have e0 := two_w (p := p) 1 (by omega)
            rw [show (-1 : ℤ) - ((p : ℤ) - 1) = -p by ring] at hn
            have hlt : (2 : ℤ) ^ (p - 1) < n := by
              have : ((2 ^ (p - 1) : ℤ) : ℝ) < n := by
                by_contra hc
                rw [not_lt] at hc
                have := mul_le_mul_of_nonneg_right hc hw0.le
                linarith
              exact_mod_cast this
            have : ((2 ^ (p - 1) : ℤ) : ℝ) + 1 ≤ n := by exact_mod_cast hlt
            have := mul_le_mul_of_nonneg_right this hw0.le
            linarith
          have : 0 ≤ (t - 1 / 2 - w) * (1 - t) := mul_nonneg (by linarith) (by linarith)
          nlinarith [h2.1]
      have h6 : 4 ≤ rne p (1 + rne p (rne p (8 - 4 * t) * t)) := hr.ge (by linarith) hr.four
      have h7 : rne p (1 + rne p (rne p (8 - 4 * t) * t)) ≤ 5 := hr.le (by linarith) s5
      have l2 : 0 ≤ rne p (rne p (1 + rne p (rne p (8 - 4 * t) * t)) - 4) := hr.nonneg (by linarith)
      have l3 : rne p (rne p (1 + rne p (rne p (8 - 4 * t) * t)) - 4) ≤ 1 := hr.le (by linarith) hr.one
      have l4 := hr.sqrt ⟨l2, le_rfl, l3⟩
      have n1 : rne p (4 * t - 8) = -rne p (8 - 4 * t) := by rw [← rne_neg]; congr 1; ring
      have e : interpolationSwitch (.num t : Fl ℝ (rne p)) CircularInOut =
          .num (rne p (1 / 2 * rne p (rne p (√(rne p (rne p (1 + rne p (rne p (8 - 4 * t) * t)) - 4))) + 1))) := by
        simp only [interpolationSwitch]
        rw [if_neg (fun h => absurd (hr.lt_half.1 h) (by linarith)), hr.consts.2.2.2.2, hr.consts.2.1, hr.consts.2.2.1]
        simp only [Fl.num_sub, Fl.num_mul, Fl.num_add, Fl.one_def, Fl.fl_sqrt, d, n1, neg_mul, rne_neg, sub_neg_eq_add,
          if_neg (not_lt.2 l2)]
      have l5 := hr.nonneg (x := rne p (√(rne p (rne p (1 + rne p (rne p (8 - 4 * t) * t)) - 4))) + 1) (by linarith)
      have l6 := hr.le (x := rne p (√(rne p (rne p (1 + rne p (rne p (8 - 4 * t) * t)) - 4))) + 1) (c := 2)
        (by linarith) hr.two
      exact ⟨_, e, hr.nonneg (by linarith), hr.le (by linarith) hr.one⟩

end near

/-! ## `CircularInOut` -/

private theorem float_fix {x : ℝ} (m e : ℤ) (hm : |m| ≤ 2 ^ 24) (hx : x = m * 2 ^ e) : rne 24 x = x :=
  rne_fix (by norm_num) m e hm hx

/-- C154, refuted for `CircularInOut` in `float`: the ratio is 1 for `1 - 2898 / 2^24` and less than 1 for the next
number. -/
theorem C154_circular_refuted :
    interpolationRatio (.num (1 - 2898 / 2 ^ 24) : Fl ℝ (rne 24)) CircularInOut = .num 1 ∧
    interpolationRatio (.num (1 - 2897 / 2 ^ 24) : Fl ℝ (rne 24)) CircularInOut = .num (1 - 1 / 2 ^ 23) := by
  have hr := orderly_rne (p := 24) (by norm_num)
  constructor
  · rw [OrderlyRnd.ratio_mid (by norm_num) (by norm_num)]
    simp only [interpolationSwitch]
    rw [if_neg (fun h => absurd (hr.lt_half.1 h) (by norm_num)), hr.consts.2.2.2.2, hr.consts.2.1, hr.consts.2.2.1]
    simp only [Fl.num_sub, Fl.num_mul, Fl.one_def]
    have r0 : rne 24 (4 * (1 - 2898 / 2 ^ 24) : ℝ) = 4 * (1 - 2898 / 2 ^ 24) :=
      float_fix (2 ^ 24 - 2898) (-22) (by norm_num) (by norm_num)
    have r1 : rne 24 (4 * (1 - 2898 / 2 ^ 24) - 8 : ℝ) = -(4 + 11592 / 2 ^ 24) := by
      rw [show (4 * (1 - 2898 / 2 ^ 24) - 8 : ℝ) = -(4 + 11592 / 2 ^ 24) by norm_num, rne_neg,
        float_fix (2 ^ 23 + 1449) (-21) (by norm_num) (by norm_num)]
    have r2 : rne 24 (-(4 + 11592 / 2 ^ 24) * (1 - 2898 / 2 ^ 24) : ℝ) = -(4 - 4 / 2 ^ 24) := by
      rw [neg_mul, rne_neg, rne_eq (-22) (2 ^ 24 - 1) (by norm_num) (by norm_num) (by rw [abs_lt]; norm_num)]
      norm_num
    have r3 : rne 24 (1 - -(4 - 4 / 2 ^ 24) : ℝ) = 5 := by
      rw [rne_tie (-21) (5 * 2 ^ 21) (by norm_num) (by norm_num) (by norm_num) (by rw [abs_le]; norm_num)]
      norm_num
    rw [r0, r1, r2, r3, show (5 - 4 : ℝ) = 1 by norm_num, hr.one, Fl.fl_sqrt, if_neg (by norm_num), Real.sqrt_one, hr.one,
      Fl.num_add, show (1 + 1 : ℝ) = 2 by norm_num, hr.two, Fl.num_mul, show (1 / 2 * 2 : ℝ) = 1 by norm_num, hr.one]
  · rw [OrderlyRnd.ratio_mid (by norm_num) (by norm_num)]
    simp only [interpolationSwitch]
    rw [if_neg (fun h => absurd (hr.lt_half.1 h) (by norm_num)), hr.consts.2.2.2.2, hr.consts.2.1, hr.consts.2.2.1]
    simp only [Fl.num_sub, Fl.num_mul, Fl.one_def]
    have r0 : rne 24 (4 * (1 - 2897 / 2 ^ 24) : ℝ) = 4 * (1 - 2897 / 2 ^ 24) :=
      float_fix (2 ^ 24 - 2897) (-22) (by norm_num) (by norm_num)
    have r1 : rne 24 (4 * (1 - 2897 / 2 ^ 24) - 8 : ℝ) = -(4 + 11584 / 2 ^ 24) := by
      rw [show (4 * (1 - 2897 / 2 ^ 24) - 8 : ℝ) = -(4 + 11588 / 2 ^ 24) by norm_num, rne_neg,
        rne_tie (-21) (2 ^ 23 + 1448) (by norm_num) (by norm_num) (by norm_num) (by rw [abs_le]; norm_num)]
      norm_num
    have r2 : rne 24 (-(4 + 11584 / 2 ^ 24) * (1 - 2897 / 2 ^ 24) : ℝ) = -(4 - 8 / 2 ^ 24) := by
      rw [neg_mul, rne_neg, rne_eq (-22) (2 ^ 24 - 2) (by norm_num) (by norm_num) (by rw [abs_lt]; norm_num)]
      norm_num
    have r3 : rne 24 (1 - -(4 - 8 / 2 ^ 24) : ℝ) = 5 - 8 / 2 ^ 24 := by
      rw [show (1 - -(4 - 8 / 2 ^ 24) : ℝ) = 5 - 8 / 2 ^ 24 by norm_num]
      exact float_fix (5 * 2 ^ 21 - 1) (-21) (by norm_num) (by norm_num)
    have r4 : rne 24 (5 - 8 / 2 ^ 24 - 4 : ℝ) = 1 - 8 / 2 ^ 24 := by
      rw [show (5 - 8 / 2 ^ 24 - 4 : ℝ) = 1 - 8 / 2 ^ 24 by norm_num]
      exact float_fix (2 ^ 24 - 8) (-24) (by norm_num) (by norm_num)
    have r5 : rne 24 (√(1 - 8 / 2 ^ 24) : ℝ) = 1 - 4 / 2 ^ 24 := by
      have a1 : (1 - 17 / 4 / 2 ^ 24 : ℝ) ≤ √(1 - 8 / 2 ^ 24) := Real.le_sqrt_of_sq_le (by norm_num)
      have a2 : √(1 - 8 / 2 ^ 24 : ℝ) ≤ 1 - 4 / 2 ^ 24 := by
        rw [Real.sqrt_le_left (by norm_num)]; norm_num
      rw [rne_eq (-24) (2 ^ 24 - 4) (by norm_num1 at a1 ⊢; linarith) (by norm_num1 at a2 ⊢; linarith)
        (by rw [abs_lt]; norm_num1 at a1 a2 ⊢; constructor <;> linarith)]
      norm_num
    have r6 : rne 24 (1 - 4 / 2 ^ 24 + 1 : ℝ) = 2 - 4 / 2 ^ 24 := by
      rw [show (1 - 4 / 2 ^ 24 + 1 : ℝ) = 2 - 4 / 2 ^ 24 by norm_num]
      exact float_fix (2 ^ 24 - 2) (-23) (by norm_num) (by norm_num)
    have r7 : rne 24 (1 / 2 * (2 - 4 / 2 ^ 24) : ℝ) = 1 - 1 / 2 ^ 23 := by
      rw [show (1 / 2 * (2 - 4 / 2 ^ 24) : ℝ) = 1 - 1 / 2 ^ 23 by norm_num]
      exact float_fix (2 ^ 24 - 2) (-24) (by norm_num) (by norm_num)
    rw [r0, r1, r2, r3, r4, Fl.fl_sqrt, if_neg (by norm_num), r5, Fl.num_add, r6, Fl.num_mul, r7]

/-! ## Errors -/

/-- the modes without library functions -/
def InterpolationMode.polynomial (m : InterpolationMode) : Prop :=
  m = Linear ∨ m = Parabolic ∨ m = Cubic ∨ m = QuadraticIn ∨ m = QuadraticOut ∨ m = QuadraticInOut ∨ m = CubicIn ∨
  m = CubicOut ∨ m = CubicInOut ∨ m = QuarticIn ∨ m = QuarticOut ∨ m = QuarticInOut ∨ m = QuinticIn ∨ m = QuinticOut ∨
  m = QuinticInOut

/-- C154: the error of these modes is a few units in the last place of 1, also where they are not monotone. -/
theorem C154_error {p : ℕ} (hp : 12 ≤ p) (m : InterpolationMode) (hm : m.polynomial) (t : ℝ) :
    ∃ x, interpolationRatio (.num t : Fl ℝ (rne p)) m = .num x ∧
      |x - interpolationRatio t m| ≤ 50 * 2 ^ (-(p : ℤ)) := by
  have w0 := zpow2_pos (K := ℝ) (-(p : ℤ))
  rcases le_or_gt t 0 with h0 | h0
  · refine ⟨0, OrderlyRnd.ratio_nonpos h0 m, ?_⟩
    rw [interpolationRatio, if_pos h0, sub_zero, abs_zero]; positivity
  rcases le_or_gt 1 t with h1 | h1
  · refine ⟨1, OrderlyRnd.ratio_ge h1 m, ?_⟩
    rw [interpolationRatio, if_neg (by linarith), if_pos h1, sub_self, abs_zero]; positivity
  rw [OrderlyRnd.ratio_mid h0 h1, interpolationRatio, if_neg (by linarith), if_neg (by linarith)]
  have hr := isRel_rne p (by omega)
  have ho := orderly_rne (p := p) (by omega)
  obtain ⟨l3, l12⟩ := lits (p := p) (by omega)
  have hu : (2 : ℝ) ^ (-(p : ℤ)) ≤ 1 / 4096 := by
    have : (2 : ℝ) ^ (-(p : ℤ)) ≤ 2 ^ (-12 : ℤ) := zpow_le_zpow_right₀ one_le_two (by omega)
    norm_num at this ⊢; exact this
  set u := (2 : ℝ) ^ (-(p : ℤ))
  have T : Apx u (.num t : Fl ℝ (rne p)) t 0 1 := Apx.num (by rw [abs_le]; constructor <;> linarith)
  have fin : ∀ {a : Fl ℝ (rne p)} {x e M : ℝ}, Apx u a x e M → e ≤ 50 →
      ∃ v, a = .num v ∧ |v - x| ≤ 50 * u := fun ⟨v, h, k, _⟩ he => ⟨v, h, k.trans (mul_le_mul_of_nonneg_right he w0.le)⟩
  have mu : ∀ {a b : Fl ℝ (rne p)} {x y e₁ e₂ : ℝ}, Apx u a x e₁ 1 → Apx u b y e₂ 1 → 0 ≤ e₂ →
      Apx u (a * b) (x * y) ((e₁ * (1 + e₂ / 4096) + e₂) * (4097 / 4096) + 1) 1 := fun ha hb h => by
    have k1 := ha.choose_spec.2.2
    have k2 := hb.choose_spec.2.2
    exact Apx.mul hr hu ha hb h (by rw [abs_mul]; exact mul_le_one₀ k1 (abs_nonneg _) k2) (by linarith)
  have T2 := mu T T le_rfl
  have T3 := mu T2 T le_rfl
  have T4 := mu T3 T le_rfl
  have T5 := mu T4 T le_rfl
  have O : Apx u (1 : Fl ℝ (rne p)) 1 0 1 := Apx.num (by norm_num)
  have D : Apx u (.num t - 1 : Fl ℝ (rne p)) (t - 1) 1 1 :=
    Apx.sub hr hu T O (by rw [abs_le]; constructor <;> linarith) (by norm_num)
  have D2 := mu D D (by norm_num)
  have D3 := mu D2 D (by norm_num)
  have D4 := mu D3 D (by norm_num)
  have D5 := mu D4 D (by norm_num)
  have N2 : Apx u (2 : Fl ℝ (rne p)) 2 0 2 := by rw [ho.consts.1]; exact Apx.num (by norm_num)
  have N3 : Apx u (3 : Fl ℝ (rne p)) 3 0 3 := by rw [l3]; exact Apx.num (by norm_num)
  have N4 : Apx u (4 : Fl ℝ (rne p)) 4 0 4 := by rw [ho.consts.2.1]; exact Apx.num (by norm_num)
  have N8 : Apx u (8 : Fl ℝ (rne p)) 8 0 8 := by rw [ho.consts.2.2.1]; exact Apx.num (by norm_num)
  have N12 : Apx u (12 : Fl ℝ (rne p)) 12 0 12 := by rw [l12]; exact Apx.num (by norm_num)
  have N16 : Apx u (16 : Fl ℝ (rne p)) 16 0 16 := by rw [ho.consts.2.2.2.1]; exact Apx.num (by norm_num)
  have H : Apx u (1 / 2 : Fl ℝ (rne p)) (1 / 2) 0 (1 / 2) := by
    rw [ho.consts.2.2.2.2]; exact Apx.num (by norm_num [abs_of_pos])
  have low : t < 1 / 2 → ∀ {a : Fl ℝ (rne p)} {x e M : ℝ}, Apx u a x e M → 0 ≤ e →
      Apx u (a * .num t) (x * t) (e * (4097 / 4096) + M) (M / 2) := fun h a x e M ha he => by
    have k := ha.choose_spec.2.2
    have k0 := (abs_nonneg _).trans k
    have : |x * t| ≤ M / 2 := by
      rw [abs_mul, abs_of_pos h0]
      nlinarith [abs_nonneg x]
    exact Apx.mul hr hu ha T le_rfl this (by linarith)
  have up : 1 / 2 ≤ t → Apx u (2 * .num t - 2 : Fl ℝ (rne p)) (2 * t - 2) 3.01 1 := fun h =>
    Apx.sub hr hu (Apx.mul hr hu N2 T (M := 2) (e := 2) le_rfl (by rw [abs_le]; constructor <;> linarith) (by norm_num))
      N2 (by rw [abs_le]; constructor <;> linarith) (by norm_num)
  have half : (.num t : Fl ℝ (rne p)) < 1 / 2 ↔ t < 1 / 2 := ho.lt_half
  rcases hm with rfl | rfl | rfl | rfl | rfl | rfl | rfl | rfl | rfl | rfl | rfl | rfl | rfl | rfl | rfl <;>
    simp only [interpolationSwitch]
  · exact fin T (by norm_num)
  · exact fin T2 (by norm_num)
  · exact fin T3 (by norm_num)
  · exact fin T2 (by norm_num)
  · refine fin (Apx.mul hr hu T (Apx.sub hr hu N2 T (M := 2) (e := 2) (by rw [abs_le]; constructor <;> linarith)
      (by norm_num)) (M := 1) (e := 4) (by norm_num) (by rw [abs_le]; constructor <;> nlinarith) (by norm_num)) (by norm_num)
  · rcases lt_or_ge t (1 / 2) with h | h
    · rw [if_pos (half.2 h), if_pos h]
      exact fin (low h (low h N2 le_rfl) (by norm_num)) (by norm_num)
    · rw [if_neg (fun k => absurd (half.1 k) (by linarith)), if_neg (by linarith)]
      exact fin (Apx.sub hr hu (Apx.mul hr hu (Apx.add hr hu (Apx.mul hr hu N2.neg T (M := 2) (e := 2) le_rfl
        (by rw [abs_le]; constructor <;> linarith) (by norm_num)) N4 (M := 4) (e := 7)
        (by rw [abs_le]; constructor <;> linarith) (by norm_num)) T (M := 2) (e := 10) le_rfl
        (by rw [abs_le]; constructor <;> nlinarith) (by norm_num)) O (M := 1) (e := 12)
        (by rw [abs_le]; constructor <;> nlinarith) (by norm_num)) (by norm_num)
  · exact fin T3 (by norm_num)
  · exact fin (Apx.mul hr hu T (Apx.add hr hu (Apx.mul hr hu T (Apx.sub hr hu T N3 (M := 3) (e := 3)
        (by rw [abs_le]; constructor <;> linarith) (by norm_num)) (M := 2) (e := 6) (by norm_num)
        (by rw [abs_le]; constructor <;> nlinarith) (by norm_num)) N3 (M := 3) (e := 10)
        (by rw [abs_le]; constructor <;> nlinarith) (by norm_num)) (M := 3) (e := 16) (by norm_num)
        (by
          have : 0 ≤ t * (t - 3) + 3 ∧ t * (t - 3) + 3 ≤ 3 := by constructor <;> nlinarith
          rw [abs_mul, abs_of_pos h0, abs_of_nonneg this.1]
          nlinarith [this.2]) (by norm_num)) (by norm_num)
  · rcases lt_or_ge t (1 / 2) with h | h
    · rw [if_pos (half.2 h), if_pos h]
      exact fin (low h (low h (low h N4 le_rfl) (by norm_num)) (by norm_num)) (by norm_num)
    · rw [if_neg (fun k => absurd (half.1 k) (by linarith)), if_neg (by linarith)]
      have b : 0 ≤ (4 * t - 12) * t + 12 ∧ (4 * t - 12) * t + 12 ≤ 7 := by constructor <;> nlinarith
      have c : ((4 * t - 12) * t + 12) * t - 3 = 1 - 4 * (1 - t) ^ 3 := by ring
      have c1 : 0 ≤ (1 - t) ^ 3 := by have : 0 < 1 - t := by linarith
                                      positivity
      have c2 : (1 - t) ^ 3 ≤ (1 / 2) ^ 3 := pow_le_pow_left₀ (by linarith) (by linarith) 3
      norm_num1 at c2
      exact fin (Apx.sub hr hu (Apx.mul hr hu (Apx.add hr hu (Apx.mul hr hu (Apx.sub hr hu (Apx.mul hr hu N4 T (M := 4)
        (e := 4) le_rfl (by rw [abs_le]; constructor <;> linarith) (by norm_num)) N12 (M := 12) (e := 17)
        (by rw [abs_le]; constructor <;> linarith) (by norm_num)) T (M := 8) (e := 26) le_rfl
        (by rw [abs_le]; constructor <;> nlinarith) (by norm_num)) N12 (M := 7) (e := 34)
        (by rw [abs_le]; constructor <;> linarith [b.1, b.2]) (by norm_num)) T (M := 4) (e := 39) le_rfl
        (by rw [abs_le]; constructor <;> linarith) (by norm_num)) N3 (M := 1) (e := 41)
        (by rw [abs_le]; constructor <;> linarith) (by norm_num)) (by norm_num)
  · exact fin T4 (by norm_num)
  · have := mu (mu (mu D.neg D (by norm_num)) D (by norm_num)) D (by norm_num)
    exact fin (Apx.add hr hu this O (M := 2) (e := 20) (by
      have := this.choose_spec.2.2
      exact (abs_add_le _ _).trans (by rw [abs_one]; linarith)) (by norm_num)) (by norm_num)
  · rcases lt_or_ge t (1 / 2) with h | h
    · rw [if_pos (half.2 h), if_pos h]
      exact fin (low h (low h (low h (low h N8 le_rfl) (by norm_num)) (by norm_num)) (by norm_num)) (by norm_num)
    · rw [if_neg (fun k => absurd (half.1 k) (by linarith)), if_neg (by linarith)]
      have U := up h
      have U4 := mu (mu (mu U U (by norm_num)) U (by norm_num)) U (by norm_num)
      have b := abs_le.1 U4.choose_spec.2.2
      have V := Apx.sub hr hu U4 N2 (M := 3) (e := 20) (by rw [abs_le]; constructor <;> linarith [b.1, b.2]) (by norm_num)
      have b' := abs_le.1 V.choose_spec.2.2
      exact fin (Apx.mul hr hu H.neg V (M := 3) (e := 20) (by norm_num)
        (by rw [abs_le]; constructor <;> linarith [b'.1, b'.2]) (by norm_num)) (by norm_num)
  · exact fin T5 (by norm_num)
  · exact fin (Apx.add hr hu D5 O (M := 2) (e := 20) (by
      have := D5.choose_spec.2.2
      exact (abs_add_le _ _).trans (by rw [abs_one]; linarith)) (by norm_num)) (by norm_num)
  · rcases lt_or_ge t (1 / 2) with h | h
    · rw [if_pos (half.2 h), if_pos h]
      exact fin (low h (low h (low h (low h (low h N16 le_rfl) (by norm_num)) (by norm_num)) (by norm_num))
        (by norm_num)) (by norm_num)
    · rw [if_neg (fun k => absurd (half.1 k) (by linarith)), if_neg (by linarith)]
      have U := up h
      have U5 := mu (mu (mu (mu U U (by norm_num)) U (by norm_num)) U (by norm_num)) U (by norm_num)
      have b := abs_le.1 U5.choose_spec.2.2
      have V := Apx.add hr hu U5 N2 (M := 3) (e := 24) (by rw [abs_le]; constructor <;> linarith [b.1, b.2]) (by norm_num)
      have b' := abs_le.1 V.choose_spec.2.2
      exact fin (Apx.mul hr hu H V (M := 3) (e := 20) (by norm_num)
        (by rw [abs_le]; constructor <;> linarith [b'.1, b'.2]) (by norm_num)) (by norm_num)

/-- The claim in full: in `float` every mode which is monotone in exact arithmetic (C10) is monotone. -/
def C154_full : Prop :=
  ∀ m : InterpolationMode, Monotone (fun t : ℝ => interpolationRatio t m) →
    ∀ s t : ℝ, Rep 24 s → Rep 24 t → s ≤ t →
      interpolationRatio (.num s : Fl ℝ (rne 24)) m ≤ interpolationRatio (.num t : Fl ℝ (rne 24)) m

theorem C154_refuted : ¬ C154_full := by
  intro h
  have hp : (4 : ℕ) ≤ 24 := by norm_num
  have h1 := h CubicOut ?_ (1 - 2 * 2 ^ (-24 : ℤ)) 1 ⟨2 ^ 24 - 2, -24, by norm_num, by norm_num⟩
    ⟨1, 0, by norm_num, by norm_num⟩ (by norm_num)
  · have := (C154_cubic_refuted (p := 24) hp).1
    rw [Nat.cast_ofNat] at this
    rw [this, OrderlyRnd.ratio_ge le_rfl, Fl.num_le] at h1
    norm_num at h1
  · exact C10_monotone_partial CubicOut (by simp) (by simp) (by simp)

/-- `float` and `double` meet the hypotheses, and so do most modes. -/
example : OrderlyRnd (rne 24 : ℝ → ℝ) ∧ OrderlyRnd (rne 53 : ℝ → ℝ) ∧ QuarticInOut.stepwise ∧ SinusoidalOut.orderly ∧
    CubicInOut.polynomial ∧ Rep 24 (3 / 4 : ℝ) := by
  refine ⟨orderly_rne (by norm_num), orderly_rne (by norm_num), by simp [InterpolationMode.stepwise],
    by simp [InterpolationMode.orderly], by simp [InterpolationMode.polynomial], ⟨3, -2, by norm_num, by norm_num⟩⟩

end MathLib
