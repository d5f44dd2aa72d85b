import Verif.Proof.Easing
import Verif.Props.Scalar
import Verif.Proof.VecLemmas
import Mathlib.Analysis.SpecialFunctions.Pow.Continuity

/-! # Properties C09-C14: interpolation -/

namespace MathLib
open InterpolationMode

/-! ## C09 range -/

/-- Ends: 0 up to `t = 0`, 1 from `t = 1` on, every mode. -/
theorem C09_ends (t : ℝ) (m : InterpolationMode) :
    (t ≤ 0 → interpolationRatio t m = 0) ∧ (1 ≤ t → interpolationRatio t m = 1) := by
  refine ⟨fun h => by rw [interpolationRatio, if_pos h], fun h => ?_⟩
  rw [interpolationRatio, if_neg (by linarith), if_pos h]

/-- The ratio lies in `[0,1]` for every `t` and every mode outside the family
ExponentialIn/Out/InOut.  Missing: those three modes, for which the claim is false
(`C09_range_refuted`); for them see `C09_range_exponential_partial`. -/
theorem C09_range_partial (t : ℝ) (m : InterpolationMode)
    (h1 : m ≠ ExponentialIn) (h2 : m ≠ ExponentialOut) (h3 : m ≠ ExponentialInOut) :
    0 ≤ interpolationRatio t m ∧ interpolationRatio t m ≤ 1 := by
  have hm : m.isExp10 = false := by cases m <;> simp_all [InterpolationMode.isExp10]
  unfold interpolationRatio
  split_ifs with c1 c2
  · norm_num
  · norm_num
  · rw [switch_eq_shape]
    have := easeShape_range (easeKind m) (easeBase m) 0 le_rfl
      (by simpa using fun t h0 h1 => easeBase_range m hm t ⟨h0, h1⟩) t
      ⟨(not_le.1 c1).le, (not_le.1 c2).le⟩
    simpa using this

example : Cosine ≠ ExponentialIn ∧ Cosine ≠ ExponentialOut ∧ Cosine ≠ ExponentialInOut := by decide

/-- All modes stay within `3e-6` of `[0,1]`. -/
theorem C09_range_exponential_partial (t : ℝ) (m : InterpolationMode) :
    -(3e-6) ≤ interpolationRatio t m ∧ interpolationRatio t m ≤ 1 + 3e-6 := by
  by_cases hm : m.isExp10 = false
  · have := C09_range_partial t m (by rintro rfl; simp [InterpolationMode.isExp10] at hm)
      (by rintro rfl; simp [InterpolationMode.isExp10] at hm)
      (by rintro rfl; simp [InterpolationMode.isExp10] at hm)
    constructor <;> norm_num <;> linarith
  · unfold interpolationRatio
    split_ifs with c1 c2
    · norm_num
    · norm_num
    · rw [switch_eq_shape]
      have hb : easeBase m = fun t => ((2 : ℝ) ^ (10 * (t - 1)) - 2097153 / 2147483648) * (8396829 / 8388608) := by
        cases m <;> simp [InterpolationMode.isExp10] at hm <;> rfl
      exact easeShape_range (easeKind m) (easeBase m) 3e-6 (by norm_num)
        (fun t ht => by rw [hb]; exact exp10Base_range t ht) t
        ⟨(not_le.1 c1).le, (not_le.1 c2).le⟩

theorem exp10_near_one : (1 : ℝ) < ((2 : ℝ) ^ (10 * ((1 - 1e-7 : ℝ) - 1)) - 2097153 / 2147483648) * (8396829 / 8388608) := by
  have := two_rpow_neg_ge (x := 1e-6) (by norm_num) (by norm_num)
  rw [show (10 : ℝ) * ((1 - 1e-7 : ℝ) - 1) = -1e-6 by norm_num]
  norm_num at *
  linarith

theorem exp10_near_zero : ((2 : ℝ) ^ (10 * ((1e-8 : ℝ) - 1)) - 2097153 / 2147483648) * (8396829 / 8388608) < 0 := by
  have := two_rpow_le (x := 1e-7) (by norm_num) (by norm_num)
  rw [show (10 : ℝ) * ((1e-8 : ℝ) - 1) = 1e-7 + -((10 : ℕ) : ℝ) by norm_num,
    Real.rpow_add (by norm_num), Real.rpow_neg (by norm_num), Real.rpow_natCast]
  norm_num at *
  linarith

/-- The claim is false for the three Exponential modes: each leaves `[0,1]` on both sides. -/
theorem C09_range_refuted (m : InterpolationMode)
    (hm : m = ExponentialIn ∨ m = ExponentialOut ∨ m = ExponentialInOut) :
    (∃ t : ℝ, 0 < t ∧ t < 1 ∧ interpolationRatio t m < 0) ∧
    (∃ t : ℝ, 0 < t ∧ t < 1 ∧ 1 < interpolationRatio t m) := by
  have ev : ∀ t : ℝ, 0 < t → t < 1 → ∀ m, interpolationRatio t m =
      easeShape (easeKind m) (easeBase m) t := by
    intro t h0 h1 m
    rw [interpolationRatio, if_neg (by linarith), if_neg (by linarith), switch_eq_shape]
  rcases hm with rfl | rfl | rfl
  · refine ⟨⟨1e-8, by norm_num, by norm_num, ?_⟩, ⟨1 - 1e-7, by norm_num, by norm_num, ?_⟩⟩
    · rw [ev _ (by norm_num) (by norm_num)]; exact exp10_near_zero
    · rw [ev _ (by norm_num) (by norm_num)]; exact exp10_near_one
  · refine ⟨⟨1e-7, by norm_num, by norm_num, ?_⟩, ⟨1 - 1e-8, by norm_num, by norm_num, ?_⟩⟩
    · rw [ev _ (by norm_num) (by norm_num)]
      have := exp10_near_one
      simp only [easeShape, easeKind, easeBase]; linarith
    · rw [ev _ (by norm_num) (by norm_num)]
      have := exp10_near_zero
      simp only [easeShape, easeKind, easeBase]
      rw [show (1 : ℝ) - (1 - 1e-8) = 1e-8 by ring]; linarith
  · refine ⟨⟨1e-8 / 2, by norm_num, by norm_num, ?_⟩, ⟨1 - 1e-8 / 2, by norm_num, by norm_num, ?_⟩⟩
    · rw [ev _ (by norm_num) (by norm_num)]
      have := exp10_near_zero
      simp only [easeShape, easeKind, easeBase]
      rw [if_pos (by norm_num), show (2 : ℝ) * (1e-8 / 2) = 1e-8 by ring]; linarith
    · rw [ev _ (by norm_num) (by norm_num)]
      have := exp10_near_zero
      simp only [easeShape, easeKind, easeBase]
      rw [if_neg (by norm_num), show (2 : ℝ) - 2 * (1 - 1e-8 / 2) = 1e-8 by ring]; linarith

/-! ## C10 monotonicity -/

/-- Monotone in `t` on the whole line, for every mode outside ExponentialIn/Out/InOut.
Missing: those three (false, `C10_refuted`). -/
theorem C10_monotone_partial (m : InterpolationMode)
    (h1 : m ≠ ExponentialIn) (h2 : m ≠ ExponentialOut) (h3 : m ≠ ExponentialInOut) :
    Monotone (fun t : ℝ => interpolationRatio t m) := by
  have hm : m.isExp10 = false := by cases m <;> simp_all [InterpolationMode.isExp10]
  intro a b hab
  have ra := C09_range_partial a m h1 h2 h3
  have rb := C09_range_partial b m h1 h2 h3
  simp only
  rcases le_or_gt a 0 with ha | ha
  · rw [(C09_ends a m).1 ha]; exact rb.1
  rcases le_or_gt 1 b with hb | hb
  · rw [(C09_ends b m).2 hb]; exact ra.2
  rw [interpolationRatio, if_neg (by linarith), if_neg (by linarith), switch_eq_shape,
    interpolationRatio, if_neg (by linarith), if_neg (by linarith), switch_eq_shape]
  exact easeShape_mono _ _ (easeBase_mono m) (fun _ => (easeBase_one m hm).le)
    ⟨ha.le, by linarith⟩ ⟨by linarith, hb.le⟩ hab

/-- ExponentialIn and ExponentialOut are still monotone inside the open interval, and
ExponentialInOut on each of its halves; what fails is crossing 0, 1/2 and 1. -/
theorem C10_exponential_partial :
    MonotoneOn (fun t : ℝ => interpolationRatio t ExponentialIn) (Set.Ioo 0 1) ∧
    MonotoneOn (fun t : ℝ => interpolationRatio t ExponentialOut) (Set.Ioo 0 1) ∧
    MonotoneOn (fun t : ℝ => interpolationRatio t ExponentialInOut) (Set.Ioo 0 (1 / 2)) ∧
    MonotoneOn (fun t : ℝ => interpolationRatio t ExponentialInOut) (Set.Ico (1 / 2) 1) := by
  have ev : ∀ t : ℝ, 0 < t → t < 1 → ∀ m, interpolationRatio t m =
      easeShape (easeKind m) (easeBase m) t := by
    intro t h0 h1 m
    rw [interpolationRatio, if_neg (by linarith), if_neg (by linarith), switch_eq_shape]
  refine ⟨?_, ?_, ?_, ?_⟩
  · intro a ha b hb hab
    simp only [ev a ha.1 ha.2, ev b hb.1 hb.2]
    exact easeShape_mono _ _ (easeBase_mono _) (by simp [easeKind]) ⟨ha.1.le, ha.2.le⟩
      ⟨hb.1.le, hb.2.le⟩ hab
  · intro a ha b hb hab
    simp only [ev a ha.1 ha.2, ev b hb.1 hb.2]
    exact easeShape_mono _ _ (easeBase_mono _) (by simp [easeKind]) ⟨ha.1.le, ha.2.le⟩
      ⟨hb.1.le, hb.2.le⟩ hab
  · intro a ha b hb hab
    simp only [ev a ha.1 (by linarith [ha.2]), ev b hb.1 (by linarith [hb.2])]
    simp only [easeShape, easeKind, if_pos ha.2, if_pos hb.2]
    have := easeBase_mono ExponentialInOut (a := 2 * a) (b := 2 * b)
      ⟨by linarith [ha.1], by linarith [ha.2]⟩ ⟨by linarith [hb.1], by linarith [hb.2]⟩
      (by linarith)
    linarith
  · intro a ha b hb hab
    simp only [ev a (by linarith [ha.1]) ha.2, ev b (by linarith [hb.1]) hb.2]
    simp only [easeShape, easeKind, if_neg (not_lt.2 ha.1), if_neg (not_lt.2 hb.1)]
    have := easeBase_mono ExponentialInOut (a := 2 - 2 * b) (b := 2 - 2 * a)
      ⟨by linarith [hb.2], by linarith [hb.1]⟩ ⟨by linarith [ha.2], by linarith [ha.1]⟩
      (by linarith)
    linarith

/-- The claim is false for the three Exponential modes. -/
theorem C10_refuted (m : InterpolationMode)
    (hm : m = ExponentialIn ∨ m = ExponentialOut ∨ m = ExponentialInOut) :
    ¬ Monotone (fun t : ℝ => interpolationRatio t m) := by
  intro h
  obtain ⟨⟨t, h0, h1, h2⟩, -⟩ := C09_range_refuted m hm
  have := h h0.le
  simp only [(C09_ends 0 m).1 le_rfl] at this
  linarith

/-! ## C11 duality -/

/-- Pairs (In mode, Out mode). -/
def inOutPairs : List (InterpolationMode × InterpolationMode) :=
  [(QuadraticIn, QuadraticOut), (CubicIn, CubicOut), (QuarticIn, QuarticOut),
   (QuinticIn, QuinticOut), (SinusoidalIn, SinusoidalOut), (ExponentialIn, ExponentialOut),
   (Exponential2In, Exponential2Out), (CircularIn, CircularOut)]

/-- The In/Out modes and their InOut mode. -/
def inOutModes : List (InterpolationMode × InterpolationMode) :=
  [(QuadraticIn, QuadraticInOut), (CubicIn, CubicInOut), (QuarticIn, QuarticInOut),
   (QuinticIn, QuinticInOut), (SinusoidalIn, SinusoidalInOut), (ExponentialIn, ExponentialInOut),
   (Exponential2In, Exponential2InOut), (CircularIn, CircularInOut)]

/-- `Out(t) = 1 - In(1-t)`, all eight families, all `t`. -/
theorem C11_out_dual (t : ℝ) (p : InterpolationMode × InterpolationMode) (hp : p ∈ inOutPairs) :
    interpolationRatio t p.2 = 1 - interpolationRatio (1 - t) p.1 := by
  have hk : easeKind p.1 = .inn ∧ easeKind p.2 = .out ∧ easeBase p.1 = easeBase p.2 := by
    simp only [inOutPairs, List.mem_cons, List.not_mem_nil, or_false] at hp
    rcases hp with rfl | rfl | rfl | rfl | rfl | rfl | rfl | rfl <;>
      exact ⟨rfl, rfl, rfl⟩
  rcases le_or_gt t 0 with h | h
  · rw [(C09_ends _ _).1 h, (C09_ends (1 - t) _).2 (by linarith)]; ring
  rcases le_or_gt 1 t with h' | h'
  · rw [(C09_ends _ _).2 h', (C09_ends (1 - t) _).1 (by linarith)]; ring
  rw [interpolationRatio, if_neg (by linarith), if_neg (by linarith), switch_eq_shape,
    interpolationRatio, if_neg (by linarith), if_neg (by linarith), switch_eq_shape, hk.1, hk.2.1,
    hk.2.2]
  simp [easeShape]

/-- InOut modes: point symmetry about (1/2, 1/2) away from the switch point, and each half is the
In (resp. mirrored In) curve at double speed. -/
theorem C11_inOut_symmetric (t : ℝ) (p : InterpolationMode × InterpolationMode)
    (hp : p ∈ inOutModes) (ht : t ≠ 1 / 2) :
    interpolationRatio (1 - t) p.2 = 1 - interpolationRatio t p.2 ∧
    (t < 1 / 2 → interpolationRatio t p.2 = interpolationRatio (2 * t) p.1 / 2) := by
  have hk : easeKind p.1 = .inn ∧ easeKind p.2 = .inOut ∧ easeBase p.1 = easeBase p.2 := by
    simp only [inOutModes, List.mem_cons, List.not_mem_nil, or_false] at hp
    rcases hp with rfl | rfl | rfl | rfl | rfl | rfl | rfl | rfl <;>
      exact ⟨rfl, rfl, rfl⟩
  rcases le_or_gt t 0 with h | h
  · rw [(C09_ends _ _).1 h, (C09_ends (1 - t) _).2 (by linarith),
      (C09_ends (2 * t) _).1 (by linarith)]; norm_num
  rcases le_or_gt 1 t with h' | h'
  · rw [(C09_ends _ _).2 h', (C09_ends (1 - t) _).1 (by linarith)]
    exact ⟨by ring, fun h => by linarith⟩
  have ev : ∀ t : ℝ, 0 < t → t < 1 → ∀ m, interpolationRatio t m =
      easeShape (easeKind m) (easeBase m) t := by
    intro t h0 h1 m
    rw [interpolationRatio, if_neg (by linarith), if_neg (by linarith), switch_eq_shape]
  constructor
  · rw [ev _ (by linarith) (by linarith), ev _ h h', hk.2.1]
    simp only [easeShape]
    rcases lt_or_gt_of_ne ht with c | c
    · rw [if_pos c, if_neg (by linarith)]
      rw [show 2 - 2 * (1 - t) = 2 * t by ring]
    · rw [if_neg (show ¬ t < 1 / 2 by linarith), if_pos (by linarith)]
      rw [show 2 * (1 - t) = 2 - 2 * t by ring]; ring
  · intro c
    rw [ev _ h h', ev (2 * t) (by linarith) (by linarith), hk.1, hk.2.1, hk.2.2]
    simp only [easeShape, if_pos c]

/-- Seven of the eight InOut modes are 1/2 at 1/2 (so the symmetry holds there too).
Missing: ExponentialInOut (`C11_half_refuted`). -/
theorem C11_half_partial (p : InterpolationMode × InterpolationMode) (hp : p ∈ inOutModes)
    (hne : p.2 ≠ ExponentialInOut) : interpolationRatio (1 / 2 : ℝ) p.2 = 1 / 2 := by
  have hk : easeKind p.2 = .inOut ∧ p.2.isExp10 = false := by
    simp only [inOutModes, List.mem_cons, List.not_mem_nil, or_false] at hp
    rcases hp with rfl | rfl | rfl | rfl | rfl | rfl | rfl | rfl <;> first
      | exact ⟨rfl, rfl⟩ | simp at hne
  rw [interpolationRatio, if_neg (by norm_num), if_neg (by norm_num), switch_eq_shape, hk.1]
  simp only [easeShape]
  rw [if_neg (lt_irrefl _), show (2 : ℝ) - 2 * (1 / 2) = 1 by norm_num, easeBase_one _ hk.2]
  norm_num

/-- Continuity across the switch point, for the same seven modes. -/
theorem C11_continuous_partial (p : InterpolationMode × InterpolationMode) (hp : p ∈ inOutModes)
    (hne : p.2 ≠ ExponentialInOut) : ContinuousAt (fun t : ℝ => interpolationRatio t p.2) (1 / 2) := by
  have hk : easeKind p.2 = .inOut ∧ p.2.isExp10 = false ∧ ContinuousAt (easeBase p.2) 1 := by
    simp only [inOutModes, List.mem_cons, List.not_mem_nil, or_false] at hp
    rcases hp with rfl | rfl | rfl | rfl | rfl | rfl | rfl | rfl <;> first
      | (simp at hne; done) | (refine ⟨rfl, rfl, ?_⟩; unfold easeBase)
    all_goals first
      | (apply Continuous.continuousAt; fun_prop)
      | skip
    · apply Continuous.continuousAt
      exact Continuous.rpow (by fun_prop) (by fun_prop) (by norm_num)
  have hev : (fun t : ℝ => interpolationRatio t p.2) =ᶠ[nhds (1 / 2)]
      (fun t => if t < 1 / 2 then easeBase p.2 (2 * t) / 2 else 1 - easeBase p.2 (2 - 2 * t) / 2) := by
    filter_upwards [Ioo_mem_nhds (show (0 : ℝ) < 1 / 2 by norm_num)
      (show (1 / 2 : ℝ) < 1 by norm_num)] with t ht
    rw [interpolationRatio, if_neg (by linarith [ht.1]), if_neg (by linarith [ht.2]),
      switch_eq_shape, hk.1]
    rfl
  rw [continuousAt_congr hev]
  have c1 : ContinuousAt (fun t => easeBase p.2 (2 * t) / 2) (1 / 2) := by
    apply ContinuousAt.div_const
    apply ContinuousAt.comp (g := easeBase p.2) (f := fun t : ℝ => 2 * t)
    · simpa using hk.2.2
    · fun_prop
  have c2 : ContinuousAt (fun t => 1 - easeBase p.2 (2 - 2 * t) / 2) (1 / 2) := by
    apply ContinuousAt.sub continuousAt_const
    apply ContinuousAt.div_const
    apply ContinuousAt.comp (g := easeBase p.2) (f := fun t : ℝ => 2 - 2 * t)
    · rw [show (2 : ℝ) - 2 * (1 / 2) = 1 by norm_num]; exact hk.2.2
    · fun_prop
  have e1 : easeBase p.2 (2 * (1 / 2)) / 2 = 1 / 2 := by
    rw [show (2 : ℝ) * (1 / 2) = 1 by norm_num, easeBase_one _ hk.2.1]
  have e2 : 1 - easeBase p.2 (2 - 2 * (1 / 2)) / 2 = 1 / 2 := by
    rw [show (2 : ℝ) - 2 * (1 / 2) = 1 by norm_num, easeBase_one _ hk.2.1]; norm_num
  unfold ContinuousAt at *
  beta_reduce at *
  rw [if_neg (lt_irrefl _), e2]
  rw [e1] at c1
  rw [e2] at c2
  exact Filter.Tendsto.if' c1 c2

/-- ExponentialInOut misses 1/2 at the switch point and jumps downwards there. -/
theorem C11_half_refuted :
    interpolationRatio (1 / 2 : ℝ) ExponentialInOut < 1 / 2 ∧
    ∃ t : ℝ, t < 1 / 2 ∧ 1 / 2 < interpolationRatio t ExponentialInOut := by
  constructor
  · rw [interpolationRatio, if_neg (by norm_num), if_neg (by norm_num), switch_eq_shape]
    simp only [easeShape, easeKind, easeBase]
    rw [if_neg (lt_irrefl _)]
    norm_num
  · refine ⟨(1 - 1e-7) / 2, by norm_num, ?_⟩
    have := exp10_near_one
    rw [interpolationRatio, if_neg (by norm_num), if_neg (by norm_num), switch_eq_shape]
    simp only [easeShape, easeKind, easeBase]
    rw [if_pos (by norm_num), show (2 : ℝ) * ((1 - 1e-7) / 2) = 1 - 1e-7 by ring]
    linarith

/-! ## C12 lerp -/

/-- Ends, betweenness, monotonicity and the affine form of the scalar `lerp`. -/
theorem C12_lerp (a b r : ℝ) :
    lerp a b 0 = a ∧ lerp a b 1 = b ∧ lerp a b r = (1 - r) * a + r * b ∧
    (0 ≤ r → r ≤ 1 → lerp a b r ∈ Set.uIcc a b) ∧
    (a ≤ b → Monotone (lerp a b)) ∧ (b ≤ a → Antitone (lerp a b)) := by
  unfold lerp
  refine ⟨by ring, by ring, by ring, ?_, ?_, ?_⟩
  · intro h0 h1
    rw [Set.mem_uIcc]
    rcases le_total a b with h | h
    · left; constructor <;> nlinarith
    · right; constructor <;> nlinarith
  · intro h s t hst; simp only; nlinarith
  · intro h s t hst; simp only; nlinarith

/-- The vector overloads interpolate each component. -/
theorem C12_lerp_vec (a b : Vec3 ℝ) (a2 b2 : Vec2 ℝ) (r : ℝ) :
    (lerpVec3 a b 0 = a ∧ lerpVec3 a b 1 = b) ∧ (lerpVec2 a2 b2 0 = a2 ∧ lerpVec2 a2 b2 1 = b2) ∧
    lerpVec3 a b r = ⟨lerp a.x b.x r, lerp a.y b.y r, lerp a.z b.z r⟩ ∧
    lerpVec2 a2 b2 r = ⟨lerp a2.x b2.x r, lerp a2.y b2.y r⟩ ∧
    lerpVec3 a b r = a * (1 - r) + b * r ∧ lerpVec2 a2 b2 r = a2 * (1 - r) + b2 * r := by
  refine ⟨⟨?_, ?_⟩, ⟨?_, ?_⟩, rfl, rfl, ?_, ?_⟩ <;> ext <;>
    simp only [lerpVec3, lerpVec2, Vec3.add_x, Vec3.add_y, Vec3.add_z, Vec3.mul_x, Vec3.mul_y,
      Vec3.mul_z, Vec2.add_x, Vec2.add_y, Vec2.mul_x, Vec2.mul_y] <;> ring

theorem truncR_between (x : ℝ) (d : ℤ) : (0 ≤ x → x ≤ d → 0 ≤ truncR x ∧ truncR x ≤ d) ∧
    (x ≤ 0 → (d : ℝ) ≤ x → truncR x ≤ 0 ∧ d ≤ truncR x) := by
  constructor
  · intro h0 h1
    rw [truncR, if_pos h0]
    exact ⟨Int.floor_nonneg.2 h0, Int.floor_le_iff.2 (by linarith)⟩
  · intro h0 h1
    rcases h0.lt_or_eq with h | rfl
    · rw [truncR, if_neg (by linarith)]
      exact ⟨Int.ceil_le.2 (by simpa using h0), Int.le_ceil_iff.2 (by linarith)⟩
    · have : d ≤ 0 := by exact_mod_cast h1
      simp [truncR, this]

/-- Integer `lerp`: if the ends are `int`s whose difference fits in an `int`, no overflow occurs,
the result lies between them, the ends are hit, and the real interpolant is missed by less
than 1. -/
theorem C12_lerp_int (a b : ℤ) (r : ℝ) (ha : intMin ≤ a ∧ a ≤ intMax) (hb : intMin ≤ b ∧ b ≤ intMax)
    (hd : intMin ≤ b - a ∧ b - a ≤ intMax) (h0 : 0 ≤ r) (h1 : r ≤ 1) :
    ∃ c : ℤ, lerpInt (fun i => (i : ℝ)) a b r = .ok c ∧ c ∈ Set.uIcc a b ∧
      |(c : ℝ) - (a + r * (b - a))| < 1 ∧ (r = 0 → c = a) ∧ (r = 1 → c = b) := by
  set s := truncR (r * ((b - a : ℤ) : ℝ)) with hs
  have key : (0 ≤ s ∧ s ≤ b - a) ∨ (s ≤ 0 ∧ b - a ≤ s) := by
    rcases le_total 0 (b - a) with h | h
    · left
      have h' : (0 : ℝ) ≤ ((b - a : ℤ) : ℝ) := by exact_mod_cast h
      exact (truncR_between _ (b - a)).1 (mul_nonneg h0 h') (by nlinarith)
    · right
      have h' : ((b - a : ℤ) : ℝ) ≤ 0 := by exact_mod_cast h
      exact (truncR_between _ (b - a)).2 (mul_nonpos_of_nonneg_of_nonpos h0 h') (by nlinarith)
  have near : |(s : ℝ) - r * ((b - a : ℤ) : ℝ)| < 1 := by
    have hb := truncR_bounds (r * ((b - a : ℤ) : ℝ))
    rw [← hs] at hb
    rw [abs_lt]
    rcases le_or_gt 0 (r * ((b - a : ℤ) : ℝ)) with h | h
    · have := hb.1 h; constructor <;> linarith [this.1, this.2]
    · have := hb.2 h; constructor <;> linarith [this.1, this.2]
  refine ⟨a + s, ?_, ?_, ?_, ?_, ?_⟩
  · simp only [lerpInt, mkInt, hd, and_self, if_true, bind, Except.bind, real_trunc, ← hs]
    have r1 : intMin ≤ s ∧ s ≤ intMax := by simp only [intMin, intMax] at *; omega
    have r2 : intMin ≤ a + s ∧ a + s ≤ intMax := by simp only [intMin, intMax] at *; omega
    rw [if_pos r1]
    simp only
    rw [if_pos r2]
  · rw [Set.mem_uIcc]; omega
  · push_cast at *
    convert near using 2; ring
  · rintro rfl
    simp [hs, truncR]
  · rintro rfl
    have : s = b - a := by
      rw [hs, one_mul, truncR]; split_ifs <;> simp
    omega

example : (intMin ≤ (-5 : ℤ) ∧ (-5 : ℤ) ≤ intMax) ∧ intMin ≤ (7 - -5 : ℤ) ∧ (7 - -5 : ℤ) ≤ intMax := by
  decide

/-- The moded overloads have the same end points: ratio 0 (or less) gives `from`, ratio 1 (or
more) gives `to`. -/
theorem C12_mode_ends (m : InterpolationMode) (r : ℝ) (a b : ℝ) (u v : Vec3 ℝ) (p q : Vec2 ℝ) :
    (r ≤ 0 → lerpMode a b r m = a ∧ lerpVec3Mode u v r m = u ∧ lerpVec2Mode p q r m = p) ∧
    (1 ≤ r → lerpMode a b r m = b ∧ lerpVec3Mode u v r m = v ∧ lerpVec2Mode p q r m = q) := by
  have hv := C12_lerp_vec u v p q r
  refine ⟨fun h => ?_, fun h => ?_⟩
  · simp only [lerpMode, lerpVec3Mode, lerpVec2Mode, (C09_ends r m).1 h]
    exact ⟨(C12_lerp a b 0).1, (C12_lerp_vec u v p q 0).1.1, (C12_lerp_vec u v p q 0).2.1.1⟩
  · simp only [lerpMode, lerpVec3Mode, lerpVec2Mode, (C09_ends r m).2 h]
    exact ⟨(C12_lerp a b 1).2.1, (C12_lerp_vec u v p q 0).1.2, (C12_lerp_vec u v p q 0).2.1.2⟩

/-- Moded integer overload: same statement as `C12_lerp_int` for any real ratio, every mode
outside ExponentialIn/Out/InOut (whose ratio may leave `[0,1]`, `C09_range_refuted`). -/
theorem C12_mode_int_partial (m : InterpolationMode) (r : ℝ) (a b : ℤ)
    (ha : intMin ≤ a ∧ a ≤ intMax) (hb : intMin ≤ b ∧ b ≤ intMax)
    (hd : intMin ≤ b - a ∧ b - a ≤ intMax)
    (h1 : m ≠ ExponentialIn) (h2 : m ≠ ExponentialOut) (h3 : m ≠ ExponentialInOut) :
    ∃ c : ℤ, lerpIntMode (fun i => (i : ℝ)) a b r m = .ok c ∧ c ∈ Set.uIcc a b ∧
      (r ≤ 0 → c = a) ∧ (1 ≤ r → c = b) := by
  obtain ⟨c, e1, e2, -, e4, e5⟩ := C12_lerp_int a b (interpolationRatio r m) ha hb hd
    (C09_range_partial r m h1 h2 h3).1 (C09_range_partial r m h1 h2 h3).2
  exact ⟨c, e1, e2, fun h => e4 ((C09_ends r m).1 h), fun h => e5 ((C09_ends r m).2 h)⟩

/-- every mode, when the ends are at most 333333 apart: the excess of the Exponential modes is cut off by the
conversion to `int` -/
theorem C12_mode_int_near_partial (m : InterpolationMode) (r : ℝ) (a b : ℤ)
    (ha : intMin ≤ a ∧ a ≤ intMax) (hb : intMin ≤ b ∧ b ≤ intMax) (hd : |b - a| ≤ 333333) :
    ∃ c : ℤ, lerpIntMode (fun i => (i : ℝ)) a b r m = .ok c ∧ c ∈ Set.uIcc a b := by
  obtain ⟨h0, h1⟩ := C09_range_exponential_partial r m
  set ρ := interpolationRatio r m with hρ
  set s := truncR (ρ * ((b - a : ℤ) : ℝ)) with hs
  obtain ⟨d0, d1⟩ := abs_le.1 hd
  have hb' := truncR_bounds (ρ * ((b - a : ℤ) : ℝ))
  rw [← hs] at hb'
  have e0 : ((-333333 : ℤ) : ℝ) ≤ ((b - a : ℤ) : ℝ) := by exact_mod_cast d0
  have e1 : ((b - a : ℤ) : ℝ) ≤ ((333333 : ℤ) : ℝ) := by exact_mod_cast d1
  push_cast at e0 e1
  have key : (0 ≤ s ∧ s ≤ b - a) ∨ (s ≤ 0 ∧ b - a ≤ s) := by
    rcases le_total 0 (b - a) with h | h
    · left
      have h' : (0 : ℝ) ≤ ((b - a : ℤ) : ℝ) := by exact_mod_cast h
      have l : -1 < ρ * ((b - a : ℤ) : ℝ) := by push_cast at *; nlinarith
      have g : ρ * ((b - a : ℤ) : ℝ) < ((b - a : ℤ) : ℝ) + 1 := by push_cast at *; nlinarith
      rcases le_or_gt 0 (ρ * ((b - a : ℤ) : ℝ)) with k | k
      · obtain ⟨t0, t1⟩ := hb'.1 k
        have u0 : (-1 : ℝ) < s := by linarith
        have u1 : (s : ℝ) < ((b - a + 1 : ℤ) : ℝ) := by push_cast at *; linarith
        have u0' : -1 < s := by exact_mod_cast u0
        have u1' : s < b - a + 1 := by exact_mod_cast u1
        omega
      · obtain ⟨t0, t1⟩ := hb'.2 k
        have u0 : (-1 : ℝ) < s := by linarith
        have u1 : (s : ℝ) < 1 := by linarith
        have u0' : -1 < s := by exact_mod_cast u0
        have u1' : s < 1 := by exact_mod_cast u1
        omega
    · right
      have h' : ((b - a : ℤ) : ℝ) ≤ 0 := by exact_mod_cast h
      have l : ρ * ((b - a : ℤ) : ℝ) < 1 := by push_cast at *; nlinarith
      have g : ((b - a : ℤ) : ℝ) - 1 < ρ * ((b - a : ℤ) : ℝ) := by push_cast at *; nlinarith
      rcases le_or_gt 0 (ρ * ((b - a : ℤ) : ℝ)) with k | k
      · obtain ⟨t0, t1⟩ := hb'.1 k
        have u0 : (-1 : ℝ) < s := by linarith
        have u1 : (s : ℝ) < 1 := by linarith
        have u0' : -1 < s := by exact_mod_cast u0
        have u1' : s < 1 := by exact_mod_cast u1
        omega
      · obtain ⟨t0, t1⟩ := hb'.2 k
        have u0 : (s : ℝ) < 1 := by linarith
        have u1 : ((b - a - 1 : ℤ) : ℝ) < s := by push_cast at *; linarith
        have u0' : s < 1 := by exact_mod_cast u0
        have u1' : b - a - 1 < s := by exact_mod_cast u1
        omega
  refine ⟨a + s, ?_, by rw [Set.mem_uIcc]; omega⟩
  simp only [lerpIntMode, lerpInt, mkInt, bind, Except.bind, real_trunc, ← hρ]
  rw [if_pos (by simp only [intMin, intMax] at *; omega)]
  simp only [← hs]
  rw [if_pos (by simp only [intMin, intMax] at *; omega)]
  simp only
  rw [if_pos (by simp only [intMin, intMax] at *; omega)]

/-- The real and vector overloads stay between the ends for the modes outside ExponentialIn/Out/InOut, for those up
to `3e-6` of the distance.  Missing: exact betweenness for the three, which is false (`C12_mode_refuted`). -/
theorem C12_mode_partial (m : InterpolationMode) (r a b : ℝ) (u v : Vec3 ℝ) (p q : Vec2 ℝ) :
    (m ≠ ExponentialIn → m ≠ ExponentialOut → m ≠ ExponentialInOut → lerpMode a b r m ∈ Set.uIcc a b ∧
      ∃ s ∈ Set.Icc (0 : ℝ) 1, lerpVec3Mode u v r m = u * (1 - s) + v * s ∧ lerpVec2Mode p q r m = p * (1 - s) + q * s) ∧
    ∃ s ∈ Set.Icc (0 : ℝ) 1, |lerpMode a b r m - lerp a b s| ≤ 3e-6 * |b - a| := by
  refine ⟨fun h1 h2 h3 => ?_, ?_⟩
  · obtain ⟨r0, r1⟩ := C09_range_partial r m h1 h2 h3
    exact ⟨(C12_lerp a b _).2.2.2.1 r0 r1, interpolationRatio r m, ⟨r0, r1⟩, (C12_lerp_vec u v p q _).2.2.2.2⟩
  · obtain ⟨r0, r1⟩ := C09_range_exponential_partial r m
    refine ⟨max 0 (min 1 (interpolationRatio r m)), ⟨le_max_left _ _, max_le zero_le_one (min_le_left _ _)⟩, ?_⟩
    have : lerpMode a b r m - lerp a b (max 0 (min 1 (interpolationRatio r m))) =
        (interpolationRatio r m - max 0 (min 1 (interpolationRatio r m))) * (b - a) := by
      simp only [lerpMode, lerp]; ring
    rw [this, abs_mul]
    refine mul_le_mul_of_nonneg_right (abs_le.2 ?_) (abs_nonneg _)
    rcases le_total 1 (interpolationRatio r m) with h | h
    · rw [min_eq_left h, max_eq_right zero_le_one]; constructor <;> linarith
    · rw [min_eq_right h]
      rcases le_total 0 (interpolationRatio r m) with k | k
      · rw [max_eq_right k, sub_self]; norm_num
      · rw [max_eq_left k]; constructor <;> linarith

theorem exp10_above : (1 + 1e-6 : ℝ) < interpolationRatio (1 - 1e-7) ExponentialIn := by
  rw [interpolationRatio, if_neg (by norm_num), if_neg (by norm_num), switch_eq_shape]
  change _ < ((2 : ℝ) ^ (10 * ((1 - 1e-7 : ℝ) - 1)) - 2097153 / 2147483648) * (8396829 / 8388608)
  have := two_rpow_neg_ge (x := 1e-6) (by norm_num) (by norm_num)
  rw [show (10 : ℝ) * ((1 - 1e-7 : ℝ) - 1) = -1e-6 by norm_num]
  norm_num at *
  linarith

/-- The claim for the moded overloads: between the ends, and the integer overload never overflows. -/
def C12_mode_full : Prop :=
  (∀ (m : InterpolationMode) (r a b : ℝ), lerpMode a b r m ∈ Set.uIcc a b) ∧
  ∀ (m : InterpolationMode) (r : ℝ) (a b : ℤ), intMin ≤ a ∧ a ≤ intMax → intMin ≤ b ∧ b ≤ intMax →
    intMin ≤ b - a ∧ b - a ≤ intMax → ∃ c : ℤ, lerpIntMode (fun i => (i : ℝ)) a b r m = .ok c ∧ c ∈ Set.uIcc a b

/-- Both halves fail for ExponentialIn: the real result leaves the interval, and from 0 to `INT_MAX` the conversion to
`int` overflows, which is undefined. -/
theorem C12_mode_refuted : ¬ C12_mode_full ∧
    1 < lerpMode (0 : ℝ) 1 (1 - 1e-7) ExponentialIn ∧
    lerpIntMode (fun i => (i : ℝ)) 0 intMax (1 - 1e-7) ExponentialIn = .error .intOverflow := by
  have h := exp10_above
  have h1 : 1 < lerpMode (0 : ℝ) 1 (1 - 1e-7) ExponentialIn := by
    simp only [lerpMode, lerp]; linarith
  refine ⟨fun f => ?_, h1, ?_⟩
  · have := f.1 ExponentialIn (1 - 1e-7) 0 1
    rw [Set.uIcc_of_le zero_le_one] at this
    linarith [this.2]
  · simp only [lerpIntMode, lerpInt, mkInt, bind, Except.bind, real_trunc]
    rw [if_pos (by decide)]
    simp only
    rw [if_neg]
    rintro ⟨-, hc⟩
    have hb := (truncR_bounds (interpolationRatio (1 - 1e-7) ExponentialIn * ((intMax - 0 : ℤ) : ℝ))).1
      (mul_nonneg (by linarith) (by norm_num [intMax]))
    have hc' : (truncR (interpolationRatio (1 - 1e-7) ExponentialIn * ((intMax - 0 : ℤ) : ℝ)) : ℝ) ≤ (intMax : ℤ) := by
      exact_mod_cast hc
    norm_num [intMax] at hb hc' h
    linarith

example : |(7 : ℤ) - -5| ≤ 333333 := by decide

/-! ## C13 clerp -/

theorem clerpDelta_congr (a b : ℝ) : ∃ k : ℤ, clerpDelta a b = b - a - k * (2 * Real.pi) := by
  obtain ⟨-, -, k, hk⟩ := fmodR_spec (b - a + Real.pi) (Real.pi * 2) (by positivity)
  refine ⟨k, ?_⟩
  simp only [clerpDelta, piTimes2, real_pi, real_fmod, hk]; ring

/-- `clerp` always moves along a turn congruent to `to - from`: the whole way round ends at the
angle `to` (same cosine and sine), ratio 0 stays at `from`, and the path is linear in the
ratio. -/
theorem C13_ends (a b : ℝ) :
    clerp a b 0 = a ∧ (∃ k : ℤ, clerp a b 1 = b - k * (2 * Real.pi)) ∧
    Real.cos (clerp a b 1) = Real.cos b ∧ Real.sin (clerp a b 1) = Real.sin b ∧
    ∀ r : ℝ, clerp a b r = a + r * (clerp a b 1 - a) := by
  obtain ⟨k, hk⟩ := clerpDelta_congr a b
  have h1 : clerp a b 1 = b - k * (2 * Real.pi) := by unfold clerp; rw [hk]; ring
  refine ⟨by simp [clerp], ⟨k, h1⟩, ?_, ?_, fun r => by unfold clerp; ring⟩
  · rw [h1, Real.cos_sub_int_mul_two_pi]
  · rw [h1, Real.sin_sub_int_mul_two_pi]

/-- The shortest-way claim, under the extra assumption `to - from ≥ -π`.
Missing: `to - from < -π`, where the code is wrong (`C13_shortest_refuted`). -/
theorem C13_shortest_partial (a b : ℝ) (h : -Real.pi ≤ b - a) :
    |clerp a b 1 - a| ≤ Real.pi ∧ -Real.pi ≤ clerp a b 1 - a ∧ clerp a b 1 - a < Real.pi := by
  obtain ⟨h1, -, -⟩ := fmodR_spec (b - a + Real.pi) (Real.pi * 2) (by positivity)
  have := h1 (by linarith)
  have e : clerp a b 1 - a = fmodR (b - a + Real.pi) (Real.pi * 2) - Real.pi := by
    simp [clerp, clerpDelta, piTimes2]
  rw [e, abs_le]
  refine ⟨⟨?_, ?_⟩, ?_, ?_⟩ <;> linarith [this.1, this.2]

example : -Real.pi ≤ (-3 : ℝ) - 0 := by linarith [Real.pi_gt_three]

/-- Whenever `to - from < -π` (and is not an odd multiple of π) the code takes the long way
round: it turns by more than half a turn. -/
theorem C13_shortest_refuted (a b : ℝ) (h : b - a < -Real.pi)
    (hk : ∀ k : ℤ, b - a ≠ (2 * k - 1) * Real.pi) : clerp a b 1 - a < -Real.pi := by
  obtain ⟨-, h1, k, e⟩ := fmodR_spec (b - a + Real.pi) (Real.pi * 2) (by positivity)
  have h2 := h1 (by linarith)
  have e' : clerp a b 1 - a = fmodR (b - a + Real.pi) (Real.pi * 2) - Real.pi := by
    simp [clerp, clerpDelta, piTimes2]
  have : fmodR (b - a + Real.pi) (Real.pi * 2) ≠ 0 := by
    intro h0
    apply hk k
    rw [h0] at e; linarith
  rw [e']
  linarith [lt_of_le_of_ne h2.2 this]

/-- Concrete failure: from π to -π/2 the quarter turn `+π/2` is available, `clerp` turns by
`-3π/2`. -/
theorem C13_witness : clerp Real.pi (-(Real.pi / 2)) 1 - Real.pi = -(3 * Real.pi / 2) := by
  have hp := Real.pi_pos
  have e' : clerp Real.pi (-(Real.pi / 2)) 1 - Real.pi =
      fmodR (-(Real.pi / 2) - Real.pi + Real.pi) (Real.pi * 2) - Real.pi := by
    simp [clerp, clerpDelta, piTimes2]
  have hq : (-(Real.pi / 2) - Real.pi + Real.pi) / (Real.pi * 2) = -(1 / 4) := by
    field_simp; ring
  have ht : truncR (-(1 / 4)) = 0 := by
    rw [truncR, if_neg (by norm_num), Int.ceil_eq_iff]; norm_num
  rw [e', fmodR, hq, ht]
  push_cast; ring

/-! ## C14 clerpMaxAngle -/

/-- Never turns more than `maxAngle`; if the turn of `clerp` is within `maxAngle` it is made
completely, otherwise exactly `maxAngle` of it in the same direction.  The two overloads return
the same angle. -/
theorem C14_bounded (a b maxAngle : ℝ) (h : 0 ≤ maxAngle) :
    |clerpMaxAngle a b maxAngle - a| ≤ maxAngle ∧
    (|clerp a b 1 - a| ≤ maxAngle →
      clerpMaxAngle a b maxAngle = clerp a b 1 ∧
      Real.cos (clerpMaxAngle a b maxAngle) = Real.cos b ∧
      Real.sin (clerpMaxAngle a b maxAngle) = Real.sin b) ∧
    (maxAngle < clerp a b 1 - a → clerpMaxAngle a b maxAngle - a = maxAngle) ∧
    (clerp a b 1 - a < -maxAngle → clerpMaxAngle a b maxAngle - a = -maxAngle) ∧
    (clerpMaxAngleRatio a b maxAngle).1 = clerpMaxAngle a b maxAngle := by
  have e : clerp a b 1 = a + clerpDelta a b := by simp [clerp]
  obtain ⟨-, -, hc, hs, -⟩ := C13_ends a b
  have key : |clerp a b 1 - a| ≤ maxAngle → clerpMaxAngle a b maxAngle = clerp a b 1 := by
    intro h'
    rw [e, add_sub_cancel_left, abs_le] at h'
    rw [e]
    unfold clerpMaxAngle
    simp only
    split_ifs <;> linarith
  refine ⟨?_, fun h' => ⟨key h', by rw [key h', hc], by rw [key h', hs]⟩, ?_, ?_, rfl⟩
  · unfold clerpMaxAngle
    simp only
    rw [abs_le]
    split_ifs <;> constructor <;> linarith
  · intro h'
    rw [e, add_sub_cancel_left] at h'
    unfold clerpMaxAngle
    simp only
    rw [if_pos (by linarith), if_pos h']; ring
  · intro h'
    rw [e, add_sub_cancel_left] at h'
    unfold clerpMaxAngle
    simp only
    rw [if_neg (by linarith), if_pos h']; ring

/-- The ratio output, for `from = 0` and a non-zero turn: it is the fraction of the turn made.
Missing: `from ≠ 0` (the code divides the absolute angle, not the turn, by the full turn),
`C14_ratio_refuted`. -/
theorem C14_ratio_partial (b maxAngle : ℝ) (h0 : 0 ≤ maxAngle) (hne : clerp 0 b 1 ≠ 0) :
    0 + (clerpMaxAngleRatio 0 b maxAngle).2 * (clerp 0 b 1 - 0) =
      (clerpMaxAngleRatio 0 b maxAngle).1 ∧
    0 ≤ (clerpMaxAngleRatio 0 b maxAngle).2 ∧ (clerpMaxAngleRatio 0 b maxAngle).2 ≤ 1 := by
  have e : clerp 0 b 1 = clerpDelta 0 b := by simp [clerp]
  rw [e] at hne ⊢
  have hr : (clerpMaxAngleRatio 0 b maxAngle).2 =
      (clerpMaxAngleRatio 0 b maxAngle).1 / clerpDelta 0 b := rfl
  have hf : (clerpMaxAngleRatio 0 b maxAngle).1 = clerpMaxAngle 0 b maxAngle := rfl
  rw [hr, hf]
  refine ⟨by rw [sub_zero, zero_add, div_mul_cancel₀ _ hne], ?_⟩
  unfold clerpMaxAngle
  simp only
  rcases lt_or_gt_of_ne hne with hn | hn
  · rw [if_neg (by linarith)]
    constructor
    · apply div_nonneg_of_nonpos _ hn.le
      split_ifs <;> linarith
    · rw [div_le_one_of_neg hn]
      split_ifs <;> linarith
  · rw [if_pos hn.le]
    constructor
    · apply div_nonneg _ hn.le
      split_ifs <;> linarith
    · rw [div_le_one hn]
      split_ifs <;> linarith

example : clerp (0 : ℝ) 1 1 ≠ 0 := by
  have hp := Real.pi_gt_three
  have : truncR ((1 - 0 + Real.pi) / (Real.pi * 2)) = 0 := by
    rw [truncR, if_pos (by positivity), Int.floor_eq_iff]
    constructor
    · push_cast; positivity
    · push_cast; rw [div_lt_iff₀ (by positivity)]; linarith
  simp only [clerp, clerpDelta, piTimes2, real_pi, real_fmod, fmodR, this]
  norm_num

/-- For every `from`: the ratio given out is the right one exactly if `from` is 0; otherwise it is off by
`from` over the whole turn. -/
theorem C14_ratio_iff (a b maxAngle : ℝ) (hne : clerp a b 1 ≠ a) :
    (a + (clerpMaxAngleRatio a b maxAngle).2 * (clerp a b 1 - a) = (clerpMaxAngleRatio a b maxAngle).1 ↔
      a = 0) ∧
    ∃ r, a + r * (clerp a b 1 - a) = (clerpMaxAngleRatio a b maxAngle).1 ∧
      (clerpMaxAngleRatio a b maxAngle).2 = r + a / (clerp a b 1 - a) := by
  have e : clerp a b 1 - a = clerpDelta a b := by simp [clerp]
  have hd : clerpDelta a b ≠ 0 := by rw [← e]; exact sub_ne_zero.2 hne
  have hr : (clerpMaxAngleRatio a b maxAngle).2 =
      (clerpMaxAngleRatio a b maxAngle).1 / clerpDelta a b := rfl
  rw [hr, e]
  generalize (clerpMaxAngleRatio a b maxAngle).1 = f
  refine ⟨?_, (f - a) / clerpDelta a b, by field_simp; ring, by field_simp; ring⟩
  rw [div_mul_cancel₀ _ hd]
  constructor
  · intro h; linarith
  · rintro rfl; ring

example : clerp (1 : ℝ) 2 1 ≠ 1 := by
  have hp := Real.pi_gt_three
  have ht : truncR ((2 - 1 + Real.pi) / (Real.pi * 2)) = 0 := by
    rw [truncR, if_pos (by positivity), Int.floor_eq_iff]
    constructor
    · push_cast; positivity
    · push_cast; rw [div_lt_iff₀ (by positivity)]; linarith
  have hd : clerpDelta (1 : ℝ) 2 = 1 := by
    simp only [clerpDelta, piTimes2, real_pi, real_fmod, fmodR, ht]; push_cast; ring
  simp only [clerp, hd]; norm_num

/-- From 1 to 2 with at most 0.5: half of the turn is made, the reported ratio is 1.5. -/
theorem C14_ratio_refuted :
    clerpMaxAngleRatio 1 2 (1 / 2) = ((3 / 2 : ℝ), (3 / 2 : ℝ)) ∧ clerp 1 2 1 - 1 = (1 : ℝ) := by
  have hp := Real.pi_gt_three
  have ht : truncR ((2 - 1 + Real.pi) / (Real.pi * 2)) = 0 := by
    rw [truncR, if_pos (by positivity), Int.floor_eq_iff]
    constructor
    · push_cast; positivity
    · push_cast; rw [div_lt_iff₀ (by positivity)]; linarith
  have hd : clerpDelta (1 : ℝ) 2 = 1 := by
    simp only [clerpDelta, piTimes2, real_pi, real_fmod, fmodR, ht]; push_cast; ring
  constructor
  · simp only [clerpMaxAngleRatio, hd]; norm_num
  · simp only [clerp, hd]; norm_num

end MathLib
