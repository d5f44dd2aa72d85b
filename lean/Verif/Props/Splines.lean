import Verif.Proof.SplineLemmas
import Verif.Proof.Loops
import Verif.Spec.Rotation
import Mathlib.Analysis.Convex.Combination

/-! # C87-C92: spline segments -/

namespace MathLib
open Set

/-! ## C87 -/

/-- C87: on [0, 1] `pointAt` is the Bezier curve of the control points and `tangentAt` its derivative;
outside the assertion fails. -/
theorem C87_bezier (s : BezierSegment3 ℝ) (t : ℝ) :
    (t ∈ Icc (0 : ℝ) 1 → ∃ p v, s.pointAt t = .ok p ∧ p.toE = s.curve t ∧
      s.tangentAt t = .ok v ∧ HasDerivAt s.curve v.toE t) ∧
    (t ∉ Icc (0 : ℝ) 1 → s.pointAt t = .error .assertion ∧ s.tangentAt t = .error .assertion) := by
  refine ⟨fun h => ⟨_, _, s.pointAt_eq h, s.toE_val t, s.tangentAt_eq h, s.hasDerivAt_curve t⟩, fun h => ?_⟩
  have h' : ¬ (t ≥ 0 ∧ t ≤ 1) := h
  simp [BezierSegment3.pointAt, BezierSegment3.tangentAt, h']

/-- C87: ends and end tangents of a Bezier segment. -/
theorem C87_bezier_ends (s : BezierSegment3 ℝ) :
    s.pointAt 0 = .ok s.P1 ∧ s.pointAt 1 = .ok s.P4 ∧ s.tangentAt 0 = .ok s.r1 ∧ s.tangentAt 1 = .ok s.r4 ∧
    s.r1 = (s.P2 - s.P1) * (3 : ℝ) ∧ s.r4 = (s.P4 - s.P3) * (3 : ℝ) := by
  rw [s.pointAt_eq (by simp), s.pointAt_eq (by simp), s.tangentAt_eq (by simp), s.tangentAt_eq (by simp)]
  refine ⟨congrArg _ ?_, congrArg _ ?_, congrArg _ ?_, congrArg _ ?_, rfl, rfl⟩ <;>
    ext <;> simp [BezierSegment3.val, BezierSegment3.der, BezierSegment3.r1, BezierSegment3.r4] <;> ring

/-- C87 without mentioning a formula: whatever function agrees with `pointAt` on [0, 1] has `tangentAt` as its
derivative there (one-sided at the ends). -/
theorem C87_bezier_deriv (s : BezierSegment3 ℝ) (p : ℝ → Vec3 ℝ) (hp : ∀ t ∈ Icc (0 : ℝ) 1, s.pointAt t = .ok (p t))
    (t : ℝ) (ht : t ∈ Icc (0 : ℝ) 1) :
    ∃ v, s.tangentAt t = .ok v ∧ HasDerivWithinAt (fun t => (p t).toE) v.toE (Icc 0 1) t := by
  refine ⟨_, s.tangentAt_eq ht, ?_⟩
  have e : ∀ t ∈ Icc (0 : ℝ) 1, (p t).toE = s.curve t := by
    intro t ht
    have h := hp t ht
    rw [s.pointAt_eq ht] at h
    rw [← s.toE_val, Except.ok.inj h]
  exact (s.hasDerivAt_curve t).hasDerivWithinAt.congr e (e t ht)

/-- C87: the Hermite segment has the prescribed ends and end tangents, and `tangentAt` is the derivative of
`pointAt`. -/
theorem C87_hermite (s : HermiteSplineSegment3 ℝ) :
    s.pointAt 0 = .ok s.P1 ∧ s.pointAt 1 = .ok s.P4 ∧ s.tangentAt 0 = .ok s.R1 ∧ s.tangentAt 1 = .ok s.R4 ∧
    (∀ t, t ∉ Icc (0 : ℝ) 1 → s.pointAt t = .error .assertion ∧ s.tangentAt t = .error .assertion) ∧
    ∃ p : ℝ → Vec3 ℝ, (∀ t ∈ Icc (0 : ℝ) 1, s.pointAt t = .ok (p t)) ∧
      ∀ t ∈ Icc (0 : ℝ) 1, ∃ v, s.tangentAt t = .ok v ∧ HasDerivAt (fun t => (p t).toE) v.toE t := by
  refine ⟨?_, ?_, ?_, ?_, ?_, fun t => s.P1 * (2 * t ^ 3 - 3 * t ^ 2 + 1) + s.P4 * (-2 * t ^ 3 + 3 * t ^ 2) +
    s.R1 * (t ^ 3 - 2 * t ^ 2 + t) + s.R4 * (t ^ 3 - t ^ 2), ?_, ?_⟩
  · simp only [HermiteSplineSegment3.pointAt]; norm_num
    ext <;> simp
  · simp only [HermiteSplineSegment3.pointAt]; norm_num
    ext <;> simp
  · simp only [HermiteSplineSegment3.tangentAt]; norm_num
    ext <;> simp
  · simp only [HermiteSplineSegment3.tangentAt]; norm_num
    ext <;> simp
  · intro t h
    have h' : ¬ (t ≥ 0 ∧ t ≤ 1) := h
    simp [HermiteSplineSegment3.pointAt, HermiteSplineSegment3.tangentAt, h']
  · intro t ht
    rw [HermiteSplineSegment3.pointAt, if_pos ⟨ht.1, ht.2⟩]
    apply congrArg Except.ok
    ext <;> simp <;> ring
  · intro t ht
    refine ⟨_, by rw [HermiteSplineSegment3.tangentAt, if_pos ⟨ht.1, ht.2⟩], ?_⟩
    exact BezierSegment3.hasDerivAt_lin4 (BezierSegment3.hasDerivAt_of_cubic 2 (-3) 0 1 (fun t => by ring) (by ring))
      (BezierSegment3.hasDerivAt_of_cubic (-2) 3 0 0 (fun t => by ring) (by ring))
      (BezierSegment3.hasDerivAt_of_cubic 1 (-2) 1 0 (fun t => by ring) (by ring))
      (BezierSegment3.hasDerivAt_of_cubic 1 (-1) 0 0 (fun t => by ring) (by ring)) _ _ _ _

/-- C87: the two kinds of segment agree: the Hermite segment with the ends and end tangents of a Bezier segment
is the same curve. -/
theorem C87_same_curve (s : BezierSegment3 ℝ) (t : ℝ) :
    (⟨s.P1, s.P4, s.r1, s.r4⟩ : HermiteSplineSegment3 ℝ).pointAt t = s.pointAt t ∧
    (⟨s.P1, s.P4, s.r1, s.r4⟩ : HermiteSplineSegment3 ℝ).tangentAt t = s.tangentAt t := by
  simp only [HermiteSplineSegment3.pointAt, HermiteSplineSegment3.tangentAt, BezierSegment3.pointAt,
    BezierSegment3.tangentAt, BezierSegment3.r1, BezierSegment3.r4]
  by_cases h : t ≥ 0 ∧ t ≤ 1
  · rw [if_pos h, if_pos h, if_pos h, if_pos h]
    refine ⟨congrArg _ ?_, congrArg _ ?_⟩ <;> ext <;> simp <;> ring
  · rw [if_neg h, if_neg h, if_neg h, if_neg h]
    exact ⟨rfl, rfl⟩

/-- C87: the static basis functions are the coefficients of `pointAt`, the `dh…` ones their derivatives (and so
the coefficients of `tangentAt`). -/
theorem C87_basis (s : BezierSegment3 ℝ) (h : HermiteSplineSegment3 ℝ) (t : ℝ) (ht : t ∈ Icc (0 : ℝ) 1) :
    s.pointAt t = .ok (s.P1 * BezierSegment3.hp1 t + s.P2 * BezierSegment3.hp2 t + s.P3 * BezierSegment3.hp3 t +
      s.P4 * BezierSegment3.hp4 t) ∧
    s.tangentAt t = .ok (s.P1 * BezierSegment3.dhp1 t + s.P2 * BezierSegment3.dhp2 t +
      s.P3 * BezierSegment3.dhp3 t + s.P4 * BezierSegment3.dhp4 t) ∧
    h.pointAt t = .ok (h.P1 * HermiteSplineSegment3.hp1 t + h.P4 * HermiteSplineSegment3.hp4 t +
      h.R1 * HermiteSplineSegment3.hr1 t + h.R4 * HermiteSplineSegment3.hr4 t) ∧
    h.tangentAt t = .ok (h.P1 * HermiteSplineSegment3.dhp1 t + h.P4 * HermiteSplineSegment3.dhp4 t +
      h.R1 * HermiteSplineSegment3.dhr1 t + h.R4 * HermiteSplineSegment3.dhr4 t) := by
  simp only [HermiteSplineSegment3.pointAt, HermiteSplineSegment3.tangentAt, BezierSegment3.pointAt,
    BezierSegment3.tangentAt]
  have h : t ≥ 0 ∧ t ≤ 1 := ht
  rw [if_pos h, if_pos h, if_pos h, if_pos h]
  refine ⟨congrArg _ ?_, congrArg _ ?_, congrArg _ ?_, congrArg _ ?_⟩ <;>
    ext <;> simp [BezierSegment3.hp1, BezierSegment3.hp2, BezierSegment3.hp3, BezierSegment3.hp4, BezierSegment3.dhp1,
      BezierSegment3.dhp2, BezierSegment3.dhp3, BezierSegment3.dhp4, HermiteSplineSegment3.hp1,
      HermiteSplineSegment3.hp4, HermiteSplineSegment3.hr1, HermiteSplineSegment3.hr4, HermiteSplineSegment3.dhp1,
      HermiteSplineSegment3.dhp4, HermiteSplineSegment3.dhr1, HermiteSplineSegment3.dhr4] <;> ring_nf <;> simp

theorem C87_basis_deriv (t : ℝ) :
    HasDerivAt BezierSegment3.hp1 (BezierSegment3.dhp1 t) t ∧ HasDerivAt BezierSegment3.hp2 (BezierSegment3.dhp2 t) t ∧
    HasDerivAt BezierSegment3.hp3 (BezierSegment3.dhp3 t) t ∧ HasDerivAt BezierSegment3.hp4 (BezierSegment3.dhp4 t) t ∧
    HasDerivAt HermiteSplineSegment3.hp1 (HermiteSplineSegment3.dhp1 t) t ∧
    HasDerivAt HermiteSplineSegment3.hp4 (HermiteSplineSegment3.dhp4 t) t ∧
    HasDerivAt HermiteSplineSegment3.hr1 (HermiteSplineSegment3.dhr1 t) t ∧
    HasDerivAt HermiteSplineSegment3.hr4 (HermiteSplineSegment3.dhr4 t) t := by
  simp only [BezierSegment3.dhp1,
      BezierSegment3.dhp2, BezierSegment3.dhp3, BezierSegment3.dhp4, HermiteSplineSegment3.dhp1,
      HermiteSplineSegment3.dhp4, HermiteSplineSegment3.dhr1, HermiteSplineSegment3.dhr4]
  refine ⟨BezierSegment3.hasDerivAt_of_cubic (-1) 3 (-3) 1 (fun t => ?_) (by ring),
    BezierSegment3.hasDerivAt_of_cubic 3 (-6) 3 0 (fun t => ?_) (by ring),
    BezierSegment3.hasDerivAt_of_cubic (-3) 3 0 0 (fun t => ?_) (by ring),
    BezierSegment3.hasDerivAt_of_cubic 1 0 0 0 (fun t => ?_) (by ring),
    BezierSegment3.hasDerivAt_of_cubic 2 (-3) 0 1 (fun t => ?_) (by ring),
    BezierSegment3.hasDerivAt_of_cubic (-2) 3 0 0 (fun t => ?_) (by ring),
    BezierSegment3.hasDerivAt_of_cubic 1 (-2) 1 0 (fun t => ?_) (by ring),
    BezierSegment3.hasDerivAt_of_cubic 1 (-1) 0 0 (fun t => ?_) (by ring)⟩ <;>
  simp only [BezierSegment3.hp1, BezierSegment3.hp2, BezierSegment3.hp3, BezierSegment3.hp4,
    HermiteSplineSegment3.hp1, HermiteSplineSegment3.hp4, HermiteSplineSegment3.hr1, HermiteSplineSegment3.hr4] <;>
  ring

example : (⟨⟨0, 0, 0⟩, ⟨1, 2, 0⟩, ⟨3, 2, 1⟩, ⟨4, 0, 1⟩⟩ : BezierSegment3 ℚ).pointAt (1/2) = .ok ⟨2, 3/2, 1/2⟩ ∧
    (⟨⟨0, 0, 0⟩, ⟨1, 2, 0⟩, ⟨3, 2, 1⟩, ⟨4, 0, 1⟩⟩ : BezierSegment3 ℚ).pointAt 2 = .error .assertion := by
  constructor <;> decide +kernel

/-! ## C88 -/

/-- C88: for t in [0, 1] the point is in the convex hull of the four control points. -/
theorem C88_hull (s : BezierSegment3 ℝ) (t : ℝ) (ht : t ∈ Icc (0 : ℝ) 1) :
    ∃ p, s.pointAt t = .ok p ∧ p ∈ convexHull ℝ {s.P1, s.P2, s.P3, s.P4} := by
  refine ⟨_, s.pointAt_eq ht, ?_⟩
  have hc : 0 ≤ 1 - t := sub_nonneg.2 ht.2
  have h0 := ht.1
  have key := (convex_convexHull ℝ {s.P1, s.P2, s.P3, s.P4}).sum_mem (t := Finset.univ)
    (w := ![(1 - t) ^ 3, 3 * t * (1 - t) ^ 2, 3 * t ^ 2 * (1 - t), t ^ 3]) (z := ![s.P1, s.P2, s.P3, s.P4])
    (by intro i _; fin_cases i <;> simp <;> positivity) (by simp [Fin.sum_univ_four]; ring)
    (by intro i _; apply subset_convexHull; fin_cases i <;> simp)
  convert key using 1
  rw [Fin.sum_univ_four]
  ext <;> simp [BezierSegment3.val]

/-- C88: consequently the curve stays in every ball and every box that holds the control points; stated for
half-spaces, of which those are intersections. -/
theorem C88_halfspace (s : BezierSegment3 ℝ) (n : Vec3 ℝ) (d t : ℝ) (ht : t ∈ Icc (0 : ℝ) 1)
    (h1 : n.dot s.P1 ≤ d) (h2 : n.dot s.P2 ≤ d) (h3 : n.dot s.P3 ≤ d) (h4 : n.dot s.P4 ≤ d) :
    ∃ p, s.pointAt t = .ok p ∧ n.dot p ≤ d := by
  refine ⟨_, s.pointAt_eq ht, ?_⟩
  have hc : 0 ≤ 1 - t := sub_nonneg.2 ht.2
  have h0 := ht.1
  have e : n.dot (s.val t) = (1 - t) ^ 3 * n.dot s.P1 + 3 * t * (1 - t) ^ 2 * n.dot s.P2 +
      3 * t ^ 2 * (1 - t) * n.dot s.P3 + t ^ 3 * n.dot s.P4 := by
    simp [Vec3.dot, BezierSegment3.val]; ring
  have a1 := mul_le_mul_of_nonneg_left h1 (show 0 ≤ (1 - t) ^ 3 by positivity)
  have a2 := mul_le_mul_of_nonneg_left h2 (show 0 ≤ 3 * t * (1 - t) ^ 2 by positivity)
  have a3 := mul_le_mul_of_nonneg_left h3 (show 0 ≤ 3 * t ^ 2 * (1 - t) by positivity)
  have a4 := mul_le_mul_of_nonneg_left h4 (show 0 ≤ t ^ 3 by positivity)
  have : (1 - t) ^ 3 * d + 3 * t * (1 - t) ^ 2 * d + 3 * t ^ 2 * (1 - t) * d + t ^ 3 * d = d := by ring
  linarith

example : (1/3 : ℝ) ∈ Icc (0 : ℝ) 1 := by norm_num

/-! ## C89 -/

/-- C89: `split` into two other segments (the second part may be the object itself) gives the two parts of the
curve, reparametrised, and leaves everything else alone. -/
theorem C89_split {ι : Type} [DecidableEq ι] (m : ι → BezierSegment3 ℝ) (this start «end» : ι) (a : ℝ)
    (ha : a ∈ Icc (0 : ℝ) 1) (h1 : start ≠ this) (h2 : start ≠ «end») :
    ∃ m', BezierSegment3.split m this start «end» a = .ok m' ∧
      (∀ u ∈ Icc (0 : ℝ) 1, (m' start).pointAt u = (m this).pointAt (a * u) ∧
        (m' «end»).pointAt u = (m this).pointAt (a + (1 - a) * u)) ∧
      ∀ i, i ≠ start → i ≠ «end» → m' i = m i := by
  rw [BezierSegment3.split, if_pos ⟨ha.1, ha.2⟩]
  refine ⟨_, rfl, ?_, ?_⟩
  · intro u hu
    have hu1 : a * u ∈ Icc (0 : ℝ) 1 := ⟨mul_nonneg ha.1 hu.1, mul_le_one₀ ha.2 hu.1 hu.2⟩
    have hu2 : a + (1 - a) * u ∈ Icc (0 : ℝ) 1 := by
      have := mul_nonneg (sub_nonneg.2 ha.2) hu.1
      have := mul_nonneg (sub_nonneg.2 ha.2) (sub_nonneg.2 hu.2)
      exact ⟨by linarith [ha.1], by linarith⟩
    rw [BezierSegment3.pointAt_eq _ hu, BezierSegment3.pointAt_eq _ hu, BezierSegment3.pointAt_eq _ hu1,
      BezierSegment3.pointAt_eq _ hu2]
    by_cases h3 : «end» = this
    · subst h3
      constructor <;> apply congrArg Except.ok <;>
        ext <;> simp [Function.update_of_ne, h1, Ne.symm h1, BezierSegment3.val] <;> ring
    · constructor <;> apply congrArg Except.ok <;>
        ext <;> simp [Function.update_of_ne, h2, Ne.symm h1, Ne.symm h3, BezierSegment3.val] <;> ring
  · intro i hi1 hi2
    simp [hi1, hi2]

/-- outside [0, 1] the assertion fails -/
theorem C89_assert {ι : Type} [DecidableEq ι] (m : ι → BezierSegment3 ℝ) (this start «end» : ι) (a : ℝ)
    (ha : a ∉ Icc (0 : ℝ) 1) : BezierSegment3.split m this start «end» a = .error .assertion := by
  rw [BezierSegment3.split, if_neg fun h => ha ⟨h.1, h.2⟩]

/-- Writing the first part over the object itself goes wrong: P2 is replaced while it is still needed. -/
theorem C89_alias :
    ∃ (m m' : Bool → BezierSegment3 ℚ), BezierSegment3.split m true true false (1/2) = .ok m' ∧
      (m' true).pointAt (1/2) ≠ (m true).pointAt (1/2 * (1/2)) ∧ (m' false).pointAt 0 ≠ (m true).pointAt (1/2) := by
  refine ⟨fun _ => ⟨⟨0, 0, 0⟩, ⟨1, 2, 0⟩, ⟨3, 2, 1⟩, ⟨4, 0, 1⟩⟩, _, if_pos (by decide +kernel), ?_, ?_⟩ <;>
    decide +kernel

example : (1/2 : ℝ) ∈ Icc (0 : ℝ) 1 ∧ (0 : Fin 3) ≠ 1 := by norm_num

/-! ## C90 -/

section C90
variable {K : Type} [Field K] [LinearOrder K] [IsStrictOrderedRing K] [MathFns K]

/-- the polynomial that `pointAt` evaluates, for any parameter -/
def bezPoly (P1 P2 P3 P4 : Vec3 K) (t : K) : Vec3 K :=
  P1 * BezierSegment3.hp1 t + P2 * BezierSegment3.hp2 t + P3 * BezierSegment3.hp3 t + P4 * BezierSegment3.hp4 t
def bezPoly' (P1 P2 P3 P4 : Vec3 K) (t : K) : Vec3 K :=
  P1 * BezierSegment3.dhp1 t + P2 * BezierSegment3.dhp2 t + P3 * BezierSegment3.dhp3 t + P4 * BezierSegment3.dhp4 t

omit [LinearOrder K] [IsStrictOrderedRing K] [MathFns K] in
theorem fwd_state (P1 P2 P3 P4 : Vec3 K) (d : K) (k : ℕ) :
    (BezierSegment3FwdDiff.stepForward^[k] (.init P1 P2 P3 P4 d)) =
      let f := bezPoly P1 P2 P3 P4
      let g := bezPoly' P1 P2 P3 P4
      let t := (k : K) * d
      { P := f t
        dP := f (t + d) - f t
        d2P := f (t + d + d) - f (t + d) - (f (t + d) - f t)
        d3P := (P4 - P1) * (d * d * d * 6) + (P3 - P2) * (-(d * d * d) * 18)
        T := g t
        dT := g (t + d) - g t
        d2T := (P4 - P1) * (d * d * 6) + (P3 - P2) * (-(d * d) * 18) } := by
  induction k with
  | zero =>
    simp only [Function.iterate_zero, id, BezierSegment3FwdDiff.init, bezPoly, bezPoly', BezierSegment3.hp1,
      BezierSegment3.hp2, BezierSegment3.hp3, BezierSegment3.hp4, BezierSegment3.dhp1, BezierSegment3.dhp2,
      BezierSegment3.dhp3, BezierSegment3.dhp4, Nat.cast_zero, BezierSegment3FwdDiff.mk.injEq]
    refine ⟨?_, ?_, ?_, trivial, ?_, ?_, trivial⟩ <;> ext <;> simp <;> ring
  | succ k ih =>
    rw [Function.iterate_succ_apply', ih]
    simp only [BezierSegment3FwdDiff.stepForward, bezPoly, bezPoly', BezierSegment3.hp1,
      BezierSegment3.hp2, BezierSegment3.hp3, BezierSegment3.hp4, BezierSegment3.dhp1, BezierSegment3.dhp2,
      BezierSegment3.dhp3, BezierSegment3.dhp4, Nat.cast_succ, BezierSegment3FwdDiff.mk.injEq]
    refine ⟨?_, ?_, ?_, trivial, ?_, ?_, trivial⟩ <;> ext <;> simp <;> ring

omit [MathFns K] in
/-- C90: after k steps of size d the current point and tangent are those of `pointAt`/`tangentAt` at k d, for
every k with k d in [0, 1]. -/
theorem C90_fwdDiff (P1 P2 P3 P4 : Vec3 K) (d : K) (k : ℕ) (h0 : 0 ≤ (k : K) * d) (h1 : (k : K) * d ≤ 1) :
    (⟨P1, P2, P3, P4⟩ : BezierSegment3 K).pointAt (k * d) =
      .ok (BezierSegment3FwdDiff.stepForward^[k] (.init P1 P2 P3 P4 d)).currentPoint ∧
    (⟨P1, P2, P3, P4⟩ : BezierSegment3 K).tangentAt (k * d) =
      .ok (BezierSegment3FwdDiff.stepForward^[k] (.init P1 P2 P3 P4 d)).currentTangent := by
  rw [fwd_state, BezierSegment3.pointAt, BezierSegment3.tangentAt, if_pos ⟨h0, h1⟩, if_pos ⟨h0, h1⟩]
  constructor <;> apply congrArg Except.ok <;>
    ext <;> simp [BezierSegment3FwdDiff.currentPoint, BezierSegment3FwdDiff.currentTangent, bezPoly, bezPoly',
      BezierSegment3.hp1, BezierSegment3.hp2, BezierSegment3.hp3, BezierSegment3.hp4, BezierSegment3.dhp1,
      BezierSegment3.dhp2, BezierSegment3.dhp3, BezierSegment3.dhp4] <;> ring
end C90

/-- C90 for every k and d, also beyond the ends of the segment, where `pointAt` asserts: the point is on the
curve of the control points, the tangent is its derivative. -/
theorem C90_fwdDiff_all (s : BezierSegment3 ℝ) (d : ℝ) (k : ℕ) :
    (BezierSegment3FwdDiff.stepForward^[k] (.init s.P1 s.P2 s.P3 s.P4 d)).currentPoint.toE = s.curve (k * d) ∧
    HasDerivAt s.curve
      (BezierSegment3FwdDiff.stepForward^[k] (.init s.P1 s.P2 s.P3 s.P4 d)).currentTangent.toE (k * d) := by
  have h := s.hasDerivAt_curve (k * d)
  rw [fwd_state, ← s.toE_val]
  simp only [BezierSegment3FwdDiff.currentPoint, BezierSegment3FwdDiff.currentTangent]
  have e1 : bezPoly s.P1 s.P2 s.P3 s.P4 (k * d) = s.val (k * d) := by
    ext <;> simp [bezPoly, BezierSegment3.val, BezierSegment3.hp1, BezierSegment3.hp2, BezierSegment3.hp3,
      BezierSegment3.hp4] <;> ring
  have e2 : bezPoly' s.P1 s.P2 s.P3 s.P4 (k * d) = s.der (k * d) := by
    ext <;> simp [bezPoly', BezierSegment3.der, BezierSegment3.dhp1, BezierSegment3.dhp2, BezierSegment3.dhp3,
      BezierSegment3.dhp4] <;> ring
  rw [e1, e2]
  exact ⟨rfl, h⟩

example : (0 : ℝ) ≤ ((7 : ℕ) : ℝ) * (1/10) ∧ ((7 : ℕ) : ℝ) * (1/10) ≤ 1 := by norm_num

/-! ## C91 -/

theorem curve_ends (s : BezierSegment3 ℝ) : s.curve 0 = s.P1.toE ∧ s.curve 1 = s.P4.toE := by
  rw [s.curve_eq, s.curve_eq]; simp

theorem length3_dist (u v : Vec3 ℝ) : (v - u).length = dist u.toE v.toE := by
  rw [Vec3.dist_toE]; simp only [Vec3.length, real_sqrt, Vec3.sub_x, Vec3.sub_y, Vec3.sub_z]
  congr 1; ring

/-- C91: `length(n)` is the length of the polygon through the n + 1 points at parameters i/n. -/
theorem C91_chords (s : BezierSegment3 ℝ) (n : ℕ) (hn : 0 < n) :
    s.length n = .ok (∑ i ∈ Finset.range n, dist (s.curve (i / n)) (s.curve ((i + 1) / n))) := by
  have hn' : (n : ℝ) ≠ 0 := by positivity
  rw [BezierSegment3.length, if_pos (by omega)]
  have key := loop_rule (f := fun (_ : ℕ) (st : BezierSegment3.LenSt ℝ) =>
      .ok ⟨st.P + st.dP, st.dP + st.d2P, st.d2P + (BezierSegment3FwdDiff.init s.P1 s.P2 s.P3 s.P4 (1 / (n : ℝ))).d3P,
        st.result + st.dP.length⟩) (lo := 0) (hi := n - 1)
    (s := ⟨s.P1, (BezierSegment3FwdDiff.init s.P1 s.P2 s.P3 s.P4 (1 / (n : ℝ))).dP,
      (BezierSegment3FwdDiff.init s.P1 s.P2 s.P3 s.P4 (1 / (n : ℝ))).d2P, 0⟩)
    (fun i st => (let F := BezierSegment3FwdDiff.stepForward^[i] (.init s.P1 s.P2 s.P3 s.P4 (1 / (n : ℝ)))
      st.P = F.P ∧ st.dP = F.dP ∧ st.d2P = F.d2P) ∧
      st.result = ∑ j ∈ Finset.range i, dist (s.curve (j / n)) (s.curve ((j + 1) / n)))
    (Nat.zero_le _) (by simp [BezierSegment3FwdDiff.init]) (by
      rintro i st - hi ⟨⟨h1, h2, h3⟩, h4⟩
      refine ⟨_, rfl, ⟨?_, ?_, ?_⟩, ?_⟩
      · simp only [Function.iterate_succ_apply', BezierSegment3FwdDiff.stepForward, h1, h2]
      · simp only [Function.iterate_succ_apply', BezierSegment3FwdDiff.stepForward, h2, h3]
      · simp only [Function.iterate_succ_apply', BezierSegment3FwdDiff.stepForward, h3, fwd_state]
        rfl
      · rw [Finset.sum_range_succ, h4]
        congr 1
        have hP : st.P.toE = s.curve (i / n) := by
          have := (C90_fwdDiff_all s (1 / (n : ℝ)) i).1
          rw [mul_one_div] at this
          rw [h1, ← this]; rfl
        have hQ : (st.P + st.dP).toE = s.curve ((i + 1) / n) := by
          rw [h1, h2]
          have := (C90_fwdDiff_all s (1 / (n : ℝ)) (i + 1)).1
          rw [mul_one_div, Nat.cast_succ] at this
          rw [← this, Function.iterate_succ_apply']
          rfl
        have hd : st.P + st.dP - st.P = st.dP := by ext <;> simp
        rw [← hP, ← hQ, ← length3_dist, hd])
  obtain ⟨st, e, ⟨h1, -, -⟩, h4⟩ := key
  have e' : ((n : ℤ) - 1).toNat = n - 1 := by omega
  have e'' : ((n : ℤ).toNat : ℝ) = n := by simp
  simp only [BezierSegment3FwdDiff.init] at e
  simp only [e', e'', e, bind, Except.bind]
  apply congrArg Except.ok
  obtain ⟨k, rfl⟩ : ∃ k, n = k + 1 := ⟨n - 1, by omega⟩
  rw [Finset.sum_range_succ, h4, Nat.add_sub_cancel]
  congr 1
  have hP : st.P.toE = s.curve (k / (k + 1 : ℕ)) := by
    have := (C90_fwdDiff_all s (1 / ((k + 1 : ℕ) : ℝ)) k).1
    rw [mul_one_div] at this
    rw [h1, ← this]; rfl
  have h1' : ((k : ℝ) + 1) / ((k + 1 : ℕ) : ℝ) = 1 := by rw [Nat.cast_succ] at *; exact div_self hn'
  rw [← hP, h1', (curve_ends s).2, length3_dist]

/-- weights of the sides of the control polygon -/
theorem curve_sides (s : BezierSegment3 ℝ) (t : ℝ) :
    s.curve t = s.P1.toE + (1 - (1 - t) ^ 3) • (s.P2.toE - s.P1.toE) + (3 * t ^ 2 - 2 * t ^ 3) • (s.P3.toE - s.P2.toE) +
      t ^ 3 • (s.P4.toE - s.P3.toE) := by
  rw [s.curve_eq]; module

/-- C91: the result is at least the distance of the ends and at most the length of the control polygon. -/
theorem C91_bounds (s : BezierSegment3 ℝ) (n : ℕ) (hn : 0 < n) :
    ∃ L, s.length n = .ok L ∧ dist s.P1.toE s.P4.toE ≤ L ∧
      L ≤ dist s.P1.toE s.P2.toE + dist s.P2.toE s.P3.toE + dist s.P3.toE s.P4.toE := by
  have hn0 : (0 : ℝ) < n := by positivity
  refine ⟨_, C91_chords s n hn, ?_, ?_⟩
  · have := dist_le_range_sum_dist (fun i : ℕ => s.curve (i / n)) n
    simp only [Nat.cast_zero, zero_div, div_self hn0.ne', (curve_ends s).1, (curve_ends s).2, Nat.cast_succ] at this
    exact this
  · have step : ∀ i ∈ Finset.range n, dist (s.curve (i / n)) (s.curve ((i + 1) / n)) ≤
        ((1 - (1 - ((i + 1 : ℕ) : ℝ) / n) ^ 3) - (1 - (1 - (i : ℝ) / n) ^ 3)) * dist s.P1.toE s.P2.toE +
        ((3 * (((i + 1 : ℕ) : ℝ) / n) ^ 2 - 2 * (((i + 1 : ℕ) : ℝ) / n) ^ 3) - (3 * ((i : ℝ) / n) ^ 2 - 2 * ((i : ℝ) / n) ^ 3)) *
          dist s.P2.toE s.P3.toE + ((((i + 1 : ℕ) : ℝ) / n) ^ 3 - ((i : ℝ) / n) ^ 3) * dist s.P3.toE s.P4.toE := by
      intro i hi
      rw [Nat.cast_succ]
      have hx0 : 0 ≤ (i : ℝ) / n := by positivity
      have hxy : (i : ℝ) / n ≤ ((i : ℝ) + 1) / n := by gcongr; linarith
      have hy1 : ((i : ℝ) + 1) / n ≤ 1 := by
        rw [div_le_one hn0]
        have := Finset.mem_range.1 hi
        exact_mod_cast this
      generalize (i : ℝ) / n = x at *
      generalize ((i : ℝ) + 1) / n = y at *
      have w1 : 0 ≤ (1 - (1 - y) ^ 3) - (1 - (1 - x) ^ 3) := by
        have : (1 - y) ^ 3 ≤ (1 - x) ^ 3 := by gcongr
        linarith
      have w2 : 0 ≤ (3 * y ^ 2 - 2 * y ^ 3) - (3 * x ^ 2 - 2 * x ^ 3) := by
        have : (3 * y ^ 2 - 2 * y ^ 3) - (3 * x ^ 2 - 2 * x ^ 3) =
          (y - x) * (2 * (x * (1 - x)) + 2 * (y * (1 - y)) + x * (1 - y) + y * (1 - x)) := by ring
        rw [this]
        have a1 : 0 ≤ y - x := by linarith
        have a2 : 0 ≤ 1 - y := by linarith
        have a3 : 0 ≤ 1 - x := by linarith
        have a4 : 0 ≤ y := by linarith
        positivity
      have w3 : 0 ≤ y ^ 3 - x ^ 3 := by
        have : x ^ 3 ≤ y ^ 3 := by gcongr
        linarith
      rw [dist_comm, dist_eq_norm, dist_comm s.P1.toE, dist_comm s.P2.toE s.P3.toE, dist_comm s.P3.toE s.P4.toE,
        dist_eq_norm, dist_eq_norm, dist_eq_norm, curve_sides, curve_sides]
      generalize s.P1.toE = p1
      generalize s.P2.toE - p1 = d1
      generalize s.P3.toE - s.P2.toE = d2
      generalize s.P4.toE - s.P3.toE = d3
      have e : p1 + (1 - (1 - y) ^ 3) • d1 + (3 * y ^ 2 - 2 * y ^ 3) • d2 + y ^ 3 • d3 -
          (p1 + (1 - (1 - x) ^ 3) • d1 + (3 * x ^ 2 - 2 * x ^ 3) • d2 + x ^ 3 • d3) =
          ((1 - (1 - y) ^ 3) - (1 - (1 - x) ^ 3)) • d1 + ((3 * y ^ 2 - 2 * y ^ 3) - (3 * x ^ 2 - 2 * x ^ 3)) • d2 +
            (y ^ 3 - x ^ 3) • d3 := by module
      rw [e]
      refine (norm_add₃_le).trans ?_
      rw [norm_smul, norm_smul, norm_smul, Real.norm_of_nonneg w1, Real.norm_of_nonneg w2, Real.norm_of_nonneg w3]
    refine (Finset.sum_le_sum step).trans ?_
    rw [Finset.sum_add_distrib, Finset.sum_add_distrib, ← Finset.sum_mul, ← Finset.sum_mul, ← Finset.sum_mul,
      Finset.sum_range_sub (fun i : ℕ => 1 - (1 - (i : ℝ) / n) ^ 3),
      Finset.sum_range_sub (fun i : ℕ => 3 * ((i : ℝ) / n) ^ 2 - 2 * ((i : ℝ) / n) ^ 3),
      Finset.sum_range_sub (fun i : ℕ => ((i : ℝ) / n) ^ 3)]
    rw [div_self hn0.ne']
    norm_num

/-- C91: no steps, or a negative number of them, fail the assertion. -/
theorem C91_assert (s : BezierSegment3 ℝ) (n : ℤ) (hn : n ≤ 0) : s.length n = .error .assertion := by
  rw [BezierSegment3.length, if_neg (by omega)]

/-! ## C92 -/

/-- C92: `frenetFrameAt` succeeds iff the derivative and second derivative are independent (their cross product is
not zero); the frame then is a rotation whose Y column is the unit tangent and whose X column is the unit
binormal. -/
theorem C92_frenet (s : BezierSegment3 ℝ) (t : ℝ) (ht : t ∈ Icc (0 : ℝ) 1) (c' c'' : Vec3 ℝ)
    (h1 : HasDerivAt s.curve c'.toE t) (h2 : HasDerivAt (deriv s.curve) c''.toE t) :
    ∃ r, s.frenetFrameAt t = .ok r ∧ (r.isSome = true ↔ c'.cross c'' ≠ Vec3.zero) ∧
      ∀ m, r = some m → IsRotation m.toM ∧ m.y = c' * (1 / c'.length) ∧
        m.x = c'.cross c'' * (1 / (c'.cross c'').length) := by
  have e1 : c' = s.der t := Vec3.toE_inj (h1.unique (s.hasDerivAt_curve t))
  have e2 : c'' = s.der2 t := by
    rw [s.deriv_curve] at h2
    exact Vec3.toE_inj (h2.unique (s.hasDerivAt_der t))
  have a1 : s.P1 * (-3 * (t * t) + 6 * t - 3) + s.P2 * (9 * (t * t) - 12 * t + 3) + s.P3 * (-9 * (t * t) + 6 * t) +
      s.P4 * (3 * (t * t)) = c' := by
    rw [e1]; ext <;> simp [BezierSegment3.der] <;> ring
  have a2 : s.P1 * (-6 * t + 6) + s.P2 * (18 * t - 12) + s.P3 * (-18 * t + 6) + s.P4 * (6 * t) = c'' := by
    rw [e2]; ext <;> simp [BezierSegment3.der2] <;> ring
  rw [BezierSegment3.frenetFrameAt, if_pos ⟨ht.1, ht.2⟩]
  simp only [a1, a2]
  obtain ⟨t1, t2, t3, t4⟩ := C22_normalize3 c' 1
  obtain ⟨b1, b2, b3, b4⟩ := C22_normalize3 (c'.cross c'') 1
  rw [t1, t2, b1, b2]
  by_cases hc : c' = Vec3.zero
  · have hz : c'.cross c'' = Vec3.zero := by rw [hc]; ext <;> simp [Vec3.cross, Vec3.zero]
    rw [if_pos (by simpa using (C22_length_norm.2.1 c').2 hc)]
    exact ⟨none, rfl, by simp [hz], by simp⟩
  rw [if_neg (by simpa using (t4 hc).1.ne')]
  by_cases hb : c'.cross c'' = Vec3.zero
  · rw [if_pos (by simpa using (C22_length_norm.2.1 _).2 hb)]
    exact ⟨none, rfl, by simp [hb], by simp⟩
  rw [if_neg (by simpa using (b4 hb).1.ne')]
  obtain ⟨tp, te, tl⟩ := t4 hc
  obtain ⟨bp, be, bl⟩ := b4 hb
  have hut : (c'.normalized 1).x ^ 2 + (c'.normalized 1).y ^ 2 + (c'.normalized 1).z ^ 2 = 1 := by
    have h := (C22_length.2.1 (c'.normalized 1)).2
    rw [← (C22_length.2.1 (c'.normalized 1)).1, tl] at h
    simpa [Vec3.lengthSqr, sq] using h
  have hub : ((c'.cross c'').normalized 1).x ^ 2 + ((c'.cross c'').normalized 1).y ^ 2 +
      ((c'.cross c'').normalized 1).z ^ 2 = 1 := by
    have h := (C22_length.2.1 ((c'.cross c'').normalized 1)).2
    rw [← (C22_length.2.1 ((c'.cross c'').normalized 1)).1, bl] at h
    simpa [Vec3.lengthSqr, sq] using h
  have hdot : ((c'.cross c'').normalized 1).x * (c'.normalized 1).x + ((c'.cross c'').normalized 1).y * (c'.normalized 1).y +
      ((c'.cross c'').normalized 1).z * (c'.normalized 1).z = 0 := by
    rw [te, be]
    simp only [Vec3.mul_x, Vec3.mul_y, Vec3.mul_z]
    have : (c'.cross c'').x * c'.x + (c'.cross c'').y * c'.y + (c'.cross c'').z * c'.z = 0 := by
      simp only [Vec3.cross]; ring
    linear_combination (1 / (c'.cross c'').length) * (1 / c'.length) * this
  have ht' : c'.normalized 1 = c' * (1 / c'.length) := te
  have hb' : (c'.cross c'').normalized 1 = c'.cross c'' * (1 / (c'.cross c'').length) := be
  rw [← ht', ← hb']
  generalize c'.normalized 1 = T at *
  generalize (c'.cross c'').normalized 1 = B at *
  have hn : (B.cross T).isNull = false := by
    rw [Bool.eq_false_iff]
    intro h
    simp only [Vec3.isNull, Vec3.cross, Bool.and_eq_true, beq_iff_eq] at h
    obtain ⟨⟨n1, n2⟩, n3⟩ := h
    have : (1 : ℝ) * 1 = 0 := by
      calc (1 : ℝ) * 1 = (B.x ^ 2 + B.y ^ 2 + B.z ^ 2) * (T.x ^ 2 + T.y ^ 2 + T.z ^ 2) := by rw [hut, hub]
        _ = 0 := by
          linear_combination (B.y * T.z - B.z * T.y) * n1 + (B.z * T.x - B.x * T.z) * n2 +
            (B.x * T.y - B.y * T.x) * n3 + (B.x * T.x + B.y * T.y + B.z * T.z) * hdot
    norm_num at this
  rw [hn]
  refine ⟨_, rfl, by simp [hb], ?_⟩
  rintro m ⟨⟩
  refine ⟨⟨?_, ?_⟩, rfl, rfl⟩
  · ext i j
    fin_cases i <;> fin_cases j <;>
      simp [Matrix.mul_apply, Fin.sum_univ_three, Mat3.toM, Mat3.ofCols, Mat3.optimize, Mat3.optimizeTol, Vec3.cross]
    · linear_combination hub
    · linear_combination hdot
    · ring
    · linear_combination hdot
    · linear_combination hut
    · ring
    · ring
    · ring
    · linear_combination (T.x ^ 2 + T.y ^ 2 + T.z ^ 2) * hub + hut -
        (B.x * T.x + B.y * T.y + B.z * T.z) * hdot
  · rw [Matrix.det_fin_three]
    simp [Mat3.toM, Mat3.ofCols, Mat3.optimize, Mat3.optimizeTol, Vec3.cross]
    linear_combination (T.x ^ 2 + T.y ^ 2 + T.z ^ 2) * hub + hut -
        (B.x * T.x + B.y * T.y + B.z * T.z) * hdot

/-- such derivatives exist at every parameter -/
example (s : BezierSegment3 ℝ) (t : ℝ) : ∃ c' c'' : Vec3 ℝ, HasDerivAt s.curve c'.toE t ∧
    HasDerivAt (deriv s.curve) c''.toE t :=
  ⟨_, _, s.hasDerivAt_curve t, by rw [s.deriv_curve]; exact s.hasDerivAt_der t⟩

/-- and the frame exists for a curve that bends -/
example : ((⟨⟨0, 0, 0⟩, ⟨1, 0, 0⟩, ⟨2, 1, 0⟩, ⟨2, 2, 1⟩⟩ : BezierSegment3 ℝ).der 0).cross
    ((⟨⟨0, 0, 0⟩, ⟨1, 0, 0⟩, ⟨2, 1, 0⟩, ⟨2, 2, 1⟩⟩ : BezierSegment3 ℝ).der2 0) ≠ Vec3.zero := by
  intro h
  have := congrArg Vec3.z h
  norm_num [BezierSegment3.der, BezierSegment3.der2, Vec3.cross, Vec3.zero] at this

end MathLib
