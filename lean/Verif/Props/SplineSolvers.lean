import Verif.Proof.ClosedSpline

/-! # C93-C95: splines through given points -/

namespace MathLib
open SplineSolver3

/-! ## C93 -/

theorem natural_one_iff (k q2 q3 : ℕ → Vec3 ℝ) :
    IsNaturalSpline 1 (splineSeg k q2 q3) ↔
      q2 0 = k 0 + (k 1 - k 0) * (1 / 3 : ℝ) ∧ q3 0 = k 1 - (k 1 - k 0) * (1 / 3 : ℝ) := by
  rw [IsNaturalSpline, start_iff, stop_iff]
  simp only [Nat.sub_self, splineSeg, Vec3.ext_iff, Vec3.add_x, Vec3.add_y, Vec3.add_z, Vec3.mul_x, Vec3.mul_y,
    Vec3.mul_z, Vec3.sub_x, Vec3.sub_y, Vec3.sub_z, Vec3.zero, zero_add]
  constructor
  · rintro ⟨-, ⟨a1, a2, a3⟩, b1, b2, b3⟩
    exact ⟨⟨by linarith, by linarith, by linarith⟩, by linarith, by linarith, by linarith⟩
  · rintro ⟨⟨a1, a2, a3⟩, b1, b2, b3⟩
    exact ⟨by omega, ⟨by linarith, by linarith, by linarith⟩, by linarith, by linarith, by linarith⟩

/-- C93: for every n ≥ 2 and all points `k 0, …, k (n-1)` the function succeeds; the n - 1 segments with the control
points it writes form a natural spline, the only one through these points, and nothing behind them is written. -/
theorem C93_natural (n : ℕ) (hn : 2 ≤ n) (k : ℕ → Vec3 ℝ) (p1 p2 p3 : Buf (Vec3 ℝ)) (h1 : p1.Holds n k)
    (h2 : n - 1 ≤ p2.size) (h3 : n - 1 ≤ p3.size) :
    ∃ p2' p3' q2 q3, naturalBezierSpline n p1 p2 p3 = .ok (true, p2', p3') ∧
      p2'.Holds (n - 1) q2 ∧ p3'.Holds (n - 1) q3 ∧ IsNaturalSpline (n - 1) (splineSeg k q2 q3) ∧
      (∀ i < n - 1, (splineSeg k q2 q3 i).curve 0 = (k i).toE ∧ (splineSeg k q2 q3 i).curve 1 = (k (i + 1)).toE) ∧
      (∀ v2 v3 : ℕ → Vec3 ℝ, IsNaturalSpline (n - 1) (splineSeg k v2 v3) → ∀ i < n - 1, v2 i = q2 i ∧ v3 i = q3 i) ∧
      p2'.size = p2.size ∧ p3'.size = p3.size ∧
      ∀ j, n - 1 ≤ j → p2'.data j = p2.data j ∧ p3'.data j = p3.data j := by
  have hcurve : ∀ q2 q3 : ℕ → Vec3 ℝ, ∀ i < n - 1, (splineSeg k q2 q3 i).curve 0 = (k i).toE ∧
      (splineSeg k q2 q3 i).curve 1 = (k (i + 1)).toE := by
    intro q2 q3 i _
    rw [BezierSegment3.curve_eq, BezierSegment3.curve_eq]
    simp [splineSeg]
  rcases Nat.eq_or_lt_of_le hn with rfl | hn3
  · obtain ⟨p2', p3', e, a1, a2, a3, a4⟩ := natural_two k p1 p2 p3 h1 h2 h3
    refine ⟨p2', p3', _, _, e, a1, a3, (natural_one_iff _ _ _).2 ⟨rfl, rfl⟩, hcurve _ _, ?_, a2.1, a4.1,
      fun j hj => ⟨a2.2 j hj, a4.2 j hj⟩⟩
    intro v2 v3 hv i hi
    obtain rfl : i = 0 := by omega
    exact (natural_one_iff _ _ _).1 hv
  · obtain ⟨N, rfl⟩ : ∃ N, n = N + 1 := ⟨n - 1, by omega⟩
    rw [Nat.add_sub_cancel] at *
    obtain ⟨p2', p3', q, e, hq, a1, a2, a3, a4⟩ := natural_spec N (by omega) k p1 p2 p3 h1 h2 h3
    refine ⟨p2', p3', q, _, e, a1, a3, (natural_iff N (by omega) _ _ _).2 ⟨(hq q).2 fun _ _ => rfl, fun _ _ => rfl⟩,
      hcurve _ _, ?_, a2.1, a4.1, fun j hj => ⟨a2.2 j hj, a4.2 j hj⟩⟩
    intro v2 v3 hv i hi
    obtain ⟨r1, r2⟩ := (natural_iff N (by omega) _ _ _).1 hv
    have r3 := (hq v2).1 r1
    refine ⟨r3 i hi, ?_⟩
    rw [r2 i hi, natQ3, natQ3]
    split_ifs
    · rw [r3 (N - 1) (by omega)]
    · rw [r3 (i + 1) (by omega)]

/-- fewer than two points fail the assertion -/
theorem C93_assert (n : ℕ) (hn : n < 2) (p1 p2 p3 : Buf (Vec3 ℝ)) :
    naturalBezierSpline n p1 p2 p3 = .error .assertion := by
  rw [naturalBezierSpline, if_neg (by omega)]

/-- a concrete run -/
example : (naturalBezierSpline 3 (Buf.ofList [(⟨0, 0, 0⟩ : Vec3 ℚ), ⟨1, 2, 0⟩, ⟨2, 0, 4⟩]) (Buf.alloc 2) (Buf.alloc 2)).map
    (fun r => (r.1, r.2.1.toList, r.2.2.toList)) =
    .ok (true, [some ⟨1/3, 1, -1/3⟩, some ⟨4/3, 2, 2/3⟩], [some ⟨2/3, 2, -2/3⟩, some ⟨5/3, 1, 7/3⟩]) := by
  decide +kernel

example : (Buf.ofList [(⟨0, 0, 0⟩ : Vec3 ℝ), ⟨1, 2, 0⟩, ⟨2, 0, 4⟩]).Holds 3
    (fun i => [(⟨0, 0, 0⟩ : Vec3 ℝ), ⟨1, 2, 0⟩, ⟨2, 0, 4⟩].getD i ⟨0, 0, 0⟩) := by
  refine ⟨le_rfl, fun i hi => ?_⟩
  interval_cases i <;> rfl

/-! ## C94 -/

theorem clamped_one_iff (k q2 q3 : ℕ → Vec3 ℝ) (s e : Vec3 ℝ) :
    IsClampedSpline 1 s e (splineSeg k q2 q3) ↔ q2 0 = s ∧ q3 0 = e := by
  simp [IsClampedSpline, splineSeg]

/-- C94: the same with prescribed first and last inner control point. -/
theorem C94_clamped (n : ℕ) (hn : 2 ≤ n) (k : ℕ → Vec3 ℝ) (first last : Vec3 ℝ) (p1 p2 p3 : Buf (Vec3 ℝ))
    (h1 : p1.Holds n k) (h2 : n - 1 ≤ p2.size) (h3 : n - 1 ≤ p3.size) :
    ∃ p2' p3' q2 q3, bezierSpline n p1 first last p2 p3 = .ok (true, p2', p3') ∧
      p2'.Holds (n - 1) q2 ∧ p3'.Holds (n - 1) q3 ∧ IsClampedSpline (n - 1) first last (splineSeg k q2 q3) ∧
      (∀ i < n - 1, (splineSeg k q2 q3 i).curve 0 = (k i).toE ∧ (splineSeg k q2 q3 i).curve 1 = (k (i + 1)).toE) ∧
      (∀ v2 v3 : ℕ → Vec3 ℝ, IsClampedSpline (n - 1) first last (splineSeg k v2 v3) →
        ∀ i < n - 1, v2 i = q2 i ∧ v3 i = q3 i) ∧
      p2'.size = p2.size ∧ p3'.size = p3.size ∧
      ∀ j, n - 1 ≤ j → p2'.data j = p2.data j ∧ p3'.data j = p3.data j := by
  have hcurve : ∀ q2 q3 : ℕ → Vec3 ℝ, ∀ i < n - 1, (splineSeg k q2 q3 i).curve 0 = (k i).toE ∧
      (splineSeg k q2 q3 i).curve 1 = (k (i + 1)).toE := by
    intro q2 q3 i _
    rw [BezierSegment3.curve_eq, BezierSegment3.curve_eq]
    simp [splineSeg]
  rcases Nat.eq_or_lt_of_le hn with rfl | hn3
  · obtain ⟨p2', p3', e, a1, a2, a3, a4⟩ := clamped_two k first last p1 p2 p3 h1 h2 h3
    refine ⟨p2', p3', _, _, e, a1, a3, (clamped_one_iff _ _ _ _ _).2 ⟨rfl, rfl⟩, hcurve _ _, ?_, a2.1, a4.1,
      fun j hj => ⟨a2.2 j hj, a4.2 j hj⟩⟩
    intro v2 v3 hv i hi
    obtain rfl : i = 0 := by omega
    exact (clamped_one_iff _ _ _ _ _).1 hv
  · obtain ⟨N, rfl⟩ : ∃ N, n = N + 1 := ⟨n - 1, by omega⟩
    rw [Nat.add_sub_cancel] at *
    obtain ⟨p2', p3', q, e, hq, a1, a2, a3, a4⟩ := clamped_spec N (by omega) k first last p1 p2 p3 h1 h2 h3
    refine ⟨p2', p3', q, _, e, a1, a3, (clamped_iff N (by omega) _ _ _ _ _).2 ⟨(hq q).2 fun _ _ => rfl, fun _ _ => rfl⟩,
      hcurve _ _, ?_, a2.1, a4.1, fun j hj => ⟨a2.2 j hj, a4.2 j hj⟩⟩
    intro v2 v3 hv i hi
    obtain ⟨r1, r2⟩ := (clamped_iff N (by omega) _ _ _ _ _).1 hv
    have r3 := (hq v2).1 r1
    refine ⟨r3 i hi, ?_⟩
    rw [r2 i hi, clQ3, clQ3]
    split_ifs
    · rfl
    · rw [r3 (i + 1) (by omega)]

theorem C94_assert (n : ℕ) (hn : n < 2) (s e : Vec3 ℝ) (p1 p2 p3 : Buf (Vec3 ℝ)) :
    bezierSpline n p1 s e p2 p3 = .error .assertion := by
  rw [bezierSpline, if_neg (by omega)]

example : (bezierSpline 3 (Buf.ofList [(⟨0, 0, 0⟩ : Vec3 ℚ), ⟨1, 2, 0⟩, ⟨2, 0, 4⟩]) ⟨0, 1, 0⟩ ⟨2, 1, 4⟩ (Buf.alloc 2)
    (Buf.alloc 2)).map (fun r => (r.1, r.2.1.toList, r.2.2.toList)) =
    .ok (true, [some ⟨0, 1, 0⟩, some ⟨3/2, 2, 1⟩], [some ⟨1/2, 2, -1⟩, some ⟨2, 1, 4⟩]) := by
  decide +kernel

/-! ## C95 -/

theorem nxt_eq (n i : ℕ) (hi : i < n) : (i + 1) % n = nxt n i := by
  rw [nxt]
  split_ifs with h
  · rw [h, Nat.mod_self]
  · exact Nat.mod_eq_of_lt (by omega)

/-- three terms per row -/
theorem cloSys_iff (n : ℕ) (hn : 3 ≤ n) (k q : ℕ → Vec3 ℝ) :
    CloSys n k q ↔ ∀ i < n, q (prv n i) + q i * (4 : ℝ) + q (nxt n i) = k i * (4 : ℝ) + k (nxt n i) * (2 : ℝ) := by
  have key : ∀ i < n, (∀ c < 3, ∑ j ∈ Finset.range n, circ n i j * comp (q j) c = comp (cloR n k i) c) ↔
      q (prv n i) + q i * (4 : ℝ) + q (nxt n i) = k i * (4 : ℝ) + k (nxt n i) * (2 : ℝ) := by
    intro i hi
    simp only [circ_sum3 n hn i hi, Vec3.ext_iff, Vec3.add_x, Vec3.add_y, Vec3.add_z, Vec3.mul_x, Vec3.mul_y, Vec3.mul_z]
    constructor
    · intro h
      have h0 := h 0 (by omega)
      have h1 := h 1 (by omega)
      have h2 := h 2 (by omega)
      simp only [comp, cloR, Vec3.add_x, Vec3.add_y, Vec3.add_z, Vec3.mul_x, Vec3.mul_y, Vec3.mul_z] at h0 h1 h2
      exact ⟨by linarith, by linarith, by linarith⟩
    · rintro ⟨h0, h1, h2⟩ c hc
      interval_cases c <;>
        simp only [comp, cloR, Vec3.add_x, Vec3.add_y, Vec3.add_z, Vec3.mul_x, Vec3.mul_y, Vec3.mul_z] <;> linarith
  exact forall₂_congr key

theorem closed_iff (n : ℕ) (hn : 3 ≤ n) (k q2 q3 : ℕ → Vec3 ℝ) :
    IsClosedSpline n (closedSeg n k q2 q3) ↔ CloSys n k q2 ∧ ∀ i < n, q3 i = k (nxt n i) * (2 : ℝ) - q2 (nxt n i) := by
  have hnx : ∀ i < n, nxt n i < n := fun i hi => by simp only [nxt]; split_ifs <;> omega
  have hpr : ∀ i < n, prv n i < n := fun i hi => by simp only [prv]; split_ifs <;> omega
  have hnp : ∀ i < n, nxt n (prv n i) = i := fun i hi => by
    by_cases h : i = 0
    · rw [prv, if_pos h, nxt, if_pos (by omega), h]
    · rw [prv, if_neg h, nxt, if_neg (by omega)]; omega
  have hpn : ∀ i < n, prv n (nxt n i) = i := fun i hi => by
    by_cases h : i + 1 = n
    · rw [nxt, if_pos h, prv, if_pos rfl]; omega
    · rw [nxt, if_neg h, prv, if_neg (by omega)]; omega
  rw [cloSys_iff n hn]
  have hj : ∀ i < n, ((closedSeg n k q2 q3 i).JoinC2 (closedSeg n k q2 q3 ((i + 1) % n)) ↔
      q3 i = k (nxt n i) * (2 : ℝ) - q2 (nxt n i) ∧
      q2 i - q3 i * (2 : ℝ) = q3 (nxt n i) - q2 (nxt n i) * (2 : ℝ)) := by
    intro i hi
    rw [join_iff' _ _ rfl]
    simp only [closedSeg, nxt_eq n i hi]
  constructor
  · intro h
    have h3 : ∀ i < n, q3 i = k (nxt n i) * (2 : ℝ) - q2 (nxt n i) := fun i hi => ((hj i hi).1 (h i hi)).1
    refine ⟨fun i hi => ?_, h3⟩
    have a := ((hj _ (hpr i hi)).1 (h _ (hpr i hi)))
    rw [hnp i hi] at a
    have b := h3 i hi
    obtain ⟨a1, a2⟩ := a
    simp only [Vec3.ext_iff, Vec3.add_x, Vec3.add_y, Vec3.add_z, Vec3.mul_x, Vec3.mul_y, Vec3.mul_z, Vec3.sub_x, Vec3.sub_y, Vec3.sub_z] at a1 a2 b ⊢
    exact ⟨by linarith [a1.1, a2.1, b.1], by linarith [a1.2.1, a2.2.1, b.2.1], by linarith [a1.2.2, a2.2.2, b.2.2]⟩
  · rintro ⟨hr, h3⟩ i hi
    refine (hj i hi).2 ⟨h3 i hi, ?_⟩
    have a := hr _ (hnx i hi)
    rw [hpn i hi] at a
    have b := h3 i hi
    have c := h3 _ (hnx i hi)
    simp only [Vec3.ext_iff, Vec3.add_x, Vec3.add_y, Vec3.add_z, Vec3.mul_x, Vec3.mul_y, Vec3.mul_z, Vec3.sub_x, Vec3.sub_y, Vec3.sub_z] at a b c ⊢
    exact ⟨by linarith [a.1, b.1, c.1], by linarith [a.2.1, b.2.1, c.2.1], by linarith [a.2.2, b.2.2, c.2.2]⟩

/-- C95 for n ≥ 3: the function succeeds and the n segments with the control points it writes form a smooth closed
curve, the only one through these points.  The case n = 2 of the claim fails (`C95_two`, `C95_refuted`).
`absf` is `fabsf` in `GaussJordan::solve`; all that is needed of it is that only 0 has the smallest value. -/
theorem C95_closed_partial (absf : ℝ → ℝ) (habs : ∀ x, 0 ≤ absf x) (habs' : ∀ x, absf x ≤ absf 0 → x = 0) (n : ℕ)
    (hn : 3 ≤ n) (k : ℕ → Vec3 ℝ) (p1 p2 p3 : Buf (Vec3 ℝ)) (h1 : p1.Holds n k) (h2 : n ≤ p2.size) (h3 : n ≤ p3.size) :
    ∃ p2' p3' q2 q3, closedBezierSpline absf n p1 p2 p3 = .ok (true, p2', p3') ∧ p2'.Holds n q2 ∧ p3'.Holds n q3 ∧
      IsClosedSpline n (closedSeg n k q2 q3) ∧
      (∀ i < n, (closedSeg n k q2 q3 i).curve 0 = (k i).toE ∧ (closedSeg n k q2 q3 i).curve 1 = (k ((i + 1) % n)).toE) ∧
      ∀ v2 v3 : ℕ → Vec3 ℝ, IsClosedSpline n (closedSeg n k v2 v3) → ∀ i < n, v2 i = q2 i ∧ v3 i = q3 i := by
  obtain ⟨p2', p3', q, e, hs, hu, a1, a2, -⟩ := closed_spec absf habs habs' n (by omega) k p1 p2 p3 h1 h2 h3
  have hnx : ∀ i < n, nxt n i < n := fun i hi => by simp only [nxt]; split_ifs <;> omega
  have hq3 : ∀ i < n, cloQ3 n k q i = k (nxt n i) * (2 : ℝ) - q (nxt n i) := by
    intro i hi
    rw [cloQ3]
    split_ifs with h
    · have a := (cloSys_iff n hn k q).1 hs i hi
      have p : prv n i = n - 2 := by simp only [prv]; split_ifs <;> omega
      rw [p, h] at a
      rw [h]
      simp only [Vec3.ext_iff, Vec3.add_x, Vec3.add_y, Vec3.add_z, Vec3.mul_x, Vec3.mul_y, Vec3.mul_z, Vec3.sub_x, Vec3.sub_y, Vec3.sub_z] at a ⊢
      exact ⟨by linarith [a.1], by linarith [a.2.1], by linarith [a.2.2]⟩
    · rw [nxt, if_neg (by omega)]
  refine ⟨p2', p3', q, _, e, a1, a2, (closed_iff n hn k q _).2 ⟨hs, hq3⟩, ?_, ?_⟩
  · intro i _
    rw [BezierSegment3.curve_eq, BezierSegment3.curve_eq]
    simp [closedSeg]
  · intro v2 v3 hv i hi
    obtain ⟨r1, r2⟩ := (closed_iff n hn k v2 v3).1 hv
    have r3 := hu v2 r1
    exact ⟨r3 i hi, by rw [r2 i hi, hq3 i hi, r3 _ (hnx i hi)]⟩

/-- What happens for two points: the matrix lacks the double neighbour, so the curve closes smoothly only if
both points are the origin. -/
theorem C95_two (absf : ℝ → ℝ) (habs : ∀ x, 0 ≤ absf x) (habs' : ∀ x, absf x ≤ absf 0 → x = 0)
    (k : ℕ → Vec3 ℝ) (p1 p2 p3 : Buf (Vec3 ℝ)) (h1 : p1.Holds 2 k) (h2 : 2 ≤ p2.size) (h3 : 2 ≤ p3.size) :
    ∃ p2' p3' q2 q3, closedBezierSpline absf 2 p1 p2 p3 = .ok (true, p2', p3') ∧ p2'.Holds 2 q2 ∧ p3'.Holds 2 q3 ∧
      q2 0 = k 0 * (14 / 15 : ℝ) + k 1 * (4 / 15 : ℝ) ∧ q3 1 = k 0 * (2 : ℝ) ∧
      (IsClosedSpline 2 (closedSeg 2 k q2 q3) ↔ k 0 = Vec3.zero ∧ k 1 = Vec3.zero) := by
  obtain ⟨p2', p3', q, e, hs, -, a1, a2, -⟩ := closed_spec absf habs habs' 2 le_rfl k p1 p2 p3 h1 h2 h3
  have hx : ∀ c < 3, 4 * comp (q 0) c + comp (q 1) c = comp (k 0 * (4 : ℝ) + k 1 * (2 : ℝ)) c ∧
      comp (q 0) c + 4 * comp (q 1) c = comp (k 1 * (4 : ℝ) + k 0 * (2 : ℝ)) c := by
    intro c hc
    have b0 := hs 0 (by omega) c hc
    have b1 := hs 1 (by omega) c hc
    rw [Finset.sum_range_succ, Finset.sum_range_one] at b0 b1
    norm_num [circ, nxt, prv, cloR] at b0 b1
    exact ⟨b0, b1⟩
  obtain ⟨x0, x1⟩ := hx 0 (by omega)
  obtain ⟨y0, y1⟩ := hx 1 (by omega)
  obtain ⟨z0, z1⟩ := hx 2 (by omega)
  simp only [comp, Vec3.add_x, Vec3.add_y, Vec3.add_z, Vec3.mul_x, Vec3.mul_y, Vec3.mul_z] at x0 x1 y0 y1 z0 z1
  have hq0 : q 0 = k 0 * (14 / 15 : ℝ) + k 1 * (4 / 15 : ℝ) := by
    ext <;> simp only [Vec3.add_x, Vec3.add_y, Vec3.add_z, Vec3.mul_x, Vec3.mul_y, Vec3.mul_z] <;> linarith
  have hq1 : q 1 = k 1 * (14 / 15 : ℝ) + k 0 * (4 / 15 : ℝ) := by
    ext <;> simp only [Vec3.add_x, Vec3.add_y, Vec3.add_z, Vec3.mul_x, Vec3.mul_y, Vec3.mul_z] <;> linarith
  have c0 : cloQ3 2 k q 0 = k 1 * (2 : ℝ) - q 1 := by simp [cloQ3]
  have c1 : cloQ3 2 k q 1 = k 0 * (2 : ℝ) := by
    simp only [cloQ3, if_true, hq0, hq1]
    ext <;> simp only [Vec3.add_x, Vec3.add_y, Vec3.add_z, Vec3.mul_x, Vec3.mul_y, Vec3.mul_z, Vec3.sub_x, Vec3.sub_y,
      Vec3.sub_z] <;> ring
  refine ⟨p2', p3', q, _, e, a1, a2, hq0, c1, ?_⟩
  have hall : IsClosedSpline 2 (closedSeg 2 k q (cloQ3 2 k q)) ↔
      (closedSeg 2 k q (cloQ3 2 k q) 0).JoinC2 (closedSeg 2 k q (cloQ3 2 k q) 1) ∧
      (closedSeg 2 k q (cloQ3 2 k q) 1).JoinC2 (closedSeg 2 k q (cloQ3 2 k q) 0) := by
    constructor
    · intro h; exact ⟨h 0 (by omega), h 1 (by omega)⟩
    · rintro ⟨h, h'⟩ i hi
      interval_cases i
      · exact h
      · exact h'
  rw [hall, join_iff' _ _ rfl, join_iff' _ _ rfl]
  simp only [closedSeg, c0, c1, hq0, hq1, Vec3.ext_iff, Vec3.add_x, Vec3.add_y, Vec3.add_z, Vec3.mul_x, Vec3.mul_y,
    Vec3.mul_z, Vec3.sub_x, Vec3.sub_y, Vec3.sub_z, Vec3.zero, Nat.reduceMod, Nat.reduceAdd]
  constructor
  · rintro ⟨-, ⟨b1, b2, b3⟩, b4, b5, b6⟩
    exact ⟨⟨by linarith, by linarith, by linarith⟩, by linarith, by linarith, by linarith⟩
  · rintro ⟨⟨b1, b2, b3⟩, b4, b5, b6⟩
    simp only [b1, b2, b3, b4, b5, b6]
    norm_num

/-- C95 is false for n = 2. -/
theorem C95_refuted :
    ∃ (k : ℕ → Vec3 ℝ) (p1 p2 p3 p2' p3' : Buf (Vec3 ℝ)) (q2 q3 : ℕ → Vec3 ℝ), p1.Holds 2 k ∧
      closedBezierSpline (fun x => |x|) 2 p1 p2 p3 = .ok (true, p2', p3') ∧ p2'.Holds 2 q2 ∧ p3'.Holds 2 q3 ∧
      ¬ IsClosedSpline 2 (closedSeg 2 k q2 q3) := by
  obtain ⟨p2', p3', q2, q3, e, a1, a2, -, -, h⟩ := C95_two (fun x => |x|) (fun x => abs_nonneg x)
    (fun x hx => by simpa using hx) (fun i => ⟨i, 0, 0⟩) ⟨2, fun i => some ⟨i, 0, 0⟩⟩ (Buf.alloc 2) (Buf.alloc 2)
    ⟨le_rfl, fun _ _ => rfl⟩ le_rfl le_rfl
  refine ⟨_, ⟨2, fun i => some ⟨i, 0, 0⟩⟩, _, _, p2', p3', q2, q3, ⟨le_rfl, fun _ _ => rfl⟩, e, a1, a2, fun hc => ?_⟩
  have := congrArg Vec3.x (h.1 hc).2
  norm_num [Vec3.zero] at this

theorem C95_assert (absf : ℝ → ℝ) (n : ℕ) (hn : n < 2) (p1 p2 p3 : Buf (Vec3 ℝ)) :
    closedBezierSpline absf n p1 p2 p3 = .error .assertion := by
  rw [closedBezierSpline, if_neg (by omega)]

/-- the absolute value meets the hypotheses -/
example : (∀ x : ℝ, 0 ≤ |x|) ∧ ∀ x : ℝ, |x| ≤ |0| → x = 0 := ⟨abs_nonneg, fun x hx => by simpa using hx⟩

/-- a concrete run: a square -/
example : (closedBezierSpline (fun x : ℚ => |x|) 4
    (Buf.ofList [(⟨1, 1, 0⟩ : Vec3 ℚ), ⟨-1, 1, 0⟩, ⟨-1, -1, 0⟩, ⟨1, -1, 0⟩]) (Buf.alloc 4) (Buf.alloc 4)).map
    (fun r => (r.1, r.2.1.toList, r.2.2.toList)) =
    .ok (true, [some ⟨1/2, 3/2, 0⟩, some ⟨-3/2, 1/2, 0⟩, some ⟨-1/2, -3/2, 0⟩, some ⟨3/2, -1/2, 0⟩],
      [some ⟨-1/2, 3/2, 0⟩, some ⟨-3/2, -1/2, 0⟩, some ⟨1/2, -3/2, 0⟩, some ⟨3/2, 1/2, 0⟩]) := by
  decide +kernel

end MathLib
