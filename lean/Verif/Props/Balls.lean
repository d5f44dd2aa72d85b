import Verif.Proof.BallLemmas
import Mathlib.Analysis.Convex.Segment

/-! # C73-C76: circles and spheres -/

namespace MathLib

/-! ## C73 (2-D) -/

theorem Circle.mem_toSet (s : Circle ℝ) (p : Vec2 ℝ) : p ∈ s.toSet ↔ dist p.toE s.center.toE ≤ s.radius := Iff.rfl

/-- C73: `contains(point)` is membership in the closed ball, `contains(ball)` is inclusion of the
(non-empty) other ball. -/
theorem C73_circle (s o : Circle ℝ) (p : Vec2 ℝ) :
    (s.contains p = true ↔ dist p.toE s.center.toE ≤ s.radius) ∧
    (0 ≤ o.radius → (s.containsCircle o = true ↔ o.toSet ⊆ s.toSet)) := by
  refine ⟨by simp [Circle.contains, distance2_eq], fun ho => ?_⟩
  rw [Circle.containsCircle, decide_eq_true_eq, distance2_eq, ← ball_subset_iff ho]
  constructor
  · exact fun h q hq => h q.toE hq
  · intro h x hx
    obtain ⟨q, rfl⟩ := Vec2.toE_surj x
    exact h hx

/-! ## C74 (2-D) -/

theorem Circle.lengthSqr_sub (p c : Vec2 ℝ) : (p - c).lengthSqr = dist p.toE c.toE ^ 2 := by
  rw [(C22_length.1 _).2, Vec2.toE_sub, dist_eq_norm]

/-- the second loop of `set`: the largest squared distance -/
theorem Circle.radius_loop {mem : Mem ℝ} {a : ℕ} {stride : ℤ} {count : ℕ} {p : ℕ → Vec2 ℝ} (c : Vec2 ℝ)
    (hc : 0 < count) (h : mem.PointsAt2 a stride count p) :
    ∃ r2 q, loop 0 count (fun _ (x : ℝ × ℤ) => do
        let v ← mem.vec2At x.2
        let r2 := (v - c).lengthSqr
        .ok (if r2 > x.1 then r2 else x.1, x.2 + stride)) ((0 : ℝ), (a : ℤ)) = .ok (r2, q) ∧
      (∀ i < count, dist (p i).toE c.toE ≤ Real.sqrt r2) ∧
      ∃ i < count, dist (p i).toE c.toE = Real.sqrt r2 := by
  obtain ⟨⟨r2, q⟩, e, ⟨h0, h1, h2⟩, -⟩ := loop_rule (f := fun _ (x : ℝ × ℤ) => do
        let v ← mem.vec2At x.2
        let r2 := (v - c).lengthSqr
        .ok (if r2 > x.1 then r2 else x.1, x.2 + stride)) (lo := 0) (hi := count) (s := ((0 : ℝ), (a : ℤ)))
    (fun i s => (0 ≤ s.1 ∧ (∀ j < i, dist (p j).toE c.toE ^ 2 ≤ s.1) ∧
      (s.1 = 0 ∨ ∃ j < i, dist (p j).toE c.toE ^ 2 = s.1)) ∧ s.2 = a + i * stride) (Nat.zero_le _)
    ⟨⟨le_rfl, by simp, .inl rfl⟩, by simp⟩ (by
      rintro i ⟨r, q⟩ - hi ⟨⟨b0, b1, b2⟩, hq⟩
      simp only at b0 b1 b2 hq
      refine ⟨(if (p i - c).lengthSqr > r then (p i - c).lengthSqr else r, a + i * stride + stride),
        by simp only [hq, h.read hi, bind, Except.bind], ⟨?_, ?_, ?_⟩, ?_⟩
      · simp only [Circle.lengthSqr_sub]
        split_ifs
        · positivity
        · exact b0
      · intro j hj
        simp only [Circle.lengthSqr_sub]
        rcases Nat.lt_succ_iff_lt_or_eq.1 hj with hj | rfl
        · split_ifs with hc
          · exact (b1 j hj).trans hc.le
          · exact b1 j hj
        · split_ifs with hc
          · exact le_rfl
          · exact not_lt.1 hc
      · simp only [Circle.lengthSqr_sub]
        split_ifs with hc
        · exact .inr ⟨i, Nat.lt_succ_self i, rfl⟩
        · exact b2.imp_right fun ⟨j, hj, e⟩ => ⟨j, Nat.lt_succ_of_lt hj, e⟩
      · simp only; push_cast; ring)
  simp only at h0 h1 h2
  refine ⟨r2, q, e, fun i hi => Real.le_sqrt_of_sq_le (h1 i hi), ?_⟩
  rcases h2 with h2 | ⟨i, hi, h2⟩
  · refine ⟨0, hc, ?_⟩
    have := h1 0 hc
    rw [h2] at this ⊢
    rw [Real.sqrt_zero]
    exact pow_eq_zero_iff (two_ne_zero) |>.1 (le_antisymm this (sq_nonneg _))
  · exact ⟨i, hi, by rw [← h2, Real.sqrt_sq dist_nonneg]⟩

/-- C74: for a non-empty array in memory, contiguous or with a positive stride, `set` returns the ball
around the centre of the points' bounding box that contains all the points and has one of them on its
boundary. -/
theorem C74_circle (mem : Mem ℝ) (a : ℕ) (count : ℕ) (p : ℕ → Vec2 ℝ) (hc : 0 < count) :
    (∀ stride : ℤ, 0 < stride → mem.PointsAt2 a stride count p →
      ∃ s, Circle.setStrided mem a count stride = .ok s ∧ 0 ≤ s.radius ∧
        (∀ i < count, p i ∈ s.toSet) ∧ (∃ i < count, dist (p i).toE s.center.toE = s.radius) ∧
        ∃ b : AABB2 ℝ, b.Tightest count p ∧ s.center = b.mid) ∧
    (mem.PointsAt2 a (2 * mem.sz) count p →
      ∃ s, Circle.set mem a count = .ok s ∧ 0 ≤ s.radius ∧
        (∀ i < count, p i ∈ s.toSet) ∧ (∃ i < count, dist (p i).toE s.center.toE = s.radius) ∧
        ∃ b : AABB2 ℝ, b.Tightest count p ∧ s.center = b.mid) := by
  refine ⟨fun stride hs h => ?_, fun h => ?_⟩
  all_goals
    obtain ⟨⟨inf, sup⟩, e, hr⟩ := bounds2_of hc h
    obtain ⟨r2, q, e2, hall, hex⟩ := Circle.radius_loop ((inf + sup) * (1 / 2 : ℝ)) hc h
    refine ⟨⟨(inf + sup) * (1 / 2 : ℝ), Real.sqrt r2⟩, ?_, Real.sqrt_nonneg _, hall, hex,
      ⟨inf, sup⟩, hr.tightest, by ext <;> simp [AABB2.mid] <;> ring⟩
  · unfold Circle.setStrided
    rw [if_neg (by simp; omega)]
    simp only [bind, Except.bind, Int.toNat_natCast] at e2 ⊢
    simp only [e, e2]
    simp [Circle.mk']
  · unfold Circle.set
    simp only [bind, Except.bind, Int.toNat_natCast] at e2 ⊢
    simp only [e, e2]
    simp [Circle.mk']

/-- C74: empty arrays and non-positive strides fail an assertion. -/
theorem C74_circle_empty {K : Type} [Field K] [LinearOrder K] [BEq K] [MathFns K] (mem : Mem K) (a : ℕ)
    (count stride : ℤ) :
    (count ≤ 0 ∨ stride ≤ 0 → Circle.setStrided mem a count stride = .error .assertion) ∧
    (count ≤ 0 → Circle.set mem a count = .error .assertion) := by
  refine ⟨fun h => ?_, fun h => ?_⟩
  · unfold Circle.setStrided
    rw [if_pos (by omega)]
  · simp only [Circle.set, bounds2, bind, Except.bind]
    rw [if_pos (by omega)]

/-! ## C75 (2-D) -/

/-- C75, the test: two balls (radii ≥ 0) intersect exactly when they share a point; the version that
reports a hit gives the same answer. -/
theorem C75_circle_intersects (s o : Circle ℝ) (hs : 0 ≤ s.radius) (ho : 0 ≤ o.radius) :
    (s.intersects o = true ↔ ∃ p, p ∈ s.toSet ∧ p ∈ o.toSet) ∧
    (s.intersectsHit o).isSome = s.intersects o := by
  have hd : s.intersects o = true ↔ dist s.center.toE o.center.toE ≤ s.radius + o.radius := by
    simp only [Circle.intersects, Circle.lengthSqr_sub]
    have : dist s.center.toE o.center.toE ≤ s.radius + o.radius ↔
        ¬ dist s.center.toE o.center.toE ^ 2 > (s.radius + o.radius) * (s.radius + o.radius) := by
      rw [not_lt, ← sq, sq_le_sq₀ dist_nonneg (by linarith)]
    rw [this]
    split_ifs <;> simp_all
  constructor
  · rw [hd, ← ball_inter_iff ho hs]
    constructor
    · rintro ⟨x, h1, h2⟩
      obtain ⟨q, rfl⟩ := Vec2.toE_surj x
      exact ⟨q, h1, h2⟩
    · rintro ⟨q, h1, h2⟩
      exact ⟨q.toE, h1, h2⟩
  · simp only [Circle.intersects, Circle.intersectsHit]
    split_ifs <;> rfl

/-- C75, the hit (full claim: the hit is always in both balls and on the segment joining the centres,
which is false, see `C75_circle_refuted`).  What is reported: the depth is the overlap of the radii along
the line of centres; the hit is the centre of `o` moved towards the centre of `s` by the radius of
`o`.  It is in `o` always, in `s` exactly when `o.radius ≤ d + s.radius`, on the segment exactly when
`o.radius ≤ d` — for different centres, `d` their distance. -/
theorem C75_circle_hit_partial (s o : Circle ℝ) (hs : 0 ≤ s.radius) (ho : 0 ≤ o.radius) {hit : Vec2 ℝ} {t : ℝ}
    (h : s.intersectsHit o = some (hit, t)) :
    t = s.radius + o.radius - dist s.center.toE o.center.toE ∧ 0 ≤ t ∧ hit ∈ o.toSet ∧
    (s.center = o.center → hit = s.center ∧ hit ∈ s.toSet) ∧
    (s.center ≠ o.center →
      (hit ∈ s.toSet ↔ o.radius ≤ dist s.center.toE o.center.toE + s.radius) ∧
      (hit.toE ∈ segment ℝ o.center.toE s.center.toE ↔ o.radius ≤ dist s.center.toE o.center.toE)) := by
  have hsome := (C75_circle_intersects s o hs ho).2
  rw [h] at hsome
  have hle : dist s.center.toE o.center.toE ≤ s.radius + o.radius := by
    obtain ⟨p, h1, h2⟩ := (C75_circle_intersects s o hs ho).1.1 hsome.symm
    have := dist_triangle_left s.center.toE o.center.toE p.toE
    have h1' : dist p.toE s.center.toE ≤ s.radius := h1
    have h2' : dist p.toE o.center.toE ≤ o.radius := h2
    linarith
  simp only [Circle.intersectsHit, real_sqrt] at h
  split_ifs at h
  simp only [Option.some.injEq, Prod.mk.injEq] at h
  obtain ⟨h1, h2⟩ := h
  rw [Circle.lengthSqr_sub, Real.sqrt_sq dist_nonneg] at h2
  have hlen : (s.center - o.center).length = dist s.center.toE o.center.toE := by
    rw [(C22_length.1 _).1, Vec2.toE_sub, dist_eq_norm]
  by_cases hc : s.center = o.center
  · have hz : s.center - o.center = Vec2.zero := by rw [hc]; ext <;> simp [Vec2.zero]
    have hh : hit = s.center := by
      rw [← h1, hz, (C22_normalize2 Vec2.zero o.radius).2.2.1 rfl, hc]; ext <;> simp [Vec2.zero]
    refine ⟨h2.symm, by linarith, ?_, fun _ => ⟨hh, ?_⟩, fun h => absurd hc h⟩
    · rw [Circle.mem_toSet, hh, hc]; simpa using ho
    · rw [Circle.mem_toSet, hh]; simpa using hs
  · have hz : s.center - o.center ≠ Vec2.zero := by
      intro e
      apply hc
      simp only [Vec2.zero, Vec2.ext_iff, Vec2.sub_x, Vec2.sub_y,  sub_eq_zero] at e
      exact Vec2.ext_iff.2 e
    obtain ⟨hp, hn, hl⟩ := (C22_normalize2 _ o.radius).2.2.2 hz
    rw [hlen] at hp hn
    set d := dist s.center.toE o.center.toE with hd
    have he : hit.toE = o.center.toE + (o.radius / d) • (s.center.toE - o.center.toE) := by
      rw [← h1, hn, Vec2.toE_add, Vec2.toE_mul, Vec2.toE_sub]
    have hdn : ‖s.center.toE - o.center.toE‖ = d := by rw [hd, dist_eq_norm]
    have ho' : dist hit.toE o.center.toE = o.radius := by
      rw [he, dist_eq_norm, add_sub_cancel_left, norm_smul, hdn, Real.norm_of_nonneg (by positivity)]
      field_simp
    have hs' : dist hit.toE s.center.toE = |o.radius - d| := by
      rw [he, dist_eq_norm, show o.center.toE + (o.radius / d) • (s.center.toE - o.center.toE) - s.center.toE =
        (o.radius / d - 1) • (s.center.toE - o.center.toE) by module, norm_smul, hdn, Real.norm_eq_abs]
      rw [← abs_of_pos hp, ← abs_mul, abs_of_pos hp]
      congr 1; field_simp
    refine ⟨h2.symm, by linarith, ho'.le, fun e => absurd e hc, fun _ => ⟨?_, ?_⟩⟩
    · rw [Circle.mem_toSet, hs', abs_le]
      constructor
      · rintro ⟨_, h⟩; linarith
      · intro h; constructor <;> linarith
    · constructor
      · rintro ⟨u, v, hu, hv, huv, e⟩
        have : dist hit.toE o.center.toE = v * d := by
          rw [← e, dist_eq_norm, show u • o.center.toE + v • s.center.toE - o.center.toE =
            v • (s.center.toE - o.center.toE) by rw [show u = 1 - v by linarith]; module,
            norm_smul, hdn, Real.norm_of_nonneg hv]
        nlinarith
      · intro h
        refine ⟨1 - o.radius / d, o.radius / d, ?_, by positivity, by ring, ?_⟩
        · rw [sub_nonneg, div_le_one hp]; exact h
        · rw [he]; module

/-! ## C73 (3-D) -/

theorem Sphere.mem_toSet (s : Sphere ℝ) (p : Vec3 ℝ) : p ∈ s.toSet ↔ dist p.toE s.center.toE ≤ s.radius := Iff.rfl

/-- C73: `contains(point)` is membership in the closed ball, `contains(ball)` is inclusion of the
(non-empty) other ball. -/
theorem C73_sphere (s o : Sphere ℝ) (p : Vec3 ℝ) :
    (s.contains p = true ↔ dist p.toE s.center.toE ≤ s.radius) ∧
    (0 ≤ o.radius → (s.containsSphere o = true ↔ o.toSet ⊆ s.toSet)) := by
  refine ⟨by simp [Sphere.contains, distance3_eq], fun ho => ?_⟩
  rw [Sphere.containsSphere, decide_eq_true_eq, distance3_eq, ← ball_subset_iff ho]
  constructor
  · exact fun h q hq => h q.toE hq
  · intro h x hx
    obtain ⟨q, rfl⟩ := Vec3.toE_surj x
    exact h hx

/-! ## C74 (3-D) -/

theorem Sphere.lengthSqr_sub (p c : Vec3 ℝ) : (p - c).lengthSqr = dist p.toE c.toE ^ 2 := by
  rw [(C22_length.2.1 _).2, Vec3.toE_sub, dist_eq_norm]

/-- the second loop of `set`: the largest squared distance -/
theorem Sphere.radius_loop {mem : Mem ℝ} {a : ℕ} {stride : ℤ} {count : ℕ} {p : ℕ → Vec3 ℝ} (c : Vec3 ℝ)
    (hc : 0 < count) (h : mem.PointsAt3 a stride count p) :
    ∃ r2 q, loop 0 count (fun _ (x : ℝ × ℤ) => do
        let v ← mem.vec3At x.2
        let r2 := (v - c).lengthSqr
        .ok (if r2 > x.1 then r2 else x.1, x.2 + stride)) ((0 : ℝ), (a : ℤ)) = .ok (r2, q) ∧
      (∀ i < count, dist (p i).toE c.toE ≤ Real.sqrt r2) ∧
      ∃ i < count, dist (p i).toE c.toE = Real.sqrt r2 := by
  obtain ⟨⟨r2, q⟩, e, ⟨h0, h1, h2⟩, -⟩ := loop_rule (f := fun _ (x : ℝ × ℤ) => do
        let v ← mem.vec3At x.2
        let r2 := (v - c).lengthSqr
        .ok (if r2 > x.1 then r2 else x.1, x.2 + stride)) (lo := 0) (hi := count) (s := ((0 : ℝ), (a : ℤ)))
    (fun i s => (0 ≤ s.1 ∧ (∀ j < i, dist (p j).toE c.toE ^ 2 ≤ s.1) ∧
      (s.1 = 0 ∨ ∃ j < i, dist (p j).toE c.toE ^ 2 = s.1)) ∧ s.2 = a + i * stride) (Nat.zero_le _)
    ⟨⟨le_rfl, by simp, .inl rfl⟩, by simp⟩ (by
      rintro i ⟨r, q⟩ - hi ⟨⟨b0, b1, b2⟩, hq⟩
      simp only at b0 b1 b2 hq
      refine ⟨(if (p i - c).lengthSqr > r then (p i - c).lengthSqr else r, a + i * stride + stride),
        by simp only [hq, h.read hi, bind, Except.bind], ⟨?_, ?_, ?_⟩, ?_⟩
      · simp only [Sphere.lengthSqr_sub]
        split_ifs
        · positivity
        · exact b0
      · intro j hj
        simp only [Sphere.lengthSqr_sub]
        rcases Nat.lt_succ_iff_lt_or_eq.1 hj with hj | rfl
        · split_ifs with hc
          · exact (b1 j hj).trans hc.le
          · exact b1 j hj
        · split_ifs with hc
          · exact le_rfl
          · exact not_lt.1 hc
      · simp only [Sphere.lengthSqr_sub]
        split_ifs with hc
        · exact .inr ⟨i, Nat.lt_succ_self i, rfl⟩
        · exact b2.imp_right fun ⟨j, hj, e⟩ => ⟨j, Nat.lt_succ_of_lt hj, e⟩
      · simp only; push_cast; ring)
  simp only at h0 h1 h2
  refine ⟨r2, q, e, fun i hi => Real.le_sqrt_of_sq_le (h1 i hi), ?_⟩
  rcases h2 with h2 | ⟨i, hi, h2⟩
  · refine ⟨0, hc, ?_⟩
    have := h1 0 hc
    rw [h2] at this ⊢
    rw [Real.sqrt_zero]
    exact pow_eq_zero_iff (two_ne_zero) |>.1 (le_antisymm this (sq_nonneg _))
  · exact ⟨i, hi, by rw [← h2, Real.sqrt_sq dist_nonneg]⟩

/-- C74: for a non-empty array in memory, contiguous or with a positive stride, `set` returns the ball
around the centre of the points' bounding box that contains all the points and has one of them on its
boundary. -/
theorem C74_sphere (mem : Mem ℝ) (a : ℕ) (count : ℕ) (p : ℕ → Vec3 ℝ) (hc : 0 < count) :
    (∀ stride : ℤ, 0 < stride → mem.PointsAt3 a stride count p →
      ∃ s, Sphere.setStrided mem a count stride = .ok s ∧ 0 ≤ s.radius ∧
        (∀ i < count, p i ∈ s.toSet) ∧ (∃ i < count, dist (p i).toE s.center.toE = s.radius) ∧
        ∃ b : AABB3 ℝ, b.Tightest count p ∧ s.center = b.mid) ∧
    (mem.PointsAt3 a (3 * mem.sz) count p →
      ∃ s, Sphere.set mem a count = .ok s ∧ 0 ≤ s.radius ∧
        (∀ i < count, p i ∈ s.toSet) ∧ (∃ i < count, dist (p i).toE s.center.toE = s.radius) ∧
        ∃ b : AABB3 ℝ, b.Tightest count p ∧ s.center = b.mid) := by
  refine ⟨fun stride hs h => ?_, fun h => ?_⟩
  all_goals
    obtain ⟨⟨inf, sup⟩, e, hr⟩ := bounds3_of hc h
    obtain ⟨r2, q, e2, hall, hex⟩ := Sphere.radius_loop ((inf + sup) * (1 / 2 : ℝ)) hc h
    refine ⟨⟨(inf + sup) * (1 / 2 : ℝ), Real.sqrt r2⟩, ?_, Real.sqrt_nonneg _, hall, hex,
      ⟨inf, sup⟩, hr.tightest, by ext <;> simp [AABB3.mid] <;> ring⟩
  · unfold Sphere.setStrided
    rw [if_neg (by simp; omega)]
    simp only [bind, Except.bind, Int.toNat_natCast] at e2 ⊢
    simp only [e, e2]
    simp [Sphere.mk']
  · unfold Sphere.set
    simp only [bind, Except.bind, Int.toNat_natCast] at e2 ⊢
    simp only [e, e2]
    simp [Sphere.mk']

/-- C74: empty arrays and non-positive strides fail an assertion. -/
theorem C74_sphere_empty {K : Type} [Field K] [LinearOrder K] [BEq K] [MathFns K] (mem : Mem K) (a : ℕ)
    (count stride : ℤ) :
    (count ≤ 0 ∨ stride ≤ 0 → Sphere.setStrided mem a count stride = .error .assertion) ∧
    (count ≤ 0 → Sphere.set mem a count = .error .assertion) := by
  refine ⟨fun h => ?_, fun h => ?_⟩
  · unfold Sphere.setStrided
    rw [if_pos (by omega)]
  · simp only [Sphere.set, bounds3, bind, Except.bind]
    rw [if_pos (by omega)]

/-! ## C75 (3-D) -/

/-- C75, the test: two balls (radii ≥ 0) intersect exactly when they share a point; the version that
reports a hit gives the same answer. -/
theorem C75_sphere_intersects (s o : Sphere ℝ) (hs : 0 ≤ s.radius) (ho : 0 ≤ o.radius) :
    (s.intersects o = true ↔ ∃ p, p ∈ s.toSet ∧ p ∈ o.toSet) ∧
    (s.intersectsHit o).isSome = s.intersects o := by
  have hd : s.intersects o = true ↔ dist s.center.toE o.center.toE ≤ s.radius + o.radius := by
    simp only [Sphere.intersects, Sphere.lengthSqr_sub]
    have : dist s.center.toE o.center.toE ≤ s.radius + o.radius ↔
        ¬ dist s.center.toE o.center.toE ^ 2 > (s.radius + o.radius) * (s.radius + o.radius) := by
      rw [not_lt, ← sq, sq_le_sq₀ dist_nonneg (by linarith)]
    rw [this]
    split_ifs <;> simp_all
  constructor
  · rw [hd, ← ball_inter_iff ho hs]
    constructor
    · rintro ⟨x, h1, h2⟩
      obtain ⟨q, rfl⟩ := Vec3.toE_surj x
      exact ⟨q, h1, h2⟩
    · rintro ⟨q, h1, h2⟩
      exact ⟨q.toE, h1, h2⟩
  · simp only [Sphere.intersects, Sphere.intersectsHit]
    split_ifs <;> rfl

/-- C75, the hit (full claim: the hit is always in both balls and on the segment joining the centres,
which is false, see `C75_sphere_refuted`).  What is reported: the depth is the overlap of the radii along
the line of centres; the hit is the centre of `o` moved towards the centre of `s` by the radius of
`o`.  It is in `o` always, in `s` exactly when `o.radius ≤ d + s.radius`, on the segment exactly when
`o.radius ≤ d` — for different centres, `d` their distance. -/
theorem C75_sphere_hit_partial (s o : Sphere ℝ) (hs : 0 ≤ s.radius) (ho : 0 ≤ o.radius) {hit : Vec3 ℝ} {t : ℝ}
    (h : s.intersectsHit o = some (hit, t)) :
    t = s.radius + o.radius - dist s.center.toE o.center.toE ∧ 0 ≤ t ∧ hit ∈ o.toSet ∧
    (s.center = o.center → hit = s.center ∧ hit ∈ s.toSet) ∧
    (s.center ≠ o.center →
      (hit ∈ s.toSet ↔ o.radius ≤ dist s.center.toE o.center.toE + s.radius) ∧
      (hit.toE ∈ segment ℝ o.center.toE s.center.toE ↔ o.radius ≤ dist s.center.toE o.center.toE)) := by
  have hsome := (C75_sphere_intersects s o hs ho).2
  rw [h] at hsome
  have hle : dist s.center.toE o.center.toE ≤ s.radius + o.radius := by
    obtain ⟨p, h1, h2⟩ := (C75_sphere_intersects s o hs ho).1.1 hsome.symm
    have := dist_triangle_left s.center.toE o.center.toE p.toE
    have h1' : dist p.toE s.center.toE ≤ s.radius := h1
    have h2' : dist p.toE o.center.toE ≤ o.radius := h2
    linarith
  simp only [Sphere.intersectsHit, real_sqrt] at h
  split_ifs at h
  simp only [Option.some.injEq, Prod.mk.injEq] at h
  obtain ⟨h1, h2⟩ := h
  rw [Sphere.lengthSqr_sub, Real.sqrt_sq dist_nonneg] at h2
  have hlen : (s.center - o.center).length = dist s.center.toE o.center.toE := by
    rw [(C22_length.2.1 _).1, Vec3.toE_sub, dist_eq_norm]
  by_cases hc : s.center = o.center
  · have hz : s.center - o.center = Vec3.zero := by rw [hc]; ext <;> simp [Vec3.zero]
    have hh : hit = s.center := by
      rw [← h1, hz, (C22_normalize3 Vec3.zero o.radius).2.2.1 rfl, hc]; ext <;> simp [Vec3.zero]
    refine ⟨h2.symm, by linarith, ?_, fun _ => ⟨hh, ?_⟩, fun h => absurd hc h⟩
    · rw [Sphere.mem_toSet, hh, hc]; simpa using ho
    · rw [Sphere.mem_toSet, hh]; simpa using hs
  · have hz : s.center - o.center ≠ Vec3.zero := by
      intro e
      apply hc
      simp only [Vec3.zero, Vec3.ext_iff, Vec3.sub_x, Vec3.sub_y, Vec3.sub_z, sub_eq_zero] at e
      exact Vec3.ext_iff.2 e
    obtain ⟨hp, hn, hl⟩ := (C22_normalize3 _ o.radius).2.2.2 hz
    rw [hlen] at hp hn
    set d := dist s.center.toE o.center.toE with hd
    have he : hit.toE = o.center.toE + (o.radius / d) • (s.center.toE - o.center.toE) := by
      rw [← h1, hn, Vec3.toE_add, Vec3.toE_mul, Vec3.toE_sub]
    have hdn : ‖s.center.toE - o.center.toE‖ = d := by rw [hd, dist_eq_norm]
    have ho' : dist hit.toE o.center.toE = o.radius := by
      rw [he, dist_eq_norm, add_sub_cancel_left, norm_smul, hdn, Real.norm_of_nonneg (by positivity)]
      field_simp
    have hs' : dist hit.toE s.center.toE = |o.radius - d| := by
      rw [he, dist_eq_norm, show o.center.toE + (o.radius / d) • (s.center.toE - o.center.toE) - s.center.toE =
        (o.radius / d - 1) • (s.center.toE - o.center.toE) by module, norm_smul, hdn, Real.norm_eq_abs]
      rw [← abs_of_pos hp, ← abs_mul, abs_of_pos hp]
      congr 1; field_simp
    refine ⟨h2.symm, by linarith, ho'.le, fun e => absurd e hc, fun _ => ⟨?_, ?_⟩⟩
    · rw [Sphere.mem_toSet, hs', abs_le]
      constructor
      · rintro ⟨_, h⟩; linarith
      · intro h; constructor <;> linarith
    · constructor
      · rintro ⟨u, v, hu, hv, huv, e⟩
        have : dist hit.toE o.center.toE = v * d := by
          rw [← e, dist_eq_norm, show u • o.center.toE + v • s.center.toE - o.center.toE =
            v • (s.center.toE - o.center.toE) by rw [show u = 1 - v by linarith]; module,
            norm_smul, hdn, Real.norm_of_nonneg hv]
        nlinarith
      · intro h
        refine ⟨1 - o.radius / d, o.radius / d, ?_, by positivity, by ring, ?_⟩
        · rw [sub_nonneg, div_le_one hp]; exact h
        · rw [he]; module

def C74_mem : Mem ℝ where
  sz := 4
  alloc a := decide (a < 32)
  val a := [some 1, some 5, none, none, some 1, some 9, some 7, some 8][a / 4]?.join

/-- a strided array of two points, gaps uninitialised -/
example : C74_mem.PointsAt2 0 16 2 (fun i => ([⟨1, 5⟩] : List (Vec2 ℝ)).getD i ⟨1, 9⟩) := by
  refine fun i hi => ⟨16 * i, by push_cast; ring, ?_⟩
  interval_cases i <;> simp [C74_mem]

/-- C75: the full claim about the hit is false: with `s` = unit ball at the origin and `o` = ball of
radius 5 around (1,0) the reported hit is (-4,0), which is outside `s` and outside the segment. -/
theorem C75_circle_refuted :
    ∃ (s o : Circle ℝ) (hit : Vec2 ℝ) (t : ℝ), 0 ≤ s.radius ∧ 0 ≤ o.radius ∧
      s.intersectsHit o = some (hit, t) ∧ hit ∉ s.toSet ∧
      hit.toE ∉ segment ℝ o.center.toE s.center.toE := by
  have hd : dist (⟨0, 0⟩ : Vec2 ℝ).toE (⟨1, 0⟩ : Vec2 ℝ).toE = 1 := by rw [Vec2.dist_toE]; norm_num
  have e : (⟨⟨0, 0⟩, 1⟩ : Circle ℝ).intersectsHit ⟨⟨1, 0⟩, 5⟩ = some (⟨-4, 0⟩, 5) := by
    norm_num [Circle.intersectsHit, Vec2.lengthSqr, Vec2.normalized, Vec2.length, Vec2.ext_iff]
  have := (C75_circle_hit_partial _ _ (by norm_num) (by norm_num) e).2.2.2.2 (by simp)
  refine ⟨_, _, _, _, by norm_num, by norm_num, e, ?_, ?_⟩
  · rw [this.1, hd]; norm_num
  · rw [this.2, hd]; norm_num

theorem C75_sphere_refuted :
    ∃ (s o : Sphere ℝ) (hit : Vec3 ℝ) (t : ℝ), 0 ≤ s.radius ∧ 0 ≤ o.radius ∧
      s.intersectsHit o = some (hit, t) ∧ hit ∉ s.toSet ∧
      hit.toE ∉ segment ℝ o.center.toE s.center.toE := by
  have hd : dist (⟨0, 0, 0⟩ : Vec3 ℝ).toE (⟨1, 0, 0⟩ : Vec3 ℝ).toE = 1 := by rw [Vec3.dist_toE]; norm_num
  have e : (⟨⟨0, 0, 0⟩, 1⟩ : Sphere ℝ).intersectsHit ⟨⟨1, 0, 0⟩, 5⟩ = some (⟨-4, 0, 0⟩, 5) := by
    norm_num [Sphere.intersectsHit, Vec3.lengthSqr, Vec3.normalized, Vec3.length, Vec3.ext_iff]
  have := (C75_sphere_hit_partial _ _ (by norm_num) (by norm_num) e).2.2.2.2 (by simp)
  refine ⟨_, _, _, _, by norm_num, by norm_num, e, ?_, ?_⟩
  · rw [this.1, hd]; norm_num
  · rw [this.2, hd]; norm_num

/-- C75, a case where the hit is as claimed -/
example : (⟨⟨0, 0⟩, 2⟩ : Circle ℝ).intersectsHit ⟨⟨3, 4⟩, 4⟩ = some (⟨3/5, 4/5⟩, 1) := by
  have : Real.sqrt 25 = 5 := by rw [show (25 : ℝ) = 5 ^ 2 by norm_num, Real.sqrt_sq (by norm_num)]
  norm_num [Circle.intersectsHit, Vec2.lengthSqr, Vec2.normalized, Vec2.length, Vec2.ext_iff, this]

/-! ## C76 -/

theorem Sphere.line_quad (s : Sphere ℝ) (l : Line3 ℝ) (t : ℝ) :
    dist (l.pointAt t).toE s.center.toE ^ 2 - s.radius * s.radius =
      (l.end - l.start).lengthSqr * t ^ 2 + 2 * ((l.end - l.start).dot (l.start - s.center)) * t +
        ((l.start - s.center).lengthSqr - s.radius * s.radius) := by
  rw [Vec3.dist_toE, Real.sq_sqrt (by positivity)]
  simp only [Line3.pointAt, lerpVec3, Vec3.lengthSqr, Vec3.dot, Vec3.sub_x, Vec3.sub_y, Vec3.sub_z]
  ring

theorem Circle.line_quad (s : Circle ℝ) (l : Line3 ℝ) (t : ℝ) :
    dist (drop (l.pointAt t)).toE s.center.toE ^ 2 - s.radius * s.radius =
      (drop (l.end - l.start)).lengthSqr * t ^ 2 +
        2 * ((drop (l.end - l.start)).dot (drop l.start - s.center)) * t +
        ((drop l.start - s.center).lengthSqr - s.radius * s.radius) := by
  rw [Vec2.dist_toE, Real.sq_sqrt (by positivity)]
  simp only [Line3.pointAt, lerpVec3, Vec2.lengthSqr, Vec2.dot, Vec2.sub_x, Vec2.sub_y, drop, Vec3.sub_x,
    Vec3.sub_y]
  ring

theorem in_ball_iff {d r e : ℝ} (hd : 0 ≤ d) (hr : 0 ≤ r) (h : d ^ 2 - r * r = e) :
    (d ≤ r ↔ e ≤ 0) ∧ (d = r ↔ e = 0) ∧ (¬ d ≤ r ↔ 0 < e) := by
  have h1 : d ≤ r ↔ e ≤ 0 := by rw [← h, sub_nonpos, ← sq, sq_le_sq₀ hd hr]
  refine ⟨h1, ?_, by rw [h1, not_le]⟩
  rw [← h, sub_eq_zero, ← sq, sq_eq_sq₀ hd hr]

/-- C76 (full claim: true exactly when the segment meets the ball; false when the segment starts
inside, see `C76_sphere_refuted`).  Exactly what is reported: the parameter in [0,1] at which the whole
supporting line enters the ball, for a non-degenerate segment.  The hit is the point at the reported
parameter, on the surface, and no earlier point is in the ball.  For a segment that starts outside the
ball the answer is as claimed: true iff some point of the segment is in the ball. -/
theorem C76_sphere_partial (s : Sphere ℝ) (l : Line3 ℝ) (hr : 0 ≤ s.radius) :
    (∀ p t, s.intersectsLineHit l = some (p, t) ↔
      l.start ≠ l.end ∧ (0 ≤ t ∧ t ≤ 1) ∧ p = l.pointAt t ∧ p ∈ s.toSet ∧ ∀ u < t, l.pointAt u ∉ s.toSet) ∧
    (∀ p t, s.intersectsLineHit l = some (p, t) → dist p.toE s.center.toE = s.radius) ∧
    (l.start ∉ s.toSet →
      ((s.intersectsLineHit l).isSome = true ↔ ∃ t, 0 ≤ t ∧ t ≤ 1 ∧ l.pointAt t ∈ s.toSet)) ∧
    s.intersectsLine l = (s.intersectsLineHit l).isSome := by
  set a := (l.end - l.start).lengthSqr with ha
  set b := (l.end - l.start).dot (l.start - s.center) with hb
  set c := (l.start - s.center).lengthSqr - s.radius * s.radius with hc
  have e : s.intersectsLineHit l = (seg a b c).map (fun x => (l.pointAt x, x)) := by
    simp only [Sphere.intersectsLineHit, seg, beq_iff_eq, real_sqrt, ← ha, ← hb, ← hc]
    split_ifs <;> rfl
  have hq := fun t => in_ball_iff dist_nonneg hr (s.line_quad l t)
  rw [← ha, ← hb, ← hc] at hq
  have hle := fun t => (hq t).1
  have heq := fun t => (hq t).2.1
  have hlt := fun t => (hq t).2.2
  have ha0 : 0 ≤ a := by rw [ha, Sphere.lengthSqr_sub]; positivity
  have hane : a ≠ 0 ↔ l.start ≠ l.end := by
    rw [not_iff_not, ha, Sphere.lengthSqr_sub, sq_eq_zero_iff, dist_eq_zero]
    refine ⟨fun h => ?_, fun h => by rw [h]⟩
    exact Vec3.ext (congrFun (congrArg WithLp.ofLp h) 0).symm (congrFun (congrArg WithLp.ofLp h) 1).symm
      (congrFun (congrArg WithLp.ofLp h) 2).symm
  have hsp : ∀ x, seg a b c = some x ↔ l.start ≠ l.end ∧ (0 ≤ x ∧ x ≤ 1) ∧ l.pointAt x ∈ s.toSet ∧
      ∀ u < x, l.pointAt u ∉ s.toSet := by
    intro x
    rw [seg_spec ha0, hane, Sphere.mem_toSet, hle]
    simp only [Sphere.mem_toSet, hlt]
  have hp0 : l.pointAt 0 = l.start := by ext <;> simp [Line3.pointAt, lerpVec3]
  refine ⟨fun p t => ?_, fun p t h => ?_, fun h => ?_, ?_⟩
  · rw [e]
    simp only [Option.map_eq_some_iff, Prod.mk.injEq]
    constructor
    · rintro ⟨x, hx, rfl, rfl⟩
      obtain ⟨h1, h2, h3, h4⟩ := (hsp x).1 hx
      exact ⟨h1, h2, rfl, h3, h4⟩
    · rintro ⟨h1, h2, rfl, h3, h4⟩
      exact ⟨t, (hsp t).2 ⟨h1, h2, h3, h4⟩, rfl, rfl⟩
  · rw [e] at h
    simp only [Option.map_eq_some_iff, Prod.mk.injEq] at h
    obtain ⟨x, hx, rfl, rfl⟩ := h
    exact (heq x).2 (seg_root hx ha0)
  · rw [e, Option.isSome_map]
    have hb1 : a = 0 → b = 0 := by
      intro h0
      by_contra hb0
      have : l.start = l.end := by
        by_contra hne; exact (hane.2 hne) h0
      exact hb0 (by rw [hb, this]; simp [Vec3.dot])
    rw [seg_outside ha0 hb1 ?_]
    · simp only [Sphere.mem_toSet, hle]
    · rw [← hp0, Sphere.mem_toSet, hlt] at h
      simpa using h
  · simp only [Sphere.intersectsLine, Sphere.intersectsLineHit]
    split_ifs <;> rfl

/-- C76 for circles: the segment (of the `Line3` the code takes) is seen through its projection onto
the xy-plane. -/
theorem C76_circle_partial (s : Circle ℝ) (l : Line3 ℝ) (hr : 0 ≤ s.radius) :
    (∀ p t, s.intersectsLine l = some (p, t) ↔
      (l.start.x, l.start.y) ≠ (l.end.x, l.end.y) ∧ (0 ≤ t ∧ t ≤ 1) ∧
      p = ⟨(l.pointAt t).x, (l.pointAt t).y⟩ ∧ p ∈ s.toSet ∧
      ∀ u < t, ⟨(l.pointAt u).x, (l.pointAt u).y⟩ ∉ s.toSet) ∧
    (∀ p t, s.intersectsLine l = some (p, t) → dist p.toE s.center.toE = s.radius) ∧
    (⟨l.start.x, l.start.y⟩ ∉ s.toSet →
      ((s.intersectsLine l).isSome = true ↔
        ∃ t, 0 ≤ t ∧ t ≤ 1 ∧ ⟨(l.pointAt t).x, (l.pointAt t).y⟩ ∈ s.toSet)) := by
  set a := (Circle.drop (l.end - l.start)).lengthSqr with ha
  set b := (Circle.drop (l.end - l.start)).dot (Circle.drop l.start - s.center) with hb
  set c := (Circle.drop l.start - s.center).lengthSqr - s.radius * s.radius with hc
  have e : s.intersectsLine l = (seg a b c).map (fun x => (Circle.drop (l.pointAt x), x)) := by
    simp only [Circle.intersectsLine, seg, beq_iff_eq, real_sqrt, ← ha, ← hb, ← hc]
    split_ifs <;> rfl
  have hq := fun t => in_ball_iff dist_nonneg hr (s.line_quad l t)
  rw [← ha, ← hb, ← hc] at hq
  have hle := fun t => (hq t).1
  have heq := fun t => (hq t).2.1
  have hlt := fun t => (hq t).2.2
  have ha' : a = (l.end.x - l.start.x) ^ 2 + (l.end.y - l.start.y) ^ 2 := by
    rw [ha]; simp only [Circle.drop, Vec2.lengthSqr, Vec3.sub_x, Vec3.sub_y]; ring
  have ha0 : 0 ≤ a := by rw [ha']; positivity
  have hane : a ≠ 0 ↔ (l.start.x, l.start.y) ≠ (l.end.x, l.end.y) := by
    rw [not_iff_not, ha', Prod.mk.injEq, add_eq_zero_iff_of_nonneg (sq_nonneg _) (sq_nonneg _), sq_eq_zero_iff,
      sq_eq_zero_iff, sub_eq_zero, sub_eq_zero, eq_comm, eq_comm (a := l.end.y)]
  have hsp : ∀ x, seg a b c = some x ↔ (l.start.x, l.start.y) ≠ (l.end.x, l.end.y) ∧ (0 ≤ x ∧ x ≤ 1) ∧
      Circle.drop (l.pointAt x) ∈ s.toSet ∧ ∀ u < x, Circle.drop (l.pointAt u) ∉ s.toSet := by
    intro x
    rw [seg_spec ha0, hane, Circle.mem_toSet, hle]
    simp only [Circle.mem_toSet, hlt]
  have hp0 : Circle.drop (l.pointAt 0) = Circle.drop l.start := by
    simp [Line3.pointAt, lerpVec3, Circle.drop]
  refine ⟨fun p t => ?_, fun p t h => ?_, fun h => ?_⟩
  · rw [e]
    simp only [Option.map_eq_some_iff, Prod.mk.injEq]
    constructor
    · rintro ⟨x, hx, rfl, rfl⟩
      obtain ⟨h1, h2, h3, h4⟩ := (hsp x).1 hx
      exact ⟨h1, h2, rfl, h3, h4⟩
    · rintro ⟨h1, h2, rfl, h3, h4⟩
      exact ⟨t, (hsp t).2 ⟨h1, h2, h3, h4⟩, rfl, rfl⟩
  · rw [e] at h
    simp only [Option.map_eq_some_iff, Prod.mk.injEq] at h
    obtain ⟨x, hx, rfl, rfl⟩ := h
    exact (heq x).2 (seg_root hx ha0)
  · rw [e, Option.isSome_map]
    have hb1 : a = 0 → b = 0 := by
      intro h0
      rw [ha', add_eq_zero_iff_of_nonneg (sq_nonneg _) (sq_nonneg _), sq_eq_zero_iff, sq_eq_zero_iff] at h0
      rw [hb]; simp [Vec2.dot, Circle.drop, h0.1, h0.2]
    rw [seg_outside ha0 hb1 ?_]
    · simp only [Circle.mem_toSet, ← hle]; rfl
    · change Circle.drop l.start ∉ s.toSet at h
      rw [← hp0, Circle.mem_toSet, hlt] at h
      simpa using h

/-- a segment through the unit ball, entering at parameter 1/4 -/
example : (⟨⟨0, 0, 0⟩, 1⟩ : Sphere ℝ).intersectsLineHit ⟨⟨-2, 0, 0⟩, ⟨2, 0, 0⟩⟩ = some (⟨-1, 0, 0⟩, 1/4) := by
  have : Real.sqrt 16 = 4 := by rw [show (16 : ℝ) = 4 ^ 2 by norm_num, Real.sqrt_sq (by norm_num)]
  norm_num [Sphere.intersectsLineHit, Vec3.lengthSqr, Vec3.dot, Line3.pointAt, lerpVec3, Vec3.ext_iff, this]

/-- C76: the full claim is false: the segment from the centre of the unit ball to (2,0,0) starts in the
ball and is reported as missing it. -/
theorem C76_sphere_refuted :
    ∃ (s : Sphere ℝ) (l : Line3 ℝ), 0 < s.radius ∧ l.start ≠ l.end ∧ l.pointAt 0 ∈ s.toSet ∧
      s.intersectsLineHit l = none ∧ s.intersectsLine l = false := by
  have h4 : Real.sqrt 4 = 2 := by rw [show (4 : ℝ) = 2 ^ 2 by norm_num, Real.sqrt_sq (by norm_num)]
  refine ⟨⟨⟨0, 0, 0⟩, 1⟩, ⟨⟨0, 0, 0⟩, ⟨2, 0, 0⟩⟩, by norm_num, by simp, ?_, ?_, ?_⟩
  · rw [Sphere.mem_toSet, Vec3.dist_toE]; norm_num [Line3.pointAt, lerpVec3]
  · norm_num [Sphere.intersectsLineHit, Vec3.lengthSqr, Vec3.dot, h4]
  · norm_num [Sphere.intersectsLine, Vec3.lengthSqr, Vec3.dot, h4]

theorem C76_circle_refuted :
    ∃ (s : Circle ℝ) (l : Line3 ℝ), 0 < s.radius ∧ l.start.x ≠ l.end.x ∧
      ⟨(l.pointAt 0).x, (l.pointAt 0).y⟩ ∈ s.toSet ∧ s.intersectsLine l = none := by
  have h4 : Real.sqrt 4 = 2 := by rw [show (4 : ℝ) = 2 ^ 2 by norm_num, Real.sqrt_sq (by norm_num)]
  refine ⟨⟨⟨0, 0⟩, 1⟩, ⟨⟨0, 0, 0⟩, ⟨2, 0, 0⟩⟩, by norm_num, by simp, ?_, ?_⟩
  · rw [Circle.mem_toSet, Vec2.dist_toE]; norm_num [Line3.pointAt, lerpVec3]
  · norm_num [Circle.intersectsLine, Circle.drop, Vec2.lengthSqr, Vec2.dot, h4]

end MathLib
