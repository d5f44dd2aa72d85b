import Verif.Props.Planes
import Verif.Proof.VecModule
import Mathlib.Analysis.Convex.Join

/-! # C84-C86: lines, rays, triangles -/

namespace MathLib

/-! ## C84 -/

/-- `r` is the smallest distance from `p` to a point `s + t d` of the infinite line (or of the single
point `s` when `d = 0`). -/
def IsLineDist3 (s d p : Vec3 ℝ) (r : ℝ) : Prop := IsLeast {x | ∃ t : ℝ, x = dist (s + d * t).toE p.toE} r
def IsLineDist2 (s d p : Vec2 ℝ) (r : ℝ) : Prop := IsLeast {x | ∃ t : ℝ, x = dist (s + d * t).toE p.toE} r

theorem isLineDist3_of_normal {s d p n : Vec3 ℝ} (hn : n.x ^ 2 + n.y ^ 2 + n.z ^ 2 = 1)
    (hd : n.x * d.x + n.y * d.y + n.z * d.z = 0) {t₀ k : ℝ} (hk : p - s = d * t₀ + n * k) :
    IsLineDist3 s d p |n.x * (p.x - s.x) + n.y * (p.y - s.y) + n.z * (p.z - s.z)| := by
  have hx := congrArg Vec3.x hk
  have hy := congrArg Vec3.y hk
  have hz := congrArg Vec3.z hk
  simp only [Vec3.sub_x, Vec3.sub_y, Vec3.sub_z, Vec3.add_x, Vec3.add_y, Vec3.add_z, Vec3.mul_x, Vec3.mul_y,
    Vec3.mul_z] at hx hy hz
  have hv : n.x * (p.x - s.x) + n.y * (p.y - s.y) + n.z * (p.z - s.z) = k := by
    rw [hx, hy, hz]; linear_combination t₀ * hd + k * hn
  constructor
  · refine ⟨t₀, ?_⟩
    rw [hv, Vec3.dist_toE, ← Real.sqrt_sq_eq_abs]
    congr 1
    simp only [Vec3.add_x, Vec3.add_y, Vec3.add_z, Vec3.mul_x, Vec3.mul_y, Vec3.mul_z]
    rw [show s.x + d.x * t₀ - p.x = -(n.x * k) by linarith, show s.y + d.y * t₀ - p.y = -(n.y * k) by linarith,
      show s.z + d.z * t₀ - p.z = -(n.z * k) by linarith]
    linear_combination -k ^ 2 * hn
  · rintro _ ⟨t, rfl⟩
    rw [Vec3.dist_toE, hv]
    apply Real.abs_le_sqrt
    simp only [Vec3.add_x, Vec3.add_y, Vec3.add_z, Vec3.mul_x, Vec3.mul_y, Vec3.mul_z]
    rw [show s.x + d.x * t - p.x = d.x * (t - t₀) - n.x * k by linarith,
      show s.y + d.y * t - p.y = d.y * (t - t₀) - n.y * k by linarith,
      show s.z + d.z * t - p.z = d.z * (t - t₀) - n.z * k by linarith]
    have : (d.x * (t - t₀) - n.x * k) ^ 2 + (d.y * (t - t₀) - n.y * k) ^ 2 + (d.z * (t - t₀) - n.z * k) ^ 2 =
        (d.x * (t - t₀)) ^ 2 + (d.y * (t - t₀)) ^ 2 + (d.z * (t - t₀)) ^ 2 + k ^ 2 := by
      linear_combination -2 * (t - t₀) * k * hd + k ^ 2 * hn
    rw [this]
    nlinarith [sq_nonneg (d.x * (t - t₀)), sq_nonneg (d.y * (t - t₀)), sq_nonneg (d.z * (t - t₀))]

theorem isLineDist3_zero (s p : Vec3 ℝ) : IsLineDist3 s Vec3.zero p (dist s.toE p.toE) := by
  have e : ∀ t : ℝ, s + (Vec3.zero : Vec3 ℝ) * t = s := by intro t; ext <;> simp [Vec3.zero]
  exact ⟨⟨0, by rw [e]⟩, by rintro _ ⟨t, rfl⟩; rw [e]⟩

theorem isLineDist2_zero (s p : Vec2 ℝ) : IsLineDist2 s Vec2.zero p (dist s.toE p.toE) := by
  have e : ∀ t : ℝ, s + (Vec2.zero : Vec2 ℝ) * t = s := by intro t; ext <;> simp [Vec2.zero]
  exact ⟨⟨0, by rw [e]⟩, by rintro _ ⟨t, rfl⟩; rw [e]⟩

theorem isLineDist2_unit {s d p : Vec2 ℝ} (hd : d.x ^ 2 + d.y ^ 2 = 1) :
    IsLineDist2 s d p |-d.y * (p.x - s.x) + d.x * (p.y - s.y)| := by
  set k := -d.y * (p.x - s.x) + d.x * (p.y - s.y) with hk
  set t₀ := d.x * (p.x - s.x) + d.y * (p.y - s.y) with ht
  have hx : p.x - s.x = d.x * t₀ - d.y * k := by rw [hk, ht]; linear_combination -(p.x - s.x) * hd
  have hy : p.y - s.y = d.y * t₀ + d.x * k := by rw [hk, ht]; linear_combination -(p.y - s.y) * hd
  clear_value k t₀
  have key : ∀ t, (s.x + d.x * t - p.x) ^ 2 + (s.y + d.y * t - p.y) ^ 2 = (t - t₀) ^ 2 + k ^ 2 := by
    intro t
    rw [show s.x + d.x * t - p.x = d.x * (t - t₀) + d.y * k by linarith,
      show s.y + d.y * t - p.y = d.y * (t - t₀) - d.x * k by linarith]
    linear_combination ((t - t₀) ^ 2 + k ^ 2) * hd
  constructor
  · refine ⟨t₀, ?_⟩
    rw [Vec2.dist_toE, ← Real.sqrt_sq_eq_abs]
    simp only [Vec2.add_x, Vec2.add_y, Vec2.mul_x, Vec2.mul_y]
    rw [key, sub_self]
    congr 1
    ring
  · rintro _ ⟨t, rfl⟩
    rw [Vec2.dist_toE]
    apply Real.abs_le_sqrt
    simp only [Vec2.add_x, Vec2.add_y, Vec2.mul_x, Vec2.mul_y]
    rw [key]
    nlinarith [sq_nonneg (t - t₀)]

/-- scaling the direction does not change the line -/
theorem isLineDist2_scale {s d p : Vec2 ℝ} {c r : ℝ} (hc : c ≠ 0) (h : IsLineDist2 s (d * c) p r) :
    IsLineDist2 s d p r := by
  have e : ∀ t, d * c * t = d * (c * t) := by intro t; ext <;> simp <;> ring
  unfold IsLineDist2 at *
  convert h using 1
  ext x
  constructor
  · rintro ⟨t, rfl⟩
    exact ⟨t / c, by rw [e, mul_div_cancel₀ _ hc]⟩
  · rintro ⟨t, rfl⟩
    exact ⟨c * t, by rw [e]⟩

/-- C84, `Line2::distance`: for every line, also a single point. -/
theorem C84_line2 (l : Line2 ℝ) (p : Vec2 ℝ) : IsLineDist2 l.start (l.end - l.start) p (l.distance p) := by
  obtain ⟨h1, h2, h3, h4⟩ := C22_normalize2 (l.end - l.start) 1
  have he : l.distance p = if (l.end - l.start).length == 0 then distance2 l.start p else
      abs' (-((l.end - l.start).normalized 1).y * (p.x - l.start.x) +
        ((l.end - l.start).normalized 1).x * (p.y - l.start.y)) := by
    rw [← h1, ← h2]; rfl
  rw [he]
  by_cases h0 : l.end - l.start = Vec2.zero
  · rw [h0, if_pos (by simpa using (C22_length_norm.1 Vec2.zero).2 rfl), distance2_eq]
    exact isLineDist2_zero _ _
  · obtain ⟨hp, e, hl⟩ := h4 h0
    rw [if_neg (by simpa using hp.ne'), abs'_eq]
    refine isLineDist2_scale (c := 1 / (l.end - l.start).length) (by positivity) ?_
    rw [← e]
    refine isLineDist2_unit ?_
    have h := (C22_length.1 ((l.end - l.start).normalized 1)).2
    rw [← (C22_length.1 ((l.end - l.start).normalized 1)).1, hl] at h
    simpa [Vec2.lengthSqr, sq] using h

/-- C84, `Ray2::distance` for a unit direction (what `Ray2::from` produces from a non-zero one). -/
theorem C84_ray2 (r : Ray2 ℝ) (hr : r.direction.x ^ 2 + r.direction.y ^ 2 = 1) (p : Vec2 ℝ) :
    IsLineDist2 r.start r.direction p (r.distance p) := by
  rw [Ray2.distance, abs'_eq]
  exact isLineDist2_unit hr

/-- the common part of `Line3::distance` and `Ray3::distance` -/
noncomputable def lineDistance (s d p : Vec3 ℝ) : ℝ :=
  let n := (d.cross ((p - s).cross d)).normalize 1
  if n.2 == 0 then distance3 s p else abs' (n.1.dot (p - s))

theorem cross_cross_eq (d w : Vec3 ℝ) :
    d.cross (w.cross d) = w * (d.x ^ 2 + d.y ^ 2 + d.z ^ 2) - d * (w.x * d.x + w.y * d.y + w.z * d.z) := by
  ext <;> simp [Vec3.cross] <;> ring

theorem sq_sum_ne {d : Vec3 ℝ} (hd : d ≠ Vec3.zero) : d.x ^ 2 + d.y ^ 2 + d.z ^ 2 ≠ 0 := by
  intro h
  apply hd
  have := sq_nonneg d.x
  have := sq_nonneg d.y
  have := sq_nonneg d.z
  ext
  · exact pow_eq_zero_iff (two_ne_zero) |>.1 (by linarith)
  · exact pow_eq_zero_iff (two_ne_zero) |>.1 (by linarith)
  · exact pow_eq_zero_iff (two_ne_zero) |>.1 (by linarith)

/-- what the code computes in the two cases -/
theorem lineDistance_spec (s d p : Vec3 ℝ) :
    ((∃ t : ℝ, p = s + d * t) ∨ d = Vec3.zero → lineDistance s d p = dist s.toE p.toE) ∧
    (¬ (∃ t : ℝ, p = s + d * t) → d ≠ Vec3.zero → IsLineDist3 s d p (lineDistance s d p)) := by
  obtain ⟨h1, h2, h3, h4⟩ := C22_normalize3 (d.cross ((p - s).cross d)) 1
  have he : lineDistance s d p = if (d.cross ((p - s).cross d)).length == 0 then distance3 s p else
      abs' (((d.cross ((p - s).cross d)).normalized 1).dot (p - s)) := by
    rw [← h1, ← h2]; rfl
  constructor
  · intro h
    have hz : d.cross ((p - s).cross d) = Vec3.zero := by
      rcases h with ⟨t, rfl⟩ | h
      · ext <;> simp [Vec3.cross, Vec3.zero] <;> ring
      · rw [h]; ext <;> simp [Vec3.cross, Vec3.zero]
    rw [he, if_pos (by simpa using (C22_length_norm.2.1 _).2 hz), distance3_eq]
  · intro hp hd
    have hne : d.cross ((p - s).cross d) ≠ Vec3.zero := by
      intro h0
      apply hp
      rw [cross_cross_eq] at h0
      have hq := sq_sum_ne hd
      set q := d.x ^ 2 + d.y ^ 2 + d.z ^ 2
      set w := (p - s).x * d.x + (p - s).y * d.y + (p - s).z * d.z
      refine ⟨w / q, ?_⟩
      have hx := congrArg Vec3.x h0
      have hy := congrArg Vec3.y h0
      have hz := congrArg Vec3.z h0
      simp only [Vec3.sub_x, Vec3.sub_y, Vec3.sub_z, Vec3.mul_x, Vec3.mul_y, Vec3.mul_z, Vec3.zero] at hx hy hz
      ext <;> simp only [Vec3.add_x, Vec3.add_y, Vec3.add_z, Vec3.mul_x, Vec3.mul_y, Vec3.mul_z] <;> field_simp <;>
        linarith
    obtain ⟨hpos, e, hl⟩ := h4 hne
    rw [he, if_neg (by simpa using hpos.ne'), abs'_eq]
    set N := d.cross ((p - s).cross d) with hN
    have hu : (N.normalized 1).x ^ 2 + (N.normalized 1).y ^ 2 + (N.normalized 1).z ^ 2 = 1 := by
      have h := (C22_length.2.1 (N.normalized 1)).2
      rw [← (C22_length.2.1 (N.normalized 1)).1, hl] at h
      simpa [Vec3.lengthSqr, sq] using h
    have hq := sq_sum_ne hd
    have hNd : N.x * d.x + N.y * d.y + N.z * d.z = 0 := by
      rw [hN]; simp only [Vec3.cross]; ring
    refine isLineDist3_of_normal (n := N.normalized 1) hu ?_
      (t₀ := ((p - s).x * d.x + (p - s).y * d.y + (p - s).z * d.z) / (d.x ^ 2 + d.y ^ 2 + d.z ^ 2))
      (k := N.length / (d.x ^ 2 + d.y ^ 2 + d.z ^ 2)) ?_
    · rw [e]
      simp only [Vec3.mul_x, Vec3.mul_y, Vec3.mul_z]
      linear_combination 1 / N.length * hNd
    · have hl0 := hpos.ne'
      have h5 := cross_cross_eq d (p - s)
      rw [← hN] at h5
      have hx := congrArg Vec3.x h5
      have hy := congrArg Vec3.y h5
      have hz := congrArg Vec3.z h5
      rw [e]
      clear_value N
      generalize N.length = L at *
      set q := d.x ^ 2 + d.y ^ 2 + d.z ^ 2
      set w := (p - s).x * d.x + (p - s).y * d.y + (p - s).z * d.z
      simp only [Vec3.sub_x, Vec3.sub_y, Vec3.sub_z, Vec3.mul_x, Vec3.mul_y, Vec3.mul_z] at hx hy hz
      ext <;> simp only [Vec3.add_x, Vec3.add_y, Vec3.add_z, Vec3.mul_x, Vec3.mul_y, Vec3.mul_z, Vec3.sub_x,
        Vec3.sub_y, Vec3.sub_z] <;> field_simp <;> linarith

theorem isLineDist3_on (s d : Vec3 ℝ) (t r : ℝ) (h : IsLineDist3 s d (s + d * t) r) : r = 0 := by
  refine le_antisymm (h.2 ⟨t, by simp⟩) ?_
  obtain ⟨u, hu⟩ := h.1
  rw [hu]
  exact dist_nonneg

/-- exactly when the result is right -/
theorem lineDistance_iff (s d p : Vec3 ℝ) :
    IsLineDist3 s d p (lineDistance s d p) ↔ (d = Vec3.zero ∨ p = s ∨ ¬ ∃ t : ℝ, p = s + d * t) := by
  obtain ⟨h1, h2⟩ := lineDistance_spec s d p
  constructor
  · intro h
    by_cases hd : d = Vec3.zero
    · exact .inl hd
    by_cases hp : ∃ t : ℝ, p = s + d * t
    · rw [h1 (.inl hp)] at h
      obtain ⟨t, rfl⟩ := hp
      have := dist_eq_zero.1 (isLineDist3_on s d t _ h)
      refine .inr (.inl ?_)
      have hx := congrFun (congrArg WithLp.ofLp this) 0
      have hy := congrFun (congrArg WithLp.ofLp this) 1
      have hz := congrFun (congrArg WithLp.ofLp this) 2
      simp only [Vec3.toE, Vec3.toFn] at hx hy hz
      ext
      · exact hx.symm
      · exact hy.symm
      · exact hz.symm
    · exact .inr (.inr hp)
  · rintro (rfl | rfl | h)
    · rw [h1 (.inr rfl)]
      exact isLineDist3_zero s p
    · rw [h1 (.inl ⟨0, by ext <;> simp⟩), dist_self]
      refine ⟨⟨0, ?_⟩, ?_⟩
      · rw [show p + d * (0 : ℝ) = p by ext <;> simp, dist_self]
      · rintro _ ⟨t, rfl⟩
        exact dist_nonneg
    · by_cases hd : d = Vec3.zero
      · subst hd
        rw [h1 (.inr rfl)]
        exact isLineDist3_zero s p
      · exact h2 h hd

/-- C84, `Line3::distance`: right exactly for points off the line, for the start point and for a line
that is a single point; for a point on the line the result is its distance to the start.  Full claim:
right for all points. -/
theorem C84_line3_partial (l : Line3 ℝ) (p : Vec3 ℝ) :
    (IsLineDist3 l.start (l.end - l.start) p (l.distance p) ↔
      (l.end - l.start = Vec3.zero ∨ p = l.start ∨ ¬ ∃ t : ℝ, p = l.start + (l.end - l.start) * t)) ∧
    ((∃ t : ℝ, p = l.start + (l.end - l.start) * t) → l.distance p = dist l.start.toE p.toE) :=
  ⟨lineDistance_iff l.start (l.end - l.start) p,
    fun h => (lineDistance_spec l.start (l.end - l.start) p).1 (.inl h)⟩

/-- C84, `Ray3::distance`, likewise; the direction need not have unit length. -/
theorem C84_ray3_partial (r : Ray3 ℝ) (p : Vec3 ℝ) :
    (IsLineDist3 r.start r.direction p (r.distance p) ↔
      (r.direction = Vec3.zero ∨ p = r.start ∨ ¬ ∃ t : ℝ, p = r.start + r.direction * t)) ∧
    ((∃ t : ℝ, p = r.start + r.direction * t) → r.distance p = dist r.start.toE p.toE) :=
  ⟨lineDistance_iff r.start r.direction p, fun h => (lineDistance_spec r.start r.direction p).1 (.inl h)⟩

/-- C84 fails in 3-D: the end point of a segment of length 2 is reported at distance 2 from it. -/
theorem C84_refuted :
    (∃ (l : Line3 ℝ), l.distance l.end = 2 ∧ ¬ IsLineDist3 l.start (l.end - l.start) l.end (l.distance l.end)) ∧
    (∃ (r : Ray3 ℝ), r.direction = ⟨1, 0, 0⟩ ∧ r.distance (r.pointAt 2) = 2 ∧
      ¬ IsLineDist3 r.start r.direction (r.pointAt 2) (r.distance (r.pointAt 2))) := by
  have h4 : dist (⟨0, 0, 0⟩ : Vec3 ℝ).toE (⟨2, 0, 0⟩ : Vec3 ℝ).toE = 2 := by
    rw [Vec3.dist_toE, show ((0 : ℝ) - 2) ^ 2 + (0 - 0) ^ 2 + (0 - 0) ^ 2 = 2 ^ 2 by norm_num,
      Real.sqrt_sq (by norm_num)]
  constructor
  · refine ⟨⟨⟨0, 0, 0⟩, ⟨2, 0, 0⟩⟩, ?_, ?_⟩
    · rw [(C84_line3_partial _ _).2 ⟨1, by ext <;> simp⟩, h4]
    · rw [(C84_line3_partial _ _).1]
      rintro (h | h | h)
      · simp [Vec3.zero, Vec3.ext_iff] at h
      · simp at h
      · exact h ⟨1, by ext <;> simp⟩
  · refine ⟨⟨⟨0, 0, 0⟩, ⟨1, 0, 0⟩⟩, rfl, ?_, ?_⟩
    · rw [(C84_ray3_partial _ (Ray3.pointAt _ 2)).2 ⟨2, rfl⟩]
      refine Eq.trans ?_ h4
      congr 2
      ext <;> simp [Ray3.pointAt]
    · rw [(C84_ray3_partial _ _).1]
      rintro (h | h | h)
      · simp [Vec3.zero] at h
      · simp [Ray3.pointAt, Vec3.ext_iff] at h
      · exact h ⟨2, rfl⟩

/-- 2-D rays with a zero direction (`Ray2::from` of a zero vector) report distance 0 everywhere. -/
theorem C84_ray2_null (s p : Vec2 ℝ) : (Ray2.from s Vec2.zero).distance p = 0 := by
  rw [Ray2.distance, abs'_eq, Ray2.from, (C22_normalize2 _ 1).2.2.1 rfl]
  simp [Vec2.zero]

example : (⟨⟨0, 0, 0⟩, ⟨2, 0, 0⟩⟩ : Line3 ℝ).end - (⟨⟨0, 0, 0⟩, ⟨2, 0, 0⟩⟩ : Line3 ℝ).start ≠ Vec3.zero ∧
    ¬ ∃ t : ℝ, (⟨5, 3, 4⟩ : Vec3 ℝ) = ⟨0, 0, 0⟩ + (⟨2, 0, 0⟩ : Vec3 ℝ) * t := by
  refine ⟨by simp [Vec3.zero, Vec3.ext_iff], ?_⟩
  rintro ⟨t, h⟩
  simp [Vec3.ext_iff] at h

example : (3 / 5 : ℝ) ^ 2 + (4 / 5) ^ 2 = 1 := by norm_num

/-! ## C85 -/

theorem Tri2.contains_iff (t : Tri2 ℝ) (p : Vec2 ℝ) :
    t.contains p = true ↔
      (0 ≤ Vec2.crossProduct t.a t.b p ∧ 0 ≤ Vec2.crossProduct t.b t.c p ∧ 0 ≤ Vec2.crossProduct t.c t.a p) ∨
      (Vec2.crossProduct t.a t.b p ≤ 0 ∧ Vec2.crossProduct t.b t.c p ≤ 0 ∧ Vec2.crossProduct t.c t.a p ≤ 0) := by
  simp [Tri2.contains, and_assoc]

/-- the three areas add up to the area of the triangle -/
theorem cross_sum (a b c p : Vec2 ℝ) :
    Vec2.crossProduct a b p + Vec2.crossProduct b c p + Vec2.crossProduct c a p = Vec2.crossProduct a b c := by
  simp only [Vec2.crossProduct]; ring

theorem hull3_iff (a b c p : Vec2 ℝ) :
    p ∈ convexHull ℝ {a, b, c} ↔
      ∃ u v w : ℝ, 0 ≤ u ∧ 0 ≤ v ∧ 0 ≤ w ∧ u + v + w = 1 ∧ p = a * u + b * v + c * w := by
  have e : ∀ (x : Vec2 ℝ) (k : ℝ), x * k = k • x := fun x k => by ext <;> simp
  rw [convexHull_insert (by simp), convexHull_pair, mem_convexJoin]
  constructor
  · rintro ⟨x, hx, y, ⟨s, t, hs, ht, hst, rfl⟩, ⟨q, r, hq, hr, hqr, rfl⟩⟩
    rw [Set.mem_singleton_iff] at hx
    subst hx
    refine ⟨q, r * s, r * t, hq, mul_nonneg hr hs, mul_nonneg hr ht, ?_, ?_⟩
    · linear_combination r * hst + hqr
    · rw [smul_add, smul_smul, smul_smul, e, e, e, add_assoc]
  · rintro ⟨u, v, w, hu, hv, hw, hs, rfl⟩
    by_cases h : v + w = 0
    · have hv0 : v = 0 := by linarith
      have hw0 : w = 0 := by linarith
      have hu1 : u = 1 := by linarith
      subst hv0 hw0 hu1
      exact ⟨a, rfl, b, left_mem_segment ℝ b c, ⟨1, 0, by norm_num, le_rfl, by norm_num, by ext <;> simp⟩⟩
    · have hp : 0 < v + w := lt_of_le_of_ne (add_nonneg hv hw) (Ne.symm h)
      refine ⟨a, rfl, (v / (v + w)) • b + (w / (v + w)) • c, ⟨v / (v + w), w / (v + w), by positivity, by positivity,
        by field_simp, rfl⟩, ⟨u, v + w, hu, hp.le, by linarith, ?_⟩⟩
      rw [smul_add, smul_smul, smul_smul, e, e, e, mul_div_cancel₀ _ h, mul_div_cancel₀ _ h, add_assoc]

/-- C85 for triangles with non-zero area, of either orientation.  Full claim: for all triangles. -/
theorem C85_partial (t : Tri2 ℝ) (ht : ¬ Collinear ℝ {t.a.toE, t.b.toE, t.c.toE}) (p : Vec2 ℝ) :
    t.contains p = true ↔ p ∈ convexHull ℝ {t.a, t.b, t.c} := by
  have hA : Vec2.crossProduct t.a t.b t.c ≠ 0 := by
    intro h0
    apply ht
    rw [collinear_iff_of_mem (p₀ := t.a.toE) (by simp)]
    simp only [Vec2.crossProduct] at h0
    by_cases hab : t.b = t.a
    · refine ⟨(t.c - t.a).toE, ?_⟩
      rintro q (rfl | rfl | rfl)
      · exact ⟨0, by simp⟩
      · exact ⟨0, by simp [hab]⟩
      · exact ⟨1, by simp [Vec2.toE_sub]⟩
    · refine ⟨(t.b - t.a).toE, ?_⟩
      rintro q (rfl | rfl | rfl)
      · exact ⟨0, by simp⟩
      · exact ⟨1, by simp [Vec2.toE_sub]⟩
      · rw [Vec2.ext_iff, not_and_or] at hab
        rcases hab with h | h
        · have h' : t.b.x - t.a.x ≠ 0 := sub_ne_zero.2 h
          refine ⟨(t.c.x - t.a.x) / (t.b.x - t.a.x), ?_⟩
          rw [← Vec2.toE_mul, vadd_eq_add, ← Vec2.toE_add]
          congr 1
          ext <;> simp <;> field_simp
          · ring
          · linear_combination h0
        · have h' : t.b.y - t.a.y ≠ 0 := sub_ne_zero.2 h
          refine ⟨(t.c.y - t.a.y) / (t.b.y - t.a.y), ?_⟩
          rw [← Vec2.toE_mul, vadd_eq_add, ← Vec2.toE_add]
          congr 1
          ext <;> simp <;> field_simp
          · linear_combination -h0
          · ring
  rw [Tri2.contains_iff, hull3_iff]
  set A := Vec2.crossProduct t.a t.b t.c with hAd
  have hs : _ = A := cross_sum t.a t.b t.c p
  constructor
  · intro h
    have hx : p.x * A = t.a.x * Vec2.crossProduct t.b t.c p + t.b.x * Vec2.crossProduct t.c t.a p +
        t.c.x * Vec2.crossProduct t.a t.b p := by rw [hAd]; simp only [Vec2.crossProduct]; ring
    have hy : p.y * A = t.a.y * Vec2.crossProduct t.b t.c p + t.b.y * Vec2.crossProduct t.c t.a p +
        t.c.y * Vec2.crossProduct t.a t.b p := by rw [hAd]; simp only [Vec2.crossProduct]; ring
    generalize Vec2.crossProduct t.a t.b p = k1 at *
    generalize Vec2.crossProduct t.b t.c p = k2 at *
    generalize Vec2.crossProduct t.c t.a p = k3 at *
    refine ⟨k2 / A, k3 / A, k1 / A, ?_, ?_, ?_, ?_, ?_⟩
    rotate_left 3
    · field_simp; linarith
    · ext <;> simp <;> field_simp <;> linarith
    all_goals
      rcases h with ⟨h1, h2, h3⟩ | ⟨h1, h2, h3⟩
      · exact div_nonneg (by assumption) (by linarith)
      · exact div_nonneg_of_nonpos (by assumption) (by linarith)
  · rintro ⟨u, v, w, hu, hv, hw, h1, rfl⟩
    have e1 : Vec2.crossProduct t.a t.b (t.a * u + t.b * v + t.c * w) = w * A := by
      rw [hAd]; simp only [Vec2.crossProduct, Vec2.add_x, Vec2.add_y, Vec2.mul_x, Vec2.mul_y]
      rw [show u = 1 - v - w by linarith]; ring
    have e2 : Vec2.crossProduct t.b t.c (t.a * u + t.b * v + t.c * w) = u * A := by
      rw [hAd]; simp only [Vec2.crossProduct, Vec2.add_x, Vec2.add_y, Vec2.mul_x, Vec2.mul_y]
      rw [show v = 1 - u - w by linarith]; ring
    have e3 : Vec2.crossProduct t.c t.a (t.a * u + t.b * v + t.c * w) = v * A := by
      rw [hAd]; simp only [Vec2.crossProduct, Vec2.add_x, Vec2.add_y, Vec2.mul_x, Vec2.mul_y]
      rw [show w = 1 - u - v by linarith]; ring
    rw [e1, e2, e3]
    rcases le_total 0 A with h | h
    · exact .inl ⟨mul_nonneg hw h, mul_nonneg hu h, mul_nonneg hv h⟩
    · exact .inr ⟨mul_nonpos_of_nonneg_of_nonpos hw h, mul_nonpos_of_nonneg_of_nonpos hu h,
        mul_nonpos_of_nonneg_of_nonpos hv h⟩

/-- the hull is always accepted, also for degenerate triangles -/
theorem C85_hull (t : Tri2 ℝ) (p : Vec2 ℝ) (h : p ∈ convexHull ℝ {t.a, t.b, t.c}) : t.contains p = true := by
  rw [hull3_iff] at h
  obtain ⟨u, v, w, hu, hv, hw, h1, rfl⟩ := h
  rw [Tri2.contains_iff]
  set A := Vec2.crossProduct t.a t.b t.c with hAd
  have e1 : Vec2.crossProduct t.a t.b (t.a * u + t.b * v + t.c * w) = w * A := by
    rw [hAd]; simp only [Vec2.crossProduct, Vec2.add_x, Vec2.add_y, Vec2.mul_x, Vec2.mul_y]
    rw [show u = 1 - v - w by linarith]; ring
  have e2 : Vec2.crossProduct t.b t.c (t.a * u + t.b * v + t.c * w) = u * A := by
    rw [hAd]; simp only [Vec2.crossProduct, Vec2.add_x, Vec2.add_y, Vec2.mul_x, Vec2.mul_y]
    rw [show v = 1 - u - w by linarith]; ring
  have e3 : Vec2.crossProduct t.c t.a (t.a * u + t.b * v + t.c * w) = v * A := by
    rw [hAd]; simp only [Vec2.crossProduct, Vec2.add_x, Vec2.add_y, Vec2.mul_x, Vec2.mul_y]
    rw [show w = 1 - u - v by linarith]; ring
  rw [e1, e2, e3]
  rcases le_total 0 A with h | h
  · exact .inl ⟨mul_nonneg hw h, mul_nonneg hu h, mul_nonneg hv h⟩
  · exact .inr ⟨mul_nonpos_of_nonneg_of_nonpos hw h, mul_nonpos_of_nonneg_of_nonpos hu h,
      mul_nonpos_of_nonneg_of_nonpos hv h⟩

/-- A degenerate triangle accepts the whole line through its vertices: when the vertices are on one
line but not all equal, p is accepted iff the three areas vanish. -/
theorem C85_degenerate (t : Tri2 ℝ) (hA : Vec2.crossProduct t.a t.b t.c = 0) (p : Vec2 ℝ) :
    (t.a ≠ t.b → (t.contains p = true ↔ ∃ k : ℝ, p = t.a + (t.b - t.a) * k)) ∧
    (t.a = t.b → t.b = t.c → t.contains p = true) := by
  have hs := cross_sum t.a t.b t.c p
  rw [Tri2.contains_iff]
  constructor
  · intro hab
    constructor
    · intro h
      have h0 : Vec2.crossProduct t.a t.b p = 0 := by
        rcases h with ⟨h1, h2, h3⟩ | ⟨h1, h2, h3⟩ <;> linarith
      simp only [Vec2.crossProduct] at h0
      rw [ne_eq, Vec2.ext_iff, not_and_or] at hab
      rcases hab with h | h
      · have h' : t.b.x - t.a.x ≠ 0 := sub_ne_zero.2 (Ne.symm h)
        refine ⟨(p.x - t.a.x) / (t.b.x - t.a.x), ?_⟩
        ext <;> simp <;> field_simp
        · ring
        · linear_combination h0
      · have h' : t.b.y - t.a.y ≠ 0 := sub_ne_zero.2 (Ne.symm h)
        refine ⟨(p.y - t.a.y) / (t.b.y - t.a.y), ?_⟩
        ext <;> simp <;> field_simp
        · linear_combination -h0
        · ring
    · rintro ⟨k, rfl⟩
      simp only [Vec2.crossProduct] at hA
      refine .inl ⟨le_of_eq ?_, le_of_eq ?_, le_of_eq ?_⟩
      · simp only [Vec2.crossProduct, Vec2.add_x, Vec2.add_y, Vec2.mul_x, Vec2.mul_y, Vec2.sub_x, Vec2.sub_y]; ring
      · simp only [Vec2.crossProduct, Vec2.add_x, Vec2.add_y, Vec2.mul_x, Vec2.mul_y, Vec2.sub_x, Vec2.sub_y]
        linear_combination (k - 1) * hA
      · simp only [Vec2.crossProduct, Vec2.add_x, Vec2.add_y, Vec2.mul_x, Vec2.mul_y, Vec2.sub_x, Vec2.sub_y]
        linear_combination -k * hA
  · intro h1 h2
    rw [h1, h2]
    simp [Vec2.crossProduct]

/-- C85 fails for degenerate triangles: the one with all vertices in the origin accepts (1, 1); the
one on the x axis from 0 to 1 accepts (2, 0). -/
theorem C85_refuted :
    (∃ (t : Tri2 ℝ) (p : Vec2 ℝ), t.a = t.b ∧ t.b = t.c ∧ t.contains p = true ∧
      p ∉ convexHull ℝ {t.a, t.b, t.c}) ∧
    (∃ (t : Tri2 ℝ) (p : Vec2 ℝ), t.a ≠ t.b ∧ t.b ≠ t.c ∧ t.c ≠ t.a ∧ t.contains p = true ∧
      p ∉ convexHull ℝ {t.a, t.b, t.c}) := by
  constructor
  · refine ⟨⟨⟨0, 0⟩, ⟨0, 0⟩, ⟨0, 0⟩⟩, ⟨1, 1⟩, rfl, rfl, ?_, ?_⟩
    · norm_num [Tri2.contains, Vec2.crossProduct]
    · rw [hull3_iff]
      rintro ⟨u, v, w, -, -, -, -, h⟩
      simp [Vec2.ext_iff] at h
  · refine ⟨⟨⟨0, 0⟩, ⟨1, 0⟩, ⟨1/2, 0⟩⟩, ⟨2, 0⟩, ?_, ?_, ?_, ?_, ?_⟩
    · simp
    · norm_num
    · norm_num
    · norm_num [Tri2.contains, Vec2.crossProduct]
    · rw [hull3_iff]
      rintro ⟨u, v, w, hu, hv, hw, h1, h⟩
      simp only [Vec2.ext_iff, Vec2.add_x, Vec2.mul_x] at h
      linarith [h.1]

/-- a triangle as C85_partial asks for -/
example : ¬ Collinear ℝ {(⟨0, 0⟩ : Vec2 ℝ).toE, (⟨0, 1⟩ : Vec2 ℝ).toE, (⟨1, 0⟩ : Vec2 ℝ).toE} := by
  rw [collinear_iff_of_mem (p₀ := (⟨0, 0⟩ : Vec2 ℝ).toE) (by simp)]
  rintro ⟨v, h⟩
  obtain ⟨r, h1⟩ := h (⟨0, 1⟩ : Vec2 ℝ).toE (by simp)
  obtain ⟨s, h2⟩ := h (⟨1, 0⟩ : Vec2 ℝ).toE (by simp)
  have a1 := congrFun (congrArg WithLp.ofLp h1) 0
  have a2 := congrFun (congrArg WithLp.ofLp h1) 1
  have b1 := congrFun (congrArg WithLp.ofLp h2) 0
  have b2 := congrFun (congrArg WithLp.ofLp h2) 1
  simp [Vec2.toE, Vec2.toFn] at a1 a2 b1 b2
  rcases a1 with rfl | h0
  · simp at a2
  · simp [h0] at b1

/-! ## C86 -/

/-- C86, `Line3`: ends, affinity, the image of [0, 1] is the segment, and equal parameter steps are
equal steps of length along the line. -/
theorem C86_line3 (l : Line3 ℝ) (s t u : ℝ) :
    l.pointAt 0 = l.start ∧ l.pointAt 1 = l.end ∧
    l.pointAt ((1 - u) * s + u * t) = l.pointAt s * (1 - u) + l.pointAt t * u ∧
    l.pointAt '' Set.Icc 0 1 = segment ℝ l.start l.end ∧
    dist (l.pointAt s).toE (l.pointAt t).toE = |s - t| * l.length ∧
    l.length = dist l.start.toE l.end.toE ∧ l.lengthSqr = l.length ^ 2 ∧
    (l.isNull = true ↔ l.start = l.end) ∧ (l.isNull = true ↔ l.length = 0) := by
  have h3 : ∀ v : Vec3 ℝ, v.length = Real.sqrt (v.x ^ 2 + v.y ^ 2 + v.z ^ 2) := by
    intro v; simp only [Vec3.length, real_sqrt]; congr 1; ring
  have hl : l.length = dist l.start.toE l.end.toE := by
    rw [Line3.length, h3, Vec3.dist_toE]
    congr 1
    simp only [Vec3.sub_x, Vec3.sub_y, Vec3.sub_z]; ring
  have hsq : l.lengthSqr = l.length ^ 2 := by
    rw [Line3.length, h3, Real.sq_sqrt (by positivity), Line3.lengthSqr, Vec3.lengthSqr]
    ring
  have hnull : l.isNull = true ↔ l.start = l.end := by
    rw [eq_comm (a := l.start)]; simp [Line3.isNull, Vec3.eq, Vec3.ext_iff, and_assoc]
  have hform : ∀ t, l.pointAt t = ⟨l.start.x + t * (l.end.x - l.start.x), l.start.y + t * (l.end.y - l.start.y),
      l.start.z + t * (l.end.z - l.start.z)⟩ := by
    intro t; ext <;> simp [Line3.pointAt, lerpVec3] <;> ring
  refine ⟨?_, ?_, ?_, ?_, ?_, hl, hsq, hnull, ?_⟩
  · rw [hform]; ext <;> simp
  · rw [hform]; ext <;> simp
  · simp only [hform]; ext <;> simp <;> ring
  · rw [segment_eq_image]
    apply Set.image_congr
    intro t _
    rw [hform]; ext <;> simp <;> ring
  · rw [Vec3.dist_toE, Line3.length, h3, ← Real.sqrt_sq_eq_abs, ← Real.sqrt_mul (sq_nonneg _)]
    congr 1
    simp only [hform, Vec3.sub_x, Vec3.sub_y, Vec3.sub_z]; ring
  · rw [hnull, hl, dist_eq_zero]
    constructor
    · intro h; rw [h]
    · intro h
      have hx := congrFun (congrArg WithLp.ofLp h) 0
      have hy := congrFun (congrArg WithLp.ofLp h) 1
      have hz := congrFun (congrArg WithLp.ofLp h) 2
      ext
      · exact hx
      · exact hy
      · exact hz

/-- C86, `Line2`. -/
theorem C86_line2 (l : Line2 ℝ) (s t u : ℝ) :
    l.pointAt 0 = l.start ∧ l.pointAt 1 = l.end ∧
    l.pointAt ((1 - u) * s + u * t) = l.pointAt s * (1 - u) + l.pointAt t * u ∧
    l.pointAt '' Set.Icc 0 1 = segment ℝ l.start l.end ∧
    dist (l.pointAt s).toE (l.pointAt t).toE = |s - t| * l.length ∧
    l.length = dist l.start.toE l.end.toE ∧ l.lengthSqr = l.length ^ 2 ∧
    (l.isNull = true ↔ l.start = l.end) ∧ (l.isNull = true ↔ l.length = 0) := by
  have h2 : ∀ v : Vec2 ℝ, v.length = Real.sqrt (v.x ^ 2 + v.y ^ 2) := by
    intro v; simp only [Vec2.length, real_sqrt]; congr 1; ring
  have hl : l.length = dist l.start.toE l.end.toE := by
    rw [Line2.length, h2, Vec2.dist_toE]
    congr 1
    simp only [Vec2.sub_x, Vec2.sub_y]; ring
  have hsq : l.lengthSqr = l.length ^ 2 := by
    rw [Line2.length, h2, Real.sq_sqrt (by positivity), Line2.lengthSqr, Vec2.lengthSqr]
    ring
  have hnull : l.isNull = true ↔ l.start = l.end := by
    rw [eq_comm (a := l.start)]; simp [Line2.isNull, Vec2.eq, Vec2.ext_iff]
  have hform : ∀ t, l.pointAt t = ⟨l.start.x + t * (l.end.x - l.start.x), l.start.y + t * (l.end.y - l.start.y)⟩ := by
    intro t; ext <;> simp [Line2.pointAt, lerpVec2] <;> ring
  refine ⟨?_, ?_, ?_, ?_, ?_, hl, hsq, hnull, ?_⟩
  · rw [hform]; ext <;> simp
  · rw [hform]; ext <;> simp
  · simp only [hform]; ext <;> simp <;> ring
  · rw [segment_eq_image]
    apply Set.image_congr
    intro t _
    rw [hform]; ext <;> simp <;> ring
  · rw [Vec2.dist_toE, Line2.length, h2, ← Real.sqrt_sq_eq_abs, ← Real.sqrt_mul (sq_nonneg _)]
    congr 1
    simp only [hform, Vec2.sub_x, Vec2.sub_y]; ring
  · rw [hnull, hl, dist_eq_zero]
    constructor
    · intro h; rw [h]
    · intro h
      have hx := congrFun (congrArg WithLp.ofLp h) 0
      have hy := congrFun (congrArg WithLp.ofLp h) 1
      ext
      · exact hx
      · exact hy

/-- C86, rays: `from` normalises the direction; then parameters are distances along the ray. -/
theorem C86_ray3 (s d : Vec3 ℝ) (hd : d ≠ Vec3.zero) (t u : ℝ) :
    (Ray3.from s d).pointAt 0 = s ∧
    dist ((Ray3.from s d).pointAt t).toE ((Ray3.from s d).pointAt u).toE = |t - u| ∧
    dist s.toE ((Ray3.from s d).pointAt t).toE = |t| ∧
    (Ray3.from s d).pointAt d.length = s + d := by
  obtain ⟨hp, e, hl⟩ := (C22_normalize3 d 1).2.2.2 hd
  have hu : (d.normalized 1).x ^ 2 + (d.normalized 1).y ^ 2 + (d.normalized 1).z ^ 2 = 1 := by
    have h := (C22_length.2.1 (d.normalized 1)).2
    rw [← (C22_length.2.1 (d.normalized 1)).1, hl] at h
    simpa [Vec3.lengthSqr, sq] using h
  have h0 : (Ray3.from s d).pointAt 0 = s := by ext <;> simp [Ray3.pointAt, Ray3.from]
  have hd : ∀ t u, dist ((Ray3.from s d).pointAt t).toE ((Ray3.from s d).pointAt u).toE = |t - u| := by
    intro t u
    rw [Vec3.dist_toE, ← Real.sqrt_sq_eq_abs]
    congr 1
    simp only [Ray3.pointAt, Ray3.from, Vec3.add_x, Vec3.add_y, Vec3.add_z, Vec3.mul_x, Vec3.mul_y, Vec3.mul_z]
    linear_combination (t - u) ^ 2 * hu
  refine ⟨h0, hd t u, ?_, ?_⟩
  · have := hd 0 t
    rwa [h0, zero_sub, abs_neg] at this
  · have := hp.ne'
    simp only [Ray3.pointAt, Ray3.from, e]
    ext <;> simp <;> field_simp

theorem C86_ray2 (s d : Vec2 ℝ) (hd : d ≠ Vec2.zero) (t u : ℝ) :
    (Ray2.from s d).pointAt 0 = s ∧
    dist ((Ray2.from s d).pointAt t).toE ((Ray2.from s d).pointAt u).toE = |t - u| ∧
    dist s.toE ((Ray2.from s d).pointAt t).toE = |t| ∧
    (Ray2.from s d).pointAt d.length = s + d := by
  obtain ⟨hp, e, hl⟩ := (C22_normalize2 d 1).2.2.2 hd
  have hu : (d.normalized 1).x ^ 2 + (d.normalized 1).y ^ 2 = 1 := by
    have h := (C22_length.1 (d.normalized 1)).2
    rw [← (C22_length.1 (d.normalized 1)).1, hl] at h
    simpa [Vec2.lengthSqr, sq] using h
  have h0 : (Ray2.from s d).pointAt 0 = s := by ext <;> simp [Ray2.pointAt, Ray2.from]
  have hd : ∀ t u, dist ((Ray2.from s d).pointAt t).toE ((Ray2.from s d).pointAt u).toE = |t - u| := by
    intro t u
    rw [Vec2.dist_toE, ← Real.sqrt_sq_eq_abs]
    congr 1
    simp only [Ray2.pointAt, Ray2.from, Vec2.add_x, Vec2.add_y, Vec2.mul_x, Vec2.mul_y]
    linear_combination (t - u) ^ 2 * hu
  refine ⟨h0, hd t u, ?_, ?_⟩
  · have := hd 0 t
    rwa [h0, zero_sub, abs_neg] at this
  · have := hp.ne'
    simp only [Ray2.pointAt, Ray2.from, e]
    ext <;> simp <;> field_simp

/-- C86: `==` and `!=` of lines, rays and triangles compare all members. -/
theorem C86_eq (l l' : Line3 ℝ) (r r' : Ray3 ℝ) (m m' : Line2 ℝ) (q q' : Ray2 ℝ) (t t' : Tri2 ℝ) :
    ((l.eq l' = true ↔ l = l') ∧ l.ne l' = !l.eq l') ∧ ((r.eq r' = true ↔ r = r') ∧ r.ne r' = !r.eq r') ∧
    ((m.eq m' = true ↔ m = m') ∧ m.ne m' = !m.eq m') ∧ ((q.eq q' = true ↔ q = q') ∧ q.ne q' = !q.eq q') ∧
    ((t.eq t' = true ↔ t = t') ∧ t.ne t' = !t.eq t') := by
  have e3 : ∀ u v : Vec3 ℝ, (u.eq v = true ↔ u = v) ∧ u.ne v = !u.eq v := by
    intro u v
    refine ⟨by simp [Vec3.eq, Vec3.ext_iff, and_assoc], ?_⟩
    simp [Vec3.eq, Vec3.ne, bne, Bool.not_and]
  have e2 : ∀ u v : Vec2 ℝ, (u.eq v = true ↔ u = v) ∧ u.ne v = !u.eq v := by
    intro u v
    refine ⟨by simp [Vec2.eq, Vec2.ext_iff], ?_⟩
    simp [Vec2.eq, Vec2.ne, bne, Bool.not_and]
  obtain ⟨l1, l2⟩ := l; obtain ⟨l3, l4⟩ := l'
  obtain ⟨r1, r2⟩ := r; obtain ⟨r3, r4⟩ := r'
  obtain ⟨m1, m2⟩ := m; obtain ⟨m3, m4⟩ := m'
  obtain ⟨q1, q2⟩ := q; obtain ⟨q3, q4⟩ := q'
  obtain ⟨t1, t2, t3⟩ := t; obtain ⟨t4, t5, t6⟩ := t'
  simp only [Line3.eq, Line3.ne, Ray3.eq, Ray3.ne, Line2.eq, Line2.ne, Ray2.eq, Ray2.ne, Tri2.eq, Tri2.ne,
    Bool.and_eq_true, (e3 _ _).1, (e2 _ _).1, (e3 _ _).2, (e2 _ _).2, Bool.not_and, Line3.mk.injEq, Ray3.mk.injEq,
    Line2.mk.injEq, Ray2.mk.injEq, Tri2.mk.injEq, and_assoc, and_self]

example : (⟨3, 0, 4⟩ : Vec3 ℝ) ≠ Vec3.zero ∧ (⟨3, 4⟩ : Vec2 ℝ) ≠ Vec2.zero := by
  simp [Vec3.zero, Vec2.zero]

end MathLib
