import Verif.Spec.PlaneSpec
import Verif.Proof.BallLemmas
import Mathlib.LinearAlgebra.AffineSpace.FiniteDimensional

/-! # C77-C81: planes -/

namespace MathLib

/-! ## C77 -/

/-- a positive multiple -/
def Vec3.SameDir (n v : Vec3 ℝ) : Prop := ∃ k : ℝ, 0 < k ∧ n = v * k

theorem Plane.normalized_unit (v : Vec3 ℝ) (hv : v ≠ Vec3.zero) (d : ℝ) :
    (⟨v.normalized 1, d⟩ : Plane ℝ).IsUnit ∧ (v.normalized 1).SameDir v := by
  obtain ⟨hp, e, hl⟩ := (C22_normalize3 v 1).2.2.2 hv
  refine ⟨?_, 1 / v.length, by positivity, e⟩
  have h := (C22_length.2.1 (v.normalized 1)).2
  rw [← (C22_length.2.1 (v.normalized 1)).1, hl] at h
  simpa [Vec3.lengthSqr, Plane.IsUnit] using h

/-- C77: the planes built from a non-zero normal have a unit normal in its direction;
`from(point, normal)` contains the point, `from(normal, d)` is the plane at signed distance `d` from
the origin along the normal. -/
theorem C77_normal (p n : Vec3 ℝ) (d : ℝ) (hn : n ≠ Vec3.zero) :
    ((Plane.fromPoint p n).IsUnit ∧ (Plane.fromPoint p n).normal.SameDir n ∧ p ∈ (Plane.fromPoint p n).toSet) ∧
    ((Plane.fromNormal n d).IsUnit ∧ (Plane.fromNormal n d).normal.SameDir n ∧
      (Plane.fromNormal n d).normal * d ∈ (Plane.fromNormal n d).toSet) := by
  obtain ⟨h1, h2⟩ := Plane.normalized_unit n hn d
  refine ⟨⟨h1, h2, ?_⟩, h1, h2, ?_⟩
  · simp [Plane.fromPoint, Plane.toSet, Vec3.dot]
  · simp only [Plane.IsUnit] at h1
    simp only [Plane.fromNormal, Plane.toSet, Set.mem_ofPred_eq, Vec3.mul_x, Vec3.mul_y, Vec3.mul_z]
    linear_combination d * h1

theorem collinear_of_cross (a b c : Vec3 ℝ) (h : (b - a).cross (c - a) = Vec3.zero) :
    Collinear ℝ {a.toE, b.toE, c.toE} := by
  rw [collinear_iff_of_mem (p₀ := a.toE) (by simp)]
  simp only [Vec3.cross, Vec3.zero, Vec3.mk.injEq, Vec3.sub_x, Vec3.sub_y, Vec3.sub_z] at h
  obtain ⟨h1, h2, h3⟩ := h
  by_cases hab : b = a
  · refine ⟨c.toE - a.toE, ?_⟩
    simp only [Set.mem_insert_iff, Set.mem_singleton_iff, forall_eq_or_imp, forall_eq]
    exact ⟨⟨0, by simp⟩, ⟨0, by simp [hab]⟩, ⟨1, by simp⟩⟩
  · refine ⟨b.toE - a.toE, ?_⟩
    simp only [Set.mem_insert_iff, Set.mem_singleton_iff, forall_eq_or_imp, forall_eq]
    have hpos : 0 < (b.x - a.x) ^ 2 + (b.y - a.y) ^ 2 + (b.z - a.z) ^ 2 := by
      by_contra h0
      apply hab
      have hx := sq_nonneg (b.x - a.x)
      have hy := sq_nonneg (b.y - a.y)
      have hz := sq_nonneg (b.z - a.z)
      ext
      · exact sub_eq_zero.1 (pow_eq_zero_iff two_ne_zero |>.1 (by linarith : (b.x - a.x) ^ 2 = 0))
      · exact sub_eq_zero.1 (pow_eq_zero_iff two_ne_zero |>.1 (by linarith : (b.y - a.y) ^ 2 = 0))
      · exact sub_eq_zero.1 (pow_eq_zero_iff two_ne_zero |>.1 (by linarith : (b.z - a.z) ^ 2 = 0))
    refine ⟨⟨0, by simp⟩, ⟨1, by simp⟩,
      ⟨((b.x - a.x) * (c.x - a.x) + (b.y - a.y) * (c.y - a.y) + (b.z - a.z) * (c.z - a.z)) /
        ((b.x - a.x) ^ 2 + (b.y - a.y) ^ 2 + (b.z - a.z) ^ 2), ?_⟩⟩
    ext i
    fin_cases i
    all_goals
      simp only [Vec3.toE, Vec3.toFn, vadd_eq_add, PiLp.add_apply, PiLp.smul_apply, PiLp.sub_apply, smul_eq_mul]
      simp
      rw [← sub_eq_iff_eq_add, div_mul_eq_mul_div, eq_div_iff hpos.ne']
    · linear_combination (b.y - a.y) * (- h3) + (b.z - a.z) * h2
    · linear_combination (b.x - a.x) * h3 - (b.z - a.z) * h1
    · linear_combination (b.y - a.y) * h1 - (b.x - a.x) * h2

/-- C77: `from(a, b, c)` and `fromPointAndTangents` for points not on one line: unit normal, and the
plane contains the three points. -/
theorem C77_points (a b c : Vec3 ℝ) (h : ¬ Collinear ℝ {a.toE, b.toE, c.toE}) :
    (Plane.fromPoints a b c).IsUnit ∧ a ∈ (Plane.fromPoints a b c).toSet ∧
    b ∈ (Plane.fromPoints a b c).toSet ∧ c ∈ (Plane.fromPoints a b c).toSet ∧
    Plane.fromTangents a (b - a) (c - a) = Plane.fromPoints a b c := by
  have hc : (b - a).cross (c - a) ≠ Vec3.zero := fun e => h (collinear_of_cross a b c e)
  obtain ⟨⟨h1, ⟨k, hk, h2⟩, h3⟩, -⟩ := C77_normal a _ 0 hc
  have ha : a ∈ (Plane.fromPoints a b c).toSet := h3
  refine ⟨h1, ha, ?_, ?_, rfl⟩
  all_goals
    have hn : (Plane.fromPoints a b c).normal = (b - a).cross (c - a) * k := h2
    simp only [Plane.toSet, Set.mem_ofPred_eq, hn, Vec3.mul_x, Vec3.mul_y, Vec3.mul_z, Vec3.cross, Vec3.sub_x,
      Vec3.sub_y, Vec3.sub_z] at ha ⊢
    rw [← ha]; ring

/-- the three unit points are not collinear -/
example : ¬ Collinear ℝ {(⟨1, 0, 0⟩ : Vec3 ℝ).toE, (⟨0, 1, 0⟩ : Vec3 ℝ).toE, (⟨0, 0, 1⟩ : Vec3 ℝ).toE} := by
  rw [collinear_iff_of_mem (p₀ := (⟨1, 0, 0⟩ : Vec3 ℝ).toE) (by simp)]
  rintro ⟨v, hv⟩
  obtain ⟨r, hr⟩ := hv (⟨0, 1, 0⟩ : Vec3 ℝ).toE (by simp)
  obtain ⟨s, hs⟩ := hv (⟨0, 0, 1⟩ : Vec3 ℝ).toE (by simp)
  have a1 := congrFun (congrArg WithLp.ofLp hr) 1
  have a2 := congrFun (congrArg WithLp.ofLp hr) 2
  have b1 := congrFun (congrArg WithLp.ofLp hs) 1
  have b2 := congrFun (congrArg WithLp.ofLp hs) 2
  simp [Vec3.toE, Vec3.toFn] at a1 a2 b1 b2
  rcases a2 with rfl | h
  · simp at a1
  · simp [h] at b2

/-- C77: planes parallel to another: same normal, and every point's distance is lower by the offset. -/
theorem C77_parallel {K : Type} [Field K] (p : Plane K) (k : K) (q : Vec3 K) :
    (Plane.fromPlane p k).normal = p.normal ∧ (Plane.fromPlane p k).distance q = p.distance q - k ∧
    (p.IsUnit → (q ∈ p.toSet ↔ q + p.normal * k ∈ (Plane.fromPlane p k).toSet)) := by
  refine ⟨rfl, by simp only [Plane.fromPlane, Plane.distance]; ring, fun hu => ?_⟩
  simp only [Plane.toSet, Plane.fromPlane, Set.mem_ofPred_eq, Vec3.mul_x, Vec3.mul_y, Vec3.mul_z, Vec3.add_x,
    Vec3.add_y, Vec3.add_z]
  simp only [Plane.IsUnit] at hu
  constructor
  · intro h; linear_combination h + k * hu
  · intro h; linear_combination h - k * hu

/-- C77: `set` gives the same plane as `from`, whatever the object held before, for arguments that are
not parts of the object. -/
theorem C77_set_from {K : Type} [Field K] [LinearOrder K] [BEq K] [MathFns K] (self p : Plane K)
    (a b c : Vec3 K) (d : K) :
    self.setNormal (fun _ => a) d = Plane.fromNormal a d ∧
    self.setPoint (fun _ => a) (fun _ => b) = Plane.fromPoint a b ∧
    self.setTangents (fun _ => a) (fun _ => b) (fun _ => c) = Plane.fromTangents a b c ∧
    self.setPoints (fun _ => a) (fun _ => b) (fun _ => c) = Plane.fromPoints a b c ∧
    self.setPlane (fun _ => p) d = Plane.fromPlane p d ∧
    -- the object's own normal, or the object itself, as the argument
    self.setNormal (·.normal) d = Plane.fromNormal self.normal d ∧
    self.setPoint (fun _ => a) (·.normal) = Plane.fromPoint a self.normal ∧
    self.setPlane (fun s => s) d = Plane.fromPlane self d :=
  ⟨rfl, rfl, rfl, rfl, rfl, rfl, rfl, rfl⟩

/-- C77: with the object's own normal as the *point*, `set` and `from` differ: the normal is overwritten
before it is read. -/
theorem C77_set_alias :
    ∃ (self : Plane ℝ) (n : Vec3 ℝ), n ≠ Vec3.zero ∧
      self.setPoint (·.normal) (fun _ => n) ≠ Plane.fromPoint self.normal n ∧
      self.normal ∉ (self.setPoint (·.normal) (fun _ => n)).toSet := by
  refine ⟨⟨⟨1, 0, 0⟩, 0⟩, ⟨0, 1, 0⟩, by simp [Vec3.zero], ?_, ?_⟩
  · simp [Plane.setPoint, Plane.fromPoint, Vec3.normalized, Vec3.length, Vec3.dot]
  · simp [Plane.setPoint, Plane.toSet, Vec3.normalized, Vec3.length, Vec3.dot]

example : Plane.fromPoints (⟨0, 0, 2⟩ : Vec3 ℝ) ⟨3, 0, 2⟩ ⟨0, 5, 2⟩ = ⟨⟨0, 0, 1⟩, 2⟩ := by
  have : Real.sqrt 225 = 15 := by rw [show (225 : ℝ) = 15 ^ 2 by norm_num, Real.sqrt_sq (by norm_num)]
  norm_num [Plane.fromPoints, Plane.fromPoint, Vec3.cross, Vec3.normalized, Vec3.length, Vec3.dot, this]

/-! ## C78 -/

theorem unit_dot_le {n : Vec3 ℝ} (hn : n.x * n.x + n.y * n.y + n.z * n.z = 1) (u v : Vec3 ℝ) :
    |n.x * (u.x - v.x) + n.y * (u.y - v.y) + n.z * (u.z - v.z)| ≤ dist u.toE v.toE := by
  rw [Vec3.dist_toE]
  apply Real.abs_le_sqrt
  have e : (u.x - v.x) ^ 2 + (u.y - v.y) ^ 2 + (u.z - v.z) ^ 2 =
      (n.x * n.x + n.y * n.y + n.z * n.z) * ((u.x - v.x) ^ 2 + (u.y - v.y) ^ 2 + (u.z - v.z) ^ 2) := by
    rw [hn]; ring
  rw [e]
  nlinarith [sq_nonneg (n.x * (u.y - v.y) - n.y * (u.x - v.x)), sq_nonneg (n.x * (u.z - v.z) - n.z * (u.x - v.x)),
    sq_nonneg (n.y * (u.z - v.z) - n.z * (u.y - v.y))]

/-- C78: for a unit normal, `project` finds the nearest point of the plane and returns the signed
distance — the Euclidean distance, positive on the side the normal points to, negative on the other,
zero on the plane. -/
theorem C78_project (p : Plane ℝ) (hp : p.IsUnit) (q : Vec3 ℝ) :
    (p.project q).2 = p.distance q ∧
    (p.project q).1 ∈ p.toSet ∧
    dist q.toE (p.project q).1.toE = |p.distance q| ∧
    (∀ r ∈ p.toSet, |p.distance q| ≤ dist q.toE r.toE) ∧
    (∀ r ∈ p.toSet, dist q.toE r.toE = |p.distance q| → r = (p.project q).1) ∧
    q = (p.project q).1 + p.normal * p.distance q ∧
    (p.distance q = 0 ↔ q ∈ p.toSet) := by
  have hu := hp
  simp only [Plane.IsUnit] at hu
  have hmem : (p.project q).1 ∈ p.toSet := by
    simp only [Plane.project, Plane.toSet, Set.mem_ofPred_eq, Vec3.dot]
    linear_combination (-(q.x * p.normal.x + q.y * p.normal.y + q.z * p.normal.z - p.d)) * hu
  have hq : q = (p.project q).1 + p.normal * p.distance q := by
    ext <;> simp [Plane.project, Plane.distance]
  have hdist : ∀ r ∈ p.toSet, p.distance q = p.normal.x * (q.x - r.x) + p.normal.y * (q.y - r.y) +
      p.normal.z * (q.z - r.z) := by
    intro r hr
    simp only [Plane.toSet, Set.mem_ofPred_eq] at hr
    simp only [Plane.distance, Vec3.dot]
    linear_combination hr
  have hpyth : ∀ r ∈ p.toSet, dist q.toE r.toE ^ 2 = p.distance q ^ 2 + dist (p.project q).1.toE r.toE ^ 2 := by
    intro r hr
    have e1 := hdist r hr
    simp only [Plane.toSet, Set.mem_ofPred_eq] at hmem hr
    rw [Vec3.dist_toE, Vec3.dist_toE, Real.sq_sqrt (by positivity), Real.sq_sqrt (by positivity)]
    generalize p.distance q = t at hq e1 ⊢
    generalize (p.project q).1 = m at hq hmem ⊢
    rw [hq]
    simp only [Vec3.add_x, Vec3.add_y, Vec3.add_z, Vec3.mul_x, Vec3.mul_y, Vec3.mul_z]
    linear_combination t ^ 2 * hu + 2 * t * (hmem - hr)
  have hd : dist q.toE (p.project q).1.toE = |p.distance q| := by
    have := hpyth _ hmem
    rw [dist_self, zero_pow two_ne_zero, add_zero] at this
    rw [← abs_of_nonneg (dist_nonneg (x := q.toE) (y := (p.project q).1.toE))]
    exact (sq_eq_sq_iff_abs_eq_abs _ _).1 this
  refine ⟨rfl, hmem, hd, fun r hr => ?_, fun r hr e => ?_, hq, ?_⟩
  · rw [hdist r hr]; exact unit_dot_le hu q r
  · have := hpyth r hr
    rw [e, sq_abs, left_eq_add, sq_eq_zero_iff, Vec3.dist_toE, Real.sqrt_eq_zero (by positivity)] at this
    have hx := sq_nonneg ((p.project q).1.x - r.x)
    have hy := sq_nonneg ((p.project q).1.y - r.y)
    have hz := sq_nonneg ((p.project q).1.z - r.z)
    ext
    · exact (sub_eq_zero.1 (pow_eq_zero_iff two_ne_zero |>.1 (by linarith : ((p.project q).1.x - r.x) ^ 2 = 0))).symm
    · exact (sub_eq_zero.1 (pow_eq_zero_iff two_ne_zero |>.1 (by linarith : ((p.project q).1.y - r.y) ^ 2 = 0))).symm
    · exact (sub_eq_zero.1 (pow_eq_zero_iff two_ne_zero |>.1 (by linarith : ((p.project q).1.z - r.z) ^ 2 = 0))).symm
  · simp only [Plane.toSet, Plane.distance, Vec3.dot, Set.mem_ofPred_eq, sub_eq_zero]
    constructor <;> intro h <;> linear_combination h

/-- C78: `contains(point, tolerance)` compares the distance with the tolerance. -/
theorem C78_contains (p : Plane ℝ) (hp : p.IsUnit) (q : Vec3 ℝ) (tol : ℝ) :
    p.contains q tol = true ↔ ∃ r ∈ p.toSet, dist q.toE r.toE ≤ tol := by
  obtain ⟨-, h1, h2, h3, -⟩ := C78_project p hp q
  simp only [Plane.contains, decide_eq_true_eq, abs'_eq]
  exact ⟨fun h => ⟨_, h1, h2.trans_le h⟩, fun ⟨r, hr, h⟩ => (h3 r hr).trans h⟩

/-- C78: flipping negates distances and keeps the set of points, moving lowers the distances; the
functions that change the plane in place and those that return a new one agree. -/
theorem C78_flip_move {K : Type} [CommRing K] (p : Plane K) (q : Vec3 K) (k : K) :
    p.flipped.distance q = -p.distance q ∧ p.flipped.toSet = p.toSet ∧ p.flipped.flipped = p ∧
    (p.IsUnit → p.flipped.IsUnit) ∧
    (p.moved k).distance q = p.distance q - k ∧ (p.moved k).normal = p.normal ∧
    p.flip = p.flipped ∧ p.move k = p.moved k := by
  refine ⟨?_, ?_, ?_, ?_, ?_, rfl, rfl, rfl⟩
  · simp only [Plane.flipped, Plane.distance, Vec3.dot, Vec3.neg_x, Vec3.neg_y, Vec3.neg_z]; ring
  · ext r
    simp only [Plane.flipped, Plane.toSet, Set.mem_ofPred_eq, Vec3.neg_x, Vec3.neg_y, Vec3.neg_z]
    constructor <;> intro h <;> linear_combination -h
  · obtain ⟨n, d⟩ := p
    simp [Plane.flipped, Vec3.ext_iff]
  · simp [Plane.IsUnit, Plane.flipped]
  · simp only [Plane.moved, Plane.distance]; ring

example : (⟨⟨3/5, 0, 4/5⟩, 2⟩ : Plane ℝ).IsUnit ∧
    (⟨⟨3/5, 0, 4/5⟩, 2⟩ : Plane ℝ).project ⟨5, 1, 5⟩ = (⟨2, 1, 1⟩, 5) := by
  norm_num [Plane.IsUnit, Plane.project, Vec3.dot]

/-! ## C79 -/

/-- C79 (full claim: the projection is on the plane; false unless `d = 0`, see `C79_refuted`).  The
function answers true exactly for directions not parallel to the plane, and the result differs from
the point by a multiple of the direction; but it lies on the *parallel plane through the origin*, and
so on the plane itself exactly when `d = 0`. -/
theorem C79_projectDir_partial {K : Type} [Field K] [DecidableEq K] (p : Plane K) (q dir : Vec3 K) :
    ((p.projectDir q dir).isSome = true ↔
      p.normal.x * dir.x + p.normal.y * dir.y + p.normal.z * dir.z ≠ 0) ∧
    ∀ r, p.projectDir q dir = some r →
      (∃ k : K, r = q + dir * k) ∧ r ∈ (⟨p.normal, 0⟩ : Plane K).toSet ∧ (r ∈ p.toSet ↔ p.d = 0) := by
  have hf : dir.dot p.normal = p.normal.x * dir.x + p.normal.y * dir.y + p.normal.z * dir.z := by
    simp only [Vec3.dot]; ring
  unfold Plane.projectDir
  simp only [beq_iff_eq, ← hf]
  by_cases h : dir.dot p.normal = 0
  · simp [h]
  · simp only [h, if_false, Option.isSome_some, ne_eq, not_false_eq_true, true_and, Option.some.injEq]
    rintro r rfl
    have h0 : q - dir * (q.dot p.normal / dir.dot p.normal) ∈ (⟨p.normal, 0⟩ : Plane K).toSet := by
      simp only [Plane.toSet, Set.mem_ofPred_eq, Vec3.sub_x, Vec3.sub_y, Vec3.sub_z, Vec3.mul_x, Vec3.mul_y,
        Vec3.mul_z]
      have : q.dot p.normal / dir.dot p.normal * dir.dot p.normal = q.dot p.normal := by field_simp
      generalize q.dot p.normal / dir.dot p.normal = k at this ⊢
      simp only [Vec3.dot] at this
      linear_combination -this
    refine ⟨⟨-(q.dot p.normal / dir.dot p.normal), ?_⟩, h0, ?_⟩
    · ext <;> simp <;> ring
    · simp only [Plane.toSet, Set.mem_ofPred_eq] at h0 ⊢
      rw [h0, eq_comm]

/-- C79: the full claim is false: projecting the origin-height point (1,2,0) along z onto the plane
z = 3 gives a point of the plane z = 0. -/
theorem C79_refuted :
    ∃ (p : Plane ℝ) (q dir r : Vec3 ℝ), p.IsUnit ∧ p.projectDir q dir = some r ∧ r ∉ p.toSet := by
  refine ⟨⟨⟨0, 0, 1⟩, 3⟩, ⟨1, 2, 0⟩, ⟨0, 0, 1⟩, ⟨1, 2, 0⟩, ?_, ?_, ?_⟩
  · simp [Plane.IsUnit]
  · simp [Plane.projectDir, Vec3.dot, Vec3.ext_iff]
  · simp [Plane.toSet]

/-! ## C80 -/

section
variable {K : Type} [Field K] [LinearOrder K] [IsStrictOrderedRing K]

theorem Plane.mem_iff_distance (p : Plane K) (q : Vec3 K) : q ∈ p.toSet ↔ p.distance q = 0 := by
  simp only [Plane.toSet, Plane.distance, Vec3.dot, Set.mem_ofPred_eq, sub_eq_zero]
  constructor <;> intro h <;> linear_combination h

omit [LinearOrder K] [IsStrictOrderedRing K] in
theorem Plane.distance_ray (p : Plane K) (r : Ray3 K) (t : K) :
    p.distance (r.pointAt t) = p.distance r.start + t * p.normal.dot r.direction := by
  simp only [Plane.distance, Ray3.pointAt, Vec3.dot, Vec3.add_x, Vec3.add_y, Vec3.add_z, Vec3.mul_x, Vec3.mul_y,
    Vec3.mul_z]
  ring

omit [LinearOrder K] [IsStrictOrderedRing K] in
theorem Plane.distance_line (p : Plane K) (l : Line3 K) (t : K) :
    p.distance (l.pointAt t) = p.distance l.start + t * (p.distance l.end - p.distance l.start) := by
  simp only [Plane.distance, Line3.pointAt, lerpVec3, Vec3.dot]
  ring

/-- C80, rays: `intersects` reports exactly the point where a ray not parallel to the plane meets it,
`hits` exactly that point for rays against the normal; both are true iff such a point exists at a
parameter ≥ 0. -/
theorem C80_ray (p : Plane K) (r : Ray3 K) (hit : Vec3 K) (t : K) :
    (p.intersectsRay r = some (hit, t) ↔
      p.normal.x * r.direction.x + p.normal.y * r.direction.y + p.normal.z * r.direction.z ≠ 0 ∧
      0 ≤ t ∧ hit = r.pointAt t ∧ hit ∈ p.toSet) ∧
    (p.hitsRay r = some (hit, t) ↔
      p.normal.x * r.direction.x + p.normal.y * r.direction.y + p.normal.z * r.direction.z < 0 ∧
      0 ≤ t ∧ hit = r.pointAt t ∧ hit ∈ p.toSet) := by
  have hn : p.normal.x * r.direction.x + p.normal.y * r.direction.y + p.normal.z * r.direction.z =
    p.normal.dot r.direction := rfl
  have key : p.normal.dot r.direction ≠ 0 → ∀ t, (r.pointAt t ∈ p.toSet ↔
      -(r.start.dot p.normal - p.d) / p.normal.dot r.direction = t) := by
    intro h t
    rw [Plane.mem_iff_distance, Plane.distance_ray, div_eq_iff h, Plane.distance]
    constructor <;> intro e <;> linear_combination -e
  rw [hn]
  constructor
  · simp only [Plane.intersectsRay, beq_iff_eq]
    split_ifs with h0 h1
    · simp [h0]
    · constructor
      · simp
      · rintro ⟨-, h2, rfl, h4⟩
        rw [key h0] at h4
        rw [h4] at h1
        exact absurd h1 (not_lt.2 h2)
    · simp only [Option.some.injEq, Prod.mk.injEq]
      constructor
      · rintro ⟨rfl, rfl⟩
        exact ⟨h0, not_lt.1 h1, rfl, (key h0 _).2 rfl⟩
      · rintro ⟨-, h2, rfl, h4⟩
        rw [key h0] at h4
        rw [h4]
        exact ⟨rfl, rfl⟩
  · simp only [Plane.hitsRay]
    split_ifs with h0 h1
    · simp only [false_iff, not_and]
      intro h; exact absurd h0 (not_le.2 h)
    · constructor
      · simp
      · rintro ⟨-, h2, rfl, h4⟩
        rw [key (not_le.1 h0).ne] at h4
        rw [h4] at h1
        exact absurd h1 (not_lt.2 h2)
    · have h0 := not_le.1 h0
      simp only [Option.some.injEq, Prod.mk.injEq]
      constructor
      · rintro ⟨rfl, rfl⟩
        exact ⟨h0, not_lt.1 h1, rfl, (key h0.ne _).2 rfl⟩
      · rintro ⟨-, h2, rfl, h4⟩
        rw [key h0.ne] at h4
        rw [h4]
        exact ⟨rfl, rfl⟩

/-- C80, rays: the answer is true exactly when the ray meets the plane. -/
theorem C80_ray_iff (p : Plane K) (r : Ray3 K) :
    ((p.intersectsRay r).isSome = true ↔
      p.normal.x * r.direction.x + p.normal.y * r.direction.y + p.normal.z * r.direction.z ≠ 0 ∧
      ∃ t, 0 ≤ t ∧ r.pointAt t ∈ p.toSet) ∧
    ((p.hitsRay r).isSome = true ↔
      p.normal.x * r.direction.x + p.normal.y * r.direction.y + p.normal.z * r.direction.z < 0 ∧
      ∃ t, 0 ≤ t ∧ r.pointAt t ∈ p.toSet) := by
  simp only [Option.isSome_iff_exists, Prod.exists, (C80_ray p r _ _).1, (C80_ray p r _ _).2]
  constructor <;> constructor
  all_goals first
    | (rintro ⟨a, b, h1, h2, rfl, h4⟩; exact ⟨h1, b, h2, h4⟩)
    | (rintro ⟨h1, b, h2, h4⟩; exact ⟨_, b, h1, h2, rfl, h4⟩)

theorem Plane.line_key (p : Plane K) (l : Line3 K) (h : p.distance l.start ≠ p.distance l.end) (t : K) :
    l.pointAt t ∈ p.toSet ↔ p.distance l.start / (p.distance l.start - p.distance l.end) = t := by
  rw [Plane.mem_iff_distance, Plane.distance_line, div_eq_iff (sub_ne_zero.2 h)]
  constructor <;> intro e <;> linear_combination e

/-- C80, segments: `intersects` reports exactly the point, at a parameter in [0,1], where a segment not
parallel to the plane meets it. -/
theorem C80_line (p : Plane K) (l : Line3 K) (hit : Vec3 K) (t : K) :
    p.intersectsLine l = some (hit, t) ↔
      p.distance l.start ≠ p.distance l.end ∧ (0 ≤ t ∧ t ≤ 1) ∧ hit = l.pointAt t ∧ hit ∈ p.toSet := by
  have e : p.intersectsLine l =
      if (p.distance l.start == p.distance l.end) = true then none else
      if p.distance l.start < 0 ∧ p.distance l.end < 0 then none else
      if p.distance l.start > 0 ∧ p.distance l.end > 0 then none else
      some (l.pointAt (p.distance l.start / (p.distance l.start - p.distance l.end)),
        p.distance l.start / (p.distance l.start - p.distance l.end)) := rfl
  simp only [beq_iff_eq] at e
  have hr : ∀ s d : K, s ≠ d → (¬(s < 0 ∧ d < 0) ∧ ¬(s > 0 ∧ d > 0) ↔ 0 ≤ s / (s - d) ∧ s / (s - d) ≤ 1) := by
    intro s d hsd
    rcases lt_or_gt_of_ne (sub_ne_zero.2 hsd) with h | h
    · rw [div_nonneg_iff, div_le_one_of_neg h]
      constructor
      · rintro ⟨h1, h2⟩
        have : s ≤ 0 := by
          by_contra h3
          exact h2 ⟨not_le.1 h3, by linarith [not_le.1 h3]⟩
        have : 0 ≤ d := by
          by_contra h3
          exact h1 ⟨by linarith [not_le.1 h3], not_le.1 h3⟩
        exact ⟨.inr ⟨by linarith, h.le⟩, by linarith⟩
      · rintro ⟨h1, h2⟩
        refine ⟨fun ⟨a, b⟩ => by linarith, fun ⟨a, b⟩ => ?_⟩
        rcases h1 with h1 | h1 <;> linarith [h1.1, h1.2]
    · rw [div_nonneg_iff, div_le_one h]
      constructor
      · rintro ⟨h1, h2⟩
        have : d ≤ 0 := by
          by_contra h3
          exact h2 ⟨by linarith [not_le.1 h3], not_le.1 h3⟩
        have : 0 ≤ s := by
          by_contra h3
          exact h1 ⟨not_le.1 h3, by linarith [not_le.1 h3]⟩
        exact ⟨.inl ⟨by linarith, h.le⟩, by linarith⟩
      · rintro ⟨h1, h2⟩
        refine ⟨fun ⟨a, b⟩ => ?_, fun ⟨a, b⟩ => by linarith⟩
        rcases h1 with h1 | h1 <;> linarith [h1.1, h1.2]
  rw [e]
  by_cases h0 : p.distance l.start = p.distance l.end
  · simp [h0]
  rw [if_neg h0]
  by_cases h1 : p.distance l.start < 0 ∧ p.distance l.end < 0
  · rw [if_pos h1]
    refine ⟨by simp, ?_⟩
    rintro ⟨-, h2, rfl, h4⟩
    rw [p.line_key l h0] at h4
    rw [← h4] at h2
    exact absurd h1 ((hr _ _ h0).2 h2).1
  rw [if_neg h1]
  by_cases h1' : p.distance l.start > 0 ∧ p.distance l.end > 0
  · rw [if_pos h1']
    refine ⟨by simp, ?_⟩
    rintro ⟨-, h2, rfl, h4⟩
    rw [p.line_key l h0] at h4
    rw [← h4] at h2
    exact absurd h1' ((hr _ _ h0).2 h2).2
  rw [if_neg h1']
  simp only [Option.some.injEq, Prod.mk.injEq]
  constructor
  · rintro ⟨rfl, rfl⟩
    exact ⟨h0, (hr _ _ h0).1 ⟨h1, h1'⟩, rfl, (p.line_key l h0 _).2 rfl⟩
  · rintro ⟨-, -, rfl, h4⟩
    rw [p.line_key l h0] at h4
    simp [h4]

/-- C80, segments: the answer is true exactly when the segment meets the plane (transversally). -/
theorem C80_line_iff (p : Plane K) (l : Line3 K) :
    (p.intersectsLine l).isSome = true ↔
      p.distance l.start ≠ p.distance l.end ∧ ∃ t, 0 ≤ t ∧ t ≤ 1 ∧ l.pointAt t ∈ p.toSet := by
  simp only [Option.isSome_iff_exists, Prod.exists, C80_line p l]
  constructor
  · rintro ⟨a, b, h1, h2, rfl, h4⟩; exact ⟨h1, b, h2.1, h2.2, h4⟩
  · rintro ⟨h1, b, h2, h3, h4⟩; exact ⟨_, b, h1, ⟨h2, h3⟩, rfl, h4⟩

/-- C80, `hits(line)` (full claim: true iff the segment meets the plane coming from the positive side;
false for a segment that ends on the plane, see `C80_hitsLine_refuted`).  It reports exactly the
meeting point of a segment going against the normal whose end is not on the plane. -/
theorem C80_hitsLine_partial (p : Plane K) (l : Line3 K) (hit : Vec3 K) (t : K) :
    p.hitsLine l = some (hit, t) ↔
      p.distance l.end < p.distance l.start ∧ l.end ∉ p.toSet ∧ (0 ≤ t ∧ t ≤ 1) ∧ hit = l.pointAt t ∧
        hit ∈ p.toSet := by
  have e : p.hitsLine l =
      if p.distance l.start < 0 then none else if p.distance l.end ≥ 0 then none else
      some (l.pointAt (p.distance l.start / (p.distance l.start - p.distance l.end)),
        p.distance l.start / (p.distance l.start - p.distance l.end)) := rfl
  rw [e, p.mem_iff_distance l.end]
  have key : p.distance l.end < p.distance l.start → p.distance l.end ≠ 0 → (0 ≤ t ∧ t ≤ 1) →
      l.pointAt t ∈ p.toSet → 0 ≤ p.distance l.start ∧ p.distance l.end < 0 := by
    intro h1 h2 h3 h4
    rw [p.mem_iff_distance, p.distance_line] at h4
    have a1 : 0 ≤ p.distance l.start := by
      have := mul_nonneg h3.1 (by linarith : 0 ≤ p.distance l.start - p.distance l.end)
      linarith
    refine ⟨a1, lt_of_le_of_ne ?_ h2⟩
    have := mul_nonneg (by linarith [h3.2] : 0 ≤ 1 - t) (by linarith : 0 ≤ p.distance l.start - p.distance l.end)
    linarith
  split_ifs with h0 h1
  · refine ⟨by simp, ?_⟩
    rintro ⟨a1, a2, a3, rfl, a5⟩
    exact absurd (key a1 a2 a3 a5).1 (not_le.2 h0)
  · refine ⟨by simp, ?_⟩
    rintro ⟨a1, a2, a3, rfl, a5⟩
    exact absurd (key a1 a2 a3 a5).2 (not_lt.2 h1)
  · have h0 := not_lt.1 h0
    have h1 := not_le.1 h1
    have hne : p.distance l.start ≠ p.distance l.end := by intro e; linarith
    simp only [Option.some.injEq, Prod.mk.injEq]
    constructor
    · rintro ⟨rfl, rfl⟩
      have hpos : 0 < p.distance l.start - p.distance l.end := by linarith
      exact ⟨by linarith, h1.ne, ⟨div_nonneg h0 hpos.le, by rw [div_le_one hpos]; linarith⟩, rfl,
        (p.line_key l hne _).2 rfl⟩
    · rintro ⟨-, -, -, rfl, h4⟩
      rw [p.line_key l hne] at h4
      simp [h4]

/-- C80, the moving sphere: `hits(line, radius)` is `hits` against the plane moved out by the radius, so
the hit is the centre of the sphere when it touches the plane. -/
theorem C80_hitsLineRadius (p : Plane K) (l : Line3 K) (radius : K) :
    p.hitsLineRadius l radius = (⟨p.normal, p.d + radius⟩ : Plane K).hitsLine l ∧
    ∀ hit t, p.hitsLineRadius l radius = some (hit, t) →
      hit = l.pointAt t ∧ (0 ≤ t ∧ t ≤ 1) ∧ p.distance hit = radius ∧
      ∀ u, 0 ≤ u → u < t → radius < p.distance (l.pointAt u) := by
  have e : p.hitsLineRadius l radius = (⟨p.normal, p.d + radius⟩ : Plane K).hitsLine l := by
    simp only [Plane.hitsLineRadius, Plane.hitsLine, sub_add_eq_sub_sub]
  refine ⟨e, fun hit t h => ?_⟩
  rw [e, C80_hitsLine_partial] at h
  obtain ⟨h1, -, h3, rfl, h5⟩ := h
  have hd : ∀ q, (⟨p.normal, p.d + radius⟩ : Plane K).distance q = p.distance q - radius := by
    intro q; simp only [Plane.distance]; ring
  rw [Plane.mem_iff_distance, hd] at h5
  simp only [hd] at h1
  refine ⟨rfl, h3, by linarith, fun u h6 h7 => ?_⟩
  rw [p.distance_line] at h5 ⊢
  nlinarith

end

theorem C80_hitsLine_refuted :
    ∃ (p : Plane ℝ) (l : Line3 ℝ), p.IsUnit ∧ p.distance l.end < p.distance l.start ∧ l.pointAt 1 ∈ p.toSet ∧
      p.hitsLine l = none := by
  refine ⟨⟨⟨0, 0, 1⟩, 0⟩, ⟨⟨0, 0, 1⟩, ⟨0, 0, 0⟩⟩, ?_, ?_, ?_, ?_⟩ <;>
    norm_num [Plane.IsUnit, Plane.distance, Vec3.dot, Plane.toSet, Line3.pointAt, lerpVec3, Plane.hitsLine]

example : (⟨⟨0, 0, 1⟩, 1⟩ : Plane ℚ).hitsLine ⟨⟨0, 0, 4⟩, ⟨6, 0, -2⟩⟩ = some (⟨3, 0, 1⟩, 1/2) ∧
    (⟨⟨0, 0, 1⟩, 1⟩ : Plane ℚ).hitsLineRadius ⟨⟨0, 0, 4⟩, ⟨6, 0, -2⟩⟩ 2 = some (⟨1, 0, 3⟩, 1/6) ∧
    (⟨⟨0, 0, 1⟩, 1⟩ : Plane ℚ).intersectsLine ⟨⟨6, 0, -2⟩, ⟨0, 0, 4⟩⟩ = some (⟨3, 0, 1⟩, 1/2) ∧
    (⟨⟨0, 0, 1⟩, 1⟩ : Plane ℚ).hitsRay ⟨⟨0, 0, 4⟩, ⟨0, 0, -1⟩⟩ = some (⟨0, 0, 1⟩, 3) ∧
    (⟨⟨0, 0, 1⟩, 1⟩ : Plane ℚ).intersectsRay ⟨⟨0, 0, 0⟩, ⟨0, 0, 1⟩⟩ = some (⟨0, 0, 1⟩, 1) := by
  decide +kernel

/-- C80, spheres: for a unit normal, `intersects` is true iff the ball and the plane share a point,
`hits` iff moreover the centre is not on the negative side; the reported depth is how far the ball
reaches below the plane. -/
theorem C80_sphere (p : Plane ℝ) (hp : p.IsUnit) (s : Sphere ℝ) (hs : 0 ≤ s.radius) :
    ((p.intersectsSphere s).isSome = true ↔ ∃ q ∈ s.toSet, q ∈ p.toSet) ∧
    ((p.hitsSphere s).isSome = true ↔ 0 ≤ p.distance s.center ∧ ∃ q ∈ s.toSet, q ∈ p.toSet) ∧
    ∀ depth, p.intersectsSphere s = some depth ∨ p.hitsSphere s = some depth →
      IsGreatest {x | ∃ q ∈ s.toSet, x = -p.distance q} depth := by
  have hu := hp
  simp only [Plane.IsUnit] at hu
  obtain ⟨-, h1, h2, h3, -⟩ := C78_project p hp s.center
  have hmeet : (∃ q ∈ s.toSet, q ∈ p.toSet) ↔ |p.distance s.center| ≤ s.radius := by
    constructor
    · rintro ⟨q, hq, hqp⟩
      have hq' : dist q.toE s.center.toE ≤ s.radius := hq
      rw [dist_comm] at hq'
      exact (h3 q hqp).trans hq'
    · intro h
      have hm : (p.project s.center).1 ∈ s.toSet := by
        change dist (p.project s.center).1.toE s.center.toE ≤ s.radius
        rw [dist_comm, h2]; exact h
      exact ⟨_, hm, h1⟩
  have hgr : IsGreatest {x | ∃ q ∈ s.toSet, x = -p.distance q} (s.radius - p.distance s.center) := by
    constructor
    · refine ⟨s.center - p.normal * s.radius, ?_, ?_⟩
      · change dist (s.center - p.normal * s.radius).toE s.center.toE ≤ s.radius
        rw [Vec3.dist_toE]
        apply le_of_eq
        rw [Real.sqrt_eq_iff_mul_self_eq (by positivity) hs]
        simp only [Vec3.sub_x, Vec3.sub_y, Vec3.sub_z, Vec3.mul_x, Vec3.mul_y, Vec3.mul_z]
        linear_combination s.radius ^ 2 * hu
      · simp only [Plane.distance, Vec3.dot, Vec3.sub_x, Vec3.sub_y, Vec3.sub_z, Vec3.mul_x, Vec3.mul_y, Vec3.mul_z]
        linear_combination -s.radius * hu
    · rintro x ⟨q, hq, rfl⟩
      have hq' : dist q.toE s.center.toE ≤ s.radius := hq
      have h4 := (abs_le.1 (unit_dot_le hu q s.center)).1
      have h5 : p.distance q = p.distance s.center + (p.normal.x * (q.x - s.center.x) +
        p.normal.y * (q.y - s.center.y) + p.normal.z * (q.z - s.center.z)) := by
        simp only [Plane.distance, Vec3.dot]; ring
      linarith
  have ei : p.intersectsSphere s = if p.distance s.center > s.radius then none else
    if p.distance s.center < -s.radius then none else some (s.radius - p.distance s.center) := rfl
  have eh : p.hitsSphere s = if p.distance s.center > s.radius then none else
    if p.distance s.center < 0 then none else some (s.radius - p.distance s.center) := rfl
  rw [hmeet, abs_le, ei, eh]
  refine ⟨?_, ?_, ?_⟩
  · split_ifs with a b
    · simp; intro _; linarith
    · simp; intro _; linarith
    · simp; exact ⟨by linarith, by linarith⟩
  · split_ifs with a b
    · simp; intro _ _; linarith
    · simp; intro _; linarith
    · simp; exact ⟨by linarith, by linarith, by linarith⟩
  · rintro depth (h | h)
    all_goals
      split_ifs at h
      simp only [Option.some.injEq] at h
      exact h ▸ hgr

example : (⟨⟨0, 0, 1⟩, 1⟩ : Plane ℚ).hitsSphere ⟨⟨0, 0, 3⟩, 5⟩ = some 3 ∧
    (⟨⟨0, 0, 1⟩, 1⟩ : Plane ℚ).intersectsSphere ⟨⟨0, 0, 0⟩, 5⟩ = some 6 ∧
    (⟨⟨0, 0, 1⟩, 1⟩ : Plane ℚ).hitsSphere ⟨⟨0, 0, 0⟩, 5⟩ = none := by
  decide +kernel

/-! ## C81 -/

/-- C81: true iff the determinant of the three normals is at least 1e-4 in absolute value; the point is
then the only common point of the planes; otherwise the point is set to zero.  The division by the
determinant is never by zero. -/
theorem C81_threePlanes (p0 p1 p2 : Plane ℝ) :
    let det := Matrix.det !![p0.normal.x, p0.normal.y, p0.normal.z; p1.normal.x, p1.normal.y, p1.normal.z;
      p2.normal.x, p2.normal.y, p2.normal.z]
    (|det| < 1 / 10000 → Plane.intersectAtSinglePoint p0 p1 p2 = .ok (false, ⟨0, 0, 0⟩)) ∧
    (1 / 10000 ≤ |det| → ∃ point, Plane.intersectAtSinglePoint p0 p1 p2 = .ok (true, point) ∧
      p0.toSet ∩ p1.toSet ∩ p2.toSet = {point}) := by
  intro det
  have hdet : (p0.normal.cross p1.normal).dot p2.normal = det := by
    simp only [det, Matrix.det_fin_three, Vec3.cross, Vec3.dot]
    simp
    ring
  unfold Plane.intersectAtSinglePoint
  simp only [hdet, abs'_eq]
  refine ⟨fun h => by rw [if_pos h]; rfl, fun h => ?_⟩
  rw [if_neg (not_lt.2 h)]
  have hd : det ≠ 0 := by
    intro e; rw [e, abs_zero] at h; norm_num at h
  refine ⟨((p1.normal.cross p2.normal) * p0.d + (p2.normal.cross p0.normal) * p1.d +
      (p0.normal.cross p1.normal) * p2.d) * (1 / det), ?_, ?_⟩
  · simp [Vec3.div, hd, bind, Except.bind, Vec3.ext_iff, div_eq_mul_inv]
  · ext q
    simp only [Set.mem_inter_iff, Set.mem_singleton_iff, Plane.toSet, Set.mem_ofPred_eq]
    simp only [Vec3.cross, Vec3.dot] at hdet
    constructor
    · rintro ⟨⟨h0, h1⟩, h2⟩
      ext <;> simp only [Vec3.mul_x, Vec3.mul_y, Vec3.mul_z, Vec3.add_x, Vec3.add_y, Vec3.add_z, Vec3.cross] <;>
        rw [mul_one_div, eq_div_iff hd, ← hdet, ← h0, ← h1, ← h2] <;> ring
    · rintro rfl
      refine ⟨⟨?_, ?_⟩, ?_⟩ <;>
        simp only [Vec3.mul_x, Vec3.mul_y, Vec3.mul_z, Vec3.add_x, Vec3.add_y, Vec3.add_z, Vec3.cross] <;>
        field_simp <;> rw [← hdet] <;> ring

example : Plane.intersectAtSinglePoint (⟨⟨1, 0, 0⟩, 2⟩ : Plane ℚ) ⟨⟨1, 1, 0⟩, 3⟩ ⟨⟨0, 0, 1⟩, 5⟩ =
    .ok (true, ⟨2, 1, 5⟩) := by decide +kernel

end MathLib
