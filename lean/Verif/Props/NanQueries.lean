import Verif.Props.IeeeBoxes
import Verif.Model.Frustum
import Verif.Proof.VecLemmas
import Verif.Proof.Ieee
import Mathlib.Tactic.CasesM

/-! # Property C151: geometric queries about NaN

A query about a point, ball, box, ray or line with a coordinate that is not a number should be answered with no. -/

namespace MathLib
open Ieee
variable {p : ℕ} {emax : ℤ}

section
variable (a : Ieee ℝ p emax)
private theorem nan_add : (nan : Ieee ℝ p emax) + a = nan := by cases a <;> rfl
private theorem add_nan : a + (nan : Ieee ℝ p emax) = nan := by cases a <;> rfl
private theorem nan_sub : (nan : Ieee ℝ p emax) - a = nan := by cases a <;> rfl
private theorem sub_nan : a - (nan : Ieee ℝ p emax) = nan := by cases a <;> rfl
private theorem nan_mul : (nan : Ieee ℝ p emax) * a = nan := by cases a <;> rfl
private theorem mul_nan : a * (nan : Ieee ℝ p emax) = nan := by cases a <;> rfl
private theorem nan_div : (nan : Ieee ℝ p emax) / a = nan := by cases a <;> rfl
private theorem div_nan : a / (nan : Ieee ℝ p emax) = nan := by cases a <;> rfl
private theorem neg_nan : -(nan : Ieee ℝ p emax) = nan := rfl
private theorem sqrt_nan : MathFns.sqrt (nan : Ieee ℝ p emax) = nan := rfl
private theorem nan_beq : ((nan : Ieee ℝ p emax) == a) = false := by cases a <;> rfl
private theorem beq_nan : (a == (nan : Ieee ℝ p emax)) = false := by cases a <;> rfl
end

private theorem nan2 {v : Vec2 (Ieee ℝ p emax)} : ¬ v.NoNaN ↔ v.x = nan ∨ v.y = nan := by
  unfold Vec2.NoNaN; tauto
private theorem nan3 {v : Vec3 (Ieee ℝ p emax)} : ¬ v.NoNaN ↔ v.x = nan ∨ v.y = nan ∨ v.z = nan := by
  unfold Vec3.NoNaN; tauto

/-- Corner boxes contain nothing with a NaN, and contain nothing if a corner has one. -/
theorem C151_boxes_partial (b o : AABB2 (Ieee ℝ p emax)) (q : Vec2 (Ieee ℝ p emax)) (b' o' : AABB3 (Ieee ℝ p emax))
    (q' : Vec3 (Ieee ℝ p emax)) (s : Sphere (Ieee ℝ p emax)) :
    (¬ (b.inf.NoNaN ∧ b.sup.NoNaN ∧ q.NoNaN) → b.contains q = false) ∧
    (¬ (b.inf.NoNaN ∧ b.sup.NoNaN ∧ o.inf.NoNaN ∧ o.sup.NoNaN) → b.containsBox o = false) ∧
    (¬ (b'.inf.NoNaN ∧ b'.sup.NoNaN ∧ q'.NoNaN) → b'.contains q' = false) ∧
    (¬ (b'.inf.NoNaN ∧ b'.sup.NoNaN ∧ o'.inf.NoNaN ∧ o'.sup.NoNaN) → b'.containsBox o' = false) ∧
    (¬ (b'.inf.NoNaN ∧ b'.sup.NoNaN ∧ s.center.NoNaN ∧ s.radius ≠ nan) → b'.containsSphere s = false) := by
  simp only [not_and_or, nan2, nan3, not_not]
  refine ⟨?_, ?_, ?_, ?_, ?_⟩ <;> intro h <;>
    simp only [AABB2.contains, AABB2.containsBox, AABB3.contains, AABB3.containsBox, AABB3.containsSphere] <;>
    casesm* _ ∨ _ <;> simp [*, not_le_nan, not_nan_le, nan_sub, nan_add, add_nan, sub_nan]

/-- The same for centred boxes. -/
theorem C151_centred_partial (b o : CAABB2 (Ieee ℝ p emax)) (q : Vec2 (Ieee ℝ p emax)) (b' o' : CAABB3 (Ieee ℝ p emax))
    (q' : Vec3 (Ieee ℝ p emax)) (s : Sphere (Ieee ℝ p emax)) :
    (¬ (b.center.NoNaN ∧ b.extents.NoNaN ∧ q.NoNaN) → b.contains q = false) ∧
    (¬ (b.center.NoNaN ∧ b.extents.NoNaN ∧ o.center.NoNaN ∧ o.extents.NoNaN) → b.containsBox o = false) ∧
    (¬ (b'.center.NoNaN ∧ b'.extents.NoNaN ∧ q'.NoNaN) → b'.contains q' = false) ∧
    (¬ (b'.center.NoNaN ∧ b'.extents.NoNaN ∧ o'.center.NoNaN ∧ o'.extents.NoNaN) → b'.containsBox o' = false) ∧
    (¬ (b'.center.NoNaN ∧ b'.extents.NoNaN ∧ s.center.NoNaN ∧ s.radius ≠ nan) → b'.containsSphere s = false) := by
  simp only [not_and_or, nan2, nan3, not_not]
  refine ⟨?_, ?_, ?_, ?_, ?_⟩ <;> intro h <;>
    simp only [CAABB2.contains, CAABB2.containsBox, CAABB3.contains, CAABB3.containsBox, CAABB3.containsSphere] <;>
    casesm* _ ∨ _ <;> simp [*, not_le_nan, not_nan_le, nan_sub, nan_add, add_nan, sub_nan]

/-- Balls. -/
theorem C151_balls_partial (c d : Circle (Ieee ℝ p emax)) (q : Vec2 (Ieee ℝ p emax)) (s o : Sphere (Ieee ℝ p emax))
    (q' : Vec3 (Ieee ℝ p emax)) :
    (¬ (c.center.NoNaN ∧ c.radius ≠ nan ∧ q.NoNaN) → c.contains q = false) ∧
    (¬ (c.center.NoNaN ∧ c.radius ≠ nan ∧ d.center.NoNaN ∧ d.radius ≠ nan) → c.containsCircle d = false) ∧
    (¬ (s.center.NoNaN ∧ s.radius ≠ nan ∧ q'.NoNaN) → s.contains q' = false) ∧
    (¬ (s.center.NoNaN ∧ s.radius ≠ nan ∧ o.center.NoNaN ∧ o.radius ≠ nan) → s.containsSphere o = false) := by
  simp only [not_and_or, nan2, nan3, not_not]
  refine ⟨?_, ?_, ?_, ?_⟩ <;> intro h <;>
    simp only [Circle.contains, Circle.containsCircle, Sphere.contains, Sphere.containsSphere, distance2, distance3] <;>
    casesm* _ ∨ _ <;>
    simp [*, not_le_nan, not_nan_le, nan_sub, nan_add, add_nan, sub_nan, mul_nan, sqrt_nan]

/-- Planes and triangles. -/
theorem C151_flat_partial (P : Plane (Ieee ℝ p emax)) (q' : Vec3 (Ieee ℝ p emax)) (tol : Ieee ℝ p emax)
    (t : Tri2 (Ieee ℝ p emax)) (q : Vec2 (Ieee ℝ p emax)) :
    (¬ (P.normal.NoNaN ∧ P.d ≠ nan ∧ q'.NoNaN ∧ tol ≠ nan) → P.contains q' tol = false) ∧
    (¬ (t.a.NoNaN ∧ t.b.NoNaN ∧ t.c.NoNaN ∧ q.NoNaN) → t.contains q = false) := by
  simp only [not_and_or, nan2, nan3, not_not]
  refine ⟨?_, ?_⟩ <;> intro h <;>
    simp only [Plane.contains, Plane.distance, Vec3.dot, abs', Tri2.contains, Vec2.crossProduct] <;>
    casesm* _ ∨ _ <;>
    simp [*, not_le_nan, not_nan_le, not_nan_lt, nan_sub, nan_add, add_nan, sub_nan, mul_nan, nan_mul]

/-- a point and a ball with one NaN each -/
example : (¬ ((⟨0, nan⟩ : Vec2 (Ieee ℝ 24 127)).NoNaN)) ∧ ¬ ((⟨0, 0, 0⟩ : Vec3 (Ieee ℝ 24 127)).NoNaN ∧ (nan : Ieee ℝ 24 127) ≠ nan) :=
  ⟨fun h => h.2 rfl, fun h => h.2 rfl⟩

/-! ## Queries that say yes -/

/-- Frusta contain and touch everything with a NaN. -/
theorem C151_frustum (narrow : Ieee ℝ p emax → Ieee ℝ p emax) (hn : narrow nan = nan) (f : Frustum (Ieee ℝ p emax))
    (q : Vec3 (Ieee ℝ p emax)) (s : Sphere (Ieee ℝ p emax)) :
    (¬ q.NoNaN → f.contains narrow q = true) ∧
    (¬ (s.center.NoNaN ∧ s.radius ≠ nan) → f.containsSphere narrow s = true ∧ f.intersectsSphere narrow s = true) := by
  simp only [not_and_or, nan3, not_not]
  refine ⟨?_, ?_⟩ <;> intro h <;>
    simp only [Frustum.contains, Frustum.containsSphere, Frustum.intersectsSphere, Plane.distance, Vec3.dot] <;>
    casesm* _ ∨ _ <;>
    simp [*, not_lt_nan, not_nan_lt, nan_sub, nan_add, add_nan, nan_mul, neg_nan]

/-- Two balls intersect as soon as one of their numbers is a NaN. -/
theorem C151_intersects (c d : Circle (Ieee ℝ p emax)) (s o : Sphere (Ieee ℝ p emax)) :
    (¬ (c.center.NoNaN ∧ c.radius ≠ nan ∧ d.center.NoNaN ∧ d.radius ≠ nan) →
      c.intersects d = true ∧ (c.intersectsHit d).isSome) ∧
    (¬ (s.center.NoNaN ∧ s.radius ≠ nan ∧ o.center.NoNaN ∧ o.radius ≠ nan) →
      s.intersects o = true ∧ (s.intersectsHit o).isSome) := by
  simp only [not_and_or, nan2, nan3, not_not]
  refine ⟨?_, ?_⟩ <;> intro h <;>
    simp only [Circle.intersects, Circle.intersectsHit, Sphere.intersects, Sphere.intersectsHit, Vec2.lengthSqr,
      Vec3.lengthSqr, Vec2.sub_x, Vec2.sub_y, Vec3.sub_x, Vec3.sub_y, Vec3.sub_z] <;>
    casesm* _ ∨ _ <;>
    simp [*, not_lt_nan, not_nan_lt, nan_sub, sub_nan, nan_add, add_nan, nan_mul]

/-- A line that is not a point hits a ball as soon as one of their numbers is a NaN. -/
theorem C151_line (s : Sphere (Ieee ℝ p emax)) (line : Line3 (Ieee ℝ p emax))
    (h : ¬ (s.center.NoNaN ∧ s.radius ≠ nan ∧ line.start.NoNaN ∧ line.end.NoNaN)) :
    s.intersectsLine line = !((line.end - line.start).lengthSqr == 0) ∧
    (s.intersectsLineHit line).isSome = !((line.end - line.start).lengthSqr == 0) := by
  simp only [not_and_or, nan3, not_not] at h
  simp only [Sphere.intersectsLine, Sphere.intersectsLineHit, Vec3.lengthSqr, Vec3.dot, Vec3.sub_x, Vec3.sub_y, Vec3.sub_z]
  casesm* _ ∨ _ <;>
    simp [*, not_lt_nan, not_nan_lt, nan_sub, sub_nan, nan_add, add_nan, nan_mul, mul_nan, neg_nan, sqrt_nan, nan_div,
      div_nan, nan_beq] <;> split_ifs <;> simp [*]

/-- Planes: rays with a NaN in the direction, lines and balls with any NaN are reported, with a NaN as parameter. -/
theorem C151_planes (P : Plane (Ieee ℝ p emax)) (ray : Ray3 (Ieee ℝ p emax)) (line : Line3 (Ieee ℝ p emax))
    (s : Sphere (Ieee ℝ p emax)) :
    (¬ (P.normal.NoNaN ∧ ray.direction.NoNaN) → (P.hitsRay ray).map Prod.snd = some nan ∧
      (P.intersectsRay ray).map Prod.snd = some nan) ∧
    (¬ (P.normal.NoNaN ∧ P.d ≠ nan ∧ line.start.NoNaN ∧ line.end.NoNaN) →
      (P.intersectsLine line).map Prod.snd = some nan) ∧
    (¬ (P.normal.NoNaN ∧ P.d ≠ nan ∧ s.center.NoNaN ∧ s.radius ≠ nan) → P.intersectsSphere s = some nan) := by
  simp only [not_and_or, nan3, not_not]
  refine ⟨?_, ?_, ?_⟩ <;> intro h <;>
    simp only [Plane.hitsRay, Plane.intersectsRay, Plane.intersectsLine, Plane.intersectsSphere, Vec3.dot] <;>
    casesm* _ ∨ _ <;>
    simp [*, not_lt_nan, not_nan_lt, not_le_nan, nan_sub, sub_nan, nan_add, add_nan, nan_mul, mul_nan, neg_nan,
      div_nan, nan_beq, beq_nan]

/-! ## Rays and boxes -/

private theorem slabClip_nan {lo hi s d : Ieee ℝ p emax} {t : Ieee ℝ p emax × Ieee ℝ p emax} (h : s = nan ∨ d = nan)
    (ht : ¬ t.2 < t.1) : slabClip lo hi s d t = some t := by
  unfold slabClip
  rcases h with rfl | rfl <;>
    simp [not_lt_nan, not_nan_lt, sub_nan, nan_mul, mul_nan, div_nan, nan_beq, stdMax, stdMin, ht]

private theorem slabClip_le {lo hi s d : Ieee ℝ p emax} {t t' : Ieee ℝ p emax × Ieee ℝ p emax}
    (ht : ¬ t.2 < t.1) (h : slabClip lo hi s d t = some t') : ¬ t'.2 < t'.1 := by
  unfold slabClip at h
  dsimp only at h
  split_ifs at h
  · cases h; exact ht
  · cases h; assumption
  · cases h; assumption

private theorem slabHit_nan {lo hi s d t : Ieee ℝ p emax} (h : s = nan ∨ d = nan) : slabHit lo hi s d t = some t := by
  unfold slabHit
  rcases h with rfl | rfl <;>
    simp [not_lt_nan, not_nan_lt, sub_nan, nan_mul, mul_nan, div_nan, nan_beq, stdMax]

/-- An axis in which the start or the direction of the ray is a NaN is not tested: the answer is the one for the
rectangle and the ray of the other two. -/
theorem C151_axis (M : Ieee ℝ p emax) (hM : ¬ M < 0) (b : AABB3 (Ieee ℝ p emax)) (ray : Ray3 (Ieee ℝ p emax)) :
    (ray.start.x = nan ∨ ray.direction.x = nan →
      b.intersectsRay M ray = AABB2.intersectsRay M ⟨⟨b.inf.y, b.inf.z⟩, ⟨b.sup.y, b.sup.z⟩⟩
        ⟨⟨ray.start.y, ray.start.z⟩, ⟨ray.direction.y, ray.direction.z⟩⟩ ∧
      b.hitsRay ray = AABB2.hitsRay ⟨⟨b.inf.y, b.inf.z⟩, ⟨b.sup.y, b.sup.z⟩⟩
        ⟨⟨ray.start.y, ray.start.z⟩, ⟨ray.direction.y, ray.direction.z⟩⟩) ∧
    (ray.start.y = nan ∨ ray.direction.y = nan →
      b.intersectsRay M ray = AABB2.intersectsRay M ⟨⟨b.inf.x, b.inf.z⟩, ⟨b.sup.x, b.sup.z⟩⟩
        ⟨⟨ray.start.x, ray.start.z⟩, ⟨ray.direction.x, ray.direction.z⟩⟩ ∧
      b.hitsRay ray = AABB2.hitsRay ⟨⟨b.inf.x, b.inf.z⟩, ⟨b.sup.x, b.sup.z⟩⟩
        ⟨⟨ray.start.x, ray.start.z⟩, ⟨ray.direction.x, ray.direction.z⟩⟩) ∧
    (ray.start.z = nan ∨ ray.direction.z = nan →
      b.intersectsRay M ray = AABB2.intersectsRay M ⟨⟨b.inf.x, b.inf.y⟩, ⟨b.sup.x, b.sup.y⟩⟩
        ⟨⟨ray.start.x, ray.start.y⟩, ⟨ray.direction.x, ray.direction.y⟩⟩ ∧
      b.hitsRay ray = AABB2.hitsRay ⟨⟨b.inf.x, b.inf.y⟩, ⟨b.sup.x, b.sup.y⟩⟩
        ⟨⟨ray.start.x, ray.start.y⟩, ⟨ray.direction.x, ray.direction.y⟩⟩) := by
  refine ⟨fun h => ⟨?_, ?_⟩, fun h => ⟨?_, ?_⟩, fun h => ⟨?_, ?_⟩⟩
  · unfold AABB3.intersectsRay AABB2.intersectsRay
    rw [slabClip_nan h hM]; rfl
  · unfold AABB3.hitsRay AABB2.hitsRay
    rw [slabHit_nan h]; rfl
  · unfold AABB3.intersectsRay AABB2.intersectsRay
    dsimp only
    rcases e : slabClip b.inf.x b.sup.x ray.start.x ray.direction.x (0, M) with _ | t
    · rfl
    · simp only [Option.bind_eq_bind, Option.bind_some, slabClip_nan h (slabClip_le (t := (0, M)) hM e)]
  · unfold AABB3.hitsRay AABB2.hitsRay
    simp only [slabHit_nan h, Option.bind_eq_bind, Option.bind_some]
  · unfold AABB3.intersectsRay AABB2.intersectsRay
    dsimp only
    rcases e : slabClip b.inf.x b.sup.x ray.start.x ray.direction.x (0, M) with _ | t
    · rfl
    simp only [Option.bind_eq_bind, Option.bind_some]
    rcases e' : slabClip b.inf.y b.sup.y ray.start.y ray.direction.y t with _ | t'
    · rfl
    · rw [Option.bind_some, slabClip_nan h (slabClip_le (slabClip_le (t := (0, M)) hM e) e')]
  · unfold AABB3.hitsRay AABB2.hitsRay
    simp only [slabHit_nan h, Option.bind_eq_bind, Option.bind_fun_some]

/-- A ray of NaNs runs through every box from its start to the end of the world, a segment of NaNs too. -/
theorem C151_rays (M : Ieee ℝ p emax) (hM : ¬ M < 0) (b : AABB3 (Ieee ℝ p emax)) (b' : AABB2 (Ieee ℝ p emax)) :
    b.intersectsRay M ⟨⟨nan, nan, nan⟩, ⟨nan, nan, nan⟩⟩ = some (0, M) ∧
    b.hitsRay ⟨⟨nan, nan, nan⟩, ⟨nan, nan, nan⟩⟩ = some 0 ∧ b.hitsLine ⟨⟨nan, nan, nan⟩, ⟨nan, nan, nan⟩⟩ = some 0 ∧
    b'.intersectsRay M ⟨⟨nan, nan⟩, ⟨nan, nan⟩⟩ = some (0, M) ∧
    b'.hitsRay ⟨⟨nan, nan⟩, ⟨nan, nan⟩⟩ = some 0 ∧ b'.hitsLine ⟨⟨nan, nan⟩, ⟨nan, nan⟩⟩ = some 0 ∧
    b.intersectsLine M ⟨⟨nan, nan, nan⟩, ⟨nan, nan, nan⟩⟩ = some (0, if M > 1 then 1 else M) ∧
    b'.intersectsLine M ⟨⟨nan, nan⟩, ⟨nan, nan⟩⟩ = some (0, if M > 1 then 1 else M) := by
  have z : ¬ (1 : Ieee ℝ p emax) < 0 := by rw [lt_fin rfl rfl]; norm_num
  have z0 : ¬ (0 : Ieee ℝ p emax) < 0 := by rw [lt_fin rfl rfl]; norm_num
  have c := fun lo hi s => slabClip_nan (t := (0, M)) (lo := lo) (hi := hi) (s := s) (d := nan) (Or.inr rfl) hM
  have k := fun lo hi s t => slabHit_nan (t := t) (lo := lo) (hi := hi) (s := s) (d := (nan : Ieee ℝ p emax)) (Or.inr rfl)
  refine ⟨?_, ?_, ?_, ?_, ?_, ?_, ?_, ?_⟩ <;>
    simp [AABB3.intersectsRay, AABB3.hitsRay, AABB3.hitsLine, AABB2.intersectsRay, AABB2.hitsRay, AABB2.hitsLine,
      AABB3.intersectsLine, AABB2.intersectsLine, Vec3.sub_x, Vec3.sub_y, Vec3.sub_z, Vec2.sub_x, Vec2.sub_y, nan_sub, c, k,
      segmentClip, hM, z, z0]

/-- The claim of C151 for frusta, pairs of balls, and rays and boxes; the other queries are above. -/
def C151_full (p : ℕ) (emax : ℤ) : Prop :=
  (∀ (f : Frustum (Ieee ℝ p emax)) (q : Vec3 (Ieee ℝ p emax)), ¬ q.NoNaN → f.contains id q = false) ∧
  (∀ s o : Sphere (Ieee ℝ p emax), ¬ (s.center.NoNaN ∧ s.radius ≠ nan ∧ o.center.NoNaN ∧ o.radius ≠ nan) →
    s.intersects o = false) ∧
  ∀ (b : AABB3 (Ieee ℝ p emax)) (M : Ieee ℝ p emax) (ray : Ray3 (Ieee ℝ p emax)), ¬ M < 0 →
    ¬ (ray.start.NoNaN ∧ ray.direction.NoNaN) → b.intersectsRay M ray = none

/-- All three parts are false, in every format and of every frustum, ball and box. -/
theorem C151_refuted (p : ℕ) (emax : ℤ) : ¬ C151_full p emax ∧
    (∀ f : Frustum (Ieee ℝ p emax), f.contains id ⟨nan, nan, nan⟩ = true) ∧
    (∀ s : Sphere (Ieee ℝ p emax), s.intersects ⟨⟨nan, nan, nan⟩, 1⟩ = true) ∧
    ∀ (b : AABB3 (Ieee ℝ p emax)) (M : Ieee ℝ p emax), ¬ M < 0 →
      b.intersectsRay M ⟨⟨nan, nan, nan⟩, ⟨nan, nan, nan⟩⟩ = some (0, M) := by
  have n : ¬ (⟨nan, nan, nan⟩ : Vec3 (Ieee ℝ p emax)).NoNaN := fun h => h.1 rfl
  have A : ∀ f : Frustum (Ieee ℝ p emax), f.contains id ⟨nan, nan, nan⟩ = true := fun f =>
    (C151_frustum id rfl f _ ⟨⟨nan, nan, nan⟩, nan⟩).1 n
  refine ⟨fun h => ?_, A, fun s => ?_, fun b M hM => (C151_rays M hM b ⟨⟨0, 0⟩, ⟨0, 0⟩⟩).1⟩
  · have f : Frustum (Ieee ℝ p emax) := ⟨fun _ => ⟨0, 0, 0⟩, fun _ => ⟨⟨0, 0, 0⟩, 0⟩⟩
    have := h.1 f _ n
    rw [A f] at this
    exact absurd this (by decide)
  · exact ((C151_intersects ⟨⟨0, 0⟩, 0⟩ ⟨⟨0, 0⟩, 0⟩ s ⟨⟨nan, nan, nan⟩, 1⟩).2 fun h => n h.2.2.1).1

/-- a ray with a NaN in one coordinate only -/
example : ((nan : Ieee ℝ 24 127) = nan ∨ (1 : Ieee ℝ 24 127) = nan) ∧ ¬ (.num 100 : Ieee ℝ 24 127) < 0 :=
  ⟨Or.inl rfl, by rw [lt_fin rfl rfl]; norm_num⟩

end MathLib
