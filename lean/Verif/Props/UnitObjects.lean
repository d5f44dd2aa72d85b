import Verif.Proof.VecLemmas
import Verif.Model.UnitObjects
import Verif.Spec.FloatReal
import Mathlib.Tactic.FinCases

/-! # C147: the unit box, circle and sphere -/

namespace MathLib

/-- The unit boxes: side 1, around the origin, in both representations. -/
theorem C147_boxes (p : Vec2 ℝ) (q : Vec3 ℝ) :
    (AABB2.one.contains p = true ↔ |p.x| ≤ 1 / 2 ∧ |p.y| ≤ 1 / 2) ∧
    (CAABB2.one.contains p = true ↔ |p.x| ≤ 1 / 2 ∧ |p.y| ≤ 1 / 2) ∧
    (AABB3.one.contains q = true ↔ |q.x| ≤ 1 / 2 ∧ |q.y| ≤ 1 / 2 ∧ |q.z| ≤ 1 / 2) ∧
    (CAABB3.one.contains q = true ↔ |q.x| ≤ 1 / 2 ∧ |q.y| ≤ 1 / 2 ∧ |q.z| ≤ 1 / 2) := by
  simp only [AABB2.contains, CAABB2.contains, AABB3.contains, CAABB3.contains, Bool.and_eq_true, decide_eq_true_eq]
  simp only [AABB2.one, CAABB2.one, AABB3.one, CAABB3.one, CAABB2.ofCenterSize, CAABB3.ofCenterSize, abs_le,
    ge_iff_le, Vec2.mul_x, Vec2.mul_y, Vec3.mul_x, Vec3.mul_y, Vec3.mul_z, one_mul, zero_sub, zero_add]
  tauto

/-- The two representations of the unit box convert into each other, and the centre is the origin. -/
theorem C147_conversions :
    AABB2.ofCBox (CAABB2.one : CAABB2 ℝ) = AABB2.one ∧ CAABB2.ofBox (AABB2.one : AABB2 ℝ) = CAABB2.one ∧
    AABB3.ofCBox (CAABB3.one : CAABB3 ℝ) = AABB3.one ∧ CAABB3.ofBox (AABB3.one : AABB3 ℝ) = CAABB3.one ∧
    (AABB2.one : AABB2 ℝ).area = 1 ∧ (AABB2.one : AABB2 ℝ).center = ⟨0, 0⟩ ∧
    (AABB3.one : AABB3 ℝ).volume = 1 ∧ (AABB3.one : AABB3 ℝ).center = ⟨0, 0, 0⟩ := by
  norm_num [AABB2.ofCBox, AABB3.ofCBox, CAABB2.ofBox, CAABB3.ofBox, AABB2.one, AABB3.one, CAABB2.one, CAABB3.one,
    CAABB2.ofCenterSize, CAABB3.ofCenterSize, CAABB2.inf, CAABB2.sup, CAABB3.inf, CAABB3.sup, AABB2.area,
    AABB2.center, AABB3.volume, AABB3.center, AABB2.ext_iff, AABB3.ext_iff, CAABB2.ext_iff, CAABB3.ext_iff,
    Vec2.ext_iff, Vec3.ext_iff]

/-- The unit circle and sphere are defined, contain exactly what is at most 1 from the origin; a ball around
the origin is in the unit box exactly if its radius is at most 1/2. -/
theorem C147_balls (p : Vec2 ℝ) (q : Vec3 ℝ) :
    (∃ c : Circle ℝ, Circle.one = .ok c ∧ (c.contains p = true ↔ p.x ^ 2 + p.y ^ 2 ≤ 1)) ∧
    (∃ s : Sphere ℝ, Sphere.one = .ok s ∧ (s.contains q = true ↔ q.x ^ 2 + q.y ^ 2 + q.z ^ 2 ≤ 1) ∧
      ∀ k, 0 ≤ k → ∃ t, s.mul k = .ok t ∧ (AABB3.one.containsSphere t = true ↔ k ≤ 1 / 2)) := by
  refine ⟨⟨⟨⟨0, 0⟩, 1⟩, by simp [Circle.one, Circle.mk'], ?_⟩,
    ⟨⟨⟨0, 0, 0⟩, 1⟩, by simp [Sphere.one, Sphere.mk'], ?_, fun k hk => ⟨⟨⟨0, 0, 0⟩, k⟩, ?_, ?_⟩⟩⟩
  · simp [Circle.contains, distance2, sq, Real.sqrt_le_one]
  · simp [Sphere.contains, distance3, sq]
  · simp [Sphere.mul, Sphere.mk', hk]
  · simp only [AABB3.containsSphere, Bool.and_eq_true, decide_eq_true_eq]
    simp only [AABB3.one]
    constructor
    · intro h; linarith [h.1.1.2]
    · intro h; refine ⟨⟨⟨?_, ?_⟩, ?_, ?_⟩, ?_, ?_⟩ <;> linarith

example : (∃ s t : Sphere ℝ, Sphere.one = .ok s ∧ s.mul (1 / 2) = .ok t ∧ AABB3.one.containsSphere t = true) ∧
    ∃ s t : Sphere ℝ, Sphere.one = .ok s ∧ s.mul 1 = .ok t ∧ ¬ AABB3.one.containsSphere t = true := by
  obtain ⟨-, s, hs, -, h⟩ := C147_balls ⟨0, 0⟩ ⟨0, 0, 0⟩
  obtain ⟨t, ht, h1⟩ := h (1 / 2) (by norm_num)
  obtain ⟨u, hu, h2⟩ := h 1 (by norm_num)
  exact ⟨⟨s, t, hs, ht, h1.mpr le_rfl⟩, s, u, hs, hu, fun hc => by have := h2.mp hc; norm_num at this⟩

end MathLib
