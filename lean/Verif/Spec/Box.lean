import Verif.Model.Box
import Verif.Spec.VecSpec
import Mathlib.Order.Defs.LinearOrder
import Mathlib.Data.Set.Defs

/-! # Point sets of boxes and balls, point arrays in memory -/

namespace MathLib
variable {K : Type}

/-- the points between the two corners -/
def AABB2.toSet [LE K] (b : AABB2 K) : Set (Vec2 K) :=
  {p | (b.inf.x ≤ p.x ∧ p.x ≤ b.sup.x) ∧ (b.inf.y ≤ p.y ∧ p.y ≤ b.sup.y)}
def AABB3.toSet [LE K] (b : AABB3 K) : Set (Vec3 K) :=
  {p | (b.inf.x ≤ p.x ∧ p.x ≤ b.sup.x) ∧ (b.inf.y ≤ p.y ∧ p.y ≤ b.sup.y) ∧
    (b.inf.z ≤ p.z ∧ p.z ≤ b.sup.z)}
/-- the points at most the half-sizes away from the centre -/
def CAABB2.toSet [LE K] [Add K] [Sub K] (b : CAABB2 K) : Set (Vec2 K) :=
  {p | (b.center.x - b.extents.x ≤ p.x ∧ p.x ≤ b.center.x + b.extents.x) ∧
    (b.center.y - b.extents.y ≤ p.y ∧ p.y ≤ b.center.y + b.extents.y)}
def CAABB3.toSet [LE K] [Add K] [Sub K] (b : CAABB3 K) : Set (Vec3 K) :=
  {p | (b.center.x - b.extents.x ≤ p.x ∧ p.x ≤ b.center.x + b.extents.x) ∧
    (b.center.y - b.extents.y ≤ p.y ∧ p.y ≤ b.center.y + b.extents.y) ∧
    (b.center.z - b.extents.z ≤ p.z ∧ p.z ≤ b.center.z + b.extents.z)}

/-- a box whose corners are in order -/
def AABB2.Valid [LE K] (b : AABB2 K) : Prop := b.inf.x ≤ b.sup.x ∧ b.inf.y ≤ b.sup.y
def AABB3.Valid [LE K] (b : AABB3 K) : Prop :=
  b.inf.x ≤ b.sup.x ∧ b.inf.y ≤ b.sup.y ∧ b.inf.z ≤ b.sup.z
def CAABB2.Valid [LE K] [Zero K] (b : CAABB2 K) : Prop := 0 ≤ b.extents.x ∧ 0 ≤ b.extents.y
def CAABB3.Valid [LE K] [Zero K] (b : CAABB3 K) : Prop :=
  0 ≤ b.extents.x ∧ 0 ≤ b.extents.y ∧ 0 ≤ b.extents.z

/-- the closed disc / ball in the Euclidean metric -/
def Circle.toSet (s : Circle ℝ) : Set (Vec2 ℝ) := {p | dist p.toE s.center.toE ≤ s.radius}
def Sphere.toSet (s : Sphere ℝ) : Set (Vec3 ℝ) := {p | dist p.toE s.center.toE ≤ s.radius}

/-- `p 0, …, p (count-1)` lie in memory at `a`, `a + stride`, … (`stride` in bytes, possibly negative) -/
def Mem.PointsAt2 (mem : Mem K) (a : ℕ) (stride : ℤ) (count : ℕ) (p : ℕ → Vec2 K) : Prop :=
  ∀ i < count, ∃ b : ℕ, (b : ℤ) = a + i * stride ∧
    (mem.alloc b = true ∧ mem.val b = some (p i).x) ∧
    (mem.alloc (b + mem.sz) = true ∧ mem.val (b + mem.sz) = some (p i).y)
def Mem.PointsAt3 (mem : Mem K) (a : ℕ) (stride : ℤ) (count : ℕ) (p : ℕ → Vec3 K) : Prop :=
  ∀ i < count, ∃ b : ℕ, (b : ℤ) = a + i * stride ∧
    (mem.alloc b = true ∧ mem.val b = some (p i).x) ∧
    (mem.alloc (b + mem.sz) = true ∧ mem.val (b + mem.sz) = some (p i).y) ∧
    (mem.alloc (b + 2 * mem.sz) = true ∧ mem.val (b + 2 * mem.sz) = some (p i).z)

end MathLib
