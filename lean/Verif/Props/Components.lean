import Verif.Spec.Components
import Verif.Spec.Box
import Verif.Spec.RealInst
import Verif.Proof.BallLemmas
import Verif.Model.Mat34
import Verif.Model.Mat4
import Mathlib.Algebra.Order.Field.Basic
import Mathlib.Tactic.Ring
import Mathlib.Tactic.FinCases
import Mathlib.Tactic.Linarith

/-! # Properties C105-C108: components, componentwise minimum and maximum, distances, equality of
compound objects -/

namespace MathLib

/-! ## C105 -/

/-- Reading by coordinate: the named component, a failed assertion where there is none. -/
theorem C105_get {R : Type} (c : Coord) :
    (∀ v : Vec2 R, v.get c = orAssert (v.comp? c)) ∧ (∀ v : Vec3 R, v.get c = orAssert (v.comp? c)) ∧
    (∀ v : Vec2 R, (v.comp? c).isSome ↔ c = .X ∨ c = .Y) ∧
    (∀ v : Vec3 R, (v.comp? c).isSome ↔ c = .X ∨ c = .Y ∨ c = .Z) := by
  refine ⟨fun v => by cases c <;> rfl, fun v => by cases c <;> rfl, fun v => ?_, fun v => ?_⟩
  · cases c <;> simp [Vec2.comp?]
  · cases c <;> simp [Vec3.comp?]

/-- Writing by coordinate: succeeds exactly where there is such a component; afterwards that component
is the new value, the others are unchanged. -/
theorem C105_set {R : Type} (c : Coord) (k : R) :
    (∀ v : Vec2 R, (v.comp? c = none → v.setCoord c k = .error .assertion) ∧
      (v.comp? c ≠ none → ∃ w, v.setCoord c k = .ok w ∧ w.comp? c = some k ∧
        ∀ c', c' ≠ c → w.comp? c' = v.comp? c')) ∧
    (∀ v : Vec3 R, (v.comp? c = none → v.setCoord c k = .error .assertion) ∧
      (v.comp? c ≠ none → ∃ w, v.setCoord c k = .ok w ∧ w.comp? c = some k ∧
        ∀ c', c' ≠ c → w.comp? c' = v.comp? c')) ∧
    (∀ v : Vec4 R, (v.comp? c = none → v.setCoord c k = .error .assertion) ∧
      (v.comp? c ≠ none → ∃ w, v.setCoord c k = .ok w ∧ w.comp? c = some k ∧
        ∀ c', c' ≠ c → w.comp? c' = v.comp? c')) := by
  refine ⟨fun v => ⟨?_, ?_⟩, fun v => ⟨?_, ?_⟩, fun v => ⟨?_, ?_⟩⟩ <;>
    cases c <;>
    simp only [Vec2.comp?, Vec3.comp?, Vec4.comp?, reduceCtorEq, ne_eq, not_true_eq_false,
      false_implies, not_false_eq_true, forall_const] <;>
    first
      | trivial
      | rfl
      | (refine ⟨_, rfl, rfl, fun c' h => ?_⟩; cases c' <;> first | rfl | exact absurd rfl h)

/-- Components determine the vector. -/
theorem C105_ext {R : Type} :
    (∀ v w : Vec2 R, (∀ c, v.comp? c = w.comp? c) → v = w) ∧
    (∀ v w : Vec3 R, (∀ c, v.comp? c = w.comp? c) → v = w) ∧
    (∀ v w : Vec4 R, (∀ c, v.comp? c = w.comp? c) → v = w) := by
  refine ⟨fun v w h => ?_, fun v w h => ?_, fun v w h => ?_⟩
  · exact Vec2.ext (Option.some.inj (h .X)) (Option.some.inj (h .Y))
  · exact Vec3.ext (Option.some.inj (h .X)) (Option.some.inj (h .Y)) (Option.some.inj (h .Z))
  · exact Vec4.ext (Option.some.inj (h .X)) (Option.some.inj (h .Y)) (Option.some.inj (h .Z))
      (Option.some.inj (h .W))

/-- `moved(c, k)` adds `k` to component `c` and nothing else; a coordinate the vector does not have
leaves it as it is (no assertion). -/
theorem C105_moved {R : Type} [Add R] (c : Coord) (k : R) :
    (∀ v : Vec2 R, ((v.moved c k).comp? c = (v.comp? c).map (· + k)) ∧
      ∀ c', c' ≠ c → (v.moved c k).comp? c' = v.comp? c') ∧
    (∀ v : Vec3 R, ((v.moved c k).comp? c = (v.comp? c).map (· + k)) ∧
      ∀ c', c' ≠ c → (v.moved c k).comp? c' = v.comp? c') ∧
    (∀ v : Vec4 R, ((v.moved c k).comp? c = (v.comp? c).map (· + k)) ∧
      ∀ c', c' ≠ c → (v.moved c k).comp? c' = v.comp? c') := by
  refine ⟨fun v => ⟨?_, fun c' h => ?_⟩, fun v => ⟨?_, fun c' h => ?_⟩, fun v => ⟨?_, fun c' h => ?_⟩⟩
  · cases c <;> rfl
  · cases c <;> cases c' <;> first | rfl | exact absurd rfl h
  · cases c <;> rfl
  · cases c <;> cases c' <;> first | rfl | exact absurd rfl h
  · cases c <;> rfl
  · cases c <;> cases c' <;> first | rfl | exact absurd rfl h

/-- Columns of matrices by coordinate.  The translation column of a `Mat4` is not reachable this way:
`Coord::W` fails the assertion. -/
theorem C105_columns {R : Type} (c : Coord) :
    (∀ m : Mat34 R, m.get c = orAssert (match c with
      | .X => some m.rs.x | .Y => some m.rs.y | .Z => some m.rs.z | _ => none)) ∧
    (∀ m : Mat4 R, m.get c = orAssert (match c with
      | .X => some m.x | .Y => some m.y | .Z => some m.z | _ => none)) := by
  constructor <;> intro m <;> cases c <;> rfl

/-- `Vec(k)` has all components `k`, the unit vectors a single 1. -/
theorem C105_constants {R : Type} [Zero R] [One R] (k : R) :
    (∀ c, ((Vec2.ofScalar k).comp? c = none ∨ (Vec2.ofScalar k).comp? c = some k) ∧
      ((Vec3.ofScalar k).comp? c = none ∨ (Vec3.ofScalar k).comp? c = some k) ∧
      (Vec4.ofScalar k).comp? c = if c = .Undefined then none else some k) ∧
    ((Vec2.oneX : Vec2 R).toFn = Pi.single 0 1 ∧ (Vec2.oneY : Vec2 R).toFn = Pi.single 1 1) ∧
    ((Vec3.oneX : Vec3 R).toFn = Pi.single 0 1 ∧ (Vec3.oneY : Vec3 R).toFn = Pi.single 1 1 ∧
      (Vec3.oneZ : Vec3 R).toFn = Pi.single 2 1) ∧
    ((Vec4.oneXnw : Vec4 R).toFn = Pi.single 0 1 ∧ (Vec4.oneYnw : Vec4 R).toFn = Pi.single 1 1 ∧
      (Vec4.oneZnw : Vec4 R).toFn = Pi.single 2 1 ∧ (Vec4.oneW : Vec4 R).toFn = Pi.single 3 1) := by
  refine ⟨fun c => ⟨?_, ?_, ?_⟩, ⟨?_, ?_⟩, ⟨?_, ?_, ?_⟩, ⟨?_, ?_, ?_, ?_⟩⟩
  · cases c <;> simp [Vec2.ofScalar, Vec2.comp?]
  · cases c <;> simp [Vec3.ofScalar, Vec3.comp?]
  · cases c <;> rfl
  all_goals
    ext i
    fin_cases i <;> simp [Vec2.toFn, Vec3.toFn, Vec4.toFn, Vec2.oneX, Vec2.oneY, Vec3.oneX, Vec3.oneY,
      Vec3.oneZ, Vec4.oneXnw, Vec4.oneYnw, Vec4.oneZnw, Vec4.oneW]

/-- The constants `Zero` and `One` of the matrix classes and `setIdentity`: every entry, and flags that are
true of the entries.  The last column of `Mat4(k)` is that of the identity. -/
theorem C105_matrix_constants {R : Type} [Zero R] [One R] [BEq R] [LawfulBEq R] (h01 : (0 : R) ≠ 1) (k : R) :
    ((Mat2.one : Mat2 R) = Mat2.setIdentity ∧ (Mat3.one : Mat3 R) = Mat3.setIdentity ∧
      (Mat34.one : Mat34 R) = Mat34.setIdentity ∧ (Mat4.one : Mat4 R) = Mat4.setIdentity) ∧
    ((Mat2.one : Mat2 R).isIdentity ∧ (Mat2.one : Mat2 R).isNormal ∧ (Mat2.one : Mat2 R).isOrthogonal ∧
      (Mat2.one : Mat2 R).isInitialized) ∧
    ((Mat3.one : Mat3 R).isIdentity ∧ (Mat3.one : Mat3 R).isNormal ∧ (Mat3.one : Mat3 R).isOrthogonal ∧
      (Mat3.one : Mat3 R).isInitialized) ∧
    ((Mat4.one : Mat4 R).isIdentity ∧ (Mat4.one : Mat4 R).isNormal ∧ (Mat4.one : Mat4 R).isOrthogonal ∧
      (Mat4.one : Mat4 R).isTrs ∧ (Mat4.one : Mat4 R).isInitialized) ∧
    ((Mat2.ofScalar k).isIdentity = true ↔ k = 1) ∧ ((Mat3.ofScalar k).isIdentity = true ↔ k = 1) ∧
    ((Mat4.ofScalar k).isIdentity = true ↔ k = 1) ∧ ((Mat4.ofScalar k).isNormal = true ↔ k = 1) ∧
    (Mat4.ofScalar k).isOrthogonal ∧ (Mat4.ofScalar k).t = ⟨0, 0, 0, 1⟩ ∧
    (Mat2.zero : Mat2 R).isIdentity = false ∧ (Mat3.zero : Mat3 R).isIdentity = false := by
  simp [Mat2.one, Mat3.one, Mat4.one, Mat34.one, Mat2.ofScalar, Mat3.ofScalar, Mat4.ofScalar, Vec3.zero,
    Mat2.setIdentity, Mat3.setIdentity, Mat4.setIdentity, Mat34.setIdentity, Mat2.isIdentity, Mat2.isNormal,
    Mat2.isOrthogonal, Mat2.isInitialized, Mat3.isIdentity, Mat3.isNormal, Mat3.isOrthogonal,
    Mat3.isInitialized, Mat4.isIdentity, Mat4.isNormal, Mat4.isOrthogonal, Mat4.isTrs, Mat4.isInitialized,
    Mat2.zero, Mat3.zero, h01, Vec2.oneX, Vec2.oneY, Vec3.oneX, Vec3.oneY, Vec3.oneZ]

/-- The four-component `OneX`, `OneY`, `OneZ` are points (`w = 1`) over the three-dimensional unit
vectors, their `nw` variants directions (`w = 0`). -/
theorem C105_points {R : Type} [Zero R] [One R] :
    (Vec4.oneX : Vec4 R) = Vec4.ofVec3 Vec3.oneX 1 ∧ (Vec4.oneY : Vec4 R) = Vec4.ofVec3 Vec3.oneY 1 ∧
    (Vec4.oneZ : Vec4 R) = Vec4.ofVec3 Vec3.oneZ 1 ∧
    (Vec4.oneXnw : Vec4 R) = Vec4.ofVec3 Vec3.oneX 0 ∧ (Vec4.oneYnw : Vec4 R) = Vec4.ofVec3 Vec3.oneY 0 ∧
    (Vec4.oneZnw : Vec4 R) = Vec4.ofVec3 Vec3.oneZ 0 ∧
    (∀ (v : Vec3 R) (w : R), (Vec4.ofVec3 v w).toVec3 = v ∧ (Vec4.ofVec3 v w).comp? .W = some w) :=
  ⟨rfl, rfl, rfl, rfl, rfl, rfl, fun _ _ => ⟨rfl, rfl⟩⟩

example : (0 : Int) ≠ 1 ∧ (Mat4.ofScalar 3 : Mat4 Int).isIdentity = false := by decide
example : (⟨1, 2, 3⟩ : Vec3 Int).setCoord .Y 7 = .ok ⟨1, 7, 3⟩ := rfl
example : (⟨1, 2⟩ : Vec2 Int).setCoord .Z 7 = .error .assertion := rfl

/-! ## C106 -/

section
variable {K : Type} [LinearOrder K]

/-- `min` and `max` of vectors are the greatest lower and least upper bounds in the componentwise
order, for every linear order of scalars. -/
theorem C106_minmax :
    (∀ a b c : Vec2 K, (∀ i, c.toFn i ≤ (a.min b).toFn i) ↔
        (∀ i, c.toFn i ≤ a.toFn i) ∧ ∀ i, c.toFn i ≤ b.toFn i) ∧
    (∀ a b c : Vec2 K, (∀ i, (a.max b).toFn i ≤ c.toFn i) ↔
        (∀ i, a.toFn i ≤ c.toFn i) ∧ ∀ i, b.toFn i ≤ c.toFn i) ∧
    (∀ a b c : Vec3 K, (∀ i, c.toFn i ≤ (a.min b).toFn i) ↔
        (∀ i, c.toFn i ≤ a.toFn i) ∧ ∀ i, c.toFn i ≤ b.toFn i) ∧
    (∀ a b c : Vec3 K, (∀ i, (a.max b).toFn i ≤ c.toFn i) ↔
        (∀ i, a.toFn i ≤ c.toFn i) ∧ ∀ i, b.toFn i ≤ c.toFn i) ∧
    (∀ a b c : Vec4 K, (∀ i, c.toFn i ≤ (a.min b).toFn i) ↔
        (∀ i, c.toFn i ≤ a.toFn i) ∧ ∀ i, c.toFn i ≤ b.toFn i) ∧
    (∀ a b c : Vec4 K, (∀ i, (a.max b).toFn i ≤ c.toFn i) ↔
        (∀ i, a.toFn i ≤ c.toFn i) ∧ ∀ i, b.toFn i ≤ c.toFn i) := by
  have hmin : ∀ a b c : K, c ≤ min' a b ↔ c ≤ a ∧ c ≤ b := by
    intro a b c; unfold min'; split_ifs with h
    · exact ⟨fun k => ⟨k, k.trans h.le⟩, fun k => k.1⟩
    · exact ⟨fun k => ⟨k.trans (not_lt.1 h), k⟩, fun k => k.2⟩
  have hmax : ∀ a b c : K, max' a b ≤ c ↔ a ≤ c ∧ b ≤ c := by
    intro a b c; unfold max'; split_ifs with h
    · exact ⟨fun k => ⟨k, h.le.trans k⟩, fun k => k.1⟩
    · exact ⟨fun k => ⟨(not_lt.1 h).trans k, k⟩, fun k => k.2⟩
  refine ⟨?_, ?_, ?_, ?_, ?_, ?_⟩ <;> intro a b c <;>
    simp only [Vec2.toFn, Vec3.toFn, Vec4.toFn, Fin.forall_fin_succ, Fin.forall_fin_zero,
      Matrix.cons_val_zero, Matrix.cons_val_succ, Vec2.min, Vec2.max, Vec3.min, Vec3.max, Vec4.min,
      Vec4.max, hmin, hmax, and_true] <;> tauto
end

/-- `product` multiplies componentwise: `Vec(1)` is neutral, `Vec(k)` scales, the sum of the components
is the dot product. -/
theorem C106_product {K : Type} [CommRing K] (k : K) :
    (∀ a b : Vec2 K, (∀ i, (a.product b).toFn i = a.toFn i * b.toFn i) ∧
      a.product (Vec2.ofScalar k) = a * k ∧ ∑ i, (a.product b).toFn i = a.dot b) ∧
    (∀ a b : Vec3 K, (∀ i, (a.product b).toFn i = a.toFn i * b.toFn i) ∧
      a.product (Vec3.ofScalar k) = a * k ∧ ∑ i, (a.product b).toFn i = a.dot b) ∧
    (∀ a b : Vec4 K, (∀ i, (a.product b).toFn i = a.toFn i * b.toFn i) ∧
      a.product ⟨k, k, k, k⟩ = a * k ∧ ∑ i, (a.product b).toFn i = a.dot b) := by
  refine ⟨fun a b => ⟨fun i => ?_, rfl, ?_⟩, fun a b => ⟨fun i => ?_, rfl, ?_⟩,
    fun a b => ⟨fun i => ?_, rfl, ?_⟩⟩
  · fin_cases i <;> rfl
  · simp [Vec2.toFn, Vec2.product, Vec2.dot]
  · fin_cases i <;> rfl
  · simp [Vec3.toFn, Vec3.product, Vec3.dot, Fin.sum_univ_succ, add_assoc]
  · fin_cases i <;> rfl
  · simp [Vec4.toFn, Vec4.product, Vec4.dot, Fin.sum_univ_succ, add_assoc]

/-- Adding or subtracting a `Vec3` moves the point part of a `Vec4` and keeps `w`. -/
theorem C106_vec4 {K : Type} [Add K] [Sub K] (a : Vec4 K) (u : Vec3 K) :
    (a.addVec3 u).toVec3 = a.toVec3 + u ∧ (a.addVec3 u).w = a.w ∧
    (a.subVec3 u).toVec3 = a.toVec3 - u ∧ (a.subVec3 u).w = a.w := ⟨rfl, rfl, rfl, rfl⟩

example : (⟨1, 5⟩ : Vec2 Int).min ⟨3, 2⟩ = ⟨1, 2⟩ ∧ (⟨1, 5⟩ : Vec2 Int).max ⟨3, 2⟩ = ⟨3, 5⟩ := by
  decide +kernel

/-! ## C107 -/

/-- `distance` and `distanceSqr` are the Euclidean distance and its square. -/
theorem C107_distance :
    (∀ a b : Vec2 ℝ, distance2 a b = dist a.toE b.toE ∧ distanceSqr2 a b = dist a.toE b.toE ^ 2) ∧
    (∀ a b : Vec3 ℝ, distance3 a b = dist a.toE b.toE ∧ distanceSqr3 a b = dist a.toE b.toE ^ 2) := by
  refine ⟨fun a b => ⟨distance2_eq a b, ?_⟩, fun a b => ⟨distance3_eq a b, ?_⟩⟩
  · rw [← distance2_eq, distance2, distanceSqr2]
    simp only [real_sqrt]
    rw [Real.sq_sqrt (by nlinarith [mul_self_nonneg (a.x - b.x), mul_self_nonneg (a.y - b.y)])]
  · rw [← distance3_eq, distance3, distanceSqr3]
    simp only [real_sqrt]
    rw [Real.sq_sqrt (by nlinarith [mul_self_nonneg (a.x - b.x), mul_self_nonneg (a.y - b.y)])]

/-! ## C108 -/

/-- `!=` is the complement of `==` for every compound object, whatever the scalars (NaNs included). -/
theorem C108_ne {R : Type} [BEq R] :
    (∀ a b : AABB2 R, a.ne b = !a.eq b) ∧ (∀ a b : AABB3 R, a.ne b = !a.eq b) ∧
    (∀ a b : CAABB2 R, a.ne b = !a.eq b) ∧ (∀ a b : CAABB3 R, a.ne b = !a.eq b) ∧
    (∀ a b : Circle R, a.ne b = !a.eq b) ∧ (∀ a b : Sphere R, a.ne b = !a.eq b) ∧
    (∀ a b : Plane R, a.ne b = !a.eq b) ∧ (∀ a b : Quat R, a.ne b = !a.eq b) ∧
    (∀ a b : Line2 R, a.ne b = !a.eq b) ∧ (∀ a b : Line3 R, a.ne b = !a.eq b) ∧
    (∀ a b : Ray2 R, a.ne b = !a.eq b) ∧ (∀ a b : Ray3 R, a.ne b = !a.eq b) ∧
    (∀ a b : Tri2 R, a.ne b = !a.eq b) := by
  have h2 : ∀ u v : Vec2 R, u.ne v = !u.eq v := fun u v => by
    simp [Vec2.ne, Vec2.eq, bne, Bool.not_and]
  have h3 : ∀ u v : Vec3 R, u.ne v = !u.eq v := fun u v => by
    simp [Vec3.ne, Vec3.eq, bne, Bool.not_and]
  refine ⟨?_, ?_, ?_, ?_, ?_, ?_, ?_, ?_, ?_, ?_, ?_, ?_, ?_⟩ <;> intro a b <;>
    simp [AABB2.ne, AABB2.eq, AABB3.ne, AABB3.eq, CAABB2.ne, CAABB2.eq, CAABB3.ne, CAABB3.eq,
      Circle.ne, Circle.eq, Sphere.ne, Sphere.eq, Plane.ne, Plane.eq, Quat.ne, Quat.eq, Line2.ne,
      Line2.eq, Line3.ne, Line3.eq, Ray2.ne, Ray2.eq, Ray3.ne, Ray3.eq, Tri2.ne, Tri2.eq, h2, h3, bne,
      Bool.not_and]

/-- Where the scalar comparison is an equality test (no NaN), `==` of compound objects is equality. -/
theorem C108_eq {R : Type} [BEq R] [LawfulBEq R] :
    (∀ a b : AABB2 R, a.eq b = true ↔ a = b) ∧ (∀ a b : AABB3 R, a.eq b = true ↔ a = b) ∧
    (∀ a b : CAABB2 R, a.eq b = true ↔ a = b) ∧ (∀ a b : CAABB3 R, a.eq b = true ↔ a = b) ∧
    (∀ a b : Circle R, a.eq b = true ↔ a = b) ∧ (∀ a b : Sphere R, a.eq b = true ↔ a = b) ∧
    (∀ a b : Plane R, a.eq b = true ↔ a = b) ∧ (∀ a b : Quat R, a.eq b = true ↔ a = b) ∧
    (∀ a b : Line2 R, a.eq b = true ↔ a = b) ∧ (∀ a b : Line3 R, a.eq b = true ↔ a = b) ∧
    (∀ a b : Ray2 R, a.eq b = true ↔ a = b) ∧ (∀ a b : Ray3 R, a.eq b = true ↔ a = b) ∧
    (∀ a b : Tri2 R, a.eq b = true ↔ a = b) := by
  have h2 : ∀ u v : Vec2 R, u.eq v = true ↔ u = v := fun u v => by simp [Vec2.eq, Vec2.ext_iff]
  have h3 : ∀ u v : Vec3 R, u.eq v = true ↔ u = v := fun u v => by
    simp [Vec3.eq, Vec3.ext_iff, and_assoc]
  refine ⟨?_, ?_, ?_, ?_, ?_, ?_, ?_, ?_, ?_, ?_, ?_, ?_, ?_⟩ <;>
    (intro a b; cases a; cases b;
     simp [AABB2.eq, AABB3.eq, CAABB2.eq, CAABB3.eq, Circle.eq, Sphere.eq, Plane.eq, Quat.eq, Line2.eq,
      Line3.eq, Ray2.eq, Ray3.eq, Tri2.eq, h2, h3, and_assoc])

/-- `isNull` of a valid box: the box is a single point. -/
theorem C108_isNull :
    (∀ b : AABB2 ℝ, b.Valid → (b.isNull = true ↔ ∃ p, b.toSet = {p})) ∧
    (∀ b : AABB3 ℝ, b.Valid → (b.isNull = true ↔ ∃ p, b.toSet = {p})) ∧
    (∀ b : CAABB2 ℝ, b.Valid → (b.isNull = true ↔ ∃ p, b.toSet = {p})) ∧
    (∀ b : CAABB3 ℝ, b.Valid → (b.isNull = true ↔ ∃ p, b.toSet = {p})) := by
  refine ⟨fun b hb => ?_, fun b hb => ?_, fun b hb => ?_, fun b hb => ?_⟩
  · obtain ⟨h1, h2⟩ := hb
    simp only [AABB2.isNull, Vec2.eq, Bool.and_eq_true, beq_iff_eq]
    constructor
    · rintro ⟨e1, e2⟩
      refine ⟨b.inf, Set.ext fun p => ⟨?_, ?_⟩⟩
      · rintro ⟨⟨a1, a2⟩, a3, a4⟩
        exact Vec2.ext (by linarith) (by linarith)
      · rintro rfl
        exact ⟨⟨le_rfl, h1⟩, le_rfl, h2⟩
    · rintro ⟨p, hp⟩
      have i1 : b.inf ∈ b.toSet := ⟨⟨le_rfl, h1⟩, le_rfl, h2⟩
      have i2 : b.sup ∈ b.toSet := ⟨⟨h1, le_rfl⟩, h2, le_rfl⟩
      rw [hp] at i1 i2
      have : b.sup = b.inf := (Set.mem_singleton_iff.1 i2).trans (Set.mem_singleton_iff.1 i1).symm
      rw [this]; exact ⟨rfl, rfl⟩
  · obtain ⟨h1, h2, h3⟩ := hb
    simp only [AABB3.isNull, Vec3.eq, Bool.and_eq_true, beq_iff_eq]
    constructor
    · rintro ⟨⟨e1, e2⟩, e3⟩
      refine ⟨b.inf, Set.ext fun p => ⟨?_, ?_⟩⟩
      · rintro ⟨⟨a1, a2⟩, ⟨a3, a4⟩, a5, a6⟩
        exact Vec3.ext (by linarith) (by linarith) (by linarith)
      · rintro rfl
        exact ⟨⟨le_rfl, h1⟩, ⟨le_rfl, h2⟩, le_rfl, h3⟩
    · rintro ⟨p, hp⟩
      have i1 : b.inf ∈ b.toSet := ⟨⟨le_rfl, h1⟩, ⟨le_rfl, h2⟩, le_rfl, h3⟩
      have i2 : b.sup ∈ b.toSet := ⟨⟨h1, le_rfl⟩, ⟨h2, le_rfl⟩, h3, le_rfl⟩
      rw [hp] at i1 i2
      have : b.sup = b.inf := (Set.mem_singleton_iff.1 i2).trans (Set.mem_singleton_iff.1 i1).symm
      rw [this]; exact ⟨⟨rfl, rfl⟩, rfl⟩
  · obtain ⟨h1, h2⟩ := hb
    simp only [CAABB2.isNull, Vec2.isNull, Bool.and_eq_true, beq_iff_eq]
    constructor
    · rintro ⟨e1, e2⟩
      refine ⟨b.center, Set.ext fun p => ⟨?_, ?_⟩⟩
      · rintro ⟨⟨a1, a2⟩, a3, a4⟩
        exact Vec2.ext (by linarith) (by linarith)
      · rintro rfl
        exact ⟨⟨by linarith, by linarith⟩, by linarith, by linarith⟩
    · rintro ⟨p, hp⟩
      have i1 : b.center ∈ b.toSet := ⟨⟨by linarith, by linarith⟩, by linarith, by linarith⟩
      have i2 : b.center + b.extents ∈ b.toSet :=
        ⟨⟨by simp; linarith, by simp⟩, by simp; linarith, by simp⟩
      rw [hp] at i1 i2
      have e : b.center + b.extents = b.center :=
        (Set.mem_singleton_iff.1 i2).trans (Set.mem_singleton_iff.1 i1).symm
      have ex := congrArg Vec2.x e
      have ey := congrArg Vec2.y e
      simp at ex ey
      exact ⟨ex, ey⟩
  · obtain ⟨h1, h2, h3⟩ := hb
    simp only [CAABB3.isNull, Vec3.isNull, Bool.and_eq_true, beq_iff_eq]
    constructor
    · rintro ⟨⟨e1, e2⟩, e3⟩
      refine ⟨b.center, Set.ext fun p => ⟨?_, ?_⟩⟩
      · rintro ⟨⟨a1, a2⟩, ⟨a3, a4⟩, a5, a6⟩
        exact Vec3.ext (by linarith) (by linarith) (by linarith)
      · rintro rfl
        exact ⟨⟨by linarith, by linarith⟩, ⟨by linarith, by linarith⟩, by linarith, by linarith⟩
    · rintro ⟨p, hp⟩
      have i1 : b.center ∈ b.toSet :=
        ⟨⟨by linarith, by linarith⟩, ⟨by linarith, by linarith⟩, by linarith, by linarith⟩
      have i2 : b.center + b.extents ∈ b.toSet :=
        ⟨⟨by simp; linarith, by simp⟩, ⟨by simp; linarith, by simp⟩, by simp; linarith, by simp⟩
      rw [hp] at i1 i2
      have e : b.center + b.extents = b.center :=
        (Set.mem_singleton_iff.1 i2).trans (Set.mem_singleton_iff.1 i1).symm
      have ex := congrArg Vec3.x e
      have ey := congrArg Vec3.y e
      have ez := congrArg Vec3.z e
      simp at ex ey ez
      exact ⟨⟨ex, ey⟩, ez⟩

/-- The box of a single point contains that point and no other. -/
theorem C108_ofPoint :
    (∀ p : Vec2 ℝ, (AABB2.ofPoint p).toSet = {p} ∧ (CAABB2.ofPoint p).toSet = {p}) ∧
    (∀ p : Vec3 ℝ, (AABB3.ofPoint p).toSet = {p} ∧ (CAABB3.ofPoint p).toSet = {p}) := by
  refine ⟨fun p => ⟨Set.ext fun q => ?_, Set.ext fun q => ?_⟩,
    fun p => ⟨Set.ext fun q => ?_, Set.ext fun q => ?_⟩⟩
  · simp only [AABB2.toSet, AABB2.ofPoint, Set.mem_ofPred_eq, Set.mem_singleton_iff, Vec2.ext_iff]
    constructor
    · rintro ⟨⟨a1, a2⟩, a3, a4⟩; constructor <;> linarith
    · rintro ⟨a1, a2⟩; refine ⟨⟨?_, ?_⟩, ?_, ?_⟩ <;> linarith
  · simp only [CAABB2.toSet, CAABB2.ofPoint, Vec2.zero, Set.mem_ofPred_eq, Set.mem_singleton_iff,
      Vec2.ext_iff]
    constructor
    · rintro ⟨⟨a1, a2⟩, a3, a4⟩; constructor <;> linarith
    · rintro ⟨a1, a2⟩; refine ⟨⟨?_, ?_⟩, ?_, ?_⟩ <;> linarith
  · simp only [AABB3.toSet, AABB3.ofPoint, Set.mem_ofPred_eq, Set.mem_singleton_iff, Vec3.ext_iff]
    constructor
    · rintro ⟨⟨a1, a2⟩, ⟨a3, a4⟩, a5, a6⟩; refine ⟨?_, ?_, ?_⟩ <;> linarith
    · rintro ⟨a1, a2, a3⟩; refine ⟨⟨?_, ?_⟩, ⟨?_, ?_⟩, ?_, ?_⟩ <;> linarith
  · simp only [CAABB3.toSet, CAABB3.ofPoint, Vec3.zero, Set.mem_ofPred_eq, Set.mem_singleton_iff,
      Vec3.ext_iff]
    constructor
    · rintro ⟨⟨a1, a2⟩, ⟨a3, a4⟩, a5, a6⟩; refine ⟨?_, ?_, ?_⟩ <;> linarith
    · rintro ⟨a1, a2, a3⟩; refine ⟨⟨?_, ?_⟩, ⟨?_, ?_⟩, ?_, ?_⟩ <;> linarith

example : (⟨⟨0, 0⟩, ⟨1, 2⟩⟩ : AABB2 ℝ).Valid := ⟨by norm_num, by norm_num⟩
example : (⟨⟨1, 2⟩, ⟨0, 0⟩⟩ : CAABB2 ℝ).Valid := ⟨le_rfl, le_rfl⟩

end MathLib
