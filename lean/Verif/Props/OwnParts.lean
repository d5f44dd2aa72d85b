import Verif.Model.OwnParts
import Mathlib.Algebra.Group.Basic
import Mathlib.Algebra.Field.Basic
import Mathlib.Algebra.Ring.CharZero
import Mathlib.Algebra.Ring.Rat
import Mathlib.Algebra.Order.Ring.Unbundled.Rat

/-! # Properties C131, C132: arguments that are the object itself or a part of it

`.other a` is an argument apart from the object, `.part get` one inside it.  A call behaves well if it
does what the same call does with copies of its arguments. -/

namespace MathLib

/-- the argument is some other object or the object itself -/
def Ref.IsWhole {S : Type} (r : Ref S S) : Prop := r = .part id ∨ ∃ a, r = .other a

/-! ## C131 -/

section C131
variable {R : Type} [Zero R] [One R] [NatCast R] [Add R] [Sub R] [Mul R] [Div R] [Neg R] [LT R] [LE R]
  [DecidableLT R] [DecidableLE R] [BEq R] [MathFns R]

/-- `q.slerp(q, to, w)` and the like: for every scalar type, the quaternion interpolations give the same
result whether or not the arguments are the object that is written. -/
theorem C131_quat (this : Quat R) (p q a b : Ref (Quat R) (Quat R)) (w : R)
    (hp : p.IsWhole) (hq : q.IsWhole) :
    Quat.lerpR p q w this = Quat.lerp (p.read this) (q.read this) w ∧
    Quat.slerpR p q w this = Quat.slerp (p.read this) (q.read this) w ∧
    Quat.slerpNoInvertR p q w this = Quat.slerpNoInvert (p.read this) (q.read this) w ∧
    Quat.slerpMaxAngleR p q w this = Quat.slerpMaxAngle (p.read this) (q.read this) w ∧
    ∀ junk, Quat.squadR p q a b w junk this =
      Quat.squad (p.read this) (q.read this) (a.read this) (b.read this) w := by
  rcases hp with rfl | ⟨p, rfl⟩ <;> rcases hq with rfl | ⟨q, rfl⟩ <;>
    exact ⟨rfl, rfl, rfl, rfl, fun _ => rfl⟩

/-- `v.clerp(v, to, t)`, `v.slerp(v, to, t)` and the like. -/
theorem C131_vec (this : Vec2 R) (u v : Ref (Vec2 R) (Vec2 R)) (this3 : Vec3 R)
    (u3 v3 : Ref (Vec3 R) (Vec3 R)) (t : R) (hu : u.IsWhole) (hv : v.IsWhole) (hu3 : u3.IsWhole)
    (hv3 : v3.IsWhole) :
    Vec2.clerpR u v t this = Vec2.clerp (u.read this) (v.read this) t ∧
    Vec2.clerpMaxAngleR u v t this = Vec2.clerpMaxAngle (u.read this) (v.read this) t ∧
    Vec3.slerpR u3 v3 t this3 = Vec3.slerp (u3.read this3) (v3.read this3) t ∧
    Vec3.slerpMaxAngleR u3 v3 t this3 = Vec3.slerpMaxAngle (u3.read this3) (v3.read this3) t := by
  have h2 : Vec2.clerpR u v t this = Vec2.clerp (u.read this) (v.read this) t ∧
      Vec2.clerpMaxAngleR u v t this = Vec2.clerpMaxAngle (u.read this) (v.read this) t := by
    rcases hu with rfl | ⟨u, rfl⟩ <;> rcases hv with rfl | ⟨v, rfl⟩ <;> exact ⟨rfl, rfl⟩
  refine ⟨h2.1, h2.2, ?_⟩
  rcases hu3 with rfl | ⟨u, rfl⟩ <;> rcases hv3 with rfl | ⟨v, rfl⟩ <;> exact ⟨rfl, rfl⟩

omit [Div R] in
/-- `c.interp(c, to, t)` for the colours. -/
theorem C131_color (x : ColorRGB R) (a b : Ref (ColorRGB R) (ColorRGB R)) (y : ColorRGBA R)
    (c d : Ref (ColorRGBA R) (ColorRGBA R)) (z : ColorHSV R) (e f : Ref (ColorHSV R) (ColorHSV R)) (t : R)
    (ha : a.IsWhole) (hb : b.IsWhole) (hc : c.IsWhole) (hd : d.IsWhole) (he : e.IsWhole) (hf : f.IsWhole) :
    ColorRGB.interpR a b t x = ColorRGB.interp (a.read x) (b.read x) t ∧
    ColorRGBA.interpR c d t y = ColorRGBA.interp (c.read y) (d.read y) t ∧
    ColorHSV.interpR e f t z = ColorHSV.interp (e.read z) (f.read z) t := by
  refine ⟨?_, ?_, ?_⟩
  · rcases ha with rfl | ⟨u, rfl⟩ <;> rcases hb with rfl | ⟨v, rfl⟩ <;> rfl
  · rcases hc with rfl | ⟨u, rfl⟩ <;> rcases hd with rfl | ⟨v, rfl⟩ <;> rfl
  · rcases he with rfl | ⟨u, rfl⟩ <;> rcases hf with rfl | ⟨v, rfl⟩ <;> rfl
end C131

/-- the object as the first argument, another as the second -/
example : (Ref.part id : Ref (ColorRGB ℚ) (ColorRGB ℚ)).IsWhole ∧
    (Ref.other ⟨1, 2, 3⟩ : Ref (ColorRGB ℚ) (ColorRGB ℚ)).IsWhole ∧
    ColorRGB.interpR (.part id) (.other ⟨1, 2, 3⟩) (1 / 2 : ℚ) ⟨0, 1, 0⟩ = ⟨1 / 2, 3 / 2, 3 / 2⟩ :=
  ⟨.inl rfl, .inr ⟨_, rfl⟩, by decide +kernel⟩

/-! ## C132 -/

/-- an argument that is some other vector or one of the corners of the box -/
inductive AABB3.IsArg {K : Type} : Ref (AABB3 K) (Vec3 K) → Prop
  | other (v : Vec3 K) : AABB3.IsArg (.other v)
  | inf : AABB3.IsArg (.part AABB3.inf)
  | sup : AABB3.IsArg (.part AABB3.sup)
/-- an argument that is some other vector or one of the corners of the box -/
inductive AABB2.IsArg {K : Type} : Ref (AABB2 K) (Vec2 K) → Prop
  | other (v : Vec2 K) : AABB2.IsArg (.other v)
  | inf : AABB2.IsArg (.part AABB2.inf)
  | sup : AABB2.IsArg (.part AABB2.sup)

/-- The claim for moving a box, setting the columns of a matrix, scaling it and setting the control
points of a segment. -/
def C132_full : Prop :=
  (∀ (b : AABB3 ℚ) (t : Ref (AABB3 ℚ) (Vec3 ℚ)), AABB3.IsArg t →
    b.subAssignR t = b.subAssignR (.other (t.read b)) ∧
    b.addAssignR t = b.addAssignR (.other (t.read b))) ∧
  (∀ b : AABB3 ℚ, AABB3.setR (.part AABB3.sup) (.part AABB3.inf) b =
    AABB3.setR (.other b.sup) (.other b.inf) b) ∧
  (∀ m : Mat3 ℚ, Mat3.setR (.part Mat3.y) (.part Mat3.x) (.part Mat3.z) m =
    Mat3.setR (.other m.y) (.other m.x) (.other m.z) m) ∧
  (∀ m : Mat3 ℚ, Mat3.scaleR (.part Mat3.x) m = Mat3.scaleR (.other m.x) m) ∧
  (∀ b : BezierSegment3 ℚ, BezierSegment3.setR (.part BezierSegment3.P4) (.part BezierSegment3.P3)
    (.part BezierSegment3.P2) (.part BezierSegment3.P1) b =
    BezierSegment3.setR (.other b.P4) (.other b.P3) (.other b.P2) (.other b.P1) b)

/-- Every part of the claim fails: `box -= box.inf` and `box += box.inf`, `box.set(box.sup, box.inf)`,
`m.set(m.y, m.x, m.z)`, `m.scale(m.x)` and `b.set(b.p4(), b.p3(), b.p2(), b.p1())`. -/
theorem C132_refuted : ¬ C132_full ∧
    (∃ b : AABB3 ℚ, b.subAssignR (.part AABB3.inf) ≠ b.subAssignR (.other b.inf) ∧
      b.addAssignR (.part AABB3.inf) ≠ b.addAssignR (.other b.inf)) ∧
    (∃ b : AABB2 ℚ, b.subAssignR (.part AABB2.inf) ≠ b.subAssignR (.other b.inf) ∧
      b.addAssignR (.part AABB2.inf) ≠ b.addAssignR (.other b.inf)) ∧
    (∃ b : AABB3 ℚ, AABB3.setR (.part AABB3.sup) (.part AABB3.inf) b ≠
      AABB3.setR (.other b.sup) (.other b.inf) b) ∧
    (∃ b : AABB2 ℚ, AABB2.setR (.part AABB2.sup) (.part AABB2.inf) b ≠
      AABB2.setR (.other b.sup) (.other b.inf) b) ∧
    (∃ m : Mat2 ℚ, Mat2.setR (.part Mat2.y) (.part Mat2.x) m ≠ Mat2.setR (.other m.y) (.other m.x) m) ∧
    (∃ m : Mat3 ℚ, Mat3.setR (.part Mat3.y) (.part Mat3.x) (.part Mat3.z) m ≠
      Mat3.setR (.other m.y) (.other m.x) (.other m.z) m) ∧
    (∃ m : Mat3 ℚ, Mat3.scaleR (.part Mat3.x) m ≠ Mat3.scaleR (.other m.x) m) ∧
    (∃ m : Mat34 ℚ, Mat34.scaleR (.part fun m => m.rs.z) m ≠ Mat34.scaleR (.other m.rs.z) m) ∧
    (∃ m : Mat34 ℚ, ∃ q : Quat ℚ, Mat34.setQuatR q (.part fun m => m.rs.x) m ≠
      Mat34.setQuatR q (.other m.rs.x) m) ∧
    (∃ b : BezierSegment3 ℚ, BezierSegment3.setR (.part BezierSegment3.P4) (.part BezierSegment3.P3)
      (.part BezierSegment3.P2) (.part BezierSegment3.P1) b ≠
      BezierSegment3.setR (.other b.P4) (.other b.P3) (.other b.P2) (.other b.P1) b) := by
  refine ⟨fun h => ?_, ⟨⟨⟨1, 2, 3⟩, ⟨4, 5, 6⟩⟩, by decide +kernel⟩, ⟨⟨⟨1, 2⟩, ⟨4, 5⟩⟩, by decide +kernel⟩,
    ⟨⟨⟨1, 2, 3⟩, ⟨4, 5, 6⟩⟩, by decide +kernel⟩, ⟨⟨⟨1, 2⟩, ⟨4, 5⟩⟩, by decide +kernel⟩,
    ⟨Mat2.setIdentity, by decide +kernel⟩, ⟨Mat3.setIdentity, by decide +kernel⟩,
    ⟨Mat3.ofCols ⟨2, 3, 4⟩ ⟨0, 1, 0⟩ ⟨0, 0, 1⟩, by decide +kernel⟩,
    ⟨Mat34.ofCols ⟨1, 0, 0⟩ ⟨0, 1, 0⟩ ⟨1, 1, 2⟩ ⟨1, 1, 1⟩, by decide +kernel⟩,
    ⟨Mat34.ofCols ⟨1, 2, 3⟩ ⟨0, 1, 0⟩ ⟨0, 0, 1⟩ ⟨0, 0, 0⟩, ⟨0, 0, 0, 1⟩, by decide +kernel⟩,
    ⟨⟨⟨1, 0, 0⟩, ⟨2, 0, 0⟩, ⟨3, 0, 0⟩, ⟨4, 0, 0⟩⟩, by decide +kernel⟩⟩
  exact absurd (h.1 ⟨⟨1, 2, 3⟩, ⟨4, 5, 6⟩⟩ _ .inf).1 (by decide +kernel)

/-- What holds for boxes.  `add` and `set(point)` accept their own corners.  Moving a box by its own corner
`sup` is right; moving it by `inf` is right only if `inf` is zero, and `box -= box.inf` leaves `sup` where
it was.  Missing: the other cases, which are false. -/
theorem C132_box3_partial {K : Type} [AddCommGroup K] [LinearOrder K] (b : AABB3 K) (t : Ref (AABB3 K) (Vec3 K))
    (ht : AABB3.IsArg t) :
    b.addR t = b.add (t.read b) ∧ b.setPointR t = ⟨t.read b, t.read b⟩ ∧
    b.addAssignR (.part AABB3.sup) = b.addAssignR (.other b.sup) ∧
    b.subAssignR (.part AABB3.sup) = b.subAssignR (.other b.sup) ∧
    (b.addAssignR (.part AABB3.inf) = b.addAssignR (.other b.inf) ↔ b.inf = ⟨0, 0, 0⟩) ∧
    (b.subAssignR (.part AABB3.inf) = b.subAssignR (.other b.inf) ↔ b.inf = ⟨0, 0, 0⟩) ∧
    b.subAssignR (.part AABB3.inf) = ⟨⟨0, 0, 0⟩, b.sup⟩ ∧
    (∀ v, b.subAssignR (.other v) = ⟨b.inf - v, b.sup - v⟩ ∧
      b.addAssignR (.other v) = ⟨b.inf + v, b.sup + v⟩) := by
  obtain ⟨⟨a, b, c⟩, ⟨d, e, f⟩⟩ := b
  refine ⟨?_, ?_, rfl, rfl, ?_, ?_, ?_, fun v => ⟨rfl, rfl⟩⟩
  · cases ht
    · rename_i v
      by_cases g0 : v.x < a <;> by_cases g1 : v.y < b <;> by_cases g2 : v.z < c <;> by_cases h0 : d < v.x <;>
        by_cases h1 : e < v.y <;> by_cases h2 : f < v.z <;>
        simp [AABB3.addR, AABB3.add, Ref.read, g0, g1, g2, h0, h1, h2]
    · by_cases h0 : d < a <;> by_cases h1 : e < b <;> by_cases h2 : f < c <;>
        simp [AABB3.addR, AABB3.add, Ref.read, h0, h1, h2]
    · by_cases h0 : d < a <;> by_cases h1 : e < b <;> by_cases h2 : f < c <;>
        simp [AABB3.addR, AABB3.add, Ref.read, h0, h1, h2]
  · cases ht <;> rfl
  · simp [AABB3.addAssignR, Ref.read]
  · have key : ∀ x y : K, x = x - y ↔ y = 0 := fun x y => by rw [eq_comm, sub_eq_self]
    simp [AABB3.subAssignR, Ref.read, key]
  · simp [AABB3.subAssignR, Ref.read]

/-- What holds for centred boxes: `set(center, size)` may be given the old extents as centre, and any of its
parts but the centre as size.  With the centre as size it takes half of the new centre, which is right
exactly if the new centre is the old one (in a type where doubling a half gives the number back).
Missing: that case, which is false. -/
theorem C132_cbox3_partial {K : Type} [Field K] [CharZero K] (b : CAABB3 K) (c s : Ref (CAABB3 K) (Vec3 K))
    (hs : (∃ v, s = .other v) ∨ s = .part CAABB3.extents ∨ s = .part CAABB3.center) :
    (s ≠ .part CAABB3.center → b.setR c s = CAABB3.ofCenterSize (c.read b) (s.read b)) ∧
    (b.setR c (.part CAABB3.center) = CAABB3.ofCenterSize (c.read b) b.center ↔ c.read b = b.center) ∧
    b.setR c (.part CAABB3.center) = CAABB3.ofCenterSize (c.read b) (c.read b) := by
  refine ⟨fun h => ?_, ?_, rfl⟩
  · obtain ⟨v, rfl⟩ | rfl | rfl := hs
    · rfl
    · rfl
    · exact absurd rfl h
  · have h2 : (1 / 2 : K) ≠ 0 := one_div_ne_zero two_ne_zero
    constructor
    · intro h
      have he : c.read b * (1 / 2 : K) = b.center * (1 / 2 : K) := congrArg CAABB3.extents h
      have hx := congrArg Vec3.x he
      have hy := congrArg Vec3.y he
      have hz := congrArg Vec3.z he
      exact Vec3.ext (mul_right_cancel₀ h2 hx) (mul_right_cancel₀ h2 hy) (mul_right_cancel₀ h2 hz)
    · intro h
      show CAABB3.ofCenterSize (c.read b) (c.read b) = _
      rw [h]

/-- The same in the plane: `set(center, size)` may be given the old extents as centre, and any of its
parts but the centre as size.  With the centre as size it takes half of the new centre, which is right
exactly if the new centre is the old one (in a type where doubling a half gives the number back).
Missing: that case, which is false. -/
theorem C132_cbox2_partial {K : Type} [Field K] [CharZero K] (b : CAABB2 K) (c s : Ref (CAABB2 K) (Vec2 K))
    (hs : (∃ v, s = .other v) ∨ s = .part CAABB2.extents ∨ s = .part CAABB2.center) :
    (s ≠ .part CAABB2.center → b.setR c s = CAABB2.ofCenterSize (c.read b) (s.read b)) ∧
    (b.setR c (.part CAABB2.center) = CAABB2.ofCenterSize (c.read b) b.center ↔ c.read b = b.center) ∧
    b.setR c (.part CAABB2.center) = CAABB2.ofCenterSize (c.read b) (c.read b) := by
  refine ⟨fun h => ?_, ?_, rfl⟩
  · obtain ⟨v, rfl⟩ | rfl | rfl := hs
    · rfl
    · rfl
    · exact absurd rfl h
  · have h2 : (1 / 2 : K) ≠ 0 := one_div_ne_zero two_ne_zero
    constructor
    · intro h
      have he : c.read b * (1 / 2 : K) = b.center * (1 / 2 : K) := congrArg CAABB2.extents h
      have hx := congrArg Vec2.x he
      have hy := congrArg Vec2.y he
      exact Vec2.ext (mul_right_cancel₀ h2 hx) (mul_right_cancel₀ h2 hy)
    · intro h
      show CAABB2.ofCenterSize (c.read b) (c.read b) = _
      rw [h]

/-- The same in the plane.  `add` and `set(point)` accept their own corners.  Moving a box by its own corner
`sup` is right; moving it by `inf` is right only if `inf` is zero, and `box -= box.inf` leaves `sup` where
it was.  Missing: the other cases, which are false. -/
theorem C132_box2_partial {K : Type} [AddCommGroup K] [LinearOrder K] (b : AABB2 K) (t : Ref (AABB2 K) (Vec2 K))
    (ht : AABB2.IsArg t) :
    b.addR t = b.add (t.read b) ∧ b.setPointR t = ⟨t.read b, t.read b⟩ ∧
    b.addAssignR (.part AABB2.sup) = b.addAssignR (.other b.sup) ∧
    b.subAssignR (.part AABB2.sup) = b.subAssignR (.other b.sup) ∧
    (b.addAssignR (.part AABB2.inf) = b.addAssignR (.other b.inf) ↔ b.inf = ⟨0, 0⟩) ∧
    (b.subAssignR (.part AABB2.inf) = b.subAssignR (.other b.inf) ↔ b.inf = ⟨0, 0⟩) ∧
    b.subAssignR (.part AABB2.inf) = ⟨⟨0, 0⟩, b.sup⟩ ∧
    (∀ v, b.subAssignR (.other v) = ⟨b.inf - v, b.sup - v⟩ ∧
      b.addAssignR (.other v) = ⟨b.inf + v, b.sup + v⟩) := by
  obtain ⟨⟨a, b⟩, ⟨d, e⟩⟩ := b
  refine ⟨?_, ?_, rfl, rfl, ?_, ?_, ?_, fun v => ⟨rfl, rfl⟩⟩
  · cases ht
    · rename_i v
      by_cases g0 : v.x < a <;> by_cases g1 : v.y < b <;> by_cases h0 : d < v.x <;> by_cases h1 : e < v.y <;>
        simp [AABB2.addR, AABB2.add, Ref.read, g0, g1, h0, h1]
    · by_cases h0 : d < a <;> by_cases h1 : e < b <;>
        simp [AABB2.addR, AABB2.add, Ref.read, h0, h1]
    · by_cases h0 : d < a <;> by_cases h1 : e < b <;>
        simp [AABB2.addR, AABB2.add, Ref.read, h0, h1]
  · cases ht <;> rfl
  · simp [AABB2.addAssignR, Ref.read]
  · have key : ∀ x y : K, x = x - y ↔ y = 0 := fun x y => by rw [eq_comm, sub_eq_self]
    simp [AABB2.subAssignR, Ref.read, key]
  · simp [AABB2.subAssignR, Ref.read]

/-- The hypothesis holds of both corners and of any other point; the outcome for `b -= b.inf`. -/
example : AABB3.IsArg (.part AABB3.inf : Ref (AABB3 ℚ) _) ∧ AABB2.IsArg (.part AABB2.sup : Ref (AABB2 ℚ) _) ∧
    (⟨⟨1, 2, 3⟩, ⟨4, 5, 6⟩⟩ : AABB3 ℚ).subAssignR (.part AABB3.inf) = ⟨⟨0, 0, 0⟩, ⟨4, 5, 6⟩⟩ :=
  ⟨.inf, .sup, by decide +kernel⟩

/-! ### Setting members from members

`set` assigns the members in order.  `From l r` says that the argument is another object or one of the
members in the list `l`; an argument may name a member that is still to be assigned when it is read. -/

/-- the argument is an object apart from this one, or one of the members `l` of this one -/
def Ref.From {S A : Type} (l : List (S → A)) (r : Ref S A) : Prop :=
  (∃ a, r = .other a) ∨ ∃ get ∈ l, r = .part get

section
variable {R : Type} [Zero R] [One R] [NatCast R] [Add R] [Sub R] [Mul R] [Div R] [Neg R] [LT R] [LE R]
  [DecidableLT R] [DecidableLE R] [BEq R]

omit [Neg R] [LT R] [DecidableLT R] in
/-- What holds of the matrices: `set` is right as long as no argument names a column before its own place
(and, for `Mat34::set(q, t)`, not a column of `rs` at all), and `scale` is right if the coefficients are
the last column.  Missing: the other cases, which are false. -/
theorem C132_matrices_partial :
    (∀ (m : Mat2 R) (x y : Ref (Mat2 R) (Vec2 R)), x.From [Mat2.x, Mat2.y] → y.From [Mat2.y] →
      Mat2.setR x y m = Mat2.optimize ⟨x.read m, y.read m, m.flags⟩) ∧
    (∀ (m : Mat3 R) (x y z : Ref (Mat3 R) (Vec3 R)), x.From [Mat3.x, Mat3.y, Mat3.z] →
      y.From [Mat3.y, Mat3.z] → z.From [Mat3.z] →
      Mat3.setR x y z m = Mat3.optimize ⟨x.read m, y.read m, z.read m, m.flags⟩) ∧
    (∀ (m : Mat34 R) (x y z t : Ref (Mat34 R) (Vec3 R)),
      x.From [fun m => m.rs.x, fun m => m.rs.y, fun m => m.rs.z, Mat34.t] →
      y.From [fun m => m.rs.y, fun m => m.rs.z, Mat34.t] → z.From [fun m => m.rs.z, Mat34.t] →
      t.From [Mat34.t] →
      Mat34.setR x y z t m =
        ⟨Mat3.optimize ⟨x.read m, y.read m, z.read m, m.rs.flags⟩, t.read m⟩) ∧
    (∀ (m : Mat4 R) (x y z t : Ref (Mat4 R) (Vec4 R)), x.From [Mat4.x, Mat4.y, Mat4.z, Mat4.t] →
      y.From [Mat4.y, Mat4.z, Mat4.t] → z.From [Mat4.z, Mat4.t] → t.From [Mat4.t] →
      Mat4.setR x y z t m = Mat4.ofCols (x.read m) (y.read m) (z.read m) (t.read m)) ∧
    (∀ (m : Mat34 R) (q : Quat R) (t : Ref (Mat34 R) (Vec3 R)), t.From [Mat34.t] →
      Mat34.setQuatR q t m = Mat34.ofQuat q (t.read m)) ∧
    (∀ (m : Mat2 R) (c : Ref (Mat2 R) (Vec2 R)), c.From [Mat2.y] → Mat2.scaleR c m = m.scale (c.read m)) ∧
    (∀ (m : Mat3 R) (c : Ref (Mat3 R) (Vec3 R)), c.From [Mat3.z] → Mat3.scaleR c m = m.scale (c.read m)) ∧
    (∀ (m : Mat34 R) (c : Ref (Mat34 R) (Vec3 R)), c.From [Mat34.t] →
      Mat34.scaleR c m = m.scale (c.read m)) := by
  simp only [Ref.From, List.mem_cons, List.not_mem_nil, or_false]
  refine ⟨?_, ?_, ?_, ?_, ?_, ?_, ?_, ?_⟩
  · rintro m x y (⟨x, rfl⟩ | ⟨_, rfl | rfl, rfl⟩) (⟨y, rfl⟩ | ⟨_, rfl, rfl⟩) <;> rfl
  · rintro m x y z (⟨x, rfl⟩ | ⟨_, rfl | rfl | rfl, rfl⟩) (⟨y, rfl⟩ | ⟨_, rfl | rfl, rfl⟩)
      (⟨z, rfl⟩ | ⟨_, rfl, rfl⟩) <;> rfl
  · rintro m x y z t (⟨x, rfl⟩ | ⟨_, rfl | rfl | rfl | rfl, rfl⟩) (⟨y, rfl⟩ | ⟨_, rfl | rfl | rfl, rfl⟩)
      (⟨z, rfl⟩ | ⟨_, rfl | rfl, rfl⟩) (⟨t, rfl⟩ | ⟨_, rfl, rfl⟩) <;> rfl
  · rintro m x y z t (⟨x, rfl⟩ | ⟨_, rfl | rfl | rfl | rfl, rfl⟩) (⟨y, rfl⟩ | ⟨_, rfl | rfl | rfl, rfl⟩)
      (⟨z, rfl⟩ | ⟨_, rfl | rfl, rfl⟩) (⟨t, rfl⟩ | ⟨_, rfl, rfl⟩) <;> rfl
  · rintro m q t (⟨t, rfl⟩ | ⟨_, rfl, rfl⟩) <;> rfl
  · rintro m c (⟨c, rfl⟩ | ⟨_, rfl, rfl⟩) <;> rfl
  · rintro m c (⟨c, rfl⟩ | ⟨_, rfl, rfl⟩) <;> rfl
  · rintro m c (⟨c, rfl⟩ | ⟨_, rfl, rfl⟩) <;> rfl
end

/-- The hypotheses of the clause for `Mat3::set` hold of `m.set(m.y, m.z, v)`, which shifts the columns. -/
example : (Ref.part Mat3.y : Ref (Mat3 ℚ) _).From [Mat3.x, Mat3.y, Mat3.z] ∧
    (Ref.part Mat3.z : Ref (Mat3 ℚ) _).From [Mat3.y, Mat3.z] ∧
    (Ref.other ⟨7, 8, 9⟩ : Ref (Mat3 ℚ) _).From [Mat3.z] ∧
    (Mat3.setR (.part Mat3.y) (.part Mat3.z) (.other ⟨7, 8, 9⟩)
      (Mat3.ofCols ⟨1, 2, 3⟩ ⟨4, 5, 6⟩ ⟨0, 0, 1⟩ : Mat3 ℚ)).x = ⟨4, 5, 6⟩ := by
  refine ⟨.inr ⟨_, by simp, rfl⟩, .inr ⟨_, by simp, rfl⟩, .inl ⟨_, rfl⟩, by decide +kernel⟩

/-- What holds of segments and of setting boxes: `set` is right as long as no argument names a member
before its own place; and what `b.set(b.p4(), b.p3(), b.p2(), b.p1())`, meant to reverse a segment, does:
the segment gets the control points `P4, P3, P3, P4`, which is the reverse only if it was so already.
Missing: the other cases, which are false. -/
theorem C132_segments_partial {R : Type} :
    (∀ (b : BezierSegment3 R) (p q r s : Ref (BezierSegment3 R) (Vec3 R)),
      p.From [BezierSegment3.P1, BezierSegment3.P2, BezierSegment3.P3, BezierSegment3.P4] →
      q.From [BezierSegment3.P2, BezierSegment3.P3, BezierSegment3.P4] →
      r.From [BezierSegment3.P3, BezierSegment3.P4] → s.From [BezierSegment3.P4] →
      BezierSegment3.setR p q r s b = ⟨p.read b, q.read b, r.read b, s.read b⟩) ∧
    (∀ (b : HermiteSplineSegment3 R) (p q r s : Ref (HermiteSplineSegment3 R) (Vec3 R)),
      p.From [HermiteSplineSegment3.P1, HermiteSplineSegment3.P4, HermiteSplineSegment3.R1,
        HermiteSplineSegment3.R4] →
      q.From [HermiteSplineSegment3.P4, HermiteSplineSegment3.R1, HermiteSplineSegment3.R4] →
      r.From [HermiteSplineSegment3.R1, HermiteSplineSegment3.R4] → s.From [HermiteSplineSegment3.R4] →
      let h := HermiteSplineSegment3.setR p q r s b;
      h.P1 = p.read b ∧ h.P4 = q.read b ∧ h.R1 = r.read b ∧ h.R4 = s.read b) ∧
    (∀ (b : AABB3 R) (i s : Ref (AABB3 R) (Vec3 R)), i.From [AABB3.inf, AABB3.sup] → s.From [AABB3.sup] →
      AABB3.setR i s b = ⟨i.read b, s.read b⟩) ∧
    (∀ (b : AABB2 R) (i s : Ref (AABB2 R) (Vec2 R)), i.From [AABB2.inf, AABB2.sup] → s.From [AABB2.sup] →
      AABB2.setR i s b = ⟨i.read b, s.read b⟩) ∧
    (∀ b b' : BezierSegment3 R, b' = BezierSegment3.setR (.part BezierSegment3.P4)
        (.part BezierSegment3.P3) (.part BezierSegment3.P2) (.part BezierSegment3.P1) b →
      b' = ⟨b.P4, b.P3, b.P3, b.P4⟩ ∧
      (b' = ⟨b.P4, b.P3, b.P2, b.P1⟩ ↔ b.P2 = b.P3 ∧ b.P1 = b.P4)) ∧
    (∀ b : AABB3 R, AABB3.setR (.part AABB3.sup) (.part AABB3.inf) b = ⟨b.sup, b.sup⟩) ∧
    (∀ b : AABB2 R, AABB2.setR (.part AABB2.sup) (.part AABB2.inf) b = ⟨b.sup, b.sup⟩) := by
  simp only [Ref.From, List.mem_cons, List.not_mem_nil, or_false]
  refine ⟨?_, ?_, ?_, ?_, ?_, fun _ => rfl, fun _ => rfl⟩
  · rintro m x y z t (⟨x, rfl⟩ | ⟨_, rfl | rfl | rfl | rfl, rfl⟩) (⟨y, rfl⟩ | ⟨_, rfl | rfl | rfl, rfl⟩)
      (⟨z, rfl⟩ | ⟨_, rfl | rfl, rfl⟩) (⟨t, rfl⟩ | ⟨_, rfl, rfl⟩) <;> rfl
  · rintro m x y z t (⟨x, rfl⟩ | ⟨_, rfl | rfl | rfl | rfl, rfl⟩) (⟨y, rfl⟩ | ⟨_, rfl | rfl | rfl, rfl⟩)
      (⟨z, rfl⟩ | ⟨_, rfl | rfl, rfl⟩) (⟨t, rfl⟩ | ⟨_, rfl, rfl⟩) <;> exact ⟨rfl, rfl, rfl, rfl⟩
  · rintro b i s (⟨i, rfl⟩ | ⟨_, rfl | rfl, rfl⟩) (⟨s, rfl⟩ | ⟨_, rfl, rfl⟩) <;> rfl
  · rintro b i s (⟨i, rfl⟩ | ⟨_, rfl | rfl, rfl⟩) (⟨s, rfl⟩ | ⟨_, rfl, rfl⟩) <;> rfl
  · rintro b b' rfl
    refine ⟨rfl, ?_⟩
    obtain ⟨p, q, r, s⟩ := b
    simp [BezierSegment3.setR, Ref.read, eq_comm]

/-- `b.set(b.p2(), b.p3(), b.p4(), v)` meets the hypotheses. -/
example : BezierSegment3.setR (.part BezierSegment3.P2) (.part BezierSegment3.P3) (.part BezierSegment3.P4)
    (.other ⟨5, 0, 0⟩) (⟨⟨1, 0, 0⟩, ⟨2, 0, 0⟩, ⟨3, 0, 0⟩, ⟨4, 0, 0⟩⟩ : BezierSegment3 ℚ) =
    ⟨⟨2, 0, 0⟩, ⟨3, 0, 0⟩, ⟨4, 0, 0⟩, ⟨5, 0, 0⟩⟩ :=
  C132_segments_partial.1 _ _ _ _ _ (.inr ⟨_, by simp, rfl⟩) (.inr ⟨_, by simp, rfl⟩)
    (.inr ⟨_, by simp, rfl⟩) (.inl ⟨_, rfl⟩)

/-- `box.set(v, box.extents)` is right, `box.set(v, box.center)` is not -/
example : (⟨⟨1, 2, 3⟩, ⟨4, 5, 6⟩⟩ : CAABB3 ℚ).setR (.other ⟨7, 8, 9⟩) (.part CAABB3.extents) =
      CAABB3.ofCenterSize ⟨7, 8, 9⟩ ⟨4, 5, 6⟩ ∧
    (⟨⟨1, 2, 3⟩, ⟨4, 5, 6⟩⟩ : CAABB3 ℚ).setR (.other ⟨7, 8, 9⟩) (.part CAABB3.center) ≠
      CAABB3.ofCenterSize ⟨7, 8, 9⟩ ⟨1, 2, 3⟩ := by decide +kernel

end MathLib
