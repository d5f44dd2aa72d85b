import Verif.Model.Geom

/-! # Model of `aabb2.h`, `aabb3.h`, `caabb2.h`, `caabb3.h`

As in `Verif.Model.Geom`, functions with output parameters and a `bool` result return an `Option`.
`M` is `std::numeric_limits<Real>::max()`. -/

namespace MathLib

variable {R : Type} [Zero R] [One R] [NatCast R] [Add R] [Sub R] [Mul R] [Div R] [Neg R]
  [LT R] [LE R] [DecidableLT R] [DecidableLE R] [BEq R] [MathFns R]

/-- `class AABB2`, aabb2.h -/
@[ext] structure AABB2 (R : Type) where
  inf : Vec2 R
  sup : Vec2 R
  deriving DecidableEq
/-- `class AABB3`, aabb3.h -/
@[ext] structure AABB3 (R : Type) where
  inf : Vec3 R
  sup : Vec3 R
  deriving DecidableEq
/-- `class CAABB2`, caabb2.h -/
@[ext] structure CAABB2 (R : Type) where
  center : Vec2 R
  extents : Vec2 R
  deriving DecidableEq
/-- `class CAABB3`, caabb3.h -/
@[ext] structure CAABB3 (R : Type) where
  center : Vec3 R
  extents : Vec3 R
  deriving DecidableEq

/-- The block of `hits` for one axis: `lo`, `hi` the slab, `s` the start, `dir` the direction, `t` the
current value.  impl/aabb2.h:389-408, 410-429 (ray), 441-460, 462-481 (line); impl/aabb3.h:410-429,
431-450, 452-471 (ray), 483-502, 504-523, 525-544 (line). -/
def slabHit (lo hi s dir t : R) : Option R :=
  if dir == 0 then
    if s < lo ∨ s > hi then none else some t
  else
    let invD := 1 / dir
    let tinf := (lo - s) * invD
    let tsup := (hi - s) * invD
    let (tinf, _) := if tinf > tsup then (tsup, tinf) else (tinf, tsup)
    if tinf < 0 then none else
    some (stdMax t tinf)

/-- The block of `intersects` for one axis.  impl/aabb2.h:503-524, 526-547 (ray), 560-581, 583-604
(line); impl/aabb3.h:567-588, 590-611, 613-634 (ray), 647-668, 670-691, 693-714 (line). -/
def slabClip (lo hi s dir : R) (t : R × R) : Option (R × R) :=
  let (t1, t2) := t
  if dir == 0 then
    if s < lo ∨ s > hi then none else some (t1, t2)
  else
    let invD := 1 / dir
    let tinf := (lo - s) * invD
    let tsup := (hi - s) * invD
    let (tinf, tsup) := if tinf > tsup then (tsup, tinf) else (tinf, tsup)
    let t1 := stdMax t1 tinf
    let t2 := stdMin t2 tsup
    if t2 < t1 then none else some (t1, t2)

/-- The end of `intersects(t1, t2, line)`: impl/aabb2.h:606-616, impl/aabb3.h:716-726. -/
def segmentClip (t : R × R) : Option (R × R) :=
  let (t1, t2) := t
  if t1 < 0 ∧ t2 < 0 then none else
  if t1 > 1 ∧ t2 > 1 then none else
  let t1 := if t1 < 0 then 0 else t1
  let t2 := if t2 > 1 then 1 else t2
  some (t1, t2)

namespace CAABB2
/-- `CAABB2::CAABB2(center, size)`, impl/caabb2.h:15-19; `set`, 34-40; `from`, 156-163. -/
def ofCenterSize (center size : Vec2 R) : CAABB2 R := ⟨center, size * (1 / 2 : R)⟩
/-- `CAABB2::set(point)`, impl/caabb2.h:26-32; `from`, 147-154. -/
def ofPoint (point : Vec2 R) : CAABB2 R := ⟨point, Vec2.zero⟩
/-- `CAABB2::set(const AABB2&)`, impl/caabb2.h:42-48; `fromInfSup(inf, sup)`, 165-172. -/
def ofBox (box : AABB2 R) : CAABB2 R :=
  ⟨(box.inf + box.sup) * (1 / 2 : R), (box.sup - box.inf) * (1 / 2 : R)⟩
/-- `CAABB2::set(count, points, stride)`, impl/caabb2.h:78-107; `from`, 182-188. -/
def setStrided (mem : Mem R) (points : Nat) (count stride : Int) : Res (CAABB2 R) := do
  let (inf, sup) ← bounds2 mem points count stride
  .ok (ofBox ⟨inf, sup⟩)
/-- `CAABB2::set(count, points)`, impl/caabb2.h:50-76; `from`, 174-180. -/
def set (mem : Mem R) (points : Nat) (count : Int) : Res (CAABB2 R) := do
  let (inf, sup) ← bounds2 mem points count (2 * mem.sz)
  .ok (ofBox ⟨inf, sup⟩)
/-- `CAABB2::add(point)`, impl/caabb2.h:109-140. -/
def add (b : CAABB2 R) (point : Vec2 R) : CAABB2 R :=
  let inf := b.center - b.extents
  let sup := b.center + b.extents
  let outside := false
  let (inf, outside) := if point.x < inf.x then ({ inf with x := point.x }, true) else (inf, outside)
  let (inf, outside) := if point.y < inf.y then ({ inf with y := point.y }, true) else (inf, outside)
  let (sup, outside) := if point.x > sup.x then ({ sup with x := point.x }, true) else (sup, outside)
  let (sup, outside) := if point.y > sup.y then ({ sup with y := point.y }, true) else (sup, outside)
  if outside then ofBox ⟨inf, sup⟩ else b
/-- `CAABB2::operator+=`, impl/caabb2.h:195-200; `operator+`, 229-236. -/
def translate (b : CAABB2 R) (t : Vec2 R) : CAABB2 R := ⟨b.center + t, b.extents⟩
/-- `CAABB2::operator-=`, impl/caabb2.h:202-207; `operator-`, 238-245. -/
def translateNeg (b : CAABB2 R) (t : Vec2 R) : CAABB2 R := ⟨b.center - t, b.extents⟩
/-- `CAABB2::operator*=`, impl/caabb2.h:209-214; `operator*`, 247-254. -/
def scale (b : CAABB2 R) (k : R) : CAABB2 R := ⟨b.center, b.extents * k⟩
/-- `CAABB2::operator/=`, impl/caabb2.h:216-222; `operator/`, 256-264. -/
def unscale (b : CAABB2 R) (k : R) : Res (CAABB2 R) :=
  if k == 0 then .error .assertion else do
    let e ← b.extents.div k
    .ok ⟨b.center, e⟩
/-- `CAABB2::operator==`, impl/caabb2.h:271-275. -/
def eq (a b : CAABB2 R) : Bool := a.center.eq b.center && a.extents.eq b.extents
/-- `CAABB2::operator!=`, impl/caabb2.h:277-281. -/
def ne (a b : CAABB2 R) : Bool := a.center.ne b.center || a.extents.ne b.extents
/-- `CAABB2::inf`, impl/caabb2.h:287-291. -/
def inf (b : CAABB2 R) : Vec2 R := b.center - b.extents
/-- `CAABB2::sup`, impl/caabb2.h:293-297. -/
def sup (b : CAABB2 R) : Vec2 R := b.center + b.extents
/-- `CAABB2::size`, impl/caabb2.h:299-303. -/
def size (b : CAABB2 R) : Vec2 R := b.extents * (2 : R)
/-- `CAABB2::innerCircle`, impl/caabb2.h:305-312. -/
def innerCircle (b : CAABB2 R) : Res (Circle R) := do
  let e ← b.extents.get b.extents.minorCoord
  .ok ⟨b.center, abs' e⟩
/-- `CAABB2::outerCircle`, impl/caabb2.h:314-321. -/
def outerCircle (b : CAABB2 R) : Circle R := ⟨b.center, b.extents.length⟩
/-- `CAABB2::area`, impl/caabb2.h:323-327. -/
def area (b : CAABB2 R) : R := b.extents.x * b.extents.y * 4
/-- `CAABB2::isNull`, impl/caabb2.h:329-333. -/
def isNull (b : CAABB2 R) : Bool := b.extents.isNull
/-- `CAABB2::pointAt`, impl/caabb2.h:335-342. -/
def pointAt (b : CAABB2 R) (t : Vec2 R) : Vec2 R :=
  ⟨b.center.x + b.extents.x * t.x, b.center.y + b.extents.y * t.y⟩
/-- `CAABB2::contains(point)`, impl/caabb2.h:344-349. -/
def contains (b : CAABB2 R) (p : Vec2 R) : Bool :=
  (decide (p.x ≥ b.center.x - b.extents.x) && decide (p.x ≤ b.center.x + b.extents.x)) &&
  (decide (p.y ≥ b.center.y - b.extents.y) && decide (p.y ≤ b.center.y + b.extents.y))
/-- `CAABB2::contains(box)`, impl/caabb2.h:351-358. -/
def containsBox (b o : CAABB2 R) : Bool :=
  let c := o.center
  let e := o.extents
  (decide (c.x - e.x ≥ b.center.x - b.extents.x) && decide (c.x + e.x ≤ b.center.x + b.extents.x)) &&
  (decide (c.y - e.y ≥ b.center.y - b.extents.y) && decide (c.y + e.y ≤ b.center.y + b.extents.y))
/-- `CAABB2::intersects(box)`, impl/caabb2.h:360-370. -/
def intersects (b o : CAABB2 R) : Bool :=
  let m1 := b.inf
  let M1 := b.sup
  let m2 := o.inf
  let M2 := o.sup
  if m2.x > M1.x ∨ M2.x < m1.x then false else
  if m2.y > M1.y ∨ M2.y < m1.y then false else true
end CAABB2

namespace CAABB3
/-- `CAABB3::CAABB3(center, size)`, impl/caabb3.h:15-19; `set`, 34-40; `from`, 170-177. -/
def ofCenterSize (center size : Vec3 R) : CAABB3 R := ⟨center, size * (1 / 2 : R)⟩
/-- `CAABB3::set(point)`, impl/caabb3.h:26-32; `from`, 161-168. -/
def ofPoint (point : Vec3 R) : CAABB3 R := ⟨point, Vec3.zero⟩
/-- `CAABB3::set(const AABB3&)`, impl/caabb3.h:42-48; `from`, 179-186. -/
def ofBox (box : AABB3 R) : CAABB3 R :=
  ⟨(box.inf + box.sup) * (1 / 2 : R), (box.sup - box.inf) * (1 / 2 : R)⟩
/-- `CAABB3::set(count, points, stride)`, impl/caabb3.h:80-111; `from`, 196-202. -/
def setStrided (mem : Mem R) (points : Nat) (count stride : Int) : Res (CAABB3 R) := do
  let (inf, sup) ← bounds3 mem points count stride
  .ok (ofBox ⟨inf, sup⟩)
/-- `CAABB3::set(count, points)`, impl/caabb3.h:50-78; `from`, 188-194. -/
def set (mem : Mem R) (points : Nat) (count : Int) : Res (CAABB3 R) := do
  let (inf, sup) ← bounds3 mem points count (3 * mem.sz)
  .ok (ofBox ⟨inf, sup⟩)
/-- `CAABB3::add(point)`, impl/caabb3.h:113-154. -/
def add (b : CAABB3 R) (point : Vec3 R) : CAABB3 R :=
  let inf := b.center - b.extents
  let sup := b.center + b.extents
  let outside := false
  let (inf, outside) := if point.x < inf.x then ({ inf with x := point.x }, true) else (inf, outside)
  let (inf, outside) := if point.y < inf.y then ({ inf with y := point.y }, true) else (inf, outside)
  let (inf, outside) := if point.z < inf.z then ({ inf with z := point.z }, true) else (inf, outside)
  let (sup, outside) := if point.x > sup.x then ({ sup with x := point.x }, true) else (sup, outside)
  let (sup, outside) := if point.y > sup.y then ({ sup with y := point.y }, true) else (sup, outside)
  let (sup, outside) := if point.z > sup.z then ({ sup with z := point.z }, true) else (sup, outside)
  if outside then ofBox ⟨inf, sup⟩ else b
/-- `CAABB3::operator+=`, impl/caabb3.h:209-214; `operator+`, 243-250. -/
def translate (b : CAABB3 R) (t : Vec3 R) : CAABB3 R := ⟨b.center + t, b.extents⟩
/-- `CAABB3::operator-=`, impl/caabb3.h:216-221; `operator-`, 252-259. -/
def translateNeg (b : CAABB3 R) (t : Vec3 R) : CAABB3 R := ⟨b.center - t, b.extents⟩
/-- `CAABB3::operator*=`, impl/caabb3.h:223-228; `operator*`, 261-268. -/
def scale (b : CAABB3 R) (k : R) : CAABB3 R := ⟨b.center, b.extents * k⟩
/-- `CAABB3::operator/=`, impl/caabb3.h:230-236; `operator/`, 270-278. -/
def unscale (b : CAABB3 R) (k : R) : Res (CAABB3 R) :=
  if k == 0 then .error .assertion else do
    let e ← b.extents.div k
    .ok ⟨b.center, e⟩
/-- `CAABB3::operator==`, impl/caabb3.h:285-289. -/
def eq (a b : CAABB3 R) : Bool := a.center.eq b.center && a.extents.eq b.extents
/-- `CAABB3::operator!=`, impl/caabb3.h:291-295. -/
def ne (a b : CAABB3 R) : Bool := a.center.ne b.center || a.extents.ne b.extents
/-- `CAABB3::inf`, impl/caabb3.h:301-305. -/
def inf (b : CAABB3 R) : Vec3 R := b.center - b.extents
/-- `CAABB3::sup`, impl/caabb3.h:307-311. -/
def sup (b : CAABB3 R) : Vec3 R := b.center + b.extents
/-- `CAABB3::size`, impl/caabb3.h:313-317. -/
def size (b : CAABB3 R) : Vec3 R := b.extents * (2 : R)
/-- `CAABB3::innerSphere`, impl/caabb3.h:319-326. -/
def innerSphere (b : CAABB3 R) : Res (Sphere R) := do
  let e ← b.extents.get b.extents.minorCoord
  .ok ⟨b.center, abs' e⟩
/-- `CAABB3::outerSphere`, impl/caabb3.h:328-335. -/
def outerSphere (b : CAABB3 R) : Sphere R := ⟨b.center, b.extents.length⟩
/-- `CAABB3::volume`, impl/caabb3.h:337-341. -/
def volume (b : CAABB3 R) : R := b.extents.x * b.extents.y * b.extents.z * 8
/-- `CAABB3::isNull`, impl/caabb3.h:343-347. -/
def isNull (b : CAABB3 R) : Bool := b.extents.isNull
/-- `CAABB3::pointAt`, impl/caabb3.h:349-357. -/
def pointAt (b : CAABB3 R) (t : Vec3 R) : Vec3 R :=
  ⟨b.center.x + b.extents.x * t.x, b.center.y + b.extents.y * t.y, b.center.z + b.extents.z * t.z⟩
/-- `CAABB3::contains(point)`, impl/caabb3.h:359-365. -/
def contains (b : CAABB3 R) (p : Vec3 R) : Bool :=
  (decide (p.x ≥ b.center.x - b.extents.x) && decide (p.x ≤ b.center.x + b.extents.x)) &&
  (decide (p.y ≥ b.center.y - b.extents.y) && decide (p.y ≤ b.center.y + b.extents.y)) &&
  (decide (p.z ≥ b.center.z - b.extents.z) && decide (p.z ≤ b.center.z + b.extents.z))
/-- `CAABB3::contains(sphere)`, impl/caabb3.h:367-373. -/
def containsSphere (b : CAABB3 R) (s : Sphere R) : Bool :=
  (decide (s.center.x - s.radius ≥ b.center.x - b.extents.x) &&
    decide (s.center.x + s.radius ≤ b.center.x + b.extents.x)) &&
  (decide (s.center.y - s.radius ≥ b.center.y - b.extents.y) &&
    decide (s.center.y + s.radius ≤ b.center.y + b.extents.y)) &&
  (decide (s.center.z - s.radius ≥ b.center.z - b.extents.z) &&
    decide (s.center.z + s.radius ≤ b.center.z + b.extents.z))
/-- `CAABB3::contains(box)`, impl/caabb3.h:375-383. -/
def containsBox (b o : CAABB3 R) : Bool :=
  let c := o.center
  let e := o.extents
  (decide (c.x - e.x ≥ b.center.x - b.extents.x) && decide (c.x + e.x ≤ b.center.x + b.extents.x)) &&
  (decide (c.y - e.y ≥ b.center.y - b.extents.y) && decide (c.y + e.y ≤ b.center.y + b.extents.y)) &&
  (decide (c.z - e.z ≥ b.center.z - b.extents.z) && decide (c.z + e.z ≤ b.center.z + b.extents.z))
/-- `CAABB3::intersects(box)`, impl/caabb3.h:385-396. -/
def intersects (b o : CAABB3 R) : Bool :=
  let m1 := b.inf
  let M1 := b.sup
  let m2 := o.inf
  let M2 := o.sup
  if m2.x > M1.x ∨ M2.x < m1.x then false else
  if m2.y > M1.y ∨ M2.y < m1.y then false else
  if m2.z > M1.z ∨ M2.z < m1.z then false else true
end CAABB3

namespace AABB2
/-- `AABB2::Zero`, impl/aabb2.h:5-8. -/
def zero : AABB2 R := ⟨⟨0, 0⟩, ⟨0, 0⟩⟩
/-- `AABB2::set(point)`, impl/aabb2.h:31-36; `from`, 142-149. -/
def ofPoint (point : Vec2 R) : AABB2 R := ⟨point, point⟩
/-- `AABB2::set(const CAABB2&)`, impl/aabb2.h:46-52; `from`, 160-167. -/
def ofCBox (box : CAABB2 R) : AABB2 R := ⟨box.inf, box.sup⟩
/-- `AABB2::set(count, points, stride)`, impl/aabb2.h:82-111; `from`, 177-183. -/
def setStrided (mem : Mem R) (points : Nat) (count stride : Int) : Res (AABB2 R) := do
  let (inf, sup) ← bounds2 mem points count stride
  .ok ⟨inf, sup⟩
/-- `AABB2::set(count, points)`, impl/aabb2.h:54-80; `from`, 169-175. -/
def set (mem : Mem R) (points : Nat) (count : Int) : Res (AABB2 R) := do
  let (inf, sup) ← bounds2 mem points count (2 * mem.sz)
  .ok ⟨inf, sup⟩
/-- `AABB2::add(point)`, impl/aabb2.h:113-135. -/
def add (b : AABB2 R) (point : Vec2 R) : AABB2 R :=
  let inf := b.inf
  let sup := b.sup
  let inf := if point.x < inf.x then { inf with x := point.x } else inf
  let inf := if point.y < inf.y then { inf with y := point.y } else inf
  let sup := if point.x > sup.x then { sup with x := point.x } else sup
  let sup := if point.y > sup.y then { sup with y := point.y } else sup
  ⟨inf, sup⟩
/-- `AABB2::fromIntersection`, impl/aabb2.h:185-191. -/
def fromIntersection (a b : AABB2 R) : AABB2 R :=
  if a.inf.x > b.sup.x ∨ a.sup.x < b.inf.x then zero else
  if a.inf.y > b.sup.y ∨ a.sup.y < b.inf.y then zero else
  ⟨Vec2.max a.inf b.inf, Vec2.min a.sup b.sup⟩
/-- `AABB2::fromUnion`, impl/aabb2.h:193-197. -/
def fromUnion (a b : AABB2 R) : AABB2 R := ⟨Vec2.min a.inf b.inf, Vec2.max a.sup b.sup⟩
/-- `AABB2::operator+=`, impl/aabb2.h:204-210; `operator+`, 238-245. -/
def translate (b : AABB2 R) (t : Vec2 R) : AABB2 R := ⟨b.inf + t, b.sup + t⟩
/-- `AABB2::operator-=`, impl/aabb2.h:212-218; `operator-`, 247-254. -/
def translateNeg (b : AABB2 R) (t : Vec2 R) : AABB2 R := ⟨b.inf - t, b.sup - t⟩
/-- `AABB2::scaleCentered`, impl/aabb2.h:295-302; `operator*=`, 220-224; `operator*`, 256-262. -/
def scaleCentered (b : AABB2 R) (k : R) : AABB2 R :=
  ofCBox ⟨(b.inf + b.sup) * (1 / 2 : R), (b.sup - b.inf) * (1 / 2 : R) * k⟩
/-- `AABB2::operator/=`, impl/aabb2.h:226-231; `operator/`, 264-271. -/
def unscale (b : AABB2 R) (k : R) : Res (AABB2 R) :=
  if k == 0 then .error .assertion else .ok (b.scaleCentered (1 / k))
/-- `AABB2::operator==`, impl/aabb2.h:278-282. -/
def eq (a b : AABB2 R) : Bool := a.inf.eq b.inf && a.sup.eq b.sup
/-- `AABB2::operator!=`, impl/aabb2.h:284-288. -/
def ne (a b : AABB2 R) : Bool := a.inf.ne b.inf || a.sup.ne b.sup
/-- `AABB2::center`, impl/aabb2.h:309-313. -/
def center (b : AABB2 R) : Vec2 R := (b.inf + b.sup) * (1 / 2 : R)
/-- `AABB2::extents`, impl/aabb2.h:315-319. -/
def extents (b : AABB2 R) : Vec2 R := (b.sup - b.inf) * (1 / 2 : R)
/-- `AABB2::size`, impl/aabb2.h:321-325. -/
def size (b : AABB2 R) : Vec2 R := b.sup - b.inf
/-- `AABB2::innerCircle`, impl/aabb2.h:327-336. -/
def innerCircle (b : AABB2 R) : Res (Circle R) := do
  let extents := (b.sup - b.inf) * (1 / 2 : R)
  let e ← extents.get extents.minorCoord
  .ok ⟨b.center, abs' e⟩
/-- `AABB2::outerCircle`, impl/aabb2.h:338-347. -/
def outerCircle (b : AABB2 R) : Circle R :=
  let extents := (b.sup - b.inf) * (1 / 2 : R)
  ⟨b.center, extents.length⟩
/-- `AABB2::area`, impl/aabb2.h:349-353. -/
def area (b : AABB2 R) : R := (b.sup.x - b.inf.x) * (b.sup.y - b.inf.y)
/-- `AABB2::isNull`, impl/aabb2.h:355-359. -/
def isNull (b : AABB2 R) : Bool := b.sup.eq b.inf
/-- `AABB2::pointAt`, impl/aabb2.h:361-368. -/
def pointAt (b : AABB2 R) (t : Vec2 R) : Vec2 R :=
  ⟨b.inf.x + (b.sup.x - b.inf.x) * t.x, b.inf.y + (b.sup.y - b.inf.y) * t.y⟩
/-- `AABB2::contains(point)`, impl/aabb2.h:370-375. -/
def contains (b : AABB2 R) (p : Vec2 R) : Bool :=
  (decide (p.x ≥ b.inf.x) && decide (p.x ≤ b.sup.x)) &&
  (decide (p.y ≥ b.inf.y) && decide (p.y ≤ b.sup.y))
/-- `AABB2::contains(box)`, impl/aabb2.h:377-382. -/
def containsBox (b o : AABB2 R) : Bool :=
  (decide (o.inf.x ≥ b.inf.x) && decide (o.sup.x ≤ b.sup.x)) &&
  (decide (o.inf.y ≥ b.inf.y) && decide (o.sup.y ≤ b.sup.y))
/-- `AABB2::hits(t, ray)`, impl/aabb2.h:384-432. -/
def hitsRay (b : AABB2 R) (ray : Ray2 R) : Option R := do
  let t ← slabHit b.inf.x b.sup.x ray.start.x ray.direction.x 0
  slabHit b.inf.y b.sup.y ray.start.y ray.direction.y t
/-- `AABB2::hits(t, line)`, impl/aabb2.h:434-487. -/
def hitsLine (b : AABB2 R) (line : Line2 R) : Option R := do
  let delta := line.end - line.start
  let t ← slabHit b.inf.x b.sup.x line.start.x delta.x 0
  let t ← slabHit b.inf.y b.sup.y line.start.y delta.y t
  if t > 1 then none else some t
/-- `AABB2::intersects(box)`, impl/aabb2.h:489-495. -/
def intersects (b o : AABB2 R) : Bool :=
  if o.inf.x > b.sup.x ∨ o.sup.x < b.inf.x then false else
  if o.inf.y > b.sup.y ∨ o.sup.y < b.inf.y then false else true
/-- `AABB2::intersects(t1, t2, ray)`, impl/aabb2.h:497-550. -/
def intersectsRay (M : R) (b : AABB2 R) (ray : Ray2 R) : Option (R × R) := do
  let t ← slabClip b.inf.x b.sup.x ray.start.x ray.direction.x (0, M)
  slabClip b.inf.y b.sup.y ray.start.y ray.direction.y t
/-- `AABB2::intersects(t1, t2, line)`, impl/aabb2.h:552-617. -/
def intersectsLine (M : R) (b : AABB2 R) (line : Line2 R) : Option (R × R) := do
  let delta := line.end - line.start
  let t ← slabClip b.inf.x b.sup.x line.start.x delta.x (0, M)
  let t ← slabClip b.inf.y b.sup.y line.start.y delta.y t
  segmentClip t
end AABB2

namespace AABB3
/-- `AABB3::Zero`, impl/aabb3.h:5-8. -/
def zero : AABB3 R := ⟨⟨0, 0, 0⟩, ⟨0, 0, 0⟩⟩
/-- `AABB3::set(point)`, impl/aabb3.h:31-36; `from`, 154-160. -/
def ofPoint (point : Vec3 R) : AABB3 R := ⟨point, point⟩
/-- `AABB3::set(const CAABB3&)`, impl/aabb3.h:46-52; `from`, 171-178. -/
def ofCBox (box : CAABB3 R) : AABB3 R := ⟨box.center - box.extents, box.center + box.extents⟩
/-- `AABB3::set(count, points, stride)`, impl/aabb3.h:84-115; `from`, 188-194. -/
def setStrided (mem : Mem R) (points : Nat) (count stride : Int) : Res (AABB3 R) := do
  let (inf, sup) ← bounds3 mem points count stride
  .ok ⟨inf, sup⟩
/-- `AABB3::set(count, points)`, impl/aabb3.h:54-82; `from`, 180-186. -/
def set (mem : Mem R) (points : Nat) (count : Int) : Res (AABB3 R) := do
  let (inf, sup) ← bounds3 mem points count (3 * mem.sz)
  .ok ⟨inf, sup⟩
/-- `AABB3::add(point)`, impl/aabb3.h:117-147. -/
def add (b : AABB3 R) (point : Vec3 R) : AABB3 R :=
  let inf := b.inf
  let sup := b.sup
  let inf := if point.x < inf.x then { inf with x := point.x } else inf
  let inf := if point.y < inf.y then { inf with y := point.y } else inf
  let inf := if point.z < inf.z then { inf with z := point.z } else inf
  let sup := if point.x > sup.x then { sup with x := point.x } else sup
  let sup := if point.y > sup.y then { sup with y := point.y } else sup
  let sup := if point.z > sup.z then { sup with z := point.z } else sup
  ⟨inf, sup⟩
/-- `AABB3::fromIntersection`, impl/aabb3.h:196-203. -/
def fromIntersection (a b : AABB3 R) : AABB3 R :=
  if a.inf.x > b.sup.x ∨ a.sup.x < b.inf.x then zero else
  if a.inf.y > b.sup.y ∨ a.sup.y < b.inf.y then zero else
  if a.inf.z > b.sup.z ∨ a.sup.z < b.inf.z then zero else
  ⟨Vec3.max a.inf b.inf, Vec3.min a.sup b.sup⟩
/-- `AABB3::fromUnion`, impl/aabb3.h:205-209. -/
def fromUnion (a b : AABB3 R) : AABB3 R := ⟨Vec3.min a.inf b.inf, Vec3.max a.sup b.sup⟩
/-- `AABB3::operator+=`, impl/aabb3.h:216-222; `operator+`, 250-257. -/
def translate (b : AABB3 R) (t : Vec3 R) : AABB3 R := ⟨b.inf + t, b.sup + t⟩
/-- `AABB3::operator-=`, impl/aabb3.h:224-230; `operator-`, 259-266. -/
def translateNeg (b : AABB3 R) (t : Vec3 R) : AABB3 R := ⟨b.inf - t, b.sup - t⟩
/-- `AABB3::scaleCentered`, impl/aabb3.h:307-314; `operator*=`, 232-236; `operator*`, 268-274. -/
def scaleCentered (b : AABB3 R) (k : R) : AABB3 R :=
  ofCBox ⟨(b.inf + b.sup) * (1 / 2 : R), (b.sup - b.inf) * (1 / 2 : R) * k⟩
/-- `AABB3::operator/=`, impl/aabb3.h:238-243; `operator/`, 276-283. -/
def unscale (b : AABB3 R) (k : R) : Res (AABB3 R) :=
  if k == 0 then .error .assertion else .ok (b.scaleCentered (1 / k))
/-- `AABB3::operator==`, impl/aabb3.h:290-294. -/
def eq (a b : AABB3 R) : Bool := a.inf.eq b.inf && a.sup.eq b.sup
/-- `AABB3::operator!=`, impl/aabb3.h:296-300. -/
def ne (a b : AABB3 R) : Bool := a.inf.ne b.inf || a.sup.ne b.sup
/-- `AABB3::center`, impl/aabb3.h:321-325. -/
def center (b : AABB3 R) : Vec3 R := (b.inf + b.sup) * (1 / 2 : R)
/-- `AABB3::extents`, impl/aabb3.h:327-331. -/
def extents (b : AABB3 R) : Vec3 R := (b.sup - b.inf) * (1 / 2 : R)
/-- `AABB3::size`, impl/aabb3.h:333-337. -/
def size (b : AABB3 R) : Vec3 R := b.sup - b.inf
/-- `AABB3::innerSphere`, impl/aabb3.h:339-347. -/
def innerSphere (b : AABB3 R) : Res (Sphere R) := do
  let extents := (b.sup - b.inf) * (1 / 2 : R)
  let e ← extents.get extents.minorCoord
  .ok ⟨(b.inf + b.sup) * (1 / 2 : R), abs' e⟩
/-- `AABB3::outerSphere`, impl/aabb3.h:349-357. -/
def outerSphere (b : AABB3 R) : Sphere R :=
  let extents := (b.sup - b.inf) * (1 / 2 : R)
  ⟨(b.inf + b.sup) * (1 / 2 : R), extents.length⟩
/-- `AABB3::volume`, impl/aabb3.h:359-363. -/
def volume (b : AABB3 R) : R := (b.sup.x - b.inf.x) * (b.sup.y - b.inf.y) * (b.sup.z - b.inf.z)
/-- `AABB3::isNull`, impl/aabb3.h:365-369. -/
def isNull (b : AABB3 R) : Bool := b.sup.eq b.inf
/-- `AABB3::pointAt`, impl/aabb3.h:371-379. -/
def pointAt (b : AABB3 R) (t : Vec3 R) : Vec3 R :=
  ⟨b.inf.x + (b.sup.x - b.inf.x) * t.x, b.inf.y + (b.sup.y - b.inf.y) * t.y,
    b.inf.z + (b.sup.z - b.inf.z) * t.z⟩
/-- `AABB3::contains(point)`, impl/aabb3.h:381-387. -/
def contains (b : AABB3 R) (p : Vec3 R) : Bool :=
  (decide (p.x ≥ b.inf.x) && decide (p.x ≤ b.sup.x)) &&
  (decide (p.y ≥ b.inf.y) && decide (p.y ≤ b.sup.y)) &&
  (decide (p.z ≥ b.inf.z) && decide (p.z ≤ b.sup.z))
/-- `AABB3::contains(sphere)`, impl/aabb3.h:389-395. -/
def containsSphere (b : AABB3 R) (s : Sphere R) : Bool :=
  (decide (s.center.x - s.radius ≥ b.inf.x) && decide (s.center.x + s.radius ≤ b.sup.x)) &&
  (decide (s.center.y - s.radius ≥ b.inf.y) && decide (s.center.y + s.radius ≤ b.sup.y)) &&
  (decide (s.center.z - s.radius ≥ b.inf.z) && decide (s.center.z + s.radius ≤ b.sup.z))
/-- `AABB3::contains(box)`, impl/aabb3.h:397-403. -/
def containsBox (b o : AABB3 R) : Bool :=
  (decide (o.inf.x ≥ b.inf.x) && decide (o.sup.x ≤ b.sup.x)) &&
  (decide (o.inf.y ≥ b.inf.y) && decide (o.sup.y ≤ b.sup.y)) &&
  (decide (o.inf.z ≥ b.inf.z) && decide (o.sup.z ≤ b.sup.z))
/-- `AABB3::hits(t, ray)`, impl/aabb3.h:405-474. -/
def hitsRay (b : AABB3 R) (ray : Ray3 R) : Option R := do
  let t ← slabHit b.inf.x b.sup.x ray.start.x ray.direction.x 0
  let t ← slabHit b.inf.y b.sup.y ray.start.y ray.direction.y t
  slabHit b.inf.z b.sup.z ray.start.z ray.direction.z t
/-- `AABB3::hits(t, line)`, impl/aabb3.h:476-550. -/
def hitsLine (b : AABB3 R) (line : Line3 R) : Option R := do
  let delta := line.end - line.start
  let t ← slabHit b.inf.x b.sup.x line.start.x delta.x 0
  let t ← slabHit b.inf.y b.sup.y line.start.y delta.y t
  let t ← slabHit b.inf.z b.sup.z line.start.z delta.z t
  if t > 1 then none else some t
/-- `AABB3::intersects(box)`, impl/aabb3.h:552-559. -/
def intersects (b o : AABB3 R) : Bool :=
  if o.inf.x > b.sup.x ∨ o.sup.x < b.inf.x then false else
  if o.inf.y > b.sup.y ∨ o.sup.y < b.inf.y then false else
  if o.inf.z > b.sup.z ∨ o.sup.z < b.inf.z then false else true
/-- `AABB3::intersects(t1, t2, ray)`, impl/aabb3.h:561-637. -/
def intersectsRay (M : R) (b : AABB3 R) (ray : Ray3 R) : Option (R × R) := do
  let t ← slabClip b.inf.x b.sup.x ray.start.x ray.direction.x (0, M)
  let t ← slabClip b.inf.y b.sup.y ray.start.y ray.direction.y t
  slabClip b.inf.z b.sup.z ray.start.z ray.direction.z t
/-- `AABB3::intersects(t1, t2, line)`, impl/aabb3.h:639-727. -/
def intersectsLine (M : R) (b : AABB3 R) (line : Line3 R) : Option (R × R) := do
  let delta := line.end - line.start
  let t ← slabClip b.inf.x b.sup.x line.start.x delta.x (0, M)
  let t ← slabClip b.inf.y b.sup.y line.start.y delta.y t
  let t ← slabClip b.inf.z b.sup.z line.start.z delta.z t
  segmentClip t
end AABB3

end MathLib
