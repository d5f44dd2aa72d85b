import Verif.Model.Local
import Verif.Props.Planes

/-! # Property C109: local axes and planes of a matrix -/

namespace MathLib

/-- unit vector along a coordinate axis -/
def Coord.unit? : Coord → Option (Vec3 ℝ)
  | .X => some ⟨1, 0, 0⟩ | .Y => some ⟨0, 1, 0⟩ | .Z => some ⟨0, 0, 1⟩ | _ => none

/-- unit vector along a signed coordinate axis -/
def Axis.unit? : Axis → Option (Vec3 ℝ)
  | .X => some ⟨1, 0, 0⟩ | .Y => some ⟨0, 1, 0⟩ | .Z => some ⟨0, 0, 1⟩
  | .NX => some ⟨-1, 0, 0⟩ | .NY => some ⟨0, -1, 0⟩ | .NZ => some ⟨0, 0, -1⟩ | _ => none

/-- the points of a ray -/
def Ray3.toSet (r : Ray3 ℝ) : Set (Vec3 ℝ) :=
  {q | ∃ s : ℝ, 0 ≤ s ∧ q = ⟨r.start.x + s * r.direction.x, r.start.y + s * r.direction.y,
    r.start.z + s * r.direction.z⟩}

/-- `f` keeps right angles at the origin between the coordinate axes and flattens none of them -/
def KeepsRightAngles (f : Vec3 ℝ → Vec3 ℝ) : Prop :=
  let o := f ⟨0, 0, 0⟩
  let x := f ⟨1, 0, 0⟩ - o
  let y := f ⟨0, 1, 0⟩ - o
  let z := f ⟨0, 0, 1⟩ - o
  x ≠ Vec3.zero ∧ y ≠ Vec3.zero ∧ z ≠ Vec3.zero ∧ x.dot y = 0 ∧ y.dot z = 0 ∧ x.dot z = 0

theorem Vec3.dot_self_pos {v : Vec3 ℝ} (h : v ≠ Vec3.zero) : 0 < v.dot v := by
  rcases lt_or_eq_of_le (show 0 ≤ v.dot v by
    simp only [Vec3.dot]; nlinarith [mul_self_nonneg v.x, mul_self_nonneg v.y, mul_self_nonneg v.z]) with h' | h'
  · exact h'
  · refine absurd ?_ h
    simp only [Vec3.dot] at h'
    have h1 := mul_self_nonneg v.x
    have h2 := mul_self_nonneg v.y
    have h3 := mul_self_nonneg v.z
    exact Vec3.ext (mul_self_eq_zero.1 (by linarith)) (mul_self_eq_zero.1 (by linarith))
      (mul_self_eq_zero.1 (by linarith))

/-- a vector orthogonal to three orthogonal non-zero vectors is zero -/
theorem Vec3.eq_zero_of_orthogonal {x y z w : Vec3 ℝ} (hx : x ≠ Vec3.zero) (hy : y ≠ Vec3.zero)
    (hz : z ≠ Vec3.zero) (xy : x.dot y = 0) (yz : y.dot z = 0) (xz : x.dot z = 0)
    (wx : x.dot w = 0) (wy : y.dot w = 0) (wz : z.dot w = 0) : w = Vec3.zero := by
  have px := Vec3.dot_self_pos hx
  have py := Vec3.dot_self_pos hy
  have pz := Vec3.dot_self_pos hz
  have key : x.dot (y.cross z) ^ 2 = x.dot x * y.dot y * z.dot z := by
    have : x.dot (y.cross z) ^ 2 = x.dot x * y.dot y * z.dot z + 2 * x.dot y * y.dot z * x.dot z
        - x.dot x * y.dot z ^ 2 - y.dot y * x.dot z ^ 2 - z.dot z * x.dot y ^ 2 := by
      simp only [Vec3.dot, Vec3.cross]; ring
    rw [this, xy, yz, xz]; ring
  have hd : x.dot (y.cross z) ≠ 0 := by
    intro h0; rw [h0] at key; have := mul_pos (mul_pos px py) pz; rw [← key] at this; simp at this
  simp only [Vec3.dot] at wx wy wz
  refine Vec3.ext ?_ ?_ ?_ <;> refine (mul_eq_zero.1 ?_).resolve_left hd <;>
    simp only [Vec3.dot, Vec3.cross]
  · linear_combination (y.y * z.z - y.z * z.y) * wx + (z.y * x.z - z.z * x.y) * wy
      + (x.y * y.z - x.z * y.y) * wz
  · linear_combination (y.z * z.x - y.x * z.z) * wx + (z.z * x.x - z.x * x.z) * wy
      + (x.z * y.x - x.x * y.z) * wz
  · linear_combination (y.x * z.y - y.y * z.x) * wx + (z.x * x.y - z.y * x.x) * wy
      + (x.x * y.y - x.y * y.x) * wz

/-- the ray built from an origin and a non-zero vector -/
theorem ray_from_toSet (t x : Vec3 ℝ) (hx : x ≠ Vec3.zero) :
    (Ray3.from t x).toSet = {q | ∃ s : ℝ, 0 ≤ s ∧ q = t + x * s} ∧ (Ray3.from t x).direction.length = 1 := by
  obtain ⟨hp, e, hl⟩ := (C22_normalize3 x 1).2.2.2 hx
  refine ⟨Set.ext fun q => ?_, by simpa [Ray3.from] using hl⟩
  simp only [Ray3.toSet, Ray3.from, e, Set.mem_ofPred_eq]
  constructor
  · rintro ⟨s, hs, rfl⟩
    refine ⟨s * (1 / x.length), by positivity, ?_⟩
    ext <;> simp <;> ring
  · rintro ⟨s, hs, rfl⟩
    refine ⟨s * x.length, by positivity, ?_⟩
    ext <;> simp <;> field_simp

theorem ray_from_image (t x : Vec3 ℝ) (f : Vec3 ℝ → Vec3 ℝ) (e : Vec3 ℝ) (h0 : f ⟨0, 0, 0⟩ = t)
    (hs : ∀ s : ℝ, f (e * s) = t + x * s) (hne : f e ≠ f ⟨0, 0, 0⟩) :
    (Ray3.from t x).toSet = {q | ∃ s : ℝ, 0 ≤ s ∧ q = f (e * s)} ∧
      (Ray3.from t x).direction.length = 1 ∧ (Ray3.from t x).start = f ⟨0, 0, 0⟩ := by
  have hx : x ≠ Vec3.zero := by
    rintro rfl
    apply hne
    have h1 := hs 1
    rw [show e * (1 : ℝ) = e by ext <;> simp] at h1
    rw [h1, h0]; ext <;> simp [Vec3.zero]
  obtain ⟨h1, h2⟩ := ray_from_toSet t x hx
  exact ⟨by rw [h1]; simp only [hs], h2, by rw [h0]; rfl⟩

/-- C109: `localAxis(c)` is the image of the positive half of coordinate axis `c` under the affine map
of the matrix, with a unit direction, whenever the map does not flatten that axis.  `Coord::W` and
`Coord::Undefined` fail the assertion. -/
theorem C109_axis :
    (∀ (m : Mat34 ℝ) (c : Coord) (e : Vec3 ℝ), c.unit? = some e → m.mulVec e ≠ m.mulVec ⟨0, 0, 0⟩ →
      ∃ r, m.localAxis c = .ok r ∧ r.toSet = {q | ∃ s : ℝ, 0 ≤ s ∧ q = m.mulVec (e * s)} ∧
        r.direction.length = 1 ∧ r.start = m.mulVec ⟨0, 0, 0⟩) ∧
    (∀ (m : Mat4 ℝ) (c : Coord) (e : Vec3 ℝ), c.unit? = some e → m.mulVec3 e ≠ m.mulVec3 ⟨0, 0, 0⟩ →
      ∃ r, m.localAxis c = .ok r ∧ r.toSet = {q | ∃ s : ℝ, 0 ≤ s ∧ q = m.mulVec3 (e * s)} ∧
        r.direction.length = 1 ∧ r.start = m.mulVec3 ⟨0, 0, 0⟩) ∧
    (∀ c : Coord, c.unit? = none → (∀ m : Mat34 ℝ, m.localAxis c = .error .assertion) ∧
      ∀ m : Mat4 ℝ, m.localAxis c = .error .assertion) := by
  refine ⟨fun m c e he hne => ?_, fun m c e he hne => ?_, fun c hc => ?_⟩
  · cases c <;> simp only [Coord.unit?, Option.some.injEq, reduceCtorEq] at he <;> subst he
    all_goals
      exact ⟨_, rfl, ray_from_image _ _ m.mulVec _ (by ext <;> simp [Mat34.mulVec])
        (fun s => by ext <;> simp [Mat34.mulVec] <;> ring) hne⟩
  · cases c <;> simp only [Coord.unit?, Option.some.injEq, reduceCtorEq] at he <;> subst he
    all_goals
      exact ⟨_, rfl, ray_from_image _ _ m.mulVec3 _ (by ext <;> simp [Mat4.mulVec3, Vec4.toVec3])
        (fun s => by ext <;> simp [Mat4.mulVec3, Vec4.toVec3] <;> ring) hne⟩
  · cases c <;> simp only [Coord.unit?, reduceCtorEq] at hc <;> exact ⟨fun _ => rfl, fun _ => rfl⟩

/-- the coordinate form is the positive axis of the signed form -/
def Coord.toAxis : Coord → Axis
  | .X => .X | .Y => .Y | .Z => .Z | _ => .Undefined

theorem C109_plane_coord (c : Coord) :
    (∀ m : Mat34 ℝ, m.localPlane c = m.localPlaneAxis c.toAxis) ∧
    (∀ m : Mat4 ℝ, m.localPlane c = m.localPlaneAxis c.toAxis) := by
  cases c <;> exact ⟨fun _ => rfl, fun _ => rfl⟩

/-- C109: `localPlane(a)` goes through the image of the origin, its unit normal points the way the map
takes axis `a`. -/
theorem C109_plane_normal :
    (∀ (m : Mat34 ℝ) (a : Axis) (e : Vec3 ℝ), a.unit? = some e → m.mulVec e ≠ m.mulVec ⟨0, 0, 0⟩ →
      ∃ p, m.localPlaneAxis a = .ok p ∧ p.IsUnit ∧ p.normal.SameDir (m.mulVec e - m.mulVec ⟨0, 0, 0⟩) ∧
        m.mulVec ⟨0, 0, 0⟩ ∈ p.toSet) ∧
    (∀ (m : Mat4 ℝ) (a : Axis) (e : Vec3 ℝ), a.unit? = some e → m.mulVec3 e ≠ m.mulVec3 ⟨0, 0, 0⟩ →
      ∃ p, m.localPlaneAxis a = .ok p ∧ p.IsUnit ∧ p.normal.SameDir (m.mulVec3 e - m.mulVec3 ⟨0, 0, 0⟩) ∧
        m.mulVec3 ⟨0, 0, 0⟩ ∈ p.toSet) ∧
    (∀ a : Axis, a.unit? = none → (∀ m : Mat34 ℝ, m.localPlaneAxis a = .error .assertion) ∧
      ∀ m : Mat4 ℝ, m.localPlaneAxis a = .error .assertion) := by
  have key : ∀ t x t' x' : Vec3 ℝ, t' = t → x' = x → x ≠ Vec3.zero →
      (Plane.fromPoint t x).IsUnit ∧ (Plane.fromPoint t x).normal.SameDir x' ∧
        t' ∈ (Plane.fromPoint t x).toSet := by
    intro t x t' x' h1 h2 hx
    subst h1 h2
    exact (C77_normal _ _ 0 hx).1
  have sub_ne : ∀ a b : Vec3 ℝ, a ≠ b → a - b ≠ Vec3.zero := by
    intro a b h h0; apply h
    have e1 := congrArg Vec3.x h0; have e2 := congrArg Vec3.y h0; have e3 := congrArg Vec3.z h0
    simp only [Vec3.sub_x, Vec3.sub_y, Vec3.sub_z, Vec3.zero] at e1 e2 e3
    exact Vec3.ext (sub_eq_zero.1 e1) (sub_eq_zero.1 e2) (sub_eq_zero.1 e3)
  refine ⟨fun m a e he hne => ?_, fun m a e he hne => ?_, fun a ha => ?_⟩
  · cases a <;> simp only [Axis.unit?, Option.some.injEq, reduceCtorEq] at he <;> subst he
    all_goals
      refine ⟨_, rfl, ?_⟩
      have ht : m.mulVec ⟨0, 0, 0⟩ = m.t := by ext <;> simp [Mat34.mulVec]
      have h0 := sub_ne _ _ hne
      exact key _ _ _ _ ht (by rw [ht]; ext <;> simp [Mat34.mulVec])
        (by convert h0 using 1; rw [ht]; ext <;> simp [Mat34.mulVec])
  · cases a <;> simp only [Axis.unit?, Option.some.injEq, reduceCtorEq] at he <;> subst he
    all_goals
      refine ⟨_, rfl, ?_⟩
      have ht : m.mulVec3 ⟨0, 0, 0⟩ = m.t.toVec3 := by ext <;> simp [Mat4.mulVec3, Vec4.toVec3]
      have h0 := sub_ne _ _ hne
      exact key _ _ _ _ ht (by rw [ht]; ext <;> simp [Mat4.mulVec3, Vec4.toVec3])
        (by convert h0 using 1; rw [ht]; ext <;> simp [Mat4.mulVec3, Vec4.toVec3])
  · cases a <;> simp only [Axis.unit?, reduceCtorEq] at ha <;> exact ⟨fun _ => rfl, fun _ => rfl⟩

/-- the plane with normal `x` through `t` among orthogonal `x, y, z` is spanned by `y` and `z` -/
theorem plane_from_toSet {t x y z : Vec3 ℝ} (hx : x ≠ Vec3.zero) (hy : y ≠ Vec3.zero)
    (hz : z ≠ Vec3.zero) (xy : x.dot y = 0) (yz : y.dot z = 0) (xz : x.dot z = 0) :
    (Plane.fromPoint t x).toSet = {q | ∃ a b : ℝ, q = t + y * a + z * b} := by
  obtain ⟨hp, e, hl⟩ := (C22_normalize3 x 1).2.2.2 hx
  have hmem : ∀ q, q ∈ (Plane.fromPoint t x).toSet ↔ x.dot (q - t) = 0 := by
    intro q
    simp only [Plane.toSet, Plane.fromPoint, e, Set.mem_ofPred_eq, Vec3.dot, Vec3.mul_x, Vec3.mul_y,
      Vec3.mul_z, Vec3.sub_x, Vec3.sub_y, Vec3.sub_z]
    rw [← sub_eq_zero]
    have : ∀ A : ℝ, A * (1 / x.length) = 0 ↔ A = 0 := fun A => by simp [hp.ne']
    rw [← this (x.x * (q.x - t.x) + x.y * (q.y - t.y) + x.z * (q.z - t.z))]
    refine Eq.congr ?_ rfl
    ring
  ext q
  rw [hmem]
  constructor
  · intro h
    have py := Vec3.dot_self_pos hy
    have pz := Vec3.dot_self_pos hz
    refine ⟨y.dot (q - t) / y.dot y, z.dot (q - t) / z.dot z, ?_⟩
    have h0 := Vec3.eq_zero_of_orthogonal (w := q - t - y * (y.dot (q - t) / y.dot y)
      - z * (z.dot (q - t) / z.dot z)) hx hy hz xy yz xz ?_ ?_ ?_
    · have e1 := congrArg Vec3.x h0; have e2 := congrArg Vec3.y h0; have e3 := congrArg Vec3.z h0
      simp only [Vec3.sub_x, Vec3.sub_y, Vec3.sub_z, Vec3.zero, Vec3.mul_x, Vec3.mul_y, Vec3.mul_z] at e1 e2 e3
      ext <;> simp only [Vec3.add_x, Vec3.add_y, Vec3.add_z, Vec3.mul_x, Vec3.mul_y, Vec3.mul_z] <;> linarith
    · have : ∀ a b : ℝ, x.dot (q - t - y * a - z * b) = x.dot (q - t) - a * x.dot y - b * x.dot z := by
        intro a b; simp [Vec3.dot]; ring
      rw [this, h, xy, xz]; ring
    · have : ∀ a b : ℝ, y.dot (q - t - y * a - z * b) = y.dot (q - t) - a * y.dot y - b * y.dot z := by
        intro a b; simp [Vec3.dot]; ring
      rw [this, yz]; field_simp; ring
    · have : ∀ a b : ℝ, z.dot (q - t - y * a - z * b) = z.dot (q - t) - a * y.dot z - b * z.dot z := by
        intro a b; simp [Vec3.dot]; ring
      rw [this, yz]; field_simp; ring
  · rintro ⟨a, b, rfl⟩
    have : x.dot (t + y * a + z * b - t) = a * x.dot y + b * x.dot z := by simp [Vec3.dot]; ring
    rw [this, xy, xz]; ring

/-- Full statement of the plane half of C109: the plane is the image of the coordinate plane. -/
def C109_plane_full : Prop :=
  ∀ (m : Mat34 ℝ) (a : Axis) (e : Vec3 ℝ), a.unit? = some e → m.mulVec e ≠ m.mulVec ⟨0, 0, 0⟩ →
    ∃ p, m.localPlaneAxis a = .ok p ∧ p.toSet = {q | ∃ u : Vec3 ℝ, u.dot e = 0 ∧ q = m.mulVec u}

/-- It fails for a shear: the plane keeps the column as its normal, the image of the coordinate plane
does not. -/
theorem C109_plane_refuted : ¬ C109_plane_full := by
  intro h
  obtain ⟨p, h1, h2⟩ := h (Mat34.ofCols ⟨1, 0, 0⟩ ⟨1, 1, 0⟩ ⟨0, 0, 1⟩ ⟨0, 0, 0⟩) .X ⟨1, 0, 0⟩ rfl (by
    simp [Mat34.mulVec, Mat34.ofCols, Mat3.ofCols, Mat3.optimize, Mat3.optimizeTol])
  injection h1 with h1
  subst h1
  have hm : (⟨1, 1, 0⟩ : Vec3 ℝ) ∈ (Plane.fromPoint (⟨0, 0, 0⟩ : Vec3 ℝ) ⟨1, 0, 0⟩).toSet := by
    have : (Mat34.ofCols (⟨1, 0, 0⟩ : Vec3 ℝ) ⟨1, 1, 0⟩ ⟨0, 0, 1⟩ ⟨0, 0, 0⟩).rs.x = ⟨1, 0, 0⟩ := by
      simp [Mat34.ofCols, Mat3.ofCols, Mat3.optimize, Mat3.optimizeTol]
    rw [this] at h2
    have ht : (Mat34.ofCols (⟨1, 0, 0⟩ : Vec3 ℝ) ⟨1, 1, 0⟩ ⟨0, 0, 1⟩ ⟨0, 0, 0⟩).t = ⟨0, 0, 0⟩ := rfl
    rw [ht] at h2
    rw [h2]
    refine ⟨⟨0, 1, 0⟩, by simp [Vec3.dot], ?_⟩
    simp [Mat34.mulVec, Mat34.ofCols, Mat3.ofCols, Mat3.optimize, Mat3.optimizeTol]
  simp [Plane.toSet, Plane.fromPoint, Vec3.normalized, Vec3.length, Vec3.dot] at hm

/-- C109 where the map keeps the axes at right angles (rotation, translation, scaling, even with
different factors): the plane is exactly the image of the coordinate plane. -/
theorem C109_plane_partial :
    (∀ (m : Mat34 ℝ) (a : Axis) (e : Vec3 ℝ), a.unit? = some e → KeepsRightAngles m.mulVec →
      ∃ p, m.localPlaneAxis a = .ok p ∧ p.toSet = {q | ∃ u : Vec3 ℝ, u.dot e = 0 ∧ q = m.mulVec u}) ∧
    (∀ (m : Mat4 ℝ) (a : Axis) (e : Vec3 ℝ), a.unit? = some e → KeepsRightAngles m.mulVec3 →
      ∃ p, m.localPlaneAxis a = .ok p ∧ p.toSet = {q | ∃ u : Vec3 ℝ, u.dot e = 0 ∧ q = m.mulVec3 u}) := by
  have gen : ∀ (t x y z : Vec3 ℝ) (f : Vec3 ℝ → Vec3 ℝ), (∀ u, f u = t + x * u.x + y * u.y + z * u.z) →
      KeepsRightAngles f → ∀ (a : Axis) (e : Vec3 ℝ) (r : Res (Plane ℝ)), a.unit? = some e →
      r = (match a with
        | .X => .ok (Plane.fromPoint t x) | .Y => .ok (Plane.fromPoint t y) | .Z => .ok (Plane.fromPoint t z)
        | .NX => .ok (Plane.fromPoint t (-x)) | .NY => .ok (Plane.fromPoint t (-y))
        | .NZ => .ok (Plane.fromPoint t (-z)) | .Undefined => .error .assertion) →
      ∃ p, r = .ok p ∧ p.toSet = {q | ∃ u : Vec3 ℝ, u.dot e = 0 ∧ q = f u} := by
    intro t x y z f hf hk a e r he hr
    have ex : f ⟨1, 0, 0⟩ - f ⟨0, 0, 0⟩ = x := by rw [hf, hf]; ext <;> simp
    have ey : f ⟨0, 1, 0⟩ - f ⟨0, 0, 0⟩ = y := by rw [hf, hf]; ext <;> simp
    have ez : f ⟨0, 0, 1⟩ - f ⟨0, 0, 0⟩ = z := by rw [hf, hf]; ext <;> simp
    simp only [KeepsRightAngles, ex, ey, ez] at hk
    obtain ⟨hx, hy, hz, xy, yz, xz⟩ := hk
    have ng : ∀ v : Vec3 ℝ, v ≠ Vec3.zero → -v ≠ Vec3.zero := by
      intro v hv h0; apply hv
      have e1 := congrArg Vec3.x h0; have e2 := congrArg Vec3.y h0; have e3 := congrArg Vec3.z h0
      simp only [Vec3.neg_x, Vec3.neg_y, Vec3.neg_z, Vec3.zero, neg_eq_zero] at e1 e2 e3
      exact Vec3.ext e1 e2 e3
    have dn : ∀ u v : Vec3 ℝ, u.dot v = 0 → (-u).dot v = 0 := by
      intro u v h; simp only [Vec3.dot, Vec3.neg_x, Vec3.neg_y, Vec3.neg_z] at *; linarith
    have dc : ∀ u v : Vec3 ℝ, u.dot v = v.dot u := by intro u v; simp only [Vec3.dot]; ring
    have comm : ∀ (s : Set (Vec3 ℝ)) (P : Vec3 ℝ → ℝ) (g : ℝ → ℝ → Vec3 ℝ) (v w : Vec3 ℝ),
        s = {q | ∃ a b : ℝ, q = t + v * a + w * b} →
        (∀ u, P u = 0 → ∃ a b : ℝ, f u = t + v * a + w * b) →
        (∀ a b, P (g a b) = 0 ∧ f (g a b) = t + v * a + w * b) →
        s = {q | ∃ u : Vec3 ℝ, P u = 0 ∧ q = f u} := by
      rintro s P g v w rfl h1 h2
      ext q
      constructor
      · rintro ⟨a, b, rfl⟩; exact ⟨g a b, (h2 a b).1, (h2 a b).2.symm⟩
      · rintro ⟨u, hu, rfl⟩; exact h1 u hu
    cases a <;> simp only [Axis.unit?, Option.some.injEq, reduceCtorEq] at he <;> subst he <;>
      refine ⟨_, hr, ?_⟩
    · refine comm _ (fun u => u.dot _) (fun a b => ⟨0, a, b⟩) _ _ (plane_from_toSet hx hy hz xy yz xz) ?_ ?_
      · intro u hu; refine ⟨u.y, u.z, ?_⟩
        have : u.x = 0 := by simpa [Vec3.dot] using hu
        rw [hf, this]; ext <;> simp
      · intro a b; refine ⟨by simp [Vec3.dot], ?_⟩; rw [hf]; ext <;> simp
    · refine comm _ (fun u => u.dot _) (fun a b => ⟨a, 0, b⟩) _ _
        (plane_from_toSet hy hx hz (by rw [dc, xy]) xz yz) ?_ ?_
      · intro u hu; refine ⟨u.x, u.z, ?_⟩
        have : u.y = 0 := by simpa [Vec3.dot] using hu
        rw [hf, this]; ext <;> simp
      · intro a b; refine ⟨by simp [Vec3.dot], ?_⟩; rw [hf]; ext <;> simp
    · refine comm _ (fun u => u.dot _) (fun a b => ⟨a, b, 0⟩) _ _
        (plane_from_toSet hz hx hy (by rw [dc, xz]) xy (by rw [dc, yz])) ?_ ?_
      · intro u hu; refine ⟨u.x, u.y, ?_⟩
        have : u.z = 0 := by simpa [Vec3.dot] using hu
        rw [hf, this]; ext <;> simp
      · intro a b; refine ⟨by simp [Vec3.dot], ?_⟩; rw [hf]; ext <;> simp
    · refine comm _ (fun u => u.dot _) (fun a b => ⟨0, a, b⟩) _ _
        (plane_from_toSet (ng _ hx) hy hz (dn _ _ xy) yz (dn _ _ xz)) ?_ ?_
      · intro u hu; refine ⟨u.y, u.z, ?_⟩
        have : u.x = 0 := by simpa [Vec3.dot] using hu
        rw [hf, this]; ext <;> simp
      · intro a b; refine ⟨by simp [Vec3.dot], ?_⟩; rw [hf]; ext <;> simp
    · refine comm _ (fun u => u.dot _) (fun a b => ⟨a, 0, b⟩) _ _
        (plane_from_toSet (ng _ hy) hx hz (dn _ _ (by rw [dc, xy])) xz (dn _ _ yz)) ?_ ?_
      · intro u hu; refine ⟨u.x, u.z, ?_⟩
        have : u.y = 0 := by simpa [Vec3.dot] using hu
        rw [hf, this]; ext <;> simp
      · intro a b; refine ⟨by simp [Vec3.dot], ?_⟩; rw [hf]; ext <;> simp
    · refine comm _ (fun u => u.dot _) (fun a b => ⟨a, b, 0⟩) _ _
        (plane_from_toSet (ng _ hz) hx hy (dn _ _ (by rw [dc, xz])) xy (dn _ _ (by rw [dc, yz]))) ?_ ?_
      · intro u hu; refine ⟨u.x, u.y, ?_⟩
        have : u.z = 0 := by simpa [Vec3.dot] using hu
        rw [hf, this]; ext <;> simp
      · intro a b; refine ⟨by simp [Vec3.dot], ?_⟩; rw [hf]; ext <;> simp
  refine ⟨fun m a e he hk => gen m.t m.rs.x m.rs.y m.rs.z m.mulVec (fun u => ?_) hk a e _ he ?_,
    fun m a e he hk => gen m.t.toVec3 m.x.toVec3 m.y.toVec3 m.z.toVec3 m.mulVec3 (fun u => ?_) hk a e _ he ?_⟩
  · ext <;> simp [Mat34.mulVec] <;> ring
  · cases a <;> rfl
  · ext <;> simp [Mat4.mulVec3, Vec4.toVec3] <;> ring
  · cases a <;> rfl

/-- The constants `XY`, `YZ`, `ZX` are the coordinate planes, with unit normals. -/
theorem C109_constants :
    (Plane.XY : Plane ℝ).toSet = {q | q.z = 0} ∧ (Plane.YZ : Plane ℝ).toSet = {q | q.x = 0} ∧
    (Plane.ZX : Plane ℝ).toSet = {q | q.y = 0} ∧
    (Plane.XY : Plane ℝ).IsUnit ∧ (Plane.YZ : Plane ℝ).IsUnit ∧ (Plane.ZX : Plane ℝ).IsUnit := by
  refine ⟨?_, ?_, ?_, ?_, ?_, ?_⟩
  · ext q; simp [Plane.toSet, Plane.XY]
  · ext q; simp [Plane.toSet, Plane.YZ]
  · ext q; simp [Plane.toSet, Plane.ZX]
  all_goals simp [Plane.IsUnit, Plane.XY, Plane.YZ, Plane.ZX]

/-- a turned and unevenly scaled frame meets the hypotheses -/
example : KeepsRightAngles (Mat34.ofCols (⟨0, 2, 0⟩ : Vec3 ℝ) ⟨-3, 0, 0⟩ ⟨0, 0, 5⟩ ⟨1, 2, 3⟩).mulVec := by
  simp [KeepsRightAngles, Mat34.mulVec, Mat34.ofCols, Mat3.ofCols, Mat3.optimize, Mat3.optimizeTol,
    Vec3.dot, Vec3.zero, Vec3.ext_iff]

end MathLib
