import Verif.Props.RoundedVectors
import Verif.Model.Geom
import Mathlib.Analysis.InnerProductSpace.PiL2

/-! # Property C120: forward error of products in floating point

The result differs from the exact one by at most `gam u n` times the sum of the absolute values of the terms. -/

namespace MathLib
variable {rnd : ℝ → ℝ} {u : ℝ}

section
variable (hr : IsRel rnd u)
include hr

private theorem pr (x y : ℝ) : AbsErr u 1 |x * y| (x * y) (.num x * .num y : Fl ℝ rnd) :=
  AbsErr.of_rel hr (Rel.mul hr (Rel.exact hr x) (Rel.exact hr y))

theorem abs_sum2 (a b c d : ℝ) : AbsErr u 2 (|a * b| + |c * d|) (a * b + c * d)
    (.num a * .num b + .num c * .num d : Fl ℝ rnd) := AbsErr.add hr (pr hr a b) (pr hr c d)
theorem abs_diff2 (a b c d : ℝ) : AbsErr u 2 (|a * b| + |c * d|) (a * b - c * d)
    (.num a * .num b - .num c * .num d : Fl ℝ rnd) := AbsErr.sub hr (pr hr a b) (pr hr c d)
theorem abs_sum3 (a b c d e f : ℝ) : AbsErr u 3 (|a * b| + |c * d| + |e * f|) (a * b + c * d + e * f)
    (.num a * .num b + .num c * .num d + .num e * .num f : Fl ℝ rnd) := AbsErr.add hr (abs_sum2 hr a b c d) (pr hr e f)
theorem abs_sum4 (a b c d e f g h : ℝ) : AbsErr u 4 (|a * b| + |c * d| + |e * f| + |g * h|)
    (a * b + c * d + e * f + g * h)
    (.num a * .num b + .num c * .num d + .num e * .num f + .num g * .num h : Fl ℝ rnd) :=
  AbsErr.add hr (abs_sum3 hr a b c d e f) (pr hr g h)
theorem abs_sum3t (a b c d e f g : ℝ) : AbsErr u 4 (|a * b| + |c * d| + |e * f| + |g|)
    (a * b + c * d + e * f + g)
    (.num a * .num b + .num c * .num d + .num e * .num f + .num g : Fl ℝ rnd) :=
  AbsErr.add hr (abs_sum3 hr a b c d e f) (AbsErr.exact hr g)

/-- C120: scalar products. -/
theorem C120_dot (a b : Vec2 ℝ) (c d : Vec3 ℝ) (e f : Vec4 ℝ) :
    ((Vec2.num a : Vec2 (Fl ℝ rnd)).dot (Vec2.num b)).Within (gam u 2 * (|a.x * b.x| + |a.y * b.y|))
      (a.x * b.x + a.y * b.y) ∧
    ((Vec3.num c : Vec3 (Fl ℝ rnd)).dot (Vec3.num d)).Within
      (gam u 3 * (|c.x * d.x| + |c.y * d.y| + |c.z * d.z|)) (c.x * d.x + c.y * d.y + c.z * d.z) ∧
    ((Vec4.num e : Vec4 (Fl ℝ rnd)).dot (Vec4.num f)).Within
      (gam u 4 * (|e.x * f.x| + |e.y * f.y| + |e.z * f.z| + |e.w * f.w|))
      (e.x * f.x + e.y * f.y + e.z * f.z + e.w * f.w) :=
  ⟨(abs_sum2 hr _ _ _ _).within, (abs_sum3 hr _ _ _ _ _ _).within, (abs_sum4 hr _ _ _ _ _ _ _ _).within⟩

/-- C120: vector products and the 2x2 determinant. -/
theorem C120_cross (a b : Vec2 ℝ) (c d : Vec3 ℝ) (m : Mat2 ℝ) :
    ((Vec2.num a : Vec2 (Fl ℝ rnd)).cross (Vec2.num b)).Within (gam u 2 * (|a.x * b.y| + |a.y * b.x|))
      (a.x * b.y - a.y * b.x) ∧
    (let r := (Vec3.num c : Vec3 (Fl ℝ rnd)).cross (Vec3.num d)
     r.x.Within (gam u 2 * (|c.y * d.z| + |c.z * d.y|)) (c.y * d.z - c.z * d.y) ∧
     r.y.Within (gam u 2 * (|c.z * d.x| + |c.x * d.z|)) (c.z * d.x - c.x * d.z) ∧
     r.z.Within (gam u 2 * (|c.x * d.y| + |c.y * d.x|)) (c.x * d.y - c.y * d.x)) ∧
    (Mat2.mk (Vec2.num m.x : Vec2 (Fl ℝ rnd)) (Vec2.num m.y) m.flags).determinant.Within
      (gam u 2 * (|m.x.x * m.y.y| + |m.x.y * m.y.x|)) (m.x.x * m.y.y - m.x.y * m.y.x) :=
  ⟨(abs_diff2 hr _ _ _ _).within, ⟨(abs_diff2 hr _ _ _ _).within, (abs_diff2 hr _ _ _ _).within,
    (abs_diff2 hr _ _ _ _).within⟩, (abs_diff2 hr _ _ _ _).within⟩

/-- C120: matrix times vector, every coordinate. -/
theorem C120_mulVec (x y z v t : Vec3 ℝ) (f : Flags) (p q w : Vec2 ℝ) :
    (let r := (Mat2.mk (Vec2.num p : Vec2 (Fl ℝ rnd)) (Vec2.num q) f).mulVec (Vec2.num w)
     r.x.Within (gam u 2 * (|w.x * p.x| + |w.y * q.x|)) (w.x * p.x + w.y * q.x) ∧
     r.y.Within (gam u 2 * (|w.x * p.y| + |w.y * q.y|)) (w.x * p.y + w.y * q.y)) ∧
    (let r := (Mat3.mk (Vec3.num x : Vec3 (Fl ℝ rnd)) (Vec3.num y) (Vec3.num z) f).mulVec (Vec3.num v)
     r.x.Within (gam u 3 * (|v.x * x.x| + |v.y * y.x| + |v.z * z.x|)) (v.x * x.x + v.y * y.x + v.z * z.x) ∧
     r.y.Within (gam u 3 * (|v.x * x.y| + |v.y * y.y| + |v.z * z.y|)) (v.x * x.y + v.y * y.y + v.z * z.y) ∧
     r.z.Within (gam u 3 * (|v.x * x.z| + |v.y * y.z| + |v.z * z.z|)) (v.x * x.z + v.y * y.z + v.z * z.z)) ∧
    (let r := (Mat34.mk (Mat3.mk (Vec3.num x : Vec3 (Fl ℝ rnd)) (Vec3.num y) (Vec3.num z) f) (Vec3.num t)).mulVec
        (Vec3.num v)
     r.x.Within (gam u 4 * (|v.x * x.x| + |v.y * y.x| + |v.z * z.x| + |t.x|))
       (v.x * x.x + v.y * y.x + v.z * z.x + t.x) ∧
     r.y.Within (gam u 4 * (|v.x * x.y| + |v.y * y.y| + |v.z * z.y| + |t.y|))
       (v.x * x.y + v.y * y.y + v.z * z.y + t.y) ∧
     r.z.Within (gam u 4 * (|v.x * x.z| + |v.y * y.z| + |v.z * z.z| + |t.z|))
       (v.x * x.z + v.y * y.z + v.z * z.z + t.z)) :=
  ⟨⟨(abs_sum2 hr _ _ _ _).within, (abs_sum2 hr _ _ _ _).within⟩,
   ⟨(abs_sum3 hr _ _ _ _ _ _).within, (abs_sum3 hr _ _ _ _ _ _).within, (abs_sum3 hr _ _ _ _ _ _).within⟩,
   ⟨(abs_sum3t hr _ _ _ _ _ _ _).within, (abs_sum3t hr _ _ _ _ _ _ _).within,
    (abs_sum3t hr _ _ _ _ _ _ _).within⟩⟩

/-- C120: matrix times vector for `Mat4`. -/
theorem C120_mulVec4 (x y z t v : Vec4 ℝ) (f : Flags) :
    let r := (Mat4.mk (Vec4.num x : Vec4 (Fl ℝ rnd)) (Vec4.num y) (Vec4.num z) (Vec4.num t) f).mulVec4 (Vec4.num v)
    r.x.Within (gam u 4 * (|v.x * x.x| + |v.y * y.x| + |v.z * z.x| + |v.w * t.x|))
      (v.x * x.x + v.y * y.x + v.z * z.x + v.w * t.x) ∧
    r.y.Within (gam u 4 * (|v.x * x.y| + |v.y * y.y| + |v.z * z.y| + |v.w * t.y|))
      (v.x * x.y + v.y * y.y + v.z * z.y + v.w * t.y) ∧
    r.z.Within (gam u 4 * (|v.x * x.z| + |v.y * y.z| + |v.z * z.z| + |v.w * t.z|))
      (v.x * x.z + v.y * y.z + v.z * z.z + v.w * t.z) ∧
    r.w.Within (gam u 4 * (|v.x * x.w| + |v.y * y.w| + |v.z * z.w| + |v.w * t.w|))
      (v.x * x.w + v.y * y.w + v.z * z.w + v.w * t.w) :=
  ⟨(abs_sum4 hr _ _ _ _ _ _ _ _).within, (abs_sum4 hr _ _ _ _ _ _ _ _).within,
   (abs_sum4 hr _ _ _ _ _ _ _ _).within, (abs_sum4 hr _ _ _ _ _ _ _ _).within⟩

/-- C120: quaternion products.  For unit quaternions every sum of absolute values is at most 1, see below. -/
theorem C120_quat (p q : Quat ℝ) :
    let r := (Quat.num p : Quat (Fl ℝ rnd)).mul (Quat.num q)
    r.x.Within (gam u 4 * (|p.w * q.x| + |p.x * q.w| + |p.y * q.z| + |p.z * q.y|))
      (p.w * q.x + p.x * q.w + p.y * q.z - p.z * q.y) ∧
    r.y.Within (gam u 4 * (|p.w * q.y| + |p.y * q.w| + |p.z * q.x| + |p.x * q.z|))
      (p.w * q.y + p.y * q.w + p.z * q.x - p.x * q.z) ∧
    r.z.Within (gam u 4 * (|p.w * q.z| + |p.z * q.w| + |p.x * q.y| + |p.y * q.x|))
      (p.w * q.z + p.z * q.w + p.x * q.y - p.y * q.x) ∧
    r.w.Within (gam u 4 * (|p.w * q.w| + |p.x * q.x| + |p.y * q.y| + |p.z * q.z|))
      (p.w * q.w - p.x * q.x - p.y * q.y - p.z * q.z) := by
  have h : ∀ a b c d e f g h : ℝ, AbsErr u 4 (|a * b| + |c * d| + |e * f| + |g * h|)
      (a * b + c * d + e * f - g * h)
      (.num a * .num b + .num c * .num d + .num e * .num f - .num g * .num h : Fl ℝ rnd) :=
    fun a b c d e f g h => AbsErr.sub hr (abs_sum3 hr a b c d e f) (pr hr g h)
  have h' : ∀ a b c d e f g h : ℝ, AbsErr u 4 (|a * b| + |c * d| + |e * f| + |g * h|)
      (a * b - c * d - e * f - g * h)
      (.num a * .num b - .num c * .num d - .num e * .num f - .num g * .num h : Fl ℝ rnd) :=
    fun a b c d e f g h => AbsErr.sub hr (AbsErr.sub hr (abs_diff2 hr a b c d) (pr hr e f) (k := 3)) (pr hr g h)
  exact ⟨(h _ _ _ _ _ _ _ _).within, (h _ _ _ _ _ _ _ _).within, (h _ _ _ _ _ _ _ _).within,
    (h' _ _ _ _ _ _ _ _).within⟩

omit hr in
private theorem norm4 {x y z w x' y' z' w' g : ℝ} (h : x ^ 2 + y ^ 2 + z ^ 2 + w ^ 2 = 1) (hx : |x' - x| ≤ g)
    (hy : |y' - y| ≤ g) (hz : |z' - z| ≤ g) (hw : |w' - w| ≤ g) :
    |√(x' ^ 2 + y' ^ 2 + z' ^ 2 + w' ^ 2) - 1| ≤ 2 * g := by
  have hg : 0 ≤ g := (abs_nonneg _).trans hx
  have n1 : ∀ a b c d : ℝ, ‖(!₂[a, b, c, d] : EuclideanSpace ℝ (Fin 4))‖ = √(a ^ 2 + b ^ 2 + c ^ 2 + d ^ 2) := by
    intro a b c d
    rw [EuclideanSpace.norm_eq]; simp [Fin.sum_univ_succ, add_assoc]
  have h1 := abs_norm_sub_norm_le (!₂[x', y', z', w'] : EuclideanSpace ℝ (Fin 4)) !₂[x, y, z, w]
  have e : (!₂[x', y', z', w'] : EuclideanSpace ℝ (Fin 4)) - !₂[x, y, z, w] =
      !₂[x' - x, y' - y, z' - z, w' - w] := by
    ext i; fin_cases i <;> rfl
  rw [e, n1, n1, n1, h, Real.sqrt_one] at h1
  refine h1.trans ?_
  rw [Real.sqrt_le_left (by linarith)]
  have sq : ∀ {a : ℝ}, |a| ≤ g → a ^ 2 ≤ g ^ 2 := fun {a} ha => by
    rw [← sq_abs]; exact pow_le_pow_left₀ (abs_nonneg _) ha 2
  nlinarith [sq hx, sq hy, sq hz, sq hw]

omit hr in
private theorem cs4 {a b c d e f g h : ℝ} (h1 : a ^ 2 + c ^ 2 + e ^ 2 + g ^ 2 = 1)
    (h2 : b ^ 2 + d ^ 2 + f ^ 2 + h ^ 2 = 1) : |a * b| + |c * d| + |e * f| + |g * h| ≤ 1 := by
  have t : ∀ x y : ℝ, |x * y| ≤ (x ^ 2 + y ^ 2) / 2 := fun x y => by
    rw [abs_mul]; nlinarith [sq_nonneg (|x| - |y|), sq_abs x, sq_abs y]
  linarith [t a b, t c d, t e f, t g h]

/-- C120: the product of unit quaternions has length one up to `2 gam u 4`: a chain of products drifts slowly. -/
theorem C120_quat_unit (p q : Quat ℝ) (hp : p.x ^ 2 + p.y ^ 2 + p.z ^ 2 + p.w ^ 2 = 1)
    (hq : q.x ^ 2 + q.y ^ 2 + q.z ^ 2 + q.w ^ 2 = 1) :
    ∃ r : Quat ℝ, (Quat.num p : Quat (Fl ℝ rnd)).mul (Quat.num q) = Quat.num r ∧
      |√(r.x ^ 2 + r.y ^ 2 + r.z ^ 2 + r.w ^ 2) - 1| ≤ 2 * gam u 4 := by
  obtain ⟨⟨x, ex, hx⟩, ⟨y, ey, hy⟩, ⟨z, ez, hz⟩, ⟨w, ew, hw⟩⟩ := C120_quat hr p q
  have hg : 0 ≤ gam u 4 := by
    have : 1 ≤ ((1 - u) ^ 4)⁻¹ := (one_le_inv₀ (Fac.gpos hr.lt_one 4)).2 (Fac.gle hr.nonneg hr.lt_one 4)
    unfold gam; linarith
  have b : ∀ {A v e : ℝ}, |v - e| ≤ gam u 4 * A → A ≤ 1 → |v - e| ≤ gam u 4 := fun h1 h2 =>
    h1.trans (mul_le_of_le_one_right hg h2)
  refine ⟨⟨x, y, z, w⟩, ?_, norm4 ?_ (b hx ?_) (b hy ?_) (b hz ?_) (b hw ?_)⟩
  · change Quat.mk _ _ _ _ = Quat.mk _ _ _ _
    exact Quat.mk.injEq _ _ _ _ _ _ _ _ ▸ ⟨ex, ey, ez, ew⟩
  · have : (p.w * q.x + p.x * q.w + p.y * q.z - p.z * q.y) ^ 2 + (p.w * q.y + p.y * q.w + p.z * q.x - p.x * q.z) ^ 2 +
        (p.w * q.z + p.z * q.w + p.x * q.y - p.y * q.x) ^ 2 + (p.w * q.w - p.x * q.x - p.y * q.y - p.z * q.z) ^ 2 =
        (p.x ^ 2 + p.y ^ 2 + p.z ^ 2 + p.w ^ 2) * (q.x ^ 2 + q.y ^ 2 + q.z ^ 2 + q.w ^ 2) := by ring
    rw [this, hp, hq, one_mul]
  all_goals exact cs4 (by linarith) (by linarith)

/-- C120: the 3x3 determinant. -/
theorem C120_det3 (x y z : Vec3 ℝ) (f : Flags) :
    (Mat3.mk (Vec3.num x : Vec3 (Fl ℝ rnd)) (Vec3.num y) (Vec3.num z) f).determinant.Within
      (gam u 5 * (|x.x| * (|y.y * z.z| + |z.y * y.z|) + |y.x| * (|x.y * z.z| + |z.y * x.z|) +
        |z.x| * (|x.y * y.z| + |y.y * x.z|)))
      (x.x * (y.y * z.z - z.y * y.z) - y.x * (x.y * z.z - z.y * x.z) + z.x * (x.y * y.z - y.y * x.z)) := by
  have h : ∀ a b c d e : ℝ, AbsErr u 3 (|a| * (|b * c| + |d * e|)) (a * (b * c - d * e))
      (.num a * (.num b * .num c - .num d * .num e) : Fl ℝ rnd) := fun a b c d e =>
    AbsErr.mul hr (AbsErr.exact hr a) (abs_diff2 hr b c d e)
  exact (AbsErr.add hr (AbsErr.sub hr (h _ _ _ _ _) (h _ _ _ _ _) (k := 4)) (h _ _ _ _ _) (k := 5)).within

/-- C120: signed distance to a plane. -/
theorem C120_plane (n p : Vec3 ℝ) (d : ℝ) :
    ((Plane.mk (Vec3.num n) (.num d) : Plane (Fl ℝ rnd)).distance (Vec3.num p)).Within
      (gam u 4 * (|p.x * n.x| + |p.y * n.y| + |p.z * n.z| + |d|)) (p.x * n.x + p.y * n.y + p.z * n.z - d) :=
  (AbsErr.sub hr (abs_sum3 hr _ _ _ _ _ _) (AbsErr.exact hr d) (k := 4)).within

end

example : ∃ p : Quat ℝ, p.x ^ 2 + p.y ^ 2 + p.z ^ 2 + p.w ^ 2 = 1 ∧ p.x ≠ 0 ∧ p.w ≠ 0 :=
  ⟨⟨3 / 5, 0, 0, 4 / 5⟩, by norm_num⟩

end MathLib
