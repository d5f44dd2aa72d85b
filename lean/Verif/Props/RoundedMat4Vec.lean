import Verif.Props.RoundedForward
import Verif.Proof.Rne

/-! # C196: points and directions under 4×4 matrices in floating point -/

namespace MathLib

section accuracy
variable {rnd : ℝ → ℝ} {u : ℝ}

/-- C196: each coordinate of a transformed point is right up to `4` roundings of the size of its terms, each coordinate of a transformed direction up to `3`. -/
theorem C196_accurate (hr : IsRel rnd u) (x y z t v : Vec4 ℝ) (f : Flags) (p : Vec3 ℝ) :
    (let r := (Mat4.mk (Vec4.num x : Vec4 (Fl ℝ rnd)) (Vec4.num y) (Vec4.num z) (Vec4.num t) f).mulVec3 (Vec3.num p)
     r.x.Within (gam u 4 * (|p.x * x.x| + |p.y * y.x| + |p.z * z.x| + |t.x|)) (p.x * x.x + p.y * y.x + p.z * z.x + t.x) ∧
     r.y.Within (gam u 4 * (|p.x * x.y| + |p.y * y.y| + |p.z * z.y| + |t.y|)) (p.x * x.y + p.y * y.y + p.z * z.y + t.y) ∧
     r.z.Within (gam u 4 * (|p.x * x.z| + |p.y * y.z| + |p.z * z.z| + |t.z|)) (p.x * x.z + p.y * y.z + p.z * z.z + t.z)) ∧
    (let r := (Mat4.mk (Vec4.num x : Vec4 (Fl ℝ rnd)) (Vec4.num y) (Vec4.num z) (Vec4.num t) f).transformVector3 (Vec3.num p)
     r.x.Within (gam u 3 * (|p.x * x.x| + |p.y * y.x| + |p.z * z.x|)) (p.x * x.x + p.y * y.x + p.z * z.x) ∧
     r.y.Within (gam u 3 * (|p.x * x.y| + |p.y * y.y| + |p.z * z.y|)) (p.x * x.y + p.y * y.y + p.z * z.y) ∧
     r.z.Within (gam u 3 * (|p.x * x.z| + |p.y * y.z| + |p.z * z.z|)) (p.x * x.z + p.y * y.z + p.z * z.z)) ∧
    (let r := (Mat4.mk (Vec4.num x : Vec4 (Fl ℝ rnd)) (Vec4.num y) (Vec4.num z) (Vec4.num t) f).transformVector4 (Vec4.num v)
     r.x.Within (gam u 3 * (|v.x * x.x| + |v.y * y.x| + |v.z * z.x|)) (v.x * x.x + v.y * y.x + v.z * z.x) ∧
     r.y.Within (gam u 3 * (|v.x * x.y| + |v.y * y.y| + |v.z * z.y|)) (v.x * x.y + v.y * y.y + v.z * z.y) ∧
     r.z.Within (gam u 3 * (|v.x * x.z| + |v.y * y.z| + |v.z * z.z|)) (v.x * x.z + v.y * y.z + v.z * z.z) ∧
     r.w.Within (gam u 3 * (|v.x * x.w| + |v.y * y.w| + |v.z * z.w|)) (v.x * x.w + v.y * y.w + v.z * z.w)) :=
  ⟨⟨(abs_sum3t hr _ _ _ _ _ _ _).2, (abs_sum3t hr _ _ _ _ _ _ _).2, (abs_sum3t hr _ _ _ _ _ _ _).2⟩,
   ⟨(abs_sum3 hr _ _ _ _ _ _).2, (abs_sum3 hr _ _ _ _ _ _).2, (abs_sum3 hr _ _ _ _ _ _).2⟩,
   (abs_sum3 hr _ _ _ _ _ _).2, (abs_sum3 hr _ _ _ _ _ _).2, (abs_sum3 hr _ _ _ _ _ _).2, (abs_sum3 hr _ _ _ _ _ _).2⟩

end accuracy

section ieee
variable {p : ℕ}

/-- C196: with rounding to nearest, a point `(x, y, z)` is transformed bit for bit like `(x, y, z, 1)` if the translation is a number of the type, a direction like `(x, y, z, 0)`, and
under a matrix with the last row `(0, 0, 0, 1)` the fourth coordinate stays exactly `1` and exactly `0`. -/
theorem C196_homogeneous (hp : 1 ≤ p) (x y z t : Vec4 ℝ) (f : Flags) (v : Vec3 ℝ) :
    let m : Mat4 (Fl ℝ (rne p)) := ⟨Vec4.num x, Vec4.num y, Vec4.num z, Vec4.num t, f⟩
    (Rep p t.x → Rep p t.y → Rep p t.z →
      (let r := m.mulVec4 (Vec4.num ⟨v.x, v.y, v.z, 1⟩)
       (⟨r.x, r.y, r.z⟩ : Vec3 (Fl ℝ (rne p))) = m.mulVec3 (Vec3.num v))) ∧
    (let r := m.mulVec4 (Vec4.num ⟨v.x, v.y, v.z, 0⟩)
     (⟨r.x, r.y, r.z⟩ : Vec3 (Fl ℝ (rne p))) = m.transformVector3 (Vec3.num v) ∧ r = m.transformVector4 (Vec4.num ⟨v.x, v.y, v.z, 0⟩)) ∧
    (x.w = 0 → y.w = 0 → z.w = 0 → t.w = 1 →
      (m.mulVec4 (Vec4.num ⟨v.x, v.y, v.z, 1⟩)).w = .num 1 ∧ (m.mulVec4 (Vec4.num ⟨v.x, v.y, v.z, 0⟩)).w = .num 0) := by
  have o : rne p (1 : ℝ) = 1 := by simpa using rne_of_rep hp (Rep.zpow (K := ℝ) (p := p) 0)
  refine ⟨fun hx hy hz => ?_, ⟨?_, ?_⟩, fun hx hy hz ht => ⟨?_, ?_⟩⟩
  · simp only [Mat4.mulVec4, Mat4.mulVec3, Vec4.num, Vec3.num, Fl.num_mul, Fl.num_add, one_mul, rne_of_rep hp hx, rne_of_rep hp hy, rne_of_rep hp hz]
  · simp only [Mat4.mulVec4, Mat4.transformVector3, Vec4.num, Vec3.num, Fl.num_mul, Fl.num_add, zero_mul, rne_zero, add_zero, rne_rne p hp]
  · simp only [Mat4.mulVec4, Mat4.transformVector4, Vec4.num, Fl.num_mul, Fl.num_add, zero_mul, rne_zero, add_zero, rne_rne p hp]
  · simp only [Mat4.mulVec4, Vec4.num, Fl.num_mul, Fl.num_add, hx, hy, hz, ht, mul_zero, rne_zero, add_zero, zero_add, one_mul, o]
  · simp only [Mat4.mulVec4, Vec4.num, Fl.num_mul, Fl.num_add, hx, hy, hz, ht, mul_zero, zero_mul, rne_zero, add_zero]

/-- a turn about `z` with a translation: the point `(1, 0, 2)` in `float` -/
example : (let r := (⟨Vec4.num ⟨3 / 5, 4 / 5, 0, 0⟩, Vec4.num ⟨-4 / 5, 3 / 5, 0, 0⟩, Vec4.num ⟨0, 0, 1, 0⟩, Vec4.num ⟨1, 2, 4, 1⟩, ⟨true, true, false, true, false⟩⟩ :
      Mat4 (Fl ℝ (rne 24))).mulVec4 (Vec4.num ⟨1, 0, 2, 1⟩)
    (⟨r.x, r.y, r.z⟩ : Vec3 (Fl ℝ (rne 24))) = (⟨Vec4.num ⟨3 / 5, 4 / 5, 0, 0⟩, Vec4.num ⟨-4 / 5, 3 / 5, 0, 0⟩, Vec4.num ⟨0, 0, 1, 0⟩, Vec4.num ⟨1, 2, 4, 1⟩,
      ⟨true, true, false, true, false⟩⟩ : Mat4 (Fl ℝ (rne 24))).mulVec3 (Vec3.num ⟨1, 0, 2⟩)) := by
  have h1 : Rep 24 (1 : ℝ) := by simpa using Rep.nat (K := ℝ) (p := 24) 1 (by norm_num)
  have h2 : Rep 24 (2 : ℝ) := by simpa using Rep.nat (K := ℝ) (p := 24) 2 (by norm_num)
  have h4 : Rep 24 (4 : ℝ) := by simpa using Rep.nat (K := ℝ) (p := 24) 4 (by norm_num)
  exact (C196_homogeneous (p := 24) (by norm_num) ⟨3 / 5, 4 / 5, 0, 0⟩ ⟨-4 / 5, 3 / 5, 0, 0⟩ ⟨0, 0, 1, 0⟩ ⟨1, 2, 4, 1⟩ _ ⟨1, 0, 2⟩).1 h1 h2 h4

example : IsRel (rne 24 : ℝ → ℝ) (2 ^ (-((24 : ℕ) : ℤ))) := isRel_rne 24 (by norm_num)

end ieee

end MathLib
