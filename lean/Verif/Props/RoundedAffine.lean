import Verif.Props.RoundedMat4Vec

/-! # C197: affine maps as `Mat34` and as `Mat4` in floating point -/

namespace MathLib
variable {p : ℕ}

/-- the two matrices have the same entries, and the last row of the larger one is `(0, 0, 0, 1)` -/
def Mat4.Extends {R : Type} [Zero R] [One R] (A : Mat4 R) (a : Mat34 R) : Prop :=
  A.x = ⟨a.rs.x.x, a.rs.x.y, a.rs.x.z, 0⟩ ∧ A.y = ⟨a.rs.y.x, a.rs.y.y, a.rs.y.z, 0⟩ ∧ A.z = ⟨a.rs.z.x, a.rs.z.y, a.rs.z.z, 0⟩ ∧
  A.t = ⟨a.t.x, a.t.y, a.t.z, 1⟩

/-- an affine map with the given numbers -/
def Mat34.ofNums {rnd : ℝ → ℝ} (x y z t : Vec3 ℝ) (f : Flags) : Mat34 (Fl ℝ rnd) := ⟨⟨Vec3.num x, Vec3.num y, Vec3.num z, f⟩, Vec3.num t⟩

/-- C197: with rounding to nearest, points and directions are mapped bit for bit alike by a `Mat34` and by the `Mat4` with the same entries. -/
theorem C197_apply (A : Mat4 (Fl ℝ (rne p))) (a : Mat34 (Fl ℝ (rne p))) (h : A.Extends a) (v : Vec3 (Fl ℝ (rne p))) :
    A.mulVec3 v = a.mulVec v ∧ A.transformVector3 v = a.rs.mulVec v := by
  obtain ⟨h1, h2, h3, h4⟩ := h
  simp only [Mat4.mulVec3, Mat34.mulVec, Mat4.transformVector3, Mat3.mulVec, h1, h2, h3, h4, and_self]

/-- C197: their products have the same entries bit for bit, and the last row stays exactly `(0, 0, 0, 1)`; the translation of the first factor has to be made
of numbers of the type, and no factor may be marked as the identity. -/
theorem C197_product (hp : 1 ≤ p) (x y z t x' y' z' t' : Vec3 ℝ) (f f' : Flags) (A B : Mat4 (Fl ℝ (rne p)))
    (hA : A.Extends (Mat34.ofNums x y z t f)) (hB : B.Extends (Mat34.ofNums x' y' z' t' f')) (ht : Rep p t.x ∧ Rep p t.y ∧ Rep p t.z)
    (n1 : A.isIdentity = false) (n2 : B.isIdentity = false) (n3 : f.identity = false) (n4 : f'.identity = false) :
    (A.mul B).Extends ((Mat34.ofNums x y z t f).mul (Mat34.ofNums x' y' z' t' f')) := by
  obtain ⟨a1, a2, a3, a4⟩ := hA
  obtain ⟨b1, b2, b3, b4⟩ := hB
  have o : rne p (1 : ℝ) = 1 := by simpa using rne_of_rep hp (Rep.zpow (K := ℝ) (p := p) 0)
  have tx := rne_of_rep hp ht.1
  have ty := rne_of_rep hp ht.2.1
  have tz := rne_of_rep hp ht.2.2
  have n3' : (Mat34.ofNums x y z t f : Mat34 (Fl ℝ (rne p))).rs.isIdentity = false := n3
  have n4' : (Mat34.ofNums x' y' z' t' f' : Mat34 (Fl ℝ (rne p))).rs.isIdentity = false := n4
  unfold Mat4.Extends Mat4.mul Mat34.mul Mat3.mul
  rw [n1, n2, n3', n4']
  simp only [Bool.false_eq_true, if_false, a1, a2, a3, a4, b1, b2, b3, b4]
  simp only [Mat34.ofNums, Vec3.num, Mat3.mulVec, Vec3.add_x, Vec3.add_y, Vec3.add_z, Fl.zero_def, Fl.one_def, Fl.num_mul, Fl.num_add, mul_zero, zero_mul, mul_one, one_mul,
    rne_zero, add_zero, zero_add, rne_rne p hp, o, tx, ty, tz, true_and, mul_comm, add_comm, and_self]

/-- a turn about `z` with a translation, multiplied by a scaling with another one, in `float` -/
example (A B : Mat4 (Fl ℝ (rne 24)))
    (hA : A = ⟨⟨.num (3 / 5), .num (4 / 5), .num 0, 0⟩, ⟨.num (-4 / 5), .num (3 / 5), .num 0, 0⟩, ⟨.num 0, .num 0, .num 1, 0⟩, ⟨.num 1, .num 2, .num 4, 1⟩, ⟨true, true, false, true, false⟩⟩)
    (hB : B = ⟨⟨.num (1 / 3), .num 0, .num 0, 0⟩, ⟨.num 0, .num (1 / 3), .num 0, 0⟩, ⟨.num 0, .num 0, .num (1 / 3), 0⟩, ⟨.num (1 / 7), .num 5, .num 6, 1⟩, ⟨false, true, false, true, false⟩⟩) :
    (A.mul B).Extends ((Mat34.ofNums ⟨3 / 5, 4 / 5, 0⟩ ⟨-4 / 5, 3 / 5, 0⟩ ⟨0, 0, 1⟩ ⟨1, 2, 4⟩ ⟨true, true, false, false, false⟩).mul
      (Mat34.ofNums ⟨1 / 3, 0, 0⟩ ⟨0, 1 / 3, 0⟩ ⟨0, 0, 1 / 3⟩ ⟨1 / 7, 5, 6⟩ ⟨false, true, false, false, false⟩)) := by
  subst hA hB
  have h1 : Rep 24 (1 : ℝ) := by simpa using Rep.nat (K := ℝ) (p := 24) 1 (by norm_num)
  have h2 : Rep 24 (2 : ℝ) := by simpa using Rep.nat (K := ℝ) (p := 24) 2 (by norm_num)
  have h4 : Rep 24 (4 : ℝ) := by simpa using Rep.nat (K := ℝ) (p := 24) 4 (by norm_num)
  exact C197_product (by norm_num) _ _ _ _ _ _ _ _ _ _ _ _ ⟨rfl, rfl, rfl, rfl⟩ ⟨rfl, rfl, rfl, rfl⟩ ⟨h1, h2, h4⟩ rfl rfl rfl rfl

end MathLib
