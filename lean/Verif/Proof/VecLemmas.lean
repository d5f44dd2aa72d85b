import Verif.Model.Vec

/-! # Component lemmas for the vector instances (all by `rfl`) -/

namespace MathLib
variable {R : Type}

@[simp] theorem Vec2.add_x [Add R] (a b : Vec2 R) : (a + b).x = a.x + b.x := rfl
@[simp] theorem Vec2.add_y [Add R] (a b : Vec2 R) : (a + b).y = a.y + b.y := rfl
@[simp] theorem Vec2.sub_x [Sub R] (a b : Vec2 R) : (a - b).x = a.x - b.x := rfl
@[simp] theorem Vec2.sub_y [Sub R] (a b : Vec2 R) : (a - b).y = a.y - b.y := rfl
@[simp] theorem Vec2.neg_x [Neg R] (a : Vec2 R) : (-a).x = -a.x := rfl
@[simp] theorem Vec2.neg_y [Neg R] (a : Vec2 R) : (-a).y = -a.y := rfl
@[simp] theorem Vec2.mul_x [Mul R] (a : Vec2 R) (k : R) : (a * k).x = a.x * k := rfl
@[simp] theorem Vec2.mul_y [Mul R] (a : Vec2 R) (k : R) : (a * k).y = a.y * k := rfl

@[simp] theorem Vec3.add_x [Add R] (a b : Vec3 R) : (a + b).x = a.x + b.x := rfl
@[simp] theorem Vec3.add_y [Add R] (a b : Vec3 R) : (a + b).y = a.y + b.y := rfl
@[simp] theorem Vec3.add_z [Add R] (a b : Vec3 R) : (a + b).z = a.z + b.z := rfl
@[simp] theorem Vec3.sub_x [Sub R] (a b : Vec3 R) : (a - b).x = a.x - b.x := rfl
@[simp] theorem Vec3.sub_y [Sub R] (a b : Vec3 R) : (a - b).y = a.y - b.y := rfl
@[simp] theorem Vec3.sub_z [Sub R] (a b : Vec3 R) : (a - b).z = a.z - b.z := rfl
@[simp] theorem Vec3.neg_x [Neg R] (a : Vec3 R) : (-a).x = -a.x := rfl
@[simp] theorem Vec3.neg_y [Neg R] (a : Vec3 R) : (-a).y = -a.y := rfl
@[simp] theorem Vec3.neg_z [Neg R] (a : Vec3 R) : (-a).z = -a.z := rfl
@[simp] theorem Vec3.mul_x [Mul R] (a : Vec3 R) (k : R) : (a * k).x = a.x * k := rfl
@[simp] theorem Vec3.mul_y [Mul R] (a : Vec3 R) (k : R) : (a * k).y = a.y * k := rfl
@[simp] theorem Vec3.mul_z [Mul R] (a : Vec3 R) (k : R) : (a * k).z = a.z * k := rfl

@[simp] theorem Vec4.add_x [Add R] (a b : Vec4 R) : (a + b).x = a.x + b.x := rfl
@[simp] theorem Vec4.add_y [Add R] (a b : Vec4 R) : (a + b).y = a.y + b.y := rfl
@[simp] theorem Vec4.add_z [Add R] (a b : Vec4 R) : (a + b).z = a.z + b.z := rfl
@[simp] theorem Vec4.add_w [Add R] (a b : Vec4 R) : (a + b).w = a.w + b.w := rfl
@[simp] theorem Vec4.sub_x [Sub R] (a b : Vec4 R) : (a - b).x = a.x - b.x := rfl
@[simp] theorem Vec4.sub_y [Sub R] (a b : Vec4 R) : (a - b).y = a.y - b.y := rfl
@[simp] theorem Vec4.sub_z [Sub R] (a b : Vec4 R) : (a - b).z = a.z - b.z := rfl
@[simp] theorem Vec4.sub_w [Sub R] (a b : Vec4 R) : (a - b).w = a.w - b.w := rfl
@[simp] theorem Vec4.neg_x [Neg R] (a : Vec4 R) : (-a).x = -a.x := rfl
@[simp] theorem Vec4.neg_y [Neg R] (a : Vec4 R) : (-a).y = -a.y := rfl
@[simp] theorem Vec4.neg_z [Neg R] (a : Vec4 R) : (-a).z = -a.z := rfl
@[simp] theorem Vec4.neg_w [Neg R] (a : Vec4 R) : (-a).w = -a.w := rfl
@[simp] theorem Vec4.mul_x [Mul R] (a : Vec4 R) (k : R) : (a * k).x = a.x * k := rfl
@[simp] theorem Vec4.mul_y [Mul R] (a : Vec4 R) (k : R) : (a * k).y = a.y * k := rfl
@[simp] theorem Vec4.mul_z [Mul R] (a : Vec4 R) (k : R) : (a * k).z = a.z * k := rfl
@[simp] theorem Vec4.mul_w [Mul R] (a : Vec4 R) (k : R) : (a * k).w = a.w * k := rfl

end MathLib
