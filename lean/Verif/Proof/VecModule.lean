import Verif.Proof.VecLemmas
import Mathlib.Algebra.Module.Defs
import Mathlib.Tactic.Ring

/-! # `Vec3` (and `Vec2`) as a module over its scalars, for use with Mathlib -/

namespace MathLib
variable {K : Type}

theorem mul_swap3 [CommRing K] (v x y : K) : v * (x * y) = v * y * x := by ring

instance [AddCommGroup K] : Zero (Vec3 K) := ⟨⟨0, 0, 0⟩⟩

instance [AddCommGroup K] : AddCommGroup (Vec3 K) where
  add_assoc a b c := by ext <;> exact add_assoc _ _ _
  zero_add a := by ext <;> exact zero_add _
  add_zero a := by ext <;> exact add_zero _
  nsmul := nsmulRec
  zsmul := zsmulRec
  sub_eq_add_neg a b := by ext <;> exact sub_eq_add_neg _ _
  neg_add_cancel a := by ext <;> exact neg_add_cancel _
  add_comm a b := by ext <;> exact add_comm _ _

instance [CommRing K] : Module K (Vec3 K) where
  smul k v := v * k
  one_smul v := by ext <;> exact mul_one _
  mul_smul x y v := by ext <;> exact mul_swap3 _ _ _
  smul_zero k := by ext <;> exact zero_mul _
  smul_add k a b := by ext <;> exact add_mul _ _ _
  add_smul x y v := by ext <;> exact mul_add _ _ _
  zero_smul v := by ext <;> exact mul_zero _

theorem Vec3.smul_def [CommRing K] (k : K) (v : Vec3 K) : k • v = v * k := rfl
@[simp] theorem Vec3.smul_x [CommRing K] (k : K) (v : Vec3 K) : (k • v).x = v.x * k := rfl
@[simp] theorem Vec3.smul_y [CommRing K] (k : K) (v : Vec3 K) : (k • v).y = v.y * k := rfl
@[simp] theorem Vec3.smul_z [CommRing K] (k : K) (v : Vec3 K) : (k • v).z = v.z * k := rfl
@[simp] theorem Vec3.zero_x [AddCommGroup K] : (0 : Vec3 K).x = 0 := rfl
@[simp] theorem Vec3.zero_y [AddCommGroup K] : (0 : Vec3 K).y = 0 := rfl
@[simp] theorem Vec3.zero_z [AddCommGroup K] : (0 : Vec3 K).z = 0 := rfl

instance [AddCommGroup K] : Zero (Vec2 K) := ⟨⟨0, 0⟩⟩

instance [AddCommGroup K] : AddCommGroup (Vec2 K) where
  add_assoc a b c := by ext <;> exact add_assoc _ _ _
  zero_add a := by ext <;> exact zero_add _
  add_zero a := by ext <;> exact add_zero _
  nsmul := nsmulRec
  zsmul := zsmulRec
  sub_eq_add_neg a b := by ext <;> exact sub_eq_add_neg _ _
  neg_add_cancel a := by ext <;> exact neg_add_cancel _
  add_comm a b := by ext <;> exact add_comm _ _

instance [CommRing K] : Module K (Vec2 K) where
  smul k v := v * k
  one_smul v := by ext <;> exact mul_one _
  mul_smul x y v := by ext <;> exact mul_swap3 _ _ _
  smul_zero k := by ext <;> exact zero_mul _
  smul_add k a b := by ext <;> exact add_mul _ _ _
  add_smul x y v := by ext <;> exact mul_add _ _ _
  zero_smul v := by ext <;> exact mul_zero _

theorem Vec2.smul_def [CommRing K] (k : K) (v : Vec2 K) : k • v = v * k := rfl
@[simp] theorem Vec2.smul_x [CommRing K] (k : K) (v : Vec2 K) : (k • v).x = v.x * k := rfl
@[simp] theorem Vec2.smul_y [CommRing K] (k : K) (v : Vec2 K) : (k • v).y = v.y * k := rfl
@[simp] theorem Vec2.zero_x [AddCommGroup K] : (0 : Vec2 K).x = 0 := rfl
@[simp] theorem Vec2.zero_y [AddCommGroup K] : (0 : Vec2 K).y = 0 := rfl

end MathLib
