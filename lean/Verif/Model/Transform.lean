import Verif.Model.Buffer
import Verif.Model.Mat34
import Verif.Model.Mat4

/-! # Model of the `transform` family writing through pointers

Memory is byte-addressed; a scalar occupies `sz = sizeof(Real)` bytes starting at its address.
Objects of class `Vec2/Vec3/Vec4` are 2/3/4 consecutive scalars without padding.  The matrix itself is
taken to live outside the memory that is written.  Address arithmetic does not wrap. -/

namespace MathLib

/-- Byte-addressed memory: which addresses hold a scalar that may be accessed, and its value
(`none` = never written, or partially overwritten through an overlapping address); the memory of `dest` and `src`, impl/mat3.h:1033-1062. -/
structure Mem (R : Type) where
  sz : Nat
  alloc : Nat → Bool
  val : Nat → Option R

namespace Mem
variable {R : Type}

/-- load a scalar (impl/mat3.h:1035-1037) -/
def read (mem : Mem R) (a : Nat) : Res R :=
  if mem.alloc a then
    match mem.val a with
    | some v => .ok v
    | none => .error .uninit
  else .error .outOfRange

/-- store a scalar; scalars overlapping the written bytes lose their value (impl/mat3.h:1035-1037) -/
def write (mem : Mem R) (a : Nat) (v : R) : Res (Mem R) :=
  if mem.alloc a then
    .ok { mem with
      val := fun b => if b = a then some v
        else if b < a + mem.sz ∧ a < b + mem.sz then none else mem.val b }
  else .error .outOfRange

/-- load the first `k` components of the vector at `s` (impl/mat3.h:1035-1037) -/
def readVec [Zero R] (mem : Mem R) (s : Nat) : Nat → Res (Nat → R)
  | 0 => .ok fun _ => 0
  | k + 1 => do
    let f ← mem.readVec s k
    let v ← mem.read (s + k * mem.sz)
    .ok (Function.update f k v)

/-- `n` consecutive statements `dest.c_i = row_i(src)`, every one of which reads the first `k`
components of `src` again (impl/mat3.h:1033-1038). -/
def assign [Zero R] (n k : Nat) (row : Nat → (Nat → R) → R) (mem : Mem R) (d s : Nat) : Res (Mem R) :=
  loop 0 n (fun i mem => do
    let v ← mem.readVec s k
    mem.write (d + i * mem.sz) (row i v)) mem

/-- `for (i = 0; i < count; i++) transform(*dest++, *src++)`; the pointers advance by the size of the
vector, `n` scalars (impl/mat3.h:1040-1047). -/
def each (n : Nat) (transform : Mem R → Nat → Nat → Res (Mem R)) (mem : Mem R) (d s count : Nat) :
    Res (Mem R) := do
  let (mem, _, _) ← loop 0 count (fun _ (mem, d, s) => do
    let mem ← transform mem d s
    .ok (mem, d + n * mem.sz, s + n * mem.sz)) (mem, d, s)
  .ok mem

/-- `for (i = 0; i < count; i++) { transform(*d, *s); d += destStride; s += srcStride; }` (impl/mat3.h:1049-1062) -/
def eachStrided (transform : Mem R → Nat → Nat → Res (Mem R)) (mem : Mem R)
    (d s count destStride srcStride : Nat) : Res (Mem R) := do
  let (mem, _, _) ← loop 0 count (fun _ (mem, d, s) => do
    let mem ← transform mem d s
    .ok (mem, d + destStride, s + srcStride)) (mem, d, s)
  .ok mem

end Mem

variable {R : Type} [Zero R] [Add R] [Mul R]

/-- The right-hand sides of `Mat2::transform`, impl/mat2.h:493-494. -/
def Mat2.row (m : Mat2 R) (i : Nat) (v : Nat → R) : R :=
  match i with
  | 0 => v 0 * m.x.x + v 1 * m.y.x
  | _ => v 0 * m.x.y + v 1 * m.y.y
/-- `Mat2::transform(Vec2& dest, const Vec2& src)`, impl/mat2.h:490-495. -/
def Mat2.transformAt (m : Mat2 R) (mem : Mem R) (d s : Nat) := mem.assign 2 2 m.row d s
/-- `Mat2::transform(dest, src, count)`, impl/mat2.h:497-504. -/
def Mat2.transformArr (m : Mat2 R) (mem : Mem R) (d s count : Nat) := mem.each 2 m.transformAt d s count
/-- `Mat2::transform(dest, src, count, destStride, srcStride)`, impl/mat2.h:506-518. -/
def Mat2.transformStrided (m : Mat2 R) (mem : Mem R) (d s count ds ss : Nat) :=
  mem.eachStrided m.transformAt d s count ds ss

/-- The right-hand sides of `Mat3::transform`, impl/mat3.h:1035-1037. -/
def Mat3.row (m : Mat3 R) (i : Nat) (v : Nat → R) : R :=
  match i with
  | 0 => v 0 * m.x.x + v 1 * m.y.x + v 2 * m.z.x
  | 1 => v 0 * m.x.y + v 1 * m.y.y + v 2 * m.z.y
  | _ => v 0 * m.x.z + v 1 * m.y.z + v 2 * m.z.z
/-- `Mat3::transform(Vec3& dest, const Vec3& src)`, impl/mat3.h:1032-1038. -/
def Mat3.transformAt (m : Mat3 R) (mem : Mem R) (d s : Nat) := mem.assign 3 3 m.row d s
/-- `Mat3::transform(dest, src, count)`, impl/mat3.h:1040-1047. -/
def Mat3.transformArr (m : Mat3 R) (mem : Mem R) (d s count : Nat) := mem.each 3 m.transformAt d s count
/-- `Mat3::transform(dest, src, count, destStride, srcStride)`, impl/mat3.h:1049-1061. -/
def Mat3.transformStrided (m : Mat3 R) (mem : Mem R) (d s count ds ss : Nat) :=
  mem.eachStrided m.transformAt d s count ds ss

/-- The right-hand sides of `Mat34::transform`, impl/mat34.h:559-561. -/
def Mat34.row (m : Mat34 R) (i : Nat) (v : Nat → R) : R :=
  match i with
  | 0 => v 0 * m.rs.x.x + v 1 * m.rs.y.x + v 2 * m.rs.z.x + m.t.x
  | 1 => v 0 * m.rs.x.y + v 1 * m.rs.y.y + v 2 * m.rs.z.y + m.t.y
  | _ => v 0 * m.rs.x.z + v 1 * m.rs.y.z + v 2 * m.rs.z.z + m.t.z
/-- `Mat34::transform(Vec3& dest, const Vec3& src)`, impl/mat34.h:556-562. -/
def Mat34.transformAt (m : Mat34 R) (mem : Mem R) (d s : Nat) := mem.assign 3 3 m.row d s
/-- `Mat34::transform(dest, src, count)`, impl/mat34.h:564-571. -/
def Mat34.transformArr (m : Mat34 R) (mem : Mem R) (d s count : Nat) := mem.each 3 m.transformAt d s count
/-- `Mat34::transform(dest, src, count, destStride, srcStride)`, impl/mat34.h:573-585. -/
def Mat34.transformStrided (m : Mat34 R) (mem : Mem R) (d s count ds ss : Nat) :=
  mem.eachStrided m.transformAt d s count ds ss

/-- The right-hand sides of `Mat4::transform(Vec3&, ...)`, impl/mat4.h:1149-1151. -/
def Mat4.row3 (m : Mat4 R) (i : Nat) (v : Nat → R) : R :=
  match i with
  | 0 => v 0 * m.x.x + v 1 * m.y.x + v 2 * m.z.x + m.t.x
  | 1 => v 0 * m.x.y + v 1 * m.y.y + v 2 * m.z.y + m.t.y
  | _ => v 0 * m.x.z + v 1 * m.y.z + v 2 * m.z.z + m.t.z
/-- `Mat4::transform(Vec3& dest, const Vec3& src)`, impl/mat4.h:1146-1152. -/
def Mat4.transformAt3 (m : Mat4 R) (mem : Mem R) (d s : Nat) := mem.assign 3 3 m.row3 d s
/-- `Mat4::transform(Vec3*, const Vec3*, count)`, impl/mat4.h:1154-1161. -/
def Mat4.transformArr3 (m : Mat4 R) (mem : Mem R) (d s count : Nat) := mem.each 3 m.transformAt3 d s count
/-- `Mat4::transform(Vec3*, const Vec3*, count, destStride, srcStride)`, impl/mat4.h:1163-1175. -/
def Mat4.transformStrided3 (m : Mat4 R) (mem : Mem R) (d s count ds ss : Nat) :=
  mem.eachStrided m.transformAt3 d s count ds ss

/-- The right-hand sides of `Mat4::transform(Vec4&, ...)`, impl/mat4.h:1180-1183. -/
def Mat4.row4 (m : Mat4 R) (i : Nat) (v : Nat → R) : R :=
  match i with
  | 0 => v 0 * m.x.x + v 1 * m.y.x + v 2 * m.z.x + v 3 * m.t.x
  | 1 => v 0 * m.x.y + v 1 * m.y.y + v 2 * m.z.y + v 3 * m.t.y
  | 2 => v 0 * m.x.z + v 1 * m.y.z + v 2 * m.z.z + v 3 * m.t.z
  | _ => v 0 * m.x.w + v 1 * m.y.w + v 2 * m.z.w + v 3 * m.t.w
/-- `Mat4::transform(Vec4& dest, const Vec4& src)`, impl/mat4.h:1177-1184. -/
def Mat4.transformAt4 (m : Mat4 R) (mem : Mem R) (d s : Nat) := mem.assign 4 4 m.row4 d s
/-- `Mat4::transform(Vec4*, const Vec4*, count)`, impl/mat4.h:1186-1193. -/
def Mat4.transformArr4 (m : Mat4 R) (mem : Mem R) (d s count : Nat) := mem.each 4 m.transformAt4 d s count
/-- `Mat4::transform(Vec4*, const Vec4*, count, destStride, srcStride)`, impl/mat4.h:1195-1207. -/
def Mat4.transformStrided4 (m : Mat4 R) (mem : Mem R) (d s count ds ss : Nat) :=
  mem.eachStrided m.transformAt4 d s count ds ss

/-- The right-hand sides of `Mat4::transformVector(Vec3&, ...)` (impl/mat4.h:1212-1214) and
`Mat4::transformVector(Vec4&, ...)` (1243-1246). -/
def Mat4.vrow (m : Mat4 R) (i : Nat) (v : Nat → R) : R :=
  match i with
  | 0 => v 0 * m.x.x + v 1 * m.y.x + v 2 * m.z.x
  | 1 => v 0 * m.x.y + v 1 * m.y.y + v 2 * m.z.y
  | 2 => v 0 * m.x.z + v 1 * m.y.z + v 2 * m.z.z
  | _ => v 0 * m.x.w + v 1 * m.y.w + v 2 * m.z.w
/-- `Mat4::transformVector(Vec3& dest, const Vec3& src)`, impl/mat4.h:1209-1215. -/
def Mat4.transformVectorAt3 (m : Mat4 R) (mem : Mem R) (d s : Nat) := mem.assign 3 3 m.vrow d s
/-- `Mat4::transformVector(Vec3*, const Vec3*, count)`, impl/mat4.h:1217-1224. -/
def Mat4.transformVectorArr3 (m : Mat4 R) (mem : Mem R) (d s count : Nat) :=
  mem.each 3 m.transformVectorAt3 d s count
/-- `Mat4::transformVector(Vec3*, const Vec3*, count, destStride, srcStride)`, impl/mat4.h:1226-1238. -/
def Mat4.transformVectorStrided3 (m : Mat4 R) (mem : Mem R) (d s count ds ss : Nat) :=
  mem.eachStrided m.transformVectorAt3 d s count ds ss
/-- `Mat4::transformVector(Vec4& dest, const Vec4& src)`, impl/mat4.h:1240-1247: `src.w` is not read,
`dest.w` is written. -/
def Mat4.transformVectorAt4 (m : Mat4 R) (mem : Mem R) (d s : Nat) := mem.assign 4 3 m.vrow d s
/-- `Mat4::transformVector(Vec4*, const Vec4*, count)`, impl/mat4.h:1249-1256. -/
def Mat4.transformVectorArr4 (m : Mat4 R) (mem : Mem R) (d s count : Nat) :=
  mem.each 4 m.transformVectorAt4 d s count
/-- `Mat4::transformVector(Vec4*, const Vec4*, count, destStride, srcStride)`, impl/mat4.h:1258-1270. -/
def Mat4.transformVectorStrided4 (m : Mat4 R) (mem : Mem R) (d s count ds ss : Nat) :=
  mem.eachStrided m.transformVectorAt4 d s count ds ss

end MathLib
