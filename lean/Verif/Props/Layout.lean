import Verif.Proof.Layout

/-! # C146: `data()` is an array of the components -/

namespace MathLib

variable {R : Type}

set_option linter.unusedSimpArgs false in
/-- Vectors, quaternions and colours: the members are consecutive, and nothing else is in the object. -/
theorem C146_flat (abi : Abi) (va : abi.Valid) :
    DataArray abi (Vec2.img (R := R) abi) (Vec2.data abi)
      (fun c => [c.x, c.y]) (fun _ => ()) ∧
    DataArray abi (Vec3.img (R := R) abi) (Vec3.data abi)
      (fun c => [c.x, c.y, c.z]) (fun _ => ()) ∧
    DataArray abi (Vec4.img (R := R) abi) (Vec4.data abi)
      (fun c => [c.x, c.y, c.z, c.w]) (fun _ => ()) ∧
    DataArray abi (Quat.img (R := R) abi) (Quat.data abi)
      (fun c => [c.x, c.y, c.z, c.w]) (fun _ => ()) ∧
    DataArray abi (ColorRGB.img (R := R) abi) (ColorRGB.data abi)
      (fun c => [c.r, c.g, c.b]) (fun _ => ()) ∧
    DataArray abi (ColorRGBA.img (R := R) abi) (ColorRGBA.data abi)
      (fun c => [c.r, c.g, c.b, c.a]) (fun _ => ()) ∧
    DataArray abi (ColorHSV.img (R := R) abi) (ColorHSV.data abi)
      (fun c => [c.h, c.s, c.v]) (fun _ => ()) ∧
    DataArray abi (Circle.img (R := R) abi) (Circle.data abi)
      (fun c => [c.center.x, c.center.y, c.radius]) (fun _ => ()) ∧
    DataArray abi (Sphere.img (R := R) abi) (Sphere.data abi)
      (fun c => [c.center.x, c.center.y, c.center.z, c.radius]) (fun _ => ()) ∧
    DataArray abi (Plane.img (R := R) abi) (Plane.data abi)
      (fun c => [c.normal.x, c.normal.y, c.normal.z, c.d]) (fun _ => ()) := by
  have hs := va.size_pos
  have h1 : max 1 abi.align = abi.align := max_eq_right va.align_pos
  have d1 := va.align_dvd
  have k2 : abi.align ∣ 2 * abi.size := Dvd.dvd.mul_left d1 _
  have k3 : abi.align ∣ 3 * abi.size := Dvd.dvd.mul_left d1 _
  have e2 := alignUp_of_dvd (Nat.dvd_add k2 d1)
  have e3 := alignUp_of_dvd (Nat.dvd_add k3 d1)
  have d2 := alignUp_of_dvd (Nat.dvd_add d1 d1)
  have d3 := alignUp_of_dvd (Nat.dvd_add (Nat.dvd_add d1 d1) d1)
  have d4 := alignUp_of_dvd (Nat.dvd_add (Nat.dvd_add (Nat.dvd_add d1 d1) d1) d1)
  refine ⟨?_, ?_, ?_, ?_, ?_, ?_, ?_, ?_, ?_, ?_⟩
  · refine dataArray_of hs (2 * abi.size) abi.align 0 (fun _ => []) (fun _ => [])
      (fun c => ?_) (fun c => ?_) (fun c => ?_) (by simp) (by simp) fun c i v hi => ?_
    · simp [Vec2.data, Img.offset, Img.members, alignUp_zero]
    · simp [Vec2.img, vec2_img_eq va, vec3_img_eq va, Img.ofMembers, Img.members, Img.place, Img.real, scal,
        alignUp_of_dvd, d1, d2, d3, d4, e2, e3, k2, k3, h1]
      try omega
    · simp
    match i, hi with
    | 0, _ => exact ⟨{ c with x := v }, rfl, rfl⟩
    | 1, _ => exact ⟨{ c with y := v }, rfl, rfl⟩
  · refine dataArray_of hs (3 * abi.size) abi.align 0 (fun _ => []) (fun _ => [])
      (fun c => ?_) (fun c => ?_) (fun c => ?_) (by simp) (by simp) fun c i v hi => ?_
    · simp [Vec3.data, Img.offset, Img.members, alignUp_zero]
    · simp [Vec3.img, vec2_img_eq va, vec3_img_eq va, Img.ofMembers, Img.members, Img.place, Img.real, scal,
        alignUp_of_dvd, d1, d2, d3, d4, e2, e3, k2, k3, h1]
      try omega
    · simp
    match i, hi with
    | 0, _ => exact ⟨{ c with x := v }, rfl, rfl⟩
    | 1, _ => exact ⟨{ c with y := v }, rfl, rfl⟩
    | 2, _ => exact ⟨{ c with z := v }, rfl, rfl⟩
  · refine dataArray_of hs (4 * abi.size) abi.align 0 (fun _ => []) (fun _ => [])
      (fun c => ?_) (fun c => ?_) (fun c => ?_) (by simp) (by simp) fun c i v hi => ?_
    · simp [Vec4.data, Img.offset, Img.members, alignUp_zero]
    · simp [Vec4.img, vec2_img_eq va, vec3_img_eq va, Img.ofMembers, Img.members, Img.place, Img.real, scal,
        alignUp_of_dvd, d1, d2, d3, d4, e2, e3, k2, k3, h1]
      try omega
    · simp
    match i, hi with
    | 0, _ => exact ⟨{ c with x := v }, rfl, rfl⟩
    | 1, _ => exact ⟨{ c with y := v }, rfl, rfl⟩
    | 2, _ => exact ⟨{ c with z := v }, rfl, rfl⟩
    | 3, _ => exact ⟨{ c with w := v }, rfl, rfl⟩
  · refine dataArray_of hs (4 * abi.size) abi.align 0 (fun _ => []) (fun _ => [])
      (fun c => ?_) (fun c => ?_) (fun c => ?_) (by simp) (by simp) fun c i v hi => ?_
    · simp [Quat.data, Img.offset, Img.members, alignUp_zero]
    · simp [Quat.img, vec2_img_eq va, vec3_img_eq va, Img.ofMembers, Img.members, Img.place, Img.real, scal,
        alignUp_of_dvd, d1, d2, d3, d4, e2, e3, k2, k3, h1]
      try omega
    · simp
    match i, hi with
    | 0, _ => exact ⟨{ c with x := v }, rfl, rfl⟩
    | 1, _ => exact ⟨{ c with y := v }, rfl, rfl⟩
    | 2, _ => exact ⟨{ c with z := v }, rfl, rfl⟩
    | 3, _ => exact ⟨{ c with w := v }, rfl, rfl⟩
  · refine dataArray_of hs (3 * abi.size) abi.align 0 (fun _ => []) (fun _ => [])
      (fun c => ?_) (fun c => ?_) (fun c => ?_) (by simp) (by simp) fun c i v hi => ?_
    · simp [ColorRGB.data, Img.offset, Img.members, alignUp_zero]
    · simp [ColorRGB.img, vec2_img_eq va, vec3_img_eq va, Img.ofMembers, Img.members, Img.place, Img.real, scal,
        alignUp_of_dvd, d1, d2, d3, d4, e2, e3, k2, k3, h1]
      try omega
    · simp
    match i, hi with
    | 0, _ => exact ⟨{ c with r := v }, rfl, rfl⟩
    | 1, _ => exact ⟨{ c with g := v }, rfl, rfl⟩
    | 2, _ => exact ⟨{ c with b := v }, rfl, rfl⟩
  · refine dataArray_of hs (4 * abi.size) abi.align 0 (fun _ => []) (fun _ => [])
      (fun c => ?_) (fun c => ?_) (fun c => ?_) (by simp) (by simp) fun c i v hi => ?_
    · simp [ColorRGBA.data, Img.offset, Img.members, alignUp_zero]
    · simp [ColorRGBA.img, vec2_img_eq va, vec3_img_eq va, Img.ofMembers, Img.members, Img.place, Img.real, scal,
        alignUp_of_dvd, d1, d2, d3, d4, e2, e3, k2, k3, h1]
      try omega
    · simp
    match i, hi with
    | 0, _ => exact ⟨{ c with r := v }, rfl, rfl⟩
    | 1, _ => exact ⟨{ c with g := v }, rfl, rfl⟩
    | 2, _ => exact ⟨{ c with b := v }, rfl, rfl⟩
    | 3, _ => exact ⟨{ c with a := v }, rfl, rfl⟩
  · refine dataArray_of hs (3 * abi.size) abi.align 0 (fun _ => []) (fun _ => [])
      (fun c => ?_) (fun c => ?_) (fun c => ?_) (by simp) (by simp) fun c i v hi => ?_
    · simp [ColorHSV.data, Img.offset, Img.members, alignUp_zero]
    · simp [ColorHSV.img, vec2_img_eq va, vec3_img_eq va, Img.ofMembers, Img.members, Img.place, Img.real, scal,
        alignUp_of_dvd, d1, d2, d3, d4, e2, e3, k2, k3, h1]
      try omega
    · simp
    match i, hi with
    | 0, _ => exact ⟨{ c with h := v }, rfl, rfl⟩
    | 1, _ => exact ⟨{ c with s := v }, rfl, rfl⟩
    | 2, _ => exact ⟨{ c with v := v }, rfl, rfl⟩
  · refine dataArray_of hs (3 * abi.size) abi.align 0 (fun _ => []) (fun _ => [])
      (fun c => ?_) (fun c => ?_) (fun c => ?_) (by simp) (by simp) fun c i v hi => ?_
    · simp [Circle.data, Img.offset, Img.members, alignUp_zero]
    · simp [Circle.img, vec2_img_eq va, vec3_img_eq va, Img.ofMembers, Img.members, Img.place, Img.real, scal,
        alignUp_of_dvd, d1, d2, d3, d4, e2, e3, k2, k3, h1]
      try omega
    · simp
    match i, hi with
    | 0, _ => exact ⟨{ c with center.x := v }, rfl, rfl⟩
    | 1, _ => exact ⟨{ c with center.y := v }, rfl, rfl⟩
    | 2, _ => exact ⟨{ c with radius := v }, rfl, rfl⟩
  · refine dataArray_of hs (4 * abi.size) abi.align 0 (fun _ => []) (fun _ => [])
      (fun c => ?_) (fun c => ?_) (fun c => ?_) (by simp) (by simp) fun c i v hi => ?_
    · simp [Sphere.data, Img.offset, Img.members, alignUp_zero]
    · simp [Sphere.img, vec2_img_eq va, vec3_img_eq va, Img.ofMembers, Img.members, Img.place, Img.real, scal,
        alignUp_of_dvd, d1, d2, d3, d4, e2, e3, k2, k3, h1]
      try omega
    · simp
    match i, hi with
    | 0, _ => exact ⟨{ c with center.x := v }, rfl, rfl⟩
    | 1, _ => exact ⟨{ c with center.y := v }, rfl, rfl⟩
    | 2, _ => exact ⟨{ c with center.z := v }, rfl, rfl⟩
    | 3, _ => exact ⟨{ c with radius := v }, rfl, rfl⟩
  · refine dataArray_of hs (4 * abi.size) abi.align 0 (fun _ => []) (fun _ => [])
      (fun c => ?_) (fun c => ?_) (fun c => ?_) (by simp) (by simp) fun c i v hi => ?_
    · simp [Plane.data, Img.offset, Img.members, alignUp_zero]
    · simp [Plane.img, vec2_img_eq va, vec3_img_eq va, Img.ofMembers, Img.members, Img.place, Img.real, scal,
        alignUp_of_dvd, d1, d2, d3, d4, e2, e3, k2, k3, h1]
      try omega
    · simp
    match i, hi with
    | 0, _ => exact ⟨{ c with normal.x := v }, rfl, rfl⟩
    | 1, _ => exact ⟨{ c with normal.y := v }, rfl, rfl⟩
    | 2, _ => exact ⟨{ c with normal.z := v }, rfl, rfl⟩
    | 3, _ => exact ⟨{ c with d := v }, rfl, rfl⟩

theorem C146_mat2 (abi : Abi) (va : abi.Valid) :
    DataArray abi (Mat2.img (R := R) abi) (Mat2.data abi)
      (fun c => [c.x.x, c.x.y, c.y.x, c.y.y]) (fun c => c.flags) := by
  refine dataArray_of va.size_pos _ _ 0 (fun _ => [])
    (fun f => [(alignUp (4 * abi.size) abi.walign, .word f)])
    (fun c => ?_) (fun c => mat2_img_eq va c) (fun c => ?_) (by simp) (fun c => ?_) fun c i v hi => ?_
  · simp [Mat2.data, Vec2.data, Img.offset, Img.members, alignUp_zero]
  · have h1 := le_alignUp (n := 4 * abi.size) va.walign_pos
    have h2 := le_alignUp (n := alignUp (4 * abi.size) abi.walign + abi.wsize)
      (a := max abi.align abi.walign) (lt_of_lt_of_le va.align_pos (le_max_left _ _))
    simp only [List.length_cons, List.length_nil]
    omega
  · have h1 := le_alignUp (n := 4 * abi.size) va.walign_pos
    simpa using h1
  ·
    match i, hi with
    | 0, _ => exact ⟨{ c with x.x := v }, rfl, rfl⟩
    | 1, _ => exact ⟨{ c with x.y := v }, rfl, rfl⟩
    | 2, _ => exact ⟨{ c with y.x := v }, rfl, rfl⟩
    | 3, _ => exact ⟨{ c with y.y := v }, rfl, rfl⟩

theorem C146_mat3 (abi : Abi) (va : abi.Valid) :
    DataArray abi (Mat3.img (R := R) abi) (Mat3.data abi)
      (fun c => [c.x.x, c.x.y, c.x.z, c.y.x, c.y.y, c.y.z, c.z.x, c.z.y, c.z.z]) (fun c => c.flags) := by
  refine dataArray_of va.size_pos _ _ (alignUp abi.wsize abi.align) (fun f => [(0, .word f)]) (fun _ => [])
    (fun c => ?_) (fun c => mat3_img_eq va c) (fun c => ?_) (fun k => ?_) (by simp)
    fun c i v hi => ?_
  · simp [Mat3.data, Vec3.data, Img.offset, Img.members, Img.place, Img.word, alignUp_zero, vec3_img_eq va]
  · have h2 := le_alignUp (n := alignUp abi.wsize abi.align + 9 * abi.size)
      (a := max abi.walign abi.align) (lt_of_lt_of_le va.align_pos (le_max_right _ _))
    simpa using h2
  · have h1 := le_alignUp (n := abi.wsize) va.align_pos
    have := va.wsize_pos
    simpa using by omega
  ·
    match i, hi with
    | 0, _ => exact ⟨{ c with x.x := v }, rfl, rfl⟩
    | 1, _ => exact ⟨{ c with x.y := v }, rfl, rfl⟩
    | 2, _ => exact ⟨{ c with x.z := v }, rfl, rfl⟩
    | 3, _ => exact ⟨{ c with y.x := v }, rfl, rfl⟩
    | 4, _ => exact ⟨{ c with y.y := v }, rfl, rfl⟩
    | 5, _ => exact ⟨{ c with y.z := v }, rfl, rfl⟩
    | 6, _ => exact ⟨{ c with z.x := v }, rfl, rfl⟩
    | 7, _ => exact ⟨{ c with z.y := v }, rfl, rfl⟩
    | 8, _ => exact ⟨{ c with z.z := v }, rfl, rfl⟩

theorem C146_mat4 (abi : Abi) (va : abi.Valid) :
    DataArray abi (Mat4.img (R := R) abi) (Mat4.data abi)
      (fun c => [c.x.x, c.x.y, c.x.z, c.x.w, c.y.x, c.y.y, c.y.z, c.y.w, c.z.x, c.z.y, c.z.z, c.z.w, c.t.x, c.t.y, c.t.z, c.t.w]) (fun c => c.flags) := by
  refine dataArray_of va.size_pos _ _ (alignUp abi.wsize abi.align) (fun f => [(0, .word f)]) (fun _ => [])
    (fun c => ?_) (fun c => mat4_img_eq va c) (fun c => ?_) (fun k => ?_) (by simp)
    fun c i v hi => ?_
  · simp [Mat4.data, Vec4.data, Img.offset, Img.members, Img.place, Img.word, alignUp_zero, vec4_img_eq va]
  · have h2 := le_alignUp (n := alignUp abi.wsize abi.align + 16 * abi.size)
      (a := max abi.walign abi.align) (lt_of_lt_of_le va.align_pos (le_max_right _ _))
    simpa using h2
  · have h1 := le_alignUp (n := abi.wsize) va.align_pos
    have := va.wsize_pos
    simpa using by omega
  ·
    match i, hi with
    | 0, _ => exact ⟨{ c with x.x := v }, rfl, rfl⟩
    | 1, _ => exact ⟨{ c with x.y := v }, rfl, rfl⟩
    | 2, _ => exact ⟨{ c with x.z := v }, rfl, rfl⟩
    | 3, _ => exact ⟨{ c with x.w := v }, rfl, rfl⟩
    | 4, _ => exact ⟨{ c with y.x := v }, rfl, rfl⟩
    | 5, _ => exact ⟨{ c with y.y := v }, rfl, rfl⟩
    | 6, _ => exact ⟨{ c with y.z := v }, rfl, rfl⟩
    | 7, _ => exact ⟨{ c with y.w := v }, rfl, rfl⟩
    | 8, _ => exact ⟨{ c with z.x := v }, rfl, rfl⟩
    | 9, _ => exact ⟨{ c with z.y := v }, rfl, rfl⟩
    | 10, _ => exact ⟨{ c with z.z := v }, rfl, rfl⟩
    | 11, _ => exact ⟨{ c with z.w := v }, rfl, rfl⟩
    | 12, _ => exact ⟨{ c with t.x := v }, rfl, rfl⟩
    | 13, _ => exact ⟨{ c with t.y := v }, rfl, rfl⟩
    | 14, _ => exact ⟨{ c with t.z := v }, rfl, rfl⟩
    | 15, _ => exact ⟨{ c with t.w := v }, rfl, rfl⟩
    | n + 16, h => simp only [List.length_cons, List.length_nil] at h; omega

/-- `Mat34`: the translation follows the nine entries of `rs` when `Real` is at least as strictly aligned
as `unsigned int`, as `float` and `double` are. -/
theorem C146_mat34_partial (abi : Abi) (va : abi.Valid) (hw : abi.walign ∣ abi.align) :
    DataArray abi (Mat34.img (R := R) abi) (Mat34.data abi)
      (fun c => [c.rs.x.x, c.rs.x.y, c.rs.x.z, c.rs.y.x, c.rs.y.y, c.rs.y.z, c.rs.z.x, c.rs.z.y, c.rs.z.z, c.t.x, c.t.y, c.t.z]) (fun c => c.rs.flags) := by
  refine dataArray_of va.size_pos _ _ (alignUp abi.wsize abi.align) (fun f => [(0, .word f)]) (fun _ => [])
    (fun c => ?_) (fun c => mat34_img_eq va hw c) (fun c => ?_) (fun k => ?_) (by simp)
    fun c i v hi => ?_
  · simp [Mat34.data, Mat3.data, Vec3.data, Img.offset, Img.members, Img.place, Img.word, alignUp_zero,
      vec3_img_eq va]
  · simp
  · have h1 := le_alignUp (n := abi.wsize) va.align_pos
    have := va.wsize_pos
    simpa using by omega
  ·
    match i, hi with
    | 0, _ => exact ⟨{ c with rs.x.x := v }, rfl, rfl⟩
    | 1, _ => exact ⟨{ c with rs.x.y := v }, rfl, rfl⟩
    | 2, _ => exact ⟨{ c with rs.x.z := v }, rfl, rfl⟩
    | 3, _ => exact ⟨{ c with rs.y.x := v }, rfl, rfl⟩
    | 4, _ => exact ⟨{ c with rs.y.y := v }, rfl, rfl⟩
    | 5, _ => exact ⟨{ c with rs.y.z := v }, rfl, rfl⟩
    | 6, _ => exact ⟨{ c with rs.z.x := v }, rfl, rfl⟩
    | 7, _ => exact ⟨{ c with rs.z.y := v }, rfl, rfl⟩
    | 8, _ => exact ⟨{ c with rs.z.z := v }, rfl, rfl⟩
    | 9, _ => exact ⟨{ c with t.x := v }, rfl, rfl⟩
    | 10, _ => exact ⟨{ c with t.y := v }, rfl, rfl⟩
    | 11, _ => exact ⟨{ c with t.z := v }, rfl, rfl⟩

/-- an array of vectors is an array of scalars -/
theorem C146_sizes (abi : Abi) (va : abi.Valid) (a : Vec2 R) (b : Vec3 R) (c : Vec4 R) :
    (a.img abi).size = 2 * abi.size ∧ (b.img abi).size = 3 * abi.size ∧ (c.img abi).size = 4 * abi.size := by
  rw [vec2_img_eq va, vec3_img_eq va, vec4_img_eq va]
  exact ⟨rfl, rfl, rfl⟩

/-- the full claim for `Mat34`, for every scalar type -/
def C146_full : Prop :=
  ∀ abi : Abi, abi.Valid →
    DataArray (R := ℤ) abi (Mat34.img abi) (Mat34.data abi)
      (fun c => [c.rs.x.x, c.rs.x.y, c.rs.x.z, c.rs.y.x, c.rs.y.y, c.rs.y.z, c.rs.z.x, c.rs.z.y, c.rs.z.z, c.t.x, c.t.y, c.t.z])
      (fun c => c.rs.flags)

/-- A two-byte scalar: two bytes of padding lie between `rs` and `t`, and `data()[9]` is in them. -/
theorem C146_refuted : ¬ C146_full := by
  intro h
  have va : Abi.Valid ⟨2, 2, 4, 4⟩ := ⟨by decide, by decide, by decide, by decide, by decide, by decide⟩
  have := (h ⟨2, 2, 4, 4⟩ va ⟨⟨⟨1, 0, 0⟩, ⟨0, 1, 0⟩, ⟨0, 0, 1⟩, ⟨true, true, true, false, false⟩⟩, ⟨1, 2, 3⟩⟩).1.2
    9 (by decide)
  revert this
  decide +kernel

/-- `float` and `double` on the usual platforms, and `double` on a platform that aligns it to 4 -/
example : (Abi.Valid ⟨4, 4, 4, 4⟩ ∧ 4 ∣ 4) ∧ (Abi.Valid ⟨8, 8, 4, 4⟩ ∧ 4 ∣ 8) ∧ Abi.Valid ⟨8, 4, 4, 4⟩ :=
  ⟨⟨⟨by decide, by decide, by decide, by decide, by decide, by decide⟩, by decide⟩,
    ⟨⟨by decide, by decide, by decide, by decide, by decide, by decide⟩, by decide⟩,
    ⟨by decide, by decide, by decide, by decide, by decide, by decide⟩⟩

end MathLib
