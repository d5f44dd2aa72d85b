import Verif.Props.RoundedForward
import Verif.Props.Rotations
import Verif.Proof.Apx

/-! # Property C153: rotations built in floating point are rotations up to rounding -/

namespace MathLib
variable {rnd : ℝ → ℝ} {u : ℝ}

private theorem gam5 (hr : IsRel rnd u) (hu : u ≤ 1 / 4096) : gam u 5 ≤ 5.01 * u := by
  have h := gam_le hr.lt_one (n := 5) (by push_cast; linarith)
  push_cast at h
  have h0 := hr.nonneg
  refine h.trans ?_
  rw [div_le_iff₀ (by linarith)]
  nlinarith

private theorem diag (hr : IsRel rnd u) (hu : u ≤ 1 / 4096) {X C T : Fl ℝ rnd} {x c : ℝ} (hX : Apx u X x 5.01 1)
    (hC : Apx u C c 1 1) (hT : Apx u T (1 - c) 3.01 2) (h : |c + x * x * (1 - c)| ≤ 1) :
    Apx u (C + X * X * T) (c + x * x * (1 - c)) 33 1 := by
  have hx : |x| ≤ 1 := hX.choose_spec.2.2
  have hc : |1 - c| ≤ 2 := hT.choose_spec.2.2
  have h1 : |x * x| ≤ 1 := by rw [abs_mul]; nlinarith [abs_nonneg x]
  have h2 : |x * x * (1 - c)| ≤ 2 := by rw [abs_mul]; nlinarith [abs_nonneg (x * x), abs_nonneg (1 - c)]
  exact Apx.add hr hu hC (Apx.mul hr hu (Apx.mul hr hu hX hX (e := 11.1) (by norm_num) h1 (by norm_num)) hT (e := 27.3)
    (by norm_num) h2 (by norm_num)) h (by norm_num)

private theorem prods (hr : IsRel rnd u) (hu : u ≤ 1 / 4096) {X Y Z S T : Fl ℝ rnd} {x y z s c : ℝ}
    (hX : Apx u X x 5.01 1) (hY : Apx u Y y 5.01 1) (hZ : Apx u Z z 5.01 1) (hS : Apx u S s 1 1)
    (hT : Apx u T (1 - c) 3.01 2) (h : x ^ 2 + y ^ 2 ≤ 1) :
    Apx u (X * Y * T) (x * y * (1 - c)) 23.8 1 ∧ Apx u (Z * S) (z * s) 7.1 1 := by
  have hz : |z| ≤ 1 := hZ.choose_spec.2.2
  have hs : |s| ≤ 1 := hS.choose_spec.2.2
  have hc : |1 - c| ≤ 2 := hT.choose_spec.2.2
  have h1 : |x * y| ≤ 1 / 2 := by rw [abs_le]; constructor <;> nlinarith [sq_nonneg (x - y), sq_nonneg (x + y)]
  have h2 : |x * y * (1 - c)| ≤ 1 := by rw [abs_mul]; nlinarith [abs_nonneg (x * y), abs_nonneg (1 - c)]
  have h3 : |z * s| ≤ 1 := by rw [abs_mul]; nlinarith [abs_nonneg z, abs_nonneg s]
  exact ⟨Apx.mul hr hu (Apx.mul hr hu hX hY (e := 10.6) (by norm_num) h1 (by norm_num)) hT (by norm_num) h2 (by norm_num),
    Apx.mul hr hu hZ hS (by norm_num) h3 (by norm_num)⟩

private theorem offAdd (hr : IsRel rnd u) (hu : u ≤ 1 / 4096) {X Y Z S T : Fl ℝ rnd} {x y z s c : ℝ}
    (hX : Apx u X x 5.01 1) (hY : Apx u Y y 5.01 1) (hZ : Apx u Z z 5.01 1) (hS : Apx u S s 1 1)
    (hT : Apx u T (1 - c) 3.01 2) (h : x ^ 2 + y ^ 2 ≤ 1) (hb : |x * y * (1 - c) + z * s| ≤ 1) :
    Apx u (X * Y * T + Z * S) (x * y * (1 - c) + z * s) 33 1 := by
  obtain ⟨h1, h2⟩ := prods hr hu hX hY hZ hS hT h
  exact Apx.add hr hu h1 h2 hb (by norm_num)

private theorem offSub (hr : IsRel rnd u) (hu : u ≤ 1 / 4096) {X Y Z S T : Fl ℝ rnd} {x y z s c : ℝ}
    (hX : Apx u X x 5.01 1) (hY : Apx u Y y 5.01 1) (hZ : Apx u Z z 5.01 1) (hS : Apx u S s 1 1)
    (hT : Apx u T (1 - c) 3.01 2) (h : x ^ 2 + y ^ 2 ≤ 1) (hb : |x * y * (1 - c) - z * s| ≤ 1) :
    Apx u (X * Y * T - Z * S) (x * y * (1 - c) - z * s) 33 1 := by
  obtain ⟨h1, h2⟩ := prods hr hu hX hY hZ hS hT h
  exact Apx.sub hr hu h1 h2 hb (by norm_num)

/-- columns of length one, at right angles -/
private structure Ortho (x y z : Vec3 ℝ) : Prop where
  xx : x.x * x.x + x.y * x.y + x.z * x.z = 1
  yy : y.x * y.x + y.y * y.y + y.z * y.z = 1
  zz : z.x * z.x + z.y * z.y + z.z * z.z = 1
  xy : x.x * y.x + x.y * y.y + x.z * y.z = 0
  xz : x.x * z.x + x.y * z.y + x.z * z.z = 0
  yz : y.x * z.x + y.y * z.y + y.z * z.z = 0

private theorem le_one {a b c : ℝ} (h : a * a + b * b + c * c = 1) : |a| ≤ 1 ∧ |b| ≤ 1 ∧ |c| ≤ 1 := by
  refine ⟨?_, ?_, ?_⟩ <;> rw [abs_le] <;> constructor <;>
    nlinarith [mul_self_nonneg a, mul_self_nonneg b, mul_self_nonneg c]

private theorem ortho_axis (b : Vec3 ℝ) (hb : b ≠ ⟨0, 0, 0⟩) (θ : ℝ) :
    Ortho (Mat3.ofAxisAngle b θ).x (Mat3.ofAxisAngle b θ).y (Mat3.ofAxisAngle b θ).z := by
  have h := (C44_axis b hb θ 0 b).1.1
  have e : ∀ i j, ((Mat3.ofAxisAngle b θ).toM.transpose * (Mat3.ofAxisAngle b θ).toM) i j = (1 : Matrix _ _ ℝ) i j :=
    fun i j => by rw [h]
  generalize Mat3.ofAxisAngle b θ = M at e
  have e00 := e 0 0
  have e11 := e 1 1
  have e22 := e 2 2
  have e01 := e 0 1
  have e02 := e 0 2
  have e12 := e 1 2
  simp [Matrix.mul_apply, Fin.sum_univ_succ, Mat3.toM] at e00 e11 e22 e01 e02 e12
  constructor <;> linarith

/-- Every entry of the matrix for an axis and an angle is within `33 u` of the entry of the exact rotation. -/
private theorem entries (hr : IsRel rnd u) (hu : u ≤ 1 / 4096) (b : Vec3 ℝ) (hb : b ≠ ⟨0, 0, 0⟩) (θ : ℝ) :
    let M := Mat3.ofAxisAngle (Vec3.num b : Vec3 (Fl ℝ rnd)) (.num θ)
    let E := Mat3.ofAxisAngle b θ
    (Apx u M.x.x E.x.x 33 1 ∧ Apx u M.x.y E.x.y 33 1 ∧ Apx u M.x.z E.x.z 33 1) ∧
    (Apx u M.y.x E.y.x 33 1 ∧ Apx u M.y.y E.y.y 33 1 ∧ Apx u M.y.z E.y.z 33 1) ∧
    Apx u M.z.x E.z.x 33 1 ∧ Apx u M.z.y E.z.y 33 1 ∧ Apx u M.z.z E.z.z 33 1 := by
  intro M E
  have ho := ortho_axis b hb θ
  obtain ⟨bx1, bx2, bx3⟩ := le_one ho.xx
  obtain ⟨by1, by2, by3⟩ := le_one ho.yy
  obtain ⟨bz1, bz2, bz3⟩ := le_one ho.zz
  obtain ⟨w, e, -, ⟨ex, ey, ez⟩, -⟩ := C119_normalized3 hr b hb 1
  have hn := (Vec3.normalized_unit hb).1
  have hl : b.normalized 1 = ⟨b.x * (1 / √(b.x ^ 2 + b.y ^ 2 + b.z ^ 2)), b.y * (1 / √(b.x ^ 2 + b.y ^ 2 + b.z ^ 2)),
      b.z * (1 / √(b.x ^ 2 + b.y ^ 2 + b.z ^ 2))⟩ := by
    have h0 : b.length ≠ 0 := fun h => hb ((C22_length_norm.2.1 b).1 h)
    have e : b.length = √(b.x ^ 2 + b.y ^ 2 + b.z ^ 2) := by simp [Vec3.length, sq]
    rw [← e]
    simp [Vec3.normalized, h0]
  have ap : ∀ {v y : ℝ}, |v - y| ≤ gam u 5 * |y| → |y| ≤ 1 → Apx u (.num v : Fl ℝ rnd) y 5.01 1 := fun h k =>
    ⟨_, rfl, h.trans ((mul_le_mul_of_nonneg_right (gam5 hr hu) (abs_nonneg _)).trans
      (mul_le_of_le_one_right (mul_nonneg (by norm_num) hr.nonneg) k)), k⟩
  obtain ⟨n1, n2, n3⟩ := le_one (show (b.normalized 1).x * (b.normalized 1).x + (b.normalized 1).y * (b.normalized 1).y +
    (b.normalized 1).z * (b.normalized 1).z = 1 by linarith [hn])
  have hX : Apx u ((Vec3.num b : Vec3 (Fl ℝ rnd)).normalized 1).x (b.normalized 1).x 5.01 1 := by
    rw [show (Vec3.num b : Vec3 (Fl ℝ rnd)).normalized 1 = Vec3.num w from e]
    exact ap (by rw [hl]; exact ex) n1
  have hY : Apx u ((Vec3.num b : Vec3 (Fl ℝ rnd)).normalized 1).y (b.normalized 1).y 5.01 1 := by
    rw [show (Vec3.num b : Vec3 (Fl ℝ rnd)).normalized 1 = Vec3.num w from e]
    exact ap (by rw [hl]; exact ey) n2
  have hZ : Apx u ((Vec3.num b : Vec3 (Fl ℝ rnd)).normalized 1).z (b.normalized 1).z 5.01 1 := by
    rw [show (Vec3.num b : Vec3 (Fl ℝ rnd)).normalized 1 = Vec3.num w from e]
    exact ap (by rw [hl]; exact ez) n3
  have tr : ∀ y : ℝ, |y| ≤ 1 → Apx u (.num (rnd y) : Fl ℝ rnd) y 1 1 := fun y hy =>
    ⟨_, rfl, by have := mul_le_mul_of_nonneg_left hy hr.nonneg; linarith [hr.err y], hy⟩
  have hS : Apx u (MathFns.sin (.num θ : Fl ℝ rnd)) (Real.sin θ) 1 1 := tr _ (Real.abs_sin_le_one θ)
  have hC : Apx u (MathFns.cos (.num θ : Fl ℝ rnd)) (Real.cos θ) 1 1 := tr _ (Real.abs_cos_le_one θ)
  have hT : Apx u (1 - MathFns.cos (.num θ : Fl ℝ rnd)) (1 - Real.cos θ) 3.01 2 :=
    Apx.sub hr hu (Apx.num (M := 1) (by norm_num)) hC (by
      rw [abs_le]; constructor <;> linarith [Real.neg_one_le_cos θ, Real.cos_le_one θ]) (by norm_num)
  have q1 := sq_nonneg (b.normalized 1).x
  have q2 := sq_nonneg (b.normalized 1).y
  have q3 := sq_nonneg (b.normalized 1).z
  exact ⟨⟨diag hr hu hX hC hT bx1, offAdd hr hu hX hY hZ hS hT (by linarith) bx2, offSub hr hu hZ hX hY hS hT (by linarith) bx3⟩,
    ⟨offSub hr hu hX hY hZ hS hT (by linarith) by1, diag hr hu hY hC hT by2, offAdd hr hu hY hZ hX hS hT (by linarith) by3⟩,
    offAdd hr hu hZ hX hY hS hT (by linarith) bz1, offSub hr hu hY hZ hX hS hT (by linarith) bz2, diag hr hu hZ hC hT bz3⟩

/-- every entry of `M` is a number and off by at most `e` from the entry of `E` -/
def Mat3.Near (M : Mat3 (Fl ℝ rnd)) (e : ℝ) (E : Mat3 ℝ) : Prop :=
  (M.x.x.Within e E.x.x ∧ M.x.y.Within e E.x.y ∧ M.x.z.Within e E.x.z) ∧
  (M.y.x.Within e E.y.x ∧ M.y.y.Within e E.y.y ∧ M.y.z.Within e E.y.z) ∧
  M.z.x.Within e E.z.x ∧ M.z.y.Within e E.z.y ∧ M.z.z.Within e E.z.z

private theorem Apx.within {a : Fl ℝ rnd} {x e M : ℝ} (h : Apx u a x e M) : a.Within (e * u) x :=
  ⟨h.choose, h.choose_spec.1, h.choose_spec.2.1⟩

/-- The matrix for an axis and an angle: every entry is within `33 u` of that of the exact matrix, which is the rotation
(C44). -/
theorem C153_entries (hr : IsRel rnd u) (hu : u ≤ 1 / 4096) (b : Vec3 ℝ) (hb : b ≠ ⟨0, 0, 0⟩) (θ : ℝ) :
    (Mat3.ofAxisAngle (Vec3.num b : Vec3 (Fl ℝ rnd)) (.num θ)).Near (33 * u) (Mat3.ofAxisAngle b θ) := by
  obtain ⟨⟨h1, h2, h3⟩, ⟨h4, h5, h6⟩, h7, h8, h9⟩ := entries hr hu b hb θ
  exact ⟨⟨h1.within, h2.within, h3.within⟩, ⟨h4.within, h5.within, h6.within⟩, h7.within, h8.within, h9.within⟩

private theorem row (hr : IsRel rnd u) (hu : u ≤ 1 / 4096) {a b c A B C : ℝ} {x y z : Fl ℝ rnd}
    (hx : Apx u x A 33 1) (hy : Apx u y B 33 1) (hz : Apx u z C 33 1) :
    (.num a * x + .num b * y + .num c * z : Fl ℝ rnd).Within (37 * u * (|a| + |b| + |c|)) (a * A + b * B + c * C) := by
  obtain ⟨x, rfl, ex, bx⟩ := hx
  obtain ⟨y, rfl, ey, by'⟩ := hy
  obtain ⟨z, rfl, ez, bz⟩ := hz
  obtain ⟨-, v, e, h⟩ := abs_sum3 hr a x b y c z
  refine ⟨v, e, ?_⟩
  have h0 := hr.nonneg
  have g3 : gam u 3 ≤ 3.01 * u := by
    have h := gam_le hr.lt_one (n := 3) (by push_cast; linarith)
    push_cast at h
    refine h.trans ?_
    rw [div_le_iff₀ (by linarith)]
    nlinarith
  have k : ∀ {t T w : ℝ}, |t - T| ≤ 33 * u → |T| ≤ 1 → |w * t| ≤ 1.01 * |w| ∧ |w * t - w * T| ≤ 33 * u * |w| := by
    intro t T w h1 h2
    have h3 : |t| ≤ 1.01 := by
      have := abs_sub_abs_le_abs_sub t T
      linarith
    rw [← mul_sub, abs_mul, abs_mul]
    exact ⟨by nlinarith [abs_nonneg w], by nlinarith [abs_nonneg w]⟩
  obtain ⟨a1, a2⟩ := k (w := a) ex bx
  obtain ⟨b1, b2⟩ := k (w := b) ey by'
  obtain ⟨c1, c2⟩ := k (w := c) ez bz
  have s0 : 0 ≤ |a| + |b| + |c| := by positivity
  have t1 : gam u 3 * (|a * x| + |b * y| + |c * z|) ≤ 3.01 * u * (1.01 * (|a| + |b| + |c|)) :=
    mul_le_mul g3 (by linarith) (by positivity) (by positivity)
  have t2 : |v - (a * A + b * B + c * C)| ≤ |v - (a * x + b * y + c * z)| + (|a * x - a * A| + |b * y - b * B| + |c * z - c * C|) := by
    rw [show v - (a * A + b * B + c * C) = (v - (a * x + b * y + c * z)) + ((a * x - a * A) + (b * y - b * B) + (c * z - c * C)) by ring]
    exact (abs_add_le _ _).trans (add_le_add le_rfl (abs_add_three _ _ _))
  have : 0 ≤ u * (|a| + |b| + |c|) := mul_nonneg h0 s0
  nlinarith

/-- A vector turned by that matrix is the vector turned by the exact rotation, up to `37 u` of the sum of the
coordinates. -/
theorem C153_transform (hr : IsRel rnd u) (hu : u ≤ 1 / 4096) (b : Vec3 ℝ) (hb : b ≠ ⟨0, 0, 0⟩) (θ : ℝ) (v : Vec3 ℝ) :
    let r := (Mat3.ofAxisAngle (Vec3.num b : Vec3 (Fl ℝ rnd)) (.num θ)).mulVec (Vec3.num v)
    let t := rodrigues (b.normalized 1) θ v
    let e := 37 * u * (|v.x| + |v.y| + |v.z|)
    r.x.Within e t.x ∧ r.y.Within e t.y ∧ r.z.Within e t.z := by
  intro r t e
  obtain ⟨⟨h1, h2, h3⟩, ⟨h4, h5, h6⟩, h7, h8, h9⟩ := entries hr hu b hb θ
  have ht : t = (Mat3.ofAxisAngle b θ).mulVec v := (Mat3.ofAxisAngle_mulVec hb θ v).symm
  rw [ht]
  exact ⟨row hr hu h1 h4 h7, row hr hu h2 h5 h8, row hr hu h3 h6 h9⟩

/-! ## The flags -/

private theorem dot (hr : IsRel rnd u) (hu : u ≤ 1 / 4096) {X Y Z X' Y' Z' : Fl ℝ rnd} {x y z x' y' z' d : ℝ}
    (h1 : Apx u X x 80 1) (h2 : Apx u Y y 80 1) (h3 : Apx u Z z 80 1) (h1' : Apx u X' x' 80 1) (h2' : Apx u Y' y' 80 1)
    (h3' : Apx u Z' z' 80 1) (n : x * x + y * y + z * z = 1) (n' : x' * x' + y' * y' + z' * z' = 1)
    (hd : x * x' + y * y' + z * z' = d) : Apx u (X * X' + Y * Y' + Z * Z') d 492 1 := by
  have b : ∀ a b : ℝ, |a * b| ≤ (a * a + b * b) / 2 := fun a b => by
    rw [abs_le]; constructor <;> nlinarith [sq_nonneg (a - b), sq_nonneg (a + b)]
  have b1 := b x x'
  have b2 := b y y'
  have b3 := b z z'
  have p : ∀ a : ℝ, 0 ≤ a * a := mul_self_nonneg
  have m1 := Apx.mul hr hu h1 h1' (e := 162.7) (M := 1) (by norm_num)
    (b1.trans (by linarith [p y, p z, p y', p z'])) (by norm_num)
  have m2 := Apx.mul hr hu h2 h2' (e := 162.7) (M := 1) (by norm_num)
    (b2.trans (by linarith [p x, p z, p x', p z'])) (by norm_num)
  have m3 := Apx.mul hr hu h3 h3' (e := 162.7) (M := 1) (by norm_num)
    (b3.trans (by linarith [p x, p y, p x', p y'])) (by norm_num)
  rw [← hd]
  refine Apx.add hr hu (Apx.add hr hu m1 m2 (e := 326.5) (M := 1) ?_ (by norm_num)) m3 ?_ (by norm_num)
  · exact (abs_add_le _ _).trans (by linarith [p z, p z'])
  · exact (abs_add_three _ _ _).trans (by linarith)

private theorem sqsum (hr : IsRel rnd u) (hu : u ≤ 1 / 4096) {X Y Z : Fl ℝ rnd} (h1 : Apx u X 0 494 0)
    (h2 : Apx u Y 0 494 0) (h3 : Apx u Z 0 494 0) : Apx u (X * X + Y * Y + Z * Z) 0 190 0 := by
  have m := fun {X : Fl ℝ rnd} (h : Apx u X 0 494 0) =>
    Apx.mul hr hu h h (e := 60) (M := 0) (by norm_num) (by norm_num) (by norm_num)
  have := Apx.add hr hu (Apx.add hr hu (m h1) (m h2) (e := 121) (M := 0) (by norm_num) (by norm_num)) (m h3) (e := 190)
    (M := 0) (by norm_num) (by norm_num)
  simpa using this

private theorem thousandth (hr : IsRel rnd u) (hu : u ≤ 1 / 2 ^ 20) :
    ∃ t, (1 / 1000 : Fl ℝ rnd) = .num t ∧ 1 / 2000 ≤ t := by
  have e : (1000 : Fl ℝ rnd) = .num (rnd 1000) := by change Fl.num (rnd ((1000 : ℕ) : ℝ)) = _; norm_num
  have h1 := hr.err 1000
  rw [abs_of_pos (by norm_num : (0 : ℝ) < 1000)] at h1
  obtain ⟨l1, l2⟩ := abs_le.1 h1
  have h2 := hr.err (1 / rnd 1000)
  have pos : 0 < rnd 1000 := by linarith
  refine ⟨rnd (1 / rnd 1000), by rw [e]; change (Fl.num 1 : Fl ℝ rnd) / _ = _; rw [Fl.num_div, if_neg pos.ne'], ?_⟩
  rw [abs_of_pos (one_div_pos.2 pos : 0 < 1 / rnd 1000)] at h2
  obtain ⟨l3, l4⟩ := abs_le.1 h2
  have h3 : (1 : ℝ) / 1001 ≤ 1 / rnd 1000 := one_div_le_one_div_of_le pos (by linarith)
  nlinarith

private theorem flagged (hr : IsRel rnd u) (hu : u ≤ 1 / 2 ^ 20) {M : Mat3 (Fl ℝ rnd)} {E : Mat3 ℝ}
    (ho : Ortho E.x E.y E.z)
    (h : (Apx u M.x.x E.x.x 80 1 ∧ Apx u M.x.y E.x.y 80 1 ∧ Apx u M.x.z E.x.z 80 1) ∧
      (Apx u M.y.x E.y.x 80 1 ∧ Apx u M.y.y E.y.y 80 1 ∧ Apx u M.y.z E.y.z 80 1) ∧
      Apx u M.z.x E.z.x 80 1 ∧ Apx u M.z.y E.z.y 80 1 ∧ Apx u M.z.z E.z.z 80 1) : M.optimize.isOrthonormal = true := by
  have hu' : u ≤ 1 / 4096 := by linarith
  obtain ⟨⟨h1, h2, h3⟩, ⟨h4, h5, h6⟩, h7, h8, h9⟩ := h
  have one : Apx u (1 : Fl ℝ rnd) 1 0 1 := Apx.num (by norm_num)
  have sub1 : ∀ {X : Fl ℝ rnd}, Apx u X 1 492 1 → Apx u (X - 1) 0 494 0 := fun h => by
    have := Apx.sub hr hu' h one (e := 494) (M := 0) (by norm_num) (by norm_num)
    simpa using this
  have z : ∀ {X : Fl ℝ rnd}, Apx u X 0 492 1 → Apx u X 0 494 0 := fun h => h.mono hr.nonneg (by norm_num) (by norm_num)
  obtain ⟨t, et, ht⟩ := thousandth hr hu
  have fin : ∀ {X : Fl ℝ rnd}, Apx u X 0 190 0 → X ≤ 1 / 1000 := fun ⟨v, e, hv, _⟩ => by
    rw [e, et, Fl.num_le]
    rw [sub_zero] at hv
    linarith [le_abs_self v]
  simp only [Mat3.isOrthonormal, Mat3.optimize, Mat3.optimizeTol, MatTol.default, Bool.and_eq_true]
  exact ⟨decide_eq_true (fin (sqsum hr hu' (sub1 (dot hr hu' h1 h2 h3 h1 h2 h3 ho.xx ho.xx ho.xx))
      (sub1 (dot hr hu' h4 h5 h6 h4 h5 h6 ho.yy ho.yy ho.yy)) (sub1 (dot hr hu' h7 h8 h9 h7 h8 h9 ho.zz ho.zz ho.zz)))),
    decide_eq_true (fin (sqsum hr hu' (z (dot hr hu' h1 h2 h3 h4 h5 h6 ho.xx ho.yy ho.xy))
      (z (dot hr hu' h1 h2 h3 h7 h8 h9 ho.xx ho.zz ho.xz)) (z (dot hr hu' h4 h5 h6 h7 h8 h9 ho.yy ho.zz ho.yz))))⟩

/-- With twenty or more bits the matrix is always marked as orthonormal, so `invert` takes the transpose. -/
theorem C153_flags (hr : IsRel rnd u) (hu : u ≤ 1 / 2 ^ 20) (b : Vec3 ℝ) (hb : b ≠ ⟨0, 0, 0⟩) (θ : ℝ) :
    (Mat3.ofAxisAngle (Vec3.num b : Vec3 (Fl ℝ rnd)) (.num θ)).isOrthonormal = true ∧
    (Mat3.ofAxisAngle (Vec3.num b : Vec3 (Fl ℝ rnd)) (.num θ)).invert =
      .ok (Mat3.ofAxisAngle (Vec3.num b : Vec3 (Fl ℝ rnd)) (.num θ)).transpose := by
  have m : ∀ {X : Fl ℝ rnd} {x : ℝ}, Apx u X x 33 1 → Apx u X x 80 1 := fun h =>
    h.mono hr.nonneg (by norm_num) h.choose_spec.2.2
  obtain ⟨⟨h1, h2, h3⟩, ⟨h4, h5, h6⟩, h7, h8, h9⟩ := entries hr (by linarith) b hb θ
  have := flagged hr hu (M := Mat3.ofAxisAngle (Vec3.num b : Vec3 (Fl ℝ rnd)) (.num θ)) (ortho_axis b hb θ)
    ⟨⟨m h1, m h2, m h3⟩, ⟨m h4, m h5, m h6⟩, m h7, m h8, m h9⟩
  have h : (Mat3.ofAxisAngle (Vec3.num b : Vec3 (Fl ℝ rnd)) (.num θ)).isOrthonormal = true := this
  exact ⟨h, by rw [Mat3.invert, if_pos h]⟩

/-! ## From a quaternion -/

private theorem ortho_quat (q : Quat ℝ) (hq : q.IsUnit) :
    Ortho (Mat3.ofQuat q).x (Mat3.ofQuat q).y (Mat3.ofQuat q).z := by
  have h := (C44_quat q hq).1.1
  have e : ∀ i j, ((Mat3.ofQuat q).toM.transpose * (Mat3.ofQuat q).toM) i j = (1 : Matrix _ _ ℝ) i j :=
    fun i j => by rw [h]
  generalize Mat3.ofQuat q = M at e
  have e00 := e 0 0
  have e11 := e 1 1
  have e22 := e 2 2
  have e01 := e 0 1
  have e02 := e 0 2
  have e12 := e 1 2
  simp [Matrix.mul_apply, Fin.sum_univ_succ, Mat3.toM] at e00 e11 e22 e01 e02 e12
  constructor <;> linarith

private theorem two_apx (hr : IsRel rnd u) : Apx u (2 : Fl ℝ rnd) 2 2 2 := by
  have : (2 : Fl ℝ rnd) = .num (rnd 2) := by change Fl.num (rnd ((2 : ℕ) : ℝ)) = _; norm_num
  rw [this]
  refine ⟨_, rfl, ?_, by norm_num⟩
  have := hr.err 2
  rw [abs_of_pos (by norm_num : (0 : ℝ) < 2)] at this
  linarith

private theorem qdiag (hr : IsRel rnd u) (hu : u ≤ 1 / 4096) {X Y : Fl ℝ rnd} {x y : ℝ} (hX : Apx u X x 8 1)
    (hY : Apx u Y y 8 1) (h : x ^ 2 + y ^ 2 ≤ 1) : Apx u (1 - 2 * (X * X + Y * Y)) (1 - 2 * (x * x + y * y)) 80 1 := by
  have px := mul_self_nonneg x
  have py := mul_self_nonneg y
  refine Apx.sub hr hu (Apx.num (M := 1) (by norm_num)) (Apx.mul hr hu (two_apx hr) (Apx.add hr hu
    (Apx.mul hr hu hX hX (e := 17.1) (M := 1) (by norm_num) ?_ (by norm_num))
    (Apx.mul hr hu hY hY (e := 17.1) (M := 1) (by norm_num) ?_ (by norm_num)) (e := 35.3) (M := 1) ?_ (by norm_num))
    (e := 75) (M := 2) (by norm_num) ?_ (by norm_num)) ?_ (by norm_num)
  all_goals rw [abs_le]; constructor <;> nlinarith

private theorem qadd (hr : IsRel rnd u) (hu : u ≤ 1 / 4096) {X Y Z W : Fl ℝ rnd} {x y z w : ℝ} (hX : Apx u X x 8 1)
    (hY : Apx u Y y 8 1) (hZ : Apx u Z z 8 1) (hW : Apx u W w 8 1) (h : x ^ 2 + y ^ 2 + z ^ 2 + w ^ 2 = 1) :
    Apx u (2 * (X * Y + Z * W)) (2 * (x * y + z * w)) 80 1 ∧ Apx u (2 * (X * Y - Z * W)) (2 * (x * y - z * w)) 80 1 := by
  have p1 := sq_nonneg (x - y)
  have p2 := sq_nonneg (x + y)
  have p3 := sq_nonneg (z - w)
  have p4 := sq_nonneg (z + w)
  have m1 := Apx.mul hr hu hX hY (e := 17.1) (M := 1) (by norm_num)
    (by rw [abs_le]; constructor <;> nlinarith) (by norm_num)
  have m2 := Apx.mul hr hu hZ hW (e := 17.1) (M := 1) (by norm_num)
    (by rw [abs_le]; constructor <;> nlinarith) (by norm_num)
  constructor
  · refine Apx.mul hr hu (two_apx hr) (Apx.add hr hu m1 m2 (e := 35.3) (M := 1) ?_ (by norm_num)) (by norm_num) ?_
      (by norm_num)
    all_goals rw [abs_le]; constructor <;> nlinarith
  · refine Apx.mul hr hu (two_apx hr) (Apx.sub hr hu m1 m2 (e := 35.3) (M := 1) ?_ (by norm_num)) (by norm_num) ?_
      (by norm_num)
    all_goals rw [abs_le]; constructor <;> nlinarith

/-- The matrix of a quaternion that is within `8 u` of a unit quaternion: every entry is within `80 u` of that of the
rotation, and with twenty or more bits the matrix is marked as orthonormal. -/
theorem C153_matrix (hr : IsRel rnd u) (hu : u ≤ 1 / 4096) (q r : Quat ℝ) (hr1 : r.IsUnit) (hx : |q.x - r.x| ≤ 8 * u)
    (hy : |q.y - r.y| ≤ 8 * u) (hz : |q.z - r.z| ≤ 8 * u) (hw : |q.w - r.w| ≤ 8 * u) :
    (Mat3.ofQuat (Quat.num q : Quat (Fl ℝ rnd))).Near (80 * u) (Mat3.ofQuat r) ∧
    (u ≤ 1 / 2 ^ 20 → (Mat3.ofQuat (Quat.num q : Quat (Fl ℝ rnd))).isOrthonormal = true) := by
  unfold Quat.IsUnit at hr1
  have sx := sq_nonneg r.x
  have sy := sq_nonneg r.y
  have sz := sq_nonneg r.z
  have sw := sq_nonneg r.w
  have b : ∀ {a : ℝ}, a ^ 2 ≤ 1 → |a| ≤ 1 := fun h => by rw [abs_le]; constructor <;> nlinarith
  have X : Apx u (.num q.x : Fl ℝ rnd) r.x 8 1 := ⟨_, rfl, hx, b (by linarith)⟩
  have Y : Apx u (.num q.y : Fl ℝ rnd) r.y 8 1 := ⟨_, rfl, hy, b (by linarith)⟩
  have Z : Apx u (.num q.z : Fl ℝ rnd) r.z 8 1 := ⟨_, rfl, hz, b (by linarith)⟩
  have W : Apx u (.num q.w : Fl ℝ rnd) r.w 8 1 := ⟨_, rfl, hw, b (by linarith)⟩
  have e11 := qdiag hr hu Y Z (by linarith)
  have e22 := qdiag hr hu X Z (by linarith)
  have e33 := qdiag hr hu X Y (by linarith)
  obtain ⟨e12, e21⟩ := qadd hr hu X Y W Z (by linarith)
  obtain ⟨e31, e13⟩ := qadd hr hu Z X W Y (by linarith)
  obtain ⟨e23, e32⟩ := qadd hr hu Y Z W X (by linarith)
  refine ⟨⟨⟨e11.within, e12.within, e13.within⟩, ⟨e21.within, e22.within, e23.within⟩, e31.within, e32.within, e33.within⟩,
    fun hu' => ?_⟩
  exact flagged hr hu' (M := Mat3.ofQuat (Quat.num q : Quat (Fl ℝ rnd))) (ortho_quat r hr1)
    ⟨⟨e11, e12, e13⟩, ⟨e21, e22, e23⟩, e31, e32, e33⟩

/-- The quaternion for an axis and an angle that is a binary floating point number: halving the angle is exact, every
coordinate has a relative error of at most six units. -/
theorem C153_quat (p : ℕ) (hp : 1 ≤ p) (b : Vec3 ℝ) (hb : b ≠ ⟨0, 0, 0⟩) (θ : ℝ) (hθ : Rep p θ) :
    ∃ q : Quat ℝ, Quat.ofAxisAngle (Vec3.num b : Vec3 (Fl ℝ (rne p))) (.num θ) = Quat.num q ∧
      (let n := √(b.x ^ 2 + b.y ^ 2 + b.z ^ 2)
       let g := gam (2 ^ (-(p : ℤ))) 6
       |q.x - b.x / n * Real.sin (θ / 2)| ≤ g * |b.x / n * Real.sin (θ / 2)| ∧
       |q.y - b.y / n * Real.sin (θ / 2)| ≤ g * |b.y / n * Real.sin (θ / 2)| ∧
       |q.z - b.z / n * Real.sin (θ / 2)| ≤ g * |b.z / n * Real.sin (θ / 2)| ∧
       |q.w - Real.cos (θ / 2)| ≤ g * |Real.cos (θ / 2)|) := by
  have hr := isRel_rne p hp
  set u : ℝ := 2 ^ (-(p : ℤ)) with hu
  have h0 := (C119_null hr ⟨0, 0⟩ b).2
  rw [decide_eq_false hb] at h0
  have hl := Vec3.rel_length hr b
  have hpos : √(b.x * b.x + b.y * b.y + b.z * b.z) ≠ 0 := fun h => by
    obtain ⟨θ, -, e⟩ := hl
    rw [h, zero_mul] at e
    rw [e, Fl.zero_def, Fl.num_beq] at h0
    simp at h0
  have hh : (.num θ * (1 / 2) : Fl ℝ (rne p)) = .num (θ / 2) := by
    have e2 : (2 : Fl ℝ (rne p)) = .num 2 := by
      change Fl.num (rne p ((2 : ℕ) : ℝ)) = _
      rw [rne_of_rep hp (Rep.nat 2 (by calc 2 = 2 ^ 1 := rfl
        _ ≤ 2 ^ p := Nat.pow_le_pow_right (by norm_num) hp))]
      norm_num
    have e3 : (1 / 2 : Fl ℝ (rne p)) = .num (1 / 2) := by
      rw [e2]
      change (Fl.num 1 : Fl ℝ (rne p)) / _ = _
      rw [Fl.num_div, if_neg (by norm_num), rne_of_rep hp (by simpa using Rep.zpow (K := ℝ) (p := p) (-1))]
    rw [e3, Fl.num_mul, rne_of_rep hp (by simpa using hθ.mul_zpow (-1)), mul_one_div]
  have hs : Rel u 1 (Real.sin (θ / 2)) (MathFns.sin (.num (θ / 2) : Fl ℝ (rne p))) := by
    obtain ⟨f, hf, e⟩ := hr.fac (Real.sin (θ / 2)); exact ⟨f, hf, congrArg _ e⟩
  have hc : Rel u 6 (Real.cos (θ / 2)) (MathFns.cos (.num (θ / 2) : Fl ℝ (rne p))) := by
    obtain ⟨f, hf, e⟩ := hr.fac (Real.cos (θ / 2))
    exact Rel.mono hr ⟨f, hf, congrArg _ e⟩ (by norm_num)
  have hd := Rel.div hr hs hl hpos (k := 5)
  obtain ⟨x, ex, kx⟩ := (Rel.mul hr (Rel.exact hr b.x) hd (k := 6)).error hr
  obtain ⟨y, ey, ky⟩ := (Rel.mul hr (Rel.exact hr b.y) hd (k := 6)).error hr
  obtain ⟨z, ez, kz⟩ := (Rel.mul hr (Rel.exact hr b.z) hd (k := 6)).error hr
  obtain ⟨w, ew, kw⟩ := hc.error hr
  refine ⟨⟨x, y, z, w⟩, ?_, ?_⟩
  · simp only [Quat.ofAxisAngle, h0, Bool.false_eq_true, if_false, hh]
    simp only [Quat.num, ← ex, ← ey, ← ez, ← ew]
    rfl
  · have a : ∀ t : ℝ, t / √(b.x ^ 2 + b.y ^ 2 + b.z ^ 2) * Real.sin (θ / 2) =
        t * (Real.sin (θ / 2) / √(b.x * b.x + b.y * b.y + b.z * b.z)) := fun t => by simp only [sq]; ring
    simp only [a]
    exact ⟨kx, ky, kz, kw⟩

private theorem gam6 (hr : IsRel rnd u) (hu : u ≤ 1 / 4096) : gam u 6 ≤ 8 * u := by
  have h := gam_le hr.lt_one (n := 6) (by push_cast; linarith)
  push_cast at h
  have h0 := hr.nonneg
  refine h.trans ?_
  rw [div_le_iff₀ (by linarith)]
  nlinarith

/-- So the two ways to the matrix, directly and through a quaternion, agree up to rounding with the exact rotation. -/
theorem C153_two_ways (p : ℕ) (hp : 12 ≤ p) (b : Vec3 ℝ) (hb : b ≠ ⟨0, 0, 0⟩) (θ : ℝ) (hθ : Rep p θ) :
    (Mat3.ofQuat (Quat.ofAxisAngle (Vec3.num b : Vec3 (Fl ℝ (rne p))) (.num θ))).Near (80 * 2 ^ (-(p : ℤ)))
      (Mat3.ofAxisAngle b θ) ∧
    (Mat3.ofAxisAngle (Vec3.num b : Vec3 (Fl ℝ (rne p))) (.num θ)).Near (33 * 2 ^ (-(p : ℤ))) (Mat3.ofAxisAngle b θ) ∧
    (20 ≤ p → (Mat3.ofQuat (Quat.ofAxisAngle (Vec3.num b : Vec3 (Fl ℝ (rne p))) (.num θ))).isOrthonormal = true) := by
  have hr := isRel_rne p (by omega)
  have hu : (2 : ℝ) ^ (-(p : ℤ)) ≤ 1 / 4096 := by
    calc (2 : ℝ) ^ (-(p : ℤ)) ≤ 2 ^ (-(12 : ℤ)) := zpow_le_zpow_right₀ (by norm_num) (by omega)
      _ = _ := by norm_num
  obtain ⟨q, e, hx, hy, hz, hw⟩ := C153_quat p (by omega) b hb θ hθ
  set u : ℝ := 2 ^ (-(p : ℤ))
  have hun := Quat.ofAxisAngle_unit b θ
  have h1 := (Vec3.normalized_unit hb).1
  have hq : Quat.ofAxisAngle b θ = ⟨b.x / √(b.x ^ 2 + b.y ^ 2 + b.z ^ 2) * Real.sin (θ / 2),
      b.y / √(b.x ^ 2 + b.y ^ 2 + b.z ^ 2) * Real.sin (θ / 2), b.z / √(b.x ^ 2 + b.y ^ 2 + b.z ^ 2) * Real.sin (θ / 2),
      Real.cos (θ / 2)⟩ := by
    have h0 : b.length ≠ 0 := fun h => hb ((C22_length_norm.2.1 b).1 h)
    have el : b.length = √(b.x ^ 2 + b.y ^ 2 + b.z ^ 2) := by simp [Vec3.length, sq]
    rw [← el]
    ext <;> simp [Quat.ofAxisAngle, h0] <;> ring_nf
  rw [hq] at hun
  have k : ∀ {v y : ℝ}, |v - y| ≤ gam u 6 * |y| → y ^ 2 ≤ 1 → |v - y| ≤ 8 * u := fun h hy =>
    h.trans ((mul_le_mul_of_nonneg_right (gam6 hr hu) (abs_nonneg _)).trans
      (mul_le_of_le_one_right (mul_nonneg (by norm_num) hr.nonneg) (by rw [abs_le]; constructor <;> nlinarith)))
  have hun' := hun
  unfold Quat.IsUnit at hun'
  simp only at hun'
  obtain ⟨m1, m2⟩ := C153_matrix hr hu q _ hun (k hx (by nlinarith)) (k hy (by nlinarith)) (k hz (by nlinarith))
    (k hw (by nlinarith))
  rw [e]
  refine ⟨?_, C153_entries hr hu b hb θ, fun h20 => m2 ?_⟩
  · have t : (Mat3.ofQuat (Quat.ofAxisAngle b θ)).toM = (Mat3.ofAxisAngle b θ).toM := by
      rw [Quat.ofAxisAngle_rot hb, Quat.ofQuat_toM _ (Quat.ofAxisAngle_unit b θ)]
    rw [← hq] at m1
    generalize Mat3.ofQuat (Quat.ofAxisAngle b θ) = A at m1 t
    generalize Mat3.ofAxisAngle b θ = B at t ⊢
    have t' : ∀ i j, A.toM i j = B.toM i j := fun i j => by rw [t]
    have a1 : A.x.x = B.x.x := t' 0 0
    have a2 : A.x.y = B.x.y := t' 1 0
    have a3 : A.x.z = B.x.z := t' 2 0
    have a4 : A.y.x = B.y.x := t' 0 1
    have a5 : A.y.y = B.y.y := t' 1 1
    have a6 : A.y.z = B.y.z := t' 2 1
    have a7 : A.z.x = B.z.x := t' 0 2
    have a8 : A.z.y = B.z.y := t' 1 2
    have a9 : A.z.z = B.z.z := t' 2 2
    rwa [Mat3.Near, a1, a2, a3, a4, a5, a6, a7, a8, a9] at m1
  · calc (2 : ℝ) ^ (-(p : ℤ)) ≤ 2 ^ (-(20 : ℤ)) := zpow_le_zpow_right₀ (by norm_num) (by omega)
      _ = _ := by norm_num

/-! ## The other constructors -/

private theorem tr (hr : IsRel rnd u) {y : ℝ} (hy : |y| ≤ 1) : (.num (rnd y) : Fl ℝ rnd).Within u y :=
  ⟨_, rfl, by have := mul_le_mul_of_nonneg_left hy hr.nonneg; linarith [hr.err y]⟩
private theorem trn (hr : IsRel rnd u) {y : ℝ} (hy : |y| ≤ 1) : (-.num (rnd y) : Fl ℝ rnd).Within u (-y) :=
  ⟨-rnd y, rfl, by
    have := mul_le_mul_of_nonneg_left hy hr.nonneg
    rw [← abs_neg, neg_sub, sub_neg_eq_add, neg_add_eq_sub]
    linarith [hr.err y]⟩
private theorem ex (hr : IsRel rnd u) (y : ℝ) : (.num y : Fl ℝ rnd).Within u y :=
  ⟨y, rfl, by simpa using hr.nonneg⟩

/-- Rotations about a coordinate axis and in the plane: one rounding per entry; and `Mat4`, `Mat34` have the entries of
`Mat3`, whatever the arithmetic. -/
theorem C153_coord (hr : IsRel rnd u) (θ : ℝ) :
    (∀ c ∈ [Coord.X, .Y, .Z], ∃ M E, Mat3.ofCoordAngle c (.num θ : Fl ℝ rnd) = .ok M ∧
      Mat3.ofCoordAngle c θ = .ok E ∧ M.Near u E) ∧
    (let M := Mat2.ofAngle (.num θ : Fl ℝ rnd)
     M.x.x.Within u (Real.cos θ) ∧ M.x.y.Within u (Real.sin θ) ∧ M.y.x.Within u (-Real.sin θ) ∧
     M.y.y.Within u (Real.cos θ)) := by
  have s := Real.abs_sin_le_one θ
  have c := Real.abs_cos_le_one θ
  refine ⟨?_, tr hr c, tr hr s, trn hr s, tr hr c⟩
  simp only [List.mem_cons, List.not_mem_nil, or_false, forall_eq_or_imp, forall_eq]
  exact ⟨⟨_, _, rfl, rfl, ⟨ex hr 1, ex hr 0, ex hr 0⟩, ⟨ex hr 0, tr hr c, tr hr s⟩, ex hr 0, trn hr s, tr hr c⟩,
    ⟨_, _, rfl, rfl, ⟨tr hr c, ex hr 0, trn hr s⟩, ⟨ex hr 0, ex hr 1, ex hr 0⟩, tr hr s, ex hr 0, tr hr c⟩,
    ⟨_, _, rfl, rfl, ⟨tr hr c, tr hr s, ex hr 0⟩, ⟨trn hr s, tr hr c, ex hr 0⟩, ex hr 0, ex hr 0, ex hr 1⟩⟩

theorem C153_same_entries {R : Type} [Zero R] [One R] [NatCast R] [Add R] [Sub R] [Mul R] [Div R] [Neg R] [LT R]
    [DecidableLT R] [LE R] [DecidableLE R] [BEq R] [MathFns R] (a t : Vec3 R) (θ : R) :
    let M := Mat3.ofAxisAngle a θ
    let N := Mat4.ofAxisAngle a θ
    (N.x = ⟨M.x.x, M.x.y, M.x.z, 0⟩ ∧ N.y = ⟨M.y.x, M.y.y, M.y.z, 0⟩ ∧ N.z = ⟨M.z.x, M.z.y, M.z.z, 0⟩ ∧
      N.t = ⟨0, 0, 0, 1⟩) ∧ (Mat34.ofAxisAngle a θ t).rs = M ∧ (Mat34.ofAxisAngle a θ t).t = t :=
  ⟨⟨rfl, rfl, rfl, rfl⟩, rfl, rfl⟩

/-- non-vacuous: single precision, a slanted axis, an angle -/
example : IsRel (rne 24) (2 ^ (-(24 : ℤ))) ∧ (2 : ℝ) ^ (-(24 : ℤ)) ≤ 1 / 2 ^ 20 ∧ (⟨1, 2, 3⟩ : Vec3 ℝ) ≠ ⟨0, 0, 0⟩ ∧
    Rep 24 (5 : ℝ) :=
  ⟨isRel_rne 24 (by norm_num), by norm_num, by simp, by simpa using Rep.nat (K := ℝ) (p := 24) 5 (by norm_num)⟩
example : (⟨0, 0, 0, 1⟩ : Quat ℝ).IsUnit := by simp [Quat.IsUnit]

end MathLib
