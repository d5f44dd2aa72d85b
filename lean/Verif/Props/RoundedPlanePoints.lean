import Verif.Props.RoundedPlanes
import Verif.Proof.VecSlerpErr

/-! # C189: the plane through three points in floating point -/

namespace MathLib
variable {rnd : ℝ → ℝ} {u : ℝ}

/-- the length of a vector -/
noncomputable def Vec3.len (v : Vec3 ℝ) : ℝ := √(v.x ^ 2 + v.y ^ 2 + v.z ^ 2)

namespace PlanePts

theorem len_sq (v : Vec3 ℝ) : v.len ^ 2 = v.x ^ 2 + v.y ^ 2 + v.z ^ 2 := Real.sq_sqrt (by positivity)

theorem len_nonneg (v : Vec3 ℝ) : 0 ≤ v.len := Real.sqrt_nonneg _

/-- Cauchy's inequality for the absolute values -/
theorem cauchy_abs (v w : Vec3 ℝ) : |v.x * w.x| + |v.y * w.y| + |v.z * w.z| ≤ v.len * w.len := by
  refine abs_le_of_sq_le_sq' ?_ (mul_nonneg (len_nonneg v) (len_nonneg w)) |>.2
  have := VSlerp.cauchy3 |v.x| |v.y| |v.z| |w.x| |w.y| |w.z|
  simp only [sq_abs, ← abs_mul] at this
  rw [mul_pow, len_sq, len_sq]
  exact this

theorem cross_len (d e : Vec3 ℝ) : (d.cross e).len ≤ d.len * e.len := by
  refine abs_le_of_sq_le_sq' ?_ (mul_nonneg (len_nonneg d) (len_nonneg e)) |>.2
  rw [mul_pow, len_sq, len_sq, len_sq]
  simp only [Vec3.cross]
  nlinarith [sq_nonneg (d.x * e.x + d.y * e.y + d.z * e.z)]

/-- the terms of a coordinate of the cross product -/
theorem cross_terms (d e : Vec3 ℝ) : |d.y * e.z| + |d.z * e.y| ≤ d.len * e.len ∧ |d.z * e.x| + |d.x * e.z| ≤ d.len * e.len ∧
    |d.x * e.y| + |d.y * e.x| ≤ d.len * e.len := by
  have h1 := cauchy_abs ⟨0, d.y, d.z⟩ ⟨0, e.z, e.y⟩
  have h2 := cauchy_abs ⟨0, d.z, d.x⟩ ⟨0, e.x, e.z⟩
  have h3 := cauchy_abs ⟨0, d.x, d.y⟩ ⟨0, e.y, e.x⟩
  have mono : ∀ v w : Vec3 ℝ, v.x ^ 2 + v.y ^ 2 + v.z ^ 2 ≤ w.x ^ 2 + w.y ^ 2 + w.z ^ 2 → v.len ≤ w.len := fun v w h =>
    Real.sqrt_le_sqrt h
  simp only [mul_zero, abs_zero, zero_add] at h1 h2 h3
  have k : ∀ v w : Vec3 ℝ, v.x ^ 2 + v.y ^ 2 + v.z ^ 2 ≤ d.x ^ 2 + d.y ^ 2 + d.z ^ 2 → w.x ^ 2 + w.y ^ 2 + w.z ^ 2 ≤ e.x ^ 2 + e.y ^ 2 + e.z ^ 2 →
      v.len * w.len ≤ d.len * e.len := fun v w h h' => mul_le_mul (mono _ _ h) (mono _ _ h') (len_nonneg _) (len_nonneg _)
  have x1 := sq_nonneg d.x
  have x2 := sq_nonneg d.y
  have x3 := sq_nonneg d.z
  have y1 := sq_nonneg e.x
  have y2 := sq_nonneg e.y
  have y3 := sq_nonneg e.z
  exact ⟨h1.trans (k _ _ (by simp only; linarith) (by simp only; linarith)), h2.trans (k _ _ (by simp only; linarith) (by simp only; linarith)),
    h3.trans (k _ _ (by simp only; linarith) (by simp only; linarith))⟩

theorem one_abs (d : Vec3 ℝ) : |d.x| + |d.y| + |d.z| ≤ 1.7321 * d.len := by
  have h := cauchy_abs d ⟨1, 1, 1⟩
  simp only [mul_one] at h
  have : (⟨1, 1, 1⟩ : Vec3 ℝ).len ≤ 1.7321 := by
    unfold Vec3.len
    rw [Real.sqrt_le_left (by norm_num)]; norm_num
  have := mul_le_mul_of_nonneg_left this (len_nonneg d)
  linarith

/-- how far a computed normal is from being orthogonal -/
theorem along {n m w d : Vec3 ℝ} {δ ε : ℝ} (ho : m.x * d.x + m.y * d.y + m.z * d.z = 0)
    (hx : |n.x - m.x| ≤ δ) (hy : |n.y - m.y| ≤ δ) (hz : |n.z - m.z| ≤ δ) (hn : 0 < n.len) (hε : 0 ≤ ε)
    (wx : |w.x - n.x / n.len| ≤ ε * |n.x / n.len|) (wy : |w.y - n.y / n.len| ≤ ε * |n.y / n.len|)
    (wz : |w.z - n.z / n.len| ≤ ε * |n.z / n.len|) :
    |w.x * d.x + w.y * d.y + w.z * d.z| ≤ 1.7321 * (δ * d.len) / n.len + ε * d.len := by
  have e1 : w.x * d.x + w.y * d.y + w.z * d.z =
      ((n.x - m.x) * d.x + (n.y - m.y) * d.y + (n.z - m.z) * d.z) / n.len +
      ((w.x - n.x / n.len) * d.x + (w.y - n.y / n.len) * d.y + (w.z - n.z / n.len) * d.z) := by
    have : (n.x - m.x) * d.x + (n.y - m.y) * d.y + (n.z - m.z) * d.z = n.x * d.x + n.y * d.y + n.z * d.z := by linarith
    rw [this]; field_simp; ring
  rw [e1]
  refine (abs_add_le _ _).trans (add_le_add ?_ ?_)
  · rw [abs_div, abs_of_pos hn]
    refine div_le_div_of_nonneg_right ?_ hn.le
    refine (abs_add_three _ _ _).trans ?_
    rw [abs_mul, abs_mul, abs_mul]
    have a1 := mul_le_mul_of_nonneg_right hx (abs_nonneg d.x)
    have a2 := mul_le_mul_of_nonneg_right hy (abs_nonneg d.y)
    have a3 := mul_le_mul_of_nonneg_right hz (abs_nonneg d.z)
    have := mul_le_mul_of_nonneg_left (one_abs d) ((abs_nonneg _).trans hx)
    linarith
  · refine (abs_add_three _ _ _).trans ?_
    rw [abs_mul, abs_mul, abs_mul]
    have a1 := mul_le_mul_of_nonneg_right wx (abs_nonneg d.x)
    have a2 := mul_le_mul_of_nonneg_right wy (abs_nonneg d.y)
    have a3 := mul_le_mul_of_nonneg_right wz (abs_nonneg d.z)
    have c := cauchy_abs n d
    have c' : |n.x / n.len| * |d.x| + |n.y / n.len| * |d.y| + |n.z / n.len| * |d.z| ≤ d.len := by
      have : |n.x / n.len| * |d.x| + |n.y / n.len| * |d.y| + |n.z / n.len| * |d.z| =
          (|n.x * d.x| + |n.y * d.y| + |n.z * d.z|) / n.len := by
        simp only [abs_div, abs_mul, abs_of_pos hn]; ring
      rw [this, div_le_iff₀ hn]; linarith
    have := mul_le_mul_of_nonneg_left c' hε
    linarith

/-- the plane through a point, with a normal close to the cross product of two vectors -/
theorem core (hr : IsRel rnd u) (hu : u ≤ 1 / 4096) (x n d e : Vec3 ℝ) (hq : 64 * u * (d.len * e.len) < (d.cross e).len)
    (hx : |n.x - (d.cross e).x| ≤ 4.02 * u * (d.len * e.len)) (hy : |n.y - (d.cross e).y| ≤ 4.02 * u * (d.len * e.len))
    (hz : |n.z - (d.cross e).z| ≤ 4.02 * u * (d.len * e.len)) :
    ∃ p : Plane ℝ, Plane.fromPoint (Vec3.num x : Vec3 (Fl ℝ rnd)) (Vec3.num n) = Plane.num p ∧
      (let m := d.cross e
       let q := d.len * e.len / m.len
       |p.normal.x ^ 2 + p.normal.y ^ 2 + p.normal.z ^ 2 - 1| ≤ 11 * u ∧
       |p.normal.x - m.x / m.len| ≤ 16.2 * u * q ∧ |p.normal.y - m.y / m.len| ≤ 16.2 * u * q ∧ |p.normal.z - m.z / m.len| ≤ 16.2 * u * q ∧
       |p.value x| ≤ 3.2 * u * x.len ∧
       |p.normal.x * d.x + p.normal.y * d.y + p.normal.z * d.z| ≤ 13 * u * q * d.len ∧
       |p.normal.x * e.x + p.normal.y * e.y + p.normal.z * e.z| ≤ 13 * u * q * e.len) := by
  have u0 := hr.nonneg
  have hm := cross_len d e
  have o1 : (d.cross e).x * d.x + (d.cross e).y * d.y + (d.cross e).z * d.z = 0 := by simp only [Vec3.cross]; ring
  have o2 : (d.cross e).x * e.x + (d.cross e).y * e.y + (d.cross e).z * e.z = 0 := by simp only [Vec3.cross]; ring
  generalize d.cross e = m at *
  have d0 := len_nonneg d
  have e0 := len_nonneg e
  have de := mul_nonneg d0 e0
  have ude := mul_nonneg u0 de
  have m0 : 0 < m.len := by linarith
  have near := VSlerp.unit_near (a := n.x) (b := n.y) (c := n.z) m0 (show 1.7321 * (4.02 * u * (d.len * e.len)) < m.len by linarith)
    (by linarith) (len_sq m).symm hx hy hz
  have hl := VSlerp.len_near m0.le (show 0 ≤ 4.02 * u * (d.len * e.len) by linarith) (len_sq m).symm hx hy hz
  obtain ⟨n0, nx, ny, nz⟩ := near
  change |n.len - m.len| ≤ _ at hl
  change 0 < n.len at n0
  change |n.x / n.len - _| ≤ _ at nx
  change |n.y / n.len - _| ≤ _ at ny
  change |n.z / n.len - _| ≤ _ at nz
  have hne : n ≠ ⟨0, 0, 0⟩ := by
    rintro rfl
    norm_num [Vec3.len] at n0
  obtain ⟨p, ep, hp1, hp2, hp3⟩ := C164_fromPoint hr hu x n hne
  obtain ⟨wx, wy, wz⟩ := hp2
  change |p.normal.x - n.x / n.len| ≤ 5.1 * u * |n.x / n.len| at wx
  change |p.normal.y - n.y / n.len| ≤ 5.1 * u * |n.y / n.len| at wy
  change |p.normal.z - n.z / n.len| ≤ 5.1 * u * |n.z / n.len| at wz
  have hq1 : 1 ≤ d.len * e.len / m.len := by rw [le_div_iff₀ m0]; linarith
  have hqm : d.len * e.len / m.len * m.len = d.len * e.len := div_mul_cancel₀ _ m0.ne'
  have nl : 0.89 * m.len ≤ n.len := by
    have := (abs_le.1 hl).1
    linarith
  have comp : ∀ a : ℝ, a ^ 2 ≤ n.len ^ 2 → |a / n.len| ≤ 1 := fun a h => by
    rw [abs_div, abs_of_pos n0, div_le_one n0]
    exact abs_le_of_sq_le_sq h n0.le
  have ns := len_sq n
  have s1 := sq_nonneg n.x
  have s2 := sq_nonneg n.y
  have s3 := sq_nonneg n.z
  have cx := comp n.x (by linarith)
  have cy := comp n.y (by linarith)
  have cz := comp n.z (by linarith)
  have b1 := along o1 hx hy hz n0 (show 0 ≤ 5.1 * u by linarith) wx wy wz
  have b2 := along o2 hx hy hz n0 (show 0 ≤ 5.1 * u by linarith) wx wy wz
  have hdiv : d.len * e.len / n.len ≤ d.len * e.len / m.len * (1 / 0.89) := by
    rw [div_mul_div_comm, mul_one]
    exact div_le_div_of_nonneg_left de (by linarith) (by linarith)
  clear hx hy hz comp s1 s2 s3 ns hne o1 o2 hl
  refine ⟨p, ep, hp1, ?_⟩
  have hpl : p.normal.len ≤ 1.01 := by
    unfold Vec3.len
    rw [Real.sqrt_le_left (by norm_num)]
    have := (abs_le.1 hp1).2
    linarith
  have hval : |p.value x| ≤ 3.2 * u * x.len := by
    have c := cauchy_abs p.normal x
    have x0 := len_nonneg x
    have c1 := mul_le_mul_of_nonneg_right hpl x0
    have := mul_le_mul_of_nonneg_left (c.trans c1) (show 0 ≤ 3.1 * u by linarith)
    have ux := mul_nonneg u0 x0
    linarith
  generalize d.len * e.len / m.len = q at *
  have e1 : ∀ t : ℝ, 1.7321 * (4.02 * u * (d.len * e.len) * t) / n.len + 5.1 * u * t = (6.963042 * (d.len * e.len / n.len) + 5.1) * (u * t) :=
    fun t => by ring
  have e2 : 2.7321 * (4.02 * u * (d.len * e.len)) / m.len = 10.983042 * (u * q) := by
    rw [← hqm]; field_simp; try ring
  rw [e1] at b1 b2
  rw [e2] at nx ny nz
  have uq := mul_le_mul_of_nonneg_left hq1 u0
  have fin : ∀ w a b : ℝ, |w - a| ≤ 5.1 * u * |a| → |a| ≤ 1 → |a - b| ≤ 10.983042 * (u * q) → |w - b| ≤ 16.2 * u * q := fun w a b h1 h2 h3 => by
    have := abs_sub_le w a b
    have := mul_le_mul_of_nonneg_left h2 (show 0 ≤ 5.1 * u by linarith)
    linarith
  have fin2 : ∀ t : ℝ, 0 ≤ t → (6.963042 * (d.len * e.len / n.len) + 5.1) * (u * t) ≤ 13 * u * q * t := fun t ht => by
    have ut := mul_nonneg u0 ht
    have := mul_le_mul_of_nonneg_right (show 6.963042 * (d.len * e.len / n.len) + 5.1 ≤ 13 * q by norm_num at hdiv ⊢; linarith) ut
    linarith
  exact ⟨fin _ _ _ wx cx nx, fin _ _ _ wy cy ny, fin _ _ _ wz cz nz, hval, b1.trans (fin2 _ d0), b2.trans (fin2 _ e0)⟩

/-- a difference of numbers -/
theorem diff (hr : IsRel rnd u) (a b : ℝ) : AbsErr u 1 |b - a| (b - a) (.num b - .num a : Fl ℝ rnd) := by
  refine ⟨le_rfl, _, rfl, (hr.err _).trans (mul_le_mul_of_nonneg_right ?_ (abs_nonneg _))⟩
  have h1 := hr.lt_one
  have h0 := hr.nonneg
  unfold gam
  rw [pow_one, le_sub_iff_add_le, le_inv_comm₀ (by linarith) (by linarith)]
  rw [← one_div, le_div_iff₀ (by linarith)]
  nlinarith

/-- a coordinate of the cross product -/
theorem coord (hr : IsRel rnd u) (hu : u ≤ 1 / 4096) {x y z w T : ℝ} {a b c d : Fl ℝ rnd} (ha : AbsErr u 1 |x| x a) (hb : AbsErr u 1 |y| y b)
    (hc : AbsErr u 1 |z| z c) (hd : AbsErr u 1 |w| w d) (hT : |x * y| + |z * w| ≤ T) :
    ∃ v, a * b - c * d = .num v ∧ |v - (x * y - z * w)| ≤ 4.02 * u * T := by
  obtain ⟨-, v, ev, hv⟩ := AbsErr.sub (k := 4) hr (AbsErr.mul (k := 3) hr ha hb) (AbsErr.mul (k := 3) hr hc hd)
  obtain ⟨g4, g4'⟩ := PlaneErr.gam_small hr.nonneg hu 4 (by norm_num)
  norm_num at g4
  refine ⟨v, ev, hv.trans ?_⟩
  rw [← abs_mul, ← abs_mul]
  have h0 := hr.nonneg
  exact mul_le_mul (by linarith) hT (by positivity) (by positivity)

end PlanePts

open PlanePts

/-- C189, what holds of `Plane::from(a, b, c)` and `Plane::set(a, b, c)`: with `L` and `M` the lengths of the sides at `a`, and `N` the length of
their cross product, so `N / (L M)` the sine of the angle at `a`, if this sine is more than `64 u`, then the normal has unit length up to `11 u`, each
coordinate of it is right up to `16.2 u / sine`, and the three points are on the plane up to rounding, which is `3.2 u |a|` for `a`, and
`13 u / sine` times the length of the side more for `b` and `c`.
Missing: the same with a bound independent of the angle, which is false (`C189_refuted`). -/
theorem C189_points_partial (hr : IsRel rnd u) (hu : u ≤ 1 / 4096) (a b c : Vec3 ℝ) (self : Plane (Fl ℝ rnd))
    (h : 64 * u * ((b - a).len * (c - a).len) < ((b - a).cross (c - a)).len) :
    ∃ p : Plane ℝ, Plane.fromPoints (Vec3.num a : Vec3 (Fl ℝ rnd)) (Vec3.num b) (Vec3.num c) = Plane.num p ∧
      self.setPoints (fun _ => Vec3.num a) (fun _ => Vec3.num b) (fun _ => Vec3.num c) = Plane.num p ∧
      (let n := (b - a).cross (c - a)
       let q := (b - a).len * (c - a).len / n.len
       |p.normal.x ^ 2 + p.normal.y ^ 2 + p.normal.z ^ 2 - 1| ≤ 11 * u ∧
       |p.normal.x - n.x / n.len| ≤ 16.2 * u * q ∧ |p.normal.y - n.y / n.len| ≤ 16.2 * u * q ∧ |p.normal.z - n.z / n.len| ≤ 16.2 * u * q ∧
       |p.value a| ≤ 3.2 * u * a.len ∧
       |p.value b| ≤ 3.2 * u * a.len + 13 * u * q * (b - a).len ∧
       |p.value c| ≤ 3.2 * u * a.len + 13 * u * q * (c - a).len) := by
  obtain ⟨t1, t2, t3⟩ := cross_terms (b - a) (c - a)
  obtain ⟨x, ex, hx⟩ := coord hr hu (diff hr a.y b.y) (diff hr a.z c.z) (diff hr a.z b.z) (diff hr a.y c.y) t1
  obtain ⟨y, ey, hy⟩ := coord hr hu (diff hr a.z b.z) (diff hr a.x c.x) (diff hr a.x b.x) (diff hr a.z c.z) t2
  obtain ⟨z, ez, hz⟩ := coord hr hu (diff hr a.x b.x) (diff hr a.y c.y) (diff hr a.y b.y) (diff hr a.x c.x) t3
  obtain ⟨p, ep, h1, h2, h3, h4, h5, h6, h7⟩ := core hr hu a ⟨x, y, z⟩ (b - a) (c - a) h hx hy hz
  have hn : ((Vec3.num b : Vec3 (Fl ℝ rnd)) - Vec3.num a).cross (Vec3.num c - Vec3.num a) = Vec3.num ⟨x, y, z⟩ := by
    change (⟨_, _, _⟩ : Vec3 (Fl ℝ rnd)) = ⟨.num x, .num y, .num z⟩
    rw [← ex, ← ey, ← ez]; rfl
  refine ⟨p, ?_, ?_, h1, h2, h3, h4, h5, ?_, ?_⟩
  · simp only [Plane.fromPoints, hn]; exact ep
  · simp only [Plane.setPoints, Plane.setPoint, hn]; exact ep
  · have e : p.value b = p.value a + (p.normal.x * (b - a).x + p.normal.y * (b - a).y + p.normal.z * (b - a).z) := by
      change _ = p.value a + (p.normal.x * (b.x - a.x) + p.normal.y * (b.y - a.y) + p.normal.z * (b.z - a.z))
      unfold Plane.value; ring
    rw [e]
    exact (abs_add_le _ _).trans (add_le_add h5 h6)
  · have e : p.value c = p.value a + (p.normal.x * (c - a).x + p.normal.y * (c - a).y + p.normal.z * (c - a).z) := by
      change _ = p.value a + (p.normal.x * (c.x - a.x) + p.normal.y * (c.y - a.y) + p.normal.z * (c.z - a.z))
      unfold Plane.value; ring
    rw [e]
    exact (abs_add_le _ _).trans (add_le_add h5 h7)

/-- C189 for `fromPointAndTangents` and `setFromPointAndTangents`: the same with the tangents for the sides. -/
theorem C189_tangents_partial (hr : IsRel rnd u) (hu : u ≤ 1 / 4096) (a d e : Vec3 ℝ) (self : Plane (Fl ℝ rnd))
    (h : 64 * u * (d.len * e.len) < (d.cross e).len) :
    ∃ p : Plane ℝ, Plane.fromTangents (Vec3.num a : Vec3 (Fl ℝ rnd)) (Vec3.num d) (Vec3.num e) = Plane.num p ∧
      self.setTangents (fun _ => Vec3.num a) (fun _ => Vec3.num d) (fun _ => Vec3.num e) = Plane.num p ∧
      (let n := d.cross e
       let q := d.len * e.len / n.len
       |p.normal.x ^ 2 + p.normal.y ^ 2 + p.normal.z ^ 2 - 1| ≤ 11 * u ∧
       |p.normal.x - n.x / n.len| ≤ 16.2 * u * q ∧ |p.normal.y - n.y / n.len| ≤ 16.2 * u * q ∧ |p.normal.z - n.z / n.len| ≤ 16.2 * u * q ∧
       |p.value a| ≤ 3.2 * u * a.len ∧
       |p.normal.x * d.x + p.normal.y * d.y + p.normal.z * d.z| ≤ 13 * u * q * d.len ∧
       |p.normal.x * e.x + p.normal.y * e.y + p.normal.z * e.z| ≤ 13 * u * q * e.len) := by
  have ex1 : ∀ v : ℝ, AbsErr u 1 |v| v (.num v : Fl ℝ rnd) := fun v => by
    refine ⟨le_rfl, v, rfl, ?_⟩
    rw [sub_self, abs_zero]
    exact mul_nonneg (PlaneErr.gam_small hr.nonneg hu 1 (by norm_num)).2 (abs_nonneg _)
  obtain ⟨t1, t2, t3⟩ := cross_terms d e
  obtain ⟨x, ex, hx⟩ := coord hr hu (ex1 d.y) (ex1 e.z) (ex1 d.z) (ex1 e.y) t1
  obtain ⟨y, ey, hy⟩ := coord hr hu (ex1 d.z) (ex1 e.x) (ex1 d.x) (ex1 e.z) t2
  obtain ⟨z, ez, hz⟩ := coord hr hu (ex1 d.x) (ex1 e.y) (ex1 d.y) (ex1 e.x) t3
  obtain ⟨p, ep, hh⟩ := core hr hu a ⟨x, y, z⟩ d e h hx hy hz
  have hn : (Vec3.num d : Vec3 (Fl ℝ rnd)).cross (Vec3.num e) = Vec3.num ⟨x, y, z⟩ := by
    change (⟨_, _, _⟩ : Vec3 (Fl ℝ rnd)) = ⟨.num x, .num y, .num z⟩
    rw [← ex, ← ey, ← ez]; rfl
  refine ⟨p, ?_, ?_, hh⟩
  · simp only [Plane.fromTangents, hn]; exact ep
  · simp only [Plane.setTangents, Plane.setPoint, hn]; exact ep

/-- The claim C189 for `float`: the plane through three points that are not on a line has a normal of unit length up to rounding. -/
def C189_full : Prop := ∀ a b c : Vec3 ℝ, (b - a).cross (c - a) ≠ ⟨0, 0, 0⟩ →
  ∃ p : Plane ℝ, Plane.fromPoints (Vec3.num a : Vec3 (Fl ℝ (rne 24))) (Vec3.num b) (Vec3.num c) = Plane.num p ∧
    |p.normal.x ^ 2 + p.normal.y ^ 2 + p.normal.z ^ 2 - 1| ≤ 1 / 2

/-- C189 is false: for the origin, `(1 + 2^-23, 1, 0)` and `(1 + 2^-22, 1 + 2^-23, 0)` the normal and the distance are null. -/
theorem C189_null : Plane.fromPoints (Vec3.num ⟨0, 0, 0⟩ : Vec3 (Fl ℝ (rne 24))) (Vec3.num ⟨1 + 1 / 2 ^ 23, 1, 0⟩)
    (Vec3.num ⟨1 + 2 / 2 ^ 23, 1 + 1 / 2 ^ 23, 0⟩) = Plane.num ⟨⟨0, 0, 0⟩, 0⟩ := by
  have r0 : rne 24 (0 : ℝ) = 0 := rne_zero 24
  have r1 : rne 24 (1 : ℝ) = 1 := rne_of_rep (by norm_num) ⟨1, 0, by norm_num, by norm_num⟩
  have r2 : rne 24 (1 + 1 / 2 ^ 23 : ℝ) = 1 + 1 / 2 ^ 23 := rne_of_rep (by norm_num) ⟨2 ^ 23 + 1, -23, by norm_num, by norm_num⟩
  have r3 : rne 24 (1 + 2 / 2 ^ 23 : ℝ) = 1 + 2 / 2 ^ 23 := rne_of_rep (by norm_num) ⟨2 ^ 23 + 2, -23, by norm_num, by norm_num⟩
  have r4 : rne 24 ((1 + 1 / 2 ^ 23) * (1 + 1 / 2 ^ 23) : ℝ) = 1 + 2 / 2 ^ 23 :=
    (rne_eq (-23) (2 ^ 23 + 2) (by norm_num) (by norm_num) (by norm_num [abs_lt])).trans (by norm_num)
  have hn : ((Vec3.num ⟨1 + 1 / 2 ^ 23, 1, 0⟩ : Vec3 (Fl ℝ (rne 24))) - Vec3.num ⟨0, 0, 0⟩).cross
      (Vec3.num ⟨1 + 2 / 2 ^ 23, 1 + 1 / 2 ^ 23, 0⟩ - Vec3.num ⟨0, 0, 0⟩) = Vec3.num ⟨0, 0, 0⟩ := by
    change (⟨_, _, _⟩ : Vec3 (Fl ℝ (rne 24))) = ⟨.num 0, .num 0, .num 0⟩
    simp only [Vec3.num, Vec3.sub_x, Vec3.sub_y, Vec3.sub_z, Fl.num_sub, Fl.num_mul, sub_zero, sub_self, mul_zero, zero_mul, one_mul, r0, r1, r2, r3, r4]
  have hz : ((Vec3.num ⟨0, 0, 0⟩ : Vec3 (Fl ℝ (rne 24))).length == 0) = true := by
    rw [(C119_null (isRel_rne 24 (by norm_num)) ⟨0, 0⟩ ⟨0, 0, 0⟩).2]; exact decide_eq_true rfl
  simp only [Plane.fromPoints, hn, Plane.fromPoint, Vec3.normalized, hz, if_true]
  simp only [Plane.num, Vec3.num, Vec3.zero, Vec3.dot, Fl.zero_def, Fl.num_mul, Fl.num_add, mul_zero, add_zero, r0]

theorem C189_refuted : ¬ C189_full := by
  intro h
  obtain ⟨p, ep, hp⟩ := h ⟨0, 0, 0⟩ ⟨1 + 1 / 2 ^ 23, 1, 0⟩ ⟨1 + 2 / 2 ^ 23, 1 + 1 / 2 ^ 23, 0⟩ (by
    intro h
    have := congrArg Vec3.z h
    norm_num [Vec3.cross] at this)
  rw [C189_null] at ep
  simp only [Plane.num, Vec3.num, Plane.mk.injEq, Vec3.mk.injEq, Fl.num.injEq] at ep
  obtain ⟨⟨a, b, c⟩, -⟩ := ep
  rw [← a, ← b, ← c] at hp
  norm_num at hp

/-- The hypothesis of `C189_points_partial` is met by the points `(1, 0, 0)`, `(0, 2, 0)`, `(0, 0, 3)` in `float`: the sides at the first are of
length `√5` and `√10`, and their cross product has the length 7. -/
example : 64 * (2 : ℝ) ^ (-24 : ℤ) * (((⟨0, 2, 0⟩ : Vec3 ℝ) - ⟨1, 0, 0⟩).len * ((⟨0, 0, 3⟩ : Vec3 ℝ) - ⟨1, 0, 0⟩).len) <
    (((⟨0, 2, 0⟩ : Vec3 ℝ) - ⟨1, 0, 0⟩).cross ((⟨0, 0, 3⟩ : Vec3 ℝ) - ⟨1, 0, 0⟩)).len := by
  have e1 : ((⟨0, 2, 0⟩ : Vec3 ℝ) - ⟨1, 0, 0⟩).len ≤ 3 := by
    unfold Vec3.len
    rw [Real.sqrt_le_left (by norm_num)]; norm_num
  have e2 : ((⟨0, 0, 3⟩ : Vec3 ℝ) - ⟨1, 0, 0⟩).len ≤ 4 := by
    unfold Vec3.len
    rw [Real.sqrt_le_left (by norm_num)]; norm_num
  have e3 : (((⟨0, 2, 0⟩ : Vec3 ℝ) - ⟨1, 0, 0⟩).cross ((⟨0, 0, 3⟩ : Vec3 ℝ) - ⟨1, 0, 0⟩)).len = 7 := by
    unfold Vec3.len
    rw [Real.sqrt_eq_iff_mul_self_eq (by positivity) (by norm_num)]
    norm_num [Vec3.cross]
  rw [e3]
  have := mul_le_mul e1 e2 (len_nonneg _) (by norm_num)
  calc _ ≤ 64 * (2 : ℝ) ^ (-24 : ℤ) * (3 * 4) := mul_le_mul_of_nonneg_left this (by positivity)
    _ < 7 := by norm_num

end MathLib
