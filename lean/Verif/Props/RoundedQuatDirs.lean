import Verif.Proof.VecSlerpErr
import Verif.Props.QuatDirs

/-! # Property C185: `Quat::set(from, to)` in floating point -/

namespace MathLib

open VSlerp

namespace QDirs

variable {p : ℕ}

theorem u24 (hp : 24 ≤ p) : (2 : ℝ) ^ (-(p : ℤ)) ≤ 1 / 16777216 := by
  calc (2 : ℝ) ^ (-(p : ℤ)) ≤ 2 ^ (-(24 : ℤ)) := zpow_le_zpow_right₀ (by norm_num) (by omega)
    _ = 1 / 16777216 := by norm_num

theorem half_lit (hp : 1 ≤ p) : (1 / 2 : Fl ℝ (rne p)) = .num (1 / 2) := by
  have : (2 : Fl ℝ (rne p)) = .num 2 := by
    change Fl.num (rne p ((2 : ℕ) : ℝ)) = _
    rw [rne_of_rep hp (Rep.nat 2 (by calc 2 = 2 ^ 1 := rfl
      _ ≤ 2 ^ p := Nat.pow_le_pow_right (by norm_num) hp))]
    norm_num
  rw [this]
  change (Fl.num 1 : Fl ℝ (rne p)) / _ = _
  rw [Fl.num_div, if_neg (by norm_num), rne_of_rep hp (by simpa using Rep.zpow (K := ℝ) (p := p) (-1))]

/-- the threshold 0.99999 -/
theorem thr (hp : 24 ≤ p) : ∃ c, (99999 / 100000 : Fl ℝ (rne p)) = .num c ∧ |c - 99999 / 100000| ≤ 1 / 5000000 := by
  have hr := isRel_rne p (show 1 ≤ p by omega)
  have u0 := hr.nonneg
  have hu := u24 hp
  obtain ⟨g3, -, -, -⟩ := gams u0 (VSlerp.u20 (by omega))
  have k : ∀ t : ℝ, Rel ((2 : ℝ) ^ (-(p : ℤ))) 1 t (.num (rne p t) : Fl ℝ (rne p)) := fun t => by
    obtain ⟨θ, h1, h2⟩ := hr.fac t
    exact ⟨θ, h1, by rw [h2]⟩
  obtain ⟨c, e, hc⟩ := (Rel.div hr (k ((99999 : ℕ) : ℝ)) (k ((100000 : ℕ) : ℝ)) (by norm_num) (k := 3)).error hr
  refine ⟨c, e, ?_⟩
  have : gam ((2 : ℝ) ^ (-(p : ℤ))) 3 ≤ 3.001 / 16777216 := by linarith
  have h2 := hc.trans (mul_le_mul_of_nonneg_right this (abs_nonneg _))
  rw [abs_of_pos (show (0 : ℝ) < ((99999 : ℕ) : ℝ) / ((100000 : ℕ) : ℝ) by norm_num)] at h2
  push_cast at h2
  rw [abs_le] at h2 ⊢
  norm_num at h2 ⊢
  constructor <;> linarith

/-- one factor `√((1 ∓ c) / 2)` -/
theorem half (hp : 24 ≤ p) {B C' : ℝ} (h1 : 1 / 50000 ≤ B) (h2 : B ≤ 2) (hC : |C' - B| ≤ 13.1 * (2 : ℝ) ^ (-(p : ℤ))) :
    ∃ s, MathFns.sqrt (1 / 2 * .num (rne p C') : Fl ℝ (rne p)) = .num s ∧ |s - √(B / 2)| ≤ 8.8 * (2 : ℝ) ^ (-(p : ℤ)) / √(B / 2) := by
  have hp1 : 1 ≤ p := by omega
  have hr := isRel_rne p hp1
  have u0 := hr.nonneg
  have hu := u24 hp
  have e := hr.err C'
  have hB : |rne p C' - B| ≤ 15.2 * (2 : ℝ) ^ (-(p : ℤ)) := by
    have hC2 : |C'| ≤ 2.05 := by
      rw [abs_le] at hC ⊢
      constructor <;> linarith
    have := mul_le_mul_of_nonneg_left hC2 u0
    rw [abs_le] at *
    constructor <;> linarith
  have hx : rne p (1 / 2 * rne p C') = rne p C' / 2 := by
    rw [mul_comm, rne_of_rep hp1 (by simpa using (rep_rne p hp1 C').mul_zpow (-1)), mul_one_div]
  have B0 : 0 < rne p C' := by
    have := (abs_le.1 hB).1
    linarith
  refine ⟨rne p √(rne p C' / 2), ?_, ?_⟩
  · rw [half_lit hp1, Fl.num_mul, hx]
    simp only [Fl.fl_sqrt, if_neg (not_lt.2 (show 0 ≤ rne p C' / 2 by linarith))]
  have er := hr.err √(rne p C' / 2)
  have a2 := Real.sq_sqrt (show 0 ≤ rne p C' / 2 by linarith)
  have b2 := Real.sq_sqrt (show 0 ≤ B / 2 by linarith)
  have b0 : 0 < √(B / 2) := Real.sqrt_pos.2 (by linarith)
  have a0 := Real.sqrt_nonneg (rne p C' / 2)
  have b1 : √(B / 2) ≤ 1 := Real.sqrt_le_one.2 (by linarith)
  rw [abs_of_nonneg a0] at er
  generalize rne p √(rne p C' / 2) = s at *
  generalize √(rne p C' / 2) = a at *
  generalize √(B / 2) = b at *
  generalize (2 : ℝ) ^ (-(p : ℤ)) = u at *
  have d1 : |a - b| ≤ 7.6 * u / b := by
    rw [le_div_iff₀ b0]
    have e1 : (a - b) * (a + b) = (rne p C' - B) / 2 := by linear_combination a2 - b2
    have e2 : |a - b| * (a + b) ≤ 7.6 * u := by
      have := congrArg abs e1
      rw [abs_mul, abs_of_pos (show 0 < a + b by linarith), abs_div, abs_two] at this
      rw [this]
      linarith
    have := mul_nonneg (abs_nonneg (a - b)) a0
    linarith
  rw [le_div_iff₀ b0] at d1 ⊢
  have a1 : a ≤ 1.05 := by
    by_contra h
    push_neg at h
    have := (abs_le.1 hB).2
    nlinarith
  have h5 : |s - b| ≤ u * a + |a - b| := by
    have := abs_sub_le s a b
    linarith
  have h6 := mul_le_mul_of_nonneg_right h5 b0.le
  have h7 : u * a * b ≤ u * 1.05 * 1 := mul_le_mul (mul_le_mul_of_nonneg_left a1 u0) b1 b0.le (by positivity)
  linarith

/-- products of nearly exact factors -/
theorem prod_near {D E d e u : ℝ} (u0 : 0 ≤ u) (hu : u ≤ 1 / 16777216) (h1 : |D - d| ≤ 5.001 * u * |d|) (h2 : |E - e| ≤ 5.001 * u * |e|) :
    |D * E - d * e| ≤ 10.003 * u * |d * e| ∧ |D * E| ≤ 1.001 * |d * e| := by
  have e1 : D * E - d * e = (D - d) * (E - e) + (D - d) * e + d * (E - e) := by ring
  have h3 : |D * E - d * e| ≤ |D - d| * |E - e| + |D - d| * |e| + |d| * |E - e| := by
    rw [e1, ← abs_mul, ← abs_mul, ← abs_mul]
    exact (abs_add_le _ _).trans (by linarith [abs_add_le ((D - d) * (E - e)) ((D - d) * e)])
  have k1 := mul_le_mul h1 h2 (abs_nonneg _) (by positivity)
  have k2 := mul_le_mul_of_nonneg_right h1 (abs_nonneg e)
  have k3 := mul_le_mul_of_nonneg_left h2 (abs_nonneg d)
  have t : 0 ≤ |d| * |e| := by positivity
  have k4 : 5.001 * u * |d| * (5.001 * u * |e|) ≤ 0.001 * u * (|d| * |e|) := by
    have : 5.001 * u * |d| * (5.001 * u * |e|) = (25.010001 * u) * (u * (|d| * |e|)) := by ring
    rw [this]
    have := mul_le_mul_of_nonneg_right (show 25.010001 * u ≤ 0.001 by linarith) (mul_nonneg u0 t)
    linarith
  have h4 : |D * E - d * e| ≤ 10.003 * u * |d * e| := by
    rw [abs_mul d e]
    linarith
  refine ⟨h4, ?_⟩
  have := abs_sub_abs_le_abs_sub (D * E) (d * e)
  have : 10.003 * u * |d * e| ≤ 0.001 * |d * e| := mul_le_mul_of_nonneg_right (by linarith) (abs_nonneg _)
  linarith

/-- the normalised vector -/
theorem dir (hp : 24 ≤ p) {d : Vec3 ℝ} (hd : d.IsUnit) {P : ℝ} (hP : 0 < P) :
    ∃ D : Vec3 ℝ, (Vec3.num (d * P) : Vec3 (Fl ℝ (rne p))).normalized 1 = Vec3.num D ∧
      |D.x - d.x| ≤ 5.001 * (2 : ℝ) ^ (-(p : ℤ)) * |d.x| ∧ |D.y - d.y| ≤ 5.001 * (2 : ℝ) ^ (-(p : ℤ)) * |d.y| ∧
      |D.z - d.z| ≤ 5.001 * (2 : ℝ) ^ (-(p : ℤ)) * |d.z| := by
  have hr := isRel_rne p (show 1 ≤ p by omega)
  have u0 := hr.nonneg
  obtain ⟨-, g5, -, -⟩ := gams u0 (VSlerp.u20 (p := p) (by omega))
  have l : √((d * P).x ^ 2 + (d * P).y ^ 2 + (d * P).z ^ 2) = P := by
    have : (d * P).length = P := Vec3.length_mul hd hP.le
    refine Eq.trans ?_ this
    show _ = √((d * P).x * (d * P).x + (d * P).y * (d * P).y + (d * P).z * (d * P).z)
    simp only [sq]
  have h0 : d * P ≠ ⟨0, 0, 0⟩ := fun h => by
    rw [h] at l
    simp at l
    linarith
  obtain ⟨w, ew, -, ⟨hx, hy, hz⟩, -, -⟩ := C119_normalized3 hr (d * P) h0 1
  rw [← Fl.one_def] at ew
  simp only [l] at hx hy hz
  have k : ∀ t : ℝ, t * P * (1 / P) = t := fun t => by field_simp
  have c : (d * P).x = d.x * P ∧ (d * P).y = d.y * P ∧ (d * P).z = d.z * P := ⟨rfl, rfl, rfl⟩
  rw [c.1, k] at hx
  rw [c.2.1, k] at hy
  rw [c.2.2, k] at hz
  exact ⟨w, ew, hx.trans (mul_le_mul_of_nonneg_right g5 (abs_nonneg _)), hy.trans (mul_le_mul_of_nonneg_right g5 (abs_nonneg _)),
    hz.trans (mul_le_mul_of_nonneg_right g5 (abs_nonneg _))⟩

/-- the scalar product and the cross product of the normalised vectors -/
theorem products (hp : 24 ≤ p) {d e D E : Vec3 ℝ} (hd : d.IsUnit) (he : e.IsUnit)
    (h1 : |D.x - d.x| ≤ 5.001 * (2 : ℝ) ^ (-(p : ℤ)) * |d.x| ∧ |D.y - d.y| ≤ 5.001 * (2 : ℝ) ^ (-(p : ℤ)) * |d.y| ∧
      |D.z - d.z| ≤ 5.001 * (2 : ℝ) ^ (-(p : ℤ)) * |d.z|)
    (h2 : |E.x - e.x| ≤ 5.001 * (2 : ℝ) ^ (-(p : ℤ)) * |e.x| ∧ |E.y - e.y| ≤ 5.001 * (2 : ℝ) ^ (-(p : ℤ)) * |e.y| ∧
      |E.z - e.z| ≤ 5.001 * (2 : ℝ) ^ (-(p : ℤ)) * |e.z|) :
    (∃ C : ℝ, (Vec3.num D : Vec3 (Fl ℝ (rne p))).dot (Vec3.num E) = .num C ∧ |C - d.dot e| ≤ 13.1 * (2 : ℝ) ^ (-(p : ℤ))) ∧
    ∃ n : Vec3 ℝ, (Vec3.num D : Vec3 (Fl ℝ (rne p))).cross (Vec3.num E) = Vec3.num n ∧
      |n.x - (d.cross e).x| ≤ 12.1 * (2 : ℝ) ^ (-(p : ℤ)) ∧ |n.y - (d.cross e).y| ≤ 12.1 * (2 : ℝ) ^ (-(p : ℤ)) ∧
      |n.z - (d.cross e).z| ≤ 12.1 * (2 : ℝ) ^ (-(p : ℤ)) := by
  have hr := isRel_rne p (show 1 ≤ p by omega)
  have u0 := hr.nonneg
  have hu := u24 hp
  obtain ⟨g3, -, -, g2⟩ := gams u0 (VSlerp.u20 (p := p) (by omega))
  have hdu : d.x ^ 2 + d.y ^ 2 + d.z ^ 2 = 1 := hd
  have heu : e.x ^ 2 + e.y ^ 2 + e.z ^ 2 = 1 := he
  obtain ⟨h1x, h1y, h1z⟩ := h1
  obtain ⟨h2x, h2y, h2z⟩ := h2
  constructor
  · obtain ⟨-, C, eC, hC⟩ := abs_sum3 hr D.x E.x D.y E.y D.z E.z
    refine ⟨C, eC, ?_⟩
    obtain ⟨x1, x2⟩ := prod_near u0 hu h1x h2x
    obtain ⟨y1, y2⟩ := prod_near u0 hu h1y h2y
    obtain ⟨z1, z2⟩ := prod_near u0 hu h1z h2z
    have T : |d.x * e.x| + |d.y * e.y| + |d.z * e.z| ≤ 1 := by
      have := cauchy3 |d.x| |d.y| |d.z| |e.x| |e.y| |e.z|
      simp only [sq_abs, hdu, heu, ← abs_mul] at this
      nlinarith [abs_nonneg (d.x * e.x), abs_nonneg (d.y * e.y), abs_nonneg (d.z * e.z)]
    have k1 := mul_le_mul g3 (show |D.x * E.x| + |D.y * E.y| + |D.z * E.z| ≤ 1.001 by linarith) (by positivity) (by positivity)
    have k2 := mul_le_mul_of_nonneg_left T u0
    have hdot : d.dot e = d.x * e.x + d.y * e.y + d.z * e.z := rfl
    rw [hdot]
    have h3 := hC.trans k1
    rw [abs_le] at h3 x1 y1 z1 ⊢
    constructor <;> linarith [h3.1, h3.2, x1.1, x1.2, y1.1, y1.2, z1.1, z1.2]
  · have comp : ∀ {a b x y A B X Y : ℝ}, a ^ 2 + b ^ 2 ≤ 1 → x ^ 2 + y ^ 2 ≤ 1 → |A - a| ≤ 5.001 * (2 : ℝ) ^ (-(p : ℤ)) * |a| →
        |B - b| ≤ 5.001 * (2 : ℝ) ^ (-(p : ℤ)) * |b| → |X - x| ≤ 5.001 * (2 : ℝ) ^ (-(p : ℤ)) * |x| →
        |Y - y| ≤ 5.001 * (2 : ℝ) ^ (-(p : ℤ)) * |y| → ∃ C,
        (.num A * .num Y - .num B * .num X : Fl ℝ (rne p)) = .num C ∧ |C - (a * y - b * x)| ≤ 12.1 * (2 : ℝ) ^ (-(p : ℤ)) := by
      intro a b x y A B X Y h1 h2 hA hB hX hY
      have k := cross_abs h1 h2
      obtain ⟨-, C, eC, hC⟩ := AbsErr.sub hr (AbsErr.mul hr (AbsErr.exact hr A) (AbsErr.exact hr Y) (k := 1))
        (AbsErr.mul hr (AbsErr.exact hr B) (AbsErr.exact hr X) (k := 1)) (k := 2)
      refine ⟨C, eC, ?_⟩
      obtain ⟨x1, x2⟩ := prod_near u0 hu hA hY
      obtain ⟨y1, y2⟩ := prod_near u0 hu hB hX
      rw [← abs_mul, ← abs_mul] at hC
      have k1 := mul_le_mul g2 (show |A * Y| + |B * X| ≤ 1.001 by linarith) (by positivity) (by positivity)
      have k2 := mul_le_mul_of_nonneg_left k u0
      have h3 := hC.trans k1
      rw [abs_le] at h3 x1 y1 ⊢
      constructor <;> linarith [h3.1, h3.2, x1.1, x1.2, y1.1, y1.2]
    obtain ⟨C1, e1, k1⟩ := comp (a := d.y) (b := d.z) (x := e.y) (y := e.z) (by nlinarith [sq_nonneg d.x]) (by nlinarith [sq_nonneg e.x]) h1y h1z h2y h2z
    obtain ⟨C2, e2, k2⟩ := comp (a := d.z) (b := d.x) (x := e.z) (y := e.x) (by nlinarith [sq_nonneg d.y]) (by nlinarith [sq_nonneg e.y]) h1z h1x h2z h2x
    obtain ⟨C3, e3, k3⟩ := comp (a := d.x) (b := d.y) (x := e.x) (y := e.y) (by nlinarith [sq_nonneg d.z]) (by nlinarith [sq_nonneg e.z]) h1x h1y h2x h2y
    refine ⟨⟨C1, C2, C3⟩, ?_, k1, k2, k3⟩
    unfold Vec3.cross
    exact congr (congr (congrArg _ e1) e2) e3

/-- a coordinate of the vector part -/
theorem coord (hp : 24 ≤ p) {t m x s s' w : ℝ} (hs : 0.00316 ≤ s) (hs1 : s ≤ 1) (hw : 0 < w) (hw1 : w ≤ 1)
    (hm : |m - x / (2 * s * w)| ≤ 2.7321 * (12.1 * (2 : ℝ) ^ (-(p : ℤ))) / (2 * s * w)) (hm1 : |m| ≤ 1)
    (hν : |x / (2 * s * w)| ≤ 1) (ht : |t - m| ≤ 5.001 * (2 : ℝ) ^ (-(p : ℤ)) * |m|)
    (h' : |s' - s| ≤ 8.8 * (2 : ℝ) ^ (-(p : ℤ)) / s) :
    |rne p (t * s') - x / (2 * w)| ≤ (24 / w + 9 / s) * (2 : ℝ) ^ (-(p : ℤ)) := by
  have hr := isRel_rne p (show 1 ≤ p by omega)
  have u0 := hr.nonneg
  have hu := u24 hp
  have er := hr.err (t * s')
  have s0 : 0 < s := by linarith
  have ex : x / (2 * w) = x / (2 * s * w) * s := by field_simp
  rw [ex]
  generalize x / (2 * s * w) = ν at *
  generalize rne p (t * s') = r at *
  generalize (2 : ℝ) ^ (-(p : ℤ)) = u at *
  have i1 : 1 ≤ 1 / w := by rw [le_div_iff₀ hw]; linarith
  have i2 : 0 < 1 / s := by positivity
  have i3 : s * (1 / s) = 1 := by field_simp
  have em : 2.7321 * (12.1 * u) / (2 * s * w) = 16.529205 * u * (1 / s * (1 / w)) := by field_simp; ring
  have es : 8.8 * u / s = 8.8 * u * (1 / s) := by ring
  have eg : (24 / w + 9 / s) * u = 24 * (u * (1 / w)) + 9 * (u * (1 / s)) := by ring
  rw [em] at hm
  rw [es] at h'
  rw [eg]
  have i4 : 1 / s ≤ 100300 * s := by
    rw [div_le_iff₀ s0]
    nlinarith
  generalize 1 / w = W at *
  generalize 1 / s = Z at *
  have d1 : |t - ν| ≤ 16.529205 * u * (Z * W) + 5.001 * u := by
    have := abs_sub_le t m ν
    have := mul_le_mul_of_nonneg_left hm1 (show 0 ≤ 5.001 * u by positivity)
    linarith
  have uZ : u * Z ≤ 0.006 * s := by
    have := mul_le_mul hu i4 i2.le (by norm_num)
    linarith
  have s1 : |s'| ≤ 1.053 * s := by
    have := abs_sub_abs_le_abs_sub s' s
    rw [abs_of_pos s0] at this
    linarith
  have t1 : |t| ≤ 1.001 := by
    have := abs_sub_abs_le_abs_sub t m
    have := mul_le_mul_of_nonneg_left hm1 (show 0 ≤ 5.001 * u by positivity)
    linarith
  have k1 : |t * s' - ν * s| ≤ |t - ν| * |s'| + |ν| * |s' - s| := by
    rw [← abs_mul, ← abs_mul]
    have e : t * s' - ν * s = (t - ν) * s' + ν * (s' - s) := by ring
    rw [e]
    exact abs_add_le _ _
  have ZW : 0 ≤ Z * W := mul_nonneg i2.le (by linarith)
  have k2 := mul_le_mul d1 s1 (abs_nonneg _) (by positivity)
  have k3 := mul_le_mul hν h' (abs_nonneg _) zero_le_one
  have k4 : (16.529205 * u * (Z * W) + 5.001 * u) * (1.053 * s) = 17.405252865 * (u * W) + 5.266053 * (u * s) := by
    linear_combination 17.405252865 * u * W * i3
  have k5 : u * s ≤ u := by have := mul_le_mul_of_nonneg_left hs1 u0; linarith
  have k6 : u ≤ u * W := by have := mul_le_mul_of_nonneg_left i1 u0; linarith
  have k7 : |t * s'| ≤ 1.001 * (1.053 * 1) := by
    rw [abs_mul]
    exact mul_le_mul t1 (s1.trans (by linarith)) (abs_nonneg _) (by norm_num)
  have k8 := mul_le_mul_of_nonneg_left k7 u0
  have k9 := abs_sub_le r (t * s') (ν * s)
  have uZ0 := mul_nonneg u0 i2.le
  linarith

/-- the branch between the thresholds -/
theorem main {a b D E n t : Vec3 (Fl ℝ (rne p))} {C T s w : Fl ℝ (rne p)} (eD : a.normalized 1 = D) (eE : b.normalized 1 = E)
    (eC : D.dot E = C) (en : D.cross E = n) (et : n.normalized 1 = t) (eT : (99999 / 100000 : Fl ℝ (rne p)) = T)
    (i1 : ¬ T < C) (i2 : ¬ C < -T) (es : MathFns.sqrt (1 / 2 * (1 - C)) = s) (ew : MathFns.sqrt (1 / 2 * (1 + C)) = w) :
    Quat.ofVecs a b = ⟨t.x * s, t.y * s, t.z * s, w⟩ := by
  subst eD eE eC en et eT es ew
  unfold Quat.ofVecs
  simp only [gt_iff_lt]
  rw [if_neg i1, if_neg i2]

end QDirs

open QDirs

variable {p : ℕ}

/-- **C185 (between the thresholds).** Let the two vectors have the directions `d` and `e`, any positive lengths, and let `c` be the
cosine of the angle between them. If `|c| ≤ 0.99998`, the code returns the quaternion `((d × e) / 2w, w)`, `w = √((1 + c) / 2)`, that
turns `d` to `e`, up to `24 / w + 9 / s` units in x, y and z, `s = √((1 - c) / 2)`, and `8.8 / w` units in w. -/
theorem C185_turn_partial (hp : 24 ≤ p) {d e : Vec3 ℝ} (hd : d.IsUnit) (he : e.IsUnit) {P Q : ℝ} (hP : 0 < P) (hQ : 0 < Q)
    (hc : |d.dot e| ≤ 0.99998) :
    ∃ q : Quat ℝ, Quat.ofVecs (Vec3.num (d * P) : Vec3 (Fl ℝ (rne p))) (Vec3.num (e * Q)) = Quat.num q ∧
      (let w := √((1 + d.dot e) / 2)
       let s := √((1 - d.dot e) / 2)
       |q.x - (d.cross e).x / (2 * w)| ≤ (24 / w + 9 / s) * (2 : ℝ) ^ (-(p : ℤ)) ∧
       |q.y - (d.cross e).y / (2 * w)| ≤ (24 / w + 9 / s) * (2 : ℝ) ^ (-(p : ℤ)) ∧
       |q.z - (d.cross e).z / (2 * w)| ≤ (24 / w + 9 / s) * (2 : ℝ) ^ (-(p : ℤ)) ∧
       |q.w - w| ≤ 8.8 / w * (2 : ℝ) ^ (-(p : ℤ))) := by
  have hp1 : 1 ≤ p := by omega
  have hr := isRel_rne p hp1
  have u0 := hr.nonneg
  have hu := u24 hp
  obtain ⟨-, g5, -, -⟩ := gams u0 (VSlerp.u20 (p := p) (by omega))
  obtain ⟨D, eD, hD⟩ := dir hp hd hP
  obtain ⟨E, eE, hE⟩ := dir hp he hQ
  obtain ⟨⟨C, eC, hC⟩, n, en, nx, ny, nz⟩ := products hp hd he hD hE
  clear hD hE
  obtain ⟨c1, c2⟩ := abs_le.1 hc
  obtain ⟨T, eT, hT⟩ := thr hp
  have hTC : C ≤ T := by linarith only [(abs_le.1 hC).2, (abs_le.1 hT).1, c2, hu]
  have hTC2 : -T ≤ C := by linarith only [(abs_le.1 hC).1, (abs_le.1 hT).1, c1, hu]
  have i1 : ¬ (.num T : Fl ℝ (rne p)) < .num C := by rw [Fl.num_lt]; exact not_lt.2 hTC
  have i2 : ¬ (.num C : Fl ℝ (rne p)) < -.num T := by rw [Fl.num_neg, Fl.num_lt]; exact not_lt.2 hTC2
  obtain ⟨s', es, hs⟩ := half hp (B := 1 - d.dot e) (C' := 1 - C) (by linarith) (by linarith) (by
    rw [abs_sub_comm] at hC; rw [show 1 - C - (1 - d.dot e) = d.dot e - C by ring]; exact hC)
  obtain ⟨w', ew, hw⟩ := half hp (B := 1 + d.dot e) (C' := 1 + C) (by linarith) (by linarith) (by
    rw [show 1 + C - (1 + d.dot e) = C - d.dot e by ring]; exact hC)
  have hdu : d.x ^ 2 + d.y ^ 2 + d.z ^ 2 = 1 := hd
  have heu : e.x ^ 2 + e.y ^ 2 + e.z ^ 2 = 1 := he
  have hdot : d.dot e = d.x * e.x + d.y * e.y + d.z * e.z := rfl
  have s2 := Real.sq_sqrt (show 0 ≤ (1 - d.dot e) / 2 by linarith)
  have w2 := Real.sq_sqrt (show 0 ≤ (1 + d.dot e) / 2 by linarith)
  have s0 : 0.00316 ≤ √((1 - d.dot e) / 2) := Real.le_sqrt_of_sq_le (by norm_num; linarith)
  have w0 : 0.00316 ≤ √((1 + d.dot e) / 2) := Real.le_sqrt_of_sq_le (by norm_num; linarith)
  have s1 : √((1 - d.dot e) / 2) ≤ 1 := Real.sqrt_le_one.2 (by linarith)
  have w1 : √((1 + d.dot e) / 2) ≤ 1 := Real.sqrt_le_one.2 (by linarith)
  have hS : (d.cross e).x ^ 2 + (d.cross e).y ^ 2 + (d.cross e).z ^ 2 = (2 * √((1 - d.dot e) / 2) * √((1 + d.dot e) / 2)) ^ 2 := by
    rw [mul_pow, mul_pow, s2, w2, hdot]
    simp only [Vec3.cross]
    linear_combination (e.x ^ 2 + e.y ^ 2 + e.z ^ 2) * hdu + heu
  have hSpos : 0 < 2 * √((1 - d.dot e) / 2) * √((1 + d.dot e) / 2) := by positivity
  have hS2 : 0.001 ≤ 2 * √((1 - d.dot e) / 2) * √((1 + d.dot e) / 2) := by
    apply le_of_sq_le_sq _ hSpos.le
    rw [mul_pow, mul_pow, s2, w2]
    nlinarith
  obtain ⟨N0, mx, my, mz⟩ := unit_near hSpos (e := 12.1 * (2 : ℝ) ^ (-(p : ℤ))) (by linarith only [hu, hS2]) (by positivity) hS nx ny nz
  have hn0 : n ≠ ⟨0, 0, 0⟩ := fun h => by
    rw [h] at N0
    simp at N0
  obtain ⟨t, et, -, ⟨tx, ty, tz⟩, -, -⟩ := C119_normalized3 hr n hn0 1
  rw [← Fl.one_def] at et
  have N2 : √(n.x ^ 2 + n.y ^ 2 + n.z ^ 2) ^ 2 = n.x ^ 2 + n.y ^ 2 + n.z ^ 2 := Real.sq_sqrt (by positivity)
  have le1 : ∀ {a N : ℝ}, 0 < N → a ^ 2 ≤ N ^ 2 → |a / N| ≤ 1 := fun {a N} h h2 => by
    rw [abs_div, abs_of_pos h, div_le_one h]
    exact abs_le_of_sq_le_sq h2 h.le
  have q1 := sq_nonneg n.x
  have q2 := sq_nonneg n.y
  have q3 := sq_nonneg n.z
  have q4 := sq_nonneg (d.cross e).x
  have q5 := sq_nonneg (d.cross e).y
  have q6 := sq_nonneg (d.cross e).z
  rw [mul_one_div] at tx ty tz
  have fix : ∀ {a b : ℝ}, |a - b| ≤ gam ((2 : ℝ) ^ (-(p : ℤ))) 5 * |b| → |a - b| ≤ 5.001 * (2 : ℝ) ^ (-(p : ℤ)) * |b| :=
    fun h => h.trans (mul_le_mul_of_nonneg_right g5 (abs_nonneg _))
  have cx := coord hp s0 s1 (lt_of_lt_of_le (by norm_num) w0) w1 mx (le1 N0 (by linarith only [N2, q1, q2, q3])) (le1 hSpos (by linarith only [hS, q4, q5, q6])) (fix tx) hs
  have cy := coord hp s0 s1 (lt_of_lt_of_le (by norm_num) w0) w1 my (le1 N0 (by linarith only [N2, q1, q2, q3])) (le1 hSpos (by linarith only [hS, q4, q5, q6])) (fix ty) hs
  have cz := coord hp s0 s1 (lt_of_lt_of_le (by norm_num) w0) w1 mz (le1 N0 (by linarith only [N2, q1, q2, q3])) (le1 hSpos (by linarith only [hS, q4, q5, q6])) (fix tz) hs
  have cw : |w' - √((1 + d.dot e) / 2)| ≤ 8.8 / √((1 + d.dot e) / 2) * (2 : ℝ) ^ (-(p : ℤ)) := by
    rw [show 8.8 / √((1 + d.dot e) / 2) * (2 : ℝ) ^ (-(p : ℤ)) = 8.8 * (2 : ℝ) ^ (-(p : ℤ)) / √((1 + d.dot e) / 2) by ring]
    exact hw
  refine ⟨⟨rne p (t.x * s'), rne p (t.y * s'), rne p (t.z * s'), w'⟩, ?_, cx, cy, cz, cw⟩
  have e1 : (1 : Fl ℝ (rne p)) - .num C = .num (rne p (1 - C)) := rfl
  have e2 : (1 : Fl ℝ (rne p)) + .num C = .num (rne p (1 + C)) := rfl
  rw [← e1] at es
  rw [← e2] at ew
  rw [main eD eE eC en et eT i1 i2 es ew]
  simp only [Vec3.num, Quat.num, Fl.num_mul]

/-- **C185 (beyond the thresholds).** Where the cosine is at least 0.999992 the result is exactly the identity, and where it is at
most -0.999992 it is exactly `(0, 0, 0, -1)`, which turns nothing. -/
theorem C185_ends (hp : 24 ≤ p) {d e : Vec3 ℝ} (hd : d.IsUnit) (he : e.IsUnit) {P Q : ℝ} (hP : 0 < P) (hQ : 0 < Q) :
    (0.999992 ≤ d.dot e → Quat.ofVecs (Vec3.num (d * P) : Vec3 (Fl ℝ (rne p))) (Vec3.num (e * Q)) = Quat.num ⟨0, 0, 0, 1⟩) ∧
    (d.dot e ≤ -0.999992 → Quat.ofVecs (Vec3.num (d * P) : Vec3 (Fl ℝ (rne p))) (Vec3.num (e * Q)) = Quat.num ⟨0, 0, 0, -1⟩) := by
  have hu := u24 hp
  obtain ⟨D, eD, hD⟩ := dir hp hd hP
  obtain ⟨E, eE, hE⟩ := dir hp he hQ
  obtain ⟨⟨C, eC, hC⟩, -⟩ := products hp hd he hD hE
  obtain ⟨T, eT, hT⟩ := thr hp
  have hC' := abs_le.1 hC
  have hT' := abs_le.1 hT
  constructor <;> intro h <;> unfold Quat.ofVecs <;> simp only [eD, eE, eC, eT, Fl.num_neg, gt_iff_lt, Fl.num_lt]
  · rw [if_pos (by linarith)]
    rfl
  · rw [if_neg (by linarith), if_pos (by linarith)]
    rfl

/-- The x axis of length 3 and the y axis of length 5: all hypotheses hold, the cosine is 0. -/
example : (⟨1, 0, 0⟩ : Vec3 ℝ).IsUnit ∧ (⟨0, 1, 0⟩ : Vec3 ℝ).IsUnit ∧ (0 : ℝ) < 3 ∧ (0 : ℝ) < 5 ∧
    |(⟨1, 0, 0⟩ : Vec3 ℝ).dot ⟨0, 1, 0⟩| ≤ 0.99998 := by
  refine ⟨?_, ?_, by norm_num, by norm_num, ?_⟩ <;> norm_num [Vec3.IsUnit, Vec3.dot]

private theorem rot_comp {q : Quat ℝ} (hq : q.IsUnit) (v : Vec3 ℝ) : q.rotated v =
    ⟨(q.w ^ 2 + q.x ^ 2 - q.y ^ 2 - q.z ^ 2) * v.x + 2 * (q.x * q.y - q.w * q.z) * v.y + 2 * (q.x * q.z + q.w * q.y) * v.z,
     2 * (q.x * q.y + q.w * q.z) * v.x + (q.w ^ 2 - q.x ^ 2 + q.y ^ 2 - q.z ^ 2) * v.y + 2 * (q.y * q.z - q.w * q.x) * v.z,
     2 * (q.x * q.z - q.w * q.y) * v.x + 2 * (q.y * q.z + q.w * q.x) * v.y + (q.w ^ 2 - q.x ^ 2 - q.y ^ 2 + q.z ^ 2) * v.z⟩ := by
  have h := Mat3.toM_mulVec (Mat3.ofQuat q) v
  rw [Quat.ofQuat_toM _ hq] at h
  have h0 := congrFun h 0
  have h1 := congrFun h 1
  have h2 := congrFun h 2
  have hn : q.x ^ 2 + q.y ^ 2 + q.z ^ 2 + q.w ^ 2 = 1 := hq
  simp [Quat.rot, Vec3.toFn, Matrix.mulVec, dotProduct, Fin.sum_univ_succ] at h0 h1 h2
  ext
  · change ((Mat3.ofQuat q).mulVec v).x = _
    rw [h0]; simp only; ring
  · change ((Mat3.ofQuat q).mulVec v).y = _
    rw [h1]; simp only; ring
  · change ((Mat3.ofQuat q).mulVec v).z = _
    rw [h2]; simp only; ring

/-- The ideal quaternion of `C185_turn_partial` is a unit quaternion, and it turns `d` to `e`. -/
theorem C185_ideal {d e : Vec3 ℝ} (hd : d.IsUnit) (he : e.IsUnit) (hc : -1 < d.dot e) :
    let w := √((1 + d.dot e) / 2)
    let q : Quat ℝ := ⟨(d.cross e).x / (2 * w), (d.cross e).y / (2 * w), (d.cross e).z / (2 * w), w⟩
    q.IsUnit ∧ q.rotated d = e := by
  have w2 := Real.sq_sqrt (show 0 ≤ (1 + d.dot e) / 2 by linarith)
  have w0 : 0 < √((1 + d.dot e) / 2) := Real.sqrt_pos.2 (by linarith)
  have hdu : d.x ^ 2 + d.y ^ 2 + d.z ^ 2 = 1 := hd
  have heu : e.x ^ 2 + e.y ^ 2 + e.z ^ 2 = 1 := he
  have hdot : d.dot e = d.x * e.x + d.y * e.y + d.z * e.z := rfl
  intro w q
  have hw : w = √((1 + d.dot e) / 2) := rfl
  rw [← hw] at w2 w0
  have i : w * (1 / (2 * w)) = 1 / 2 := by field_simp
  obtain ⟨k, hk⟩ : ∃ k, k = 1 / (2 * w) := ⟨_, rfl⟩
  rw [← hk] at i
  have eq : q = ⟨(d.y * e.z - d.z * e.y) * k, (d.z * e.x - d.x * e.z) * k, (d.x * e.y - d.y * e.x) * k, w⟩ := by
    rw [hk]
    simp only [mul_one_div]
    rfl
  have i2 : k ^ 2 * (2 * (1 + d.dot e)) = 1 := by linear_combination (-4 * k ^ 2) * w2 + 4 * (w * k + 1 / 2) * i
  have hu : q.IsUnit := by
    rw [eq]
    simp only [Quat.IsUnit]
    rw [w2]
    have k2 : (d.y * e.z - d.z * e.y) ^ 2 + (d.z * e.x - d.x * e.z) ^ 2 + (d.x * e.y - d.y * e.x) ^ 2 = 1 - (d.dot e) ^ 2 := by
      rw [hdot]; linear_combination (e.x ^ 2 + e.y ^ 2 + e.z ^ 2) * hdu + heu
    linear_combination k ^ 2 * k2 + (1 - d.dot e) / 2 * i2
  refine ⟨hu, ?_⟩
  have hn : q.x ^ 2 + q.y ^ 2 + q.z ^ 2 + q.w ^ 2 = 1 := hu
  have o : q.x * d.x + q.y * d.y + q.z * d.z = 0 := by rw [eq]; ring
  have cw : q.w ^ 2 = (1 + d.dot e) / 2 := by rw [eq]; exact w2
  have vx : 2 * q.w * (q.y * d.z - q.z * d.y) = e.x - d.dot e * d.x := by
    rw [eq, hdot]; simp only
    linear_combination 2 * ((d.z * e.x - d.x * e.z) * d.z - (d.x * e.y - d.y * e.x) * d.y) * i + e.x * hdu
  have vy : 2 * q.w * (q.z * d.x - q.x * d.z) = e.y - d.dot e * d.y := by
    rw [eq, hdot]; simp only
    linear_combination 2 * ((d.x * e.y - d.y * e.x) * d.x - (d.y * e.z - d.z * e.y) * d.z) * i + e.y * hdu
  have vz : 2 * q.w * (q.x * d.y - q.y * d.x) = e.z - d.dot e * d.z := by
    rw [eq, hdot]; simp only
    linear_combination 2 * ((d.y * e.z - d.z * e.y) * d.y - (d.z * e.x - d.x * e.z) * d.x) * i + e.z * hdu
  rw [rot_comp hu d]
  ext
  · simp only; linear_combination vx + 2 * q.x * o - d.x * hn + 2 * d.x * cw
  · simp only; linear_combination vy + 2 * q.y * o - d.y * hn + 2 * d.y * cw
  · simp only; linear_combination vz + 2 * q.z * o - d.z * hn + 2 * d.z * cw

/-- **C185, the full statement**: the computed quaternion is near one that turns the first direction to the second. -/
def C185_full (p : ℕ) : Prop :=
  ∀ d e : Vec3 ℝ, d.IsUnit → e.IsUnit → ∀ q : Quat ℝ,
    Quat.ofVecs (Vec3.num d : Vec3 (Fl ℝ (rne p))) (Vec3.num e) = Quat.num q →
    ∃ r : Quat ℝ, r.IsUnit ∧ r.rotated d = e ∧ |q.x - r.x| < 1 ∧ |q.y - r.y| < 1 ∧ |q.z - r.z| < 1 ∧ |q.w - r.w| < 1

/-- **C185 (refuted).** For opposite vectors the result, `(0, 0, 0, -1)`, is not even within 1 of a quaternion that turns one to the
other, in every precision. -/
theorem C185_refuted (hp : 24 ≤ p) : ¬ C185_full p := by
  intro h
  have hd : (⟨1, 0, 0⟩ : Vec3 ℝ).IsUnit := by norm_num [Vec3.IsUnit]
  have he : (⟨-1, 0, 0⟩ : Vec3 ℝ).IsUnit := by norm_num [Vec3.IsUnit]
  have k := (C185_ends hp hd he one_pos one_pos).2 (by norm_num [Vec3.dot])
  have e1 : (⟨1, 0, 0⟩ : Vec3 ℝ) * (1 : ℝ) = ⟨1, 0, 0⟩ := by ext <;> simp
  have e2 : (⟨-1, 0, 0⟩ : Vec3 ℝ) * (1 : ℝ) = ⟨-1, 0, 0⟩ := by ext <;> simp
  rw [e1, e2] at k
  obtain ⟨r, hr, hrot, -, -, -, hw⟩ := h _ _ hd he _ k
  rw [rot_comp hr] at hrot
  have h1 := congrArg Vec3.x hrot
  simp only [mul_one, mul_zero, add_zero] at h1
  have hn : r.x ^ 2 + r.y ^ 2 + r.z ^ 2 + r.w ^ 2 = 1 := hr
  have h2 : r.w ^ 2 = 0 := by nlinarith [sq_nonneg r.x, sq_nonneg r.w]
  rw [pow_eq_zero_iff two_ne_zero] at h2
  rw [h2] at hw
  norm_num at hw

end MathLib
