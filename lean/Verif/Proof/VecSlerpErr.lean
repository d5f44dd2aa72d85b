import Verif.Proof.RneNearest
import Verif.Props.RoundedRotations
import Verif.Props.RoundedPolar
import Verif.Props.VecSlerp
import Verif.Props.RoundedAngles

/-! # Error bounds for `Vec3::slerp` -/

namespace MathLib.VSlerp

variable {p : ℕ}

theorem u20 (hp : 20 ≤ p) : (2 : ℝ) ^ (-(p : ℤ)) ≤ 1 / 1048576 :=
  (zpow_le_zpow_right₀ one_le_two (show -(p : ℤ) ≤ -20 by omega)).trans (by norm_num)

theorem gams {u : ℝ} (h0 : 0 ≤ u) (hu : u ≤ 1 / 1048576) :
    gam u 3 ≤ 3.001 * u ∧ gam u 5 ≤ 5.001 * u ∧ gam u 7 ≤ 7.001 * u ∧ gam u 2 ≤ 2.001 * u := by
  have key : ∀ n : ℕ, n ≤ 7 → gam u n ≤ (n + 0.001) * u := fun n hn => by
    have b := one_add_mul_le_pow (show (-2 : ℝ) ≤ -u by linarith) n
    rw [← sub_eq_add_neg] at b
    have n7 : (n : ℝ) ≤ 7 := by exact_mod_cast hn
    have nu : (n : ℝ) * u ≤ 7 * u := mul_le_mul_of_nonneg_right n7 h0
    have n0 : (0 : ℝ) ≤ n := Nat.cast_nonneg n
    have q : 0 < 1 + (n : ℝ) * -u := by linarith
    unfold gam
    have h1 : ((1 - u) ^ n)⁻¹ ≤ (1 + (n : ℝ) * -u)⁻¹ := inv_anti₀ q b
    have h2 : (1 + (n : ℝ) * -u)⁻¹ ≤ 1 + (n + 0.001) * u := by
      rw [inv_le_iff_one_le_mul₀ q]
      have e : (1 + (n + 0.001) * u) * (1 + n * -u) = 1 + 0.001 * u - ((n + 0.001) * u) * (n * u) := by ring
      rw [e]
      have m1 : (n + 0.001) * u ≤ 7.001 * u := mul_le_mul_of_nonneg_right (by linarith) h0
      have m2 : n * u ≤ 7 / 1048576 := by linarith
      have m3 := mul_le_mul m1 m2 (mul_nonneg n0 h0) (by linarith)
      linarith
    linarith
  refine ⟨?_, ?_, ?_, ?_⟩
  · have := key 3 (by norm_num); norm_num at this ⊢; exact this
  · have := key 5 (by norm_num); norm_num at this ⊢; exact this
  · have := key 7 (by norm_num); norm_num at this ⊢; exact this
  · have := key 2 (by norm_num); norm_num at this ⊢; exact this

theorem cauchy3 (a b c x y z : ℝ) : (a * x + b * y + c * z) ^ 2 ≤ (a ^ 2 + b ^ 2 + c ^ 2) * (x ^ 2 + y ^ 2 + z ^ 2) := by
  nlinarith [sq_nonneg (a * y - b * x), sq_nonneg (a * z - c * x), sq_nonneg (b * z - c * y)]

/-- lengths of nearby vectors -/
theorem len_near {a b c x y z e m : ℝ} (hm : 0 ≤ m) (he : 0 ≤ e) (h : x ^ 2 + y ^ 2 + z ^ 2 = m ^ 2) (ha : |a - x| ≤ e)
    (hb : |b - y| ≤ e) (hc : |c - z| ≤ e) : |√(a ^ 2 + b ^ 2 + c ^ 2) - m| ≤ 1.7321 * e := by
  obtain ⟨f, rfl⟩ : ∃ f, a = x + f := ⟨a - x, by ring⟩
  obtain ⟨g, rfl⟩ : ∃ g, b = y + g := ⟨b - y, by ring⟩
  obtain ⟨k, rfl⟩ : ∃ k, c = z + k := ⟨c - z, by ring⟩
  rw [add_sub_cancel_left] at ha hb hc
  have f2 : f ^ 2 ≤ e ^ 2 := sq_le_sq' (abs_le.1 ha).1 (abs_le.1 ha).2
  have g2 : g ^ 2 ≤ e ^ 2 := sq_le_sq' (abs_le.1 hb).1 (abs_le.1 hb).2
  have k2 : k ^ 2 ≤ e ^ 2 := sq_le_sq' (abs_le.1 hc).1 (abs_le.1 hc).2
  have cs := cauchy3 x y z f g k
  rw [h] at cs
  have E : f ^ 2 + g ^ 2 + k ^ 2 ≤ (1.7321 * e) ^ 2 := by nlinarith [sq_nonneg e]
  have dt : |x * f + y * g + z * k| ≤ m * (1.7321 * e) := by
    apply abs_le_of_sq_le_sq _ (by positivity)
    rw [mul_pow]
    exact cs.trans (mul_le_mul_of_nonneg_left E (sq_nonneg _))
  have S : (x + f) ^ 2 + (y + g) ^ 2 + (z + k) ^ 2 = m ^ 2 + 2 * (x * f + y * g + z * k) + (f ^ 2 + g ^ 2 + k ^ 2) := by
    rw [← h]; ring
  have d := abs_le.1 dt
  set D := x * f + y * g + z * k with hD
  have F0 : 0 ≤ f ^ 2 + g ^ 2 + k ^ 2 := by positivity
  generalize f ^ 2 + g ^ 2 + k ^ 2 = F at *
  rw [S, abs_le]
  constructor
  · have : m - 1.7321 * e ≤ √(m ^ 2 + 2 * D + F) := by
      by_cases hh : m ≤ 1.7321 * e
      · exact (show m - 1.7321 * e ≤ 0 by linarith).trans (Real.sqrt_nonneg _)
      · apply Real.le_sqrt_of_sq_le
        -- with `s = √F`, `D ≥ -m s` and `s ≤ 1.7321 e ≤ m`
        have s0 := Real.sqrt_nonneg F
        have ss := Real.sq_sqrt F0
        have s1 : √F ≤ 1.7321 * e := by rw [Real.sqrt_le_left (by positivity)]; exact E
        have dm : |D| ≤ m * √F := by
          apply abs_le_of_sq_le_sq _ (by positivity)
          rw [mul_pow, ss]; exact cs
        have d' := (abs_le.1 dm).1
        have : (m - 1.7321 * e) ^ 2 ≤ (m - √F) ^ 2 := pow_le_pow_left₀ (by linarith) (by linarith) 2
        nlinarith
    linarith
  · have : √(m ^ 2 + 2 * D + F) ≤ m + 1.7321 * e := by
      rw [Real.sqrt_le_left (by positivity)]
      nlinarith
    linarith

/-- directions of nearby vectors -/
theorem unit_near {a b c x y z e m : ℝ} (hm : 0 < m) (he : 1.7321 * e < m) (he0 : 0 ≤ e) (h : x ^ 2 + y ^ 2 + z ^ 2 = m ^ 2)
    (ha : |a - x| ≤ e) (hb : |b - y| ≤ e) (hc : |c - z| ≤ e) :
    0 < √(a ^ 2 + b ^ 2 + c ^ 2) ∧ |a / √(a ^ 2 + b ^ 2 + c ^ 2) - x / m| ≤ 2.7321 * e / m ∧
    |b / √(a ^ 2 + b ^ 2 + c ^ 2) - y / m| ≤ 2.7321 * e / m ∧ |c / √(a ^ 2 + b ^ 2 + c ^ 2) - z / m| ≤ 2.7321 * e / m := by
  have hl := len_near hm.le he0 h ha hb hc
  have hl' := abs_le.1 hl
  have ss : √(a ^ 2 + b ^ 2 + c ^ 2) ^ 2 = a ^ 2 + b ^ 2 + c ^ 2 := Real.sq_sqrt (by positivity)
  generalize √(a ^ 2 + b ^ 2 + c ^ 2) = s at *
  have s0 : 0 < s := by linarith
  have key : ∀ {v w : ℝ}, |v - w| ≤ e → v ^ 2 ≤ s ^ 2 → |v / s - w / m| ≤ 2.7321 * e / m := fun {v w} hv hs => by
    have hvs : |v| ≤ s := abs_le_of_sq_le_sq hs s0.le
    have e1 : v / s - w / m = ((v - w) + v / s * (m - s)) / m := by field_simp; ring
    rw [e1, abs_div, abs_of_pos hm]
    apply div_le_div_of_nonneg_right _ hm.le
    have : |v / s * (m - s)| ≤ 1 * (1.7321 * e) := by
      rw [abs_mul]
      apply mul_le_mul _ (by rw [abs_sub_comm]; exact hl) (abs_nonneg _) zero_le_one
      rw [abs_div, abs_of_pos s0, div_le_one s0]; exact hvs
    have := abs_add_le (v - w) (v / s * (m - s))
    linarith
  refine ⟨s0, key ha ?_, key hb ?_, key hc ?_⟩ <;> rw [ss] <;> nlinarith [sq_nonneg a, sq_nonneg b, sq_nonneg c]

/-- how much the arc sine can magnify an error -/
theorem arcsin_near {x y : ℝ} (hx : |x| ≤ 1) (hy : |y| ≤ 1) :
    |Real.arcsin x - Real.arcsin y| ≤ Real.pi * √(|x - y| / 2) ∧
    (∀ c, 0 < c → c ≤ Real.cos ((Real.arcsin x + Real.arcsin y) / 2) → |Real.arcsin x - Real.arcsin y| ≤ Real.pi / (2 * c) * |x - y|) := by
  obtain ⟨x1, x2⟩ := abs_le.1 hx
  obtain ⟨y1, y2⟩ := abs_le.1 hy
  have sx := Real.sin_arcsin x1 x2
  have sy := Real.sin_arcsin y1 y2
  have ax1 := Real.neg_pi_div_two_le_arcsin x
  have ax2 := Real.arcsin_le_pi_div_two x
  have ay1 := Real.neg_pi_div_two_le_arcsin y
  have ay2 := Real.arcsin_le_pi_div_two y
  generalize Real.arcsin x = a at *
  generalize Real.arcsin y = b at *
  have pp := Real.pi_pos
  have diff : |x - y| = 2 * (|Real.sin (|a - b| / 2)| * |Real.cos ((a + b) / 2)|) := by
    rw [← sx, ← sy, Real.sin_sub_sin, abs_mul, abs_mul, abs_two, mul_assoc]
    congr 2
    rcases abs_cases (a - b) with ⟨h, -⟩ | ⟨h, -⟩ <;> rw [h]
    rw [neg_div, Real.sin_neg, abs_neg]
  have dl : |a - b| ≤ Real.pi := by rw [abs_le]; constructor <;> linarith
  have d0 := abs_nonneg (a - b)
  have s1 : 2 / Real.pi * (|a - b| / 2) ≤ Real.sin (|a - b| / 2) := Real.mul_le_sin (by linarith) (by linarith)
  have s0 : 0 ≤ Real.sin (|a - b| / 2) := le_trans (by positivity) s1
  rw [abs_of_nonneg s0] at diff
  have e1 : 2 / Real.pi * (|a - b| / 2) = |a - b| / Real.pi := by field_simp
  rw [e1] at s1
  constructor
  · have hc : Real.sin (|a - b| / 2) ≤ |Real.cos ((a + b) / 2)| := by
      have h1 : |(a + b) / 2| ≤ Real.pi / 2 - |a - b| / 2 := by
        rw [abs_le]
        rcases abs_cases (a - b) with ⟨h, -⟩ | ⟨h, -⟩ <;> rw [h] <;> constructor <;> linarith
      have h2 : Real.cos (Real.pi / 2 - |a - b| / 2) ≤ Real.cos |(a + b) / 2| :=
        Real.cos_le_cos_of_nonneg_of_le_pi (abs_nonneg _) (by linarith) h1
      rw [Real.cos_pi_div_two_sub, Real.cos_abs] at h2
      exact h2.trans (le_abs_self _)
    have q : (|a - b| / Real.pi) ^ 2 ≤ |x - y| / 2 := by
      rw [diff]
      have := mul_le_mul s1 (s1.trans hc) (by positivity) s0
      rw [sq]; linarith
    have := Real.le_sqrt_of_sq_le q
    rw [div_le_iff₀ pp] at this
    linarith
  · intro c c0 hc
    have q : |a - b| / Real.pi * c ≤ |x - y| / 2 := by
      rw [diff]
      have := mul_le_mul s1 (hc.trans (le_abs_self _)) c0.le s0
      linarith
    rw [div_mul_eq_mul_div, le_div_iff₀ (by positivity)]
    rw [div_mul_eq_mul_div, div_le_iff₀ pp] at q
    linarith

/-- a component of the axis: the quotient of a difference of products and the product of the lengths -/
theorem axis_comp (hp : 20 ≤ p) {C D c Z : ℝ} (hZ : 0 < Z) (hC : |C - Z * c| ≤ 2.001 * ((2 : ℝ) ^ (-(p : ℤ)) * Z))
    (hD : |D - Z| ≤ 7.001 * ((2 : ℝ) ^ (-(p : ℤ)) * Z)) (hc : |c| ≤ 1) : |rne p (C / D) - c| ≤ 10.01 * (2 : ℝ) ^ (-(p : ℤ)) := by
  have hr := isRel_rne p (show 1 ≤ p by omega)
  have u0 := hr.nonneg
  have hu := u20 hp
  have e := hr.err (C / D)
  generalize rne p (C / D) = n at *
  generalize (2 : ℝ) ^ (-(p : ℤ)) = u at *
  have uZ := mul_le_mul_of_nonneg_right hu hZ.le
  have D1 := abs_le.1 hD
  have D0 : (1 - 7.001 * u) * Z ≤ D := by linarith
  have h1 : (0.9999 : ℝ) ≤ 1 - 7.001 * u := by linarith
  have Dp : 0 < D := lt_of_lt_of_le (by nlinarith) D0
  have h2 : |C / D - c| ≤ 9.003 * u := by
    rw [show C / D - c = (C - Z * c - c * (D - Z)) / D by field_simp; ring, abs_div, abs_of_pos Dp, div_le_iff₀ Dp]
    have h3 := abs_sub (C - Z * c) (c * (D - Z))
    have h4 : |c * (D - Z)| ≤ 1 * (7.001 * (u * Z)) := by rw [abs_mul]; exact mul_le_mul hc hD (abs_nonneg _) zero_le_one
    have h5 := mul_le_mul_of_nonneg_left D0 (show 0 ≤ 9.003 * u by linarith)
    have h6 : 9.003 * u * ((1 - 7.001 * u) * Z) = 9.003 * (u * Z) - 9.003 * 7.001 * (u * (u * Z)) := by ring
    have h7 := mul_le_mul_of_nonneg_right hu (mul_nonneg u0 hZ.le)
    have := mul_nonneg u0 hZ.le
    linarith
  have h3 : |C / D| ≤ 1 + 9.003 * u := by have := abs_sub_abs_le_abs_sub (C / D) c; linarith
  have h4 := e.trans (mul_le_mul_of_nonneg_left h3 u0)
  have h5 := abs_sub_le n (C / D) c
  have h6 : u * (9.003 * u) ≤ 1 / 1048576 * (9.003 * u) := mul_le_mul_of_nonneg_right hu (by linarith)
  linarith

/-- turning by nearly the same angle -/
theorem turn_near {a b θ φ : ℝ} (h : a ^ 2 + b ^ 2 ≤ 1) :
    |(a * Real.cos θ + b * Real.sin θ) - (a * Real.cos φ + b * Real.sin φ)| ≤ |θ - φ| := by
  have e : (a * Real.cos θ + b * Real.sin θ) - (a * Real.cos φ + b * Real.sin φ) =
      2 * Real.sin ((θ - φ) / 2) * (b * Real.cos ((θ + φ) / 2) - a * Real.sin ((θ + φ) / 2)) := by
    have h1 := Real.cos_sub_cos θ φ
    have h2 := Real.sin_sub_sin θ φ
    linear_combination a * h1 + b * h2
  have h1 : |b * Real.cos ((θ + φ) / 2) - a * Real.sin ((θ + φ) / 2)| ≤ 1 := by
    apply abs_le_of_sq_le_sq _ zero_le_one
    have := Real.sin_sq_add_cos_sq ((θ + φ) / 2)
    generalize Real.sin ((θ + φ) / 2) = s at *
    generalize Real.cos ((θ + φ) / 2) = c at *
    have : (b * c - a * s) ^ 2 + (a * c + b * s) ^ 2 = (a ^ 2 + b ^ 2) * (s ^ 2 + c ^ 2) := by ring
    nlinarith [sq_nonneg (a * c + b * s)]
  have h2 : |Real.sin ((θ - φ) / 2)| ≤ |(θ - φ) / 2| := Real.abs_sin_le_abs
  rw [e, abs_mul, abs_mul, abs_two]
  rw [abs_div, abs_two] at h2
  have := mul_le_mul h2 h1 (abs_nonneg _) (by positivity)
  linarith


theorem unit_bounds {d : Vec3 ℝ} (hd : d.IsUnit) : |d.x| ≤ 1 ∧ |d.y| ≤ 1 ∧ |d.z| ≤ 1 ∧ |d.x| + |d.y| + |d.z| ≤ 1.7321 := by
  have h : d.x ^ 2 + d.y ^ 2 + d.z ^ 2 = 1 := hd
  have q1 := sq_nonneg d.x
  have q2 := sq_nonneg d.y
  have q3 := sq_nonneg d.z
  have b : ∀ {a : ℝ}, a ^ 2 ≤ 1 → |a| ≤ 1 := fun h => by rw [abs_le]; constructor <;> nlinarith
  refine ⟨b (by linarith), b (by linarith), b (by linarith), ?_⟩
  have := cauchy3 |d.x| |d.y| |d.z| 1 1 1
  simp only [sq_abs, h] at this
  nlinarith [abs_nonneg d.x, abs_nonneg d.y, abs_nonneg d.z]

/-- half of the cross product of unit vectors, in absolute values -/
theorem cross_abs {a b x y : ℝ} (h1 : a ^ 2 + b ^ 2 ≤ 1) (h2 : x ^ 2 + y ^ 2 ≤ 1) : |a * y| + |b * x| ≤ 1 := by
  rw [abs_mul, abs_mul]
  rw [← sq_abs a, ← sq_abs b] at h1
  rw [← sq_abs x, ← sq_abs y] at h2
  generalize |a| = a at *
  generalize |b| = b at *
  generalize |x| = x at *
  generalize |y| = y at *
  nlinarith [sq_nonneg (a - y), sq_nonneg (b - x)]

theorem vlen (hp : 20 ≤ p) {d : Vec3 ℝ} (hd : d.IsUnit) {P : ℝ} (hP : 0 < P) :
    Rel ((2 : ℝ) ^ (-(p : ℤ))) 3 P (Vec3.num (d * P) : Vec3 (Fl ℝ (rne p))).length := by
  have hr := isRel_rne p (show 1 ≤ p by omega)
  have := Vec3.rel_length hr (d * P)
  have e : (d * P).length = P := Vec3.length_mul hd hP.le
  rwa [show √((d * P).x * (d * P).x + (d * P).y * (d * P).y + (d * P).z * (d * P).z) = P from e] at this

/-- the axis that the code computes -/
theorem axis (hp : 20 ≤ p) {d e : Vec3 ℝ} (hd : d.IsUnit) (he : e.IsUnit) {P Q : ℝ} (hP : 0 < P) (hQ : 0 < Q) :
    ∃ n : Vec3 ℝ, ((Vec3.num (d * P) : Vec3 (Fl ℝ (rne p))).cross (Vec3.num (e * Q))).div
        ((Vec3.num (d * P) : Vec3 (Fl ℝ (rne p))).length * (Vec3.num (e * Q) : Vec3 (Fl ℝ (rne p))).length) = .ok (Vec3.num n) ∧
      |n.x - (d.cross e).x| ≤ 10.01 * (2 : ℝ) ^ (-(p : ℤ)) ∧ |n.y - (d.cross e).y| ≤ 10.01 * (2 : ℝ) ^ (-(p : ℤ)) ∧
      |n.z - (d.cross e).z| ≤ 10.01 * (2 : ℝ) ^ (-(p : ℤ)) := by
  have hr := isRel_rne p (show 1 ≤ p by omega)
  have u0 := hr.nonneg
  have hu := u20 hp
  obtain ⟨-, -, g7, g2⟩ := gams u0 hu
  obtain ⟨D, eD, hD⟩ := (Rel.mul hr (vlen hp hd hP) (vlen hp he hQ) (k := 7)).error hr
  have Z0 : 0 < P * Q := mul_pos hP hQ
  rw [abs_of_pos Z0] at hD
  have hD' : |D - P * Q| ≤ 7.001 * ((2 : ℝ) ^ (-(p : ℤ)) * (P * Q)) := by
    have := mul_le_mul_of_nonneg_right g7 Z0.le; linarith
  have hdu : d.x ^ 2 + d.y ^ 2 + d.z ^ 2 = 1 := hd
  have heu : e.x ^ 2 + e.y ^ 2 + e.z ^ 2 = 1 := he
  have comp : ∀ {a b x y : ℝ}, a ^ 2 + b ^ 2 ≤ 1 → x ^ 2 + y ^ 2 ≤ 1 → ∃ C,
      (.num (a * P) * .num (y * Q) - .num (b * P) * .num (x * Q) : Fl ℝ (rne p)) = .num C ∧
      |rne p (C / D) - (a * y - b * x)| ≤ 10.01 * (2 : ℝ) ^ (-(p : ℤ)) := by
    intro a b x y h1 h2
    have k := cross_abs h1 h2
    obtain ⟨-, C, eC, hC⟩ := AbsErr.sub hr (AbsErr.mul hr (AbsErr.exact hr (a * P)) (AbsErr.exact hr (y * Q)) (k := 1))
      (AbsErr.mul hr (AbsErr.exact hr (b * P)) (AbsErr.exact hr (x * Q)) (k := 1)) (k := 2)
    refine ⟨C, eC, axis_comp hp Z0 ?_ hD' ?_⟩
    · have e1 : |a * P| * |y * Q| + |b * P| * |x * Q| = P * Q * (|a * y| + |b * x|) := by
        simp only [abs_mul, abs_of_pos hP, abs_of_pos hQ]; ring
      rw [e1, show a * P * (y * Q) - b * P * (x * Q) = P * Q * (a * y - b * x) by ring] at hC
      have k1 : P * Q * (|a * y| + |b * x|) ≤ P * Q * 1 := mul_le_mul_of_nonneg_left k Z0.le
      have k2 := mul_le_mul g2 k1 (mul_nonneg Z0.le (by positivity)) (by linarith)
      linarith
    · have := abs_sub (a * y) (b * x)
      linarith
  obtain ⟨C1, e1, h1⟩ := comp (a := d.y) (b := d.z) (x := e.y) (y := e.z) (by nlinarith [sq_nonneg d.x]) (by nlinarith [sq_nonneg e.x])
  obtain ⟨C2, e2, h2⟩ := comp (a := d.z) (b := d.x) (x := e.z) (y := e.x) (by nlinarith [sq_nonneg d.y]) (by nlinarith [sq_nonneg e.y])
  obtain ⟨C3, e3, h3⟩ := comp (a := d.x) (b := d.y) (x := e.x) (y := e.y) (by nlinarith [sq_nonneg d.z]) (by nlinarith [sq_nonneg e.z])
  have Dp : D ≠ 0 := by
    have h1 := abs_le.1 hD'
    have h2 := mul_le_mul_of_nonneg_right hu Z0.le
    intro h; rw [h] at h1; linarith
  refine ⟨⟨rne p (C1 / D), rne p (C2 / D), rne p (C3 / D)⟩, ?_, h1, h2, h3⟩
  rw [eD]
  have b : (Fl.num D == (0 : Fl ℝ (rne p))) = false := by rw [Fl.zero_def, Fl.num_beq]; simpa using Dp
  have ec : (Vec3.num (d * P) : Vec3 (Fl ℝ (rne p))).cross (Vec3.num (e * Q)) = ⟨.num C1, .num C2, .num C3⟩ := by
    unfold Vec3.cross
    exact congr (congr (congrArg _ e1) e2) e3
  rw [ec]
  unfold Vec3.div
  rw [b, if_neg (by decide)]
  simp only [Fl.num_div, if_neg Dp]
  rfl

/-- the sine that the code computes is about the length of the axis -/
theorem sine (hp : 20 ≤ p) (n : Vec3 ℝ) : ∃ s : ℝ,
    (Vec3.num n : Vec3 (Fl ℝ (rne p))).dot ((Vec3.num n : Vec3 (Fl ℝ (rne p))).normalized 1) = .num s ∧
    |s - √(n.x ^ 2 + n.y ^ 2 + n.z ^ 2)| ≤ 8.01 * ((2 : ℝ) ^ (-(p : ℤ)) * √(n.x ^ 2 + n.y ^ 2 + n.z ^ 2)) := by
  have hr := isRel_rne p (show 1 ≤ p by omega)
  have u0 := hr.nonneg
  have hu := u20 hp
  obtain ⟨g3, g5, -, -⟩ := gams u0 hu
  by_cases hn : n = ⟨0, 0, 0⟩
  · subst hn
    have h0 := (C119_null hr ⟨0, 0⟩ (⟨0, 0, 0⟩ : Vec3 ℝ)).2
    rw [decide_eq_true rfl] at h0
    have e : (Vec3.num (⟨0, 0, 0⟩ : Vec3 ℝ) : Vec3 (Fl ℝ (rne p))).normalized 1 = ⟨.num 0, .num 0, .num 0⟩ := by
      unfold Vec3.normalized
      simp only [h0, if_true]
      rfl
    refine ⟨0, ?_, by simp⟩
    rw [e]
    simp [Vec3.dot, Vec3.num, rne_zero]
  · obtain ⟨w, ew, -, ⟨hx, hy, hz⟩, -, -⟩ := C119_normalized3 hr n hn 1
    rw [← Fl.one_def] at ew
    rw [ew]
    have l0 : 0 < √(n.x ^ 2 + n.y ^ 2 + n.z ^ 2) := by
      apply Real.sqrt_pos.2
      by_contra h
      have q1 := sq_nonneg n.x
      have q2 := sq_nonneg n.y
      have q3 := sq_nonneg n.z
      apply hn
      have e1 : n.x = 0 := pow_eq_zero_iff (two_ne_zero) |>.1 (by linarith)
      have e2 : n.y = 0 := pow_eq_zero_iff (two_ne_zero) |>.1 (by linarith)
      have e3 : n.z = 0 := pow_eq_zero_iff (two_ne_zero) |>.1 (by linarith)
      ext <;> assumption
    have ss : √(n.x ^ 2 + n.y ^ 2 + n.z ^ 2) ^ 2 = n.x ^ 2 + n.y ^ 2 + n.z ^ 2 := Real.sq_sqrt (by positivity)
    obtain ⟨-, s, es, hs⟩ := abs_sum3 hr n.x w.x n.y w.y n.z w.z
    refine ⟨s, es, ?_⟩
    generalize √(n.x ^ 2 + n.y ^ 2 + n.z ^ 2) = l at *
    generalize (2 : ℝ) ^ (-(p : ℤ)) = u at *
    have key : ∀ {a b : ℝ}, |b - a * (1 / l)| ≤ gam u 5 * |a * (1 / l)| → |a * b - a ^ 2 / l| ≤ 5.001 * u * (a ^ 2 / l) := by
      intro a b h
      have h' := h.trans (mul_le_mul_of_nonneg_right g5 (abs_nonneg _))
      have e1 : a * b - a ^ 2 / l = a * (b - a * (1 / l)) := by field_simp
      have e2 : a ^ 2 / l = |a| * |a * (1 / l)| := by
        rw [abs_mul, abs_of_pos (show 0 < 1 / l by positivity), ← mul_assoc, ← sq, sq_abs]; field_simp
      rw [e1, abs_mul]
      have := mul_le_mul_of_nonneg_left h' (abs_nonneg a)
      rw [e2]
      linarith
    have kx := key hx
    have ky := key hy
    have kz := key hz
    have sum : n.x ^ 2 / l + n.y ^ 2 / l + n.z ^ 2 / l = l := by
      rw [← add_div, ← add_div, ← ss, sq, mul_div_cancel_right₀ _ l0.ne']
    have px : 0 ≤ n.x ^ 2 / l := by positivity
    have py : 0 ≤ n.y ^ 2 / l := by positivity
    have pz : 0 ≤ n.z ^ 2 / l := by positivity
    have t1 := abs_add_three (n.x * w.x - n.x ^ 2 / l) (n.y * w.y - n.y ^ 2 / l) (n.z * w.z - n.z ^ 2 / l)
    have ab : ∀ {a b : ℝ}, 0 ≤ b → |a - b| ≤ 5.001 * u * b → |a| ≤ b + 5.001 * u * b := fun {a b} hb h => by
      have := abs_sub_abs_le_abs_sub a b
      rw [abs_of_nonneg hb] at this
      linarith
    have ax := ab px kx
    have ay := ab py ky
    have az := ab pz kz
    have e1 : n.x * w.x - n.x ^ 2 / l + (n.y * w.y - n.y ^ 2 / l) + (n.z * w.z - n.z ^ 2 / l) =
        n.x * w.x + n.y * w.y + n.z * w.z - l := by linear_combination -sum
    rw [e1] at t1
    generalize n.x ^ 2 / l = X at *
    generalize n.y ^ 2 / l = Y at *
    generalize n.z ^ 2 / l = Z at *
    have tot : |n.x * w.x| + |n.y * w.y| + |n.z * w.z| ≤ l + 5.001 * u * l := by
      rw [← sum]; linarith
    have t1' : |n.x * w.x + n.y * w.y + n.z * w.z - l| ≤ 5.001 * u * l := by
      have : 5.001 * u * l = 5.001 * u * X + 5.001 * u * Y + 5.001 * u * Z := by rw [← sum]; ring
      linarith
    have t2 := hs.trans (mul_le_mul g3 tot (by positivity) (by linarith))
    have t3 := abs_sub_le s (n.x * w.x + n.y * w.y + n.z * w.z) l
    have t4 : 3.001 * u * (5.001 * u * l) ≤ 3.001 * (1 / 1048576) * (5.001 * u * l) :=
      mul_le_mul_of_nonneg_right (by linarith) (mul_nonneg (by linarith) l0.le)
    have := mul_nonneg u0 l0.le
    linarith


theorem norm_comp {v : Vec3 ℝ} {l : ℝ} (hl : l = √(v.x ^ 2 + v.y ^ 2 + v.z ^ 2)) (h : 0 < l) :
    v.normalized 1 = ⟨v.x / l, v.y / l, v.z / l⟩ := by
  have e : v.length = l := by
    rw [hl]
    show √(v.x * v.x + v.y * v.y + v.z * v.z) = _
    simp only [sq]
  unfold Vec3.normalized
  rw [e]
  have : (l == 0) = false := by simpa using h.ne'
  simp only [this]
  ext <;> simp [div_eq_mul_inv]

theorem abs_sin_le_self {θ : ℝ} (hθ : 0 ≤ θ) : |Real.sin θ| ≤ θ := by
  have := Real.abs_sin_le_abs (x := θ)
  rwa [abs_of_nonneg hθ] at this

theorem one_sub_cos {θ : ℝ} (hθ : 0 ≤ θ) : |1 - Real.cos θ| ≤ θ := by
  have e : 1 - Real.cos θ = 2 * Real.sin (θ / 2) ^ 2 := by
    have := Real.cos_two_mul (θ / 2)
    rw [show 2 * (θ / 2) = θ by ring] at this
    linear_combination -this - 2 * Real.sin_sq_add_cos_sq (θ / 2)
  have h := abs_sin_le_self (show 0 ≤ θ / 2 by linarith)
  have h1 := Real.abs_sin_le_one (θ / 2)
  rw [e, abs_mul, abs_pow, abs_two, sq]
  have := mul_le_mul h h1 (abs_nonneg _) (by linarith)
  linarith

/-- turning around nearly the same axis a vector perpendicular to one of them -/
theorem rodr_near {b ν d : Vec3 ℝ} (hd : d.IsUnit) (hbx : |b.x| ≤ 1) (hby : |b.y| ≤ 1) (hbz : |b.z| ≤ 1) (h0 : ν.dot d = 0)
    {η : ℝ} (hη : 0 ≤ η) (hx : |b.x - ν.x| ≤ η) (hy : |b.y - ν.y| ≤ η) (hz : |b.z - ν.z| ≤ η) {θ : ℝ} (hθ : 0 ≤ θ) :
    |(rodrigues b θ d).x - (rodrigues ν θ d).x| ≤ 3.7321 * η * θ ∧ |(rodrigues b θ d).y - (rodrigues ν θ d).y| ≤ 3.7321 * η * θ ∧
    |(rodrigues b θ d).z - (rodrigues ν θ d).z| ≤ 3.7321 * η * θ := by
  obtain ⟨d1, d2, d3, ds⟩ := unit_bounds hd
  have hs := abs_sin_le_self hθ
  have hc := one_sub_cos hθ
  have hdot : |b.dot d| ≤ 1.7321 * η := by
    have e : b.dot d = (b.x - ν.x) * d.x + (b.y - ν.y) * d.y + (b.z - ν.z) * d.z := by
      rw [← sub_zero (b.dot d), ← h0]; simp only [Vec3.dot]; ring
    rw [e]
    have t := abs_add_three ((b.x - ν.x) * d.x) ((b.y - ν.y) * d.y) ((b.z - ν.z) * d.z)
    simp only [abs_mul] at t
    have q1 := mul_le_mul_of_nonneg_right hx (abs_nonneg d.x)
    have q2 := mul_le_mul_of_nonneg_right hy (abs_nonneg d.y)
    have q3 := mul_le_mul_of_nonneg_right hz (abs_nonneg d.z)
    have q4 := mul_le_mul_of_nonneg_left ds hη
    linarith
  have key : ∀ {β y z p q : ℝ}, |β| ≤ 1 → |y| ≤ η → |z| ≤ η → |p| ≤ 1 → |q| ≤ 1 →
      |(y * p - z * q) * Real.sin θ + β * (b.dot d * (1 - Real.cos θ))| ≤ 3.7321 * η * θ := by
    intro β y z p q hβ hy hz hp hq
    have a1 : |y * p| ≤ η * 1 := by rw [abs_mul]; exact mul_le_mul hy hp (abs_nonneg _) hη
    have a2 : |z * q| ≤ η * 1 := by rw [abs_mul]; exact mul_le_mul hz hq (abs_nonneg _) hη
    have a3 := abs_sub (y * p) (z * q)
    have a4 : |(y * p - z * q) * Real.sin θ| ≤ (2 * η) * θ := by
      rw [abs_mul]; exact mul_le_mul (by linarith) hs (abs_nonneg _) (by linarith)
    have a5 : |b.dot d * (1 - Real.cos θ)| ≤ 1.7321 * η * θ := by
      rw [abs_mul]; exact mul_le_mul hdot hc (abs_nonneg _) (by positivity)
    have a6 : |β * (b.dot d * (1 - Real.cos θ))| ≤ 1 * (1.7321 * η * θ) := by
      rw [abs_mul]; exact mul_le_mul hβ a5 (abs_nonneg _) zero_le_one
    have := abs_add_le ((y * p - z * q) * Real.sin θ) (β * (b.dot d * (1 - Real.cos θ)))
    linarith
  have h0' : ν.x * d.x + ν.y * d.y + ν.z * d.z = 0 := h0
  have ex : (rodrigues b θ d).x - (rodrigues ν θ d).x = ((b.y - ν.y) * d.z - (b.z - ν.z) * d.y) * Real.sin θ +
      b.x * (b.dot d * (1 - Real.cos θ)) := by
    simp only [rodrigues, Vec3.cross, Vec3.dot, Vec3.add_x, Vec3.mul_x]
    linear_combination (-ν.x * (1 - Real.cos θ)) * h0'
  have ey : (rodrigues b θ d).y - (rodrigues ν θ d).y = ((b.z - ν.z) * d.x - (b.x - ν.x) * d.z) * Real.sin θ +
      b.y * (b.dot d * (1 - Real.cos θ)) := by
    simp only [rodrigues, Vec3.cross, Vec3.dot, Vec3.add_y, Vec3.mul_y]
    linear_combination (-ν.y * (1 - Real.cos θ)) * h0'
  have ez : (rodrigues b θ d).z - (rodrigues ν θ d).z = ((b.x - ν.x) * d.y - (b.y - ν.y) * d.x) * Real.sin θ +
      b.z * (b.dot d * (1 - Real.cos θ)) := by
    simp only [rodrigues, Vec3.cross, Vec3.dot, Vec3.add_z, Vec3.mul_z]
    linear_combination (-ν.z * (1 - Real.cos θ)) * h0'
  rw [ex, ey, ez]
  exact ⟨key hbx hy hz d3 d2, key hby hz hx d1 d3, key hbz hx hy d2 d1⟩

/-- a turn by a small angle moves a unit vector little -/
theorem rodr_small {b d : Vec3 ℝ} (hb : b.IsUnit) (hd : d.IsUnit) {θ : ℝ} (hθ : 0 ≤ θ) :
    |(rodrigues b θ d).x - d.x| ≤ 3 * θ ∧ |(rodrigues b θ d).y - d.y| ≤ 3 * θ ∧ |(rodrigues b θ d).z - d.z| ≤ 3 * θ := by
  have hs := abs_sin_le_self hθ
  have hc := one_sub_cos hθ
  have b0 : b.x ^ 2 + b.y ^ 2 + b.z ^ 2 = 1 := hb
  have d0 : d.x ^ 2 + d.y ^ 2 + d.z ^ 2 = 1 := hd
  obtain ⟨d1, d2, d3, -⟩ := unit_bounds hd
  obtain ⟨b1, b2, b3, -⟩ := unit_bounds hb
  have hdot : |b.dot d| ≤ 1 := by
    rw [← sq_le_one_iff_abs_le_one]
    have e : b.dot d ^ 2 = (b.x ^ 2 + b.y ^ 2 + b.z ^ 2) * (d.x ^ 2 + d.y ^ 2 + d.z ^ 2) - ((b.cross d).x ^ 2 + (b.cross d).y ^ 2 + (b.cross d).z ^ 2) := by
      simp only [Vec3.cross, Vec3.dot]; ring
    rw [e, b0, d0]
    nlinarith [sq_nonneg (b.cross d).x, sq_nonneg (b.cross d).y, sq_nonneg (b.cross d).z]
  have key : ∀ {β δ y z p q : ℝ}, |β| ≤ 1 → |δ| ≤ 1 → y ^ 2 + z ^ 2 ≤ 1 → q ^ 2 + p ^ 2 ≤ 1 →
      |-(δ * (1 - Real.cos θ)) + (y * p - z * q) * Real.sin θ + β * (b.dot d * (1 - Real.cos θ))| ≤ 3 * θ := by
    intro β δ y z p q hβ hδ h1 h2
    have a3 := (abs_sub (y * p) (z * q)).trans (cross_abs h1 h2)
    have a4 : |(y * p - z * q) * Real.sin θ| ≤ 1 * θ := by
      rw [abs_mul]; exact mul_le_mul a3 hs (abs_nonneg _) zero_le_one
    have a5 : |b.dot d * (1 - Real.cos θ)| ≤ 1 * θ := by
      rw [abs_mul]; exact mul_le_mul hdot hc (abs_nonneg _) zero_le_one
    have a6 : |β * (b.dot d * (1 - Real.cos θ))| ≤ 1 * (1 * θ) := by
      rw [abs_mul]; exact mul_le_mul hβ a5 (abs_nonneg _) zero_le_one
    have a7 : |-(δ * (1 - Real.cos θ))| ≤ 1 * θ := by
      rw [abs_neg, abs_mul]; exact mul_le_mul hδ hc (abs_nonneg _) zero_le_one
    have := abs_add_three (-(δ * (1 - Real.cos θ))) ((y * p - z * q) * Real.sin θ) (β * (b.dot d * (1 - Real.cos θ)))
    linarith
  have qb := sq_nonneg b.x
  have qb2 := sq_nonneg b.y
  have qb3 := sq_nonneg b.z
  have qd := sq_nonneg d.x
  have qd2 := sq_nonneg d.y
  have qd3 := sq_nonneg d.z
  have kx := key (y := b.y) (z := b.z) (p := d.z) (q := d.y) b1 d1 (by linarith) (by linarith)
  have ky := key (y := b.z) (z := b.x) (p := d.x) (q := d.z) b2 d2 (by linarith) (by linarith)
  have kz := key (y := b.x) (z := b.y) (p := d.y) (q := d.x) b3 d3 (by linarith) (by linarith)
  refine ⟨?_, ?_, ?_⟩
  · refine le_of_eq_of_le (congrArg abs ?_) kx
    simp only [rodrigues, Vec3.cross, Vec3.add_x, Vec3.mul_x]; ring
  · refine le_of_eq_of_le (congrArg abs ?_) ky
    simp only [rodrigues, Vec3.cross, Vec3.add_y, Vec3.mul_y]; ring
  · refine le_of_eq_of_le (congrArg abs ?_) kz
    simp only [rodrigues, Vec3.cross, Vec3.add_z, Vec3.mul_z]; ring

/-- a coordinate of a transformed vector -/
theorem row (hp : 20 ≤ p) {d : Vec3 ℝ} (hd : d.IsUnit) {P A B C : ℝ} (hP : 0 < P) {x y z : Fl ℝ (rne p)}
    (hx : x.Within (80 * (2 : ℝ) ^ (-(p : ℤ))) A) (hy : y.Within (80 * (2 : ℝ) ^ (-(p : ℤ))) B)
    (hz : z.Within (80 * (2 : ℝ) ^ (-(p : ℤ))) C) (hA : |A| ≤ 1) (hB : |B| ≤ 1) (hC : |C| ≤ 1) :
    (.num (d.x * P) * x + .num (d.y * P) * y + .num (d.z * P) * z : Fl ℝ (rne p)).Within (144 * ((2 : ℝ) ^ (-(p : ℤ)) * P))
      (d.x * P * A + d.y * P * B + d.z * P * C) := by
  have hr := isRel_rne p (show 1 ≤ p by omega)
  have u0 := hr.nonneg
  have hu := u20 hp
  obtain ⟨g3, -, -, -⟩ := gams u0 hu
  obtain ⟨x, rfl, hx⟩ := hx
  obtain ⟨y, rfl, hy⟩ := hy
  obtain ⟨z, rfl, hz⟩ := hz
  obtain ⟨-, v, e, h⟩ := abs_sum3 hr (d.x * P) x (d.y * P) y (d.z * P) z
  obtain ⟨-, -, -, ds⟩ := unit_bounds hd
  refine ⟨v, e, ?_⟩
  generalize (2 : ℝ) ^ (-(p : ℤ)) = u at *
  have one : ∀ {f X Y : ℝ}, |X - Y| ≤ 80 * u → |Y| ≤ 1 → |f * P * X| ≤ |f| * P * 1.0001 ∧ |f * P * X - f * P * Y| ≤ |f| * P * (80 * u) := by
    intro f X Y h1 h2
    have h3 : |X| ≤ 1.0001 := by have := abs_sub_abs_le_abs_sub X Y; linarith
    rw [← mul_sub, abs_mul, abs_mul (f * P), abs_mul f P, abs_of_pos hP]
    exact ⟨mul_le_mul_of_nonneg_left h3 (by positivity), mul_le_mul_of_nonneg_left h1 (by positivity)⟩
  obtain ⟨x1, x2⟩ := one (f := d.x) hx hA
  obtain ⟨y1, y2⟩ := one (f := d.y) hy hB
  obtain ⟨z1, z2⟩ := one (f := d.z) hz hC
  have dP := mul_le_mul_of_nonneg_right ds hP.le
  have t1 : |d.x * P * x| + |d.y * P * y| + |d.z * P * z| ≤ 1.7321 * P * 1.0001 := by linarith
  have t2 := h.trans (mul_le_mul g3 t1 (by positivity) (by linarith))
  have t3 := abs_add_three (d.x * P * x - d.x * P * A) (d.y * P * y - d.y * P * B) (d.z * P * z - d.z * P * C)
  rw [show d.x * P * x - d.x * P * A + (d.y * P * y - d.y * P * B) + (d.z * P * z - d.z * P * C) =
    d.x * P * x + d.y * P * y + d.z * P * z - (d.x * P * A + d.y * P * B + d.z * P * C) by ring] at t3
  have t4 := abs_sub_le v (d.x * P * x + d.y * P * y + d.z * P * z) (d.x * P * A + d.y * P * B + d.z * P * C)
  have t5 : (|d.x| + |d.y| + |d.z|) * P * (80 * u) ≤ 1.7321 * P * (80 * u) := mul_le_mul_of_nonneg_right dP (by linarith)
  have := mul_nonneg u0 hP.le
  linarith

theorem entry_one {X : Matrix (Fin 3) (Fin 3) ℝ} (h : IsRotation X) (i j : Fin 3) : |X i j| ≤ 1 := by
  have e := congrFun (congrFun h.1 j) j
  simp only [Matrix.mul_apply, Matrix.transpose_apply, Matrix.one_apply_eq] at e
  rw [← sq_le_one_iff_abs_le_one, sq, ← e]
  exact Finset.single_le_sum (f := fun k => X k j * X k j) (fun k _ => mul_self_nonneg _) (Finset.mem_univ i)

/-- the vector turned by the quaternion for an axis and an angle -/
theorem rotated (hp : 20 ≤ p) {d n : Vec3 ℝ} (hd : d.IsUnit) (hn : n ≠ ⟨0, 0, 0⟩) {P θ : ℝ} (hP : 0 < P) (hθ : Rep p θ) :
    ∃ v : Vec3 ℝ, (Quat.ofAxisAngle (Vec3.num n : Vec3 (Fl ℝ (rne p))) (.num θ)).rotated (Vec3.num (d * P)) = Vec3.num v ∧
      |v.x - (rodrigues (n.normalized 1) θ d).x * P| ≤ 144 * ((2 : ℝ) ^ (-(p : ℤ)) * P) ∧
      |v.y - (rodrigues (n.normalized 1) θ d).y * P| ≤ 144 * ((2 : ℝ) ^ (-(p : ℤ)) * P) ∧
      |v.z - (rodrigues (n.normalized 1) θ d).z * P| ≤ 144 * ((2 : ℝ) ^ (-(p : ℤ)) * P) := by
  obtain ⟨⟨⟨m1, m2, m3⟩, ⟨m4, m5, m6⟩, m7, m8, m9⟩, -, -⟩ := C153_two_ways p (by omega) n hn θ hθ
  have hmv := Mat3.ofAxisAngle_mulVec (a := n) hn θ d
  have en := entry_one (C44_axis n hn θ 0 ⟨0, 0, 0⟩).1
  obtain ⟨x, ex, hx⟩ := row hp hd hP m1 m4 m7 (en 0 0) (en 0 1) (en 0 2)
  obtain ⟨y, ey, hy⟩ := row hp hd hP m2 m5 m8 (en 1 0) (en 1 1) (en 1 2)
  obtain ⟨z, ez, hz⟩ := row hp hd hP m3 m6 m9 (en 2 0) (en 2 1) (en 2 2)
  rw [← hmv]
  refine ⟨⟨x, y, z⟩, ?_, ?_, ?_, ?_⟩
  · show Vec3.mk _ _ _ = _
    exact congr (congr (congrArg _ ex) ey) ez
  · convert hx using 3; simp only [Mat3.mulVec]; ring
  · convert hy using 3; simp only [Mat3.mulVec]; ring
  · convert hz using 3; simp only [Mat3.mulVec]; ring

/-- bringing a vector near `R * P`, `R` of length one, to a given length -/
theorem scaled (hp : 20 ≤ p) {R v : Vec3 ℝ} (hR : R.IsUnit) {P k l M : ℝ} (hP : 0 < P)
    (hx : |v.x - R.x * P| ≤ 714 * (2 : ℝ) ^ (-(p : ℤ)) * P) (hy : |v.y - R.y * P| ≤ 714 * (2 : ℝ) ^ (-(p : ℤ)) * P)
    (hz : |v.z - R.z * P| ≤ 714 * (2 : ℝ) ^ (-(p : ℤ)) * P) (hl0 : 0 ≤ l) (hlM : l ≤ M) (hk : |k - l| ≤ 6.1 * ((2 : ℝ) ^ (-(p : ℤ)) * M)) :
    ∃ w : Vec3 ℝ, ((Vec3.num v : Vec3 (Fl ℝ (rne p))).normalize (.num k)).1 = Vec3.num w ∧
      |√(w.x ^ 2 + w.y ^ 2 + w.z ^ 2) - l| ≤ 12 * ((2 : ℝ) ^ (-(p : ℤ)) * M) ∧ |w.x - l * R.x| ≤ 1963 * ((2 : ℝ) ^ (-(p : ℤ)) * M) ∧
      |w.y - l * R.y| ≤ 1963 * ((2 : ℝ) ^ (-(p : ℤ)) * M) ∧ |w.z - l * R.z| ≤ 1963 * ((2 : ℝ) ^ (-(p : ℤ)) * M) := by
  have hr := isRel_rne p (show 1 ≤ p by omega)
  have u0 := hr.nonneg
  have hu := u20 hp
  obtain ⟨-, g5, -, -⟩ := gams u0 hu
  have hRu : R.x ^ 2 + R.y ^ 2 + R.z ^ 2 = 1 := hR
  have M0 : 0 ≤ M := hl0.trans hlM
  have uP := mul_le_mul_of_nonneg_right hu hP.le
  have uP0 := mul_nonneg u0 hP.le
  obtain ⟨vl, vx, vy, vz⟩ := unit_near (x := R.x * P) (y := R.y * P) (z := R.z * P) hP (by linarith) (by linarith)
    (by linear_combination P ^ 2 * hRu) hx hy hz
  have hv : v ≠ ⟨0, 0, 0⟩ := by
    rintro rfl
    simp at vl
  obtain ⟨w, -, ew, ⟨wx, wy, wz⟩, l1, l2⟩ := C119_normalized3 hr v hv k
  have hl := len_near (e := 714 * (2 : ℝ) ^ (-(p : ℤ)) * P) hP.le (by linarith) (by linear_combination P ^ 2 * hRu) hx hy hz
  have ss : √(v.x ^ 2 + v.y ^ 2 + v.z ^ 2) ^ 2 = v.x ^ 2 + v.y ^ 2 + v.z ^ 2 := Real.sq_sqrt (by positivity)
  have uM := mul_le_mul_of_nonneg_right hu M0
  have uM0 := mul_nonneg u0 M0
  have k1 : |k| ≤ 1.001 * M := by
    have := abs_sub_abs_le_abs_sub k l
    rw [abs_of_nonneg hl0] at this
    linarith
  refine ⟨w, ew, ?_, ?_⟩
  · have a1 : 1 - 5 * (2 : ℝ) ^ (-(p : ℤ)) ≤ (1 - (2 : ℝ) ^ (-(p : ℤ))) ^ 5 := by
      have := one_add_mul_le_pow (show (-2 : ℝ) ≤ -(2 : ℝ) ^ (-(p : ℤ)) by linarith) 5
      rw [← sub_eq_add_neg] at this
      push_cast at this
      linarith
    have a2 : |k| / (1 - (2 : ℝ) ^ (-(p : ℤ))) ^ 5 ≤ |k| + 5.001 * (2 : ℝ) ^ (-(p : ℤ)) * |k| := by
      unfold gam at g5
      rw [div_eq_mul_inv]
      have := mul_le_mul_of_nonneg_left g5 (abs_nonneg k)
      linarith
    have a3 := mul_le_mul_of_nonneg_right a1 (abs_nonneg k)
    have a4 := mul_le_mul_of_nonneg_left k1 (show 0 ≤ 5.001 * (2 : ℝ) ^ (-(p : ℤ)) by linarith)
    have a5 := mul_nonneg u0 (abs_nonneg k)
    have a6 := abs_abs_sub_abs_le k l
    rw [abs_of_nonneg hl0] at a6
    have a7 := abs_le.1 (a6.trans hk)
    rw [abs_le]
    constructor <;> linarith
  · generalize √(v.x ^ 2 + v.y ^ 2 + v.z ^ 2) = s at *
    generalize (2 : ℝ) ^ (-(p : ℤ)) = u at *
    have comp : ∀ {a r b : ℝ}, |a / s - r * P / P| ≤ 2.7321 * (714 * u * P) / P → a ^ 2 ≤ s ^ 2 →
        |b - a * (k / s)| ≤ gam u 5 * |a * (k / s)| → |b - l * r| ≤ 1963 * (u * M) := by
      intro a r b h1 h2 h3
      rw [mul_div_cancel_right₀ _ hP.ne', show 2.7321 * (714 * u * P) / P = 2.7321 * (714 * u) by field_simp] at h1
      have h4 : |a / s| ≤ 1 := by
        rw [abs_div, abs_of_pos vl, div_le_one vl]; exact abs_le_of_sq_le_sq h2 vl.le
      rw [show a * (k / s) = k * (a / s) by ring] at h3
      have h5 : |k * (a / s)| ≤ 1.001 * M * 1 := by rw [abs_mul]; exact mul_le_mul k1 h4 (abs_nonneg _) (by linarith)
      have h6 := h3.trans (mul_le_mul g5 h5 (abs_nonneg _) (by linarith))
      have h7 : |(k - l) * (a / s)| ≤ 6.1 * (u * M) * 1 := by rw [abs_mul]; exact mul_le_mul hk h4 (abs_nonneg _) (by linarith)
      have h8 : |l * (a / s - r)| ≤ M * (2.7321 * (714 * u)) := by
        rw [abs_mul, abs_of_nonneg hl0]; exact mul_le_mul hlM h1 (abs_nonneg _) M0
      have h9 := abs_add_three (b - k * (a / s)) ((k - l) * (a / s)) (l * (a / s - r))
      rw [show b - k * (a / s) + (k - l) * (a / s) + l * (a / s - r) = b - l * r by ring] at h9
      linarith
    have q1 := sq_nonneg v.x
    have q2 := sq_nonneg v.y
    have q3 := sq_nonneg v.z
    have s1 : v.x ^ 2 ≤ s ^ 2 := by linarith
    have s2 : v.y ^ 2 ≤ s ^ 2 := by linarith
    have s3 : v.z ^ 2 ≤ s ^ 2 := by linarith
    exact ⟨comp (a := v.x) (r := R.x) (b := w.x) vx s1 wx, comp (a := v.y) (r := R.y) (b := w.y) vy s2 wy,
      comp (a := v.z) (r := R.z) (b := w.z) vz s3 wz⟩

/-- a vector turned around a perpendicular unit vector -/
theorem rodr_unit {ν d : Vec3 ℝ} (hν : ν.IsUnit) (hd : d.IsUnit) (h : ν.dot d = 0) (θ : ℝ) : (rodrigues ν θ d).IsUnit ∧
    d.dot (rodrigues ν θ d) = Real.cos θ := by
  have hs := Real.sin_sq_add_cos_sq θ
  have h1 : ν.x ^ 2 + ν.y ^ 2 + ν.z ^ 2 = 1 := hν
  have h2 : d.x ^ 2 + d.y ^ 2 + d.z ^ 2 = 1 := hd
  have c : rodrigues ν θ d = ⟨d.x * Real.cos θ + (ν.y * d.z - ν.z * d.y) * Real.sin θ,
      d.y * Real.cos θ + (ν.z * d.x - ν.x * d.z) * Real.sin θ, d.z * Real.cos θ + (ν.x * d.y - ν.y * d.x) * Real.sin θ⟩ := by
    unfold rodrigues
    rw [h]
    ext <;> simp [Vec3.cross]
  have h3 : ν.x * d.x + ν.y * d.y + ν.z * d.z = 0 := h
  rw [c]
  constructor
  · show (_ : ℝ) ^ 2 + _ ^ 2 + _ ^ 2 = 1
    linear_combination hs + (Real.cos θ ^ 2 + Real.sin θ ^ 2 * (ν.x ^ 2 + ν.y ^ 2 + ν.z ^ 2)) * h2 + Real.sin θ ^ 2 * h1 -
      Real.sin θ ^ 2 * (ν.x * d.x + ν.y * d.y + ν.z * d.z) * h3
  · simp only [Vec3.dot]
    linear_combination Real.cos θ * h2

/-- the rotated and scaled vector of the code; `N` is the exact cross product and `ν` its direction -/
theorem turned (hp : 20 ≤ p) {d ν n : Vec3 ℝ} (hd : d.IsUnit) (hν : ν.IsUnit) (h0 : ν.dot d = 0) {P S k l M θ : ℝ} (hP : 0 < P) (hS : 0 ≤ S)
    (hx : |n.x - ν.x * S| ≤ 10.01 * (2 : ℝ) ^ (-(p : ℤ)))
    (hy : |n.y - ν.y * S| ≤ 10.01 * (2 : ℝ) ^ (-(p : ℤ))) (hz : |n.z - ν.z * S| ≤ 10.01 * (2 : ℝ) ^ (-(p : ℤ))) (hn : n ≠ ⟨0, 0, 0⟩) (hθ : Rep p θ)
    (θ0 : 0 ≤ θ) (hθS : θ ≤ 1.571 * (S + 25.4 * (2 : ℝ) ^ (-(p : ℤ))))
    (hl0 : 0 ≤ l) (hlM : l ≤ M) (hk : |k - l| ≤ 6.1 * ((2 : ℝ) ^ (-(p : ℤ)) * M)) :
    ∃ w : Vec3 ℝ, (((Quat.ofAxisAngle (Vec3.num n : Vec3 (Fl ℝ (rne p))) (.num θ)).rotated (Vec3.num (d * P))).normalize (.num k)).1 =
        Vec3.num w ∧ |√(w.x ^ 2 + w.y ^ 2 + w.z ^ 2) - l| ≤ 12 * ((2 : ℝ) ^ (-(p : ℤ)) * M) ∧
      |w.x - l * (rodrigues ν θ d).x| ≤ 1963 * ((2 : ℝ) ^ (-(p : ℤ)) * M) ∧
      |w.y - l * (rodrigues ν θ d).y| ≤ 1963 * ((2 : ℝ) ^ (-(p : ℤ)) * M) ∧
      |w.z - l * (rodrigues ν θ d).z| ≤ 1963 * ((2 : ℝ) ^ (-(p : ℤ)) * M) := by
  have hu := u20 hp
  have u0 : 0 ≤ (2 : ℝ) ^ (-(p : ℤ)) := by positivity
  have hb1 := (Vec3.normalized_unit (v := n) hn).1
  obtain ⟨b1, b2, b3, -⟩ := unit_bounds hb1
  have near : |(rodrigues (n.normalized 1) θ d).x - (rodrigues ν θ d).x| ≤ 570 * (2 : ℝ) ^ (-(p : ℤ)) ∧
      |(rodrigues (n.normalized 1) θ d).y - (rodrigues ν θ d).y| ≤ 570 * (2 : ℝ) ^ (-(p : ℤ)) ∧
      |(rodrigues (n.normalized 1) θ d).z - (rodrigues ν θ d).z| ≤ 570 * (2 : ℝ) ^ (-(p : ℤ)) := by
    rcases le_or_gt (35 * (2 : ℝ) ^ (-(p : ℤ))) S with h | h
    · have S0 : 0 < S := lt_of_lt_of_le (by positivity) h
      have hN : (ν.x * S) ^ 2 + (ν.y * S) ^ 2 + (ν.z * S) ^ 2 = S ^ 2 := by
        have : ν.x ^ 2 + ν.y ^ 2 + ν.z ^ 2 = 1 := hν
        linear_combination S ^ 2 * this
      obtain ⟨nl, nx, ny, nz⟩ := unit_near (e := 10.01 * (2 : ℝ) ^ (-(p : ℤ))) S0 (by
        have : 0 < (2 : ℝ) ^ (-(p : ℤ)) := by positivity
        linarith) (by linarith) hN hx hy hz
      have hb := norm_comp (v := n) rfl nl
      rw [mul_div_cancel_right₀ _ S0.ne'] at nx ny nz
      obtain ⟨rx, ry, rz⟩ := rodr_near hd b1 b2 b3 h0 (η := 2.7321 * (10.01 * (2 : ℝ) ^ (-(p : ℤ))) / S) (by positivity)
        (by rw [hb]; exact nx) (by rw [hb]; exact ny) (by rw [hb]; exact nz) θ0
      have fin : 3.7321 * (2.7321 * (10.01 * (2 : ℝ) ^ (-(p : ℤ))) / S) * θ ≤ 570 * (2 : ℝ) ^ (-(p : ℤ)) := by
        have t : θ ≤ 2.7113 * S := by linarith
        have := mul_le_mul_of_nonneg_left t (show 0 ≤ 3.7321 * (2.7321 * (10.01 * (2 : ℝ) ^ (-(p : ℤ))) / S) by positivity)
        refine this.trans ?_
        rw [show 3.7321 * (2.7321 * (10.01 * (2 : ℝ) ^ (-(p : ℤ))) / S) * (2.7113 * S) =
          3.7321 * (2.7321 * (10.01 * (2 : ℝ) ^ (-(p : ℤ)))) * 2.7113 by field_simp]
        linarith
      exact ⟨rx.trans fin, ry.trans fin, rz.trans fin⟩
    · have t : θ ≤ 95 * (2 : ℝ) ^ (-(p : ℤ)) := by linarith
      obtain ⟨x1, y1, z1⟩ := rodr_small hb1 hd θ0
      obtain ⟨x2, y2, z2⟩ := rodr_small hν hd θ0
      have tri : ∀ {a b c : ℝ}, |a - c| ≤ 3 * θ → |b - c| ≤ 3 * θ → |a - b| ≤ 570 * (2 : ℝ) ^ (-(p : ℤ)) := by
        intro a b c h1 h2
        have := abs_sub_le a c b
        rw [abs_sub_comm c b] at this
        linarith
      exact ⟨tri x1 x2, tri y1 y2, tri z1 z2⟩
  obtain ⟨rx, ry, rz⟩ := near
  obtain ⟨v, ev, vx, vy, vz⟩ := rotated hp hd hn hP hθ
  rw [ev]
  have comp : ∀ {a b c : ℝ}, |a - b * P| ≤ 144 * ((2 : ℝ) ^ (-(p : ℤ)) * P) → |b - c| ≤ 570 * (2 : ℝ) ^ (-(p : ℤ)) →
      |a - c * P| ≤ 714 * (2 : ℝ) ^ (-(p : ℤ)) * P := by
    intro a b c h1 h2
    have h3 : |b * P - c * P| ≤ 570 * (2 : ℝ) ^ (-(p : ℤ)) * P := by
      rw [← sub_mul, abs_mul, abs_of_pos hP]; exact mul_le_mul_of_nonneg_right h2 hP.le
    have h4 := abs_sub_le a (b * P) (c * P)
    linarith
  exact scaled hp (rodr_unit hν hd h0 θ).1 hP (comp vx rx) (comp vy ry) (comp vz rz) hl0 hlM hk

end MathLib.VSlerp
