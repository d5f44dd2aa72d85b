import Verif.Proof.VecSlerpErr

/-! # Properties C182 and C183: `Vec3::slerp` and `Vec3::slerpMaxAngle` in floating point -/

namespace MathLib

open VSlerp

variable {p : ℕ}

private theorem u20 (hp : 20 ≤ p) : (2 : ℝ) ^ (-(p : ℤ)) ≤ 1 / 1048576 := VSlerp.u20 hp

private theorem lin_comp (hp : 20 ≤ p) {a b t M : ℝ} (ha : |a| ≤ M) (hb : |b| ≤ M) (t0 : 0 ≤ t) (t1 : t ≤ 1) :
    |rne p (a + rne p (rne p (b - a) * t)) - ((1 - t) * a + t * b)| ≤ 5.01 * ((2 : ℝ) ^ (-(p : ℤ)) * M) := by
  have hr := isRel_rne p (show 1 ≤ p by omega)
  have u0 := hr.nonneg
  have hu := u20 hp
  have m0 : 0 ≤ M := (abs_nonneg a).trans ha
  have e1 := hr.err (b - a)
  have e2 := hr.err (rne p (b - a) * t)
  have e3 := hr.err (a + rne p (rne p (b - a) * t))
  generalize rne p (a + rne p (rne p (b - a) * t)) = W at *
  generalize rne p (rne p (b - a) * t) = V at *
  generalize rne p (b - a) = D at *
  generalize (2 : ℝ) ^ (-(p : ℤ)) = u at *
  have m1 : |b - a| ≤ 2 * M := (abs_sub b a).trans (by linarith)
  have f1 := e1.trans (mul_le_mul_of_nonneg_left m1 u0)
  have f2 : |D * t - (b - a) * t| ≤ u * (2 * M) := by
    rw [← sub_mul, abs_mul, abs_of_nonneg t0]
    have := mul_le_of_le_one_right (abs_nonneg (D - (b - a))) t1
    linarith
  have m2 : |(b - a) * t| ≤ 2 * M := by
    rw [abs_mul, abs_of_nonneg t0]; exact (mul_le_of_le_one_right (abs_nonneg _) t1).trans m1
  have m3 : |D * t| ≤ 2 * M + u * (2 * M) := by
    have := abs_sub_abs_le_abs_sub (D * t) ((b - a) * t); linarith
  have f3 := abs_le.1 (e2.trans (mul_le_mul_of_nonneg_left m3 u0))
  have f4 := abs_le.1 f2
  have um := mul_nonneg u0 m0
  have uu : u * (u * M) ≤ 1 / 1048576 * (u * M) := mul_le_mul_of_nonneg_right hu um
  have c : |(1 - t) * a + t * b| ≤ M := by
    have h1 := abs_add_le ((1 - t) * a) (t * b)
    rw [abs_mul, abs_mul, abs_of_nonneg t0, abs_of_nonneg (show 0 ≤ 1 - t by linarith)] at h1
    have h2 := mul_le_mul_of_nonneg_left ha (show 0 ≤ 1 - t by linarith)
    have h3 := mul_le_mul_of_nonneg_left hb t0
    linarith
  have c' := abs_le.1 c
  have m4 : |a + V| ≤ M + 5 * (u * M) := by rw [abs_le]; constructor <;> linarith
  have f5 := abs_le.1 (e3.trans (mul_le_mul_of_nonneg_left m4 u0))
  rw [abs_le]; constructor <;> linarith

/-- the threshold 0.05f -/
private theorem limit (hp : 20 ≤ p) : ∃ c, (13421773 / 268435456 : Fl ℝ (rne p)) = .num c ∧ |c - 0.05| ≤ 0.00001 := by
  have hr := isRel_rne p (show 1 ≤ p by omega)
  have u0 := hr.nonneg
  have hu := u20 hp
  obtain ⟨g3, -, -, -⟩ := gams u0 hu
  have k : ∀ t : ℝ, Rel ((2 : ℝ) ^ (-(p : ℤ))) 1 t (.num (rne p t) : Fl ℝ (rne p)) := fun t => by
    obtain ⟨θ, h1, h2⟩ := hr.fac t
    exact ⟨θ, h1, by rw [h2]⟩
  obtain ⟨c, e, hc⟩ := (Rel.div hr (k ((13421773 : ℕ) : ℝ)) (k ((268435456 : ℕ) : ℝ)) (by norm_num) (k := 3)).error hr
  refine ⟨c, e, ?_⟩
  have : gam ((2 : ℝ) ^ (-(p : ℤ))) 3 ≤ 3.001 / 1048576 := by linarith
  have h2 := hc.trans (mul_le_mul_of_nonneg_right this (abs_nonneg _))
  rw [abs_of_pos (show (0 : ℝ) < ((13421773 : ℕ) : ℝ) / ((268435456 : ℕ) : ℝ) by norm_num)] at h2
  push_cast at h2
  rw [abs_le] at h2 ⊢
  norm_num at h2 ⊢
  constructor <;> linarith

/-- `slerp` once the axis and the sine have been computed -/
private theorem unfolded (hp : 20 ≤ p) {d e : Vec3 ℝ} (hd : d.IsUnit) (he : e.IsUnit) {P Q : ℝ} (hP : 0 < P) (hQ : 0 < Q) {t : ℝ}
    (t0 : 0 < t) (t1 : t < 1) {n : Vec3 ℝ} {s c : ℝ} (hc : (13421773 / 268435456 : Fl ℝ (rne p)) = .num c)
    (hn : ((Vec3.num (d * P) : Vec3 (Fl ℝ (rne p))).cross (Vec3.num (e * Q))).div
        ((Vec3.num (d * P) : Vec3 (Fl ℝ (rne p))).length * (Vec3.num (e * Q) : Vec3 (Fl ℝ (rne p))).length) = .ok (Vec3.num n))
    (hs : (Vec3.num n : Vec3 (Fl ℝ (rne p))).dot ((Vec3.num n : Vec3 (Fl ℝ (rne p))).normalized 1) = .num s) (s0 : 0 ≤ s) :
    ∃ A B : ℝ, |A - P| ≤ 3.001 * ((2 : ℝ) ^ (-(p : ℤ)) * P) ∧ |B - Q| ≤ 3.001 * ((2 : ℝ) ^ (-(p : ℤ)) * Q) ∧
    Vec3.slerp (Vec3.num (d * P) : Vec3 (Fl ℝ (rne p))) (Vec3.num (e * Q)) (.num t) =
      if s < c then .ok (Vec3.num ⟨rne p (d.x * P + rne p (rne p (e.x * Q - d.x * P) * t)), rne p (d.y * P + rne p (rne p (e.y * Q - d.y * P) * t)),
        rne p (d.z * P + rne p (rne p (e.z * Q - d.z * P) * t))⟩)
      else .ok ((((Quat.ofAxisAngle (Vec3.num n : Vec3 (Fl ℝ (rne p))) (.num (rne p (rne p (Real.arcsin s) * t)))).rotated
        (Vec3.num (d * P))).normalize (.num (rne p (A + rne p (rne p (B - A) * t))))).1) := by
  have hr := isRel_rne p (show 1 ≤ p by omega)
  have u0 := hr.nonneg
  have hu := u20 hp
  obtain ⟨g3, -, -, -⟩ := gams u0 hu
  obtain ⟨A, eA, hA⟩ := (vlen hp hd hP).error hr
  obtain ⟨B, eB, hB⟩ := (vlen hp he hQ).error hr
  rw [abs_of_pos hP] at hA
  rw [abs_of_pos hQ] at hB
  have hA' : |A - P| ≤ 3.001 * ((2 : ℝ) ^ (-(p : ℤ)) * P) := by have := mul_le_mul_of_nonneg_right g3 hP.le; linarith
  have hB' : |B - Q| ≤ 3.001 * ((2 : ℝ) ^ (-(p : ℤ)) * Q) := by have := mul_le_mul_of_nonneg_right g3 hQ.le; linarith
  have A0 : A ≠ 0 := by
    have h1 := abs_le.1 hA'
    have h2 := mul_le_mul_of_nonneg_right hu hP.le
    intro h; rw [h] at h1; linarith
  have B0 : B ≠ 0 := by
    have h1 := abs_le.1 hB'
    have h2 := mul_le_mul_of_nonneg_right hu hQ.le
    intro h; rw [h] at h1; linarith
  refine ⟨A, B, hA', hB', ?_⟩
  have b1 : (Fl.num t == (0 : Fl ℝ (rne p))) = false := by rw [Fl.zero_def, Fl.num_beq]; simpa using t0.ne'
  have b2 : (Fl.num t == (1 : Fl ℝ (rne p))) = false := by rw [Fl.one_def, Fl.num_beq]; simpa using t1.ne
  have b3 : (Fl.num A == (0 : Fl ℝ (rne p))) = false := by rw [Fl.zero_def, Fl.num_beq]; simpa using A0
  have b4 : (Fl.num B == (0 : Fl ℝ (rne p))) = false := by rw [Fl.zero_def, Fl.num_beq]; simpa using B0
  have ab : abs' (Fl.num s : Fl ℝ (rne p)) = .num s := by
    unfold abs'
    simp only [Fl.zero_def, Fl.num_lt, if_neg (not_lt.2 s0)]
  unfold Vec3.slerp
  dsimp only
  rw [b1, b2, hn]
  simp only [eA, eB, b3, b4, Bool.or_self, Bool.false_eq_true, if_false, bind, Except.bind]
  rw [hs, ab, hc, asin_num, Fl.num_mul]
  simp only [Fl.num_lt]
  by_cases h : s < c
  · rw [if_pos h, if_pos h]
    simp only [Vec3.num, Fl.num_sub, Fl.num_mul, Fl.num_add]
    rfl
  · rw [if_neg h, if_neg h]
    simp only [Fl.num_sub, Fl.num_mul, Fl.num_add]

private theorem num_inj {rnd : ℝ → ℝ} {v w : Vec3 ℝ} (h : (Vec3.num v : Vec3 (Fl ℝ rnd)) = Vec3.num w) : v = w := by
  rcases v with ⟨a, b, c⟩
  rcases w with ⟨a', b', c'⟩
  simp only [Vec3.num, Vec3.mk.injEq, Fl.num.injEq] at h
  simp [h.1, h.2.1, h.2.2]

/-- the interpolated length -/
private theorem lengths (hp : 20 ≤ p) {A B P Q t M : ℝ} (hP : 0 < P) (hQ : 0 < Q) (hPM : P ≤ M) (hQM : Q ≤ M) (t0 : 0 ≤ t) (t1 : t ≤ 1)
    (hA : |A - P| ≤ 3.001 * ((2 : ℝ) ^ (-(p : ℤ)) * P)) (hB : |B - Q| ≤ 3.001 * ((2 : ℝ) ^ (-(p : ℤ)) * Q)) :
    |rne p (A + rne p (rne p (B - A) * t)) - ((1 - t) * P + t * Q)| ≤ 6.1 * ((2 : ℝ) ^ (-(p : ℤ)) * M) := by
  have hr := isRel_rne p (show 1 ≤ p by omega)
  have u0 := hr.nonneg
  have hu := u20 hp
  have a := abs_le.1 hA
  have b := abs_le.1 hB
  have uP := mul_le_mul_of_nonneg_left hPM u0
  have uQ := mul_le_mul_of_nonneg_left hQM u0
  have P1 := mul_le_mul_of_nonneg_right hu hP.le
  have Q1 := mul_le_mul_of_nonneg_right hu hQ.le
  have M1 := mul_le_mul_of_nonneg_right hu (hP.le.trans hPM)
  have key := lerp_nonneg_rounded (p := p) (by omega) (a := A) (b := B) (t := t) (m := 1.00001 * M)
    ⟨by linarith, by linarith⟩ ⟨by linarith, by linarith⟩ ⟨t0, t1⟩
  have e1 : |(1 - t) * (A - P)| ≤ 3.001 * ((2 : ℝ) ^ (-(p : ℤ)) * M) * (1 - t) := by
    rw [abs_mul, abs_of_nonneg (by linarith : 0 ≤ 1 - t), mul_comm]
    exact mul_le_mul_of_nonneg_right (by linarith) (by linarith)
  have e2 : |t * (B - Q)| ≤ 3.001 * ((2 : ℝ) ^ (-(p : ℤ)) * M) * t := by
    rw [abs_mul, abs_of_nonneg t0, mul_comm]
    exact mul_le_mul_of_nonneg_right (by linarith) t0
  have k' := abs_le.1 key
  have e1' := abs_le.1 e1
  have e2' := abs_le.1 e2
  have um := mul_nonneg u0 (hP.le.trans hPM)
  rw [abs_le]; constructor <;> linarith

private theorem cross_perp (d e : Vec3 ℝ) : (d.cross e).dot d = 0 := by
  simp only [Vec3.cross, Vec3.dot]; ring

private theorem cross_unit {d e : Vec3 ℝ} (hkn : d.cross e = (d.cross e).normalized 1 * (d.cross e).length) (hl : 0 < (d.cross e).length) :
    ((d.cross e).normalized 1).dot d = 0 := by
  have h1 := cross_perp d e
  rw [hkn] at h1
  have h2 : ((d.cross e).normalized 1 * (d.cross e).length).dot d = ((d.cross e).normalized 1).dot d * (d.cross e).length := by
    simp only [Vec3.dot, Vec3.mul_x, Vec3.mul_y, Vec3.mul_z]; ring
  rw [h2] at h1
  exact (mul_eq_zero.1 h1).resolve_right hl.ne'

/-- the axis and the sine that the code computes, and the exact cross product -/
private theorem sine_near (hp : 20 ≤ p) {d e : Vec3 ℝ} (hd : d.IsUnit) (he : e.IsUnit) {P Q : ℝ} (hP : 0 < P) (hQ : 0 < Q) :
    ∃ (n : Vec3 ℝ) (s : ℝ), ((Vec3.num (d * P) : Vec3 (Fl ℝ (rne p))).cross (Vec3.num (e * Q))).div
        ((Vec3.num (d * P) : Vec3 (Fl ℝ (rne p))).length * (Vec3.num (e * Q) : Vec3 (Fl ℝ (rne p))).length) = .ok (Vec3.num n) ∧
      (Vec3.num n : Vec3 (Fl ℝ (rne p))).dot ((Vec3.num n : Vec3 (Fl ℝ (rne p))).normalized 1) = .num s ∧
      0 ≤ s ∧ (n = ⟨0, 0, 0⟩ ↔ s = 0) ∧ 0 ≤ (d.cross e).length ∧ (d.cross e).length ≤ 1 ∧
      |s - (d.cross e).length| ≤ 25.4 * (2 : ℝ) ^ (-(p : ℤ)) ∧
      |n.x - (d.cross e).x| ≤ 10.01 * (2 : ℝ) ^ (-(p : ℤ)) ∧ |n.y - (d.cross e).y| ≤ 10.01 * (2 : ℝ) ^ (-(p : ℤ)) ∧
      |n.z - (d.cross e).z| ≤ 10.01 * (2 : ℝ) ^ (-(p : ℤ)) ∧
      (n = ⟨0, 0, 0⟩ → (d.cross e).length ≤ 17.34 * (2 : ℝ) ^ (-(p : ℤ))) := by
  have hr := isRel_rne p (show 1 ≤ p by omega)
  have u0 := hr.nonneg
  have hu := u20 hp
  obtain ⟨n, hn, nx, ny, nz⟩ := axis hp hd he hP hQ
  obtain ⟨s, hs, hs'⟩ := sine hp n
  have hN : (d.cross e).x ^ 2 + (d.cross e).y ^ 2 + (d.cross e).z ^ 2 = (d.cross e).length ^ 2 := by
    have h : (d.cross e).length = √((d.cross e).x * (d.cross e).x + (d.cross e).y * (d.cross e).y + (d.cross e).z * (d.cross e).z) := rfl
    rw [h, Real.sq_sqrt (by nlinarith [sq_nonneg (d.cross e).x, sq_nonneg (d.cross e).y, sq_nonneg (d.cross e).z])]; ring
  have S0 : 0 ≤ (d.cross e).length := Real.sqrt_nonneg _
  have S1 : (d.cross e).length ≤ 1 := by
    apply abs_le_of_sq_le_sq' _ zero_le_one |>.2
    rw [← hN, one_pow]
    have := sq_nonneg (d.x * e.x + d.y * e.y + d.z * e.z)
    have e : (d.cross e).x ^ 2 + (d.cross e).y ^ 2 + (d.cross e).z ^ 2 = (d.x ^ 2 + d.y ^ 2 + d.z ^ 2) * (e.x ^ 2 + e.y ^ 2 + e.z ^ 2) -
        (d.x * e.x + d.y * e.y + d.z * e.z) ^ 2 := by simp only [Vec3.cross]; ring
    rw [e, show d.x ^ 2 + d.y ^ 2 + d.z ^ 2 = 1 from hd, show _ = (1 : ℝ) from he]
    linarith
  have ln := abs_le.1 (len_near S0 (mul_nonneg (by norm_num) u0) hN nx ny nz)
  have n0 : 0 ≤ √(n.x ^ 2 + n.y ^ 2 + n.z ^ 2) := Real.sqrt_nonneg _
  have sS : |s - (d.cross e).length| ≤ 25.4 * (2 : ℝ) ^ (-(p : ℤ)) := by
    have h1 : √(n.x ^ 2 + n.y ^ 2 + n.z ^ 2) ≤ 1.001 := by linarith
    have h2 := abs_le.1 (hs'.trans (mul_le_mul_of_nonneg_left (mul_le_mul_of_nonneg_left h1 u0) (by norm_num)))
    rw [abs_le]; constructor <;> linarith
  have s0 : 0 ≤ s := by
    have h2 := abs_le.1 hs'
    have := mul_le_mul_of_nonneg_right hu n0
    linarith
  refine ⟨n, s, hn, hs, s0, ?_, S0, S1, sS, nx, ny, nz, ?_⟩
  · constructor
    · intro h
      rw [h] at hs'
      simpa using hs'
    · intro h
      rw [h, zero_sub, abs_neg, abs_of_nonneg n0] at hs'
      have := mul_le_mul_of_nonneg_right hu n0
      have z : n.x ^ 2 + n.y ^ 2 + n.z ^ 2 = 0 := (Real.sqrt_eq_zero (by positivity)).1 (le_antisymm (by linarith) n0)
      have x := sq_nonneg n.x
      have y := sq_nonneg n.y
      have w := sq_nonneg n.z
      ext
      · exact pow_eq_zero_iff (two_ne_zero) |>.1 (by linarith)
      · exact pow_eq_zero_iff (two_ne_zero) |>.1 (by linarith)
      · exact pow_eq_zero_iff (two_ne_zero) |>.1 (by linarith)
  · intro h
    have z : √(n.x ^ 2 + n.y ^ 2 + n.z ^ 2) = 0 := by rw [h]; simp
    rw [z] at ln
    linarith [ln.1]

/-- the computed arc sine -/
private theorem arcsin_le (hp : 20 ≤ p) {s S : ℝ} (s0 : 0 ≤ s) (h : |s - S| ≤ 25.4 * (2 : ℝ) ^ (-(p : ℤ))) :
    0 ≤ rne p (Real.arcsin s) ∧ rne p (Real.arcsin s) ≤ 1.57098 * (S + 25.4 * (2 : ℝ) ^ (-(p : ℤ))) := by
  have hr := isRel_rne p (show 1 ≤ p by omega)
  have u0 := hr.nonneg
  have hu := u20 hp
  have pi := Real.pi_lt_d4
  have a0 := Real.arcsin_nonneg.2 s0
  have j : Real.arcsin s ≤ 1.5708 * s := by
    rcases le_total s 1 with h1 | h1
    · have := Real.mul_le_sin a0 (Real.arcsin_le_pi_div_two s)
      rw [Real.sin_arcsin (by linarith) h1, div_mul_eq_mul_div, div_le_iff₀ Real.pi_pos] at this
      have := mul_le_mul_of_nonneg_left pi.le s0
      linarith
    · have := Real.arcsin_le_pi_div_two s
      linarith
  have e := hr.err (Real.arcsin s)
  rw [abs_of_nonneg a0] at e
  have e' := abs_le.1 e
  have m := mul_le_mul_of_nonneg_right hu a0
  have h' := abs_le.1 h
  constructor <;> linarith

/-- the part of `slerp` that turns, given the axis and the sine that the code computes -/
private theorem core (hp : 20 ≤ p) {d e : Vec3 ℝ} (hd : d.IsUnit) (he : e.IsUnit) {P Q : ℝ} (hP : 0 < P) (hQ : 0 < Q) {t : ℝ}
    (t0 : 0 < t) (t1 : t < 1) {n : Vec3 ℝ} {s c : ℝ} (hc : (13421773 / 268435456 : Fl ℝ (rne p)) = .num c)
    (hn : ((Vec3.num (d * P) : Vec3 (Fl ℝ (rne p))).cross (Vec3.num (e * Q))).div
        ((Vec3.num (d * P) : Vec3 (Fl ℝ (rne p))).length * (Vec3.num (e * Q) : Vec3 (Fl ℝ (rne p))).length) = .ok (Vec3.num n))
    (hs : (Vec3.num n : Vec3 (Fl ℝ (rne p))).dot ((Vec3.num n : Vec3 (Fl ℝ (rne p))).normalized 1) = .num s) (s0 : 0 ≤ s)
    (hsc : c ≤ s) (hS : 0.0499 ≤ (d.cross e).length) :
    ∃ w : Vec3 ℝ, Vec3.slerp (Vec3.num (d * P) : Vec3 (Fl ℝ (rne p))) (Vec3.num (e * Q)) (.num t) = .ok (Vec3.num w) ∧
      |√(w.x ^ 2 + w.y ^ 2 + w.z ^ 2) - ((1 - t) * P + t * Q)| ≤ 12 * ((2 : ℝ) ^ (-(p : ℤ)) * max P Q) ∧
      |w.x - ((1 - t) * P + t * Q) * (rodrigues ((d.cross e).normalized 1) (rne p (rne p (Real.arcsin s) * t)) d).x| ≤
        1963 * ((2 : ℝ) ^ (-(p : ℤ)) * max P Q) ∧
      |w.y - ((1 - t) * P + t * Q) * (rodrigues ((d.cross e).normalized 1) (rne p (rne p (Real.arcsin s) * t)) d).y| ≤
        1963 * ((2 : ℝ) ^ (-(p : ℤ)) * max P Q) ∧
      |w.z - ((1 - t) * P + t * Q) * (rodrigues ((d.cross e).normalized 1) (rne p (rne p (Real.arcsin s) * t)) d).z| ≤
        1963 * ((2 : ℝ) ^ (-(p : ℤ)) * max P Q) := by
  have hr := isRel_rne p (show 1 ≤ p by omega)
  have u0 := hr.nonneg
  have hu := u20 hp
  obtain ⟨A, B, hA, hB, hsl⟩ := unfolded hp hd he hP hQ t0 t1 hc hn hs s0
  obtain ⟨n', s', hn', hs', -, hn0, S0, -, sS, nx, ny, nz, -⟩ := sine_near hp hd he hP hQ
  rw [hn] at hn'
  obtain rfl : n = n' := num_inj (Except.ok.inj hn')
  rw [hs] at hs'
  obtain rfl : s = s' := Fl.num.inj hs'
  have hk0 : d.cross e ≠ Vec3.zero := fun h => by
    rw [(C22_length_norm.2.1 _).2 h] at hS; norm_num at hS
  obtain ⟨hν, hkn, hkl⟩ := Vec3.normalized_unit hk0
  have hl := lengths hp hP hQ (le_max_left P Q) (le_max_right P Q) t0.le t1.le hA hB
  have l0 : 0 ≤ (1 - t) * P + t * Q := add_nonneg (mul_nonneg (by linarith) hP.le) (mul_nonneg t0.le hQ.le)
  have lM : (1 - t) * P + t * Q ≤ max P Q := by
    have h1 := mul_le_mul_of_nonneg_left (le_max_left P Q) (show 0 ≤ 1 - t by linarith)
    have h2 := mul_le_mul_of_nonneg_left (le_max_right P Q) t0.le
    linarith
  have hs0 : s ≠ 0 := by
    have := abs_le.1 sS
    intro h; rw [h] at this; linarith
  obtain ⟨al0, al1⟩ := arcsin_le hp s0 sS
  have e := hr.err (rne p (Real.arcsin s) * t)
  rw [abs_of_nonneg (mul_nonneg al0 t0.le)] at e
  have e' := abs_le.1 e
  have m := mul_le_mul_of_nonneg_right hu (mul_nonneg al0 t0.le)
  have m2 := mul_le_of_le_one_right al0 t1.le
  have m3 := mul_nonneg al0 t0.le
  obtain ⟨w, hw, h1, h2⟩ := turned hp hd hν (cross_unit hkn hkl) hP S0 (by rw [← Vec3.mul_x, ← hkn]; exact nx)
    (by rw [← Vec3.mul_y, ← hkn]; exact ny) (by rw [← Vec3.mul_z, ← hkn]; exact nz) (fun h => hs0 (hn0.1 h))
    (rep_rne p (by omega) (rne p (Real.arcsin s) * t)) (by linarith) (by linarith) l0 lM hl
  refine ⟨w, ?_, h1, h2⟩
  rw [hsl, if_neg (not_lt.2 hsc), hw]

private theorem plane_comp {a b c x y z : ℝ} (h1 : a ^ 2 + b ^ 2 + c ^ 2 = 1) (h2 : x ^ 2 + y ^ 2 + z ^ 2 = 1)
    (h3 : a * x + b * y + c * z = 0) : x ^ 2 + (b * z - c * y) ^ 2 ≤ 1 := by
  have : x ^ 2 + (b * z - c * y) ^ 2 = 1 - a ^ 2 := by
    linear_combination (y ^ 2 + z ^ 2) * h1 + (1 - a ^ 2) * h2 - (b * y + c * z - a * x) * h3
  nlinarith [sq_nonneg a]

/-- a turn by a slightly different angle -/
private theorem turn_diff {ν d : Vec3 ℝ} (hν : ν.IsUnit) (hd : d.IsUnit) (h : ν.dot d = 0) (θ φ : ℝ) :
    |(rodrigues ν θ d).x - (rodrigues ν φ d).x| ≤ |θ - φ| ∧ |(rodrigues ν θ d).y - (rodrigues ν φ d).y| ≤ |θ - φ| ∧
    |(rodrigues ν θ d).z - (rodrigues ν φ d).z| ≤ |θ - φ| := by
  have c : ∀ α : ℝ, rodrigues ν α d = ⟨d.x * Real.cos α + (ν.y * d.z - ν.z * d.y) * Real.sin α,
      d.y * Real.cos α + (ν.z * d.x - ν.x * d.z) * Real.sin α, d.z * Real.cos α + (ν.x * d.y - ν.y * d.x) * Real.sin α⟩ := fun α => by
    unfold rodrigues
    rw [h]
    ext <;> simp [Vec3.cross]
  rw [c θ, c φ]
  rcases ν with ⟨a, b, e⟩
  rcases d with ⟨x, y, z⟩
  simp only [Vec3.IsUnit, Vec3.dot] at hν hd h
  exact ⟨turn_near (plane_comp hν hd h), turn_near (plane_comp (a := b) (b := e) (c := a) (x := y) (y := z) (z := x) (by linarith) (by linarith) (by linarith)),
    turn_near (plane_comp (a := e) (b := a) (c := b) (x := z) (y := x) (z := y) (by linarith) (by linarith) (by linarith))⟩

/-- the computed angle -/
private theorem angle (hp : 20 ≤ p) {s S t : ℝ} (s0 : 0 ≤ s) (S0 : 0 ≤ S) (S1 : S ≤ 1) (t0 : 0 ≤ t) (t1 : t ≤ 1)
    (h : |s - S| ≤ 25.4 * (2 : ℝ) ^ (-(p : ℤ))) :
    |rne p (rne p (Real.arcsin s) * t) - t * Real.arcsin S| ≤ 11.2 * √((2 : ℝ) ^ (-(p : ℤ))) + 3.2 * (2 : ℝ) ^ (-(p : ℤ)) ∧
    (S ≤ 0.9 → |rne p (rne p (Real.arcsin s) * t) - t * Real.arcsin S| ≤ 97 * (2 : ℝ) ^ (-(p : ℤ))) := by
  have hr := isRel_rne p (show 1 ≤ p by omega)
  have u0 := hr.nonneg
  have hu := u20 hp
  have pi := Real.pi_lt_d4
  have e1 := hr.err (Real.arcsin s)
  have e2 := hr.err (rne p (Real.arcsin s) * t)
  have a1 : |Real.arcsin s| ≤ 1.571 := by
    rw [abs_le]
    have := Real.neg_pi_div_two_le_arcsin s
    have := Real.arcsin_le_pi_div_two s
    constructor <;> linarith
  have near : |rne p (rne p (Real.arcsin s) * t) - t * Real.arcsin s| ≤ 3.15 * (2 : ℝ) ^ (-(p : ℤ)) := by
    generalize rne p (rne p (Real.arcsin s) * t) = V at *
    generalize rne p (Real.arcsin s) = W at *
    generalize (2 : ℝ) ^ (-(p : ℤ)) = u at *
    generalize Real.arcsin s = a at *
    have f1 := e1.trans (mul_le_mul_of_nonneg_left a1 u0)
    have f2 : |(W - a) * t| ≤ u * 1.571 := by
      rw [abs_mul, abs_of_nonneg t0]; exact (mul_le_of_le_one_right (abs_nonneg _) t1).trans f1
    have f3 : |W * t| ≤ 1.572 := by
      rw [abs_mul, abs_of_nonneg t0]
      refine (mul_le_of_le_one_right (abs_nonneg _) t1).trans ?_
      have := abs_sub_abs_le_abs_sub W a
      linarith
    have f4 := abs_le.1 (e2.trans (mul_le_mul_of_nonneg_left f3 u0))
    have f5 := abs_le.1 f2
    rw [abs_le]; constructor <;> linarith
  obtain ⟨y, hy0, hy1, hys, hyS, hle⟩ : ∃ y : ℝ, 0 ≤ y ∧ y ≤ 1 ∧ Real.arcsin y = Real.arcsin s ∧ |y - S| ≤ 25.4 * (2 : ℝ) ^ (-(p : ℤ)) ∧ y ≤ s := by
    rcases le_total s 1 with h1 | h1
    · exact ⟨s, s0, h1, rfl, h, le_rfl⟩
    · refine ⟨1, zero_le_one, le_rfl, by rw [Real.arcsin_one, Real.arcsin_of_one_le h1], ?_, h1⟩
      have := abs_le.1 h
      rw [abs_of_nonneg (by linarith)]; linarith
  rw [← hys] at near ⊢
  have ht : ∀ b : ℝ, |Real.arcsin y - Real.arcsin S| ≤ b →
      |rne p (rne p (Real.arcsin y) * t) - t * Real.arcsin S| ≤ b + 3.15 * (2 : ℝ) ^ (-(p : ℤ)) := fun b hb => by
    have f : |t * (Real.arcsin y - Real.arcsin S)| ≤ b := by
      rw [abs_mul, abs_of_nonneg t0]; exact (mul_le_of_le_one_left (abs_nonneg _) t1).trans hb
    have f1 := abs_le.1 f
    have f2 := abs_le.1 near
    rw [abs_le]; constructor <;> linarith
  obtain ⟨n1, n2⟩ := arcsin_near (abs_le.2 ⟨by linarith, hy1⟩) (abs_le.2 ⟨by linarith, S1⟩)
  constructor
  · have hb : |Real.arcsin y - Real.arcsin S| ≤ 11.2 * √((2 : ℝ) ^ (-(p : ℤ))) := by
      refine n1.trans ?_
      have h1 : √(|y - S| / 2) ≤ 3.5640 * √((2 : ℝ) ^ (-(p : ℤ))) := by
        apply Real.sqrt_le_iff.2
        refine ⟨by positivity, ?_⟩
        rw [mul_pow, Real.sq_sqrt u0]
        linarith
      have h2 := mul_le_mul pi.le h1 (Real.sqrt_nonneg _) (by norm_num)
      have := Real.sqrt_nonneg ((2 : ℝ) ^ (-(p : ℤ)))
      linarith
    have := ht _ hb
    linarith
  · intro hS
    have ys := abs_le.1 hyS
    have top : ∀ x : ℝ, x ≤ 0.90003 → Real.arcsin x ≤ Real.arcsin 0.90003 := fun x hx => Real.monotone_arcsin hx
    have hc : (0.435 : ℝ) ≤ Real.cos ((Real.arcsin y + Real.arcsin S) / 2) := by
      have h1 := top y (by linarith)
      have h2 := top S (by linarith)
      have h3 := Real.arcsin_nonneg.2 hy0
      have h4 := Real.arcsin_nonneg.2 S0
      have h5 : Real.cos (Real.arcsin 0.90003) ≤ Real.cos ((Real.arcsin y + Real.arcsin S) / 2) := by
        apply Real.cos_le_cos_of_nonneg_of_le_pi (by linarith) _ (by linarith)
        have := Real.arcsin_le_pi_div_two 0.90003
        linarith [Real.pi_pos]
      refine le_trans ?_ h5
      rw [Real.cos_arcsin]
      exact Real.le_sqrt_of_sq_le (by norm_num)
    have h1 := n2 _ (by norm_num) hc
    have hb : |Real.arcsin y - Real.arcsin S| ≤ 93 * (2 : ℝ) ^ (-(p : ℤ)) := by
      refine h1.trans ?_
      have : Real.pi / (2 * 0.435) ≤ 3.62 := by rw [div_le_iff₀ (by norm_num)]; linarith
      have := mul_le_mul this hyS (abs_nonneg _) (by norm_num)
      linarith
    have := ht _ hb
    linarith

/-- **C182 (partial).** For every precision of at least 20 bits, `Vec3::slerp` between any two non-zero vectors returns a vector
whose length is the linear interpolation of the two lengths up to 12 units, or - for ends that are nearly parallel - the linear
interpolation of the vectors up to 5.01 units. When it turns, each component is that of the exact turn by the fraction `t` of
`asin |d × e|` up to 2060 units when the sine of the angle is at most 0.9, and otherwise up to a term of order `√2^-p`. -/
theorem C182_slerp_partial (hp : 20 ≤ p) {d e : Vec3 ℝ} (hd : d.IsUnit) (he : e.IsUnit) {P Q : ℝ} (hP : 0 < P) (hQ : 0 < Q) {t : ℝ}
    (ht : t ∈ Set.Ioo (0 : ℝ) 1) :
    ∃ w : Vec3 ℝ, Vec3.slerp (Vec3.num (d * P) : Vec3 (Fl ℝ (rne p))) (Vec3.num (e * Q)) (.num t) = .ok (Vec3.num w) ∧
    (((d.cross e).length ≤ 0.0501 ∧
      |w.x - ((1 - t) * (d.x * P) + t * (e.x * Q))| ≤ 5.01 * ((2 : ℝ) ^ (-(p : ℤ)) * max P Q) ∧
      |w.y - ((1 - t) * (d.y * P) + t * (e.y * Q))| ≤ 5.01 * ((2 : ℝ) ^ (-(p : ℤ)) * max P Q) ∧
      |w.z - ((1 - t) * (d.z * P) + t * (e.z * Q))| ≤ 5.01 * ((2 : ℝ) ^ (-(p : ℤ)) * max P Q)) ∨
     (0.0499 ≤ (d.cross e).length ∧
      |√(w.x ^ 2 + w.y ^ 2 + w.z ^ 2) - ((1 - t) * P + t * Q)| ≤ 12 * ((2 : ℝ) ^ (-(p : ℤ)) * max P Q) ∧
      ∀ E : ℝ, E = 1967 * (2 : ℝ) ^ (-(p : ℤ)) + 11.2 * √((2 : ℝ) ^ (-(p : ℤ))) ∨
          (d.cross e).length ≤ 0.9 ∧ E = 2060 * (2 : ℝ) ^ (-(p : ℤ)) →
        |w.x - ((1 - t) * P + t * Q) * (rodrigues ((d.cross e).normalized 1) (t * Real.arcsin (d.cross e).length) d).x| ≤ E * max P Q ∧
        |w.y - ((1 - t) * P + t * Q) * (rodrigues ((d.cross e).normalized 1) (t * Real.arcsin (d.cross e).length) d).y| ≤ E * max P Q ∧
        |w.z - ((1 - t) * P + t * Q) * (rodrigues ((d.cross e).normalized 1) (t * Real.arcsin (d.cross e).length) d).z| ≤ E * max P Q)) := by
  obtain ⟨t0, t1⟩ := ht
  have hr := isRel_rne p (show 1 ≤ p by omega)
  have u0 := hr.nonneg
  have hu := u20 hp
  obtain ⟨n, s, hn, hs, s0, hn0, S0, S1, sS, nx, ny, nz, -⟩ := sine_near hp hd he hP hQ
  obtain ⟨c, hc, hc'⟩ := limit hp
  have sS' := abs_le.1 sS
  have c' := abs_le.1 hc'
  rcases lt_or_ge s c with h | h
  · obtain ⟨A, B, -, -, hsl⟩ := unfolded hp hd he hP hQ t0 t1 hc hn hs s0
    rw [if_pos h] at hsl
    refine ⟨_, hsl, Or.inl ⟨by linarith, ?_⟩⟩
    obtain ⟨dx, dy, dz, -⟩ := unit_bounds hd
    obtain ⟨ex, ey, ez, -⟩ := unit_bounds he
    have b1 : ∀ a : ℝ, |a| ≤ 1 → |a * P| ≤ max P Q := fun a h => by
      rw [abs_mul, abs_of_pos hP]; exact (mul_le_of_le_one_left hP.le h).trans (le_max_left _ _)
    have b2 : ∀ a : ℝ, |a| ≤ 1 → |a * Q| ≤ max P Q := fun a h => by
      rw [abs_mul, abs_of_pos hQ]; exact (mul_le_of_le_one_left hQ.le h).trans (le_max_right _ _)
    exact ⟨lin_comp hp (b1 _ dx) (b2 _ ex) t0.le t1.le, lin_comp hp (b1 _ dy) (b2 _ ey) t0.le t1.le,
      lin_comp hp (b1 _ dz) (b2 _ ez) t0.le t1.le⟩
  · have hS : 0.0499 ≤ (d.cross e).length := by linarith
    obtain ⟨w, hw, wl, wx, wy, wz⟩ := core hp hd he hP hQ t0 t1 hc hn hs s0 h hS
    refine ⟨w, hw, Or.inr ⟨hS, wl, fun E hE => ?_⟩⟩
    have hk0 : d.cross e ≠ Vec3.zero := fun h => by
      rw [(C22_length_norm.2.1 _).2 h] at hS; norm_num at hS
    obtain ⟨hν, hkn, hl⟩ := Vec3.normalized_unit hk0
    have hperp := cross_unit hkn hl
    obtain ⟨a1, a2⟩ := angle hp s0 S0 S1 t0.le t1.le sS
    obtain ⟨rx, ry, rz⟩ := turn_diff hν hd hperp (rne p (rne p (Real.arcsin s) * t)) (t * Real.arcsin (d.cross e).length)
    have hE' : |rne p (rne p (Real.arcsin s) * t) - t * Real.arcsin (d.cross e).length| ≤ E - 1963 * (2 : ℝ) ^ (-(p : ℤ)) := by
      rcases hE with rfl | ⟨h9, rfl⟩
      · linarith
      · have := a2 h9; linarith
    have l0 : 0 ≤ (1 - t) * P + t * Q := add_nonneg (mul_nonneg (by linarith) hP.le) (mul_nonneg t0.le hQ.le)
    have lM : (1 - t) * P + t * Q ≤ max P Q := by
      have h1 := mul_le_mul_of_nonneg_left (le_max_left P Q) (show 0 ≤ 1 - t by linarith)
      have h2 := mul_le_mul_of_nonneg_left (le_max_right P Q) t0.le
      linarith
    have fin : ∀ {a b r : ℝ}, |r - b| ≤ |rne p (rne p (Real.arcsin s) * t) - t * Real.arcsin (d.cross e).length| →
        |a - ((1 - t) * P + t * Q) * r| ≤ 1963 * ((2 : ℝ) ^ (-(p : ℤ)) * max P Q) → |a - ((1 - t) * P + t * Q) * b| ≤ E * max P Q := by
      intro a b r h1 h2
      have h3 := mul_le_mul lM (h1.trans hE') (abs_nonneg _) (l0.trans lM)
      have h4 : |((1 - t) * P + t * Q) * (r - b)| = ((1 - t) * P + t * Q) * |r - b| := by rw [abs_mul, abs_of_nonneg l0]
      rw [← h4] at h3
      have h5 := abs_le.1 h3
      have h6 := abs_le.1 h2
      rw [abs_le]; constructor <;> linarith
    exact ⟨fin rx wx, fin ry wy, fin rz wz⟩

/-- two vectors of length 2 at right angles, and a precision of 24 bits -/
example : ∃ (d e : Vec3 ℝ) (t : ℝ), 20 ≤ 24 ∧ d.IsUnit ∧ e.IsUnit ∧ t ∈ Set.Ioo (0 : ℝ) 1 ∧ d ≠ e ∧ 0.0501 < (d.cross e).length := by
  refine ⟨⟨1, 0, 0⟩, ⟨0, 1, 0⟩, 1 / 2, by norm_num, by norm_num [Vec3.IsUnit], by norm_num [Vec3.IsUnit], by norm_num, ?_, ?_⟩
  · intro h; have := congrArg Vec3.x h; norm_num at this
  · have : ((⟨1, 0, 0⟩ : Vec3 ℝ).cross ⟨0, 1, 0⟩).length = 1 := Vec3.length_eq (by norm_num) (by norm_num [Vec3.cross])
    rw [this]; norm_num

/-- **C182: the ends.** At the parameters 0 and 1 the ends come back exactly. A null end makes the interpolation linear: the
other vector is scaled, each component up to 5.01 units of itself. -/
theorem C182_ends (hp : 20 ≤ p) (v w : Vec3 ℝ) {t : ℝ} (ht : t ∈ Set.Ioo (0 : ℝ) 1) :
    Vec3.slerp (Vec3.num v : Vec3 (Fl ℝ (rne p))) (Vec3.num w) 0 = .ok (Vec3.num v) ∧
    Vec3.slerp (Vec3.num v : Vec3 (Fl ℝ (rne p))) (Vec3.num w) 1 = .ok (Vec3.num w) ∧
    (∃ a : Vec3 ℝ, Vec3.slerp (Vec3.num ⟨0, 0, 0⟩ : Vec3 (Fl ℝ (rne p))) (Vec3.num v) (.num t) = .ok (Vec3.num a) ∧
      |a.x - t * v.x| ≤ 5.01 * ((2 : ℝ) ^ (-(p : ℤ)) * |v.x|) ∧ |a.y - t * v.y| ≤ 5.01 * ((2 : ℝ) ^ (-(p : ℤ)) * |v.y|) ∧
      |a.z - t * v.z| ≤ 5.01 * ((2 : ℝ) ^ (-(p : ℤ)) * |v.z|)) ∧
    (∃ a : Vec3 ℝ, Vec3.slerp (Vec3.num v : Vec3 (Fl ℝ (rne p))) (Vec3.num ⟨0, 0, 0⟩) (.num t) = .ok (Vec3.num a) ∧
      |a.x - (1 - t) * v.x| ≤ 5.01 * ((2 : ℝ) ^ (-(p : ℤ)) * |v.x|) ∧ |a.y - (1 - t) * v.y| ≤ 5.01 * ((2 : ℝ) ^ (-(p : ℤ)) * |v.y|) ∧
      |a.z - (1 - t) * v.z| ≤ 5.01 * ((2 : ℝ) ^ (-(p : ℤ)) * |v.z|)) := by
  obtain ⟨t0, t1⟩ := ht
  have hr := isRel_rne p (show 1 ≤ p by omega)
  have b1 : (Fl.num t == (0 : Fl ℝ (rne p))) = false := by rw [Fl.zero_def, Fl.num_beq]; simpa using t0.ne'
  have b2 : (Fl.num t == (1 : Fl ℝ (rne p))) = false := by rw [Fl.one_def, Fl.num_beq]; simpa using t1.ne
  have c0 : ((0 : Fl ℝ (rne p)) == 0) = true := by rw [Fl.zero_def, Fl.num_beq]; simp
  have c1 : ((1 : Fl ℝ (rne p)) == 0) = false := by rw [Fl.one_def, Fl.zero_def, Fl.num_beq]; simp
  have c2 : ((1 : Fl ℝ (rne p)) == 1) = true := by rw [Fl.one_def, Fl.num_beq]; simp
  have h0 : ((Vec3.num (⟨0, 0, 0⟩ : Vec3 ℝ) : Vec3 (Fl ℝ (rne p))).length == 0) = true := by
    rw [(C119_null hr ⟨0, 0⟩ _).2]; simp
  refine ⟨?_, ?_, ⟨⟨rne p (0 + rne p (rne p (v.x - 0) * t)), rne p (0 + rne p (rne p (v.y - 0) * t)),
      rne p (0 + rne p (rne p (v.z - 0) * t))⟩, ?_, ?_⟩, ⟨⟨rne p (v.x + rne p (rne p (0 - v.x) * t)),
      rne p (v.y + rne p (rne p (0 - v.y) * t)), rne p (v.z + rne p (rne p (0 - v.z) * t))⟩, ?_, ?_⟩⟩
  · unfold Vec3.slerp; rw [c0]; rfl
  · unfold Vec3.slerp; rw [c1, c2]; rfl
  · unfold Vec3.slerp
    dsimp only
    rw [b1, b2, h0]
    simp only [Bool.true_or, if_true, Bool.false_eq_true, if_false, Vec3.num, Fl.num_sub, Fl.num_mul, Fl.num_add]
  · have k : ∀ a : ℝ, |rne p (0 + rne p (rne p (a - 0) * t)) - t * a| ≤ 5.01 * ((2 : ℝ) ^ (-(p : ℤ)) * |a|) := fun a => by
      have := lin_comp hp (a := 0) (b := a) (M := |a|) (by simp) le_rfl t0.le t1.le
      rwa [mul_zero, zero_add (t * a)] at this
    exact ⟨k _, k _, k _⟩
  · unfold Vec3.slerp
    dsimp only
    rw [b1, b2, h0]
    simp only [Bool.or_true, if_true, Bool.false_eq_true, if_false, Vec3.num, Fl.num_sub, Fl.num_mul, Fl.num_add]
  · have k : ∀ a : ℝ, |rne p (a + rne p (rne p (0 - a) * t)) - (1 - t) * a| ≤ 5.01 * ((2 : ℝ) ^ (-(p : ℤ)) * |a|) := fun a => by
      have := lin_comp hp (a := a) (b := 0) (M := |a|) le_rfl (by simp) t0.le t1.le
      rwa [mul_zero, add_zero] at this
    exact ⟨k _, k _, k _⟩

/-- half way from the null vector -/
example : (20 : ℕ) ≤ 24 ∧ (1 / 2 : ℝ) ∈ Set.Ioo (0 : ℝ) 1 := by norm_num

/-- The full claim: the components are within a fixed number of units, ten million, of the exact interpolation, also for vectors
at nearly a right angle. -/
def C182_full (p : ℕ) : Prop :=
  ∀ v w : Vec3 ℝ, Rep p v.x ∧ Rep p v.y ∧ Rep p v.z → Rep p w.x ∧ Rep p w.y ∧ Rep p w.z → 0 ≤ v.dot w →
    ∀ a b : Vec3 ℝ, Vec3.slerp (Vec3.num v : Vec3 (Fl ℝ (rne p))) (Vec3.num w) (.num (1 / 2)) = .ok (Vec3.num a) →
      v.slerp w (1 / 2) = .ok b → |a.x - b.x| ≤ 10 ^ 7 * ((2 : ℝ) ^ (-(p : ℤ)) * max v.length w.length)

private theorem rnds : rne 53 (√2 : ℝ) = 6369051672525773 / 2 ^ 52 ∧
    rne 53 ((6369051672525773 / 2 ^ 52 * (6369051672525773 / 2 ^ 52) : ℝ)) = 2 + 1 / 2 ^ 51 ∧
    rne 53 (2 / (2 + 1 / 2 ^ 51) : ℝ) = 1 - 1 / 2 ^ 52 ∧
    rne 53 ((1 - 1 / 2 ^ 52) * (1 - 1 / 2 ^ 52) : ℝ) = 1 - 1 / 2 ^ 51 ∧
    rne 53 (√(1 - 1 / 2 ^ 51) : ℝ) = 1 - 1 / 2 ^ 52 ∧
    rne 53 (1 / (1 - 1 / 2 ^ 52) : ℝ) = 1 + 1 / 2 ^ 52 ∧
    rne 53 ((1 - 1 / 2 ^ 52) * (1 + 1 / 2 ^ 52) : ℝ) = 1 := by
  have s1 : (6369051672525772 : ℝ) / 2 ^ 52 < √2 := Real.lt_sqrt_of_sq_lt (by norm_num)
  have s1' : (12738103345051545 : ℝ) / 2 ^ 53 < √2 := Real.lt_sqrt_of_sq_lt (by norm_num)
  have s2 : √2 < (12738103345051547 : ℝ) / 2 ^ 53 := (Real.sqrt_lt' (by norm_num)).2 (by norm_num)
  have s3 : (1 : ℝ) - 3 / 2 ^ 53 < √(1 - 1 / 2 ^ 51) := Real.lt_sqrt_of_sq_lt (by norm_num)
  have s3' : (1 : ℝ) - 5 / 2 ^ 54 < √(1 - 1 / 2 ^ 51) := Real.lt_sqrt_of_sq_lt (by norm_num)
  have s4 : √(1 - 1 / 2 ^ 51) < (1 : ℝ) - 3 / 2 ^ 54 := (Real.sqrt_lt' (by norm_num)).2 (by norm_num)
  refine ⟨?_, ?_, ?_, ?_, ?_, ?_, ?_⟩
  · rw [rne_eq (-52) 6369051672525773 (by norm_num at s1 ⊢) (by norm_num at s2 ⊢)
      (by rw [abs_lt]; norm_num at s1' s2 ⊢; constructor <;> linarith)]; norm_num
  · rw [rne_eq (-51) 4503599627370497 (by norm_num) (by norm_num) (by rw [abs_lt]; norm_num)]; norm_num
  · rw [rne_eq (-53) 9007199254740990 (by norm_num) (by norm_num) (by rw [abs_lt]; norm_num)]; norm_num
  · rw [rne_eq (-53) 9007199254740988 (by norm_num) (by norm_num) (by rw [abs_lt]; norm_num)]; norm_num
  · rw [rne_eq (-53) 9007199254740990 (by norm_num at s3 ⊢; linarith) (by norm_num at s4 ⊢; linarith)
      (by rw [abs_lt]; norm_num at s3' s4 ⊢; constructor <;> linarith)]; norm_num
  · rw [rne_eq (-52) 4503599627370497 (by norm_num) (by norm_num) (by rw [abs_lt]; norm_num)]; norm_num
  · rw [rne_eq (-53) 9007199254740992 (by norm_num) (by norm_num) (by rw [abs_lt]; norm_num)]; norm_num

/-- the two diagonal directions of the witness -/
private theorem diagonals : (⟨1 / √2, 1 / √2, 0⟩ : Vec3 ℝ).IsUnit ∧ (⟨-1 / √2, 1 / √2, 0⟩ : Vec3 ℝ).IsUnit ∧
    (⟨1 / √2, 1 / √2, 0⟩ : Vec3 ℝ) * √2 = ⟨1, 1, 0⟩ ∧ (⟨-1 / √2, 1 / √2, 0⟩ : Vec3 ℝ) * √2 = ⟨-1, 1, 0⟩ ∧
    (⟨1 / √2, 1 / √2, 0⟩ : Vec3 ℝ).cross ⟨-1 / √2, 1 / √2, 0⟩ = ⟨0, 0, 1⟩ ∧ (⟨0, 0, 1⟩ : Vec3 ℝ).length = 1 ∧
    (⟨0, 0, 1⟩ : Vec3 ℝ).normalized 1 = ⟨0, 0, 1⟩ := by
  have h2 : (0 : ℝ) < √2 := by positivity
  have h22 : √2 * √2 = (2 : ℝ) := Real.mul_self_sqrt (by norm_num)
  have hd : (⟨1 / √2, 1 / √2, 0⟩ : Vec3 ℝ).IsUnit := by
    simp only [Vec3.IsUnit, div_pow, Real.sq_sqrt (show (0 : ℝ) ≤ 2 by norm_num)]; norm_num
  have he : (⟨-1 / √2, 1 / √2, 0⟩ : Vec3 ℝ).IsUnit := by
    simp only [Vec3.IsUnit, div_pow, Real.sq_sqrt (show (0 : ℝ) ≤ 2 by norm_num)]; norm_num
  have ed : (⟨1 / √2, 1 / √2, 0⟩ : Vec3 ℝ) * √2 = ⟨1, 1, 0⟩ := by
    ext <;> simp [h2.ne']
  have ee : (⟨-1 / √2, 1 / √2, 0⟩ : Vec3 ℝ) * √2 = ⟨-1, 1, 0⟩ := by
    ext <;> simp [h2.ne']
  have ec : (⟨1 / √2, 1 / √2, 0⟩ : Vec3 ℝ).cross ⟨-1 / √2, 1 / √2, 0⟩ = ⟨0, 0, 1⟩ := by
    ext
    · simp [Vec3.cross]
    · simp [Vec3.cross]
    · simp only [Vec3.cross]
      field_simp
      nlinarith
  have el : (⟨0, 0, 1⟩ : Vec3 ℝ).length = 1 := Vec3.length_eq (by norm_num) (by norm_num)
  have en : (⟨0, 0, 1⟩ : Vec3 ℝ).normalized 1 = ⟨0, 0, 1⟩ := by
    rw [norm_comp (l := 1) (by norm_num) one_pos]; norm_num
  exact ⟨hd, he, ed, ee, ec, el, en⟩

private theorem angle_double : rne 53 (Real.arcsin (1 - 1 / 2 ^ 52)) ≤ Real.pi / 2 - 1.98 / 10 ^ 8 ∧ 0 ≤ rne 53 (Real.arcsin (1 - 1 / 2 ^ 52)) ∧
    rne 53 (rne 53 (Real.arcsin (1 - 1 / 2 ^ 52)) * (1 / 2)) ≤ Real.pi / 4 - 9.9 / 10 ^ 9 ∧
    0 ≤ rne 53 (rne 53 (Real.arcsin (1 - 1 / 2 ^ 52)) * (1 / 2)) := by
  have hr := isRel_rne 53 (by norm_num)
  have a0 : 0 ≤ Real.arcsin (1 - 1 / 2 ^ 52) := Real.arcsin_nonneg.2 (by norm_num)
  have a1 : Real.arcsin (1 - 1 / 2 ^ 52) ≤ Real.pi / 2 - 2 / 10 ^ 8 := by
    have pi3 := Real.pi_gt_three
    have h := Real.one_sub_sq_div_two_le_cos (x := 2 / 10 ^ 8)
    rw [← Real.sin_pi_div_two_sub] at h
    apply (Real.arcsin_le_iff_le_sin (by norm_num) ⟨by linarith, by linarith⟩).2
    refine le_trans ?_ h
    norm_num
  have e1 := hr.err (Real.arcsin (1 - 1 / 2 ^ 52))
  have e2 := hr.err (rne 53 (Real.arcsin (1 - 1 / 2 ^ 52)) * (1 / 2))
  generalize rne 53 (rne 53 (Real.arcsin (1 - 1 / 2 ^ 52)) * (1 / 2)) = V at *
  generalize rne 53 (Real.arcsin (1 - 1 / 2 ^ 52)) = W at *
  generalize Real.arcsin (1 - 1 / 2 ^ 52) = a at *
  have pi4 := Real.pi_lt_four
  rw [abs_of_nonneg a0] at e1
  have f1 := abs_le.1 e1
  norm_num at f1
  have W0 : 0 ≤ W := by linarith
  rw [abs_of_nonneg (show 0 ≤ W * (1 / 2) by positivity)] at e2
  have f2 := abs_le.1 e2
  norm_num at f2 ⊢
  refine ⟨?_, W0, ?_, ?_⟩ <;> linarith

private theorem dip {θ : ℝ} (h : θ ≤ Real.pi / 4 - 9.9 / 10 ^ 9) (h0 : 0 ≤ θ) : 8.1 / 10 ^ 9 ≤ Real.cos θ - Real.sin θ := by
  have pi3 := Real.pi_gt_three
  have pi4 := Real.pi_lt_d4
  have e : Real.cos θ - Real.sin θ = √2 * Real.sin (Real.pi / 4 - θ) := by
    rw [Real.sin_sub, Real.cos_pi_div_four, Real.sin_pi_div_four]
    have : √2 * √2 = (2 : ℝ) := Real.mul_self_sqrt (by norm_num)
    linear_combination (-(Real.cos θ) / 2 + Real.sin θ / 2) * this
  have s := Real.mul_le_sin (x := Real.pi / 4 - θ) (by linarith) (by linarith)
  have s2 : (1.41 : ℝ) ≤ √2 := Real.le_sqrt_of_sq_le (by norm_num)
  have q : (0.63 : ℝ) ≤ 2 / Real.pi := by rw [le_div_iff₀ Real.pi_pos]; linarith
  have q2 := mul_le_mul q (show 9.9 / 10 ^ 9 ≤ Real.pi / 4 - θ by linarith) (by norm_num) (by positivity)
  rw [e]
  have q3 := mul_le_mul s2 (q2.trans s) (by norm_num) (by positivity)
  refine le_trans ?_ q3
  norm_num

private theorem double_axis :
    ((Vec3.num ⟨1, 1, 0⟩ : Vec3 (Fl ℝ (rne 53))).cross (Vec3.num ⟨-1, 1, 0⟩)).div
      ((Vec3.num ⟨1, 1, 0⟩ : Vec3 (Fl ℝ (rne 53))).length * (Vec3.num ⟨-1, 1, 0⟩ : Vec3 (Fl ℝ (rne 53))).length) =
      .ok (Vec3.num ⟨0, 0, 1 - 1 / 2 ^ 52⟩) ∧
    (Vec3.num ⟨0, 0, 1 - 1 / 2 ^ 52⟩ : Vec3 (Fl ℝ (rne 53))).dot ((Vec3.num ⟨0, 0, 1 - 1 / 2 ^ 52⟩ : Vec3 (Fl ℝ (rne 53))).normalized 1) =
      .num (1 - 1 / 2 ^ 52) := by
  obtain ⟨q1, q2, q3, q4, q5, q6, q7⟩ := rnds
  have r0 : rne 53 (0 : ℝ) = 0 := rne_zero 53
  have r1 : rne 53 (1 : ℝ) = 1 := rne_of_rep (by norm_num) (by have := Rep.nat (p := 53) (K := ℝ) 1 (by norm_num); rwa [Nat.cast_one] at this)
  have rm : rne 53 (-1 : ℝ) = -1 := by rw [rne_neg, r1]
  have r2 : rne 53 (2 : ℝ) = 2 := rne_of_rep (by norm_num) (by have := Rep.nat (p := 53) (K := ℝ) 2 (by norm_num); rwa [Nat.cast_ofNat] at this)
  have n2 : ¬ ((2 : ℝ) < 0) := by norm_num
  have len1 : (Vec3.num ⟨1, 1, 0⟩ : Vec3 (Fl ℝ (rne 53))).length = .num (6369051672525773 / 2 ^ 52) := by
    simp only [Vec3.length, Vec3.num, Fl.num_mul, Fl.num_add, Fl.fl_sqrt, mul_one, mul_zero, r0, r1, one_add_one_eq_two, r2, add_zero, q1, n2, if_false]
  have len2 : (Vec3.num ⟨-1, 1, 0⟩ : Vec3 (Fl ℝ (rne 53))).length = .num (6369051672525773 / 2 ^ 52) := by
    simp only [Vec3.length, Vec3.num, Fl.num_mul, Fl.num_add, Fl.fl_sqrt, mul_neg, neg_neg, mul_one, mul_zero, r0, r1, one_add_one_eq_two, r2, add_zero, q1, n2, if_false]
  have k0 : ¬ ((2 : ℝ) + 1 / 2 ^ 51 = 0) := by positivity
  have hn : ((Vec3.num ⟨1, 1, 0⟩ : Vec3 (Fl ℝ (rne 53))).cross (Vec3.num ⟨-1, 1, 0⟩)).div
      ((Vec3.num ⟨1, 1, 0⟩ : Vec3 (Fl ℝ (rne 53))).length * (Vec3.num ⟨-1, 1, 0⟩ : Vec3 (Fl ℝ (rne 53))).length) =
      .ok (Vec3.num ⟨0, 0, 1 - 1 / 2 ^ 52⟩) := by
    rw [len1, len2, Fl.num_mul, q2]
    have b : (Fl.num (2 + 1 / 2 ^ 51) == (0 : Fl ℝ (rne 53))) = false := by rw [Fl.zero_def, Fl.num_beq]; simpa using k0
    unfold Vec3.div
    rw [b]
    simp only [Vec3.cross, Vec3.num, Fl.num_mul, Fl.num_sub, Fl.num_div, mul_one, one_mul, mul_zero, zero_mul, r0, r1, rm, sub_zero,
      sub_neg_eq_add, one_add_one_eq_two, r2, if_neg k0, zero_div, q3]
    rfl
  have l0 : ¬ ((1 : ℝ) - 1 / 2 ^ 52 = 0) := by norm_num
  have l1 : ¬ ((1 : ℝ) - 1 / 2 ^ 51 < 0) := by norm_num
  have r4 : rne 53 ((1 : ℝ) - 1 / 2 ^ 51) = 1 - 1 / 2 ^ 51 := by rw [← q4, rne_rne 53 (by norm_num)]
  have r5 : rne 53 ((1 : ℝ) - 1 / 2 ^ 52) = 1 - 1 / 2 ^ 52 := by rw [← q3, rne_rne 53 (by norm_num)]
  have hs : (Vec3.num ⟨0, 0, 1 - 1 / 2 ^ 52⟩ : Vec3 (Fl ℝ (rne 53))).dot ((Vec3.num ⟨0, 0, 1 - 1 / 2 ^ 52⟩ : Vec3 (Fl ℝ (rne 53))).normalized 1) =
      .num (1 - 1 / 2 ^ 52) := by
    have e : (Vec3.num ⟨0, 0, 1 - 1 / 2 ^ 52⟩ : Vec3 (Fl ℝ (rne 53))).length = .num (1 - 1 / 2 ^ 52) := by
      simp only [Vec3.length, Vec3.num, Fl.num_mul, Fl.num_add, Fl.fl_sqrt, mul_zero, r0, add_zero, zero_add, q4, r4, q5, l1, if_false]
    have b : (Fl.num (1 - 1 / 2 ^ 52) == (0 : Fl ℝ (rne 53))) = false := by rw [Fl.zero_def, Fl.num_beq]; simpa using l0
    unfold Vec3.normalized
    simp only [e, b, Fl.one_def]
    simp only [Vec3.dot, Vec3.num, Fl.num_mul, Fl.num_add, Fl.num_div, if_neg l0, q6, q7, zero_mul, mul_zero, mul_one, r0, r5, zero_add,
      Bool.false_eq_true, if_false]
  exact ⟨hn, hs⟩

private theorem at_double : ∃ w : Vec3 ℝ,
    Vec3.slerp (Vec3.num ⟨1, 1, 0⟩ : Vec3 (Fl ℝ (rne 53))) (Vec3.num ⟨-1, 1, 0⟩) (.num (1 / 2)) = .ok (Vec3.num w) ∧ 8 / 10 ^ 9 ≤ w.x := by
  obtain ⟨hn, hs⟩ := double_axis
  have h2 : (0 : ℝ) < √2 := by positivity
  obtain ⟨hd, he, ed, ee, ec, el, en⟩ := diagonals
  obtain ⟨c, hc, hc'⟩ := limit (p := 53) (by norm_num)
  have c' := abs_le.1 hc'
  rw [← ed, ← ee] at hn ⊢
  obtain ⟨w, hw, -, wx, -, -⟩ := core (p := 53) (by norm_num) hd he h2 h2 (t := 1 / 2) (by norm_num) (by norm_num) hc hn hs (by norm_num)
    (by norm_num at c' ⊢; linarith) (by rw [ec, el]; norm_num)
  refine ⟨w, hw, ?_⟩
  rw [ec, en] at wx
  obtain ⟨-, -, a1, a2⟩ := angle_double
  generalize rne 53 (rne 53 (Real.arcsin (1 - 1 / 2 ^ 52)) * (1 / 2)) = θ at *
  have hdip := dip a1 a2
  have er : ((1 - 1 / 2) * √2 + 1 / 2 * √2) * (rodrigues ⟨0, 0, 1⟩ θ (⟨1 / √2, 1 / √2, 0⟩ : Vec3 ℝ)).x = Real.cos θ - Real.sin θ := by
    have : (rodrigues ⟨0, 0, 1⟩ θ (⟨1 / √2, 1 / √2, 0⟩ : Vec3 ℝ)).x = 1 / √2 * (Real.cos θ - Real.sin θ) := by
      simp only [rodrigues, Vec3.cross, Vec3.dot, Vec3.add_x, Vec3.mul_x]; ring
    rw [this]
    field_simp
    ring
  rw [er, max_self] at wx
  have wx' := abs_le.1 wx
  have s2 : √2 < (1.5 : ℝ) := (Real.sqrt_lt' (by norm_num)).2 (by norm_num)
  norm_num at wx' ⊢
  linarith

/-- **C182 (refuted).** The full claim fails in double precision: half way between (1, 1, 0) and (-1, 1, 0) the exact result is
(0, √2, 0), and the code returns a vector with x ≥ 8e-9, some 50 million units. The sine of the right angle comes out as
`1 - 2^-52`, and `asin` turns this one unit into an angle of 2e-8. -/
theorem C182_refuted : ¬ C182_full 53 := by
  intro h
  obtain ⟨w, hw, hx⟩ := at_double
  have h2 : (0 : ℝ) < √2 := by positivity
  obtain ⟨hd, he, ed, ee, ec, el, en⟩ := diagonals
  have ev : (⟨1, 1, 0⟩ : Vec3 ℝ).slerp ⟨-1, 1, 0⟩ (1 / 2) = .ok (rodrigues ⟨0, 0, 1⟩ (Real.pi / 4) ⟨1 / √2, 1 / √2, 0⟩ * √2) := by
    have := Vec3.slerp_rot' hd he (by rw [ec, el]; norm_num) h2 h2 (1 / 2) (by norm_num) (by norm_num)
    rw [ed, ee, ec, en, el, Real.arcsin_one, sub_self, zero_mul, add_zero] at this
    rw [this]
    congr 3
    ring
  have r0 : Rep 53 (0 : ℝ) := Rep.zero 53
  have r1 : Rep 53 (1 : ℝ) := by have := Rep.nat (p := 53) (K := ℝ) 1 (by norm_num); rwa [Nat.cast_one] at this
  have r2 : Rep 53 (-1 : ℝ) := r1.neg
  have key := h ⟨1, 1, 0⟩ ⟨-1, 1, 0⟩ ⟨r1, r1, r0⟩ ⟨r2, r1, r0⟩ (by norm_num [Vec3.dot]) w _ hw ev
  have ex : (rodrigues ⟨0, 0, 1⟩ (Real.pi / 4) (⟨1 / √2, 1 / √2, 0⟩ : Vec3 ℝ) * √2).x = 0 := by
    simp only [rodrigues, Vec3.cross, Vec3.dot, Vec3.add_x, Vec3.mul_x, Real.cos_pi_div_four, Real.sin_pi_div_four]; ring
  have l1 : (⟨1, 1, 0⟩ : Vec3 ℝ).length ≤ 1.5 := by
    show √(1 * 1 + 1 * 1 + 0 * 0) ≤ 1.5
    exact Real.sqrt_le_iff.2 (by norm_num)
  have l2 : (⟨-1, 1, 0⟩ : Vec3 ℝ).length ≤ 1.5 := by
    show √(-1 * -1 + 1 * 1 + 0 * 0) ≤ 1.5
    exact Real.sqrt_le_iff.2 (by norm_num)
  rw [ex, sub_zero] at key
  have k2 := (le_abs_self w.x).trans (key.trans (mul_le_mul_of_nonneg_left (mul_le_mul_of_nonneg_left (max_le l1 l2) (by positivity)) (by positivity)))
  norm_num at k2 hx
  linarith

/-- a unit vector perpendicular to `d` in the direction of the cross product with `e` -/
private theorem perp_exists (d e : Vec3 ℝ) (hd : d.IsUnit) :
    ∃ ν : Vec3 ℝ, ν.IsUnit ∧ ν.dot d = 0 ∧ d.cross e = ν * (d.cross e).length := by
  by_cases hk0 : d.cross e = Vec3.zero
  · have z : (d.cross e).length = 0 := (C22_length_norm.2.1 _).2 hk0
    have fin : ∀ ν : Vec3 ℝ, d.cross e = ν * (d.cross e).length := fun ν => by
      rw [z, hk0]; ext <;> simp [Vec3.zero]
    by_cases h : d.x ^ 2 + d.y ^ 2 = 0
    · have hx := sq_nonneg d.x
      have hy := sq_nonneg d.y
      have x0 : d.x = 0 := pow_eq_zero_iff (two_ne_zero) |>.1 (by linarith)
      exact ⟨⟨1, 0, 0⟩, by norm_num [Vec3.IsUnit], by simp [Vec3.dot, x0], fin _⟩
    · have pos : 0 < d.x ^ 2 + d.y ^ 2 := lt_of_le_of_ne (by positivity) (Ne.symm h)
      have sp := Real.sqrt_pos.2 pos
      refine ⟨⟨-d.y / √(d.x ^ 2 + d.y ^ 2), d.x / √(d.x ^ 2 + d.y ^ 2), 0⟩, ?_, ?_, fin _⟩
      · show (_ : ℝ) ^ 2 + _ ^ 2 + _ ^ 2 = 1
        simp only [div_pow, Real.sq_sqrt pos.le]
        field_simp
        ring
      · simp only [Vec3.dot]
        field_simp
        ring
  · obtain ⟨hν, hkn, hkl⟩ := Vec3.normalized_unit hk0
    exact ⟨_, hν, cross_unit hkn hkl, hkn⟩

/-- `slerpMaxAngle` once the axis and the sine have been computed -/
private theorem max_unfolded (hp : 20 ≤ p) {d e : Vec3 ℝ} (hd : d.IsUnit) (he : e.IsUnit) {P Q : ℝ} (hP : 0 < P) (hQ : 0 < Q) {m : ℝ}
    (m0 : 0 < m) {n : Vec3 ℝ} {s α : ℝ} (hα : rne p (Real.arcsin s) = α) (α0 : 0 ≤ α)
    (hn : ((Vec3.num (d * P) : Vec3 (Fl ℝ (rne p))).cross (Vec3.num (e * Q))).div
        ((Vec3.num (d * P) : Vec3 (Fl ℝ (rne p))).length * (Vec3.num (e * Q) : Vec3 (Fl ℝ (rne p))).length) = .ok (Vec3.num n))
    (hs : (Vec3.num n : Vec3 (Fl ℝ (rne p))).dot ((Vec3.num n : Vec3 (Fl ℝ (rne p))).normalized 1) = .num s) :
    ∃ A B : ℝ, |A - P| ≤ 3.001 * ((2 : ℝ) ^ (-(p : ℤ)) * P) ∧ |B - Q| ≤ 3.001 * ((2 : ℝ) ^ (-(p : ℤ)) * Q) ∧
    Vec3.slerpMaxAngle (Vec3.num (d * P) : Vec3 (Fl ℝ (rne p))) (Vec3.num (e * Q)) (.num m) =
      if α = 0 then .ok (Vec3.num (e * Q))
      else .ok ((((Quat.ofAxisAngle (Vec3.num n : Vec3 (Fl ℝ (rne p))) (.num (min α m))).rotated
        (Vec3.num (d * P))).normalize (.num (rne p (A + rne p (rne p (B - A) * rne p (min α m / α)))))).1) := by
  have hr := isRel_rne p (show 1 ≤ p by omega)
  have u0 := hr.nonneg
  have hu := u20 hp
  obtain ⟨g3, -, -, -⟩ := gams u0 hu
  obtain ⟨A, eA, hA⟩ := (vlen hp hd hP).error hr
  obtain ⟨B, eB, hB⟩ := (vlen hp he hQ).error hr
  rw [abs_of_pos hP] at hA
  rw [abs_of_pos hQ] at hB
  have hA' : |A - P| ≤ 3.001 * ((2 : ℝ) ^ (-(p : ℤ)) * P) := by have := mul_le_mul_of_nonneg_right g3 hP.le; linarith
  have hB' : |B - Q| ≤ 3.001 * ((2 : ℝ) ^ (-(p : ℤ)) * Q) := by have := mul_le_mul_of_nonneg_right g3 hQ.le; linarith
  have A0 : A ≠ 0 := by
    have h1 := abs_le.1 hA'
    have h2 := mul_le_mul_of_nonneg_right hu hP.le
    intro h; rw [h] at h1; linarith
  have B0 : B ≠ 0 := by
    have h1 := abs_le.1 hB'
    have h2 := mul_le_mul_of_nonneg_right hu hQ.le
    intro h; rw [h] at h1; linarith
  refine ⟨A, B, hA', hB', ?_⟩
  have b1 : (Fl.num m ≥ (0 : Fl ℝ (rne p))) := by rw [Fl.zero_def, ge_iff_le, Fl.num_le]; exact m0.le
  have b2 : (Fl.num m == (0 : Fl ℝ (rne p))) = false := by rw [Fl.zero_def, Fl.num_beq]; simpa using m0.ne'
  have b3 : (Fl.num A == (0 : Fl ℝ (rne p))) = false := by rw [Fl.zero_def, Fl.num_beq]; simpa using A0
  have b4 : (Fl.num B == (0 : Fl ℝ (rne p))) = false := by rw [Fl.zero_def, Fl.num_beq]; simpa using B0
  have b5 : (Fl.num α ≥ (0 : Fl ℝ (rne p))) := by rw [Fl.zero_def, ge_iff_le, Fl.num_le]; exact α0
  unfold Vec3.slerpMaxAngle
  rw [if_pos b1]
  dsimp only
  rw [b2, hn]
  simp only [eA, eB, b3, b4, Bool.false_eq_true, if_false, bind, Except.bind]
  rw [hs, asin_num, hα]
  by_cases h : α = 0
  · have b6 : (Fl.num α == (0 : Fl ℝ (rne p))) = true := by rw [Fl.zero_def, Fl.num_beq]; simpa using h
    rw [if_pos h, if_pos b6]
  · have b6 : ¬ (Fl.num α == (0 : Fl ℝ (rne p))) = true := by rw [Fl.zero_def, Fl.num_beq]; simpa using h
    rw [if_neg h, if_neg b6, if_pos b5]
    have e : (if (Fl.num α : Fl ℝ (rne p)) > .num m then (.num m : Fl ℝ (rne p)) else .num α) = .num (min α m) := by
      rcases lt_or_ge m α with h1 | h1
      · rw [if_pos (by rw [gt_iff_lt, Fl.num_lt]; exact h1), min_eq_right h1.le]
      · rw [if_neg (by rw [gt_iff_lt, Fl.num_lt]; exact not_lt.2 h1), min_eq_left h1]
    rw [e, Fl.num_div, if_neg h, Fl.num_sub, Fl.num_mul, Fl.num_add]

/-- the result, given the axis and the sine that the code computes -/
private theorem max_core (hp : 20 ≤ p) {d e : Vec3 ℝ} (hd : d.IsUnit) (he : e.IsUnit) {P Q : ℝ} (hP : 0 < P) (hQ : 0 < Q) {m : ℝ}
    (hm : 0 < m) (hmr : Rep p m) {n : Vec3 ℝ} {s : ℝ}
    (hn : ((Vec3.num (d * P) : Vec3 (Fl ℝ (rne p))).cross (Vec3.num (e * Q))).div
        ((Vec3.num (d * P) : Vec3 (Fl ℝ (rne p))).length * (Vec3.num (e * Q) : Vec3 (Fl ℝ (rne p))).length) = .ok (Vec3.num n))
    (hs : (Vec3.num n : Vec3 (Fl ℝ (rne p))).dot ((Vec3.num n : Vec3 (Fl ℝ (rne p))).normalized 1) = .num s) :
    ∃ w : Vec3 ℝ, Vec3.slerpMaxAngle (Vec3.num (d * P) : Vec3 (Fl ℝ (rne p))) (Vec3.num (e * Q)) (.num m) = .ok (Vec3.num w) ∧
    ((w = e * Q ∧ (d.cross e).length ≤ 17.34 * (2 : ℝ) ^ (-(p : ℤ))) ∨
     ∃ α r : ℝ, α = rne p (Real.arcsin s) ∧ 0 < α ∧ |α - Real.arcsin (d.cross e).length| ≤ 11.2 * √((2 : ℝ) ^ (-(p : ℤ))) + 3.2 * (2 : ℝ) ^ (-(p : ℤ)) ∧
      ((d.cross e).length ≤ 0.9 → |α - Real.arcsin (d.cross e).length| ≤ 97 * (2 : ℝ) ^ (-(p : ℤ))) ∧
      0 ≤ r ∧ r ≤ 1 ∧ |r - min α m / α| ≤ (2 : ℝ) ^ (-(p : ℤ)) ∧ (α ≤ m → r = 1) ∧
      |√(w.x ^ 2 + w.y ^ 2 + w.z ^ 2) - ((1 - r) * P + r * Q)| ≤ 12 * ((2 : ℝ) ^ (-(p : ℤ)) * max P Q) ∧
      ∃ ν : Vec3 ℝ, ν.IsUnit ∧ ν.dot d = 0 ∧ d.cross e = ν * (d.cross e).length ∧
        |w.x - ((1 - r) * P + r * Q) * (rodrigues ν (min α m) d).x| ≤ 1963 * ((2 : ℝ) ^ (-(p : ℤ)) * max P Q) ∧
        |w.y - ((1 - r) * P + r * Q) * (rodrigues ν (min α m) d).y| ≤ 1963 * ((2 : ℝ) ^ (-(p : ℤ)) * max P Q) ∧
        |w.z - ((1 - r) * P + r * Q) * (rodrigues ν (min α m) d).z| ≤ 1963 * ((2 : ℝ) ^ (-(p : ℤ)) * max P Q)) := by
  have hr := isRel_rne p (show 1 ≤ p by omega)
  have u0 := hr.nonneg
  have hu := u20 hp
  obtain ⟨n', s', hn', hs', s0, hn0, S0, S1, sS, nx, ny, nz, hz⟩ := sine_near hp hd he hP hQ
  rw [hn] at hn'
  obtain rfl : n = n' := num_inj (Except.ok.inj hn')
  rw [hs] at hs'
  obtain rfl : s = s' := Fl.num.inj hs'
  obtain ⟨α0, α1⟩ := arcsin_le hp s0 sS
  obtain ⟨a1, a2⟩ := angle hp s0 S0 S1 zero_le_one le_rfl sS
  rw [mul_one, one_mul, rne_rne p (by omega)] at a1 a2
  have hαr := rep_rne p (show 1 ≤ p by omega) (Real.arcsin s)
  obtain ⟨A, B, hA, hB, hsl⟩ := max_unfolded hp hd he hP hQ hm rfl α0 hn hs
  have hα0 : rne p (Real.arcsin s) = 0 ↔ n = ⟨0, 0, 0⟩ := by
    rw [hn0]
    constructor
    · intro h
      by_contra hs0
      have := rne_pos p (by omega) _ (Real.arcsin_pos.2 (lt_of_le_of_ne s0 (Ne.symm hs0)))
      linarith
    · intro h
      rw [h, Real.arcsin_zero, rne_zero]
  generalize rne p (Real.arcsin s) = α at *
  by_cases h : α = 0
  · rw [if_pos h] at hsl
    exact ⟨e * Q, hsl, Or.inl ⟨rfl, hz (hα0.1 h)⟩⟩
  · rw [if_neg h] at hsl
    have αp : 0 < α := lt_of_le_of_ne α0 (Ne.symm h)
    have mp : 0 < min α m := lt_min αp hm
    have q0 : 0 ≤ min α m / α := (div_pos mp αp).le
    have q1 : min α m / α ≤ 1 := (div_le_one αp).2 (min_le_left _ _)
    have one : rne p (1 : ℝ) = 1 := rne_of_rep (by omega) (by have := Rep.nat (p := p) (K := ℝ) 1 Nat.one_le_two_pow; rwa [Nat.cast_one] at this)
    have r1 : rne p (min α m / α) ≤ 1 := by
      have := rne_mono p (show 1 ≤ p by omega) q1
      rwa [one] at this
    have r0 : 0 ≤ rne p (min α m / α) := (rne_pos p (by omega) _ (div_pos mp αp)).le
    have re := hr.err (min α m / α)
    rw [abs_of_nonneg q0] at re
    have re' : |rne p (min α m / α) - min α m / α| ≤ (2 : ℝ) ^ (-(p : ℤ)) := re.trans (mul_le_of_le_one_right u0 q1)
    have req : α ≤ m → rne p (min α m / α) = 1 := fun hle => by rw [min_eq_left hle, div_self h, one]
    generalize rne p (min α m / α) = r at *
    obtain ⟨ν, hν, h0, hc⟩ := perp_exists d e hd
    have hl := lengths hp hP hQ (le_max_left P Q) (le_max_right P Q) r0 r1 hA hB
    have l0 : 0 ≤ (1 - r) * P + r * Q := add_nonneg (mul_nonneg (by linarith) hP.le) (mul_nonneg r0 hQ.le)
    have lM : (1 - r) * P + r * Q ≤ max P Q := by
      have h1 := mul_le_mul_of_nonneg_left (le_max_left P Q) (show 0 ≤ 1 - r by linarith)
      have h2 := mul_le_mul_of_nonneg_left (le_max_right P Q) r0
      linarith
    have rep : Rep p (min α m) := by
      rcases min_choice α m with h1 | h1 <;> rw [h1]
      · exact hαr
      · exact hmr
    obtain ⟨w, hw, h1, h2⟩ := turned hp hd hν h0 hP S0 (by rw [← Vec3.mul_x, ← hc]; exact nx)
      (by rw [← Vec3.mul_y, ← hc]; exact ny) (by rw [← Vec3.mul_z, ← hc]; exact nz) (fun hh => h (hα0.2 hh))
      rep mp.le (by have := min_le_left α m; linarith) l0 lM hl
    rw [hw] at hsl
    exact ⟨w, hsl, Or.inr ⟨α, r, rfl, αp, a1, a2, r0, r1, re', req, h1, ν, hν, h0, hc, h2⟩⟩

/-- **C183 (partial).** For every precision of at least 20 bits and every pair of non-zero vectors, `slerpMaxAngle` with a positive
limit `m` either returns the second vector, and then the two are parallel up to 17.34 units, or turns the first one around the cross
product by the angle `min α m`, each component up to 1963 units, where `α` is the computed arc sine of the length of the cross
product of the directions. The length is interpolated with the ratio of the two angles. -/
theorem C183_turn_partial (hp : 20 ≤ p) {d e : Vec3 ℝ} (hd : d.IsUnit) (he : e.IsUnit) {P Q : ℝ} (hP : 0 < P) (hQ : 0 < Q) {m : ℝ}
    (hm : 0 < m) (hmr : Rep p m) :
    ∃ w : Vec3 ℝ, Vec3.slerpMaxAngle (Vec3.num (d * P) : Vec3 (Fl ℝ (rne p))) (Vec3.num (e * Q)) (.num m) = .ok (Vec3.num w) ∧
    ((w = e * Q ∧ (d.cross e).length ≤ 17.34 * (2 : ℝ) ^ (-(p : ℤ))) ∨
     ∃ α r : ℝ, 0 < α ∧ |α - Real.arcsin (d.cross e).length| ≤ 11.2 * √((2 : ℝ) ^ (-(p : ℤ))) + 3.2 * (2 : ℝ) ^ (-(p : ℤ)) ∧
      ((d.cross e).length ≤ 0.9 → |α - Real.arcsin (d.cross e).length| ≤ 97 * (2 : ℝ) ^ (-(p : ℤ))) ∧
      0 ≤ r ∧ r ≤ 1 ∧ |r - min α m / α| ≤ (2 : ℝ) ^ (-(p : ℤ)) ∧ (α ≤ m → r = 1) ∧
      |√(w.x ^ 2 + w.y ^ 2 + w.z ^ 2) - ((1 - r) * P + r * Q)| ≤ 12 * ((2 : ℝ) ^ (-(p : ℤ)) * max P Q) ∧
      ∃ ν : Vec3 ℝ, ν.IsUnit ∧ ν.dot d = 0 ∧ d.cross e = ν * (d.cross e).length ∧
        |w.x - ((1 - r) * P + r * Q) * (rodrigues ν (min α m) d).x| ≤ 1963 * ((2 : ℝ) ^ (-(p : ℤ)) * max P Q) ∧
        |w.y - ((1 - r) * P + r * Q) * (rodrigues ν (min α m) d).y| ≤ 1963 * ((2 : ℝ) ^ (-(p : ℤ)) * max P Q) ∧
        |w.z - ((1 - r) * P + r * Q) * (rodrigues ν (min α m) d).z| ≤ 1963 * ((2 : ℝ) ^ (-(p : ℤ)) * max P Q)) := by
  obtain ⟨n, s, hn, hs, -⟩ := sine_near hp hd he hP hQ
  obtain ⟨w, hw, h | ⟨α, r, -, h⟩⟩ := max_core hp hd he hP hQ hm hmr hn hs
  · exact ⟨w, hw, Or.inl h⟩
  · exact ⟨w, hw, Or.inr ⟨α, r, h⟩⟩

/-- two vectors at right angles, and the limit 1 -/
example : ∃ (d e : Vec3 ℝ) (m : ℝ), 20 ≤ 24 ∧ d.IsUnit ∧ e.IsUnit ∧ 0 < m ∧ m ≤ Real.pi ∧ Rep 24 m ∧
    17.34 * (2 : ℝ) ^ (-((24 : ℕ) : ℤ)) < (d.cross e).length := by
  refine ⟨⟨1, 0, 0⟩, ⟨0, 1, 0⟩, 1, by norm_num, by norm_num [Vec3.IsUnit], by norm_num [Vec3.IsUnit], by norm_num,
    by linarith [Real.pi_gt_three], ?_, ?_⟩
  · have := Rep.nat (p := 24) (K := ℝ) 1 (by norm_num); rwa [Nat.cast_one] at this
  · have : ((⟨1, 0, 0⟩ : Vec3 ℝ).cross ⟨0, 1, 0⟩).length = 1 := Vec3.length_eq (by norm_num) (by norm_num [Vec3.cross])
    rw [this]; norm_num

/-- **C183: the limit.** Unless the two vectors are parallel up to 17.34 units, the result of `slerpMaxAngle` is turned away from
the first vector by no more than the limit, up to 3421 units of the larger length, and its length is between those of the two
vectors up to 12 units. -/
theorem C183_limit (hp : 20 ≤ p) {d e : Vec3 ℝ} (hd : d.IsUnit) (he : e.IsUnit) {P Q : ℝ} (hP : 0 < P) (hQ : 0 < Q) {m : ℝ}
    (hm : 0 < m) (hm1 : m ≤ Real.pi) (hmr : Rep p m) (hS : 17.34 * (2 : ℝ) ^ (-(p : ℤ)) < (d.cross e).length) :
    ∃ w : Vec3 ℝ, Vec3.slerpMaxAngle (Vec3.num (d * P) : Vec3 (Fl ℝ (rne p))) (Vec3.num (e * Q)) (.num m) = .ok (Vec3.num w) ∧
      √(w.x ^ 2 + w.y ^ 2 + w.z ^ 2) * Real.cos m - 3421 * ((2 : ℝ) ^ (-(p : ℤ)) * max P Q) ≤ d.dot w ∧
      min P Q - 12 * ((2 : ℝ) ^ (-(p : ℤ)) * max P Q) ≤ √(w.x ^ 2 + w.y ^ 2 + w.z ^ 2) ∧
      √(w.x ^ 2 + w.y ^ 2 + w.z ^ 2) ≤ max P Q + 12 * ((2 : ℝ) ^ (-(p : ℤ)) * max P Q) := by
  have u0 := (isRel_rne p (show 1 ≤ p by omega)).nonneg
  obtain ⟨w, hw, ⟨-, h⟩ | ⟨α, r, αp, -, -, r0, r1, -, -, wl, ν, hν, h0, -, wx, wy, wz⟩⟩ := C183_turn_partial hp hd he hP hQ hm hmr
  · linarith
  refine ⟨w, hw, ?_⟩
  have l0 : 0 ≤ (1 - r) * P + r * Q := add_nonneg (mul_nonneg (by linarith) hP.le) (mul_nonneg r0 hQ.le)
  have lM : (1 - r) * P + r * Q ≤ max P Q := by
    have h1 := mul_le_mul_of_nonneg_left (le_max_left P Q) (show 0 ≤ 1 - r by linarith)
    have h2 := mul_le_mul_of_nonneg_left (le_max_right P Q) r0
    linarith
  have lm : min P Q ≤ (1 - r) * P + r * Q := by
    have h1 := mul_le_mul_of_nonneg_left (min_le_left P Q) (show 0 ≤ 1 - r by linarith)
    have h2 := mul_le_mul_of_nonneg_left (min_le_right P Q) r0
    linarith
  have wl' := abs_le.1 wl
  refine ⟨?_, by linarith, by linarith⟩
  have hcos : Real.cos m ≤ Real.cos (min α m) :=
    Real.cos_le_cos_of_nonneg_of_le_pi (lt_min αp hm).le hm1 (min_le_right _ _)
  have hdot := (rodr_unit hν hd h0 (min α m)).2
  obtain ⟨-, -, -, ds⟩ := unit_bounds hd
  generalize rodrigues ν (min α m) d = R at *
  generalize (1 - r) * P + r * Q = l at *
  have uM : 0 ≤ (2 : ℝ) ^ (-(p : ℤ)) * max P Q := mul_nonneg u0 (hP.le.trans (le_max_left _ _))
  generalize (2 : ℝ) ^ (-(p : ℤ)) * max P Q = D at *
  have hdot' : d.x * R.x + d.y * R.y + d.z * R.z = Real.cos (min α m) := hdot
  have e : d.dot w = l * Real.cos (min α m) + (d.x * (w.x - l * R.x) + d.y * (w.y - l * R.y) + d.z * (w.z - l * R.z)) := by
    rw [← hdot']; simp only [Vec3.dot]; ring
  have t := abs_add_three (d.x * (w.x - l * R.x)) (d.y * (w.y - l * R.y)) (d.z * (w.z - l * R.z))
  simp only [abs_mul] at t
  have q1 := mul_le_mul_of_nonneg_left wx (abs_nonneg d.x)
  have q2 := mul_le_mul_of_nonneg_left wy (abs_nonneg d.y)
  have q3 := mul_le_mul_of_nonneg_left wz (abs_nonneg d.z)
  have q4 := mul_le_mul_of_nonneg_right ds uM
  have t' := (abs_le.1 (t.trans (show _ ≤ 3401 * D by linarith))).1
  have q5 := mul_le_mul_of_nonneg_left hcos l0
  have q6 : |(√(w.x ^ 2 + w.y ^ 2 + w.z ^ 2) - l) * Real.cos m| ≤ 12 * D * 1 := by
    rw [abs_mul]; exact mul_le_mul wl (Real.abs_cos_le_one m) (abs_nonneg _) (by linarith)
  have q6' := (abs_le.1 q6).2
  rw [e]
  linarith

/-- **C183: the ends.** The limit 0 gives the first vector exactly, a negative limit is refused, and a null vector on either side
gives the other vector exactly. -/
theorem C183_ends (hp : 1 ≤ p) (v w : Vec3 ℝ) {m : ℝ} (hm : 0 < m) :
    Vec3.slerpMaxAngle (Vec3.num v : Vec3 (Fl ℝ (rne p))) (Vec3.num w) 0 = .ok (Vec3.num v) ∧
    Vec3.slerpMaxAngle (Vec3.num v : Vec3 (Fl ℝ (rne p))) (Vec3.num w) (.num (-m)) = .error .assertion ∧
    Vec3.slerpMaxAngle (Vec3.num ⟨0, 0, 0⟩ : Vec3 (Fl ℝ (rne p))) (Vec3.num w) (.num m) = .ok (Vec3.num w) ∧
    Vec3.slerpMaxAngle (Vec3.num v : Vec3 (Fl ℝ (rne p))) (Vec3.num ⟨0, 0, 0⟩) (.num m) = .ok (Vec3.num v) := by
  have hr := isRel_rne p hp
  have c0 : ((0 : Fl ℝ (rne p)) == 0) = true := by rw [Fl.zero_def, Fl.num_beq]; simp
  have c1 : ((0 : Fl ℝ (rne p)) ≥ 0) := by rw [Fl.zero_def, ge_iff_le, Fl.num_le]
  have c2 : ¬ (Fl.num (-m) ≥ (0 : Fl ℝ (rne p))) := by rw [Fl.zero_def, ge_iff_le, Fl.num_le]; linarith
  have b1 : (Fl.num m ≥ (0 : Fl ℝ (rne p))) := by rw [Fl.zero_def, ge_iff_le, Fl.num_le]; exact hm.le
  have b2 : (Fl.num m == (0 : Fl ℝ (rne p))) = false := by rw [Fl.zero_def, Fl.num_beq]; simpa using hm.ne'
  have h0 : ((Vec3.num (⟨0, 0, 0⟩ : Vec3 ℝ) : Vec3 (Fl ℝ (rne p))).length == 0) = true := by
    rw [(C119_null hr ⟨0, 0⟩ _).2]; simp
  refine ⟨?_, ?_, ?_, ?_⟩
  · unfold Vec3.slerpMaxAngle; rw [if_pos c1, c0]; rfl
  · unfold Vec3.slerpMaxAngle; rw [if_neg c2]
  · unfold Vec3.slerpMaxAngle; rw [if_pos b1]; dsimp only; rw [b2, h0]; rfl
  · unfold Vec3.slerpMaxAngle
    rw [if_pos b1]
    dsimp only
    rw [b2, h0]
    simp only [Bool.false_eq_true, if_false, if_true]
    by_cases hv : v = ⟨0, 0, 0⟩
    · rw [hv, if_pos h0]
    · rw [if_neg (by rw [(C119_null hr ⟨0, 0⟩ _).2]; simpa using hv)]

/-- the limit 1 in float -/
example : (1 : ℕ) ≤ 24 ∧ (0 : ℝ) < 1 := by norm_num

/-- The full claim: with a limit above the angle between the vectors, at most a right angle, the result is the second vector up to
a fixed number of units, ten million. -/
def C183_full (p : ℕ) : Prop :=
  ∀ v w : Vec3 ℝ, Rep p v.x ∧ Rep p v.y ∧ Rep p v.z → Rep p w.x ∧ Rep p w.y ∧ Rep p w.z → 0 ≤ v.dot w →
    ∀ a : Vec3 ℝ, Vec3.slerpMaxAngle (Vec3.num v : Vec3 (Fl ℝ (rne p))) (Vec3.num w) (.num 2) = .ok (Vec3.num a) →
      |a.x - w.x| ≤ 10 ^ 7 * ((2 : ℝ) ^ (-(p : ℤ)) * max v.length w.length)

/-- **C183 (refuted).** The full claim fails in double precision: from (1, 1, 0) towards (-1, 1, 0) with the limit 2, which is
above the right angle between the two, x is at least 1.2e-8 larger than -1, some 100 million units. -/
theorem C183_refuted : ¬ C183_full 53 := by
  intro h
  obtain ⟨hn, hs⟩ := double_axis
  have h2 : (0 : ℝ) < √2 := by positivity
  obtain ⟨hd, he, ed, ee, ec, el, en⟩ := diagonals
  have r0 : Rep 53 (0 : ℝ) := Rep.zero 53
  have r1 : Rep 53 (1 : ℝ) := by have := Rep.nat (p := 53) (K := ℝ) 1 (by norm_num); rwa [Nat.cast_one] at this
  have r2 : Rep 53 (-1 : ℝ) := r1.neg
  have r3 : Rep 53 (2 : ℝ) := by have := Rep.nat (p := 53) (K := ℝ) 2 (by norm_num); rwa [Nat.cast_ofNat] at this
  obtain ⟨w, hw, ⟨-, hw'⟩ | ⟨α, r, hα, αp, -, -, r0', r1', -, hr1, -, ν, -, -, hν, wx, -, -⟩⟩ :=
    max_core (p := 53) (by norm_num) hd he h2 h2 two_pos r3 (by rw [ed, ee]; exact hn) hs
  · rw [ec, el] at hw'; norm_num at hw'
  obtain ⟨a1, a2, -, -⟩ := angle_double
  rw [← hα] at a1 a2
  have pi4 := Real.pi_lt_four
  rw [hr1 (by linarith), min_eq_left (by linarith)] at wx
  rw [ed, ee] at hw
  have key := h ⟨1, 1, 0⟩ ⟨-1, 1, 0⟩ ⟨r1, r1, r0⟩ ⟨r2, r1, r0⟩ (by norm_num [Vec3.dot]) w hw
  have hν' : ν = ⟨0, 0, 1⟩ := by
    rw [ec, el] at hν
    have e := Vec3.mul_one' ν
    rw [← e, ← hν]
  have er : ((1 - 1) * √2 + 1 * √2) * (rodrigues ν α (⟨1 / √2, 1 / √2, 0⟩ : Vec3 ℝ)).x = Real.cos α - Real.sin α := by
    have : (rodrigues ⟨0, 0, 1⟩ α (⟨1 / √2, 1 / √2, 0⟩ : Vec3 ℝ)).x = 1 / √2 * (Real.cos α - Real.sin α) := by
      simp only [rodrigues, Vec3.cross, Vec3.dot, Vec3.add_x, Vec3.mul_x]; ring
    rw [hν', this]
    field_simp
    ring
  rw [er, max_self] at wx
  have wx' := abs_le.1 wx
  have s2 : √2 < (1.5 : ℝ) := (Real.sqrt_lt' (by norm_num)).2 (by norm_num)
  have hcos : 1.24 / 10 ^ 8 ≤ Real.cos α := by
    have pi3 := Real.pi_lt_d4
    have s := Real.mul_le_sin (x := Real.pi / 2 - α) (by linarith) (by linarith)
    rw [Real.sin_pi_div_two_sub] at s
    have q : (0.63 : ℝ) ≤ 2 / Real.pi := by rw [le_div_iff₀ Real.pi_pos]; linarith
    have q2 := mul_le_mul q (show 1.98 / 10 ^ 8 ≤ Real.pi / 2 - α by linarith) (by norm_num) (by positivity)
    refine le_trans ?_ (q2.trans s)
    norm_num
  have hsin := Real.sin_le_one α
  have l1 : (⟨1, 1, 0⟩ : Vec3 ℝ).length ≤ 1.5 := by
    show √(1 * 1 + 1 * 1 + 0 * 0) ≤ 1.5
    exact Real.sqrt_le_iff.2 (by norm_num)
  have l2 : (⟨-1, 1, 0⟩ : Vec3 ℝ).length ≤ 1.5 := by
    show √(-1 * -1 + 1 * 1 + 0 * 0) ≤ 1.5
    exact Real.sqrt_le_iff.2 (by norm_num)
  have k2 := (le_abs_self _).trans (key.trans (mul_le_mul_of_nonneg_left (mul_le_mul_of_nonneg_left (max_le l1 l2) (by positivity)) (by positivity)))
  norm_num at k2 wx' hcos
  linarith

end MathLib
