import Verif.Props.RoundedSquad

/-! # C198: interpolations of quaternions at the two ends of the range, in floating point -/

namespace MathLib
variable {rnd : ℝ → ℝ} {u : ℝ}

namespace EndErr

theorem gam_le' (hr : IsRel rnd u) (hu : u ≤ 1 / 1048576) (n : ℕ) (hn : n ≤ 5) : gam u n ≤ (n + 0.1) * u := by
  have h0 := hr.nonneg
  have hn' : (n : ℝ) ≤ 5 := by exact_mod_cast hn
  have n0 : (0 : ℝ) ≤ n := n.cast_nonneg
  have nu : (n : ℝ) * u ≤ 5 * u := mul_le_mul_of_nonneg_right hn' h0
  refine (gam_le hr.lt_one (n := n) (by linarith)).trans ?_
  rw [div_le_iff₀ (by linarith)]
  have h2 : (n + 0.1) * (n * u) ≤ 5.1 * (5 * u) := mul_le_mul (by linarith) nu (by positivity) (by norm_num)
  have h3 := mul_le_mul_of_nonneg_right h2 h0
  have h4 := mul_le_mul_of_nonneg_right hu h0
  nlinarith

theorem rnd_zero (hr : IsRel rnd u) : rnd 0 = 0 := by
  have := hr.err 0
  simpa using this

/-- one coordinate: multiplied by a sine, and by the reciprocal of the same sine -/
theorem coord (hr : IsRel rnd u) (hu : u ≤ 1 / 1048576) (hi : ∀ x, rnd (rnd x) = rnd x) {a b : Fl ℝ rnd} {x y S : ℝ} {e e' : ℝ} (he : e ≤ 8)
    (ha : a.Within (e * u) x) (hx : |x| ≤ 1) (hb : b.Within e' y) (hS : S ≠ 0) :
    ((a * .num S + b * .num 0) * (1 / .num S)).Within ((e + 4) * u) x ∧
    ((b * .num 0 + a * .num S) * (1 / .num S)).Within ((e + 4) * u) x := by
  have h0 := hr.nonneg
  obtain ⟨v, rfl, hv⟩ := ha
  obtain ⟨t, rfl, -⟩ := hb
  have e1 : (.num v * .num S + .num t * .num 0 : Fl ℝ rnd) = .num v * .num S := by
    simp only [Fl.num_mul, Fl.num_add, mul_zero, rnd_zero hr, add_zero, hi]
  have e2 : (.num t * .num 0 + .num v * .num S : Fl ℝ rnd) = .num v * .num S := by
    simp only [Fl.num_mul, Fl.num_add, mul_zero, rnd_zero hr, zero_add, hi]
  rw [e1, e2, and_self]
  have R : Rel u 3 (v * S * (1 / S)) (.num v * .num S * (1 / .num S) : Fl ℝ rnd) :=
    Rel.mul hr (Rel.mul hr (Rel.exact hr v) (Rel.exact hr S) (k := 1))
      (by rw [Fl.one_def]; exact Rel.div hr (Rel.exact hr 1) (Rel.exact hr S) hS (k := 1))
  obtain ⟨z, ez, hz⟩ := R.error hr
  rw [show v * S * (1 / S) = v by field_simp] at hz
  refine ⟨z, ez, ?_⟩
  have g := gam_le' hr hu 3 (by norm_num)
  push_cast at g
  have hv1 : |v| ≤ 1 + 8 * u := by
    have := abs_add_le (v - x) x
    rw [sub_add_cancel] at this
    have := mul_le_mul_of_nonneg_right he h0
    linarith
  have t1 := abs_add_le (z - v) (v - x)
  rw [sub_add_sub_cancel] at t1
  have t2 : gam u 3 * |v| ≤ (3 + 0.1) * u * (1 + 8 * u) := mul_le_mul g hv1 (abs_nonneg _) (by positivity)
  have t3 := mul_le_mul_of_nonneg_right hu h0
  nlinarith

/-- the arc at its ends -/
theorem arc (hr : IsRel rnd u) (hu : u ≤ 1 / 1048576) (hi : ∀ x, rnd (rnd x) = rnd x) (h1 : rnd 1 = 1) {a b : Quat (Fl ℝ rnd)} {P Q : Quat ℝ}
    (hP : P.IsUnit) (hQ : Q.IsUnit) {e : ℝ} (he : e ≤ 8)
    (ha : a.Near (e * u) P) (hb : b.Near (e * u) Q) {v : ℝ} (v0 : -0.9501 ≤ v) (v1 : v ≤ 0.9501) :
    (Quat.slerpArc a b (.num v) (.num 0)).Near ((e + 4) * u) P ∧ (Quat.slerpArc a b (.num v) (.num 1)).Near ((e + 4) * u) Q := by
  have hu' : u ≤ 1 / 4096 := hu.trans (by norm_num)
  have h0 := hr.nonneg
  have ea : acos' (.num v : Fl ℝ rnd) = .num (rnd (Real.arccos v)) := SlerpErr.acos_num (by linarith) (by linarith)
  have s0 : 0.31 ≤ Real.sin (Real.arccos v) := by
    rw [Real.sin_arccos]; apply Real.le_sqrt_of_sq_le; norm_num at *; nlinarith
  have sn : rnd (Real.sin (rnd (Real.arccos v))) ≠ 0 := by
    have b1 := hr.err (Real.arccos v)
    rw [abs_of_nonneg (Real.arccos_nonneg v)] at b1
    have b2 := (Real.abs_sin_sub_sin_le (rnd (Real.arccos v)) (Real.arccos v)).trans b1
    have b3 := hr.err (Real.sin (rnd (Real.arccos v)))
    have b4 := Real.arccos_le_pi v
    have b5 := Real.pi_lt_d2
    have b6 : u * Real.arccos v ≤ 1 / 1048576 * 3.15 := mul_le_mul hu (by linarith) (Real.arccos_nonneg v) (by norm_num)
    have b7 : u * |Real.sin (rnd (Real.arccos v))| ≤ 1 / 1048576 * 1 := mul_le_mul hu (Real.abs_sin_le_one _) (abs_nonneg _) (by norm_num)
    have b8 := (abs_le.1 b2).1
    have b9 := (abs_le.1 b3).1
    have : 0 < rnd (Real.sin (rnd (Real.arccos v))) := by norm_num at *; linarith
    exact this.ne'
  obtain ⟨p1, p2, p3, p4⟩ := SlerpErr.coords hP
  obtain ⟨q1, q2, q3, q4⟩ := SlerpErr.coords hQ
  have k0 : (1 - .num 0 : Fl ℝ rnd) = .num 1 := by rw [Fl.one_def, Fl.num_sub, sub_zero, h1]
  have k1 : (1 - .num 1 : Fl ℝ rnd) = .num 0 := by rw [Fl.one_def, Fl.num_sub, sub_self, rnd_zero hr]
  have m0 : (.num (rnd (Real.arccos v)) * .num 0 : Fl ℝ rnd) = .num 0 := by rw [Fl.num_mul, mul_zero, rnd_zero hr]
  have m1 : (.num (rnd (Real.arccos v)) * .num 1 : Fl ℝ rnd) = .num (rnd (Real.arccos v)) := by rw [Fl.num_mul, mul_one, hi]
  have z : MathFns.sin (.num 0 : Fl ℝ rnd) = .num 0 := by rw [Fl.fl_sin, Real.sin_zero, rnd_zero hr]
  constructor
  · simp only [Quat.slerpArc, ea, k0, m0, m1, z, Fl.fl_sin]
    exact ⟨(coord hr hu hi he ha.1 p1 hb.1 sn).1, (coord hr hu hi he ha.2.1 p2 hb.2.1 sn).1,
      (coord hr hu hi he ha.2.2.1 p3 hb.2.2.1 sn).1, (coord hr hu hi he ha.2.2.2 p4 hb.2.2.2 sn).1⟩
  · simp only [Quat.slerpArc, ea, k1, m0, m1, z, Fl.fl_sin]
    exact ⟨(coord hr hu hi he hb.1 q1 ha.1 sn).2, (coord hr hu hi he hb.2.1 q2 ha.2.1 sn).2,
      (coord hr hu hi he hb.2.2.1 q3 ha.2.2.1 sn).2, (coord hr hu hi he hb.2.2.2 q4 ha.2.2.2 sn).2⟩

/-- one coordinate of the chord at its ends -/
theorem chord_coord (hr : IsRel rnd u) (hu : u ≤ 1 / 1048576) (hi : ∀ x, rnd (rnd x) = rnd x) {a b : Fl ℝ rnd} {x y e : ℝ} (he : e ≤ 8)
    (ha : a.Within (e * u) x) (hb : b.Within (e * u) y) (hx : |x| ≤ 1) (hy : |y| ≤ 1) :
    (a + (b - a) * .num 0).Within ((e + 3.1) * u) x ∧ (a + (b - a) * .num 1).Within ((e + 3.1) * u) y := by
  have h0 := hr.nonneg
  obtain ⟨s, rfl, hs⟩ := ha
  obtain ⟨t, rfl, ht⟩ := hb
  have hu8 := mul_le_mul_of_nonneg_right he h0
  have hs' : |s| ≤ 1 + 8 * u := by
    have := abs_add_le (s - x) x
    rw [sub_add_cancel] at this; linarith
  have ht' : |t| ≤ 1 + 8 * u := by
    have := abs_add_le (t - y) y
    rw [sub_add_cancel] at this; linarith
  have uu := mul_le_mul_of_nonneg_right hu h0
  constructor
  · refine ⟨rnd s, by simp only [Fl.num_sub, Fl.num_mul, Fl.num_add, mul_zero, rnd_zero hr, add_zero], ?_⟩
    have t1 := abs_add_le (rnd s - s) (s - x)
    rw [sub_add_sub_cancel] at t1
    have t2 := hr.err s
    have t3 := mul_le_mul_of_nonneg_left hs' h0
    nlinarith
  · refine ⟨rnd (s + rnd (t - s)), by simp only [Fl.num_sub, Fl.num_mul, Fl.num_add, mul_one, hi], ?_⟩
    have t1 := hr.err (t - s)
    have t2 := hr.err (s + rnd (t - s))
    have t3 : |t - s| ≤ 2 + 16 * u := (abs_sub _ _).trans (by linarith)
    have t4 := mul_le_mul_of_nonneg_left t3 h0
    have t5 : |s + rnd (t - s)| ≤ 1 + 11 * u := by
      have := abs_add_le (rnd (t - s) - (t - s)) t
      rw [show rnd (t - s) - (t - s) + t = s + rnd (t - s) by ring] at this
      nlinarith
    have t6 := mul_le_mul_of_nonneg_left t5 h0
    have t7 := abs_add_le (rnd (s + rnd (t - s)) - (s + rnd (t - s))) (rnd (t - s) - (t - s))
    have t8 := abs_add_le (rnd (s + rnd (t - s)) - (s + rnd (t - s)) + (rnd (t - s) - (t - s))) (t - y)
    rw [show rnd (s + rnd (t - s)) - (s + rnd (t - s)) + (rnd (t - s) - (t - s)) + (t - y) = rnd (s + rnd (t - s)) - y by ring] at t8
    nlinarith

/-- normalising what is nearly a unit quaternion -/
theorem normal (hr : IsRel rnd u) (hu : u ≤ 1 / 1048576) {a : Quat (Fl ℝ rnd)} {P : Quat ℝ} (hP : P.IsUnit) {e : ℝ} (e0 : 0 ≤ e) (he : e ≤ 20)
    (ha : a.Near (e * u) P) : a.normalize.Near ((3 * e + 5.1) * u) P := by
  have h0 := hr.nonneg
  obtain ⟨⟨x, ex, dx⟩, ⟨y, ey, dy⟩, ⟨z, ez, dz⟩, ⟨t, et, dt⟩⟩ := ha
  have hu20 := mul_le_mul_of_nonneg_right he h0
  have eu := mul_nonneg e0 h0
  have n1 : √(P.x ^ 2 + P.y ^ 2 + P.z ^ 2 + P.w ^ 2) = 1 := by rw [SquadErr.unit_sq hP, Real.sqrt_one]
  have nq : 0 < √(x ^ 2 + y ^ 2 + z ^ 2 + t ^ 2) := by
    have h := SlerpErr.length_lip (q := ⟨x, y, z, t⟩) (l := P) eu dx dy dz dt
    rw [n1] at h
    have := (abs_le.1 h).1
    dsimp only at this
    linarith
  obtain ⟨s, e1, e2⟩ := C156_normalize hr ⟨x, y, z, t⟩ (by
    intro h
    injection h with h1 h2 h3 h4
    rw [h1, h2, h3, h4] at nq
    norm_num at nq)
  have L := SlerpErr.normalise_lip (q := ⟨x, y, z, t⟩) (l := P) (m := 1) eu one_pos dx dy dz dt n1.ge nq
  simp only [n1, div_one] at L
  have g := gam_le' hr hu 5 le_rfl
  push_cast at g
  have fin : ∀ {r c l n : ℝ}, |r - c / n| ≤ gam u 5 * |c / n| → |c / n| ≤ 1 → |c / n - l| ≤ 3 * (e * u) →
      |r - l| ≤ (3 * e + 5.1) * u := by
    intro r c l n h1 h2 h3
    have h4 := abs_add_le (r - c / n) (c / n - l)
    rw [sub_add_sub_cancel] at h4
    have h5 : gam u 5 * |c / n| ≤ (5 + 0.1) * u * 1 := mul_le_mul g h2 (abs_nonneg _) (by positivity)
    linarith
  have b : ∀ c : ℝ, c ^ 2 ≤ x ^ 2 + y ^ 2 + z ^ 2 + t ^ 2 → |c / √(x ^ 2 + y ^ 2 + z ^ 2 + t ^ 2)| ≤ 1 := fun c hc => by
    rw [abs_div, abs_of_pos nq, div_le_one nq]; exact Real.abs_le_sqrt hc
  have hx := sq_nonneg x; have hy := sq_nonneg y; have hz := sq_nonneg z; have ht := sq_nonneg t
  rw [show a = Quat.num ⟨x, y, z, t⟩ by cases a; simp only at ex ey ez et; rw [ex, ey, ez, et]; rfl, e1]
  exact ⟨⟨_, rfl, fin e2.1 (b x (by linarith)) L.1⟩, ⟨_, rfl, fin e2.2.1 (b y (by linarith)) L.2.1⟩,
    ⟨_, rfl, fin e2.2.2.1 (b z (by linarith)) L.2.2.1⟩, ⟨_, rfl, fin e2.2.2.2 (b t (by linarith)) L.2.2.2⟩⟩

theorem weight0 : (.num 0 : Fl ℝ rnd) ≥ 0 ∧ (.num 0 : Fl ℝ rnd) ≤ 1 := by rw [Fl.zero_def, Fl.one_def]; simp
theorem weight1 : (.num 1 : Fl ℝ rnd) ≥ 0 ∧ (.num 1 : Fl ℝ rnd) ≤ 1 := by rw [Fl.zero_def, Fl.one_def]; simp

/-- the chord at its ends -/
theorem chord (hr : IsRel rnd u) (hu : u ≤ 1 / 1048576) (hi : ∀ x, rnd (rnd x) = rnd x) {a b : Quat (Fl ℝ rnd)} {P Q : Quat ℝ}
    (hP : P.IsUnit) (hQ : Q.IsUnit) {e : ℝ} (e0 : 0 ≤ e) (he : e ≤ 8) (ha : a.Near (e * u) P) (hb : b.Near (e * u) Q) :
    (∃ r, a.lerp b (.num 0) = .ok r ∧ r.Near ((3 * e + 15) * u) P) ∧ (∃ r, a.lerp b (.num 1) = .ok r ∧ r.Near ((3 * e + 15) * u) Q) := by
  have h0 := hr.nonneg
  obtain ⟨p1, p2, p3, p4⟩ := SlerpErr.coords hP
  obtain ⟨q1, q2, q3, q4⟩ := SlerpErr.coords hQ
  have c1 := chord_coord hr hu hi he ha.1 hb.1 p1 q1
  have c2 := chord_coord hr hu hi he ha.2.1 hb.2.1 p2 q2
  have c3 := chord_coord hr hu hi he ha.2.2.1 hb.2.2.1 p3 q3
  have c4 := chord_coord hr hu hi he ha.2.2.2 hb.2.2.2 p4 q4
  unfold Quat.lerp
  rw [if_pos weight0, if_pos weight1]
  refine ⟨⟨_, rfl, SquadErr.Near.mono (normal hr hu hP (e := e + 3.1) (by linarith) (by linarith) ⟨c1.1, c2.1, c3.1, c4.1⟩) ?_⟩,
    ⟨_, rfl, SquadErr.Near.mono (normal hr hu hQ (e := e + 3.1) (by linarith) (by linarith) ⟨c1.2, c2.2, c3.2, c4.2⟩) ?_⟩⟩ <;>
  exact mul_le_mul_of_nonneg_right (by linarith) h0

theorem branch (hr : IsRel rnd u) (hu : u ≤ 1 / 1048576) (hi : ∀ x, rnd (rnd x) = rnd x) (h1 : rnd 1 = 1) {a b : Quat (Fl ℝ rnd)} {P Q : Quat ℝ}
    (hP : P.IsUnit) (hQ : Q.IsUnit) {e : ℝ} (e0 : 0 ≤ e) (he : e ≤ 8) (ha : a.Near (e * u) P) (hb : b.Near (e * u) Q)
    {v c : ℝ} (v0 : -0.9501 ≤ v) (hc : |c - 0.95| ≤ 0.00005) :
    (∃ r, (if (.num v : Fl ℝ rnd) < .num c then .ok (a.slerpArc b (.num v) (.num 0)) else a.lerp b (.num 0)) = .ok r ∧
      r.Near ((3 * e + 15) * u) P) ∧
    (∃ r, (if (.num v : Fl ℝ rnd) < .num c then .ok (a.slerpArc b (.num v) (.num 1)) else a.lerp b (.num 1)) = .ok r ∧
      r.Near ((3 * e + 15) * u) Q) := by
  have h0 := hr.nonneg
  have hc' := abs_le.1 hc
  by_cases h : v < c
  · rw [if_pos (by simpa using h), if_pos (by simpa using h)]
    have A := arc hr hu hi h1 hP hQ he ha hb v0 (by linarith)
    have m : (e + 4) * u ≤ (3 * e + 15) * u := mul_le_mul_of_nonneg_right (by linarith) h0
    exact ⟨⟨_, rfl, SquadErr.Near.mono A.1 m⟩, ⟨_, rfl, SquadErr.Near.mono A.2 m⟩⟩
  · rw [if_neg (by simpa using h), if_neg (by simpa using h)]
    exact chord hr hu hi hP hQ e0 he ha hb

theorem noInvert (hr : IsRel rnd u) (hu : u ≤ 1 / 1048576) (hi : ∀ x, rnd (rnd x) = rnd x) (h1 : rnd 1 = 1) {a b : Quat (Fl ℝ rnd)} {P Q : Quat ℝ}
    (hP : P.IsUnit) (hQ : Q.IsUnit) {e : ℝ} (e0 : 0 ≤ e) (he : e ≤ 8) (ha : a.Near (e * u) P) (hb : b.Near (e * u) Q) (h : -0.95 ≤ P.dot Q) :
    (∃ r, a.slerpNoInvert b (.num 0) = .ok r ∧ r.Near ((3 * e + 15) * u) P) ∧
    (∃ r, a.slerpNoInvert b (.num 1) = .ok r ∧ r.Near ((3 * e + 15) * u) Q) := by
  have h0 := hr.nonneg
  have m8 := mul_le_mul_of_nonneg_right he h0
  obtain ⟨d, ed, hd, -⟩ := SlerpErr.dot hr (hu.trans (by norm_num)) hP hQ (SquadErr.Near.mono ha m8) (SquadErr.Near.mono hb m8)
  obtain ⟨c, ec, hc⟩ : ∃ c, (15938355 / 16777216 : Fl ℝ rnd) = .num c ∧ |c - 0.95| ≤ 0.00005 :=
    SlerpErr.literal hr hu (x := ((15938355 : ℕ) : ℝ)) (y := ((16777216 : ℕ) : ℝ)) (by norm_num) (by norm_num)
  unfold Quat.slerpNoInvert
  rw [if_pos weight0, if_pos weight1, ed, ec]
  dsimp only
  exact branch hr hu hi h1 hP hQ e0 he ha hb (by norm_num at h ⊢; linarith [(abs_le.1 hd).1]) hc

theorem small {p : ℕ} (hp : 21 ≤ p) : (2 : ℝ) ^ (-(p : ℤ)) ≤ 1 / 2097152 := by
  calc (2 : ℝ) ^ (-(p : ℤ)) ≤ 2 ^ (-(21 : ℤ)) := zpow_le_zpow_right₀ (by norm_num) (by omega)
    _ = 1 / 2097152 := by norm_num

theorem rne_one' {p : ℕ} (hp : 1 ≤ p) : rne p (1 : ℝ) = 1 := by simpa using rne_of_rep (K := ℝ) hp (Rep.zpow 0)

end EndErr

open EndErr

/-- C198: with inputs off from unit quaternions by at most `e ≤ 8` units, `slerpNoInvert` at the weights `0` and `1` returns its first
and its second argument up to `3 e + 15` units, so much nearer than in between. -/
theorem C198_noInvert {p : ℕ} (hp : 21 ≤ p) {a b : Quat (Fl ℝ (rne p))} {P Q : Quat ℝ} (hP : P.IsUnit) (hQ : Q.IsUnit) {e : ℝ} (e0 : 0 ≤ e)
    (he : e ≤ 8) (ha : a.Near (e * 2 ^ (-(p : ℤ))) P) (hb : b.Near (e * 2 ^ (-(p : ℤ))) Q) (h : -0.95 ≤ P.dot Q) :
    (∃ r, a.slerpNoInvert b 0 = .ok r ∧ r.Near ((3 * e + 15) * 2 ^ (-(p : ℤ))) P) ∧
    (∃ r, a.slerpNoInvert b 1 = .ok r ∧ r.Near ((3 * e + 15) * 2 ^ (-(p : ℤ))) Q) :=
  noInvert (isRel_rne p (by omega)) ((small hp).trans (by norm_num)) (rne_rne p (by omega)) (rne_one' (by omega)) hP hQ e0 he ha hb h

/-- C198: `slerp` at the weight `0` returns its first argument, and at `1` its second or the negative of that, whichever is on the side of
the first one, up to `3 e + 15` units. -/
theorem C198_slerp {p : ℕ} (hp : 21 ≤ p) {a b : Quat (Fl ℝ (rne p))} {P Q : Quat ℝ} (hP : P.IsUnit) (hQ : Q.IsUnit) {e : ℝ} (e0 : 0 ≤ e)
    (he : e ≤ 8) (ha : a.Near (e * 2 ^ (-(p : ℤ))) P) (hb : b.Near (e * 2 ^ (-(p : ℤ))) Q) :
    (∃ r, a.slerp b 0 = .ok r ∧ r.Near ((3 * e + 15) * 2 ^ (-(p : ℤ))) P) ∧
    (∃ r Q', a.slerp b 1 = .ok r ∧ (Q' = Q ∨ Q' = Q.neg) ∧ -(72 * 2 ^ (-(p : ℤ))) ≤ P.dot Q' ∧
      r.Near ((3 * e + 15) * 2 ^ (-(p : ℤ))) Q') := by
  have hr := isRel_rne p (show 1 ≤ p by omega)
  have hu : (2 : ℝ) ^ (-(p : ℤ)) ≤ 1 / 1048576 := (small hp).trans (by norm_num)
  have hi := rne_rne (K := ℝ) p (by omega)
  have h1 := rne_one' (p := p) (by omega)
  have h0 := hr.nonneg
  generalize (2 : ℝ) ^ (-(p : ℤ)) = u at *
  have m8 := mul_le_mul_of_nonneg_right he h0
  obtain ⟨d, ed, hd, -⟩ := SlerpErr.dot hr (hu.trans (by norm_num)) hP hQ (SquadErr.Near.mono ha m8) (SquadErr.Near.mono hb m8)
  obtain ⟨c, ec, hc⟩ : ∃ c, (95 / 100 : Fl ℝ (rne p)) = .num c ∧ |c - 0.95| ≤ 0.00005 :=
    SlerpErr.literal hr hu (x := ((95 : ℕ) : ℝ)) (y := ((100 : ℕ) : ℝ)) (by norm_num) (by norm_num)
  have hd' := abs_le.1 hd
  have z : (0 : Fl ℝ (rne p)) = .num 0 := rfl
  have o : (1 : Fl ℝ (rne p)) = .num 1 := rfl
  unfold Quat.slerp
  rw [if_pos (show (0 : Fl ℝ (rne p)) ≥ 0 ∧ (0 : Fl ℝ (rne p)) ≤ 1 from weight0),
    if_pos (show (1 : Fl ℝ (rne p)) ≥ 0 ∧ (1 : Fl ℝ (rne p)) ≤ 1 from weight1), ed, ec]
  dsimp only
  by_cases h : d < 0
  · have h' : (.num d : Fl ℝ (rne p)) < 0 := by rw [Fl.zero_def]; simpa using h
    rw [if_pos h', if_pos h']
    have hn : (⟨-b.x, -b.y, -b.z, -b.w⟩ : Quat (Fl ℝ (rne p))).Near (e * u) Q.neg := by
      have m : ∀ {x : Fl ℝ (rne p)} {y : ℝ}, x.Within (e * u) y → (-x).Within (e * u) (-y) := fun ⟨z, h1, h2⟩ =>
        ⟨-z, by rw [h1]; rfl, by rw [← abs_neg]; convert h2 using 2; ring⟩
      exact ⟨m hb.1, m hb.2.1, m hb.2.2.1, m hb.2.2.2⟩
    have en : P.dot Q.neg = -P.dot Q := by simp only [Quat.dot, Quat.neg]; ring
    have B := branch hr hu hi h1 hP (Quat.neg_unit hQ) e0 he ha hn (v := -d) (by linarith) hc
    obtain ⟨⟨r, er, nr⟩, ⟨s, es, ns⟩⟩ := B
    exact ⟨⟨r, er, nr⟩, ⟨s, _, es, Or.inr rfl, by rw [en]; linarith, ns⟩⟩
  · have h' : ¬ (.num d : Fl ℝ (rne p)) < 0 := by rw [Fl.zero_def]; simpa using h
    rw [if_neg h', if_neg h']
    have B := branch hr hu hi h1 hP hQ e0 he ha hb (v := d) (by linarith) hc
    obtain ⟨⟨r, er, nr⟩, ⟨s, es, ns⟩⟩ := B
    exact ⟨⟨r, er, nr⟩, ⟨s, _, es, Or.inl rfl, by linarith, ns⟩⟩

/-- C198: `squad` at its ends returns the first two quaternions up to `75` units: `5·10^-6` for `float` and `10^-14` for `double`. -/
theorem C198_squad {p : ℕ} (hp : 21 ≤ p) (P Q A B : Quat ℝ) (hP : P.IsUnit) (hQ : Q.IsUnit) (hA : A.IsUnit) (hB : B.IsUnit)
    (h1 : -0.95 ≤ P.dot Q) (h2 : -0.95 ≤ A.dot B) :
    (-0.95 ≤ P.dot A → ∃ r : Quat (Fl ℝ (rne p)),
      Quat.squad (Quat.num P : Quat (Fl ℝ (rne p))) (Quat.num Q) (Quat.num A) (Quat.num B) 0 = .ok r ∧ r.Near (75 * 2 ^ (-(p : ℤ))) P) ∧
    (-0.95 ≤ Q.dot B → ∃ r : Quat (Fl ℝ (rne p)),
      Quat.squad (Quat.num P : Quat (Fl ℝ (rne p))) (Quat.num Q) (Quat.num A) (Quat.num B) 1 = .ok r ∧ r.Near (75 * 2 ^ (-(p : ℤ))) Q) := by
  have hr := isRel_rne p (show 1 ≤ p by omega)
  have hu2 := small hp
  have hi := rne_rne (K := ℝ) p (by omega)
  have one := rne_one' (p := p) (by omega)
  have h0 := hr.nonneg
  generalize (2 : ℝ) ^ (-(p : ℤ)) = u at *
  have hu : u ≤ 1 / 1048576 := hu2.trans (by norm_num)
  have hr' := SquadErr.coarse hr (show u ≤ 2 * u by linarith) (show 2 * u < 1 by linarith)
  have ex : ∀ S : Quat ℝ, (Quat.num S : Quat (Fl ℝ (rne p))).Near (0 * u) S := fun S => by
    rw [zero_mul]
    exact ⟨⟨_, rfl, by simp⟩, ⟨_, rfl, by simp⟩, ⟨_, rfl, by simp⟩, ⟨_, rfl, by simp⟩⟩
  have s := noInvert hr hu hi one hP hQ le_rfl (by norm_num) (ex P) (ex Q) h1
  have t := noInvert hr hu hi one hA hB le_rfl (by norm_num) (ex A) (ex B) h2
  constructor
  · intro h3
    obtain ⟨⟨s, es, ns⟩, -⟩ := s
    obtain ⟨⟨t, et, nt⟩, -⟩ := t
    obtain ⟨⟨r, er, nr⟩, -⟩ := noInvert hr' (by linarith) hi one hP hA (e := 7.5) (by norm_num) (by norm_num)
      (SquadErr.Near.mono ns (by linarith)) (SquadErr.Near.mono nt (by linarith)) h3
    refine ⟨r, ?_, SquadErr.Near.mono nr (by linarith)⟩
    obtain ⟨v, ev, hv, -⟩ := SquadErr.weight hr hu (w := 0) le_rfl zero_le_one
    obtain rfl : v = 0 := by simpa using hv
    unfold Quat.squad
    rw [if_pos (show (0 : Fl ℝ (rne p)) ≥ 0 ∧ (0 : Fl ℝ (rne p)) ≤ 1 from weight0), Fl.zero_def, es, et, ev]
    exact er
  · intro h3
    obtain ⟨-, ⟨s, es, ns⟩⟩ := s
    obtain ⟨-, ⟨t, et, nt⟩⟩ := t
    obtain ⟨⟨r, er, nr⟩, -⟩ := noInvert hr' (by linarith) hi one hQ hB (e := 7.5) (by norm_num) (by norm_num)
      (SquadErr.Near.mono ns (by linarith)) (SquadErr.Near.mono nt (by linarith)) h3
    refine ⟨r, ?_, SquadErr.Near.mono nr (by linarith)⟩
    obtain ⟨v, ev, hv, -⟩ := SquadErr.weight hr hu (w := 1) zero_le_one le_rfl
    obtain rfl : v = 0 := by simpa using hv
    have ev' : (2 * .num 1 * (.num 1 - .num 1) : Fl ℝ (rne p)) = .num 0 := ev
    unfold Quat.squad
    rw [if_pos (show (1 : Fl ℝ (rne p)) ≥ 0 ∧ (1 : Fl ℝ (rne p)) ≤ 1 from weight1), Fl.one_def, es, et, ev']
    exact er

/-- from the identity to a turn about `z`, in `float` -/
example : ∃ r, (Quat.num ⟨0, 0, 0, 1⟩ : Quat (Fl ℝ (rne 24))).slerpNoInvert (Quat.num ⟨0, 0, 4 / 5, 3 / 5⟩) 1 = .ok r ∧
    r.Near ((3 * 0 + 15) * 2 ^ (-((24 : ℕ) : ℤ))) ⟨0, 0, 4 / 5, 3 / 5⟩ :=
  (C198_noInvert (p := 24) (P := ⟨0, 0, 0, 1⟩) (by norm_num) (by norm_num [Quat.IsUnit]) (by norm_num [Quat.IsUnit]) le_rfl (by norm_num)
    (by rw [zero_mul]; exact ⟨⟨_, rfl, by simp⟩, ⟨_, rfl, by simp⟩, ⟨_, rfl, by simp⟩, ⟨_, rfl, by simp⟩⟩)
    (by rw [zero_mul]; exact ⟨⟨_, rfl, by simp⟩, ⟨_, rfl, by simp⟩, ⟨_, rfl, by simp⟩, ⟨_, rfl, by simp⟩⟩)
    (by norm_num [Quat.dot])).2

/-- towards a quaternion on the other side, inexact by some units -/
example {b : Quat (Fl ℝ (rne 24))} (hb : b.Near (8 * 2 ^ (-((24 : ℕ) : ℤ))) ⟨0, 0, 4 / 5, -3 / 5⟩) :
    ∃ r, (Quat.num ⟨0, 0, 0, 1⟩ : Quat (Fl ℝ (rne 24))).slerp b 0 = .ok r ∧ r.Near ((3 * 8 + 15) * 2 ^ (-((24 : ℕ) : ℤ))) ⟨0, 0, 0, 1⟩ :=
  (C198_slerp (p := 24) (P := ⟨0, 0, 0, 1⟩) (by norm_num) (by norm_num [Quat.IsUnit]) (by norm_num [Quat.IsUnit]) (by norm_num) le_rfl
    (SlerpErr.exact (isRel_rne 24 (by norm_num)) _) hb).1

example : ∃ r : Quat (Fl ℝ (rne 24)),
    Quat.squad (Quat.num ⟨0, 0, 0, 1⟩ : Quat (Fl ℝ (rne 24))) (Quat.num ⟨0, 0, 4 / 5, 3 / 5⟩) (Quat.num ⟨0, 0, 0, 1⟩)
      (Quat.num ⟨4 / 5, 0, 0, 3 / 5⟩) 1 = .ok r ∧ r.Near (75 * 2 ^ (-((24 : ℕ) : ℤ))) ⟨0, 0, 4 / 5, 3 / 5⟩ :=
  (C198_squad (p := 24) (by norm_num) _ _ _ _ (by norm_num [Quat.IsUnit]) (by norm_num [Quat.IsUnit])
    (by norm_num [Quat.IsUnit]) (by norm_num [Quat.IsUnit]) (by norm_num [Quat.dot]) (by norm_num [Quat.dot])).2 (by norm_num [Quat.dot])

end MathLib
