import Verif.Proof.RelErr
import Verif.Proof.RneNearest
import Verif.Props.RoundedClerp
import Verif.Props.RoundedVectors
import Verif.Props.Polar

/-! # Property C181: polar form and circular interpolation of plane vectors in floating point -/

namespace MathLib

variable {p : ℕ}

private theorem small (hp : 12 ≤ p) : (2 : ℝ) ^ (-(p : ℤ)) ≤ 1 / 4096 :=
  (zpow_le_zpow_right₀ one_le_two (show -(p : ℤ) ≤ -12 by omega)).trans (by norm_num)

/-- one coordinate: a rounded product of a rounded length and a rounded sine or cosine -/
private theorem coord (hp : 12 ≤ p) {L l M c c₀ d e : ℝ} (hl : |l| ≤ M) (h1 : |L - l| ≤ d * ((2 : ℝ) ^ (-(p : ℤ)) * M)) (hd0 : 0 ≤ d)
    (hd : d ≤ 6) (hc : |c| ≤ 1) (hc₀ : |c - c₀| ≤ e * (2 : ℝ) ^ (-(p : ℤ))) :
    |rne p (L * rne p c) - l * c₀| ≤ (2.1 + 1.01 * d + e) * ((2 : ℝ) ^ (-(p : ℤ)) * M) := by
  have hr := isRel_rne p (show 1 ≤ p by omega)
  have u0 := hr.nonneg
  have hu := small hp
  have e1 := hr.err c
  have e2 := hr.err (L * rne p c)
  generalize rne p (L * rne p c) = W at *
  generalize rne p c = C at *
  generalize (2 : ℝ) ^ (-(p : ℤ)) = u at *
  have M0 : 0 ≤ M := (abs_nonneg l).trans hl
  have e1' : |C - c| ≤ u := e1.trans (by have := mul_le_mul_of_nonneg_left hc u0; linarith)
  have hC : |C| ≤ 1 + u := by have := abs_sub_abs_le_abs_sub C c; linarith
  have uM : 0 ≤ u * M := mul_nonneg u0 M0
  have a1 : |(L - l) * C| ≤ d * (u * M) * (1 + u) := by
    rw [abs_mul]; exact mul_le_mul h1 hC (abs_nonneg _) (mul_nonneg hd0 uM)
  have a2 : |l * (C - c)| ≤ M * u := by rw [abs_mul]; exact mul_le_mul hl e1' (abs_nonneg _) M0
  have a3 : |l * (c - c₀)| ≤ M * (e * u) := by rw [abs_mul]; exact mul_le_mul hl hc₀ (abs_nonneg _) M0
  have hL : |L| ≤ M + d * (u * M) := by have := abs_sub_abs_le_abs_sub L l; linarith
  have uM' : u * M ≤ 1 / 4096 * M := mul_le_mul_of_nonneg_right hu M0
  have duM : d * (u * M) ≤ 6 * (1 / 4096 * M) := mul_le_mul hd uM' uM (by norm_num)
  have a4 : |L * C| ≤ (M + 6 * (1 / 4096 * M)) * (1 + 1 / 4096) := by
    rw [abs_mul]; exact mul_le_mul (by linarith) (by linarith) (abs_nonneg _) (by linarith)
  have a5 := e2.trans (mul_le_mul_of_nonneg_left a4 u0)
  have a6 : d * (u * M) * (1 + u) ≤ d * (u * M) * (1 + 1 / 4096) :=
    mul_le_mul_of_nonneg_left (by linarith) (mul_nonneg hd0 uM)
  have k := abs_add_le (W - L * C) (L * C - l * c₀)
  have k1 : L * C - l * c₀ = (L - l) * C + l * (C - c) + l * (c - c₀) := by ring
  have k2 := abs_add_three ((L - l) * C) (l * (C - c)) (l * (c - c₀))
  rw [← k1] at k2
  rw [show W - L * C + (L * C - l * c₀) = W - l * c₀ by ring] at k
  have dd : 0 ≤ d * (u * M) := mul_nonneg hd0 uM
  nlinarith [uM, dd]

private theorem len (hp : 12 ≤ p) (v : Vec2 ℝ) : ∃ L : ℝ, (Vec2.num v : Vec2 (Fl ℝ (rne p))).length = .num L ∧ 0 ≤ L ∧
    |L - v.length| ≤ 2.01 * ((2 : ℝ) ^ (-(p : ℤ)) * v.length) := by
  have hr := isRel_rne p (show 1 ≤ p by omega)
  have hu := small hp
  have u0 := hr.nonneg
  obtain ⟨L, e, h⟩ := (Vec2.rel_length hr v).error hr
  have vl : v.length = √(v.x * v.x + v.y * v.y) := rfl
  rw [← vl] at h
  have v0 : 0 ≤ v.length := Real.sqrt_nonneg _
  rw [abs_of_nonneg v0] at h
  have g : gam ((2 : ℝ) ^ (-(p : ℤ))) 2 ≤ 2.01 * (2 : ℝ) ^ (-(p : ℤ)) := by
    generalize (2 : ℝ) ^ (-(p : ℤ)) = u at *
    unfold gam
    have q : 0 < (1 - u) ^ 2 := by have : 0 < 1 - u := by linarith
                                   positivity
    rw [sub_le_iff_le_add, inv_le_iff_one_le_mul₀ q]
    nlinarith [mul_nonneg u0 (sub_nonneg.2 hu), mul_nonneg u0 (mul_nonneg u0 u0)]
  have h' := h.trans (mul_le_mul_of_nonneg_right g v0)
  rw [mul_assoc] at h'
  refine ⟨L, e, ?_, h'⟩
  have := (abs_le.1 h').1
  have := mul_le_mul_of_nonneg_right hu v0
  linarith

/-- C181 for `fromAngle`/`setAngle`: each coordinate has a relative error of at most `2.01 * 2^-p`, so its sign is right and it is zero only
where it has to be. -/
theorem C181_fromAngle (hp : 12 ≤ p) (θ l : ℝ) : ∃ w : Vec2 ℝ,
    Vec2.ofAngle (.num θ : Fl ℝ (rne p)) (.num l) = Vec2.num w ∧
    |w.x - l * Real.cos θ| ≤ 2.01 * ((2 : ℝ) ^ (-(p : ℤ)) * |l * Real.cos θ|) ∧
    |w.y - l * Real.sin θ| ≤ 2.01 * ((2 : ℝ) ^ (-(p : ℤ)) * |l * Real.sin θ|) := by
  have hr := isRel_rne p (show 1 ≤ p by omega)
  have u0 := hr.nonneg
  have hu := small hp
  have key : ∀ c : ℝ, |rne p (l * rne p c) - l * c| ≤ 2.01 * ((2 : ℝ) ^ (-(p : ℤ)) * |l * c|) := fun c => by
    have e1 := hr.err c
    have e2 := hr.err (l * rne p c)
    generalize rne p (l * rne p c) = W at *
    generalize rne p c = C at *
    generalize (2 : ℝ) ^ (-(p : ℤ)) = u at *
    have a1 : |l * C - l * c| ≤ u * |l * c| := by
      rw [← mul_sub, abs_mul, abs_mul, mul_left_comm]; exact mul_le_mul_of_nonneg_left e1 (abs_nonneg _)
    have a2 := abs_sub_abs_le_abs_sub (l * C) (l * c)
    have a3 := abs_add_le (W - l * C) (l * C - l * c)
    rw [sub_add_sub_cancel] at a3
    have b0 := abs_nonneg (l * c)
    generalize |l * c| = b at *
    have a4 : u * |l * C| ≤ u * (b + u * b) := mul_le_mul_of_nonneg_left (by linarith) u0
    have a5 : u * (u * b) ≤ 1 / 4096 * (u * b) := mul_le_mul_of_nonneg_right hu (mul_nonneg u0 b0)
    have := mul_nonneg u0 b0
    linarith
  exact ⟨⟨rne p (l * rne p (Real.cos θ)), rne p (l * rne p (Real.sin θ))⟩, rfl, key _, key _⟩

private theorem ang (hp : 12 ≤ p) (v : Vec2 ℝ) : (Vec2.num v : Vec2 (Fl ℝ (rne p))).angle = .num (rne p v.angle) ∧
    |rne p v.angle - v.angle| ≤ 3.15 * (2 : ℝ) ^ (-(p : ℤ)) ∧ |rne p v.angle| ≤ 3.143 ∧ |v.angle| ≤ Real.pi := by
  have hr := isRel_rne p (show 1 ≤ p by omega)
  have u0 := hr.nonneg
  have hu := small hp
  have h : |v.angle| ≤ Real.pi := Complex.abs_arg_le_pi _
  have e := (hr.err v.angle).trans (mul_le_mul_of_nonneg_left (h.trans Real.pi_lt_d2.le) u0)
  have := abs_sub_abs_le_abs_sub (rne p v.angle) v.angle
  have := Real.pi_lt_d4
  exact ⟨rfl, by linarith, by linarith, h⟩

/-- C181, what holds of the round trip: length and angle, computed in floating point, give back the vector up to `8 * 2^-p` of its length in each coordinate. -/
theorem C181_roundtrip_partial (hp : 12 ≤ p) (v : Vec2 ℝ) : ∃ w : Vec2 ℝ,
    Vec2.ofAngle (Vec2.num v : Vec2 (Fl ℝ (rne p))).angle (Vec2.num v : Vec2 (Fl ℝ (rne p))).length = Vec2.num w ∧
    |w.x - v.x| ≤ 8 * ((2 : ℝ) ^ (-(p : ℤ)) * v.length) ∧ |w.y - v.y| ≤ 8 * ((2 : ℝ) ^ (-(p : ℤ)) * v.length) := by
  obtain ⟨L, eL, -, hL⟩ := len hp v
  obtain ⟨ea, ha, -, -⟩ := ang hp v
  have v0 : 0 ≤ v.length := Real.sqrt_nonneg _
  have u0 : (0 : ℝ) ≤ (2 : ℝ) ^ (-(p : ℤ)) := by positivity
  have uv := mul_nonneg u0 v0
  have rt := Vec2.ofAngle_angle v
  have vx : v.x = v.length * Real.cos v.angle := (congrArg Vec2.x rt).symm
  have vy : v.y = v.length * Real.sin v.angle := (congrArg Vec2.y rt).symm
  rw [eL, ea]
  refine ⟨⟨rne p (L * rne p (Real.cos (rne p v.angle))), rne p (L * rne p (Real.sin (rne p v.angle)))⟩, rfl, ?_, ?_⟩
  · have := coord hp (c₀ := Real.cos v.angle) (abs_of_nonneg v0).le hL (by norm_num) (by norm_num) (Real.abs_cos_le_one (rne p v.angle))
      ((Real.abs_cos_sub_cos_le _ _).trans ha)
    dsimp only
    rw [← vx] at this
    linarith
  · have := coord hp (c₀ := Real.sin v.angle) (abs_of_nonneg v0).le hL (by norm_num) (by norm_num) (Real.abs_sin_le_one (rne p v.angle))
      ((Real.abs_sin_sub_sin_le _ _).trans ha)
    dsimp only
    rw [← vy] at this
    linarith

/-- the rounded linear interpolation between two numbers of `[0, m]` -/
theorem lerp_nonneg_rounded (hp : 12 ≤ p) {a b t m : ℝ} (ha : a ∈ Set.Icc (0 : ℝ) m) (hb : b ∈ Set.Icc (0 : ℝ) m) (ht : t ∈ Set.Icc (0 : ℝ) 1) :
    |rne p (a + rne p (rne p (b - a) * t)) - ((1 - t) * a + t * b)| ≤ 3.01 * ((2 : ℝ) ^ (-(p : ℤ)) * m) := by
  have hr := isRel_rne p (show 1 ≤ p by omega)
  have u0 := hr.nonneg
  have hu := small hp
  obtain ⟨a0, a1⟩ := ha
  obtain ⟨b0, b1⟩ := hb
  obtain ⟨t0, t1⟩ := ht
  have m0 : 0 ≤ m := a0.trans a1
  have e1 := hr.err (b - a)
  have e2 := hr.err (rne p (b - a) * t)
  have e3 := hr.err (a + rne p (rne p (b - a) * t))
  generalize rne p (a + rne p (rne p (b - a) * t)) = W at *
  generalize rne p (rne p (b - a) * t) = V at *
  generalize rne p (b - a) = D at *
  generalize (2 : ℝ) ^ (-(p : ℤ)) = u at *
  have m1 : |b - a| ≤ m := by rw [abs_le]; constructor <;> linarith
  have f1 := e1.trans (mul_le_mul_of_nonneg_left m1 u0)
  have f2 : |D * t - (b - a) * t| ≤ u * m := by
    rw [← sub_mul, abs_mul, abs_of_nonneg t0]
    have := mul_le_of_le_one_right (abs_nonneg (D - (b - a))) t1
    linarith
  have m2 : |(b - a) * t| ≤ m := by
    rw [abs_mul, abs_of_nonneg t0]; exact (mul_le_of_le_one_right (abs_nonneg _) t1).trans m1
  have m3 : |D * t| ≤ m + u * m := by
    have := abs_sub_abs_le_abs_sub (D * t) ((b - a) * t); linarith
  have f3 := abs_le.1 (e2.trans (mul_le_mul_of_nonneg_left m3 u0))
  have f4 := abs_le.1 f2
  have um := mul_nonneg u0 m0
  have uu : u * (u * m) ≤ 1 / 4096 * (u * m) := mul_le_mul_of_nonneg_right hu um
  have c1 : 0 ≤ a + (b - a) * t := by nlinarith
  have c2 : a + (b - a) * t ≤ m := by nlinarith
  have m4 : |a + V| ≤ m + 3 * (u * m) := by rw [abs_le]; constructor <;> linarith
  have f5 := abs_le.1 (e3.trans (mul_le_mul_of_nonneg_left m4 u0))
  rw [abs_le]; constructor <;> linarith

/-- a point near another one at the distance `l` from the origin is about as far -/
private theorem near_length {x y l c s z : ℝ} (hl : 0 ≤ l) (hcs : c ^ 2 + s ^ 2 = 1) (hx : |x - l * c| ≤ 7.3 * z) (hy : |y - l * s| ≤ 7.3 * z)
    (hz : 0 ≤ z) : |√(x ^ 2 + y ^ 2) - l| ≤ 11 * z := by
  obtain ⟨d, rfl⟩ : ∃ d, x = l * c + d := ⟨x - l * c, by ring⟩
  obtain ⟨e, rfl⟩ : ∃ e, y = l * s + e := ⟨y - l * s, by ring⟩
  rw [add_sub_cancel_left] at hx hy
  have d2 : d ^ 2 ≤ (7.3 * z) ^ 2 := sq_le_sq' (abs_le.1 hx).1 (abs_le.1 hx).2
  have e2 : e ^ 2 ≤ (7.3 * z) ^ 2 := sq_le_sq' (abs_le.1 hy).1 (abs_le.1 hy).2
  have de : d ^ 2 + e ^ 2 ≤ (11 * z) ^ 2 := by nlinarith [sq_nonneg z]
  have cd : |c * d + s * e| ≤ 11 * z := by
    apply abs_le_of_sq_le_sq _ (by linarith)
    have : (c * d + s * e) ^ 2 + (c * e - s * d) ^ 2 = d ^ 2 + e ^ 2 := by
      have : (c * d + s * e) ^ 2 + (c * e - s * d) ^ 2 = (c ^ 2 + s ^ 2) * (d ^ 2 + e ^ 2) := by ring
      rw [this, hcs, one_mul]
    have := sq_nonneg (c * e - s * d)
    linarith
  have S : (l * c + d) ^ 2 + (l * s + e) ^ 2 = l ^ 2 + 2 * l * (c * d + s * e) + (d ^ 2 + e ^ 2) := by
    linear_combination l ^ 2 * hcs
  have lc := mul_le_mul_of_nonneg_left (abs_le.1 cd).1 hl
  have uc := mul_le_mul_of_nonneg_left (abs_le.1 cd).2 hl
  rw [S, abs_le]
  constructor
  · by_cases h : l ≤ 11 * z
    · have := Real.sqrt_nonneg (l ^ 2 + 2 * l * (c * d + s * e) + (d ^ 2 + e ^ 2)); linarith
    · have : l - 11 * z ≤ √(l ^ 2 + 2 * l * (c * d + s * e) + (d ^ 2 + e ^ 2)) := by
        apply Real.le_sqrt_of_sq_le
        have k : (c * d + s * e) ^ 2 ≤ d ^ 2 + e ^ 2 := by
          have : (c * d + s * e) ^ 2 + (c * e - s * d) ^ 2 = (c ^ 2 + s ^ 2) * (d ^ 2 + e ^ 2) := by ring
          rw [hcs, one_mul] at this
          have := sq_nonneg (c * e - s * d)
          linarith
        have k1 : (l - 11 * z) ^ 2 ≤ (l + (c * d + s * e)) ^ 2 :=
          pow_le_pow_left₀ (by linarith) (by linarith [(abs_le.1 cd).1]) 2
        nlinarith
      linarith
  · have : √(l ^ 2 + 2 * l * (c * d + s * e) + (d ^ 2 + e ^ 2)) ≤ l + 11 * z := by
      rw [Real.sqrt_le_left (by linarith)]
      nlinarith
    linarith

/-- C181, what holds of `clerp` of plane vectors: in floating point, for a ratio strictly between 0 and 1, the result is the vector whose length is
the weighted mean of the two lengths and whose angle is on the way from the one angle to the other, up to `220 * 2^-p` of the larger length, the length
up to `11 * 2^-p` of it.  The way is a whole number of turns off the difference of the angles, and at most half a turn up to rounding unless the difference of the angles is below
minus half a turn. -/
theorem C181_clerp_partial (hp : 12 ≤ p) (a b : Vec2 ℝ) (t : ℝ) (ht : t ∈ Set.Ioo (0 : ℝ) 1) : ∃ (w : Vec2 ℝ) (k : ℤ),
    Vec2.clerp (Vec2.num a : Vec2 (Fl ℝ (rne p))) (Vec2.num b) (.num t) = .ok (Vec2.num w) ∧
    (let θ := b.angle - a.angle - k * (2 * Real.pi)
     let l := (1 - t) * a.length + t * b.length
     let M := max a.length b.length
     |w.x - l * Real.cos (a.angle + t * θ)| ≤ 220 * ((2 : ℝ) ^ (-(p : ℤ)) * M) ∧
     |w.y - l * Real.sin (a.angle + t * θ)| ≤ 220 * ((2 : ℝ) ^ (-(p : ℤ)) * M) ∧
     |√(w.x ^ 2 + w.y ^ 2) - l| ≤ 11 * ((2 : ℝ) ^ (-(p : ℤ)) * M) ∧
     (-Real.pi + 10 * (2 : ℝ) ^ (-(p : ℤ)) ≤ b.angle - a.angle → |θ| ≤ Real.pi + 142 * (2 : ℝ) ^ (-(p : ℤ)))) := by
  have hr := isRel_rne p (show 1 ≤ p by omega)
  have u0 := hr.nonneg
  have hu := small hp
  obtain ⟨t0, t1⟩ := ht
  obtain ⟨A, eA, A0, hA⟩ := len hp a
  obtain ⟨B, eB, B0, hB⟩ := len hp b
  obtain ⟨ea, ha, ha3, haπ⟩ := ang hp a
  obtain ⟨eb, hb, hb3, hbπ⟩ := ang hp b
  obtain ⟨φ, k, eφ, hφ, hshort⟩ := C176_clerp_partial hp (rne p a.angle) (rne p b.angle) t t0.le t1.le
  have eP := hr.err Real.pi
  rw [abs_of_pos Real.pi_pos] at eP
  have pi2 := Real.pi_lt_d2
  have la : 0 ≤ a.length := Real.sqrt_nonneg _
  have lb : 0 ≤ b.length := Real.sqrt_nonneg _
  have lM := le_max_left a.length b.length
  have rM := le_max_right a.length b.length
  have hbound : (2 : ℝ) ^ (-(p : ℤ)) * (|rne p a.angle| + |rne p b.angle| + 4) ≤ (2 : ℝ) ^ (-(p : ℤ)) * 10.286 :=
    mul_le_mul_of_nonneg_left (by linarith) u0
  have mx : A ≤ 1.001 * max a.length b.length ∧ B ≤ 1.001 * max a.length b.length := by
    have q1 := mul_le_mul_of_nonneg_right hu la
    have q2 := mul_le_mul_of_nonneg_right hu lb
    have q3 := abs_le.1 hA
    have q4 := abs_le.1 hB
    constructor <;> linarith
  have hL := lerp_nonneg_rounded hp (m := 1.001 * max a.length b.length) ⟨A0, mx.1⟩ ⟨B0, mx.2⟩ ⟨t0.le, t1.le⟩
  have res : Vec2.clerp (Vec2.num a : Vec2 (Fl ℝ (rne p))) (Vec2.num b) (.num t) =
      .ok (Vec2.num ⟨rne p (rne p (A + rne p (rne p (B - A) * t)) * rne p (Real.cos φ)),
        rne p (rne p (A + rne p (rne p (B - A) * t)) * rne p (Real.sin φ))⟩) := by
    have b1 : (Fl.num t == (0 : Fl ℝ (rne p))) = false := by rw [Fl.zero_def, Fl.num_beq]; simpa using t0.ne'
    have b2 : (Fl.num t == (1 : Fl ℝ (rne p))) = false := by rw [Fl.one_def, Fl.num_beq]; simpa using t1.ne
    have c : ¬ ¬ ((Fl.num t : Fl ℝ (rne p)) ≥ 0 ∧ (Fl.num t : Fl ℝ (rne p)) ≤ 1) := by
      rw [not_not, Fl.zero_def, Fl.one_def, ge_iff_le, Fl.num_le, Fl.num_le]; exact ⟨t0.le, t1.le⟩
    unfold Vec2.clerp
    rw [if_neg c, b1, b2, if_neg (by decide), if_neg (by decide), ea, eb, eA, eB, eφ]
    rfl
  generalize rne p (A + rne p (rne p (B - A) * t)) = L at *
  have hM : 0 ≤ max a.length b.length := la.trans lM
  refine ⟨⟨rne p (L * rne p (Real.cos φ)), rne p (L * rne p (Real.sin φ))⟩, k, res, ?_⟩
  have hl : |(1 - t) * a.length + t * b.length| ≤ max a.length b.length := by
    rw [abs_of_nonneg (add_nonneg (mul_nonneg (by linarith) la) (mul_nonneg t0.le lb))]
    have := mul_le_mul_of_nonneg_left lM (show 0 ≤ 1 - t by linarith)
    have := mul_le_mul_of_nonneg_left rM t0.le
    linarith
  have hLl : |L - ((1 - t) * a.length + t * b.length)| ≤ 5.1 * ((2 : ℝ) ^ (-(p : ℤ)) * max a.length b.length) := by
    have m1 : |A - a.length| ≤ 2.01 * ((2 : ℝ) ^ (-(p : ℤ)) * max a.length b.length) :=
      hA.trans (mul_le_mul_of_nonneg_left (mul_le_mul_of_nonneg_left lM u0) (by norm_num))
    have m2 : |B - b.length| ≤ 2.01 * ((2 : ℝ) ^ (-(p : ℤ)) * max a.length b.length) :=
      hB.trans (mul_le_mul_of_nonneg_left (mul_le_mul_of_nonneg_left rM u0) (by norm_num))
    have m3 : |(1 - t) * (A - a.length)| ≤ (1 - t) * (2.01 * ((2 : ℝ) ^ (-(p : ℤ)) * max a.length b.length)) := by
      rw [abs_mul, abs_of_nonneg (show 0 ≤ 1 - t by linarith)]; exact mul_le_mul_of_nonneg_left m1 (by linarith)
    have m4 : |t * (B - b.length)| ≤ t * (2.01 * ((2 : ℝ) ^ (-(p : ℤ)) * max a.length b.length)) := by
      rw [abs_mul, abs_of_pos t0]; exact mul_le_mul_of_nonneg_left m2 t0.le
    have um := mul_nonneg u0 hM
    rw [show (2 : ℝ) ^ (-(p : ℤ)) * (1.001 * max a.length b.length) = 1.001 * ((2 : ℝ) ^ (-(p : ℤ)) * max a.length b.length) by ring] at hL
    generalize (2 : ℝ) ^ (-(p : ℤ)) * max a.length b.length = z at *
    rw [abs_le] at *
    constructor <;> linarith
  have hang : |φ - (a.angle + t * (b.angle - a.angle - k * (2 * Real.pi)))| ≤ 209 * (2 : ℝ) ^ (-(p : ℤ)) := by
    have m3 : |(1 - t) * (rne p a.angle - a.angle)| ≤ (1 - t) * (3.15 * (2 : ℝ) ^ (-(p : ℤ))) := by
      rw [abs_mul, abs_of_nonneg (show 0 ≤ 1 - t by linarith)]; exact mul_le_mul_of_nonneg_left ha (by linarith)
    have m4 : |t * (rne p b.angle - b.angle)| ≤ t * (3.15 * (2 : ℝ) ^ (-(p : ℤ))) := by
      rw [abs_mul, abs_of_pos t0]; exact mul_le_mul_of_nonneg_left hb t0.le
    rw [abs_le] at *
    constructor <;> linarith
  dsimp only
  have um := mul_nonneg u0 hM
  refine ⟨?_, ?_, ?_, fun h => ?_⟩
  · have := coord hp hl hLl (by norm_num) (by norm_num) (Real.abs_cos_le_one φ) ((Real.abs_cos_sub_cos_le _ _).trans hang)
    linarith
  · have := coord hp hl hLl (by norm_num) (by norm_num) (Real.abs_sin_le_one φ) ((Real.abs_sin_sub_sin_le _ _).trans hang)
    linarith
  · have q1 := coord hp hl hLl (e := 0) (c₀ := Real.cos φ) (by norm_num) (by norm_num) (Real.abs_cos_le_one φ) (by simp)
    have q2 := coord hp hl hLl (e := 0) (c₀ := Real.sin φ) (by norm_num) (by norm_num) (Real.abs_sin_le_one φ) (by simp)
    exact near_length (add_nonneg (mul_nonneg (by linarith) la) (mul_nonneg t0.le lb)) (Real.cos_sq_add_sin_sq φ)
      (q1.trans (by linarith)) (q2.trans (by linarith)) um
  · have q := mul_le_mul_of_nonneg_left pi2.le u0
    have := (hshort (by rw [abs_le] at *; linarith)).1
    rw [abs_le] at *
    constructor <;> linarith

/-- C181 is false for `float`: with `(1, 1)`, polar form and back, and `clerp` from the vector to itself half the way, both give
`1 - 2^-24` for each coordinate. -/
theorem C181_refuted :
    (let v : Vec2 (Fl ℝ (rne 24)) := ⟨.num 1, .num 1⟩
     let w : Vec2 (Fl ℝ (rne 24)) := ⟨.num (1 - 2 ^ (-24 : ℤ)), .num (1 - 2 ^ (-24 : ℤ))⟩
     Vec2.ofAngle v.angle v.length = w ∧ Vec2.clerp v v (.num (1 / 2)) = .ok w) := by
  have pi1 := Real.pi_gt_d20
  have pi2 := Real.pi_lt_d20
  have s1 : (1.41421356237 : ℝ) < √2 := Real.lt_sqrt_of_sq_lt (by norm_num)
  have s2 : √2 < (1.41421356238 : ℝ) := by rw [Real.sqrt_lt' (by norm_num)]; norm_num
  have harg : Complex.arg ⟨1, 1⟩ = Real.pi / 4 := by
    have e : (⟨1, 1⟩ : ℂ) = (√2 : ℝ) * (Complex.cos (Real.pi / 4 : ℝ) + Complex.sin (Real.pi / 4 : ℝ) * Complex.I) := by
      rw [← Complex.ofReal_cos, ← Complex.ofReal_sin, Real.cos_pi_div_four, Real.sin_pi_div_four]
      have q : √2 * (√2 / 2) = (1 : ℝ) := by
        rw [← mul_div_assoc, Real.mul_self_sqrt (by norm_num)]; norm_num
      apply Complex.ext <;> simp [q]
    rw [e, Complex.arg_mul_cos_add_sin_mul_I (by positivity) ⟨by linarith, by linarith⟩]
  have hA : rne 24 (Real.pi / 4) = 13176795 / 2 ^ 24 := by
    rw [rne_eq (-24) 13176795 (by norm_num; linarith) (by norm_num; linarith) (by rw [abs_lt]; norm_num; constructor <;> linarith)]
    norm_num
  have hL : rne 24 √2 = 11863283 / 2 ^ 23 := by
    rw [rne_eq (-23) 11863283 (by norm_num) (by norm_num) (by rw [abs_lt]; norm_num; constructor <;> linarith)]
    norm_num
  have h2 : rne 24 (rne 24 (1 * 1) + rne 24 (1 * 1) : ℝ) = 2 := by
    have r1 : rne 24 (1 : ℝ) = 1 := by simpa using rne_of_rep (by norm_num) (Rep.nat (p := 24) (K := ℝ) 1 (by norm_num))
    have r2 : rne 24 (2 : ℝ) = 2 := by simpa using rne_of_rep (by norm_num) (Rep.nat (p := 24) (K := ℝ) 2 (by norm_num))
    rw [mul_one, r1, one_add_one_eq_two, r2]
  have near : ∀ x : ℝ, x = 13176795 / 2 ^ 24 → 
      rne 24 (Real.cos x) = 11863283 / 2 ^ 24 ∧ rne 24 (Real.sin x) = 11863283 / 2 ^ 24 := by
    intro x hx
    obtain ⟨ε, rfl⟩ : ∃ ε, x = Real.pi / 4 + ε := ⟨x - Real.pi / 4, by ring⟩
    have e0 : 0 < ε := by linarith
    have e1 : ε < 2.19e-8 := by norm_num at hx ⊢; linarith
    have c1 : Real.cos ε ≤ 1 := Real.cos_le_one _
    have c2 := Real.one_sub_sq_div_two_le_cos (x := ε)
    have c3 : ε ^ 2 ≤ 1e-12 := by nlinarith
    have d1 : 0 ≤ Real.sin ε := Real.sin_nonneg_of_nonneg_of_le_pi e0.le (by linarith)
    have d2 : Real.sin ε ≤ ε := Real.sin_le e0.le
    have ec : Real.cos (Real.pi / 4 + ε) = √2 / 2 * (Real.cos ε - Real.sin ε) := by
      rw [Real.cos_add, Real.cos_pi_div_four, Real.sin_pi_div_four]; ring
    have es : Real.sin (Real.pi / 4 + ε) = √2 / 2 * (Real.cos ε + Real.sin ε) := by
      rw [Real.sin_add, Real.cos_pi_div_four, Real.sin_pi_div_four]; ring
    have lc : (1 - 2.2e-8) * (1.41421356237 / 2) ≤ Real.cos (Real.pi / 4 + ε) := by
      rw [ec, mul_comm (√2 / 2)]; exact mul_le_mul (by linarith) (by linarith) (by norm_num) (by linarith)
    have uc : Real.cos (Real.pi / 4 + ε) ≤ 1 * (1.41421356238 / 2) := by
      rw [ec, mul_comm (√2 / 2)]; exact mul_le_mul (by linarith) (by linarith) (by positivity) (by norm_num)
    have ls : (1 - 1e-12) * (1.41421356237 / 2) ≤ Real.sin (Real.pi / 4 + ε) := by
      rw [es, mul_comm (√2 / 2)]; exact mul_le_mul (by linarith) (by linarith) (by norm_num) (by linarith)
    have us : Real.sin (Real.pi / 4 + ε) ≤ (1 + 2.2e-8) * (1.41421356238 / 2) := by
      rw [es, mul_comm (√2 / 2)]; exact mul_le_mul (by linarith) (by linarith) (by positivity) (by norm_num)
    generalize Real.cos (Real.pi / 4 + ε) = c at *
    generalize Real.sin (Real.pi / 4 + ε) = s at *
    norm_num at lc uc ls us
    constructor
    · rw [rne_eq (-24) 11863283 (by norm_num; linarith) (by norm_num; linarith) (by rw [abs_lt]; norm_num; constructor <;> linarith)]
      norm_num
    · rw [rne_eq (-24) 11863283 (by norm_num; linarith) (by norm_num; linarith) (by rw [abs_lt]; norm_num; constructor <;> linarith)]
      norm_num
  have hprod : rne 24 (11863283 / 2 ^ 23 * (11863283 / 2 ^ 24) : ℝ) = 1 - 2 ^ (-24 : ℤ) := by
    rw [rne_eq (-24) 16777215 (by norm_num) (by norm_num) (by rw [abs_lt]; norm_num)]
    norm_num
  have ea : (⟨.num 1, .num 1⟩ : Vec2 (Fl ℝ (rne 24))).angle = .num (13176795 / 2 ^ 24) := by
    have : (⟨.num 1, .num 1⟩ : Vec2 (Fl ℝ (rne 24))).angle = .num (rne 24 (Complex.arg ⟨1, 1⟩)) := rfl
    rw [this, harg, hA]
  have el : (⟨.num 1, .num 1⟩ : Vec2 (Fl ℝ (rne 24))).length = .num (11863283 / 2 ^ 23) := by
    have : (⟨.num 1, .num 1⟩ : Vec2 (Fl ℝ (rne 24))).length = MathFns.sqrt (.num (rne 24 (rne 24 (1 * 1) + rne 24 (1 * 1)))) := rfl
    rw [this, h2, Fl.fl_sqrt, if_neg (by norm_num), hL]
  obtain ⟨nc, ns⟩ := near _ rfl
  have res : Vec2.ofAngle (.num (13176795 / 2 ^ 24) : Fl ℝ (rne 24)) (.num (11863283 / 2 ^ 23)) =
      ⟨.num (1 - 2 ^ (-24 : ℤ)), .num (1 - 2 ^ (-24 : ℤ))⟩ := by
    unfold Vec2.ofAngle
    rw [Fl.fl_cos, Fl.fl_sin, Fl.num_mul, Fl.num_mul, nc, ns, hprod]
  have hP : rne 24 Real.pi = 13176795 / 2 ^ 22 := by
    rw [rne_eq (-22) 13176795 (by norm_num; linarith) (by norm_num; linarith) (by rw [abs_lt]; norm_num; constructor <;> linarith)]
    norm_num
  have idem : ∀ (n e : ℤ), |n| ≤ 2 ^ 24 → rne 24 ((n : ℝ) * 2 ^ e) = n * 2 ^ e := fun n e h => rne_of_rep (by norm_num) ⟨n, e, h, rfl⟩
  have hc : clerp (.num (13176795 / 2 ^ 24) : Fl ℝ (rne 24)) (.num (13176795 / 2 ^ 24)) (.num (1 / 2)) = .num (13176795 / 2 ^ 24) := by
    have i1 := idem 13176795 (-22) (by norm_num)
    have i2 := idem 13176795 (-21) (by norm_num)
    have i3 := idem 13176795 (-24) (by norm_num)
    have i4 := idem 2 0 (by norm_num)
    norm_num at i1 i2 i3 i4
    have hf : fmodR (13176795 / 2 ^ 22) (13176795 / 2 ^ 21) = 13176795 / 2 ^ 22 := by
      unfold fmodR truncR
      rw [if_pos (by norm_num), show ⌊(13176795 / 2 ^ 22 : ℝ) / (13176795 / 2 ^ 21)⌋ = 0 by rw [Int.floor_eq_iff]; norm_num]
      norm_num
    norm_num at hf hP
    unfold clerp clerpDelta piTimes2
    have l2 : (2 : Fl ℝ (rne 24)) = .num 2 := by rw [Fl.ofNat_def]; exact congrArg Fl.num i4
    rw [l2]
    norm_num [hP, i1, i2, i3, hf, rne_zero]
  have hl : lerp (.num (11863283 / 2 ^ 23) : Fl ℝ (rne 24)) (.num (11863283 / 2 ^ 23)) (.num (1 / 2)) = .num (11863283 / 2 ^ 23) := by
    have i1 := idem 11863283 (-23) (by norm_num)
    norm_num at i1
    unfold lerp
    norm_num [i1, rne_zero]
  dsimp only
  rw [ea, el]
  refine ⟨res, ?_⟩
  have b1 : (Fl.num (1 / 2) == (0 : Fl ℝ (rne 24))) = false := by rw [Fl.zero_def, Fl.num_beq]; norm_num
  have b2 : (Fl.num (1 / 2) == (1 : Fl ℝ (rne 24))) = false := by rw [Fl.one_def, Fl.num_beq]; norm_num
  have c : ¬ ¬ ((Fl.num (1 / 2) : Fl ℝ (rne 24)) ≥ 0 ∧ (Fl.num (1 / 2) : Fl ℝ (rne 24)) ≤ 1) := by
    rw [not_not, Fl.zero_def, Fl.one_def, ge_iff_le, Fl.num_le, Fl.num_le]; norm_num
  unfold Vec2.clerp
  rw [if_neg c, b1, b2, if_neg (by decide), if_neg (by decide), ea, el, hc, hl, res]

/-- a concrete case: a quarter turn in `float` -/
example : (12 : ℕ) ≤ 24 ∧ (1 / 2 : ℝ) ∈ Set.Ioo (0 : ℝ) 1 ∧ (⟨1, 0⟩ : Vec2 ℝ).length = 1 := by
  refine ⟨by norm_num, by norm_num, ?_⟩
  simp [Vec2.length]

end MathLib
