import Verif.Proof.RelErr

/-! # The quadratic equation of a ball and a segment, with rounding -/

namespace MathLib.BallLine
variable {rnd : ℝ → ℝ} {u : ℝ}

theorem gam_small (h0 : 0 ≤ u) (hu : u ≤ 1 / 4096) (n : ℕ) (hn : n ≤ 13) : gam u n ≤ 1.0034 * n * u ∧ 0 ≤ gam u n := by
  have h1 : u < 1 := by linarith
  have hn' : (n : ℝ) ≤ 13 := by exact_mod_cast hn
  have hnu : (n : ℝ) * u ≤ 13 / 4096 := by nlinarith
  have hnu0 : 0 ≤ (n : ℝ) * u := by positivity
  constructor
  · refine (gam_le h1 (by linarith)).trans ?_
    rw [div_le_iff₀ (by linarith)]
    nlinarith
  · have : 1 ≤ ((1 - u) ^ n)⁻¹ := (one_le_inv₀ (Fac.gpos h1 n)).2 (Fac.gle h0 h1 n)
    unfold gam; linarith

/-- the discriminant -/
theorem disc (hr : IsRel rnd u) (hu : u ≤ 1 / 4096) {f g B r : ℝ} {a c p : Fl ℝ rnd} (ha : AbsErr u 5 (f ^ 2) (f ^ 2) a)
    (hc : AbsErr u 5 (g ^ 2) (g ^ 2) c) (hp : AbsErr u 5 (f * g) B p) :
    ∃ D : ℝ, p * p - a * (c - .num r * .num r) = .num D ∧
      |D - (B ^ 2 - f ^ 2 * (g ^ 2 - r ^ 2))| ≤ 26.1 * u * (f ^ 2 * (g ^ 2 + r ^ 2)) := by
  have h0 := hr.nonneg
  obtain ⟨g13, g13'⟩ := gam_small h0 hu 13 le_rfl
  norm_num at g13
  have hr2 : AbsErr u 1 (|r| * |r|) (r * r) (.num r * .num r : Fl ℝ rnd) :=
    AbsErr.mul hr (AbsErr.exact hr r) (AbsErr.exact hr r)
  obtain ⟨-, D, eD, hD⟩ := AbsErr.sub (k := 13) hr (AbsErr.mul (k := 11) hr hp hp)
    (AbsErr.mul (k := 12) hr ha (AbsErr.sub (k := 6) hr hc hr2))
  refine ⟨D, eD, ?_⟩
  rw [show B ^ 2 - f ^ 2 * (g ^ 2 - r ^ 2) = B * B - f ^ 2 * (g ^ 2 - r * r) by ring]
  refine hD.trans ?_
  have e : f * g * (f * g) + f ^ 2 * (g ^ 2 + |r| * |r|) = f ^ 2 * (2 * g ^ 2 + r ^ 2) := by
    rw [abs_mul_abs_self]; ring
  rw [e]
  have q0 : 0 ≤ f ^ 2 * (2 * g ^ 2 + r ^ 2) := by positivity
  have q1 : f ^ 2 * (2 * g ^ 2 + r ^ 2) ≤ 2 * (f ^ 2 * (g ^ 2 + r ^ 2)) := by nlinarith [sq_nonneg (f * r)]
  calc gam u 13 * (f ^ 2 * (2 * g ^ 2 + r ^ 2)) ≤ 13.05 * u * (f ^ 2 * (2 * g ^ 2 + r ^ 2)) :=
        mul_le_mul_of_nonneg_right (by linarith) q0
    _ ≤ 13.05 * u * (2 * (f ^ 2 * (g ^ 2 + r ^ 2))) := mul_le_mul_of_nonneg_left q1 (by linarith)
    _ = _ := by ring

/-- the rounded square root of the rounded discriminant -/
theorem root_sqrt (h0 : 0 ≤ u) (hu : u ≤ 1 / 4096) {D s T : ℝ} (hD0 : 0 ≤ D) (hDT : D ≤ 1.0064 * T ^ 2) (hT : 0 ≤ T)
    (hs : |s - √D| ≤ u * √D) :
    0 ≤ s ∧ s ≤ 1.004 * T ∧ |s ^ 2 - D| ≤ 2.1 * (u * T ^ 2) ∧ 0.5 * D ≤ s ^ 2 := by
  have hR := Real.sqrt_nonneg D
  have hRs := Real.sq_sqrt hD0
  set R := √D
  obtain ⟨s1, s2⟩ := abs_le.1 hs
  have uR : u * R ≤ 1 / 4096 * R := mul_le_mul_of_nonneg_right hu hR
  have hs0 : 0 ≤ s := by linarith
  have hRT : R ≤ 1.0033 * T := by
    refine le_of_sq_le_sq ?_ (by linarith)
    have e : (1.0033 * T) ^ 2 = 1.00661089 * T ^ 2 := by ring
    linarith [sq_nonneg T]
  have a1 : s ^ 2 ≤ ((1 + u) * R) ^ 2 := pow_le_pow_left₀ hs0 (by linarith) 2
  have a2 : ((1 - u) * R) ^ 2 ≤ s ^ 2 := pow_le_pow_left₀ (mul_nonneg (by linarith) hR) (by linarith) 2
  have a3 : u * D ≤ 1.0064 * (u * T ^ 2) := by
    have := mul_le_mul_of_nonneg_left hDT h0
    linarith
  have a4 : u * (u * D) ≤ 1 / 4096 * (u * D) := mul_le_mul_of_nonneg_right hu (mul_nonneg h0 hD0)
  have a5 : 0 ≤ u * (u * D) := by positivity
  have e1 : ((1 + u) * R) ^ 2 = D + 2 * (u * D) + u * (u * D) := by rw [mul_pow, hRs]; ring
  have e2 : ((1 - u) * R) ^ 2 = D - 2 * (u * D) + u * (u * D) := by rw [mul_pow, hRs]; ring
  have a6 := mul_nonneg h0 hD0
  have a7 : u * D ≤ 1 / 4096 * D := mul_le_mul_of_nonneg_right hu hD0
  have a8 : 0 ≤ u * T ^ 2 := by positivity
  refine ⟨hs0, by linarith, ?_, by linarith⟩
  rw [abs_le]; constructor <;> linarith

/-- how far the computed root is from the formula -/
theorem root_num (h0 : 0 ≤ u) (hu : u ≤ 1 / 4096) {f g B s P y T : ℝ} (hT : 0 ≤ T) (hs : s ≤ 1.004 * T)
    (hfg : f * g ≤ T) (hB : |B| ≤ f * g) (hP : |P - B| ≤ 5.02 * u * (f * g)) (hy : |y + P + s| ≤ 7.03 * u * (|P| + s)) :
    |y + B + s| ≤ 19.2 * u * T := by
  have hfg0 : 0 ≤ f * g := (abs_nonneg _).trans hB
  have uT : 0 ≤ u * T := mul_nonneg h0 hT
  have hPT : |P| ≤ 1.002 * T := by
    have : |P| ≤ |P - B| + |B| := by
      calc |P| = |P - B + B| := by ring_nf
        _ ≤ _ := abs_add_le _ _
    have : 5.02 * u * (f * g) ≤ 0.002 * (f * g) := mul_le_mul_of_nonneg_right (by linarith) hfg0
    linarith
  have e : y + B + s = (y + P + s) - (P - B) := by ring
  rw [e]
  have a1 := abs_sub (y + P + s) (P - B)
  have a2 : 7.03 * u * (|P| + s) ≤ 7.03 * u * (2.006 * T) := mul_le_mul_of_nonneg_left (by linarith) (by linarith)
  have a3 : 5.02 * u * (f * g) ≤ 5.02 * u * T := mul_le_mul_of_nonneg_left hfg (by linarith)
  linarith

/-- the size of the rounded discriminant -/
theorem disc_le (hu : u ≤ 1 / 4096) {f g B r D T : ℝ} (hT2 : T ^ 2 = f ^ 2 * (g ^ 2 + r ^ 2)) (hB : |B| ≤ f * g)
    (hD : |D - (B ^ 2 - f ^ 2 * (g ^ 2 - r ^ 2))| ≤ 26.1 * u * T ^ 2) : D ≤ 1.0064 * T ^ 2 := by
  have hB2 : B ^ 2 ≤ f ^ 2 * g ^ 2 := by
    have := sq_le_sq' (by linarith [(abs_le.1 hB).1]) ((abs_le.1 hB).2)
    linarith [mul_pow f g 2]
  have := (abs_le.1 hD).2
  have q := mul_nonneg (sq_nonneg f) (sq_nonneg g)
  have : 26.1 * u * T ^ 2 ≤ 0.0064 * T ^ 2 := mul_le_mul_of_nonneg_right (by linarith) (sq_nonneg T)
  linarith

/-- pure arithmetic: the root satisfies the equation up to rounding -/
theorem real_root (h0 : 0 ≤ u) (hu : u ≤ 1 / 4096) {f g B r D s P y T : ℝ} (hT : 0 ≤ T) (hT2 : T ^ 2 = f ^ 2 * (g ^ 2 + r ^ 2))
    (hfg : f * g ≤ T) (hB : |B| ≤ f * g) (hP : |P - B| ≤ 5.02 * u * (f * g)) (hD0 : 0 ≤ D)
    (hD : |D - (B ^ 2 - f ^ 2 * (g ^ 2 - r ^ 2))| ≤ 26.1 * u * T ^ 2) (hs : |s - √D| ≤ u * √D)
    (hy : |y + P + s| ≤ 7.03 * u * (|P| + s)) :
    |(y + B) ^ 2 - (B ^ 2 - f ^ 2 * (g ^ 2 - r ^ 2))| ≤ 67 * u * T ^ 2 ∧ y + B ≤ 19.2 * u * T ∧
      (u * T ^ 2 ≤ D → y + B ≤ 0) := by
  obtain ⟨hs0, hsT, hsD, hsD'⟩ := root_sqrt h0 hu hD0 (disc_le hu hT2 hB hD) hT hs
  have hz := root_num h0 hu hT hsT hfg hB hP hy
  have uT2 : 0 ≤ u * T ^ 2 := by positivity
  obtain ⟨z, hz'⟩ : ∃ z, z = y + B + s := ⟨_, rfl⟩
  rw [← hz'] at hz
  have c : (19.2 * u * T) ^ 2 ≤ 0.1 * (u * T ^ 2) := by
    have b : (19.2 * u * T) ^ 2 = 368.64 * u * (u * T ^ 2) := by ring
    rw [b]
    exact mul_le_mul_of_nonneg_right (by linarith) uT2
  have hzz : z ^ 2 ≤ 0.1 * (u * T ^ 2) :=
    (sq_le_sq' (by linarith [(abs_le.1 hz).1]) (abs_le.1 hz).2).trans c
  have hsz : |s * z| ≤ 19.28 * (u * T ^ 2) := by
    rw [abs_mul, abs_of_nonneg hs0]
    calc s * |z| ≤ 1.004 * T * (19.2 * u * T) := mul_le_mul hsT hz (abs_nonneg _) (by linarith)
      _ = 19.2768 * (u * T ^ 2) := by ring
      _ ≤ _ := by linarith
  refine ⟨?_, by linarith [le_abs_self z], ?_⟩
  · have e : (y + B) ^ 2 - (B ^ 2 - f ^ 2 * (g ^ 2 - r ^ 2)) =
        (s ^ 2 - D) + (D - (B ^ 2 - f ^ 2 * (g ^ 2 - r ^ 2))) - 2 * (s * z) + z ^ 2 := by rw [hz']; ring
    rw [e, abs_le]
    obtain ⟨b1, b2⟩ := abs_le.1 hsD
    obtain ⟨b3, b4⟩ := abs_le.1 hD
    obtain ⟨b5, b6⟩ := abs_le.1 hsz
    have b7 := sq_nonneg z
    constructor <;> linarith
  · intro h
    have e : y + B = z - s := by rw [hz']; ring
    rw [e]
    have k : z ≤ 19.2 * u * T := (le_abs_self _).trans hz
    have l2 : 19.2 * u * T ≤ s := le_of_sq_le_sq (by linarith) hs0
    linarith

section
variable {R : Type} [Zero R] [One R] [Add R] [Sub R] [Mul R] [Div R] [Neg R] [LT R] [DecidableLT R] [BEq R] [MathFns R]

/-- the common part of the tests, in terms of the three products -/
def run (a c p r : R) : Option R :=
  if a == 0 then none else
  if p * p - a * (c - r * r) < 0 then none else
  if (-p - MathFns.sqrt (p * p - a * (c - r * r))) / a < 0 ∨ (-p - MathFns.sqrt (p * p - a * (c - r * r))) / a > 1 then none
  else some ((-p - MathFns.sqrt (p * p - a * (c - r * r))) / a)
end

/-- the root that is computed -/
theorem root (hr : IsRel rnd u) (hu : u ≤ 1 / 4096) {f P D : ℝ} {a : Fl ℝ rnd} (hf : 0 < f) (ha : Rel u 5 (f ^ 2) a) (hD : 0 ≤ D) :
    ∃ s t : ℝ, (-.num P - MathFns.sqrt (.num D)) / a = .num t ∧ |s - √D| ≤ u * √D ∧
      |f ^ 2 * t + P + s| ≤ 7.03 * u * (|P| + s) := by
  have h0 := hr.nonneg
  obtain ⟨ρ, hρ, rfl⟩ := ha
  have hρ0 := hρ.pos hr.lt_one
  have hf2 : f ^ 2 * ρ ≠ 0 := (mul_pos (pow_pos hf 2) hρ0).ne'
  have hs := hr.err √D
  rw [abs_of_nonneg (Real.sqrt_nonneg D)] at hs
  have hs0 : 0 ≤ rnd √D := by
    have := (abs_le.1 hs).1
    have := Real.sqrt_nonneg D
    have := mul_le_mul_of_nonneg_right hu (Real.sqrt_nonneg D)
    linarith
  obtain ⟨θ, hθ, e1⟩ := hr.fac (-P - rnd √D)
  obtain ⟨φ, hφ, e2⟩ := hr.fac ((-P - rnd √D) * θ / (f ^ 2 * ρ))
  have hψ : Fac u 7 (θ * φ * ρ⁻¹) :=
    Fac.mul hr.lt_one (Fac.mul hr.lt_one hθ hφ) (Fac.inv hr.lt_one hρ)
  have hψ' := hψ.abs_sub_one hr.lt_one
  obtain ⟨g7, -⟩ := gam_small h0 hu 7 (by norm_num)
  norm_num at g7
  refine ⟨rnd √D, rnd (rnd (-P - rnd √D) / (f ^ 2 * ρ)), ?_, hs, ?_⟩
  · have : MathFns.sqrt (.num D : Fl ℝ rnd) = .num (rnd √D) := if_neg (not_lt.2 hD)
    rw [this, Fl.num_neg, Fl.num_sub, Fl.num_div, if_neg hf2]
  · rw [e1, e2]
    have e : f ^ 2 * ((-P - rnd √D) * θ / (f ^ 2 * ρ) * φ) + P + rnd √D = (θ * φ * ρ⁻¹ - 1) * (-P - rnd √D) := by
      field_simp; ring
    rw [e, abs_mul]
    have b : |-P - rnd √D| ≤ |P| + rnd √D := by
      have := abs_sub (-P) (rnd √D)
      rwa [abs_neg, abs_of_nonneg hs0] at this
    calc |θ * φ * ρ⁻¹ - 1| * |-P - rnd √D| ≤ 7.03 * u * |-P - rnd √D| :=
          mul_le_mul_of_nonneg_right (by linarith) (abs_nonneg _)
      _ ≤ _ := mul_le_mul_of_nonneg_left b (by linarith)

/-- the tests of a segment against a ball -/
theorem run_spec (hr : IsRel rnd u) (hu : u ≤ 1 / 4096) {f g B r : ℝ} {a c p : Fl ℝ rnd} (hf : 0 ≤ f) (hg : 0 ≤ g)
    (ha : Rel u 5 (f ^ 2) a) (hc : AbsErr u 5 (g ^ 2) (g ^ 2) c) (hp : AbsErr u 5 (f * g) B p) :
    (∀ x, run a c p (.num r) = some x → ∃ t : ℝ, x = .num t ∧ 0 ≤ t ∧ t ≤ 1 ∧ 0 < f ∧
      |f ^ 2 * t ^ 2 + 2 * B * t + g ^ 2 - r ^ 2| ≤ 70 * u * (g ^ 2 + r ^ 2) ∧
      f ^ 2 * t + B ≤ 20 * u * (f * √(g ^ 2 + r ^ 2))) ∧
    (∀ t0, r ^ 2 + 70 * u * (g ^ 2 + r ^ 2) < g ^ 2 → 0 ≤ t0 → t0 ≤ 1 →
      f ^ 2 * t0 ^ 2 + 2 * B * t0 + g ^ 2 < r ^ 2 - 70 * u * (g ^ 2 + r ^ 2) → ∃ x, run a c p (.num r) = some x) ∧
    (g ^ 2 < r ^ 2 - 70 * u * (g ^ 2 + r ^ 2) → run a c p (.num r) = none) := by
  have h0 := hr.nonneg
  rcases hf.eq_or_lt with rfl | hf
  · -- no segment
    have hB : B = 0 := by
      have := hp.1
      rw [zero_mul] at this
      exact abs_nonpos_iff.1 this
    have ea : a = .num 0 := by
      obtain ⟨θ, -, rfl⟩ := ha
      congr 1; ring
    have e : run a c p (.num r) = none := by rw [run, ea]; simp [Fl.zero_def]
    rw [e]
    have q : 0 ≤ 70 * u * (g ^ 2 + r ^ 2) := by positivity
    refine ⟨by simp, fun t0 h1 h2 h3 h4 => ?_, fun _ => rfl⟩
    rw [hB] at h4
    exfalso; nlinarith
  obtain ⟨D, eD, hD⟩ := disc (r := r) hr hu ((AbsErr.of_rel hr ha).mono hr le_rfl (le_of_eq (abs_of_nonneg (sq_nonneg f)))) hc hp
  have hB := hp.1
  obtain ⟨-, P, rfl, hP⟩ := hp
  obtain ⟨g5, -⟩ := gam_small h0 hu 5 (by norm_num)
  norm_num at g5
  have hfg0 : 0 ≤ f * g := mul_nonneg hf.le hg
  have hP' : |P - B| ≤ 5.02 * u * (f * g) := hP.trans (mul_le_mul_of_nonneg_right (by linarith) hfg0)
  have hH : 0 ≤ g ^ 2 + r ^ 2 := by positivity
  have hH2 := Real.sq_sqrt hH
  have hT2 : (f * √(g ^ 2 + r ^ 2)) ^ 2 = f ^ 2 * (g ^ 2 + r ^ 2) := by rw [mul_pow, hH2]
  have hT : 0 ≤ f * √(g ^ 2 + r ^ 2) := by positivity
  have hfg : f * g ≤ f * √(g ^ 2 + r ^ 2) :=
    mul_le_mul_of_nonneg_left (Real.le_sqrt_of_sq_le (by linarith [sq_nonneg r])) hf.le
  set T := f * √(g ^ 2 + r ^ 2)
  rw [← hT2] at hD
  have hf2 : 0 < f ^ 2 := by positivity
  have ha0 : (a == 0) = false := by
    obtain ⟨θ, hθ, rfl⟩ := ha
    have := (mul_pos hf2 (hθ.pos hr.lt_one)).ne'
    simpa [Fl.zero_def] using this
  -- the computed root, when there is one
  have key : 0 ≤ D → ∃ t : ℝ, run a c (.num P) (.num r) = (if t < 0 ∨ 1 < t then none else some (.num t)) ∧
      |(f ^ 2 * t + B) ^ 2 - (B ^ 2 - f ^ 2 * (g ^ 2 - r ^ 2))| ≤ 67 * u * T ^ 2 ∧
      f ^ 2 * t + B ≤ 19.2 * u * T ∧ (u * T ^ 2 ≤ D → f ^ 2 * t + B ≤ 0) := by
    intro hD0
    obtain ⟨s, t, et, hs, ht⟩ := root (P := P) hr hu hf ha hD0
    refine ⟨t, ?_, real_root h0 hu hT hT2 hfg hB hP' hD0 hD hs ht⟩
    rw [run, eD, et, ha0]
    simp only [Fl.zero_def, Fl.one_def, Fl.num_lt, gt_iff_lt, not_lt.2 hD0, if_false, Bool.false_eq_true]
  have quad : ∀ t, (f ^ 2 * t + B) ^ 2 - (B ^ 2 - f ^ 2 * (g ^ 2 - r ^ 2)) =
      f ^ 2 * (f ^ 2 * t ^ 2 + 2 * B * t + g ^ 2 - r ^ 2) := fun t => by ring
  have uT : 0 ≤ u * T ^ 2 := by positivity
  have mT : f ^ 2 * (70 * u * (g ^ 2 + r ^ 2)) = 70 * (u * T ^ 2) := by rw [hT2]; ring
  refine ⟨fun x hx => ?_, fun t0 h1 h2 h3 h4 => ?_, fun h1 => ?_⟩
  · rcases lt_or_ge D 0 with hneg | hD0
    · rw [run, eD, ha0] at hx
      simp [Fl.zero_def, hneg] at hx
    · obtain ⟨t, e, k1, k2, -⟩ := key hD0
      rw [e] at hx
      split_ifs at hx with hh
      push Not at hh
      refine ⟨t, (Option.some.inj hx).symm, hh.1, hh.2, hf, ?_, ?_⟩
      · rw [quad, abs_mul, abs_of_pos hf2] at k1
        have : f ^ 2 * |f ^ 2 * t ^ 2 + 2 * B * t + g ^ 2 - r ^ 2| ≤ f ^ 2 * (70 * u * (g ^ 2 + r ^ 2)) := by
          rw [mT]; linarith
        exact le_of_mul_le_mul_left this hf2
      · have := mul_nonneg h0 hT
        linarith
  · have m4 := mul_lt_mul_of_pos_left h4 hf2
    have m1 := mul_lt_mul_of_pos_left h1 hf2
    rw [mul_add] at m1
    rw [mul_sub] at m4
    rw [mT] at m1 m4
    have q0 := quad t0
    have s0 := sq_nonneg (f ^ 2 * t0 + B)
    have d1 := (abs_le.1 hD).1
    have hDp : 0 ≤ D := by linarith
    obtain ⟨t, e, k1, -, k2⟩ := key hDp
    have k3 := k2 (by linarith)
    obtain ⟨k4, k5⟩ := abs_le.1 k1
    -- the middle of the chord lies ahead
    have hBneg : B < 0 := by
      by_contra hB0
      push Not at hB0
      have : B ^ 2 ≤ (f ^ 2 * t0 + B) ^ 2 := pow_le_pow_left₀ hB0 (by linarith [mul_nonneg hf2.le h2]) 2
      linarith
    refine ⟨.num t, ?_⟩
    rw [e, if_neg]
    rintro (ht | ht)
    · have : f ^ 2 * t < 0 := mul_neg_of_pos_of_neg hf2 ht
      have : (-B) ^ 2 ≤ (-(f ^ 2 * t + B)) ^ 2 := pow_le_pow_left₀ (by linarith) (by linarith) 2
      rw [neg_sq, neg_sq] at this
      linarith
    · have : f ^ 2 * t0 ≤ f ^ 2 * t := mul_le_mul_of_nonneg_left (by linarith) hf2.le
      have : (-(f ^ 2 * t + B)) ^ 2 ≤ (-(f ^ 2 * t0 + B)) ^ 2 := pow_le_pow_left₀ (by linarith) (by linarith) 2
      rw [neg_sq, neg_sq] at this
      linarith
  · have m1 := mul_lt_mul_of_pos_left h1 hf2
    rw [mul_sub, mT] at m1
    have d1 := (abs_le.1 hD).1
    have s0 := sq_nonneg B
    have hDp : 0 ≤ D := by linarith
    obtain ⟨t, e, k1, -, k2⟩ := key hDp
    have k3 := k2 (by linarith)
    obtain ⟨k4, k5⟩ := abs_le.1 k1
    rw [e, if_pos]
    left
    by_contra ht
    push Not at ht
    have : 0 ≤ f ^ 2 * t := mul_nonneg hf2.le ht
    have : (-(f ^ 2 * t + B)) ^ 2 ≤ (-B) ^ 2 := pow_le_pow_left₀ (by linarith) (by linarith) 2
    rw [neg_sq, neg_sq] at this
    linarith

end MathLib.BallLine
