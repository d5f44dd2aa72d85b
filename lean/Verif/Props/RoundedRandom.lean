import Verif.Proof.RneTie
import Verif.Proof.BallLine
import Verif.Model.Functions

/-! # Property C174: random numbers in floating point -/

namespace MathLib
variable {p : ℕ}

private theorem draws (hp : 1 ≤ p) {M r : ℕ} (hM : 0 < M) (hr : r ≤ M) :
    0 ≤ rne p (r : ℝ) ∧ rne p (r : ℝ) ≤ rne p (M : ℝ) ∧ 0 < rne p (M : ℝ) := by
  refine ⟨?_, rne_mono p hp (by exact_mod_cast hr), rne_pos p hp _ (by exact_mod_cast hM)⟩
  have := rne_mono p hp (show (0 : ℝ) ≤ r by positivity)
  rwa [rne_zero] at this

private theorem rne_nonneg (hp : 1 ≤ p) {x : ℝ} (h : 0 ≤ x) : 0 ≤ rne p x := by
  have := rne_mono p hp h
  rwa [rne_zero] at this

private theorem rel_nat (hr : IsRel (rne p) ((2 : ℝ) ^ (-(p : ℤ)))) (n : ℕ) :
    Rel ((2 : ℝ) ^ (-(p : ℤ))) 1 (n : ℝ) ((n : ℕ) : Fl ℝ (rne p)) := by
  obtain ⟨θ, ht, e⟩ := hr.fac (n : ℝ)
  exact ⟨θ, ht, by rw [Fl.natCast_def, e]⟩

private theorem small (hp : 12 ≤ p) : (2 : ℝ) ^ (-(p : ℤ)) ≤ 1 / 4096 :=
  (zpow_le_zpow_right₀ one_le_two (by omega : -(p : ℤ) ≤ -12)).trans (by norm_num)

/-- C174, what holds of `rand(f)`: for every draw `r` in `[0,M]`, `M = RAND_MAX`, the result is not negative and
`f * r / M` up to five roundings.  If `RAND_MAX` is converted to a power of two, as `2^31 - 1` is in `float`, it is also at
most `f`, and `f` itself for the largest draw.  The bound `f` is false in general (`C174_rand_refuted`). -/
theorem C174_rand_partial (hp : 12 ≤ p) {M r : ℕ} (hM : 0 < M) (hrM : r ≤ M) {f : ℝ} (hf : Rep p f) (h0 : 0 ≤ f) :
    ∃ w : ℝ, randReal (M : Fl ℝ (rne p)) (r : Fl ℝ (rne p)) (.num f) = .num w ∧ 0 ≤ w ∧
      |w - r / M * f| ≤ 5 * (2 : ℝ) ^ (-(p : ℤ)) * (r / M * f) ∧
      (∀ k : ℕ, rne p (M : ℝ) = 2 ^ k → w ≤ f ∧ (r = M → w = f)) := by
  have hp1 : 1 ≤ p := by omega
  have hr := isRel_rne p hp1
  obtain ⟨d0, d1, d2⟩ := draws hp1 hM hrM
  have hM' : (M : ℝ) ≠ 0 := by exact_mod_cast hM.ne'
  have e : randReal (M : Fl ℝ (rne p)) (r : Fl ℝ (rne p)) (.num f) =
      .num (rne p (rne p (r : ℝ) * rne p (f / rne p (M : ℝ)))) := by
    simp only [randReal]
    rw [Fl.natCast_def, Fl.natCast_def, Fl.num_div, if_neg d2.ne', Fl.num_mul]
  refine ⟨_, e, rne_nonneg hp1 (mul_nonneg d0 (rne_nonneg hp1 (by positivity))), ?_, ?_⟩
  · have rel : Rel ((2 : ℝ) ^ (-(p : ℤ))) 4 ((r : ℝ) * (f / M)) (randReal (M : Fl ℝ (rne p)) (r : Fl ℝ (rne p)) (.num f)) :=
      Rel.mul hr (rel_nat hr r) (Rel.div hr (Rel.exact hr f) (rel_nat hr M) hM' (k := 2))
    obtain ⟨v, ev, hv⟩ := rel.error hr
    obtain ⟨g, -⟩ := BallLine.gam_small hr.nonneg (small hp) 4 (by norm_num)
    rw [← Fl.num.inj (e.symm.trans ev)] at hv
    have q : (r : ℝ) * (f / M) = r / M * f := by ring
    have q0 : 0 ≤ (r : ℝ) / M * f := by positivity
    rw [q, abs_of_nonneg q0] at hv
    refine hv.trans (mul_le_mul_of_nonneg_right ?_ q0)
    have := hr.nonneg
    push_cast at g
    linarith
  · intro k hk
    have ex : rne p (f / rne p (M : ℝ)) = f / 2 ^ k := by
      rw [hk]
      apply rne_of_rep hp1
      have := hf.mul_zpow (-(k : ℤ))
      rwa [zpow_neg, zpow_natCast, ← div_eq_mul_inv] at this
    constructor
    · rw [ex]
      calc rne p (rne p (r : ℝ) * (f / 2 ^ k)) ≤ rne p f := by
            apply rne_mono p hp1
            rw [hk] at d1
            rw [mul_div_assoc', div_le_iff₀ (by positivity), mul_comm f]
            exact mul_le_mul_of_nonneg_right d1 h0
        _ = f := rne_of_rep hp1 hf
    · rintro rfl
      rw [ex, hk, mul_div_assoc', mul_div_cancel_left₀ _ (by positivity : (2 : ℝ) ^ k ≠ 0), rne_of_rep hp1 hf]

/-- C174, what holds of `randBetween(from, to)`: the result is at least `from` and `from + (to - from) * r / M` up to
rounding.  If `RAND_MAX` is converted to a power of two and `to - from` is a number of the format, it is also at most `to`, and
`to` itself for the largest draw.  The bound `to` is false in general (`C174_between_refuted`). -/
theorem C174_between_partial (hp : 12 ≤ p) {M r : ℕ} (hM : 0 < M) (hrM : r ≤ M) {a b : ℝ} (ha : Rep p a) (hb : Rep p b)
    (hab : a ≤ b) :
    ∃ w : ℝ, randBetweenReal (M : Fl ℝ (rne p)) (r : Fl ℝ (rne p)) (.num a) (.num b) = .num w ∧ a ≤ w ∧
      |w - (a + r / M * (b - a))| ≤ 13 * (2 : ℝ) ^ (-(p : ℤ)) * (|a| + |b|) ∧ (r = 0 → w = a) ∧
      (∀ k : ℕ, rne p (M : ℝ) = 2 ^ k → Rep p (b - a) → w ≤ b ∧ (r = M → w = b)) := by
  have hp1 : 1 ≤ p := by omega
  have hr := isRel_rne p hp1
  obtain ⟨d0, d1, d2⟩ := draws hp1 hM hrM
  have hM' : (M : ℝ) ≠ 0 := by exact_mod_cast hM.ne'
  have hd : 0 ≤ b - a := by linarith
  have hd' := rne_nonneg hp1 hd
  have e : randBetweenReal (M : Fl ℝ (rne p)) (r : Fl ℝ (rne p)) (.num a) (.num b) =
      .num (rne p (a + rne p (rne p (rne p (r : ℝ) * rne p (b - a)) / rne p (M : ℝ)))) := by
    simp only [randBetweenReal]
    rw [Fl.natCast_def, Fl.natCast_def, Fl.num_sub, Fl.num_mul, Fl.num_div, if_neg d2.ne', Fl.num_add]
  have q0 : 0 ≤ rne p (rne p (rne p (r : ℝ) * rne p (b - a)) / rne p (M : ℝ)) :=
    rne_nonneg hp1 (div_nonneg (rne_nonneg hp1 (mul_nonneg d0 hd')) d2.le)
  refine ⟨_, e, ?_, ?_, ?_, ?_⟩
  · calc a = rne p a := (rne_of_rep hp1 ha).symm
      _ ≤ _ := rne_mono p hp1 (by linarith)
  · have rel : Rel ((2 : ℝ) ^ (-(p : ℤ))) 5 ((r : ℝ) * (b - a) / M)
        ((r : Fl ℝ (rne p)) * (.num b - .num a) / (M : Fl ℝ (rne p))) :=
      Rel.div hr (Rel.mul hr (rel_nat hr r) (Rel.sub hr b a) (k := 3)) (rel_nat hr M) hM'
    have ae : AbsErr ((2 : ℝ) ^ (-(p : ℤ))) 6 _ (a + (r : ℝ) * (b - a) / M)
        (randBetweenReal (M : Fl ℝ (rne p)) (r : Fl ℝ (rne p)) (.num a) (.num b)) :=
      AbsErr.add hr (AbsErr.exact hr a) (AbsErr.of_rel hr rel)
    obtain ⟨-, v, ev, hv⟩ := ae
    obtain ⟨g, -⟩ := BallLine.gam_small hr.nonneg (small hp) 6 (by norm_num)
    rw [← Fl.num.inj (e.symm.trans ev)] at hv
    have q : (r : ℝ) * (b - a) / M = r / M * (b - a) := by ring
    have q1 : (r : ℝ) / M ≤ 1 := (div_le_one (by positivity)).2 (by exact_mod_cast hrM)
    have q2 : |(r : ℝ) / M * (b - a)| ≤ |a| + |b| := by
      rw [abs_mul, abs_of_nonneg (by positivity : (0 : ℝ) ≤ r / M)]
      calc (r : ℝ) / M * |b - a| ≤ 1 * |b - a| := mul_le_mul_of_nonneg_right q1 (abs_nonneg _)
        _ ≤ |a| + |b| := by rw [one_mul, add_comm |a|]; exact abs_sub b a
    rw [q] at hv
    refine hv.trans ?_
    have := hr.nonneg
    push_cast at g
    have t1 := mul_le_mul_of_nonneg_right g (show 0 ≤ |a| + |(r : ℝ) / M * (b - a)| by positivity)
    refine t1.trans ?_
    have t2 := mul_le_mul_of_nonneg_left q2 this
    nlinarith [mul_nonneg this (abs_nonneg a), mul_nonneg this (abs_nonneg b)]
  · rintro rfl
    norm_num [rne_zero]
    exact rne_of_rep hp1 ha
  · intro k hk hba
    rw [hk] at d1 ⊢
    rw [rne_of_rep hp1 hba]
    have sc : ∀ x : ℝ, rne p x / 2 ^ k = rne p (rne p x / 2 ^ k) := fun x => by
      symm
      apply rne_of_rep hp1
      have := (rep_rne p hp1 x).mul_zpow (-(k : ℤ))
      rwa [zpow_neg, zpow_natCast, ← div_eq_mul_inv] at this
    have top : rne p (2 ^ k * (b - a)) = 2 ^ k * (b - a) := by
      apply rne_of_rep hp1
      have := hba.mul_zpow (k : ℤ)
      rwa [zpow_natCast, mul_comm] at this
    rw [← sc]
    have hk0 : (0 : ℝ) < 2 ^ k := by positivity
    constructor
    · calc _ ≤ rne p b := by
            apply rne_mono p hp1
            have : rne p (rne p (r : ℝ) * (b - a)) ≤ 2 ^ k * (b - a) := by
              rw [← top]; exact rne_mono p hp1 (mul_le_mul_of_nonneg_right d1 hd)
            have : rne p (rne p (r : ℝ) * (b - a)) / 2 ^ k ≤ b - a := by
              rw [div_le_iff₀ hk0]; linarith
            linarith
        _ = b := rne_of_rep hp1 hb
    · rintro rfl
      rw [hk, top, mul_div_cancel_left₀ _ hk0.ne', add_sub_cancel, rne_of_rep hp1 hb]

/-- C174 for `randAmplitude(f)`: for every draw and whatever `RAND_MAX` is, the result is in `[-f, f]`, `-f` for the smallest
draw, and `(2 r / M - 1) f` up to rounding. -/
theorem C174_amplitude (hp : 12 ≤ p) {M r : ℕ} (hM : 0 < M) (hrM : r ≤ M) {f : ℝ} (hf : Rep p f) (h0 : 0 ≤ f) :
    ∃ w : ℝ, randAmplitudeReal (M : Fl ℝ (rne p)) (r : Fl ℝ (rne p)) (.num f) = .num w ∧ -f ≤ w ∧ w ≤ f ∧
      |w - (2 * (r / M) - 1) * f| ≤ 19 * (2 : ℝ) ^ (-(p : ℤ)) * f ∧ (r = 0 → w = -f) := by
  have hp1 : 1 ≤ p := by omega
  have hr := isRel_rne p hp1
  obtain ⟨d0, d1, d2⟩ := draws hp1 hM hrM
  have hM' : (M : ℝ) ≠ 0 := by exact_mod_cast hM.ne'
  have l2 : (2 : Fl ℝ (rne p)) = .num 2 :=
    (Fl.ofNat_def 2).trans (congrArg Fl.num (by
      have := rne_of_rep (K := ℝ) hp1 (Rep.zpow 1)
      simpa using this))
  have r1 : rne p (1 : ℝ) = 1 := by simpa using rne_of_rep (K := ℝ) hp1 (Rep.zpow 0)
  have e : randAmplitudeReal (M : Fl ℝ (rne p)) (r : Fl ℝ (rne p)) (.num f) =
      .num (rne p (rne p (rne p (rne p (r : ℝ) * rne p (2 / rne p (M : ℝ))) - 1) * f)) := by
    simp only [randAmplitudeReal]
    rw [Fl.natCast_def, Fl.natCast_def, l2, Fl.num_div, if_neg d2.ne', Fl.num_mul, Fl.one_def, Fl.num_sub, Fl.num_mul]
  -- the scaled draw is at most 2
  have q2 : rne p (rne p (r : ℝ) * rne p (2 / rne p (M : ℝ))) ≤ 2 := by
    have t := rne_tie_above (K := ℝ) (p := p) (by omega) 1 (x := rne p (r : ℝ) * rne p (2 / rne p (M : ℝ))) (by
      have h1 := (abs_le.1 (hr.err (2 / rne p (M : ℝ)))).2
      rw [abs_of_nonneg (by positivity)] at h1
      have h2 : rne p (2 / rne p (M : ℝ)) ≤ (2 + 2 * (2 : ℝ) ^ (-(p : ℤ))) / rne p (M : ℝ) := by
        calc _ ≤ 2 / rne p (M : ℝ) + (2 : ℝ) ^ (-(p : ℤ)) * (2 / rne p (M : ℝ)) := by linarith
          _ = _ := by ring
      have h3 : rne p (r : ℝ) * rne p (2 / rne p (M : ℝ)) ≤ rne p (M : ℝ) * ((2 + 2 * (2 : ℝ) ^ (-(p : ℤ))) / rne p (M : ℝ)) :=
        mul_le_mul d1 h2 (rne_nonneg hp1 (by positivity)) d2.le
      rw [mul_div_cancel₀ _ d2.ne'] at h3
      rw [show (1 : ℤ) - (p : ℤ) = 1 + -(p : ℤ) by ring, zpow_add₀ two_ne_zero]
      simpa using h3)
    simpa using t
  have q0 : 0 ≤ rne p (rne p (r : ℝ) * rne p (2 / rne p (M : ℝ))) :=
    rne_nonneg hp1 (mul_nonneg d0 (rne_nonneg hp1 (by positivity)))
  generalize hq : rne p (rne p (r : ℝ) * rne p (2 / rne p (M : ℝ))) = q at *
  have s1 : rne p (q - 1) ≤ 1 := by
    rw [← r1]; exact rne_mono p hp1 (by linarith)
  have s0 : -1 ≤ rne p (q - 1) := by
    rw [← r1, ← rne_neg]; exact rne_mono p hp1 (by linarith)
  refine ⟨_, e, ?_, ?_, ?_, ?_⟩
  · rw [← rne_of_rep hp1 hf.neg]
    exact rne_mono p hp1 (by nlinarith)
  · conv_rhs => rw [← rne_of_rep hp1 hf]
    exact rne_mono p hp1 (by nlinarith)
  · have rel : Rel ((2 : ℝ) ^ (-(p : ℤ))) 4 ((r : ℝ) * (2 / M)) ((r : Fl ℝ (rne p)) * (2 / (M : Fl ℝ (rne p)))) := by
      rw [l2]
      exact Rel.mul hr (rel_nat hr r) (Rel.div hr (Rel.exact hr 2) (rel_nat hr M) hM' (k := 2))
    have ae : AbsErr ((2 : ℝ) ^ (-(p : ℤ))) 6 _ (((r : ℝ) * (2 / M) - 1) * f)
        (randAmplitudeReal (M : Fl ℝ (rne p)) (r : Fl ℝ (rne p)) (.num f)) :=
      AbsErr.mul hr (AbsErr.sub hr (AbsErr.of_rel hr rel) (AbsErr.exact hr 1) (k := 5)) (AbsErr.exact hr f)
    obtain ⟨-, v, ev, hv⟩ := ae
    obtain ⟨g, -⟩ := BallLine.gam_small hr.nonneg (small hp) 6 (by norm_num)
    rw [← Fl.num.inj (e.symm.trans ev)] at hv
    have c : (r : ℝ) * (2 / M) = 2 * (r / M) := by ring
    have c1 : (r : ℝ) / M ≤ 1 := (div_le_one (by positivity)).2 (by exact_mod_cast hrM)
    have c0 : (0 : ℝ) ≤ r / M := by positivity
    rw [c, abs_of_nonneg (by positivity : 0 ≤ 2 * ((r : ℝ) / M)), abs_one, abs_of_nonneg h0] at hv
    refine hv.trans ?_
    have := hr.nonneg
    push_cast at g
    have t1 := mul_le_mul_of_nonneg_right g (show 0 ≤ (2 * ((r : ℝ) / M) + 1) * f by positivity)
    refine t1.trans ?_
    have t2 : (2 * ((r : ℝ) / M) + 1) * f ≤ 3 * f := mul_le_mul_of_nonneg_right (by linarith) h0
    have t3 := mul_le_mul_of_nonneg_left t2 this
    nlinarith [mul_nonneg this h0]
  · rintro rfl
    have : q = 0 := by rw [← hq]; simp [rne_zero]
    rw [this, zero_sub, rne_neg, r1, neg_one_mul, rne_neg, rne_of_rep hp1 hf]

/-- the claim of C174 for the first two helpers: results do not exceed the upper bound -/
def C174_full : Prop :=
  ∀ (p M r : ℕ) (a b : ℝ), 12 ≤ p → 0 < M → r ≤ M → Rep p a → Rep p b →
    (0 ≤ b → ∃ w : ℝ, randReal (M : Fl ℝ (rne p)) (r : Fl ℝ (rne p)) (.num b) = .num w ∧ w ≤ b) ∧
    (a ≤ b → ∃ w : ℝ, randBetweenReal (M : Fl ℝ (rne p)) (r : Fl ℝ (rne p)) (.num a) (.num b) = .num w ∧ w ≤ b)

/-- The claim is false of `rand(f)`: in `double` with `RAND_MAX = 2^31 - 1` the largest draw gives 2 for the number below 2. -/
theorem C174_rand_refuted :
    randReal ((2147483647 : ℕ) : Fl ℝ (rne 53)) ((2147483647 : ℕ) : Fl ℝ (rne 53)) (.num (2 - 1 / 2 ^ 52)) = .num 2 := by
  have m1 : rne 53 (((2147483647 : ℕ) : ℝ)) = 2147483647 := by
    rw [rne_of_rep (by norm_num) (Rep.nat _ (by norm_num))]; norm_num
  have m2 : rne 53 ((2 - 1 / 2 ^ 52) / 2147483647 : ℝ) = 2147483649 / 2 ^ 61 := by
    rw [rne_eq (-82) 4503599629467648 (by norm_num) (by norm_num) (by rw [abs_lt]; norm_num)]; norm_num
  have m3 : rne 53 (2147483647 * (2147483649 / 2 ^ 61) : ℝ) = 2 := by
    rw [rne_eq (-52) 9007199254740992 (by norm_num) (by norm_num) (by rw [abs_lt]; norm_num)]; norm_num
  simp only [randReal]
  rw [Fl.natCast_def, m1, Fl.num_div, if_neg (by norm_num), Fl.num_mul, m2, m3]

/-- The claim is false of `randBetween(from, to)`: in `float` the largest draw gives `4 * 2^-25` for the interval from -1 to
`3 * 2^-25`. -/
theorem C174_between_refuted :
    randBetweenReal ((2147483647 : ℕ) : Fl ℝ (rne 24)) ((2147483647 : ℕ) : Fl ℝ (rne 24)) (.num (-1)) (.num (3 / 2 ^ 25)) =
      .num (4 / 2 ^ 25) := by
  have m1 : rne 24 (((2147483647 : ℕ) : ℝ)) = 2147483648 := by
    rw [rne_eq 7 16777216 (by norm_num) (by norm_num) (by rw [abs_lt]; norm_num)]; norm_num
  have m2 : rne 24 (3 / 2 ^ 25 - -1 : ℝ) = 1 + 1 / 2 ^ 23 := by
    rw [rne_eq (-23) 8388609 (by norm_num) (by norm_num) (by rw [abs_lt]; norm_num)]; norm_num
  have m3 : rne 24 (2147483648 * (1 + 1 / 2 ^ 23) : ℝ) = 2147483904 := by
    rw [rne_eq 8 8388609 (by norm_num) (by norm_num) (by rw [abs_lt]; norm_num)]; norm_num
  have m4 : rne 24 (2147483904 / 2147483648 : ℝ) = 1 + 1 / 2 ^ 23 := by
    rw [rne_eq (-23) 8388609 (by norm_num) (by norm_num) (by rw [abs_lt]; norm_num)]; norm_num
  have m5 : rne 24 (-1 + (1 + 1 / 2 ^ 23) : ℝ) = 4 / 2 ^ 25 := by
    rw [rne_eq (-46) 8388608 (by norm_num) (by norm_num) (by rw [abs_lt]; norm_num)]; norm_num
  simp only [randBetweenReal]
  rw [Fl.natCast_def, m1, Fl.num_sub, m2, Fl.num_mul, m3, Fl.num_div, if_neg (by norm_num), m4, Fl.num_add, m5]

theorem C174_refuted : ¬ C174_full := by
  intro h
  obtain ⟨w, e, hw⟩ := (h 53 2147483647 2147483647 0 (2 - 1 / 2 ^ 52) (by norm_num) (by norm_num) le_rfl (Rep.zero _)
    ⟨9007199254740991, -52, by norm_num, by norm_num⟩).1 (by norm_num)
  have : w = 2 := Fl.num.inj (e.symm.trans C174_rand_refuted)
  rw [this] at hw
  norm_num at hw

/-- concrete cases: `RAND_MAX` in `float` is a power of two, in `double` it is not; an interval whose length is a number of
the format, and one whose length is not -/
example : rne 24 ((2147483647 : ℕ) : ℝ) = 2 ^ 31 ∧ rne 53 ((2147483647 : ℕ) : ℝ) = 2 ^ 31 - 1 ∧ Rep 24 (5 - 1 / 4 : ℝ) ∧
    Rep 24 (3 / 2 ^ 25 : ℝ) := by
  refine ⟨?_, ?_, ⟨19, -2, by norm_num, by norm_num⟩, ⟨3, -25, by norm_num, by norm_num⟩⟩
  · rw [rne_eq 7 16777216 (by norm_num) (by norm_num) (by rw [abs_lt]; norm_num)]; norm_num
  · rw [rne_of_rep (by norm_num) (Rep.nat _ (by norm_num))]; norm_num

end MathLib
