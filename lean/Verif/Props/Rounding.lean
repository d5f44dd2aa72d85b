import Verif.Proof.Rne
import Verif.Props.Colors
import Verif.Model.Box
import Verif.Spec.RoundSpec
import Verif.Proof.VecModule

/-! # C100–C103: rounded arithmetic

`Fl ℝ (rne p)` computes every operation exactly and rounds the result to `p` significant bits,
ties to even (`p = 24` is `float`, `p = 53` is `double`), with unbounded exponents. -/

set_option linter.unusedSectionVars false

namespace MathLib

variable {K : Type} [Field K] [LinearOrder K] [IsStrictOrderedRing K] [FloorRing K]

/-! ## Exactness facts -/

theorem log_eq (x : K) (k : ℤ) (h0 : (2 : K) ^ k ≤ x) (h1 : x < (2 : K) ^ (k + 1)) :
    Int.log 2 x = k := by
  have hx : 0 < x := (zpow2_pos k).trans_le h0
  obtain ⟨g0, g1⟩ := log_bounds x hx
  have a1 : Int.log 2 x < k + 1 := (zpow_lt_zpow_iff_right₀ one_lt_two).1 (g0.trans_lt h1)
  have a2 : k < Int.log 2 x + 1 := (zpow_lt_zpow_iff_right₀ one_lt_two).1 (h0.trans_lt g1)
  omega

/-- When does a number a little below `n 2^e` round up to it (`n` even, both in the binade of
`p`-bit numbers with unit `2^e`)? -/
theorem rne_eq_even_iff (p : ℕ) (x : K) (k n : ℤ) (hn : n % 2 = 0) (h0 : (2 : K) ^ k ≤ x)
    (h1 : x < (2 : K) ^ (k + 1)) (hx : x ≤ n * (2 : K) ^ (k - (p - 1))) :
    rne p x = n * (2 : K) ^ (k - (p - 1)) ↔
      n * (2 : K) ^ (k - (p - 1)) - (2 : K) ^ (k - p) ≤ x := by
  have hx0 : 0 < x := (zpow2_pos k).trans_le h0
  rw [rne_pos_eq p x hx0, log_eq x k h0 h1]
  set e := k - ((p : ℤ) - 1) with he
  have h2 := zpow2_pos (K := K) e
  rw [mul_left_inj' h2.ne', Int.cast_inj,
    rhe_eq_even_iff _ _ hn (by rw [div_le_iff₀ h2]; exact hx), le_div_iff₀ h2,
    show k - (p : ℤ) = e - 1 by rw [he]; ring, zpow_sub_one₀ two_ne_zero]
  rw [sub_mul]
  rw [show (1 / 2 : K) * 2 ^ e = 2 ^ e * 2⁻¹ by ring]

/-- the remainder is not larger than the dividend -/
theorem fmodR_abs_le (x y : ℝ) (hy : 0 < y) : |fmodR x y| ≤ |x| ∧ |fmodR x y| < y := by
  obtain ⟨h1, h2, -⟩ := fmodR_spec x y hy
  have e : x / y * y = x := div_mul_cancel₀ x hy.ne'
  rcases le_or_gt 0 x with hx | hx
  · obtain ⟨g0, g1⟩ := h1 hx
    rw [abs_of_nonneg g0, abs_of_nonneg hx]
    refine ⟨?_, g1⟩
    have : (0 : ℝ) ≤ truncR (x / y) := by
      unfold truncR
      rw [if_pos (div_nonneg hx hy.le)]
      exact_mod_cast Int.floor_nonneg.2 (div_nonneg hx hy.le)
    unfold fmodR
    nlinarith
  · obtain ⟨g0, g1⟩ := h2 hx
    rw [abs_of_nonpos g1, abs_of_neg hx]
    refine ⟨?_, by linarith⟩
    have : (truncR (x / y) : ℝ) ≤ 0 := by
      unfold truncR
      have hn := div_neg_of_neg_of_pos hx hy
      rw [if_neg (not_le.2 hn)]
      exact_mod_cast Int.ceil_le.2 (by push_cast; exact hn.le)
    unfold fmodR
    nlinarith

/-- `fmod` of representable numbers is representable: the C function is exact. -/
theorem fmodR_rep {p : ℕ} {x y : ℝ} (hx : Rep p x) (hy : Rep p y) (hy0 : 0 < y) :
    Rep p (fmodR x y) := by
  obtain ⟨b1, b2⟩ := fmodR_abs_le x y hy0
  obtain ⟨m1, e1, h1, hx'⟩ := hx
  obtain ⟨m2, e2, h2, hy'⟩ := hy
  have bx : |x| ≤ (2 : ℝ) ^ ((p : ℤ) + e1) := by
    rw [hx', abs_mul, abs_of_pos (zpow2_pos (K := ℝ) e1), zpow_add₀ two_ne_zero, zpow_natCast]
    exact mul_le_mul_of_nonneg_right (by exact_mod_cast h1) (zpow2_pos e1).le
  have by' : y ≤ (2 : ℝ) ^ ((p : ℤ) + e2) := by
    rw [← abs_of_pos hy0, hy', abs_mul, abs_of_pos (zpow2_pos (K := ℝ) e2), zpow_add₀ two_ne_zero,
      zpow_natCast]
    exact mul_le_mul_of_nonneg_right (by exact_mod_cast h2) (zpow2_pos e2).le
  have split : ∀ a b : ℤ, a ≤ b → (2 : ℝ) ^ b = ((2 ^ (b - a).toNat : ℤ) : ℝ) * (2 : ℝ) ^ a := by
    intro a b hab
    push_cast
    rw [← zpow_natCast, ← zpow_add₀ two_ne_zero, Int.toNat_of_nonneg (by omega)]
    congr 1; ring
  rcases le_total e1 e2 with h | h
  · refine Rep.of_multiple (m1 - truncR (x / y) * (m2 * 2 ^ (e2 - e1).toNat)) e1 ?_ (b1.trans bx)
    have : y = ((m2 * 2 ^ (e2 - e1).toNat : ℤ) : ℝ) * (2 : ℝ) ^ e1 := by
      rw [hy', split e1 e2 h]; push_cast; ring
    rw [fmodR]
    generalize truncR (x / y) = n
    rw [this, hx']
    push_cast
    ring
  · refine Rep.of_multiple (m1 * 2 ^ (e1 - e2).toNat - truncR (x / y) * m2) e2 ?_ (b2.le.trans by')
    have : x = ((m1 * 2 ^ (e1 - e2).toNat : ℤ) : ℝ) * (2 : ℝ) ^ e2 := by
      rw [hx', split e2 e1 h]; push_cast; ring
    rw [fmodR]
    generalize truncR (x / y) = n
    rw [this, hy']
    push_cast
    ring

/-- Sterbenz: the difference of two representable numbers within a factor two is representable. -/
theorem sterbenz {p : ℕ} {x y : K} (hx : Rep p x) (hy : Rep p y) (h1 : x ≤ 2 * y) (h2 : y ≤ 2 * x) :
    Rep p (y - x) := by
  have hx0 : 0 ≤ x := by linarith
  have hy0 : 0 ≤ y := by linarith
  obtain ⟨m1, e1, hm1, hx'⟩ := hx
  obtain ⟨m2, e2, hm2, hy'⟩ := hy
  have bx : x ≤ (2 : K) ^ ((p : ℤ) + e1) := by
    rw [← abs_of_nonneg hx0, hx', abs_mul, abs_of_pos (zpow2_pos (K := K) e1),
      zpow_add₀ two_ne_zero, zpow_natCast]
    exact mul_le_mul_of_nonneg_right (by exact_mod_cast hm1) (zpow2_pos e1).le
  have by' : y ≤ (2 : K) ^ ((p : ℤ) + e2) := by
    rw [← abs_of_nonneg hy0, hy', abs_mul, abs_of_pos (zpow2_pos (K := K) e2), zpow_add₀ two_ne_zero,
      zpow_natCast]
    exact mul_le_mul_of_nonneg_right (by exact_mod_cast hm2) (zpow2_pos e2).le
  have split : ∀ a b : ℤ, a ≤ b → (2 : K) ^ b = ((2 ^ (b - a).toNat : ℤ) : K) * (2 : K) ^ a := by
    intro a b hab
    push_cast
    rw [← zpow_natCast, ← zpow_add₀ two_ne_zero, Int.toNat_of_nonneg (by omega)]
    congr 1; ring
  have d1 : |y - x| ≤ x := by rw [abs_le]; constructor <;> linarith
  have d2 : |y - x| ≤ y := by rw [abs_le]; constructor <;> linarith
  rcases le_total e1 e2 with h | h
  · refine Rep.of_multiple (m2 * 2 ^ (e2 - e1).toNat - m1) e1 ?_ (d1.trans bx)
    rw [hx', hy', split e1 e2 h]; push_cast; ring
  · refine Rep.of_multiple (m2 - m1 * 2 ^ (e1 - e2).toNat) e2 ?_ (d2.trans by')
    rw [hx', hy', split e2 e1 h]; push_cast; ring

/-! ## C101 -/

/-- The value of `fmodPositive` on representable numbers. -/
theorem fmodPositive_rounded (p : ℕ) (hp : 1 ≤ p) (x y : ℝ) (hx : Rep p x) (hy : Rep p y)
    (hy0 : 0 < y) : fmodPositive (.num x : Fl ℝ (rne p)) (.num y) =
      .ok (.num (if 0 ≤ fmodR x y then fmodR x y else rne p (y + fmodR x y))) := by
  have e0 : (0 : Fl ℝ (rne p)) = .num 0 := rfl
  simp only [fmodPositive, gt_iff_lt, ge_iff_le, e0, Fl.num_lt, hy0, if_true, Fl.fl_fmod, hy0.ne',
    if_false, rne_of_rep hp (fmodR_rep hx hy hy0), Fl.num_le, Fl.num_add]
  split_ifs <;> rfl

/-- C101, what holds of the claim "`fmodPositive(x,y) < y` also when the final addition is
rounded": the result is at least 0 and at most `y`; it is below `y`, and the exact residue, for
`x ≥ 0`; for `x < 0` it is `y` exactly when the sum `y + fmod(x,y)` rounds up to `y`.
Missing: `< y` for all `x`, which is false (`C101_refuted`). -/
theorem C101_partial (p : ℕ) (hp : 1 ≤ p) (x y : ℝ) (hx : Rep p x) (hy : Rep p y) (hy0 : 0 < y) :
    ∃ r, fmodPositive (.num x : Fl ℝ (rne p)) (.num y) = .ok (.num r) ∧ 0 ≤ r ∧ r ≤ y ∧ Rep p r ∧
      (0 ≤ x → r < y ∧ ∃ k : ℤ, r = x - k * y) ∧
      (r = y ↔ fmodR x y < 0 ∧ rne p (y + fmodR x y) = y) := by
  refine ⟨_, fmodPositive_rounded p hp x y hx hy hy0, ?_⟩
  obtain ⟨hpos, hneg, hk⟩ := fmodR_spec x y hy0
  have habs := abs_lt.1 (fmodR_abs_le x y hy0).2
  split_ifs with h
  · refine ⟨h, by linarith, fmodR_rep hx hy hy0, fun _ => ⟨by linarith, hk⟩, ?_⟩
    constructor
    · intro h'; linarith
    · intro h'; linarith [h'.1]
  · have h' := not_le.1 h
    have h0 : 0 ≤ rne p (y + fmodR x y) := by
      have := rne_mono p hp (show (0 : ℝ) ≤ y + fmodR x y by linarith)
      rwa [rne_zero] at this
    have h1 : rne p (y + fmodR x y) ≤ y := by
      have := rne_mono p hp (show y + fmodR x y ≤ y by linarith)
      rwa [rne_of_rep hp hy] at this
    exact ⟨h0, h1, rep_rne p hp _, fun h0 => absurd (hpos h0).1 h, fun e => ⟨h', e⟩, fun e => e.2⟩

/-- C101 is false for every precision: `fmodPositive(-2^-(p+1), 1)` is 1. -/
theorem C101_refuted (p : ℕ) (hp : 1 ≤ p) : ∃ x y : ℝ, Rep p x ∧ Rep p y ∧ 0 < y ∧
    fmodPositive (.num x : Fl ℝ (rne p)) (.num y) = .ok (.num y) := by
  have ht := zpow2_pos (K := ℝ) (-((p : ℤ) + 1))
  have ht1 : (2 : ℝ) ^ (-((p : ℤ) + 1)) ≤ 1 / 4 := by
    rw [show (1 / 4 : ℝ) = 2 ^ (-2 : ℤ) by norm_num]
    exact zpow_le_zpow_right₀ one_le_two (by omega)
  have hx : Rep p (-(2 : ℝ) ^ (-((p : ℤ) + 1))) := (Rep.zpow _).neg
  have hy : Rep p (1 : ℝ) := by simpa using Rep.zpow (K := ℝ) (p := p) 0
  refine ⟨-(2 : ℝ) ^ (-((p : ℤ) + 1)), 1, hx, hy, one_pos, ?_⟩
  have hf : fmodR (-(2 : ℝ) ^ (-((p : ℤ) + 1))) 1 = -(2 : ℝ) ^ (-((p : ℤ) + 1)) := by
    have : truncR (-(2 : ℝ) ^ (-((p : ℤ) + 1))) = 0 := by
      unfold truncR
      rw [if_neg (by linarith), Int.ceil_eq_iff]
      push_cast
      constructor <;> linarith
    unfold fmodR
    rw [div_one, this]; push_cast; ring
  rw [fmodPositive_rounded p hp _ _ hx hy one_pos, hf, if_neg (by linarith)]
  have key := (rne_eq_even_iff p (1 + -(2 : ℝ) ^ (-((p : ℤ) + 1))) (-1) (2 ^ p) ?_ ?_ ?_ ?_).2 ?_
  · rw [key]
    push_cast
    rw [← zpow_natCast, ← zpow_add₀ two_ne_zero, show (p : ℤ) + (-1 - ((p : ℤ) - 1)) = 0 by ring,
      zpow_zero]
  · exact Int.emod_eq_zero_of_dvd (dvd_pow_self 2 (by omega))
  · rw [zpow_neg_one]; linarith
  · rw [show (-1 : ℤ) + 1 = 0 by norm_num, zpow_zero]; linarith
  · push_cast
    rw [← zpow_natCast, ← zpow_add₀ two_ne_zero, show (p : ℤ) + (-1 - ((p : ℤ) - 1)) = 0 by ring,
      zpow_zero]
    linarith
  · push_cast
    rw [← zpow_natCast, ← zpow_add₀ two_ne_zero, show (p : ℤ) + (-1 - ((p : ℤ) - 1)) = 0 by ring,
      zpow_zero, show -1 - (p : ℤ) = -((p : ℤ) + 1) by ring]
    linarith

/-! ## C100 -/

/-- The `switch`: cases 0 to 5 are covered, 6 is not. -/
theorem toRGB_num {rnd : ℝ → ℝ} (x : ColorHSV (Fl ℝ rnd)) (z : ℝ)
    (hz : fmodPositive (x.h / 60) 6 = .ok (.num z)) (h0 : 0 ≤ z) :
    (z < 6 → ∃ c, x.toRGB = .ok c) ∧ (z = 6 → x.toRGB = .error .uninit) := by
  have hb : ((.num z : Fl ℝ rnd) == .num z) = true := by simp
  constructor
  · intro h6
    obtain ⟨n, hn, h1, h2⟩ := exists_sector z h0 h6
    have ht := truncR_eq z n h1 h2
    have hm : mkInt (n : ℤ) = .ok (n : ℤ) := by
      unfold mkInt intMin intMax; rw [if_pos (by constructor <;> omega)]
    simp only [ColorHSV.toRGB, hz, bind, Except.bind, hb, if_true, Fl.fl_trunc, ht, hm]
    interval_cases n <;> exact ⟨_, rfl⟩
  · intro h6
    have ht := truncR_eq z 6 (by rw [h6]; norm_num) (by rw [h6]; norm_num)
    have hm : mkInt ((6 : ℕ) : ℤ) = .ok ((6 : ℕ) : ℤ) := rfl
    simp only [ColorHSV.toRGB, hz, bind, Except.bind, hb, if_true, Fl.fl_trunc, ht, hm]
    rfl

/-- `6 + r` rounds to 6 exactly for the `r` of the last half unit below 0. -/
theorem rne_six (p : ℕ) (hp : 4 ≤ p) (r : ℝ) (h1 : r < 0) :
    rne p (6 + r) = 6 ↔ -(2 : ℝ) ^ (2 - (p : ℤ)) ≤ r := by
  have small : (2 : ℝ) ^ (2 - (p : ℤ)) ≤ 1 / 4 := by
    rw [show (1 / 4 : ℝ) = 2 ^ (-2 : ℤ) by norm_num]
    exact zpow_le_zpow_right₀ one_le_two (by omega)
  have hsix : ((3 * 2 ^ (p - 2) : ℤ) : ℝ) * (2 : ℝ) ^ (2 - ((p : ℤ) - 1)) = 6 := by
    push_cast
    rw [mul_assoc, ← zpow_natCast, ← zpow_add₀ two_ne_zero, Nat.cast_sub (by omega)]
    rw [show ((p : ℤ) - (2 : ℕ)) + (2 - ((p : ℤ) - 1)) = 1 by push_cast; ring]
    norm_num
  rcases le_or_gt (-2) r with h | h
  · have := rne_eq_even_iff p (6 + r) 2 (3 * 2 ^ (p - 2))
      (Int.emod_eq_zero_of_dvd (Dvd.dvd.mul_left (dvd_pow_self 2 (by omega)) 3))
      (by norm_num; linarith) (by norm_num; linarith) (by rw [hsix]; linarith)
    rw [hsix] at this
    rw [this]
    constructor <;> intro h <;> linarith
  · constructor
    · intro h6
      have h4 : Rep p (4 : ℝ) := by
        have := Rep.zpow (K := ℝ) (p := p) 2
        norm_num at this; exact this
      have := rne_mono p (by omega) (show 6 + r ≤ 4 by linarith)
      rw [rne_of_rep (by omega) h4, h6] at this
      norm_num at this
    · intro h'; linarith

/-- C100, exact description of when `toRGB` faults in `p`-bit arithmetic: the rounded quotient
`h/60` is in `[-2^(2-p), 0)`; then `fmodPositive` returns 6, no case of the `switch` applies and
the uninitialised colour is returned.  For every other hue the result is defined.  The claim
(defined for every hue) is false; see `C100_refuted` for a hue. -/
theorem C100_partial (p : ℕ) (hp : 4 ≤ p) (h : ℝ) (s v : Fl ℝ (rne p)) :
    (-(2 : ℝ) ^ (2 - (p : ℤ)) ≤ rne p (h / 60) ∧ rne p (h / 60) < 0 →
      (ColorHSV.mk (.num h) s v).toRGB = .error .uninit) ∧
    (¬ (-(2 : ℝ) ^ (2 - (p : ℤ)) ≤ rne p (h / 60) ∧ rne p (h / 60) < 0) →
      ∃ c, (ColorHSV.mk (.num h) s v).toRGB = .ok c) := by
  have hp1 : 1 ≤ p := by omega
  have small : (2 : ℝ) ^ (2 - (p : ℤ)) ≤ 1 / 4 := by
    rw [show (1 / 4 : ℝ) = 2 ^ (-2 : ℤ) by norm_num]
    exact zpow_le_zpow_right₀ one_le_two (by omega)
  have pos := zpow2_pos (K := ℝ) (2 - (p : ℤ))
  have r6 : Rep p (6 : ℝ) := by
    have := Rep.nat (K := ℝ) (p := p) 6 (le_trans (by norm_num) (Nat.pow_le_pow_right (n := 2) (by norm_num) hp))
    exact_mod_cast this
  have r60 : Rep p (60 : ℝ) := by
    have := (Rep.nat (K := ℝ) (p := p) 15
      (le_trans (by norm_num) (Nat.pow_le_pow_right (n := 2) (by norm_num) hp))).mul_zpow 2
    norm_num at this
    exact this
  have l6 : (6 : Fl ℝ (rne p)) = .num 6 := by
    rw [Fl.ofNat_def]; push_cast; rw [rne_of_rep hp1 r6]
  have l60 : (60 : Fl ℝ (rne p)) = .num 60 := by
    rw [Fl.ofNat_def]; push_cast; rw [rne_of_rep hp1 r60]
  have hq := rep_rne p hp1 (h / 60)
  have hdiv : (.num h : Fl ℝ (rne p)) / 60 = .num (rne p (h / 60)) := by
    rw [l60, Fl.num_div, if_neg (by norm_num)]
  set q := rne p (h / 60)
  have hmod := fmodPositive_rounded p hp1 q 6 hq r6 (by norm_num)
  have hz := hmod
  rw [← l6, ← hdiv] at hz
  replace hz : fmodPositive ((ColorHSV.mk (.num h) s v).h / 60) 6 = _ := hz
  obtain ⟨hpos, hneg, -⟩ := fmodR_spec q 6 (by norm_num)
  obtain ⟨b1, b2⟩ := fmodR_abs_le q 6 (by norm_num)
  rw [abs_lt] at b2
  by_cases hr : 0 ≤ fmodR q 6
  · rw [if_pos hr] at hz
    have hs := toRGB_num _ _ hz hr
    refine ⟨?_, fun _ => hs.1 b2.2⟩
    rintro ⟨g0, g1⟩
    exfalso
    have : fmodR q 6 = q := by
      have : truncR (q / 6) = 0 := by
        unfold truncR
        rw [if_neg (by linarith), Int.ceil_eq_iff]
        push_cast
        constructor <;> linarith
      unfold fmodR; rw [this]; push_cast; ring
    linarith
  · rw [if_neg hr] at hz
    have hr' := not_le.1 hr
    have h6 := rne_six p hp (fmodR q 6) hr'
    have hle : rne p (6 + fmodR q 6) ≤ 6 := by
      have := rne_mono p hp1 (show 6 + fmodR q 6 ≤ 6 by linarith)
      rwa [rne_of_rep hp1 r6] at this
    have hge : 0 ≤ rne p (6 + fmodR q 6) := by
      have := rne_mono p hp1 (show 0 ≤ 6 + fmodR q 6 by linarith)
      rwa [rne_zero] at this
    have hs := toRGB_num _ _ hz hge
    have hq0 : q < 0 := by
      by_contra hc
      exact hr (hpos (not_lt.1 hc)).1
    -- the remainder is in the last half unit exactly when the quotient is
    have link : -(2 : ℝ) ^ (2 - (p : ℤ)) ≤ fmodR q 6 ↔ -(2 : ℝ) ^ (2 - (p : ℤ)) ≤ q := by
      rcases lt_or_ge (-6) q with hq6 | hq6
      · have : fmodR q 6 = q := by
          have : truncR (q / 6) = 0 := by
            unfold truncR
            rw [if_neg (by linarith), Int.ceil_eq_iff]
            push_cast
            constructor <;> linarith
          unfold fmodR; rw [this]; push_cast; ring
        rw [this]
      · constructor
        · intro hc
          exfalso
          obtain ⟨n, hn⟩ := hq.multiple hp1 2 (by
            rw [abs_of_neg hq0]; norm_num; linarith)
          have e6 : (6 : ℝ) = ((6 * 2 ^ (p - 3) : ℤ) : ℝ) * (2 : ℝ) ^ (2 - ((p : ℤ) - 1)) := by
            push_cast
            rw [mul_assoc, ← zpow_natCast, ← zpow_add₀ two_ne_zero, Nat.cast_sub (by omega)]
            rw [show ((p : ℤ) - (3 : ℕ)) + (2 - ((p : ℤ) - 1)) = 0 by push_cast; ring]
            norm_num
          have er : fmodR q 6 = ((n - truncR (q / 6) * (6 * 2 ^ (p - 3)) : ℤ) : ℝ) *
              (2 : ℝ) ^ (2 - ((p : ℤ) - 1)) := by
            unfold fmodR
            generalize truncR (q / 6) = t
            rw [hn]
            nth_rw 1 [e6]
            push_cast
            ring
          have u2 : (2 : ℝ) ^ (2 - ((p : ℤ) - 1)) = 2 * 2 ^ (2 - (p : ℤ)) := by
            rw [show 2 - ((p : ℤ) - 1) = (2 - (p : ℤ)) + 1 by ring, zpow_add_one₀ two_ne_zero]; ring
          generalize (n - truncR (q / 6) * (6 * 2 ^ (p - 3)) : ℤ) = m at er
          rw [u2] at er
          have hm : m < 0 := by
            have : (m : ℝ) < 0 := by
              by_contra hcc
              rw [er] at hr'
              have := mul_nonneg (not_lt.1 hcc) (by linarith : (0 : ℝ) ≤ 2 * 2 ^ (2 - (p : ℤ)))
              linarith
            exact_mod_cast this
          have hm' : (m : ℝ) ≤ -1 := by exact_mod_cast Int.le_sub_one_of_lt hm
          rw [er] at hc
          nlinarith
        · intro hc; linarith
    constructor
    · rintro ⟨g0, -⟩
      exact hs.2 (h6.2 (link.2 g0))
    · intro hc
      apply hs.1
      refine lt_of_le_of_ne hle fun e => hc ⟨link.1 (h6.1 e), hq0⟩

/-- C100 is false in every precision from 4 bits on (so for `float` and `double`): a small negative
hue gives an uninitialised colour, whatever the saturation and the value. -/
theorem C100_refuted (p : ℕ) (hp : 4 ≤ p) (s v : Fl ℝ (rne p)) :
    ∃ h : ℝ, Rep p h ∧ (ColorHSV.mk (.num h) s v).toRGB = .error .uninit := by
  have pos := zpow2_pos (K := ℝ) (2 - (p : ℤ))
  refine ⟨-(2 : ℝ) ^ (2 - (p : ℤ)), (Rep.zpow _).neg, (C100_partial p hp _ s v).1 ⟨?_, ?_⟩⟩
  · have := rne_mono p (by omega)
      (show -(2 : ℝ) ^ (2 - (p : ℤ)) ≤ -(2 : ℝ) ^ (2 - (p : ℤ)) / 60 by linarith)
    rwa [rne_of_rep (by omega) (Rep.zpow _).neg] at this
  · have := rne_pos p (by omega) ((2 : ℝ) ^ (2 - (p : ℤ)) / 60) (by positivity)
    rw [neg_div, rne_neg]
    linarith

/-- Hues that are not negative, or at most `-1`, are safe. -/
example (p : ℕ) (hp : 10 ≤ p) (h : ℝ) (hh : 0 ≤ h ∨ h ≤ -1) (s v : Fl ℝ (rne p)) :
    ∃ c, (ColorHSV.mk (.num h) s v).toRGB = .ok c := by
  apply (C100_partial p (by omega) h s v).2
  rintro ⟨h0, h1⟩
  rcases hh with hh | hh
  · have := rne_mono p (by omega) (show (0 : ℝ) ≤ h / 60 by positivity)
    rw [rne_zero] at this
    linarith
  · have a1 := rne_mono p (by omega) (show h / 60 ≤ -(2 : ℝ) ^ (-6 : ℤ) by norm_num; linarith)
    rw [rne_of_rep (by omega) (Rep.zpow _).neg] at a1
    have a2 : (2 : ℝ) ^ (2 - (p : ℤ)) < 2 ^ (-6 : ℤ) :=
      zpow_lt_zpow_right₀ one_lt_two (by omega)
    exact absurd (h0.trans a1) (by rw [neg_le_neg_iff]; exact a2.not_ge)

/-! ## C103 -/

/-- C103, what holds of the claim that `lerp` attains its ends in rounded arithmetic: the start
always; the end whenever the difference of the ends is representable, in particular (Sterbenz) when
they are within a factor two.  Missing: the end in general, which is false (`C103_refuted`). -/
theorem C103_partial (p : ℕ) (hp : 1 ≤ p) (a b : K) (ha : Rep p a) (hb : Rep p b) :
    lerp (.num a : Fl K (rne p)) (.num b) 0 = .num a ∧
    (Rep p (b - a) → lerp (.num a : Fl K (rne p)) (.num b) 1 = .num b) ∧
    (a ≤ 2 * b → b ≤ 2 * a → lerp (.num a : Fl K (rne p)) (.num b) 1 = .num b) := by
  have key : Rep p (b - a) → lerp (.num a : Fl K (rne p)) (.num b) 1 = .num b := by
    intro h
    simp only [lerp, Fl.one_def, Fl.num_sub, Fl.num_mul, Fl.num_add, mul_one,
      rne_of_rep hp h, add_sub_cancel, rne_of_rep hp hb]
  refine ⟨?_, key, fun h1 h2 => key (sterbenz ha hb h1 h2)⟩
  simp only [lerp, Fl.zero_def, Fl.num_sub, Fl.num_mul, Fl.num_add, mul_zero, rne_zero, add_zero,
    rne_of_rep hp ha]

/-- the ends 1 and 7/4 in `float` satisfy the hypotheses -/
example : lerp (.num 1 : F32) (.num (7 / 4)) 1 = .num (7 / 4) :=
  (C103_partial 24 (by norm_num) 1 (7 / 4) (by simpa using Rep.zpow (K := ℚ) (p := 24) 0)
    ⟨7, -2, by norm_num, by norm_num⟩).2.2 (by norm_num) (by norm_num)

/-- C103 is false for `float`: `lerp(2^25, 1, 1)` is 0. -/
theorem C103_refuted : lerp (.num (2 ^ 25) : F32) (.num 1) 1 = .num 0 := by
  decide +kernel

/-- How far the end can be missed: two roundings. -/
theorem C103_error (p : ℕ) (hp : 1 ≤ p) (a b : K) :
    ∃ r, lerp (.num a : Fl K (rne p)) (.num b) 1 = .num r ∧
      |r - b| ≤ (|b - a| * (1 + (2 : K) ^ (-(p : ℤ))) + |b|) * (2 : K) ^ (-(p : ℤ)) := by
  refine ⟨rne p (a + rne p (b - a)), ?_, ?_⟩
  · simp only [lerp, Fl.one_def, Fl.num_sub, Fl.num_mul, Fl.num_add, mul_one, rne_rne p hp]
  · have h1 := rne_rel p (b - a)
    have h2 := rne_rel p (a + rne p (b - a))
    set u := (2 : K) ^ (-(p : ℤ)) with hu
    have hu0 : 0 < u := zpow2_pos _
    set d := rne p (b - a)
    have h3 : |a + d| ≤ |b| + |b - a| * u := by
      have : a + d = b + -((b - a) - d) := by ring
      rw [this]
      refine (abs_add_le _ _).trans ?_
      rw [abs_neg]
      linarith
    have h4 : |rne p (a + d) - b| ≤ |a + d - rne p (a + d)| + |(b - a) - d| := by
      have : rne p (a + d) - b = -(a + d - rne p (a + d)) + -((b - a) - d) := by ring
      rw [this]
      refine (abs_add_le _ _).trans ?_
      rw [abs_neg, abs_neg]
    have h5 : |a + d| * u ≤ (|b| + |b - a| * u) * u := mul_le_mul_of_nonneg_right h3 hu0.le
    nlinarith

/-! ## C102 -/

section
variable {R : Type} [Zero R] [One R] [NatCast R] [Add R] [Sub R] [Mul R] [Div R] [Neg R]
  [LT R] [LE R] [DecidableLT R] [DecidableLE R] [BEq R]

theorem ite_pair {α : Type} (c : Prop) [Decidable c] (x y : α) (o : Bool) :
    (if c then (x, true) else (y, o)) = (if c then x else y, if c then true else o) := by
  split_ifs <;> rfl

/-- The two outcomes of `add`: nothing to do, or the box of the extended bounds. -/
theorem CAABB3.add_cases (b : CAABB3 R) (p : Vec3 R) :
    (b.add p = b ∧ ¬ p.x < b.center.x - b.extents.x ∧ ¬ p.x > b.center.x + b.extents.x ∧
      ¬ p.y < b.center.y - b.extents.y ∧ ¬ p.y > b.center.y + b.extents.y ∧
      ¬ p.z < b.center.z - b.extents.z ∧ ¬ p.z > b.center.z + b.extents.z) ∨
    b.add p = CAABB3.ofBox ⟨⟨min' p.x (b.center.x - b.extents.x),
        min' p.y (b.center.y - b.extents.y), min' p.z (b.center.z - b.extents.z)⟩,
      ⟨max' p.x (b.center.x + b.extents.x), max' p.y (b.center.y + b.extents.y),
        max' p.z (b.center.z + b.extents.z)⟩⟩ := by
  have e1 : (b.center - b.extents) = ⟨b.center.x - b.extents.x, b.center.y - b.extents.y,
    b.center.z - b.extents.z⟩ := rfl
  have e2 : (b.center + b.extents) = ⟨b.center.x + b.extents.x, b.center.y + b.extents.y,
    b.center.z + b.extents.z⟩ := rfl
  unfold CAABB3.add
  simp only [e1, e2]
  generalize b.center.x - b.extents.x = a1
  generalize b.center.y - b.extents.y = a2
  generalize b.center.z - b.extents.z = a3
  generalize b.center.x + b.extents.x = a4
  generalize b.center.y + b.extents.y = a5
  generalize b.center.z + b.extents.z = a6
  have up : ∀ (c : Prop) [Decidable c] (u v w u' : R),
      (if c then (⟨u', v, w⟩ : Vec3 R) else ⟨u, v, w⟩) = ⟨if c then u' else u, v, w⟩ := by
    intro c _ u v w u'; split_ifs <;> rfl
  have up2 : ∀ (c : Prop) [Decidable c] (u v w v' : R),
      (if c then (⟨u, v', w⟩ : Vec3 R) else ⟨u, v, w⟩) = ⟨u, if c then v' else v, w⟩ := by
    intro c _ u v w u'; split_ifs <;> rfl
  have up3 : ∀ (c : Prop) [Decidable c] (u v w w' : R),
      (if c then (⟨u, v, w'⟩ : Vec3 R) else ⟨u, v, w⟩) = ⟨u, v, if c then w' else w⟩ := by
    intro c _ u v w u'; split_ifs <;> rfl
  simp only [ite_pair, up, up2, up3]
  by_cases h : p.x < a1 ∨ p.y < a2 ∨ p.z < a3 ∨ p.x > a4 ∨ p.y > a5 ∨ p.z > a6
  · right
    rw [if_pos (by rcases h with h | h | h | h | h | h <;> simp [h])]
    rfl
  · simp only [not_or] at h
    obtain ⟨h1, h2, h3, h4, h5, h6⟩ := h
    left
    rw [if_neg (by simp [h1, h2, h3, h4, h5, h6])]
    exact ⟨rfl, h1, h4, h2, h5, h3, h6⟩

theorem CAABB2.add_cases (b : CAABB2 R) (p : Vec2 R) :
    (b.add p = b ∧ ¬ p.x < b.center.x - b.extents.x ∧ ¬ p.x > b.center.x + b.extents.x ∧
      ¬ p.y < b.center.y - b.extents.y ∧ ¬ p.y > b.center.y + b.extents.y) ∨
    b.add p = CAABB2.ofBox ⟨⟨min' p.x (b.center.x - b.extents.x),
        min' p.y (b.center.y - b.extents.y)⟩,
      ⟨max' p.x (b.center.x + b.extents.x), max' p.y (b.center.y + b.extents.y)⟩⟩ := by
  have e1 : (b.center - b.extents) = ⟨b.center.x - b.extents.x, b.center.y - b.extents.y⟩ := rfl
  have e2 : (b.center + b.extents) = ⟨b.center.x + b.extents.x, b.center.y + b.extents.y⟩ := rfl
  unfold CAABB2.add
  simp only [e1, e2]
  generalize b.center.x - b.extents.x = a1
  generalize b.center.y - b.extents.y = a2
  generalize b.center.x + b.extents.x = a4
  generalize b.center.y + b.extents.y = a5
  have up : ∀ (c : Prop) [Decidable c] (u v u' : R),
      (if c then (⟨u', v⟩ : Vec2 R) else ⟨u, v⟩) = ⟨if c then u' else u, v⟩ := by
    intro c _ u v u'; split_ifs <;> rfl
  have up2 : ∀ (c : Prop) [Decidable c] (u v v' : R),
      (if c then (⟨u, v'⟩ : Vec2 R) else ⟨u, v⟩) = ⟨u, if c then v' else v⟩ := by
    intro c _ u v u'; split_ifs <;> rfl
  simp only [ite_pair, up, up2]
  by_cases h : p.x < a1 ∨ p.y < a2 ∨ p.x > a4 ∨ p.y > a5
  · right
    rw [if_pos (by rcases h with h | h | h | h <;> simp [h])]
    rfl
  · simp only [not_or] at h
    obtain ⟨h1, h2, h4, h5⟩ := h
    left
    rw [if_neg (by simp [h1, h2, h4, h5])]
    exact ⟨rfl, h1, h4, h2, h5⟩

end

/-- Lower bound of a coordinate after `add`: `p` or the rounded old bound. -/
def growLo (r : ℕ) (c e p : K) : K := min p (rne r (c - e))
/-- Upper bound of a coordinate after `add`. -/
def growHi (r : ℕ) (c e p : K) : K := max p (rne r (c + e))

theorem Fl.min'_num {rnd : K → K} (a b : K) : min' (.num a : Fl K rnd) (.num b) = .num (min a b) := by
  unfold min'
  rcases lt_or_ge a b with h | h
  · rw [if_pos (by simpa using h), min_eq_left h.le]
  · rw [if_neg (by simpa using h), min_eq_right h]

theorem Fl.max'_num {rnd : K → K} (a b : K) : max' (.num a : Fl K rnd) (.num b) = .num (max a b) := by
  unfold max'
  rcases lt_or_ge b a with h | h
  · rw [if_pos (by simpa using h), max_eq_left h.le]
  · rw [if_neg (by simpa using h), max_eq_right h]

theorem half_lit (r : ℕ) (hr : 1 ≤ r) : (1 / 2 : Fl K (rne r)) = .num (1 / 2) := by
  have e2 : Rep r (2 : K) := by simpa using Rep.zpow (K := K) (p := r) 1
  have e1 : Rep r (1 / 2 : K) := by
    have := Rep.zpow (K := K) (p := r) (-1)
    rw [zpow_neg_one] at this
    simpa using this
  have : (2 : Fl K (rne r)) = .num 2 := by
    rw [Fl.ofNat_def]; push_cast; rw [rne_of_rep hr e2]
  rw [this, Fl.one_def, Fl.num_div, if_neg two_ne_zero, rne_of_rep hr e1]

/-- multiplication by 1/2 is exact -/
theorem rne_half (r : ℕ) (hr : 1 ≤ r) (x : K) (hx : Rep r x) : rne r (x * (1 / 2)) = x * (1 / 2) := by
  apply rne_of_rep hr
  have := hx.mul_zpow (-1)
  rw [zpow_neg_one] at this
  simpa using this

/-- One coordinate: the centre and half size computed from bounds whose sum and difference are
representable give back the bounds. -/
theorem grow_exact (r : ℕ) (hr : 1 ≤ r) (lo hi : K) (hlo : Rep r lo) (hhi : Rep r hi)
    (hs : Rep r (lo + hi)) (hd : Rep r (hi - lo)) :
    rne r (rne r (rne r (lo + hi) * (1 / 2)) - rne r (rne r (hi - lo) * (1 / 2))) = lo ∧
    rne r (rne r (rne r (lo + hi) * (1 / 2)) + rne r (rne r (hi - lo) * (1 / 2))) = hi := by
  rw [rne_of_rep hr hs, rne_of_rep hr hd, rne_half r hr _ hs, rne_half r hr _ hd]
  constructor
  · rw [show (lo + hi) * (1 / 2) - (hi - lo) * (1 / 2) = lo by ring, rne_of_rep hr hlo]
  · rw [show (lo + hi) * (1 / 2) + (hi - lo) * (1 / 2) = hi by ring, rne_of_rep hr hhi]

/-- One coordinate in general: the bounds of the computed centre and half size are off by at most
a little over two units of rounding of the larger bound. -/
theorem grow_error (r : ℕ) (hr : 1 ≤ r) (lo hi m : K) (h1 : |lo| ≤ m) (h2 : |hi| ≤ m) :
    |rne r (rne r (rne r (lo + hi) * (1 / 2)) - rne r (rne r (hi - lo) * (1 / 2))) - lo| ≤
      m * (2 : K) ^ (-(r : ℤ)) * (3 + 2 * (2 : K) ^ (-(r : ℤ))) ∧
    |rne r (rne r (rne r (lo + hi) * (1 / 2)) + rne r (rne r (hi - lo) * (1 / 2))) - hi| ≤
      m * (2 : K) ^ (-(r : ℤ)) * (3 + 2 * (2 : K) ^ (-(r : ℤ))) := by
  rw [rne_half r hr _ (rep_rne r hr _), rne_half r hr _ (rep_rne r hr _)]
  have s1 := rne_rel r (lo + hi)
  have s2 := rne_rel r (hi - lo)
  have s3 := rne_rel r (rne r (lo + hi) * (1 / 2) - rne r (hi - lo) * (1 / 2))
  have s4 := rne_rel r (rne r (lo + hi) * (1 / 2) + rne r (hi - lo) * (1 / 2))
  set u := (2 : K) ^ (-(r : ℤ)) with hu
  have hu0 : 0 < u := zpow2_pos _
  set S := rne r (lo + hi)
  set D := rne r (hi - lo)
  have hm : 0 ≤ m := (abs_nonneg _).trans h1
  have a1 : |lo + hi| ≤ 2 * m := (abs_add_le _ _).trans (by linarith)
  have a2 : |hi - lo| ≤ 2 * m := (abs_sub _ _).trans (by linarith)
  have b1 : |(lo + hi) - S| ≤ 2 * m * u := s1.trans (mul_le_mul_of_nonneg_right a1 hu0.le)
  have b2 : |(hi - lo) - D| ≤ 2 * m * u := s2.trans (mul_le_mul_of_nonneg_right a2 hu0.le)
  rw [abs_le] at b1 b2 h1 h2
  have c1 : |S * (1 / 2) - D * (1 / 2) - lo| ≤ 2 * m * u := by
    rw [abs_le]; constructor <;> linarith
  have c2 : |S * (1 / 2) + D * (1 / 2) - hi| ≤ 2 * m * u := by
    rw [abs_le]; constructor <;> linarith
  rw [abs_le] at c1 c2
  have d1 : |S * (1 / 2) - D * (1 / 2)| ≤ m + 2 * m * u := by
    rw [abs_le]; constructor <;> linarith
  have d2 : |S * (1 / 2) + D * (1 / 2)| ≤ m + 2 * m * u := by
    rw [abs_le]; constructor <;> linarith
  have f1 := s3.trans (mul_le_mul_of_nonneg_right d1 hu0.le)
  have f2 := s4.trans (mul_le_mul_of_nonneg_right d2 hu0.le)
  rw [abs_le] at f1 f2
  constructor <;> rw [abs_le] <;> constructor <;> nlinarith

/-- C102, what holds of the claim that a centred box contains the point just added, in rounded
arithmetic: it does when, in each coordinate, the sum and the difference of the two bounds of the
grown box are representable (`growLo`, `growHi`: the smaller, larger of the point and the old
bound).  Missing: all other boxes, for which it can fail (`C102_refuted`) by the amount bounded
in `C102_error3`. -/
theorem C102_add3_partial (r : ℕ) (hr : 1 ≤ r) (c e p : Vec3 K)
    (hp : Rep r p.x ∧ Rep r p.y ∧ Rep r p.z)
    (hx : Rep r (growLo r c.x e.x p.x + growHi r c.x e.x p.x) ∧
      Rep r (growHi r c.x e.x p.x - growLo r c.x e.x p.x))
    (hy : Rep r (growLo r c.y e.y p.y + growHi r c.y e.y p.y) ∧
      Rep r (growHi r c.y e.y p.y - growLo r c.y e.y p.y))
    (hz : Rep r (growLo r c.z e.z p.z + growHi r c.z e.z p.z) ∧
      Rep r (growHi r c.z e.z p.z - growLo r c.z e.z p.z)) :
    ((CAABB3.mk (Vec3.num c) (Vec3.num e) : CAABB3 (Fl K (rne r))).add (Vec3.num p)).contains
      (Vec3.num p) = true := by
  have rlo : ∀ c e p : K, Rep r p → Rep r (growLo r c e p) := fun c e p h => by
    unfold growLo; rcases min_choice p (rne r (c - e)) with h' | h' <;> rw [h']
    · exact h
    · exact rep_rne r hr _
  have rhi : ∀ c e p : K, Rep r p → Rep r (growHi r c e p) := fun c e p h => by
    unfold growHi; rcases max_choice p (rne r (c + e)) with h' | h' <;> rw [h']
    · exact h
    · exact rep_rne r hr _
  rcases CAABB3.add_cases (CAABB3.mk (Vec3.num c) (Vec3.num e) : CAABB3 (Fl K (rne r)))
    (Vec3.num p) with ⟨h, h1, h2, h3, h4, h5, h6⟩ | h
  · rw [h]
    simp only [Vec3.num, Fl.num_sub, Fl.num_add, Fl.num_lt, gt_iff_lt, not_lt] at h1 h2 h3 h4 h5 h6
    simp [CAABB3.contains, Vec3.num, h1, h2, h3, h4, h5, h6]
  · rw [h]
    obtain ⟨gx1, gx2⟩ := grow_exact r hr _ _ (rlo c.x e.x p.x hp.1) (rhi c.x e.x p.x hp.1) hx.1 hx.2
    obtain ⟨gy1, gy2⟩ := grow_exact r hr _ _ (rlo c.y e.y p.y hp.2.1) (rhi c.y e.y p.y hp.2.1) hy.1 hy.2
    obtain ⟨gz1, gz2⟩ := grow_exact r hr _ _ (rlo c.z e.z p.z hp.2.2) (rhi c.z e.z p.z hp.2.2) hz.1 hz.2
    unfold growLo growHi at gx1 gx2 gy1 gy2 gz1 gz2
    simp only [Vec3.num, Fl.num_sub, Fl.num_add, Fl.min'_num, Fl.max'_num, CAABB3.ofBox,
      CAABB3.contains, half_lit r hr, Vec3.mul_x, Vec3.mul_y, Vec3.mul_z, Vec3.add_x, Vec3.add_y,
      Vec3.add_z, Vec3.sub_x, Vec3.sub_y, Vec3.sub_z, Fl.num_mul, ge_iff_le, Fl.num_le, gx1, gx2,
      gy1, gy2, gz1, gz2]
    simp

/-- C102 in the plane; see `C102_add3_partial`. -/
theorem C102_add2_partial (r : ℕ) (hr : 1 ≤ r) (c e p : Vec2 K)
    (hp : Rep r p.x ∧ Rep r p.y)
    (hx : Rep r (growLo r c.x e.x p.x + growHi r c.x e.x p.x) ∧
      Rep r (growHi r c.x e.x p.x - growLo r c.x e.x p.x))
    (hy : Rep r (growLo r c.y e.y p.y + growHi r c.y e.y p.y) ∧
      Rep r (growHi r c.y e.y p.y - growLo r c.y e.y p.y)) :
    ((CAABB2.mk (Vec2.num c) (Vec2.num e) : CAABB2 (Fl K (rne r))).add (Vec2.num p)).contains
      (Vec2.num p) = true := by
  have rlo : ∀ c e p : K, Rep r p → Rep r (growLo r c e p) := fun c e p h => by
    unfold growLo; rcases min_choice p (rne r (c - e)) with h' | h' <;> rw [h']
    · exact h
    · exact rep_rne r hr _
  have rhi : ∀ c e p : K, Rep r p → Rep r (growHi r c e p) := fun c e p h => by
    unfold growHi; rcases max_choice p (rne r (c + e)) with h' | h' <;> rw [h']
    · exact h
    · exact rep_rne r hr _
  rcases CAABB2.add_cases (CAABB2.mk (Vec2.num c) (Vec2.num e) : CAABB2 (Fl K (rne r)))
    (Vec2.num p) with ⟨h, h1, h2, h3, h4⟩ | h
  · rw [h]
    simp only [Vec2.num, Fl.num_sub, Fl.num_add, Fl.num_lt, gt_iff_lt, not_lt] at h1 h2 h3 h4
    simp [CAABB2.contains, Vec2.num, h1, h2, h3, h4]
  · rw [h]
    obtain ⟨gx1, gx2⟩ := grow_exact r hr _ _ (rlo c.x e.x p.x hp.1) (rhi c.x e.x p.x hp.1) hx.1 hx.2
    obtain ⟨gy1, gy2⟩ := grow_exact r hr _ _ (rlo c.y e.y p.y hp.2) (rhi c.y e.y p.y hp.2) hy.1 hy.2
    unfold growLo growHi at gx1 gx2 gy1 gy2
    simp only [Vec2.num, Fl.num_sub, Fl.num_add, Fl.min'_num, Fl.max'_num, CAABB2.ofBox,
      CAABB2.contains, half_lit r hr, Vec2.mul_x, Vec2.mul_y, Vec2.add_x, Vec2.add_y,
      Vec2.sub_x, Vec2.sub_y, Fl.num_mul, ge_iff_le, Fl.num_le, gx1, gx2, gy1, gy2]
    simp

/-- the unit square about the origin and the point (3,1/2) satisfy the hypotheses in `float` -/
example : ((CAABB2.mk (Vec2.num ⟨0, 0⟩) (Vec2.num ⟨1, 1⟩) : CAABB2 F32).add
    (Vec2.num ⟨3, 1 / 2⟩)).contains (Vec2.num ⟨3, 1 / 2⟩) = true := by
  have e1 : growLo 24 (0 : ℚ) 1 3 = -1 ∧ growHi 24 (0 : ℚ) 1 3 = 3 ∧
      growLo 24 (0 : ℚ) 1 (1 / 2) = -1 ∧ growHi 24 (0 : ℚ) 1 (1 / 2) = 1 := by decide +kernel
  apply C102_add2_partial 24 (by norm_num)
  · exact ⟨⟨3, 0, by norm_num, by norm_num⟩, ⟨1, -1, by norm_num, by norm_num⟩⟩
  · simp only [e1]; exact ⟨⟨2, 0, by norm_num, by norm_num⟩, ⟨4, 0, by norm_num, by norm_num⟩⟩
  · simp only [e1]; exact ⟨⟨0, 0, by norm_num, by norm_num⟩, ⟨2, 0, by norm_num, by norm_num⟩⟩

/-- C102 is false for `float`: the box at (7/4,0,0) grown by the point (2^24 - 1,0,0) does not contain
the point; likewise in the plane. -/
theorem C102_refuted :
    ((CAABB3.mk (Vec3.num ⟨7 / 4, 0, 0⟩) (Vec3.num ⟨0, 0, 0⟩) : CAABB3 F32).add
      (Vec3.num ⟨2 ^ 24 - 1, 0, 0⟩)).contains (Vec3.num ⟨2 ^ 24 - 1, 0, 0⟩) = false ∧
    ((CAABB2.mk (Vec2.num ⟨7 / 4, 0⟩) (Vec2.num ⟨0, 0⟩) : CAABB2 F32).add
      (Vec2.num ⟨2 ^ 24 - 1, 0⟩)).contains (Vec2.num ⟨2 ^ 24 - 1, 0⟩) = false := by
  decide +kernel

/-- C102: the point is outside the grown box by at most `m u (3 + 2 u)` in each coordinate, where `u` is the
unit of rounding and `m` bounds the coordinates of the exact bounds. -/
theorem C102_error3 (r : ℕ) (hr : 1 ≤ r) (c e p : Vec3 K) (m : K)
    (hm : ∀ q ∈ [(c.x, e.x, p.x), (c.y, e.y, p.y), (c.z, e.z, p.z)],
      |growLo r q.1 q.2.1 q.2.2| ≤ m ∧ |growHi r q.1 q.2.1 q.2.2| ≤ m) :
    ∃ lo hi : Vec3 K, ∃ b, (CAABB3.mk (Vec3.num c) (Vec3.num e) : CAABB3 (Fl K (rne r))).add
        (Vec3.num p) = b ∧ b.center - b.extents = Vec3.num lo ∧ b.center + b.extents = Vec3.num hi ∧
      ∀ q ∈ [(lo.x, p.x, hi.x), (lo.y, p.y, hi.y), (lo.z, p.z, hi.z)],
        q.1 - m * (2 : K) ^ (-(r : ℤ)) * (3 + 2 * (2 : K) ^ (-(r : ℤ))) ≤ q.2.1 ∧
        q.2.1 ≤ q.2.2 + m * (2 : K) ^ (-(r : ℤ)) * (3 + 2 * (2 : K) ^ (-(r : ℤ))) := by
  have hu := zpow2_pos (K := K) (-(r : ℤ))
  simp only [List.mem_cons, List.not_mem_nil, or_false, forall_eq_or_imp, forall_eq] at hm ⊢
  obtain ⟨mx, my, mz⟩ := hm
  have hm0 : 0 ≤ m := (abs_nonneg _).trans mx.1
  have ε0 : 0 ≤ m * (2 : K) ^ (-(r : ℤ)) * (3 + 2 * (2 : K) ^ (-(r : ℤ))) := by positivity
  rcases CAABB3.add_cases (CAABB3.mk (Vec3.num c) (Vec3.num e) : CAABB3 (Fl K (rne r)))
    (Vec3.num p) with ⟨h, h1, h2, h3, h4, h5, h6⟩ | h
  · refine ⟨⟨rne r (c.x - e.x), rne r (c.y - e.y), rne r (c.z - e.z)⟩,
      ⟨rne r (c.x + e.x), rne r (c.y + e.y), rne r (c.z + e.z)⟩, _, h, rfl, rfl, ?_⟩
    simp only [Vec3.num, Fl.num_sub, Fl.num_add, Fl.num_lt, gt_iff_lt, not_lt] at h1 h2 h3 h4 h5 h6
    simp only
    refine ⟨⟨?_, ?_⟩, ⟨?_, ?_⟩, ⟨?_, ?_⟩⟩ <;> linarith
  · have gx := grow_error r hr _ _ m mx.1 mx.2
    have gy := grow_error r hr _ _ m my.1 my.2
    have gz := grow_error r hr _ _ m mz.1 mz.2
    have lo_le : ∀ c e p : K, growLo r c e p ≤ p := fun c e p => min_le_left _ _
    have le_hi : ∀ c e p : K, p ≤ growHi r c e p := fun c e p => le_max_left _ _
    have ax := lo_le c.x e.x p.x
    have ay := lo_le c.y e.y p.y
    have az := lo_le c.z e.z p.z
    have bx := le_hi c.x e.x p.x
    have b_y := le_hi c.y e.y p.y
    have bz := le_hi c.z e.z p.z
    simp only [abs_le] at gx gy gz
    let A (c e p : K) := rne r (rne r (rne r (growLo r c e p + growHi r c e p) * (1 / 2)) -
      rne r (rne r (growHi r c e p - growLo r c e p) * (1 / 2)))
    let B (c e p : K) := rne r (rne r (rne r (growLo r c e p + growHi r c e p) * (1 / 2)) +
      rne r (rne r (growHi r c e p - growLo r c e p) * (1 / 2)))
    refine ⟨⟨A c.x e.x p.x, A c.y e.y p.y, A c.z e.z p.z⟩, ⟨B c.x e.x p.x, B c.y e.y p.y, B c.z e.z p.z⟩,
      _, h, ?_, ?_, ?_⟩ <;> simp only [A, B]
    rotate_left 2
    · exact ⟨⟨by linarith [gx.1.2], by linarith [gx.2.1]⟩, ⟨by linarith [gy.1.2], by linarith [gy.2.1]⟩,
        ⟨by linarith [gz.1.2], by linarith [gz.2.1]⟩⟩
    · simp only [CAABB3.ofBox, half_lit r hr, growLo, growHi, Vec3.num, Fl.num_sub, Fl.num_add,
        Fl.min'_num, Fl.max'_num]
      apply Vec3.ext <;> simp
    · simp only [CAABB3.ofBox, half_lit r hr, growLo, growHi, Vec3.num, Fl.num_sub, Fl.num_add,
        Fl.min'_num, Fl.max'_num]
      apply Vec3.ext <;> simp

/-- C102: boxes stored by their corners do contain the point just added, in any arithmetic
(no rounding is involved). -/
theorem C102_corner_boxes {rnd : K → K} (b : AABB3 K) (p : Vec3 K) (b2 : AABB2 K) (p2 : Vec2 K) :
    ((AABB3.mk (Vec3.num b.inf) (Vec3.num b.sup) : AABB3 (Fl K rnd)).add (Vec3.num p)).contains
      (Vec3.num p) = true ∧
    ((AABB2.mk (Vec2.num b2.inf) (Vec2.num b2.sup) : AABB2 (Fl K rnd)).add (Vec2.num p2)).contains
      (Vec2.num p2) = true := by
  have le : ∀ a b : K, (.num a : Fl K rnd) ≤ .num b ↔ a ≤ b := fun a b => by simp
  constructor
  · simp only [AABB3.add, AABB3.contains, Vec3.num, Fl.num_lt, gt_iff_lt, Bool.and_eq_true,
      decide_eq_true_eq, ge_iff_le]
    refine ⟨⟨⟨?_, ?_⟩, ?_, ?_⟩, ?_, ?_⟩ <;> split_ifs <;>
      simp only [le, Fl.num_lt, not_lt] at * <;> first | exact le_refl _ | assumption
  · simp only [AABB2.add, AABB2.contains, Vec2.num, Fl.num_lt, gt_iff_lt, Bool.and_eq_true,
      decide_eq_true_eq, ge_iff_le]
    refine ⟨⟨?_, ?_⟩, ?_, ?_⟩ <;> split_ifs <;>
      simp only [le, Fl.num_lt, not_lt] at * <;> first | exact le_refl _ | assumption

/-- `float` rounding satisfies the hypotheses of `C99_ofInts_rounded`. -/
example : ∃ u : ℤ → ℝ, u 0 = 0 ∧ u 255 = 1 ∧
    ∀ r g b : ℤ, ColorRGB.ofInts (fun n : ℤ => (.num (rne 24 n) : Fl ℝ (rne 24))) r g b =
      ⟨.num (u r), .num (u g), .num (u b)⟩ := by
  obtain ⟨u, h0, h1, -, h⟩ := C99_ofInts_rounded (rnd := rne 24) (rne_mono 24 (by norm_num))
    (fun n hn => rne_of_rep (by norm_num) (Rep.nat n (hn.trans (by norm_num))))
  exact ⟨u, h0, h1, fun r g b => (h r g b 0).1⟩

/-- the square of the `float` example, with the bound `m = 3` -/
example : ∃ lo hi : Vec3 ℚ, ∃ b, (CAABB3.mk (Vec3.num ⟨0, 0, 0⟩) (Vec3.num ⟨1, 1, 1⟩) : CAABB3 F32).add
    (Vec3.num ⟨3, 1 / 2, 0⟩) = b ∧ b.center - b.extents = Vec3.num lo ∧
      b.center + b.extents = Vec3.num hi := by
  obtain ⟨lo, hi, b, h1, h2, h3, -⟩ := C102_error3 24 (by norm_num) (⟨0, 0, 0⟩ : Vec3 ℚ) ⟨1, 1, 1⟩
    ⟨3, 1 / 2, 0⟩ 3 (by decide +kernel)
  exact ⟨lo, hi, b, h1, h2, h3⟩

end MathLib
