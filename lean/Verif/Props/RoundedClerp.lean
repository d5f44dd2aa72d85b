import Verif.Proof.RneNearest
import Verif.Proof.RelErr
import Verif.Props.Interp

/-! # Property C176: interpolation of angles in floating point -/

namespace MathLib
variable {p : ℕ}

private theorem small (hp : 12 ≤ p) : (2 : ℝ) ^ (-(p : ℤ)) ≤ 1 / 4096 :=
  (zpow_le_zpow_right₀ one_le_two (by omega : -(p : ℤ) ≤ -12)).trans (by norm_num)

/-- the rounded turn -/
private noncomputable def dl (p : ℕ) (a b : ℝ) : ℝ :=
  rne p (rne p (fmodR (rne p (rne p (b - a) + rne p Real.pi)) (rne p Real.pi * 2)) - rne p Real.pi)

private theorem P_pos (hp : 1 ≤ p) : 0 < rne p Real.pi := rne_pos p hp _ Real.pi_pos

private theorem T_rep (hp : 1 ≤ p) : Rep p (rne p Real.pi * 2) := by
  have := (rep_rne p hp Real.pi).mul_zpow 1
  rwa [zpow_one] at this

private theorem delta_num (hp : 1 ≤ p) (a b : ℝ) :
    clerpDelta (.num a : Fl ℝ (rne p)) (.num b) = .num (dl p a b) := by
  have l2 : (2 : Fl ℝ (rne p)) = .num 2 :=
    (Fl.ofNat_def 2).trans (congrArg Fl.num (by simpa using rne_of_rep (K := ℝ) hp (Rep.zpow 1)))
  have hpi : (MathFns.pi : Fl ℝ (rne p)) = .num (rne p Real.pi) := rfl
  unfold clerpDelta piTimes2
  rw [hpi, l2, Fl.num_sub, Fl.num_add, Fl.num_mul, rne_of_rep hp (T_rep hp)]
  show (if rne p Real.pi * 2 = 0 then Fl.nan else Fl.num (rne p (fmodR _ _))) - _ = _
  rw [if_neg (by have := P_pos hp; positivity), Fl.num_sub]
  rfl

/-- The rounded turn is the exact one up to whole turns and rounding; it is not longer than half a turn if the exact difference
is not below minus half a turn. -/
private theorem dl_spec (hp : 12 ≤ p) (a b : ℝ) : ∃ k : ℤ,
    |dl p a b - (b - a - k * (2 * Real.pi))| ≤ 12 * ((2 : ℝ) ^ (-(p : ℤ)) * (|a| + |b| + 4)) ∧ |dl p a b| ≤ 10 ∧
    (-rne p Real.pi ≤ b - a → |dl p a b| ≤ rne p Real.pi) := by
  have hp1 : 1 ≤ p := by omega
  have hr := isRel_rne p hp1
  have hu := small hp
  have hu0 := hr.nonneg
  generalize hU : (2 : ℝ) ^ (-(p : ℤ)) = u at *
  have hP := P_pos (p := p) hp1
  have eP := abs_le.1 (hr.err Real.pi)
  rw [abs_of_pos Real.pi_pos] at eP
  have pi1 := Real.pi_gt_d2
  have pi2 := Real.pi_lt_d2
  unfold dl
  have hPrep : rne p (rne p Real.pi) = rne p Real.pi := rne_rne p hp1 _
  have hTrep := rne_of_rep hp1 (T_rep (p := p) hp1)
  generalize rne p Real.pi = P at *
  have P1 : P ≤ 3.16 := by nlinarith [eP.2]
  have P0 : 3.13 ≤ P := by nlinarith [eP.1]
  obtain ⟨X, hX⟩ : ∃ X, X = |a| + |b| + 4 := ⟨_, rfl⟩
  rw [← hX]
  have X4 : 4 ≤ X := by rw [hX]; linarith [abs_nonneg a, abs_nonneg b]
  have hd : |b - a| ≤ X - 4 := by rw [hX]; have := abs_sub b a; linarith
  have uX : 4 * u ≤ u * X := by nlinarith
  have eD := hr.err (b - a)
  have eD' : |rne p (b - a) - (b - a)| ≤ u * (X - 4) := eD.trans (mul_le_mul_of_nonneg_left hd hu0)
  have sD : -P ≤ b - a → -P ≤ rne p (b - a) := fun h => by
    have := rne_mono p hp1 h
    rwa [rne_neg, hPrep] at this
  generalize rne p (b - a) = D at *
  have aD : |D| ≤ 1.001 * (X - 4) := by
    have : |D| ≤ |D - (b - a)| + |b - a| := by have := abs_add_le (D - (b - a)) (b - a); rwa [sub_add_cancel] at this
    nlinarith
  have aDP : |D + P| ≤ 1.001 * X := by
    have := abs_add_le D P
    rw [abs_of_pos hP] at this
    linarith
  have eS : |rne p (D + P) - (D + P)| ≤ 1.001 * (u * X) := by
    have := (hr.err (D + P)).trans (mul_le_mul_of_nonneg_left aDP hu0)
    linarith
  have sS : -P ≤ D → 0 ≤ rne p (D + P) := fun h => by
    have := rne_mono p hp1 (show (0 : ℝ) ≤ D + P by linarith)
    rwa [rne_zero] at this
  generalize rne p (D + P) = S at *
  have aS : |S| ≤ 1.002 * X := by
    have : |S| ≤ |S - (D + P)| + |D + P| := by have := abs_add_le (S - (D + P)) (D + P); rwa [sub_add_cancel] at this
    nlinarith
  obtain ⟨f1, f2, k, hk⟩ := fmodR_spec S (P * 2) (by positivity)
  have aF : |fmodR S (P * 2)| ≤ P * 2 := by
    rw [abs_le]
    rcases le_or_gt 0 S with h | h
    · have := f1 h; constructor <;> linarith
    · have := f2 h; constructor <;> linarith
  have hkT : |(k : ℝ)| * (P * 2) ≤ 1.002 * X + 6.32 := by
    have : (k : ℝ) * (P * 2) = S - fmodR S (P * 2) := by rw [hk]; ring
    calc |(k : ℝ)| * (P * 2) = |(k : ℝ) * (P * 2)| := by rw [abs_mul, abs_of_pos (show 0 < P * 2 by positivity)]
      _ ≤ |S| + |fmodR S (P * 2)| := by rw [this]; exact abs_sub S _
      _ ≤ _ := by linarith
  have hkπ : |(k : ℝ) * (P * 2) - k * (2 * Real.pi)| ≤ 2.7 * (u * X) := by
    rw [show (k : ℝ) * (P * 2) - k * (2 * Real.pi) = k * (2 * (P - Real.pi)) by ring, abs_mul, abs_mul, abs_two]
    have q1 : |P - Real.pi| ≤ u * (1.005 * P) :=
      (abs_le.2 eP).trans (mul_le_mul_of_nonneg_left (by nlinarith [eP.1]) hu0)
    have q2 := mul_le_mul_of_nonneg_left q1 (abs_nonneg (k : ℝ))
    have q3 := mul_le_mul_of_nonneg_left hkT hu0
    nlinarith
  have eF : |rne p (fmodR S (P * 2)) - fmodR S (P * 2)| ≤ u * 6.32 :=
    (hr.err _).trans (mul_le_mul_of_nonneg_left (by linarith) hu0)
  have sF : 0 ≤ S → 0 ≤ rne p (fmodR S (P * 2)) ∧ rne p (fmodR S (P * 2)) ≤ P * 2 := fun h => by
    obtain ⟨g1, g2⟩ := f1 h
    have h1 := rne_mono p hp1 g1
    have h2 := rne_mono p hp1 g2.le
    rw [rne_zero] at h1
    rw [hTrep] at h2
    exact ⟨h1, h2⟩
  generalize fmodR S (P * 2) = F' at *
  generalize rne p F' = F at *
  have aFP : |F - P| ≤ 9.6 := by
    have h1 := abs_le.1 aF
    have h2 := abs_le.1 eF
    rw [abs_le]; constructor <;> linarith [h1.1, h1.2, h2.1, h2.2]
  have eQ : |rne p (F - P) - (F - P)| ≤ u * 9.6 := (hr.err _).trans (mul_le_mul_of_nonneg_left aFP hu0)
  have sQ : 0 ≤ F → F ≤ P * 2 → |rne p (F - P)| ≤ P := fun h1 h2 => by
    rw [abs_le]
    have q1 := rne_mono p hp1 (show -P ≤ F - P by linarith)
    have q2 := rne_mono p hp1 (show F - P ≤ P by linarith)
    rw [rne_neg, hPrep] at q1
    rw [hPrep] at q2
    exact ⟨q1, q2⟩
  generalize rne p (F - P) = Q at *
  refine ⟨k, ?_, ?_, ?_⟩
  · obtain ⟨a1, a2⟩ := abs_le.1 eD'
    obtain ⟨b1, b2⟩ := abs_le.1 eS
    obtain ⟨c1, c2⟩ := abs_le.1 hkπ
    obtain ⟨d1, d2⟩ := abs_le.1 eF
    obtain ⟨e1, e2⟩ := abs_le.1 eQ
    have : u * (X - 4) = u * X - 4 * u := by ring
    have q : u * Real.pi ≤ u * 3.15 := mul_le_mul_of_nonneg_left pi2.le hu0
    obtain ⟨p1, p2⟩ := eP
    rw [abs_le]
    constructor <;> linarith
  · obtain ⟨e1, e2⟩ := abs_le.1 eQ
    obtain ⟨g1, g2⟩ := abs_le.1 aFP
    rw [abs_le]; constructor <;> linarith
  · intro h
    obtain ⟨g1, g2⟩ := sF (sS (sD h))
    exact sQ g1 g2

private theorem clerp_num (hp : 1 ≤ p) (a b t : ℝ) :
    clerp (.num a : Fl ℝ (rne p)) (.num b) (.num t) = .num (rne p (a + rne p (dl p a b * t))) := by
  unfold clerp
  rw [delta_num hp, Fl.num_mul, Fl.num_add]

/-- C176, what holds: in floating point `clerp` goes from `a` to `b` up to whole turns, with an error of at most
`20 * 2^-p * (|a| + |b| + 4)`.  If `b - a` is not below minus half a turn (where C13 fails already), the way is at most half
a turn up to rounding; if the shorter way is shorter by more than the rounding errors, it is the one exact arithmetic takes.  Close to
half a turn it may be the other one (`C176_refuted`). -/
theorem C176_clerp_partial (hp : 12 ≤ p) (a b t : ℝ) (ht0 : 0 ≤ t) (ht1 : t ≤ 1) :
    ∃ (w : ℝ) (k : ℤ), clerp (.num a : Fl ℝ (rne p)) (.num b) (.num t) = .num w ∧
      |w - (a + t * (b - a - k * (2 * Real.pi)))| ≤ 20 * ((2 : ℝ) ^ (-(p : ℤ)) * (|a| + |b| + 4)) ∧
      (-rne p Real.pi ≤ b - a → |b - a - k * (2 * Real.pi)| ≤ Real.pi + 13 * ((2 : ℝ) ^ (-(p : ℤ)) * (|a| + |b| + 4)) ∧
        (|clerp a b 1 - a| + 13 * ((2 : ℝ) ^ (-(p : ℤ)) * (|a| + |b| + 4)) < Real.pi →
          |w - clerp a b t| ≤ 20 * ((2 : ℝ) ^ (-(p : ℤ)) * (|a| + |b| + 4)))) := by
  have hp1 : 1 ≤ p := by omega
  have hr := isRel_rne p hp1
  have hu := small hp
  have hu0 := hr.nonneg
  obtain ⟨k, h1, h2, h3⟩ := dl_spec hp a b
  have e := clerp_num hp1 a b t
  have eP := abs_le.1 (hr.err Real.pi)
  rw [abs_of_pos Real.pi_pos] at eP
  generalize (2 : ℝ) ^ (-(p : ℤ)) = u at *
  generalize rne p Real.pi = P at *
  generalize dl p a b = Q at *
  obtain ⟨X, hX⟩ : ∃ X, X = |a| + |b| + 4 := ⟨_, rfl⟩
  rw [← hX] at h1 ⊢
  have X4 : |a| + 4 ≤ X := by rw [hX]; linarith [abs_nonneg b]
  have uX : u * (|a| + 4) ≤ u * X := mul_le_mul_of_nonneg_left X4 hu0
  have ua : 0 ≤ u * |a| := mul_nonneg hu0 (abs_nonneg a)
  have aQt : |Q * t| ≤ 10 := by
    rw [abs_mul, abs_of_nonneg ht0]
    calc |Q| * t ≤ |Q| * 1 := mul_le_mul_of_nonneg_left ht1 (abs_nonneg _)
      _ ≤ 10 := by linarith
  have eQt := (hr.err (Q * t)).trans (mul_le_mul_of_nonneg_left aQt hu0)
  generalize hY : rne p (Q * t) = Y at *
  have aY : |Y| ≤ 10.01 := by
    have q1 := abs_le.1 eQt
    have q2 := abs_le.1 aQt
    rw [abs_le]; constructor <;> linarith [q1.1, q1.2, q2.1, q2.2]
  have eW := (hr.err (a + Y)).trans (mul_le_mul_of_nonneg_left ((abs_add_le a Y).trans (add_le_add le_rfl aY)) hu0)
  have main : |rne p (a + Y) - (a + t * (b - a - k * (2 * Real.pi)))| ≤ 20 * (u * X) := by
    have q1 := abs_le.1 eQt
    have q2 := abs_le.1 eW
    have q3 : |Q * t - t * (b - a - k * (2 * Real.pi))| ≤ 12 * (u * X) := by
      rw [show Q * t - t * (b - a - k * (2 * Real.pi)) = (Q - (b - a - k * (2 * Real.pi))) * t by ring, abs_mul, abs_of_nonneg ht0]
      calc _ ≤ |Q - (b - a - k * (2 * Real.pi))| * 1 := mul_le_mul_of_nonneg_left ht1 (abs_nonneg _)
        _ ≤ _ := by linarith
    have q4 := abs_le.1 q3
    rw [mul_add] at uX q2
    rw [abs_le]; constructor <;> linarith [q1.1, q1.2, q2.1, q2.2, q4.1, q4.2]
  refine ⟨_, k, e, main, fun hd => ?_⟩
  have way : |b - a - k * (2 * Real.pi)| ≤ Real.pi + 13 * (u * X) := by
    have q1 := abs_le.1 h1
    have q2 := abs_le.1 (h3 hd)
    have q3 : u * Real.pi ≤ u * 3.15 := mul_le_mul_of_nonneg_left Real.pi_lt_d2.le hu0
    rw [mul_add] at uX
    rw [abs_le]; constructor <;> linarith [q1.1, q1.2, q2.1, q2.2, eP.1, eP.2]
  refine ⟨way, fun hs => ?_⟩
  obtain ⟨k₀, hk₀⟩ := clerpDelta_congr a b
  have e0 : ∀ r, clerp a b r = a + r * (b - a - k₀ * (2 * Real.pi)) := fun r => by
    unfold clerp; rw [hk₀]; ring
  rw [e0 1, one_mul, add_sub_cancel_left] at hs
  have hkk : k = k₀ := by
    have q : |((k - k₀ : ℤ) : ℝ)| * (2 * Real.pi) < 1 * (2 * Real.pi) := by
      rw [← abs_of_pos (show 0 < 2 * Real.pi by positivity), ← abs_mul, abs_of_pos (show 0 < 2 * Real.pi by positivity)]
      push_cast
      rw [show ((k : ℝ) - k₀) * (2 * Real.pi) = (b - a - k₀ * (2 * Real.pi)) - (b - a - k * (2 * Real.pi)) by ring]
      have := abs_sub (b - a - k₀ * (2 * Real.pi)) (b - a - k * (2 * Real.pi))
      linarith
    have q' := lt_of_mul_lt_mul_right q (by positivity)
    have : |k - k₀| < 1 := by exact_mod_cast q'
    have := Int.abs_lt_one_iff.1 this
    omega
  rw [e0 t, ← hkk]
  exact main

/-- C176 for `clerpMaxAngle`: in floating point it turns by exactly `maxAngle` one way or the other, up to the rounding of the sum, or
goes the whole way as `clerp` does; so it never turns by more than `maxAngle` up to that rounding. -/
theorem C176_maxAngle (hp : 12 ≤ p) (a b m : ℝ) (hm : 0 ≤ m) :
    ∃ w : ℝ, clerpMaxAngle (.num a : Fl ℝ (rne p)) (.num b) (.num m) = .num w ∧
      (w = rne p (a + m) ∨ w = rne p (a - m) ∨ clerp (.num a : Fl ℝ (rne p)) (.num b) (.num 1) = .num w) ∧
      |w - a| ≤ m + (2 : ℝ) ^ (-(p : ℤ)) * (|a| + m) := by
  have hp1 : 1 ≤ p := by omega
  have hr := isRel_rne p hp1
  have fin : ∀ y : ℝ, |y| ≤ m → |rne p (a + y) - a| ≤ m + (2 : ℝ) ^ (-(p : ℤ)) * (|a| + m) := fun y hy => by
    have h1 := (hr.err (a + y)).trans (mul_le_mul_of_nonneg_left ((abs_add_le a y).trans (add_le_add le_rfl hy)) hr.nonneg)
    have h2 := abs_add_le (rne p (a + y) - (a + y)) y
    rw [show rne p (a + y) - (a + y) + y = rne p (a + y) - a by ring] at h2
    linarith
  have one : clerp (.num a : Fl ℝ (rne p)) (.num b) (.num 1) = .num (rne p (a + dl p a b)) := by
    rw [clerp_num hp1, mul_one]
    congr 3
    exact rne_rne p hp1 _
  unfold clerpMaxAngle
  rw [delta_num hp1]
  simp only [Fl.zero_def, ge_iff_le, gt_iff_lt, Fl.num_le, Fl.num_lt, Fl.num_neg]
  by_cases h0 : 0 ≤ dl p a b
  · rw [if_pos h0]
    by_cases h1 : m < dl p a b
    · rw [if_pos h1, Fl.num_add]
      exact ⟨_, rfl, Or.inl rfl, fin m (by rw [abs_of_nonneg hm])⟩
    · rw [if_neg h1, Fl.num_add]
      exact ⟨_, rfl, Or.inr (Or.inr one), fin _ (by rw [abs_of_nonneg h0]; exact not_lt.1 h1)⟩
  · rw [if_neg h0]
    by_cases h1 : dl p a b < -m
    · rw [if_pos h1, Fl.num_add]
      exact ⟨_, rfl, Or.inr (Or.inl (by rw [sub_eq_add_neg])), fin (-m) (by rw [abs_neg, abs_of_nonneg hm])⟩
    · rw [if_neg h1, Fl.num_add]
      exact ⟨_, rfl, Or.inr (Or.inr one), fin _ (by rw [abs_of_neg (not_le.1 h0)]; linarith)⟩

/-- the claim of C176 -/
def C176_full : Prop :=
  ∀ a b t : ℝ, Rep 24 a → Rep 24 b → Rep 24 t → |a| ≤ 4 → |b| ≤ 4 → 0 ≤ b - a → 0 ≤ t → t ≤ 1 →
    ∃ w : ℝ, clerp (.num a : Fl ℝ (rne 24)) (.num b) (.num t) = .num w ∧ |w - clerp a b t| ≤ 1

/-- The claim is false: in `float`, from `-9 * 2^-26` to the number below pi, less than half a turn, `clerp` goes the other way round. -/
theorem C176_refuted : ¬ C176_full := by
  intro h
  have pi1 := Real.pi_gt_d20
  have pi2 := Real.pi_lt_d20
  have m := rne_mono 24 (K := ℝ) (by norm_num)
  have hP : rne 24 Real.pi = 13176795 / 2 ^ 22 := by
    rw [rne_eq (-22) 13176795 (by norm_num; linarith) (by norm_num; linarith) (by rw [abs_lt]; norm_num; constructor <;> linarith)]
    norm_num
  have hD : rne 24 (13176794 / 2 ^ 22 - -(9 / 2 ^ 26) : ℝ) = 13176795 / 2 ^ 22 := by
    rw [rne_eq (-22) 13176795 (by norm_num) (by norm_num) (by rw [abs_lt]; norm_num)]; norm_num
  have hS : rne 24 (13176795 / 2 ^ 22 + 13176795 / 2 ^ 22 : ℝ) = 13176795 / 2 ^ 22 * 2 := by
    rw [rne_eq (-21) 13176795 (by norm_num) (by norm_num) (by rw [abs_lt]; norm_num)]; norm_num
  have hF : fmodR (13176795 / 2 ^ 22 * 2) (13176795 / 2 ^ 22 * 2) = 0 := by
    obtain ⟨f1, -, k, hk⟩ := fmodR_spec (13176795 / 2 ^ 22 * 2) (13176795 / 2 ^ 22 * 2) (by norm_num)
    obtain ⟨g1, g2⟩ := f1 (by norm_num)
    rw [hk] at g1 g2
    have k1 : (k : ℝ) ≤ 1 := by linarith
    have k2 : (0 : ℝ) < k := by linarith
    have : k = 1 := by
      have a : k ≤ 1 := by exact_mod_cast k1
      have b : 0 < k := by exact_mod_cast k2
      omega
    rw [hk, this]; norm_num
  have hd : dl 24 (-(9 / 2 ^ 26)) (13176794 / 2 ^ 22) = -(13176795 / 2 ^ 22) := by
    unfold dl
    rw [hP, hD, hS, hF, rne_zero, zero_sub, rne_neg, ← hP, rne_rne 24 (by norm_num)]
  obtain ⟨w, ew, hw⟩ := h (-(9 / 2 ^ 26)) (13176794 / 2 ^ 22) (1 / 2) ⟨-9, -26, by norm_num, by norm_num⟩
    ⟨13176794, -22, by norm_num, by norm_num⟩ ⟨1, -1, by norm_num, by norm_num⟩ (by rw [abs_le]; norm_num) (by rw [abs_le]; norm_num)
    (by norm_num) (by norm_num) (by norm_num)
  rw [clerp_num (by norm_num), hd] at ew
  have w0 : w ≤ 0 := by
    rw [← Fl.num.inj ew]
    have q1 := m (show (-(13176795 / 2 ^ 22) * (1 / 2) : ℝ) ≤ 0 by norm_num)
    rw [rne_zero] at q1
    have q2 := m (show -(9 / 2 ^ 26) + rne 24 (-(13176795 / 2 ^ 22) * (1 / 2) : ℝ) ≤ 0 by linarith)
    rwa [rne_zero] at q2
  have ex : clerp (-(9 / 2 ^ 26)) (13176794 / 2 ^ 22) (1 / 2 : ℝ) =
      -(9 / 2 ^ 26) + (13176794 / 2 ^ 22 - -(9 / 2 ^ 26)) * (1 / 2) := by
    have hf : fmodR (13176794 / 2 ^ 22 - -(9 / 2 ^ 26) + Real.pi) (Real.pi * 2) = 13176794 / 2 ^ 22 - -(9 / 2 ^ 26) + Real.pi := by
      obtain ⟨f1, -, k, hk⟩ := fmodR_spec (13176794 / 2 ^ 22 - -(9 / 2 ^ 26) + Real.pi) (Real.pi * 2) (by positivity)
      obtain ⟨g1, g2⟩ := f1 (by norm_num; linarith)
      rw [hk] at g1 g2
      have hπ := Real.pi_pos
      have k1 : (k : ℝ) < 1 := by
        by_contra hh
        have := mul_le_mul_of_nonneg_right (not_lt.1 hh) (show 0 ≤ Real.pi * 2 by positivity)
        norm_num at g1
        linarith
      have k2 : (-1 : ℝ) < k := by
        by_contra hh
        have := mul_le_mul_of_nonneg_right (not_lt.1 hh) (show 0 ≤ Real.pi * 2 by positivity)
        norm_num at g2
        linarith
      have : k = 0 := by
        have a : k < 1 := by exact_mod_cast k1
        have b : -1 < k := by exact_mod_cast k2
        omega
      rw [hk, this]; simp
    unfold clerp clerpDelta piTimes2
    simp only [real_fmod, real_pi]
    rw [hf, add_sub_cancel_right]
  rw [ex] at hw
  have := (abs_le.1 hw).1
  norm_num at this
  linarith

/-- a concrete case: a quarter turn in `float` -/
example : (12 : ℕ) ≤ 24 ∧ -rne 24 Real.pi ≤ (3 / 2 : ℝ) - 0 := by
  refine ⟨by norm_num, ?_⟩
  have := rne_pos 24 (by norm_num) Real.pi Real.pi_pos
  linarith

end MathLib
