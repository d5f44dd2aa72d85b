import Verif.Proof.RelErr
import Verif.Proof.RneNearest
import Verif.Props.Rounding
import Verif.Props.Colors

/-! # Property C180: interpolation of HSV colours in floating point -/

namespace MathLib

variable {p : ℕ}

private theorem rep_small (hp : 12 ≤ p) (n : ℕ) (hn : n ≤ 4096) : Rep p (n : ℝ) := Rep.nat n (by
  calc n ≤ 2 ^ 12 := hn
    _ ≤ 2 ^ p := Nat.pow_le_pow_right (by norm_num) hp)

private theorem lit (hp : 12 ≤ p) (n : ℕ) [n.AtLeastTwo] (hn : n ≤ 4096) : (OfNat.ofNat n : Fl ℝ (rne p)) = .num (n : ℝ) := by
  have := rne_of_rep (show 1 ≤ p by omega) (rep_small hp n hn)
  rw [Fl.ofNat_def]; exact congrArg Fl.num this

/-- the way the code goes: the computed difference, and the multiple of a turn it adds -/
private theorem way (hp : 12 ≤ p) {a b : ℝ} (ha : a ∈ Set.Ico (0 : ℝ) 360) (hb : b ∈ Set.Ico (0 : ℝ) 360) :
    ∃ δ v : ℝ, (let d := (.num b - .num a : Fl ℝ (rne p))
        d + (if abs' d > 180 then (if d < 0 then 360 else -360) else 0)) = .num v ∧
      (∃ k : ℤ, b = a + δ + 360 * k) ∧ |v| ≤ 180 ∧ |v - δ| ≤ 540 * (2 : ℝ) ^ (-(p : ℤ)) := by
  have hp1 : 1 ≤ p := by omega
  have hr := isRel_rne p hp1
  have u0 := hr.nonneg
  have r180 : Rep p (180 : ℝ) := by simpa using rep_small hp 180 (by norm_num)
  have r360 : Rep p (360 : ℝ) := by simpa using rep_small hp 360 (by norm_num)
  have l180 : (180 : Fl ℝ (rne p)) = .num 180 := by simpa using lit hp 180 (by norm_num)
  have l360 : (360 : Fl ℝ (rne p)) = .num 360 := by simpa using lit hp 360 (by norm_num)
  obtain ⟨a0, a1⟩ := ha
  obtain ⟨b0, b1⟩ := hb
  have e1 := hr.err (b - a)
  have m1 : |b - a| ≤ 360 := by rw [abs_le]; constructor <;> linarith
  have e2 := abs_le.1 (e1.trans (mul_le_mul_of_nonneg_left m1 u0))
  have d1 : rne p (b - a) ≤ 360 := by
    have := rne_mono p hp1 (show b - a ≤ 360 by linarith); rwa [rne_of_rep hp1 r360] at this
  have d2 : -360 ≤ rne p (b - a) := by
    have := rne_mono p hp1 (show -360 ≤ b - a by linarith); rwa [rne_neg, rne_of_rep hp1 r360] at this
  have idem := rne_rne p hp1 (b - a)
  simp only [abs', Fl.num_sub, Fl.zero_def, Fl.num_lt, l180, l360]
  set D := rne p (b - a) with hD
  generalize hu : (2 : ℝ) ^ (-(p : ℤ)) = u at *
  have far : ∀ s : ℝ, |D + s| ≤ 180 → |rne p (D + s)| ≤ 180 ∧ |rne p (D + s) - (b - a + s)| ≤ 540 * u := by
    intro s hs
    have e3 := (hr.err (D + s)).trans (mul_le_mul_of_nonneg_left hs u0)
    rw [abs_le] at hs
    have h1 := rne_mono p hp1 hs.1
    have h2 := rne_mono p hp1 hs.2
    rw [rne_neg, rne_of_rep hp1 r180] at h1
    rw [rne_of_rep hp1 r180] at h2
    refine ⟨abs_le.2 ⟨h1, h2⟩, ?_⟩
    rw [abs_le] at e3 ⊢; constructor <;> linarith
  by_cases c1 : D < 0
  · simp only [if_pos c1, Fl.num_neg, gt_iff_lt, Fl.num_lt]
    by_cases c2 : 180 < -D
    · rw [if_pos c2, Fl.num_add]
      obtain ⟨f1, f2⟩ := far 360 (by rw [abs_le]; constructor <;> linarith)
      exact ⟨_, _, rfl, ⟨-1, by push_cast; ring⟩, f1, f2⟩
    · rw [if_neg c2, Fl.num_add, add_zero, idem]
      refine ⟨b - a, D, rfl, ⟨0, by push_cast; ring⟩, ?_, ?_⟩
      · rw [abs_of_neg c1]; linarith
      · rw [abs_le]; constructor <;> linarith
  · simp only [if_neg c1, gt_iff_lt, Fl.num_lt]
    by_cases c2 : 180 < D
    · rw [if_pos c2, Fl.num_neg, Fl.num_add]
      obtain ⟨f1, f2⟩ := far (-360) (by rw [abs_le]; constructor <;> linarith)
      exact ⟨_, _, rfl, ⟨1, by push_cast; ring⟩, f1, f2⟩
    · rw [if_neg c2, Fl.num_add, add_zero, idem]
      refine ⟨b - a, D, rfl, ⟨0, by push_cast; ring⟩, ?_, ?_⟩
      · rw [abs_of_nonneg (not_lt.1 c1)]; linarith
      · rw [abs_le]; constructor <;> linarith

private theorem mix (hp : 12 ≤ p) {a b t : ℝ} (ha : a ∈ Set.Icc (0 : ℝ) 1) (hb : b ∈ Set.Icc (0 : ℝ) 1) (ht : t ∈ Set.Icc (0 : ℝ) 1) :
    |rne p (a + rne p (rne p (b - a) * t)) - ((1 - t) * a + t * b)| ≤ 3.01 * (2 : ℝ) ^ (-(p : ℤ)) := by
  have hr := isRel_rne p (show 1 ≤ p by omega)
  have u0 := hr.nonneg
  have hu : (2 : ℝ) ^ (-(p : ℤ)) ≤ 1 / 4096 := by
    have : (2 : ℝ) ^ (-(p : ℤ)) ≤ 2 ^ (-12 : ℤ) := zpow_le_zpow_right₀ one_le_two (by omega)
    refine this.trans (by norm_num)
  obtain ⟨a0, a1⟩ := ha
  obtain ⟨b0, b1⟩ := hb
  obtain ⟨t0, t1⟩ := ht
  have e1 := hr.err (b - a)
  have e2 := hr.err (rne p (b - a) * t)
  have e3 := hr.err (a + rne p (rne p (b - a) * t))
  generalize rne p (a + rne p (rne p (b - a) * t)) = W at *
  generalize rne p (rne p (b - a) * t) = V at *
  generalize rne p (b - a) = D at *
  generalize (2 : ℝ) ^ (-(p : ℤ)) = u at *
  have m1 : |b - a| ≤ 1 := by rw [abs_le]; constructor <;> linarith
  have f1 := e1.trans (mul_le_mul_of_nonneg_left m1 u0)
  have f2 : |D * t - (b - a) * t| ≤ u := by
    rw [← sub_mul, abs_mul, abs_of_nonneg t0]
    have := mul_le_of_le_one_right (abs_nonneg (D - (b - a))) t1
    linarith
  have m2 : |(b - a) * t| ≤ 1 := by
    rw [abs_mul, abs_of_nonneg t0]; exact mul_le_one₀ m1 t0 t1
  have m3 : |D * t| ≤ 1 + u := by
    have := abs_sub_abs_le_abs_sub (D * t) ((b - a) * t); linarith
  have f3 := abs_le.1 (e2.trans (mul_le_mul_of_nonneg_left m3 u0))
  have f4 := abs_le.1 f2
  have uu : u * u ≤ 1 / 4096 * u := mul_le_mul_of_nonneg_right hu u0
  have c1 : 0 ≤ a + (b - a) * t := by nlinarith
  have c2 : a + (b - a) * t ≤ 1 := by nlinarith
  have m4 : |a + V| ≤ 1 + 3 * u := by rw [abs_le]; constructor <;> linarith
  have f5 := abs_le.1 (e3.trans (mul_le_mul_of_nonneg_left m4 u0))
  rw [abs_le]; constructor <;> linarith

/-- C180, what holds of the claim that `interp` of HSV colours goes the short way round the hue circle: the way is at most half a turn up to
rounding, the hue is the right one up to `1620 * 2^-p` degrees, and between 0 and 360; saturation and value are right up to `3.01 * 2^-p`.
Missing: the hue can be 360 (`C180_refuted`). -/
theorem C180_interp_partial (hp : 12 ≤ p) (a b : ColorHSV ℝ) (t : ℝ) (ha : a.h ∈ Set.Ico (0 : ℝ) 360) (hb : b.h ∈ Set.Ico (0 : ℝ) 360)
    (ht : t ∈ Set.Ioo (0 : ℝ) 1) (has : a.s ∈ Set.Icc (0 : ℝ) 1) (hbs : b.s ∈ Set.Icc (0 : ℝ) 1) (hav : a.v ∈ Set.Icc (0 : ℝ) 1)
    (hbv : b.v ∈ Set.Icc (0 : ℝ) 1) :
    ∃ h s v δ : ℝ, ColorHSV.interp (⟨.num a.h, .num a.s, .num a.v⟩ : ColorHSV (Fl ℝ (rne p))) ⟨.num b.h, .num b.s, .num b.v⟩ (.num t) =
        .ok ⟨.num h, .num s, .num v⟩ ∧ 0 ≤ h ∧ h ≤ 360 ∧
      (∃ k : ℤ, b.h = a.h + δ + 360 * k) ∧ |δ| ≤ 180 + 540 * (2 : ℝ) ^ (-(p : ℤ)) ∧
      (∃ k : ℤ, |h - (a.h + t * δ + 360 * k)| ≤ 1620 * (2 : ℝ) ^ (-(p : ℤ))) ∧
      |s - ((1 - t) * a.s + t * b.s)| ≤ 3.01 * (2 : ℝ) ^ (-(p : ℤ)) ∧ |v - ((1 - t) * a.v + t * b.v)| ≤ 3.01 * (2 : ℝ) ^ (-(p : ℤ)) := by
  have hp1 : 1 ≤ p := by omega
  have hr := isRel_rne p hp1
  have u0 := hr.nonneg
  obtain ⟨δ, w, ew, hk, hw, hwδ⟩ := way hp ha hb
  have r360 : Rep p (360 : ℝ) := by simpa using rep_small hp 360 (by norm_num)
  have l360 : (360 : Fl ℝ (rne p)) = .num 360 := by simpa using lit hp 360 (by norm_num)
  have hf := fmodPositive_rounded p hp1 (rne p (a.h + rne p (w * t))) 360 (rep_rne p hp1 _) r360 (by norm_num)
  obtain ⟨r, er, r0, r1, -⟩ := C101_partial p hp1 (rne p (a.h + rne p (w * t))) 360 (rep_rne p hp1 _) r360 (by norm_num)
  have t0 := ht.1
  have t1 := ht.2
  have tc : t ∈ Set.Icc (0 : ℝ) 1 := ⟨t0.le, t1.le⟩
  have b1 : (.num t == (0 : Fl ℝ (rne p))) = false := by rw [Fl.zero_def, Fl.num_beq]; simpa using t0.ne'
  have b2 : (.num t == (1 : Fl ℝ (rne p))) = false := by rw [Fl.one_def, Fl.num_beq]; simpa using t1.ne
  refine ⟨r, _, _, δ, ?_, r0, r1, hk, ?_, ?_, mix hp has hbs tc, mix hp hav hbv tc⟩
  · rw [ColorHSV.interp, if_neg (by rw [b1]; simp), if_neg (by rw [b2]; simp)]
    simp only at ew ⊢
    rw [ew, Fl.num_mul, Fl.num_add, l360, er]
    rfl
  · have := abs_sub_abs_le_abs_sub δ w
    rw [abs_sub_comm] at this; linarith
  · obtain ⟨fp, fn, k, ek⟩ := fmodR_spec (rne p (a.h + rne p (w * t))) 360 (by norm_num)
    rw [er] at hf
    have hf' : r = if 0 ≤ fmodR (rne p (a.h + rne p (w * t))) 360 then fmodR (rne p (a.h + rne p (w * t))) 360 else
        rne p (360 + fmodR (rne p (a.h + rne p (w * t))) 360) := by
      injection hf with h; injection h
    have wt : |w * t| ≤ 180 := by
      rw [abs_mul, abs_of_pos t0]; have := mul_le_of_le_one_right (abs_nonneg w) t1.le; linarith
    have e1 := abs_le.1 ((hr.err (w * t)).trans (mul_le_mul_of_nonneg_left wt u0))
    have wt' := abs_le.1 wt
    have r180 : Rep p (180 : ℝ) := by simpa using rep_small hp 180 (by norm_num)
    have q1 := rne_mono p hp1 wt'.1
    have q2 := rne_mono p hp1 wt'.2
    rw [rne_neg, rne_of_rep hp1 r180] at q1
    rw [rne_of_rep hp1 r180] at q2
    have m2 : |a.h + rne p (w * t)| ≤ 540 := by
      rw [abs_le]; constructor <;> linarith [ha.1, ha.2]
    have e2 := abs_le.1 ((hr.err (a.h + rne p (w * t))).trans (mul_le_mul_of_nonneg_left m2 u0))
    have e3 : |w * t - t * δ| ≤ 540 * (2 : ℝ) ^ (-(p : ℤ)) := by
      rw [show w * t - t * δ = (w - δ) * t by ring, abs_mul, abs_of_pos t0]
      have := mul_le_of_le_one_right (abs_nonneg (w - δ)) t1.le
      linarith
    have e3' := abs_le.1 e3
    have hr' := hr.err (360 + fmodR (rne p (a.h + rne p (w * t))) 360)
    have small := abs_lt.1 (fmodR_abs_le (rne p (a.h + rne p (w * t))) 360 (by norm_num)).2
    generalize rne p (a.h + rne p (w * t)) = X at *
    generalize fmodR X 360 = F at *
    generalize rne p (w * t) = Y at *
    split_ifs at hf' with c
    · refine ⟨-k, ?_⟩
      rw [hf', ek]; push_cast; rw [abs_le]; constructor <;> linarith
    · have m4 : |360 + F| ≤ 360 := by rw [abs_le]; constructor <;> linarith
      have e4 := abs_le.1 (hr'.trans (mul_le_mul_of_nonneg_left m4 u0))
      refine ⟨1 - k, ?_⟩
      rw [hf']; push_cast; rw [abs_le]; constructor <;> linarith

/-- C180 is false for `float`: from hue 0 to hue 359, at the ratio `2^-20`, the hue is 360, not below. -/
theorem C180_refuted : ∃ s v, ColorHSV.interp (⟨.num 0, .num 1, .num 1⟩ : ColorHSV (Fl ℝ (rne 24))) ⟨.num 359, .num 1, .num 1⟩
    (.num (2 ^ (-20 : ℤ))) = .ok ⟨.num 360, s, v⟩ := by
  have b1 : (.num (2 ^ (-20 : ℤ)) == (0 : Fl ℝ (rne 24))) = false := by rw [Fl.zero_def, Fl.num_beq]; norm_num
  have b2 : (.num (2 ^ (-20 : ℤ)) == (1 : Fl ℝ (rne 24))) = false := by rw [Fl.one_def, Fl.num_beq]; norm_num
  have ex : ∀ n : ℕ, n ≤ 2 ^ 24 → rne 24 (n : ℝ) = n := fun n h => rne_of_rep (by norm_num) (Rep.nat n h)
  have l180 : (180 : Fl ℝ (rne 24)) = .num 180 := by simpa using lit (p := 24) (by norm_num) 180 (by norm_num)
  have l360 : (360 : Fl ℝ (rne 24)) = .num 360 := by simpa using lit (p := 24) (by norm_num) 360 (by norm_num)
  have x1 : rne 24 ((359 : ℝ) - 0) = 359 := by have := ex 359 (by norm_num); norm_num at this ⊢; exact this
  have x2 : rne 24 ((359 : ℝ) + -360) = -1 := by
    rw [show (359 : ℝ) + -360 = -1 by norm_num, rne_neg]; have := ex 1 (by norm_num); norm_num at this ⊢; exact this
  have x3 : Rep 24 (-(2 : ℝ) ^ (-20 : ℤ)) := (Rep.zpow _).neg
  have x4 : rne 24 ((0 : ℝ) + rne 24 (-1 * 2 ^ (-20 : ℤ))) = -2 ^ (-20 : ℤ) := by
    rw [zero_add, rne_rne 24 (by norm_num), neg_one_mul, rne_of_rep (by norm_num) x3]
  have r360 : Rep 24 (360 : ℝ) := by simpa using rep_small (p := 24) (by norm_num) 360 (by norm_num)
  have hf := fmodPositive_rounded 24 (by norm_num) (-(2 : ℝ) ^ (-20 : ℤ)) 360 x3 r360 (by norm_num)
  have fm : fmodR (-(2 : ℝ) ^ (-20 : ℤ)) 360 = -(2 : ℝ) ^ (-20 : ℤ) := by
    unfold fmodR truncR
    rw [if_neg (by norm_num)]
    rw [show ⌈-(2 : ℝ) ^ (-20 : ℤ) / 360⌉ = 0 by rw [Int.ceil_eq_iff]; norm_num]
    norm_num
  rw [fm, if_neg (by norm_num), rne_eq (p := 24) (x := 360 + -(2 : ℝ) ^ (-20 : ℤ)) (-15) 11796480 (by norm_num) (by norm_num)
    (by rw [abs_lt]; norm_num)] at hf
  refine ⟨lerp (.num 1) (.num 1) (.num (2 ^ (-20 : ℤ))), lerp (.num 1) (.num 1) (.num (2 ^ (-20 : ℤ))), ?_⟩
  rw [ColorHSV.interp, if_neg (by rw [b1]; simp), if_neg (by rw [b2]; simp)]
  have ab : abs' (.num 359 : Fl ℝ (rne 24)) = .num 359 := by
    rw [abs', Fl.zero_def]; simp only [Fl.num_lt]; rw [if_neg (by norm_num)]
  have c1 : (.num 359 : Fl ℝ (rne 24)) > .num 180 := by rw [gt_iff_lt, Fl.num_lt]; norm_num
  have c2 : ¬ ((.num 359 : Fl ℝ (rne 24)) < .num 0) := by rw [Fl.num_lt]; norm_num
  simp only [Fl.num_sub, Fl.zero_def, l180, l360, x1, ab, if_pos c1, if_neg c2, Fl.num_neg, Fl.num_add, x2, Fl.num_mul, x4, hf]
  norm_num [bind, Except.bind]

/-- half way from hue 350 to hue 30 in `float` -/
example : ∃ h s v : Fl ℝ (rne 24), ColorHSV.interp (⟨.num 350, .num 1, .num 1⟩ : ColorHSV (Fl ℝ (rne 24))) ⟨.num 30, .num 0, .num 1⟩ (.num (1 / 2)) =
    .ok ⟨h, s, v⟩ := by
  obtain ⟨h, s, v, -, e, -⟩ := C180_interp_partial (p := 24) (by norm_num) ⟨350, 1, 1⟩ ⟨30, 0, 1⟩ (1 / 2) (by norm_num) (by norm_num)
    (by norm_num) (by norm_num) (by norm_num) (by norm_num) (by norm_num)
  exact ⟨_, _, _, e⟩

end MathLib
