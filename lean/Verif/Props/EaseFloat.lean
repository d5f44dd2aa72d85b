import Verif.Model.EaseFloat
import Verif.Props.Interp
import Verif.Proof.Rne

/-! # Property C117: easing in double precision through `float` temporaries -/

namespace MathLib
open InterpolationMode

/-- The modes with `float` temporaries. -/
def InterpolationMode.viaFloat (m : InterpolationMode) : Prop :=
  m = QuarticOut ∨ m = QuarticInOut ∨ m = QuinticOut ∨ m = QuinticInOut

/-- C117: without narrowing, and in all other modes, the result is that of `interpolationRatio`. -/
theorem C117_id (narrow : ℝ → ℝ) (t : ℝ) (m : InterpolationMode) :
    interpolationRatioD id t m = interpolationRatio t m ∧
    (¬ m.viaFloat → interpolationRatioD narrow t m = interpolationRatio t m) := by
  constructor
  · unfold interpolationRatioD interpolationRatio
    cases m <;> rfl
  · intro h
    unfold interpolationRatioD interpolationRatio
    cases m <;> simp_all [InterpolationMode.viaFloat, interpolationSwitchD]

/-- powers as the code forms them, for a monotone narrowing that keeps -1, 0 and 1 -/
theorem narrow_powers (narrow : ℝ → ℝ) (hm : Monotone narrow) (h0 : narrow 0 = 0) (h1 : narrow 1 = 1)
    (hn : narrow (-1) = -1) {a b : ℝ} (ha : -1 ≤ a) (hab : a ≤ b) (hb : b ≤ 0) :
    let p2 := fun x => narrow (x * x)
    let p3 := fun x => narrow (p2 x * x)
    let p4 := fun x => narrow (p3 x * x)
    let p5 := fun x => narrow (p4 x * x)
    (0 ≤ p4 b ∧ p4 b ≤ p4 a ∧ p4 a ≤ 1) ∧ (-1 ≤ p5 a ∧ p5 a ≤ p5 b ∧ p5 b ≤ 0) := by
  intro p2 p3 p4 p5
  have up : ∀ u v : ℝ, 0 ≤ v → v ≤ u → u ≤ 1 →
      -1 ≤ narrow (u * a) ∧ narrow (u * a) ≤ narrow (v * b) ∧ narrow (v * b) ≤ 0 := by
    intro u v hv hvu hu
    refine ⟨?_, hm (by nlinarith), ?_⟩
    · rw [← hn]; exact hm (by nlinarith)
    · rw [← h0]; exact hm (by nlinarith)
  have dn : ∀ u v : ℝ, -1 ≤ u → u ≤ v → v ≤ 0 →
      0 ≤ narrow (v * b) ∧ narrow (v * b) ≤ narrow (u * a) ∧ narrow (u * a) ≤ 1 := by
    intro u v hu huv hv
    refine ⟨?_, hm (by nlinarith), ?_⟩
    · rw [← h0]; exact hm (by nlinarith)
    · rw [← h1]; exact hm (by nlinarith)
  have e2 : 0 ≤ p2 b ∧ p2 b ≤ p2 a ∧ p2 a ≤ 1 := dn a b ha hab hb
  have e3 : -1 ≤ p3 a ∧ p3 a ≤ p3 b ∧ p3 b ≤ 0 := up _ _ e2.1 e2.2.1 e2.2.2
  have e4 : 0 ≤ p4 b ∧ p4 b ≤ p4 a ∧ p4 a ≤ 1 := dn _ _ e3.1 e3.2.1 e3.2.2
  exact ⟨e4, up _ _ e4.1 e4.2.1 e4.2.2⟩

/-- The same with a leading minus sign (`-t0 * t0 * t0 * t0`). -/
theorem narrow_neg_powers (narrow : ℝ → ℝ) (hm : Monotone narrow) (h0 : narrow 0 = 0) (h1 : narrow 1 = 1)
    (hn : narrow (-1) = -1) {a b : ℝ} (ha : -1 ≤ a) (hab : a ≤ b) (hb : b ≤ 0) :
    let p := fun x => narrow (narrow (narrow (-x * x) * x) * x);
    ((-1 : ℝ) ≤ p a) ∧ p a ≤ p b ∧ p b ≤ 0 := by
  intro p
  have up : ∀ u v : ℝ, 0 ≤ v → v ≤ u → u ≤ 1 →
      -1 ≤ narrow (u * a) ∧ narrow (u * a) ≤ narrow (v * b) ∧ narrow (v * b) ≤ 0 := by
    intro u v hv hvu hu
    refine ⟨?_, hm (by nlinarith), ?_⟩
    · rw [← hn]; exact hm (by nlinarith)
    · rw [← h0]; exact hm (by nlinarith)
  have dn : ∀ u v : ℝ, -1 ≤ u → u ≤ v → v ≤ 0 →
      0 ≤ narrow (v * b) ∧ narrow (v * b) ≤ narrow (u * a) ∧ narrow (u * a) ≤ 1 := by
    intro u v hu huv hv
    refine ⟨?_, hm (by nlinarith), ?_⟩
    · rw [← h0]; exact hm (by nlinarith)
    · rw [← h1]; exact hm (by nlinarith)
  have e2 := up (-a) (-b) (by linarith) (by linarith) (by linarith)
  have e3 := dn _ _ e2.1 e2.2.1 e2.2.2
  exact up _ _ e3.1 e3.2.1 e3.2.2

/-- C117: whatever the rounding of the temporaries, as long as it is monotone and keeps -1, 0 and 1, the ratio
stays in [0,1] and is monotone. -/
theorem C117_range_monotone (narrow : ℝ → ℝ) (hm : Monotone narrow) (h0 : narrow 0 = 0) (h1 : narrow 1 = 1)
    (hn : narrow (-1) = -1) (m : InterpolationMode) (h : m.viaFloat) :
    (∀ t, 0 ≤ interpolationRatioD narrow t m ∧ interpolationRatioD narrow t m ≤ 1) ∧
    Monotone (fun t => interpolationRatioD narrow t m) := by
  have nr : ∀ a b : ℝ, -1 ≤ a → a ≤ b → b ≤ 0 → -1 ≤ narrow a ∧ narrow a ≤ narrow b ∧ narrow b ≤ 0 := by
    intro a b ha hab hb
    exact ⟨by rw [← hn]; exact hm ha, hm hab, by rw [← h0]; exact hm hb⟩
  -- on the open interval
  have key : ∀ a b : ℝ, 0 < a → a ≤ b → b < 1 → 0 ≤ interpolationSwitchD narrow a m ∧
      interpolationSwitchD narrow a m ≤ interpolationSwitchD narrow b m ∧ interpolationSwitchD narrow b m ≤ 1 := by
    intro a b ha hab hb
    rcases h with rfl | rfl | rfl | rfl
    · obtain ⟨k1, k2, k3⟩ := nr (a - 1) (b - 1) (by linarith) (by linarith) (by linarith)
      obtain ⟨l1, l2, l3⟩ := narrow_neg_powers narrow hm h0 h1 hn k1 k2 k3
      simp only [interpolationSwitchD]
      exact ⟨by linarith, by linarith, by linarith⟩
    · have hi : ∀ c d : ℝ, 1 / 2 ≤ c → c ≤ d → d < 1 → 1 / 2 ≤ interpolationSwitchD narrow c QuarticInOut ∧
          interpolationSwitchD narrow c QuarticInOut ≤ interpolationSwitchD narrow d QuarticInOut ∧
          interpolationSwitchD narrow d QuarticInOut ≤ 1 := by
        intro c d hc hcd hd
        obtain ⟨k1, k2, k3⟩ := nr (2 * c - 2) (2 * d - 2) (by linarith) (by linarith) (by linarith)
        obtain ⟨⟨l1, l2, l3⟩, -⟩ := narrow_powers narrow hm h0 h1 hn k1 k2 k3
        simp only [interpolationSwitchD, if_neg (not_lt.2 hc), if_neg (not_lt.2 (hc.trans hcd))]
        exact ⟨by linarith, by linarith, by linarith⟩
      have lo : ∀ c d : ℝ, 0 < c → c ≤ d → d < 1 / 2 → 0 ≤ interpolationSwitchD narrow c QuarticInOut ∧
          interpolationSwitchD narrow c QuarticInOut ≤ interpolationSwitchD narrow d QuarticInOut ∧
          interpolationSwitchD narrow d QuarticInOut ≤ 1 / 2 := by
        intro c d hc hcd hd
        simp only [interpolationSwitchD, if_pos hd, if_pos (hcd.trans_lt hd)]
        have e : ∀ x : ℝ, 8 * x * x * x * x = 8 * x ^ 4 := fun x => by ring
        rw [e, e]
        have a1 : c ^ 4 ≤ d ^ 4 := pow_le_pow_left₀ hc.le hcd 4
        have a2 : d ^ 4 ≤ (1 / 2) ^ 4 := pow_le_pow_left₀ (hc.le.trans hcd) hd.le 4
        have a3 : 0 ≤ c ^ 4 := by positivity
        norm_num at a2
        exact ⟨by linarith, by linarith, by linarith⟩
      rcases lt_or_ge b (1 / 2) with hb2 | hb2
      · have := lo a b ha hab hb2
        exact ⟨this.1, this.2.1, by linarith [this.2.2]⟩
      rcases lt_or_ge a (1 / 2) with ha2 | ha2
      · have k1 := lo a a ha le_rfl ha2
        have k2 := hi b b hb2 le_rfl hb
        exact ⟨k1.1, k1.2.2.trans k2.1, k2.2.2⟩
      · have := hi a b ha2 hab hb
        exact ⟨by linarith [this.1], this.2.1, this.2.2⟩
    · obtain ⟨k1, k2, k3⟩ := nr (a - 1) (b - 1) (by linarith) (by linarith) (by linarith)
      obtain ⟨-, l1, l2, l3⟩ := narrow_powers narrow hm h0 h1 hn k1 k2 k3
      simp only [interpolationSwitchD]
      exact ⟨by linarith, by linarith, by linarith⟩
    · have hi : ∀ c d : ℝ, 1 / 2 ≤ c → c ≤ d → d < 1 → 1 / 2 ≤ interpolationSwitchD narrow c QuinticInOut ∧
          interpolationSwitchD narrow c QuinticInOut ≤ interpolationSwitchD narrow d QuinticInOut ∧
          interpolationSwitchD narrow d QuinticInOut ≤ 1 := by
        intro c d hc hcd hd
        obtain ⟨k1, k2, k3⟩ := nr (2 * c - 2) (2 * d - 2) (by linarith) (by linarith) (by linarith)
        obtain ⟨-, l1, l2, l3⟩ := narrow_powers narrow hm h0 h1 hn k1 k2 k3
        simp only [interpolationSwitchD, if_neg (not_lt.2 hc), if_neg (not_lt.2 (hc.trans hcd))]
        exact ⟨by linarith, by linarith, by linarith⟩
      have lo : ∀ c d : ℝ, 0 < c → c ≤ d → d < 1 / 2 → 0 ≤ interpolationSwitchD narrow c QuinticInOut ∧
          interpolationSwitchD narrow c QuinticInOut ≤ interpolationSwitchD narrow d QuinticInOut ∧
          interpolationSwitchD narrow d QuinticInOut ≤ 1 / 2 := by
        intro c d hc hcd hd
        simp only [interpolationSwitchD, if_pos hd, if_pos (hcd.trans_lt hd)]
        have e : ∀ x : ℝ, 16 * x * x * x * x * x = 16 * x ^ 5 := fun x => by ring
        rw [e, e]
        have a1 : c ^ 5 ≤ d ^ 5 := pow_le_pow_left₀ hc.le hcd 5
        have a2 : d ^ 5 ≤ (1 / 2) ^ 5 := pow_le_pow_left₀ (hc.le.trans hcd) hd.le 5
        have a3 : 0 ≤ c ^ 5 := by positivity
        norm_num at a2
        exact ⟨by linarith, by linarith, by linarith⟩
      rcases lt_or_ge b (1 / 2) with hb2 | hb2
      · have := lo a b ha hab hb2
        exact ⟨this.1, this.2.1, by linarith [this.2.2]⟩
      rcases lt_or_ge a (1 / 2) with ha2 | ha2
      · have k1 := lo a a ha le_rfl ha2
        have k2 := hi b b hb2 le_rfl hb
        exact ⟨k1.1, k1.2.2.trans k2.1, k2.2.2⟩
      · have := hi a b ha2 hab hb
        exact ⟨by linarith [this.1], this.2.1, this.2.2⟩
  have range : ∀ t, 0 ≤ interpolationRatioD narrow t m ∧ interpolationRatioD narrow t m ≤ 1 := by
    intro t
    unfold interpolationRatioD
    split_ifs with c1 c2
    · norm_num
    · norm_num
    · have := key t t (not_le.1 c1) le_rfl (not_le.1 c2)
      exact ⟨this.1, this.2.2⟩
  refine ⟨range, fun a b hab => ?_⟩
  simp only
  rcases le_or_gt a 0 with ha | ha
  · rw [interpolationRatioD, if_pos ha]; exact (range b).1
  rcases le_or_gt 1 b with hb | hb
  · conv_rhs => rw [interpolationRatioD, if_neg (by linarith), if_pos hb]
    exact (range a).2
  · rw [interpolationRatioD, interpolationRatioD, if_neg (by linarith), if_neg (by simp; linarith),
      if_neg (by linarith), if_neg (by simp; linarith)]
    exact (key a b ha hab hb).2.1

/-- `a` is 1 up to `n` relative errors. -/
private def Near (ε : ℝ) (n : ℕ) (a : ℝ) : Prop := |a - 1| ≤ (1 + ε) ^ n - 1

private theorem Near.mul {ε : ℝ} (hε : 0 ≤ ε) {n m : ℕ} {a b : ℝ} (ha : Near ε n a) (hb : Near ε m b) :
    Near ε (n + m) (a * b) := by
  unfold Near at *
  have h1 : |b| ≤ (1 + ε) ^ m := by
    have := abs_add_le (b - 1) 1
    rw [sub_add_cancel, abs_one] at this
    linarith
  have hn : 0 ≤ (1 + ε) ^ n - 1 := (abs_nonneg _).trans ha
  have e : a * b - 1 = (a - 1) * b + (b - 1) := by ring
  calc |a * b - 1| ≤ |(a - 1) * b| + |b - 1| := by rw [e]; exact abs_add_le _ _
    _ ≤ ((1 + ε) ^ n - 1) * (1 + ε) ^ m + ((1 + ε) ^ m - 1) := by
        rw [abs_mul]
        have := mul_le_mul ha h1 (abs_nonneg _) hn
        linarith
    _ = (1 + ε) ^ (n + m) - 1 := by rw [pow_add]; ring

private theorem Near.mono {ε : ℝ} (hε : 0 ≤ ε) {n m : ℕ} (h : n ≤ m) {a : ℝ} (ha : Near ε n a) : Near ε m a := by
  have : (1 + ε) ^ n ≤ (1 + ε) ^ m := pow_le_pow_right₀ (by linarith) h
  unfold Near at *
  linarith

/-- C117: if the narrowing has relative error at most `ε`, the ratio is off by at most `(1+ε)^9 - 1` (for `float`,
`ε = 2^-24`, less than 6e-7). -/
theorem C117_error (narrow : ℝ → ℝ) (ε : ℝ) (hε : 0 ≤ ε) (ha : ∀ x, |narrow x - x| ≤ ε * |x|)
    (t : ℝ) (m : InterpolationMode) :
    |interpolationRatioD narrow t m - interpolationRatio t m| ≤ (1 + ε) ^ 9 - 1 := by
  have h9 : 0 ≤ (1 + ε) ^ 9 - 1 := by
    have := one_le_pow₀ (show (1 : ℝ) ≤ 1 + ε by linarith) (n := 9)
    linarith
  have rel : ∀ x, ∃ d, narrow x = x * d ∧ Near ε 1 d := by
    intro x
    by_cases hx : x = 0
    · refine ⟨1, ?_, by simp [Near, hε]⟩
      have := ha x
      rw [hx, abs_zero, mul_zero] at this
      have := abs_nonpos_iff.1 this
      rw [hx]; linarith
    · refine ⟨narrow x / x, by field_simp, ?_⟩
      unfold Near
      rw [pow_one, add_sub_cancel_left, div_sub_one hx, abs_div, div_le_iff₀ (abs_pos.2 hx)]
      exact ha x
  have bound : ∀ x P c : ℝ, |x| ≤ 1 → |c| ≤ 1 → Near ε 9 P → |c * (x * P) - c * x| ≤ (1 + ε) ^ 9 - 1 := by
    intro x P c hx hc hP
    rw [show c * (x * P) - c * x = c * x * (P - 1) by ring, abs_mul, abs_mul]
    have h1 : |c| * |x| ≤ 1 := by nlinarith [abs_nonneg c, abs_nonneg x]
    calc |c| * |x| * |P - 1| ≤ 1 * |P - 1| := by gcongr
      _ ≤ _ := by rw [one_mul]; exact hP
  by_cases hv : m.viaFloat
  swap
  · rw [(C117_id narrow t m).2 hv, sub_self, abs_zero]; exact h9
  unfold interpolationRatioD interpolationRatio
  split_ifs with c1 c2
  · simpa using h9
  · simpa using h9
  rw [not_le] at c1 c2
  have b1 : |t - 1| ≤ 1 := by rw [abs_le]; constructor <;> linarith
  have bp : ∀ (x : ℝ) (n : ℕ), |x| ≤ 1 → |x ^ n| ≤ 1 := fun x n hx => by
    rw [abs_pow]; exact pow_le_one₀ (abs_nonneg _) hx
  rcases hv with rfl | rfl | rfl | rfl
  · obtain ⟨d0, e0, n0⟩ := rel (t - 1)
    simp only [interpolationSwitchD, interpolationSwitch]
    obtain ⟨d1, e1, n1⟩ := rel (-narrow (t - 1) * narrow (t - 1))
    obtain ⟨d2, e2, n2⟩ := rel (narrow (-narrow (t - 1) * narrow (t - 1)) * narrow (t - 1))
    obtain ⟨d3, e3, n3⟩ := rel (narrow (narrow (-narrow (t - 1) * narrow (t - 1)) * narrow (t - 1)) * narrow (t - 1))
    rw [e3, e2, e1, e0]
    have hP : Near ε 9 (d0 * d0 * d0 * d0 * d1 * d2 * d3) :=
      ((((((n0.mul hε n0).mul hε n0).mul hε n0).mul hε n1).mul hε n2).mul hε n3).mono hε (by norm_num)
    have := bound ((t - 1) ^ 4) _ (-1) (bp _ 4 b1) (by norm_num) hP
    convert this using 2
    ring
  · simp only [interpolationSwitchD, interpolationSwitch]
    split_ifs with c
    · simpa using h9
    · have b2 : |2 * t - 2| ≤ 1 := by rw [abs_le]; constructor <;> linarith
      generalize 2 * t - 2 = s at b2
      obtain ⟨d0, e0, n0⟩ := rel s
      obtain ⟨d1, e1, n1⟩ := rel (narrow s * narrow s)
      obtain ⟨d2, e2, n2⟩ := rel (narrow (narrow s * narrow s) * narrow s)
      obtain ⟨d3, e3, n3⟩ := rel (narrow (narrow (narrow s * narrow s) * narrow s) * narrow s)
      rw [e3, e2, e1, e0]
      have hP : Near ε 9 (d0 * d0 * d0 * d0 * d1 * d2 * d3) :=
        ((((((n0.mul hε n0).mul hε n0).mul hε n0).mul hε n1).mul hε n2).mul hε n3).mono hε (by norm_num)
      have := bound (s ^ 4) _ (-(1 / 2)) (bp _ 4 b2) (by rw [abs_le]; norm_num) hP
      convert this using 2
      ring
  · obtain ⟨d0, e0, n0⟩ := rel (t - 1)
    simp only [interpolationSwitchD, interpolationSwitch]
    generalize t - 1 = s at b1 e0 ⊢
    obtain ⟨d1, e1, n1⟩ := rel (narrow s * narrow s)
    obtain ⟨d2, e2, n2⟩ := rel (narrow (narrow s * narrow s) * narrow s)
    obtain ⟨d3, e3, n3⟩ := rel (narrow (narrow (narrow s * narrow s) * narrow s) * narrow s)
    obtain ⟨d4, e4, n4⟩ := rel (narrow (narrow (narrow (narrow s * narrow s) * narrow s) * narrow s) * narrow s)
    rw [e4, e3, e2, e1, e0]
    have hP : Near ε 9 (d0 * d0 * d0 * d0 * d0 * d1 * d2 * d3 * d4) :=
      (((((((((n0.mul hε n0).mul hε n0).mul hε n0).mul hε n0).mul hε n1).mul hε n2).mul hε n3).mul hε n4))
    have := bound (s ^ 5) _ 1 (bp _ 5 b1) (by norm_num) hP
    convert this using 2
    ring
  · simp only [interpolationSwitchD, interpolationSwitch]
    split_ifs with c
    · simpa using h9
    · have b2 : |2 * t - 2| ≤ 1 := by rw [abs_le]; constructor <;> linarith
      generalize 2 * t - 2 = s at b2
      obtain ⟨d0, e0, n0⟩ := rel s
      obtain ⟨d1, e1, n1⟩ := rel (narrow s * narrow s)
      obtain ⟨d2, e2, n2⟩ := rel (narrow (narrow s * narrow s) * narrow s)
      obtain ⟨d3, e3, n3⟩ := rel (narrow (narrow (narrow s * narrow s) * narrow s) * narrow s)
      obtain ⟨d4, e4, n4⟩ := rel (narrow (narrow (narrow (narrow s * narrow s) * narrow s) * narrow s) * narrow s)
      rw [e4, e3, e2, e1, e0]
      have hP : Near ε 9 (d0 * d0 * d0 * d0 * d0 * d1 * d2 * d3 * d4) :=
        (((((((((n0.mul hε n0).mul hε n0).mul hε n0).mul hε n0).mul hε n1).mul hε n2).mul hε n3).mul hε n4))
      have := bound (s ^ 5) _ (1 / 2) (bp _ 5 b2) (by rw [abs_le]; norm_num) hP
      convert this using 2
      ring

/-- Full statement: the ratio is strictly increasing between 0 and 1, as it is without narrowing. -/
def C117_strict_full (narrow : ℝ → ℝ) : Prop :=
  ∀ m, InterpolationMode.viaFloat m → StrictMonoOn (fun t => interpolationRatioD narrow t m) (Set.Icc 0 1)

/-- Without narrowing it holds. -/
theorem C117_strict_exact : C117_strict_full id := by
  have p4 : ∀ x y : ℝ, 0 ≤ x → x < y → x ^ 4 < y ^ 4 := fun x y h0 h => pow_lt_pow_left₀ h h0 (by norm_num)
  have p5 : ∀ x y : ℝ, 0 ≤ x → x < y → x ^ 5 < y ^ 5 := fun x y h0 h => pow_lt_pow_left₀ h h0 (by norm_num)
  have ev : ∀ m, InterpolationMode.viaFloat m → ∀ t : ℝ, t ∈ Set.Icc (0 : ℝ) 1 →
      interpolationRatioD id t m = interpolationSwitch t m := by
    intro m hv t ht
    rw [(C117_id id t m).1, interpolationRatio]
    split_ifs with c1 c2
    · obtain rfl : t = 0 := le_antisymm c1 ht.1
      rcases hv with rfl | rfl | rfl | rfl <;> norm_num [interpolationSwitch]
    · obtain rfl : t = 1 := le_antisymm ht.2 c2
      rcases hv with rfl | rfl | rfl | rfl <;> norm_num [interpolationSwitch]
    · rfl
  intro m hv a ha b hb hab
  simp only
  rw [ev m hv a ha, ev m hv b hb]
  obtain ⟨a0, a1⟩ := ha
  obtain ⟨b0, b1⟩ := hb
  rcases hv with rfl | rfl | rfl | rfl
  · have := p4 (1 - b) (1 - a) (by linarith) (by linarith)
    simp only [interpolationSwitch]
    nlinarith
  · simp only [interpolationSwitch]
    split_ifs with c1 c2 c2
    · have := p4 a b a0 hab
      nlinarith
    · have h1 := p4 a (1 / 2) a0 c1
      have h2 : (2 - 2 * b) ^ 4 ≤ 1 := pow_le_one₀ (by linarith) (by linarith)
      nlinarith
    · linarith
    · have := p4 (2 - 2 * b) (2 - 2 * a) (by linarith) (by linarith)
      nlinarith
  · have := p5 (1 - b) (1 - a) (by linarith) (by linarith)
    simp only [interpolationSwitch]
    nlinarith
  · simp only [interpolationSwitch]
    split_ifs with c1 c2 c2
    · have := p5 a b a0 hab
      nlinarith
    · have h1 := p5 a (1 / 2) a0 c1
      have h2 : (2 - 2 * b) ^ 5 ≤ 1 := pow_le_one₀ (by linarith) (by linarith)
      nlinarith
    · linarith
    · have := p5 (2 - 2 * b) (2 - 2 * a) (by linarith) (by linarith)
      nlinarith

theorem rne24_near_one : rne 24 ((2 : ℝ) ^ (-30 : ℤ) - 1) = -1 := by
  have h : rne 24 (1 - (2 : ℝ) ^ (-30 : ℤ)) = 1 := by
    have hx : (0 : ℝ) < 1 - 2 ^ (-30 : ℤ) := by norm_num
    have hx1 : (1 - 2 ^ (-30 : ℤ) : ℝ) < 1 := by norm_num
    have hx2 : (2 : ℝ) ^ (-1 : ℤ) ≤ 1 - 2 ^ (-30 : ℤ) := by norm_num
    have hl : Int.log 2 (1 - (2 : ℝ) ^ (-30 : ℤ)) = -1 := by
      obtain ⟨l1, l2⟩ := log_bounds _ hx
      apply le_antisymm
      · by_contra hc
        have : (2 : ℝ) ^ (0 : ℤ) ≤ 2 ^ Int.log 2 (1 - (2 : ℝ) ^ (-30 : ℤ)) :=
          zpow_le_zpow_right₀ (by norm_num) (by omega)
        rw [zpow_zero] at this
        linarith
      · by_contra hc
        have : (2 : ℝ) ^ (Int.log 2 (1 - (2 : ℝ) ^ (-30 : ℤ)) + 1) ≤ 2 ^ (-1 : ℤ) :=
          zpow_le_zpow_right₀ (by norm_num) (by omega)
        linarith
    rw [rne_pos_eq 24 _ hx, hl, rhe_eq_of_lt _ (2 ^ 24)]
    · norm_num
    · rw [abs_lt]; constructor <;> norm_num
  rw [show (2 : ℝ) ^ (-30 : ℤ) - 1 = -(1 - 2 ^ (-30 : ℤ)) by ring, rne_neg, h]

/-- False for rounding to `float`: the double 2^-30 gives the ratio 0 in the Out modes. -/
theorem C117_strict_refuted :
    interpolationRatioD (rne 24) ((2 : ℝ) ^ (-30 : ℤ)) QuarticOut = 0 ∧
    interpolationRatioD (rne 24) ((2 : ℝ) ^ (-30 : ℤ)) QuinticOut = 0 ∧ ¬ C117_strict_full (rne 24) := by
  have h := rne24_near_one
  have h1 : rne 24 (1 : ℝ) = 1 := by
    have := rne_of_rep (K := ℝ) (p := 24) (by norm_num) (Rep.int 1 (by norm_num))
    simpa using this
  have h0 : rne 24 (-1 : ℝ) = -1 := by rw [rne_neg, h1]
  have e1 : interpolationRatioD (rne 24) ((2 : ℝ) ^ (-30 : ℤ)) QuarticOut = 0 := by
    rw [interpolationRatioD, if_neg (by norm_num), if_neg (by norm_num)]
    simp only [interpolationSwitchD, h]
    norm_num [h0, h1]
  have e2 : interpolationRatioD (rne 24) ((2 : ℝ) ^ (-30 : ℤ)) QuinticOut = 0 := by
    rw [interpolationRatioD, if_neg (by norm_num), if_neg (by norm_num)]
    simp only [interpolationSwitchD, h]
    norm_num [h0, h1]
  refine ⟨e1, e2, fun hs => ?_⟩
  have := hs QuarticOut (.inl rfl) (a := 0) (b := 2 ^ (-30 : ℤ)) (by simp) (by constructor <;> norm_num) (by norm_num)
  simp only [e1] at this
  rw [interpolationRatioD, if_pos le_rfl] at this
  exact lt_irrefl _ this

/-- Rounding to `float` meets the hypotheses of `C117_range_monotone` and `C117_error`. -/
example : Monotone (rne 24 : ℝ → ℝ) ∧ rne 24 (0 : ℝ) = 0 ∧ rne 24 (1 : ℝ) = 1 ∧ rne 24 (-1 : ℝ) = -1 ∧
    ∀ x : ℝ, |rne 24 x - x| ≤ 2 ^ (-24 : ℤ) * |x| := by
  have h1 : rne 24 (1 : ℝ) = 1 := by
    have := rne_of_rep (K := ℝ) (p := 24) (by norm_num) (Rep.int 1 (by norm_num))
    simpa using this
  refine ⟨rne_mono 24 (by norm_num), rne_zero 24, h1, by rw [rne_neg, h1], fun x => ?_⟩
  rw [abs_sub_comm, mul_comm]
  exact rne_rel 24 x

end MathLib
