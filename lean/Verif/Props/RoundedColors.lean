import Verif.Props.Colors
import Verif.Props.Rounding
import Verif.Proof.Apx
import Verif.Spec.RoundSpec

/-! # Property C155: hue, saturation and value in floating point -/

namespace MathLib

/-- The colour of hue `x` (in sixths of the circle, `0 ≤ x ≤ 6`), saturation `s` and value `v`: each channel is `v`
lowered by `v s` times a trapezoid of the hue. -/
noncomputable def hexcone (s v x : ℝ) : ColorRGB ℝ :=
  ⟨v - v * s * max 0 (min 1 (2 - |x - 3|)), v - v * s * max 0 (min 1 (|x - 2| - 1)),
   v - v * s * max 0 (min 1 (|x - 4| - 1))⟩

/-- the computed channels are numbers, each within `e` of the given ones -/
def ColorRGB.Within {rnd : ℝ → ℝ} (c : ColorRGB (Fl ℝ rnd)) (e : ℝ) (d : ColorRGB ℝ) : Prop :=
  c.r.Within e d.r ∧ c.g.Within e d.g ∧ c.b.Within e d.b

private theorem clamp1 {y : ℝ} (h : 1 ≤ y) : max 0 (min 1 y) = 1 := by rw [min_eq_left h, max_eq_right zero_le_one]
private theorem clamp0 {y : ℝ} (h : y ≤ 0) : max 0 (min 1 y) = 0 := by
  rw [min_eq_right (h.trans zero_le_one), max_eq_left h]
private theorem clampm {y : ℝ} (h0 : 0 ≤ y) (h1 : y ≤ 1) : max 0 (min 1 y) = y := by
  rw [min_eq_right h1, max_eq_right h0]

theorem hexcone_sector (s v x : ℝ) (n : ℕ) (hn : n < 6) (h0 : (n : ℝ) ≤ x) (h1 : x ≤ n + 1) :
    hexcone s v x = sectorColor s v (x - n) n := by
  unfold hexcone
  interval_cases n <;> simp only [sectorColor] <;> push_cast at h0 h1 ⊢ <;> norm_num at h0 h1
  · rw [abs_of_nonpos (by linarith), abs_of_nonpos (by linarith), abs_of_nonpos (by linarith), clamp0 (by linarith),
      clampm (by linarith) (by linarith), clamp1 (by linarith)]
    congr 1 <;> ring
  · rw [abs_of_nonpos (by linarith), abs_of_nonpos (by linarith), abs_of_nonpos (by linarith),
      clampm (by linarith) (by linarith), clamp0 (by linarith), clamp1 (by linarith)]
    congr 1 <;> ring
  · rw [abs_of_nonpos (by linarith), abs_of_nonneg (by linarith), abs_of_nonpos (by linarith),
      clamp1 (by linarith), clamp0 (by linarith), clampm (by linarith) (by linarith)]
    congr 1 <;> ring
  · rw [abs_of_nonneg (by linarith), abs_of_nonneg (by linarith), abs_of_nonpos (by linarith),
      clamp1 (by linarith), clampm (by linarith) (by linarith), clamp0 (by linarith)]
    congr 1 <;> ring
  · rw [abs_of_nonneg (by linarith), abs_of_nonneg (by linarith), abs_of_nonneg (by linarith),
      clampm (by linarith) (by linarith), clamp1 (by linarith), clamp0 (by linarith)]
    congr 1 <;> ring
  · rw [abs_of_nonneg (by linarith), abs_of_nonneg (by linarith), abs_of_nonneg (by linarith),
      clamp0 (by linarith), clamp1 (by linarith), clampm (by linarith) (by linarith)]
    congr 1 <;> ring

theorem hexcone_wrap (s v : ℝ) : hexcone s v 6 = hexcone s v 0 := by
  rw [hexcone_sector s v 6 5 (by norm_num) (by norm_num) (by norm_num),
    hexcone_sector s v 0 0 (by norm_num) (by norm_num) (by norm_num)]
  simp only [sectorColor]; norm_num

private theorem clamp_lip (y z : ℝ) : |max 0 (min 1 y) - max 0 (min 1 z)| ≤ |y - z| := by
  have h1 := abs_max_sub_max_le_abs (min 1 y) (min 1 z) 0
  have h2 := abs_min_sub_min_le_max 1 y 1 z
  rw [sub_self, abs_zero, max_eq_right (abs_nonneg _)] at h2
  rw [max_comm 0, max_comm 0]
  exact h1.trans h2

private theorem clamp_le (y : ℝ) : |max 0 (min 1 y)| ≤ 1 := by
  rw [abs_of_nonneg (le_max_left _ _)]
  exact max_le zero_le_one (min_le_left _ _)

private theorem chan_lip {s s' v y z : ℝ} (hv : 0 ≤ v) (hs : 0 ≤ s) (h1 : s ≤ 1) :
    |v - v * s' * max 0 (min 1 y) - (v - v * s * max 0 (min 1 z))| ≤ v * (|s' - s| + |y - z|) := by
  have e : v - v * s' * max 0 (min 1 y) - (v - v * s * max 0 (min 1 z)) =
      -(v * ((s' - s) * max 0 (min 1 y) + s * (max 0 (min 1 y) - max 0 (min 1 z)))) := by ring
  rw [e, abs_neg, abs_mul, abs_of_nonneg hv]
  refine mul_le_mul_of_nonneg_left ((abs_add_le _ _).trans ?_) hv
  rw [abs_mul, abs_mul]
  refine add_le_add (mul_le_of_le_one_right (abs_nonneg _) (clamp_le y)) ?_
  rw [abs_of_nonneg hs]
  exact (mul_le_of_le_one_left (abs_nonneg _) h1).trans (clamp_lip y z)

/-- the hexagonal cone is flat: it moves no faster than saturation and hue together -/
theorem hexcone_lip {s s' v x y : ℝ} (hv : 0 ≤ v) (hs : 0 ≤ s) (h1 : s ≤ 1) :
    |(hexcone s' v x).r - (hexcone s v y).r| ≤ v * (|s' - s| + |x - y|) ∧
    |(hexcone s' v x).g - (hexcone s v y).g| ≤ v * (|s' - s| + |x - y|) ∧
    |(hexcone s' v x).b - (hexcone s v y).b| ≤ v * (|s' - s| + |x - y|) := by
  have k : ∀ c : ℝ, |(|x - c| - |y - c|)| ≤ |x - y| := fun c => by
    have := abs_abs_sub_abs_le_abs_sub (x - c) (y - c); rwa [sub_sub_sub_cancel_right] at this
  refine ⟨(chan_lip hv hs h1).trans ?_, (chan_lip hv hs h1).trans ?_, (chan_lip hv hs h1).trans ?_⟩ <;>
    refine mul_le_mul_of_nonneg_left (add_le_add le_rfl ?_) hv
  · rw [show 2 - |x - 3| - (2 - |y - 3|) = -(|x - 3| - |y - 3|) by ring, abs_neg]; exact k 3
  · rw [sub_sub_sub_cancel_right]; exact k 2
  · rw [sub_sub_sub_cancel_right]; exact k 4

/-! ## From hue to colour -/

private theorem lits (p : ℕ) (hp : 12 ≤ p) : (6 : Fl ℝ (rne p)) = .num 6 ∧ (60 : Fl ℝ (rne p)) = .num 60 ∧
    (2 : Fl ℝ (rne p)) = .num 2 ∧ (4 : Fl ℝ (rne p)) = .num 4 ∧ (∀ n : ℕ, n ≤ 360 → Rep p (n : ℝ)) := by
  have k : ∀ n : ℕ, n ≤ 360 → Rep p (n : ℝ) := fun n hn => Rep.nat n
    ((hn.trans (by norm_num)).trans (Nat.pow_le_pow_right (n := 2) (by norm_num) hp))
  have l : ∀ (n : ℕ) [n.AtLeastTwo], n ≤ 360 → (OfNat.ofNat n : Fl ℝ (rne p)) = .num (n : ℝ) := fun n _ hn => by
    rw [Fl.ofNat_def]; exact congrArg Fl.num (rne_of_rep (by omega) (k n hn))
  exact ⟨by simpa using l 6 (by norm_num), by simpa using l 60 (by norm_num), by simpa using l 2 (by norm_num),
    by simpa using l 4 (by norm_num), k⟩

private theorem u_small (p : ℕ) (hp : 12 ≤ p) : (2 : ℝ) ^ (-(p : ℤ)) ≤ 1 / 4096 := by
  rw [show (1 / 4096 : ℝ) = 2 ^ (-12 : ℤ) by norm_num]
  exact zpow_le_zpow_right₀ one_le_two (by omega)

/-- The number of the sector and the place in it, for hues of one turn. -/
private theorem hue_reduce (p : ℕ) (hp : 12 ≤ p) (h : ℝ) (h0 : 0 ≤ h) (h1 : h ≤ 360) :
    ∃ z, fmodPositive (.num h / 60 : Fl ℝ (rne p)) 6 = .ok (.num z) ∧ 0 ≤ z ∧ z < 6 ∧ Rep p z ∧
      ∀ s v, ∃ x, hexcone s v z = hexcone s v x ∧ |x - h / 60| ≤ 6 * (2 : ℝ) ^ (-(p : ℤ)) := by
  obtain ⟨l6, l60, -, -, k⟩ := lits p hp
  have hp1 : 1 ≤ p := by omega
  have r6 : Rep p (6 : ℝ) := by exact_mod_cast k 6 (by norm_num)
  have hq := rep_rne p hp1 (h / 60)
  have q0 : 0 ≤ rne p (h / 60) := by
    have := rne_mono p hp1 (show (0 : ℝ) ≤ h / 60 by positivity); rwa [rne_zero] at this
  have q6 : rne p (h / 60) ≤ 6 := by
    have := rne_mono p hp1 (show h / 60 ≤ 6 by linarith); rwa [rne_of_rep hp1 r6] at this
  have qe : |rne p (h / 60) - h / 60| ≤ 6 * (2 : ℝ) ^ (-(p : ℤ)) := by
    rw [abs_sub_comm]
    refine (rne_rel p _).trans (mul_le_mul_of_nonneg_right ?_ (zpow2_pos _).le)
    rw [abs_of_nonneg (by positivity)]; linarith
  rw [l60, l6, Fl.num_div, if_neg (by norm_num)]
  set q := rne p (h / 60)
  rw [fmodPositive_rounded p hp1 q 6 hq r6 (by norm_num)]
  obtain ⟨hpos, -, -⟩ := fmodR_spec q 6 (by norm_num)
  rw [if_pos (hpos q0).1]
  refine ⟨_, rfl, (hpos q0).1, (hpos q0).2, fmodR_rep hq r6 (by norm_num), fun s v => ⟨q, ?_, qe⟩⟩
  rcases q6.lt_or_eq with hlt | heq
  · have : truncR (q / 6) = 0 := by
      have := truncR_eq (q / 6) 0 (by push_cast; positivity) (by push_cast; linarith)
      simpa using this
    unfold fmodR; rw [this]; norm_num
  · have : truncR (q / 6) = 1 := by
      have := truncR_eq (q / 6) 1 (by rw [heq]; norm_num) (by rw [heq]; norm_num)
      simpa using this
    unfold fmodR; rw [this, heq, hexcone_wrap]; norm_num

private theorem chan1 {p : ℕ} (hp : 12 ≤ p) {v : ℝ} (hv : 0 ≤ v) {A : Fl ℝ (rne p)} {a e : ℝ}
    (ha : Apx (2 ^ (-(p : ℤ))) A a e 1) (he : e ≤ 4.1) :
    (.num v * A : Fl ℝ (rne p)).Within (5.2 * 2 ^ (-(p : ℤ)) * v) (v * a) := by
  obtain ⟨w, rfl, h1, h2⟩ := ha
  have hr := isRel_rne p (by omega)
  have hu := u_small p hp
  rw [Fl.num_mul]
  refine ⟨_, rfl, ?_⟩
  set u : ℝ := 2 ^ (-(p : ℤ))
  have u0 : 0 ≤ u := hr.nonneg
  have h3 := hr.err (v * w)
  have h4 : |w - a| ≤ 4.1 * u := h1.trans (mul_le_mul_of_nonneg_right he u0)
  have h5 : |w| ≤ 1.1 := by
    have := abs_sub_abs_le_abs_sub w a
    linarith
  have h6 : |v * w| ≤ v * 1.1 := by rw [abs_mul, abs_of_nonneg hv]; exact mul_le_mul_of_nonneg_left h5 hv
  have h7 : |v * w - v * a| ≤ v * (4.1 * u) := by
    rw [← mul_sub, abs_mul, abs_of_nonneg hv]; exact mul_le_mul_of_nonneg_left h4 hv
  have h8 : |rne p (v * w) - v * a| ≤ |rne p (v * w) - v * w| + |v * w - v * a| := by
    have := abs_add_le (rne p (v * w) - v * w) (v * w - v * a); rwa [sub_add_sub_cancel] at this
  have h9 : u * |v * w| ≤ u * (v * 1.1) := mul_le_mul_of_nonneg_left h6 u0
  linarith

/-- The colour computed from a hue of one turn, a saturation in `[0,1]` and a value: within 12 units of the last place
of the value of the colour meant. -/
theorem C155_toRGB (p : ℕ) (hp : 12 ≤ p) (h s v : ℝ) (h0 : 0 ≤ h) (h1 : h ≤ 360) (hs : 0 ≤ s) (hs1 : s ≤ 1)
    (hv : 0 ≤ v) :
    ∃ c, (ColorHSV.mk (.num h) (.num s) (.num v) : ColorHSV (Fl ℝ (rne p))).toRGB = .ok c ∧
      c.Within (12 * 2 ^ (-(p : ℤ)) * v) (hexcone s v (h / 60)) := by
  obtain ⟨z, hz, z0, z6, zr, hx⟩ := hue_reduce p hp h h0 h1
  obtain ⟨x, ex, dx⟩ := hx s v
  have hr := isRel_rne p (by omega)
  have hu := u_small p hp
  obtain ⟨-, -, -, -, k⟩ := lits p hp
  obtain ⟨n, hn, g0, g1⟩ := exists_sector z z0 z6
  have hlip := hexcone_lip (s := s) (s' := s) (v := v) (x := x) (y := h / 60) hv hs hs1
  rw [← ex, hexcone_sector s v z n hn g0 g1.le, sub_self, abs_zero, zero_add] at hlip
  -- the three products
  have F : Apx (2 ^ (-(p : ℤ))) (.num z - .num (rne p (n : ℝ)) : Fl ℝ (rne p)) (z - n) 1 1 := by
    rw [rne_of_rep (by omega) (k n (by omega))]
    have M : ∀ y : ℝ, |y| ≤ 6 → Apx (2 ^ (-(p : ℤ))) (.num y : Fl ℝ (rne p)) y 0 6 := fun y hy => Apx.num hy
    refine (M z (by rw [abs_of_nonneg z0]; exact z6.le)).sub hr hu (M n ?_) ?_ (by norm_num)
    · rw [abs_of_nonneg (Nat.cast_nonneg n)]; exact g0.trans z6.le
    · rw [abs_of_nonneg (by linarith)]; linarith
  have S : Apx (2 ^ (-(p : ℤ))) (.num s : Fl ℝ (rne p)) s 0 1 := Apx.num (by rwa [abs_of_nonneg hs])
  have O : Apx (2 ^ (-(p : ℤ))) (1 : Fl ℝ (rne p)) 1 0 1 := Apx.num (by simp)
  have f0 : 0 ≤ z - n := by linarith
  have f1 : z - n ≤ 1 := by linarith
  have sf0 := mul_nonneg hs f0
  have sf1 : s * (z - n) ≤ 1 := mul_le_one₀ hs1 f0 f1
  have sg0 := mul_nonneg hs (sub_nonneg.2 f1)
  have sg1 : s * (1 - (z - n)) ≤ 1 := mul_le_one₀ hs1 (by linarith) (by linarith)
  have P1 := O.sub hr hu S (e := 1) (M := 1) (by rw [abs_of_nonneg (by linarith)]; linarith) (by norm_num)
  have P2 := O.sub hr hu (S.mul hr hu F (by norm_num) (e := 2.01) (M := 1)
    (by rwa [abs_of_nonneg sf0]) (by norm_num)) (e := 4.1) (M := 1) (by rw [abs_of_nonneg (by linarith)]; linarith)
    (by norm_num)
  have P3 := O.sub hr hu (S.mul hr hu (O.sub hr hu F (e := 2.01) (M := 1)
    (by rw [abs_of_nonneg (by linarith)]; linarith) (by norm_num)) (by norm_num) (e := 3.02) (M := 1)
    (by rwa [abs_of_nonneg sg0]) (by norm_num)) (e := 4.1) (M := 1) (by rw [abs_of_nonneg (by linarith)]; linarith)
    (by norm_num)
  have Q1 := chan1 hp hv P1 (by norm_num)
  have Q2 := chan1 hp hv P2 (by norm_num)
  have Q3 := chan1 hp hv P3 (by norm_num)
  have u0 : (0 : ℝ) ≤ 2 ^ (-(p : ℤ)) := hr.nonneg
  have vu := mul_nonneg hv u0
  have Q0 : (.num v : Fl ℝ (rne p)).Within (5.2 * 2 ^ (-(p : ℤ)) * v) v := by
    refine ⟨v, rfl, ?_⟩
    rw [sub_self, abs_zero]; nlinarith
  have comb : ∀ {a : Fl ℝ (rne p)} {y y' : ℝ}, a.Within (5.2 * 2 ^ (-(p : ℤ)) * v) y →
      |y - y'| ≤ v * |x - h / 60| → a.Within (12 * 2 ^ (-(p : ℤ)) * v) y' := by
    rintro a y y' ⟨w, rfl, hw⟩ hy
    refine ⟨w, rfl, ?_⟩
    have e1 := abs_add_le (w - y) (y - y')
    rw [sub_add_sub_cancel] at e1
    have e2 := mul_le_mul_of_nonneg_left dx hv
    nlinarith
  have hb : ((.num z : Fl ℝ (rne p)) == .num z) = true := by simp
  have ht := truncR_eq z n g0 g1
  have hm : mkInt (n : ℤ) = .ok (n : ℤ) := by
    unfold mkInt intMin intMax; rw [if_pos (by constructor <;> omega)]
  simp only [ColorHSV.toRGB, hz, bind, Except.bind, hb, if_true, Fl.fl_trunc, ht, hm, Int.toNat_natCast]
  clear hz hb ht hm ex dx k
  interval_cases n
  · exact ⟨_, rfl, comb Q0 hlip.1, comb Q3 hlip.2.1, comb Q1 hlip.2.2⟩
  · exact ⟨_, rfl, comb Q2 hlip.1, comb Q0 hlip.2.1, comb Q1 hlip.2.2⟩
  · exact ⟨_, rfl, comb Q1 hlip.1, comb Q0 hlip.2.1, comb Q3 hlip.2.2⟩
  · exact ⟨_, rfl, comb Q1 hlip.1, comb Q2 hlip.2.1, comb Q0 hlip.2.2⟩
  · exact ⟨_, rfl, comb Q3 hlip.1, comb Q1 hlip.2.1, comb Q0 hlip.2.2⟩
  · exact ⟨_, rfl, comb Q0 hlip.1, comb Q1 hlip.2.1, comb Q2 hlip.2.2⟩

/-! ## From colour to hue -/

private theorem low_num {rnd : ℝ → ℝ} (r g b : ℝ) :
    (ColorRGB.mk (.num r) (.num g) (.num b) : ColorRGB (Fl ℝ rnd)).low = .num (ColorRGB.mk r g b).low := by
  simp only [ColorRGB.low]
  split_ifs <;> simp_all

private theorem vee_num {rnd : ℝ → ℝ} (r g b : ℝ) :
    (ColorRGB.mk (.num r) (.num g) (.num b) : ColorRGB (Fl ℝ rnd)).vee = .num (ColorRGB.mk r g b).vee := by
  simp only [ColorRGB.vee]
  split_ifs <;> simp_all

private theorem gam3 {rnd : ℝ → ℝ} {u : ℝ} (hr : IsRel rnd u) (hu : u ≤ 1 / 4096) : gam u 3 ≤ 3.01 * u := by
  have h := gam_le hr.lt_one (n := 3) (by push_cast; linarith)
  push_cast at h
  have h0 := hr.nonneg
  refine h.trans ?_
  rw [div_le_iff₀ (by linarith)]
  nlinarith

private theorem gam2 {rnd : ℝ → ℝ} {u : ℝ} (hr : IsRel rnd u) (hu : u ≤ 1 / 4096) : gam u 2 ≤ 2.01 * u := by
  have h := gam_le hr.lt_one (n := 2) (by push_cast; linarith)
  push_cast at h
  have h0 := hr.nonneg
  refine h.trans ?_
  rw [div_le_iff₀ (by linarith)]
  nlinarith

/-- the hue is brought into one turn -/
private theorem hue_wrap (p : ℕ) (hp : 12 ≤ p) (a X : ℝ) (h1 : |a - X| ≤ 8.2 * 2 ^ (-(p : ℤ)))
    (h2 : X < 0 → |a - X| ≤ 3.1 * 2 ^ (-(p : ℤ))) (hs : a < 0 ↔ X < 0) (hX : -1 ≤ X) (hX5 : X ≤ 5) :
    ∃ y, (if (.num a : Fl ℝ (rne p)) < 0 then .num a + 6 else if (.num a : Fl ℝ (rne p)) ≥ 6 then .num a - 6
        else .num a : Fl ℝ (rne p)) = .num y ∧ 0 ≤ y ∧ y ≤ 6 ∧
      |y - (if X < 0 then X + 6 else if X ≥ 6 then X - 6 else X)| ≤ 9.2 * 2 ^ (-(p : ℤ)) := by
  obtain ⟨l6, -, -, -, k⟩ := lits p hp
  have hu := u_small p hp
  have hr := isRel_rne p (by omega)
  have u0 : (0 : ℝ) ≤ 2 ^ (-(p : ℤ)) := hr.nonneg
  have r6 : Rep p (6 : ℝ) := by exact_mod_cast k 6 (by norm_num)
  have a1 := abs_le.1 h1
  rw [l6, Fl.zero_def]
  by_cases hx : X < 0
  · have ha := hs.2 hx
    rw [if_pos ((Fl.num_lt _ _).2 ha), if_pos hx, Fl.num_add]
    have e1 := hr.err (a + 6)
    have e2 : |a + 6| ≤ 6 := by rw [abs_of_nonneg (by linarith)]; linarith
    have e3 := mul_le_mul_of_nonneg_left e2 u0
    refine ⟨_, rfl, ?_, ?_, ?_⟩
    · have := rne_mono p (by omega) (show (0 : ℝ) ≤ a + 6 by linarith); rwa [rne_zero] at this
    · have := rne_mono p (by omega) (show a + 6 ≤ 6 by linarith); rwa [rne_of_rep (by omega) r6] at this
    · have e4 := abs_add_le (rne p (a + 6) - (a + 6)) (a - X)
      rw [show rne p (a + 6) - (a + 6) + (a - X) = rne p (a + 6) - (X + 6) by ring] at e4
      have := h2 hx
      linarith
  · have ha : ¬ a < 0 := fun h => hx (hs.1 h)
    have ha6 : ¬ (6 : ℝ) ≤ a := by linarith
    rw [if_neg (by rwa [Fl.num_lt]), if_neg (by rwa [ge_iff_le, Fl.num_le]), if_neg hx,
      if_neg (by linarith)]
    exact ⟨a, rfl, by linarith, by linarith, h1.trans (mul_le_mul_of_nonneg_right (by norm_num) u0)⟩

private theorem toHSV_both (p : ℕ) (hp : 12 ≤ p) (r g b : ℝ) (hr0 : 0 ≤ r) (hg0 : 0 ≤ g) (hb0 : 0 ≤ b)
    (hr : Rep p r) (hg : Rep p g) (hb : Rep p b) :
    ∃ H S, (ColorRGB.mk (.num r) (.num g) (.num b) : ColorRGB (Fl ℝ (rne p))).toHSV =
        ⟨.num H, .num S, .num (max r (max g b))⟩ ∧
      0 ≤ H ∧ H ≤ 360 ∧ 0 ≤ S ∧ S ≤ 1 ∧
      |S - (ColorRGB.mk r g b).toHSV.s| ≤ 2.01 * 2 ^ (-(p : ℤ)) * (ColorRGB.mk r g b).toHSV.s ∧
      |H - (ColorRGB.mk r g b).toHSV.h| ≤ 920 * 2 ^ (-(p : ℤ)) ∧
      (0 ≤ (ColorRGB.mk r g b).toHSV.h ∧ (ColorRGB.mk r g b).toHSV.h < 360) ∧
      (0 ≤ (ColorRGB.mk r g b).toHSV.s ∧ (ColorRGB.mk r g b).toHSV.s ≤ 1) ∧
      (ColorRGB.mk r g b).toHSV.v = max r (max g b) := by
  obtain ⟨l6, l60, l2, l4, k⟩ := lits p hp
  have hu := u_small p hp
  have hrel := isRel_rne p (by omega)
  have u0 : (0 : ℝ) ≤ 2 ^ (-(p : ℤ)) := hrel.nonneg
  have g3 := gam3 hrel hu
  have g2 := gam2 hrel hu
  simp only [ColorRGB.toHSV, low_num, vee_num]
  have lo := ColorRGB.low_eq ⟨r, g, b⟩
  have ve := ColorRGB.vee_eq ⟨r, g, b⟩
  simp only at lo ve
  have m1 : r ≤ (ColorRGB.mk r g b).vee := ve ▸ le_max_left _ _
  have m2 : g ≤ (ColorRGB.mk r g b).vee := ve ▸ (le_max_left _ _).trans (le_max_right _ _)
  have m3 : b ≤ (ColorRGB.mk r g b).vee := ve ▸ (le_max_right _ _).trans (le_max_right _ _)
  have n1 : (ColorRGB.mk r g b).low ≤ r := lo ▸ min_le_left _ _
  have n2 : (ColorRGB.mk r g b).low ≤ g := lo ▸ (min_le_right _ _).trans (min_le_left _ _)
  have n3 : (ColorRGB.mk r g b).low ≤ b := lo ▸ (min_le_right _ _).trans (min_le_right _ _)
  have l0 : 0 ≤ (ColorRGB.mk r g b).low := lo ▸ le_min hr0 (le_min hg0 hb0)
  have mrep : Rep p (ColorRGB.mk r g b).vee := by
    rw [ve]; rcases max_choice r (max g b) with h | h <;> rw [h]
    · exact hr
    · rcases max_choice g b with h | h <;> rw [h] <;> assumption
  have mcase : (ColorRGB.mk r g b).vee = r ∨ (ColorRGB.mk r g b).vee = g ∨ (ColorRGB.mk r g b).vee = b := by
    rw [ve]; rcases max_choice r (max g b) with h | h <;> rw [h]
    · exact .inl rfl
    · rcases max_choice g b with h | h <;> rw [h]
      · exact .inr (.inl rfl)
      · exact .inr (.inr rfl)
  rw [← ve]
  generalize (ColorRGB.mk r g b).vee = m at *
  generalize (ColorRGB.mk r g b).low = l at *
  by_cases hlt : l < m
  swap
  · rw [if_neg (by rwa [gt_iff_lt, Fl.num_lt]), if_neg hlt]
    refine ⟨0, 0, rfl, le_rfl, by norm_num, le_rfl, zero_le_one, ?_, ?_, ⟨le_rfl, by norm_num⟩, ⟨le_rfl, zero_le_one⟩, rfl⟩
    · simp
    · simp only [sub_self, abs_zero]; positivity
  rw [if_pos (by rwa [gt_iff_lt, Fl.num_lt]), if_pos hlt]
  have d0 : 0 < m - l := by linarith
  have mpos : 0 < m := by linarith
  -- saturation
  have D : Rel (2 ^ (-(p : ℤ))) 1 (m - l) (.num m - .num l : Fl ℝ (rne p)) := Rel.sub hrel m l
  obtain ⟨S, eS, hS⟩ := (D.div hrel (Rel.exact hrel m) mpos.ne' (k := 2)).error hrel
  have S01 : 0 ≤ S ∧ S ≤ 1 := by
    rw [Fl.num_sub, Fl.num_div, if_neg mpos.ne'] at eS
    have e : rne p (rne p (m - l) / m) = S := by injection eS
    rw [← e]
    have q0 : 0 ≤ rne p (m - l) := by
      have := rne_mono p (by omega) (show (0 : ℝ) ≤ m - l by linarith); rwa [rne_zero] at this
    have q1 : rne p (m - l) ≤ m := by
      have := rne_mono p (by omega) (show m - l ≤ m by linarith); rwa [rne_of_rep (by omega) mrep] at this
    constructor
    · have := rne_mono p (by omega) (show (0 : ℝ) ≤ rne p (m - l) / m by positivity); rwa [rne_zero] at this
    · have := rne_mono p (by omega) (show rne p (m - l) / m ≤ 1 from (div_le_one mpos).2 q1)
      rwa [rne_of_rep (by omega) (show Rep p (1 : ℝ) by exact_mod_cast k 1 (by norm_num))] at this
  rw [eS]
  -- the fraction of the sector
  have frac : ∀ x y : ℝ, |x - y| ≤ m - l → ∃ t, ((.num x - .num y) / (.num m - .num l) : Fl ℝ (rne p)) = .num t ∧
      |t - (x - y) / (m - l)| ≤ 3.01 * 2 ^ (-(p : ℤ)) ∧ (t < 0 ↔ (x - y) / (m - l) < 0) ∧
      |(x - y) / (m - l)| ≤ 1 := by
    intro x y hxy
    obtain ⟨θ, hθ, e⟩ := (Rel.sub hrel x y).div hrel D d0.ne' (k := 3)
    have hθ0 := hθ.pos hrel.lt_one
    have h1 : |(x - y) / (m - l)| ≤ 1 := by
      rw [abs_div, abs_of_pos d0]; exact (div_le_one d0).2 hxy
    refine ⟨_, e, ?_, ?_, h1⟩
    · rw [show (x - y) / (m - l) * θ - (x - y) / (m - l) = (θ - 1) * ((x - y) / (m - l)) by ring, abs_mul]
      have := mul_le_mul (hθ.abs_sub_one hrel.lt_one) h1 (abs_nonneg _)
        ((abs_nonneg _).trans (hθ.abs_sub_one hrel.lt_one))
      linarith
    · constructor
      · intro h; by_contra hc; exact absurd (mul_nonneg (not_lt.1 hc) hθ0.le) (not_le.2 h)
      · intro h; exact mul_neg_of_neg_of_pos h hθ0
  -- the hue before it is wrapped
  have hue : ∃ a, (if (.num m : Fl ℝ (rne p)) == .num r then (.num g - .num b) / (.num m - .num l)
        else if (.num m : Fl ℝ (rne p)) == .num g then 2 + (.num b - .num r) / (.num m - .num l)
        else if (.num m : Fl ℝ (rne p)) == .num b then 4 + (.num r - .num g) / (.num m - .num l) else 0 :
          Fl ℝ (rne p)) = .num a ∧
      ∃ X, (if (m == r) = true then (g - b) / (m - l) else if (m == g) = true then 2 + (b - r) / (m - l)
        else if (m == b) = true then 4 + (r - g) / (m - l) else 0) = X ∧
      |a - X| ≤ 8.2 * 2 ^ (-(p : ℤ)) ∧ (X < 0 → |a - X| ≤ 3.1 * 2 ^ (-(p : ℤ))) ∧ (a < 0 ↔ X < 0) ∧ -1 ≤ X ∧ X ≤ 5 := by
    have sh : ∀ (c t T : ℝ), (c = 2 ∨ c = 4) → |t - T| ≤ 3.01 * 2 ^ (-(p : ℤ)) → |T| ≤ 1 →
        |rne p (c + t) - (c + T)| ≤ 8.2 * 2 ^ (-(p : ℤ)) ∧ ((c + T) < 0 → |rne p (c + t) - (c + T)| ≤ 3.1 * 2 ^ (-(p : ℤ))) ∧
        (rne p (c + t) < 0 ↔ c + T < 0) ∧ -1 ≤ c + T ∧ c + T ≤ 5 := by
      intro c t T hc h1 h2
      have c2 : 2 ≤ c ∧ c ≤ 4 := by rcases hc with rfl | rfl <;> norm_num
      have b1 := abs_le.1 h1
      have b2 := abs_le.1 h2
      have e1 := hrel.err (c + t)
      have e2 : |c + t| ≤ 5.01 := by rw [abs_of_nonneg (by linarith)]; linarith
      have e3 := mul_le_mul_of_nonneg_left e2 u0
      have e4 := abs_add_le (rne p (c + t) - (c + t)) (t - T)
      rw [show rne p (c + t) - (c + t) + (t - T) = rne p (c + t) - (c + T) by ring] at e4
      have pos : 0 < c + T := by linarith
      have pos' : 0 ≤ rne p (c + t) := by
        have := rne_mono p (by omega) (show (0 : ℝ) ≤ c + t by linarith); rwa [rne_zero] at this
      exact ⟨by linarith, fun h => absurd h pos.not_gt, ⟨fun h => absurd h pos'.not_gt, fun h => absurd h pos.not_gt⟩,
        by linarith, by linarith⟩
    simp only [Fl.num_beq, decide_eq_true_eq, beq_iff_eq]
    by_cases c1 : m = r
    · rw [if_pos c1, if_pos c1]
      obtain ⟨t, et, h1, h2, h3⟩ := frac g b (abs_le.2 ⟨by linarith, by linarith⟩)
      have b3 := abs_le.1 h3
      exact ⟨t, et, _, rfl, by linarith, fun _ => by linarith, h2, b3.1, by linarith⟩
    rw [if_neg c1, if_neg c1]
    by_cases c2 : m = g
    · rw [if_pos c2, if_pos c2]
      obtain ⟨t, et, h1, h2, h3⟩ := frac b r (abs_le.2 ⟨by linarith, by linarith⟩)
      rw [et, l2, Fl.num_add]
      exact ⟨_, rfl, _, rfl, sh 2 t _ (.inl rfl) h1 h3⟩
    rw [if_neg c2, if_neg c2]
    have c3 : m = b := (mcase.resolve_left c1).resolve_left c2
    rw [if_pos c3, if_pos c3]
    obtain ⟨t, et, h1, h2, h3⟩ := frac r g (abs_le.2 ⟨by linarith, by linarith⟩)
    rw [et, l4, Fl.num_add]
    exact ⟨_, rfl, _, rfl, sh 4 t _ (.inr rfl) h1 h3⟩
  obtain ⟨a, ea, X, eX, w1, w2, w3, w4, w5⟩ := hue
  rw [ea, eX]
  obtain ⟨y, ey, y0, y6, hy⟩ := hue_wrap p hp a X w1 w2 w3 w4 w5
  rw [ey, l60, Fl.num_mul]
  refine ⟨_, S, rfl, ?_, ?_, S01.1, S01.2, ?_, ?_, ?_, ⟨by positivity, (div_le_one mpos).2 (by linarith)⟩, rfl⟩
  · have := rne_mono p (by omega) (show (0 : ℝ) ≤ y * 60 by positivity); rwa [rne_zero] at this
  · have := rne_mono p (by omega) (show y * 60 ≤ 360 by linarith)
    rwa [rne_of_rep (by omega) (show Rep p (360 : ℝ) by exact_mod_cast k 360 le_rfl)] at this
  · rw [abs_of_pos (by positivity : 0 < (m - l) / m)] at hS
    exact hS.trans (mul_le_mul_of_nonneg_right g2 (by positivity))
  · have e1 := hrel.err (y * 60)
    have e2 : |y * 60| ≤ 360 := by rw [abs_of_nonneg (by positivity)]; linarith
    have e3 := mul_le_mul_of_nonneg_left e2 u0
    generalize (if X < 0 then X + 6 else if X ≥ 6 then X - 6 else X) = Y at *
    have e4 := abs_add_le (rne p (y * 60) - y * 60) ((y - Y) * 60)
    rw [show rne p (y * 60) - y * 60 + (y - Y) * 60 = rne p (y * 60) - Y * 60 by ring, abs_mul, abs_of_pos
      (by norm_num : (0 : ℝ) < 60)] at e4
    linarith
  · split_ifs <;> constructor <;> linarith

/-- Hue, saturation and value of a colour with non-negative channels: the value is exact, the saturation has two
rounding errors, and the hue is off by at most 920 units of rounding (in degrees, of a full turn of 360). -/
theorem C155_toHSV (p : ℕ) (hp : 12 ≤ p) (r g b : ℝ) (hr0 : 0 ≤ r) (hg0 : 0 ≤ g) (hb0 : 0 ≤ b)
    (hr : Rep p r) (hg : Rep p g) (hb : Rep p b) :
    ∃ H S, (ColorRGB.mk (.num r) (.num g) (.num b) : ColorRGB (Fl ℝ (rne p))).toHSV =
        ⟨.num H, .num S, .num (max r (max g b))⟩ ∧
      0 ≤ H ∧ H ≤ 360 ∧ 0 ≤ S ∧ S ≤ 1 ∧
      |S - (ColorRGB.mk r g b).toHSV.s| ≤ 2.01 * 2 ^ (-(p : ℤ)) * (ColorRGB.mk r g b).toHSV.s ∧
      |H - (ColorRGB.mk r g b).toHSV.h| ≤ 920 * 2 ^ (-(p : ℤ)) := by
  obtain ⟨H, S, h1, h2, h3, h4, h5, h6, h7, -⟩ := toHSV_both p hp r g b hr0 hg0 hb0 hr hg hb
  exact ⟨H, S, h1, h2, h3, h4, h5, h6, h7⟩

/-! ## There and back -/

/-- C155: a colour with non-negative channels, converted to hue, saturation and value and back, comes back within 30
units of rounding of its largest channel. -/
theorem C155_roundtrip (p : ℕ) (hp : 12 ≤ p) (r g b : ℝ) (hr0 : 0 ≤ r) (hg0 : 0 ≤ g) (hb0 : 0 ≤ b)
    (hr : Rep p r) (hg : Rep p g) (hb : Rep p b) :
    ∃ c, (ColorRGB.mk (.num r) (.num g) (.num b) : ColorRGB (Fl ℝ (rne p))).toHSV.toRGB = .ok c ∧
      c.Within (30 * 2 ^ (-(p : ℤ)) * max r (max g b)) ⟨r, g, b⟩ := by
  obtain ⟨H, S, h1, h2, h3, h4, h5, h6, h7, h8, h9, h10⟩ := toHSV_both p hp r g b hr0 hg0 hb0 hr hg hb
  rw [h1]
  have v0 : 0 ≤ max r (max g b) := hr0.trans (le_max_left _ _)
  have u0 : (0 : ℝ) ≤ 2 ^ (-(p : ℤ)) := (zpow2_pos _).le
  obtain ⟨c, hc, w1, w2, w3⟩ := C155_toRGB p hp H S _ h2 h3 h4 h5 v0
  refine ⟨c, hc, ?_⟩
  have back := C96_roundtrip ⟨r, g, b⟩ hr0 hg0 hb0
  generalize (ColorRGB.mk r g b).toHSV = e at *
  obtain ⟨h, s, v⟩ := e
  simp only at h6 h7 h8 h9 h10 back
  obtain ⟨n, hn, n0, n1⟩ := exists_sector (h / 60) (by linarith) (by linarith)
  have back' := toRGB_hue s v (h / 60) n hn n0 n1
  rw [div_mul_cancel₀ _ (by norm_num : (60 : ℝ) ≠ 0), back, ← hexcone_sector s v _ n hn n0 n1.le] at back'
  have back'' : (⟨r, g, b⟩ : ColorRGB ℝ) = hexcone s v (h / 60) := by injection back'
  subst h10
  rw [back'']
  have lip := hexcone_lip (s' := S) (x := H / 60) (y := h / 60) v0 h9.1 h9.2
  have d1 : |S - s| ≤ 2.01 * 2 ^ (-(p : ℤ)) := h6.trans (by nlinarith [h9.1, h9.2])
  have d2 : |H / 60 - h / 60| ≤ 15.5 * 2 ^ (-(p : ℤ)) := by
    rw [← sub_div, abs_div, abs_of_pos (by norm_num : (0 : ℝ) < 60), div_le_iff₀ (by norm_num)]
    linarith
  have d3 := mul_le_mul_of_nonneg_left (add_le_add d1 d2) v0
  have vu := mul_nonneg u0 v0
  have comb : ∀ {a : Fl ℝ (rne p)} {y y' : ℝ}, a.Within (12 * 2 ^ (-(p : ℤ)) * max r (max g b)) y →
      |y - y'| ≤ max r (max g b) * (|S - s| + |H / 60 - h / 60|) →
      a.Within (30 * 2 ^ (-(p : ℤ)) * max r (max g b)) y' := by
    rintro a y y' ⟨w, rfl, hw⟩ hy
    refine ⟨w, rfl, ?_⟩
    have e1 := abs_add_le (w - y) (y - y')
    rw [sub_add_sub_cancel] at e1
    linarith
  exact ⟨comb w1 lip.1, comb w2 lip.2.1, comb w3 lip.2.2⟩

/-- What is kept exactly: for hues of any size, the largest channel of the computed colour is the value and the
smallest is the value times one minus the saturation, rounded twice. -/
theorem C155_range (p : ℕ) (hp : 12 ≤ p) (h s v : ℝ) (hs : 0 ≤ s) (hv : 0 ≤ v) (rs : Rep p s)
    (rv : Rep p v) (c : ColorRGB (Fl ℝ (rne p)))
    (hc : (ColorHSV.mk (.num h) (.num s) (.num v) : ColorHSV (Fl ℝ (rne p))).toRGB = .ok c) :
    ∃ r g b, c = ⟨.num r, .num g, .num b⟩ ∧ max r (max g b) = v ∧ min r (min g b) = rne p (v * rne p (1 - s)) := by
  obtain ⟨l6, l60, -, -, k⟩ := lits p hp
  have hp1 : 1 ≤ p := by omega
  have r6 : Rep p (6 : ℝ) := by exact_mod_cast k 6 (by norm_num)
  have r1 : Rep p (1 : ℝ) := by exact_mod_cast k 1 (by norm_num)
  obtain ⟨z, hz, z0, z6, -⟩ := C101_partial p hp1 (rne p (h / 60)) 6 (rep_rne p hp1 _) r6 (by norm_num)
  have hd : (.num h / 60 : Fl ℝ (rne p)) = .num (rne p (h / 60)) := by
    rw [l60, Fl.num_div, if_neg (by norm_num)]
  rw [← hd, ← l6] at hz
  have z6' : z < 6 := by
    refine lt_of_le_of_ne z6 fun e => ?_
    rw [(toRGB_num ⟨.num h, .num s, .num v⟩ z hz z0).2 e] at hc
    cases hc
  obtain ⟨n, hn, g0, g1⟩ := exists_sector z z0 z6'
  have hb : ((.num z : Fl ℝ (rne p)) == .num z) = true := by simp
  have ht := truncR_eq z n g0 g1
  have hm : mkInt (n : ℤ) = .ok (n : ℤ) := by
    unfold mkInt intMin intMax; rw [if_pos (by constructor <;> omega)]
  have key : ∀ t : ℝ, 0 ≤ t → t ≤ 1 → rne p (v * rne p (1 - s)) ≤ rne p (v * rne p (1 - rne p (s * t))) ∧
      rne p (v * rne p (1 - rne p (s * t))) ≤ v := by
    intro t h0 h1
    have a1 : rne p (s * t) ≤ s := by
      have := rne_mono p hp1 (mul_le_of_le_one_right hs h1); rwa [rne_of_rep hp1 rs] at this
    have a0 : 0 ≤ rne p (s * t) := by
      have := rne_mono p hp1 (mul_nonneg hs h0); rwa [rne_zero] at this
    refine ⟨rne_mono p hp1 (mul_le_mul_of_nonneg_left (rne_mono p hp1 (by linarith)) hv), ?_⟩
    have a2 : rne p (1 - rne p (s * t)) ≤ 1 := by
      have := rne_mono p hp1 (show 1 - rne p (s * t) ≤ 1 by linarith); rwa [rne_of_rep hp1 r1] at this
    have := rne_mono p hp1 (mul_le_of_le_one_right hv a2)
    rwa [rne_of_rep hp1 rv] at this
  have f01 : 0 ≤ rne p (z - n) ∧ rne p (z - n) ≤ 1 := by
    constructor
    · have := rne_mono p hp1 (show 0 ≤ z - n by linarith); rwa [rne_zero] at this
    · have := rne_mono p hp1 (show z - n ≤ 1 by linarith); rwa [rne_of_rep hp1 r1] at this
  have f02 : 0 ≤ rne p (1 - rne p (z - n)) ∧ rne p (1 - rne p (z - n)) ≤ 1 := by
    constructor
    · have := rne_mono p hp1 (show 0 ≤ 1 - rne p (z - n) by linarith); rwa [rne_zero] at this
    · have := rne_mono p hp1 (show 1 - rne p (z - n) ≤ 1 by linarith); rwa [rne_of_rep hp1 r1] at this
  obtain ⟨k1, k2⟩ := key _ f01.1 f01.2
  obtain ⟨k3, k4⟩ := key _ f02.1 f02.2
  have nn : ((n : ℕ) : Fl ℝ (rne p)) = .num (n : ℝ) := by
    show Fl.num (rne p (n : ℝ)) = _
    rw [rne_of_rep hp1 (k n (by omega))]
  simp only [ColorHSV.toRGB, hz, bind, Except.bind, hb, if_true, Fl.fl_trunc, ht, hm, Int.toNat_natCast, nn,
    Fl.one_def, Fl.num_sub, Fl.num_mul] at hc
  generalize rne p (v * rne p (1 - rne p (s * rne p (z - n)))) = P2 at *
  generalize rne p (v * rne p (1 - rne p (s * rne p (1 - rne p (z - n))))) = P3 at *
  generalize rne p (v * rne p (1 - s)) = P1 at *
  clear hz hb ht hm k key nn f01 f02
  have out : ∀ {a b c : ℝ}, (v = a ∨ v = b ∨ v = c) → (P1 = a ∨ P1 = b ∨ P1 = c) → P1 ≤ a → P1 ≤ b → P1 ≤ c →
      a ≤ v → b ≤ v → c ≤ v → max a (max b c) = v ∧ min a (min b c) = P1 := by
    intro a b c h1 h2 a1 b1 c1 a2 b2 c2
    constructor
    · refine le_antisymm (max_le a2 (max_le b2 c2)) ?_
      rcases h1 with h | h | h
      · exact h.le.trans (le_max_left _ _)
      · exact h.le.trans ((le_max_left _ _).trans (le_max_right _ _))
      · exact h.le.trans ((le_max_right _ _).trans (le_max_right _ _))
    · refine le_antisymm ?_ (le_min a1 (le_min b1 c1))
      rcases h2 with h | h | h
      · exact (min_le_left _ _).trans h.ge
      · exact ((min_le_right _ _).trans (min_le_left _ _)).trans h.ge
      · exact ((min_le_right _ _).trans (min_le_right _ _)).trans h.ge
  interval_cases n <;> simp at hc <;> subst hc <;> refine ⟨_, _, _, rfl, ?_⟩ <;>
    exact out (by simp) (by simp) (by linarith) (by linarith) (by linarith) (by linarith) (by linarith) (by linarith)

private theorem sat_eq {rnd : ℝ → ℝ} (c : ColorRGB (Fl ℝ rnd)) :
    c.toHSV.s = if c.vee > c.low then (c.vee - c.low) / c.vee else 0 := by
  unfold ColorRGB.toHSV
  by_cases h : c.vee > c.low
  · simp only [if_pos h]
  · simp only [if_neg h]

/-- There and back, the largest channel keeps its size exactly, and so does a smallest channel of 0. -/
theorem C155_extremes (p : ℕ) (hp : 12 ≤ p) (r g b : ℝ) (hr0 : 0 ≤ r) (hg0 : 0 ≤ g) (hb0 : 0 ≤ b)
    (hr : Rep p r) (hg : Rep p g) (hb : Rep p b) :
    ∃ r' g' b', (ColorRGB.mk (.num r) (.num g) (.num b) : ColorRGB (Fl ℝ (rne p))).toHSV.toRGB =
        .ok ⟨.num r', .num g', .num b'⟩ ∧ max r' (max g' b') = max r (max g b) ∧ 0 ≤ min r' (min g' b') ∧
      (min r (min g b) = 0 → min r' (min g' b') = 0) := by
  have hp1 : 1 ≤ p := by omega
  obtain ⟨H, S, h1, h2, h3, h4, h5, h6, h7⟩ := C155_toHSV p hp r g b hr0 hg0 hb0 hr hg hb
  have v0 : 0 ≤ max r (max g b) := hr0.trans (le_max_left _ _)
  obtain ⟨c, hc, -⟩ := C155_toRGB p hp H S _ h2 h3 h4 h5 v0
  have mrep : Rep p (max r (max g b)) := by
    rcases max_choice r (max g b) with h | h <;> rw [h]
    · exact hr
    · rcases max_choice g b with h | h <;> rw [h] <;> assumption
  have k := (lits p hp).2.2.2.2
  have r1 : Rep p (1 : ℝ) := by exact_mod_cast k 1 (by norm_num)
  have hS : Rep p S ∧ (min r (min g b) = 0 → S = 1 ∨ max r (max g b) = 0) := by
    have e : (ColorRGB.mk (.num r) (.num g) (.num b) : ColorRGB (Fl ℝ (rne p))).toHSV.s = .num S := by rw [h1]
    simp only [sat_eq, low_num, vee_num, ColorRGB.low_eq, ColorRGB.vee_eq] at e
    split_ifs at e with hlt
    · rw [gt_iff_lt, Fl.num_lt] at hlt
      have m0 : 0 < max r (max g b) := (le_min hr0 (le_min hg0 hb0)).trans_lt hlt
      rw [Fl.num_sub, Fl.num_div, if_neg m0.ne'] at e
      have e' : rne p (rne p (max r (max g b) - min r (min g b)) / max r (max g b)) = S := by injection e
      refine ⟨e' ▸ rep_rne p hp1 _, fun hl => .inl ?_⟩
      rw [← e', hl, sub_zero, rne_of_rep hp1 mrep, div_self m0.ne', rne_of_rep hp1 r1]
    · rw [gt_iff_lt, Fl.num_lt, not_lt] at hlt
      have e' : 0 = S := by injection e
      refine ⟨e' ▸ by exact_mod_cast k 0 (by norm_num), fun hl => .inr (le_antisymm (hl ▸ hlt) v0)⟩
  obtain ⟨r', g', b', rfl, w1, w2⟩ := C155_range p hp H S _ h4 v0 hS.1 mrep c hc
  refine ⟨r', g', b', h1 ▸ hc, w1, ?_, fun hl => ?_⟩
  · rw [w2]
    have a0 := rne_mono p hp1 (show 0 ≤ 1 - S by linarith)
    rw [rne_zero] at a0
    have := rne_mono p hp1 (mul_nonneg v0 a0)
    rwa [rne_zero] at this
  · rw [w2]
    rcases hS.2 hl with h | h
    · rw [h, sub_self, rne_zero, mul_zero, rne_zero]
    · rw [h, zero_mul, rne_zero]

/-- Greys come back exactly. -/
theorem C155_grey (p : ℕ) (hp : 12 ≤ p) (x : ℝ) (hx : Rep p x) :
    (ColorRGB.mk (.num x) (.num x) (.num x) : ColorRGB (Fl ℝ (rne p))).toHSV.toRGB =
      .ok ⟨.num x, .num x, .num x⟩ := by
  obtain ⟨l6, l60, -, -, k⟩ := lits p hp
  have hp1 : 1 ≤ p := by omega
  have r6 : Rep p (6 : ℝ) := by exact_mod_cast k 6 (by norm_num)
  have r1 : Rep p (1 : ℝ) := by exact_mod_cast k 1 (by norm_num)
  have r0 : Rep p (0 : ℝ) := by exact_mod_cast k 0 (by norm_num)
  have hsv : (ColorRGB.mk (.num x) (.num x) (.num x) : ColorRGB (Fl ℝ (rne p))).toHSV = ⟨0, 0, .num x⟩ := by
    simp [ColorRGB.toHSV, ColorRGB.low, ColorRGB.vee]
  have ht := truncR_eq 0 0 (by norm_num) (by norm_num)
  have hz : fmodPositive (.num 0 / 60 : Fl ℝ (rne p)) 6 = .ok (.num 0) := by
    rw [l60, l6, Fl.num_div, if_neg (by norm_num), zero_div, rne_zero,
      fmodPositive_rounded p hp1 0 6 r0 r6 (by norm_num)]
    simp [fmodR, show truncR 0 = 0 by simpa using ht]
  have hb : ((.num 0 : Fl ℝ (rne p)) == .num 0) = true := by simp
  have hm : mkInt ((0 : ℕ) : ℤ) = .ok ((0 : ℕ) : ℤ) := rfl
  have n0 : ((0 : ℕ) : Fl ℝ (rne p)) = .num 0 := by
    show Fl.num (rne p ((0 : ℕ) : ℝ)) = _
    rw [Nat.cast_zero, rne_zero]
  rw [hsv]
  simp only [ColorHSV.toRGB, hz, bind, Except.bind, hb, if_true, Fl.fl_trunc, ht, hm, Int.toNat_natCast, n0,
    Fl.one_def, Fl.zero_def, Fl.num_sub, Fl.num_mul, sub_zero, zero_mul, rne_zero, rne_of_rep hp1 r1, mul_one,
    rne_of_rep hp1 hx]
  simp

/-- A colour given by bytes comes back nearer to those bytes than to any others (from 14 bits of precision on, so for
`float` and `double`). -/
theorem C155_bytes (p : ℕ) (hp : 14 ≤ p) (r g b : ℕ) (hr : r ≤ 255) (hg : g ≤ 255) (hb : b ≤ 255) :
    ∃ x y z, (ColorRGB.ofInts (fun n : ℤ => (.num n : Fl ℝ (rne p))) r g b).toHSV.toRGB =
        .ok ⟨.num x, .num y, .num z⟩ ∧
      |255 * x - r| < 1 / 2 ∧ |255 * y - g| < 1 / 2 ∧ |255 * z - b| < 1 / 2 := by
  have hp1 : 1 ≤ p := by omega
  obtain ⟨-, -, -, -, k⟩ := lits p (by omega)
  have r1 : Rep p (1 : ℝ) := by exact_mod_cast k 1 (by norm_num)
  have l255 : (255 : Fl ℝ (rne p)) = .num 255 := by
    rw [Fl.ofNat_def]
    have := rne_of_rep hp1 (k 255 (by norm_num))
    push_cast at this ⊢
    rw [this]
  have one : ∀ n : ℕ, n ≤ 255 → 0 ≤ rne p ((n : ℝ) / 255) ∧ rne p ((n : ℝ) / 255) ≤ 1 ∧
      |rne p ((n : ℝ) / 255) - n / 255| ≤ 2 ^ (-(p : ℤ)) := by
    intro n hn
    have hn' : (n : ℝ) ≤ 255 := by exact_mod_cast hn
    have q0 : 0 ≤ (n : ℝ) / 255 := by positivity
    have q1 : (n : ℝ) / 255 ≤ 1 := by linarith
    refine ⟨?_, ?_, ?_⟩
    · have := rne_mono p hp1 q0; rwa [rne_zero] at this
    · have := rne_mono p hp1 q1; rwa [rne_of_rep hp1 r1] at this
    · rw [abs_sub_comm]
      refine (rne_rel p _).trans (mul_le_of_le_one_left (zpow2_pos _).le ?_)
      rwa [abs_of_nonneg q0]
  obtain ⟨r0, r1', re⟩ := one r hr
  obtain ⟨g0, g1, ge⟩ := one g hg
  obtain ⟨b0, b1, be⟩ := one b hb
  obtain ⟨c, hc, ⟨x, hx, ex⟩, ⟨y, hy, ey⟩, ⟨z, hz, ez⟩⟩ := C155_roundtrip p (by omega) _ _ _ r0 g0 b0
    (rep_rne p hp1 ((r : ℝ) / 255)) (rep_rne p hp1 ((g : ℝ) / 255)) (rep_rne p hp1 ((b : ℝ) / 255))
  obtain ⟨cr, cg, cb⟩ := c
  simp only at hx hy hz ex ey ez
  subst hx hy hz
  have hu : (2 : ℝ) ^ (-(p : ℤ)) ≤ 1 / 16384 := by
    rw [show (1 / 16384 : ℝ) = 2 ^ (-14 : ℤ) by norm_num]
    exact zpow_le_zpow_right₀ one_le_two (by omega)
  have m1 := max_le r1' (max_le g1 b1)
  have u0 : (0 : ℝ) ≤ 30 * 2 ^ (-(p : ℤ)) := by positivity
  have bound := mul_le_of_le_one_right u0 m1
  refine ⟨x, y, z, ?_, ?_, ?_, ?_⟩
  · simp only [ColorRGB.ofInts, l255, Fl.num_div, if_neg (by norm_num : ¬ (255 : ℝ) = 0), Int.cast_natCast]
    exact hc
  all_goals
    simp only [abs_le] at ex ey ez re ge be
    rw [abs_lt]
    constructor <;> linarith

/-- In no precision is the way there and back exact: one third of the way through a sector is lost for the colour
`(0, 3, 1)`. -/
theorem C155_exact_refuted (p : ℕ) (hp : 12 ≤ p) :
    (ColorRGB.mk (.num 0) (.num 3) (.num 1) : ColorRGB (Fl ℝ (rne p))).toHSV.toRGB ≠
      .ok ⟨.num 0, .num 3, .num 1⟩ := by
  intro hc
  obtain ⟨l6, l60, -, -, k⟩ := lits p hp
  have hp1 : 1 ≤ p := by omega
  have hu := u_small p hp
  have r0 : Rep p (0 : ℝ) := by exact_mod_cast k 0 (by norm_num)
  have r1 : Rep p (1 : ℝ) := by exact_mod_cast k 1 (by norm_num)
  have r3 : Rep p (3 : ℝ) := by exact_mod_cast k 3 (by norm_num)
  have r6 : Rep p (6 : ℝ) := by exact_mod_cast k 6 (by norm_num)
  obtain ⟨H, S, h1, h2, h3, h4, h5, -, h7⟩ := C155_toHSV p hp 0 3 1 le_rfl (by norm_num) (by norm_num) r0 r3 r1
  have mx : max (0 : ℝ) (max 3 1) = 3 := by norm_num
  have exactH : (ColorRGB.mk (0 : ℝ) 3 1).toHSV.h = 140 := by
    norm_num [ColorRGB.toHSV, ColorRGB.low_eq, ColorRGB.vee_eq]
  have hS : S = 1 := by
    have e : (ColorRGB.mk (.num 0) (.num 3) (.num 1) : ColorRGB (Fl ℝ (rne p))).toHSV.s = .num S := by rw [h1]
    have mn : min (0 : ℝ) (min 3 1) = 0 := by norm_num
    simp only [sat_eq, low_num, vee_num, ColorRGB.low_eq, ColorRGB.vee_eq, mx, mn] at e
    rw [if_pos (by rw [gt_iff_lt, Fl.num_lt]; norm_num), Fl.num_sub, Fl.num_div, if_neg (by norm_num), sub_zero,
      rne_of_rep hp1 r3, div_self (by norm_num), rne_of_rep hp1 r1] at e
    have e' : 1 = S := by injection e
    exact e'.symm
  subst hS
  rw [exactH] at h7
  rw [h1, mx] at hc
  clear h1 exactH h4 h5
  have hH := abs_le.1 h7
  have qe := rne_rel p (H / 60)
  have hrep := rep_rne p hp1 (H / 60)
  have u0 : (0 : ℝ) < 2 ^ (-(p : ℤ)) := zpow2_pos _
  rw [abs_of_nonneg (by positivity : 0 ≤ H / 60), abs_le] at qe
  have z1 : 2 < rne p (H / 60) ∧ rne p (H / 60) < 3 := by
    have : H / 60 * 2 ^ (-(p : ℤ)) ≤ 6 * 2 ^ (-(p : ℤ)) := mul_le_mul_of_nonneg_right (by linarith) u0.le
    constructor <;> linarith
  have hz : fmodPositive (.num H / 60 : Fl ℝ (rne p)) 6 = .ok (.num (rne p (H / 60))) := by
    rw [l60, l6, Fl.num_div, if_neg (by norm_num), fmodPositive_rounded p hp1 _ 6 hrep r6 (by norm_num)]
    have : truncR (rne p (H / 60) / 6) = 0 := by
      have := truncR_eq (rne p (H / 60) / 6) 0 (by push_cast; linarith) (by push_cast; linarith)
      simpa using this
    unfold fmodR; rw [this]; norm_num; intro h; linarith
  generalize rne p (H / 60) = z at *
  obtain ⟨a, ha⟩ := hrep.multiple hp1 1 (by rw [abs_of_nonneg (by linarith)]; norm_num; linarith)
  -- the unit at 2, and 1 in terms of it
  have w4 : (2 : ℝ) ^ (1 - ((p : ℤ) - 1)) = 4 * 2 ^ (-(p : ℤ)) := by
    rw [show (1 - ((p : ℤ) - 1)) = 2 + -(p : ℤ) by ring, zpow_add₀ two_ne_zero]; norm_num
  have one : (1 : ℝ) = ((2 ^ (p - 2) : ℤ) : ℝ) * 2 ^ (1 - ((p : ℤ) - 1)) := by
    push_cast
    rw [← zpow_natCast, ← zpow_add₀ two_ne_zero, Nat.cast_sub (by omega)]
    rw [show ((p : ℤ) - (2 : ℕ)) + (1 - ((p : ℤ) - 1)) = 0 by push_cast; ring]
    norm_num
  have big : (1 : ℝ) ≤ 2 ^ ((p : ℤ) + (1 - ((p : ℤ) - 1))) := by
    rw [show (p : ℤ) + (1 - ((p : ℤ) - 1)) = 2 by ring]; norm_num
  have f1 : Rep p (z - 2) := by
    refine Rep.of_multiple (a - 2 * 2 ^ (p - 2)) (1 - ((p : ℤ) - 1)) ?_ ?_
    · rw [ha]; push_cast; push_cast at one; linear_combination (-2) * one
    · rw [abs_of_nonneg (by linarith)]; linarith
  have f2 : Rep p (1 - (z - 2)) := by
    refine Rep.of_multiple (3 * 2 ^ (p - 2) - a) (1 - ((p : ℤ) - 1)) ?_ ?_
    · rw [ha]; push_cast; push_cast at one; linear_combination 3 * one
    · rw [abs_of_nonneg (by linarith)]; linarith
  have hb : ((.num z : Fl ℝ (rne p)) == .num z) = true := by simp
  have ht := truncR_eq z 2 (by push_cast; linarith) (by push_cast; linarith)
  have hm : mkInt ((2 : ℕ) : ℤ) = .ok ((2 : ℕ) : ℤ) := rfl
  have n2 : ((2 : ℕ) : Fl ℝ (rne p)) = .num 2 := by
    show Fl.num (rne p ((2 : ℕ) : ℝ)) = _
    rw [rne_of_rep hp1 (k 2 (by norm_num))]; norm_num
  simp only [ColorHSV.toRGB, hz, bind, Except.bind, hb, if_true, Fl.fl_trunc, ht, hm, Int.toNat_natCast, n2,
    Fl.one_def, Fl.num_sub, Fl.num_mul, one_mul, rne_of_rep hp1 f1, rne_of_rep hp1 f2, sub_sub_cancel] at hc
  simp at hc
  have e : rne p (3 * (z - 2)) = 1 := hc.2
  have err := rne_rel p (3 * (z - 2))
  rw [e, abs_of_nonneg (by linarith : 0 ≤ 3 * (z - 2))] at err
  -- three times a number of units is not a power of two of them
  have ne : (3 * (a - 2 * 2 ^ (p - 2)) - 2 ^ (p - 2) : ℤ) ≠ 0 := by
    intro h0
    have odd : ∀ n : ℕ, (2 : ℤ) ^ n % 3 ≠ 0 := by
      intro n
      induction n with
      | zero => norm_num
      | succ n ih => rw [pow_succ]; omega
    have := odd (p - 2)
    omega
  have ge : (1 : ℝ) ≤ |((3 * (a - 2 * 2 ^ (p - 2)) - 2 ^ (p - 2) : ℤ) : ℝ)| := by
    exact_mod_cast Int.one_le_abs ne
  have eq : 3 * (z - 2) - 1 = ((3 * (a - 2 * 2 ^ (p - 2)) - 2 ^ (p - 2) : ℤ) : ℝ) * 2 ^ (1 - ((p : ℤ) - 1)) := by
    rw [ha]; push_cast; push_cast at one; linear_combination (-7) * one
  rw [eq, abs_mul, abs_of_pos (zpow2_pos (K := ℝ) (1 - ((p : ℤ) - 1))), w4] at err
  have : 3 * (z - 2) * 2 ^ (-(p : ℤ)) ≤ 3 * 2 ^ (-(p : ℤ)) := mul_le_mul_of_nonneg_right (by linarith) u0.le
  have : 1 * (4 * 2 ^ (-(p : ℤ))) ≤ |((3 * (a - 2 * 2 ^ (p - 2)) - 2 ^ (p - 2) : ℤ) : ℝ)| * (4 * 2 ^ (-(p : ℤ))) :=
    mul_le_mul_of_nonneg_right ge (by linarith)
  linarith

/-- A float colour: `(1, 1/2, 1/4)`. -/
example : ∃ c, (ColorRGB.mk (.num 1) (.num (1 / 2)) (.num (1 / 4)) : ColorRGB (Fl ℝ (rne 24))).toHSV.toRGB = .ok c ∧
    c.Within (30 * 2 ^ (-24 : ℤ)) ⟨1, 1 / 2, 1 / 4⟩ := by
  have h1 : Rep 24 (1 : ℝ) := by have := Rep.zpow (K := ℝ) (p := 24) 0; norm_num at this; exact this
  have h2 : Rep 24 (1 / 2 : ℝ) := by have := Rep.zpow (K := ℝ) (p := 24) (-1); norm_num at this ⊢; exact this
  have h3 : Rep 24 (1 / 4 : ℝ) := by have := Rep.zpow (K := ℝ) (p := 24) (-2); norm_num at this ⊢; exact this
  obtain ⟨c, hc, hw⟩ := C155_roundtrip 24 (by norm_num) 1 (1 / 2) (1 / 4) (by norm_num) (by norm_num) (by norm_num) h1 h2 h3
  refine ⟨c, hc, ?_⟩
  have : max (1 : ℝ) (max (1 / 2) (1 / 4)) = 1 := by norm_num
  rw [this, mul_one] at hw
  exact hw

end MathLib
