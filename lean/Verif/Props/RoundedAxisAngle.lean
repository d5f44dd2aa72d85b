import Verif.Proof.VecSlerpErr

/-! # Property C184: `Quat::toAxisAngle` and `Quat::slerpMaxAngle` in floating point -/

namespace MathLib

open VSlerp

variable {p : ℕ}

private theorem u24 (hp : 24 ≤ p) : (2 : ℝ) ^ (-(p : ℤ)) ≤ 1 / 16777216 := by
  calc (2 : ℝ) ^ (-(p : ℤ)) ≤ 2 ^ (-(24 : ℤ)) := zpow_le_zpow_right₀ (by norm_num) (by omega)
    _ = 1 / 16777216 := by norm_num

private theorem rep_one (hp : 1 ≤ p) : Rep p (1 : ℝ) := by
  have := Rep.nat (p := p) (K := ℝ) 1 Nat.one_le_two_pow
  rwa [Nat.cast_one] at this

private theorem two_lit (hp : 1 ≤ p) : (2 : Fl ℝ (rne p)) = .num 2 := by
  change Fl.num (rne p ((2 : ℕ) : ℝ)) = _
  rw [rne_of_rep hp (Rep.nat 2 (by calc 2 = 2 ^ 1 := rfl
    _ ≤ 2 ^ p := Nat.pow_le_pow_right (by norm_num) hp))]
  norm_num

/-- the threshold `DELTA` -/
private theorem delta (hp : 24 ≤ p) : ∃ c, (8796093 / 8796093022208 : Fl ℝ (rne p)) = .num c ∧ |c - 1 / 10 ^ 6| ≤ 1 / 10 ^ 12 := by
  have hr := isRel_rne p (show 1 ≤ p by omega)
  have u0 := hr.nonneg
  have hu := u24 hp
  obtain ⟨g3, -, -, -⟩ := gams u0 (VSlerp.u20 (by omega))
  have k : ∀ t : ℝ, Rel ((2 : ℝ) ^ (-(p : ℤ))) 1 t (.num (rne p t) : Fl ℝ (rne p)) := fun t => by
    obtain ⟨θ, h1, h2⟩ := hr.fac t
    exact ⟨θ, h1, by rw [h2]⟩
  obtain ⟨c, e, hc⟩ := (Rel.div hr (k ((8796093 : ℕ) : ℝ)) (k ((8796093022208 : ℕ) : ℝ)) (by norm_num) (k := 3)).error hr
  refine ⟨c, e, ?_⟩
  have : gam ((2 : ℝ) ^ (-(p : ℤ))) 3 ≤ 3.001 / 16777216 := by linarith
  have h2 := hc.trans (mul_le_mul_of_nonneg_right this (abs_nonneg _))
  rw [abs_of_pos (show (0 : ℝ) < ((8796093 : ℕ) : ℝ) / ((8796093022208 : ℕ) : ℝ) by norm_num)] at h2
  push_cast at h2
  rw [abs_le] at h2 ⊢
  norm_num at h2 ⊢
  constructor <;> linarith

/-- the direction of a vector whose coordinates have relative errors -/
private theorem dir_rel {A b : Vec3 ℝ} {c ε : ℝ} (hc : 0 < c) (h0 : 0 ≤ ε) (h1 : ε < 1 / 2) (hA : 0 < √(A.x ^ 2 + A.y ^ 2 + A.z ^ 2))
    (hx : |b.x - A.x * c| ≤ ε * |A.x * c|) (hy : |b.y - A.y * c| ≤ ε * |A.y * c|) (hz : |b.z - A.z * c| ≤ ε * |A.z * c|) :
    0 < √(b.x ^ 2 + b.y ^ 2 + b.z ^ 2) ∧ ∀ {s a : ℝ}, |s - a * c| ≤ ε * |a * c| →
      |s / √(b.x ^ 2 + b.y ^ 2 + b.z ^ 2) - a / √(A.x ^ 2 + A.y ^ 2 + A.z ^ 2)| ≤ 2 * ε / (1 - ε) * |a / √(A.x ^ 2 + A.y ^ 2 + A.z ^ 2)| := by
  have ls : ∀ {s a : ℝ}, |s - a * c| ≤ ε * |a * c| → (1 - ε) ^ 2 * (a * c) ^ 2 ≤ s ^ 2 ∧ s ^ 2 ≤ (1 + ε) ^ 2 * (a * c) ^ 2 := by
    intro s a h
    have h2 := abs_sub_abs_le_abs_sub s (a * c)
    have h3 := abs_sub_abs_le_abs_sub (a * c) s
    rw [abs_sub_comm (a * c) s] at h3
    have h4 := abs_nonneg (a * c)
    have h5 := mul_nonneg h0 h4
    rw [← sq_abs s, ← sq_abs (a * c), ← mul_pow, ← mul_pow]
    exact ⟨pow_le_pow_left₀ (mul_nonneg (by linarith) h4) (by linarith) 2, pow_le_pow_left₀ (abs_nonneg _) (by linarith) 2⟩
  obtain ⟨x1, x2⟩ := ls hx
  obtain ⟨y1, y2⟩ := ls hy
  obtain ⟨z1, z2⟩ := ls hz
  obtain ⟨L, hL⟩ : ∃ L, L = √(A.x ^ 2 + A.y ^ 2 + A.z ^ 2) := ⟨_, rfl⟩
  have hL2 : L ^ 2 = A.x ^ 2 + A.y ^ 2 + A.z ^ 2 := by rw [hL]; exact Real.sq_sqrt (by positivity)
  rw [← hL] at hA ⊢
  have lo : (1 - ε) * (L * c) ≤ √(b.x ^ 2 + b.y ^ 2 + b.z ^ 2) := by
    apply Real.le_sqrt_of_sq_le
    have : ((1 - ε) * (L * c)) ^ 2 = (1 - ε) ^ 2 * (A.x * c) ^ 2 + (1 - ε) ^ 2 * (A.y * c) ^ 2 + (1 - ε) ^ 2 * (A.z * c) ^ 2 := by
      linear_combination (1 - ε) ^ 2 * c ^ 2 * hL2
    linarith
  have hi : √(b.x ^ 2 + b.y ^ 2 + b.z ^ 2) ≤ (1 + ε) * (L * c) := by
    apply Real.sqrt_le_iff.2
    refine ⟨by positivity, ?_⟩
    have : ((1 + ε) * (L * c)) ^ 2 = (1 + ε) ^ 2 * (A.x * c) ^ 2 + (1 + ε) ^ 2 * (A.y * c) ^ 2 + (1 + ε) ^ 2 * (A.z * c) ^ 2 := by
      linear_combination (1 + ε) ^ 2 * c ^ 2 * hL2
    linarith
  have Lc : 0 < L * c := mul_pos hA hc
  generalize √(b.x ^ 2 + b.y ^ 2 + b.z ^ 2) = B at *
  have B0 : 0 < B := lt_of_lt_of_le (mul_pos (by linarith) Lc) lo
  refine ⟨B0, fun {s a} h => ?_⟩
  have e1 : s / B - a / L = (s - a * c) / B + a / L * ((L * c - B) / B) := by field_simp; ring
  have e2 : |(s - a * c) / B| ≤ ε / (1 - ε) * |a / L| := by
    rw [abs_div, abs_of_pos B0, div_le_iff₀ B0]
    refine h.trans ?_
    rw [abs_mul, abs_of_pos hc, abs_div, abs_of_pos hA]
    have : ε / (1 - ε) * (|a| / L) * ((1 - ε) * (L * c)) = ε * (|a| * c) := by
      have : 1 - ε ≠ 0 := by linarith
      field_simp
    rw [← this]
    exact mul_le_mul_of_nonneg_left lo (mul_nonneg (div_nonneg h0 (by linarith)) (by positivity))
  have e3 : |(L * c - B) / B| ≤ ε / (1 - ε) := by
    rw [abs_div, abs_of_pos B0, div_le_div_iff₀ B0 (by linarith)]
    have q : |L * c - B| ≤ ε * (L * c) := by rw [abs_le]; constructor <;> linarith
    have := mul_le_mul_of_nonneg_left lo h0
    have := mul_le_mul_of_nonneg_right q (show 0 ≤ 1 - ε by linarith)
    linarith
  rw [e1]
  have := abs_add_le ((s - a * c) / B) (a / L * ((L * c - B) / B))
  rw [abs_mul (a / L)] at this
  have := mul_le_mul_of_nonneg_left e3 (abs_nonneg (a / L))
  have e : 2 * ε / (1 - ε) * |a / L| = ε / (1 - ε) * |a / L| + |a / L| * (ε / (1 - ε)) := by ring
  rw [e]
  linarith

/-- `toAxisAngle` of the quaternion for an axis and an angle -/
private theorem core (hp : 24 ≤ p) {a : Vec3 ℝ} (ha : a ≠ ⟨0, 0, 0⟩) {θ : ℝ} (hθ : Rep p θ) (h1 : 0.00105 ≤ Real.sin (θ / 2)) :
    ∃ b : Vec3 ℝ, (Quat.ofAxisAngle (Vec3.num a : Vec3 (Fl ℝ (rne p))) (.num θ)).toAxisAngle =
        .ok (Vec3.num b, .num (2 * rne p (Real.arccos (rne p (Real.cos (θ / 2)))))) ∧
      (let n := √(a.x ^ 2 + a.y ^ 2 + a.z ^ 2)
       |b.x - a.x / n| ≤ 9.1 * (2 : ℝ) ^ (-(p : ℤ)) * |a.x / n| ∧ |b.y - a.y / n| ≤ 9.1 * (2 : ℝ) ^ (-(p : ℤ)) * |a.y / n| ∧
       |b.z - a.z / n| ≤ 9.1 * (2 : ℝ) ^ (-(p : ℤ)) * |a.z / n|) := by
  have hp1 : 1 ≤ p := by omega
  have hr := isRel_rne p hp1
  have hu := u24 hp
  have hu20 := VSlerp.u20 (p := p) (by omega)
  have hde := delta hp
  have u0 := hr.nonneg
  have h0 := (C119_null hr ⟨0, 0⟩ a).2
  rw [decide_eq_false ha] at h0
  have hl := Vec3.rel_length hr a
  have hpos : 0 < √(a.x * a.x + a.y * a.y + a.z * a.z) := by
    refine lt_of_le_of_ne (Real.sqrt_nonneg _) fun h => ?_
    obtain ⟨θ, -, e⟩ := hl
    rw [← h, zero_mul] at e
    rw [e, Fl.zero_def, Fl.num_beq] at h0
    simp at h0
  have hL2 := Real.sq_sqrt (show 0 ≤ a.x * a.x + a.y * a.y + a.z * a.z from
    add_nonneg (add_nonneg (mul_self_nonneg _) (mul_self_nonneg _)) (mul_self_nonneg _))
  have hh : (.num θ * (1 / 2) : Fl ℝ (rne p)) = .num (θ / 2) := by
    have e3 : (1 / 2 : Fl ℝ (rne p)) = .num (1 / 2) := by
      rw [two_lit hp1]
      change (Fl.num 1 : Fl ℝ (rne p)) / _ = _
      rw [Fl.num_div, if_neg (by norm_num), rne_of_rep hp1 (by simpa using Rep.zpow (K := ℝ) (p := p) (-1))]
    rw [e3, Fl.num_mul, rne_of_rep hp1 (by simpa using hθ.mul_zpow (-1)), mul_one_div]
  have hs : Rel ((2 : ℝ) ^ (-(p : ℤ))) 1 (Real.sin (θ / 2)) (MathFns.sin (.num (θ / 2) : Fl ℝ (rne p))) := by
    obtain ⟨f, hf, e⟩ := hr.fac (Real.sin (θ / 2)); exact ⟨f, hf, congrArg _ e⟩
  have hd := Rel.div hr hs hl hpos.ne' (k := 5)
  -- the squared length
  have sqr : ∀ t : ℝ, Rel ((2 : ℝ) ^ (-(p : ℤ))) 13 (t * (Real.sin (θ / 2) / √(a.x * a.x + a.y * a.y + a.z * a.z)) *
      (t * (Real.sin (θ / 2) / √(a.x * a.x + a.y * a.y + a.z * a.z))))
      (.num t * (MathFns.sin (.num (θ / 2)) / (Vec3.num a : Vec3 (Fl ℝ (rne p))).length) *
        (.num t * (MathFns.sin (.num (θ / 2)) / (Vec3.num a : Vec3 (Fl ℝ (rne p))).length))) := fun t => by
    have := Rel.mul hr (Rel.exact hr t) hd (k := 6)
    exact Rel.mul hr this this
  obtain ⟨len, elen, hlen⟩ := (Rel.add hr (Rel.add hr (sqr a.x) (sqr a.y) (mul_self_nonneg _) (mul_self_nonneg _) (k := 14)) (sqr a.z)
    (add_nonneg (mul_self_nonneg _) (mul_self_nonneg _)) (mul_self_nonneg _) (k := 15)).error hr
  have hS : ∀ L S : ℝ, 0 < L → L ^ 2 = a.x * a.x + a.y * a.y + a.z * a.z →
      a.x * (S / L) * (a.x * (S / L)) + a.y * (S / L) * (a.y * (S / L)) + a.z * (S / L) * (a.z * (S / L)) = S ^ 2 := fun L S h h2 => by
    have : a.x * (S / L) * (a.x * (S / L)) + a.y * (S / L) * (a.y * (S / L)) + a.z * (S / L) * (a.z * (S / L)) =
      (S / L) ^ 2 * (a.x * a.x + a.y * a.y + a.z * a.z) := by ring
    rw [this, ← h2, div_pow, div_mul_cancel₀ _ (by positivity)]
  rw [hS _ _ hpos hL2] at hlen
  -- the factor of the coordinates
  obtain ⟨σ, eσ, hσ⟩ := hd.error hr
  rw [eσ] at elen
  obtain ⟨g3, g5, g7, g2⟩ := gams u0 hu20
  have S0 : 0 < Real.sin (θ / 2) := by linarith
  have hσ0 : 0 < σ := by
    have q : 0 < Real.sin (θ / 2) / √(a.x * a.x + a.y * a.y + a.z * a.z) := div_pos S0 hpos
    rw [abs_of_pos q] at hσ
    have : gam ((2 : ℝ) ^ (-(p : ℤ))) 5 ≤ 1 / 2 := by linarith
    have := mul_le_mul_of_nonneg_right this q.le
    have := (abs_le.1 hσ).1
    linarith
  -- the cosine
  have hsc := Real.sin_sq_add_cos_sq (θ / 2)
  have c1 := Real.neg_one_le_cos (θ / 2)
  have c2 := Real.cos_le_one (θ / 2)
  have w1 : -1 ≤ rne p (Real.cos (θ / 2)) := by
    have := rne_mono p hp1 c1
    rwa [rne_of_rep hp1 (rep_one hp1).neg] at this
  have w2 : rne p (Real.cos (θ / 2)) ≤ 1 := by
    have := rne_mono p hp1 c2
    rwa [rne_of_rep hp1 (rep_one hp1)] at this
  have hww := Rel.mul hr (⟨_, (hr.fac (Real.cos (θ / 2))).choose_spec.1, by rw [← (hr.fac (Real.cos (θ / 2))).choose_spec.2]⟩ :
    Rel ((2 : ℝ) ^ (-(p : ℤ))) 1 (Real.cos (θ / 2)) (.num (rne p (Real.cos (θ / 2))) : Fl ℝ (rne p)))
    (⟨_, (hr.fac (Real.cos (θ / 2))).choose_spec.1, by rw [← (hr.fac (Real.cos (θ / 2))).choose_spec.2]⟩ :
    Rel ((2 : ℝ) ^ (-(p : ℤ))) 1 (Real.cos (θ / 2)) (.num (rne p (Real.cos (θ / 2))) : Fl ℝ (rne p))) (k := 3)
  obtain ⟨ww, eww, hww⟩ := hww.error hr
  have ss : (0.00105 : ℝ) ^ 2 ≤ Real.sin (θ / 2) ^ 2 := pow_le_pow_left₀ (by norm_num) h1 2
  have ww1 : ww < 1 := by
    rw [← sq, abs_of_nonneg (sq_nonneg (Real.cos (θ / 2)))] at hww
    have hcc : Real.cos (θ / 2) ^ 2 ≤ 1 := by nlinarith
    have h3 : gam ((2 : ℝ) ^ (-(p : ℤ))) 3 ≤ 3.001 / 16777216 := by linarith
    have h4 := mul_le_mul_of_nonneg_right h3 (sq_nonneg (Real.cos (θ / 2)))
    have := (abs_le.1 hww).2
    norm_num at ss
    linarith
  have s20 : 0 < rne p (1 - ww) := rne_pos p hp1 _ (by linarith)
  have sq0 : 0 < rne p √(rne p (1 - ww)) := rne_pos p hp1 _ (Real.sqrt_pos.2 s20)
  have k0 : 0 < rne p (1 / rne p √(rne p (1 - ww))) := rne_pos p hp1 _ (one_div_pos.2 sq0)
  have erec : (1 / MathFns.sqrt (1 - (.num (rne p (Real.cos (θ / 2))) : Fl ℝ (rne p)) * .num (rne p (Real.cos (θ / 2))))) =
      .num (rne p (1 / rne p √(rne p (1 - ww)))) := by
    rw [eww]
    change (Fl.num 1 : Fl ℝ (rne p)) / MathFns.sqrt ((Fl.num 1 : Fl ℝ (rne p)) - .num ww) = _
    simp only [Fl.num_sub, Fl.fl_sqrt, if_neg (not_lt.2 s20.le), Fl.num_div, if_neg sq0.ne']
  obtain ⟨k, hk⟩ : ∃ k, k = rne p (1 / rne p √(rne p (1 - ww))) := ⟨_, rfl⟩
  rw [← hk] at erec k0
  -- the axis
  have ax : ∀ t : ℝ, ∃ b, (.num t * .num σ * .num k : Fl ℝ (rne p)) = .num b ∧ |b - t * (σ * k)| ≤ 2.001 * (2 : ℝ) ^ (-(p : ℤ)) * |t * (σ * k)| := fun t => by
    obtain ⟨b, e, hb⟩ := (Rel.mul hr (Rel.mul hr (Rel.exact hr t) (Rel.exact hr σ) (k := 1)) (Rel.exact hr k) (k := 2)).error hr
    refine ⟨b, e, ?_⟩
    rw [mul_assoc t] at hb
    exact hb.trans (mul_le_mul_of_nonneg_right g2 (abs_nonneg _))
  obtain ⟨bx, ebx, hbx⟩ := ax a.x
  obtain ⟨bY, eby, hby⟩ := ax a.y
  obtain ⟨bz, ebz, hbz⟩ := ax a.z
  have hL : 0 < √(a.x ^ 2 + a.y ^ 2 + a.z ^ 2) := by simpa only [sq] using hpos
  have hσk := mul_pos hσ0 k0
  obtain ⟨B0, hdir⟩ := dir_rel (A := a) (b := ⟨bx, bY, bz⟩) hσk (show 0 ≤ 2.001 * (2 : ℝ) ^ (-(p : ℤ)) by positivity) (by linarith) hL hbx hby hbz
  have hb0 : (⟨bx, bY, bz⟩ : Vec3 ℝ) ≠ ⟨0, 0, 0⟩ := fun h => by
    simp only [Vec3.mk.injEq] at h
    obtain ⟨h1, h2, h3⟩ := h
    simp [h1, h2, h3] at B0
  obtain ⟨w, -, ew, hwb, -, -⟩ := C119_normalized3 hr ⟨bx, bY, bz⟩ hb0 1
  obtain ⟨c, ec, hc⟩ := hde
  have hlen2 : c < len := by
    rw [abs_of_nonneg (sq_nonneg (Real.sin (θ / 2)))] at hlen
    have g15 : gam ((2 : ℝ) ^ (-(p : ℤ))) 15 ≤ 1 / 10 ^ 6 := by
      refine (gam_le hr.lt_one (n := 15) (by push_cast; linarith)).trans ?_
      push_cast
      rw [div_le_iff₀ (by linarith)]
      linarith
    have := mul_le_mul_of_nonneg_right g15 (sq_nonneg (Real.sin (θ / 2)))
    have h5 := (abs_le.1 hlen).1
    have h6 := (abs_le.1 hc).2
    norm_num at ss
    linarith
  refine ⟨w, ?_, ?_⟩
  · simp only [Quat.ofAxisAngle, h0, Bool.false_eq_true, if_false, hh, eσ]
    simp only [Quat.toAxisAngle, ec, Fl.fl_cos]
    have z : (Vec3.num a : Vec3 (Fl ℝ (rne p))) = ⟨.num a.x, .num a.y, .num a.z⟩ := rfl
    simp only [z, elen, erec, ebx, eby, ebz, acos_num, two_lit hp1]
    rw [eww]
    simp only [Fl.one_def, Fl.zero_def, Fl.num_neg, Fl.num_sub, ge_iff_le, gt_iff_lt, Fl.num_le, Fl.num_lt]
    rw [if_pos ⟨w1, w2⟩, if_pos ⟨hlen2, s20⟩]
    have e2 : rne p (2 * rne p (Real.arccos (rne p (Real.cos (θ / 2))))) = 2 * rne p (Real.arccos (rne p (Real.cos (θ / 2)))) := by
      rw [mul_comm]
      exact rne_of_rep hp1 (by simpa using (rep_rne p hp1 (Real.arccos (rne p (Real.cos (θ / 2))))).mul_zpow 1)
    rw [Fl.num_mul, e2]
    have e3 : (Vec3.num (⟨bx, bY, bz⟩ : Vec3 ℝ) : Vec3 (Fl ℝ (rne p))) = ⟨.num bx, .num bY, .num bz⟩ := rfl
    rw [← ew, e3]
  · have fin : ∀ {s t w : ℝ}, |s - t * (σ * k)| ≤ 2.001 * (2 : ℝ) ^ (-(p : ℤ)) * |t * (σ * k)| →
        |w - s * (1 / √(bx ^ 2 + bY ^ 2 + bz ^ 2))| ≤ gam ((2 : ℝ) ^ (-(p : ℤ))) 5 * |s * (1 / √(bx ^ 2 + bY ^ 2 + bz ^ 2))| →
        |w - t / √(a.x ^ 2 + a.y ^ 2 + a.z ^ 2)| ≤ 9.1 * (2 : ℝ) ^ (-(p : ℤ)) * |t / √(a.x ^ 2 + a.y ^ 2 + a.z ^ 2)| := by
      intro s t w h1 h2
      have h3 := hdir h1
      rw [mul_one_div] at h2
      generalize s / √(bx ^ 2 + bY ^ 2 + bz ^ 2) = q at h2 h3
      generalize t / √(a.x ^ 2 + a.y ^ 2 + a.z ^ 2) = r at h3 ⊢
      generalize (2 : ℝ) ^ (-(p : ℤ)) = u at *
      have h4 : 2 * (2.001 * u) / (1 - 2.001 * u) ≤ 4.003 * u := by
        rw [div_le_iff₀ (by linarith)]
        nlinarith
      have h5 := h3.trans (mul_le_mul_of_nonneg_right h4 (abs_nonneg r))
      have h6 : |q| ≤ 1.001 * |r| := by
        have := abs_sub_abs_le_abs_sub q r
        have : 4.003 * u * |r| ≤ 0.001 * |r| := mul_le_mul_of_nonneg_right (by linarith) (abs_nonneg r)
        linarith
      have h7 := mul_le_mul g5 h6 (abs_nonneg q) (by positivity)
      have h8 := abs_sub_le w q r
      have : 5.001 * u * (1.001 * |r|) = 5.006001 * (u * |r|) := by ring
      have := mul_nonneg u0 (abs_nonneg r)
      linarith
    exact ⟨fin hbx hwb.1, fin hby hwb.2.1, fin hbz hwb.2.2⟩

/-- the angle computed through the rounded cosine -/
private theorem angle (hp : 24 ≤ p) {θ : ℝ} (h0 : 0 ≤ θ) (h1 : θ ≤ 2 * Real.pi) :
    |2 * rne p (Real.arccos (rne p (Real.cos (θ / 2)))) - θ| ≤ 4.45 * √((2 : ℝ) ^ (-(p : ℤ))) + 6.3 * (2 : ℝ) ^ (-(p : ℤ)) ∧
    (|Real.cos (θ / 2)| ≤ 9 / 10 → |2 * rne p (Real.arccos (rne p (Real.cos (θ / 2)))) - θ| ≤ 14 * (2 : ℝ) ^ (-(p : ℤ))) := by
  have hp1 : 1 ≤ p := by omega
  have hr := isRel_rne p hp1
  have hu := u24 hp
  have u0 := hr.nonneg
  have c1 := Real.neg_one_le_cos (θ / 2)
  have c2 := Real.cos_le_one (θ / 2)
  have w1 : -1 ≤ rne p (Real.cos (θ / 2)) := by
    have := rne_mono p hp1 c1
    rwa [rne_of_rep hp1 (rep_one hp1).neg] at this
  have w2 : rne p (Real.cos (θ / 2)) ≤ 1 := by
    have := rne_mono p hp1 c2
    rwa [rne_of_rep hp1 (rep_one hp1)] at this
  have hc1 : |Real.cos (θ / 2)| ≤ 1 := abs_le.2 ⟨c1, c2⟩
  have hw1 : |rne p (Real.cos (θ / 2))| ≤ 1 := abs_le.2 ⟨w1, w2⟩
  have hd : |rne p (Real.cos (θ / 2)) - Real.cos (θ / 2)| ≤ (2 : ℝ) ^ (-(p : ℤ)) :=
    (hr.err _).trans (by have := mul_le_mul_of_nonneg_left hc1 u0; linarith)
  have hac : Real.arccos (Real.cos (θ / 2)) = θ / 2 := Real.arccos_cos (by linarith) (by linarith)
  have hpi := Real.pi_lt_d4
  have hpi3 := Real.pi_gt_three
  have A0 := Real.arccos_nonneg (rne p (Real.cos (θ / 2)))
  have A1 := Real.arccos_le_pi (rne p (Real.cos (θ / 2)))
  have hA := hr.err (Real.arccos (rne p (Real.cos (θ / 2))))
  rw [abs_of_nonneg A0] at hA
  have hA2 := hA.trans (mul_le_mul_of_nonneg_left A1 u0)
  have hA3 := mul_le_mul_of_nonneg_left hpi.le u0
  obtain ⟨n1, n2⟩ := arcsin_near hw1 hc1
  have e : Real.arcsin (rne p (Real.cos (θ / 2))) - Real.arcsin (Real.cos (θ / 2)) = θ / 2 - Real.arccos (rne p (Real.cos (θ / 2))) := by
    have h2 := hac
    rw [Real.arccos] at h2 ⊢
    linarith
  have tot : ∀ {t : ℝ}, |θ / 2 - Real.arccos (rne p (Real.cos (θ / 2)))| ≤ t →
      |2 * rne p (Real.arccos (rne p (Real.cos (θ / 2)))) - θ| ≤ 2 * t + 2 * ((2 : ℝ) ^ (-(p : ℤ)) * 3.1416) := by
    intro t ht
    rw [abs_le] at ht hA2 ⊢
    constructor <;> linarith
  rw [e] at n1 n2
  constructor
  · refine (tot n1).trans ?_
    have : √(|rne p (Real.cos (θ / 2)) - Real.cos (θ / 2)| / 2) ≤ 0.7072 * √((2 : ℝ) ^ (-(p : ℤ))) := by
      apply Real.sqrt_le_iff.2
      refine ⟨by positivity, ?_⟩
      rw [mul_pow, Real.sq_sqrt u0]
      linarith
    have := mul_le_mul hpi.le this (Real.sqrt_nonneg _) (by norm_num)
    have := Real.sqrt_nonneg ((2 : ℝ) ^ (-(p : ℤ)))
    linarith
  · intro h9
    have hw9 : |rne p (Real.cos (θ / 2))| ≤ 0.90001 := by
      have := abs_sub_abs_le_abs_sub (rne p (Real.cos (θ / 2))) (Real.cos (θ / 2))
      linarith
    have mono : ∀ {t : ℝ}, |t| ≤ 0.90001 → |Real.arcsin t| ≤ Real.arcsin 0.90001 := by
      intro t ht
      rw [abs_le] at ht ⊢
      constructor
      · rw [← Real.arcsin_neg]; exact Real.monotone_arcsin ht.1
      · exact Real.monotone_arcsin ht.2
    have m1 := mono hw9
    have m2 := mono (h9.trans (by norm_num))
    have c0 : 0.4358 ≤ Real.cos ((Real.arcsin (rne p (Real.cos (θ / 2))) + Real.arcsin (Real.cos (θ / 2))) / 2) := by
      rw [← Real.cos_abs]
      have k : 0.4358 ≤ Real.cos (Real.arcsin 0.90001) := by
        rw [Real.cos_arcsin]
        apply Real.le_sqrt_of_sq_le
        norm_num
      refine k.trans (Real.cos_le_cos_of_nonneg_of_le_pi (abs_nonneg _) ?_ ?_)
      · linarith [Real.arcsin_le_pi_div_two 0.90001]
      · rw [abs_le] at m1 m2 ⊢
        constructor <;> linarith
    refine (tot (n2 _ (by norm_num) c0)).trans ?_
    have h5 : Real.pi / (2 * 0.4358) ≤ 3.606 := by
      rw [div_le_iff₀ (by norm_num)]; linarith
    have := mul_le_mul h5 hd (abs_nonneg _) (by norm_num)
    linarith

/-- **C184 (the working range).** A rotation built from any non-zero axis and an angle θ with `sin (θ / 2) ≥ 0.00105`, between 0
and a full turn, comes back from `toAxisAngle`: no assertion fails, every coordinate of the axis has a relative error of at most 9.1
units, and the angle has an error of at most 4.45 times the *root* of the unit. Where the half angle stays away from 0 and π the
angle has an error of at most 14 units. -/
theorem C184_roundtrip_partial (hp : 24 ≤ p) (a : Vec3 ℝ) (ha : a ≠ ⟨0, 0, 0⟩) (θ : ℝ) (hθ : Rep p θ) (h0 : 0 ≤ θ) (h1 : θ ≤ 2 * Real.pi)
    (hs : 0.00105 ≤ Real.sin (θ / 2)) :
    ∃ (b : Vec3 ℝ) (α : ℝ), (Quat.ofAxisAngle (Vec3.num a : Vec3 (Fl ℝ (rne p))) (.num θ)).toAxisAngle = .ok (Vec3.num b, .num α) ∧
      (let n := √(a.x ^ 2 + a.y ^ 2 + a.z ^ 2)
       |b.x - a.x / n| ≤ 9.1 * (2 : ℝ) ^ (-(p : ℤ)) * |a.x / n| ∧ |b.y - a.y / n| ≤ 9.1 * (2 : ℝ) ^ (-(p : ℤ)) * |a.y / n| ∧
       |b.z - a.z / n| ≤ 9.1 * (2 : ℝ) ^ (-(p : ℤ)) * |a.z / n|) ∧
      |α - θ| ≤ 4.45 * √((2 : ℝ) ^ (-(p : ℤ))) + 6.3 * (2 : ℝ) ^ (-(p : ℤ)) ∧
      (|Real.cos (θ / 2)| ≤ 9 / 10 → |α - θ| ≤ 14 * (2 : ℝ) ^ (-(p : ℤ))) := by
  obtain ⟨b, e, h⟩ := core hp ha hθ hs
  exact ⟨b, _, e, h, angle hp h0 h1⟩

/-- Half a radian more than one, about (1, 2, 3): the hypotheses hold, and the strong bound applies. -/
example : (⟨1, 2, 3⟩ : Vec3 ℝ) ≠ ⟨0, 0, 0⟩ ∧ Rep 24 (3 / 2 : ℝ) ∧ (0 : ℝ) ≤ 3 / 2 ∧ (3 / 2 : ℝ) ≤ 2 * Real.pi ∧
    (0.00105 : ℝ) ≤ Real.sin (3 / 2 / 2) ∧ |Real.cos (3 / 2 / 2)| ≤ 9 / 10 := by
  have hpi := Real.pi_gt_three
  refine ⟨by simp, ?_, by norm_num, by linarith, ?_, ?_⟩
  · have := (Rep.nat (p := 24) (K := ℝ) 3 (by norm_num)).mul_zpow (-1)
    norm_num at this ⊢
    exact this
  · have := Real.sin_gt_sub_cube (x := 3 / 2 / 2) (by norm_num)
    norm_num at this ⊢
    linarith
  · have := Real.cos_bound (x := 3 / 2 / 2) (by rw [abs_le]; norm_num)
    rw [abs_of_pos (show (0 : ℝ) < 3 / 2 / 2 by norm_num), abs_le] at this
    rw [abs_le]
    norm_num at this ⊢
    constructor <;> linarith [this.1, this.2]

/-- **C184, the full statement**: no two equal quaternions that the constructor normalised make `slerpMaxAngle` assert, and a
rotation by an angle that `toAxisAngle` sees comes back with a relative error of at most one per cent. -/
def C184_full (p : ℕ) : Prop :=
  (∀ q : Quat ℝ, Rep p q.x → Rep p q.y → Rep p q.z → Rep p q.w → ∀ m : ℝ, 0 ≤ m →
    let r := Quat.mk' (.num q.x) (.num q.y) (.num q.z) (.num q.w : Fl ℝ (rne p)) true
    Quat.slerpMaxAngle r r (.num m) ≠ .error .assertion) ∧
  ∀ a : Vec3 ℝ, a ≠ ⟨0, 0, 0⟩ → ∀ θ : ℝ, Rep p θ → 0 ≤ θ → θ ≤ 2 * Real.pi → 0.00105 ≤ Real.sin (θ / 2) →
    ∀ (b : Vec3 ℝ) (α : ℝ), (Quat.ofAxisAngle (Vec3.num a : Vec3 (Fl ℝ (rne p))) (.num θ)).toAxisAngle = .ok (Vec3.num b, .num α) →
      |α - θ| ≤ 0.01 * θ

private theorem sqrt17 : rne 24 √17 = 8646779 / 2 ^ 21 := by
  have h1 : (8646778.5 / 2 ^ 21 : ℝ) < √17 := Real.lt_sqrt_of_sq_lt (by norm_num)
  have h2 : √17 < (8646779.5 / 2 ^ 21 : ℝ) := (Real.sqrt_lt' (by norm_num)).2 (by norm_num)
  rw [rne_eq (-21) 8646779 (by norm_num at h1 ⊢; linarith) (by norm_num at h2 ⊢; linarith)
    (by rw [abs_lt]; norm_num at h1 h2 ⊢; constructor <;> linarith)]
  norm_num

private theorem r24 : rne 24 (1 : ℝ) = 1 ∧ rne 24 (16 : ℝ) = 16 ∧ rne 24 (17 : ℝ) = 17 := by
  refine ⟨?_, ?_, ?_⟩
  · rw [rne_eq (-23) 8388608 (by norm_num) (by norm_num) (by norm_num)]; norm_num
  · rw [rne_eq (-19) 8388608 (by norm_num) (by norm_num) (by norm_num)]; norm_num
  · rw [rne_eq (-19) 8912896 (by norm_num) (by norm_num) (by norm_num)]; norm_num

/-- The quaternion (1, 0, 0, 4) as the constructor normalises it in single precision. -/
private theorem norm14 : Quat.mk' (.num 1) (.num 0) (.num 0) (.num 4 : Fl ℝ (rne 24)) true =
    ⟨.num (16276291 / 2 ^ 26), .num 0, .num 0, .num (16276291 / 2 ^ 24)⟩ := by
  obtain ⟨q1, q2, q3⟩ := r24
  have o : rne 24 (1 / (8646779 / 2 ^ 21) : ℝ) = 16276291 / 2 ^ 26 := by
    rw [rne_eq (-26) 16276291 (by norm_num) (by norm_num) (by rw [abs_lt]; norm_num)]; norm_num
  have o1 : rne 24 (16276291 / 2 ^ 26 : ℝ) = 16276291 / 2 ^ 26 := by
    rw [rne_eq (-26) 16276291 (by norm_num) (by norm_num) (by rw [abs_lt]; norm_num)]; norm_num
  have o4 : rne 24 (4 * (16276291 / 2 ^ 26) : ℝ) = 16276291 / 2 ^ 24 := by
    rw [rne_eq (-24) 16276291 (by norm_num) (by norm_num) (by rw [abs_lt]; norm_num)]; norm_num
  have e16 : (4 * 4 : ℝ) = 16 := by norm_num
  have e17 : (1 + 16 : ℝ) = 17 := by norm_num
  have n0 : ¬ ((8646779 / 2 ^ 21 : ℝ) = 0) := by norm_num
  simp only [Quat.mk', if_true, Quat.normalize, Fl.num_mul, Fl.num_add, mul_one, mul_zero, zero_mul, add_zero, rne_zero, q1, e16, q2, e17, q3,
    Fl.fl_sqrt, if_neg (show ¬ (17 : ℝ) < 0 by norm_num), sqrt17, Fl.zero_def, Fl.one_def, Fl.num_beq, decide_eq_false n0, Bool.false_eq_true,
    if_false, Fl.num_div, if_neg n0, o, one_mul, o1, o4]

/-- **C184 (an assertion that fails).** The constructor `Quat(1, 0, 0, 4)` normalises in single precision, and yet
`slerpMaxAngle(q, q, m)` aborts for every limit: the product of the quaternion with its inverse has w = 1 + 2^-23, and
`toAxisAngle` asserts `w <= 1`. -/
theorem C184_assertion (m : ℝ) : let q := Quat.mk' (.num 1) (.num 0) (.num 0) (.num 4 : Fl ℝ (rne 24)) true
    (Quat.mul q.inverse q).w = .num (1 + 1 / 2 ^ 23) ∧ Quat.slerpMaxAngle q q (.num m) = .error .assertion := by
  have ww : rne 24 (16276291 / 2 ^ 24 * (16276291 / 2 ^ 24) : ℝ) = 15790322 / 2 ^ 24 := by
    rw [rne_eq (-24) 15790322 (by norm_num) (by norm_num) (by rw [abs_lt]; norm_num)]; norm_num
  have xx : rne 24 (16276291 / 2 ^ 26 * (16276291 / 2 ^ 26) : ℝ) = 15790322 / 2 ^ 28 := by
    rw [rne_eq (-28) 15790322 (by norm_num) (by norm_num) (by rw [abs_lt]; norm_num)]; norm_num
  have su : rne 24 (15790322 / 2 ^ 24 - -(15790322 / 2 ^ 28) : ℝ) = 1 + 1 / 2 ^ 23 := by
    rw [rne_eq (-23) 8388609 (by norm_num) (by norm_num) (by rw [abs_lt]; norm_num)]; norm_num
  have s1 : rne 24 (1 + 1 / 2 ^ 23 : ℝ) = 1 + 1 / 2 ^ 23 := by
    rw [rne_eq (-23) 8388609 (by norm_num) (by norm_num) (by rw [abs_lt]; norm_num)]; norm_num
  intro q
  have e : (Quat.mul q.inverse q).w = .num (1 + 1 / 2 ^ 23) := by
    simp only [q, norm14, Quat.inverse, Quat.mul, Fl.num_neg, Fl.num_mul, Fl.num_sub, neg_mul, rne_neg, ww, xx, su, neg_zero, mul_zero, rne_zero,
      sub_zero, s1]
  refine ⟨e, ?_⟩
  have t : (Quat.mul q.inverse q).toAxisAngle = .error .assertion := by
    rw [Quat.toAxisAngle, e, if_neg]
    simp only [Fl.one_def, Fl.num_neg, ge_iff_le, Fl.num_le]
    norm_num
  simp only [Quat.slerpMaxAngle, t]
  split_ifs <;> rfl

/-- **C184 (digits lost).** In single precision a rotation by 83 / 32768 = 0.00253 about the x axis comes back with an angle below
0.0025, more than one per cent too small, though both checks in `toAxisAngle` pass: `acos` of the rounded cosine has lost the
digits. -/
theorem C184_digits : ∃ (b : Vec3 ℝ) (α : ℝ), (Quat.ofAxisAngle (Vec3.num ⟨1, 0, 0⟩ : Vec3 (Fl ℝ (rne 24))) (.num (83 / 32768))).toAxisAngle =
      .ok (Vec3.num b, .num α) ∧ 0.00248 < α ∧ α ≤ 0.0025 := by
  have hs : 0.00105 ≤ Real.sin (83 / 32768 / 2) := by
    have := Real.sin_gt_sub_cube (x := 83 / 32768 / 2) (by norm_num)
    norm_num at this ⊢
    linarith
  have hθ : Rep 24 (83 / 32768 : ℝ) := by
    have := (Rep.nat (p := 24) (K := ℝ) 83 (by norm_num)).mul_zpow (-15)
    norm_num at this ⊢
    exact this
  obtain ⟨b, e, -⟩ := core (p := 24) le_rfl (a := ⟨1, 0, 0⟩) (by simp) hθ hs
  have cb := Real.cos_bound (x := 83 / 32768 / 2) (by rw [abs_le]; norm_num)
  rw [abs_of_pos (show (0 : ℝ) < 83 / 32768 / 2 by norm_num), abs_le] at cb
  have w : rne 24 (Real.cos (83 / 32768 / 2)) = 1 - 13 / 2 ^ 24 := by
    rw [rne_eq (-24) 16777203 (by norm_num at cb ⊢; linarith [cb.1]) (by norm_num at cb ⊢; linarith [cb.2])
      (by rw [abs_lt]; norm_num at cb ⊢; constructor <;> linarith [cb.1, cb.2])]
    norm_num
  rw [w] at e
  have hpi := Real.pi_gt_three
  have y : Real.arccos (1 - 13 / 2 ^ 24) ≤ 0.001249 := by
    rw [← Real.arccos_cos (x := 0.001249) (by norm_num) (by linarith)]
    apply Real.arccos_le_arccos
    have c := Real.cos_bound (x := 0.001249) (by rw [abs_le]; norm_num)
    rw [abs_of_pos (show (0 : ℝ) < 0.001249 by norm_num), abs_le] at c
    norm_num at c ⊢
    linarith [c.2]
  have y2 : 0.001241 ≤ Real.arccos (1 - 13 / 2 ^ 24) := by
    rw [← Real.arccos_cos (x := 0.001241) (by norm_num) (by linarith)]
    apply Real.arccos_le_arccos
    have c := Real.cos_bound (x := 0.001241) (by rw [abs_le]; norm_num)
    rw [abs_of_pos (show (0 : ℝ) < 0.001241 by norm_num), abs_le] at c
    norm_num at c ⊢
    linarith [c.1]
  refine ⟨b, _, e, ?_⟩
  have := (isRel_rne 24 (by norm_num)).err (Real.arccos (1 - 13 / 2 ^ 24))
  rw [abs_of_nonneg (Real.arccos_nonneg _), abs_le] at this
  norm_num at this y y2 ⊢
  constructor <;> linarith [this.1, this.2]

/-- **C184 (refuted).** Both halves of the full statement fail in single precision. -/
theorem C184_refuted : ¬ C184_full 24 := by
  rintro ⟨h, -⟩
  have r0 : Rep 24 (0 : ℝ) := Rep.zero 24
  have r1 : Rep 24 (1 : ℝ) := rep_one (by norm_num)
  have r4 : Rep 24 (4 : ℝ) := by have := Rep.nat (p := 24) (K := ℝ) 4 (by norm_num); norm_num at this; exact this
  exact h ⟨1, 0, 0, 4⟩ r1 r0 r0 r4 1 zero_le_one (C184_assertion 1).2

end MathLib
