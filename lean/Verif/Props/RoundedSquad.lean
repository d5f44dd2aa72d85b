import Verif.Props.RoundedSlerp

/-! # C192: spherical quadrangle interpolation of quaternions in floating point -/

namespace MathLib
variable {rnd : ℝ → ℝ} {u : ℝ}

/-- the exact points between two quaternions: on the arc for those that are not close, on the chord, normalised, for close ones -/
def Quat.Between (P Q : Quat ℝ) (w : ℝ) (S : Quat ℝ) : Prop :=
  (P.dot Q ≤ 0.9502 ∧ S = P.arcPoint Q w) ∨ (0.9498 ≤ P.dot Q ∧ S = P.chordPoint Q w)

namespace SquadErr

theorem coarse (hr : IsRel rnd u) {v : ℝ} (h : u ≤ v) (hv : v < 1) : IsRel rnd v where
  nonneg := hr.nonneg.trans h
  lt_one := hv
  err x := (hr.err x).trans (mul_le_mul_of_nonneg_right h (abs_nonneg x))

theorem Near.mono {a : Quat (Fl ℝ rnd)} {P : Quat ℝ} {e f : ℝ} (h : a.Near e P) (he : e ≤ f) : a.Near f P := by
  have m : ∀ {x : Fl ℝ rnd} {y : ℝ}, x.Within e y → x.Within f y := fun ⟨z, h1, h2⟩ => ⟨z, h1, h2.trans he⟩
  exact ⟨m h.1, m h.2.1, m h.2.2.1, m h.2.2.2⟩

theorem unit_sq {P : Quat ℝ} (hP : P.IsUnit) : P.x ^ 2 + P.y ^ 2 + P.z ^ 2 + P.w ^ 2 = 1 := by
  have := hP
  simp only [Quat.IsUnit] at this
  linarith

theorem arc_ne {P Q : Quat ℝ} (h : -0.95 ≤ P.dot Q) (h1 : P.dot Q ≤ 0.9502) :
    Real.sin (Real.arccos (P.x * Q.x + P.y * Q.y + P.z * Q.z + P.w * Q.w)) ≠ 0 := by
  have e : P.x * Q.x + P.y * Q.y + P.z * Q.z + P.w * Q.w = P.dot Q := rfl
  rw [e, Real.sin_arccos]
  refine (Real.sqrt_pos.2 ?_).ne'
  norm_num at h h1
  nlinarith

theorem Between.unit {P Q S : Quat ℝ} (hP : P.IsUnit) (hQ : Q.IsUnit) {w : ℝ} (w0 : 0 ≤ w) (w1 : w ≤ 1) (h : -0.95 ≤ P.dot Q)
    (hS : P.Between Q w S) : S.IsUnit := by
  rcases hS with ⟨h1, rfl⟩ | ⟨h1, rfl⟩
  · exact ((C158_points hP hQ w0 w1).1 (by rw [abs_lt]; constructor <;> norm_num at * <;> linarith)).1
  · exact ((C158_points hP hQ w0 w1).2 (by norm_num at *; linarith)).1

theorem Between.zero {P Q S : Quat ℝ} (hP : P.IsUnit) (h : -0.95 ≤ P.dot Q) (hS : P.Between Q 0 S) : S = P := by
  rcases hS with ⟨h1, rfl⟩ | ⟨-, rfl⟩
  · have hs : Real.sin (Real.arccos (P.x * Q.x + P.y * Q.y + P.z * Q.z + P.w * Q.w)) ≠ 0 := arc_ne h h1
    ext <;> simp [Quat.arcPoint] <;> field_simp
  · have n : √(P.x ^ 2 + P.y ^ 2 + P.z ^ 2 + P.w ^ 2) = 1 := by rw [unit_sq hP, Real.sqrt_one]
    ext <;> simp [Quat.chordPoint, n]

theorem Between.one {P Q S : Quat ℝ} (hQ : Q.IsUnit) (h : -0.95 ≤ P.dot Q) (hS : P.Between Q 1 S) : S = Q := by
  rcases hS with ⟨h1, rfl⟩ | ⟨-, rfl⟩
  · have hs : Real.sin (Real.arccos (P.x * Q.x + P.y * Q.y + P.z * Q.z + P.w * Q.w)) ≠ 0 := arc_ne h h1
    ext <;> simp [Quat.arcPoint] <;> exact mul_inv_cancel_right₀ hs _
  · have n : √(Q.x ^ 2 + Q.y ^ 2 + Q.z ^ 2 + Q.w ^ 2) = 1 := by rw [unit_sq hQ, Real.sqrt_one]
    ext <;> simp [Quat.chordPoint, n]

/-- one step, with all tolerances in one -/
theorem step (hr : IsRel rnd u) (hu : u ≤ 1 / 1048576) {a b : Quat (Fl ℝ rnd)} {P Q : Quat ℝ} (hP : P.IsUnit) (hQ : Q.IsUnit)
    (ha : a.Near (8 * u) P) (hb : b.Near (8 * u) Q) {w : ℝ} (w0 : 0 ≤ w) (w1 : w ≤ 1) (h : -0.95 ≤ P.dot Q) :
    ∃ r S, a.slerpNoInvert b (.num w) = .ok r ∧ P.Between Q w S ∧ S.IsUnit ∧ r.Near (5100 * u) S := by
  have h0 := hr.nonneg
  obtain ⟨r, er, hi⟩ := C158_noInvert hr hu hP hQ ha hb w0 w1 h
  rcases hi with ⟨h1, h2⟩ | ⟨h1, h2⟩
  · have hb : P.Between Q w (P.arcPoint Q w) := Or.inl ⟨h1, rfl⟩
    exact ⟨r, _, er, hb, Between.unit hP hQ w0 w1 h hb, h2⟩
  · have hb : P.Between Q w (P.chordPoint Q w) := Or.inr ⟨h1, rfl⟩
    exact ⟨r, _, er, hb, Between.unit hP hQ w0 w1 h hb, Near.mono h2 (by linarith)⟩

/-- the computed weight of the third step -/
theorem weight (hr : IsRel rnd u) (hu : u ≤ 1 / 1048576) {w : ℝ} (w0 : 0 ≤ w) (w1 : w ≤ 1) :
    ∃ v : ℝ, (2 * .num w * (1 - .num w) : Fl ℝ rnd) = .num v ∧ |v - 2 * w * (1 - w)| ≤ 4.1 * u * (2 * w * (1 - w)) ∧ 0 ≤ v ∧ v ≤ 1 := by
  have h0 := hr.nonneg
  have h2 : Rel u 1 2 (2 : Fl ℝ rnd) := by
    obtain ⟨θ, k1, k2⟩ := hr.fac ((2 : ℕ) : ℝ)
    refine ⟨θ, k1, ?_⟩
    change Fl.num (rnd ((2 : ℕ) : ℝ)) = _
    rw [k2]; norm_num
  have h3 : Rel u 1 (1 - w) (1 - .num w : Fl ℝ rnd) := by rw [Fl.one_def]; exact Rel.sub hr 1 w
  obtain ⟨v, ev, hv⟩ := (Rel.mul hr (Rel.mul hr h2 (Rel.exact hr w) (k := 2)) h3 (k := 4)).error hr
  have m0 : 0 ≤ 2 * w * (1 - w) := mul_nonneg (by linarith) (by linarith)
  have m1 : 2 * w * (1 - w) ≤ 1 / 2 := by nlinarith [sq_nonneg (2 * w - 1)]
  have g : gam u 4 ≤ 4.1 * u := by
    refine (gam_le hr.lt_one (n := 4) (by push_cast; linarith)).trans ?_
    rw [div_le_iff₀ (by push_cast; linarith)]
    push_cast
    nlinarith
  rw [abs_of_nonneg m0] at hv
  have b : |v - 2 * w * (1 - w)| ≤ 4.1 * u * (2 * w * (1 - w)) := hv.trans (mul_le_mul_of_nonneg_right g m0)
  have b1 := mul_le_mul_of_nonneg_left m1 h0
  have b2 := mul_le_mul_of_nonneg_right hu m0
  have b3 := abs_le.1 b
  exact ⟨v, ev, b, by linarith, by linarith⟩

end SquadErr

open SquadErr

/-- C192: with `u ≤ 2^-30`, so for `double`, `squad` of unit quaternions is the exact composition of three interpolations up to `3.3` million units: `S` between the first two
and `T` between the other two at the weight `w`, and `R` between `S` and `T` at `2 w (1 - w)` up to `4.1` units of it; no assertion and no NaN, as long as none of the three pairs is nearly
opposite. -/
theorem C192_squad (hr : IsRel rnd u) (hu : u ≤ 1 / 2 ^ 30) (P Q A B : Quat ℝ) (hP : P.IsUnit) (hQ : Q.IsUnit) (hA : A.IsUnit) (hB : B.IsUnit)
    {w : ℝ} (w0 : 0 ≤ w) (w1 : w ≤ 1) (h1 : -0.95 ≤ P.dot Q) (h2 : -0.95 ≤ A.dot B)
    (h3 : ∀ S T, P.Between Q w S → A.Between B w T → -0.95 ≤ S.dot T) :
    ∃ (r : Quat (Fl ℝ rnd)) (S T R : Quat ℝ) (v : ℝ),
      Quat.squad (Quat.num P : Quat (Fl ℝ rnd)) (Quat.num Q) (Quat.num A) (Quat.num B) (.num w) = .ok r ∧
      P.Between Q w S ∧ A.Between B w T ∧ |v - 2 * w * (1 - w)| ≤ 4.1 * u * (2 * w * (1 - w)) ∧ S.Between T v R ∧ R.IsUnit ∧ r.Near (3300000 * u) R := by
  have h0 := hr.nonneg
  have hu' : u ≤ 1 / 1048576 := hu.trans (by norm_num)
  obtain ⟨s, S, es, bS, uS, nS⟩ := step hr hu' hP hQ (SlerpErr.exact hr P) (SlerpErr.exact hr Q) w0 w1 h1
  obtain ⟨t, T, et, bT, uT, nT⟩ := step hr hu' hA hB (SlerpErr.exact hr A) (SlerpErr.exact hr B) w0 w1 h2
  obtain ⟨v, ev, hv, v0, v1⟩ := weight hr hu' w0 w1
  have hr' := coarse hr (show u ≤ 640 * u by linarith) (show 640 * u < 1 by norm_num at hu; linarith)
  obtain ⟨r, R, er, bR, uR, nR⟩ := step hr' (show 640 * u ≤ 1 / 1048576 by norm_num at hu ⊢; linarith) uS uT
    (Near.mono nS (by linarith)) (Near.mono nT (by linarith)) v0 v1 (h3 S T bS bT)
  refine ⟨r, S, T, R, v, ?_, bS, bT, hv, bR, uR, Near.mono nR (by linarith)⟩
  have hw : (.num w : Fl ℝ rnd) ≥ 0 ∧ (.num w : Fl ℝ rnd) ≤ 1 := by
    rw [Fl.zero_def, Fl.one_def]; simpa using ⟨w0, w1⟩
  unfold Quat.squad
  rw [if_pos hw, es, et, ev]
  exact er

/-- C192: at its ends `squad` returns the first two quaternions up to `3.3` million units (`4·10^-10` for `double`). -/
theorem C192_ends (hr : IsRel rnd u) (hu : u ≤ 1 / 2 ^ 30) (P Q A B : Quat ℝ) (hP : P.IsUnit) (hQ : Q.IsUnit) (hA : A.IsUnit) (hB : B.IsUnit)
    (h1 : -0.95 ≤ P.dot Q) (h2 : -0.95 ≤ A.dot B) :
    (-0.95 ≤ P.dot A → ∃ r : Quat (Fl ℝ rnd),
      Quat.squad (Quat.num P : Quat (Fl ℝ rnd)) (Quat.num Q) (Quat.num A) (Quat.num B) 0 = .ok r ∧ r.Near (3300000 * u) P) ∧
    (-0.95 ≤ Q.dot B → ∃ r : Quat (Fl ℝ rnd),
      Quat.squad (Quat.num P : Quat (Fl ℝ rnd)) (Quat.num Q) (Quat.num A) (Quat.num B) 1 = .ok r ∧ r.Near (3300000 * u) Q) := by
  constructor
  · intro h3
    obtain ⟨r, S, T, R, v, e, bS, bT, hv, bR, -, n⟩ := C192_squad hr hu P Q A B hP hQ hA hB (w := 0) le_rfl zero_le_one h1 h2
      (fun S T bS bT => by rw [Between.zero hP h1 bS, Between.zero hA h2 bT]; exact h3)
    obtain rfl := Between.zero hP h1 bS
    obtain rfl := Between.zero hA h2 bT
    have hv0 : v = 0 := by simpa using hv
    subst hv0
    obtain rfl := Between.zero hP h3 bR
    exact ⟨r, by rw [Fl.zero_def]; exact e, n⟩
  · intro h3
    obtain ⟨r, S, T, R, v, e, bS, bT, hv, bR, -, n⟩ := C192_squad hr hu P Q A B hP hQ hA hB (w := 1) zero_le_one le_rfl h1 h2
      (fun S T bS bT => by rw [Between.one hQ h1 bS, Between.one hB h2 bT]; exact h3)
    obtain rfl := Between.one hQ h1 bS
    obtain rfl := Between.one hB h2 bT
    have hv0 : v = 0 := by simpa using hv
    subst hv0
    obtain rfl := Between.zero hQ h3 bR
    exact ⟨r, by rw [Fl.one_def]; exact e, n⟩

/-- from the identity to a turn about `z`, and to one about `x` for the other pair, halfway, in `double` -/
example : ∃ (r : Quat (Fl ℝ (rne 53))) (S T R : Quat ℝ) (v : ℝ),
    Quat.squad (Quat.num ⟨0, 0, 0, 1⟩ : Quat (Fl ℝ (rne 53))) (Quat.num ⟨0, 0, 4 / 5, 3 / 5⟩) (Quat.num ⟨0, 0, 0, 1⟩)
      (Quat.num ⟨4 / 5, 0, 0, 3 / 5⟩) (.num (1 / 2)) = .ok r ∧
    (⟨0, 0, 0, 1⟩ : Quat ℝ).Between ⟨0, 0, 4 / 5, 3 / 5⟩ (1 / 2) S ∧ (⟨0, 0, 0, 1⟩ : Quat ℝ).Between ⟨4 / 5, 0, 0, 3 / 5⟩ (1 / 2) T ∧
    |v - 2 * (1 / 2) * (1 - 1 / 2)| ≤ 4.1 * 2 ^ (-((53 : ℕ) : ℤ)) * (2 * (1 / 2) * (1 - 1 / 2)) ∧ S.Between T v R ∧ R.IsUnit ∧
    r.Near (3300000 * 2 ^ (-((53 : ℕ) : ℤ))) R := by
  have d1 : (-0.95 : ℝ) ≤ Quat.dot (⟨0, 0, 0, 1⟩ : Quat ℝ) ⟨0, 0, 4 / 5, 3 / 5⟩ := by norm_num [Quat.dot]
  have d2 : (-0.95 : ℝ) ≤ Quat.dot (⟨0, 0, 0, 1⟩ : Quat ℝ) ⟨4 / 5, 0, 0, 3 / 5⟩ := by norm_num [Quat.dot]
  have i : (⟨0, 0, 0, 1⟩ : Quat ℝ).IsUnit := by norm_num [Quat.IsUnit]
  refine C192_squad (isRel_rne 53 (by norm_num)) (by norm_num) _ _ _ _ i (by norm_num [Quat.IsUnit]) i (by norm_num [Quat.IsUnit])
    (by norm_num) (by norm_num) d1 d2 (fun S T bS bT => ?_)
  rcases bS with ⟨-, rfl⟩ | ⟨h, -⟩
  · rcases bT with ⟨-, rfl⟩ | ⟨h, -⟩
    · have a0 := Real.arccos_nonneg (3 / 5)
      have a1 := Real.arccos_le_pi (3 / 5)
      have s1 : 0 ≤ Real.sin (Real.arccos (3 / 5) * (1 / 2)) := Real.sin_nonneg_of_nonneg_of_le_pi (by linarith) (by linarith)
      have s2 : 0 ≤ Real.sin (Real.arccos (3 / 5)) := Real.sin_nonneg_of_nonneg_of_le_pi a0 a1
      refine le_trans (by norm_num) (?_ : (0 : ℝ) ≤ _)
      have e : (1 - 1 / 2 : ℝ) = 1 / 2 := by norm_num
      simp only [Quat.arcPoint, Quat.dot, mul_zero, zero_mul, zero_add, add_zero, one_mul, e]
      positivity
    · norm_num [Quat.dot] at h
  · norm_num [Quat.dot] at h

example : ∃ r : Quat (Fl ℝ (rne 53)),
    Quat.squad (Quat.num ⟨0, 0, 0, 1⟩ : Quat (Fl ℝ (rne 53))) (Quat.num ⟨0, 0, 4 / 5, 3 / 5⟩) (Quat.num ⟨0, 0, 0, 1⟩)
      (Quat.num ⟨4 / 5, 0, 0, 3 / 5⟩) 1 = .ok r ∧ r.Near (3300000 * 2 ^ (-((53 : ℕ) : ℤ))) ⟨0, 0, 4 / 5, 3 / 5⟩ :=
  (C192_ends (isRel_rne 53 (by norm_num)) (by norm_num) _ _ _ _ (by norm_num [Quat.IsUnit]) (by norm_num [Quat.IsUnit])
    (by norm_num [Quat.IsUnit]) (by norm_num [Quat.IsUnit]) (by norm_num [Quat.dot]) (by norm_num [Quat.dot])).2 (by norm_num [Quat.dot])

end MathLib
