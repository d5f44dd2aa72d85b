import Verif.Props.BoxBalls
import Mathlib.Analysis.Normed.Module.Basic
import Mathlib.Analysis.Normed.Module.RCLike.Real

/-! # Balls in a normed space, and the quadratic of the segment test -/

namespace MathLib

section
variable {E : Type*} [NormedAddCommGroup E] [NormedSpace ℝ E]

theorem ball_subset_iff [Nontrivial E] {c c' : E} {r R : ℝ} (hr : 0 ≤ r) :
    (∀ x, dist x c' ≤ r → dist x c ≤ R) ↔ dist c' c ≤ R - r := by
  constructor
  · intro h
    by_cases hd : c' = c
    · subst hd
      obtain ⟨v, hv⟩ := exists_norm_eq E hr
      have := h (c' + v) (by simp [dist_eq_norm, hv])
      simp [dist_eq_norm, hv] at this
      simpa using this
    · have hn : 0 < ‖c' - c‖ := norm_pos_iff.2 (sub_ne_zero.2 hd)
      have h1 := h (c' + (r / ‖c' - c‖) • (c' - c)) (by
        rw [dist_eq_norm, add_sub_cancel_left, norm_smul, Real.norm_of_nonneg (by positivity)]
        field_simp; rfl)
      rw [dist_eq_norm, show c' + (r / ‖c' - c‖) • (c' - c) - c = (1 + r / ‖c' - c‖) • (c' - c) by module,
        norm_smul, Real.norm_of_nonneg (by positivity)] at h1
      rw [dist_eq_norm]
      have : (1 + r / ‖c' - c‖) * ‖c' - c‖ = ‖c' - c‖ + r := by field_simp
      linarith
  · intro h x hx
    have := dist_triangle x c' c
    linarith

theorem ball_inter_iff {c c' : E} {r R : ℝ} (hr : 0 ≤ r) (hR : 0 ≤ R) :
    (∃ x, dist x c ≤ R ∧ dist x c' ≤ r) ↔ dist c c' ≤ R + r := by
  constructor
  · rintro ⟨x, h1, h2⟩
    have := dist_triangle_left c c' x
    linarith
  · intro h
    rcases (add_nonneg hR hr).eq_or_lt with h0 | hpos
    · have : R = 0 := by linarith
      have : r = 0 := by linarith
      exact ⟨c, by simp [hR], by linarith⟩
    · refine ⟨c + (R / (R + r)) • (c' - c), ?_, ?_⟩
      · rw [dist_eq_norm, add_sub_cancel_left, norm_smul, Real.norm_of_nonneg (by positivity), ← dist_eq_norm,
          dist_comm]
        calc R / (R + r) * dist c c' ≤ R / (R + r) * (R + r) := by gcongr
          _ = R := by field_simp
      · rw [dist_eq_norm, show c + (R / (R + r)) • (c' - c) - c' = (r / (R + r)) • (c - c') by
          rw [show r / (R + r) = 1 - R / (R + r) by field_simp; ring]; module,
          norm_smul, Real.norm_of_nonneg (by positivity), ← dist_eq_norm]
        calc r / (R + r) * dist c c' ≤ r / (R + r) * (R + r) := by gcongr
          _ = r := by field_simp
end

theorem Vec2.toE_surj (x : EuclideanSpace ℝ (Fin 2)) : ∃ v : Vec2 ℝ, v.toE = x :=
  ⟨⟨x 0, x 1⟩, by ext i; fin_cases i <;> simp [Vec2.toE, Vec2.toFn]⟩
theorem Vec3.toE_surj (x : EuclideanSpace ℝ (Fin 3)) : ∃ v : Vec3 ℝ, v.toE = x :=
  ⟨⟨x 0, x 1, x 2⟩, by ext i; fin_cases i <;> simp [Vec3.toE, Vec3.toFn]⟩

theorem Vec2.toE_add (a b : Vec2 ℝ) : (a + b).toE = a.toE + b.toE := by
  ext i; fin_cases i <;> simp [Vec2.toE, Vec2.toFn]
theorem Vec3.toE_add (a b : Vec3 ℝ) : (a + b).toE = a.toE + b.toE := by
  ext i; fin_cases i <;> simp [Vec3.toE, Vec3.toFn]
theorem Vec2.toE_sub (a b : Vec2 ℝ) : (a - b).toE = a.toE - b.toE := by
  ext i; fin_cases i <;> simp [Vec2.toE, Vec2.toFn]
theorem Vec3.toE_sub (a b : Vec3 ℝ) : (a - b).toE = a.toE - b.toE := by
  ext i; fin_cases i <;> simp [Vec3.toE, Vec3.toFn]
theorem Vec2.toE_mul (a : Vec2 ℝ) (k : ℝ) : (a * k).toE = k • a.toE := by
  ext i; fin_cases i <;> simp [Vec2.toE, Vec2.toFn, mul_comm]
theorem Vec3.toE_mul (a : Vec3 ℝ) (k : ℝ) : (a * k).toE = k • a.toE := by
  ext i; fin_cases i <;> simp [Vec3.toE, Vec3.toFn, mul_comm]

theorem distance2_eq (a b : Vec2 ℝ) : distance2 a b = dist a.toE b.toE := by
  rw [Vec2.dist_toE]; simp only [distance2, real_sqrt]; congr 1; ring
theorem distance3_eq (a b : Vec3 ℝ) : distance3 a b = dist a.toE b.toE := by
  rw [Vec3.dist_toE]; simp only [distance3, real_sqrt]; congr 1; ring

/-- the two branches of the segment test: `a t² + 2 b t + c` -/
theorem quad_neg {a b c : ℝ} (ha : 0 < a) (h : b * b - a * c < 0) (t : ℝ) : 0 < a * t ^ 2 + 2 * b * t + c := by
  have : 0 < a * (a * t ^ 2 + 2 * b * t + c) := by nlinarith [sq_nonneg (a * t + b)]
  exact (mul_pos_iff_of_pos_left ha).1 this

theorem quad_root {a b c : ℝ} (ha : 0 < a) (h : 0 ≤ b * b - a * c) :
    let x := (-b - Real.sqrt (b * b - a * c)) / a
    a * x ^ 2 + 2 * b * x + c = 0 ∧ ∀ t, t < x → 0 < a * t ^ 2 + 2 * b * t + c := by
  intro x
  have hs := Real.mul_self_sqrt h
  have hs0 := Real.sqrt_nonneg (b * b - a * c)
  have hx : a * x = -b - Real.sqrt (b * b - a * c) := by simp only [x]; field_simp
  have hroot : a * x ^ 2 + 2 * b * x + c = 0 := by
    have : a * (a * x ^ 2 + 2 * b * x + c) = 0 := by
      calc a * (a * x ^ 2 + 2 * b * x + c) = (a * x) ^ 2 + 2 * b * (a * x) + a * c := by ring
        _ = 0 := by rw [hx]; nlinarith
    exact (mul_eq_zero.1 this).resolve_left ha.ne'
  refine ⟨hroot, fun t ht => ?_⟩
  have e : a * t ^ 2 + 2 * b * t + c = (t - x) * (a * t + (a * x + 2 * b)) := by
    have : c = -(a * x ^ 2 + 2 * b * x) := by linarith
    rw [this]; ring
  rw [e]
  have h1 : a * t < a * x := by nlinarith
  apply mul_pos_of_neg_of_neg (by linarith)
  rw [hx] at h1 ⊢
  linarith

theorem quad_first {a b c t : ℝ} (ha : 0 < a) (hc : 0 < c) (ht0 : 0 ≤ t)
    (ht : a * t ^ 2 + 2 * b * t + c ≤ 0) :
    0 ≤ b * b - a * c ∧ 0 ≤ (-b - Real.sqrt (b * b - a * c)) / a ∧ (-b - Real.sqrt (b * b - a * c)) / a ≤ t := by
  have hd : 0 ≤ b * b - a * c := by
    by_contra h
    exact absurd ht (not_le.2 (quad_neg ha (not_le.1 h) t))
  obtain ⟨hroot, hlow⟩ := quad_root ha hd
  have hb : b ≤ 0 := by
    by_contra h
    have := mul_nonneg (not_le.1 h).le ht0
    nlinarith [mul_nonneg ha.le (sq_nonneg t)]
  refine ⟨hd, div_nonneg ?_ ha.le, ?_⟩
  · have : Real.sqrt (b * b - a * c) ≤ -b := by
      apply Real.sqrt_le_iff.2 ⟨by linarith, by nlinarith⟩
    linarith
  · by_contra h
    exact absurd ht (not_le.2 (hlow t (not_le.1 h)))

end MathLib

namespace MathLib

/-- the segment test on the coefficients of the quadratic -/
noncomputable def seg (a b c : ℝ) : Option ℝ :=
  if a = 0 then none else
  if b * b - a * c < 0 then none else
  let x := (-b - Real.sqrt (b * b - a * c)) / a
  if x < 0 ∨ x > 1 then none else some x

theorem seg_spec {a b c : ℝ} (ha : 0 ≤ a) (x : ℝ) :
    seg a b c = some x ↔ a ≠ 0 ∧ (0 ≤ x ∧ x ≤ 1) ∧ a * x ^ 2 + 2 * b * x + c ≤ 0 ∧
      ∀ u < x, 0 < a * u ^ 2 + 2 * b * u + c := by
  unfold seg
  by_cases h0 : a = 0
  · simp [h0]
  have hp : 0 < a := lt_of_le_of_ne ha (Ne.symm h0)
  rw [if_neg h0]
  by_cases hd : b * b - a * c < 0
  · rw [if_pos hd]
    refine ⟨by simp, fun ⟨_, _, h, _⟩ => absurd h (not_le.2 (quad_neg hp hd x))⟩
  rw [if_neg hd]
  obtain ⟨hr, hl⟩ := quad_root hp (not_lt.1 hd)
  have key : a * x ^ 2 + 2 * b * x + c ≤ 0 → (∀ u < x, 0 < a * u ^ 2 + 2 * b * u + c) →
      (-b - Real.sqrt (b * b - a * c)) / a = x := by
    intro h1 h2
    rcases lt_trichotomy x ((-b - Real.sqrt (b * b - a * c)) / a) with h | h | h
    · exact absurd h1 (not_le.2 (hl x h))
    · exact h.symm
    · exact absurd hr (h2 _ h).ne'
  simp only
  split_ifs with hx
  · refine ⟨by simp, fun ⟨_, h2, h3, h4⟩ => ?_⟩
    rw [key h3 h4] at hx
    rcases hx with hx | hx <;> linarith [h2.1, h2.2]
  · rw [not_or, not_lt, not_lt] at hx
    simp only [Option.some.injEq]
    constructor
    · rintro rfl
      exact ⟨h0, hx, hr.le, hl⟩
    · rintro ⟨_, _, h3, h4⟩
      exact key h3 h4

theorem seg_root {a b c x : ℝ} (h : seg a b c = some x) (ha : 0 ≤ a) : a * x ^ 2 + 2 * b * x + c = 0 := by
  have h' := (seg_spec ha x).1 h
  have hp : 0 < a := lt_of_le_of_ne ha (Ne.symm h'.1)
  unfold seg at h
  rw [if_neg h'.1] at h
  split_ifs at h with h1
  simp only at h
  split_ifs at h
  simp only [Option.some.injEq] at h
  rw [← h]
  exact (quad_root hp (not_lt.1 h1)).1

theorem seg_outside {a b c : ℝ} (ha : 0 ≤ a) (hab : a = 0 → b = 0) (hc : 0 < c) :
    (seg a b c).isSome = true ↔ ∃ t, 0 ≤ t ∧ t ≤ 1 ∧ a * t ^ 2 + 2 * b * t + c ≤ 0 := by
  constructor
  · intro h
    obtain ⟨x, hx⟩ := Option.isSome_iff_exists.1 h
    obtain ⟨_, h2, h3, _⟩ := (seg_spec ha x).1 hx
    exact ⟨x, h2.1, h2.2, h3⟩
  · rintro ⟨t, h0, h1, h2⟩
    rcases ha.eq_or_lt with e | hp
    · rw [hab e.symm, ← e] at h2; linarith
    · obtain ⟨hd, hx0, hxt⟩ := quad_first hp hc h0 h2
      obtain ⟨hr, hl⟩ := quad_root hp hd
      rw [(seg_spec ha _).2 ⟨hp.ne', ⟨hx0, hxt.trans h1⟩, hr.le, hl⟩]
      rfl

end MathLib
