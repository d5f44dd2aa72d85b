import Verif.Proof.BallLemmas

/-! # Property C111: moving and scaling circles and spheres -/

namespace MathLib

/-- C111: `+` and `-` move the disc, `*` and `/` by a positive factor blow it up about its centre. -/
theorem C111_circle (s : Circle ℝ) (hs : 0 ≤ s.radius) (t : Vec2 ℝ) (k : ℝ) :
    (∃ r, s.add t = .ok r ∧ r.toSet = (fun p => p + t) '' s.toSet) ∧
    (∃ r, s.sub t = .ok r ∧ r.toSet = (fun p => p - t) '' s.toSet) ∧
    (0 ≤ k → ∃ r, s.mul k = .ok r ∧ r.toSet = (fun p => s.center + (p - s.center) * k) '' s.toSet) ∧
    (0 < k → ∃ r, s.div k = .ok r ∧ r.toSet = (fun p => s.center + (p - s.center) * (1 / k)) '' s.toSet) ∧
    s.div 0 = .error .assertion := by
  have scale : ∀ k : ℝ, 0 ≤ k → (⟨s.center, s.radius * k⟩ : Circle ℝ).toSet =
      (fun p => s.center + (p - s.center) * k) '' s.toSet := by
    intro k hk
    ext q
    simp only [Circle.toSet, Set.mem_ofPred_eq, Set.mem_image]
    constructor
    · intro h
      rcases hk.eq_or_lt with rfl | hk
      · refine ⟨s.center, by simpa using hs, ?_⟩
        rw [mul_zero] at h
        have := dist_le_zero.1 h
        obtain ⟨e1, e2⟩ : q.x = s.center.x ∧ q.y = s.center.y :=
          ⟨by simpa [Vec2.toE, Vec2.toFn] using congrFun (congrArg (·.ofLp) this) 0,
           by simpa [Vec2.toE, Vec2.toFn] using congrFun (congrArg (·.ofLp) this) 1⟩
        ext <;> simp [e1, e2]
      · refine ⟨s.center + (q - s.center) * (1 / k), ?_, ?_⟩
        · rw [dist_eq_norm] at h ⊢
          rw [Vec2.toE_add, Vec2.toE_mul, Vec2.toE_sub, add_sub_cancel_left, norm_smul,
            Real.norm_of_nonneg (by positivity)]
          rw [div_mul_eq_mul_div, one_mul, div_le_iff₀ hk]; exact h
        · ext <;> simp <;> field_simp <;> ring
    · rintro ⟨p, hp, rfl⟩
      rw [dist_eq_norm] at hp ⊢
      rw [Vec2.toE_add, Vec2.toE_mul, Vec2.toE_sub, add_sub_cancel_left, norm_smul, Real.norm_of_nonneg hk,
        mul_comm]
      gcongr
  refine ⟨⟨⟨s.center + t, s.radius⟩, by simp [Circle.add, Circle.mk', hs], ?_⟩,
    ⟨⟨s.center - t, s.radius⟩, by simp [Circle.sub, Circle.mk', hs], ?_⟩, fun hk => ?_, fun hk => ?_, ?_⟩
  · ext q
    simp only [Circle.toSet, Set.mem_ofPred_eq, Set.mem_image]
    constructor
    · intro h
      refine ⟨q - t, ?_, by ext <;> simp⟩
      rwa [dist_eq_norm, Vec2.toE_sub, sub_right_comm, ← sub_add_eq_sub_sub, ← Vec2.toE_add, ← dist_eq_norm]
    · rintro ⟨p, hp, rfl⟩
      rwa [Vec2.toE_add, Vec2.toE_add, dist_add_right]
  · ext q
    simp only [Circle.toSet, Set.mem_ofPred_eq, Set.mem_image]
    constructor
    · intro h
      refine ⟨q + t, ?_, by ext <;> simp⟩
      rw [← dist_sub_right _ _ t.toE, ← Vec2.toE_sub, ← Vec2.toE_sub]
      have e : q + t - t = q := by ext <;> simp
      rwa [e]
    · rintro ⟨p, hp, rfl⟩
      rwa [Vec2.toE_sub, Vec2.toE_sub, dist_sub_right]
  · exact ⟨_, by simp only [Circle.mul, Circle.mk']; rw [if_pos (mul_nonneg hs hk)], scale k hk⟩
  · refine ⟨⟨s.center, s.radius * (1 / k)⟩, ?_, scale _ (by positivity)⟩
    simp only [Circle.div, Circle.mk']
    rw [if_neg (by simpa using hk.ne'), if_pos (div_nonneg hs hk.le), div_eq_mul_one_div]
  · simp [Circle.div]

theorem C111_sphere (s : Sphere ℝ) (hs : 0 ≤ s.radius) (t : Vec3 ℝ) (k : ℝ) :
    (∃ r, s.add t = .ok r ∧ r.toSet = (fun p => p + t) '' s.toSet) ∧
    (∃ r, s.sub t = .ok r ∧ r.toSet = (fun p => p - t) '' s.toSet) ∧
    (0 ≤ k → ∃ r, s.mul k = .ok r ∧ r.toSet = (fun p => s.center + (p - s.center) * k) '' s.toSet) ∧
    (0 < k → ∃ r, s.div k = .ok r ∧ r.toSet = (fun p => s.center + (p - s.center) * (1 / k)) '' s.toSet) ∧
    s.div 0 = .error .assertion := by
  have scale : ∀ k : ℝ, 0 ≤ k → (⟨s.center, s.radius * k⟩ : Sphere ℝ).toSet =
      (fun p => s.center + (p - s.center) * k) '' s.toSet := by
    intro k hk
    ext q
    simp only [Sphere.toSet, Set.mem_ofPred_eq, Set.mem_image]
    constructor
    · intro h
      rcases hk.eq_or_lt with rfl | hk
      · refine ⟨s.center, by simpa using hs, ?_⟩
        rw [mul_zero] at h
        have := dist_le_zero.1 h
        obtain ⟨e1, e2, e3⟩ : q.x = s.center.x ∧ q.y = s.center.y ∧ q.z = s.center.z :=
          ⟨by simpa [Vec3.toE, Vec3.toFn] using congrFun (congrArg (·.ofLp) this) 0,
           by simpa [Vec3.toE, Vec3.toFn] using congrFun (congrArg (·.ofLp) this) 1,
           by simpa [Vec3.toE, Vec3.toFn] using congrFun (congrArg (·.ofLp) this) 2⟩
        ext <;> simp [e1, e2, e3]
      · refine ⟨s.center + (q - s.center) * (1 / k), ?_, ?_⟩
        · rw [dist_eq_norm] at h ⊢
          rw [Vec3.toE_add, Vec3.toE_mul, Vec3.toE_sub, add_sub_cancel_left, norm_smul,
            Real.norm_of_nonneg (by positivity)]
          rw [div_mul_eq_mul_div, one_mul, div_le_iff₀ hk]; exact h
        · ext <;> simp <;> field_simp <;> ring
    · rintro ⟨p, hp, rfl⟩
      rw [dist_eq_norm] at hp ⊢
      rw [Vec3.toE_add, Vec3.toE_mul, Vec3.toE_sub, add_sub_cancel_left, norm_smul, Real.norm_of_nonneg hk,
        mul_comm]
      gcongr
  refine ⟨⟨⟨s.center + t, s.radius⟩, by simp [Sphere.add, Sphere.mk', hs], ?_⟩,
    ⟨⟨s.center - t, s.radius⟩, by simp [Sphere.sub, Sphere.mk', hs], ?_⟩, fun hk => ?_, fun hk => ?_, ?_⟩
  · ext q
    simp only [Sphere.toSet, Set.mem_ofPred_eq, Set.mem_image]
    constructor
    · intro h
      refine ⟨q - t, ?_, by ext <;> simp⟩
      rwa [dist_eq_norm, Vec3.toE_sub, sub_right_comm, ← sub_add_eq_sub_sub, ← Vec3.toE_add, ← dist_eq_norm]
    · rintro ⟨p, hp, rfl⟩
      rwa [Vec3.toE_add, Vec3.toE_add, dist_add_right]
  · ext q
    simp only [Sphere.toSet, Set.mem_ofPred_eq, Set.mem_image]
    constructor
    · intro h
      refine ⟨q + t, ?_, by ext <;> simp⟩
      rw [← dist_sub_right _ _ t.toE, ← Vec3.toE_sub, ← Vec3.toE_sub]
      have e : q + t - t = q := by ext <;> simp
      rwa [e]
    · rintro ⟨p, hp, rfl⟩
      rwa [Vec3.toE_sub, Vec3.toE_sub, dist_sub_right]
  · exact ⟨_, by simp only [Sphere.mul, Sphere.mk']; rw [if_pos (mul_nonneg hs hk)], scale k hk⟩
  · refine ⟨⟨s.center, s.radius * (1 / k)⟩, ?_, scale _ (by positivity)⟩
    simp only [Sphere.div, Sphere.mk']
    rw [if_neg (by simpa using hk.ne'), if_pos (div_nonneg hs hk.le), div_eq_mul_one_div]
  · simp [Sphere.div]

/-- Full statement: on balls with a non-negative radius the compound operators have the effect of the
binary ones. -/
def C111_compound_full : Prop :=
  (∀ (s : Circle ℝ) (t : Vec2 ℝ) (k : ℝ), 0 ≤ s.radius → s.add t = .ok (s.addAssign t) ∧
    s.sub t = .ok (s.subAssign t) ∧ s.mul k = .ok (s.mulAssign k) ∧ s.div k = s.divAssign k) ∧
  (∀ (s : Sphere ℝ) (t : Vec3 ℝ) (k : ℝ), 0 ≤ s.radius → s.add t = .ok (s.addAssign t) ∧
    s.sub t = .ok (s.subAssign t) ∧ s.mul k = .ok (s.mulAssign k) ∧ s.div k = s.divAssign k)

/-- For a negative factor it fails: `s * k` stops with a failed assertion, `s *= k` goes on with a
negative radius, which contains nothing. -/
theorem C111_compound_refuted : ¬ C111_compound_full ∧
    (⟨⟨0, 0⟩, 1⟩ : Circle ℝ).mul (-1) = .error .assertion ∧
    ((⟨⟨0, 0⟩, 1⟩ : Circle ℝ).mulAssign (-1)).toSet = ∅ ∧
    (⟨⟨0, 0⟩, 1⟩ : Circle ℝ).div (-1) = .error .assertion ∧
    (⟨⟨0, 0⟩, 1⟩ : Circle ℝ).divAssign (-1) = .ok ⟨⟨0, 0⟩, -1⟩ := by
  have h1 : (⟨⟨0, 0⟩, 1⟩ : Circle ℝ).mul (-1) = .error .assertion := by norm_num [Circle.mul, Circle.mk']
  refine ⟨fun h => ?_, h1, ?_, by norm_num [Circle.div, Circle.mk'], by norm_num [Circle.divAssign]⟩
  · have := (h.1 ⟨⟨0, 0⟩, 1⟩ ⟨0, 0⟩ (-1) (by norm_num)).2.2.1
    rw [h1] at this
    cases this
  · ext q
    simp only [Circle.toSet, Circle.mulAssign, Set.mem_ofPred_eq, Set.mem_empty_iff_false, iff_false, not_le]
    have := dist_nonneg (x := q.toE) (y := (⟨0, 0⟩ : Vec2 ℝ).toE)
    linarith

/-- For non-negative factors the two forms agree.  Missing: negative factors (false). -/
theorem C111_compound_partial :
    (∀ (s : Circle ℝ) (t : Vec2 ℝ) (k : ℝ), 0 ≤ s.radius → 0 ≤ k → s.add t = .ok (s.addAssign t) ∧
      s.sub t = .ok (s.subAssign t) ∧ s.mul k = .ok (s.mulAssign k) ∧ s.div k = s.divAssign k) ∧
    (∀ (s : Sphere ℝ) (t : Vec3 ℝ) (k : ℝ), 0 ≤ s.radius → 0 ≤ k → s.add t = .ok (s.addAssign t) ∧
      s.sub t = .ok (s.subAssign t) ∧ s.mul k = .ok (s.mulAssign k) ∧ s.div k = s.divAssign k) := by
  constructor <;> intro s t k hs hk
  · have h1 := mul_nonneg hs hk
    have h2 := div_nonneg hs hk
    refine ⟨?_, ?_, ?_, ?_⟩
    · simp only [Circle.add, Circle.mk', ge_iff_le, hs, if_true]; rfl
    · simp only [Circle.sub, Circle.mk', ge_iff_le, hs, if_true]; rfl
    · simp only [Circle.mul, Circle.mk', ge_iff_le, h1, if_true]; rfl
    · simp only [Circle.div, Circle.divAssign, Circle.mk', ge_iff_le, h2, if_true]
  · have h1 := mul_nonneg hs hk
    have h2 := div_nonneg hs hk
    refine ⟨?_, ?_, ?_, ?_⟩
    · simp only [Sphere.add, Sphere.mk', ge_iff_le, hs, if_true]; rfl
    · simp only [Sphere.sub, Sphere.mk', ge_iff_le, hs, if_true]; rfl
    · simp only [Sphere.mul, Sphere.mk', ge_iff_le, h1, if_true]; rfl
    · simp only [Sphere.div, Sphere.divAssign, Sphere.mk', ge_iff_le, h2, if_true]

example : (0 : ℝ) ≤ (⟨⟨1, 2⟩, 3⟩ : Circle ℝ).radius := by norm_num

end MathLib
