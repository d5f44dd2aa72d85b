import Verif.Props.RoundedPredicates
import Verif.Model.Box

/-! # Property C122: identities that survive rounding

They hold exactly, for every odd rounding function (the first ones for every rounding function, `nan` included). -/

namespace MathLib
section
variable {K : Type} [Field K] {rnd : K → K}

private theorem Fl.mul_comm' (a b : Fl K rnd) : a * b = b * a := by
  cases a <;> cases b <;> first | rfl | (rw [Fl.num_mul, Fl.num_mul, mul_comm])
private theorem Fl.add_comm' (a b : Fl K rnd) : a + b = b + a := by
  cases a <;> cases b <;> first | rfl | (rw [Fl.num_add, Fl.num_add, add_comm])
private theorem Fl.neg_mul_neg' (a b : Fl K rnd) : -a * -b = a * b := by
  cases a <;> cases b <;> first | rfl | (rw [Fl.num_neg, Fl.num_neg, Fl.num_mul, Fl.num_mul, neg_mul_neg])
private theorem Fl.neg_sub' (h : ∀ x, rnd (-x) = -rnd x) (a b : Fl K rnd) : -(a - b) = b - a := by
  cases a <;> cases b <;> first | rfl | (rw [Fl.num_sub, Fl.num_sub, Fl.num_neg, ← h, neg_sub])
private theorem Fl.neg_neg' (a : Fl K rnd) : -(-a) = a := by
  cases a <;> first | rfl | (rw [Fl.num_neg, Fl.num_neg, neg_neg])
private theorem Fl.mul_neg' (h : ∀ x, rnd (-x) = -rnd x) (a b : Fl K rnd) : a * -b = -(a * b) := by
  cases a <;> cases b <;> first | rfl | (rw [Fl.num_neg, Fl.num_mul, Fl.num_mul, Fl.num_neg, ← h, mul_neg])
private theorem Fl.neg_add' (h : ∀ x, rnd (-x) = -rnd x) (a b : Fl K rnd) : -a + -b = -(a + b) := by
  cases a <;> cases b <;>
    first | rfl | (rw [Fl.num_neg, Fl.num_neg, Fl.num_add, Fl.num_add, Fl.num_neg, ← h, neg_add])
private theorem Fl.neg_sub_neg' (h : ∀ x, rnd (-x) = -rnd x) (a b : Fl K rnd) : -a - -b = -(a - b) := by
  cases a <;> cases b <;>
    first | rfl | (rw [Fl.num_neg, Fl.num_neg, Fl.num_sub, Fl.num_sub, Fl.num_neg, ← h]; congr 2; ring)

end

variable {K : Type} [Field K] [LinearOrder K] [IsStrictOrderedRing K] {rnd : K → K}

omit [LinearOrder K] [IsStrictOrderedRing K] in
/-- C122: scalar products are symmetric, the squared length does not depend on the sign of the vector. -/
theorem C122_dot (a b : Vec2 (Fl K rnd)) (c d : Vec3 (Fl K rnd)) (e f : Vec4 (Fl K rnd)) :
    a.dot b = b.dot a ∧ c.dot d = d.dot c ∧ e.dot f = f.dot e ∧
    (-a).lengthSqr = a.lengthSqr ∧ (-c).lengthSqr = c.lengthSqr ∧ a.dot a = a.lengthSqr ∧ c.dot c = c.lengthSqr := by
  refine ⟨?_, ?_, ?_, ?_, ?_, rfl, rfl⟩
  · rw [Vec2.dot, Vec2.dot, Fl.mul_comm' a.x, Fl.mul_comm' a.y]
  · rw [Vec3.dot, Vec3.dot, Fl.mul_comm' c.x, Fl.mul_comm' c.y, Fl.mul_comm' c.z]
  · rw [Vec4.dot, Vec4.dot, Fl.mul_comm' e.x, Fl.mul_comm' e.y, Fl.mul_comm' e.z, Fl.mul_comm' e.w]
  · change -a.x * -a.x + -a.y * -a.y = _
    rw [Fl.neg_mul_neg', Fl.neg_mul_neg']; rfl
  · change -c.x * -c.x + -c.y * -c.y + -c.z * -c.z = _
    rw [Fl.neg_mul_neg', Fl.neg_mul_neg', Fl.neg_mul_neg']; rfl

omit [LinearOrder K] [IsStrictOrderedRing K] in
private theorem dsq (h : ∀ x, rnd (-x) = -rnd x) (a b : Fl K rnd) : (a - b) * (a - b) = (b - a) * (b - a) := by
  rw [← Fl.neg_sub' h b a, Fl.neg_mul_neg']

omit [LinearOrder K] [IsStrictOrderedRing K] in
/-- C122: vector products are antisymmetric, distances symmetric. -/
theorem C122_cross (h : ∀ x, rnd (-x) = -rnd x) (a b : Vec2 (Fl K rnd)) (c d : Vec3 (Fl K rnd)) :
    a.cross b = -(b.cross a) ∧ c.cross d = -(d.cross c) ∧ distanceSqr2 a b = distanceSqr2 b a ∧
    distanceSqr3 c d = distanceSqr3 d c := by
  refine ⟨?_, ?_, ?_, ?_⟩
  · rw [Vec2.cross, Vec2.cross, Fl.neg_sub' h, Fl.mul_comm' a.x, Fl.mul_comm' a.y]
  · change Vec3.mk _ _ _ = Vec3.mk (-_) (-_) (-_)
    simp only [Vec3.cross]
    rw [Fl.neg_sub' h, Fl.neg_sub' h, Fl.neg_sub' h, Fl.mul_comm' c.x, Fl.mul_comm' c.y, Fl.mul_comm' c.z,
      Fl.mul_comm' c.z, Fl.mul_comm' c.x, Fl.mul_comm' c.y]
  · rw [distanceSqr2, distanceSqr2]
    simp only [dsq h b.x, dsq h b.y]
  · rw [distanceSqr3, distanceSqr3]
    simp only [dsq h d.x, dsq h d.y, dsq h d.z]

omit [LinearOrder K] [IsStrictOrderedRing K] in
/-- C122: turning a plane round changes the sign of the distance and nothing else. -/
theorem C122_plane (h : ∀ x, rnd (-x) = -rnd x) (p : Plane (Fl K rnd)) (v : Vec3 (Fl K rnd)) :
    p.flipped.distance v = -(p.distance v) ∧ p.flip.distance v = -(p.distance v) ∧ p.flip.flip = p := by
  have e : ∀ n : Vec3 (Fl K rnd), -n = ⟨-n.x, -n.y, -n.z⟩ := fun n => rfl
  refine ⟨?_, ?_, ?_⟩
  · simp only [Plane.flipped, Plane.distance, Vec3.dot, e, Fl.mul_neg' h, Fl.neg_add' h, Fl.neg_sub_neg' h]
  · simp only [Plane.flip, Plane.distance, Vec3.dot, e, Fl.mul_neg' h, Fl.neg_add' h, Fl.neg_sub_neg' h]
  · simp only [Plane.flip, e, Fl.neg_neg']

omit [IsStrictOrderedRing K] in
/-- C122: a triangle test does not depend on the vertex the triangle starts with. -/
theorem C122_triangle (t : Tri2 (Fl K rnd)) (p : Vec2 (Fl K rnd)) :
    (Tri2.mk t.b t.c t.a).contains p = t.contains p := by
  simp only [Tri2.contains]
  have e : ∀ x y z : Bool, (x && y && z) = (z && x && y) := by decide
  rw [e _ _ (decide (Vec2.crossProduct t.a t.b p ≥ 0)), e _ _ (decide (Vec2.crossProduct t.a t.b p ≤ 0))]

/-- C122: `intersects` is symmetric, for boxes and (with an odd rounding) balls. -/
theorem C122_intersects (h : ∀ x, rnd (-x) = -rnd x) (a b : AABB2 (Fl K rnd)) (c d : AABB3 (Fl K rnd))
    (s t : Circle (Fl K rnd)) (s' t' : Sphere (Fl K rnd)) (e f : CAABB3 (Fl K rnd)) (e' f' : CAABB2 (Fl K rnd)) :
    a.intersects b = b.intersects a ∧ c.intersects d = d.intersects c ∧ e.intersects f = f.intersects e ∧
    e'.intersects f' = f'.intersects e' ∧ s.intersects t = t.intersects s ∧ s'.intersects t' = t'.intersects s' := by
  refine ⟨?_, ?_, ?_, ?_, ?_, ?_⟩
  · simp only [AABB2.intersects, gt_iff_lt, or_comm]
  · simp only [AABB3.intersects, gt_iff_lt, or_comm]
  · simp only [CAABB3.intersects, gt_iff_lt, or_comm]
  · simp only [CAABB2.intersects, gt_iff_lt, or_comm]
  · have e1 : (s.center - t.center).lengthSqr = (t.center - s.center).lengthSqr := by
      change distanceSqr2 t.center s.center = distanceSqr2 s.center t.center
      exact (C122_cross h _ _ ⟨.nan, .nan, .nan⟩ ⟨.nan, .nan, .nan⟩).2.2.1
    simp only [Circle.intersects, e1, Fl.add_comm' s.radius]
  · have e1 : (s'.center - t'.center).lengthSqr = (t'.center - s'.center).lengthSqr := by
      change distanceSqr3 t'.center s'.center = distanceSqr3 s'.center t'.center
      exact (C122_cross h ⟨.nan, .nan⟩ ⟨.nan, .nan⟩ _ _).2.2.2
    simp only [Sphere.intersects, e1, Fl.add_comm' s'.radius]

/-- C122: interpolation is monotone in the ratio (and between the ends that it computes) for every monotone rounding. -/
theorem C122_lerp (hm : Monotone rnd) (h0 : rnd 0 = 0) (a b : K) (ha : rnd a = a) :
    ∃ f : K → K, (∀ t, lerp (.num a : Fl K rnd) (.num b) (.num t) = .num (f t)) ∧ f 0 = a ∧
      (a ≤ b → Monotone f) ∧ (b ≤ a → Antitone f) := by
  refine ⟨fun t => rnd (a + rnd (rnd (b - a) * t)), fun t => rfl, by simp [h0, ha], fun h s t hst => ?_,
    fun h s t hst => ?_⟩
  · have : 0 ≤ rnd (b - a) := by rw [← h0]; exact hm (by linarith)
    exact hm (by gcongr; exact hm (mul_le_mul_of_nonneg_left hst this))
  · have : rnd (b - a) ≤ 0 := by rw [← h0]; exact hm (by linarith)
    exact hm (by gcongr; exact hm (mul_le_mul_of_nonpos_left hst this))

/-! ## Scaling by powers of two -/

section
variable [FloorRing K]

theorem log_mul_zpow (x : K) (hx : 0 < x) (k : ℤ) : Int.log 2 (x * (2 : K) ^ k) = Int.log 2 x + k := by
  obtain ⟨h1, h2⟩ := log_bounds x hx
  have hk := zpow2_pos (K := K) k
  have hp : 0 < x * (2 : K) ^ k := mul_pos hx hk
  have two : ((2 : ℕ) : K) = 2 := by norm_num
  apply le_antisymm
  · have : Int.log 2 (x * (2 : K) ^ k) < Int.log 2 x + 1 + k := by
      rw [← Int.lt_zpow_iff_log_lt one_lt_two hp, two, zpow_add₀ two_ne_zero]
      exact mul_lt_mul_of_pos_right h2 hk
    omega
  · rw [← Int.zpow_le_iff_le_log one_lt_two hp, two, zpow_add₀ two_ne_zero]
    exact mul_le_mul_of_nonneg_right h1 hk.le

/-- Rounding commutes with scaling by a power of two. -/
theorem rne_mul_zpow (p : ℕ) (x : K) (k : ℤ) : rne p (x * (2 : K) ^ k) = rne p x * (2 : K) ^ k := by
  have hk := zpow2_pos (K := K) k
  by_cases hx : x = 0
  · simp [hx, rne_zero]
  · unfold rne
    rw [if_neg (mul_ne_zero hx hk.ne'), if_neg hx]
    simp only [abs_mul, abs_of_pos hk, log_mul_zpow |x| (abs_pos.2 hx) k]
    have e : Int.log 2 |x| + k - ((p : ℤ) - 1) = Int.log 2 |x| - ((p : ℤ) - 1) + k := by ring
    rw [e, zpow_add₀ two_ne_zero, mul_div_mul_right _ _ hk.ne', mul_assoc]

end

/-- C122: vectors scaled by a power of two: products scale exactly. -/
theorem C122_scale_dot [FloorRing K] (p : ℕ) (k : ℤ) (a b : Vec3 K) :
    ∃ v w : K, (Vec3.num a : Vec3 (Fl K (rne p))).dot (Vec3.num b) = .num v ∧
      (Vec3.num ⟨a.x * 2 ^ k, a.y * 2 ^ k, a.z * 2 ^ k⟩ : Vec3 (Fl K (rne p))).dot (Vec3.num b) = .num w ∧
      w = v * 2 ^ k := by
  refine ⟨_, _, rfl, rfl, ?_⟩
  have e : ∀ x y : K, x * 2 ^ k * y = x * y * 2 ^ k := fun x y => by ring
  simp only [e, rne_mul_zpow, ← add_mul]

private theorem sqrt_zpow (k : ℤ) (x : ℝ) : √(x * (2 : ℝ) ^ k * (2 : ℝ) ^ k) = √x * 2 ^ k := by
  have hk := zpow2_pos (K := ℝ) k
  rw [mul_assoc, Real.sqrt_mul' _ (mul_self_nonneg _), Real.sqrt_mul_self hk.le]

/-- C122: the computed length of a vector scaled by a power of two is the scaled computed length, and its
`normalized` is the very same vector. -/
theorem C122_scale (p : ℕ) (hp : 1 ≤ p) (k : ℤ) (a : Vec3 ℝ) (n : ℝ) :
    ∃ v w : ℝ, (Vec3.num a : Vec3 (Fl ℝ (rne p))).length = .num v ∧
      (Vec3.num ⟨a.x * 2 ^ k, a.y * 2 ^ k, a.z * 2 ^ k⟩ : Vec3 (Fl ℝ (rne p))).length = .num w ∧
      w = v * 2 ^ k ∧
      (Vec3.num ⟨a.x * 2 ^ k, a.y * 2 ^ k, a.z * 2 ^ k⟩ : Vec3 (Fl ℝ (rne p))).normalized (.num n) =
        (Vec3.num a : Vec3 (Fl ℝ (rne p))).normalized (.num n) := by
  have hk := zpow2_pos (K := ℝ) k
  have hm := rne_mono (K := ℝ) p hp
  have nn : ∀ x : ℝ, 0 ≤ x → 0 ≤ rne p x := fun x hx => by rw [← rne_zero (K := ℝ) p]; exact hm hx
  have len : ∀ a : Vec3 ℝ, (Vec3.num a : Vec3 (Fl ℝ (rne p))).length =
      .num (rne p √(rne p (rne p (rne p (a.x * a.x) + rne p (a.y * a.y)) + rne p (a.z * a.z)))) := by
    intro a
    have h0 : 0 ≤ rne p (rne p (rne p (a.x * a.x) + rne p (a.y * a.y)) + rne p (a.z * a.z)) :=
      nn _ (add_nonneg (nn _ (add_nonneg (nn _ (mul_self_nonneg _)) (nn _ (mul_self_nonneg _))))
        (nn _ (mul_self_nonneg _)))
    change (if _ < (0 : ℝ) then Fl.nan else Fl.num _) = _
    rw [if_neg (not_lt.2 h0)]
  set v := rne p √(rne p (rne p (rne p (a.x * a.x) + rne p (a.y * a.y)) + rne p (a.z * a.z))) with hv
  have hl : (Vec3.num ⟨a.x * 2 ^ k, a.y * 2 ^ k, a.z * 2 ^ k⟩ : Vec3 (Fl ℝ (rne p))).length = .num (v * 2 ^ k) := by
    rw [len]
    have e : ∀ x : ℝ, x * 2 ^ k * (x * 2 ^ k) = x * x * 2 ^ k * 2 ^ k := fun x => by ring
    simp only [e, rne_mul_zpow, ← add_mul, sqrt_zpow, hv]
  refine ⟨v, v * 2 ^ k, len a, hl, rfl, ?_⟩
  simp only [Vec3.normalized, hl, len a, ← hv, Fl.zero_def, Fl.num_beq]
  by_cases h : v = 0
  · simp [h]
  · have hv2 : v * 2 ^ k ≠ 0 := mul_ne_zero h hk.ne'
    have e2 : n / (v * 2 ^ k) = n / v * 2 ^ (-k) := by rw [zpow_neg]; field_simp
    have e3 : ∀ x y : ℝ, x * 2 ^ k * (y * 2 ^ (-k)) = x * y := fun x y => by
      rw [zpow_neg]; field_simp
    simp only [h, hv2, decide_false, Bool.false_eq_true, if_false, Fl.num_div, Vec3.num, Fl.num_mul, e2, rne_mul_zpow,
      e3]

example : (∀ x : ℚ, rne 24 (-x) = -rne 24 x) ∧ Monotone (rne 24 : ℚ → ℚ) ∧ rne 24 (0 : ℚ) = 0 :=
  ⟨rne_neg 24, rne_mono 24 (by norm_num), rne_zero 24⟩

end MathLib
