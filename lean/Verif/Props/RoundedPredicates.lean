import Verif.Props.RoundedForward

/-! # Property C121: geometric tests in floating point, away from the border -/

namespace MathLib
variable {rnd : ℝ → ℝ} {u : ℝ}

section
variable (hr : IsRel rnd u)
include hr

private theorem le_of_rel {n m k : ℕ} {x y : ℝ} {a b : Fl ℝ rnd} (h : Rel u n x a) (h' : Rel u m y b)
    (hx : 0 ≤ x) (hy : 0 ≤ y) (hk : n + m ≤ k) :
    (x ≤ y * (1 - u) ^ k → a ≤ b) ∧ (y < x * (1 - u) ^ k → ¬ a ≤ b) := by
  obtain ⟨θ, ht, rfl⟩ := h
  obtain ⟨φ, hf, rfl⟩ := h'
  have gn := Fac.gpos hr.lt_one n
  have gm := Fac.gpos hr.lt_one m
  have hθ := ht.pos hr.lt_one
  have hφ := hf.pos hr.lt_one
  have gk : (1 - u) ^ k ≤ (1 - u) ^ n * (1 - u) ^ m := by
    rw [← pow_add]; exact pow_le_pow_of_le_one (by linarith [hr.lt_one]) (by linarith [hr.nonneg]) hk
  rw [Fl.num_le]
  constructor
  · intro h
    have h1 : x ≤ y * ((1 - u) ^ n * (1 - u) ^ m) := h.trans (mul_le_mul_of_nonneg_left gk hy)
    calc x * θ ≤ y * ((1 - u) ^ n * (1 - u) ^ m) * θ := mul_le_mul_of_nonneg_right h1 hθ.le
      _ = y * (1 - u) ^ m * (θ * (1 - u) ^ n) := by ring
      _ ≤ y * (1 - u) ^ m * 1 := mul_le_mul_of_nonneg_left ht.2 (mul_nonneg hy gm.le)
      _ ≤ y * φ := by rw [mul_one]; exact mul_le_mul_of_nonneg_left hf.1 hy
  · intro h h2
    have h1 : y < x * ((1 - u) ^ n * (1 - u) ^ m) := h.trans_le (mul_le_mul_of_nonneg_left gk hx)
    have h3 : x * (1 - u) ^ n ≤ y * φ := (mul_le_mul_of_nonneg_left ht.1 hx).trans h2
    have h4 : y * φ * (1 - u) ^ m ≤ y := by
      rw [mul_assoc]; exact mul_le_of_le_one_right hy hf.2
    have h5 := mul_le_mul_of_nonneg_right h3 gm.le
    linarith [mul_assoc x ((1 - u) ^ n) ((1 - u) ^ m)]

private theorem Rel.nonneg_iff {n : ℕ} {x : ℝ} {a : Fl ℝ rnd} (h : Rel u n x a) : a < 0 ↔ x < 0 := by
  obtain ⟨θ, ht, rfl⟩ := h
  have hθ := ht.pos hr.lt_one
  rw [Fl.zero_def, Fl.num_lt]
  exact ⟨fun h => by_contra fun h' => absurd (mul_nonneg (not_lt.1 h') hθ.le) (not_le.2 h),
    fun h => mul_neg_of_neg_of_pos h hθ⟩

/-- C121: a point well inside a ball is reported inside, a point well outside is reported outside: the shell of
uncertainty has a relative thickness of about four units. -/
theorem C121_contains (c : Vec2 ℝ) (r : ℝ) (p : Vec2 ℝ) (c' : Vec3 ℝ) (p' : Vec3 ℝ) (h0 : 0 ≤ r) :
    (√((c.x - p.x) ^ 2 + (c.y - p.y) ^ 2) ≤ r * (1 - u) ^ 3 →
      (Circle.mk (Vec2.num c) (.num r) : Circle (Fl ℝ rnd)).contains (Vec2.num p) = true) ∧
    (r < √((c.x - p.x) ^ 2 + (c.y - p.y) ^ 2) * (1 - u) ^ 3 →
      (Circle.mk (Vec2.num c) (.num r) : Circle (Fl ℝ rnd)).contains (Vec2.num p) = false) ∧
    (√((c'.x - p'.x) ^ 2 + (c'.y - p'.y) ^ 2 + (c'.z - p'.z) ^ 2) ≤ r * (1 - u) ^ 4 →
      (Sphere.mk (Vec3.num c') (.num r) : Sphere (Fl ℝ rnd)).contains (Vec3.num p') = true) ∧
    (r < √((c'.x - p'.x) ^ 2 + (c'.y - p'.y) ^ 2 + (c'.z - p'.z) ^ 2) * (1 - u) ^ 4 →
      (Sphere.mk (Vec3.num c') (.num r) : Sphere (Fl ℝ rnd)).contains (Vec3.num p') = false) := by
  simp only [pow_two, Circle.contains, Sphere.contains, decide_eq_true_eq, decide_eq_false_iff_not]
  have h2 := le_of_rel hr (rel_distance2 hr p c) (Rel.exact hr r) (Real.sqrt_nonneg _) h0 (k := 3) (by norm_num)
  have h3 := le_of_rel hr (rel_distance3 hr p' c') (Rel.exact hr r) (Real.sqrt_nonneg _) h0 (k := 4) (by norm_num)
  exact ⟨h2.1, h2.2, h3.1, h3.2⟩

/-- C121: a ball inside a ball. -/
theorem C121_containsBall (c d : Vec3 ℝ) (r s : ℝ) :
    (0 ≤ r - s → √((c.x - d.x) ^ 2 + (c.y - d.y) ^ 2 + (c.z - d.z) ^ 2) ≤ (r - s) * (1 - u) ^ 5 →
      (Sphere.mk (Vec3.num c) (.num r) : Sphere (Fl ℝ rnd)).containsSphere ⟨Vec3.num d, .num s⟩ = true) ∧
    ((r - s) < √((c.x - d.x) ^ 2 + (c.y - d.y) ^ 2 + (c.z - d.z) ^ 2) * (1 - u) ^ 5 →
      (Sphere.mk (Vec3.num c) (.num r) : Sphere (Fl ℝ rnd)).containsSphere ⟨Vec3.num d, .num s⟩ = false) := by
  simp only [pow_two, Sphere.containsSphere, decide_eq_true_eq, decide_eq_false_iff_not]
  have hd := rel_distance3 hr d c
  have hs := Rel.sub hr r s
  constructor
  · intro h0
    exact (le_of_rel hr hd hs (Real.sqrt_nonneg _) h0 (k := 5) (by norm_num)).1
  · intro h
    rcases le_or_gt 0 (r - s) with h0 | h0
    · exact (le_of_rel hr hd hs (Real.sqrt_nonneg _) h0 (k := 5) (by norm_num)).2 h
    · intro h1
      have h2 := (hs.nonneg_iff hr).2 h0
      obtain ⟨θ, ht, e⟩ := hd
      have h3 : 0 ≤ √((c.x - d.x) * (c.x - d.x) + (c.y - d.y) * (c.y - d.y) + (c.z - d.z) * (c.z - d.z)) * θ :=
        mul_nonneg (Real.sqrt_nonneg _) (ht.pos hr.lt_one).le
      rw [e] at h1
      rw [Fl.num_sub, Fl.zero_def, Fl.num_lt] at h2
      rw [Fl.num_sub, Fl.num_le] at h1
      linarith

omit hr in
private theorem beats {n m : ℕ} {x y : ℝ} {a b : Fl ℝ rnd} (h : Rel u n x a) (h' : Rel u m y b) : a > b ↔ ¬ a ≤ b := by
  obtain ⟨θ, ht, rfl⟩ := h
  obtain ⟨φ, hf, rfl⟩ := h'
  rw [gt_iff_lt, Fl.num_lt, Fl.num_le, not_le]

/-- C121: two balls that overlap by more than the uncertainty are reported to intersect, two balls that are further
apart are not. -/
theorem C121_intersects (c d : Vec3 ℝ) (r s : ℝ) (h0 : 0 ≤ r + s) (c' d' : Vec2 ℝ) :
    (√((c.x - d.x) ^ 2 + (c.y - d.y) ^ 2 + (c.z - d.z) ^ 2) ≤ (r + s) * (1 - u) ^ 4 →
      (Sphere.mk (Vec3.num c) (.num r) : Sphere (Fl ℝ rnd)).intersects ⟨Vec3.num d, .num s⟩ = true) ∧
    (r + s < √((c.x - d.x) ^ 2 + (c.y - d.y) ^ 2 + (c.z - d.z) ^ 2) * (1 - u) ^ 4 →
      (Sphere.mk (Vec3.num c) (.num r) : Sphere (Fl ℝ rnd)).intersects ⟨Vec3.num d, .num s⟩ = false) ∧
    (√((c'.x - d'.x) ^ 2 + (c'.y - d'.y) ^ 2) ≤ (r + s) * (1 - u) ^ 4 →
      (Circle.mk (Vec2.num c') (.num r) : Circle (Fl ℝ rnd)).intersects ⟨Vec2.num d', .num s⟩ = true) ∧
    (r + s < √((c'.x - d'.x) ^ 2 + (c'.y - d'.y) ^ 2) * (1 - u) ^ 4 →
      (Circle.mk (Vec2.num c') (.num r) : Circle (Fl ℝ rnd)).intersects ⟨Vec2.num d', .num s⟩ = false) := by
  have hm : Rel u 3 ((r + s) * (r + s)) ((.num r + .num s) * (.num r + .num s) : Fl ℝ rnd) :=
    Rel.mul hr (Rel.sum hr r s) (Rel.sum hr r s)
  have key : ∀ {n : ℕ} {q : ℝ} {a : Fl ℝ rnd}, n ≤ 5 → Rel u n q a → 0 ≤ q →
      (√q ≤ (r + s) * (1 - u) ^ 4 → (if a > (.num r + .num s) * (.num r + .num s) then false else true) = true) ∧
      (r + s < √q * (1 - u) ^ 4 → (if a > (.num r + .num s) * (.num r + .num s) then false else true) = false) := by
    intro n q a hn h hq
    have hg := Fac.gpos hr.lt_one 4
    have h2 := le_of_rel hr h hm hq (mul_nonneg h0 h0) (k := 8) (by omega)
    simp only [beats h hm]
    constructor
    · intro h3
      rw [if_neg (not_not.2 (h2.1 ?_))]
      rw [Real.sqrt_le_left (mul_nonneg h0 hg.le)] at h3
      calc q ≤ ((r + s) * (1 - u) ^ 4) ^ 2 := h3
        _ = _ := by ring
    · intro h3
      rw [if_pos (h2.2 ?_)]
      have h4 := mul_self_lt_mul_self h0 h3
      calc (r + s) * (r + s) < √q * (1 - u) ^ 4 * (√q * (1 - u) ^ 4) := h4
        _ = √q * √q * (1 - u) ^ 8 := by ring
        _ = _ := by rw [Real.mul_self_sqrt hq]
  have h3 := key (n := 5) le_rfl (rel_distanceSqr3 hr d c)
    (add_nonneg (add_nonneg (mul_self_nonneg _) (mul_self_nonneg _)) (mul_self_nonneg _))
  have h2 := key (n := 4) (by norm_num) (rel_distanceSqr2 hr d' c')
    (add_nonneg (mul_self_nonneg _) (mul_self_nonneg _))
  simp only [pow_two]
  exact ⟨h3.1, h3.2, h2.1, h2.2⟩

/-- C121: the computed side of a plane is right for every point whose distance exceeds the error bound. -/
theorem C121_side (n p : Vec3 ℝ) (d : ℝ) :
    let e := p.x * n.x + p.y * n.y + p.z * n.z - d
    let b := gam u 4 * (|p.x * n.x| + |p.y * n.y| + |p.z * n.z| + |d|)
    (b < e → 0 < (Plane.mk (Vec3.num n) (.num d) : Plane (Fl ℝ rnd)).distance (Vec3.num p)) ∧
    (e < -b → (Plane.mk (Vec3.num n) (.num d) : Plane (Fl ℝ rnd)).distance (Vec3.num p) < 0) := by
  intro e b
  obtain ⟨v, hv, h⟩ := C120_plane hr n p d
  rw [hv, Fl.zero_def, Fl.num_lt, Fl.num_lt]
  obtain ⟨h1, h2⟩ := abs_le.1 h
  exact ⟨fun h3 => by linarith, fun h3 => by linarith⟩

end

/-! ## Triangles -/

section
variable {K : Type} [Field K] [LinearOrder K] [IsStrictOrderedRing K]

/-- `p` is in the triangle -/
def InHull (a b c p : Vec2 K) : Prop :=
  ∃ α β γ : K, 0 ≤ α ∧ 0 ≤ β ∧ 0 ≤ γ ∧ α + β + γ = 1 ∧ p.x = α * a.x + β * b.x + γ * c.x ∧
    p.y = α * a.y + β * b.y + γ * c.y

private theorem cross_num {rnd : K → K} (hm : Monotone rnd) (h0 : rnd 0 = 0) (a b p : Vec2 K)
    (h1 : rnd (b.x - a.x) = b.x - a.x) (h2 : rnd (b.y - a.y) = b.y - a.y) (h3 : rnd (p.x - a.x) = p.x - a.x)
    (h4 : rnd (p.y - a.y) = p.y - a.y) :
    (0 ≤ Vec2.crossProduct a b p →
      0 ≤ Vec2.crossProduct (Vec2.num a : Vec2 (Fl K rnd)) (Vec2.num b) (Vec2.num p)) ∧
    (Vec2.crossProduct a b p ≤ 0 →
      Vec2.crossProduct (Vec2.num a : Vec2 (Fl K rnd)) (Vec2.num b) (Vec2.num p) ≤ 0) := by
  simp only [Vec2.crossProduct, Vec2.num, Fl.num_sub, Fl.num_mul, Fl.zero_def, Fl.num_le, h1, h2, h3, h4]
  constructor
  · intro h
    rw [← h0]; refine hm (sub_nonneg.2 (hm (sub_nonneg.1 h)))
  · intro h
    rw [← h0]; refine hm (sub_nonpos.2 (hm (sub_nonpos.1 h)))

/-- Full statement: no point of the triangle is rejected. -/
def C121_triangle_full (rnd : K → K) : Prop :=
  ∀ a b c p : Vec2 K, (∀ v ∈ [a, b, c, p], rnd v.x = v.x ∧ rnd v.y = v.y) → InHull a b c p →
    (Tri2.mk (Vec2.num a) (Vec2.num b) (Vec2.num c) : Tri2 (Fl K rnd)).contains (Vec2.num p) = true

/-- False for `float`: a point on an edge of a triangle is rejected. -/
theorem C121_triangle_refuted : ¬ C121_triangle_full (rne 24 : ℚ → ℚ) := by
  intro h
  have := h ⟨-6022905 / 4, -379027⟩ ⟨5373705, -2045554⟩ ⟨726957, 2599533 / 2⟩ ⟨1888644, 3707491 / 8⟩
    (by decide +kernel) ⟨0, 1 / 4, 3 / 4, by norm_num, by norm_num, by norm_num, by norm_num, by norm_num, by norm_num⟩
  revert this
  decide +kernel

/-- What holds for every monotone rounding: no point of the triangle is rejected if the differences of coordinates that
are formed are exact, e.g. for integers up to `2^(p-1)`; and the vertices are always accepted. -/
theorem C121_triangle_partial {rnd : K → K} (hm : Monotone rnd) (h0 : rnd 0 = 0) (a b c p : Vec2 K) :
    ((∀ q ∈ [(a, b), (b, c), (c, a), (a, p), (b, p), (c, p)],
        rnd (q.2.x - q.1.x) = q.2.x - q.1.x ∧ rnd (q.2.y - q.1.y) = q.2.y - q.1.y) → InHull a b c p →
      (Tri2.mk (Vec2.num a) (Vec2.num b) (Vec2.num c) : Tri2 (Fl K rnd)).contains (Vec2.num p) = true) ∧
    (∀ v ∈ [a, b, c],
      (Tri2.mk (Vec2.num a) (Vec2.num b) (Vec2.num c) : Tri2 (Fl K rnd)).contains (Vec2.num v) = true) := by
  constructor
  · rintro hd ⟨α, β, γ, hα, hβ, hγ, hs, hx, hy⟩
    simp only [List.mem_cons, List.not_mem_nil, or_false, forall_eq_or_imp, forall_eq] at hd
    obtain ⟨⟨a1, a2⟩, ⟨b1, b2⟩, ⟨c1, c2⟩, ⟨p1, p2⟩, ⟨q1, q2⟩, r1, r2⟩ := hd
    have k1 := cross_num hm h0 a b p a1 a2 p1 p2
    have k2 := cross_num hm h0 b c p b1 b2 q1 q2
    have k3 := cross_num hm h0 c a p c1 c2 r1 r2
    have e1 : Vec2.crossProduct a b p = γ * Vec2.crossProduct a b c := by
      obtain rfl : α = 1 - β - γ := by linear_combination hs
      simp only [Vec2.crossProduct, hx, hy]; ring
    have e2 : Vec2.crossProduct b c p = α * Vec2.crossProduct a b c := by
      obtain rfl : β = 1 - α - γ := by linear_combination hs
      simp only [Vec2.crossProduct, hx, hy]; ring
    have e3 : Vec2.crossProduct c a p = β * Vec2.crossProduct a b c := by
      obtain rfl : γ = 1 - α - β := by linear_combination hs
      simp only [Vec2.crossProduct, hx, hy]; ring
    simp only [Tri2.contains, Bool.or_eq_true, Bool.and_eq_true, decide_eq_true_eq, ge_iff_le]
    rcases le_total 0 (Vec2.crossProduct a b c) with h | h
    · exact .inl ⟨⟨k1.1 (e1 ▸ mul_nonneg hγ h), k2.1 (e2 ▸ mul_nonneg hα h)⟩, k3.1 (e3 ▸ mul_nonneg hβ h)⟩
    · exact .inr ⟨⟨k1.2 (e1 ▸ mul_nonpos_of_nonneg_of_nonpos hγ h), k2.2 (e2 ▸ mul_nonpos_of_nonneg_of_nonpos hα h)⟩,
        k3.2 (e3 ▸ mul_nonpos_of_nonneg_of_nonpos hβ h)⟩
  · have z1 : ∀ a b : Vec2 K, Vec2.crossProduct (Vec2.num a : Vec2 (Fl K rnd)) (Vec2.num b) (Vec2.num a) = .num 0 := by
      intro a b
      simp only [Vec2.crossProduct, Vec2.num, Fl.num_sub, Fl.num_mul, sub_self, h0, mul_zero, zero_mul]
    have z2 : ∀ a b : Vec2 K, Vec2.crossProduct (Vec2.num a : Vec2 (Fl K rnd)) (Vec2.num b) (Vec2.num b) = .num 0 := by
      intro a b
      simp only [Vec2.crossProduct, Vec2.num, Fl.num_sub, Fl.num_mul, sub_self, h0]
    have t : ∀ a b c : Vec2 K, ∃ v : K,
        Vec2.crossProduct (Vec2.num a : Vec2 (Fl K rnd)) (Vec2.num b) (Vec2.num c) = .num v := fun a b c => ⟨_, rfl⟩
    obtain ⟨v1, e1⟩ := t b c a
    obtain ⟨v2, e2⟩ := t c a b
    obtain ⟨v3, e3⟩ := t a b c
    intro v hv
    simp only [List.mem_cons, List.not_mem_nil, or_false] at hv
    rcases hv with rfl | rfl | rfl <;>
      simp only [Tri2.contains, z1, z2, e1, e2, e3, Fl.zero_def, ge_iff_le, Fl.num_le, le_refl, decide_true,
        Bool.and_true, Bool.true_and, Bool.or_eq_true, decide_eq_true_eq] <;>
      exact le_total _ _

/-- Integer points up to `2^23` have exact differences in `float`. -/
example : ∃ a b c p : Vec2 ℚ, InHull a b c p ∧ p ≠ a ∧ p ≠ b ∧ p ≠ c ∧
    (∀ q ∈ [(a, b), (b, c), (c, a), (a, p), (b, p), (c, p)],
      rne 24 (q.2.x - q.1.x) = q.2.x - q.1.x ∧ rne 24 (q.2.y - q.1.y) = q.2.y - q.1.y) :=
  ⟨⟨0, 0⟩, ⟨8000000, 2⟩, ⟨2, 8000000⟩, ⟨4000000, 1⟩, ⟨1 / 2, 1 / 2, 0, by norm_num, by norm_num, by norm_num,
    by norm_num, by norm_num, by norm_num⟩, by decide +kernel⟩

end
end MathLib
