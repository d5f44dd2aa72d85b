import Verif.Props.CBoxes
import Verif.Props.Vectors
import Verif.Props.Scalar

/-! # C71: inner and outer balls of boxes -/

namespace MathLib

theorem abs'_eq (x : ℝ) : abs' x = |x| := by
  rcases C01_abs x with ⟨h1, h2 | h2⟩
  · rw [h2] at h1 ⊢; exact (abs_of_nonneg h1).symm
  · rw [h2] at h1 ⊢; exact (abs_of_nonpos (by linarith)).symm

theorem two_sqrt (x : ℝ) : 2 * Real.sqrt x = Real.sqrt (4 * x) := by
  rw [Real.sqrt_mul (by norm_num), show (4 : ℝ) = 2 ^ 2 by norm_num, Real.sqrt_sq (by norm_num)]

/-- 2-D versions of the facts about balls -/
theorem Circle.coord_le {s : Circle ℝ} {p : Vec2 ℝ} (h : p ∈ s.toSet) :
    |p.x - s.center.x| ≤ s.radius ∧ |p.y - s.center.y| ≤ s.radius := by
  have h' : Real.sqrt ((p.x - s.center.x) ^ 2 + (p.y - s.center.y) ^ 2) ≤ s.radius :=
    (Vec2.dist_toE p s.center) ▸ h
  refine ⟨?_, ?_⟩ <;> refine le_trans (Real.abs_le_sqrt ?_) h'
  · nlinarith [sq_nonneg (p.y - s.center.y)]
  · nlinarith [sq_nonneg (p.x - s.center.x)]

theorem Circle.axis_mem (s : Circle ℝ) (hr : 0 ≤ s.radius) :
    (⟨s.center.x + s.radius, s.center.y⟩ : Vec2 ℝ) ∈ s.toSet ∧
    (⟨s.center.x - s.radius, s.center.y⟩ : Vec2 ℝ) ∈ s.toSet ∧
    (⟨s.center.x, s.center.y + s.radius⟩ : Vec2 ℝ) ∈ s.toSet ∧
    (⟨s.center.x, s.center.y - s.radius⟩ : Vec2 ℝ) ∈ s.toSet := by
  simp only [Circle.toSet, Set.mem_ofPred_eq, Vec2.dist_toE]
  simp [Real.sqrt_sq hr]

/-- the centre point of a box -/
noncomputable def AABB2.mid (b : AABB2 ℝ) : Vec2 ℝ := ⟨(b.inf.x + b.sup.x) / 2, (b.inf.y + b.sup.y) / 2⟩
noncomputable def AABB3.mid (b : AABB3 ℝ) : Vec3 ℝ :=
  ⟨(b.inf.x + b.sup.x) / 2, (b.inf.y + b.sup.y) / 2, (b.inf.z + b.sup.z) / 2⟩

/-- C71: `innerCircle` succeeds; the disc is centred, lies in the box, reaches one of the sides, and no
disc in the box is larger. -/
theorem C71_innerCircle (b : AABB2 ℝ) (hb : b.Valid) :
    ∃ s, b.innerCircle = .ok s ∧ s.center = b.mid ∧ 0 ≤ s.radius ∧ s.toSet ⊆ b.toSet ∧
      (∃ p ∈ s.toSet, p.x = b.sup.x ∨ p.y = b.sup.y) ∧
      ∀ s' : Circle ℝ, 0 ≤ s'.radius → s'.toSet ⊆ b.toSet → s'.radius ≤ s.radius := by
  obtain ⟨m, hm, h1, h2⟩ := (C25_coord2 ((b.sup - b.inf) * (1 / 2 : ℝ))).2.2
  have hmem : m = (b.sup.x - b.inf.x) * (1 / 2) ∨ m = (b.sup.y - b.inf.y) * (1 / 2) := by
    unfold Vec2.get at hm
    split_ifs at hm <;> simp at hm <;> simp [← hm]
  obtain ⟨hv1, hv2⟩ := hb
  simp only [Vec2.mul_x, Vec2.mul_y, Vec2.sub_x, Vec2.sub_y] at h1 h2
  rw [abs_of_nonneg (by linarith : 0 ≤ (b.sup.x - b.inf.x) * (1 / 2))] at h1
  rw [abs_of_nonneg (by linarith : 0 ≤ (b.sup.y - b.inf.y) * (1 / 2))] at h2
  have hm0 : 0 ≤ m := by rcases hmem with rfl | rfl <;> linarith
  rw [abs_of_nonneg hm0] at h1 h2
  have hc : b.center = b.mid := by ext <;> simp [AABB2.center, AABB2.mid] <;> ring
  refine ⟨⟨b.mid, m⟩, ?_, rfl, hm0, ?_, ?_, ?_⟩
  · simp only [AABB2.innerCircle, hm, bind, Except.bind, abs'_eq, abs_of_nonneg hm0, hc]
  · intro p hp
    obtain ⟨a1, a2⟩ := Circle.coord_le hp
    simp only [AABB2.mid] at a1 a2
    rw [abs_le] at a1 a2
    exact ⟨⟨by linarith [a1.1], by linarith [a1.2]⟩, by linarith [a2.1], by linarith [a2.2]⟩
  · obtain ⟨a1, -, a2, -⟩ := Circle.axis_mem ⟨b.mid, m⟩ hm0
    rcases hmem with e | e
    · exact ⟨_, a1, .inl (by simp only [AABB2.mid]; rw [e]; ring)⟩
    · exact ⟨_, a2, .inr (by simp only [AABB2.mid]; rw [e]; ring)⟩
  · intro s' hr hs
    obtain ⟨a1, a2, a3, a4⟩ := s'.axis_mem hr
    have b1 := (hs a1).1.2
    have b2 := (hs a2).1.1
    have b3 := (hs a3).2.2
    have b4 := (hs a4).2.1
    simp only at b1 b2 b3 b4
    simp only
    rcases hmem with rfl | rfl <;> linarith

theorem C71_innerSphere (b : AABB3 ℝ) (hb : b.Valid) :
    ∃ s, b.innerSphere = .ok s ∧ s.center = b.mid ∧ 0 ≤ s.radius ∧ s.toSet ⊆ b.toSet ∧
      (∃ p ∈ s.toSet, p.x = b.sup.x ∨ p.y = b.sup.y ∨ p.z = b.sup.z) ∧
      ∀ s' : Sphere ℝ, 0 ≤ s'.radius → s'.toSet ⊆ b.toSet → s'.radius ≤ s.radius := by
  obtain ⟨m, hm, h1, h2, h3⟩ := (C25_coord3 ((b.sup - b.inf) * (1 / 2 : ℝ))).2.2
  have hmem : m = (b.sup.x - b.inf.x) * (1 / 2) ∨ m = (b.sup.y - b.inf.y) * (1 / 2) ∨
      m = (b.sup.z - b.inf.z) * (1 / 2) := by
    unfold Vec3.get at hm
    split at hm <;> simp at hm <;> simp [← hm]
  obtain ⟨hv1, hv2, hv3⟩ := hb
  simp only [Vec3.mul_x, Vec3.mul_y, Vec3.sub_x, Vec3.sub_y, Vec3.mul_z, Vec3.sub_z] at h1 h2 h3
  rw [abs_of_nonneg (by linarith : 0 ≤ (b.sup.x - b.inf.x) * (1 / 2))] at h1
  rw [abs_of_nonneg (by linarith : 0 ≤ (b.sup.y - b.inf.y) * (1 / 2))] at h2
  rw [abs_of_nonneg (by linarith : 0 ≤ (b.sup.z - b.inf.z) * (1 / 2))] at h3
  have hm0 : 0 ≤ m := by rcases hmem with rfl | rfl | rfl <;> linarith
  rw [abs_of_nonneg hm0] at h1 h2 h3
  have hc : (b.inf + b.sup) * (1 / 2 : ℝ) = b.mid := by ext <;> simp [AABB3.mid] <;> ring
  refine ⟨⟨b.mid, m⟩, ?_, rfl, hm0, ?_, ?_, ?_⟩
  · simp only [AABB3.innerSphere, hm, bind, Except.bind, abs'_eq, abs_of_nonneg hm0, hc]
  · intro p hp
    obtain ⟨a1, a2, a3⟩ := Sphere.coord_le hp
    simp only [AABB3.mid] at a1 a2 a3
    rw [abs_le] at a1 a2 a3
    exact ⟨⟨by linarith [a1.1], by linarith [a1.2]⟩, ⟨by linarith [a2.1], by linarith [a2.2]⟩,
      by linarith [a3.1], by linarith [a3.2]⟩
  · obtain ⟨a1, -, a2, -, a3, -⟩ := Sphere.axis_mem ⟨b.mid, m⟩ hm0
    rcases hmem with e | e | e
    · exact ⟨_, a1, .inl (by simp only [AABB3.mid]; rw [e]; ring)⟩
    · exact ⟨_, a2, .inr (.inl (by simp only [AABB3.mid]; rw [e]; ring))⟩
    · exact ⟨_, a3, .inr (.inr (by simp only [AABB3.mid]; rw [e]; ring))⟩
  · intro s' hr hs
    obtain ⟨a1, a2, a3, a4, a5, a6⟩ := s'.axis_mem hr
    have b1 := (hs a1).1.2
    have b2 := (hs a2).1.1
    have b3 := (hs a3).2.1.2
    have b4 := (hs a4).2.1.1
    have b5 := (hs a5).2.2.2
    have b6 := (hs a6).2.2.1
    simp only at b1 b2 b3 b4 b5 b6
    simp only
    rcases hmem with rfl | rfl | rfl <;> linarith

/-- C71: `outerCircle` is centred, contains the box, passes through all corners, and no disc containing
the box is smaller. -/
theorem C71_outerCircle (b : AABB2 ℝ) (hb : b.Valid) :
    b.outerCircle.center = b.mid ∧ b.toSet ⊆ b.outerCircle.toSet ∧
    (∀ p : Vec2 ℝ, (p.x = b.inf.x ∨ p.x = b.sup.x) → (p.y = b.inf.y ∨ p.y = b.sup.y) →
      dist p.toE b.outerCircle.center.toE = b.outerCircle.radius) ∧
    ∀ s' : Circle ℝ, b.toSet ⊆ s'.toSet → b.outerCircle.radius ≤ s'.radius := by
  have hc : b.outerCircle.center = b.mid := by
    ext <;> simp [AABB2.outerCircle, AABB2.center, AABB2.mid] <;> ring
  have hr : b.outerCircle.radius =
      Real.sqrt (((b.sup.x - b.inf.x) / 2) ^ 2 + ((b.sup.y - b.inf.y) / 2) ^ 2) := by
    simp only [AABB2.outerCircle, Vec2.length, real_sqrt, Vec2.mul_x, Vec2.mul_y, Vec2.sub_x, Vec2.sub_y]
    congr 1; ring
  obtain ⟨hv1, hv2⟩ := hb
  have hsq : ∀ lo hi x : ℝ, lo ≤ x → x ≤ hi → (x - (lo + hi) / 2) ^ 2 ≤ ((hi - lo) / 2) ^ 2 := by
    intro lo hi x h1 h2
    nlinarith [mul_nonneg (sub_nonneg.2 h1) (sub_nonneg.2 h2)]
  have hcor : ∀ p : Vec2 ℝ, (p.x = b.inf.x ∨ p.x = b.sup.x) → (p.y = b.inf.y ∨ p.y = b.sup.y) →
      dist p.toE b.outerCircle.center.toE = b.outerCircle.radius := by
    intro p hx hy
    rw [hc, hr, Vec2.dist_toE]
    congr 1
    simp only [AABB2.mid]
    rcases hx with e | e <;> rcases hy with e' | e' <;> rw [e, e'] <;> ring
  refine ⟨hc, fun p hp => ?_, hcor, fun s' hs => ?_⟩
  · show dist _ _ ≤ _
    rw [hc, hr, Vec2.dist_toE]
    exact Real.sqrt_le_sqrt (add_le_add (hsq _ _ _ hp.1.1 hp.1.2) (hsq _ _ _ hp.2.1 hp.2.2))
  · have d1 : dist b.inf.toE s'.center.toE ≤ s'.radius := hs ⟨⟨le_rfl, hv1⟩, le_rfl, hv2⟩
    have d2 : dist b.sup.toE s'.center.toE ≤ s'.radius := hs ⟨⟨hv1, le_rfl⟩, hv2, le_rfl⟩
    have d3 := dist_triangle_right b.inf.toE b.sup.toE s'.center.toE
    have d4 : dist b.inf.toE b.sup.toE = 2 * b.outerCircle.radius := by
      rw [hr, Vec2.dist_toE, two_sqrt]
      congr 1; ring
    linarith

theorem C71_outerSphere (b : AABB3 ℝ) (hb : b.Valid) :
    b.outerSphere.center = b.mid ∧ b.toSet ⊆ b.outerSphere.toSet ∧
    (∀ p : Vec3 ℝ, (p.x = b.inf.x ∨ p.x = b.sup.x) → (p.y = b.inf.y ∨ p.y = b.sup.y) →
      (p.z = b.inf.z ∨ p.z = b.sup.z) →
      dist p.toE b.outerSphere.center.toE = b.outerSphere.radius) ∧
    ∀ s' : Sphere ℝ, b.toSet ⊆ s'.toSet → b.outerSphere.radius ≤ s'.radius := by
  have hc : b.outerSphere.center = b.mid := by
    ext <;> simp [AABB3.outerSphere, AABB3.mid] <;> ring
  have hr : b.outerSphere.radius =
      Real.sqrt (((b.sup.x - b.inf.x) / 2) ^ 2 + ((b.sup.y - b.inf.y) / 2) ^ 2 + ((b.sup.z - b.inf.z) / 2) ^ 2) := by
    simp only [AABB3.outerSphere, Vec3.length, real_sqrt, Vec3.mul_x, Vec3.mul_y, Vec3.sub_x, Vec3.sub_y,
      Vec3.mul_z, Vec3.sub_z]
    congr 1; ring
  obtain ⟨hv1, hv2, hv3⟩ := hb
  have hsq : ∀ lo hi x : ℝ, lo ≤ x → x ≤ hi → (x - (lo + hi) / 2) ^ 2 ≤ ((hi - lo) / 2) ^ 2 := by
    intro lo hi x h1 h2
    nlinarith [mul_nonneg (sub_nonneg.2 h1) (sub_nonneg.2 h2)]
  refine ⟨hc, fun p hp => ?_, ?_, fun s' hs => ?_⟩
  · show dist _ _ ≤ _
    rw [hc, hr, Vec3.dist_toE]
    exact Real.sqrt_le_sqrt (add_le_add (add_le_add (hsq _ _ _ hp.1.1 hp.1.2) (hsq _ _ _ hp.2.1.1 hp.2.1.2))
      (hsq _ _ _ hp.2.2.1 hp.2.2.2))
  · intro p hx hy hz
    rw [hc, hr, Vec3.dist_toE]
    congr 1
    simp only [AABB3.mid]
    rcases hx with e | e <;> rcases hy with e' | e' <;> rcases hz with e'' | e'' <;> rw [e, e', e''] <;> ring
  · have d1 : dist b.inf.toE s'.center.toE ≤ s'.radius := hs ⟨⟨le_rfl, hv1⟩, ⟨le_rfl, hv2⟩, le_rfl, hv3⟩
    have d2 : dist b.sup.toE s'.center.toE ≤ s'.radius := hs ⟨⟨hv1, le_rfl⟩, ⟨hv2, le_rfl⟩, hv3, le_rfl⟩
    have d3 := dist_triangle_right b.inf.toE b.sup.toE s'.center.toE
    have d4 : dist b.inf.toE b.sup.toE = 2 * b.outerSphere.radius := by
      rw [hr, Vec3.dist_toE, two_sqrt]
      congr 1; ring
    linarith

/-- C71: the balls of a centred box are those of the same box with corners. -/
theorem C71_centred (c : CAABB2 ℝ) (d : CAABB3 ℝ) :
    c.innerCircle = (AABB2.ofCBox c).innerCircle ∧ c.outerCircle = (AABB2.ofCBox c).outerCircle ∧
    d.innerSphere = (AABB3.ofCBox d).innerSphere ∧ d.outerSphere = (AABB3.ofCBox d).outerSphere := by
  obtain ⟨-, -, -, -, -, -, -, -, -, -, h1, h2, -⟩ := C65_convert2 (AABB2.ofCBox c) c
  obtain ⟨-, -, -, -, -, -, -, -, -, -, h3, h4, -⟩ := C65_convert3 (AABB3.ofCBox d) d
  refine ⟨?_, ?_, ?_, ?_⟩
  · unfold AABB2.innerCircle CAABB2.innerCircle
    rw [h1]
    rw [show ((AABB2.ofCBox c).sup - (AABB2.ofCBox c).inf) * (1 / 2 : ℝ) = c.extents from h2]
  · unfold AABB2.outerCircle CAABB2.outerCircle
    rw [h1]
    rw [show ((AABB2.ofCBox c).sup - (AABB2.ofCBox c).inf) * (1 / 2 : ℝ) = c.extents from h2]
  · unfold AABB3.innerSphere CAABB3.innerSphere
    rw [show ((AABB3.ofCBox d).inf + (AABB3.ofCBox d).sup) * (1 / 2 : ℝ) = d.center from h3]
    rw [show ((AABB3.ofCBox d).sup - (AABB3.ofCBox d).inf) * (1 / 2 : ℝ) = d.extents from h4]
  · unfold AABB3.outerSphere CAABB3.outerSphere
    rw [show ((AABB3.ofCBox d).inf + (AABB3.ofCBox d).sup) * (1 / 2 : ℝ) = d.center from h3]
    rw [show ((AABB3.ofCBox d).sup - (AABB3.ofCBox d).inf) * (1 / 2 : ℝ) = d.extents from h4]

example : (⟨⟨0, 0⟩, ⟨6, 8⟩⟩ : AABB2 ℝ).Valid ∧
    (⟨⟨0, 0⟩, ⟨6, 8⟩⟩ : AABB2 ℝ).innerCircle = .ok ⟨⟨3, 4⟩, 3⟩ ∧
    (⟨⟨0, 0⟩, ⟨6, 8⟩⟩ : AABB2 ℝ).outerCircle = ⟨⟨3, 4⟩, 5⟩ := by
  have h : Real.sqrt (3 * 3 + 4 * 4) = 5 := by
    rw [show (3 * 3 + 4 * 4 : ℝ) = 5 ^ 2 by norm_num]; exact Real.sqrt_sq (by norm_num)
  have he : (⟨6, 8⟩ - ⟨0, 0⟩ : Vec2 ℝ) * (1 / 2 : ℝ) = ⟨3, 4⟩ := by ext <;> norm_num
  have hc : (⟨0, 0⟩ + ⟨6, 8⟩ : Vec2 ℝ) * (1 / 2 : ℝ) = ⟨3, 4⟩ := by ext <;> norm_num
  refine ⟨by norm_num [AABB2.Valid], ?_, ?_⟩
  · norm_num only [AABB2.innerCircle, AABB2.center, he, hc]
    norm_num [Vec2.minorCoord, Vec2.get, bind, Except.bind, abs']
  · simp only [AABB2.outerCircle, AABB2.center, he, hc, Vec2.length, real_sqrt, h]

end MathLib
