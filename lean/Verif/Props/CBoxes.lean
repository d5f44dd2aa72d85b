import Verif.Props.Boxes
import Verif.Proof.VecLemmas
import Mathlib.Algebra.Order.Field.Basic
import Mathlib.Data.Set.Function
import Mathlib.Tactic.FieldSimp
import Mathlib.Tactic.Linarith

/-! # C65–C67, C72: centred boxes, parametrisation, moving and scaling -/

namespace MathLib
variable {K : Type} [Field K] [LinearOrder K] [IsStrictOrderedRing K]

/-! ## C65 -/

/-- C65 (2-D): the conversions are inverse to each other and keep the point set, validity, size and area. -/
theorem C65_convert2 (b : AABB2 K) (c : CAABB2 K) :
    AABB2.ofCBox (CAABB2.ofBox b) = b ∧ CAABB2.ofBox (AABB2.ofCBox c) = c ∧
    (CAABB2.ofBox b).toSet = b.toSet ∧ (AABB2.ofCBox c).toSet = c.toSet ∧
    ((CAABB2.ofBox b).Valid ↔ b.Valid) ∧ ((AABB2.ofCBox c).Valid ↔ c.Valid) ∧
    (CAABB2.ofBox b).size = b.size ∧ (CAABB2.ofBox b).area = b.area ∧
    (AABB2.ofCBox c).size = c.size ∧ (AABB2.ofCBox c).area = c.area ∧
    (AABB2.ofCBox c).center = c.center ∧ (AABB2.ofCBox c).extents = c.extents ∧
    (CAABB2.ofBox b).inf = b.inf ∧ (CAABB2.ofBox b).sup = b.sup := by
  obtain ⟨⟨a1, a2⟩, ⟨b1, b2⟩⟩ := b
  obtain ⟨⟨c1, c2⟩, ⟨d1, d2⟩⟩ := c
  have e1 : ∀ a b : K, (a + b) * (1 / 2) - (b - a) * (1 / 2) = a := fun a b => by ring
  have e2 : ∀ a b : K, (a + b) * (1 / 2) + (b - a) * (1 / 2) = b := fun a b => by ring
  refine ⟨?_, ?_, ?_, ?_, ?_, ?_, ?_, ?_, ?_, ?_, ?_, ?_, ?_, ?_⟩
  · ext <;> simp [AABB2.ofCBox, CAABB2.ofBox, CAABB2.inf, CAABB2.sup] <;> ring
  · ext <;> simp [AABB2.ofCBox, CAABB2.ofBox, CAABB2.inf, CAABB2.sup] <;> ring
  · ext p; simp [CAABB2.toSet, AABB2.toSet, CAABB2.ofBox, -one_div, e1, e2]
  · rfl
  · simp [CAABB2.Valid, AABB2.Valid, CAABB2.ofBox]
  · simp only [CAABB2.Valid, AABB2.Valid, AABB2.ofCBox, CAABB2.inf, CAABB2.sup, Vec2.sub_x, Vec2.add_x,
      Vec2.sub_y, Vec2.add_y]
    constructor <;> rintro ⟨h1, h2⟩ <;> constructor <;> linarith
  · ext <;> simp [CAABB2.size, AABB2.size, CAABB2.ofBox]
  · simp [CAABB2.area, AABB2.area, CAABB2.ofBox]; ring
  · ext <;> simp [CAABB2.size, AABB2.size, AABB2.ofCBox, CAABB2.inf, CAABB2.sup] <;> ring
  · simp [CAABB2.area, AABB2.area, AABB2.ofCBox, CAABB2.inf, CAABB2.sup]; ring
  · ext <;> simp [AABB2.center, AABB2.ofCBox, CAABB2.inf, CAABB2.sup] <;> ring
  · ext <;> simp [AABB2.extents, AABB2.ofCBox, CAABB2.inf, CAABB2.sup] <;> ring
  · ext <;> simp [CAABB2.inf, CAABB2.ofBox] <;> ring
  · ext <;> simp [CAABB2.sup, CAABB2.ofBox] <;> ring

/-- C65 (3-D). -/
theorem C65_convert3 (b : AABB3 K) (c : CAABB3 K) :
    AABB3.ofCBox (CAABB3.ofBox b) = b ∧ CAABB3.ofBox (AABB3.ofCBox c) = c ∧
    (CAABB3.ofBox b).toSet = b.toSet ∧ (AABB3.ofCBox c).toSet = c.toSet ∧
    ((CAABB3.ofBox b).Valid ↔ b.Valid) ∧ ((AABB3.ofCBox c).Valid ↔ c.Valid) ∧
    (CAABB3.ofBox b).size = b.size ∧ (CAABB3.ofBox b).volume = b.volume ∧
    (AABB3.ofCBox c).size = c.size ∧ (AABB3.ofCBox c).volume = c.volume ∧
    (AABB3.ofCBox c).center = c.center ∧ (AABB3.ofCBox c).extents = c.extents ∧
    (CAABB3.ofBox b).inf = b.inf ∧ (CAABB3.ofBox b).sup = b.sup := by
  obtain ⟨⟨a1, a2, a3⟩, ⟨b1, b2, b3⟩⟩ := b
  obtain ⟨⟨c1, c2, c3⟩, ⟨d1, d2, d3⟩⟩ := c
  have e1 : ∀ a b : K, (a + b) * (1 / 2) - (b - a) * (1 / 2) = a := fun a b => by ring
  have e2 : ∀ a b : K, (a + b) * (1 / 2) + (b - a) * (1 / 2) = b := fun a b => by ring
  refine ⟨?_, ?_, ?_, ?_, ?_, ?_, ?_, ?_, ?_, ?_, ?_, ?_, ?_, ?_⟩
  · ext <;> simp [AABB3.ofCBox, CAABB3.ofBox] <;> ring
  · ext <;> simp [AABB3.ofCBox, CAABB3.ofBox] <;> ring
  · ext p; simp [CAABB3.toSet, AABB3.toSet, CAABB3.ofBox, -one_div, e1, e2]
  · rfl
  · simp [CAABB3.Valid, AABB3.Valid, CAABB3.ofBox]
  · simp only [CAABB3.Valid, AABB3.Valid, AABB3.ofCBox, Vec3.sub_x, Vec3.add_x,
      Vec3.sub_y, Vec3.add_y, Vec3.sub_z, Vec3.add_z]
    constructor <;> rintro ⟨h1, h2, h3⟩ <;> refine ⟨?_, ?_, ?_⟩ <;> linarith
  · ext <;> simp [CAABB3.size, AABB3.size, CAABB3.ofBox]
  · simp [CAABB3.volume, AABB3.volume, CAABB3.ofBox]; ring
  · ext <;> simp [CAABB3.size, AABB3.size, AABB3.ofCBox] <;> ring
  · simp [CAABB3.volume, AABB3.volume, AABB3.ofCBox]; ring
  · ext <;> simp [AABB3.center, AABB3.ofCBox] <;> ring
  · ext <;> simp [AABB3.extents, AABB3.ofCBox] <;> ring
  · ext <;> simp [CAABB3.inf, CAABB3.ofBox] <;> ring
  · ext <;> simp [CAABB3.sup, CAABB3.ofBox] <;> ring

example : CAABB2.ofBox (⟨⟨1, 2⟩, ⟨5, 10⟩⟩ : AABB2 ℚ) = ⟨⟨3, 6⟩, ⟨2, 4⟩⟩ ∧
    (⟨⟨3, 6⟩, ⟨2, 4⟩⟩ : CAABB2 ℚ).size = ⟨4, 8⟩ ∧ (⟨⟨3, 6⟩, ⟨2, 4⟩⟩ : CAABB2 ℚ).area = 32 := by
  decide +kernel

/-! ## C66 -/

/-- C66: a centred box from a non-empty array contains the points and is inside every centred box that
does. -/
theorem C66_set2 (mem : Mem K) (a : ℕ) (count : ℕ) (p : ℕ → Vec2 K) (hc : 0 < count) :
    (∀ stride, mem.PointsAt2 a stride count p →
      ∃ b, CAABB2.setStrided mem a count stride = .ok b ∧ b.Valid ∧ (∀ i < count, p i ∈ b.toSet) ∧
        ∀ c : CAABB2 K, (∀ i < count, p i ∈ c.toSet) → b.toSet ⊆ c.toSet) ∧
    (mem.PointsAt2 a (2 * mem.sz) count p →
      ∃ b, CAABB2.set mem a count = .ok b ∧ b.Valid ∧ (∀ i < count, p i ∈ b.toSet) ∧
        ∀ c : CAABB2 K, (∀ i < count, p i ∈ c.toSet) → b.toSet ⊆ c.toSet) := by
  have key : ∀ r, Bounds2 count p r → (CAABB2.ofBox ⟨r.1, r.2⟩).Valid ∧
      (∀ i < count, p i ∈ (CAABB2.ofBox ⟨r.1, r.2⟩).toSet) ∧
      ∀ c : CAABB2 K, (∀ i < count, p i ∈ c.toSet) → (CAABB2.ofBox ⟨r.1, r.2⟩).toSet ⊆ c.toSet := by
    intro r hr
    have h := C65_convert2 (⟨r.1, r.2⟩ : AABB2 K) (CAABB2.ofBox ⟨r.1, r.2⟩)
    rw [h.2.2.1, h.2.2.2.2.1]
    exact ⟨hr.tightest.valid hc, hr.tightest.1, fun c hc' => hr.tightest.2 (AABB2.ofCBox c) hc'⟩
  refine ⟨fun s h => ?_, fun h => ?_⟩ <;> obtain ⟨r, e, hr⟩ := bounds2_of hc h
  · exact ⟨_, by simp [CAABB2.setStrided, e, bind, Except.bind], key r hr⟩
  · exact ⟨_, by simp [CAABB2.set, e, bind, Except.bind], key r hr⟩

theorem C66_set3 (mem : Mem K) (a : ℕ) (count : ℕ) (p : ℕ → Vec3 K) (hc : 0 < count) :
    (∀ stride, mem.PointsAt3 a stride count p →
      ∃ b, CAABB3.setStrided mem a count stride = .ok b ∧ b.Valid ∧ (∀ i < count, p i ∈ b.toSet) ∧
        ∀ c : CAABB3 K, (∀ i < count, p i ∈ c.toSet) → b.toSet ⊆ c.toSet) ∧
    (mem.PointsAt3 a (3 * mem.sz) count p →
      ∃ b, CAABB3.set mem a count = .ok b ∧ b.Valid ∧ (∀ i < count, p i ∈ b.toSet) ∧
        ∀ c : CAABB3 K, (∀ i < count, p i ∈ c.toSet) → b.toSet ⊆ c.toSet) := by
  have key : ∀ r, Bounds3 count p r → (CAABB3.ofBox ⟨r.1, r.2⟩).Valid ∧
      (∀ i < count, p i ∈ (CAABB3.ofBox ⟨r.1, r.2⟩).toSet) ∧
      ∀ c : CAABB3 K, (∀ i < count, p i ∈ c.toSet) → (CAABB3.ofBox ⟨r.1, r.2⟩).toSet ⊆ c.toSet := by
    intro r hr
    have h := C65_convert3 (⟨r.1, r.2⟩ : AABB3 K) (CAABB3.ofBox ⟨r.1, r.2⟩)
    rw [h.2.2.1, h.2.2.2.2.1]
    exact ⟨hr.tightest.valid hc, hr.tightest.1, fun c hc' => hr.tightest.2 (AABB3.ofCBox c) hc'⟩
  refine ⟨fun s h => ?_, fun h => ?_⟩ <;> obtain ⟨r, e, hr⟩ := bounds3_of hc h
  · exact ⟨_, by simp [CAABB3.setStrided, e, bind, Except.bind], key r hr⟩
  · exact ⟨_, by simp [CAABB3.set, e, bind, Except.bind], key r hr⟩

omit [IsStrictOrderedRing K] in
/-- C66: an empty array fails the assertion. -/
theorem C66_empty (mem : Mem K) (a : ℕ) (count stride : ℤ) (hc : count ≤ 0) :
    CAABB2.setStrided mem a count stride = .error .assertion ∧
    CAABB2.set mem a count = .error .assertion ∧
    CAABB3.setStrided mem a count stride = .error .assertion ∧
    CAABB3.set mem a count = .error .assertion := by
  have h2 : ∀ s, bounds2 mem a count s = .error .assertion := fun s => if_pos (by simpa using hc)
  have h3 : ∀ s, bounds3 mem a count s = .error .assertion := fun s => if_pos (by simpa using hc)
  simp [CAABB2.setStrided, CAABB2.set, CAABB3.setStrided, CAABB3.set, h2, h3, bind, Except.bind]

theorem CAABB2.add_eq (b : CAABB2 K) (p : Vec2 K) :
    b.add p = CAABB2.ofBox ((AABB2.ofCBox b).add p) := by
  have h := (C65_convert2 (AABB2.ofCBox b) b).2.1
  by_cases hin : p ∈ (AABB2.ofCBox b).toSet
  · have e : (AABB2.ofCBox b).add p = AABB2.ofCBox b := by
      rw [AABB2.add_eq]
      obtain ⟨⟨h1, h2⟩, h3, h4⟩ := hin
      rw [min_eq_left h1, max_eq_left h2, min_eq_left h3, max_eq_left h4]
    rw [e, h]
    obtain ⟨⟨h1, h2⟩, h3, h4⟩ := hin
    simp only [AABB2.ofCBox, CAABB2.inf, CAABB2.sup] at h1 h2 h3 h4
    unfold CAABB2.add
    simp only [gt_iff_lt, not_lt.2 h1, not_lt.2 h2, not_lt.2 h3, not_lt.2 h4, if_false, Bool.false_eq_true]
  · unfold CAABB2.add AABB2.add
    simp only [AABB2.ofCBox, CAABB2.inf, CAABB2.sup] at hin ⊢
    simp only [AABB2.toSet, Set.mem_ofPred_eq] at hin
    by_cases h1 : p.x < (b.center - b.extents).x <;> by_cases h2 : p.y < (b.center - b.extents).y <;> by_cases h3 : (b.center + b.extents).x < p.x <;>
      by_cases h4 : (b.center + b.extents).y < p.y <;>
      simp only [h1, h2, h3, h4, if_true, if_false, Bool.false_eq_true]
    exact absurd ⟨⟨not_lt.1 h1, not_lt.1 h3⟩, not_lt.1 h2, not_lt.1 h4⟩ hin

theorem CAABB3.add_eq (b : CAABB3 K) (p : Vec3 K) :
    b.add p = CAABB3.ofBox ((AABB3.ofCBox b).add p) := by
  have h := (C65_convert3 (AABB3.ofCBox b) b).2.1
  by_cases hin : p ∈ (AABB3.ofCBox b).toSet
  · have e : (AABB3.ofCBox b).add p = AABB3.ofCBox b := by
      rw [AABB3.add_eq]
      obtain ⟨⟨h1, h2⟩, ⟨h3, h4⟩, h5, h6⟩ := hin
      rw [min_eq_left h1, max_eq_left h2, min_eq_left h3, max_eq_left h4, min_eq_left h5, max_eq_left h6]
    rw [e, h]
    obtain ⟨⟨h1, h2⟩, ⟨h3, h4⟩, h5, h6⟩ := hin
    simp only [AABB3.ofCBox] at h1 h2 h3 h4 h5 h6
    unfold CAABB3.add
    simp only [gt_iff_lt, not_lt.2 h1, not_lt.2 h2, not_lt.2 h3, not_lt.2 h4, not_lt.2 h5, not_lt.2 h6,
      if_false, Bool.false_eq_true]
  · unfold CAABB3.add AABB3.add
    simp only [AABB3.ofCBox] at hin ⊢
    simp only [AABB3.toSet, Set.mem_ofPred_eq] at hin
    by_cases h1 : p.x < (b.center - b.extents).x <;> by_cases h2 : p.y < (b.center - b.extents).y <;> by_cases h5 : p.z < (b.center - b.extents).z <;>
      by_cases h3 : (b.center + b.extents).x < p.x <;> by_cases h4 : (b.center + b.extents).y < p.y <;> by_cases h6 : (b.center + b.extents).z < p.z <;>
      simp only [h1, h2, h3, h4, h5, h6, if_true, if_false, Bool.false_eq_true]
    exact absurd ⟨⟨not_lt.1 h1, not_lt.1 h3⟩, ⟨not_lt.1 h2, not_lt.1 h4⟩, not_lt.1 h5, not_lt.1 h6⟩ hin

/-- C66: `add` gives the smallest centred box containing the (valid) box and the point. -/
theorem C66_add2 (b : CAABB2 K) (p : Vec2 K) :
    p ∈ (b.add p).toSet ∧ b.toSet ⊆ (b.add p).toSet ∧
    (b.Valid → (b.add p).Valid ∧
      ∀ c : CAABB2 K, b.toSet ⊆ c.toSet → p ∈ c.toSet → (b.add p).toSet ⊆ c.toSet) := by
  have h := C65_convert2 ((AABB2.ofCBox b).add p) b
  rw [CAABB2.add_eq, h.2.2.1, h.2.2.2.2.1, ← h.2.2.2.1, ← h.2.2.2.2.2.1]
  obtain ⟨h1, h2, h3⟩ := C61_add2 (AABB2.ofCBox b) p
  exact ⟨h1, h2, fun hv => ⟨(h3 hv).1, fun c => (h3 hv).2 (AABB2.ofCBox c)⟩⟩

theorem C66_add3 (b : CAABB3 K) (p : Vec3 K) :
    p ∈ (b.add p).toSet ∧ b.toSet ⊆ (b.add p).toSet ∧
    (b.Valid → (b.add p).Valid ∧
      ∀ c : CAABB3 K, b.toSet ⊆ c.toSet → p ∈ c.toSet → (b.add p).toSet ⊆ c.toSet) := by
  have h := C65_convert3 ((AABB3.ofCBox b).add p) b
  rw [CAABB3.add_eq, h.2.2.1, h.2.2.2.2.1, ← h.2.2.2.1, ← h.2.2.2.2.2.1]
  obtain ⟨h1, h2, h3⟩ := C61_add3 (AABB3.ofCBox b) p
  exact ⟨h1, h2, fun hv => ⟨(h3 hv).1, fun c => (h3 hv).2 (AABB3.ofCBox c)⟩⟩

/-- C66: the tests of a centred box are membership, inclusion and overlap of point sets. -/
theorem C66_tests2 (b o : CAABB2 K) (p : Vec2 K) :
    (b.contains p = true ↔ p ∈ b.toSet) ∧
    (o.Valid → (b.containsBox o = true ↔ o.toSet ⊆ b.toSet)) ∧
    (b.Valid → o.Valid → (b.intersects o = true ↔ (b.toSet ∩ o.toSet).Nonempty)) ∧
    b.intersects o = o.intersects b := by
  have vb := (C65_convert2 (AABB2.ofCBox b) b).2.2.2.2.2.1
  have vo := (C65_convert2 (AABB2.ofCBox o) o).2.2.2.2.2.1
  obtain ⟨h1, h2⟩ := C62_box2 (AABB2.ofCBox b) (AABB2.ofCBox o) p
  obtain ⟨h3, h4⟩ := C63_box2 (AABB2.ofCBox b) (AABB2.ofCBox o)
  exact ⟨h1, fun h => h2 (vo.2 h), fun h h' => h3 (vb.2 h) (vo.2 h'), h4⟩

theorem C66_tests3 (b o : CAABB3 K) (p : Vec3 K) :
    (b.contains p = true ↔ p ∈ b.toSet) ∧
    (o.Valid → (b.containsBox o = true ↔ o.toSet ⊆ b.toSet)) ∧
    (b.Valid → o.Valid → (b.intersects o = true ↔ (b.toSet ∩ o.toSet).Nonempty)) ∧
    b.intersects o = o.intersects b := by
  have vb := (C65_convert3 (AABB3.ofCBox b) b).2.2.2.2.2.1
  have vo := (C65_convert3 (AABB3.ofCBox o) o).2.2.2.2.2.1
  obtain ⟨h1, h2⟩ := C62_box3 (AABB3.ofCBox b) (AABB3.ofCBox o) p
  obtain ⟨h3, h4⟩ := C63_box3 (AABB3.ofCBox b) (AABB3.ofCBox o)
  exact ⟨h1, fun h => h2 (vo.2 h), fun h h' => h3 (vb.2 h) (vo.2 h'), h4⟩

theorem C66_sphere (b : CAABB3 ℝ) (s : Sphere ℝ) (hr : 0 ≤ s.radius) :
    b.containsSphere s = true ↔ s.toSet ⊆ b.toSet :=
  C62_sphere (AABB3.ofCBox b) s hr

example : CAABB3.setStrided C60_mem 0 3 16 = .ok ⟨⟨-1 / 2, 11 / 2, 9 / 2⟩, ⟨5 / 2, 3 / 2, 9 / 2⟩⟩ ∧
    (⟨⟨0, 0, 0⟩, ⟨1, 1, 1⟩⟩ : CAABB3 ℚ).add ⟨3, 0, -5⟩ = ⟨⟨1, 0, -2⟩, ⟨2, 1, 3⟩⟩ := by
  decide +kernel
example : (⟨⟨0, 0⟩, ⟨1, 1⟩⟩ : CAABB2 ℚ).intersects ⟨⟨2, 0⟩, ⟨1, 2⟩⟩ = true ∧
    (⟨⟨2, 0⟩, ⟨1, 2⟩⟩ : CAABB2 ℚ).Valid ∧ (⟨⟨0, 0⟩, ⟨1, 1⟩⟩ : CAABB2 ℚ).intersects ⟨⟨3, 0⟩, ⟨1, 2⟩⟩ = false :=
  ⟨by decide +kernel, by norm_num [CAABB2.Valid], by decide +kernel⟩

/-! ## C67 -/

/-- one coordinate: `lo + (hi - lo) * t` covers `[lo, hi]` -/
theorem coord_onto {lo hi y : K} (h1 : lo ≤ y) (h2 : y ≤ hi) :
    ∃ t, (0 ≤ t ∧ t ≤ 1) ∧ lo + (hi - lo) * t = y := by
  rcases (h1.trans h2).eq_or_lt with e | hlt
  · exact ⟨0, by simp, by linarith⟩
  · have hd : 0 < hi - lo := by linarith
    exact ⟨(y - lo) / (hi - lo), ⟨div_nonneg (by linarith) hd.le, (div_le_one hd).2 (by linarith)⟩,
      by field_simp; ring⟩

/-- the same with a centre and a half-size -/
theorem coord_onto_c {c e y : K} (h1 : c - e ≤ y) (h2 : y ≤ c + e) :
    ∃ t, (-1 ≤ t ∧ t ≤ 1) ∧ c + e * t = y := by
  have he : 0 ≤ e := by linarith
  rcases he.eq_or_lt with h | hlt
  · exact ⟨0, by simp, by linarith⟩
  · exact ⟨(y - c) / e, ⟨(le_div_iff₀ hlt).2 (by linarith), (div_le_one hlt).2 (by linarith)⟩,
      by field_simp; ring⟩

theorem coord_in {lo hi t : K} (h : lo ≤ hi) (ht : 0 ≤ t ∧ t ≤ 1) :
    lo ≤ lo + (hi - lo) * t ∧ lo + (hi - lo) * t ≤ hi := by
  constructor <;> nlinarith [mul_nonneg (sub_nonneg.2 h) ht.1, mul_nonneg (sub_nonneg.2 h) (sub_nonneg.2 ht.2)]

theorem coord_in_c {c e t : K} (h : 0 ≤ e) (ht : -1 ≤ t ∧ t ≤ 1) :
    c - e ≤ c + e * t ∧ c + e * t ≤ c + e := by
  constructor <;> nlinarith [mul_nonneg h (sub_nonneg.2 ht.1), mul_nonneg h (sub_nonneg.2 ht.2)]

/-- C67 (corner boxes): `pointAt` maps the unit square onto the box, one-to-one if the sides are
positive; corners and centre; area and volume are products of the sides. -/
theorem C67_param2 (b : AABB2 K) (hv : b.Valid) :
    b.pointAt '' {t | (0 ≤ t.x ∧ t.x ≤ 1) ∧ (0 ≤ t.y ∧ t.y ≤ 1)} = b.toSet ∧
    (b.inf.x < b.sup.x → b.inf.y < b.sup.y →
      Set.BijOn b.pointAt {t | (0 ≤ t.x ∧ t.x ≤ 1) ∧ (0 ≤ t.y ∧ t.y ≤ 1)} b.toSet) ∧
    b.pointAt ⟨0, 0⟩ = b.inf ∧ b.pointAt ⟨1, 1⟩ = b.sup ∧ b.pointAt ⟨1 / 2, 1 / 2⟩ = b.center ∧
    b.size = ⟨b.sup.x - b.inf.x, b.sup.y - b.inf.y⟩ ∧ b.area = b.size.x * b.size.y ∧
    b.size = b.extents * (2 : K) := by
  have himg : b.pointAt '' {t | (0 ≤ t.x ∧ t.x ≤ 1) ∧ (0 ≤ t.y ∧ t.y ≤ 1)} = b.toSet := by
    apply subset_antisymm
    · rintro _ ⟨t, ⟨h1, h2⟩, rfl⟩
      exact ⟨coord_in hv.1 h1, coord_in hv.2 h2⟩
    · rintro p ⟨⟨h1, h2⟩, h3, h4⟩
      obtain ⟨t1, a1, a2⟩ := coord_onto h1 h2
      obtain ⟨t2, b1, b2⟩ := coord_onto h3 h4
      exact ⟨⟨t1, t2⟩, ⟨a1, b1⟩, Vec2.ext a2 b2⟩
  refine ⟨himg, fun hx hy => ?_, ?_, ?_, ?_, rfl, rfl, ?_⟩
  · rw [← himg]
    refine Set.InjOn.bijOn_image fun s _ t _ h => ?_
    simp only [AABB2.pointAt, Vec2.mk.injEq] at h
    exact Vec2.ext (mul_left_cancel₀ (sub_pos.2 hx).ne' (add_left_cancel h.1))
      (mul_left_cancel₀ (sub_pos.2 hy).ne' (add_left_cancel h.2))
  · ext <;> simp [AABB2.pointAt]
  · ext <;> simp [AABB2.pointAt]
  · ext <;> simp [AABB2.pointAt, AABB2.center] <;> ring
  · ext <;> simp [AABB2.size, AABB2.extents]

theorem C67_param3 (b : AABB3 K) (hv : b.Valid) :
    b.pointAt '' {t | (0 ≤ t.x ∧ t.x ≤ 1) ∧ (0 ≤ t.y ∧ t.y ≤ 1) ∧ (0 ≤ t.z ∧ t.z ≤ 1)} = b.toSet ∧
    (b.inf.x < b.sup.x → b.inf.y < b.sup.y → b.inf.z < b.sup.z →
      Set.BijOn b.pointAt {t | (0 ≤ t.x ∧ t.x ≤ 1) ∧ (0 ≤ t.y ∧ t.y ≤ 1) ∧ (0 ≤ t.z ∧ t.z ≤ 1)} b.toSet) ∧
    b.pointAt ⟨0, 0, 0⟩ = b.inf ∧ b.pointAt ⟨1, 1, 1⟩ = b.sup ∧
    b.pointAt ⟨1 / 2, 1 / 2, 1 / 2⟩ = b.center ∧
    b.size = ⟨b.sup.x - b.inf.x, b.sup.y - b.inf.y, b.sup.z - b.inf.z⟩ ∧
    b.volume = b.size.x * b.size.y * b.size.z ∧ b.size = b.extents * (2 : K) := by
  have himg : b.pointAt '' {t | (0 ≤ t.x ∧ t.x ≤ 1) ∧ (0 ≤ t.y ∧ t.y ≤ 1) ∧ (0 ≤ t.z ∧ t.z ≤ 1)} = b.toSet := by
    apply subset_antisymm
    · rintro _ ⟨t, ⟨h1, h2, h3⟩, rfl⟩
      exact ⟨coord_in hv.1 h1, coord_in hv.2.1 h2, coord_in hv.2.2 h3⟩
    · rintro p ⟨⟨h1, h2⟩, ⟨h3, h4⟩, h5, h6⟩
      obtain ⟨t1, a1, a2⟩ := coord_onto h1 h2
      obtain ⟨t2, b1, b2⟩ := coord_onto h3 h4
      obtain ⟨t3, c1, c2⟩ := coord_onto h5 h6
      exact ⟨⟨t1, t2, t3⟩, ⟨a1, b1, c1⟩, Vec3.ext a2 b2 c2⟩
  refine ⟨himg, fun hx hy hz => ?_, ?_, ?_, ?_, rfl, rfl, ?_⟩
  · rw [← himg]
    refine Set.InjOn.bijOn_image fun s _ t _ h => ?_
    simp only [AABB3.pointAt, Vec3.mk.injEq] at h
    exact Vec3.ext (mul_left_cancel₀ (sub_pos.2 hx).ne' (add_left_cancel h.1))
      (mul_left_cancel₀ (sub_pos.2 hy).ne' (add_left_cancel h.2.1))
      (mul_left_cancel₀ (sub_pos.2 hz).ne' (add_left_cancel h.2.2))
  · ext <;> simp [AABB3.pointAt]
  · ext <;> simp [AABB3.pointAt]
  · ext <;> simp [AABB3.pointAt, AABB3.center] <;> ring
  · ext <;> simp [AABB3.size, AABB3.extents]

/-- C67 (centred boxes): the parameters run over `[-1,1]`. -/
theorem C67_cparam2 (b : CAABB2 K) (hv : b.Valid) :
    b.pointAt '' {t | (-1 ≤ t.x ∧ t.x ≤ 1) ∧ (-1 ≤ t.y ∧ t.y ≤ 1)} = b.toSet ∧
    (0 < b.extents.x → 0 < b.extents.y →
      Set.BijOn b.pointAt {t | (-1 ≤ t.x ∧ t.x ≤ 1) ∧ (-1 ≤ t.y ∧ t.y ≤ 1)} b.toSet) ∧
    b.pointAt ⟨-1, -1⟩ = b.inf ∧ b.pointAt ⟨1, 1⟩ = b.sup ∧ b.pointAt ⟨0, 0⟩ = b.center ∧
    b.size = b.sup - b.inf ∧ b.area = b.size.x * b.size.y := by
  have himg : b.pointAt '' {t | (-1 ≤ t.x ∧ t.x ≤ 1) ∧ (-1 ≤ t.y ∧ t.y ≤ 1)} = b.toSet := by
    apply subset_antisymm
    · rintro _ ⟨t, ⟨h1, h2⟩, rfl⟩
      exact ⟨coord_in_c hv.1 h1, coord_in_c hv.2 h2⟩
    · rintro p ⟨⟨h1, h2⟩, h3, h4⟩
      obtain ⟨t1, a1, a2⟩ := coord_onto_c h1 h2
      obtain ⟨t2, b1, b2⟩ := coord_onto_c h3 h4
      exact ⟨⟨t1, t2⟩, ⟨a1, b1⟩, Vec2.ext a2 b2⟩
  refine ⟨himg, fun hx hy => ?_, ?_, ?_, ?_, ?_, ?_⟩
  · rw [← himg]
    refine Set.InjOn.bijOn_image fun s _ t _ h => ?_
    simp only [CAABB2.pointAt, Vec2.mk.injEq] at h
    exact Vec2.ext (mul_left_cancel₀ hx.ne' (add_left_cancel h.1))
      (mul_left_cancel₀ hy.ne' (add_left_cancel h.2))
  · ext <;> simp [CAABB2.pointAt, CAABB2.inf] <;> ring
  · ext <;> simp [CAABB2.pointAt, CAABB2.sup]
  · ext <;> simp [CAABB2.pointAt]
  · ext <;> simp [CAABB2.size, CAABB2.sup, CAABB2.inf] <;> ring
  · simp [CAABB2.size, CAABB2.area]; ring

theorem C67_cparam3 (b : CAABB3 K) (hv : b.Valid) :
    b.pointAt '' {t | (-1 ≤ t.x ∧ t.x ≤ 1) ∧ (-1 ≤ t.y ∧ t.y ≤ 1) ∧ (-1 ≤ t.z ∧ t.z ≤ 1)} = b.toSet ∧
    (0 < b.extents.x → 0 < b.extents.y → 0 < b.extents.z →
      Set.BijOn b.pointAt {t | (-1 ≤ t.x ∧ t.x ≤ 1) ∧ (-1 ≤ t.y ∧ t.y ≤ 1) ∧ (-1 ≤ t.z ∧ t.z ≤ 1)} b.toSet) ∧
    b.pointAt ⟨-1, -1, -1⟩ = b.inf ∧ b.pointAt ⟨1, 1, 1⟩ = b.sup ∧ b.pointAt ⟨0, 0, 0⟩ = b.center ∧
    b.size = b.sup - b.inf ∧ b.volume = b.size.x * b.size.y * b.size.z := by
  have himg : b.pointAt '' {t | (-1 ≤ t.x ∧ t.x ≤ 1) ∧ (-1 ≤ t.y ∧ t.y ≤ 1) ∧ (-1 ≤ t.z ∧ t.z ≤ 1)} =
      b.toSet := by
    apply subset_antisymm
    · rintro _ ⟨t, ⟨h1, h2, h3⟩, rfl⟩
      exact ⟨coord_in_c hv.1 h1, coord_in_c hv.2.1 h2, coord_in_c hv.2.2 h3⟩
    · rintro p ⟨⟨h1, h2⟩, ⟨h3, h4⟩, h5, h6⟩
      obtain ⟨t1, a1, a2⟩ := coord_onto_c h1 h2
      obtain ⟨t2, b1, b2⟩ := coord_onto_c h3 h4
      obtain ⟨t3, c1, c2⟩ := coord_onto_c h5 h6
      exact ⟨⟨t1, t2, t3⟩, ⟨a1, b1, c1⟩, Vec3.ext a2 b2 c2⟩
  refine ⟨himg, fun hx hy hz => ?_, ?_, ?_, ?_, ?_, ?_⟩
  · rw [← himg]
    refine Set.InjOn.bijOn_image fun s _ t _ h => ?_
    simp only [CAABB3.pointAt, Vec3.mk.injEq] at h
    exact Vec3.ext (mul_left_cancel₀ hx.ne' (add_left_cancel h.1))
      (mul_left_cancel₀ hy.ne' (add_left_cancel h.2.1)) (mul_left_cancel₀ hz.ne' (add_left_cancel h.2.2))
  · ext <;> simp [CAABB3.pointAt, CAABB3.inf] <;> ring
  · ext <;> simp [CAABB3.pointAt, CAABB3.sup]
  · ext <;> simp [CAABB3.pointAt]
  · ext <;> simp [CAABB3.size, CAABB3.sup, CAABB3.inf] <;> ring
  · simp [CAABB3.size, CAABB3.volume]; ring

example : (⟨⟨1, 2, 3⟩, ⟨3, 6, 4⟩⟩ : AABB3 ℚ).Valid ∧
    (⟨⟨1, 2, 3⟩, ⟨3, 6, 4⟩⟩ : AABB3 ℚ).pointAt ⟨1 / 2, 1 / 4, 1⟩ = ⟨2, 3, 4⟩ ∧
    (⟨⟨1, 2, 3⟩, ⟨3, 6, 4⟩⟩ : CAABB3 ℚ).Valid := by
  refine ⟨by norm_num [AABB3.Valid], by decide +kernel, by norm_num [CAABB3.Valid]⟩

/-! ## C72 -/

/-- C72: translation moves the point set of each kind of box. -/
theorem C72_translate2 (b : AABB2 K) (c : CAABB2 K) (t : Vec2 K) :
    (b.translate t).toSet = (fun p => p + t) '' b.toSet ∧
    (b.translateNeg t).toSet = (fun p => p - t) '' b.toSet ∧
    (c.translate t).toSet = (fun p => p + t) '' c.toSet ∧
    (c.translateNeg t).toSet = (fun p => p - t) '' c.toSet := by
  have e1 : ∀ p : Vec2 K, p - t + t = p := fun p => by ext <;> simp
  have e2 : ∀ p : Vec2 K, p + t - t = p := fun p => by ext <;> simp
  refine ⟨?_, ?_, ?_, ?_⟩ <;> ext p
  · refine ⟨fun h => ⟨p - t, ?_, e1 p⟩, ?_⟩
    · simp only [AABB2.toSet, AABB2.translate, Set.mem_ofPred_eq, Vec2.add_x, Vec2.add_y, Vec2.sub_x,
        Vec2.sub_y, le_sub_iff_add_le, sub_le_iff_le_add] at h ⊢
      exact h
    · rintro ⟨q, h, rfl⟩
      simp only [AABB2.toSet, AABB2.translate, Set.mem_ofPred_eq, Vec2.add_x, Vec2.add_y, add_le_add_iff_right] at h ⊢
      exact h
  · refine ⟨fun h => ⟨p + t, ?_, e2 p⟩, ?_⟩
    · simp only [AABB2.toSet, AABB2.translateNeg, Set.mem_ofPred_eq, Vec2.add_x, Vec2.add_y, Vec2.sub_x,
        Vec2.sub_y, le_sub_iff_add_le, sub_le_iff_le_add] at h ⊢
      exact h
    · rintro ⟨q, h, rfl⟩
      simp only [AABB2.toSet, AABB2.translateNeg, Set.mem_ofPred_eq, Vec2.sub_x, Vec2.sub_y, sub_le_sub_iff_right] at h ⊢
      exact h
  · refine ⟨fun h => ⟨p - t, ?_, e1 p⟩, ?_⟩
    · simp only [CAABB2.toSet, CAABB2.translate, Set.mem_ofPred_eq, Vec2.add_x, Vec2.add_y, Vec2.sub_x,
        Vec2.sub_y] at h ⊢
      refine ⟨⟨?_, ?_⟩, ?_, ?_⟩ <;> linarith [h.1.1, h.1.2, h.2.1, h.2.2]
    · rintro ⟨q, h, rfl⟩
      simp only [CAABB2.toSet, CAABB2.translate, Set.mem_ofPred_eq, Vec2.add_x, Vec2.add_y] at h ⊢
      refine ⟨⟨?_, ?_⟩, ?_, ?_⟩ <;> linarith [h.1.1, h.1.2, h.2.1, h.2.2]
  · refine ⟨fun h => ⟨p + t, ?_, e2 p⟩, ?_⟩
    · simp only [CAABB2.toSet, CAABB2.translateNeg, Set.mem_ofPred_eq, Vec2.add_x, Vec2.add_y, Vec2.sub_x,
        Vec2.sub_y] at h ⊢
      refine ⟨⟨?_, ?_⟩, ?_, ?_⟩ <;> linarith [h.1.1, h.1.2, h.2.1, h.2.2]
    · rintro ⟨q, h, rfl⟩
      simp only [CAABB2.toSet, CAABB2.translateNeg, Set.mem_ofPred_eq, Vec2.sub_x, Vec2.sub_y] at h ⊢
      refine ⟨⟨?_, ?_⟩, ?_, ?_⟩ <;> linarith [h.1.1, h.1.2, h.2.1, h.2.2]

theorem C72_translate3 (b : AABB3 K) (c : CAABB3 K) (t : Vec3 K) :
    (b.translate t).toSet = (fun p => p + t) '' b.toSet ∧
    (b.translateNeg t).toSet = (fun p => p - t) '' b.toSet ∧
    (c.translate t).toSet = (fun p => p + t) '' c.toSet ∧
    (c.translateNeg t).toSet = (fun p => p - t) '' c.toSet := by
  have e1 : ∀ p : Vec3 K, p - t + t = p := fun p => by ext <;> simp
  have e2 : ∀ p : Vec3 K, p + t - t = p := fun p => by ext <;> simp
  refine ⟨?_, ?_, ?_, ?_⟩ <;> ext p
  · refine ⟨fun h => ⟨p - t, ?_, e1 p⟩, ?_⟩
    · simp only [AABB3.toSet, AABB3.translate, Set.mem_ofPred_eq, Vec3.add_x, Vec3.add_y, Vec3.sub_x,
        Vec3.sub_y, Vec3.add_z, Vec3.sub_z, le_sub_iff_add_le, sub_le_iff_le_add] at h ⊢
      exact h
    · rintro ⟨q, h, rfl⟩
      simp only [AABB3.toSet, AABB3.translate, Set.mem_ofPred_eq, Vec3.add_x, Vec3.add_y, Vec3.add_z,
        add_le_add_iff_right] at h ⊢
      exact h
  · refine ⟨fun h => ⟨p + t, ?_, e2 p⟩, ?_⟩
    · simp only [AABB3.toSet, AABB3.translateNeg, Set.mem_ofPred_eq, Vec3.add_x, Vec3.add_y, Vec3.sub_x,
        Vec3.sub_y, Vec3.add_z, Vec3.sub_z, le_sub_iff_add_le, sub_le_iff_le_add] at h ⊢
      exact h
    · rintro ⟨q, h, rfl⟩
      simp only [AABB3.toSet, AABB3.translateNeg, Set.mem_ofPred_eq, Vec3.sub_x, Vec3.sub_y, Vec3.sub_z,
        sub_le_sub_iff_right] at h ⊢
      exact h
  · refine ⟨fun h => ⟨p - t, ?_, e1 p⟩, ?_⟩
    · simp only [CAABB3.toSet, CAABB3.translate, Set.mem_ofPred_eq, Vec3.add_x, Vec3.add_y, Vec3.sub_x,
        Vec3.sub_y, Vec3.add_z, Vec3.sub_z] at h ⊢
      refine ⟨⟨?_, ?_⟩, ⟨?_, ?_⟩, ?_, ?_⟩ <;>
        linarith [h.1.1, h.1.2, h.2.1.1, h.2.1.2, h.2.2.1, h.2.2.2]
    · rintro ⟨q, h, rfl⟩
      simp only [CAABB3.toSet, CAABB3.translate, Set.mem_ofPred_eq, Vec3.add_x, Vec3.add_y, Vec3.add_z] at h ⊢
      refine ⟨⟨?_, ?_⟩, ⟨?_, ?_⟩, ?_, ?_⟩ <;>
        linarith [h.1.1, h.1.2, h.2.1.1, h.2.1.2, h.2.2.1, h.2.2.2]
  · refine ⟨fun h => ⟨p + t, ?_, e2 p⟩, ?_⟩
    · simp only [CAABB3.toSet, CAABB3.translateNeg, Set.mem_ofPred_eq, Vec3.add_x, Vec3.add_y, Vec3.sub_x,
        Vec3.sub_y, Vec3.add_z, Vec3.sub_z] at h ⊢
      refine ⟨⟨?_, ?_⟩, ⟨?_, ?_⟩, ?_, ?_⟩ <;>
        linarith [h.1.1, h.1.2, h.2.1.1, h.2.1.2, h.2.2.1, h.2.2.2]
    · rintro ⟨q, h, rfl⟩
      simp only [CAABB3.toSet, CAABB3.translateNeg, Set.mem_ofPred_eq, Vec3.sub_x, Vec3.sub_y, Vec3.sub_z] at h ⊢
      refine ⟨⟨?_, ?_⟩, ⟨?_, ?_⟩, ?_, ?_⟩ <;>
        linarith [h.1.1, h.1.2, h.2.1.1, h.2.1.2, h.2.2.1, h.2.2.2]

/-- C72: scaling keeps the centre and multiplies the sides; dividing divides them and rejects 0;
building from centre and size gives that centre and size. -/
theorem C72_scale2 (b : AABB2 K) (c : CAABB2 K) (k : K) (m s : Vec2 K) :
    ((b.scaleCentered k).center = b.center ∧ (b.scaleCentered k).size = b.size * k) ∧
    ((c.scale k).center = c.center ∧ (c.scale k).size = c.size * k) ∧
    (k ≠ 0 → ∃ b' c', b.unscale k = .ok b' ∧ c.unscale k = .ok c' ∧
      b'.center = b.center ∧ b'.size * k = b.size ∧ c'.center = c.center ∧ c'.size * k = c.size) ∧
    (b.unscale 0 = .error .assertion ∧ c.unscale 0 = .error .assertion) ∧
    ((CAABB2.ofCenterSize m s).center = m ∧ (CAABB2.ofCenterSize m s).size = s) := by
  have hs : ∀ k : K, (b.scaleCentered k).center = b.center ∧ (b.scaleCentered k).size = b.size * k := by
    intro k
    constructor <;> ext <;>
      simp [AABB2.scaleCentered, AABB2.ofCBox, AABB2.center, AABB2.size, CAABB2.inf, CAABB2.sup] <;> ring
  refine ⟨hs k, ⟨rfl, ?_⟩, fun hk => ⟨b.scaleCentered (1 / k), ⟨c.center, ⟨c.extents.x / k, c.extents.y / k⟩⟩, ?_, ?_,
    (hs _).1, ?_, rfl, ?_⟩, ⟨?_, ?_⟩, rfl, ?_⟩
  · ext <;> simp [CAABB2.size, CAABB2.scale] <;> ring
  · simp [AABB2.unscale, hk]
  · simp [CAABB2.unscale, Vec2.div, hk, bind, Except.bind]
  · rw [(hs _).2]; ext <;> simp [hk]
  · ext <;> simp [CAABB2.size] <;> field_simp
  · simp [AABB2.unscale]
  · simp [CAABB2.unscale]
  · ext <;> simp [CAABB2.ofCenterSize, CAABB2.size]

theorem C72_scale3 (b : AABB3 K) (c : CAABB3 K) (k : K) (m s : Vec3 K) :
    ((b.scaleCentered k).center = b.center ∧ (b.scaleCentered k).size = b.size * k) ∧
    ((c.scale k).center = c.center ∧ (c.scale k).size = c.size * k) ∧
    (k ≠ 0 → ∃ b' c', b.unscale k = .ok b' ∧ c.unscale k = .ok c' ∧
      b'.center = b.center ∧ b'.size * k = b.size ∧ c'.center = c.center ∧ c'.size * k = c.size) ∧
    (b.unscale 0 = .error .assertion ∧ c.unscale 0 = .error .assertion) ∧
    ((CAABB3.ofCenterSize m s).center = m ∧ (CAABB3.ofCenterSize m s).size = s) := by
  have hs : ∀ k : K, (b.scaleCentered k).center = b.center ∧ (b.scaleCentered k).size = b.size * k := by
    intro k
    constructor <;> ext <;>
      simp [AABB3.scaleCentered, AABB3.ofCBox, AABB3.center, AABB3.size] <;> ring
  refine ⟨hs k, ⟨rfl, ?_⟩, fun hk => ⟨b.scaleCentered (1 / k),
    ⟨c.center, ⟨c.extents.x / k, c.extents.y / k, c.extents.z / k⟩⟩, ?_, ?_,
    (hs _).1, ?_, rfl, ?_⟩, ⟨?_, ?_⟩, rfl, ?_⟩
  · ext <;> simp [CAABB3.size, CAABB3.scale] <;> ring
  · simp [AABB3.unscale, hk]
  · simp [CAABB3.unscale, Vec3.div, hk, bind, Except.bind]
  · rw [(hs _).2]; ext <;> simp [hk]
  · ext <;> simp [CAABB3.size] <;> field_simp
  · simp [AABB3.unscale]
  · simp [CAABB3.unscale]
  · ext <;> simp [CAABB3.ofCenterSize, CAABB3.size]

example : (⟨⟨1, 2⟩, ⟨3, 6⟩⟩ : AABB2 ℚ).scaleCentered 3 = ⟨⟨-1, -2⟩, ⟨5, 10⟩⟩ ∧
    (⟨⟨1, 2⟩, ⟨3, 6⟩⟩ : AABB2 ℚ).unscale 2 = .ok ⟨⟨3 / 2, 3⟩, ⟨5 / 2, 5⟩⟩ := by
  decide +kernel

end MathLib
