import Verif.Spec.Box
import Verif.Proof.Loops
import Mathlib.Tactic.Ring
import Mathlib.Order.MinMax

/-! # The bounding loops -/

namespace MathLib
variable {K : Type}

theorem Mem.vec2At_of {mem : Mem K} {a : ℤ} {b : ℕ} {v : Vec2 K} (hb : (b : ℤ) = a)
    (hx : mem.alloc b = true ∧ mem.val b = some v.x)
    (hy : mem.alloc (b + mem.sz) = true ∧ mem.val (b + mem.sz) = some v.y) :
    mem.vec2At a = .ok v := by
  subst hb
  unfold Mem.vec2At
  rw [if_neg (by omega)]
  simp [Mem.read, hx, hy, bind, Except.bind]

theorem Mem.vec3At_of {mem : Mem K} {a : ℤ} {b : ℕ} {v : Vec3 K} (hb : (b : ℤ) = a)
    (hx : mem.alloc b = true ∧ mem.val b = some v.x)
    (hy : mem.alloc (b + mem.sz) = true ∧ mem.val (b + mem.sz) = some v.y)
    (hz : mem.alloc (b + 2 * mem.sz) = true ∧ mem.val (b + 2 * mem.sz) = some v.z) :
    mem.vec3At a = .ok v := by
  subst hb
  unfold Mem.vec3At
  rw [if_neg (by omega)]
  simp [Mem.read, hx, hy, hz, bind, Except.bind]

theorem Mem.PointsAt2.read {mem : Mem K} {a : ℕ} {stride : ℤ} {count : ℕ} {p : ℕ → Vec2 K}
    (h : mem.PointsAt2 a stride count p) {i : ℕ} (hi : i < count) :
    mem.vec2At (a + i * stride) = .ok (p i) := by
  obtain ⟨b, hb, hx, hy⟩ := h i hi
  exact Mem.vec2At_of hb hx hy

theorem Mem.PointsAt3.read {mem : Mem K} {a : ℕ} {stride : ℤ} {count : ℕ} {p : ℕ → Vec3 K}
    (h : mem.PointsAt3 a stride count p) {i : ℕ} (hi : i < count) :
    mem.vec3At (a + i * stride) = .ok (p i) := by
  obtain ⟨b, hb, hx, hy, hz⟩ := h i hi
  exact Mem.vec3At_of hb hx hy hz

variable [LinearOrder K]

theorem min'_eq (a b : K) : min' a b = min a b := by
  unfold min'; split_ifs with h
  · exact (min_eq_left h.le).symm
  · exact (min_eq_right (not_lt.1 h)).symm
theorem max'_eq (a b : K) : max' a b = max a b := by
  unfold max'; split_ifs with h
  · exact (max_eq_left h.le).symm
  · exact (max_eq_right (not_lt.1 h)).symm

omit [LinearOrder K] in
theorem AABB2.Valid.inf_mem [Preorder K] {b : AABB2 K} (h : b.Valid) : b.inf ∈ b.toSet :=
  ⟨⟨le_rfl, h.1⟩, ⟨le_rfl, h.2⟩⟩
omit [LinearOrder K] in
theorem AABB2.Valid.sup_mem [Preorder K] {b : AABB2 K} (h : b.Valid) : b.sup ∈ b.toSet :=
  ⟨⟨h.1, le_rfl⟩, ⟨h.2, le_rfl⟩⟩
omit [LinearOrder K] in
theorem AABB3.Valid.inf_mem [Preorder K] {b : AABB3 K} (h : b.Valid) : b.inf ∈ b.toSet :=
  ⟨⟨le_rfl, h.1⟩, ⟨le_rfl, h.2.1⟩, ⟨le_rfl, h.2.2⟩⟩
omit [LinearOrder K] in
theorem AABB3.Valid.sup_mem [Preorder K] {b : AABB3 K} (h : b.Valid) : b.sup ∈ b.toSet :=
  ⟨⟨h.1, le_rfl⟩, ⟨h.2.1, le_rfl⟩, ⟨h.2.2, le_rfl⟩⟩

theorem boundStep2_eq (b : Vec2 K × Vec2 K) (p : Vec2 K) :
    boundStep2 b p = (⟨min b.1.x p.x, min b.1.y p.y⟩, ⟨max b.2.x p.x, max b.2.y p.y⟩) := by
  obtain ⟨⟨a, b⟩, ⟨c, d⟩⟩ := b
  have hmin : ∀ m q : K, (if q < m then q else m) = min m q := fun m q => by
    split_ifs with h
    · exact (min_eq_right h.le).symm
    · exact (min_eq_left (not_lt.1 h)).symm
  have hmax : ∀ m q : K, (if m < q then q else m) = max m q := fun m q => by
    split_ifs with h
    · exact (max_eq_right h.le).symm
    · exact (max_eq_left (not_lt.1 h)).symm
  unfold boundStep2
  simp only [← hmin, ← hmax, gt_iff_lt]
  split_ifs <;> simp_all

theorem boundStep3_eq (b : Vec3 K × Vec3 K) (p : Vec3 K) :
    boundStep3 b p = (⟨min b.1.x p.x, min b.1.y p.y, min b.1.z p.z⟩,
      ⟨max b.2.x p.x, max b.2.y p.y, max b.2.z p.z⟩) := by
  obtain ⟨⟨a, b, c⟩, ⟨d, e, f⟩⟩ := b
  have hmin : ∀ m q : K, (if q < m then q else m) = min m q := fun m q => by
    split_ifs with h
    · exact (min_eq_right h.le).symm
    · exact (min_eq_left (not_lt.1 h)).symm
  have hmax : ∀ m q : K, (if m < q then q else m) = max m q := fun m q => by
    split_ifs with h
    · exact (max_eq_right h.le).symm
    · exact (max_eq_left (not_lt.1 h)).symm
  unfold boundStep3
  simp only [← hmin, ← hmax, gt_iff_lt]
  refine Prod.ext (Vec3.ext ?_ ?_ ?_) (Vec3.ext ?_ ?_ ?_) <;> simp only <;> split_ifs <;> simp_all

/-- `r` bounds exactly the points `p 0, …, p (n-1)` -/
def Bounds2 (n : ℕ) (p : ℕ → Vec2 K) (r : Vec2 K × Vec2 K) : Prop :=
  (∀ x, x ≤ r.1.x ↔ ∀ j < n, x ≤ (p j).x) ∧ (∀ x, x ≤ r.1.y ↔ ∀ j < n, x ≤ (p j).y) ∧
  (∀ x, r.2.x ≤ x ↔ ∀ j < n, (p j).x ≤ x) ∧ (∀ x, r.2.y ≤ x ↔ ∀ j < n, (p j).y ≤ x)

def Bounds3 (n : ℕ) (p : ℕ → Vec3 K) (r : Vec3 K × Vec3 K) : Prop :=
  (∀ x, x ≤ r.1.x ↔ ∀ j < n, x ≤ (p j).x) ∧ (∀ x, x ≤ r.1.y ↔ ∀ j < n, x ≤ (p j).y) ∧
  (∀ x, x ≤ r.1.z ↔ ∀ j < n, x ≤ (p j).z) ∧
  (∀ x, r.2.x ≤ x ↔ ∀ j < n, (p j).x ≤ x) ∧ (∀ x, r.2.y ≤ x ↔ ∀ j < n, (p j).y ≤ x) ∧
  (∀ x, r.2.z ≤ x ↔ ∀ j < n, (p j).z ≤ x)

theorem Bounds2.step {n : ℕ} {p : ℕ → Vec2 K} {r : Vec2 K × Vec2 K} (h : Bounds2 n p r) :
    Bounds2 (n + 1) p (boundStep2 r (p n)) := by
  obtain ⟨h1, h2, h3, h4⟩ := h
  rw [boundStep2_eq]
  refine ⟨?_, ?_, ?_, ?_⟩ <;> intro x <;>
    simp only [le_min_iff, max_le_iff, h1, h2, h3, h4, Nat.lt_succ_iff_lt_or_eq,
      or_imp, forall_and, forall_eq]

theorem Bounds3.step {n : ℕ} {p : ℕ → Vec3 K} {r : Vec3 K × Vec3 K} (h : Bounds3 n p r) :
    Bounds3 (n + 1) p (boundStep3 r (p n)) := by
  obtain ⟨h1, h2, h3, h4, h5, h6⟩ := h
  rw [boundStep3_eq]
  refine ⟨?_, ?_, ?_, ?_, ?_, ?_⟩ <;> intro x <;>
    simp only [le_min_iff, max_le_iff, h1, h2, h3, h4, h5, h6, Nat.lt_succ_iff_lt_or_eq,
      or_imp, forall_and, forall_eq]

theorem bounds2_of {mem : Mem K} {a : ℕ} {stride : ℤ} {count : ℕ} {p : ℕ → Vec2 K}
    (hc : 0 < count) (h : mem.PointsAt2 a stride count p) :
    ∃ r, bounds2 mem a count stride = .ok r ∧ Bounds2 count p r := by
  have h0 := h.read hc
  simp only [Nat.cast_zero, zero_mul, add_zero] at h0
  obtain ⟨⟨r, q⟩, e, h1, -⟩ := loop_rule (f := fun _ (s : (Vec2 K × Vec2 K) × ℤ) => do
      let v ← mem.vec2At s.2
      .ok (boundStep2 s.1 v, s.2 + stride)) (lo := 1) (hi := count) (s := ((p 0, p 0), (a : ℤ) + stride))
    (fun i s => Bounds2 i p s.1 ∧ s.2 = a + i * stride) hc
    ⟨by simp [Bounds2], by simp⟩ (by
      rintro i ⟨r, q⟩ - hi ⟨hb, hq⟩
      simp only at hq hb
      refine ⟨(boundStep2 r (p i), q + stride), ?_, hb.step, ?_⟩
      · simp only [hq, h.read hi, bind, Except.bind]
      · simp only [hq]; push_cast; ring)
  refine ⟨r, ?_, h1⟩
  unfold bounds2
  rw [if_neg (by simp; omega)]
  simp only [h0, bind, Except.bind, Int.toNat_natCast] at e ⊢
  rw [e]

theorem bounds3_of {mem : Mem K} {a : ℕ} {stride : ℤ} {count : ℕ} {p : ℕ → Vec3 K}
    (hc : 0 < count) (h : mem.PointsAt3 a stride count p) :
    ∃ r, bounds3 mem a count stride = .ok r ∧ Bounds3 count p r := by
  have h0 := h.read hc
  simp only [Nat.cast_zero, zero_mul, add_zero] at h0
  obtain ⟨⟨r, q⟩, e, h1, -⟩ := loop_rule (f := fun _ (s : (Vec3 K × Vec3 K) × ℤ) => do
      let v ← mem.vec3At s.2
      .ok (boundStep3 s.1 v, s.2 + stride)) (lo := 1) (hi := count) (s := ((p 0, p 0), (a : ℤ) + stride))
    (fun i s => Bounds3 i p s.1 ∧ s.2 = a + i * stride) hc
    ⟨by simp [Bounds3], by simp⟩ (by
      rintro i ⟨r, q⟩ - hi ⟨hb, hq⟩
      simp only at hq hb
      refine ⟨(boundStep3 r (p i), q + stride), ?_, hb.step, ?_⟩
      · simp only [hq, h.read hi, bind, Except.bind]
      · simp only [hq]; push_cast; ring)
  refine ⟨r, ?_, h1⟩
  unfold bounds3
  rw [if_neg (by simp; omega)]
  simp only [h0, bind, Except.bind, Int.toNat_natCast] at e ⊢
  rw [e]

theorem AABB2.add_eq (b : AABB2 K) (p : Vec2 K) : b.add p =
    ⟨⟨min b.inf.x p.x, min b.inf.y p.y⟩, ⟨max b.sup.x p.x, max b.sup.y p.y⟩⟩ := by
  have := boundStep2_eq (b.inf, b.sup) p
  simp only [boundStep2, Prod.mk.injEq] at this
  unfold AABB2.add
  exact AABB2.ext this.1 this.2

theorem AABB3.add_eq (b : AABB3 K) (p : Vec3 K) : b.add p =
    ⟨⟨min b.inf.x p.x, min b.inf.y p.y, min b.inf.z p.z⟩,
      ⟨max b.sup.x p.x, max b.sup.y p.y, max b.sup.z p.z⟩⟩ := by
  have := boundStep3_eq (b.inf, b.sup) p
  simp only [boundStep3, Prod.mk.injEq] at this
  unfold AABB3.add
  exact AABB3.ext this.1 this.2

end MathLib
