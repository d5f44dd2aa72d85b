import Verif.Proof.BoxLemmas
import Verif.Spec.RealInst
import Mathlib.Algebra.Order.Ring.Rat
import Mathlib.Data.List.Perm.Basic
import Mathlib.Data.Set.Insert
import Mathlib.Data.Set.Basic

/-! # C60–C64: bounding, uniting, containing and intersecting corner boxes -/

namespace MathLib
variable {K : Type} [LinearOrder K]

/-! ## C60 -/

/-- `b` contains the points and is inside every box that does -/
def AABB2.Tightest (b : AABB2 K) (n : ℕ) (p : ℕ → Vec2 K) : Prop :=
  (∀ i < n, p i ∈ b.toSet) ∧ ∀ c : AABB2 K, (∀ i < n, p i ∈ c.toSet) → b.toSet ⊆ c.toSet
def AABB3.Tightest (b : AABB3 K) (n : ℕ) (p : ℕ → Vec3 K) : Prop :=
  (∀ i < n, p i ∈ b.toSet) ∧ ∀ c : AABB3 K, (∀ i < n, p i ∈ c.toSet) → b.toSet ⊆ c.toSet

theorem Bounds2.tightest {n : ℕ} {p : ℕ → Vec2 K} {r : Vec2 K × Vec2 K} (h : Bounds2 n p r) :
    (⟨r.1, r.2⟩ : AABB2 K).Tightest n p := by
  obtain ⟨h1, h2, h3, h4⟩ := h
  refine ⟨fun i hi => ⟨⟨(h1 _).1 le_rfl i hi, (h3 _).1 le_rfl i hi⟩,
    ⟨(h2 _).1 le_rfl i hi, (h4 _).1 le_rfl i hi⟩⟩, fun c hc q hq => ?_⟩
  exact ⟨⟨((h1 _).2 fun i hi => (hc i hi).1.1).trans hq.1.1, hq.1.2.trans ((h3 _).2 fun i hi => (hc i hi).1.2)⟩,
    ⟨((h2 _).2 fun i hi => (hc i hi).2.1).trans hq.2.1, hq.2.2.trans ((h4 _).2 fun i hi => (hc i hi).2.2)⟩⟩

theorem Bounds3.tightest {n : ℕ} {p : ℕ → Vec3 K} {r : Vec3 K × Vec3 K} (h : Bounds3 n p r) :
    (⟨r.1, r.2⟩ : AABB3 K).Tightest n p := by
  obtain ⟨h1, h2, h3, h4, h5, h6⟩ := h
  refine ⟨fun i hi => ⟨⟨(h1 _).1 le_rfl i hi, (h4 _).1 le_rfl i hi⟩,
    ⟨(h2 _).1 le_rfl i hi, (h5 _).1 le_rfl i hi⟩, ⟨(h3 _).1 le_rfl i hi, (h6 _).1 le_rfl i hi⟩⟩,
    fun c hc q hq => ?_⟩
  exact ⟨⟨((h1 _).2 fun i hi => (hc i hi).1.1).trans hq.1.1, hq.1.2.trans ((h4 _).2 fun i hi => (hc i hi).1.2)⟩,
    ⟨((h2 _).2 fun i hi => (hc i hi).2.1.1).trans hq.2.1.1, hq.2.1.2.trans ((h5 _).2 fun i hi => (hc i hi).2.1.2)⟩,
    ⟨((h3 _).2 fun i hi => (hc i hi).2.2.1).trans hq.2.2.1, hq.2.2.2.trans ((h6 _).2 fun i hi => (hc i hi).2.2.2)⟩⟩

omit [LinearOrder K] in
/-- a tightest box is unique, so nothing else about the result needs to be said -/
theorem AABB2.toSet_inj [PartialOrder K] {a b : AABB2 K} (ha : a.Valid) (hb : b.Valid)
    (h : a.toSet = b.toSet) : a = b := by
  have h1 : a.inf ∈ b.toSet := h ▸ ⟨⟨le_rfl, ha.1⟩, ⟨le_rfl, ha.2⟩⟩
  have h2 : a.sup ∈ b.toSet := h ▸ ⟨⟨ha.1, le_rfl⟩, ⟨ha.2, le_rfl⟩⟩
  have h3 : b.inf ∈ a.toSet := h ▸ ⟨⟨le_rfl, hb.1⟩, ⟨le_rfl, hb.2⟩⟩
  have h4 : b.sup ∈ a.toSet := h ▸ ⟨⟨hb.1, le_rfl⟩, ⟨hb.2, le_rfl⟩⟩
  ext
  · exact le_antisymm h3.1.1 h1.1.1
  · exact le_antisymm h3.2.1 h1.2.1
  · exact le_antisymm h2.1.2 h4.1.2
  · exact le_antisymm h2.2.2 h4.2.2

omit [LinearOrder K] in
theorem AABB3.toSet_inj [PartialOrder K] {a b : AABB3 K} (ha : a.Valid) (hb : b.Valid)
    (h : a.toSet = b.toSet) : a = b := by
  have h1 : a.inf ∈ b.toSet := h ▸ ⟨⟨le_rfl, ha.1⟩, ⟨le_rfl, ha.2.1⟩, ⟨le_rfl, ha.2.2⟩⟩
  have h2 : a.sup ∈ b.toSet := h ▸ ⟨⟨ha.1, le_rfl⟩, ⟨ha.2.1, le_rfl⟩, ⟨ha.2.2, le_rfl⟩⟩
  have h3 : b.inf ∈ a.toSet := h ▸ ⟨⟨le_rfl, hb.1⟩, ⟨le_rfl, hb.2.1⟩, ⟨le_rfl, hb.2.2⟩⟩
  have h4 : b.sup ∈ a.toSet := h ▸ ⟨⟨hb.1, le_rfl⟩, ⟨hb.2.1, le_rfl⟩, ⟨hb.2.2, le_rfl⟩⟩
  ext
  · exact le_antisymm h3.1.1 h1.1.1
  · exact le_antisymm h3.2.1.1 h1.2.1.1
  · exact le_antisymm h3.2.2.1 h1.2.2.1
  · exact le_antisymm h2.1.2 h4.1.2
  · exact le_antisymm h2.2.1.2 h4.2.1.2
  · exact le_antisymm h2.2.2.2 h4.2.2.2

theorem AABB2.Tightest.valid {b : AABB2 K} {n : ℕ} {p : ℕ → Vec2 K} (hn : 0 < n)
    (h : b.Tightest n p) : b.Valid :=
  have := h.1 0 hn; ⟨this.1.1.trans this.1.2, this.2.1.trans this.2.2⟩
theorem AABB3.Tightest.valid {b : AABB3 K} {n : ℕ} {p : ℕ → Vec3 K} (hn : 0 < n)
    (h : b.Tightest n p) : b.Valid :=
  have := h.1 0 hn
  ⟨this.1.1.trans this.1.2, this.2.1.1.trans this.2.1.2, this.2.2.1.trans this.2.2.2⟩

/-- C60 (2-D): for a non-empty array in memory — contiguous, or with any byte stride, even negative or
zero — `set` returns the tightest box of the points. -/
theorem C60_box2 (mem : Mem K) (a : ℕ) (count : ℕ) (p : ℕ → Vec2 K) (hc : 0 < count) :
    (∀ stride, mem.PointsAt2 a stride count p →
      ∃ b, AABB2.setStrided mem a count stride = .ok b ∧ b.Valid ∧ b.Tightest count p) ∧
    (mem.PointsAt2 a (2 * mem.sz) count p →
      ∃ b, AABB2.set mem a count = .ok b ∧ b.Valid ∧ b.Tightest count p) := by
  refine ⟨fun s h => ?_, fun h => ?_⟩ <;> obtain ⟨r, e, hr⟩ := bounds2_of hc h
  · exact ⟨⟨r.1, r.2⟩, by simp [AABB2.setStrided, e, bind, Except.bind], hr.tightest.valid hc, hr.tightest⟩
  · exact ⟨⟨r.1, r.2⟩, by simp [AABB2.set, e, bind, Except.bind], hr.tightest.valid hc, hr.tightest⟩

/-- C60 (3-D). -/
theorem C60_box3 (mem : Mem K) (a : ℕ) (count : ℕ) (p : ℕ → Vec3 K) (hc : 0 < count) :
    (∀ stride, mem.PointsAt3 a stride count p →
      ∃ b, AABB3.setStrided mem a count stride = .ok b ∧ b.Valid ∧ b.Tightest count p) ∧
    (mem.PointsAt3 a (3 * mem.sz) count p →
      ∃ b, AABB3.set mem a count = .ok b ∧ b.Valid ∧ b.Tightest count p) := by
  refine ⟨fun s h => ?_, fun h => ?_⟩ <;> obtain ⟨r, e, hr⟩ := bounds3_of hc h
  · exact ⟨⟨r.1, r.2⟩, by simp [AABB3.setStrided, e, bind, Except.bind], hr.tightest.valid hc, hr.tightest⟩
  · exact ⟨⟨r.1, r.2⟩, by simp [AABB3.set, e, bind, Except.bind], hr.tightest.valid hc, hr.tightest⟩

/-- C60: an empty array (or a negative count) fails the assertion, whatever the memory holds. -/
theorem C60_empty (mem : Mem K) (a : ℕ) (count stride : ℤ) (hc : count ≤ 0) :
    AABB2.setStrided mem a count stride = .error .assertion ∧
    AABB2.set mem a count = .error .assertion ∧
    AABB3.setStrided mem a count stride = .error .assertion ∧
    AABB3.set mem a count = .error .assertion := by
  have h2 : ∀ s, bounds2 mem a count s = .error .assertion := fun s => if_pos (by simpa using hc)
  have h3 : ∀ s, bounds3 mem a count s = .error .assertion := fun s => if_pos (by simpa using hc)
  simp [AABB2.setStrided, AABB2.set, AABB3.setStrided, AABB3.set, h2, h3, bind, Except.bind]

/-- three points, the last float of each record being unrelated -/
def C60_mem : Mem ℚ where
  sz := 4
  alloc a := decide (a < 48)
  val a := [some 1, some 5, some 2, none, some (-3), some 4, some 9, none, some 2, some 7, some 0, none][a / 4]?.join

example : C60_mem.PointsAt3 0 16 3 (fun i => ([⟨1, 5, 2⟩, ⟨-3, 4, 9⟩] : List (Vec3 ℚ)).getD i ⟨2, 7, 0⟩) ∧
    AABB3.setStrided C60_mem 0 3 16 = .ok ⟨⟨-3, 4, 0⟩, ⟨2, 7, 9⟩⟩ := by
  refine ⟨fun i hi => ⟨16 * i, by push_cast; ring, ?_⟩, by decide +kernel⟩
  interval_cases i <;> decide +kernel

/-! ## C61 -/

/-- C61: `add` gives the smallest box containing the (valid) box and the point; it always contains the
point. -/
theorem C61_add2 (b : AABB2 K) (p : Vec2 K) :
    p ∈ (b.add p).toSet ∧ b.toSet ⊆ (b.add p).toSet ∧
    (b.Valid → (b.add p).Valid ∧
      ∀ c : AABB2 K, b.toSet ⊆ c.toSet → p ∈ c.toSet → (b.add p).toSet ⊆ c.toSet) := by
  rw [AABB2.add_eq]
  refine ⟨by simp [AABB2.toSet], fun q hq => ?_, fun hv => ⟨?_, fun c hb hp q hq => ?_⟩⟩
  · simp only [AABB2.toSet, Set.mem_ofPred_eq, min_le_iff, le_max_iff] at *; tauto
  · simp only [AABB2.Valid, min_le_iff, le_max_iff] at *; tauto
  · have h1 : b.inf ∈ c.toSet := hb hv.inf_mem
    have h2 : b.sup ∈ c.toSet := hb hv.sup_mem
    obtain ⟨⟨a1, -⟩, a2, -⟩ := h1
    obtain ⟨⟨-, a3⟩, -, a4⟩ := h2
    obtain ⟨⟨b1, b3⟩, b2, b4⟩ := hp
    obtain ⟨⟨c1, c3⟩, c2, c4⟩ := hq
    exact ⟨⟨(le_min a1 b1).trans c1, c3.trans (max_le a3 b3)⟩, ⟨(le_min a2 b2).trans c2, c4.trans (max_le a4 b4)⟩⟩

theorem C61_add3 (b : AABB3 K) (p : Vec3 K) :
    p ∈ (b.add p).toSet ∧ b.toSet ⊆ (b.add p).toSet ∧
    (b.Valid → (b.add p).Valid ∧
      ∀ c : AABB3 K, b.toSet ⊆ c.toSet → p ∈ c.toSet → (b.add p).toSet ⊆ c.toSet) := by
  rw [AABB3.add_eq]
  refine ⟨by simp [AABB3.toSet], fun q hq => ?_, fun hv => ⟨?_, fun c hb hp q hq => ?_⟩⟩
  · simp only [AABB3.toSet, Set.mem_ofPred_eq, min_le_iff, le_max_iff] at *; tauto
  · simp only [AABB3.Valid, min_le_iff, le_max_iff] at *; tauto
  · have h1 : b.inf ∈ c.toSet := hb hv.inf_mem
    have h2 : b.sup ∈ c.toSet := hb hv.sup_mem
    obtain ⟨⟨a1, -⟩, ⟨a2, -⟩, a5, -⟩ := h1
    obtain ⟨⟨-, a3⟩, ⟨-, a4⟩, -, a6⟩ := h2
    obtain ⟨⟨b1, b3⟩, ⟨b2, b4⟩, b5, b6⟩ := hp
    obtain ⟨⟨c1, c3⟩, ⟨c2, c4⟩, c5, c6⟩ := hq
    exact ⟨⟨(le_min a1 b1).trans c1, c3.trans (max_le a3 b3)⟩,
      ⟨(le_min a2 b2).trans c2, c4.trans (max_le a4 b4)⟩, ⟨(le_min a5 b5).trans c5, c6.trans (max_le a6 b6)⟩⟩

theorem fromUnion2_eq (a b : AABB2 K) : AABB2.fromUnion a b =
    ⟨⟨min a.inf.x b.inf.x, min a.inf.y b.inf.y⟩, ⟨max a.sup.x b.sup.x, max a.sup.y b.sup.y⟩⟩ := by
  simp only [AABB2.fromUnion, Vec2.min, Vec2.max, min'_eq, max'_eq]
theorem fromUnion3_eq (a b : AABB3 K) : AABB3.fromUnion a b =
    ⟨⟨min a.inf.x b.inf.x, min a.inf.y b.inf.y, min a.inf.z b.inf.z⟩,
      ⟨max a.sup.x b.sup.x, max a.sup.y b.sup.y, max a.sup.z b.sup.z⟩⟩ := by
  simp only [AABB3.fromUnion, Vec3.min, Vec3.max, min'_eq, max'_eq]

/-- C61: the union box is the smallest box containing both (valid) boxes. -/
theorem C61_union2 (a b : AABB2 K) :
    a.toSet ∪ b.toSet ⊆ (AABB2.fromUnion a b).toSet ∧
    (a.Valid → b.Valid → (AABB2.fromUnion a b).Valid ∧
      ∀ c : AABB2 K, a.toSet ∪ b.toSet ⊆ c.toSet → (AABB2.fromUnion a b).toSet ⊆ c.toSet) := by
  rw [fromUnion2_eq]
  refine ⟨fun q hq => ?_, fun ha hb => ⟨?_, fun c hc q hq => ?_⟩⟩
  · simp only [AABB2.toSet, Set.mem_ofPred_eq, min_le_iff, le_max_iff, Set.mem_union] at *; tauto
  · simp only [AABB2.Valid, min_le_iff, le_max_iff] at *; tauto
  · obtain ⟨⟨a1, -⟩, a2, -⟩ := hc (.inl ha.inf_mem)
    obtain ⟨⟨-, a3⟩, -, a4⟩ := hc (.inl ha.sup_mem)
    obtain ⟨⟨b1, -⟩, b2, -⟩ := hc (.inr hb.inf_mem)
    obtain ⟨⟨-, b3⟩, -, b4⟩ := hc (.inr hb.sup_mem)
    obtain ⟨⟨c1, c3⟩, c2, c4⟩ := hq
    exact ⟨⟨(le_min a1 b1).trans c1, c3.trans (max_le a3 b3)⟩, ⟨(le_min a2 b2).trans c2, c4.trans (max_le a4 b4)⟩⟩

theorem C61_union3 (a b : AABB3 K) :
    a.toSet ∪ b.toSet ⊆ (AABB3.fromUnion a b).toSet ∧
    (a.Valid → b.Valid → (AABB3.fromUnion a b).Valid ∧
      ∀ c : AABB3 K, a.toSet ∪ b.toSet ⊆ c.toSet → (AABB3.fromUnion a b).toSet ⊆ c.toSet) := by
  rw [fromUnion3_eq]
  refine ⟨fun q hq => ?_, fun ha hb => ⟨?_, fun c hc q hq => ?_⟩⟩
  · simp only [AABB3.toSet, Set.mem_ofPred_eq, min_le_iff, le_max_iff, Set.mem_union] at *; tauto
  · simp only [AABB3.Valid, min_le_iff, le_max_iff] at *; tauto
  · obtain ⟨⟨a1, -⟩, ⟨a2, -⟩, a5, -⟩ := hc (.inl ha.inf_mem)
    obtain ⟨⟨-, a3⟩, ⟨-, a4⟩, -, a6⟩ := hc (.inl ha.sup_mem)
    obtain ⟨⟨b1, -⟩, ⟨b2, -⟩, b5, -⟩ := hc (.inr hb.inf_mem)
    obtain ⟨⟨-, b3⟩, ⟨-, b4⟩, -, b6⟩ := hc (.inr hb.sup_mem)
    obtain ⟨⟨c1, c3⟩, ⟨c2, c4⟩, c5, c6⟩ := hq
    exact ⟨⟨(le_min a1 b1).trans c1, c3.trans (max_le a3 b3)⟩,
      ⟨(le_min a2 b2).trans c2, c4.trans (max_le a4 b4)⟩, ⟨(le_min a5 b5).trans c5, c6.trans (max_le a6 b6)⟩⟩

theorem foldl_add2_tight (l : List (Vec2 K)) (b : AABB2 K) (hb : b.Valid) :
    (l.foldl AABB2.add b).Valid ∧ b.toSet ⊆ (l.foldl AABB2.add b).toSet ∧
    (∀ q ∈ l, q ∈ (l.foldl AABB2.add b).toSet) ∧
    ∀ c : AABB2 K, b.toSet ⊆ c.toSet → (∀ q ∈ l, q ∈ c.toSet) → (l.foldl AABB2.add b).toSet ⊆ c.toSet := by
  induction l generalizing b with
  | nil => exact ⟨hb, subset_rfl, by simp, fun c h _ => h⟩
  | cons p l ih =>
    obtain ⟨h1, h2, h3⟩ := C61_add2 b p
    obtain ⟨i1, i2, i3, i4⟩ := ih (b.add p) (h3 hb).1
    refine ⟨i1, h2.trans i2, ?_, fun c hc hl => i4 c ((h3 hb).2 c hc (hl p (by simp)))
      fun q hq => hl q (by simp [hq])⟩
    intro q hq
    rcases List.mem_cons.1 hq with rfl | hq
    · exact i2 h1
    · exact i3 q hq

theorem foldl_add3_tight (l : List (Vec3 K)) (b : AABB3 K) (hb : b.Valid) :
    (l.foldl AABB3.add b).Valid ∧ b.toSet ⊆ (l.foldl AABB3.add b).toSet ∧
    (∀ q ∈ l, q ∈ (l.foldl AABB3.add b).toSet) ∧
    ∀ c : AABB3 K, b.toSet ⊆ c.toSet → (∀ q ∈ l, q ∈ c.toSet) → (l.foldl AABB3.add b).toSet ⊆ c.toSet := by
  induction l generalizing b with
  | nil => exact ⟨hb, subset_rfl, by simp, fun c h _ => h⟩
  | cons p l ih =>
    obtain ⟨h1, h2, h3⟩ := C61_add3 b p
    obtain ⟨i1, i2, i3, i4⟩ := ih (b.add p) (h3 hb).1
    refine ⟨i1, h2.trans i2, ?_, fun c hc hl => i4 c ((h3 hb).2 c hc (hl p (by simp)))
      fun q hq => hl q (by simp [hq])⟩
    intro q hq
    rcases List.mem_cons.1 hq with rfl | hq
    · exact i2 h1
    · exact i3 q hq

/-- C61: starting from any one of the points and adding the others one at a time, in any order, gives
the same box as `set` on the whole array. -/
theorem C61_incremental2 (mem : Mem K) (a : ℕ) (stride : ℤ) (count : ℕ) (p : ℕ → Vec2 K)
    (h : mem.PointsAt2 a stride count p) (q : Vec2 K) (l : List (Vec2 K))
    (hl : (q :: l).Perm ((List.range count).map p)) :
    AABB2.setStrided mem a count stride = .ok (l.foldl AABB2.add (AABB2.ofPoint q)) := by
  have hc : 0 < count := by
    have := hl.length_eq
    simp at this; omega
  obtain ⟨b, e, hv, h1, h2⟩ := (C60_box2 mem a count p hc).1 stride h
  have hm : ∀ v, v ∈ q :: l ↔ ∃ i < count, p i = v := fun v => by simp [hl.mem_iff]
  obtain ⟨i1, i2, i3, i4⟩ := foldl_add2_tight l (AABB2.ofPoint q) ⟨le_rfl, le_rfl⟩
  rw [e, AABB2.toSet_inj hv i1]
  have hq : ∀ c : AABB2 K, q ∈ c.toSet → (AABB2.ofPoint q).toSet ⊆ c.toSet := by
    rintro c ⟨⟨a1, a2⟩, a3, a4⟩ v ⟨⟨b1, b2⟩, b3, b4⟩
    exact ⟨⟨a1.trans b1, b2.trans a2⟩, ⟨a3.trans b3, b4.trans a4⟩⟩
  apply subset_antisymm
  · refine h2 _ fun i hi => ?_
    rcases List.mem_cons.1 ((hm _).2 ⟨i, hi, rfl⟩) with e | e
    · rw [e]; exact i2 ⟨⟨le_rfl, le_rfl⟩, ⟨le_rfl, le_rfl⟩⟩
    · exact i3 _ e
  · refine i4 b ?_ fun v hv => ?_
    · obtain ⟨i, hi, e⟩ := (hm q).1 (by simp)
      exact hq b (e ▸ h1 i hi)
    · obtain ⟨i, hi, e⟩ := (hm v).1 (by simp [hv])
      exact e ▸ h1 i hi

theorem C61_incremental3 (mem : Mem K) (a : ℕ) (stride : ℤ) (count : ℕ) (p : ℕ → Vec3 K)
    (h : mem.PointsAt3 a stride count p) (q : Vec3 K) (l : List (Vec3 K))
    (hl : (q :: l).Perm ((List.range count).map p)) :
    AABB3.setStrided mem a count stride = .ok (l.foldl AABB3.add (AABB3.ofPoint q)) := by
  have hc : 0 < count := by
    have := hl.length_eq
    simp at this; omega
  obtain ⟨b, e, hv, h1, h2⟩ := (C60_box3 mem a count p hc).1 stride h
  have hm : ∀ v, v ∈ q :: l ↔ ∃ i < count, p i = v := fun v => by simp [hl.mem_iff]
  obtain ⟨i1, i2, i3, i4⟩ := foldl_add3_tight l (AABB3.ofPoint q) ⟨le_rfl, le_rfl, le_rfl⟩
  rw [e, AABB3.toSet_inj hv i1]
  have hq : ∀ c : AABB3 K, q ∈ c.toSet → (AABB3.ofPoint q).toSet ⊆ c.toSet := by
    rintro c ⟨⟨a1, a2⟩, ⟨a3, a4⟩, a5, a6⟩ v ⟨⟨b1, b2⟩, ⟨b3, b4⟩, b5, b6⟩
    exact ⟨⟨a1.trans b1, b2.trans a2⟩, ⟨a3.trans b3, b4.trans a4⟩, ⟨a5.trans b5, b6.trans a6⟩⟩
  apply subset_antisymm
  · refine h2 _ fun i hi => ?_
    rcases List.mem_cons.1 ((hm _).2 ⟨i, hi, rfl⟩) with e | e
    · rw [e]; exact i2 ⟨⟨le_rfl, le_rfl⟩, ⟨le_rfl, le_rfl⟩, ⟨le_rfl, le_rfl⟩⟩
    · exact i3 _ e
  · refine i4 b ?_ fun v hv => ?_
    · obtain ⟨i, hi, e⟩ := (hm q).1 (by simp)
      exact hq b (e ▸ h1 i hi)
    · obtain ⟨i, hi, e⟩ := (hm v).1 (by simp [hv])
      exact e ▸ h1 i hi

example : AABB3.setStrided C60_mem 0 3 16 =
    .ok (([⟨1, 5, 2⟩, ⟨-3, 4, 9⟩] : List (Vec3 ℚ)).foldl AABB3.add (AABB3.ofPoint ⟨2, 7, 0⟩)) := by
  decide +kernel

/-! ## C62 -/

/-- C62: the containment tests are membership and inclusion of point sets. -/
theorem C62_box2 (b o : AABB2 K) (p : Vec2 K) :
    (b.contains p = true ↔ p ∈ b.toSet) ∧
    (o.Valid → (b.containsBox o = true ↔ o.toSet ⊆ b.toSet)) := by
  refine ⟨by simp [AABB2.contains, AABB2.toSet], fun ho => ?_⟩
  simp only [AABB2.containsBox, Bool.and_eq_true, decide_eq_true_eq, ge_iff_le]
  constructor
  · rintro ⟨⟨a1, a2⟩, a3, a4⟩ v ⟨⟨b1, b2⟩, b3, b4⟩
    exact ⟨⟨a1.trans b1, b2.trans a2⟩, ⟨a3.trans b3, b4.trans a4⟩⟩
  · intro h
    have h1 := h ho.inf_mem
    have h2 := h ho.sup_mem
    exact ⟨⟨h1.1.1, h2.1.2⟩, h1.2.1, h2.2.2⟩

theorem C62_box3 (b o : AABB3 K) (p : Vec3 K) :
    (b.contains p = true ↔ p ∈ b.toSet) ∧
    (o.Valid → (b.containsBox o = true ↔ o.toSet ⊆ b.toSet)) := by
  refine ⟨by simp [AABB3.contains, AABB3.toSet, and_assoc], fun ho => ?_⟩
  simp only [AABB3.containsBox, Bool.and_eq_true, decide_eq_true_eq, ge_iff_le]
  constructor
  · rintro ⟨⟨⟨a1, a2⟩, a3, a4⟩, a5, a6⟩ v ⟨⟨b1, b2⟩, ⟨b3, b4⟩, b5, b6⟩
    exact ⟨⟨a1.trans b1, b2.trans a2⟩, ⟨a3.trans b3, b4.trans a4⟩, ⟨a5.trans b5, b6.trans a6⟩⟩
  · intro h
    have h1 := h ho.inf_mem
    have h2 := h ho.sup_mem
    exact ⟨⟨⟨h1.1.1, h2.1.2⟩, h1.2.1.1, h2.2.1.2⟩, h1.2.2.1, h2.2.2.2⟩

theorem Vec3.dist_toE (a b : Vec3 ℝ) :
    dist a.toE b.toE = Real.sqrt ((a.x - b.x) ^ 2 + (a.y - b.y) ^ 2 + (a.z - b.z) ^ 2) := by
  rw [EuclideanSpace.dist_eq, Fin.sum_univ_three]
  simp [Vec3.toE, Vec3.toFn, Real.dist_eq, sq_abs]
theorem Vec2.dist_toE (a b : Vec2 ℝ) :
    dist a.toE b.toE = Real.sqrt ((a.x - b.x) ^ 2 + (a.y - b.y) ^ 2) := by
  rw [EuclideanSpace.dist_eq, Fin.sum_univ_two]
  simp [Vec2.toE, Vec2.toFn, Real.dist_eq, sq_abs]

/-- a coordinate is at most the distance away -/
theorem Sphere.coord_le {s : Sphere ℝ} {p : Vec3 ℝ} (h : p ∈ s.toSet) :
    |p.x - s.center.x| ≤ s.radius ∧ |p.y - s.center.y| ≤ s.radius ∧ |p.z - s.center.z| ≤ s.radius := by
  have h' : Real.sqrt ((p.x - s.center.x) ^ 2 + (p.y - s.center.y) ^ 2 + (p.z - s.center.z) ^ 2) ≤ s.radius :=
    (Vec3.dist_toE p s.center) ▸ h
  refine ⟨?_, ?_, ?_⟩ <;> refine le_trans (Real.abs_le_sqrt ?_) h'
  · nlinarith [sq_nonneg (p.y - s.center.y), sq_nonneg (p.z - s.center.z)]
  · nlinarith [sq_nonneg (p.x - s.center.x), sq_nonneg (p.z - s.center.z)]
  · nlinarith [sq_nonneg (p.y - s.center.y), sq_nonneg (p.x - s.center.x)]

theorem Sphere.axis_mem (s : Sphere ℝ) (hr : 0 ≤ s.radius) :
    (⟨s.center.x + s.radius, s.center.y, s.center.z⟩ : Vec3 ℝ) ∈ s.toSet ∧
    (⟨s.center.x - s.radius, s.center.y, s.center.z⟩ : Vec3 ℝ) ∈ s.toSet ∧
    (⟨s.center.x, s.center.y + s.radius, s.center.z⟩ : Vec3 ℝ) ∈ s.toSet ∧
    (⟨s.center.x, s.center.y - s.radius, s.center.z⟩ : Vec3 ℝ) ∈ s.toSet ∧
    (⟨s.center.x, s.center.y, s.center.z + s.radius⟩ : Vec3 ℝ) ∈ s.toSet ∧
    (⟨s.center.x, s.center.y, s.center.z - s.radius⟩ : Vec3 ℝ) ∈ s.toSet := by
  simp only [Sphere.toSet, Set.mem_ofPred_eq, Vec3.dist_toE]
  simp [Real.sqrt_sq hr]

/-- C62: a ball (of non-negative radius) is inside the box iff `contains(sphere)` says so. -/
theorem C62_sphere (b : AABB3 ℝ) (s : Sphere ℝ) (hr : 0 ≤ s.radius) :
    b.containsSphere s = true ↔ s.toSet ⊆ b.toSet := by
  simp only [AABB3.containsSphere, Bool.and_eq_true, decide_eq_true_eq, ge_iff_le]
  constructor
  · rintro ⟨⟨⟨a1, a2⟩, a3, a4⟩, a5, a6⟩ p hp
    obtain ⟨h1, h2, h3⟩ := Sphere.coord_le hp
    rw [abs_le] at h1 h2 h3
    exact ⟨⟨by linarith [h1.1], by linarith [h1.2]⟩, ⟨by linarith [h2.1], by linarith [h2.2]⟩,
      ⟨by linarith [h3.1], by linarith [h3.2]⟩⟩
  · intro h
    obtain ⟨h1, h2, h3, h4, h5, h6⟩ := s.axis_mem hr
    exact ⟨⟨⟨(h h2).1.1, (h h1).1.2⟩, (h h4).2.1.1, (h h3).2.1.2⟩, (h h6).2.2.1, (h h5).2.2.2⟩

example : (⟨⟨0, 0, 0⟩, ⟨2, 2, 2⟩⟩ : AABB3 ℝ).containsSphere ⟨⟨1, 1, 1⟩, 1⟩ = true ∧
    (⟨⟨0, 0, 0⟩, ⟨2, 2, 2⟩⟩ : AABB3 ℝ).containsSphere ⟨⟨1, 1, 1⟩, 3 / 2⟩ = false := by
  norm_num [AABB3.containsSphere]
example : (⟨⟨0, 0⟩, ⟨4, 4⟩⟩ : AABB2 ℚ).containsBox ⟨⟨1, 1⟩, ⟨2, 4⟩⟩ = true ∧
    (⟨⟨1, 1⟩, ⟨2, 4⟩⟩ : AABB2 ℚ).Valid ∧ (⟨⟨0, 0⟩, ⟨4, 4⟩⟩ : AABB2 ℚ).containsBox ⟨⟨1, 1⟩, ⟨2, 5⟩⟩ = false := by
  refine ⟨by decide +kernel, ⟨by norm_num, by norm_num⟩, by decide +kernel⟩

/-! ## C63 -/

/-- C63: two valid boxes overlap, by the test, iff they share a point; the test is symmetric. -/
theorem C63_box2 (a b : AABB2 K) :
    (a.Valid → b.Valid → (a.intersects b = true ↔ (a.toSet ∩ b.toSet).Nonempty)) ∧
    a.intersects b = b.intersects a := by
  have key : ∀ a b : AABB2 K, a.intersects b = true ↔
      (b.inf.x ≤ a.sup.x ∧ a.inf.x ≤ b.sup.x) ∧ (b.inf.y ≤ a.sup.y ∧ a.inf.y ≤ b.sup.y) := by
    intro a b
    unfold AABB2.intersects
    split_ifs with h1 h2 <;> simp only [gt_iff_lt, not_or, not_lt] at * <;> grind
  refine ⟨fun ha hb => ?_, ?_⟩
  · rw [key]
    constructor
    · rintro ⟨⟨h1, h2⟩, h3, h4⟩
      exact ⟨⟨max a.inf.x b.inf.x, max a.inf.y b.inf.y⟩,
        ⟨⟨le_max_left _ _, max_le ha.1 h1⟩, ⟨le_max_left _ _, max_le ha.2 h3⟩⟩,
        ⟨⟨le_max_right _ _, max_le h2 hb.1⟩, ⟨le_max_right _ _, max_le h4 hb.2⟩⟩⟩
    · rintro ⟨p, ⟨⟨a1, a2⟩, a3, a4⟩, ⟨b1, b2⟩, b3, b4⟩
      exact ⟨⟨b1.trans a2, a1.trans b2⟩, b3.trans a4, a3.trans b4⟩
  · rw [Bool.eq_iff_iff, key, key]; tauto

theorem C63_box3 (a b : AABB3 K) :
    (a.Valid → b.Valid → (a.intersects b = true ↔ (a.toSet ∩ b.toSet).Nonempty)) ∧
    a.intersects b = b.intersects a := by
  have key : ∀ a b : AABB3 K, a.intersects b = true ↔
      (b.inf.x ≤ a.sup.x ∧ a.inf.x ≤ b.sup.x) ∧ (b.inf.y ≤ a.sup.y ∧ a.inf.y ≤ b.sup.y) ∧
      (b.inf.z ≤ a.sup.z ∧ a.inf.z ≤ b.sup.z) := by
    intro a b
    unfold AABB3.intersects
    split_ifs with h1 h2 h3 <;> simp only [gt_iff_lt, not_or, not_lt] at * <;> grind
  refine ⟨fun ha hb => ?_, ?_⟩
  · rw [key]
    constructor
    · rintro ⟨⟨h1, h2⟩, ⟨h3, h4⟩, h5, h6⟩
      exact ⟨⟨max a.inf.x b.inf.x, max a.inf.y b.inf.y, max a.inf.z b.inf.z⟩,
        ⟨⟨le_max_left _ _, max_le ha.1 h1⟩, ⟨le_max_left _ _, max_le ha.2.1 h3⟩, ⟨le_max_left _ _, max_le ha.2.2 h5⟩⟩,
        ⟨⟨le_max_right _ _, max_le h2 hb.1⟩, ⟨le_max_right _ _, max_le h4 hb.2.1⟩, ⟨le_max_right _ _, max_le h6 hb.2.2⟩⟩⟩
    · rintro ⟨p, ⟨⟨a1, a2⟩, ⟨a3, a4⟩, a5, a6⟩, ⟨b1, b2⟩, ⟨b3, b4⟩, b5, b6⟩
      exact ⟨⟨b1.trans a2, a1.trans b2⟩, ⟨b3.trans a4, a3.trans b4⟩, b5.trans a6, a5.trans b6⟩
  · rw [Bool.eq_iff_iff, key, key]; tauto

example : (⟨⟨0, 0⟩, ⟨4, 4⟩⟩ : AABB2 ℚ).intersects ⟨⟨4, 1⟩, ⟨6, 2⟩⟩ = true ∧
    (⟨⟨0, 0⟩, ⟨4, 4⟩⟩ : AABB2 ℚ).intersects ⟨⟨5, 1⟩, ⟨6, 2⟩⟩ = false ∧
    (⟨⟨5, 1⟩, ⟨6, 2⟩⟩ : AABB2 ℚ).Valid :=
  ⟨by decide +kernel, by decide +kernel, by norm_num [AABB2.Valid]⟩

/-! ## C64

The claim is false for disjoint boxes: the result is then the box holding just the origin. -/

/-- C64, refuted: disjoint boxes give a box with a point. -/
theorem C64_refuted : ∃ a b : AABB2 ℚ, a.Valid ∧ b.Valid ∧
    (AABB2.fromIntersection a b).toSet ≠ a.toSet ∩ b.toSet := by
  refine ⟨⟨⟨1, 1⟩, ⟨2, 2⟩⟩, ⟨⟨3, 3⟩, ⟨4, 4⟩⟩, by norm_num [AABB2.Valid], by norm_num [AABB2.Valid], fun h => ?_⟩
  have h0 : (⟨0, 0⟩ : Vec2 ℚ) ∈ (AABB2.fromIntersection ⟨⟨1, 1⟩, ⟨2, 2⟩⟩ ⟨⟨3, 3⟩, ⟨4, 4⟩⟩ : AABB2 ℚ).toSet := by
    norm_num [AABB2.fromIntersection, AABB2.zero, AABB2.toSet]
  rw [h] at h0
  norm_num [AABB2.toSet] at h0

/-- C64: overlapping boxes intersect in exactly the common points; otherwise the result is `Zero`.
Missing for the full claim (`(fromIntersection a b).toSet = a.toSet ∩ b.toSet` for all valid boxes):
disjoint boxes, where it is false. -/
theorem C64_box2_partial [Zero K] (a b : AABB2 K) :
    ((a.toSet ∩ b.toSet).Nonempty → (AABB2.fromIntersection a b).toSet = a.toSet ∩ b.toSet) ∧
    (a.Valid → b.Valid → a.toSet ∩ b.toSet = ∅ → AABB2.fromIntersection a b = ⟨⟨0, 0⟩, ⟨0, 0⟩⟩) := by
  constructor
  · rintro ⟨p, ⟨⟨a1, a2⟩, a3, a4⟩, ⟨b1, b2⟩, b3, b4⟩
    unfold AABB2.fromIntersection
    rw [if_neg (by simpa using ⟨a1.trans b2, b1.trans a2⟩), if_neg (by simpa using ⟨a3.trans b4, b3.trans a4⟩)]
    ext q
    simp only [AABB2.toSet, Vec2.min, Vec2.max, min'_eq, max'_eq, Set.mem_ofPred_eq, Set.mem_inter_iff, max_le_iff,
      le_min_iff]
    tauto
  · intro ha hb h
    have h' := ((C63_box2 a b).1 ha hb).not.2 (by rw [h]; exact Set.not_nonempty_empty)
    rw [(C63_box2 a b).2] at h'
    unfold AABB2.intersects at h'
    unfold AABB2.fromIntersection
    split_ifs at h' ⊢ <;> simp_all [AABB2.zero]

theorem C64_box3_partial [Zero K] (a b : AABB3 K) :
    ((a.toSet ∩ b.toSet).Nonempty → (AABB3.fromIntersection a b).toSet = a.toSet ∩ b.toSet) ∧
    (a.Valid → b.Valid → a.toSet ∩ b.toSet = ∅ → AABB3.fromIntersection a b = ⟨⟨0, 0, 0⟩, ⟨0, 0, 0⟩⟩) := by
  constructor
  · rintro ⟨p, ⟨⟨a1, a2⟩, ⟨a3, a4⟩, a5, a6⟩, ⟨b1, b2⟩, ⟨b3, b4⟩, b5, b6⟩
    unfold AABB3.fromIntersection
    rw [if_neg (by simpa using ⟨a1.trans b2, b1.trans a2⟩), if_neg (by simpa using ⟨a3.trans b4, b3.trans a4⟩),
      if_neg (by simpa using ⟨a5.trans b6, b5.trans a6⟩)]
    ext q
    simp only [AABB3.toSet, Vec3.min, Vec3.max, min'_eq, max'_eq, Set.mem_ofPred_eq, Set.mem_inter_iff, max_le_iff,
      le_min_iff]
    tauto
  · intro ha hb h
    have h' := ((C63_box3 a b).1 ha hb).not.2 (by rw [h]; exact Set.not_nonempty_empty)
    rw [(C63_box3 a b).2] at h'
    unfold AABB3.intersects at h'
    unfold AABB3.fromIntersection
    split_ifs at h' ⊢ <;> simp_all [AABB3.zero]

example : ((⟨⟨0, 0⟩, ⟨4, 4⟩⟩ : AABB2 ℚ).toSet ∩ (⟨⟨3, 1⟩, ⟨6, 2⟩⟩ : AABB2 ℚ).toSet).Nonempty ∧
    AABB2.fromIntersection (⟨⟨0, 0⟩, ⟨4, 4⟩⟩ : AABB2 ℚ) ⟨⟨3, 1⟩, ⟨6, 2⟩⟩ = ⟨⟨3, 1⟩, ⟨4, 2⟩⟩ :=
  ⟨⟨⟨3, 1⟩, by norm_num [AABB2.toSet]⟩, by decide +kernel⟩

end MathLib
