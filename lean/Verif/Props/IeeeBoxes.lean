import Verif.Proof.BoxLemmas
import Verif.Proof.IeeeOrder

/-! # Property C134: boxes in floating point, special values included

Boxes only copy and compare coordinates, so nothing is rounded; what matters are NaN and infinities. -/

namespace MathLib
open Ieee

section
variable {K : Type} [Field K] [LinearOrder K] [IsStrictOrderedRing K] [FloorRing K] {p : ℕ} {emax : ℤ}

/-- one of the numbers `c 0, …, c (n-1)`, and none of the others that are numbers is smaller -/
def Ieee.Lowest (n : ℕ) (c : ℕ → Ieee K p emax) (lo : Ieee K p emax) : Prop :=
  (∃ j < n, lo = c j) ∧ ∀ j < n, c j ≠ .nan → lo ≤ c j
/-- one of the numbers, and none of the others that are numbers is greater -/
def Ieee.Highest (n : ℕ) (c : ℕ → Ieee K p emax) (hi : Ieee K p emax) : Prop :=
  (∃ j < n, hi = c j) ∧ ∀ j < n, c j ≠ .nan → c j ≤ hi

/-- no coordinate is NaN -/
def Vec2.NoNaN (v : Vec2 (Ieee K p emax)) : Prop := v.x ≠ .nan ∧ v.y ≠ .nan
/-- no coordinate is NaN -/
def Vec3.NoNaN (v : Vec3 (Ieee K p emax)) : Prop := v.x ≠ .nan ∧ v.y ≠ .nan ∧ v.z ≠ .nan

omit [IsStrictOrderedRing K] [FloorRing K] in
theorem lowest_step {n : ℕ} {c : ℕ → Ieee K p emax} {lo : Ieee K p emax} (h : lo.Lowest n c) (h0 : lo ≠ .nan) :
    (if c n < lo then c n else lo).Lowest (n + 1) c ∧ (if c n < lo then c n else lo) ≠ .nan := by
  obtain ⟨⟨j, hj, e⟩, h2⟩ := h
  split_ifs with hc
  · have hc' := (lt_iff _ _).1 hc
    refine ⟨⟨⟨n, by omega, rfl⟩, fun i hi hn => ?_⟩, hc'.1⟩
    rcases Nat.lt_succ_iff_lt_or_eq.1 hi with hi | rfl
    · exact (le_iff _ _).2 ⟨hc'.1, hn, hc'.2.2.le.trans ((le_iff _ _).1 (h2 i hi hn)).2.2⟩
    · exact (le_iff _ _).2 ⟨hn, hn, le_rfl⟩
  · refine ⟨⟨⟨j, by omega, e⟩, fun i hi hn => ?_⟩, h0⟩
    rcases Nat.lt_succ_iff_lt_or_eq.1 hi with hi | rfl
    · exact h2 i hi hn
    · refine (le_iff _ _).2 ⟨h0, hn, not_lt.1 fun h => hc ((lt_iff _ _).2 ⟨hn, h0, h⟩)⟩

omit [IsStrictOrderedRing K] [FloorRing K] in
theorem highest_step {n : ℕ} {c : ℕ → Ieee K p emax} {hi : Ieee K p emax} (h : hi.Highest n c) (h0 : hi ≠ .nan) :
    (if c n > hi then c n else hi).Highest (n + 1) c ∧ (if c n > hi then c n else hi) ≠ .nan := by
  obtain ⟨⟨j, hj, e⟩, h2⟩ := h
  split_ifs with hc
  · have hc' := (lt_iff _ _).1 hc
    refine ⟨⟨⟨n, by omega, rfl⟩, fun i hi hn => ?_⟩, hc'.2.1⟩
    rcases Nat.lt_succ_iff_lt_or_eq.1 hi with hi | rfl
    · exact (le_iff _ _).2 ⟨hn, hc'.2.1, ((le_iff _ _).1 (h2 i hi hn)).2.2.trans hc'.2.2.le⟩
    · exact (le_iff _ _).2 ⟨hn, hn, le_rfl⟩
  · refine ⟨⟨⟨j, by omega, e⟩, fun i hi hn => ?_⟩, h0⟩
    rcases Nat.lt_succ_iff_lt_or_eq.1 hi with hi | rfl
    · exact h2 i hi hn
    · refine (le_iff _ _).2 ⟨hn, h0, not_lt.1 fun h => hc ((lt_iff _ _).2 ⟨h0, hn, h⟩)⟩

omit [IsStrictOrderedRing K] [FloorRing K] in
theorem lowest_one (c : ℕ → Ieee K p emax) : (c 0).Lowest 1 c :=
  ⟨⟨0, by omega, rfl⟩, fun j hj hn => by
    obtain rfl : j = 0 := by omega
    exact (le_iff _ _).2 ⟨hn, hn, le_rfl⟩⟩
omit [IsStrictOrderedRing K] [FloorRing K] in
theorem highest_one (c : ℕ → Ieee K p emax) : (c 0).Highest 1 c :=
  ⟨⟨0, by omega, rfl⟩, fun j hj hn => by
    obtain rfl : j = 0 := by omega
    exact (le_iff _ _).2 ⟨hn, hn, le_rfl⟩⟩

section
variable {R : Type} [LT R] [DecidableLT R]
theorem boundStep2_if (r : Vec2 R × Vec2 R) (q : Vec2 R) : boundStep2 r q =
    (⟨if q.x < r.1.x then q.x else r.1.x, if q.y < r.1.y then q.y else r.1.y⟩,
     ⟨if q.x > r.2.x then q.x else r.2.x, if q.y > r.2.y then q.y else r.2.y⟩) := by
  unfold boundStep2
  refine Prod.ext (Vec2.ext ?_ ?_) (Vec2.ext ?_ ?_) <;> simp only <;> split_ifs <;> rfl

theorem bounds2_rule {mem : Mem R} {a : ℕ} {stride : ℤ} {count : ℕ} {q : ℕ → Vec2 R}
    (hc : 0 < count) (h : mem.PointsAt2 a stride count q) (Inv : ℕ → Vec2 R × Vec2 R → Prop)
    (h1 : Inv 1 (q 0, q 0)) (hs : ∀ i r, i < count → Inv i r → Inv (i + 1) (boundStep2 r (q i))) :
    ∃ r, bounds2 mem a count stride = .ok r ∧ Inv count r := by
  have h0 := h.read hc
  simp only [Nat.cast_zero, zero_mul, add_zero] at h0
  obtain ⟨⟨r, u⟩, e, h1, -⟩ := loop_rule (f := fun _ (s : (Vec2 R × Vec2 R) × ℤ) => do
      let v ← mem.vec2At s.2
      .ok (boundStep2 s.1 v, s.2 + stride)) (lo := 1) (hi := count) (s := ((q 0, q 0), (a : ℤ) + stride))
    (fun i s => Inv i s.1 ∧ s.2 = a + i * stride) hc
    ⟨h1, by simp⟩ (by
      rintro i ⟨r, u⟩ - hi ⟨hb, hq⟩
      simp only at hq hb
      refine ⟨(boundStep2 r (q i), u + stride), ?_, hs i r hi hb, ?_⟩
      · simp only [hq, h.read hi, bind, Except.bind]
      · simp only [hq]; push_cast; ring)
  refine ⟨r, ?_, h1⟩
  unfold bounds2
  rw [if_neg (by simp; omega)]
  simp only [h0, bind, Except.bind, Int.toNat_natCast] at e ⊢
  rw [e]
end

section
variable {R : Type} [LT R] [DecidableLT R]
theorem boundStep3_if (r : Vec3 R × Vec3 R) (q : Vec3 R) : boundStep3 r q =
    (⟨if q.x < r.1.x then q.x else r.1.x, if q.y < r.1.y then q.y else r.1.y, if q.z < r.1.z then q.z else r.1.z⟩,
     ⟨if q.x > r.2.x then q.x else r.2.x, if q.y > r.2.y then q.y else r.2.y, if q.z > r.2.z then q.z else r.2.z⟩) := by
  unfold boundStep3
  refine Prod.ext (Vec3.ext ?_ ?_ ?_) (Vec3.ext ?_ ?_ ?_) <;> simp only <;> split_ifs <;> rfl

theorem bounds3_rule {mem : Mem R} {a : ℕ} {stride : ℤ} {count : ℕ} {q : ℕ → Vec3 R}
    (hc : 0 < count) (h : mem.PointsAt3 a stride count q) (Inv : ℕ → Vec3 R × Vec3 R → Prop)
    (h1 : Inv 1 (q 0, q 0)) (hs : ∀ i r, i < count → Inv i r → Inv (i + 1) (boundStep3 r (q i))) :
    ∃ r, bounds3 mem a count stride = .ok r ∧ Inv count r := by
  have h0 := h.read hc
  simp only [Nat.cast_zero, zero_mul, add_zero] at h0
  obtain ⟨⟨r, u⟩, e, h1, -⟩ := loop_rule (f := fun _ (s : (Vec3 R × Vec3 R) × ℤ) => do
      let v ← mem.vec3At s.2
      .ok (boundStep3 s.1 v, s.2 + stride)) (lo := 1) (hi := count) (s := ((q 0, q 0), (a : ℤ) + stride))
    (fun i s => Inv i s.1 ∧ s.2 = a + i * stride) hc
    ⟨h1, by simp⟩ (by
      rintro i ⟨r, u⟩ - hi ⟨hb, hq⟩
      simp only at hq hb
      refine ⟨(boundStep3 r (q i), u + stride), ?_, hs i r hi hb, ?_⟩
      · simp only [hq, h.read hi, bind, Except.bind]
      · simp only [hq]; push_cast; ring)
  refine ⟨r, ?_, h1⟩
  unfold bounds3
  rw [if_neg (by simp; omega)]
  simp only [h0, bind, Except.bind, Int.toNat_natCast] at e ⊢
  rw [e]
end

omit [IsStrictOrderedRing K] [FloorRing K] in
theorem NotNaN.refl {a : Ieee K p emax} (h : a ≠ .nan) : a ≤ a := (le_iff _ _).2 ⟨h, h, le_rfl⟩
omit [IsStrictOrderedRing K] [FloorRing K] in
theorem Ieee.trans {a b c : Ieee K p emax} (h : a ≤ b) (h' : b ≤ c) : a ≤ c := by
  rw [le_iff] at *; exact ⟨h.1, h'.2.1, h.2.2.trans h'.2.2⟩
omit [IsStrictOrderedRing K] [FloorRing K] in
theorem Ieee.le_of_not {a b : Ieee K p emax} (ha : a ≠ .nan) (hb : b ≠ .nan) (h : ¬ a < b) : b ≤ a :=
  (le_iff _ _).2 ⟨hb, ha, not_lt.1 fun h' => h ((lt_iff _ _).2 ⟨ha, hb, h'⟩)⟩
omit [IsStrictOrderedRing K] [FloorRing K] in
theorem Ieee.le_of_lt' {a b : Ieee K p emax} (h : a < b) : a ≤ b := by
  rw [lt_iff] at h; exact (le_iff _ _).2 ⟨h.1, h.2.1, h.2.2.le⟩
omit [IsStrictOrderedRing K] [FloorRing K] in
theorem Ieee.not_lt_of_le {a b : Ieee K p emax} (h : a ≤ b) : ¬ b < a := fun h' => by
  rw [lt_iff] at h'; rw [le_iff] at h; exact absurd h.2.2 (not_le.2 h'.2.2)
omit [IsStrictOrderedRing K] [FloorRing K] in
theorem Ieee.ne_left {a b : Ieee K p emax} (h : a ≤ b) : a ≠ .nan := ((le_iff _ _).1 h).1
omit [IsStrictOrderedRing K] [FloorRing K] in
theorem Ieee.ne_right {a b : Ieee K p emax} (h : a ≤ b) : b ≠ .nan := ((le_iff _ _).1 h).2.1

omit [IsStrictOrderedRing K] [FloorRing K] in
theorem low_one {lo q : Ieee K p emax} (h : lo ≠ .nan) : (if q < lo then q else lo) ≠ .nan ∧
    (∀ u, lo ≤ u → (if q < lo then q else lo) ≤ u) ∧ (q ≠ .nan → (if q < lo then q else lo) ≤ q) := by
  split_ifs with c
  · exact ⟨((lt_iff _ _).1 c).1, fun u hu => Ieee.trans (Ieee.le_of_lt' c) hu, fun hq => NotNaN.refl hq⟩
  · exact ⟨h, fun u hu => hu, fun hq => Ieee.le_of_not hq h c⟩
omit [IsStrictOrderedRing K] [FloorRing K] in
theorem high_one {hi q : Ieee K p emax} (h : hi ≠ .nan) : (if q > hi then q else hi) ≠ .nan ∧
    (∀ u, u ≤ hi → u ≤ (if q > hi then q else hi)) ∧ (q ≠ .nan → q ≤ (if q > hi then q else hi)) := by
  split_ifs with c
  · exact ⟨((lt_iff _ _).1 c).2.1, fun u hu => Ieee.trans hu (Ieee.le_of_lt' c), fun hq => NotNaN.refl hq⟩
  · exact ⟨h, fun u hu => hu, fun hq => Ieee.le_of_not h hq c⟩

omit [IsStrictOrderedRing K] [FloorRing K] in
theorem overlap_iff {l h l' h' : Ieee K p emax} (a : l ≤ h) (b : l' ≤ h') :
    ¬ (l' > h ∨ h' < l) ↔ ∃ u, (l ≤ u ∧ u ≤ h) ∧ l' ≤ u ∧ u ≤ h' := by
  constructor
  · intro c
    rw [not_or] at c
    have c1 := Ieee.le_of_not (Ieee.ne_right a) (Ieee.ne_left b) c.1
    have c2 := Ieee.le_of_not (Ieee.ne_right b) (Ieee.ne_left a) c.2
    by_cases d : l' < l
    · exact ⟨l, ⟨NotNaN.refl (Ieee.ne_left a), a⟩, Ieee.le_of_lt' d, c2⟩
    · exact ⟨l', ⟨Ieee.le_of_not (Ieee.ne_left b) (Ieee.ne_left a) d, c1⟩, NotNaN.refl (Ieee.ne_left b), b⟩
  · rintro ⟨u, ⟨h1, h2⟩, h3, h4⟩ (c | c)
    · exact Ieee.not_lt_of_le (Ieee.trans h3 h2) c
    · exact Ieee.not_lt_of_le (Ieee.trans h1 h4) c

/-- The claim: a box set from an array of points contains every point of the array that has no NaN
coordinate. -/
def C134_full : Prop :=
  ∀ (mem : Mem (Ieee ℚ 24 127)) (a count : ℕ) (stride : ℤ) (q : ℕ → Vec2 (Ieee ℚ 24 127)) (b : AABB2 (Ieee ℚ 24 127)),
    0 < count → mem.PointsAt2 a stride count q → AABB2.setStrided mem a count stride = .ok b →
    ∀ j < count, (q j).NoNaN → b.contains (q j) = true

omit [IsStrictOrderedRing K] [FloorRing K] in
/-- If the first point has no NaN coordinate, then the box is the exact hull of the points: each bound is
the least or greatest of the coordinates that are numbers, infinities included, and the box contains all
points without NaN.  Missing: a NaN in the first point, for which the claim is false. -/
theorem C134_set2_partial (mem : Mem (Ieee K p emax)) (a count : ℕ) (stride : ℤ) (q : ℕ → Vec2 (Ieee K p emax))
    (hc : 0 < count) (h : mem.PointsAt2 a stride count q) (h0 : (q 0).NoNaN) :
    ∃ b, AABB2.setStrided mem a count stride = .ok b ∧ b.inf.x.Lowest count (fun j => (q j).x) ∧ b.inf.y.Lowest count (fun j => (q j).y) ∧
      b.sup.x.Highest count (fun j => (q j).x) ∧ b.sup.y.Highest count (fun j => (q j).y) ∧
      ∀ j < count, (q j).NoNaN → b.contains (q j) = true := by
  obtain ⟨nx, ny⟩ := h0
  obtain ⟨r, e, ⟨lx, -⟩, ⟨ly, -⟩, ⟨gx, -⟩, ⟨gy, -⟩⟩ := bounds2_rule hc h
    (fun i r => (r.1.x.Lowest i (fun j => (q j).x) ∧ r.1.x ≠ .nan) ∧ (r.1.y.Lowest i (fun j => (q j).y) ∧ r.1.y ≠ .nan) ∧
      (r.2.x.Highest i (fun j => (q j).x) ∧ r.2.x ≠ .nan) ∧ (r.2.y.Highest i (fun j => (q j).y) ∧ r.2.y ≠ .nan))
    ⟨⟨lowest_one _, nx⟩, ⟨lowest_one _, ny⟩, ⟨highest_one _, nx⟩, ⟨highest_one _, ny⟩⟩ (by
      rintro i r - ⟨lx, ly, gx, gy⟩
      rw [boundStep2_if]
      exact ⟨lowest_step (c := fun j => (q j).x) lx.1 lx.2, lowest_step (c := fun j => (q j).y) ly.1 ly.2,
        highest_step (c := fun j => (q j).x) gx.1 gx.2, highest_step (c := fun j => (q j).y) gy.1 gy.2⟩)
  refine ⟨⟨r.1, r.2⟩, by simp [AABB2.setStrided, e, bind, Except.bind], lx, ly, gx, gy, fun j hj hq => ?_⟩
  simp only [AABB2.contains, ge_iff_le, Bool.and_eq_true, decide_eq_true_eq]
  exact ⟨⟨lx.2 j hj hq.1, gx.2 j hj hq.1⟩, ly.2 j hj hq.2, gy.2 j hj hq.2⟩

omit [IsStrictOrderedRing K] [FloorRing K] in
/-- If the first point has no NaN coordinate, then the box is the exact hull of the points: each bound is
the least or greatest of the coordinates that are numbers, infinities included, and the box contains all
points without NaN.  Missing: a NaN in the first point, for which the claim is false. -/
theorem C134_set3_partial (mem : Mem (Ieee K p emax)) (a count : ℕ) (stride : ℤ) (q : ℕ → Vec3 (Ieee K p emax))
    (hc : 0 < count) (h : mem.PointsAt3 a stride count q) (h0 : (q 0).NoNaN) :
    ∃ b, AABB3.setStrided mem a count stride = .ok b ∧ b.inf.x.Lowest count (fun j => (q j).x) ∧ b.inf.y.Lowest count (fun j => (q j).y) ∧ b.inf.z.Lowest count (fun j => (q j).z) ∧
      b.sup.x.Highest count (fun j => (q j).x) ∧ b.sup.y.Highest count (fun j => (q j).y) ∧ b.sup.z.Highest count (fun j => (q j).z) ∧
      ∀ j < count, (q j).NoNaN → b.contains (q j) = true := by
  obtain ⟨nx, ny, nz⟩ := h0
  obtain ⟨r, e, ⟨lx, -⟩, ⟨ly, -⟩, ⟨lz, -⟩, ⟨gx, -⟩, ⟨gy, -⟩, ⟨gz, -⟩⟩ := bounds3_rule hc h
    (fun i r => (r.1.x.Lowest i (fun j => (q j).x) ∧ r.1.x ≠ .nan) ∧ (r.1.y.Lowest i (fun j => (q j).y) ∧ r.1.y ≠ .nan) ∧ (r.1.z.Lowest i (fun j => (q j).z) ∧ r.1.z ≠ .nan) ∧
      (r.2.x.Highest i (fun j => (q j).x) ∧ r.2.x ≠ .nan) ∧ (r.2.y.Highest i (fun j => (q j).y) ∧ r.2.y ≠ .nan) ∧ (r.2.z.Highest i (fun j => (q j).z) ∧ r.2.z ≠ .nan))
    ⟨⟨lowest_one _, nx⟩, ⟨lowest_one _, ny⟩, ⟨lowest_one _, nz⟩, ⟨highest_one _, nx⟩, ⟨highest_one _, ny⟩, ⟨highest_one _, nz⟩⟩ (by
      rintro i r - ⟨lx, ly, lz, gx, gy, gz⟩
      rw [boundStep3_if]
      exact ⟨lowest_step (c := fun j => (q j).x) lx.1 lx.2, lowest_step (c := fun j => (q j).y) ly.1 ly.2, lowest_step (c := fun j => (q j).z) lz.1 lz.2,
        highest_step (c := fun j => (q j).x) gx.1 gx.2, highest_step (c := fun j => (q j).y) gy.1 gy.2, highest_step (c := fun j => (q j).z) gz.1 gz.2⟩)
  refine ⟨⟨r.1, r.2⟩, by simp [AABB3.setStrided, e, bind, Except.bind], lx, ly, lz, gx, gy, gz, fun j hj hq => ?_⟩
  simp only [AABB3.contains, ge_iff_le, Bool.and_eq_true, decide_eq_true_eq]
  exact ⟨⟨⟨lx.2 j hj hq.1, gx.2 j hj hq.1⟩, ly.2 j hj hq.2.1, gy.2 j hj hq.2.1⟩, lz.2 j hj hq.2.2, gz.2 j hj hq.2.2⟩

theorem AABB2.add_if {R : Type} [LT R] [DecidableLT R] (b : AABB2 R) (q : Vec2 R) : b.add q =
    ⟨⟨if q.x < b.inf.x then q.x else b.inf.x, if q.y < b.inf.y then q.y else b.inf.y⟩,
     ⟨if q.x > b.sup.x then q.x else b.sup.x, if q.y > b.sup.y then q.y else b.sup.y⟩⟩ := by
  unfold AABB2.add
  refine AABB2.ext (Vec2.ext ?_ ?_) (Vec2.ext ?_ ?_) <;> simp only <;> split_ifs <;> rfl

omit [IsStrictOrderedRing K] [FloorRing K] in
theorem AABB2.contains_iff (b : AABB2 (Ieee K p emax)) (u : Vec2 (Ieee K p emax)) : b.contains u = true ↔
    (b.inf.x ≤ u.x ∧ u.x ≤ b.sup.x) ∧ (b.inf.y ≤ u.y ∧ u.y ≤ b.sup.y) := by
  simp [AABB2.contains, and_assoc]

omit [IsStrictOrderedRing K] [FloorRing K] in
theorem AABB2.nan_add {b : AABB2 (Ieee K p emax)} (q : Vec2 (Ieee K p emax)) (h : ¬ (b.inf.NoNaN ∧ b.sup.NoNaN)) :
    ¬ ((b.add q).inf.NoNaN ∧ (b.add q).sup.NoNaN) := by
  contrapose! h
  rw [AABB2.add_if] at h
  simp only [Vec2.NoNaN] at *
  refine ⟨⟨?_, ?_⟩, ?_, ?_⟩ <;> intro e <;> simp_all [not_lt_nan, not_nan_lt]

omit [IsStrictOrderedRing K] [FloorRing K] in
/-- `add`: what a box without NaN contained it still contains, and the new point too if it has no NaN;
a NaN coordinate changes nothing.  A box with a NaN bound contains nothing, whatever is added. -/
theorem C134_add2 (b : AABB2 (Ieee K p emax)) (q : Vec2 (Ieee K p emax)) :
    (b.inf.NoNaN → b.sup.NoNaN → (b.add q).inf.NoNaN ∧ (b.add q).sup.NoNaN ∧
      (∀ u, b.contains u = true → (b.add q).contains u = true) ∧
      (q.NoNaN → (b.add q).contains q = true)) ∧
    ((q.x = .nan → (b.add q).inf.x = b.inf.x ∧ (b.add q).sup.x = b.sup.x) ∧ (q.y = .nan → (b.add q).inf.y = b.inf.y ∧ (b.add q).sup.y = b.sup.y)) ∧
    (¬ (b.inf.NoNaN ∧ b.sup.NoNaN) → ∀ qs : List (Vec2 (Ieee K p emax)), ∀ u, (qs.foldl AABB2.add b).contains u = false) := by
  refine ⟨fun ⟨ix, iy⟩ ⟨sx, sy⟩ => ?_, ?_, fun h qs u => ?_⟩
  · simp only [AABB2.contains_iff, AABB2.add_if]
    refine ⟨⟨(low_one ix).1, (low_one iy).1⟩, ⟨(high_one sx).1, (high_one sy).1⟩, fun u hu => ⟨?_, ?_⟩, fun ⟨qx, qy⟩ => ⟨?_, ?_⟩⟩
    · exact ⟨(low_one ix).2.1 _ hu.1.1, (high_one sx).2.1 _ hu.1.2⟩
    · exact ⟨(low_one iy).2.1 _ hu.2.1, (high_one sy).2.1 _ hu.2.2⟩
    · exact ⟨(low_one ix).2.2 qx, (high_one sx).2.2 qx⟩
    · exact ⟨(low_one iy).2.2 qy, (high_one sy).2.2 qy⟩
  · rw [AABB2.add_if]
    refine ⟨fun e => ?_, fun e => ?_⟩ <;> simp [e, not_lt_nan, not_nan_lt]
  · have key : ¬ ((qs.foldl AABB2.add b).inf.NoNaN ∧ (qs.foldl AABB2.add b).sup.NoNaN) := by
      induction qs generalizing b with
      | nil => exact h
      | cons q qs ih => exact ih _ (b.nan_add q h)
    rw [← Bool.not_eq_true, AABB2.contains_iff]
    intro hu
    exact key ⟨⟨Ieee.ne_left hu.1.1, Ieee.ne_left hu.2.1⟩, Ieee.ne_right hu.1.2, Ieee.ne_right hu.2.2⟩

/-- The claim: two boxes intersect, says the code, exactly if some point is in both. -/
def C134_intersects2_full : Prop :=
  ∀ a b : AABB2 (Ieee ℚ 24 127), a.intersects b = true ↔ ∃ u, a.contains u = true ∧ b.contains u = true

omit [IsStrictOrderedRing K] [FloorRing K] in
/-- It holds for boxes whose corners are in order (so no bound is NaN).  Missing: other boxes, for which
it is false. -/
theorem C134_intersects2_partial (a b : AABB2 (Ieee K p emax)) (ha : a.Valid) (hb : b.Valid) :
    a.intersects b = true ↔ ∃ u, a.contains u = true ∧ b.contains u = true := by
  have e : a.intersects b = true ↔ ¬ (b.inf.x > a.sup.x ∨ b.sup.x < a.inf.x) ∧ ¬ (b.inf.y > a.sup.y ∨ b.sup.y < a.inf.y) := by
    unfold AABB2.intersects; split_ifs <;> simp_all
  rw [e, overlap_iff ha.1 hb.1, overlap_iff ha.2 hb.2]
  simp only [AABB2.contains_iff]
  constructor
  · rintro ⟨⟨ux, hx, kx⟩, ⟨uy, hy, ky⟩⟩
    exact ⟨⟨ux, uy⟩, ⟨hx, hy⟩, kx, ky⟩
  · rintro ⟨u, ⟨hx, hy⟩, kx, ky⟩
    exact ⟨⟨_, hx, kx⟩, ⟨_, hy, ky⟩⟩

omit [IsStrictOrderedRing K] [FloorRing K] in
/-- a box of NaNs contains no point, yet meets every box -/
theorem C134_nan2 (a b : AABB2 (Ieee K p emax)) (h : a = ⟨⟨.nan, .nan⟩, ⟨.nan, .nan⟩⟩) :
    (∀ u, a.contains u = false) ∧ a.intersects b = true ∧ b.intersects a = true := by
  subst h
  refine ⟨fun u => ?_, ?_, ?_⟩
  · rw [← Bool.not_eq_true, AABB2.contains_iff]
    exact fun h => not_nan_le _ h.1.1
  · simp [AABB2.intersects, not_lt_nan, not_nan_lt]
  · simp [AABB2.intersects, not_lt_nan, not_nan_lt]
theorem C134_intersects2_refuted : ¬ C134_intersects2_full := fun h => by
  have k := C134_nan2 (K := ℚ) (p := 24) (emax := 127) _ ⟨⟨0, 0⟩, ⟨0, 0⟩⟩ rfl
  obtain ⟨u, hu, -⟩ := (h _ _).1 k.2.1
  rw [k.1 u] at hu; cases hu

omit [IsStrictOrderedRing K] [FloorRing K] in
/-- `fromUnion`: for boxes without NaN it contains what either contains; where either bound is NaN, the
result takes the bound of the *second* box. -/
theorem C134_union2 (a b : AABB2 (Ieee K p emax)) :
    (a.inf.NoNaN → a.sup.NoNaN → b.inf.NoNaN → b.sup.NoNaN → ∀ u, a.contains u = true ∨ b.contains u = true →
      (AABB2.fromUnion a b).contains u = true) ∧
    (a.inf.x = .nan ∨ b.inf.x = .nan → (AABB2.fromUnion a b).inf.x = b.inf.x) ∧ (a.inf.y = .nan ∨ b.inf.y = .nan → (AABB2.fromUnion a b).inf.y = b.inf.y) ∧
    (a.sup.x = .nan ∨ b.sup.x = .nan → (AABB2.fromUnion a b).sup.x = b.sup.x) ∧ (a.sup.y = .nan ∨ b.sup.y = .nan → (AABB2.fromUnion a b).sup.y = b.sup.y) := by
  refine ⟨fun ⟨ix, iy⟩ ⟨sx, sy⟩ ⟨kx, ky⟩ ⟨tx, ty⟩ u => ?_, ?_, ?_, ?_, ?_⟩
  · simp only [AABB2.contains_iff, AABB2.fromUnion, Vec2.min, Vec2.max, min', max']
    rintro (h | h)
    · exact ⟨⟨Ieee.trans ((low_one kx).2.2 ix) h.1.1, Ieee.trans h.1.2 ((high_one tx).2.2 sx)⟩, ⟨Ieee.trans ((low_one ky).2.2 iy) h.2.1, Ieee.trans h.2.2 ((high_one ty).2.2 sy)⟩⟩
    · exact ⟨⟨(low_one kx).2.1 _ h.1.1, (high_one tx).2.1 _ h.1.2⟩, ⟨(low_one ky).2.1 _ h.2.1, (high_one ty).2.1 _ h.2.2⟩⟩
  all_goals
    simp only [AABB2.fromUnion, Vec2.min, Vec2.max, min', max']
    rintro (h | h) <;> rw [if_neg] <;> simp [h, not_lt_nan, not_nan_lt]

theorem AABB3.add_if {R : Type} [LT R] [DecidableLT R] (b : AABB3 R) (q : Vec3 R) : b.add q =
    ⟨⟨if q.x < b.inf.x then q.x else b.inf.x, if q.y < b.inf.y then q.y else b.inf.y, if q.z < b.inf.z then q.z else b.inf.z⟩,
     ⟨if q.x > b.sup.x then q.x else b.sup.x, if q.y > b.sup.y then q.y else b.sup.y, if q.z > b.sup.z then q.z else b.sup.z⟩⟩ := by
  unfold AABB3.add
  refine AABB3.ext (Vec3.ext ?_ ?_ ?_) (Vec3.ext ?_ ?_ ?_) <;> simp only <;> split_ifs <;> rfl

omit [IsStrictOrderedRing K] [FloorRing K] in
theorem AABB3.contains_iff (b : AABB3 (Ieee K p emax)) (u : Vec3 (Ieee K p emax)) : b.contains u = true ↔
    (b.inf.x ≤ u.x ∧ u.x ≤ b.sup.x) ∧ (b.inf.y ≤ u.y ∧ u.y ≤ b.sup.y) ∧ (b.inf.z ≤ u.z ∧ u.z ≤ b.sup.z) := by
  simp [AABB3.contains, and_assoc]

omit [IsStrictOrderedRing K] [FloorRing K] in
theorem AABB3.nan_add {b : AABB3 (Ieee K p emax)} (q : Vec3 (Ieee K p emax)) (h : ¬ (b.inf.NoNaN ∧ b.sup.NoNaN)) :
    ¬ ((b.add q).inf.NoNaN ∧ (b.add q).sup.NoNaN) := by
  contrapose! h
  rw [AABB3.add_if] at h
  simp only [Vec3.NoNaN] at *
  refine ⟨⟨?_, ?_, ?_⟩, ?_, ?_, ?_⟩ <;> intro e <;> simp_all [not_lt_nan, not_nan_lt]

omit [IsStrictOrderedRing K] [FloorRing K] in
/-- `add`: what a box without NaN contained it still contains, and the new point too if it has no NaN;
a NaN coordinate changes nothing.  A box with a NaN bound contains nothing, whatever is added. -/
theorem C134_add3 (b : AABB3 (Ieee K p emax)) (q : Vec3 (Ieee K p emax)) :
    (b.inf.NoNaN → b.sup.NoNaN → (b.add q).inf.NoNaN ∧ (b.add q).sup.NoNaN ∧
      (∀ u, b.contains u = true → (b.add q).contains u = true) ∧
      (q.NoNaN → (b.add q).contains q = true)) ∧
    ((q.x = .nan → (b.add q).inf.x = b.inf.x ∧ (b.add q).sup.x = b.sup.x) ∧ (q.y = .nan → (b.add q).inf.y = b.inf.y ∧ (b.add q).sup.y = b.sup.y) ∧ (q.z = .nan → (b.add q).inf.z = b.inf.z ∧ (b.add q).sup.z = b.sup.z)) ∧
    (¬ (b.inf.NoNaN ∧ b.sup.NoNaN) → ∀ qs : List (Vec3 (Ieee K p emax)), ∀ u, (qs.foldl AABB3.add b).contains u = false) := by
  refine ⟨fun ⟨ix, iy, iz⟩ ⟨sx, sy, sz⟩ => ?_, ?_, fun h qs u => ?_⟩
  · simp only [AABB3.contains_iff, AABB3.add_if]
    refine ⟨⟨(low_one ix).1, (low_one iy).1, (low_one iz).1⟩, ⟨(high_one sx).1, (high_one sy).1, (high_one sz).1⟩, fun u hu => ⟨?_, ?_, ?_⟩, fun ⟨qx, qy, qz⟩ => ⟨?_, ?_, ?_⟩⟩
    · exact ⟨(low_one ix).2.1 _ hu.1.1, (high_one sx).2.1 _ hu.1.2⟩
    · exact ⟨(low_one iy).2.1 _ hu.2.1.1, (high_one sy).2.1 _ hu.2.1.2⟩
    · exact ⟨(low_one iz).2.1 _ hu.2.2.1, (high_one sz).2.1 _ hu.2.2.2⟩
    · exact ⟨(low_one ix).2.2 qx, (high_one sx).2.2 qx⟩
    · exact ⟨(low_one iy).2.2 qy, (high_one sy).2.2 qy⟩
    · exact ⟨(low_one iz).2.2 qz, (high_one sz).2.2 qz⟩
  · rw [AABB3.add_if]
    refine ⟨fun e => ?_, fun e => ?_, fun e => ?_⟩ <;> simp [e, not_lt_nan, not_nan_lt]
  · have key : ¬ ((qs.foldl AABB3.add b).inf.NoNaN ∧ (qs.foldl AABB3.add b).sup.NoNaN) := by
      induction qs generalizing b with
      | nil => exact h
      | cons q qs ih => exact ih _ (b.nan_add q h)
    rw [← Bool.not_eq_true, AABB3.contains_iff]
    intro hu
    exact key ⟨⟨Ieee.ne_left hu.1.1, Ieee.ne_left hu.2.1.1, Ieee.ne_left hu.2.2.1⟩, Ieee.ne_right hu.1.2, Ieee.ne_right hu.2.1.2, Ieee.ne_right hu.2.2.2⟩

/-- The claim: two boxes intersect, says the code, exactly if some point is in both. -/
def C134_intersects3_full : Prop :=
  ∀ a b : AABB3 (Ieee ℚ 24 127), a.intersects b = true ↔ ∃ u, a.contains u = true ∧ b.contains u = true

omit [IsStrictOrderedRing K] [FloorRing K] in
/-- It holds for boxes whose corners are in order (so no bound is NaN).  Missing: other boxes, for which
it is false. -/
theorem C134_intersects3_partial (a b : AABB3 (Ieee K p emax)) (ha : a.Valid) (hb : b.Valid) :
    a.intersects b = true ↔ ∃ u, a.contains u = true ∧ b.contains u = true := by
  have e : a.intersects b = true ↔ ¬ (b.inf.x > a.sup.x ∨ b.sup.x < a.inf.x) ∧ ¬ (b.inf.y > a.sup.y ∨ b.sup.y < a.inf.y) ∧ ¬ (b.inf.z > a.sup.z ∨ b.sup.z < a.inf.z) := by
    unfold AABB3.intersects; split_ifs <;> simp_all
  rw [e, overlap_iff ha.1 hb.1, overlap_iff ha.2.1 hb.2.1, overlap_iff ha.2.2 hb.2.2]
  simp only [AABB3.contains_iff]
  constructor
  · rintro ⟨⟨ux, hx, kx⟩, ⟨uy, hy, ky⟩, ⟨uz, hz, kz⟩⟩
    exact ⟨⟨ux, uy, uz⟩, ⟨hx, hy, hz⟩, kx, ky, kz⟩
  · rintro ⟨u, ⟨hx, hy, hz⟩, kx, ky, kz⟩
    exact ⟨⟨_, hx, kx⟩, ⟨_, hy, ky⟩, ⟨_, hz, kz⟩⟩

omit [IsStrictOrderedRing K] [FloorRing K] in
/-- a box of NaNs contains no point, yet meets every box -/
theorem C134_nan3 (a b : AABB3 (Ieee K p emax)) (h : a = ⟨⟨.nan, .nan, .nan⟩, ⟨.nan, .nan, .nan⟩⟩) :
    (∀ u, a.contains u = false) ∧ a.intersects b = true ∧ b.intersects a = true := by
  subst h
  refine ⟨fun u => ?_, ?_, ?_⟩
  · rw [← Bool.not_eq_true, AABB3.contains_iff]
    exact fun h => not_nan_le _ h.1.1
  · simp [AABB3.intersects, not_lt_nan, not_nan_lt]
  · simp [AABB3.intersects, not_lt_nan, not_nan_lt]
theorem C134_intersects3_refuted : ¬ C134_intersects3_full := fun h => by
  have k := C134_nan3 (K := ℚ) (p := 24) (emax := 127) _ ⟨⟨0, 0, 0⟩, ⟨0, 0, 0⟩⟩ rfl
  obtain ⟨u, hu, -⟩ := (h _ _).1 k.2.1
  rw [k.1 u] at hu; cases hu

omit [IsStrictOrderedRing K] [FloorRing K] in
/-- `fromUnion`: for boxes without NaN it contains what either contains; where either bound is NaN, the
result takes the bound of the *second* box. -/
theorem C134_union3 (a b : AABB3 (Ieee K p emax)) :
    (a.inf.NoNaN → a.sup.NoNaN → b.inf.NoNaN → b.sup.NoNaN → ∀ u, a.contains u = true ∨ b.contains u = true →
      (AABB3.fromUnion a b).contains u = true) ∧
    (a.inf.x = .nan ∨ b.inf.x = .nan → (AABB3.fromUnion a b).inf.x = b.inf.x) ∧ (a.inf.y = .nan ∨ b.inf.y = .nan → (AABB3.fromUnion a b).inf.y = b.inf.y) ∧ (a.inf.z = .nan ∨ b.inf.z = .nan → (AABB3.fromUnion a b).inf.z = b.inf.z) ∧
    (a.sup.x = .nan ∨ b.sup.x = .nan → (AABB3.fromUnion a b).sup.x = b.sup.x) ∧ (a.sup.y = .nan ∨ b.sup.y = .nan → (AABB3.fromUnion a b).sup.y = b.sup.y) ∧ (a.sup.z = .nan ∨ b.sup.z = .nan → (AABB3.fromUnion a b).sup.z = b.sup.z) := by
  refine ⟨fun ⟨ix, iy, iz⟩ ⟨sx, sy, sz⟩ ⟨kx, ky, kz⟩ ⟨tx, ty, tz⟩ u => ?_, ?_, ?_, ?_, ?_, ?_, ?_⟩
  · simp only [AABB3.contains_iff, AABB3.fromUnion, Vec3.min, Vec3.max, min', max']
    rintro (h | h)
    · exact ⟨⟨Ieee.trans ((low_one kx).2.2 ix) h.1.1, Ieee.trans h.1.2 ((high_one tx).2.2 sx)⟩, ⟨Ieee.trans ((low_one ky).2.2 iy) h.2.1.1, Ieee.trans h.2.1.2 ((high_one ty).2.2 sy)⟩, ⟨Ieee.trans ((low_one kz).2.2 iz) h.2.2.1, Ieee.trans h.2.2.2 ((high_one tz).2.2 sz)⟩⟩
    · exact ⟨⟨(low_one kx).2.1 _ h.1.1, (high_one tx).2.1 _ h.1.2⟩, ⟨(low_one ky).2.1 _ h.2.1.1, (high_one ty).2.1 _ h.2.1.2⟩, ⟨(low_one kz).2.1 _ h.2.2.1, (high_one tz).2.1 _ h.2.2.2⟩⟩
  all_goals
    simp only [AABB3.fromUnion, Vec3.min, Vec3.max, min', max']
    rintro (h | h) <;> rw [if_neg] <;> simp [h, not_lt_nan, not_nan_lt]

/-- two points, the first with a NaN coordinate -/
def nanFirst : Mem (Ieee ℚ 24 127) where
  alloc i := i < 16
  val i := if i = 0 then some .nan else if i = 4 ∨ i = 8 ∨ i = 12 then some 0 else none
  sz := 4
theorem C134_refuted : ¬ C134_full := fun h => by
  have hp : nanFirst.PointsAt2 0 8 2 (fun i => if i = 0 then ⟨.nan, 0⟩ else ⟨0, 0⟩) := by
    intro i hi
    have : i = 0 ∨ i = 1 := by omega
    rcases this with rfl | rfl
    · exact ⟨0, by simp, by simp [nanFirst], by simp [nanFirst]⟩
    · exact ⟨8, by simp, by simp [nanFirst], by simp [nanFirst]⟩
  have e : (AABB2.setStrided nanFirst 0 2 8).toOption.map (fun b => b.contains ⟨0, 0⟩) = some false := by decide +kernel
  cases r : AABB2.setStrided nanFirst 0 2 8 with
  | error f => rw [r] at e; cases e
  | ok b =>
    rw [r] at e
    have z : (0 : Ieee ℚ 24 127) ≠ .nan := fun h => by cases h
    have := h nanFirst 0 2 8 _ b (by omega) hp r 1 (by omega) ⟨z, z⟩
    simp_all [Except.toOption]

/-- non-vacuous: points with NaN and infinite coordinates after a first one without -/
example : ∃ (mem : Mem (Ieee ℚ 24 127)) (q : ℕ → Vec2 (Ieee ℚ 24 127)), mem.PointsAt2 0 8 3 q ∧ (q 0).NoNaN ∧
    ¬ (q 1).NoNaN ∧ (q 2).x = .inf false :=
  ⟨⟨4, fun i => i < 24, fun i => if i = 8 then some .nan else if i = 16 then some (.inf false) else some 0⟩,
    fun i => ⟨if i = 1 then .nan else if i = 2 then .inf false else 0, 0⟩,
    by intro i hi
       have : i = 0 ∨ i = 1 ∨ i = 2 := by omega
       rcases this with rfl | rfl | rfl
       · exact ⟨0, by simp, by simp, by simp⟩
       · exact ⟨8, by simp, by simp, by simp⟩
       · exact ⟨16, by simp, by simp, by simp⟩,
    ⟨(show (0 : Ieee ℚ 24 127) ≠ .nan from fun h => by cases h), (show (0 : Ieee ℚ 24 127) ≠ .nan from fun h => by cases h)⟩, fun h => h.1 rfl, rfl⟩
example : ∃ (mem : Mem (Ieee ℚ 24 127)) (q : ℕ → Vec3 (Ieee ℚ 24 127)), mem.PointsAt3 0 12 2 q ∧ (q 0).NoNaN ∧
    ¬ (q 1).NoNaN :=
  ⟨⟨4, fun i => i < 24, fun i => if i = 12 then some .nan else some 0⟩,
    fun i => ⟨if i = 1 then .nan else 0, 0, 0⟩,
    by intro i hi
       have : i = 0 ∨ i = 1 := by omega
       rcases this with rfl | rfl
       · exact ⟨0, by simp, by simp, by simp, by simp⟩
       · exact ⟨12, by simp, by simp, by simp, by simp⟩,
    ⟨(show (0 : Ieee ℚ 24 127) ≠ .nan from fun h => by cases h), (show (0 : Ieee ℚ 24 127) ≠ .nan from fun h => by cases h),
      (show (0 : Ieee ℚ 24 127) ≠ .nan from fun h => by cases h)⟩, fun h => h.1 rfl⟩
example : AABB2.Valid (⟨⟨0, .inf true⟩, ⟨1, .inf false⟩⟩ : AABB2 (Ieee ℚ 24 127)) ∧
    AABB2.Valid (⟨⟨.inf true, 0⟩, ⟨0, 1⟩⟩ : AABB2 (Ieee ℚ 24 127)) := by
  refine ⟨⟨?_, ?_⟩, ?_, ?_⟩ <;> decide +kernel
example : AABB3.Valid (⟨⟨0, .inf true, 0⟩, ⟨1, .inf false, 1⟩⟩ : AABB3 (Ieee ℚ 24 127)) ∧
    AABB3.Valid (⟨⟨.inf true, 0, 0⟩, ⟨0, 1, 0⟩⟩ : AABB3 (Ieee ℚ 24 127)) := by
  refine ⟨⟨?_, ?_, ?_⟩, ?_, ?_, ?_⟩ <;> decide +kernel
end
end MathLib
