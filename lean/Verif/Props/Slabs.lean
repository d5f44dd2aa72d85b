import Verif.Proof.SlabLemmas
import Mathlib.Algebra.Order.Ring.Rat
import Mathlib.Tactic.NormNum

/-! # C68–C70: rays and segments against boxes -/

namespace MathLib
variable {K : Type} [Field K] [LinearOrder K] [IsStrictOrderedRing K]

/-! ## C68 -/

/-- C68: the ray test of a valid box is exact on parameters `[0, MAX]`, and on success the returned
interval is precisely the set of parameters inside the box. -/
theorem C68_ray2 (M : K) (hM : 0 ≤ M) (b : AABB2 K) (hb : b.Valid) (ray : Ray2 K) :
    ((b.intersectsRay M ray).isSome ↔ ∃ t, 0 ≤ t ∧ t ≤ M ∧ ray.pointAt t ∈ b.toSet) ∧
    ∀ t1 t2, b.intersectsRay M ray = some (t1, t2) →
      {t | 0 ≤ t ∧ t ≤ M ∧ ray.pointAt t ∈ b.toSet} = Set.Icc t1 t2 := by
  have h0 : Clips (Set.Icc 0 M) (some (0, M)) := ⟨hM, rfl⟩
  have h := ((h0.slabClip (s := ray.start.x) (d := ray.direction.x) hb.1).slabClip
    (s := ray.start.y) (d := ray.direction.y) hb.2).spec
  have hS : {t | 0 ≤ t ∧ t ≤ M ∧ ray.pointAt t ∈ b.toSet} =
      Set.Icc 0 M ∩ slab b.inf.x b.sup.x ray.start.x ray.direction.x ∩
        slab b.inf.y b.sup.y ray.start.y ray.direction.y := by
    ext t
    simp only [AABB2.toSet, Ray2.pointAt, slab, Set.mem_ofPred_eq, Set.mem_inter_iff, Set.mem_Icc, Vec2.add_x,
      Vec2.add_y, Vec2.mul_x, Vec2.mul_y]
    tauto
  rw [← hS] at h
  exact h

theorem C68_ray3 (M : K) (hM : 0 ≤ M) (b : AABB3 K) (hb : b.Valid) (ray : Ray3 K) :
    ((b.intersectsRay M ray).isSome ↔ ∃ t, 0 ≤ t ∧ t ≤ M ∧ ray.pointAt t ∈ b.toSet) ∧
    ∀ t1 t2, b.intersectsRay M ray = some (t1, t2) →
      {t | 0 ≤ t ∧ t ≤ M ∧ ray.pointAt t ∈ b.toSet} = Set.Icc t1 t2 := by
  have h0 : Clips (Set.Icc 0 M) (some (0, M)) := ⟨hM, rfl⟩
  have h := (((h0.slabClip (s := ray.start.x) (d := ray.direction.x) hb.1).slabClip
    (s := ray.start.y) (d := ray.direction.y) hb.2.1).slabClip
    (s := ray.start.z) (d := ray.direction.z) hb.2.2).spec
  have hS : {t | 0 ≤ t ∧ t ≤ M ∧ ray.pointAt t ∈ b.toSet} =
      Set.Icc 0 M ∩ slab b.inf.x b.sup.x ray.start.x ray.direction.x ∩
        slab b.inf.y b.sup.y ray.start.y ray.direction.y ∩
        slab b.inf.z b.sup.z ray.start.z ray.direction.z := by
    ext t
    simp only [AABB3.toSet, Ray3.pointAt, slab, Set.mem_ofPred_eq, Set.mem_inter_iff, Set.mem_Icc, Vec3.add_x,
      Vec3.add_y, Vec3.add_z, Vec3.mul_x, Vec3.mul_y, Vec3.mul_z]
    tauto
  rw [← hS] at h
  have e : b.intersectsRay M ray = (((some (0, M) >>= slabClip b.inf.x b.sup.x ray.start.x ray.direction.x) >>=
      slabClip b.inf.y b.sup.y ray.start.y ray.direction.y) >>=
      slabClip b.inf.z b.sup.z ray.start.z ray.direction.z) := by
    unfold AABB3.intersectsRay
    simp only [Option.bind_eq_bind, Option.bind_some, Option.bind_assoc]
  rw [e]
  exact h

example : (⟨⟨0, 0⟩, ⟨2, 2⟩⟩ : AABB2 ℚ).intersectsRay 1000 ⟨⟨-1, -2⟩, ⟨1, 2⟩⟩ = some (1, 2) ∧
    (⟨⟨0, 0⟩, ⟨2, 2⟩⟩ : AABB2 ℚ).intersectsRay 1000 ⟨⟨-1, 3⟩, ⟨1, 0⟩⟩ = none ∧
    (⟨⟨0, 0⟩, ⟨2, 2⟩⟩ : AABB2 ℚ).intersectsRay 1000 ⟨⟨1, 1⟩, ⟨-1, 0⟩⟩ = some (0, 1) ∧
    (⟨⟨0, 0⟩, ⟨2, 2⟩⟩ : AABB2 ℚ).Valid :=
  ⟨by decide +kernel, by decide +kernel, by decide +kernel, by norm_num [AABB2.Valid]⟩

/-! ## C69 -/

/-- C69: the segment test of a valid box is exact, and on success the returned interval is precisely the
set of parameters in `[0, 1]` inside the box. -/
theorem C69_segment2 (M : K) (hM : 1 ≤ M) (b : AABB2 K) (hb : b.Valid) (line : Line2 K) :
    ((b.intersectsLine M line).isSome ↔ ∃ t, 0 ≤ t ∧ t ≤ 1 ∧ line.pointAt t ∈ b.toSet) ∧
    ∀ t1 t2, b.intersectsLine M line = some (t1, t2) →
      {t | 0 ≤ t ∧ t ≤ 1 ∧ line.pointAt t ∈ b.toSet} = Set.Icc t1 t2 := by
  have h0 : Clips (Set.Icc 0 M) (some (0, M)) := ⟨zero_le_one.trans hM, rfl⟩
  have h := (((h0.slabClip (s := line.start.x) (d := line.end.x - line.start.x) hb.1).slabClip
    (s := line.start.y) (d := line.end.y - line.start.y) hb.2).segment (fun t ht => ht.1.1.1)).spec
  have hS : {t | 0 ≤ t ∧ t ≤ 1 ∧ line.pointAt t ∈ b.toSet} =
      Set.Icc 0 M ∩ slab b.inf.x b.sup.x line.start.x (line.end.x - line.start.x) ∩
        slab b.inf.y b.sup.y line.start.y (line.end.y - line.start.y) ∩ {t | t ≤ 1} := by
    ext t
    simp only [AABB2.toSet, Line2.pointAt, lerpVec2, slab, Set.mem_ofPred_eq, Set.mem_inter_iff, Set.mem_Icc]
    have : t ≤ 1 → t ≤ M := fun h => h.trans hM
    tauto
  rw [← hS] at h
  have e : b.intersectsLine M line =
      (((some (0, M) >>= slabClip b.inf.x b.sup.x line.start.x (line.end.x - line.start.x)) >>=
      slabClip b.inf.y b.sup.y line.start.y (line.end.y - line.start.y)) >>= segmentClip) := by
    unfold AABB2.intersectsLine
    simp only [Option.bind_eq_bind, Option.bind_some, Option.bind_assoc, Vec2.sub_x, Vec2.sub_y]
  rw [e]
  exact h

theorem C69_segment3 (M : K) (hM : 1 ≤ M) (b : AABB3 K) (hb : b.Valid) (line : Line3 K) :
    ((b.intersectsLine M line).isSome ↔ ∃ t, 0 ≤ t ∧ t ≤ 1 ∧ line.pointAt t ∈ b.toSet) ∧
    ∀ t1 t2, b.intersectsLine M line = some (t1, t2) →
      {t | 0 ≤ t ∧ t ≤ 1 ∧ line.pointAt t ∈ b.toSet} = Set.Icc t1 t2 := by
  have h0 : Clips (Set.Icc 0 M) (some (0, M)) := ⟨zero_le_one.trans hM, rfl⟩
  have h := ((((h0.slabClip (s := line.start.x) (d := line.end.x - line.start.x) hb.1).slabClip
    (s := line.start.y) (d := line.end.y - line.start.y) hb.2.1).slabClip
    (s := line.start.z) (d := line.end.z - line.start.z) hb.2.2).segment (fun t ht => ht.1.1.1.1)).spec
  have hS : {t | 0 ≤ t ∧ t ≤ 1 ∧ line.pointAt t ∈ b.toSet} =
      Set.Icc 0 M ∩ slab b.inf.x b.sup.x line.start.x (line.end.x - line.start.x) ∩
        slab b.inf.y b.sup.y line.start.y (line.end.y - line.start.y) ∩
        slab b.inf.z b.sup.z line.start.z (line.end.z - line.start.z) ∩ {t | t ≤ 1} := by
    ext t
    simp only [AABB3.toSet, Line3.pointAt, lerpVec3, slab, Set.mem_ofPred_eq, Set.mem_inter_iff, Set.mem_Icc]
    have : t ≤ 1 → t ≤ M := fun h => h.trans hM
    tauto
  rw [← hS] at h
  have e : b.intersectsLine M line =
      ((((some (0, M) >>= slabClip b.inf.x b.sup.x line.start.x (line.end.x - line.start.x)) >>=
      slabClip b.inf.y b.sup.y line.start.y (line.end.y - line.start.y)) >>=
      slabClip b.inf.z b.sup.z line.start.z (line.end.z - line.start.z)) >>= segmentClip) := by
    unfold AABB3.intersectsLine
    simp only [Option.bind_eq_bind, Option.bind_some, Option.bind_assoc, Vec3.sub_x, Vec3.sub_y, Vec3.sub_z]
  rw [e]
  exact h

example : (⟨⟨0, 0, 0⟩, ⟨2, 2, 2⟩⟩ : AABB3 ℚ).intersectsLine 1000 ⟨⟨-1, 1, 1⟩, ⟨7, 1, 1⟩⟩ = some (1 / 8, 3 / 8) ∧
    (⟨⟨0, 0, 0⟩, ⟨2, 2, 2⟩⟩ : AABB3 ℚ).intersectsLine 1000 ⟨⟨-2, 1, 1⟩, ⟨-1, 1, 1⟩⟩ = none ∧
    (⟨⟨0, 0, 0⟩, ⟨2, 2, 2⟩⟩ : AABB3 ℚ).intersectsLine 1000 ⟨⟨1, 1, 1⟩, ⟨1, 1, 3 / 2⟩⟩ = some (0, 1) ∧
    (⟨⟨0, 0, 0⟩, ⟨2, 2, 2⟩⟩ : AABB3 ℚ).Valid :=
  ⟨by decide +kernel, by decide +kernel, by decide +kernel, by norm_num [AABB3.Valid]⟩

/-! ## C70

The claim is false.  `hits` never compares the largest entry parameter with the smallest exit parameter,
so it accepts rays that pass the box by; and it rejects every ray that starts inside a slab on some axis
along which it moves. -/

/-- C70, refuted (false positive): the ray never touches the box, `hits` says it does. -/
theorem C70_refuted_miss : ∃ (b : AABB2 ℚ) (ray : Ray2 ℚ) (t : ℚ), b.Valid ∧ b.hitsRay ray = some t ∧
    ¬ ∃ u, 0 ≤ u ∧ ray.pointAt u ∈ b.toSet := by
  refine ⟨⟨⟨0, 0⟩, ⟨1, 1⟩⟩, ⟨⟨-1, -5⟩, ⟨1, 1⟩⟩, 5, by norm_num [AABB2.Valid], by decide +kernel, ?_⟩
  rintro ⟨u, -, ⟨h1, h2⟩, h3, h4⟩
  simp [Ray2.pointAt] at h1 h2 h3 h4
  linarith

/-- C70, refuted (false negative): the ray starts level with the box on the `y` axis and enters it
through a side face, `hits` says it does not. -/
theorem C70_refuted_side : ∃ (b : AABB2 ℚ) (ray : Ray2 ℚ), b.Valid ∧ ray.start ∉ b.toSet ∧
    b.hitsRay ray = none ∧ ∃ u, 0 ≤ u ∧ ray.pointAt u ∈ b.toSet := by
  refine ⟨⟨⟨0, 0⟩, ⟨4, 4⟩⟩, ⟨⟨-1, 1⟩, ⟨1, 1⟩⟩, by norm_num [AABB2.Valid], by norm_num [AABB2.toSet],
    by decide +kernel, 1, by norm_num, ?_⟩
  norm_num [AABB2.toSet, Ray2.pointAt]

/-- C70 (2-D ray).  What holds: a reported hit comes from outside all slabs; if the ray does meet the box,
the reported parameter is its first point in the box; and for a ray meeting the box, `hits` succeeds
exactly when the start is not past the nearer face on any axis.
Missing for the full claim (`hits = some t ↔ IsLeast {t ≥ 0 | pointAt t ∈ box} t`): rays that miss the box
but are reported, and rays that start between the faces of some slab; there it is false. -/
theorem C70_ray2_partial (b : AABB2 K) (hb : b.Valid) (ray : Ray2 K) :
    (∀ t, b.hitsRay ray = some t → 0 ≤ t ∧
      ((∃ u, 0 ≤ u ∧ ray.pointAt u ∈ b.toSet) → IsLeast {u | 0 ≤ u ∧ ray.pointAt u ∈ b.toSet} t)) ∧
    ((∃ u, 0 ≤ u ∧ ray.pointAt u ∈ b.toSet) →
      ((b.hitsRay ray).isSome ↔
        NearSide b.inf.x b.sup.x ray.start.x ray.direction.x ∧
        NearSide b.inf.y b.sup.y ray.start.y ray.direction.y)) := by
  have h0 : Enters (Set.Ici 0) True (some (0 : K)) := ⟨trivial, le_rfl, Set.univ, by simp, by simp⟩
  have h := ((h0.slabHit (s := ray.start.x) (d := ray.direction.x) hb.1).slabHit
    (s := ray.start.y) (d := ray.direction.y) hb.2).spec
  have hS : {t | 0 ≤ t ∧ ray.pointAt t ∈ b.toSet} =
      Set.Ici 0 ∩ slab b.inf.x b.sup.x ray.start.x ray.direction.x ∩
        slab b.inf.y b.sup.y ray.start.y ray.direction.y := by
    ext t
    simp only [AABB2.toSet, Ray2.pointAt, slab, Set.mem_ofPred_eq, Set.mem_inter_iff, Set.mem_Ici, Vec2.add_x,
      Vec2.add_y, Vec2.mul_x, Vec2.mul_y]
    tauto
  rw [← hS, true_and] at h
  exact ⟨fun t ht => (h.1 t ht).2, h.2⟩

theorem C70_ray3_partial (b : AABB3 K) (hb : b.Valid) (ray : Ray3 K) :
    (∀ t, b.hitsRay ray = some t → 0 ≤ t ∧
      ((∃ u, 0 ≤ u ∧ ray.pointAt u ∈ b.toSet) → IsLeast {u | 0 ≤ u ∧ ray.pointAt u ∈ b.toSet} t)) ∧
    ((∃ u, 0 ≤ u ∧ ray.pointAt u ∈ b.toSet) →
      ((b.hitsRay ray).isSome ↔
        (NearSide b.inf.x b.sup.x ray.start.x ray.direction.x ∧
        NearSide b.inf.y b.sup.y ray.start.y ray.direction.y) ∧
        NearSide b.inf.z b.sup.z ray.start.z ray.direction.z)) := by
  have h0 : Enters (Set.Ici 0) True (some (0 : K)) := ⟨trivial, le_rfl, Set.univ, by simp, by simp⟩
  have h := (((h0.slabHit (s := ray.start.x) (d := ray.direction.x) hb.1).slabHit
    (s := ray.start.y) (d := ray.direction.y) hb.2.1).slabHit
    (s := ray.start.z) (d := ray.direction.z) hb.2.2).spec
  have hS : {t | 0 ≤ t ∧ ray.pointAt t ∈ b.toSet} =
      Set.Ici 0 ∩ slab b.inf.x b.sup.x ray.start.x ray.direction.x ∩
        slab b.inf.y b.sup.y ray.start.y ray.direction.y ∩
        slab b.inf.z b.sup.z ray.start.z ray.direction.z := by
    ext t
    simp only [AABB3.toSet, Ray3.pointAt, slab, Set.mem_ofPred_eq, Set.mem_inter_iff, Set.mem_Ici, Vec3.add_x,
      Vec3.add_y, Vec3.add_z, Vec3.mul_x, Vec3.mul_y, Vec3.mul_z]
    tauto
  rw [← hS, true_and] at h
  have e : b.hitsRay ray = (((some 0 >>= slabHit b.inf.x b.sup.x ray.start.x ray.direction.x) >>=
      slabHit b.inf.y b.sup.y ray.start.y ray.direction.y) >>=
      slabHit b.inf.z b.sup.z ray.start.z ray.direction.z) := by
    unfold AABB3.hitsRay
    simp only [Option.bind_eq_bind, Option.bind_some, Option.bind_assoc]
  rw [e]
  exact ⟨fun t ht => (h.1 t ht).2, h.2⟩

/-- the last test of the segment version -/
theorem Enters.cut {S : Set K} {N : Prop} {r : Option K} (hr : Enters S N r) :
    (∀ t, (r >>= fun t => if t > 1 then none else some t) = some t → 0 ≤ t ∧ t ≤ 1 ∧
      ((∃ u, u ∈ S ∧ u ≤ 1) → IsLeast {u | u ∈ S ∧ u ≤ 1} t)) ∧
    ((∃ u, u ∈ S ∧ u ≤ 1) → ((r >>= fun t => if t > 1 then none else some t).isSome ↔ N)) := by
  have hs := hr.spec
  cases r with
  | none =>
    refine ⟨by simp, fun ⟨u, hu, _⟩ => ?_⟩
    have := (hs.2 ⟨u, hu⟩)
    simpa using this
  | some t =>
    obtain ⟨h1, h2, h3⟩ := hs.1 t rfl
    constructor
    · intro u hu
      simp only [Option.bind_eq_bind, Option.bind_some] at hu
      split_ifs at hu with ht
      obtain rfl := Option.some.inj hu
      refine ⟨h2, not_lt.1 ht, ?_⟩
      rintro ⟨v, hv, -⟩
      exact ⟨⟨(h3 ⟨v, hv⟩).1, not_lt.1 ht⟩, fun w hw => (h3 ⟨v, hv⟩).2 hw.1⟩
    · rintro ⟨u, hu, hu1⟩
      have : t ≤ 1 := ((h3 ⟨u, hu⟩).2 hu).trans hu1
      simp [h1, not_lt.2 this]

/-- C70 (2-D segment); the same limits as for rays. -/
theorem C70_segment2_partial (b : AABB2 K) (hb : b.Valid) (line : Line2 K) :
    (∀ t, b.hitsLine line = some t → 0 ≤ t ∧ t ≤ 1 ∧
      ((∃ u, (0 ≤ u ∧ line.pointAt u ∈ b.toSet) ∧ u ≤ 1) →
        IsLeast {u | (0 ≤ u ∧ line.pointAt u ∈ b.toSet) ∧ u ≤ 1} t)) ∧
    ((∃ u, (0 ≤ u ∧ line.pointAt u ∈ b.toSet) ∧ u ≤ 1) →
      ((b.hitsLine line).isSome ↔
        NearSide b.inf.x b.sup.x line.start.x (line.end.x - line.start.x) ∧
        NearSide b.inf.y b.sup.y line.start.y (line.end.y - line.start.y))) := by
  have h0 : Enters (Set.Ici 0) True (some (0 : K)) := ⟨trivial, le_rfl, Set.univ, by simp, by simp⟩
  have h := ((h0.slabHit (s := line.start.x) (d := line.end.x - line.start.x) hb.1).slabHit
    (s := line.start.y) (d := line.end.y - line.start.y) hb.2).cut
  have hS : Set.Ici 0 ∩ slab b.inf.x b.sup.x line.start.x (line.end.x - line.start.x) ∩
        slab b.inf.y b.sup.y line.start.y (line.end.y - line.start.y) =
      {t | 0 ≤ t ∧ line.pointAt t ∈ b.toSet} := by
    ext t
    simp only [AABB2.toSet, Line2.pointAt, lerpVec2, slab, Set.mem_ofPred_eq, Set.mem_inter_iff, Set.mem_Ici]
    tauto
  rw [hS, true_and] at h
  have e : b.hitsLine line =
      (((some 0 >>= slabHit b.inf.x b.sup.x line.start.x (line.end.x - line.start.x)) >>=
      slabHit b.inf.y b.sup.y line.start.y (line.end.y - line.start.y)) >>=
      fun t => if t > 1 then none else some t) := by
    unfold AABB2.hitsLine
    simp only [Option.bind_eq_bind, Option.bind_some, Option.bind_assoc, Vec2.sub_x, Vec2.sub_y]
  rw [e]
  exact h

theorem C70_segment3_partial (b : AABB3 K) (hb : b.Valid) (line : Line3 K) :
    (∀ t, b.hitsLine line = some t → 0 ≤ t ∧ t ≤ 1 ∧
      ((∃ u, (0 ≤ u ∧ line.pointAt u ∈ b.toSet) ∧ u ≤ 1) →
        IsLeast {u | (0 ≤ u ∧ line.pointAt u ∈ b.toSet) ∧ u ≤ 1} t)) ∧
    ((∃ u, (0 ≤ u ∧ line.pointAt u ∈ b.toSet) ∧ u ≤ 1) →
      ((b.hitsLine line).isSome ↔
        (NearSide b.inf.x b.sup.x line.start.x (line.end.x - line.start.x) ∧
        NearSide b.inf.y b.sup.y line.start.y (line.end.y - line.start.y)) ∧
        NearSide b.inf.z b.sup.z line.start.z (line.end.z - line.start.z))) := by
  have h0 : Enters (Set.Ici 0) True (some (0 : K)) := ⟨trivial, le_rfl, Set.univ, by simp, by simp⟩
  have h := (((h0.slabHit (s := line.start.x) (d := line.end.x - line.start.x) hb.1).slabHit
    (s := line.start.y) (d := line.end.y - line.start.y) hb.2.1).slabHit
    (s := line.start.z) (d := line.end.z - line.start.z) hb.2.2).cut
  have hS : Set.Ici 0 ∩ slab b.inf.x b.sup.x line.start.x (line.end.x - line.start.x) ∩
        slab b.inf.y b.sup.y line.start.y (line.end.y - line.start.y) ∩
        slab b.inf.z b.sup.z line.start.z (line.end.z - line.start.z) =
      {t | 0 ≤ t ∧ line.pointAt t ∈ b.toSet} := by
    ext t
    simp only [AABB3.toSet, Line3.pointAt, lerpVec3, slab, Set.mem_ofPred_eq, Set.mem_inter_iff, Set.mem_Ici]
    tauto
  rw [hS, true_and] at h
  have e : b.hitsLine line =
      ((((some 0 >>= slabHit b.inf.x b.sup.x line.start.x (line.end.x - line.start.x)) >>=
      slabHit b.inf.y b.sup.y line.start.y (line.end.y - line.start.y)) >>=
      slabHit b.inf.z b.sup.z line.start.z (line.end.z - line.start.z)) >>=
      fun t => if t > 1 then none else some t) := by
    unfold AABB3.hitsLine
    simp only [Option.bind_eq_bind, Option.bind_some, Option.bind_assoc, Vec3.sub_x, Vec3.sub_y, Vec3.sub_z]
  rw [e]
  exact h

example : (⟨⟨0, 0⟩, ⟨2, 2⟩⟩ : AABB2 ℚ).hitsRay ⟨⟨-1, -2⟩, ⟨1, 2⟩⟩ = some 1 ∧
    (⟨⟨0, 0⟩, ⟨2, 2⟩⟩ : AABB2 ℚ).Valid ∧
    (⟨⟨-1, -2⟩, ⟨1, 2⟩⟩ : Ray2 ℚ).pointAt 1 ∈ (⟨⟨0, 0⟩, ⟨2, 2⟩⟩ : AABB2 ℚ).toSet ∧
    NearSide (0 : ℚ) 2 (-1) 1 ∧ NearSide (0 : ℚ) 2 (-2) 2 := by
  refine ⟨by decide +kernel, ?_, ?_, ?_, ?_⟩ <;>
    norm_num [AABB2.Valid, AABB2.toSet, Ray2.pointAt, NearSide]

end MathLib
