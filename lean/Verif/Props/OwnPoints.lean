import Verif.Props.OwnParts
import Mathlib.Order.Bounds.Basic

/-! # Property C139: a box set from points that include its own corners

`box.set(count, points)` may be given an array in which the box lies itself, for instance to replace the
first box of an array by the box around all of them: `boxes[0].set(2 * n, &boxes[0].inf)`. -/

namespace MathLib

/-- the box is the tightest around the points of the list -/
def AABB2.Around {K : Type} [LinearOrder K] (b : AABB2 K) (l : List (Vec2 K)) : Prop :=
  (IsLeast {c | ∃ v ∈ l, v.x = c} b.inf.x ∧ IsLeast {c | ∃ v ∈ l, v.y = c} b.inf.y) ∧
  IsGreatest {c | ∃ v ∈ l, v.x = c} b.sup.x ∧ IsGreatest {c | ∃ v ∈ l, v.y = c} b.sup.y
/-- the box is the tightest around the points of the list -/
def AABB3.Around {K : Type} [LinearOrder K] (b : AABB3 K) (l : List (Vec3 K)) : Prop :=
  (IsLeast {c | ∃ v ∈ l, v.x = c} b.inf.x ∧ IsLeast {c | ∃ v ∈ l, v.y = c} b.inf.y ∧
    IsLeast {c | ∃ v ∈ l, v.z = c} b.inf.z) ∧
  IsGreatest {c | ∃ v ∈ l, v.x = c} b.sup.x ∧ IsGreatest {c | ∃ v ∈ l, v.y = c} b.sup.y ∧
    IsGreatest {c | ∃ v ∈ l, v.z = c} b.sup.z

/-- the arguments that are objects of their own -/
def Ref.others {S A : Type} (l : List (Ref S A)) : List A :=
  l.filterMap fun r => match r with | .other a => some a | .part _ => none

/-- The claim: the box is the tightest around the points as they were before the call. -/
def C139_full : Prop :=
  (∀ (b : AABB2 ℚ) (l : List (Ref (AABB2 ℚ) (Vec2 ℚ))), l ≠ [] → (∀ p ∈ l, AABB2.IsArg p) →
    ∃ r, AABB2.setPointsR l b = .ok r ∧ r.Around (l.map (·.read b))) ∧
  (∀ (b : AABB3 ℚ) (l : List (Ref (AABB3 ℚ) (Vec3 ℚ))), l ≠ [] → (∀ p ∈ l, AABB3.IsArg p) →
    ∃ r, AABB3.setPointsR l b = .ok r ∧ r.Around (l.map (·.read b)))

section
variable {K : Type} [LinearOrder K]

private theorem least_cons {α : Type} {f : α → K} {l : List α} {m : K} (h : IsLeast {c | ∃ v ∈ l, f v = c} m) (w : α) :
    IsLeast {c | ∃ v ∈ l ++ [w], f v = c} (if f w < m then f w else m) := by
  obtain ⟨⟨v, hv, e⟩, h2⟩ := h
  split_ifs with hc
  · refine ⟨⟨w, by simp, rfl⟩, ?_⟩
    rintro _ ⟨u, hu, rfl⟩
    rcases List.mem_append.1 hu with hu | hu
    · exact hc.le.trans (h2 ⟨u, hu, rfl⟩)
    · rw [List.mem_singleton.1 hu]
  · refine ⟨⟨v, by simp [hv], e⟩, ?_⟩
    rintro _ ⟨u, hu, rfl⟩
    rcases List.mem_append.1 hu with hu | hu
    · exact h2 ⟨u, hu, rfl⟩
    · rw [List.mem_singleton.1 hu]; exact not_lt.1 hc

private theorem greatest_cons {α : Type} {f : α → K} {l : List α} {m : K}
    (h : IsGreatest {c | ∃ v ∈ l, f v = c} m) (w : α) :
    IsGreatest {c | ∃ v ∈ l ++ [w], f v = c} (if f w > m then f w else m) := by
  obtain ⟨⟨v, hv, e⟩, h2⟩ := h
  split_ifs with hc
  · refine ⟨⟨w, by simp, rfl⟩, ?_⟩
    rintro _ ⟨u, hu, rfl⟩
    rcases List.mem_append.1 hu with hu | hu
    · exact (h2 ⟨u, hu, rfl⟩).trans hc.le
    · rw [List.mem_singleton.1 hu]
  · refine ⟨⟨v, by simp [hv], e⟩, ?_⟩
    rintro _ ⟨u, hu, rfl⟩
    rcases List.mem_append.1 hu with hu | hu
    · exact h2 ⟨u, hu, rfl⟩
    · rw [List.mem_singleton.1 hu]; exact not_lt.1 hc

private theorem AABB2.step_other (b : AABB2 K) (w : Vec2 K) : b.setPointsStepR (.other w) =
    ⟨⟨if w.x < b.inf.x then w.x else b.inf.x, if w.y < b.inf.y then w.y else b.inf.y⟩,
     ⟨if w.x > b.sup.x then w.x else b.sup.x, if w.y > b.sup.y then w.y else b.sup.y⟩⟩ := by
  obtain ⟨⟨a, b⟩, ⟨d, e⟩⟩ := b
  by_cases h1 : w.x < a <;> by_cases h2 : w.y < b <;> by_cases h3 : d < w.x <;> by_cases h4 : e < w.y <;>
    simp [AABB2.setPointsStepR, Ref.read, h1, h2, h3, h4]

private theorem AABB3.step_other (b : AABB3 K) (w : Vec3 K) : b.setPointsStepR (.other w) =
    ⟨⟨if w.x < b.inf.x then w.x else b.inf.x, if w.y < b.inf.y then w.y else b.inf.y,
      if w.z < b.inf.z then w.z else b.inf.z⟩,
     ⟨if w.x > b.sup.x then w.x else b.sup.x, if w.y > b.sup.y then w.y else b.sup.y,
      if w.z > b.sup.z then w.z else b.sup.z⟩⟩ := by
  obtain ⟨⟨a, b, c⟩, ⟨d, e, f⟩⟩ := b
  by_cases h1 : w.x < a <;> by_cases h2 : w.y < b <;> by_cases h5 : w.z < c <;> by_cases h3 : d < w.x <;>
    by_cases h4 : e < w.y <;> by_cases h6 : f < w.z <;>
    simp [AABB3.setPointsStepR, Ref.read, h1, h2, h3, h4, h5, h6]

private theorem AABB2.fold_around (ps : List (Ref (AABB2 K) (Vec2 K))) (hps : ∀ p ∈ ps, AABB2.IsArg p) :
    ∀ (b : AABB2 K) (l : List (Vec2 K)), b.Around l → (ps.foldl AABB2.setPointsStepR b).Around (l ++ Ref.others ps) := by
  induction ps with
  | nil => intro b l h; simpa [Ref.others] using h
  | cons p ps ih =>
    intro b l h
    have hx : ¬ b.sup.x < b.inf.x := not_lt.2 (h.1.1.2 h.2.1.1)
    have hy : ¬ b.sup.y < b.inf.y := not_lt.2 (h.1.2.2 h.2.2.1)
    have ih' := ih fun q hq => hps q (List.mem_cons_of_mem _ hq)
    rw [List.foldl_cons]
    cases hps p (List.mem_cons_self ..) with
    | other w =>
      have := ih' (b.setPointsStepR (.other w)) (l ++ [w]) (by
        rw [AABB2.step_other]
        exact ⟨⟨least_cons (f := Vec2.x) h.1.1 w, least_cons (f := Vec2.y) h.1.2 w⟩,
          greatest_cons (f := Vec2.x) h.2.1 w, greatest_cons (f := Vec2.y) h.2.2 w⟩)
      simpa [Ref.others] using this
    | inf =>
      have e : b.setPointsStepR (.part AABB2.inf) = b := by simp [AABB2.setPointsStepR, Ref.read, hx, hy]
      rw [e]; simpa [Ref.others] using ih' b l h
    | sup =>
      have e : b.setPointsStepR (.part AABB2.sup) = b := by simp [AABB2.setPointsStepR, Ref.read, hx, hy]
      rw [e]; simpa [Ref.others] using ih' b l h

private theorem AABB3.fold_around (ps : List (Ref (AABB3 K) (Vec3 K))) (hps : ∀ p ∈ ps, AABB3.IsArg p) :
    ∀ (b : AABB3 K) (l : List (Vec3 K)), b.Around l → (ps.foldl AABB3.setPointsStepR b).Around (l ++ Ref.others ps) := by
  induction ps with
  | nil => intro b l h; simpa [Ref.others] using h
  | cons p ps ih =>
    intro b l h
    have hx : ¬ b.sup.x < b.inf.x := not_lt.2 (h.1.1.2 h.2.1.1)
    have hy : ¬ b.sup.y < b.inf.y := not_lt.2 (h.1.2.1.2 h.2.2.1.1)
    have hz : ¬ b.sup.z < b.inf.z := not_lt.2 (h.1.2.2.2 h.2.2.2.1)
    have ih' := ih fun q hq => hps q (List.mem_cons_of_mem _ hq)
    rw [List.foldl_cons]
    cases hps p (List.mem_cons_self ..) with
    | other w =>
      have := ih' (b.setPointsStepR (.other w)) (l ++ [w]) (by
        rw [AABB3.step_other]
        exact ⟨⟨least_cons (f := Vec3.x) h.1.1 w, least_cons (f := Vec3.y) h.1.2.1 w,
            least_cons (f := Vec3.z) h.1.2.2 w⟩,
          greatest_cons (f := Vec3.x) h.2.1 w, greatest_cons (f := Vec3.y) h.2.2.1 w,
          greatest_cons (f := Vec3.z) h.2.2.2 w⟩)
      simpa [Ref.others] using this
    | inf =>
      have e : b.setPointsStepR (.part AABB3.inf) = b := by simp [AABB3.setPointsStepR, Ref.read, hx, hy, hz]
      rw [e]; simpa [Ref.others] using ih' b l h
    | sup =>
      have e : b.setPointsStepR (.part AABB3.sup) = b := by simp [AABB3.setPointsStepR, Ref.read, hx, hy, hz]
      rw [e]; simpa [Ref.others] using ih' b l h

private theorem around_mono_least {α : Type} {f : α → K} {l l' : List α} {m : K} (hl : ∀ v ∈ l, v ∈ l')
    (h : IsLeast {c | ∃ v ∈ l, f v = c} m) :
    IsLeast {c | ∃ v ∈ l', f v = c} m ↔ ∀ v ∈ l', m ≤ f v :=
  ⟨fun k v hv => k.2 ⟨v, hv, rfl⟩, fun k => ⟨h.1.imp fun v hv => ⟨hl v hv.1, hv.2⟩, by
    rintro _ ⟨v, hv, rfl⟩; exact k v hv⟩⟩
private theorem around_mono_greatest {α : Type} {f : α → K} {l l' : List α} {m : K} (hl : ∀ v ∈ l, v ∈ l')
    (h : IsGreatest {c | ∃ v ∈ l, f v = c} m) :
    IsGreatest {c | ∃ v ∈ l', f v = c} m ↔ ∀ v ∈ l', f v ≤ m :=
  ⟨fun k v hv => k.2 ⟨v, hv, rfl⟩, fun k => ⟨h.1.imp fun v hv => ⟨hl v hv.1, hv.2⟩, by
    rintro _ ⟨v, hv, rfl⟩; exact k v hv⟩⟩

/-- C139 in the plane, what holds: the box is the tightest around the first point and those of the other points
that are not corners of the box.  It is the tightest around all of them exactly when the corners named
after the first point happen to lie in it.  Missing: that they always do, which is false. -/
theorem C139_box2_partial (b : AABB2 K) (p : Ref (AABB2 K) (Vec2 K)) (ps : List (Ref (AABB2 K) (Vec2 K)))
    (hp : AABB2.IsArg p) (hps : ∀ p ∈ ps, AABB2.IsArg p) :
    ∃ r, AABB2.setPointsR (p :: ps) b = .ok r ∧ r.Around (p.read b :: Ref.others ps) ∧
      (r.Around ((p :: ps).map (·.read b)) ↔ ∀ q ∈ ps, r.inf.x ≤ (q.read b).x ∧ (q.read b).x ≤ r.sup.x ∧
        r.inf.y ≤ (q.read b).y ∧ (q.read b).y ≤ r.sup.y) := by
  have e : AABB2.setPointsR (p :: ps) b = .ok (ps.foldl AABB2.setPointsStepR ⟨p.read b, p.read b⟩) := by
    cases hp <;> rfl
  have hr := AABB2.fold_around ps hps ⟨p.read b, p.read b⟩ [p.read b] (by simp [AABB2.Around])
  refine ⟨_, e, hr, ?_⟩
  have hsub : ∀ v ∈ [p.read b] ++ Ref.others ps, v ∈ (p :: ps).map (·.read b) := by
    intro v hv
    simp only [Ref.others, List.mem_append, List.mem_singleton, List.mem_filterMap] at hv
    rcases hv with rfl | ⟨q, hq, e⟩
    · simp
    · cases hps q hq <;> simp at e
      subst e
      exact List.mem_map.2 ⟨_, List.mem_cons_of_mem _ hq, rfl⟩
  generalize ps.foldl AABB2.setPointsStepR ⟨p.read b, p.read b⟩ = r at *
  have h0 := hr
  obtain ⟨⟨h1, h2⟩, h3, h4⟩ := hr
  rw [AABB2.Around, around_mono_least (f := Vec2.x) hsub h1, around_mono_least (f := Vec2.y) hsub h2,
    around_mono_greatest (f := Vec2.x) hsub h3, around_mono_greatest (f := Vec2.y) hsub h4]
  constructor
  · rintro ⟨⟨k1, k2⟩, k3, k4⟩ q hq
    have hm : q.read b ∈ (p :: ps).map (·.read b) := List.mem_map.2 ⟨q, List.mem_cons_of_mem _ hq, rfl⟩
    exact ⟨k1 _ hm, k3 _ hm, k2 _ hm, k4 _ hm⟩
  · intro k
    have k' : ∀ v ∈ (p :: ps).map (·.read b), r.inf.x ≤ v.x ∧ v.x ≤ r.sup.x ∧ r.inf.y ≤ v.y ∧ v.y ≤ r.sup.y := by
      intro v hv
      rw [List.map_cons, List.mem_cons] at hv
      rcases hv with rfl | hv
      · exact ⟨h1.2 ⟨_, by simp, rfl⟩, h3.2 ⟨_, by simp, rfl⟩, h2.2 ⟨_, by simp, rfl⟩, h4.2 ⟨_, by simp, rfl⟩⟩
      · obtain ⟨q, hq, rfl⟩ := List.mem_map.1 hv
        exact k q hq
    exact ⟨⟨fun v hv => (k' v hv).1, fun v hv => (k' v hv).2.2.1⟩, fun v hv => (k' v hv).2.1,
      fun v hv => (k' v hv).2.2.2⟩

/-- C139 in space, what holds: the box is the tightest around the first point and those of the other points
that are not corners of the box.  It is the tightest around all of them exactly when the corners named
after the first point happen to lie in it.  Missing: that they always do, which is false. -/
theorem C139_box3_partial (b : AABB3 K) (p : Ref (AABB3 K) (Vec3 K)) (ps : List (Ref (AABB3 K) (Vec3 K)))
    (hp : AABB3.IsArg p) (hps : ∀ p ∈ ps, AABB3.IsArg p) :
    ∃ r, AABB3.setPointsR (p :: ps) b = .ok r ∧ r.Around (p.read b :: Ref.others ps) ∧
      (r.Around ((p :: ps).map (·.read b)) ↔ ∀ q ∈ ps, r.inf.x ≤ (q.read b).x ∧ (q.read b).x ≤ r.sup.x ∧
        r.inf.y ≤ (q.read b).y ∧ (q.read b).y ≤ r.sup.y ∧ r.inf.z ≤ (q.read b).z ∧ (q.read b).z ≤ r.sup.z) := by
  have e : AABB3.setPointsR (p :: ps) b = .ok (ps.foldl AABB3.setPointsStepR ⟨p.read b, p.read b⟩) := by
    cases hp <;> rfl
  have hr := AABB3.fold_around ps hps ⟨p.read b, p.read b⟩ [p.read b] (by simp [AABB3.Around])
  refine ⟨_, e, hr, ?_⟩
  have hsub : ∀ v ∈ [p.read b] ++ Ref.others ps, v ∈ (p :: ps).map (·.read b) := by
    intro v hv
    simp only [Ref.others, List.mem_append, List.mem_singleton, List.mem_filterMap] at hv
    rcases hv with rfl | ⟨q, hq, e⟩
    · simp
    · cases hps q hq <;> simp at e
      subst e
      exact List.mem_map.2 ⟨_, List.mem_cons_of_mem _ hq, rfl⟩
  generalize ps.foldl AABB3.setPointsStepR ⟨p.read b, p.read b⟩ = r at *
  have h0 := hr
  obtain ⟨⟨h1, h2, h5⟩, h3, h4, h6⟩ := hr
  rw [AABB3.Around, around_mono_least (f := Vec3.x) hsub h1, around_mono_least (f := Vec3.y) hsub h2,
    around_mono_least (f := Vec3.z) hsub h5, around_mono_greatest (f := Vec3.x) hsub h3,
    around_mono_greatest (f := Vec3.y) hsub h4, around_mono_greatest (f := Vec3.z) hsub h6]
  constructor
  · rintro ⟨⟨k1, k2, k5⟩, k3, k4, k6⟩ q hq
    have hm : q.read b ∈ (p :: ps).map (·.read b) := List.mem_map.2 ⟨q, List.mem_cons_of_mem _ hq, rfl⟩
    exact ⟨k1 _ hm, k3 _ hm, k2 _ hm, k4 _ hm, k5 _ hm, k6 _ hm⟩
  · intro k
    have k' : ∀ v ∈ (p :: ps).map (·.read b), r.inf.x ≤ v.x ∧ v.x ≤ r.sup.x ∧ r.inf.y ≤ v.y ∧ v.y ≤ r.sup.y ∧
        r.inf.z ≤ v.z ∧ v.z ≤ r.sup.z := by
      intro v hv
      rw [List.map_cons, List.mem_cons] at hv
      rcases hv with rfl | hv
      · exact ⟨h1.2 ⟨_, by simp, rfl⟩, h3.2 ⟨_, by simp, rfl⟩, h2.2 ⟨_, by simp, rfl⟩, h4.2 ⟨_, by simp, rfl⟩,
          h5.2 ⟨_, by simp, rfl⟩, h6.2 ⟨_, by simp, rfl⟩⟩
      · obtain ⟨q, hq, rfl⟩ := List.mem_map.1 hv
        exact k q hq
    exact ⟨⟨fun v hv => (k' v hv).1, fun v hv => (k' v hv).2.2.1, fun v hv => (k' v hv).2.2.2.2.1⟩,
      fun v hv => (k' v hv).2.1, fun v hv => (k' v hv).2.2.2.1, fun v hv => (k' v hv).2.2.2.2.2⟩

end

/-- The claim is false: `box.set(2, &box.inf)`, the box around its own corners, shrinks the box to the
corner `inf`, whatever the box; with the corners of another box behind, the own corner `sup` is not in
the result. -/
theorem C139_refuted : ¬ C139_full ∧
    (∀ b : AABB2 ℚ, AABB2.setPointsR [.part AABB2.inf, .part AABB2.sup] b = .ok ⟨b.inf, b.inf⟩) ∧
    (∀ b : AABB3 ℚ, AABB3.setPointsR [.part AABB3.inf, .part AABB3.sup] b = .ok ⟨b.inf, b.inf⟩) ∧
    (∃ b o : AABB3 ℚ, ∃ r, AABB3.setPointsR [.part AABB3.inf, .part AABB3.sup, .other o.inf, .other o.sup] b = .ok r ∧
      r.sup.x < b.sup.x) := by
  have h2 : ∀ b : AABB2 ℚ, AABB2.setPointsR [.part AABB2.inf, .part AABB2.sup] b = .ok ⟨b.inf, b.inf⟩ := fun b => by
    simp [AABB2.setPointsR, AABB2.setPointsStepR, Ref.read]
  refine ⟨fun h => ?_, h2, fun b => by simp [AABB3.setPointsR, AABB3.setPointsStepR, Ref.read],
    ⟨⟨0, 0, 0⟩, ⟨5, 5, 5⟩⟩, ⟨⟨1, 1, 1⟩, ⟨2, 2, 2⟩⟩, ⟨⟨0, 0, 0⟩, ⟨2, 2, 2⟩⟩, by decide +kernel⟩
  obtain ⟨r, e, hr⟩ := h.1 ⟨⟨0, 0⟩, ⟨1, 1⟩⟩ [.part AABB2.inf, .part AABB2.sup] (by simp)
    (by rintro p hp; simp only [List.mem_cons, List.not_mem_nil, or_false] at hp
        rcases hp with rfl | rfl
        · exact .inf
        · exact .sup)
  rw [h2, Except.ok.injEq] at e
  have := hr.2.1.2 ⟨⟨1, 1⟩, by simp [Ref.read], rfl⟩
  rw [← e] at this
  exact absurd this (by decide +kernel)

/-- The hypotheses hold of an own corner in front of other points, where the outcome is right. -/
example : AABB2.IsArg (.part AABB2.sup : Ref (AABB2 ℚ) _) ∧
    AABB2.setPointsR [.part AABB2.sup, .other ⟨7, -1⟩, .other ⟨3, 3⟩] (⟨⟨0, 0⟩, ⟨4, 5⟩⟩ : AABB2 ℚ) =
      .ok ⟨⟨3, -1⟩, ⟨7, 5⟩⟩ :=
  ⟨.sup, by decide +kernel⟩

end MathLib
