import Verif.Props.Slabs
import Verif.Proof.RelErr
import Verif.Proof.Ieee

/-! # Property C150: ray/box intersection in floating point

`u` is the relative error of one operation.  With `g = (1 - u)^3` (rays) or `(1 - u)^4` (segments) the interval
returned is right up to factors of `g`. -/

namespace MathLib
variable {rnd : ℝ → ℝ} {u : ℝ}

/-- `r` is the computed intersection of the ray with the set `S` of parameters, right up to factors of `g`:
`[t1 / g, t2 g] ⊆ S ⊆ [t1 g, t2 / g]`, and if nothing is reported no two parameters of `S` are further apart than
by the factor `g²`. -/
def SlabResult (g : ℝ) (S : Set ℝ) : Option (Fl ℝ rnd × Fl ℝ rnd) → Prop
  | some (a, b) => ∃ t1 t2, a = .num t1 ∧ b = .num t2 ∧ 0 ≤ t1 ∧ t1 ≤ t2 ∧
      (∀ t, t1 ≤ t * g → t ≤ t2 * g → t ∈ S) ∧ ∀ t ∈ S, t1 * g ≤ t ∧ t * g ≤ t2
  | none => ∀ t ∈ S, ∀ t' ∈ S, t' * g ^ 2 < t

namespace SlabResult
variable {g : ℝ} {S T : Set ℝ}

theorem empty (r : Option (Fl ℝ rnd × Fl ℝ rnd)) (hr : r = none) (hS : ∀ t, t ∉ S) : SlabResult g S r := by
  subst hr; exact fun t ht => absurd ht (hS t)

private theorem lower {a b θ φ : ℝ} (g0 : 0 < g) (hab : a ≤ b) (h1 : g ≤ θ) (h2 : θ * g ≤ 1) (h3 : g ≤ φ) :
    (0 < a → a * g ≤ min (a * θ) (b * φ) ∧ min (a * θ) (b * φ) * g ≤ a) ∧ (a ≤ 0 → min (a * θ) (b * φ) ≤ 0) := by
  refine ⟨fun ha => ⟨le_min (mul_le_mul_of_nonneg_left h1 ha.le) ?_, ?_⟩, fun ha => ?_⟩
  · exact mul_le_mul hab h3 g0.le (ha.le.trans hab)
  · calc min (a * θ) (b * φ) * g ≤ a * θ * g := mul_le_mul_of_nonneg_right (min_le_left _ _) g0.le
      _ = a * (θ * g) := by ring
      _ ≤ a := mul_le_of_le_one_right ha.le h2
  · exact (min_le_left _ _).trans (mul_nonpos_of_nonpos_of_nonneg ha (g0.le.trans h1))

private theorem upper {a b θ φ : ℝ} (g0 : 0 < g) (hab : a ≤ b) (h1 : g ≤ θ) (h2 : θ * g ≤ 1) (h3 : g ≤ φ)
    (h4 : φ * g ≤ 1) :
    (0 ≤ b → b * g ≤ max (a * θ) (b * φ) ∧ max (a * θ) (b * φ) * g ≤ b) ∧ (b < 0 → max (a * θ) (b * φ) < 0) := by
  refine ⟨fun hb => ⟨(mul_le_mul_of_nonneg_left h3 hb).trans (le_max_right _ _), ?_⟩, fun hb => ?_⟩
  · rw [max_mul_of_nonneg _ _ g0.le]
    refine max_le ?_ ?_
    · rw [mul_assoc]
      rcases le_total 0 a with ha | ha
      · exact (mul_le_of_le_one_right ha h2).trans hab
      · exact (mul_nonpos_of_nonpos_of_nonneg ha (mul_nonneg (g0.le.trans h1) g0.le)).trans hb
    · rw [mul_assoc]; exact mul_le_of_le_one_right hb h4
  · exact max_lt (mul_neg_of_neg_of_pos (hab.trans_lt hb) (g0.trans_le h1))
      (mul_neg_of_neg_of_pos hb (g0.trans_le h3))

/-- cutting with an interval whose bounds are known up to the factor -/
private theorem cut (g0 : 0 < g) {t1 t2 a b x y : ℝ} (h0 : 0 ≤ t1)
    (hin : ∀ t, t1 ≤ t * g → t ≤ t2 * g → t ∈ S) (hout : ∀ t ∈ S, t1 * g ≤ t ∧ t * g ≤ t2)
    (hx : (0 < a → a * g ≤ x ∧ x * g ≤ a) ∧ (a ≤ 0 → x ≤ 0))
    (hy : (0 ≤ b → b * g ≤ y ∧ y * g ≤ b) ∧ (b < 0 → y < 0)) :
    (∀ t, max t1 x ≤ t * g → t ≤ min t2 y * g → t ∈ S ∩ Set.Icc a b) ∧
    ∀ t ∈ S ∩ Set.Icc a b, max t1 x * g ≤ t ∧ t * g ≤ min t2 y := by
  constructor
  · intro t h1 h2
    obtain ⟨h1, h1'⟩ := max_le_iff.1 h1
    rw [min_mul_of_nonneg _ _ g0.le] at h2
    obtain ⟨h2, h2'⟩ := le_min_iff.1 h2
    have ht : 0 ≤ t := by
      by_contra hc
      have := mul_neg_of_neg_of_pos (not_le.1 hc) g0
      linarith
    refine ⟨hin t h1 h2, ?_, ?_⟩
    · rcases lt_or_ge 0 a with ha | ha
      · exact le_of_mul_le_mul_right ((hx.1 ha).1.trans h1') g0
      · exact ha.trans ht
    · rcases le_or_gt 0 b with hb | hb
      · exact h2'.trans (hy.1 hb).2
      · have := mul_neg_of_neg_of_pos (hy.2 hb) g0
        linarith
  · rintro t ⟨hS, ha, hb⟩
    obtain ⟨h1, h2⟩ := hout t hS
    have ht : 0 ≤ t := (mul_nonneg h0 g0.le).trans h1
    refine ⟨?_, le_min h2 ?_⟩
    · rw [max_mul_of_nonneg _ _ g0.le]
      refine max_le h1 ?_
      rcases lt_or_ge 0 a with h | h
      · exact (hx.1 h).2.trans ha
      · exact (mul_nonpos_of_nonpos_of_nonneg (hx.2 h) g0.le).trans ht
    · exact (mul_le_mul_of_nonneg_right hb g0.le).trans (hy.1 (ht.trans hb)).1

private theorem miss (g0 : 0 < g) {x y : ℝ} (h : ∀ t ∈ T, x * g ≤ t ∧ t * g ≤ y) (hxy : y < x) :
    ∀ t ∈ T, ∀ t' ∈ T, t' * g ^ 2 < t := by
  intro t ht t' ht'
  calc t' * g ^ 2 = t' * g * g := by ring
    _ ≤ y * g := mul_le_mul_of_nonneg_right (h t' ht').2 g0.le
    _ < x * g := mul_lt_mul_of_pos_right hxy g0
    _ ≤ t := (h t ht).1

private theorem slab_pos {lo hi s d : ℝ} (hd : 0 < d) : slab lo hi s d = Set.Icc ((lo - s) / d) ((hi - s) / d) := by
  ext t
  simp only [slab, Set.mem_ofPred_eq, Set.mem_Icc, div_le_iff₀ hd, le_div_iff₀ hd]
  constructor <;> rintro ⟨h1, h2⟩ <;> constructor <;> linarith

private theorem slab_neg {lo hi s d : ℝ} (hd : d < 0) : slab lo hi s d = Set.Icc ((hi - s) / d) ((lo - s) / d) := by
  ext t
  simp only [slab, Set.mem_ofPred_eq, Set.mem_Icc, div_le_iff_of_neg hd, le_div_iff_of_neg hd]
  constructor <;> rintro ⟨h1, h2⟩ <;> constructor <;> linarith

private theorem stdMax_num (a b : ℝ) : stdMax (.num a : Fl ℝ rnd) (.num b) = .num (max a b) := by
  simp only [stdMax, Fl.num_lt]
  split_ifs with h
  · rw [max_eq_right h.le]
  · rw [max_eq_left (not_lt.1 h)]

private theorem stdMin_num (a b : ℝ) : stdMin (.num a : Fl ℝ rnd) (.num b) = .num (min a b) := by
  simp only [stdMin, Fl.num_lt]
  split_ifs with h
  · rw [min_eq_right h.le]
  · rw [min_eq_left (not_lt.1 h)]

/-- one axis -/
theorem slabClip (hr : IsRel rnd u) {n k : ℕ} (hn : k + 3 ≤ n) {r : Option (Fl ℝ rnd × Fl ℝ rnd)}
    (h : SlabResult ((1 - u) ^ n) S r) {lo hi s d : ℝ} (hlh : lo ≤ hi) {D : Fl ℝ rnd} (hD : Rel u k d D) :
    SlabResult ((1 - u) ^ n) (S ∩ slab lo hi s d) (r.bind fun t => MathLib.slabClip (.num lo) (.num hi) (.num s) D t) := by
  have g0 := Fac.gpos hr.lt_one n
  rcases r with _ | ⟨A, B⟩
  · exact fun t ht t' ht' => h t ht.1 t' ht'.1
  obtain ⟨t1, t2, rfl, rfl, h0, h12, hin, hout⟩ := h
  simp only [Option.bind_some]
  have hbeq : (D == 0) = decide (d = 0) := by
    obtain ⟨θ, hθ, rfl⟩ := hD
    rw [Fl.zero_def, Fl.num_beq]
    simp [(hθ.pos hr.lt_one).ne']
  unfold MathLib.slabClip
  simp only [hbeq, decide_eq_true_eq]
  by_cases hd : d = 0
  · rw [if_pos hd]
    by_cases hs : s < lo ∨ s > hi
    · rw [if_pos (by simpa [Fl.num_lt] using hs)]
      refine empty _ rfl fun t ht => ?_
      obtain ⟨h1, h2⟩ := ht.2
      rw [hd, zero_mul, add_zero] at h1 h2
      rcases hs with hs | hs <;> linarith
    · rw [if_neg (by simpa [Fl.num_lt] using hs)]
      push Not at hs
      have : S ∩ slab lo hi s d = S := by
        refine Set.inter_eq_left.2 fun t _ => ?_
        change lo ≤ s + d * t ∧ s + d * t ≤ hi
        rw [hd, zero_mul, add_zero]; exact hs
      rw [this]
      exact ⟨t1, t2, rfl, rfl, h0, h12, hin, hout⟩
  rw [if_neg hd]
  have h1 : Rel u 0 1 (1 : Fl ℝ rnd) := Rel.exact hr 1
  have hinv : Rel u (k + 1) (1 / d) (1 / D) := Rel.div hr h1 hD hd (by omega)
  obtain ⟨θ, hθ, e1⟩ : Rel u n ((lo - s) / d) ((.num lo - .num s) * (1 / D) : Fl ℝ rnd) := by
    have := (Rel.sub hr lo s).mul hr hinv (k := n) (by omega)
    rwa [mul_one_div] at this
  obtain ⟨φ, hφ, e2⟩ : Rel u n ((hi - s) / d) ((.num hi - .num s) * (1 / D) : Fl ℝ rnd) := by
    have := (Rel.sub hr hi s).mul hr hinv (k := n) (by omega)
    rwa [mul_one_div] at this
  rw [e1, e2]
  have key : ∀ a b : ℝ, S ∩ slab lo hi s d = S ∩ Set.Icc a b →
      ((0 < a → a * (1 - u) ^ n ≤ min ((lo - s) / d * θ) ((hi - s) / d * φ) ∧
        min ((lo - s) / d * θ) ((hi - s) / d * φ) * (1 - u) ^ n ≤ a) ∧
        (a ≤ 0 → min ((lo - s) / d * θ) ((hi - s) / d * φ) ≤ 0)) →
      ((0 ≤ b → b * (1 - u) ^ n ≤ max ((lo - s) / d * θ) ((hi - s) / d * φ) ∧
        max ((lo - s) / d * θ) ((hi - s) / d * φ) * (1 - u) ^ n ≤ b) ∧
        (b < 0 → max ((lo - s) / d * θ) ((hi - s) / d * φ) < 0)) →
      SlabResult ((1 - u) ^ n) (S ∩ slab lo hi s d)
        (if min t2 (max ((lo - s) / d * θ) ((hi - s) / d * φ)) < max t1 (min ((lo - s) / d * θ) ((hi - s) / d * φ))
          then none else some ((.num (max t1 (min ((lo - s) / d * θ) ((hi - s) / d * φ))) : Fl ℝ rnd),
            (.num (min t2 (max ((lo - s) / d * θ) ((hi - s) / d * φ))) : Fl ℝ rnd))) := by
    intro a b hS hx hy
    rw [hS]
    obtain ⟨c1, c2⟩ := cut g0 h0 hin hout hx hy
    split_ifs with hlt
    · exact miss g0 c2 hlt
    · exact ⟨_, _, rfl, rfl, le_max_of_le_left h0, not_lt.1 hlt, c1, c2⟩
  have fin : SlabResult ((1 - u) ^ n) (S ∩ slab lo hi s d)
        (if min t2 (max ((lo - s) / d * θ) ((hi - s) / d * φ)) < max t1 (min ((lo - s) / d * θ) ((hi - s) / d * φ))
          then none else some ((.num (max t1 (min ((lo - s) / d * θ) ((hi - s) / d * φ))) : Fl ℝ rnd),
            (.num (min t2 (max ((lo - s) / d * θ) ((hi - s) / d * φ))) : Fl ℝ rnd))) := by
    rcases lt_or_gt_of_ne hd with hneg | hpos
    · have hab : (hi - s) / d ≤ (lo - s) / d := div_le_div_of_nonpos_of_le hneg.le (by linarith)
      refine key _ _ (by rw [slab_neg hneg]) ?_ ?_
      · rw [min_comm]; exact lower g0 hab hφ.1 hφ.2 hθ.1
      · rw [max_comm]; exact upper g0 hab hφ.1 hφ.2 hθ.1 hθ.2
    · have hab : (lo - s) / d ≤ (hi - s) / d := div_le_div_of_nonneg_right (by linarith) hpos.le
      exact key _ _ (by rw [slab_pos hpos]) (lower g0 hab hθ.1 hθ.2 hφ.1) (upper g0 hab hθ.1 hθ.2 hφ.1 hφ.2)
  simp only [gt_iff_lt, Fl.num_lt]
  by_cases hsw : (hi - s) / d * φ < (lo - s) / d * θ
  · rw [if_pos hsw]
    simp only [stdMax_num, stdMin_num, Fl.num_lt]
    rwa [min_eq_right hsw.le, max_eq_left hsw.le] at fin
  · rw [if_neg hsw]
    simp only [stdMax_num, stdMin_num, Fl.num_lt]
    rwa [min_eq_left (not_lt.1 hsw), max_eq_right (not_lt.1 hsw)] at fin

theorem start {M : ℝ} (hM : 0 ≤ M) (g0 : 0 < g) (g1 : g ≤ 1) :
    SlabResult g (Set.Icc 0 M) (some ((0 : Fl ℝ rnd), .num M)) :=
  ⟨0, M, rfl, rfl, le_rfl, hM, fun t h1 h2 => ⟨by
    by_contra hc
    have := mul_neg_of_neg_of_pos (not_le.1 hc) g0
    linarith, h2.trans (mul_le_of_le_one_right hM g1)⟩,
    fun t ht => ⟨by rw [zero_mul]; exact ht.1, (mul_le_of_le_one_right ht.1 g1).trans ht.2⟩⟩

/-- the end of the segment -/
theorem segment {r : Option (Fl ℝ rnd × Fl ℝ rnd)} (g0 : 0 < g) (g1 : g ≤ 1) (h : SlabResult g S r) :
    SlabResult g (S ∩ Set.Icc 0 1) (r.bind segmentClip) := by
  rcases r with _ | ⟨A, B⟩
  · exact fun t ht t' ht' => h t ht.1 t' ht'.1
  obtain ⟨t1, t2, rfl, rfl, h0, h12, hin, hout⟩ := h
  have n1 : ¬ t1 < 0 := not_lt.2 h0
  simp only [Option.bind_some, segmentClip, Fl.zero_def, Fl.one_def, gt_iff_lt, Fl.num_lt, n1, false_and, if_false]
  by_cases h1 : 1 < t1
  · rw [if_pos ⟨h1, h1.trans_le h12⟩]
    intro t ht t' ht'
    have k1 : t' * g ^ 2 ≤ 1 * g := by
      rw [pow_two, ← mul_assoc]
      exact mul_le_mul_of_nonneg_right ((mul_le_of_le_one_right ht'.2.1 g1).trans ht'.2.2) g0.le
    exact k1.trans_lt ((mul_lt_mul_of_pos_right h1 g0).trans_le (hout t ht.1).1)
  · rw [if_neg (fun h => h1 h.1)]
    have e : (if (1 : ℝ) < t2 then (Fl.num 1 : Fl ℝ rnd) else .num t2) = .num (min t2 1) := by
      split_ifs with h
      · rw [min_eq_right h.le]
      · rw [min_eq_left (not_lt.1 h)]
    rw [e]
    refine ⟨t1, _, rfl, rfl, h0, le_min h12 (not_lt.1 h1), fun t k1 k2 => ?_, fun t ht => ?_⟩
    · rw [min_mul_of_nonneg _ _ g0.le, le_min_iff, one_mul] at k2
      refine ⟨hin t k1 k2.1, ?_, k2.2.trans g1⟩
      by_contra hc
      have := mul_neg_of_neg_of_pos (not_le.1 hc) g0
      linarith
    · exact ⟨(hout t ht.1).1, le_min (hout t ht.1).2 ((mul_le_of_le_one_right ht.2.1 g1).trans ht.2.2)⟩

end SlabResult

/-! ## The tests -/

section
variable (hr : IsRel rnd u)
include hr

/-- rays -/
theorem C150_ray {M : ℝ} (hM : 0 ≤ M) (b : AABB2 ℝ) (hb : b.Valid) (ray : Ray2 ℝ) (b' : AABB3 ℝ) (hb' : b'.Valid)
    (ray' : Ray3 ℝ) :
    SlabResult ((1 - u) ^ 3) {t | 0 ≤ t ∧ t ≤ M ∧ ray.pointAt t ∈ b.toSet}
      (AABB2.intersectsRay (.num M : Fl ℝ rnd) ⟨Vec2.num b.inf, Vec2.num b.sup⟩
        ⟨Vec2.num ray.start, Vec2.num ray.direction⟩) ∧
    SlabResult ((1 - u) ^ 3) {t | 0 ≤ t ∧ t ≤ M ∧ ray'.pointAt t ∈ b'.toSet}
      (AABB3.intersectsRay (.num M : Fl ℝ rnd) ⟨Vec3.num b'.inf, Vec3.num b'.sup⟩
        ⟨Vec3.num ray'.start, Vec3.num ray'.direction⟩) := by
  have g0 := Fac.gpos hr.lt_one 3
  have g1 := Fac.gle hr.nonneg hr.lt_one 3
  have hs := SlabResult.start (rnd := rnd) hM g0 g1
  constructor
  · have h := (hs.slabClip hr (k := 0) le_rfl (s := ray.start.x) hb.1 (Rel.exact hr ray.direction.x)).slabClip hr (k := 0)
      le_rfl (s := ray.start.y) hb.2 (Rel.exact hr ray.direction.y)
    have hS : {t | 0 ≤ t ∧ t ≤ M ∧ ray.pointAt t ∈ b.toSet} =
        Set.Icc 0 M ∩ slab b.inf.x b.sup.x ray.start.x ray.direction.x ∩
          slab b.inf.y b.sup.y ray.start.y ray.direction.y := by
      ext t
      simp only [AABB2.toSet, Ray2.pointAt, slab, Set.mem_ofPred_eq, Set.mem_inter_iff, Set.mem_Icc, Vec2.add_x,
        Vec2.add_y, Vec2.mul_x, Vec2.mul_y]
      tauto
    rw [hS]
    exact h
  · have h := ((hs.slabClip hr (k := 0) le_rfl (s := ray'.start.x) hb'.1 (Rel.exact hr ray'.direction.x)).slabClip hr
      (k := 0) le_rfl (s := ray'.start.y) hb'.2.1 (Rel.exact hr ray'.direction.y)).slabClip hr
      (k := 0) le_rfl (s := ray'.start.z) hb'.2.2 (Rel.exact hr ray'.direction.z)
    have hS : {t | 0 ≤ t ∧ t ≤ M ∧ ray'.pointAt t ∈ b'.toSet} =
        Set.Icc 0 M ∩ slab b'.inf.x b'.sup.x ray'.start.x ray'.direction.x ∩
          slab b'.inf.y b'.sup.y ray'.start.y ray'.direction.y ∩
          slab b'.inf.z b'.sup.z ray'.start.z ray'.direction.z := by
      ext t
      simp only [AABB3.toSet, Ray3.pointAt, slab, Set.mem_ofPred_eq, Set.mem_inter_iff, Set.mem_Icc, Vec3.add_x,
        Vec3.add_y, Vec3.add_z, Vec3.mul_x, Vec3.mul_y, Vec3.mul_z]
      tauto
    rw [hS]
    rw [Option.bind_assoc] at h
    exact h

/-- segments -/
theorem C150_line {M : ℝ} (hM : 1 ≤ M) (b : AABB2 ℝ) (hb : b.Valid) (line : Line2 ℝ) (b' : AABB3 ℝ) (hb' : b'.Valid)
    (line' : Line3 ℝ) :
    SlabResult ((1 - u) ^ 4) {t | 0 ≤ t ∧ t ≤ 1 ∧ line.pointAt t ∈ b.toSet}
      (AABB2.intersectsLine (.num M : Fl ℝ rnd) ⟨Vec2.num b.inf, Vec2.num b.sup⟩
        ⟨Vec2.num line.start, Vec2.num line.end⟩) ∧
    SlabResult ((1 - u) ^ 4) {t | 0 ≤ t ∧ t ≤ 1 ∧ line'.pointAt t ∈ b'.toSet}
      (AABB3.intersectsLine (.num M : Fl ℝ rnd) ⟨Vec3.num b'.inf, Vec3.num b'.sup⟩
        ⟨Vec3.num line'.start, Vec3.num line'.end⟩) := by
  have g0 := Fac.gpos hr.lt_one 4
  have g1 := Fac.gle hr.nonneg hr.lt_one 4
  have hs := SlabResult.start (rnd := rnd) (show 0 ≤ M by linarith) g0 g1
  constructor
  · have h := ((hs.slabClip hr (k := 1) le_rfl (s := line.start.x) hb.1 (Rel.sub hr line.end.x line.start.x)).slabClip hr
      (k := 1) le_rfl (s := line.start.y) hb.2 (Rel.sub hr line.end.y line.start.y)).segment g0 g1
    have hS : {t | 0 ≤ t ∧ t ≤ 1 ∧ line.pointAt t ∈ b.toSet} =
        Set.Icc 0 M ∩ slab b.inf.x b.sup.x line.start.x (line.end.x - line.start.x) ∩
          slab b.inf.y b.sup.y line.start.y (line.end.y - line.start.y) ∩ Set.Icc 0 1 := by
      ext t
      simp only [AABB2.toSet, Line2.pointAt, lerpVec2, slab, Set.mem_ofPred_eq, Set.mem_inter_iff, Set.mem_Icc]
      constructor
      · rintro ⟨h1, h2, h3⟩; exact ⟨⟨⟨⟨h1, h2.trans hM⟩, h3.1⟩, h3.2⟩, h1, h2⟩
      · rintro ⟨⟨⟨-, h3⟩, h4⟩, h1, h2⟩; exact ⟨h1, h2, h3, h4⟩
    rw [hS]
    rw [Option.bind_assoc] at h
    exact h
  · have h := (((hs.slabClip hr (k := 1) le_rfl (s := line'.start.x) hb'.1
      (Rel.sub hr line'.end.x line'.start.x)).slabClip hr
      (k := 1) le_rfl (s := line'.start.y) hb'.2.1 (Rel.sub hr line'.end.y line'.start.y)).slabClip hr
      (k := 1) le_rfl (s := line'.start.z) hb'.2.2 (Rel.sub hr line'.end.z line'.start.z)).segment g0 g1
    have hS : {t | 0 ≤ t ∧ t ≤ 1 ∧ line'.pointAt t ∈ b'.toSet} =
        Set.Icc 0 M ∩ slab b'.inf.x b'.sup.x line'.start.x (line'.end.x - line'.start.x) ∩
          slab b'.inf.y b'.sup.y line'.start.y (line'.end.y - line'.start.y) ∩
          slab b'.inf.z b'.sup.z line'.start.z (line'.end.z - line'.start.z) ∩ Set.Icc 0 1 := by
      ext t
      simp only [AABB3.toSet, Line3.pointAt, lerpVec3, slab, Set.mem_ofPred_eq, Set.mem_inter_iff, Set.mem_Icc]
      constructor
      · rintro ⟨h1, h2, h3⟩; exact ⟨⟨⟨⟨⟨h1, h2.trans hM⟩, h3.1⟩, h3.2.1⟩, h3.2.2⟩, h1, h2⟩
      · rintro ⟨⟨⟨⟨-, h3⟩, h4⟩, h5⟩, h1, h2⟩; exact ⟨h1, h2, h3, h4, h5⟩
    rw [hS]
    rw [Option.bind_assoc, Option.bind_assoc] at h
    exact h

end

/-- 24 bits: a ray through the unit square -/
example : SlabResult ((1 - (2 : ℝ) ^ (-(24 : ℕ) : ℤ)) ^ 3)
    {t | 0 ≤ t ∧ t ≤ 100 ∧ (Ray2.mk ⟨-1, 0⟩ ⟨1, 1 / 3⟩ : Ray2 ℝ).pointAt t ∈ (AABB2.mk ⟨0, 0⟩ ⟨1, 1⟩ : AABB2 ℝ).toSet}
    (AABB2.intersectsRay (.num 100 : Fl ℝ (rne 24)) ⟨Vec2.num ⟨0, 0⟩, Vec2.num ⟨1, 1⟩⟩
      ⟨Vec2.num ⟨-1, 0⟩, Vec2.num ⟨1, 1 / 3⟩⟩) :=
  (C150_ray (isRel_rne 24 (by norm_num)) (by norm_num) ⟨⟨0, 0⟩, ⟨1, 1⟩⟩ ⟨by norm_num, by norm_num⟩ ⟨⟨-1, 0⟩, ⟨1, 1 / 3⟩⟩
    ⟨⟨0, 0, 0⟩, ⟨1, 1, 1⟩⟩ ⟨by norm_num, by norm_num, by norm_num⟩ ⟨⟨0, 0, 0⟩, ⟨1, 1, 1⟩⟩).1

/-! ## IEEE numbers -/

open Ieee

/-- the same for IEEE numbers -/
def IeeeSlabResult {p : ℕ} {emax : ℤ} (g : ℝ) (S : Set ℝ) : Option (Ieee ℝ p emax × Ieee ℝ p emax) → Prop
  | some (a, b) => ∃ t1 t2, a.fin? = some t1 ∧ b.fin? = some t2 ∧ 0 ≤ t1 ∧ t1 ≤ t2 ∧
      (∀ t, t1 ≤ t * g → t ≤ t2 * g → t ∈ S) ∧ ∀ t ∈ S, t1 * g ≤ t ∧ t * g ≤ t2
  | none => ∀ t ∈ S, ∀ t' ∈ S, t' * g ^ 2 < t

section
variable {p : ℕ} {emax : ℤ}

private def Same (a : Ieee ℝ p emax) (b : Fl ℝ (rne p)) : Prop := ∃ v, a.fin? = some v ∧ b = .num v

private theorem Same.lt {a a' : Ieee ℝ p emax} {b b' : Fl ℝ (rne p)} (h : Same a b) (h' : Same a' b') :
    a < a' ↔ b < b' := by
  obtain ⟨v, h1, rfl⟩ := h
  obtain ⟨w, k1, rfl⟩ := h'
  rw [lt_fin h1 k1, Fl.num_lt]

private def SameOpt : Option (Ieee ℝ p emax × Ieee ℝ p emax) → Option (Fl ℝ (rne p) × Fl ℝ (rne p)) → Prop
  | some (a, b), some (a', b') => Same a a' ∧ Same b b'
  | none, none => True
  | _, _ => False

private theorem SameOpt.bind {r : Option (Ieee ℝ p emax × Ieee ℝ p emax)} {r' : Option (Fl ℝ (rne p) × Fl ℝ (rne p))}
    {f : Ieee ℝ p emax × Ieee ℝ p emax → Option (Ieee ℝ p emax × Ieee ℝ p emax)}
    {f' : Fl ℝ (rne p) × Fl ℝ (rne p) → Option (Fl ℝ (rne p) × Fl ℝ (rne p))} (h : SameOpt r r') (hf : ∀ t t', Same t.1 t'.1 → Same t.2 t'.2 → SameOpt (f t) (f' t')) :
    SameOpt (r.bind f) (r'.bind f') := by
  rcases r with _ | ⟨a, b⟩ <;> rcases r' with _ | ⟨a', b'⟩
  · trivial
  · exact h.elim
  · exact h.elim
  · exact hf _ _ h.1 h.2

private theorem SameOpt.result {g : ℝ} {S : Set ℝ} {r : Option (Ieee ℝ p emax × Ieee ℝ p emax)}
    {r' : Option (Fl ℝ (rne p) × Fl ℝ (rne p))} (h : SameOpt r r') (h' : SlabResult g S r') : IeeeSlabResult g S r := by
  rcases r with _ | ⟨a, b⟩ <;> rcases r' with _ | ⟨a', b'⟩
  · exact h'
  · exact h.elim
  · exact h.elim
  · obtain ⟨⟨v, h1, rfl⟩, w, h2, rfl⟩ := h
    obtain ⟨t1, t2, e1, e2, h3⟩ := h'
    cases e1; cases e2
    exact ⟨v, w, h1, h2, h3⟩

private theorem same_of_bet {l h : ℤ} {a : Ieee ℝ p emax} {b : Fl ℝ (rne p)} (H : Bet l h a b) : Same a b := by
  obtain ⟨v, h1, h2, -⟩ := H; exact ⟨v, h1, h2⟩

private theorem Same.ite {P P' : Prop} [Decidable P] [Decidable P'] {a b : Ieee ℝ p emax} {a' b' : Fl ℝ (rne p)}
    (hP : P ↔ P') (h : Same a a') (h' : Same b b') : Same (if P then a else b) (if P' then a' else b') := by
  by_cases hp : P
  · rwa [if_pos hp, if_pos (hP.1 hp)]
  · rwa [if_neg hp, if_neg (fun x => hp (hP.2 x))]

private theorem same_slabClip (hp : 1 ≤ p) {g h l k : ℤ} (c1 : 1 - emax ≤ g) (c2 : h + 1 ≤ emax) (c3 : 1 - emax ≤ -k)
    (c4 : -l ≤ emax) (c5 : 1 - emax ≤ g - k) (c6 : h + 1 - l ≤ emax)
    {lo hi s d t1 t2 : Ieee ℝ p emax} {lo' hi' s' d' t1' t2' : Fl ℝ (rne p)}
    (hlo : Gr g h lo lo') (hhi : Gr g h hi hi') (hs : Gr g h s s') (hd : Bet l k d d') (h1 : Same t1 t1')
    (h2 : Same t2 t2') : SameOpt (slabClip lo hi s d (t1, t2)) (slabClip lo' hi' s' d' (t1', t2')) := by
  have hz : (d == 0) = (d' == 0) := by
    obtain ⟨v, k1, rfl, -⟩ := hd
    rw [Ieee.beq_zero k1, Fl.zero_def, Fl.num_beq]
  unfold slabClip
  dsimp only
  rw [hz]
  by_cases hd0 : (d' == 0) = true
  · rw [if_pos hd0, if_pos hd0]
    by_cases hc : s' < lo' ∨ s' > hi'
    · rw [if_pos hc, if_pos (hc.imp (hs.lt hlo).2 (hhi.lt hs).2)]; trivial
    · rw [if_neg hc, if_neg (fun x => hc (x.imp (hs.lt hlo).1 (hhi.lt hs).1))]; exact ⟨h1, h2⟩
  rw [if_neg hd0, if_neg hd0]
  have one : Bet 0 0 (1 : Ieee ℝ p emax) (1 : Fl ℝ (rne p)) := ⟨1, rfl, rfl, Or.inr (by norm_num)⟩
  have inv := one.div' hp hd (by simpa using hd0) (by omega) (by omega)
  have x1 := same_of_bet ((hlo.sub hp hs c1 c2).bet.mul hp inv (by omega) (by omega))
  have x2 := same_of_bet ((hhi.sub hp hs c1 c2).bet.mul hp inv (by omega) (by omega))
  have hsw := x2.lt x1
  by_cases hc : (lo' - s') * (1 / d') > (hi' - s') * (1 / d')
  · rw [if_pos hc, if_pos (hsw.2 hc)]
    dsimp only
    have m1 : Same (stdMax t1 ((hi - s) * (1 / d))) (stdMax t1' ((hi' - s') * (1 / d'))) :=
      Same.ite (h1.lt x2) x2 h1
    have m2 : Same (stdMin t2 ((lo - s) * (1 / d))) (stdMin t2' ((lo' - s') * (1 / d'))) :=
      Same.ite (x1.lt h2) x1 h2
    by_cases hl : stdMin t2' ((lo' - s') * (1 / d')) < stdMax t1' ((hi' - s') * (1 / d'))
    · rw [if_pos hl, if_pos ((m2.lt m1).2 hl)]; trivial
    · rw [if_neg hl, if_neg (fun x => hl ((m2.lt m1).1 x))]; exact ⟨m1, m2⟩
  · rw [if_neg hc, if_neg (fun x => hc (hsw.1 x))]
    dsimp only
    have m1 : Same (stdMax t1 ((lo - s) * (1 / d))) (stdMax t1' ((lo' - s') * (1 / d'))) :=
      Same.ite (h1.lt x1) x1 h1
    have m2 : Same (stdMin t2 ((hi - s) * (1 / d))) (stdMin t2' ((hi' - s') * (1 / d'))) :=
      Same.ite (x2.lt h2) x2 h2
    by_cases hl : stdMin t2' ((hi' - s') * (1 / d')) < stdMax t1' ((lo' - s') * (1 / d'))
    · rw [if_pos hl, if_pos ((m2.lt m1).2 hl)]; trivial
    · rw [if_neg hl, if_neg (fun x => hl ((m2.lt m1).1 x))]; exact ⟨m1, m2⟩

private theorem same_segment {t1 t2 : Ieee ℝ p emax} {t1' t2' : Fl ℝ (rne p)} (h1 : Same t1 t1') (h2 : Same t2 t2') :
    SameOpt (segmentClip (t1, t2)) (segmentClip (t1', t2')) := by
  have z : Same (0 : Ieee ℝ p emax) (0 : Fl ℝ (rne p)) := ⟨0, rfl, rfl⟩
  have o : Same (1 : Ieee ℝ p emax) (1 : Fl ℝ (rne p)) := ⟨1, rfl, rfl⟩
  unfold segmentClip
  dsimp only
  by_cases hc : t1' < 0 ∧ t2' < 0
  · rw [if_pos hc, if_pos ⟨(h1.lt z).2 hc.1, (h2.lt z).2 hc.2⟩]; trivial
  rw [if_neg hc, if_neg (fun x => hc ⟨(h1.lt z).1 x.1, (h2.lt z).1 x.2⟩)]
  by_cases hc : t1' > 1 ∧ t2' > 1
  · rw [if_pos hc, if_pos ⟨(o.lt h1).2 hc.1, (o.lt h2).2 hc.2⟩]; trivial
  rw [if_neg hc, if_neg (fun x => hc ⟨(o.lt h1).1 x.1, (o.lt h2).1 x.2⟩)]
  exact ⟨Same.ite (h1.lt z) z h1, Same.ite (o.lt h2) o h2⟩

private theorem gr_num {g h : ℤ} {a : Ieee ℝ p emax} {x : ℝ} (ha : a.fin? = some x) (hx : OnGrid g h x) :
    Gr g h a (.num x : Fl ℝ (rne p)) := ⟨x, ha, rfl, hx⟩

/-- zero or of a size between `2 ^ l` and `2 ^ k` -/
def Between (l k : ℤ) (x : ℝ) : Prop := x = 0 ∨ ((2 : ℝ) ^ l ≤ |x| ∧ |x| ≤ 2 ^ k)

/-- IEEE numbers: rays whose direction has no tiny component, coordinates that are multiples of `2 ^ g` up to `2 ^ h`. -/
theorem C150_ray_partial (hp : 1 ≤ p) {g h l k : ℤ} (c1 : 1 - emax ≤ g) (c2 : h + 1 ≤ emax) (c3 : 1 - emax ≤ -k)
    (c4 : -l ≤ emax) (c5 : 1 - emax ≤ g - k) (c6 : h + 1 - l ≤ emax)
    (M : Ieee ℝ p emax) {m : ℝ} (hM : M.fin? = some m) (hm : 0 ≤ m)
    (B : AABB3 (Ieee ℝ p emax)) (b : AABB3 ℝ) (hB : B.inf.Is b.inf ∧ B.sup.Is b.sup) (hb : b.Valid)
    (hg : b.inf.OnGrid g h ∧ b.sup.OnGrid g h)
    (Q : Ray3 (Ieee ℝ p emax)) (ray : Ray3 ℝ) (hQ : Q.start.Is ray.start ∧ Q.direction.Is ray.direction)
    (hs : ray.start.OnGrid g h)
    (hd : Between l k ray.direction.x ∧ Between l k ray.direction.y ∧ Between l k ray.direction.z) :
    IeeeSlabResult ((1 - (2 : ℝ) ^ (-(p : ℤ))) ^ 3) {t | 0 ≤ t ∧ t ≤ m ∧ ray.pointAt t ∈ b.toSet}
      (B.intersectsRay M Q) := by
  obtain ⟨⟨a1, a2, a3⟩, ⟨b1, b2, b3⟩⟩ := hB
  obtain ⟨⟨s1, s2, s3⟩, ⟨d1, d2, d3⟩⟩ := hQ
  obtain ⟨⟨g1, g2, g3⟩, ⟨g4, g5, g6⟩⟩ := hg
  obtain ⟨e1, e2, e3⟩ := hs
  refine SameOpt.result ?_ (C150_ray (isRel_rne p hp) hm ⟨⟨0, 0⟩, ⟨0, 0⟩⟩ ⟨le_rfl, le_rfl⟩ ⟨⟨0, 0⟩, ⟨0, 0⟩⟩ b hb ray).2
  refine SameOpt.bind (r := slabClip B.inf.x B.sup.x Q.start.x Q.direction.x (0, M)) ?_ fun t t' h1 h2 => ?_
  · exact same_slabClip hp c1 c2 c3 c4 c5 c6 (gr_num a1 g1) (gr_num b1 g4) (gr_num s1 e1) ⟨_, d1, rfl, hd.1⟩
      ⟨0, rfl, rfl⟩ ⟨m, hM, rfl⟩
  refine SameOpt.bind (r := slabClip B.inf.y B.sup.y Q.start.y Q.direction.y t) ?_ fun t t' h1 h2 => ?_
  · exact same_slabClip hp c1 c2 c3 c4 c5 c6 (gr_num a2 g2) (gr_num b2 g5) (gr_num s2 e2) ⟨_, d2, rfl, hd.2.1⟩ h1 h2
  · exact same_slabClip hp c1 c2 c3 c4 c5 c6 (gr_num a3 g3) (gr_num b3 g6) (gr_num s3 e3) ⟨_, d3, rfl, hd.2.2⟩ h1 h2

/-- IEEE numbers: segments. -/
theorem C150_line_partial (hp : 1 ≤ p) {g h : ℤ} (c1 : h + 2 - g ≤ emax) (c2 : 1 - emax ≤ g) (c3 : h + 2 ≤ emax)
    (M : Ieee ℝ p emax) {m : ℝ} (hM : M.fin? = some m) (hm : 1 ≤ m)
    (B : AABB3 (Ieee ℝ p emax)) (b : AABB3 ℝ) (hB : B.inf.Is b.inf ∧ B.sup.Is b.sup) (hb : b.Valid)
    (hg : b.inf.OnGrid g h ∧ b.sup.OnGrid g h)
    (L : Line3 (Ieee ℝ p emax)) (line : Line3 ℝ) (hL : L.start.Is line.start ∧ L.end.Is line.end)
    (hs : line.start.OnGrid g h ∧ line.end.OnGrid g h) :
    IeeeSlabResult ((1 - (2 : ℝ) ^ (-(p : ℤ))) ^ 4) {t | 0 ≤ t ∧ t ≤ 1 ∧ line.pointAt t ∈ b.toSet}
      (B.intersectsLine M L) := by
  obtain ⟨⟨a1, a2, a3⟩, ⟨b1, b2, b3⟩⟩ := hB
  obtain ⟨⟨s1, s2, s3⟩, ⟨d1, d2, d3⟩⟩ := hL
  obtain ⟨⟨g1, g2, g3⟩, ⟨g4, g5, g6⟩⟩ := hg
  obtain ⟨⟨e1, e2, e3⟩, ⟨f1, f2, f3⟩⟩ := hs
  have dl : ∀ {x y : Ieee ℝ p emax} {v w : ℝ}, x.fin? = some v → y.fin? = some w → OnGrid g h v → OnGrid g h w →
      Bet g (h + 1) (x - y) (.num v - .num w : Fl ℝ (rne p)) := fun hx hy hv hw =>
    (Gr.sub hp (gr_num hx hv) (gr_num hy hw) c2 (by omega)).bet
  refine SameOpt.result ?_ (C150_line (isRel_rne p hp) hm ⟨⟨0, 0⟩, ⟨0, 0⟩⟩ ⟨le_rfl, le_rfl⟩ ⟨⟨0, 0⟩, ⟨0, 0⟩⟩ b hb line).2
  have k1 : 1 - emax ≤ -(h + 1) := by omega
  refine SameOpt.bind (r := slabClip B.inf.x B.sup.x L.start.x (L.end.x - L.start.x) (0, M)) ?_ fun t t' h1 h2 => ?_
  · exact same_slabClip hp c2 (by omega) k1 (by omega) (by omega) (by omega) (gr_num a1 g1) (gr_num b1 g4) (gr_num s1 e1)
      (dl d1 s1 f1 e1) ⟨0, rfl, rfl⟩ ⟨m, hM, rfl⟩
  refine SameOpt.bind (r := slabClip B.inf.y B.sup.y L.start.y (L.end.y - L.start.y) t) ?_ fun t t' h1 h2 => ?_
  · exact same_slabClip hp c2 (by omega) k1 (by omega) (by omega) (by omega) (gr_num a2 g2) (gr_num b2 g5) (gr_num s2 e2)
      (dl d2 s2 f2 e2) h1 h2
  refine SameOpt.bind (r := slabClip B.inf.z B.sup.z L.start.z (L.end.z - L.start.z) t) ?_ fun t t' h1 h2 => ?_
  · exact same_slabClip hp c2 (by omega) k1 (by omega) (by omega) (by omega) (gr_num a3 g3) (gr_num b3 g6) (gr_num s3 e3)
      (dl d3 s3 f3 e3) h1 h2
  · exact same_segment h1 h2

end

/-- single precision, the unit cube and a ray with direction `(1, 1/4, 0)` -/
example (M : Ieee ℝ 24 127) (hM : M.fin? = some 100) :
    IeeeSlabResult ((1 - (2 : ℝ) ^ (-((24 : ℕ) : ℤ))) ^ 3)
      {t | 0 ≤ t ∧ t ≤ 100 ∧ (Ray3.mk ⟨-1, 0, 0⟩ ⟨1, 1 / 4, 0⟩ : Ray3 ℝ).pointAt t ∈
        (AABB3.mk ⟨0, 0, 0⟩ ⟨1, 1, 1⟩ : AABB3 ℝ).toSet}
      ((AABB3.mk ⟨0, 0, 0⟩ ⟨1, 1, 1⟩ : AABB3 (Ieee ℝ 24 127)).intersectsRay M ⟨⟨.num (-1), 0, 0⟩, ⟨1, .num (1 / 4), 0⟩⟩) := by
  have g0 : OnGrid 0 0 (0 : ℝ) := ⟨⟨0, by simp⟩, by simp⟩
  have g1 : OnGrid 0 0 (1 : ℝ) := ⟨⟨1, by simp⟩, by simp⟩
  have g2 : OnGrid 0 0 (-1 : ℝ) := ⟨⟨-1, by simp⟩, by simp⟩
  exact C150_ray_partial (by norm_num) (g := 0) (h := 0) (l := -2) (k := 0) (by norm_num) (by norm_num) (by norm_num)
    (by norm_num) (by norm_num) (by norm_num) M hM (by norm_num) _ ⟨⟨0, 0, 0⟩, ⟨1, 1, 1⟩⟩
    ⟨⟨rfl, rfl, rfl⟩, ⟨rfl, rfl, rfl⟩⟩ ⟨by norm_num, by norm_num, by norm_num⟩ ⟨⟨g0, g0, g0⟩, ⟨g1, g1, g1⟩⟩ _
    ⟨⟨-1, 0, 0⟩, ⟨1, 1 / 4, 0⟩⟩ ⟨⟨rfl, rfl, rfl⟩, ⟨rfl, rfl, rfl⟩⟩ ⟨g2, g0, g0⟩
    ⟨Or.inr (by norm_num), Or.inr ⟨by norm_num [abs_of_pos], by norm_num [abs_of_pos]⟩, Or.inl rfl⟩

/-- single precision, a segment through the unit cube -/
example (M : Ieee ℝ 24 127) (hM : M.fin? = some 100) :
    IeeeSlabResult ((1 - (2 : ℝ) ^ (-((24 : ℕ) : ℤ))) ^ 4)
      {t | 0 ≤ t ∧ t ≤ 1 ∧ (Line3.mk ⟨-1, 0, 0⟩ ⟨1, 1, 0⟩ : Line3 ℝ).pointAt t ∈
        (AABB3.mk ⟨0, 0, 0⟩ ⟨1, 1, 1⟩ : AABB3 ℝ).toSet}
      ((AABB3.mk ⟨0, 0, 0⟩ ⟨1, 1, 1⟩ : AABB3 (Ieee ℝ 24 127)).intersectsLine M ⟨⟨.num (-1), 0, 0⟩, ⟨1, 1, 0⟩⟩) := by
  have g0 : OnGrid 0 0 (0 : ℝ) := ⟨⟨0, by simp⟩, by simp⟩
  have g1 : OnGrid 0 0 (1 : ℝ) := ⟨⟨1, by simp⟩, by simp⟩
  have g2 : OnGrid 0 0 (-1 : ℝ) := ⟨⟨-1, by simp⟩, by simp⟩
  exact C150_line_partial (by norm_num) (g := 0) (h := 0) (by norm_num) (by norm_num) (by norm_num) M hM (by norm_num) _
    ⟨⟨0, 0, 0⟩, ⟨1, 1, 1⟩⟩ ⟨⟨rfl, rfl, rfl⟩, ⟨rfl, rfl, rfl⟩⟩ ⟨by norm_num, by norm_num, by norm_num⟩
    ⟨⟨g0, g0, g0⟩, ⟨g1, g1, g1⟩⟩ _ ⟨⟨-1, 0, 0⟩, ⟨1, 1, 0⟩⟩ ⟨⟨rfl, rfl, rfl⟩, ⟨rfl, rfl, rfl⟩⟩
    ⟨⟨g2, g0, g0⟩, ⟨g1, g1, g0⟩⟩

/-! ## Tiny directions -/

/-- a single precision number -/
def flt (x : ℚ) : Ieee ℚ 24 127 := Ieee.round x false
def flt3 (v : Vec3 ℚ) : Vec3 (Ieee ℚ 24 127) := ⟨flt v.x, flt v.y, flt v.z⟩
/-- no rounding is needed -/
def IsFlt (v : Vec3 ℚ) : Prop := (flt v.x).fin? = some v.x ∧ (flt v.y).fin? = some v.y ∧ (flt v.z).fin? = some v.z
/-- the greatest number -/
def fltMax : Ieee ℚ 24 127 := .num ((2 ^ 24 - 1) * 2 ^ 104)

/-- The claim of C150 for single precision: a ray that is inside the box from `t` to `2 t` is reported, and if the ray
is outside of the box at all parameters above 0 no more than the start is reported. -/
def C150_full : Prop := ∀ (b : AABB3 ℚ) (ray : Ray3 ℚ), b.Valid → IsFlt b.inf → IsFlt b.sup → IsFlt ray.start →
  IsFlt ray.direction →
  let r := AABB3.intersectsRay fltMax ⟨flt3 b.inf, flt3 b.sup⟩ ⟨flt3 ray.start, flt3 ray.direction⟩
  (∀ t, 0 < t → t ≤ 2 ^ 100 → ray.pointAt t ∈ b.toSet → ray.pointAt (2 * t) ∈ b.toSet → r.isSome) ∧
  ((∀ t > 0, ray.pointAt t ∉ b.toSet) → ∀ t1 t2, r = some (t1, t2) → t2.fin? = some 0)

/-- Both parts are false: with a direction component below `2^-128` the reciprocal is infinite, and for a start on a face
of the box `0 * inf` is not a number. -/
theorem C150_refuted : ¬ C150_full ∧
    AABB3.intersectsRay fltMax ⟨flt3 ⟨0, 0, 0⟩, flt3 ⟨1, 1, 1⟩⟩
      ⟨flt3 ⟨1, -1, 1 / 2⟩, flt3 ⟨-1 / 2 ^ 149, 1, 0⟩⟩ = none ∧
    (AABB3.intersectsRay fltMax ⟨flt3 ⟨-1, -8, -8⟩, flt3 ⟨0, 8, 8⟩⟩
      ⟨flt3 ⟨0, 0, 0⟩, flt3 ⟨1 / 2 ^ 149, 1, 0⟩⟩).map (fun t => (t.1.fin?, t.2.fin?)) = some (some 0, some 8) ∧
    ∀ t > 0, (Ray3.mk ⟨0, 0, 0⟩ ⟨1 / 2 ^ 149, 1, 0⟩ : Ray3 ℚ).pointAt t ∉
      (AABB3.mk ⟨-1, -8, -8⟩ ⟨0, 8, 8⟩ : AABB3 ℚ).toSet := by
  have e : AABB3.intersectsRay fltMax ⟨flt3 ⟨0, 0, 0⟩, flt3 ⟨1, 1, 1⟩⟩
      ⟨flt3 ⟨1, -1, 1 / 2⟩, flt3 ⟨-1 / 2 ^ 149, 1, 0⟩⟩ = none := by
    rw [← Option.isNone_iff_eq_none]; decide +kernel
  refine ⟨fun H => ?_, e, by decide +kernel, fun t ht h => ?_⟩
  rotate_left
  · have := h.1.2
    simp only [Ray3.pointAt, Vec3.add_x, Vec3.mul_x] at this
    have k : (0 : ℚ) < 1 / 2 ^ 149 * t := by positivity
    linarith
  have := (H ⟨⟨0, 0, 0⟩, ⟨1, 1, 1⟩⟩ ⟨⟨1, -1, 1 / 2⟩, ⟨-1 / 2 ^ 149, 1, 0⟩⟩ ⟨by norm_num, by norm_num, by norm_num⟩
    ⟨by decide +kernel, by decide +kernel, by decide +kernel⟩ ⟨by decide +kernel, by decide +kernel, by decide +kernel⟩
    ⟨by decide +kernel, by decide +kernel, by decide +kernel⟩ ⟨by decide +kernel, by decide +kernel, by decide +kernel⟩).1
    1 one_pos (by norm_num)
    (by simp only [AABB3.toSet, Ray3.pointAt, Set.mem_ofPred_eq, Vec3.add_x, Vec3.add_y, Vec3.add_z, Vec3.mul_x,
      Vec3.mul_y, Vec3.mul_z]; norm_num)
    (by simp only [AABB3.toSet, Ray3.pointAt, Set.mem_ofPred_eq, Vec3.add_x, Vec3.add_y, Vec3.add_z, Vec3.mul_x,
      Vec3.mul_y, Vec3.mul_z]; norm_num)
  rw [e] at this
  exact absurd this (by simp)

end MathLib
