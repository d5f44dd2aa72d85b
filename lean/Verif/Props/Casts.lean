import Verif.Model.Cast
import Verif.Model.Color
import Verif.Props.MatFlags
import Verif.Props.Planes
import Verif.Spec.Float
import Verif.Proof.Rne

/-! # Property C110: conversions between scalar types -/

namespace MathLib
open scoped Matrix.Norms.Frobenius

/-! ## Round trips -/

/-- C110: converting to a type that can hold every value (`back (conv a) = a`, as `float` to `double`
and back) and back loses nothing. -/
theorem C110_roundtrip {R S : Type} (conv : R → S) (back : S → R) (h : ∀ a, back (conv a) = a) :
    (∀ v : Vec2 R, (v.cast conv).cast back = v) ∧ (∀ v : Vec3 R, (v.cast conv).cast back = v) ∧
    (∀ v : Vec4 R, (v.cast conv).cast back = v) ∧ (∀ l : Line2 R, (l.cast conv).cast back = l) ∧
    (∀ l : Line3 R, (l.cast conv).cast back = l) ∧ (∀ t : Tri2 R, (t.cast conv).cast back = t) ∧
    (∀ b : AABB2 R, (b.cast conv).cast back = b) ∧ (∀ b : AABB3 R, (b.cast conv).cast back = b) ∧
    (∀ b : CAABB2 R, (b.cast conv).cast back = b) ∧ (∀ b : CAABB3 R, (b.cast conv).cast back = b) ∧
    (∀ p : Plane R, (p.cast conv).cast back = p) ∧ (∀ q : Quat R, (q.cast conv).cast back = q) ∧
    (∀ f : Frustum R, (f.cast conv).cast back = f) ∧
    (∀ c : ColorRGB R, (c.cast conv).cast back = c) ∧ (∀ c : ColorRGBA R, (c.cast conv).cast back = c) ∧
    (∀ c : ColorHSV R, (c.cast conv).cast back = c) := by
  refine ⟨?_, ?_, ?_, ?_, ?_, ?_, ?_, ?_, ?_, ?_, ?_, ?_, ?_, ?_, ?_, ?_⟩ <;> intro x <;> cases x <;>
    simp [Vec2.cast, Vec3.cast, Vec4.cast, Line2.cast, Line3.cast, Tri2.cast, AABB2.cast, AABB3.cast,
      CAABB2.cast, CAABB3.cast, Plane.cast, Quat.cast, Frustum.cast, ColorRGB.cast, ColorRGBA.cast,
      ColorHSV.cast, h]

/-- C110: every component is converted on its own and keeps its place: converting to the same type changes
nothing, and converting in two steps is converting with the composed conversion. -/
theorem C110_functor {R S T : Type} (f : R → S) (g : S → T) :
    ((∀ v : Vec2 R, v.cast (fun a => a) = v) ∧ (∀ v : Vec3 R, v.cast (fun a => a) = v) ∧
      (∀ v : Vec4 R, v.cast (fun a => a) = v) ∧ (∀ l : Line2 R, l.cast (fun a => a) = l) ∧
      (∀ l : Line3 R, l.cast (fun a => a) = l) ∧ (∀ t : Tri2 R, t.cast (fun a => a) = t) ∧
      (∀ b : AABB2 R, b.cast (fun a => a) = b) ∧ (∀ b : AABB3 R, b.cast (fun a => a) = b) ∧
      (∀ b : CAABB2 R, b.cast (fun a => a) = b) ∧ (∀ b : CAABB3 R, b.cast (fun a => a) = b) ∧
      (∀ p : Plane R, p.cast (fun a => a) = p) ∧ (∀ q : Quat R, q.cast (fun a => a) = q) ∧
      (∀ u : Frustum R, u.cast (fun a => a) = u) ∧ (∀ c : ColorRGB R, c.cast (fun a => a) = c) ∧
      (∀ c : ColorRGBA R, c.cast (fun a => a) = c) ∧ (∀ c : ColorHSV R, c.cast (fun a => a) = c)) ∧
    (∀ v : Vec2 R, (v.cast f).cast g = v.cast (g ∘ f)) ∧ (∀ v : Vec3 R, (v.cast f).cast g = v.cast (g ∘ f)) ∧
    (∀ v : Vec4 R, (v.cast f).cast g = v.cast (g ∘ f)) ∧ (∀ l : Line2 R, (l.cast f).cast g = l.cast (g ∘ f)) ∧
    (∀ l : Line3 R, (l.cast f).cast g = l.cast (g ∘ f)) ∧ (∀ t : Tri2 R, (t.cast f).cast g = t.cast (g ∘ f)) ∧
    (∀ b : AABB2 R, (b.cast f).cast g = b.cast (g ∘ f)) ∧ (∀ b : AABB3 R, (b.cast f).cast g = b.cast (g ∘ f)) ∧
    (∀ b : CAABB2 R, (b.cast f).cast g = b.cast (g ∘ f)) ∧ (∀ b : CAABB3 R, (b.cast f).cast g = b.cast (g ∘ f)) ∧
    (∀ p : Plane R, (p.cast f).cast g = p.cast (g ∘ f)) ∧ (∀ q : Quat R, (q.cast f).cast g = q.cast (g ∘ f)) ∧
    (∀ u : Frustum R, (u.cast f).cast g = u.cast (g ∘ f)) ∧
    (∀ c : ColorRGB R, (c.cast f).cast g = c.cast (g ∘ f)) ∧
    (∀ c : ColorRGBA R, (c.cast f).cast g = c.cast (g ∘ f)) ∧
    (∀ c : ColorHSV R, (c.cast f).cast g = c.cast (g ∘ f)) :=
  ⟨⟨fun _ => rfl, fun _ => rfl, fun _ => rfl, fun _ => rfl, fun _ => rfl, fun _ => rfl, fun _ => rfl,
    fun _ => rfl, fun _ => rfl, fun _ => rfl, fun _ => rfl, fun _ => rfl, fun _ => rfl, fun _ => rfl,
    fun _ => rfl, fun _ => rfl⟩,
   fun _ => rfl, fun _ => rfl, fun _ => rfl, fun _ => rfl, fun _ => rfl, fun _ => rfl, fun _ => rfl,
    fun _ => rfl, fun _ => rfl, fun _ => rfl, fun _ => rfl, fun _ => rfl, fun _ => rfl, fun _ => rfl,
    fun _ => rfl, fun _ => rfl⟩

/-- C110 for matrices: every entry is converted on its own; the flags are those a matrix freshly built
from the converted columns gets. -/
theorem C110_matrix {R : Type} (conv : R → ℝ) :
    (∀ m : Mat2 R, (m.cast conv).x = m.x.cast conv ∧ (m.cast conv).y = m.y.cast conv ∧
      (m.cast conv).Truthful 1 ∧ (m.cast conv).isInitialized) ∧
    (∀ m : Mat3 R, (m.cast conv).x = m.x.cast conv ∧ (m.cast conv).y = m.y.cast conv ∧
      (m.cast conv).z = m.z.cast conv ∧ (m.cast conv).Truthful 1 ∧ (m.cast conv).isInitialized) ∧
    (∀ m : Mat34 R, (m.cast conv).rs.x = m.rs.x.cast conv ∧ (m.cast conv).rs.y = m.rs.y.cast conv ∧
      (m.cast conv).rs.z = m.rs.z.cast conv ∧ (m.cast conv).t = m.t.cast conv ∧
      (m.cast conv).rs.Truthful 1 ∧ (m.cast conv).isInitialized) ∧
    (∀ m : Mat4 R, (m.cast conv).x = m.x.cast conv ∧ (m.cast conv).y = m.y.cast conv ∧
      (m.cast conv).z = m.z.cast conv ∧ (m.cast conv).t = m.t.cast conv ∧
      ((m.cast conv).isIdentity → ‖(m.cast conv).toM - 1‖ ^ 2 ≤ 1 / 1000) ∧
      ((m.cast conv).isTrs → (m.cast conv).x.w = 0 ∧ (m.cast conv).y.w = 0 ∧ (m.cast conv).z.w = 0 ∧
        (m.cast conv).t.w = 1) ∧ (m.cast conv).isInitialized) := by
  refine ⟨fun m => ⟨rfl, rfl, Mat2.truthful_optimize _, rfl⟩,
    fun m => ⟨rfl, rfl, rfl, Mat3.truthful_optimize _, rfl⟩,
    fun m => ⟨rfl, rfl, rfl, rfl, Mat3.truthful_optimize _, rfl⟩,
    fun m => ⟨rfl, rfl, rfl, rfl, fun hi => ?_, fun ht => ?_, rfl⟩⟩
  · exact C43_mat4_identity_partial (Mat4.Reach.ofCols _ _ _ _) hi
  · exact C43_mat4_trs_partial (Mat4.Reach.ofCols _ _ _ _) ht

/-! ## Corner boxes -/

section
variable {K L : Type} [LinearOrder K] [LinearOrder L] (conv : K → L) (hm : Monotone conv)
include hm

theorem cast_min' (a b : K) : conv (min' a b) = min' (conv a) (conv b) := by
  unfold min'
  split_ifs with h1 h2 h2
  · rfl
  · exact le_antisymm (hm h1.le) (not_lt.1 h2)
  · exact absurd (hm (not_lt.1 h1)) (not_le.2 h2)
  · rfl
theorem cast_max' (a b : K) : conv (max' a b) = max' (conv a) (conv b) := by
  unfold max'
  split_ifs with h1 h2 h2
  · rfl
  · exact le_antisymm (not_lt.1 h2) (hm h1.le)
  · exact absurd (hm (not_lt.1 h1)) (not_le.2 h2)
  · rfl

/-- C110: a monotone conversion (every rounding of `double` to `float`, truncation to integers) keeps
points inside corner boxes, valid boxes valid, contained boxes contained and overlapping boxes
overlapping. -/
theorem C110_boxes :
    (∀ (b : AABB2 K) (p : Vec2 K), p ∈ b.toSet → p.cast conv ∈ (b.cast conv).toSet) ∧
    (∀ (b : AABB3 K) (p : Vec3 K), p ∈ b.toSet → p.cast conv ∈ (b.cast conv).toSet) ∧
    (∀ b : AABB2 K, b.Valid → (b.cast conv).Valid) ∧ (∀ b : AABB3 K, b.Valid → (b.cast conv).Valid) ∧
    (∀ (b : AABB2 K) (p : Vec2 K), b.contains p = true → (b.cast conv).contains (p.cast conv) = true) ∧
    (∀ (b : AABB3 K) (p : Vec3 K), b.contains p = true → (b.cast conv).contains (p.cast conv) = true) ∧
    (∀ b o : AABB2 K, b.containsBox o = true → (b.cast conv).containsBox (o.cast conv) = true) ∧
    (∀ b o : AABB3 K, b.containsBox o = true → (b.cast conv).containsBox (o.cast conv) = true) ∧
    (∀ b o : AABB2 K, b.intersects o = true → (b.cast conv).intersects (o.cast conv) = true) ∧
    (∀ b o : AABB3 K, b.intersects o = true → (b.cast conv).intersects (o.cast conv) = true) := by
  refine ⟨?_, ?_, ?_, ?_, ?_, ?_, ?_, ?_, ?_, ?_⟩
  · rintro b p ⟨⟨h1, h2⟩, h3, h4⟩; exact ⟨⟨hm h1, hm h2⟩, hm h3, hm h4⟩
  · rintro b p ⟨⟨h1, h2⟩, ⟨h3, h4⟩, h5, h6⟩; exact ⟨⟨hm h1, hm h2⟩, ⟨hm h3, hm h4⟩, hm h5, hm h6⟩
  · rintro b ⟨h1, h2⟩; exact ⟨hm h1, hm h2⟩
  · rintro b ⟨h1, h2, h3⟩; exact ⟨hm h1, hm h2, hm h3⟩
  · intro b p
    simp only [AABB2.contains, Bool.and_eq_true, decide_eq_true_eq]
    rintro ⟨⟨h1, h2⟩, h3, h4⟩; exact ⟨⟨hm h1, hm h2⟩, hm h3, hm h4⟩
  · intro b p
    simp only [AABB3.contains, Bool.and_eq_true, decide_eq_true_eq]
    rintro ⟨⟨⟨h1, h2⟩, h3, h4⟩, h5, h6⟩; exact ⟨⟨⟨hm h1, hm h2⟩, hm h3, hm h4⟩, hm h5, hm h6⟩
  · intro b p
    simp only [AABB2.containsBox, Bool.and_eq_true, decide_eq_true_eq]
    rintro ⟨⟨h1, h2⟩, h3, h4⟩; exact ⟨⟨hm h1, hm h2⟩, hm h3, hm h4⟩
  · intro b p
    simp only [AABB3.containsBox, Bool.and_eq_true, decide_eq_true_eq]
    rintro ⟨⟨⟨h1, h2⟩, h3, h4⟩, h5, h6⟩; exact ⟨⟨⟨hm h1, hm h2⟩, hm h3, hm h4⟩, hm h5, hm h6⟩
  · intro b o h
    simp only [AABB2.intersects, gt_iff_lt, Bool.if_false_left, Bool.if_true_right, Bool.and_eq_true,
      Bool.not_eq_true', decide_eq_false_iff_not, not_or, not_lt, Bool.or_eq_true, and_true, or_false,
      ite_eq_right_iff] at h ⊢
    simp_all [AABB2.cast, Vec2.cast, hm.imp]
  · intro b o h
    simp only [AABB3.intersects, gt_iff_lt, Bool.if_false_left, Bool.if_true_right, Bool.and_eq_true,
      Bool.not_eq_true', decide_eq_false_iff_not, not_or, not_lt, Bool.or_eq_true, and_true, or_false,
      ite_eq_right_iff] at h ⊢
    simp_all [AABB3.cast, Vec3.cast, hm.imp]

/-- C110: uniting boxes, growing a box by a point and taking minima and maxima commute with a monotone
conversion. -/
theorem C110_union :
    (∀ a b : AABB2 K, (a.fromUnion b).cast conv = (a.cast conv).fromUnion (b.cast conv)) ∧
    (∀ a b : AABB3 K, (a.fromUnion b).cast conv = (a.cast conv).fromUnion (b.cast conv)) ∧
    (∀ a b : Vec2 K, (a.min b).cast conv = (a.cast conv).min (b.cast conv) ∧
      (a.max b).cast conv = (a.cast conv).max (b.cast conv)) ∧
    (∀ a b : Vec3 K, (a.min b).cast conv = (a.cast conv).min (b.cast conv) ∧
      (a.max b).cast conv = (a.cast conv).max (b.cast conv)) ∧
    (∀ a b : Vec4 K, (a.min b).cast conv = (a.cast conv).min (b.cast conv) ∧
      (a.max b).cast conv = (a.cast conv).max (b.cast conv)) := by
  have h1 := cast_min' conv hm
  have h2 := cast_max' conv hm
  refine ⟨?_, ?_, ?_, ?_, ?_⟩ <;> intro a b <;>
    simp [AABB2.fromUnion, AABB3.fromUnion, AABB2.cast, AABB3.cast, Vec2.cast, Vec3.cast, Vec4.cast,
      Vec2.min, Vec2.max, Vec3.min, Vec3.max, Vec4.min, Vec4.max, h1, h2]

end

/-! ## Centred boxes and balls -/

/-- Full statement for centred boxes and balls: a monotone conversion keeps points inside. -/
def C110_centred_full : Prop :=
  ∀ conv : ℚ → ℚ, Monotone conv →
    (∀ (b : CAABB2 ℚ) (p : Vec2 ℚ), p ∈ b.toSet → p.cast conv ∈ (b.cast conv).toSet) ∧
    (∀ (b : CAABB3 ℚ) (p : Vec3 ℚ), p ∈ b.toSet → p.cast conv ∈ (b.cast conv).toSet)

/-- It fails when the centre is rounded away from the point (here: rounding to the 24 bits of a
`float`; centre 2^24 + 1, half size 1, point 2^24 + 2). -/
theorem C110_centred_refuted :
    ¬ C110_centred_full ∧ Monotone (rne 24 : ℚ → ℚ) ∧
    ∃ (b : CAABB2 ℚ) (p : Vec2 ℚ), b.contains p = true ∧
      (b.cast (rne 24)).contains (p.cast (rne 24)) = false := by
  have hb : (⟨⟨16777217, 0⟩, ⟨1, 1⟩⟩ : CAABB2 ℚ).contains ⟨16777218, 0⟩ = true := by decide +kernel
  have hc : ((⟨⟨16777217, 0⟩, ⟨1, 1⟩⟩ : CAABB2 ℚ).cast (rne 24)).contains
      ((⟨16777218, 0⟩ : Vec2 ℚ).cast (rne 24)) = false := by decide +kernel
  refine ⟨fun h => ?_, rne_mono 24 (by norm_num), _, _, hb, hc⟩
  have h1 := (h (rne 24) (rne_mono 24 (by norm_num))).1 ⟨⟨16777217, 0⟩, ⟨1, 1⟩⟩ ⟨16777218, 0⟩ (by
    simp only [CAABB2.toSet, Set.mem_ofPred_eq]; norm_num)
  have h2 : ((⟨⟨16777217, 0⟩, ⟨1, 1⟩⟩ : CAABB2 ℚ).cast (rne 24)).contains
      ((⟨16777218, 0⟩ : Vec2 ℚ).cast (rne 24)) = true := by
    simp only [CAABB2.contains, Bool.and_eq_true, ge_iff_le, decide_eq_true_eq]
    exact h1
  rw [hc] at h2
  exact absurd h2 (by simp)

/-- Centred boxes under a conversion with relative error `ε`: the point stays within the box grown by
the rounding of centre, half size and point. -/
theorem C110_centred_partial (conv : ℝ → ℝ) (ε : ℝ) (hc : ∀ a, |conv a - a| ≤ ε * |a|) :
    (∀ (b : CAABB2 ℝ) (p : Vec2 ℝ), p ∈ b.toSet →
      |(p.cast conv).x - (b.cast conv).center.x| ≤
        (b.cast conv).extents.x + ε * (|p.x| + |b.center.x| + |b.extents.x|) ∧
      |(p.cast conv).y - (b.cast conv).center.y| ≤
        (b.cast conv).extents.y + ε * (|p.y| + |b.center.y| + |b.extents.y|)) ∧
    (∀ (b : CAABB3 ℝ) (p : Vec3 ℝ), p ∈ b.toSet →
      |(p.cast conv).x - (b.cast conv).center.x| ≤
        (b.cast conv).extents.x + ε * (|p.x| + |b.center.x| + |b.extents.x|) ∧
      |(p.cast conv).y - (b.cast conv).center.y| ≤
        (b.cast conv).extents.y + ε * (|p.y| + |b.center.y| + |b.extents.y|) ∧
      |(p.cast conv).z - (b.cast conv).center.z| ≤
        (b.cast conv).extents.z + ε * (|p.z| + |b.center.z| + |b.extents.z|)) := by
  have key : ∀ c e p : ℝ, c - e ≤ p → p ≤ c + e →
      |conv p - conv c| ≤ conv e + ε * (|p| + |c| + |e|) := by
    intro c e p h1 h2
    have a1 := abs_le.1 (hc c)
    have a2 := abs_le.1 (hc e)
    have a3 := abs_le.1 (hc p)
    rw [abs_le]; constructor <;> linarith
  refine ⟨fun b p => ?_, fun b p => ?_⟩
  · rintro ⟨⟨h1, h2⟩, h3, h4⟩
    exact ⟨key _ _ _ h1 h2, key _ _ _ h3 h4⟩
  · rintro ⟨⟨h1, h2⟩, ⟨h3, h4⟩, h5, h6⟩
    exact ⟨key _ _ _ h1 h2, key _ _ _ h3 h4, key _ _ _ h5 h6⟩

/-- C110: converting a ball with a non-negative radius never fails the assertion of the constructor,
and converts centre and radius. -/
theorem C110_balls {K : Type} [LinearOrder K] [Zero K] (conv : K → ℝ) (hm : Monotone conv)
    (h0 : conv 0 = 0) :
    (∀ s : Circle K, 0 ≤ s.radius → s.cast conv = .ok ⟨s.center.cast conv, conv s.radius⟩) ∧
    (∀ s : Sphere K, 0 ≤ s.radius → s.cast conv = .ok ⟨s.center.cast conv, conv s.radius⟩) := by
  constructor <;> intro s hs <;>
    · have := hm hs
      rw [h0] at this
      simp [Circle.cast, Circle.mk', Sphere.cast, Sphere.mk', this]

/-! ## Directions -/

/-- C110: converted rays have a unit direction along the converted direction. -/
theorem C110_rays {R : Type} (conv : R → ℝ) :
    (∀ r : Ray2 R, r.direction.cast conv ≠ Vec2.zero → (r.cast conv).direction.length = 1 ∧
      (r.cast conv).start = r.start.cast conv ∧
      ∃ k : ℝ, 0 < k ∧ (r.cast conv).direction = r.direction.cast conv * k) ∧
    (∀ r : Ray3 R, r.direction.cast conv ≠ Vec3.zero → (r.cast conv).direction.length = 1 ∧
      (r.cast conv).start = r.start.cast conv ∧
      ∃ k : ℝ, 0 < k ∧ (r.cast conv).direction = r.direction.cast conv * k) := by
  refine ⟨fun r h => ?_, fun r h => ?_⟩
  · obtain ⟨hp, e, hl⟩ := (C22_normalize2 (r.direction.cast conv) 1).2.2.2 h
    exact ⟨by simpa [Ray2.cast, Ray2.from] using hl, rfl, 1 / _, by positivity, e⟩
  · obtain ⟨hp, e, hl⟩ := (C22_normalize3 (r.direction.cast conv) 1).2.2.2 h
    exact ⟨by simpa [Ray3.cast, Ray3.from] using hl, rfl, 1 / _, by positivity, e⟩

/-- squares under a relative error -/
theorem sq_rel {ε a b : ℝ} (h : |b - a| ≤ ε * |a|) :
    |b * b - a * a| ≤ (2 * ε + ε ^ 2) * (a * a) := by
  have e : b * b - a * a = 2 * a * (b - a) + (b - a) * (b - a) := by ring
  have h1 : |2 * a * (b - a)| ≤ 2 * ε * (a * a) := by
    rw [abs_mul, abs_mul, abs_two]
    calc 2 * |a| * |b - a| ≤ 2 * |a| * (ε * |a|) := by gcongr
      _ = 2 * ε * (|a| * |a|) := by ring
      _ = 2 * ε * (a * a) := by rw [abs_mul_abs_self]
  have h2 : |(b - a) * (b - a)| ≤ ε ^ 2 * (a * a) := by
    rw [abs_mul]
    calc |b - a| * |b - a| ≤ (ε * |a|) * (ε * |a|) :=
          mul_le_mul h h (abs_nonneg _) ((abs_nonneg _).trans h)
      _ = ε ^ 2 * (|a| * |a|) := by ring
      _ = ε ^ 2 * (a * a) := by rw [abs_mul_abs_self]
  rw [e]
  calc _ ≤ |2 * a * (b - a)| + |(b - a) * (b - a)| := abs_add_le _ _
    _ ≤ _ := by linarith

/-- C110: planes and quaternions are not normalised again; with a relative error of `ε` per component a
unit normal or unit quaternion keeps its squared length within `2 ε + ε²` of one. -/
theorem C110_unit (conv : ℝ → ℝ) (ε : ℝ) (hc : ∀ a, |conv a - a| ≤ ε * |a|) :
    (∀ p : Plane ℝ, p.IsUnit → |(p.cast conv).normal.dot (p.cast conv).normal - 1| ≤ 2 * ε + ε ^ 2) ∧
    (∀ q : Quat ℝ, q.x * q.x + q.y * q.y + q.z * q.z + q.w * q.w = 1 →
      |(q.cast conv).x * (q.cast conv).x + (q.cast conv).y * (q.cast conv).y +
        (q.cast conv).z * (q.cast conv).z + (q.cast conv).w * (q.cast conv).w - 1| ≤ 2 * ε + ε ^ 2) := by
  refine ⟨fun p hp => ?_, fun q hq => ?_⟩
  · simp only [Plane.IsUnit] at hp
    simp only [Plane.cast, Vec3.cast, Vec3.dot]
    have a1 := abs_le.1 (sq_rel (hc p.normal.x))
    have a2 := abs_le.1 (sq_rel (hc p.normal.y))
    have a3 := abs_le.1 (sq_rel (hc p.normal.z))
    have e : (2 * ε + ε ^ 2) * (p.normal.x * p.normal.x + p.normal.y * p.normal.y +
      p.normal.z * p.normal.z) = 2 * ε + ε ^ 2 := by rw [hp, mul_one]
    rw [abs_le]; constructor <;> linarith
  · simp only [Quat.cast]
    have a1 := abs_le.1 (sq_rel (hc q.x))
    have a2 := abs_le.1 (sq_rel (hc q.y))
    have a3 := abs_le.1 (sq_rel (hc q.z))
    have a4 := abs_le.1 (sq_rel (hc q.w))
    have e : (2 * ε + ε ^ 2) * (q.x * q.x + q.y * q.y + q.z * q.z + q.w * q.w) = 2 * ε + ε ^ 2 := by
      rw [hq, mul_one]
    rw [abs_le]; constructor <;> linarith

/-- rounding to the 24 bits of a `float` meets the hypotheses: monotone, zero kept, relative error
at most 2^-24 -/
example : Monotone (rne 24 : ℝ → ℝ) ∧ rne 24 (0 : ℝ) = 0 ∧
    ∀ a : ℝ, |rne 24 a - a| ≤ (2 : ℝ) ^ (-(24 : ℤ)) * |a| :=
  ⟨rne_mono 24 (by norm_num), rne_zero 24, fun a => by
    rw [abs_sub_comm, mul_comm]; exact_mod_cast rne_rel 24 a⟩

end MathLib
