import Verif.Props.BoxBalls
import Verif.Props.RoundedBallLine
import Verif.Proof.LineDist
import Verif.Proof.RneTie

/-! # Property C170: the inner and outer balls of a box in floating point -/

namespace MathLib
open LineDist
variable {rnd : ℝ → ℝ} {u : ℝ}

/-- a box of given numbers -/
def AABB2.num (b : AABB2 ℝ) : AABB2 (Fl ℝ rnd) := ⟨Vec2.num b.inf, Vec2.num b.sup⟩
def AABB3.num (b : AABB3 ℝ) : AABB3 (Fl ℝ rnd) := ⟨Vec3.num b.inf, Vec3.num b.sup⟩

/-- the box, widened in every direction by given amounts -/
def AABB2.wide (b : AABB2 ℝ) (w : Vec2 ℝ) : AABB2 ℝ := ⟨b.inf - w, b.sup + w⟩
def AABB3.wide (b : AABB3 ℝ) (w : Vec3 ℝ) : AABB3 ℝ := ⟨b.inf - w, b.sup + w⟩

private theorem num_minor2 (v : Vec2 ℝ) : ∃ m, (Vec2.num v : Vec2 (Fl ℝ rnd)).get (Vec2.num v : Vec2 (Fl ℝ rnd)).minorCoord = .ok (.num m) ∧
    (m = v.x ∨ m = v.y) ∧ |m| ≤ |v.x| ∧ |m| ≤ |v.y| := by
  have e : (Vec2.num v : Vec2 (Fl ℝ rnd)).minorCoord = v.minorCoord := by
    by_cases hx : 0 ≤ v.x <;> by_cases hy : 0 ≤ v.y <;>
      simp only [Vec2.minorCoord, Vec2.num, ge_iff_le, Fl.zero_def, Fl.num_le, hx, hy, if_true, if_false, Fl.num_neg, Fl.num_lt]
  obtain ⟨m, hm, h1, h2⟩ := (C25_coord2 v).2.2
  refine ⟨m, ?_, ?_, h1, h2⟩
  · rw [e]
    unfold Vec2.get at hm ⊢
    split_ifs at hm ⊢ <;> simp_all [Vec2.num]
  · unfold Vec2.get at hm
    split_ifs at hm <;> simp_all

private theorem num_minor3 (v : Vec3 ℝ) : ∃ m, (Vec3.num v : Vec3 (Fl ℝ rnd)).get (Vec3.num v : Vec3 (Fl ℝ rnd)).minorCoord = .ok (.num m) ∧
    (m = v.x ∨ m = v.y ∨ m = v.z) ∧ |m| ≤ |v.x| ∧ |m| ≤ |v.y| ∧ |m| ≤ |v.z| := by
  have e : (Vec3.num v : Vec3 (Fl ℝ rnd)).minorCoord = v.minorCoord := by
    by_cases hx : 0 ≤ v.x <;> by_cases hy : 0 ≤ v.y <;> by_cases hz : 0 ≤ v.z <;>
      simp only [Vec3.minorCoord, Vec3.num, ge_iff_le, Fl.zero_def, Fl.num_le, hx, hy, hz, if_true, if_false, Fl.num_neg, Fl.num_lt]
  obtain ⟨m, hm, h1, h2, h3⟩ := (C25_coord3 v).2.2
  refine ⟨m, ?_, ?_, h1, h2, h3⟩
  · rw [e]
    unfold Vec3.get at hm ⊢
    split at hm <;> simp_all [Vec3.num]
  · unfold Vec3.get at hm
    split at hm <;> simp_all

section
variable (hr : IsRel rnd u) (hu : u ≤ 1 / 4096)
include hr

private theorem half : Rel u 2 (1 / 2) (1 / 2 : Fl ℝ rnd) := by
  have h2 : Rel u 1 2 (2 : Fl ℝ rnd) := by
    obtain ⟨θ, ht, e⟩ := hr.fac 2
    refine ⟨θ, ht, ?_⟩
    change Fl.num (rnd ((2 : ℕ) : ℝ)) = _
    rw [show ((2 : ℕ) : ℝ) = 2 by norm_num, e]
  have h1 : Rel u 0 1 (1 : Fl ℝ rnd) := Rel.exact hr 1
  exact Rel.div hr h1 h2 (by norm_num)

private theorem midErr (x y : ℝ) : ∃ c, ((.num x + .num y) * (1 / 2) : Fl ℝ rnd) = .num c ∧ |c - (x + y) / 2| ≤ gam u 4 * |(x + y) / 2| := by
  have := (Rel.mul (k := 4) hr (Rel.sum hr x y) (half hr)).error hr
  rwa [mul_one_div] at this
private theorem extErr (x y : ℝ) : ∃ c, ((.num y - .num x) * (1 / 2) : Fl ℝ rnd) = .num c ∧ |c - (y - x) / 2| ≤ gam u 4 * |(y - x) / 2| := by
  have := (Rel.mul (k := 4) hr (Rel.sub hr y x) (half hr)).error hr
  rwa [mul_one_div] at this

/-- the common parts of the four functions in space -/
private theorem parts3 (b : AABB3 ℝ) : ∃ c E : Vec3 ℝ,
    ((Vec3.num b.inf + Vec3.num b.sup : Vec3 (Fl ℝ rnd)) * (1 / 2 : Fl ℝ rnd) = Vec3.num c ∧
      |c.x - b.mid.x| ≤ gam u 4 * |b.mid.x| ∧ |c.y - b.mid.y| ≤ gam u 4 * |b.mid.y| ∧ |c.z - b.mid.z| ≤ gam u 4 * |b.mid.z|) ∧
    (Vec3.num b.sup - Vec3.num b.inf : Vec3 (Fl ℝ rnd)) * (1 / 2 : Fl ℝ rnd) = Vec3.num E ∧
      |E.x - (b.sup.x - b.inf.x) / 2| ≤ gam u 4 * |(b.sup.x - b.inf.x) / 2| ∧
      |E.y - (b.sup.y - b.inf.y) / 2| ≤ gam u 4 * |(b.sup.y - b.inf.y) / 2| ∧
      |E.z - (b.sup.z - b.inf.z) / 2| ≤ gam u 4 * |(b.sup.z - b.inf.z) / 2| := by
  obtain ⟨x, ex, hx⟩ := midErr hr b.inf.x b.sup.x
  obtain ⟨y, ey, hy⟩ := midErr hr b.inf.y b.sup.y
  obtain ⟨z, ez, hz⟩ := midErr hr b.inf.z b.sup.z
  obtain ⟨x', ex', hx'⟩ := extErr hr b.inf.x b.sup.x
  obtain ⟨y', ey', hy'⟩ := extErr hr b.inf.y b.sup.y
  obtain ⟨z', ez', hz'⟩ := extErr hr b.inf.z b.sup.z
  refine ⟨⟨x, y, z⟩, ⟨x', y', z'⟩, ⟨?_, hx, hy, hz⟩, ?_, hx', hy', hz'⟩
  · exact Vec3.ext ex ey ez
  · exact Vec3.ext ex' ey' ez'
private theorem parts2 (b : AABB2 ℝ) : ∃ c E : Vec2 ℝ,
    ((Vec2.num b.inf + Vec2.num b.sup : Vec2 (Fl ℝ rnd)) * (1 / 2 : Fl ℝ rnd) = Vec2.num c ∧
      |c.x - b.mid.x| ≤ gam u 4 * |b.mid.x| ∧ |c.y - b.mid.y| ≤ gam u 4 * |b.mid.y|) ∧
    (Vec2.num b.sup - Vec2.num b.inf : Vec2 (Fl ℝ rnd)) * (1 / 2 : Fl ℝ rnd) = Vec2.num E ∧
      |E.x - (b.sup.x - b.inf.x) / 2| ≤ gam u 4 * |(b.sup.x - b.inf.x) / 2| ∧
      |E.y - (b.sup.y - b.inf.y) / 2| ≤ gam u 4 * |(b.sup.y - b.inf.y) / 2| := by
  obtain ⟨x, ex, hx⟩ := midErr hr b.inf.x b.sup.x
  obtain ⟨y, ey, hy⟩ := midErr hr b.inf.y b.sup.y
  obtain ⟨x', ex', hx'⟩ := extErr hr b.inf.x b.sup.x
  obtain ⟨y', ey', hy'⟩ := extErr hr b.inf.y b.sup.y
  refine ⟨⟨x, y⟩, ⟨x', y'⟩, ⟨?_, hx, hy⟩, ?_, hx', hy'⟩
  · exact Vec2.ext ex ey
  · exact Vec2.ext ex' ey'

include hu
private theorem outer {m c e E : Vec3 ℝ} {r : ℝ} (hc : nm (c - m) ≤ gam u 4 * nm m) (hE : nm (E - e) ≤ gam u 4 * nm e)
    (hl : |r - nm E| ≤ gam u 3 * nm E) :
    nm (c - m) ≤ 4.1 * u * nm m ∧ |r - nm e| ≤ 7.1 * u * nm e ∧ nm e + 4.1 * u * nm m ≤ (1 + 7.2 * u) * r + 4.1 * u * nm m := by
  have h0 := hr.nonneg
  obtain ⟨g3, g3'⟩ := BallLine.gam_small h0 hu 3 (by norm_num)
  obtain ⟨g4, g4'⟩ := BallLine.gam_small h0 hu 4 (by norm_num)
  norm_num at g3 g4
  have e0 := nm_nonneg e
  have m0 := nm_nonneg m
  have ue := mul_nonneg h0 e0
  have um := mul_nonneg h0 m0
  have uue : u * (u * nm e) ≤ 1 / 4096 * (u * nm e) := mul_le_mul_of_nonneg_right hu ue
  have k1 := mul_le_mul_of_nonneg_right g4 m0
  have k2 := hE.trans (mul_le_mul_of_nonneg_right g4 e0)
  have k3 := (nm_near E e).trans k2
  obtain ⟨k4, k5⟩ := abs_le.1 k3
  have k6 : nm E ≤ 1.001 * nm e := by
    have := mul_le_mul_of_nonneg_right hu e0
    linarith
  have k7 := hl.trans (mul_le_mul g3 k6 (nm_nonneg _) (by linarith))
  have k8 : |r - nm e| ≤ 7.1 * u * nm e := by
    have := abs_sub_le r (nm E) (nm e)
    linarith
  refine ⟨by linarith, k8, ?_⟩
  have k9 := (abs_le.1 k8).1
  have k10 := mul_le_mul_of_nonneg_left (show (1 - 7.1 * u) * nm e ≤ r by linarith) (show 0 ≤ 1 + 7.2 * u by linarith)
  have : (1 + 7.2 * u) * ((1 - 7.1 * u) * nm e) = nm e + 0.1 * (u * nm e) - 51.12 * (u * (u * nm e)) := by ring
  linarith

/-- C170 asks that the ball contains the box up to relative errors of the radius, which is false (`C170_small`).  What holds for the
outer ball of a box in floating point: the radius has a few relative errors and so has the centre; every point of the
box is in the ball, up to that many errors of the radius and of the size of the centre. -/
theorem C170_outerSphere_partial (b : AABB3 ℝ) (hb : b.Valid) : ∃ (c : Vec3 ℝ) (r : ℝ), (b.num : AABB3 (Fl ℝ rnd)).outerSphere = (Sphere.mk c r).num ∧
    dist c.toE b.mid.toE ≤ 4.1 * u * ‖b.mid.toE‖ ∧ |r - b.outerSphere.radius| ≤ 7.1 * u * b.outerSphere.radius ∧
    ∀ p ∈ b.toSet, dist p.toE c.toE ≤ (1 + 7.2 * u) * r + 4.1 * u * ‖b.mid.toE‖ := by
  obtain ⟨c, E, ⟨ec, cx, cy, cz⟩, eE, Ex, Ey, Ez⟩ := parts3 hr b
  obtain ⟨h1, h2, -, -⟩ := C71_outerSphere b hb
  obtain ⟨-, g4'⟩ := BallLine.gam_small hr.nonneg hu 4 (by norm_num)
  set e : Vec3 ℝ := ⟨(b.sup.x - b.inf.x) / 2, (b.sup.y - b.inf.y) / 2, (b.sup.z - b.inf.z) / 2⟩ with he
  have er : b.outerSphere.radius = nm e := by
    simp only [AABB3.outerSphere, Vec3.length, real_sqrt, nm, he, Vec3.mul_x, Vec3.mul_y, Vec3.mul_z, Vec3.sub_x, Vec3.sub_y, Vec3.sub_z]
    congr 1; ring
  obtain ⟨r, hl, hr'⟩ := (Vec3.rel_length hr E).error hr
  have enm : √(E.x * E.x + E.y * E.y + E.z * E.z) = nm E := by rw [nm]; congr 1; ring
  rw [enm, abs_of_nonneg (nm_nonneg E)] at hr'
  obtain ⟨q1, q2, q3⟩ := outer hr hu (m := b.mid) (c := c) (e := e) (nm_comp g4' cx cy cz) (nm_comp g4' Ex Ey Ez) hr'
  have dnm : ∀ v w : Vec3 ℝ, dist v.toE w.toE = nm (v - w) := fun v w => by
    rw [Vec3.dist_toE, nm]; simp only [Vec3.sub_x, Vec3.sub_y, Vec3.sub_z]
  refine ⟨c, r, ?_, ?_, ?_, fun p hp => ?_⟩
  · simp only [AABB3.outerSphere, AABB3.num, Sphere.num, ec, eE, hl]
  · rw [dnm, ← nm_eq]; exact q1
  · rw [er]; exact q2
  · have k : dist p.toE b.outerSphere.center.toE ≤ b.outerSphere.radius := h2 hp
    rw [h1, er] at k
    refine (dist_triangle _ b.mid.toE _).trans ?_
    rw [dist_comm b.mid.toE, dnm c, ← nm_eq]
    linarith

/-- The same in the plane. -/
theorem C170_outerCircle_partial (b : AABB2 ℝ) (hb : b.Valid) : ∃ (c : Vec2 ℝ) (r : ℝ), (b.num : AABB2 (Fl ℝ rnd)).outerCircle = (Circle.mk c r).num ∧
    dist c.toE b.mid.toE ≤ 4.1 * u * ‖b.mid.toE‖ ∧ |r - b.outerCircle.radius| ≤ 7.1 * u * b.outerCircle.radius ∧
    ∀ p ∈ b.toSet, dist p.toE c.toE ≤ (1 + 7.2 * u) * r + 4.1 * u * ‖b.mid.toE‖ := by
  obtain ⟨c, E, ⟨ec, cx, cy⟩, eE, Ex, Ey⟩ := parts2 hr b
  obtain ⟨h1, h2, -, -⟩ := C71_outerCircle b hb
  obtain ⟨g3, g3'⟩ := BallLine.gam_small hr.nonneg hu 3 (by norm_num)
  obtain ⟨g2, g2'⟩ := BallLine.gam_small hr.nonneg hu 2 (by norm_num)
  obtain ⟨-, g4'⟩ := BallLine.gam_small hr.nonneg hu 4 (by norm_num)
  let up : Vec2 ℝ → Vec3 ℝ := fun v => ⟨v.x, v.y, 0⟩
  set e : Vec2 ℝ := ⟨(b.sup.x - b.inf.x) / 2, (b.sup.y - b.inf.y) / 2⟩ with he
  have er : b.outerCircle.radius = nm (up e) := by
    simp only [AABB2.outerCircle, Vec2.length, real_sqrt, nm, he, up, Vec2.mul_x, Vec2.mul_y, Vec2.sub_x, Vec2.sub_y]
    congr 1; ring
  obtain ⟨r, hl, hr'⟩ := ((Vec2.rel_length hr E).mono hr (show 2 ≤ 3 by norm_num)).error hr
  have enm : √(E.x * E.x + E.y * E.y) = nm (up E) := by rw [nm]; congr 1; simp only [up]; ring
  rw [enm, abs_of_nonneg (nm_nonneg _)] at hr'
  obtain ⟨q1, q2, q3⟩ := outer hr hu (m := up b.mid) (c := up c) (e := up e) (nm_comp g4' cx cy (by simp [up]))
    (nm_comp g4' Ex Ey (by simp [up])) hr'
  have dnm : ∀ v w : Vec2 ℝ, dist v.toE w.toE = nm (up v - up w) := fun v w => by
    rw [Vec2.dist_toE, nm]; simp [up]
  have nnm : ‖b.mid.toE‖ = nm (up b.mid) := by
    rw [EuclideanSpace.norm_eq, Fin.sum_univ_two]; simp [nm, up, Vec2.toE, Vec2.toFn]
  refine ⟨c, r, ?_, ?_, ?_, fun p hp => ?_⟩
  · simp only [AABB2.outerCircle, AABB2.center, AABB2.num, Circle.num, ec, eE, hl]
  · rw [dnm, nnm]; exact q1
  · rw [er]; exact q2
  · have k : dist p.toE b.outerCircle.center.toE ≤ b.outerCircle.radius := h2 hp
    rw [h1, er] at k
    refine (dist_triangle _ b.mid.toE _).trans ?_
    rw [dist_comm b.mid.toE, dnm c, nnm]
    linarith

/-- the shortest half-side -/
private theorem side {E e : ℝ} (h : |E - e| ≤ gam u 4 * |e|) (he : 0 ≤ e) : (1 - 4.1 * u) * e ≤ |E| ∧ |E| ≤ (1 + 4.1 * u) * e := by
  have h0 := hr.nonneg
  obtain ⟨g4, g4'⟩ := BallLine.gam_small h0 hu 4 (by norm_num)
  norm_num at g4
  rw [abs_of_nonneg he] at h
  have k := mul_le_mul_of_nonneg_right g4 he
  have ue := mul_nonneg h0 he
  have q1 := abs_sub_abs_le_abs_sub E e
  have q2 := abs_sub_abs_le_abs_sub e E
  rw [abs_sub_comm e E] at q2
  rw [abs_of_nonneg he] at q1 q2
  constructor <;> linarith

private theorem coord {x c m e r ρ lo hi : ℝ} (hlo : lo = m - e) (hhi : hi = m + e) (h : |x - c| ≤ r) (hc : |c - m| ≤ gam u 4 * |m|)
    (hr' : r ≤ ρ) (hρ : ρ ≤ (1 + 4.1 * u) * e) :
    lo - 4.1 * u * (|m| + e) ≤ x ∧ x ≤ hi + 4.1 * u * (|m| + e) := by
  have h0 := hr.nonneg
  obtain ⟨g4, g4'⟩ := BallLine.gam_small h0 hu 4 (by norm_num)
  norm_num at g4
  have k := mul_le_mul_of_nonneg_right g4 (abs_nonneg m)
  have um := mul_nonneg h0 (abs_nonneg m)
  obtain ⟨a1, a2⟩ := abs_le.1 h
  obtain ⟨a3, a4⟩ := abs_le.1 hc
  subst hlo hhi
  constructor <;> linarith

/-- how far the points of the computed inner ball may be outside of the box -/
noncomputable def AABB3.slack (u : ℝ) (b : AABB3 ℝ) : Vec3 ℝ :=
  ⟨4.1 * u * (|b.mid.x| + (b.sup.x - b.inf.x) / 2), 4.1 * u * (|b.mid.y| + (b.sup.y - b.inf.y) / 2),
    4.1 * u * (|b.mid.z| + (b.sup.z - b.inf.z) / 2)⟩
noncomputable def AABB2.slack (u : ℝ) (b : AABB2 ℝ) : Vec2 ℝ :=
  ⟨4.1 * u * (|b.mid.x| + (b.sup.x - b.inf.x) / 2), 4.1 * u * (|b.mid.y| + (b.sup.y - b.inf.y) / 2)⟩

/-- C170 asks that the ball is in the box up to relative errors of the radius, which is false (`C170_small`).  What holds for the
inner ball in floating point: the function succeeds, the radius is half of the shortest side up to rounding, and every
point of the ball is in the box up to rounding errors of the sizes of the corners. -/
theorem C170_innerSphere_partial (b : AABB3 ℝ) (hb : b.Valid) : ∃ (c : Vec3 ℝ) (r : ℝ), (b.num : AABB3 (Fl ℝ rnd)).innerSphere = .ok (Sphere.mk c r).num ∧
    (∃ s, b.innerSphere = .ok s ∧ |r - s.radius| ≤ 4.1 * u * s.radius) ∧ (Sphere.mk c r).toSet ⊆ (b.wide (b.slack u)).toSet := by
  obtain ⟨c, E, ⟨ec, cx, cy, cz⟩, eE, Ex, Ey, Ez⟩ := parts3 hr b
  obtain ⟨m, em, hm, m1, m2, m3⟩ := num_minor3 (rnd := rnd) E
  obtain ⟨s, es, sc, s0, ss, ⟨pt, hpt, hside⟩, smax⟩ := C71_innerSphere b hb
  obtain ⟨v1, v2, v3⟩ := hb
  obtain ⟨X1, X2⟩ := side hr hu Ex (by linarith)
  obtain ⟨Y1, Y2⟩ := side hr hu Ey (by linarith)
  obtain ⟨Z1, Z2⟩ := side hr hu Ez (by linarith)
  obtain ⟨p1, p2, p3⟩ := Sphere.coord_le hpt
  obtain ⟨a1, -, a2, -, a3, -⟩ := s.axis_mem s0
  have b1 := (ss a1).1.2
  have b2 := (ss a2).2.1.2
  have b3 := (ss a3).2.2.2
  rw [sc] at p1 p2 p3
  simp only [sc] at b1 b2 b3
  simp only [AABB3.mid] at p1 p2 p3 b1 b2 b3
  have hu1 : 0 ≤ 1 - 4.1 * u := by linarith
  have h0 := hr.nonneg
  refine ⟨c, |m|, ?_, ⟨s, es, ?_⟩, fun p hp => ?_⟩
  · simp only [AABB3.innerSphere, AABB3.num, eE, em, bind, Except.bind, ec, abs_num]; rfl
  · have lo : (1 - 4.1 * u) * s.radius ≤ |m| := by
      rcases hm with rfl | rfl | rfl
      · exact (mul_le_mul_of_nonneg_left (by linarith) hu1).trans X1
      · exact (mul_le_mul_of_nonneg_left (by linarith) hu1).trans Y1
      · exact (mul_le_mul_of_nonneg_left (by linarith) hu1).trans Z1
    have hi : |m| ≤ (1 + 4.1 * u) * s.radius := by
      rcases hside with h | h | h
      · refine (m1.trans X2).trans (mul_le_mul_of_nonneg_left ?_ (by linarith))
        rw [h] at p1; linarith [(abs_le.1 p1).2]
      · refine (m2.trans Y2).trans (mul_le_mul_of_nonneg_left ?_ (by linarith))
        rw [h] at p2; linarith [(abs_le.1 p2).2]
      · refine (m3.trans Z2).trans (mul_le_mul_of_nonneg_left ?_ (by linarith))
        rw [h] at p3; linarith [(abs_le.1 p3).2]
    rw [abs_le]; constructor <;> linarith
  · obtain ⟨d1, d2, d3⟩ := Sphere.coord_le hp
    exact ⟨coord hr hu (by simp only [AABB3.mid]; ring) (by simp only [AABB3.mid]; ring) d1 cx m1 X2,
      coord hr hu (by simp only [AABB3.mid]; ring) (by simp only [AABB3.mid]; ring) d2 cy m2 Y2,
      coord hr hu (by simp only [AABB3.mid]; ring) (by simp only [AABB3.mid]; ring) d3 cz m3 Z2⟩

/-- The same in the plane. -/
theorem C170_innerCircle_partial (b : AABB2 ℝ) (hb : b.Valid) : ∃ (c : Vec2 ℝ) (r : ℝ), (b.num : AABB2 (Fl ℝ rnd)).innerCircle = .ok (Circle.mk c r).num ∧
    (∃ s, b.innerCircle = .ok s ∧ |r - s.radius| ≤ 4.1 * u * s.radius) ∧ (Circle.mk c r).toSet ⊆ (b.wide (b.slack u)).toSet := by
  obtain ⟨c, E, ⟨ec, cx, cy⟩, eE, Ex, Ey⟩ := parts2 hr b
  obtain ⟨m, em, hm, m1, m2⟩ := num_minor2 (rnd := rnd) E
  obtain ⟨s, es, sc, s0, ss, ⟨pt, hpt, hside⟩, smax⟩ := C71_innerCircle b hb
  obtain ⟨v1, v2⟩ := hb
  obtain ⟨X1, X2⟩ := side hr hu Ex (by linarith)
  obtain ⟨Y1, Y2⟩ := side hr hu Ey (by linarith)
  obtain ⟨p1, p2⟩ := Circle.coord_le hpt
  obtain ⟨a1, -, a2, -⟩ := s.axis_mem s0
  have b1 := (ss a1).1.2
  have b2 := (ss a2).2.2
  rw [sc] at p1 p2
  simp only [sc] at b1 b2
  simp only [AABB2.mid] at p1 p2 b1 b2
  have hu1 : 0 ≤ 1 - 4.1 * u := by linarith
  have h0 := hr.nonneg
  refine ⟨c, |m|, ?_, ⟨s, es, ?_⟩, fun p hp => ?_⟩
  · simp only [AABB2.innerCircle, AABB2.center, AABB2.num, eE, em, bind, Except.bind, ec, abs_num]; rfl
  · have lo : (1 - 4.1 * u) * s.radius ≤ |m| := by
      rcases hm with rfl | rfl
      · exact (mul_le_mul_of_nonneg_left (by linarith) hu1).trans X1
      · exact (mul_le_mul_of_nonneg_left (by linarith) hu1).trans Y1
    have hi : |m| ≤ (1 + 4.1 * u) * s.radius := by
      rcases hside with h | h
      · refine (m1.trans X2).trans (mul_le_mul_of_nonneg_left ?_ (by linarith))
        rw [h] at p1; linarith [(abs_le.1 p1).2]
      · refine (m2.trans Y2).trans (mul_le_mul_of_nonneg_left ?_ (by linarith))
        rw [h] at p2; linarith [(abs_le.1 p2).2]
    rw [abs_le]; constructor <;> linarith
  · obtain ⟨d1, d2⟩ := Circle.coord_le hp
    exact ⟨coord hr hu (by simp only [AABB2.mid]; ring) (by simp only [AABB2.mid]; ring) d1 cx m1 X2,
      coord hr hu (by simp only [AABB2.mid]; ring) (by simp only [AABB2.mid]; ring) d2 cy m2 Y2⟩

end

/-- C170: in `float` the outer ball of a small box far from the origin misses most of it, and the inner ball is mostly outside: the
square of one unit in the last place at 1. -/
theorem C170_small :
    let b : AABB2 ℝ := ⟨⟨1, 1⟩, ⟨1 + 1 / 2 ^ 23, 1 + 1 / 2 ^ 23⟩⟩
    (b.num : AABB2 (Fl ℝ (rne 24))).innerCircle = .ok (Circle.mk ⟨1, 1⟩ (1 / 2 ^ 24)).num ∧
    (⟨1 - 1 / 2 ^ 24, 1⟩ : Vec2 ℝ) ∈ (Circle.mk ⟨1, 1⟩ (1 / 2 ^ 24)).toSet ∧ (⟨1 - 1 / 2 ^ 24, 1⟩ : Vec2 ℝ) ∉ b.toSet ∧
    ∃ r : ℝ, (b.num : AABB2 (Fl ℝ (rne 24))).outerCircle = (Circle.mk ⟨1, 1⟩ r).num ∧
      b.sup ∈ b.toSet ∧ 1.9 * r < dist b.sup.toE (⟨1, 1⟩ : Vec2 ℝ).toE := by
  intro b
  have r1 : rne 24 (1 : ℝ) = 1 := rne_of_rep (by norm_num) ⟨1, 0, by norm_num, by norm_num⟩
  have r2 : rne 24 (2 : ℝ) = 2 := rne_of_rep (by norm_num) ⟨2, 0, by norm_num, by norm_num⟩
  have rh : rne 24 (1 / 2 : ℝ) = 1 / 2 := rne_of_rep (by norm_num) ⟨1, -1, by norm_num, by norm_num⟩
  have s1 : rne 24 (1 + (1 + 1 / 2 ^ 23) : ℝ) = 2 := by
    rw [rne_tie (-22) (2 ^ 23) (by norm_num) (by norm_num) (by norm_num) (by rw [abs_le]; norm_num)]; norm_num
  have s2 : rne 24 (1 + 1 / 2 ^ 23 - 1 : ℝ) = 1 / 2 ^ 23 := by
    rw [add_sub_cancel_left]; exact rne_of_rep (by norm_num) ⟨1, -23, by norm_num, by norm_num⟩
  have s3 : rne 24 (1 / 2 ^ 23 * (1 / 2) : ℝ) = 1 / 2 ^ 24 := by
    rw [show (1 / 2 ^ 23 * (1 / 2) : ℝ) = 1 / 2 ^ 24 by norm_num]
    exact rne_of_rep (by norm_num) ⟨1, -24, by norm_num, by norm_num⟩
  have s4 : rne 24 (2 * (1 / 2) : ℝ) = 1 := by rw [show (2 * (1 / 2) : ℝ) = 1 by norm_num, r1]
  have hf : (1 / 2 : Fl ℝ (rne 24)) = .num (1 / 2) := by
    have : (2 : Fl ℝ (rne 24)) = .num 2 := by
      change Fl.num (rne 24 ((2 : ℕ) : ℝ)) = _
      rw [show ((2 : ℕ) : ℝ) = 2 by norm_num, r2]
    rw [this, Fl.one_def, Fl.num_div, if_neg (by norm_num), rh]
  have ec : (Vec2.num b.inf + Vec2.num b.sup : Vec2 (Fl ℝ (rne 24))) * (1 / 2 : Fl ℝ (rne 24)) = Vec2.num ⟨1, 1⟩ := by
    rw [hf, Vec2.ext_iff]
    simp only [b, Vec2.mul_x, Vec2.mul_y, Vec2.add_x, Vec2.add_y, Vec2.num, Fl.num_add, Fl.num_mul, s1, s4, and_self]
  have eE : (Vec2.num b.sup - Vec2.num b.inf : Vec2 (Fl ℝ (rne 24))) * (1 / 2 : Fl ℝ (rne 24)) = Vec2.num ⟨1 / 2 ^ 24, 1 / 2 ^ 24⟩ := by
    rw [hf, Vec2.ext_iff]
    simp only [b, Vec2.mul_x, Vec2.mul_y, Vec2.sub_x, Vec2.sub_y, Vec2.num, Fl.num_sub, Fl.num_mul, s2, s3, and_self]
  refine ⟨?_, ?_, ?_, ?_⟩
  · obtain ⟨m, em, hm, -⟩ := num_minor2 (rnd := rne 24) ⟨1 / 2 ^ 24, 1 / 2 ^ 24⟩
    have hm' : m = 1 / 2 ^ 24 := by rcases hm with h | h <;> exact h
    subst hm'
    simp only [AABB2.innerCircle, AABB2.center, AABB2.num, eE, em, bind, Except.bind, ec, abs_num, abs_of_pos (show (0 : ℝ) < 1 / 2 ^ 24 by norm_num)]
    rfl
  · show dist _ _ ≤ _
    rw [Vec2.dist_toE]
    simp only
    rw [Real.sqrt_le_left (by norm_num)]
    norm_num
  · intro h
    have := h.1.1
    simp only [b] at this
    norm_num at this
  · have q1 : rne 24 (1 / 2 ^ 24 * (1 / 2 ^ 24) : ℝ) = 1 / 2 ^ 48 := by
      rw [show (1 / 2 ^ 24 * (1 / 2 ^ 24) : ℝ) = 1 / 2 ^ 48 by norm_num]
      exact rne_of_rep (by norm_num) ⟨1, -48, by norm_num, by norm_num⟩
    have q2 : rne 24 (1 / 2 ^ 48 + 1 / 2 ^ 48 : ℝ) = 1 / 2 ^ 47 := by
      rw [show (1 / 2 ^ 48 + 1 / 2 ^ 48 : ℝ) = 1 / 2 ^ 47 by norm_num]
      exact rne_of_rep (by norm_num) ⟨1, -47, by norm_num, by norm_num⟩
    have hl : (Vec2.num ⟨1 / 2 ^ 24, 1 / 2 ^ 24⟩ : Vec2 (Fl ℝ (rne 24))).length = .num (rne 24 √(1 / 2 ^ 47)) := by
      simp only [Vec2.length, Vec2.num, Fl.num_mul, Fl.num_add, q1, q2]
      show (if (1 / 2 ^ 47 : ℝ) < 0 then Fl.nan else .num (rne 24 (√(1 / 2 ^ 47)))) = _
      rw [if_neg (by norm_num)]
    refine ⟨rne 24 √(1 / 2 ^ 47), ?_, ?_, ?_⟩
    · simp only [AABB2.outerCircle, AABB2.center, AABB2.num, Circle.num, ec, eE, hl]
    · simp only [b, AABB2.toSet, Set.mem_ofPred_eq]; norm_num
    · have k := (abs_le.1 ((isRel_rne 24 (by norm_num)).err √(1 / 2 ^ 47))).2
      have h2 : dist b.sup.toE (⟨1, 1⟩ : Vec2 ℝ).toE = 2 * √(1 / 2 ^ 47) := by
        rw [Vec2.dist_toE, two_sqrt]; congr 1; simp only [b]; norm_num
      have pos : 0 < √(1 / 2 ^ 47 : ℝ) := Real.sqrt_pos.2 (by norm_num)
      rw [h2]
      rw [abs_of_pos pos] at k
      generalize √(1 / 2 ^ 47 : ℝ) = t at *
      norm_num at k ⊢
      linarith

/-- The hypotheses hold for every box with its corners in order: the unit cube. -/
example : ∃ (c : Vec3 ℝ) (r : ℝ), ((⟨⟨-1, -1, -1⟩, ⟨1, 1, 1⟩⟩ : AABB3 ℝ).num : AABB3 (Fl ℝ (rne 24))).outerSphere = (Sphere.mk c r).num ∧
    ∀ p ∈ (⟨⟨-1, -1, -1⟩, ⟨1, 1, 1⟩⟩ : AABB3 ℝ).toSet, dist p.toE c.toE ≤ (1 + 7.2 * 2 ^ (-(24 : ℕ) : ℤ)) * r := by
  obtain ⟨c, r, h1, -, -, h2⟩ := C170_outerSphere_partial (isRel_rne 24 (by norm_num)) (by norm_num)
    (⟨⟨-1, -1, -1⟩, ⟨1, 1, 1⟩⟩ : AABB3 ℝ) ⟨by norm_num, by norm_num, by norm_num⟩
  refine ⟨c, r, h1, fun p hp => (h2 p hp).trans (le_of_eq ?_)⟩
  have : (⟨⟨-1, -1, -1⟩, ⟨1, 1, 1⟩⟩ : AABB3 ℝ).mid = ⟨0, 0, 0⟩ := by
    simp only [AABB3.mid]; norm_num
  rw [this, ← nm_eq, show nm (⟨0, 0, 0⟩ : Vec3 ℝ) = 0 by simp [nm]]
  ring

end MathLib
