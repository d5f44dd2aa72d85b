import Verif.Proof.BallLine
import Verif.Proof.RneNearest
import Verif.Props.Balls
import Verif.Props.RoundedPlanes
import Verif.Props.RoundedVectors

/-! # Property C165: balls and segments in floating point -/

namespace MathLib
variable {rnd : ℝ → ℝ} {u : ℝ}
open BallLine PlaneErr

/-- balls whose components are numbers -/
def Sphere.num (s : Sphere ℝ) : Sphere (Fl ℝ rnd) := ⟨Vec3.num s.center, .num s.radius⟩
def Circle.num (s : Circle ℝ) : Circle (Fl ℝ rnd) := ⟨Vec2.num s.center, .num s.radius⟩

/-- Cauchy's inequality for the sums of absolute values -/
private theorem cauchy3 (a b c d e f : ℝ) :
    |a * d| + |b * e| + |c * f| ≤ √(a ^ 2 + b ^ 2 + c ^ 2) * √(d ^ 2 + e ^ 2 + f ^ 2) := by
  rw [← Real.sqrt_mul (by positivity), abs_mul, abs_mul, abs_mul]
  apply Real.le_sqrt_of_sq_le
  rw [← sq_abs a, ← sq_abs b, ← sq_abs c, ← sq_abs d, ← sq_abs e, ← sq_abs f]
  nlinarith [sq_nonneg (|a| * |e| - |b| * |d|), sq_nonneg (|a| * |f| - |c| * |d|), sq_nonneg (|b| * |f| - |c| * |e|)]

private theorem prod (hr : IsRel rnd u) (a b c d : ℝ) : AbsErr u 3 |(a - b) * (c - d)| ((a - b) * (c - d))
    ((.num a - .num b) * (.num c - .num d) : Fl ℝ rnd) :=
  AbsErr.of_rel hr (Rel.mul hr (Rel.sub hr a b) (Rel.sub hr c d))

private theorem square (hr : IsRel rnd u) (a b : ℝ) : Rel u 3 ((a - b) * (a - b))
    ((.num a - .num b) * (.num a - .num b) : Fl ℝ rnd) := Rel.mul hr (Rel.sub hr a b) (Rel.sub hr a b)

/-- the point at a parameter between 0 and 1 -/
private theorem point (hr : IsRel rnd u) (hu : u ≤ 1 / 4096) {t : ℝ} (h0 : 0 ≤ t) (h1 : t ≤ 1) (a b : ℝ) :
    ∃ q : ℝ, (.num a + (.num b - .num a) * .num t : Fl ℝ rnd) = .num q ∧ |q - (a + (b - a) * t)| ≤ 6.1 * u * (|a| + |b|) := by
  obtain ⟨-, q, e, hq⟩ := lerp_err hr a b t
  refine ⟨q, e, hq.trans ?_⟩
  obtain ⟨g1, g2⟩ := PlaneErr.gam_small hr.nonneg hu 3 (by norm_num)
  norm_num at g1
  rw [abs_of_nonneg h0]
  have k : |a| + (|b| + |a|) * t ≤ 2 * (|a| + |b|) := by
    have := mul_le_mul_of_nonneg_left h1 (add_nonneg (abs_nonneg b) (abs_nonneg a))
    linarith [abs_nonneg b]
  have k0 : 0 ≤ |a| + |b| := by positivity
  calc gam u 3 * (|a| + (|b| + |a|) * t) ≤ gam u 3 * (2 * (|a| + |b|)) := mul_le_mul_of_nonneg_left k g2
    _ ≤ 3.05 * u * (2 * (|a| + |b|)) := mul_le_mul_of_nonneg_right (by linarith [hr.nonneg]) (by linarith)
    _ = _ := by ring

section
variable {R : Type} [Zero R] [One R] [Add R] [Sub R] [Mul R] [Div R] [Neg R] [LT R] [DecidableLT R] [BEq R] [MathFns R]
/-- the tests in terms of the three products -/
private theorem sphere_run (s : Sphere R) (l : Line3 R) : s.intersectsLineHit l =
    (run (l.end - l.start).lengthSqr (l.start - s.center).lengthSqr ((l.end - l.start).dot (l.start - s.center)) s.radius).map
      (fun x => (l.pointAt x, x)) := by
  simp only [Sphere.intersectsLineHit, run]
  split_ifs <;> rfl
private theorem circle_run (s : Circle R) (l : Line3 R) : s.intersectsLine l =
    (run (Circle.drop (l.end - l.start)).lengthSqr (Circle.drop l.start - s.center).lengthSqr
      ((Circle.drop (l.end - l.start)).dot (Circle.drop l.start - s.center)) s.radius).map
      (fun x => (Circle.drop (l.pointAt x), x)) := by
  simp only [Circle.intersectsLine, run]
  split_ifs <;> rfl
private theorem sphere_bool (s : Sphere R) (l : Line3 R) : s.intersectsLine l = (s.intersectsLineHit l).isSome := by
  simp only [Sphere.intersectsLine, Sphere.intersectsLineHit]
  split_ifs <;> rfl
end

/-- C165: a segment against a sphere.  Let `g` be the distance of the start from the centre.  A reported hit has a
parameter `t` in `[0, 1]`; the point given is the point of the segment at `t` up to three roundings; the squared distance
of that point from the centre differs from the squared radius by at most `70 u (g² + r²)`; and it is on the side of the
sphere where the segment enters.  A hit is reported if the start is outside and some point of the segment inside by more than
that, and none if the start is inside by more than that. -/
theorem C165_sphere (hr : IsRel rnd u) (hu : u ≤ 1 / 4096) (s : Sphere ℝ) (l : Line3 ℝ) :
    let g := dist l.start.toE s.center.toE
    let m := 70 * u * (g ^ 2 + s.radius ^ 2)
    (∀ h, (Sphere.num s : Sphere (Fl ℝ rnd)).intersectsLineHit (Line3.num l) = some h →
      ∃ (t : ℝ) (q : Vec3 ℝ), h = (Vec3.num q, .num t) ∧ 0 ≤ t ∧ t ≤ 1 ∧ l.NearAt u t q ∧ l.start ≠ l.end ∧
        |dist (l.pointAt t).toE s.center.toE ^ 2 - s.radius ^ 2| ≤ m ∧
        (l.end - l.start).dot (l.pointAt t - s.center) ≤
          20 * u * (dist l.end.toE l.start.toE * √(g ^ 2 + s.radius ^ 2))) ∧
    (s.radius ^ 2 + m < g ^ 2 →
      (∃ t, 0 ≤ t ∧ t ≤ 1 ∧ dist (l.pointAt t).toE s.center.toE ^ 2 < s.radius ^ 2 - m) →
      ∃ h, (Sphere.num s : Sphere (Fl ℝ rnd)).intersectsLineHit (Line3.num l) = some h) ∧
    (g ^ 2 < s.radius ^ 2 - m → (Sphere.num s : Sphere (Fl ℝ rnd)).intersectsLineHit (Line3.num l) = none) ∧
    (Sphere.num s : Sphere (Fl ℝ rnd)).intersectsLine (Line3.num l) =
      ((Sphere.num s : Sphere (Fl ℝ rnd)).intersectsLineHit (Line3.num l)).isSome := by
  obtain ⟨⟨cx, cy, cz⟩, r⟩ := s
  obtain ⟨⟨ax, ay, az⟩, ⟨bx, by', bz⟩⟩ := l
  intro g m
  have eg : g = √((ax - cx) ^ 2 + (ay - cy) ^ 2 + (az - cz) ^ 2) := Vec3.dist_toE _ _
  obtain ⟨f, ef⟩ : ∃ f, f = √((bx - ax) ^ 2 + (by' - ay) ^ 2 + (bz - az) ^ 2) := ⟨_, rfl⟩
  have eg2 : g ^ 2 = (ax - cx) ^ 2 + (ay - cy) ^ 2 + (az - cz) ^ 2 := by rw [eg, Real.sq_sqrt (by positivity)]
  have ef2 : f ^ 2 = (bx - ax) ^ 2 + (by' - ay) ^ 2 + (bz - az) ^ 2 := by rw [ef, Real.sq_sqrt (by positivity)]
  have efd : dist (⟨bx, by', bz⟩ : Vec3 ℝ).toE (⟨ax, ay, az⟩ : Vec3 ℝ).toE = f := by rw [Vec3.dist_toE, ef]
  obtain ⟨B, eB⟩ : ∃ B, B = (bx - ax) * (ax - cx) + (by' - ay) * (ay - cy) + (bz - az) * (az - cz) := ⟨_, rfl⟩
  have quad : ∀ t, dist ((⟨⟨ax, ay, az⟩, ⟨bx, by', bz⟩⟩ : Line3 ℝ).pointAt t).toE (⟨cx, cy, cz⟩ : Vec3 ℝ).toE ^ 2 =
      f ^ 2 * t ^ 2 + 2 * B * t + g ^ 2 := by
    intro t
    rw [Vec3.dist_toE, Real.sq_sqrt (by positivity), ef2, eg2, eB]
    simp only [Line3.pointAt, lerpVec3]
    ring
  have ha : Rel u 5 (f ^ 2) ((Line3.num ⟨⟨ax, ay, az⟩, ⟨bx, by', bz⟩⟩ : Line3 (Fl ℝ rnd)).end -
      (Line3.num ⟨⟨ax, ay, az⟩, ⟨bx, by', bz⟩⟩ : Line3 (Fl ℝ rnd)).start).lengthSqr := by
    rw [ef2, sq, sq, sq]
    exact Rel.add hr (Rel.add hr (square hr _ _) (square hr _ _) (mul_self_nonneg _) (mul_self_nonneg _) (k := 4))
      (square hr _ _) (add_nonneg (mul_self_nonneg _) (mul_self_nonneg _)) (mul_self_nonneg _)
  have hc : Rel u 5 (g ^ 2) ((Line3.num ⟨⟨ax, ay, az⟩, ⟨bx, by', bz⟩⟩ : Line3 (Fl ℝ rnd)).start -
      (Sphere.num ⟨⟨cx, cy, cz⟩, r⟩ : Sphere (Fl ℝ rnd)).center).lengthSqr := by
    rw [eg2, sq, sq, sq]
    exact Rel.add hr (Rel.add hr (square hr _ _) (square hr _ _) (mul_self_nonneg _) (mul_self_nonneg _) (k := 4))
      (square hr _ _) (add_nonneg (mul_self_nonneg _) (mul_self_nonneg _)) (mul_self_nonneg _)
  have hp : AbsErr u 5 (f * g) B (((Line3.num ⟨⟨ax, ay, az⟩, ⟨bx, by', bz⟩⟩ : Line3 (Fl ℝ rnd)).end -
      (Line3.num ⟨⟨ax, ay, az⟩, ⟨bx, by', bz⟩⟩ : Line3 (Fl ℝ rnd)).start).dot
      ((Line3.num ⟨⟨ax, ay, az⟩, ⟨bx, by', bz⟩⟩ : Line3 (Fl ℝ rnd)).start -
      (Sphere.num ⟨⟨cx, cy, cz⟩, r⟩ : Sphere (Fl ℝ rnd)).center)) := by
    rw [eB]
    refine (AbsErr.add (k := 5) hr (AbsErr.add (k := 4) hr (prod hr _ _ _ _) (prod hr _ _ _ _)) (prod hr _ _ _ _)).mono hr le_rfl ?_
    rw [ef, eg]
    exact cauchy3 _ _ _ _ _ _
  obtain ⟨k1, k2, k3⟩ := run_spec (r := r) hr hu (ef ▸ Real.sqrt_nonneg _) (eg ▸ Real.sqrt_nonneg _) ha
    ((AbsErr.of_rel hr hc).mono hr le_rfl (le_of_eq (abs_of_nonneg (sq_nonneg g)))) hp
  have e := sphere_run (Sphere.num ⟨⟨cx, cy, cz⟩, r⟩ : Sphere (Fl ℝ rnd)) (Line3.num ⟨⟨ax, ay, az⟩, ⟨bx, by', bz⟩⟩)
  refine ⟨fun h hh => ?_, fun h1 h2 => ?_, fun h1 => ?_, ?_⟩
  · rw [e] at hh
    obtain ⟨x, hx, rfl⟩ := Option.map_eq_some_iff.1 hh
    obtain ⟨t, rfl, t0, t1, hf, hq, hs⟩ := k1 x hx
    obtain ⟨q1, e1, hq1⟩ := point (rnd := rnd) hr hu t0 t1 ax bx
    obtain ⟨q2, e2, hq2⟩ := point (rnd := rnd) hr hu t0 t1 ay by'
    obtain ⟨q3, e3, hq3⟩ := point (rnd := rnd) hr hu t0 t1 az bz
    refine ⟨t, ⟨q1, q2, q3⟩, ?_, t0, t1, ⟨hq1, hq2, hq3⟩, ?_, ?_, ?_⟩
    · have : (Vec3.num ⟨q1, q2, q3⟩ : Vec3 (Fl ℝ rnd)) = ⟨.num q1, .num q2, .num q3⟩ := rfl
      rw [this, ← e1, ← e2, ← e3]; rfl
    · rintro h
      simp only [Vec3.mk.injEq] at h
      obtain ⟨rfl, rfl, rfl⟩ := h
      simp [ef] at hf
    · rw [quad]; exact hq
    · rw [efd]
      refine le_of_eq_of_le ?_ hs
      rw [ef2, eB]
      simp only [Line3.pointAt, lerpVec3, Vec3.dot, Vec3.sub_x, Vec3.sub_y, Vec3.sub_z]
      ring
  · obtain ⟨t, t0, t1, ht⟩ := h2
    rw [quad] at ht
    obtain ⟨x, hx⟩ := k2 t h1 t0 t1 ht
    exact ⟨_, e.trans (congrArg _ hx)⟩
  · exact e.trans (congrArg _ (k3 h1))
  · exact sphere_bool _ _

/-- C165: a segment against a circle, in the plane z = 0. -/
theorem C165_circle (hr : IsRel rnd u) (hu : u ≤ 1 / 4096) (s : Circle ℝ) (l : Line3 ℝ) :
    let g := dist (⟨l.start.x, l.start.y⟩ : Vec2 ℝ).toE s.center.toE
    let m := 70 * u * (g ^ 2 + s.radius ^ 2)
    let P := fun t : ℝ => (⟨l.start.x + (l.end.x - l.start.x) * t, l.start.y + (l.end.y - l.start.y) * t⟩ : Vec2 ℝ)
    (∀ h, (Circle.num s : Circle (Fl ℝ rnd)).intersectsLine (Line3.num l) = some h →
      ∃ (t : ℝ) (q : Vec2 ℝ), h = (Vec2.num q, .num t) ∧ 0 ≤ t ∧ t ≤ 1 ∧
        |q.x - (P t).x| ≤ 6.1 * u * (|l.start.x| + |l.end.x|) ∧ |q.y - (P t).y| ≤ 6.1 * u * (|l.start.y| + |l.end.y|) ∧
        P 0 ≠ P 1 ∧ |dist (P t).toE s.center.toE ^ 2 - s.radius ^ 2| ≤ m ∧
        (P 1 - P 0).dot (P t - s.center) ≤ 20 * u * (dist (P 1).toE (P 0).toE * √(g ^ 2 + s.radius ^ 2))) ∧
    (s.radius ^ 2 + m < g ^ 2 →
      (∃ t, 0 ≤ t ∧ t ≤ 1 ∧ dist (P t).toE s.center.toE ^ 2 < s.radius ^ 2 - m) →
      ∃ h, (Circle.num s : Circle (Fl ℝ rnd)).intersectsLine (Line3.num l) = some h) ∧
    (g ^ 2 < s.radius ^ 2 - m → (Circle.num s : Circle (Fl ℝ rnd)).intersectsLine (Line3.num l) = none) := by
  obtain ⟨⟨cx, cy⟩, r⟩ := s
  obtain ⟨⟨ax, ay, az⟩, ⟨bx, by', bz⟩⟩ := l
  intro g m P
  have eg : g = √((ax - cx) ^ 2 + (ay - cy) ^ 2) := Vec2.dist_toE _ _
  obtain ⟨f, ef⟩ : ∃ f, f = √((bx - ax) ^ 2 + (by' - ay) ^ 2) := ⟨_, rfl⟩
  have eg2 : g ^ 2 = (ax - cx) ^ 2 + (ay - cy) ^ 2 := by rw [eg, Real.sq_sqrt (by positivity)]
  have ef2 : f ^ 2 = (bx - ax) ^ 2 + (by' - ay) ^ 2 := by rw [ef, Real.sq_sqrt (by positivity)]
  have efd : dist (P 1).toE (P 0).toE = f := by
    rw [Vec2.dist_toE, ef]; congr 1; simp only [P]; ring
  obtain ⟨B, eB⟩ : ∃ B, B = (bx - ax) * (ax - cx) + (by' - ay) * (ay - cy) := ⟨_, rfl⟩
  have quad : ∀ t, dist (P t).toE (⟨cx, cy⟩ : Vec2 ℝ).toE ^ 2 = f ^ 2 * t ^ 2 + 2 * B * t + g ^ 2 := by
    intro t
    rw [Vec2.dist_toE, Real.sq_sqrt (by positivity), ef2, eg2, eB]
    simp only [P]
    ring
  have ha : Rel u 5 (f ^ 2) (Circle.drop ((Line3.num ⟨⟨ax, ay, az⟩, ⟨bx, by', bz⟩⟩ : Line3 (Fl ℝ rnd)).end -
      (Line3.num ⟨⟨ax, ay, az⟩, ⟨bx, by', bz⟩⟩ : Line3 (Fl ℝ rnd)).start)).lengthSqr := by
    rw [ef2, sq, sq]
    exact Rel.add hr (square hr _ _) (square hr _ _) (mul_self_nonneg _) (mul_self_nonneg _)
  have hc : Rel u 5 (g ^ 2) (Circle.drop (Line3.num ⟨⟨ax, ay, az⟩, ⟨bx, by', bz⟩⟩ : Line3 (Fl ℝ rnd)).start -
      (Circle.num ⟨⟨cx, cy⟩, r⟩ : Circle (Fl ℝ rnd)).center).lengthSqr := by
    rw [eg2, sq, sq]
    exact Rel.add hr (square hr _ _) (square hr _ _) (mul_self_nonneg _) (mul_self_nonneg _)
  have hp : AbsErr u 5 (f * g) B ((Circle.drop ((Line3.num ⟨⟨ax, ay, az⟩, ⟨bx, by', bz⟩⟩ : Line3 (Fl ℝ rnd)).end -
      (Line3.num ⟨⟨ax, ay, az⟩, ⟨bx, by', bz⟩⟩ : Line3 (Fl ℝ rnd)).start)).dot
      (Circle.drop (Line3.num ⟨⟨ax, ay, az⟩, ⟨bx, by', bz⟩⟩ : Line3 (Fl ℝ rnd)).start -
      (Circle.num ⟨⟨cx, cy⟩, r⟩ : Circle (Fl ℝ rnd)).center)) := by
    rw [eB]
    refine (AbsErr.add (k := 5) hr (prod hr _ _ _ _) (prod hr _ _ _ _)).mono hr le_rfl ?_
    have := cauchy3 (bx - ax) (by' - ay) 0 (ax - cx) (ay - cy) 0
    rw [ef, eg]
    simpa using this
  obtain ⟨k1, k2, k3⟩ := run_spec (r := r) hr hu (ef ▸ Real.sqrt_nonneg _) (eg ▸ Real.sqrt_nonneg _) ha
    ((AbsErr.of_rel hr hc).mono hr le_rfl (le_of_eq (abs_of_nonneg (sq_nonneg g)))) hp
  have e := circle_run (Circle.num ⟨⟨cx, cy⟩, r⟩ : Circle (Fl ℝ rnd)) (Line3.num ⟨⟨ax, ay, az⟩, ⟨bx, by', bz⟩⟩)
  refine ⟨fun h hh => ?_, fun h1 h2 => ?_, fun h1 => ?_⟩
  · rw [e] at hh
    obtain ⟨x, hx, rfl⟩ := Option.map_eq_some_iff.1 hh
    obtain ⟨t, rfl, t0, t1, hf, hq, hs⟩ := k1 x hx
    obtain ⟨q1, e1, hq1⟩ := point (rnd := rnd) hr hu t0 t1 ax bx
    obtain ⟨q2, e2, hq2⟩ := point (rnd := rnd) hr hu t0 t1 ay by'
    refine ⟨t, ⟨q1, q2⟩, ?_, t0, t1, hq1, hq2, ?_, ?_, ?_⟩
    · have : (Vec2.num ⟨q1, q2⟩ : Vec2 (Fl ℝ rnd)) = ⟨.num q1, .num q2⟩ := rfl
      rw [this, ← e1, ← e2]; rfl
    · intro h
      rw [← efd, h, dist_self] at hf
      exact lt_irrefl _ hf
    · rw [quad]; exact hq
    · rw [efd]
      refine le_of_eq_of_le ?_ hs
      rw [ef2, eB]
      simp only [P, Vec2.dot, Vec2.sub_x, Vec2.sub_y]
      ring
  · obtain ⟨t, t0, t1, ht⟩ := h2
    rw [quad] at ht
    obtain ⟨x, hx⟩ := k2 t h1 t0 t1 ht
    exact ⟨_, e.trans (congrArg _ hx)⟩
  · exact e.trans (congrArg _ (k3 h1))

/-- C165: the error is relative to the distance of the start, not to the radius.  In `float` a segment that passes the unit
sphere at a distance of 3/2 is reported to hit it, at the point (0, 3/2, 0). -/
theorem C165_far :
    (Sphere.num ⟨⟨0, 0, 0⟩, 1⟩ : Sphere (Fl ℝ (rne 24))).intersectsLineHit
      (Line3.num ⟨⟨-8192, 3 / 2, 0⟩, ⟨8192, 3 / 2, 0⟩⟩) = some (Vec3.num ⟨0, 3 / 2, 0⟩, .num (1 / 2)) ∧
    ∀ t : ℝ, 3 / 2 ≤ dist ((⟨⟨-8192, 3 / 2, 0⟩, ⟨8192, 3 / 2, 0⟩⟩ : Line3 ℝ).pointAt t).toE (⟨0, 0, 0⟩ : Vec3 ℝ).toE := by
  have z (e : ℤ) : rne 24 ((2 : ℝ) ^ e) = 2 ^ e := rne_of_rep (by norm_num) (Rep.zpow e)
  have z' (e : ℤ) : rne 24 (-(2 : ℝ) ^ e) = -2 ^ e := rne_of_rep (by norm_num) (Rep.zpow e).neg
  have r0 : rne 24 (0 : ℝ) = 0 := rne_of_rep (by norm_num) (Rep.zero _)
  have r1 := z 0
  have r13 := z 13
  have r13' := z' 13
  have r14 := z 14
  have r28 := z 28
  have r26 := z 26
  have r27 := z 27
  have r27' := z' 27
  have r54 := z 54
  have rh := z (-1)
  have r15 : rne 24 (3 / 2 : ℝ) = 3 / 2 := rne_of_rep (by norm_num) ⟨3, -1, by norm_num, by norm_num⟩
  have r225 : rne 24 (9 / 4 : ℝ) = 9 / 4 := rne_of_rep (by norm_num) ⟨9, -2, by norm_num, by norm_num⟩
  have ra : rne 24 (67108864 + 9 / 4 : ℝ) = 67108864 := by
    rw [rne_eq 3 (2 ^ 23) (by norm_num) (by norm_num) (by rw [abs_lt]; norm_num)]; norm_num
  have rb : rne 24 (67108863 : ℝ) = 67108864 := by
    rw [rne_eq 2 (2 ^ 24) (by norm_num) (by norm_num) (by rw [abs_lt]; norm_num)]; norm_num
  norm_num at r1 r13 r13' r14 r28 r26 r27 r27' r54 rh ra
  constructor
  · have e1 : ((Line3.num ⟨⟨-8192, 3 / 2, 0⟩, ⟨8192, 3 / 2, 0⟩⟩ : Line3 (Fl ℝ (rne 24))).end -
        (Line3.num ⟨⟨-8192, 3 / 2, 0⟩, ⟨8192, 3 / 2, 0⟩⟩ : Line3 (Fl ℝ (rne 24))).start) = Vec3.num ⟨16384, 0, 0⟩ := by
      rw [Vec3.ext_iff]
      refine ⟨?_, ?_, ?_⟩ <;> simp only [Vec3.sub_x, Vec3.sub_y, Vec3.sub_z, Line3.num, Vec3.num, Fl.num_sub] <;>
        norm_num [r14, r0]
    have e2 : ((Line3.num ⟨⟨-8192, 3 / 2, 0⟩, ⟨8192, 3 / 2, 0⟩⟩ : Line3 (Fl ℝ (rne 24))).start -
        (Sphere.num ⟨⟨0, 0, 0⟩, 1⟩ : Sphere (Fl ℝ (rne 24))).center) = Vec3.num ⟨-8192, 3 / 2, 0⟩ := by
      rw [Vec3.ext_iff]
      refine ⟨?_, ?_, ?_⟩ <;> simp only [Vec3.sub_x, Vec3.sub_y, Vec3.sub_z, Line3.num, Sphere.num, Vec3.num, Fl.num_sub] <;>
        norm_num [r13', r15, r0]
    have e3 : (Vec3.num ⟨16384, 0, 0⟩ : Vec3 (Fl ℝ (rne 24))).lengthSqr = .num 268435456 := by
      simp only [Vec3.lengthSqr, Vec3.num, Fl.num_mul, Fl.num_add]
      norm_num [r28, r0]
    have e4 : (Vec3.num ⟨-8192, 3 / 2, 0⟩ : Vec3 (Fl ℝ (rne 24))).lengthSqr = .num 67108864 := by
      simp only [Vec3.lengthSqr, Vec3.num, Fl.num_mul, Fl.num_add]
      norm_num [r26, r225, r0, ra]
    have e5 : (Vec3.num ⟨16384, 0, 0⟩ : Vec3 (Fl ℝ (rne 24))).dot (Vec3.num ⟨-8192, 3 / 2, 0⟩) = .num (-134217728) := by
      simp only [Vec3.dot, Vec3.num, Fl.num_mul, Fl.num_add]
      norm_num [r27', r0]
    have e6 : MathFns.sqrt (.num 0 : Fl ℝ (rne 24)) = .num 0 := by
      have : MathFns.sqrt (.num 0 : Fl ℝ (rne 24)) = .num (rne 24 √0) := if_neg (lt_irrefl _)
      rw [this, Real.sqrt_zero, r0]
    have e7 : run (.num 268435456 : Fl ℝ (rne 24)) (.num 67108864) (.num (-134217728)) (.num 1) = some (.num (1 / 2)) := by
      have d : (.num (-134217728) * .num (-134217728) - .num 268435456 * (.num 67108864 - .num 1 * .num 1) : Fl ℝ (rne 24)) =
          .num 0 := by
        simp only [Fl.num_mul, Fl.num_sub]
        norm_num [r1, rb, r54, r0]
      rw [run, d, e6]
      simp only [Fl.num_neg, Fl.num_sub, Fl.num_div, Fl.zero_def, Fl.one_def, Fl.num_lt, gt_iff_lt, Fl.num_beq]
      norm_num [r27, rh]
    rw [sphere_run, e1, e2, e3, e4, e5]
    refine (congrArg _ e7).trans ?_
    simp only [Option.map_some, Line3.pointAt, lerpVec3, Line3.num, Vec3.num, Fl.num_sub, Fl.num_mul, Fl.num_add]
    norm_num [r14, r13, r15, r0]
  · intro t
    rw [Vec3.dist_toE]
    apply Real.le_sqrt_of_sq_le
    simp only [Line3.pointAt, lerpVec3]
    nlinarith [sq_nonneg (-8192 + (8192 - -8192) * t - 0)]

/-- the bounds in `float`, for a ball of radius 2 hit from a distance of 5 along a segment that is not parallel to an axis -/
example : ∃ h, (Sphere.num ⟨⟨0, 0, 0⟩, 2⟩ : Sphere (Fl ℝ (rne 24))).intersectsLineHit (Line3.num ⟨⟨3, 4, 0⟩, ⟨-3, -4, 1⟩⟩) = some h := by
  refine (C165_sphere (isRel_rne 24 (by norm_num)) (by norm_num) ⟨⟨0, 0, 0⟩, 2⟩ ⟨⟨3, 4, 0⟩, ⟨-3, -4, 1⟩⟩).2.1 ?_ ⟨1 / 2, by norm_num, by norm_num, ?_⟩
  · rw [Vec3.dist_toE, Real.sq_sqrt (by positivity)]; norm_num
  · rw [Vec3.dist_toE, Vec3.dist_toE, Real.sq_sqrt (by positivity), Real.sq_sqrt (by positivity)]
    norm_num [Line3.pointAt, lerpVec3]

/-- from inside nothing is reported -/
example : (Sphere.num ⟨⟨0, 0, 0⟩, 2⟩ : Sphere (Fl ℝ (rne 24))).intersectsLineHit (Line3.num ⟨⟨1, 1, 0⟩, ⟨-3, -4, 1⟩⟩) = none := by
  refine (C165_sphere (isRel_rne 24 (by norm_num)) (by norm_num) ⟨⟨0, 0, 0⟩, 2⟩ ⟨⟨1, 1, 0⟩, ⟨-3, -4, 1⟩⟩).2.2.1 ?_
  rw [Vec3.dist_toE, Real.sq_sqrt (by positivity)]; norm_num

example : ∃ h, (Circle.num ⟨⟨0, 0⟩, 2⟩ : Circle (Fl ℝ (rne 24))).intersectsLine (Line3.num ⟨⟨3, 4, 7⟩, ⟨-3, -4, 1⟩⟩) = some h := by
  refine (C165_circle (isRel_rne 24 (by norm_num)) (by norm_num) ⟨⟨0, 0⟩, 2⟩ ⟨⟨3, 4, 7⟩, ⟨-3, -4, 1⟩⟩).2.1 ?_ ⟨1 / 2, by norm_num, by norm_num, ?_⟩
  · rw [Vec2.dist_toE, Real.sq_sqrt (by positivity)]; norm_num
  · rw [Vec2.dist_toE, Vec2.dist_toE, Real.sq_sqrt (by positivity), Real.sq_sqrt (by positivity)]
    norm_num

end MathLib
