import Verif.Proof.PlaneFit
import Verif.Proof.RneNearest

/-! # Property C168: planes through points and frusta in floating point -/

namespace MathLib
open LineDist PlaneFit
variable {rnd : ℝ → ℝ} {u : ℝ}

/-- the signed distance of `p` from the plane through `a`, `b`, `c` -/
noncomputable def faceDist (a b c p : Vec3 ℝ) : ℝ := side a b c p / ‖((b - a).cross (c - a)).toE‖
/-- how much smaller the triangle `a`, `b`, `c` is than one with the same sides and a right angle at `a`: the reciprocal of the
sine of that angle -/
noncomputable def skew (a b c : Vec3 ℝ) : ℝ := ‖(b - a).toE‖ * ‖(c - a).toE‖ / ‖((b - a).cross (c - a)).toE‖
/-- an error allowed at `p` for a plane through `a`: `k` units of the distance of the two, and of their sizes -/
noncomputable def faceTol (u k : ℝ) (a p : Vec3 ℝ) : ℝ := u * (k * ‖(p - a).toE‖ + 5 * ‖p.toE‖ + 8 * ‖a.toE‖)

theorem skew_ge {a b c : Vec3 ℝ} (h : (b - a).cross (c - a) ≠ ⟨0, 0, 0⟩) : 1 ≤ skew a b c := by
  have hp := nm_pos h
  unfold skew
  rw [← nm_eq, ← nm_eq, ← nm_eq, le_div_iff₀ hp, one_mul]
  exact cross_le _ _

section
variable (hr : IsRel rnd u) (hu : u ≤ 1 / 4096)
include hr hu

/-- the normal of the plane through three points -/
private theorem normal_near (a b c : Vec3 ℝ) (h : (b - a).cross (c - a) ≠ ⟨0, 0, 0⟩) : ∃ w : Vec3 ℝ,
    ((Vec3.num b - Vec3.num a : Vec3 (Fl ℝ rnd)).cross (Vec3.num c - Vec3.num a)).normalized 1 = Vec3.num w ∧
    nm (w - (b - a).cross (c - a) * (1 / nm ((b - a).cross (c - a)))) ≤ 15.2 * u * skew a b c ∧ nm w ≤ 1.002 := by
  have hp := nm_pos h
  obtain ⟨n, en, hn⟩ := normal_err hr hu a b c
  obtain ⟨w, ew, h1, h2⟩ := unit hr hu (n := n) hp
  refine ⟨w, by rw [en, ew], h1.trans ?_, h2⟩
  have q := div_le_div_of_nonneg_right hn hp.le
  have e : 5.04 * u * (nm (b - a) * nm (c - a)) / nm ((b - a).cross (c - a)) = 5.04 * (u * skew a b c) := by
    unfold skew
    rw [← nm_eq, ← nm_eq, ← nm_eq]; ring
  rw [e] at q
  have h0 := hr.nonneg
  have := mul_le_mul_of_nonneg_left (skew_ge h) hr.nonneg
  linarith

omit hr hu in
private theorem dot_face (a b c p : Vec3 ℝ) :
    ((b - a).cross (c - a) * (1 / nm ((b - a).cross (c - a)))).dot (p - a) = faceDist a b c p := by
  rw [faceDist, side, ← nm_eq]
  simp only [Vec3.dot, Vec3.mul_x, Vec3.mul_y, Vec3.mul_z]; ring

/-- C168: the plane through three points: the computed distance of any point from it is right up to rounding errors of the sizes
of the points and, for a triangle with a sharp or flat angle at the first point, a larger multiple of the distance from that
point. -/
theorem C168_plane (a b c p : Vec3 ℝ) (h : (b - a).cross (c - a) ≠ ⟨0, 0, 0⟩) :
    ((Plane.fromPoints (Vec3.num a) (Vec3.num b) (Vec3.num c) : Plane (Fl ℝ rnd)).distance (Vec3.num p)).Within
      (faceTol u (16 * skew a b c) a p) (faceDist a b c p) := by
  obtain ⟨w, ew, h1, h2⟩ := normal_near hr hu a b c h
  obtain ⟨v, ev, hv⟩ := planeDist hr hu (a := a) (p := p) ew h1 h2
  rw [dot_face] at hv
  refine ⟨v, ev, hv.trans ?_⟩
  unfold faceTol
  rw [← nm_eq, ← nm_eq, ← nm_eq]
  have q1 := mul_nonneg hr.nonneg (nm_nonneg p)
  have q2 := mul_nonneg hr.nonneg (nm_nonneg a)
  have q3 := mul_nonneg (mul_nonneg hr.nonneg (zero_le_one.trans (skew_ge h))) (nm_nonneg (p - a))
  linarith

/-- the plane opposite to the one through three points, through another one -/
theorem C168_opposite (a b c o p : Vec3 ℝ) (h : (b - a).cross (c - a) ≠ ⟨0, 0, 0⟩) :
    ((Plane.fromPoint (Vec3.num o) (-(Plane.fromPoints (Vec3.num a) (Vec3.num b) (Vec3.num c) : Plane (Fl ℝ rnd)).normal)).distance
      (Vec3.num p)).Within (faceTol u (36 * skew a b c) o p)
      (-((b - a).cross (c - a)).dot (p - o) / ‖((b - a).cross (c - a)).toE‖) := by
  obtain ⟨w, ew, h1, h2⟩ := normal_near hr hu a b c h
  have hp := nm_pos h
  set N := (b - a).cross (c - a) with hN
  have en : -(Plane.fromPoints (Vec3.num a) (Vec3.num b) (Vec3.num c) : Plane (Fl ℝ rnd)).normal = Vec3.num (-w) := by
    have : (Plane.fromPoints (Vec3.num a) (Vec3.num b) (Vec3.num c) : Plane (Fl ℝ rnd)).normal = Vec3.num w := ew
    rw [this]; rfl
  have m1 : nm (N * (-(1 / nm N))) = 1 := by
    rw [nm_smul, abs_neg, abs_of_pos (by positivity), mul_one_div_cancel hp.ne']
  obtain ⟨w', ew', h1', h2'⟩ := unit hr hu (N := N * (-(1 / nm N))) (n := -w) (by rw [m1]; norm_num)
  have e3 : nm (-w - N * (-(1 / nm N))) = nm (w - N * (1 / nm N)) := by
    rw [nm_neg w]; congr 1; ext <;> simp <;> ring
  rw [m1, e3] at h1'
  obtain ⟨v, ev, hv⟩ := planeDist hr hu (a := o) (p := p) ew' h1' h2'
  rw [en]
  refine ⟨v, ev, ?_⟩
  have e4 : (N * (-(1 / nm N)) * (1 / 1 : ℝ)).dot (p - o) = -N.dot (p - o) / ‖N.toE‖ := by
    rw [← nm_eq]
    simp only [Vec3.dot, Vec3.mul_x, Vec3.mul_y, Vec3.mul_z]; ring
  rw [e4] at hv
  refine hv.trans ?_
  unfold faceTol
  rw [← nm_eq, ← nm_eq, ← nm_eq]
  have q1 := mul_nonneg hr.nonneg (nm_nonneg p)
  have q2 := mul_nonneg hr.nonneg (nm_nonneg o)
  have q0 := mul_le_mul_of_nonneg_left (skew_ge h) hr.nonneg
  have q3 := mul_le_mul_of_nonneg_right (show 2 * (nm (w - N * (1 / nm N)) / 1) + 5.02 * u ≤ 36 * (u * skew a b c) by
    rw [div_one]; linarith [hr.nonneg]) (nm_nonneg (p - o))
  linarith
end

/-- the signed distance of `p` from the plane of a face of the frustum with the corners `c`: far, near, left, top, right and
bottom, as in the documentation of the class -/
noncomputable def frustumDist (c : Fin 8 → Vec3 ℝ) (p : Vec3 ℝ) : Fin 6 → ℝ
  | 0 => faceDist (c 4) (c 5) (c 6) p
  | 1 => -((c 5 - c 4).cross (c 6 - c 4)).dot (p - c 0) / ‖((c 5 - c 4).cross (c 6 - c 4)).toE‖
  | 2 => faceDist (c 3) (c 7) (c 6) p
  | 3 => faceDist (c 3) (c 4) (c 7) p
  | 4 => faceDist (c 1) (c 5) (c 4) p
  | 5 => faceDist (c 1) (c 6) (c 5) p
/-- the error allowed for it -/
noncomputable def frustumTol (u : ℝ) (c : Fin 8 → Vec3 ℝ) (p : Vec3 ℝ) : Fin 6 → ℝ
  | 0 => faceTol u (16 * skew (c 4) (c 5) (c 6)) (c 4) p
  | 1 => faceTol u (36 * skew (c 4) (c 5) (c 6)) (c 0) p
  | 2 => faceTol u (16 * skew (c 3) (c 7) (c 6)) (c 3) p
  | 3 => faceTol u (16 * skew (c 3) (c 4) (c 7)) (c 3) p
  | 4 => faceTol u (16 * skew (c 1) (c 5) (c 4)) (c 1) p
  | 5 => faceTol u (16 * skew (c 1) (c 6) (c 5)) (c 1) p
/-- no face is degenerate -/
def Faces (c : Fin 8 → Vec3 ℝ) : Prop :=
  (c 5 - c 4).cross (c 6 - c 4) ≠ ⟨0, 0, 0⟩ ∧ (c 7 - c 3).cross (c 6 - c 3) ≠ ⟨0, 0, 0⟩ ∧
  (c 4 - c 3).cross (c 7 - c 3) ≠ ⟨0, 0, 0⟩ ∧ (c 5 - c 1).cross (c 4 - c 1) ≠ ⟨0, 0, 0⟩ ∧
  (c 6 - c 1).cross (c 5 - c 1) ≠ ⟨0, 0, 0⟩

/-- the exact test is whether all the distances are at most 0 -/
theorem frustumDist_exact {c : Fin 8 → Vec3 ℝ} (hc : Faces c) (p : Vec3 ℝ) :
    (Frustum.set c).contains id p = true ↔ ∀ i, frustumDist c p i ≤ 0 := by
  obtain ⟨h0, h2, h3, h4, h5⟩ := hc
  have e : ∀ {N : Vec3 ℝ} {x : ℝ}, N ≠ ⟨0, 0, 0⟩ → (x / ‖N.toE‖ ≤ 0 ↔ x ≤ 0) := fun {N x} h => by
    rw [← nm_eq]
    constructor
    · intro q; by_contra hx; exact absurd q (not_le.2 (div_pos (not_le.1 hx) (nm_pos h)))
    · intro q; exact div_nonpos_of_nonpos_of_nonneg q (nm_nonneg _)
  rw [Frustum.set, Frustum.contains_corners]
  have k : (∀ i, frustumDist c p i ≤ 0) ↔ frustumDist c p 0 ≤ 0 ∧ frustumDist c p 1 ≤ 0 ∧ frustumDist c p 2 ≤ 0 ∧
      frustumDist c p 3 ≤ 0 ∧ frustumDist c p 4 ≤ 0 ∧ frustumDist c p 5 ≤ 0 := by
    constructor
    · intro h; exact ⟨h 0, h 1, h 2, h 3, h 4, h 5⟩
    · rintro ⟨h0, h1, h2, h3, h4, h5⟩ i
      fin_cases i
      exacts [h0, h1, h2, h3, h4, h5]
  rw [k]
  simp only [frustumDist, faceDist]
  rw [e h0, e h0, e h2, e h3, e h4, e h5, neg_nonpos]

section
variable (hr : IsRel rnd u) (hu : u ≤ 1 / 4096)
include hr hu

/-- the computed distances from the faces -/
private theorem faces {c : Fin 8 → Vec3 ℝ} (hc : Faces c) (p : Vec3 ℝ) (i : Fin 6) :
    (((Frustum.set fun j => Vec3.num (c j) : Frustum (Fl ℝ rnd)).planes i).distance (Vec3.num p)).Within (frustumTol u c p i)
      (frustumDist c p i) := by
  obtain ⟨h0, h2, h3, h4, h5⟩ := hc
  fin_cases i
  exacts [C168_plane hr hu _ _ _ p h0, C168_opposite hr hu _ _ _ _ p h0, C168_plane hr hu _ _ _ p h2,
    C168_plane hr hu _ _ _ p h3, C168_plane hr hu _ _ _ p h4, C168_plane hr hu _ _ _ p h5]

/-- C168: a point that is inside a frustum by more than the rounding errors is found inside, one that is outside by more than them
is not; `narrow` is the conversion to `float`, of which only the sign matters. -/
theorem C168_contains {c : Fin 8 → Vec3 ℝ} (hc : Faces c) (p : Vec3 ℝ) (narrow : Fl ℝ rnd → Fl ℝ rnd)
    (hn : ∀ v : ℝ, 0 < narrow (.num v) ↔ 0 < v) :
    ((∀ i, frustumDist c p i ≤ -frustumTol u c p i) →
      (Frustum.set fun j => Vec3.num (c j) : Frustum (Fl ℝ rnd)).contains narrow (Vec3.num p) = true) ∧
    ((∃ i, frustumTol u c p i < frustumDist c p i) →
      (Frustum.set fun j => Vec3.num (c j) : Frustum (Fl ℝ rnd)).contains narrow (Vec3.num p) = false) := by
  constructor
  · intro h
    simp only [Frustum.contains, List.all_eq_true, List.mem_finRange, forall_const]
    intro i
    obtain ⟨v, ev, hv⟩ := faces hr hu hc p i
    rw [ev, if_neg]
    show ¬ 0 < narrow (.num v)
    rw [hn]
    linarith [(abs_le.1 hv).2, h i]
  · rintro ⟨i, h⟩
    rw [← Bool.not_eq_true]
    intro q
    simp only [Frustum.contains, List.all_eq_true, List.mem_finRange, forall_const] at q
    have q := q i
    obtain ⟨v, ev, hv⟩ := faces hr hu hc p i
    rw [ev, if_pos] at q
    · exact Bool.false_ne_true q
    · show 0 < narrow (.num v)
      rw [hn]
      linarith [(abs_le.1 hv).1]

/-- C168: likewise for balls, where `Real` is `float`: a ball is found inside, or to meet the frustum (its centre is no further
than the radius outside any face), unless rounding errors matter. -/
theorem C168_sphere {c : Fin 8 → Vec3 ℝ} (hc : Faces c) (p : Vec3 ℝ) (r : ℝ) :
    ((∀ i, frustumDist c p i ≤ -r - frustumTol u c p i) →
      (Frustum.set fun j => Vec3.num (c j) : Frustum (Fl ℝ rnd)).containsSphere id ⟨Vec3.num p, .num r⟩ = true) ∧
    ((∃ i, -r + frustumTol u c p i < frustumDist c p i) →
      (Frustum.set fun j => Vec3.num (c j) : Frustum (Fl ℝ rnd)).containsSphere id ⟨Vec3.num p, .num r⟩ = false) ∧
    ((∀ i, frustumDist c p i ≤ r - frustumTol u c p i) →
      (Frustum.set fun j => Vec3.num (c j) : Frustum (Fl ℝ rnd)).intersectsSphere id ⟨Vec3.num p, .num r⟩ = true) ∧
    ((∃ i, r + frustumTol u c p i < frustumDist c p i) →
      (Frustum.set fun j => Vec3.num (c j) : Frustum (Fl ℝ rnd)).intersectsSphere id ⟨Vec3.num p, .num r⟩ = false) := by
  refine ⟨?_, ?_, ?_, ?_⟩
  · intro h
    simp only [Frustum.containsSphere, List.all_eq_true, List.mem_finRange, forall_const, id]
    intro i
    obtain ⟨v, ev, hv⟩ := faces hr hu hc p i
    rw [ev, if_neg]
    show ¬ -(.num r) < (.num v : Fl ℝ rnd)
    rw [Fl.num_neg, Fl.num_lt]
    linarith [(abs_le.1 hv).2, h i]
  · rintro ⟨i, h⟩
    rw [← Bool.not_eq_true]
    intro q
    simp only [Frustum.containsSphere, List.all_eq_true, List.mem_finRange, forall_const, id] at q
    have q := q i
    obtain ⟨v, ev, hv⟩ := faces hr hu hc p i
    rw [ev, if_pos] at q
    · exact Bool.false_ne_true q
    · show -(.num r) < (.num v : Fl ℝ rnd)
      rw [Fl.num_neg, Fl.num_lt]
      linarith [(abs_le.1 hv).1]
  · intro h
    simp only [Frustum.intersectsSphere, List.all_eq_true, List.mem_finRange, forall_const, id]
    intro i
    obtain ⟨v, ev, hv⟩ := faces hr hu hc p i
    rw [ev, if_neg]
    show ¬ (.num r) < (.num v : Fl ℝ rnd)
    rw [Fl.num_lt]
    linarith [(abs_le.1 hv).2, h i]
  · rintro ⟨i, h⟩
    rw [← Bool.not_eq_true]
    intro q
    simp only [Frustum.intersectsSphere, List.all_eq_true, List.mem_finRange, forall_const, id] at q
    have q := q i
    obtain ⟨v, ev, hv⟩ := faces hr hu hc p i
    rw [ev, if_pos] at q
    · exact Bool.false_ne_true q
    · show (.num r) < (.num v : Fl ℝ rnd)
      rw [Fl.num_lt]
      linarith [(abs_le.1 hv).1]
end

/-- C168: in `float` the plane through three points that are not on a line may have the null vector as its normal: every point is
at distance 0 from it. -/
theorem C168_sliver :
    let a : Vec3 ℝ := ⟨0, 0, 0⟩
    let b : Vec3 ℝ := ⟨1 + 1 / 8192, 1, 0⟩
    let c : Vec3 ℝ := ⟨1, 1 - 1 / 8192, 0⟩
    (b - a).cross (c - a) ≠ ⟨0, 0, 0⟩ ∧ faceDist a b c ⟨0, 0, 1⟩ = -1 ∧
    ∀ p : Vec3 ℝ, (Plane.fromPoints (Vec3.num a) (Vec3.num b) (Vec3.num c) : Plane (Fl ℝ (rne 24))).distance (Vec3.num p) = .num 0 := by
  intro a b c
  have r0 : rne 24 (0 : ℝ) = 0 := rne_of_rep (by norm_num) (Rep.zero _)
  have r1 : rne 24 (1 : ℝ) = 1 := rne_of_rep (by norm_num) ⟨1, 0, by norm_num, by norm_num⟩
  have ra : rne 24 (1 + 1 / 8192 : ℝ) = 1 + 1 / 8192 := rne_of_rep (by norm_num) ⟨8193, -13, by norm_num, by norm_num⟩
  have rb : rne 24 (1 - 1 / 8192 : ℝ) = 1 - 1 / 8192 := rne_of_rep (by norm_num) ⟨8191, -13, by norm_num, by norm_num⟩
  have rc : rne 24 ((1 + 1 / 8192) * (1 - 1 / 8192) : ℝ) = 1 := by
    rw [rne_eq (-24) (2 ^ 24) (by norm_num) (by norm_num) (by rw [abs_lt]; norm_num)]; norm_num
  have eN : (b - a).cross (c - a) = ⟨0, 0, -(1 / 2 ^ 26)⟩ := by
    ext <;> simp [a, b, c, Vec3.cross]
    norm_num
  refine ⟨?_, ?_, fun p => ?_⟩
  · rw [eN]
    intro h
    have := congrArg Vec3.z h
    norm_num at this
  · rw [faceDist, side, eN, ← nm_eq]
    have : nm (⟨0, 0, -(1 / 2 ^ 26)⟩ : Vec3 ℝ) = 1 / 2 ^ 26 := by
      rw [nm]
      simp only [ne_eq, OfNat.ofNat_ne_zero, not_false_eq_true, zero_pow, add_zero, zero_add]
      rw [Real.sqrt_sq_eq_abs, abs_neg, abs_of_pos (by norm_num)]
    rw [this]
    simp [a, Vec3.dot]
  · have e1 : ((Vec3.num b - Vec3.num a : Vec3 (Fl ℝ (rne 24))).cross (Vec3.num c - Vec3.num a)) = Vec3.num ⟨0, 0, 0⟩ := by
      rw [Vec3.ext_iff]
      simp only [a, b, c, Vec3.cross, Vec3.sub_x, Vec3.sub_y, Vec3.sub_z, Vec3.num, Fl.num_sub, Fl.num_mul, sub_zero, mul_zero,
        zero_mul, mul_one, sub_self, r0, r1, ra, rb, rc, and_self]
    have z := (C119_null (isRel_rne 24 (by norm_num)) ⟨0, 0⟩ ⟨0, 0, 0⟩).2
    rw [decide_eq_true rfl] at z
    have e2 : (Vec3.num ⟨0, 0, 0⟩ : Vec3 (Fl ℝ (rne 24))).normalized 1 = Vec3.num ⟨0, 0, 0⟩ := by
      simp only [Vec3.normalized, z, if_true]
      rfl
    simp only [Plane.fromPoints, e1, Plane.fromPoint, e2, Plane.distance]
    simp only [a, Vec3.dot, Vec3.num, Fl.num_sub, Fl.num_mul, Fl.num_add, mul_zero, add_zero, sub_self, r0]

/-- The hypotheses hold: the centre of a cube, in `float`. -/
example : (Frustum.set fun j => Vec3.num (rectCorners (-1) 1 (-1) 1 1 (-1) 1 (-1) 1 (-1) j) : Frustum (Fl ℝ (rne 24))).contains id
    (Vec3.num ⟨0, 0, 0⟩) = true := by
  have le3 : ∀ {v : Vec3 ℝ}, v.x ^ 2 + v.y ^ 2 + v.z ^ 2 ≤ 9 → nm v ≤ 3 := fun {v} h => by
    rw [nm, Real.sqrt_le_left (by norm_num)]; linarith
  have eq4 : ∀ {v : Vec3 ℝ}, v.x ^ 2 + v.y ^ 2 + v.z ^ 2 = 16 → nm v = 4 := fun {v} h => by
    rw [nm, h, show (16 : ℝ) = 4 ^ 2 by norm_num, Real.sqrt_sq (by norm_num)]
  have ne : ∀ {v : Vec3 ℝ}, v.x ^ 2 + v.y ^ 2 + v.z ^ 2 = 16 → v ≠ ⟨0, 0, 0⟩ := fun {v} h q => by
    rw [q] at h; norm_num at h
  have sk : ∀ {a b c : Vec3 ℝ}, (b - a).x ^ 2 + (b - a).y ^ 2 + (b - a).z ^ 2 ≤ 9 → (c - a).x ^ 2 + (c - a).y ^ 2 + (c - a).z ^ 2 ≤ 9 →
      ((b - a).cross (c - a)).x ^ 2 + ((b - a).cross (c - a)).y ^ 2 + ((b - a).cross (c - a)).z ^ 2 = 16 →
      skew a b c ≤ 9 / 4 := fun {a b c} h1 h2 h3 => by
    unfold skew
    rw [← nm_eq, ← nm_eq, ← nm_eq, eq4 h3, div_le_iff₀ (by norm_num)]
    have := mul_le_mul (le3 h1) (le3 h2) (nm_nonneg _) (by norm_num)
    linarith
  have tol : ∀ {k : ℝ} {a : Vec3 ℝ}, k ≤ 81 → 0 ≤ k → a.x ^ 2 + a.y ^ 2 + a.z ^ 2 ≤ 9 → 1 ≤ 2 - faceTol (2 ^ (-(24 : ℕ) : ℤ)) k a ⟨0, 0, 0⟩ :=
    fun {k a} h1 h2 h3 => by
      have e : nm (⟨0, 0, 0⟩ - a) = nm a := by
        rw [nm_neg]; congr 1; ext <;> simp
      have e0 : nm (⟨0, 0, 0⟩ : Vec3 ℝ) = 0 := by simp [nm]
      unfold faceTol
      rw [← nm_eq, ← nm_eq, ← nm_eq, e, e0]
      have := mul_le_mul h1 (le3 h3) (nm_nonneg _) (by norm_num)
      have q := le3 h3
      norm_num
      linarith
  refine (C168_contains (isRel_rne 24 (by norm_num)) (by norm_num) ?_ ⟨0, 0, 0⟩ id fun v => ?_).1 fun i => ?_
  · refine ⟨ne ?_, ne ?_, ne ?_, ne ?_, ne ?_⟩ <;> simp [rectCorners, Vec3.cross] <;> norm_num
  · rw [id, Fl.zero_def, Fl.num_lt]
  · rw [le_neg]
    fin_cases i
    · refine (show _ ≤ (1 : ℝ) from ?_).trans (show (1 : ℝ) ≤ _ from ?_)
      · have := tol (k := 16 * skew ⟨1, 1, -1⟩ ⟨1, -1, -1⟩ ⟨-1, -1, -1⟩) (a := ⟨1, 1, -1⟩) ?_ ?_ ?_
        · simp only [frustumTol, rectCorners]; linarith
        · have := sk (a := ⟨1, 1, -1⟩) (b := ⟨1, -1, -1⟩) (c := ⟨-1, -1, -1⟩) ?_ ?_ ?_
          · linarith
          all_goals simp [Vec3.cross]
          all_goals norm_num
        · unfold skew; positivity
        · norm_num
      · simp only [frustumDist, faceDist, side, rectCorners]
        rw [← nm_eq, eq4]
        all_goals simp [Vec3.cross, Vec3.dot]
        all_goals norm_num
    · refine (show _ ≤ (1 : ℝ) from ?_).trans (show (1 : ℝ) ≤ _ from ?_)
      · have := tol (k := 36 * skew ⟨1, 1, -1⟩ ⟨1, -1, -1⟩ ⟨-1, -1, -1⟩) (a := ⟨1, 1, 1⟩) ?_ ?_ ?_
        · simp only [frustumTol, rectCorners]; linarith
        · have := sk (a := ⟨1, 1, -1⟩) (b := ⟨1, -1, -1⟩) (c := ⟨-1, -1, -1⟩) ?_ ?_ ?_
          · linarith
          all_goals simp [Vec3.cross]
          all_goals norm_num
        · unfold skew; positivity
        · norm_num
      · simp only [frustumDist, faceDist, side, rectCorners]
        rw [← nm_eq, eq4]
        all_goals simp [Vec3.cross, Vec3.dot]
        all_goals norm_num
    · refine (show _ ≤ (1 : ℝ) from ?_).trans (show (1 : ℝ) ≤ _ from ?_)
      · have := tol (k := 16 * skew ⟨-1, 1, 1⟩ ⟨-1, 1, -1⟩ ⟨-1, -1, -1⟩) (a := ⟨-1, 1, 1⟩) ?_ ?_ ?_
        · simp only [frustumTol, rectCorners]; linarith
        · have := sk (a := ⟨-1, 1, 1⟩) (b := ⟨-1, 1, -1⟩) (c := ⟨-1, -1, -1⟩) ?_ ?_ ?_
          · linarith
          all_goals simp [Vec3.cross]
          all_goals norm_num
        · unfold skew; positivity
        · norm_num
      · simp only [frustumDist, faceDist, side, rectCorners]
        rw [← nm_eq, eq4]
        all_goals simp [Vec3.cross, Vec3.dot]
        all_goals norm_num
    · refine (show _ ≤ (1 : ℝ) from ?_).trans (show (1 : ℝ) ≤ _ from ?_)
      · have := tol (k := 16 * skew ⟨-1, 1, 1⟩ ⟨1, 1, -1⟩ ⟨-1, 1, -1⟩) (a := ⟨-1, 1, 1⟩) ?_ ?_ ?_
        · simp only [frustumTol, rectCorners]; linarith
        · have := sk (a := ⟨-1, 1, 1⟩) (b := ⟨1, 1, -1⟩) (c := ⟨-1, 1, -1⟩) ?_ ?_ ?_
          · linarith
          all_goals simp [Vec3.cross]
          all_goals norm_num
        · unfold skew; positivity
        · norm_num
      · simp only [frustumDist, faceDist, side, rectCorners]
        rw [← nm_eq, eq4]
        all_goals simp [Vec3.cross, Vec3.dot]
        all_goals norm_num
    · refine (show _ ≤ (1 : ℝ) from ?_).trans (show (1 : ℝ) ≤ _ from ?_)
      · have := tol (k := 16 * skew ⟨1, -1, 1⟩ ⟨1, -1, -1⟩ ⟨1, 1, -1⟩) (a := ⟨1, -1, 1⟩) ?_ ?_ ?_
        · simp only [frustumTol, rectCorners]; linarith
        · have := sk (a := ⟨1, -1, 1⟩) (b := ⟨1, -1, -1⟩) (c := ⟨1, 1, -1⟩) ?_ ?_ ?_
          · linarith
          all_goals simp [Vec3.cross]
          all_goals norm_num
        · unfold skew; positivity
        · norm_num
      · simp only [frustumDist, faceDist, side, rectCorners]
        rw [← nm_eq, eq4]
        all_goals simp [Vec3.cross, Vec3.dot]
        all_goals norm_num
    · refine (show _ ≤ (1 : ℝ) from ?_).trans (show (1 : ℝ) ≤ _ from ?_)
      · have := tol (k := 16 * skew ⟨1, -1, 1⟩ ⟨-1, -1, -1⟩ ⟨1, -1, -1⟩) (a := ⟨1, -1, 1⟩) ?_ ?_ ?_
        · simp only [frustumTol, rectCorners]; linarith
        · have := sk (a := ⟨1, -1, 1⟩) (b := ⟨-1, -1, -1⟩) (c := ⟨1, -1, -1⟩) ?_ ?_ ?_
          · linarith
          all_goals simp [Vec3.cross]
          all_goals norm_num
        · unfold skew; positivity
        · norm_num
      · simp only [frustumDist, faceDist, side, rectCorners]
        rw [← nm_eq, eq4]
        all_goals simp [Vec3.cross, Vec3.dot]
        all_goals norm_num

end MathLib
