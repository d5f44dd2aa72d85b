import Verif.Proof.LineDist
import Verif.Proof.RneNearest

/-! # Property C167: the distance of a point from a line, in floating point -/

namespace MathLib
open LineDist
variable {rnd : ℝ → ℝ} {u : ℝ}

section
variable (hr : IsRel rnd u)
include hr

omit hr in
private theorem nm2_dist (s p : Vec2 ℝ) : nm2 (p.x - s.x) (p.y - s.y) = dist s.toE p.toE := by
  rw [Vec2.dist_toE, nm2]; congr 1; ring
omit hr in
private theorem nm_dist (s p : Vec3 ℝ) : nm (p - s) = dist s.toE p.toE := by
  rw [Vec3.dist_toE, nm]; congr 1; simp only [Vec3.sub_x, Vec3.sub_y, Vec3.sub_z]; ring

private theorem zero_iff {n : ℕ} {x : ℝ} {a : Fl ℝ rnd} (h : Rel u n x a) : (a == 0) = decide (x = 0) := by
  obtain ⟨θ, ht, rfl⟩ := h
  rw [Fl.zero_def, Fl.num_beq]
  simp [(ht.pos hr.lt_one).ne']

omit hr in
private theorem unit2 {x y : ℝ} (h : 0 < nm2 x y) : nm2 (x * (1 / nm2 x y)) (y * (1 / nm2 x y)) = 1 := by
  have q : nm2 x y ^ 2 = x * x + y * y := Real.sq_sqrt (add_nonneg (mul_self_nonneg _) (mul_self_nonneg _))
  rw [nm2, show x * (1 / nm2 x y) * (x * (1 / nm2 x y)) + y * (1 / nm2 x y) * (y * (1 / nm2 x y)) =
    (x * x + y * y) * (1 / nm2 x y) ^ 2 by ring, ← q]
  rw [← mul_pow, mul_one_div_cancel h.ne']
  simp

/-- C167: in the plane, the error of the distance of a point from a line through two points is at most nine units of the distance
of the point from the first of them; also for a line that is a single point. -/
theorem C167_line2 (s t p : Vec2 ℝ) (h : ℝ) (H : IsLineDist2 s (t - s) p h) :
    ((⟨Vec2.num s, Vec2.num t⟩ : Line2 (Fl ℝ rnd)).distance (Vec2.num p)).Within (gam u 9 * dist s.toE p.toE) h := by
  set X : Fl ℝ rnd := .num t.x - .num s.x with hX
  set Y : Fl ℝ rnd := .num t.y - .num s.y with hY
  have rX : Rel u 1 (t.x - s.x) X := Rel.sub hr _ _
  have rY : Rel u 1 (t.y - s.y) Y := Rel.sub hr _ _
  have rL : Rel u 3 (nm2 (t.x - s.x) (t.y - s.y)) (MathFns.sqrt (X * X + Y * Y)) :=
    Rel.sqrt hr (Rel.add (k := 4) hr (Rel.mul (k := 3) hr rX rX) (Rel.mul (k := 3) hr rY rY) (mul_self_nonneg _)
      (mul_self_nonneg _)) (add_nonneg (mul_self_nonneg _) (mul_self_nonneg _)) (m := 2)
  have prog : (⟨Vec2.num s, Vec2.num t⟩ : Line2 (Fl ℝ rnd)).distance (Vec2.num p) =
      (let n := (⟨X, Y⟩ : Vec2 (Fl ℝ rnd)).normalize 1
       if n.2 == 0 then distance2 (Vec2.num s) (Vec2.num p) else
        abs' (-n.1.y * ((Vec2.num p : Vec2 (Fl ℝ rnd)).x - (Vec2.num s : Vec2 (Fl ℝ rnd)).x) +
          n.1.x * ((Vec2.num p : Vec2 (Fl ℝ rnd)).y - (Vec2.num s : Vec2 (Fl ℝ rnd)).y))) := rfl
  rw [prog]
  have z := zero_iff hr rL
  by_cases h0 : nm2 (t.x - s.x) (t.y - s.y) = 0
  · rw [decide_eq_true h0] at z
    simp only [Vec2.normalize, Vec2.length, z, if_true]
    have : h = dist s.toE p.toE := by
      have h2 := (Real.sqrt_eq_zero (add_nonneg (mul_self_nonneg _) (mul_self_nonneg _))).1 h0
      have hx : t.x - s.x = 0 := by nlinarith [mul_self_nonneg (t.x - s.x), mul_self_nonneg (t.y - s.y)]
      have hy : t.y - s.y = 0 := by nlinarith [mul_self_nonneg (t.x - s.x), mul_self_nonneg (t.y - s.y)]
      obtain ⟨⟨k, hk⟩, -⟩ := H
      rw [hk, Vec2.dist_toE, Vec2.dist_toE]
      simp only [Vec2.add_x, Vec2.add_y, Vec2.mul_x, Vec2.mul_y, Vec2.sub_x, Vec2.sub_y, hx, hy, zero_mul, add_zero]
    rw [this, ← nm2_dist]
    have q := ((rel_distance2 hr s p).mono hr (show 3 ≤ 9 by norm_num)).within hr
    rwa [abs_of_nonneg (Real.sqrt_nonneg _)] at q
  · rw [decide_eq_false h0] at z
    simp only [Vec2.normalize, Vec2.length, z, Bool.false_eq_true, if_false]
    have hp : 0 < nm2 (t.x - s.x) (t.y - s.y) := lt_of_le_of_ne (Real.sqrt_nonneg _) (Ne.symm h0)
    have rI : Rel u 4 (1 / nm2 (t.x - s.x) (t.y - s.y)) (1 / MathFns.sqrt (X * X + Y * Y)) := by
      rw [Fl.one_def]
      exact Rel.div hr (Rel.exact hr 1) rL h0
    have q := dist2_err (k := 9) hr (s := s) (p := p) (Rel.mul (k := 6) hr rX rI) (Rel.mul (k := 6) hr rY rI) rfl rfl rfl
    rw [unit2 hp, one_mul, nm2_dist] at q
    rw [dist2_eq (d := t - s) hp H]
    exact q

/-- C167: likewise for a ray made by `Ray2::from`, at most seven units. -/
theorem C167_ray2 (s d p : Vec2 ℝ) (hd : d ≠ ⟨0, 0⟩) (h : ℝ) (H : IsLineDist2 s d p h) :
    ((Ray2.from (Vec2.num s) (Vec2.num d) : Ray2 (Fl ℝ rnd)).distance (Vec2.num p)).Within (gam u 7 * dist s.toE p.toE) h := by
  have rL : Rel u 2 (nm2 d.x d.y) (Vec2.num d : Vec2 (Fl ℝ rnd)).length := Vec2.rel_length hr d
  have z := (C119_null hr d ⟨0, 0, 0⟩).1
  rw [decide_eq_false hd] at z
  have h0 : nm2 d.x d.y ≠ 0 := by
    have := zero_iff hr rL
    rw [z] at this
    intro h
    rw [decide_eq_true h] at this
    exact Bool.false_ne_true this
  have hp : 0 < nm2 d.x d.y := lt_of_le_of_ne (Real.sqrt_nonneg _) (Ne.symm h0)
  have rI : ∀ x : ℝ, Rel u 4 (x * (1 / nm2 d.x d.y)) (.num x * 1 / (Vec2.num d : Vec2 (Fl ℝ rnd)).length) := by
    intro x
    rw [Fl.one_def, ← mul_div_assoc]
    exact Rel.div hr (Rel.mul (k := 1) hr (Rel.exact hr x) (Rel.exact hr 1)) rL h0
  have q := dist2_err (k := 7) hr (s := s) (p := p) (rI d.x) (rI d.y) rfl rfl rfl
  rw [unit2 hp, one_mul, nm2_dist] at q
  rw [dist2_eq hp H]
  simp only [Ray2.distance, Ray2.from, Vec2.normalized, z, Bool.false_eq_true, if_false]
  exact q

omit hr in
private theorem scale3 {s d p : Vec3 ℝ} {c r : ℝ} (hc : c ≠ 0) (h : IsLineDist3 s d p r) : IsLineDist3 s (d * c) p r := by
  have e : ∀ t, d * c * t = d * (c * t) := by intro t; ext <;> simp <;> ring
  unfold IsLineDist3 at *
  convert h using 1
  ext x
  constructor
  · rintro ⟨t, rfl⟩
    exact ⟨c * t, by rw [e]⟩
  · rintro ⟨t, rfl⟩
    exact ⟨t / c, by rw [e, mul_div_cancel₀ _ hc]⟩

variable (hu : u ≤ 1 / 4096)
include hu

/-- C167: in space, unless the point is within 22 units of its distance from the first point of the line, the error is at most 33
units of it.  Nearer to the line the result is anything between 0 and that distance (`C167_near`). -/
theorem C167_line3 (s t p : Vec3 ℝ) (h : ℝ) (H : IsLineDist3 s (t - s) p h) :
    ∃ r, (⟨Vec3.num s, Vec3.num t⟩ : Line3 (Fl ℝ rnd)).distance (Vec3.num p) = .num r ∧
      0 ≤ r ∧ r ≤ (1 + 10 * u) * dist s.toE p.toE ∧
      (22 * u * dist s.toE p.toE < h → |r - h| ≤ 33 * u * dist s.toE p.toE) := by
  have e0 := nm_nonneg (p - s)
  have ue := mul_nonneg hr.nonneg e0
  obtain ⟨r, e, r0, r1, r2⟩ := whole hr hu s (t - s) ⟨rnd (t.x - s.x), rnd (t.y - s.y), rnd (t.z - s.z)⟩ p hr.nonneg (by linarith) (by
    refine nm_comp hr.nonneg ?_ ?_ ?_ <;> simp only [Vec3.sub_x, Vec3.sub_y, Vec3.sub_z] <;> exact hr.err _)
  rw [← nm_dist]
  exact ⟨r, e, r0, by linarith, fun hh => (r2 h H (by linarith)).trans (by linarith)⟩

/-- C167: likewise for a ray with any direction; 20 and 31 units. -/
theorem C167_ray3 (s d p : Vec3 ℝ) (h : ℝ) (H : IsLineDist3 s d p h) :
    ∃ r, (⟨Vec3.num s, Vec3.num d⟩ : Ray3 (Fl ℝ rnd)).distance (Vec3.num p) = .num r ∧
      0 ≤ r ∧ r ≤ (1 + 10 * u) * dist s.toE p.toE ∧
      (20 * u * dist s.toE p.toE < h → |r - h| ≤ 31 * u * dist s.toE p.toE) := by
  have e0 := nm_nonneg (p - s)
  have ue := mul_nonneg hr.nonneg e0
  obtain ⟨r, e, r0, r1, r2⟩ := whole hr hu s d d p le_rfl (by norm_num) (by simp [nm])
  rw [← nm_dist]
  exact ⟨r, e, r0, by linarith, fun hh => (r2 h H (by linarith)).trans (by linarith)⟩

/-- C167: likewise for a ray made by `Ray3::from`; 30 and 41 units. -/
theorem C167_from3 (s d p : Vec3 ℝ) (hd : d ≠ ⟨0, 0, 0⟩) (h : ℝ) (H : IsLineDist3 s d p h) :
    ∃ r, (Ray3.from (Vec3.num s) (Vec3.num d) : Ray3 (Fl ℝ rnd)).distance (Vec3.num p) = .num r ∧
      0 ≤ r ∧ r ≤ (1 + 10 * u) * dist s.toE p.toE ∧
      (30 * u * dist s.toE p.toE < h → |r - h| ≤ 41 * u * dist s.toE p.toE) := by
  have e0 := nm_nonneg (p - s)
  have ue := mul_nonneg hr.nonneg e0
  obtain ⟨g5, g5'⟩ := BallLine.gam_small hr.nonneg hu 5 (by norm_num)
  norm_num at g5
  have g5e : gam u 5 * nm (p - s) ≤ 5.02 * u * nm (p - s) := mul_le_mul_of_nonneg_right (by linarith [hr.nonneg]) e0
  obtain ⟨w, ew, -, ⟨hx, hy, hz⟩, -⟩ := C119_normalized3 hr d hd 1
  have hp := nm_pos hd
  obtain ⟨r, e, r0, r1, r2⟩ := whole hr hu s (d * (1 / nm d)) w p g5' (by linarith) (nm_comp g5' hx hy hz)
  rw [← nm_dist]
  refine ⟨r, ?_, r0, by linarith, fun hh => (r2 h (scale3 (by positivity) H) (by linarith)).trans (by linarith)⟩
  rw [← e, ← ew, Ray3.from, Fl.one_def]

omit hu in
/-- a point whose computed vector product with the direction is zero -/
private theorem onzero {s p D E : Vec3 ℝ} (hE : (Vec3.num p - Vec3.num s : Vec3 (Fl ℝ rnd)) = Vec3.num E)
    (h : (Vec3.num E : Vec3 (Fl ℝ rnd)).cross (Vec3.num D) = Vec3.num ⟨0, 0, 0⟩) :
    (⟨Vec3.num s, Vec3.num D⟩ : Ray3 (Fl ℝ rnd)).distance (Vec3.num p) = distance3 (Vec3.num s) (Vec3.num p) := by
  have prog : (⟨Vec3.num s, Vec3.num D⟩ : Ray3 (Fl ℝ rnd)).distance (Vec3.num p) =
      (let n := ((Vec3.num D : Vec3 (Fl ℝ rnd)).cross ((Vec3.num p - Vec3.num s).cross (Vec3.num D))).normalize 1
       if n.2 == 0 then distance3 (Vec3.num s) (Vec3.num p) else abs' (n.1.dot (Vec3.num p - Vec3.num s))) := rfl
  rw [prog, hE, h]
  obtain ⟨c, ec, hc⟩ := cross_err hr D ⟨0, 0, 0⟩
  have c0 : c = ⟨0, 0, 0⟩ := by
    have e1 : c - D.cross (⟨0, 0, 0⟩ : Vec3 ℝ) = c := by ext <;> simp [Vec3.cross]
    have e2 : nm (⟨0, 0, 0⟩ : Vec3 ℝ) = 0 := by simp [nm]
    rw [e1, e2, mul_zero, mul_zero] at hc
    exact eq_zero hc
  have z := (C119_null hr ⟨0, 0⟩ c).2
  rw [decide_eq_true c0] at z
  simp only [ec, Vec3.normalize, z, if_true]

omit hu in
/-- C167: whatever the rounding, the end of a segment on the x-axis is reported at about its distance from the start; its distance
from the line is 0. -/
theorem C167_on (l : ℝ) :
    ((⟨Vec3.num ⟨0, 0, 0⟩, Vec3.num ⟨l, 0, 0⟩⟩ : Line3 (Fl ℝ rnd)).distance (Vec3.num ⟨l, 0, 0⟩)).Within (gam u 4 * |l|) |l| ∧
    IsLineDist3 ⟨0, 0, 0⟩ ((⟨l, 0, 0⟩ : Vec3 ℝ) - ⟨0, 0, 0⟩) ⟨l, 0, 0⟩ 0 := by
  have r0 : rnd 0 = 0 := by have := hr.err 0; simpa using this
  constructor
  · have q := onzero hr (s := ⟨0, 0, 0⟩) (p := ⟨l, 0, 0⟩) (D := ⟨rnd l, 0, 0⟩) (E := ⟨rnd l, 0, 0⟩)
      (by rw [Vec3.ext_iff]; simp [Vec3.num, r0])
      (by simp [Vec3.cross, Vec3.num, r0])
    have e : (Vec3.num ⟨l, 0, 0⟩ - Vec3.num ⟨0, 0, 0⟩ : Vec3 (Fl ℝ rnd)) = Vec3.num ⟨rnd l, 0, 0⟩ := by
      rw [Vec3.ext_iff]; simp [Vec3.num, r0]
    have e2 : (⟨Vec3.num ⟨0, 0, 0⟩, Vec3.num ⟨l, 0, 0⟩⟩ : Line3 (Fl ℝ rnd)).distance (Vec3.num ⟨l, 0, 0⟩) =
      (⟨Vec3.num ⟨0, 0, 0⟩, Vec3.num ⟨l, 0, 0⟩ - Vec3.num ⟨0, 0, 0⟩⟩ : Ray3 (Fl ℝ rnd)).distance (Vec3.num ⟨l, 0, 0⟩) := rfl
    rw [e2, e, q]
    have w := (rel_distance3 hr ⟨0, 0, 0⟩ ⟨l, 0, 0⟩).within hr
    simp only [sub_zero, mul_zero, add_zero, Real.sqrt_mul_self_eq_abs, abs_abs] at w
    exact w
  · constructor
    · refine ⟨1, ?_⟩
      rw [Vec3.dist_toE]
      simp
    · rintro _ ⟨t, rfl⟩
      exact dist_nonneg
end

/-- C167: in `float`, a point off the line, and at no more than 2^-26 from it, is reported at more than 7/5. -/
theorem C167_near :
    (∃ r : ℝ, (⟨Vec3.num ⟨0, 0, 0⟩, Vec3.num ⟨1, 1 - 1 / 8192, 0⟩⟩ : Line3 (Fl ℝ (rne 24))).distance
      (Vec3.num ⟨1 + 1 / 8192, 1, 0⟩) = .num r ∧ 7 / 5 < r) ∧
    ∃ h : ℝ, IsLineDist3 ⟨0, 0, 0⟩ ((⟨1, 1 - 1 / 8192, 0⟩ : Vec3 ℝ) - ⟨0, 0, 0⟩) ⟨1 + 1 / 8192, 1, 0⟩ h ∧ 0 < h ∧ h ≤ 1 / 2 ^ 26 := by
  constructor
  · have hr := isRel_rne 24 (by norm_num)
    have r0 : rne 24 (0 : ℝ) = 0 := rne_of_rep (by norm_num) (Rep.zero _)
    have r1 : rne 24 (1 : ℝ) = 1 := rne_of_rep (by norm_num) ⟨1, 0, by norm_num, by norm_num⟩
    have ra : rne 24 (1 + 1 / 8192 : ℝ) = 1 + 1 / 8192 := rne_of_rep (by norm_num) ⟨8193, -13, by norm_num, by norm_num⟩
    have rb : rne 24 (1 - 1 / 8192 : ℝ) = 1 - 1 / 8192 := rne_of_rep (by norm_num) ⟨8191, -13, by norm_num, by norm_num⟩
    have rc : rne 24 ((1 + 1 / 8192) * (1 - 1 / 8192) : ℝ) = 1 := by
      rw [rne_eq (-24) (2 ^ 24) (by norm_num) (by norm_num) (by rw [abs_lt]; norm_num)]; norm_num
    have e : (Vec3.num ⟨1, 1 - 1 / 8192, 0⟩ - Vec3.num ⟨0, 0, 0⟩ : Vec3 (Fl ℝ (rne 24))) = Vec3.num ⟨1, 1 - 1 / 8192, 0⟩ := by
      rw [Vec3.ext_iff]
      simp only [Vec3.sub_x, Vec3.sub_y, Vec3.sub_z, Vec3.num, Fl.num_sub, sub_zero, r0, r1, rb, and_self]
    have q := onzero hr (s := ⟨0, 0, 0⟩) (p := ⟨1 + 1 / 8192, 1, 0⟩) (D := ⟨1, 1 - 1 / 8192, 0⟩) (E := ⟨1 + 1 / 8192, 1, 0⟩)
      (by rw [Vec3.ext_iff]
          simp only [Vec3.sub_x, Vec3.sub_y, Vec3.sub_z, Vec3.num, Fl.num_sub, sub_zero, r0, r1, ra, and_self])
      (by simp only [Vec3.cross, Vec3.num, Fl.num_sub, Fl.num_mul, mul_zero, zero_mul, mul_one, sub_self, r0, r1, rc])
    have e2 : (⟨Vec3.num ⟨0, 0, 0⟩, Vec3.num ⟨1, 1 - 1 / 8192, 0⟩⟩ : Line3 (Fl ℝ (rne 24))).distance (Vec3.num ⟨1 + 1 / 8192, 1, 0⟩) =
      (⟨Vec3.num ⟨0, 0, 0⟩, Vec3.num ⟨1, 1 - 1 / 8192, 0⟩ - Vec3.num ⟨0, 0, 0⟩⟩ : Ray3 (Fl ℝ (rne 24))).distance
        (Vec3.num ⟨1 + 1 / 8192, 1, 0⟩) := rfl
    rw [e2, e, q]
    obtain ⟨r, er, hq⟩ := (rel_distance3 hr ⟨0, 0, 0⟩ ⟨1 + 1 / 8192, 1, 0⟩).within hr
    refine ⟨r, er, ?_⟩
    obtain ⟨g4, -⟩ := BallLine.gam_small (u := (2 : ℝ) ^ (-(24 : ℕ) : ℤ)) (by positivity) (by norm_num) 4 (by norm_num)
    have hs : (141 / 100 : ℝ) ≤ √((1 + 1 / 8192 - 0) * (1 + 1 / 8192 - 0) + (1 - 0) * (1 - 0) + (0 - 0) * (0 - 0)) :=
      Real.le_sqrt_of_sq_le (by norm_num)
    have gs : gam ((2 : ℝ) ^ (-(24 : ℕ) : ℤ)) 4 ≤ 1 / 1000 := g4.trans (by norm_num)
    simp only at hq
    rw [abs_of_nonneg (Real.sqrt_nonneg _)] at hq
    have := (abs_le.1 hq).1
    have := mul_le_mul_of_nonneg_right gs ((by norm_num : (0 : ℝ) ≤ 141 / 100).trans hs)
    linarith
  · have hd : (⟨1, 1 - 1 / 8192, 0⟩ : Vec3 ℝ) - ⟨0, 0, 0⟩ ≠ ⟨0, 0, 0⟩ := by
      intro h; have := congrArg Vec3.x h; norm_num at this
    have H := (lineDistance_spec ⟨0, 0, 0⟩ ((⟨1, 1 - 1 / 8192, 0⟩ : Vec3 ℝ) - ⟨0, 0, 0⟩) ⟨1 + 1 / 8192, 1, 0⟩).2 (by
      rintro ⟨t, ht⟩
      have hx := congrArg Vec3.x ht
      have hy := congrArg Vec3.y ht
      simp only [Vec3.add_x, Vec3.add_y, Vec3.mul_x, Vec3.mul_y, Vec3.sub_x, Vec3.sub_y] at hx hy
      linarith) hd
    refine ⟨_, H, ?_⟩
    rw [dist_eq (nm_pos hd) H]
    have e1 : nm (((⟨1 + 1 / 8192, 1, 0⟩ : Vec3 ℝ) - ⟨0, 0, 0⟩).cross ((⟨1, 1 - 1 / 8192, 0⟩ : Vec3 ℝ) - ⟨0, 0, 0⟩)) = 1 / 2 ^ 26 := by
      rw [nm, show (1 / 2 ^ 26 : ℝ) = √((1 / 2 ^ 26) ^ 2) by rw [Real.sqrt_sq (by norm_num)]]
      congr 1
      simp only [Vec3.cross, Vec3.sub_x, Vec3.sub_y, Vec3.sub_z]
      norm_num
    have e2 : 1 ≤ nm ((⟨1, 1 - 1 / 8192, 0⟩ : Vec3 ℝ) - ⟨0, 0, 0⟩) := by
      rw [nm]
      apply Real.le_sqrt_of_sq_le
      simp only [Vec3.sub_x, Vec3.sub_y, Vec3.sub_z]
      norm_num
    rw [e1]
    refine ⟨by positivity, ?_⟩
    rw [div_le_iff₀ (by linarith)]
    nlinarith

/-- The hypotheses hold: a point at distance 3 from the x-axis, in `float`. -/
example : ∃ r : ℝ, (⟨Vec3.num ⟨0, 0, 0⟩, Vec3.num ⟨2, 0, 0⟩⟩ : Line3 (Fl ℝ (rne 24))).distance (Vec3.num ⟨4, 3, 0⟩) = .num r ∧
    |r - 3| ≤ 1 / 100000 := by
  have H : IsLineDist3 ⟨0, 0, 0⟩ ((⟨2, 0, 0⟩ : Vec3 ℝ) - ⟨0, 0, 0⟩) ⟨4, 3, 0⟩ 3 := by
    have := isLineDist3_of_normal (s := ⟨0, 0, 0⟩) (d := (⟨2, 0, 0⟩ : Vec3 ℝ) - ⟨0, 0, 0⟩) (p := ⟨4, 3, 0⟩) (n := ⟨0, 1, 0⟩)
      (t₀ := 2) (k := 3) (by norm_num) (by simp) (by ext <;> norm_num)
    simpa using this
  have d5 : dist (⟨0, 0, 0⟩ : Vec3 ℝ).toE (⟨4, 3, 0⟩ : Vec3 ℝ).toE = 5 := by
    rw [Vec3.dist_toE, show ((0 : ℝ) - 4) ^ 2 + (0 - 3) ^ 2 + (0 - 0) ^ 2 = 5 ^ 2 by norm_num, Real.sqrt_sq (by norm_num)]
  obtain ⟨r, e, -, -, h⟩ := C167_line3 (isRel_rne 24 (by norm_num)) (by norm_num) _ _ _ 3 H
  rw [d5] at h
  exact ⟨r, e, (h (by norm_num)).trans (by norm_num)⟩

/-- In the plane: the hypotheses of `C167_line2` hold for every line and point. -/
example (s t p : Vec2 ℝ) : ((⟨Vec2.num s, Vec2.num t⟩ : Line2 (Fl ℝ (rne 24))).distance (Vec2.num p)).Within
    (gam (2 ^ (-(24 : ℕ) : ℤ)) 9 * dist s.toE p.toE) ((⟨s, t⟩ : Line2 ℝ).distance p) :=
  C167_line2 (isRel_rne 24 (by norm_num)) s t p _ (C84_line2 ⟨s, t⟩ p)

end MathLib
