import Verif.Props.RoundedPlanes
import Verif.Proof.RneNearest
import Verif.Proof.RneTie

/-! # C191: projection along a direction, and a sphere hitting a plane, in floating point -/

namespace MathLib
variable {rnd : ℝ → ℝ} {u : ℝ}

/-- C191, what holds of `Plane::project(projection, point, direction)`: every point returned is the given point moved along the direction, up to `2.1` units in each
coordinate, and it is on the parallel plane through the origin (see C79 for the missing distance) up to `6.3` units of the sizes of the scalar products; a
point is returned if the scalar product of direction and normal is more than `3.1` units of its terms.
Missing: nothing is returned for a direction parallel to the plane, which is false (`C191_refuted`). -/
theorem C191_project_partial (hr : IsRel rnd u) (hu : u ≤ 1 / 4096) (p : Plane ℝ) (x d : Vec3 ℝ) :
    (let n := p.normal
     let F := |d.x * n.x| + |d.y * n.y| + |d.z * n.z|
     let G := |x.x * n.x| + |x.y * n.y| + |x.z * n.z|
     (3.1 * u * F < |d.x * n.x + d.y * n.y + d.z * n.z| →
       ((Plane.num p : Plane (Fl ℝ rnd)).projectDir (Vec3.num x) (Vec3.num d)).isSome = true) ∧
     ∀ r, (Plane.num p : Plane (Fl ℝ rnd)).projectDir (Vec3.num x) (Vec3.num d) = some r → ∃ (q : Vec3 ℝ) (t : ℝ), r = Vec3.num q ∧
       |q.x - (x.x - d.x * t)| ≤ 2.1 * u * (|x.x| + |d.x * t|) ∧ |q.y - (x.y - d.y * t)| ≤ 2.1 * u * (|x.y| + |d.y * t|) ∧
       |q.z - (x.z - d.z * t)| ≤ 2.1 * u * (|x.z| + |d.z * t|) ∧
       |q.x * n.x + q.y * n.y + q.z * n.z| ≤ 6.3 * u * (G + |t| * F)) := by
  have u0 := hr.nonneg
  obtain ⟨g3, g3'⟩ := PlaneErr.gam_small u0 hu 3 (by norm_num)
  obtain ⟨g2, g2'⟩ := PlaneErr.gam_small u0 hu 2 (by norm_num)
  push_cast at g2 g3
  obtain ⟨hF, f, ef, hf⟩ := abs_sum3 hr d.x p.normal.x d.y p.normal.y d.z p.normal.z
  obtain ⟨hG, g, eg, hg⟩ := abs_sum3 hr x.x p.normal.x x.y p.normal.y x.z p.normal.z
  have run : (Plane.num p : Plane (Fl ℝ rnd)).projectDir (Vec3.num x) (Vec3.num d) =
      if (.num f : Fl ℝ rnd) == 0 then none else some ((Vec3.num x : Vec3 (Fl ℝ rnd)) - (Vec3.num d : Vec3 (Fl ℝ rnd)) * (.num g / .num f : Fl ℝ rnd)) := by
    rw [← ef, ← eg]; rfl
  rw [run]
  have F0 : 0 ≤ |d.x * p.normal.x| + |d.y * p.normal.y| + |d.z * p.normal.z| := by positivity
  have G0 : 0 ≤ |x.x * p.normal.x| + |x.y * p.normal.y| + |x.z * p.normal.z| := by positivity
  have step : ∀ a b t : ℝ, ∃ v : ℝ, (.num a - .num b * .num t : Fl ℝ rnd) = .num v ∧ |v - (a - b * t)| ≤ 2.1 * u * (|a| + |b * t|) := by
    intro a b t
    obtain ⟨-, v, ev, hv⟩ := AbsErr.sub (k := 2) hr (AbsErr.exact hr a) (AbsErr.mul (k := 1) hr (AbsErr.exact hr b) (AbsErr.exact hr t))
    rw [← abs_mul] at hv
    exact ⟨v, ev, hv.trans (mul_le_mul_of_nonneg_right (by linarith) (by positivity))⟩
  have hdot : ∀ q : Vec3 ℝ, ∀ t : ℝ, q.x * p.normal.x + q.y * p.normal.y + q.z * p.normal.z =
      ((q.x - (x.x - d.x * t)) * p.normal.x + (q.y - (x.y - d.y * t)) * p.normal.y + (q.z - (x.z - d.z * t)) * p.normal.z) +
      ((x.x * p.normal.x + x.y * p.normal.y + x.z * p.normal.z) - t * (d.x * p.normal.x + d.y * p.normal.y + d.z * p.normal.z)) := by
    intro q t; ring
  have hsum : ∀ t : ℝ, (|x.x| + |d.x * t|) * |p.normal.x| + (|x.y| + |d.y * t|) * |p.normal.y| + (|x.z| + |d.z * t|) * |p.normal.z| =
      (|x.x * p.normal.x| + |x.y * p.normal.y| + |x.z * p.normal.z|) +
      |t| * (|d.x * p.normal.x| + |d.y * p.normal.y| + |d.z * p.normal.z|) := by
    intro t; simp only [abs_mul]; ring
  simp only
  generalize |d.x * p.normal.x| + |d.y * p.normal.y| + |d.z * p.normal.z| = F at *
  generalize |x.x * p.normal.x| + |x.y * p.normal.y| + |x.z * p.normal.z| = G at *
  generalize d.x * p.normal.x + d.y * p.normal.y + d.z * p.normal.z = f0 at *
  generalize x.x * p.normal.x + x.y * p.normal.y + x.z * p.normal.z = g0 at *
  have hf' := hf.trans (mul_le_mul_of_nonneg_right g3 F0)
  have hg' := hg.trans (mul_le_mul_of_nonneg_right g3 G0)
  have uF := mul_nonneg u0 F0
  have uG := mul_nonneg u0 G0
  rw [Fl.zero_def, Fl.num_beq]
  constructor
  · intro h
    have : f ≠ 0 := by
      rintro rfl
      rw [zero_sub, abs_neg] at hf'
      linarith
    simp [this]
  · intro r h
    by_cases h0 : f = 0
    · simp [h0] at h
    rw [if_neg (by simpa using h0)] at h
    injection h with h
    rw [Fl.num_div, if_neg h0] at h
    have et := hr.err (g / f)
    generalize rnd (g / f) = t at *
    obtain ⟨a, ea, ha⟩ := step x.x d.x t
    obtain ⟨b, eb, hb⟩ := step x.y d.y t
    obtain ⟨c, ec, hc⟩ := step x.z d.z t
    refine ⟨⟨a, b, c⟩, t, ?_, ha, hb, hc, ?_⟩
    · rw [← h]
      change _ = (⟨.num a, .num b, .num c⟩ : Vec3 (Fl ℝ rnd))
      rw [← ea, ← eb, ← ec]; rfl
    · have main : |g0 - t * f0| ≤ 4.1 * u * G + 3.1 * u * (|t| * F) := by
        have e1 : g0 - t * f0 = (g0 - g) + (g / f - t) * f + t * (f - f0) := by field_simp; ring
        have e2 : |(g / f - t) * f| ≤ u * |g| := by
          rw [abs_mul, abs_sub_comm]
          refine (mul_le_mul_of_nonneg_right et (abs_nonneg f)).trans (le_of_eq ?_)
          rw [mul_assoc, ← abs_mul, div_mul_cancel₀ _ h0]
        have e3 : |g| ≤ 1.001 * G := by
          have := abs_sub_abs_le_abs_sub g g0
          have := mul_le_mul_of_nonneg_right hu G0
          linarith
        have e4 := mul_le_mul_of_nonneg_left e3 u0
        have e5 : |t * (f - f0)| ≤ 3.1 * u * (|t| * F) := by
          rw [abs_mul]
          refine (mul_le_mul_of_nonneg_left hf' (abs_nonneg t)).trans ?_
          have := mul_nonneg (abs_nonneg t) uF
          linarith
        rw [e1]
        refine (abs_add_three _ _ _).trans ?_
        rw [abs_sub_comm] at hg'
        linarith
      change |a * p.normal.x + b * p.normal.y + c * p.normal.z| ≤ _
      have hd := hdot ⟨a, b, c⟩ t
      simp only at hd
      rw [hd]
      refine (abs_add_le _ _).trans ?_
      have s1 : |(a - (x.x - d.x * t)) * p.normal.x + (b - (x.y - d.y * t)) * p.normal.y + (c - (x.z - d.z * t)) * p.normal.z| ≤
          2.1 * u * (G + |t| * F) := by
        rw [← hsum]
        refine (abs_add_three _ _ _).trans ?_
        rw [abs_mul, abs_mul, abs_mul]
        have k1 := mul_le_mul_of_nonneg_right ha (abs_nonneg p.normal.x)
        have k2 := mul_le_mul_of_nonneg_right hb (abs_nonneg p.normal.y)
        have k3 := mul_le_mul_of_nonneg_right hc (abs_nonneg p.normal.z)
        linarith
      have := mul_nonneg (abs_nonneg t) uF
      linarith

/-- C191 is false in `float`: the direction `(1 + 2^-12, 2^-24, 1)` is orthogonal to the normal `(1 + 2^-12, 1, -(1 + 2^-11 + 2^-23))`, and a point is returned. -/
theorem C191_refuted (x : Vec3 ℝ) (dist : ℝ) :
    (1 + 1 / 2 ^ 12 : ℝ) * (1 + 1 / 2 ^ 12) + 1 / 2 ^ 24 * 1 + 1 * -(1 + 1 / 2 ^ 11 + 1 / 2 ^ 23) = 0 ∧
    ((Plane.num ⟨⟨1 + 1 / 2 ^ 12, 1, -(1 + 1 / 2 ^ 11 + 1 / 2 ^ 23)⟩, dist⟩ : Plane (Fl ℝ (rne 24))).projectDir (Vec3.num x)
      (Vec3.num ⟨1 + 1 / 2 ^ 12, 1 / 2 ^ 24, 1⟩)).isSome = true := by
  refine ⟨by norm_num, ?_⟩
  have r1 : rne 24 ((1 + 1 / 2 ^ 12) * (1 + 1 / 2 ^ 12) : ℝ) = 1 + 1 / 2 ^ 11 :=
    (rne_tie (-23) (2 ^ 23 + 2 ^ 12) (by norm_num) (by norm_num) (by norm_num) (by norm_num)).trans (by norm_num)
  have r2 : rne 24 (1 / 2 ^ 24 * 1 : ℝ) = 1 / 2 ^ 24 := (rne_of_rep (by norm_num) ⟨1, -24, by norm_num, by norm_num⟩).trans (by norm_num)
  have r3 : rne 24 (1 + 1 / 2 ^ 11 + 1 / 2 ^ 24 : ℝ) = 1 + 1 / 2 ^ 11 :=
    (rne_tie (-23) (2 ^ 23 + 2 ^ 12) (by norm_num) (by norm_num) (by norm_num) (by norm_num)).trans (by norm_num)
  have r4 : rne 24 (1 * -(1 + 1 / 2 ^ 11 + 1 / 2 ^ 23) : ℝ) = -(1 + 1 / 2 ^ 11 + 1 / 2 ^ 23) :=
    (rne_of_rep (by norm_num) ⟨-(2 ^ 23 + 2 ^ 12 + 1), -23, by norm_num, by norm_num⟩).trans (by norm_num)
  have r5 : rne 24 (1 + 1 / 2 ^ 11 + -(1 + 1 / 2 ^ 11 + 1 / 2 ^ 23) : ℝ) = -(1 / 2 ^ 23) :=
    (rne_of_rep (by norm_num) ⟨-1, -23, by norm_num, by norm_num⟩).trans (by norm_num)
  have hf : (Vec3.num ⟨1 + 1 / 2 ^ 12, 1 / 2 ^ 24, 1⟩ : Vec3 (Fl ℝ (rne 24))).dot
      (Plane.num ⟨⟨1 + 1 / 2 ^ 12, 1, -(1 + 1 / 2 ^ 11 + 1 / 2 ^ 23)⟩, dist⟩ : Plane (Fl ℝ (rne 24))).normal = .num (-(1 / 2 ^ 23)) := by
    change Fl.num (rne 24 (rne 24 (rne 24 _ + rne 24 _) + rne 24 _)) = _
    rw [r1, r2, r3, r4, r5]
  have hz : ((.num (-(1 / 2 ^ 23)) : Fl ℝ (rne 24)) == 0) = false := by rw [Fl.zero_def, Fl.num_beq]; norm_num
  simp only [Plane.projectDir, hf, hz]
  rfl

/-- C191 for `Plane::hits(depth, sphere)`: with `v` the signed distance of the centre and `e` the bound `4.1 u` of the size of its terms, nothing is reported
for a centre beyond the radius or behind the plane by more than `e`, a depth is reported for a centre from `e` to the radius less `e`, and every reported depth is a
number that is not negative, and `r - v` up to `e + u r`. -/
theorem C191_sphere (hr : IsRel rnd u) (hu : u ≤ 1 / 4096) (p : Plane ℝ) (c : Vec3 ℝ) (r : ℝ) :
    (let e := 4.1 * u * p.size c
     let res := (Plane.num p : Plane (Fl ℝ rnd)).hitsSphere ⟨Vec3.num c, .num r⟩
     (r + e < p.value c ∨ p.value c < -e → res = none) ∧
     (e ≤ p.value c → p.value c ≤ r - e → res.isSome = true) ∧
     ∀ t, res = some t → ∃ τ : ℝ, t = .num τ ∧ 0 ≤ τ ∧ τ ≤ (1 + u) * r ∧ |τ - (r - p.value c)| ≤ e + u * r) := by
  have u0 := hr.nonneg
  obtain ⟨g4, g4'⟩ := PlaneErr.gam_small u0 hu 4 (by norm_num)
  push_cast at g4
  obtain ⟨hs, v, ev, hv⟩ := PlaneErr.value_err hr p c
  have S0 := p.size_nonneg c
  have uS := mul_nonneg u0 S0
  have hv' : |v - p.value c| ≤ 4.1 * u * p.size c := hv.trans (mul_le_mul_of_nonneg_right (by linarith) S0)
  have hv2 := abs_le.1 hv'
  have run : (Plane.num p : Plane (Fl ℝ rnd)).hitsSphere ⟨Vec3.num c, .num r⟩ =
      if (.num v : Fl ℝ rnd) > .num r then none else if (.num v : Fl ℝ rnd) < 0 then none else some (.num r - .num v) := by
    rw [← ev]; rfl
  simp only [run, Fl.zero_def, gt_iff_lt, Fl.num_lt]
  refine ⟨?_, ?_, ?_⟩
  · rintro (h | h)
    · rw [if_pos (by linarith)]
    · rw [if_pos (show v < 0 by linarith)]; simp
  · intro h1 h2
    rw [if_neg (by linarith), if_neg (by linarith)]; rfl
  · intro t h
    split_ifs at h with h1 h2
    injection h with h
    rw [not_lt] at h1 h2
    have er := hr.err (r - v)
    rw [abs_of_nonneg (show 0 ≤ r - v by linarith)] at er
    have er2 := abs_le.1 er
    have k := mul_le_mul_of_nonneg_left (show r - v ≤ r by linarith) u0
    have k1 := mul_le_mul_of_nonneg_right hr.lt_one.le (show 0 ≤ r - v by linarith)
    refine ⟨rnd (r - v), h.symm, by linarith, by linarith, ?_⟩
    rw [show rnd (r - v) - (r - p.value c) = (rnd (r - v) - (r - v)) - (v - p.value c) by ring]
    refine (abs_sub _ _).trans ?_
    linarith

/-- In `float` the point `(0, 0, 1)` is projected along `(1, 0, 1)` with a scalar product of 1 of terms of size 1, and the unit sphere around `(0, 0, 1/2)` is within
the tolerance of `C191_sphere` from the plane `z = 0`. -/
example : (let p : Plane ℝ := ⟨⟨0, 0, 1⟩, 0⟩
    let d : Vec3 ℝ := ⟨1, 0, 1⟩
    3.1 * (2 : ℝ) ^ (-24 : ℤ) * (|d.x * p.normal.x| + |d.y * p.normal.y| + |d.z * p.normal.z|) <
      |d.x * p.normal.x + d.y * p.normal.y + d.z * p.normal.z| ∧
    4.1 * (2 : ℝ) ^ (-24 : ℤ) * p.size ⟨0, 0, 1 / 2⟩ ≤ p.value ⟨0, 0, 1 / 2⟩ ∧
    p.value ⟨0, 0, 1 / 2⟩ ≤ 1 - 4.1 * (2 : ℝ) ^ (-24 : ℤ) * p.size ⟨0, 0, 1 / 2⟩) := by
  norm_num [Plane.size, Plane.value, abs_of_pos]

end MathLib
