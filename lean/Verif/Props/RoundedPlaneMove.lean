import Verif.Props.RoundedPlanes
import Verif.Props.RoundedVectors
import Verif.Props.RoundedEasing
import Verif.Proof.RneTie

/-! # C195: moving planes, and planes from a normal and a distance, in floating point -/

namespace MathLib

section accuracy
variable {rnd : ℝ → ℝ} {u : ℝ}

/-- C195: a moved plane keeps its normal bit for bit, and the computed distance of any point from it is the old distance less the given one, up to `4.1` units of the
terms; moved back, the distance of the plane from the origin is right up to `2.1` units of the terms. -/
theorem C195_move (hr : IsRel rnd u) (hu : u ≤ 1 / 4096) (p : Plane ℝ) (k : ℝ) (x : Vec3 ℝ) :
    ((Plane.num p : Plane (Fl ℝ rnd)).moved (.num k)).normal = Vec3.num p.normal ∧
    ((Plane.num p : Plane (Fl ℝ rnd)).move (.num k)).normal = Vec3.num p.normal ∧
    (∀ q : Plane (Fl ℝ rnd), q = (Plane.num p : Plane (Fl ℝ rnd)).moved (.num k) ∨ q = (Plane.num p : Plane (Fl ℝ rnd)).move (.num k) ∨
        q = Plane.fromPlane (Plane.num p) (.num k) →
      (q.distance (Vec3.num x)).Within
        (4.1 * u * (|x.x * p.normal.x| + |x.y * p.normal.y| + |x.z * p.normal.z| + (|p.d| + |k|)))
        (x.x * p.normal.x + x.y * p.normal.y + x.z * p.normal.z - p.d - k) ∧
      (q.move (.num (-k))).d.Within (2.1 * u * (|p.d| + 2 * |k|)) p.d) := by
  have u0 := hr.nonneg
  refine ⟨rfl, rfl, fun q hq => ?_⟩
  obtain rfl : q = ⟨Vec3.num p.normal, .num p.d + .num k⟩ := by rcases hq with h | h | h <;> exact h
  have g4 := PlaneErr.gam_small u0 hu 4 (by norm_num)
  have g2 := PlaneErr.gam_small u0 hu 2 (by norm_num)
  push_cast at g4 g2
  have s := AbsErr.add (k := 1) hr (AbsErr.exact hr p.d) (AbsErr.exact hr k)
  constructor
  · obtain ⟨-, v, e, h⟩ := AbsErr.sub (k := 4) hr (abs_sum3 hr x.x p.normal.x x.y p.normal.y x.z p.normal.z) s
    refine ⟨v, e, ?_⟩
    rw [sub_sub _ p.d k]
    exact h.trans (mul_le_mul_of_nonneg_right (by linarith [g4.1]) (by positivity))
  · obtain ⟨-, v, e, h⟩ := AbsErr.add (k := 2) hr s (AbsErr.exact hr (-k))
    refine ⟨v, e, ?_⟩
    rw [add_neg_cancel_right, abs_neg] at h
    refine h.trans ?_
    rw [show |p.d| + |k| + |k| = |p.d| + 2 * |k| by ring]
    exact mul_le_mul_of_nonneg_right (by linarith [g2.1]) (by positivity)

/-- C195: a plane from a normal that is not null and a distance has exactly that distance, and a normal of length `1` up to `5.1` units in the direction of the
given one, each coordinate up to `5.1` units of itself. -/
theorem C195_normal (hr : IsRel rnd u) (hu : u ≤ 1 / 4096) (n : Vec3 ℝ) (hn : n ≠ ⟨0, 0, 0⟩) (d : ℝ) (self : Plane (Fl ℝ rnd)) :
    ∃ p : Plane ℝ, Plane.fromNormal (Vec3.num n : Vec3 (Fl ℝ rnd)) (.num d) = Plane.num p ∧
      self.setNormal (fun _ => Vec3.num n) (.num d) = Plane.num p ∧ p.d = d ∧
      (let l := √(n.x ^ 2 + n.y ^ 2 + n.z ^ 2)
       |p.normal.x - n.x / l| ≤ 5.1 * u * |n.x / l| ∧ |p.normal.y - n.y / l| ≤ 5.1 * u * |n.y / l| ∧
       |p.normal.z - n.z / l| ≤ 5.1 * u * |n.z / l|) ∧
      |√(p.normal.x ^ 2 + p.normal.y ^ 2 + p.normal.z ^ 2) - 1| ≤ 5.1 * u := by
  have u0 := hr.nonneg
  obtain ⟨w, e, -, h, l1, l2⟩ := C119_normalized3 hr n hn 1
  have g5 := PlaneErr.gam_small u0 hu 5 (by norm_num)
  push_cast at g5
  have g : gam u 5 ≤ 5.1 * u := by linarith [g5.1]
  simp only [mul_one_div, abs_one, mul_one] at h l1 l2
  have l2' : √(w.x ^ 2 + w.y ^ 2 + w.z ^ 2) - 1 ≤ gam u 5 := by
    unfold gam; rw [one_div] at l2; linarith
  have l1' : 1 - 5 * u ≤ (1 - u) ^ 5 := by
    have := one_add_mul_le_pow (show (-2 : ℝ) ≤ -u by linarith [hr.lt_one]) 5
    push_cast at this
    rw [← sub_eq_add_neg] at this
    linarith
  refine ⟨⟨w, d⟩, ?_, ?_, rfl, ⟨h.1.trans (mul_le_mul_of_nonneg_right g (abs_nonneg _)), h.2.1.trans (mul_le_mul_of_nonneg_right g (abs_nonneg _)),
    h.2.2.trans (mul_le_mul_of_nonneg_right g (abs_nonneg _))⟩, ?_⟩
  · change (⟨(Vec3.num n : Vec3 (Fl ℝ rnd)).normalized (.num 1), .num d⟩ : Plane (Fl ℝ rnd)) = _
    rw [e]; rfl
  · change (⟨(Vec3.num n : Vec3 (Fl ℝ rnd)).normalized (.num 1), .num d⟩ : Plane (Fl ℝ rnd)) = _
    rw [e]; rfl
  · rw [abs_le]; constructor <;> linarith

end accuracy

section ieee
variable {p : ℕ}

/-- C195: the computed distance of a point from a moved plane never grows with the movement. -/
theorem C195_order (hp : 1 ≤ p) (P : Plane ℝ) (x : Vec3 ℝ) {j k : ℝ} (h : j ≤ k) :
    ((Plane.num P : Plane (Fl ℝ (rne p))).moved (.num k)).distance (Vec3.num x) ≤ ((Plane.num P : Plane (Fl ℝ (rne p))).moved (.num j)).distance (Vec3.num x) := by
  have m := rne_mono (K := ℝ) p hp
  change (Fl.num _ * Fl.num _ + Fl.num _ * Fl.num _ + Fl.num _ * Fl.num _ - (Fl.num _ + Fl.num _) : Fl ℝ (rne p)) ≤
    (Fl.num _ * Fl.num _ + Fl.num _ * Fl.num _ + Fl.num _ * Fl.num _ - (Fl.num _ + Fl.num _) : Fl ℝ (rne p))
  simp only [Fl.num_add, Fl.num_sub, Fl.num_mul, Fl.num_le]
  exact m (sub_le_sub_left (m (add_le_add le_rfl h)) _)

/-- C195: in `float` a plane at distance `1`, moved by `2^24` and back, is at distance `0`. -/
theorem C195_back (n : Vec3 ℝ) : (((Plane.num ⟨n, 1⟩ : Plane (Fl ℝ (rne 24))).move (.num (2 ^ 24))).move (.num (-2 ^ 24))).d = .num 0 := by
  have e1 : rne 24 ((1 : ℝ) + 2 ^ 24) = 2 ^ 24 := by
    rw [rne_tie 1 (2 ^ 23) (by norm_num) (by norm_num) (by norm_num) (by norm_num)]; norm_num
  change (Fl.num 1 + Fl.num (2 ^ 24) + Fl.num (-2 ^ 24) : Fl ℝ (rne 24)) = _
  simp only [Fl.num_add, e1, add_neg_cancel, rne_zero]

example : ∃ q : Plane ℝ, Plane.fromNormal (Vec3.num ⟨1, 2, 2⟩ : Vec3 (Fl ℝ (rne 24))) (.num 5) = Plane.num q ∧ q.d = 5 ∧
    |√(q.normal.x ^ 2 + q.normal.y ^ 2 + q.normal.z ^ 2) - 1| ≤ 5.1 * 2 ^ (-((24 : ℕ) : ℤ)) := by
  obtain ⟨q, h1, -, h2, -, h3⟩ := C195_normal (isRel_rne 24 (by norm_num)) (by norm_num) ⟨1, 2, 2⟩ (by simp) 5 (Plane.num ⟨⟨0, 0, 1⟩, 0⟩)
  exact ⟨q, h1, h2, h3⟩

example : ((Plane.num ⟨⟨0, 0, 1⟩, 1 / 10⟩ : Plane (Fl ℝ (rne 24))).moved (.num 3)).distance (Vec3.num ⟨1, 2, 3⟩) ≤
    ((Plane.num ⟨⟨0, 0, 1⟩, 1 / 10⟩ : Plane (Fl ℝ (rne 24))).moved (.num 2)).distance (Vec3.num ⟨1, 2, 3⟩) :=
  C195_order (by norm_num) _ _ (by norm_num)

end ieee

end MathLib
