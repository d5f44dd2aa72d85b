import Verif.Proof.LineDist
import Verif.Proof.Rne
import Verif.Props.RoundedPlanes

/-! # C199: turning vectors about a coordinate axis in floating point -/

namespace MathLib
variable {p : ℕ}

/-- `(A, B)` is the vector `(y, z)` of the plane turned by the angle `θ` against the clock, up to `e` in each coordinate -/
def Turned (e y z θ A B : ℝ) : Prop :=
  |A - (y * Real.cos θ - z * Real.sin θ)| ≤ e ∧ |B - (y * Real.sin θ + z * Real.cos θ)| ≤ e

namespace AxisTurn
open LineDist

theorem mix (y z θ : ℝ) : |y * Real.cos θ| + |z * Real.sin θ| ≤ √(y ^ 2 + z ^ 2) ∧ |y * Real.sin θ| + |z * Real.cos θ| ≤ √(y ^ 2 + z ^ 2) := by
  have q := Real.sin_sq_add_cos_sq θ
  have key : ∀ c s : ℝ, s ^ 2 + c ^ 2 = 1 → |y * c| + |z * s| ≤ √(y ^ 2 + z ^ 2) := by
    intro c s h
    apply Real.le_sqrt_of_sq_le
    rw [abs_mul, abs_mul]
    have e : y ^ 2 + z ^ 2 = (|y| ^ 2 + |z| ^ 2) * (|s| ^ 2 + |c| ^ 2) := by rw [sq_abs, sq_abs, sq_abs, sq_abs, h, mul_one]
    rw [e]
    nlinarith [sq_nonneg (|y| * |s| - |z| * |c|)]
  exact ⟨key _ _ q, key _ _ (by linarith)⟩

theorem plane (hp : 12 ≤ p) (y z θ : ℝ) : ∃ A B : ℝ,
    (.num y * MathFns.cos (.num θ) - .num z * MathFns.sin (.num θ) : Fl ℝ (rne p)) = .num A ∧
    (.num y * MathFns.sin (.num θ) + .num z * MathFns.cos (.num θ) : Fl ℝ (rne p)) = .num B ∧
    Turned (3.1 * 2 ^ (-(p : ℤ)) * √(y ^ 2 + z ^ 2)) y z θ A B := by
  have hr := isRel_rne p (show 1 ≤ p by omega)
  have hu : (2 : ℝ) ^ (-(p : ℤ)) ≤ 1 / 4096 := by
    calc (2 : ℝ) ^ (-(p : ℤ)) ≤ 2 ^ (-(12 : ℤ)) := zpow_le_zpow_right₀ (by norm_num) (by omega)
      _ = 1 / 4096 := by norm_num
  generalize (2 : ℝ) ^ (-(p : ℤ)) = u at *
  have g := (PlaneErr.gam_small hr.nonneg hu 3 (by norm_num)).1
  push_cast at g
  have g' : gam u 3 ≤ 3.1 * u := g.trans (by nlinarith [hr.nonneg])
  have rel : ∀ t : ℝ, Rel u 1 t (.num (rne p t) : Fl ℝ (rne p)) := fun t => by
    obtain ⟨φ, h1, h2⟩ := hr.fac t
    exact ⟨φ, h1, by rw [h2]⟩
  have pr : ∀ a t : ℝ, AbsErr u 2 |a * t| (a * t) (.num a * .num (rne p t) : Fl ℝ (rne p)) := fun a t =>
    AbsErr.of_rel hr (Rel.mul hr (Rel.exact hr a) (rel t))
  obtain ⟨-, A, eA, hA⟩ := AbsErr.sub (k := 3) hr (pr y (Real.cos θ)) (pr z (Real.sin θ))
  obtain ⟨-, B, eB, hB⟩ := AbsErr.add (k := 3) hr (pr y (Real.sin θ)) (pr z (Real.cos θ))
  obtain ⟨m1, m2⟩ := mix y z θ
  refine ⟨A, B, eA, eB, hA.trans (mul_le_mul g' m1 (by positivity) ?_), hB.trans (mul_le_mul g' m2 (by positivity) ?_)⟩ <;>
  exact mul_nonneg (by norm_num) hr.nonneg

theorem len {e y z θ A B : ℝ} (h : Turned e y z θ A B) (k : ℝ) :
    |√(k ^ 2 + A ^ 2 + B ^ 2) - √(k ^ 2 + y ^ 2 + z ^ 2)| ≤ 1.42 * e := by
  have e0 : 0 ≤ e := (abs_nonneg _).trans h.1
  have n := nm_near ⟨k, A, B⟩ ⟨k, y * Real.cos θ - z * Real.sin θ, y * Real.sin θ + z * Real.cos θ⟩
  have q : nm ⟨k, y * Real.cos θ - z * Real.sin θ, y * Real.sin θ + z * Real.cos θ⟩ = √(k ^ 2 + y ^ 2 + z ^ 2) := by
    unfold nm
    congr 1
    linear_combination (y ^ 2 + z ^ 2) * Real.sin_sq_add_cos_sq θ
  rw [q] at n
  refine n.trans ?_
  unfold nm
  apply Real.sqrt_le_iff.2 ⟨by linarith, ?_⟩
  simp only [Vec3.sub_x, Vec3.sub_y, Vec3.sub_z, sub_self]
  have s1 := sq_le_sq' (abs_le.1 h.1).1 (abs_le.1 h.1).2
  have s2 := sq_le_sq' (abs_le.1 h.2).1 (abs_le.1 h.2).2
  nlinarith [sq_nonneg e]

/-- turning back -/
theorem back {u y z θ A B C D : ℝ} (h0 : 0 ≤ u) (hu : u ≤ 1 / 4096) (h : Turned (3.1 * u * √(y ^ 2 + z ^ 2)) y z θ A B)
    (h' : Turned (3.1 * u * √(A ^ 2 + B ^ 2)) A B (-θ) C D) :
    |C - y| ≤ 7.6 * u * √(y ^ 2 + z ^ 2) ∧ |D - z| ≤ 7.6 * u * √(y ^ 2 + z ^ 2) := by
  have l := len h 0
  simp only [ne_eq, OfNat.ofNat_ne_zero, not_false_eq_true, zero_pow, zero_add] at l
  obtain ⟨r, hr⟩ : ∃ r, r = √(y ^ 2 + z ^ 2) := ⟨_, rfl⟩
  have r0 : 0 ≤ r := by rw [hr]; exact Real.sqrt_nonneg _
  rw [← hr] at h l ⊢
  have l' := (abs_le.1 l).2
  have hs : √(A ^ 2 + B ^ 2) ≤ 1.002 * r := by
    have := mul_le_mul_of_nonneg_right hu r0
    nlinarith
  have m1 : 3.1 * u * √(A ^ 2 + B ^ 2) ≤ 3.1 * u * (1.002 * r) := mul_le_mul_of_nonneg_left hs (by positivity)
  obtain ⟨c1, c2⟩ := h'
  rw [Real.cos_neg, Real.sin_neg] at c1 c2
  obtain ⟨a1, a2⟩ := h
  have ur : 0 ≤ u * r := mul_nonneg h0 r0
  have q := Real.sin_sq_add_cos_sq θ
  -- the errors of the first turn, turned back
  have t : ∀ f g : ℝ, |f| ≤ 3.1 * u * r → |g| ≤ 3.1 * u * r → ∀ c s : ℝ, s ^ 2 + c ^ 2 = 1 → |f * c + g * s| ≤ 4.4 * (u * r) := by
    intro f g hf hg c s hcs
    apply abs_le_of_sq_le_sq _ (by positivity)
    have f2 := sq_le_sq' (abs_le.1 hf).1 (abs_le.1 hf).2
    have g2 := sq_le_sq' (abs_le.1 hg).1 (abs_le.1 hg).2
    have cs : (f * c + g * s) ^ 2 ≤ f ^ 2 + g ^ 2 := by
      have : f ^ 2 + g ^ 2 = (f ^ 2 + g ^ 2) * (s ^ 2 + c ^ 2) := by rw [hcs, mul_one]
      nlinarith [sq_nonneg (f * s - g * c)]
    nlinarith [sq_nonneg (u * r)]
  have t1 := t _ _ a1 a2 (Real.cos θ) (Real.sin θ) q
  have t2 := t _ _ a2 a1 (Real.cos θ) (-Real.sin θ) (by rw [neg_sq]; exact q)
  constructor
  · have s := abs_add_le (C - (A * Real.cos θ - B * -Real.sin θ)) ((A - (y * Real.cos θ - z * Real.sin θ)) * Real.cos θ + (B - (y * Real.sin θ + z * Real.cos θ)) * Real.sin θ)
    rw [show C - (A * Real.cos θ - B * -Real.sin θ) + ((A - (y * Real.cos θ - z * Real.sin θ)) * Real.cos θ + (B - (y * Real.sin θ + z * Real.cos θ)) * Real.sin θ) = C - y by
      linear_combination (-y) * q] at s
    nlinarith
  · have s := abs_add_le (D - (A * -Real.sin θ + B * Real.cos θ)) ((B - (y * Real.sin θ + z * Real.cos θ)) * Real.cos θ + (A - (y * Real.cos θ - z * Real.sin θ)) * -Real.sin θ)
    rw [show D - (A * -Real.sin θ + B * Real.cos θ) + ((B - (y * Real.sin θ + z * Real.cos θ)) * Real.cos θ + (A - (y * Real.cos θ - z * Real.sin θ)) * -Real.sin θ) = D - z by
      linear_combination (-z) * q] at s
    nlinarith

end AxisTurn

open AxisTurn

/-- C199: a vector turned about a coordinate axis keeps its coordinate along the axis exactly, and the other two are turned against the
clock as seen from the tip of the axis, up to `3.1` units of the distance from the axis. -/
theorem C199_accurate (hp : 12 ≤ p) (v : Vec3 ℝ) (θ : ℝ) :
    (∃ A B, (Vec3.num v : Vec3 (Fl ℝ (rne p))).rotated .X (.num θ) = Vec3.num ⟨v.x, A, B⟩ ∧
      Turned (3.1 * 2 ^ (-(p : ℤ)) * √(v.y ^ 2 + v.z ^ 2)) v.y v.z θ A B) ∧
    (∃ A B, (Vec3.num v : Vec3 (Fl ℝ (rne p))).rotated .Y (.num θ) = Vec3.num ⟨B, v.y, A⟩ ∧
      Turned (3.1 * 2 ^ (-(p : ℤ)) * √(v.z ^ 2 + v.x ^ 2)) v.z v.x θ A B) ∧
    (∃ A B, (Vec3.num v : Vec3 (Fl ℝ (rne p))).rotated .Z (.num θ) = Vec3.num ⟨A, B, v.z⟩ ∧
      Turned (3.1 * 2 ^ (-(p : ℤ)) * √(v.x ^ 2 + v.y ^ 2)) v.x v.y θ A B) := by
  refine ⟨?_, ?_, ?_⟩
  · obtain ⟨A, B, eA, eB, h⟩ := plane hp v.y v.z θ
    exact ⟨A, B, by simp only [Vec3.rotated, Vec3.num, eA, eB], h⟩
  · obtain ⟨A, B, eA, eB, h⟩ := plane hp v.z v.x θ
    refine ⟨A, B, ?_, h⟩
    have e1 : (.num v.x * MathFns.cos (.num θ) + .num v.z * MathFns.sin (.num θ) : Fl ℝ (rne p)) = .num B := by
      rw [← eB]; simp only [Fl.fl_sin, Fl.fl_cos, Fl.num_mul, Fl.num_add]; rw [add_comm]
    have e2 : (-.num v.x * MathFns.sin (.num θ) + .num v.z * MathFns.cos (.num θ) : Fl ℝ (rne p)) = .num A := by
      rw [← eA]; simp only [Fl.fl_sin, Fl.fl_cos, Fl.num_mul, Fl.num_add, Fl.num_sub, Fl.num_neg, neg_mul, rne_neg]; rw [neg_add_eq_sub]
    simp only [Vec3.rotated, Vec3.num, e1, e2]
  · obtain ⟨A, B, eA, eB, h⟩ := plane hp v.x v.y θ
    exact ⟨A, B, by simp only [Vec3.rotated, Vec3.num, eA, eB], h⟩

/-- C199: the length of the vector is kept up to `4.5` units, and turning back returns the vector up to `7.6` units of its length. -/
theorem C199_back (hp : 12 ≤ p) (v : Vec3 ℝ) (θ : ℝ) (c : Coord) (hc : c = .X ∨ c = .Y ∨ c = .Z) :
    ∃ w z : Vec3 ℝ, (Vec3.num v : Vec3 (Fl ℝ (rne p))).rotated c (.num θ) = Vec3.num w ∧
      |√(w.x ^ 2 + w.y ^ 2 + w.z ^ 2) - √(v.x ^ 2 + v.y ^ 2 + v.z ^ 2)| ≤ 4.5 * 2 ^ (-(p : ℤ)) * √(v.x ^ 2 + v.y ^ 2 + v.z ^ 2) ∧
      (Vec3.num w : Vec3 (Fl ℝ (rne p))).rotated c (-.num θ) = Vec3.num z ∧
      |z.x - v.x| ≤ 7.6 * 2 ^ (-(p : ℤ)) * √(v.x ^ 2 + v.y ^ 2 + v.z ^ 2) ∧
      |z.y - v.y| ≤ 7.6 * 2 ^ (-(p : ℤ)) * √(v.x ^ 2 + v.y ^ 2 + v.z ^ 2) ∧
      |z.z - v.z| ≤ 7.6 * 2 ^ (-(p : ℤ)) * √(v.x ^ 2 + v.y ^ 2 + v.z ^ 2) := by
  have h0 : (0 : ℝ) ≤ 2 ^ (-(p : ℤ)) := by positivity
  have hu : (2 : ℝ) ^ (-(p : ℤ)) ≤ 1 / 4096 := by
    calc (2 : ℝ) ^ (-(p : ℤ)) ≤ 2 ^ (-(12 : ℤ)) := zpow_le_zpow_right₀ (by norm_num) (by omega)
      _ = 1 / 4096 := by norm_num
  have S : ∀ {a b : ℝ}, a ≤ b → ∀ {k : ℝ}, 0 ≤ k → k * 2 ^ (-(p : ℤ)) * √a ≤ k * 2 ^ (-(p : ℤ)) * √b := fun h k hk =>
    mul_le_mul_of_nonneg_left (Real.sqrt_le_sqrt h) (mul_nonneg hk h0)
  have x2 := sq_nonneg v.x; have y2 := sq_nonneg v.y; have z2 := sq_nonneg v.z
  have L : ∀ {s t : ℝ}, 0 ≤ s → s ≤ t → 1.42 * (3.1 * 2 ^ (-(p : ℤ)) * √s) ≤ 4.5 * 2 ^ (-(p : ℤ)) * √t := fun {s t} _ h => by
    have := S h (k := 4.5) (by norm_num)
    have := mul_nonneg h0 (Real.sqrt_nonneg s)
    nlinarith
  have Z : ∀ x t : ℝ, |x - x| ≤ 7.6 * 2 ^ (-(p : ℤ)) * √t := fun x t => by
    rw [sub_self, abs_zero]; exact mul_nonneg (mul_nonneg (by norm_num) h0) (Real.sqrt_nonneg t)
  have N : (-.num θ : Fl ℝ (rne p)) = .num (-θ) := rfl
  rw [N]
  rcases hc with rfl | rfl | rfl
  · obtain ⟨A, B, e, h⟩ := (C199_accurate hp v θ).1
    obtain ⟨C, D, e', h'⟩ := (C199_accurate hp ⟨v.x, A, B⟩ (-θ)).1
    have l := len h v.x
    have b := back h0 hu h h'
    have i : v.y ^ 2 + v.z ^ 2 ≤ v.x ^ 2 + v.y ^ 2 + v.z ^ 2 := by linarith
    exact ⟨_, _, e, l.trans (L (by positivity) i), e', Z _ _, b.1.trans (S i (by norm_num)), b.2.trans (S i (by norm_num))⟩
  · obtain ⟨A, B, e, h⟩ := (C199_accurate hp v θ).2.1
    obtain ⟨C, D, e', h'⟩ := (C199_accurate hp ⟨B, v.y, A⟩ (-θ)).2.1
    have l := len h v.y
    have b := back h0 hu h h'
    have i : v.z ^ 2 + v.x ^ 2 ≤ v.x ^ 2 + v.y ^ 2 + v.z ^ 2 := by linarith
    refine ⟨_, _, e, ?_, e', b.2.trans (S i (by norm_num)), Z _ _, b.1.trans (S i (by norm_num))⟩
    rw [show v.y ^ 2 + A ^ 2 + B ^ 2 = B ^ 2 + v.y ^ 2 + A ^ 2 by ring,
      show v.y ^ 2 + v.z ^ 2 + v.x ^ 2 = v.x ^ 2 + v.y ^ 2 + v.z ^ 2 by ring] at l
    exact l.trans (L (by positivity) i)
  · obtain ⟨A, B, e, h⟩ := (C199_accurate hp v θ).2.2
    obtain ⟨C, D, e', h'⟩ := (C199_accurate hp ⟨A, B, v.z⟩ (-θ)).2.2
    have l := len h v.z
    have b := back h0 hu h h'
    have i : v.x ^ 2 + v.y ^ 2 ≤ v.x ^ 2 + v.y ^ 2 + v.z ^ 2 := by linarith
    refine ⟨_, _, e, ?_, e', b.1.trans (S i (by norm_num)), b.2.trans (S i (by norm_num)), Z _ _⟩
    rw [show v.z ^ 2 + A ^ 2 + B ^ 2 = A ^ 2 + B ^ 2 + v.z ^ 2 by ring,
      show v.z ^ 2 + v.x ^ 2 + v.y ^ 2 = v.x ^ 2 + v.y ^ 2 + v.z ^ 2 by ring] at l
    exact l.trans (L (by positivity) i)

/-- C199: the same for vectors of the plane. -/
theorem C199_plane (hp : 12 ≤ p) (v : Vec2 ℝ) (θ : ℝ) :
    ∃ w z : Vec2 ℝ, (Vec2.num v : Vec2 (Fl ℝ (rne p))).rotated (.num θ) = Vec2.num w ∧
      Turned (3.1 * 2 ^ (-(p : ℤ)) * √(v.x ^ 2 + v.y ^ 2)) v.x v.y θ w.x w.y ∧
      |√(w.x ^ 2 + w.y ^ 2) - √(v.x ^ 2 + v.y ^ 2)| ≤ 4.5 * 2 ^ (-(p : ℤ)) * √(v.x ^ 2 + v.y ^ 2) ∧
      (Vec2.num w : Vec2 (Fl ℝ (rne p))).rotated (-.num θ) = Vec2.num z ∧
      |z.x - v.x| ≤ 7.6 * 2 ^ (-(p : ℤ)) * √(v.x ^ 2 + v.y ^ 2) ∧ |z.y - v.y| ≤ 7.6 * 2 ^ (-(p : ℤ)) * √(v.x ^ 2 + v.y ^ 2) := by
  have h0 : (0 : ℝ) ≤ 2 ^ (-(p : ℤ)) := by positivity
  have hu : (2 : ℝ) ^ (-(p : ℤ)) ≤ 1 / 4096 := by
    calc (2 : ℝ) ^ (-(p : ℤ)) ≤ 2 ^ (-(12 : ℤ)) := zpow_le_zpow_right₀ (by norm_num) (by omega)
      _ = 1 / 4096 := by norm_num
  obtain ⟨A, B, eA, eB, h⟩ := plane hp v.x v.y θ
  obtain ⟨C, D, eC, eD, h'⟩ := plane hp A B (-θ)
  have N : (-.num θ : Fl ℝ (rne p)) = .num (-θ) := rfl
  have l := len h 0
  simp only [ne_eq, OfNat.ofNat_ne_zero, not_false_eq_true, zero_pow, zero_add] at l
  refine ⟨⟨A, B⟩, ⟨C, D⟩, by simp only [Vec2.rotated, Vec2.num, eA, eB], h, l.trans ?_, by simp only [Vec2.rotated, Vec2.num, N, eC, eD],
    back h0 hu h h'⟩
  have := mul_nonneg h0 (Real.sqrt_nonneg (v.x ^ 2 + v.y ^ 2))
  nlinarith

/-- C199: turning a vector about a coordinate axis and multiplying it by the matrix of that turn give the same numbers. -/
theorem C199_matrix (hp : 1 ≤ p) (v : Vec3 ℝ) (hx : Rep p v.x) (hy : Rep p v.y) (hz : Rep p v.z) (θ : ℝ) (c : Coord)
    (hc : c = .X ∨ c = .Y ∨ c = .Z) :
    ∃ m : Mat3 (Fl ℝ (rne p)), Mat3.ofCoordAngle c (.num θ) = .ok m ∧ m.mulVec (Vec3.num v) = (Vec3.num v).rotated c (.num θ) := by
  have x := rne_of_rep hp hx
  have y := rne_of_rep hp hy
  have z := rne_of_rep hp hz
  rcases hc with rfl | rfl | rfl <;>
  · refine ⟨_, rfl, ?_⟩
    simp only [Mat3.mulVec, Mat3.ofCols, Mat3.optimize, Mat3.optimizeTol, Vec3.rotated, Vec3.num, Fl.zero_def, Fl.one_def, Fl.fl_sin, Fl.fl_cos, Fl.num_mul, Fl.num_add,
      Fl.num_sub, Fl.num_neg, mul_zero, mul_one, zero_add, add_zero, rne_zero, rne_rne p hp, mul_neg, neg_mul, rne_neg, x, y, z, sub_eq_add_neg]

/-- the vector (1, 2, 3) turned about the axes in `float` -/
example : (∃ A B, (Vec3.num ⟨1, 2, 3⟩ : Vec3 (Fl ℝ (rne 24))).rotated .X (.num (1 / 2)) = Vec3.num ⟨1, A, B⟩ ∧
    Turned (3.1 * 2 ^ (-((24 : ℕ) : ℤ)) * √(2 ^ 2 + 3 ^ 2)) 2 3 (1 / 2) A B) := (C199_accurate (p := 24) (by norm_num) ⟨1, 2, 3⟩ (1 / 2)).1

example : ∃ m : Mat3 (Fl ℝ (rne 24)), Mat3.ofCoordAngle .Y (.num (1 / 2)) = .ok m ∧
    m.mulVec (Vec3.num ⟨1, 2, 4⟩) = (Vec3.num ⟨1, 2, 4⟩).rotated .Y (.num (1 / 2)) :=
  C199_matrix (by norm_num) _ (by simpa using Rep.zpow (K := ℝ) (p := 24) 0) (by simpa using Rep.zpow (K := ℝ) (p := 24) 1)
    (by have := Rep.zpow (K := ℝ) (p := 24) 2; norm_num at this; exact this) _ _ (.inr (.inl rfl))

example : (12 : ℕ) ≤ 24 ∧ (Coord.Z = .X ∨ Coord.Z = .Y ∨ Coord.Z = .Z) := ⟨by norm_num, by simp⟩

end MathLib
