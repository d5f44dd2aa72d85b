import Verif.Proof.PlaneFit
import Verif.Props.RoundedCurves
import Verif.Props.RoundedFrames
import Verif.Props.Splines

/-! # Property C171: the Frenet frame of a Bezier segment in floating point -/

namespace MathLib
open LineDist PlaneFit Set

private theorem nm_le {v : Vec3 ℝ} {c : ℝ} (hx : |v.x| ≤ c) (hy : |v.y| ≤ c) (hz : |v.z| ≤ c) : nm v ≤ 1.7321 * c := by
  have hc : 0 ≤ c := (abs_nonneg _).trans hx
  apply le_of_sq_le_sq _ (by positivity)
  rw [nm_sq]
  have f : ∀ {a : ℝ}, |a| ≤ c → a ^ 2 ≤ c ^ 2 := fun {a} h => by
    have := pow_le_pow_left₀ (abs_nonneg a) h 2
    rwa [sq_abs] at this
  have := f hx; have := f hy; have := f hz
  have := sq_nonneg c
  rw [mul_pow]
  linarith

section
variable {p : ℕ} (hp : 12 ≤ p) {t : ℝ} (h0 : 0 ≤ t) (h1 : t ≤ 1)
include hp h0 h1

/-- one coordinate of the first derivative, and its size -/
private theorem first {y₁ y₂ y₃ y₄ K : ℝ} (k₁ : |y₁| ≤ K) (k₂ : |y₂| ≤ K) (k₃ : |y₃| ≤ K) (k₄ : |y₄| ≤ K) :
    Apx (2 ^ (-(p : ℤ))) (Fl.num y₁ * (-3 * (Fl.num t * Fl.num t) + 6 * Fl.num t - 3) +
        Fl.num y₂ * (9 * (Fl.num t * Fl.num t) - 12 * Fl.num t + 3) +
        Fl.num y₃ * (-9 * (Fl.num t * Fl.num t) + 6 * Fl.num t) +
        Fl.num y₄ * (3 * (Fl.num t * Fl.num t)) : Fl ℝ (rne p))
      (y₁ * (-3 * (1 - t) ^ 2) + y₂ * (3 * (1 - t) ^ 2 - 6 * t * (1 - t)) + y₃ * (6 * t * (1 - t) - 3 * t ^ 2) +
        y₄ * (3 * t ^ 2)) (120 * K) (6 * K) := by
  have hr := isRel_rne p (by omega : 1 ≤ p)
  obtain ⟨c1, c2, c3, c4⟩ := bezier_dcoeffs hp h0 h1
  have c0 : 0 ≤ 1 - t := by linarith
  refine comb4 hr (small_unit hp) ((abs_nonneg _).trans k₁) c1 c2 c3 c4 (by norm_num) (by norm_num) (by norm_num)
    (by norm_num) k₁ k₂ k₃ k₄ (S := 6) ?_ ?_
  · have q1 : 0 ≤ 3 * (1 - t) ^ 2 := by positivity
    have q2 : 0 ≤ 6 * t * (1 - t) := by positivity
    have q3 : 0 ≤ 3 * t ^ 2 := by positivity
    have b2 := abs_sub (3 * (1 - t) ^ 2) (6 * t * (1 - t))
    have b3 := abs_sub (6 * t * (1 - t)) (3 * t ^ 2)
    have b1 : |-3 * (1 - t) ^ 2| = 3 * (1 - t) ^ 2 := by rw [neg_mul, abs_neg, abs_of_nonneg q1]
    rw [abs_of_nonneg q1, abs_of_nonneg q2] at b2
    rw [abs_of_nonneg q3, abs_of_nonneg q2] at b3
    rw [b1, abs_of_nonneg q3]
    have : 6 * (1 - t) ^ 2 + 2 * (6 * t * (1 - t)) + 6 * t ^ 2 = 6 := by ring
    linarith
  · norm_num

/-- one coordinate of the second derivative, and its size -/
private theorem second {y₁ y₂ y₃ y₄ K : ℝ} (k₁ : |y₁| ≤ K) (k₂ : |y₂| ≤ K) (k₃ : |y₃| ≤ K) (k₄ : |y₄| ≤ K) :
    Apx (2 ^ (-(p : ℤ))) (Fl.num y₁ * (-6 * Fl.num t + 6) + Fl.num y₂ * (18 * Fl.num t - 12) +
        Fl.num y₃ * (-18 * Fl.num t + 6) + Fl.num y₄ * (6 * Fl.num t) : Fl ℝ (rne p))
      (y₁ * (6 * (1 - t)) + y₂ * (18 * t - 12) + y₃ * (6 - 18 * t) + y₄ * (6 * t)) (190 * K) (24 * K) := by
  have hr := isRel_rne p (by omega : 1 ≤ p)
  have hu := small_unit hp
  have a1 : Apx (2 ^ (-(p : ℤ))) (Fl.num t : Fl ℝ (rne p)) t 0 1 := apx_t h0 h1
  have l6 := lit hp (2 ^ (-(p : ℤ))) 6 (by norm_num)
  have l12 := lit hp (2 ^ (-(p : ℤ))) 12 (by norm_num)
  have l18 := lit hp (2 ^ (-(p : ℤ))) 18 (by norm_num)
  have d1 := l6.neg.mul hr hu a1 (by norm_num) (M := 6) (e := 6)
    (by rw [abs_mul, abs_neg, abs_of_nonneg h0]; norm_num; linarith) (by norm_num)
  have d2 := l18.mul hr hu a1 (by norm_num) (M := 18) (e := 18)
    (by rw [abs_of_nonneg (by positivity)]; linarith) (by norm_num)
  have d3 := l18.neg.mul hr hu a1 (by norm_num) (M := 18) (e := 18)
    (by rw [abs_mul, abs_neg, abs_of_nonneg h0]; norm_num; linarith) (by norm_num)
  have d4 := l6.mul hr hu a1 (by norm_num) (M := 6) (e := 6)
    (by rw [abs_of_nonneg (by positivity)]; linarith) (by norm_num)
  have c1 : Apx (2 ^ (-(p : ℤ))) (-6 * Fl.num t + 6 : Fl ℝ (rne p)) (6 * (1 - t)) (1201 / 100) 6 := by
    convert d1.add hr hu l6 (M := 6) (e := 1201 / 100) (by rw [abs_le]; constructor <;> linarith) (by norm_num) using 1
    ring
  have c2 : Apx (2 ^ (-(p : ℤ))) (18 * Fl.num t - 12 : Fl ℝ (rne p)) (18 * t - 12) (3001 / 100) 12 :=
    d2.sub hr hu l12 (M := 12) (e := 3001 / 100) (by rw [abs_le]; constructor <;> linarith) (by norm_num)
  have c3 : Apx (2 ^ (-(p : ℤ))) (-18 * Fl.num t + 6 : Fl ℝ (rne p)) (6 - 18 * t) (3001 / 100) 12 := by
    convert d3.add hr hu l6 (M := 12) (e := 3001 / 100) (by rw [abs_le]; constructor <;> linarith) (by norm_num) using 1
    ring
  refine comb4 hr hu ((abs_nonneg _).trans k₁) c1 c2 c3 d4 (by norm_num) (by norm_num) (by norm_num)
    (by norm_num) k₁ k₂ k₃ k₄ (S := 24) ?_ (by norm_num)
  rw [abs_of_nonneg (show 0 ≤ 6 * (1 - t) by linarith), abs_of_nonneg (show 0 ≤ 6 * t by linarith)]
  have b2 : |18 * t - 12| ≤ 12 - 6 * t := by rw [abs_le]; constructor <;> linarith
  have b3 : |6 - 18 * t| ≤ 6 + 6 * t := by rw [abs_le]; constructor <;> linarith
  linarith

/-- the two derivatives as `frenetFrameAt` computes them -/
private theorem derivs (s : BezierSegment3 ℝ) {K : ℝ} (k1 : s.P1.BoundedBy K) (k2 : s.P2.BoundedBy K)
    (k3 : s.P3.BoundedBy K) (k4 : s.P4.BoundedBy K) {σ : BezierSegment3 (Fl ℝ (rne p))} {τ : Fl ℝ (rne p)} (hσ : σ = s.num)
    (hτ : τ = .num t) : ∃ T S : Vec3 ℝ,
      σ.P1 * (-3 * (τ * τ) + 6 * τ - 3) + σ.P2 * (9 * (τ * τ) - 12 * τ + 3) + σ.P3 * (-9 * (τ * τ) + 6 * τ) +
        σ.P4 * (3 * (τ * τ)) = Vec3.num T ∧
      σ.P1 * (-6 * τ + 6) + σ.P2 * (18 * τ - 12) + σ.P3 * (-18 * τ + 6) + σ.P4 * (6 * τ) = Vec3.num S ∧
      nm (T - s.der t) ≤ 207.9 * K * 2 ^ (-(p : ℤ)) ∧ nm (S - s.der2 t) ≤ 329.1 * K * 2 ^ (-(p : ℤ)) ∧
      nm (s.der t) ≤ 10.4 * K ∧ nm (s.der2 t) ≤ 41.58 * K := by
  subst hσ hτ
  obtain ⟨x, ex, hx, mx⟩ := first hp h0 h1 k1.1 k2.1 k3.1 k4.1
  obtain ⟨y, ey, hy, my⟩ := first hp h0 h1 k1.2.1 k2.2.1 k3.2.1 k4.2.1
  obtain ⟨z, ez, hz, mz⟩ := first hp h0 h1 k1.2.2 k2.2.2 k3.2.2 k4.2.2
  obtain ⟨x', ex', hx', mx'⟩ := second hp h0 h1 k1.1 k2.1 k3.1 k4.1
  obtain ⟨y', ey', hy', my'⟩ := second hp h0 h1 k1.2.1 k2.2.1 k3.2.1 k4.2.1
  obtain ⟨z', ez', hz', mz'⟩ := second hp h0 h1 k1.2.2 k2.2.2 k3.2.2 k4.2.2
  have hK : 0 ≤ K := (abs_nonneg _).trans k1.1
  have hKu : 0 ≤ K * 2 ^ (-(p : ℤ)) := by positivity
  refine ⟨⟨x, y, z⟩, ⟨x', y', z'⟩, Vec3.ext ex ey ez, Vec3.ext ex' ey' ez', ?_, ?_, ?_, ?_⟩
  · refine (nm_le hx hy hz).trans ?_; linarith
  · refine (nm_le hx' hy' hz').trans ?_; linarith
  · refine (nm_le mx my mz).trans ?_; linarith
  · refine (nm_le mx' my' mz').trans ?_; linarith

end

/-- the frame from the two derivatives -/
private def frameOf {R : Type} [Zero R] [One R] [NatCast R] [Add R] [Sub R] [Mul R] [Div R] [Neg R] [LT R]
    [DecidableLT R] [LE R] [DecidableLE R] [BEq R] [MathFns R] (T S : Vec3 R) : Option (Mat3 R) :=
  if (T.normalize 1).2 == 0 then none
  else if ((T.cross S).normalize 1).2 == 0 then none
  else if (((T.cross S).normalize 1).1.cross (T.normalize 1).1).isNull then none
  else some (Mat3.ofCols ((T.cross S).normalize 1).1 (T.normalize 1).1 (((T.cross S).normalize 1).1.cross (T.normalize 1).1))

private theorem normalize_fst {R : Type} [Add R] [Mul R] [Div R] [Zero R] [BEq R] [MathFns R] (v : Vec3 R) (k : R) :
    (v.normalize k).1 = v.normalized k := by
  simp only [Vec3.normalize, Vec3.normalized]
  split_ifs <;> rfl

private theorem normalize_snd {R : Type} [Add R] [Mul R] [Div R] [Zero R] [BEq R] [MathFns R] (v : Vec3 R) (k : R) :
    (v.normalize k).2 = v.length := by
  simp only [Vec3.normalize]
  split_ifs <;> rfl

section
variable {rnd : ℝ → ℝ} {u : ℝ} (hr : IsRel rnd u) (hu : u ≤ 1 / 4096)
include hr hu

/-- the computed frame, when the derivatives are known up to an error -/
private theorem frame_near {T S T' S' : Vec3 ℝ} {K : ℝ} (hT : nm T ≤ 10.4 * K) (hS : nm S ≤ 41.58 * K)
    (eT : nm (T' - T) ≤ 207.9 * K * u) (eS : nm (S' - S) ≤ 329.1 * K * u) (hN : 50000 * u * K ^ 2 < nm (T.cross S)) :
    ∃ x y z : Vec3 ℝ, frameOf (Vec3.num T' : Vec3 (Fl ℝ rnd)) (Vec3.num S') = some (Mat3.ofCols (Vec3.num x) (Vec3.num y) (Vec3.num z)) ∧
      nm (x - T.cross S * (1 / nm (T.cross S))) ≤ 50000 * u * K ^ 2 / nm (T.cross S) ∧
      nm (y - T * (1 / nm T)) ≤ 50000 * u * K ^ 2 / nm (T.cross S) ∧
      nm (z - (T.cross S * (1 / nm (T.cross S))).cross (T * (1 / nm T))) ≤ 50000 * u * K ^ 2 / nm (T.cross S) := by
  have h0 := hr.nonneg
  have hK : 0 ≤ K := by have := nm_nonneg T; linarith
  have hKu : 0 ≤ K * u := by positivity
  have hK2 : 0 ≤ u * K ^ 2 := by positivity
  set N := T.cross S with hNd
  have hN0 : 0 < nm N := by linarith
  have hTS := cross_le T S
  rw [← hNd] at hTS
  have hT0 : 0 < nm T := by
    rcases (nm_nonneg T).lt_or_eq with h | h
    · exact h
    · rw [← h, zero_mul] at hTS; linarith
  obtain ⟨g2, g2'⟩ := BallLine.gam_small h0 hu 2 (by norm_num)
  norm_num at g2
  -- sizes
  have hT' : nm T' ≤ 10.5 * K := by
    have := (abs_le.1 (nm_near T' T)).2
    have : K * u ≤ K * (1 / 4096) := mul_le_mul_of_nonneg_left hu hK
    linarith
  have hS' : nm S' ≤ 41.7 * K := by
    have := (abs_le.1 (nm_near S' S)).2
    have : K * u ≤ K * (1 / 4096) := mul_le_mul_of_nonneg_left hu hK
    linarith
  obtain ⟨n, en, hn⟩ := cross_err hr T' S'
  have hnN : nm (n - N) ≤ 13420 * (u * K ^ 2) := by
    have e1 : n - N = (n - T'.cross S') + ((T' - T).cross S' + T.cross (S' - S)) := by
      rw [hNd]; ext <;> simp [Vec3.cross] <;> ring
    rw [e1]
    have q1 := nm_add (n - T'.cross S') ((T' - T).cross S' + T.cross (S' - S))
    have q2 := nm_add ((T' - T).cross S') (T.cross (S' - S))
    have q3 := (cross_le (T' - T) S').trans (mul_le_mul eT hS' (nm_nonneg _) (by positivity))
    have q4 := (cross_le T (S' - S)).trans (mul_le_mul hT eS (nm_nonneg _) (by positivity))
    have q5 := mul_le_mul hT' hS' (nm_nonneg _) (by positivity)
    have q6 := mul_le_mul (show 3 / 2 * gam u 2 ≤ 3.0108 * u by linarith) q5 (mul_nonneg (nm_nonneg _) (nm_nonneg _)) (by linarith)
    have e3 : 207.9 * K * u * (41.7 * K) = 207.9 * 41.7 * (u * K ^ 2) := by ring
    have e4 : 10.4 * K * (329.1 * K * u) = 10.4 * 329.1 * (u * K ^ 2) := by ring
    have e6 : 3.0108 * u * (10.5 * K * (41.7 * K)) = 3.0108 * 10.5 * 41.7 * (u * K ^ 2) := by ring
    rw [e3] at q3; rw [e4] at q4; rw [e6] at q6
    linarith
  set ρ := u * K ^ 2 / nm N with hρ
  have hρ0 : 0 ≤ ρ := by positivity
  have hρ1 : 50000 * ρ < 1 := by
    rw [hρ, ← mul_div_assoc, div_lt_one hN0]; linarith
  have hu433 : u ≤ 433 * ρ := by
    rw [hρ, ← mul_div_assoc, le_div_iff₀ hN0]
    have q := hTS.trans (mul_le_mul hT hS (nm_nonneg _) (by positivity))
    have := mul_le_mul_of_nonneg_left q h0
    have e : u * (10.4 * K * (41.58 * K)) = 10.4 * 41.58 * (u * K ^ 2) := by ring
    rw [e] at this
    linarith
  obtain ⟨x, ex, hx, hx1⟩ := unit hr hu (N := N) (n := n) hN0
  obtain ⟨y, ey, hy, hy1⟩ := unit hr hu (N := T) (n := T') hT0
  have hx2 : nm (x - N * (1 / nm N)) ≤ 29020 * ρ := by
    refine hx.trans ?_
    have q : nm (n - N) / nm N ≤ 13420 * ρ := by
      rw [hρ, ← mul_div_assoc]; exact div_le_div_of_nonneg_right hnN hN0.le
    linarith
  have hy2 : nm (y - T * (1 / nm T)) ≤ 19470 * ρ := by
    refine hy.trans ?_
    have q : nm (T' - T) / nm T ≤ 207.9 * 41.58 * ρ := by
      rw [hρ, ← mul_div_assoc, div_le_div_iff₀ hT0 hN0]
      have a1 := mul_le_mul eT (hTS.trans (mul_le_mul_of_nonneg_left hS hT0.le)) hN0.le (by positivity)
      have e : 207.9 * K * u * (nm T * (41.58 * K)) = 207.9 * 41.58 * (u * K ^ 2) * nm T := by ring
      rwa [e] at a1
    linarith
  set X := N * (1 / nm N) with hX
  set Y := T * (1 / nm T) with hY
  have hX1 : nm X = 1 := by rw [hX, nm_smul, abs_of_pos (by positivity), mul_one_div_cancel hN0.ne']
  have hY1 : nm Y = 1 := by rw [hY, nm_smul, abs_of_pos (by positivity), mul_one_div_cancel hT0.ne']
  obtain ⟨z, ez, hz⟩ := cross_err hr x y
  have hz2 : nm (z - X.cross Y) ≤ 50000 * ρ := by
    have e1 : z - X.cross Y = (z - x.cross y) + ((x - X).cross y + X.cross (y - Y)) := by
      ext <;> simp [Vec3.cross] <;> ring
    rw [e1]
    have q1 := nm_add (z - x.cross y) ((x - X).cross y + X.cross (y - Y))
    have q2 := nm_add ((x - X).cross y) (X.cross (y - Y))
    have q3 := (cross_le (x - X) y).trans (mul_le_mul hx2 hy1 (nm_nonneg _) (by positivity))
    have q4 := cross_le X (y - Y)
    rw [hX1, one_mul] at q4
    have q5 := mul_le_mul hx1 hy1 (nm_nonneg _) (by norm_num)
    have q6 := mul_le_mul (show 3 / 2 * gam u 2 ≤ 3.0108 * u by linarith) q5 (mul_nonneg (nm_nonneg _) (nm_nonneg _)) (by linarith)
    linarith
  have near_ne : ∀ {v V : Vec3 ℝ}, nm (v - V) < nm V → v ≠ ⟨0, 0, 0⟩ := by
    rintro v V h rfl
    have e2 : nm (⟨0, 0, 0⟩ - V) = nm V := by rw [nm_neg]; congr 1; ext <;> simp
    rw [e2] at h
    exact lt_irrefl _ h
  have hn0 : n ≠ ⟨0, 0, 0⟩ := near_ne (V := N) (by linarith)
  have hT'0 : T' ≠ ⟨0, 0, 0⟩ := by
    refine near_ne (V := T) ?_
    have a1 := mul_le_mul_of_nonneg_left hS hT0.le
    by_contra hc
    have a2 : nm T ≤ 207.9 * K * u := (not_lt.1 hc).trans eT
    have a3 := mul_le_mul_of_nonneg_right a2 (show 0 ≤ 41.58 * K by positivity)
    have e : 207.9 * K * u * (41.58 * K) = 207.9 * 41.58 * (u * K ^ 2) := by ring
    rw [e] at a3
    linarith
  have hXY : nm (X.cross Y) = 1 := by
    have h := cross_sq X Y
    have d : X.dot Y = 0 := by
      have e : X.dot Y = 1 / nm N * (1 / nm T) * N.dot T := by
        rw [hX, hY]; simp only [Vec3.dot, Vec3.mul_x, Vec3.mul_y, Vec3.mul_z]; ring
      have e0 : N.dot T = 0 := by rw [hNd]; simp only [Vec3.dot, Vec3.cross]; ring
      rw [e, e0, mul_zero]
    rw [d, hX1, hY1] at h
    have := nm_nonneg (X.cross Y)
    nlinarith
  have hz0 : z ≠ ⟨0, 0, 0⟩ := near_ne (V := X.cross Y) (by rw [hXY]; linarith)
  have len : ∀ {v : Vec3 ℝ}, v ≠ ⟨0, 0, 0⟩ → ¬((Vec3.num v : Vec3 (Fl ℝ rnd)).length == 0) = true := fun {v} h => by
    rw [(C119_null hr ⟨0, 0⟩ v).2]; simpa using h
  have hnull : ¬(Vec3.num z : Vec3 (Fl ℝ rnd)).isNull = true := by
    intro h
    apply hz0
    simp only [Vec3.isNull, Vec3.num, Fl.zero_def, Fl.num_beq, Bool.and_eq_true, decide_eq_true_eq] at h
    exact Vec3.ext h.1.1 h.1.2 h.2
  have eρ : 50000 * u * K ^ 2 / nm N = 50000 * ρ := by rw [hρ]; ring
  rw [eρ]
  refine ⟨x, y, z, ?_, hx2.trans (by linarith), hy2.trans (by linarith), hz2⟩
  unfold frameOf
  simp only [normalize_fst, normalize_snd, en, ex, ey, ez]
  rw [if_neg (len hT'0), if_neg (len hn0), if_neg hnull]

end

/-- C171 asks for the frame up to rounding whenever the two derivatives are independent, which is false (`C171_missed`).
What holds: with rounding to `p ≥ 12` bits, where the cross product of the derivatives is longer than
`50000 * 2^-p * K^2`, `K` the largest coordinate of the control points, `frenetFrameAt` succeeds, and its columns differ
from those of the exact frame, a rotation, by at most `50000 * 2^-p * K^2` divided by that length. -/
theorem C171_frame_partial {p : ℕ} (hp : 12 ≤ p) (s : BezierSegment3 ℝ) (t K : ℝ) (h0 : 0 ≤ t) (h1 : t ≤ 1)
    (k1 : s.P1.BoundedBy K) (k2 : s.P2.BoundedBy K) (k3 : s.P3.BoundedBy K) (k4 : s.P4.BoundedBy K) (c' c'' : Vec3 ℝ)
    (d1 : HasDerivAt s.curve c'.toE t) (d2 : HasDerivAt (deriv s.curve) c''.toE t)
    (hN : 50000 * 2 ^ (-(p : ℤ)) * K ^ 2 < ‖(c'.cross c'').toE‖) :
    ∃ (M : Mat3 ℝ) (F : Mat3 (Fl ℝ (rne p))), s.frenetFrameAt t = .ok (some M) ∧ IsRotation M.toM ∧
      (s.num : BezierSegment3 (Fl ℝ (rne p))).frenetFrameAt (.num t) = .ok (some F) ∧
      ColsNear (50000 * 2 ^ (-(p : ℤ)) * K ^ 2 / ‖(c'.cross c'').toE‖) F M := by
  have hr := isRel_rne p (by omega : 1 ≤ p)
  have hu := small_unit hp
  obtain ⟨r, er, hs, hm⟩ := C92_frenet s t ⟨h0, h1⟩ c' c'' d1 d2
  have e1 : c' = s.der t := Vec3.toE_inj (d1.unique (s.hasDerivAt_curve t))
  have e2 : c'' = s.der2 t := by
    rw [s.deriv_curve] at d2
    exact Vec3.toE_inj (d2.unique (s.hasDerivAt_der t))
  have a1 : s.P1 * (-3 * (t * t) + 6 * t - 3) + s.P2 * (9 * (t * t) - 12 * t + 3) + s.P3 * (-9 * (t * t) + 6 * t) +
      s.P4 * (3 * (t * t)) = c' := by
    rw [e1]; ext <;> simp [BezierSegment3.der] <;> ring
  have a2 : s.P1 * (-6 * t + 6) + s.P2 * (18 * t - 12) + s.P3 * (-18 * t + 6) + s.P4 * (6 * t) = c'' := by
    rw [e2]; ext <;> simp [BezierSegment3.der2] <;> ring
  obtain ⟨T, S, eT, eS, hT, hS, mT, mS⟩ := derivs (p := p) hp h0 h1 s k1 k2 k3 k4 rfl rfl
  rw [← e1] at hT mT
  rw [← e2] at hS mS
  rw [← nm_eq] at hN ⊢
  obtain ⟨x, y, z, ef, hx, hy, hz⟩ := frame_near hr hu mT mS hT hS hN
  have hN0 : c'.cross c'' ≠ Vec3.zero := by
    intro h
    rw [h, show nm (Vec3.zero : Vec3 ℝ) = 0 by simp [nm, Vec3.zero]] at hN
    have : (0 : ℝ) ≤ 50000 * 2 ^ (-(p : ℤ)) * K ^ 2 := by positivity
    linarith
  obtain ⟨M, rfl⟩ := Option.isSome_iff_exists.1 (hs.2 hN0)
  obtain ⟨hrot, hMy, hMx⟩ := hm M rfl
  have xe : s.frenetFrameAt t = .ok (frameOf c' c'') := by
    rw [BezierSegment3.frenetFrameAt, if_pos ⟨h0, h1⟩]
    simp only [a1, a2]
    unfold frameOf
    split_ifs <;> rfl
  have xf : (s.num : BezierSegment3 (Fl ℝ (rne p))).frenetFrameAt (.num t) = .ok (frameOf (Vec3.num T) (Vec3.num S)) := by
    rw [BezierSegment3.frenetFrameAt, if_pos (unit_test h0 h1)]
    simp only [eT, eS]
    unfold frameOf
    split_ifs <;> rfl
  have hM : frameOf c' c'' = some M := by
    rw [xe] at er
    exact Except.ok.inj er
  have hMz : M.z = M.x.cross M.y := by
    unfold frameOf at hM
    split_ifs at hM
    rw [← Option.some.inj hM]
    rfl
  have len : ∀ v : Vec3 ℝ, v.length = nm v := fun v => by
    have : v.length = √(v.x * v.x + v.y * v.y + v.z * v.z) := rfl
    rw [this, nm]; congr 1; ring
  rw [len] at hMy hMx
  refine ⟨M, _, er, hrot, by rw [xf, ef], ⟨x, y, z, rfl, rfl, rfl, ?_, ?_, ?_⟩⟩
  · rw [← nm_eq, hMx]; exact hx
  · rw [← nm_eq, hMy]; exact hy
  · rw [← nm_eq, hMz, hMx, hMy]; exact hz

/-- C171: in `float` a segment whose two derivatives are independent at its start may have no frame there: the function
returns `false`. -/
theorem C171_missed :
    let s : BezierSegment3 ℝ := ⟨⟨0, 0, 0⟩, ⟨1 + 1 / 2 ^ 13, 1, 0⟩, ⟨3 + 1 / 2 ^ 12, 3 - 1 / 2 ^ 13, 0⟩, ⟨0, 0, 0⟩⟩
    (∃ M, s.frenetFrameAt 0 = .ok (some M) ∧ IsRotation M.toM) ∧
    (s.num : BezierSegment3 (Fl ℝ (rne 24))).frenetFrameAt (.num 0) = .ok none := by
  intro s
  constructor
  · obtain ⟨r, er, hs, hm⟩ := C92_frenet s 0 ⟨le_rfl, zero_le_one⟩ (s.der 0) (s.der2 0) (s.hasDerivAt_curve 0)
      (by rw [s.deriv_curve]; exact s.hasDerivAt_der 0)
    have hN0 : (s.der 0).cross (s.der2 0) ≠ Vec3.zero := by
      intro h
      have := congrArg Vec3.z h
      simp only [BezierSegment3.der, BezierSegment3.der2, Vec3.cross, Vec3.zero, s, Vec3.add_x, Vec3.add_y, Vec3.mul_x,
        Vec3.mul_y] at this
      norm_num at this
    obtain ⟨M, rfl⟩ := Option.isSome_iff_exists.1 (hs.2 hN0)
    exact ⟨M, er, (hm M rfl).1⟩
  · have hr := isRel_rne 24 (by norm_num : 1 ≤ 24)
    have i : ∀ z : ℤ, |z| ≤ 4096 → rne 24 (z : ℝ) = z := fun z hz =>
      rne_of_rep (by omega) (Rep.int z (hz.trans (by norm_num)))
    have r0 : rne 24 (0 : ℝ) = 0 := by simpa using i 0 (by norm_num)
    have r3 : rne 24 (3 : ℝ) = 3 := by simpa using i 3 (by norm_num)
    have r6 : rne 24 (6 : ℝ) = 6 := by simpa using i 6 (by norm_num)
    have r18 : rne 24 (18 : ℝ) = 18 := by simpa using i 18 (by norm_num)
    have n3 : rne 24 (-3 : ℝ) = -3 := by simpa using i (-3) (by norm_num)
    have n12 : rne 24 (-12 : ℝ) = -12 := by simpa using i (-12) (by norm_num)
    have q1 : rne 24 (24579 / 8192 : ℝ) = 24579 / 8192 := rne_of_rep (by norm_num) ⟨24579, -13, by norm_num, by norm_num⟩
    have q2 : rne 24 (-(24579 / 2048) : ℝ) = -(24579 / 2048) :=
      rne_of_rep (by norm_num) ⟨-24579, -11, by norm_num, by norm_num⟩
    have q3 : rne 24 (36867 / 2048 : ℝ) = 36867 / 2048 := rne_of_rep (by norm_num) ⟨36867, -11, by norm_num, by norm_num⟩
    have q4 : rne 24 (73725 / 4096 : ℝ) = 73725 / 4096 := rne_of_rep (by norm_num) ⟨73725, -12, by norm_num, by norm_num⟩
    have q5 : rne 24 (24573 / 4096 : ℝ) = 24573 / 4096 := rne_of_rep (by norm_num) ⟨24573, -12, by norm_num, by norm_num⟩
    have q6 : rne 24 (603979767 / 33554432 : ℝ) = 18 := by
      rw [rne_eq (-19) 9437184 (by norm_num) (by norm_num) (by rw [abs_lt]; norm_num)]; norm_num
    have l3 : (3 : Fl ℝ (rne 24)) = .num 3 := num_lit (by norm_num) 3 (by norm_num)
    have l6 : (6 : Fl ℝ (rne 24)) = .num 6 := num_lit (by norm_num) 6 (by norm_num)
    have l9 : (9 : Fl ℝ (rne 24)) = .num 9 := (Fl.ofNat_def 9).trans (congrArg Fl.num (by simpa using i 9 (by norm_num)))
    have l12 : (12 : Fl ℝ (rne 24)) = .num 12 := (Fl.ofNat_def 12).trans (congrArg Fl.num (by simpa using i 12 (by norm_num)))
    have l18 : (18 : Fl ℝ (rne 24)) = .num 18 := (Fl.ofNat_def 18).trans (congrArg Fl.num (by simpa using i 18 (by norm_num)))
    have key : ∀ {σ : BezierSegment3 (Fl ℝ (rne 24))} {τ : Fl ℝ (rne 24)}, σ = s.num → τ = .num 0 →
        σ.P1 * (-3 * (τ * τ) + 6 * τ - 3) + σ.P2 * (9 * (τ * τ) - 12 * τ + 3) + σ.P3 * (-9 * (τ * τ) + 6 * τ) +
          σ.P4 * (3 * (τ * τ)) = Vec3.num ⟨24579 / 8192, 3, 0⟩ ∧
        σ.P1 * (-6 * τ + 6) + σ.P2 * (18 * τ - 12) + σ.P3 * (-18 * τ + 6) + σ.P4 * (6 * τ) =
          Vec3.num ⟨6, 24573 / 4096, 0⟩ := by
      rintro _ _ rfl rfl
      constructor <;> apply Vec3.ext
      all_goals
        simp only [BezierSegment3.num, Vec3.num, Vec3.add_x, Vec3.add_y, Vec3.add_z, Vec3.mul_x, Vec3.mul_y, Vec3.mul_z, l3,
          l6, l9, l12, l18, Fl.num_add, Fl.num_mul, Fl.num_sub, Fl.num_neg, s]
        norm_num [r0, r3, r6, r18, n3, n12, q1, q2, q3, q4, q5]
    obtain ⟨eT, eS⟩ := key rfl rfl
    have ec : (Vec3.num ⟨24579 / 8192, 3, 0⟩ : Vec3 (Fl ℝ (rne 24))).cross (Vec3.num ⟨6, 24573 / 4096, 0⟩) =
        Vec3.num ⟨0, 0, 0⟩ := by
      apply Vec3.ext
      all_goals
        simp only [Vec3.cross, Vec3.num, Fl.num_mul, Fl.num_sub]
        norm_num [r0, r18, q6]
    have hl := (C119_null hr ⟨0, 0⟩ (⟨0, 0, 0⟩ : Vec3 ℝ)).2
    rw [BezierSegment3.frenetFrameAt, if_pos (unit_test le_rfl zero_le_one)]
    simp only [eT, eS, ec, normalize_snd, hl, decide_true, if_true, ite_self]

/-- a concrete case: a bent segment at its start, in `float` -/
example : let s : BezierSegment3 ℝ := ⟨⟨0, 0, 0⟩, ⟨1, 0, 0⟩, ⟨1, 1, 0⟩, ⟨0, 1, 1⟩⟩
    s.P1.BoundedBy 1 ∧ s.P2.BoundedBy 1 ∧ s.P3.BoundedBy 1 ∧ s.P4.BoundedBy 1 ∧
    HasDerivAt s.curve (s.der 0).toE 0 ∧ HasDerivAt (deriv s.curve) (s.der2 0).toE 0 ∧
    50000 * 2 ^ (-((24 : ℕ) : ℤ)) * (1 : ℝ) ^ 2 < ‖((s.der 0).cross (s.der2 0)).toE‖ := by
  intro s
  refine ⟨by norm_num [Vec3.BoundedBy, s], by norm_num [Vec3.BoundedBy, s], by norm_num [Vec3.BoundedBy, s],
    by norm_num [Vec3.BoundedBy, s], s.hasDerivAt_curve 0, by rw [s.deriv_curve]; exact s.hasDerivAt_der 0, ?_⟩
  have e : (s.der 0).cross (s.der2 0) = ⟨0, 0, 18⟩ := by
    simp only [BezierSegment3.der, BezierSegment3.der2, Vec3.cross, s]
    ext <;> norm_num
  rw [e, ← nm_eq, nm]
  norm_num
  refine lt_of_lt_of_le (b := 1) (by norm_num) ?_
  exact Real.one_le_sqrt.2 (by norm_num)

end MathLib
