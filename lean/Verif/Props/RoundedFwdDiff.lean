import Verif.Proof.FwdRound

/-! # Property C143: forward differences in floating point -/

namespace MathLib

/-- The claim, for `float`: walking along a segment by forward differences one does not get away from the curve,
say by more than a hundredth of the largest coordinate of the control points, whatever the step size.  One
coordinate is enough. -/
def C143_full : Prop :=
  ∀ (s : BezierSegment3 ℚ) (d : ℚ) (k : ℕ) (v : Vec3 ℚ) (K : ℚ),
    (∀ v ∈ [s.P1, s.P2, s.P3, s.P4], Rep 24 v.x ∧ |v.x| ≤ K) → Rep 24 d → 0 < d → k * d ≤ 1 →
    s.pointAt (k * d) = .ok v →
    ∃ w : ℚ, (BezierSegment3FwdDiff.stepForward^[k] (.init (s.P1.num : Vec3 F32) s.P2.num s.P3.num s.P4.num (.num d))).currentPoint.x
        = .num w ∧ |w - v.x| ≤ K / 100

/-- The claim is false: with steps of `2^-26` along the segment from 3 to 6 the sum is rounded back to 3 every
time, and one never leaves the first point. -/
theorem C143_refuted : ¬ C143_full := by
  intro h
  let st : BezierSegment3FwdDiff F32 := .init (Vec3.num ⟨3, 0, 0⟩) (Vec3.num ⟨4, 0, 0⟩) (Vec3.num ⟨5, 0, 0⟩)
    (Vec3.num ⟨6, 0, 0⟩) (.num (1 / 2 ^ 26))
  have fix : st.stepForward = st := by decide +kernel
  have r : ∀ z : ℤ, |z| ≤ 100 → Rep 24 (z : ℚ) := fun z hz => Rep.int z (hz.trans (by norm_num))
  have r3 : Rep 24 (3 : ℚ) := by simpa using r 3 (by norm_num)
  have r4 : Rep 24 (4 : ℚ) := by simpa using r 4 (by norm_num)
  have r5 : Rep 24 (5 : ℚ) := by simpa using r 5 (by norm_num)
  have r6 : Rep 24 (6 : ℚ) := by simpa using r 6 (by norm_num)
  obtain ⟨w, e, hw⟩ := h ⟨⟨3, 0, 0⟩, ⟨4, 0, 0⟩, ⟨5, 0, 0⟩, ⟨6, 0, 0⟩⟩ (1 / 2 ^ 26) (2 ^ 26) ⟨6, 0, 0⟩ 6 (by
    intro v hv
    simp only [List.mem_cons, List.not_mem_nil, or_false] at hv
    rcases hv with rfl | rfl | rfl | rfl <;> simp [r3, r4, r5, r6] <;> norm_num)
    ⟨1, -26, by norm_num, by norm_num⟩ (by norm_num) (by norm_num) (by
      rw [show (((2 ^ 26 : ℕ) : ℚ) * (1 / 2 ^ 26)) = 1 by norm_num]; decide +kernel)
  have it : BezierSegment3FwdDiff.stepForward^[2 ^ 26] st = st := Function.iterate_fixed fix _
  have e' : (BezierSegment3FwdDiff.stepForward^[2 ^ 26] st).currentPoint.x = .num w := e
  rw [it] at e'
  have e3 : st.currentPoint.x = .num 3 := by decide +kernel
  rw [e3] at e'
  have : w = 3 := (Fl.num.inj e').symm
  rw [this] at hw
  norm_num [abs_of_nonneg, abs_of_nonpos] at hw

theorem arith_pos {n d K U : ℝ} (hn0 : 0 ≤ n) (hd0 : 0 ≤ d) (hK : 0 ≤ K) (hu : 0 ≤ U) (nd : n * d ≤ 1) (hN : (n + 1) * d ≤ 1) :
    16 / 15 * (0 + (n + 1) * (16 / 15 * (110 * (K * d) * U + n * (16 / 15 * (420 * (K * (d * d)) * U + n * (290 * (K * (d * d * d)) * U +
      U * (24 * K * (d * d)))) + U * (6 * K * d))) + U * K)) ≤ (1000 + 38 * (n + 1)) * K * U := by
  have w0 : 0 ≤ K * U := by positivity
  have w1 : 0 ≤ K * d * U := by positivity
  have w2 : 0 ≤ K * (d * d) * U := by positivity
  have r2 : n * (290 * (K * (d * d * d)) * U) ≤ 290 * (K * (d * d) * U) := by
    have := mul_le_mul_of_nonneg_right nd w2; nlinarith
  have b2 : 16 / 15 * (420 * (K * (d * d)) * U + n * (290 * (K * (d * d * d)) * U + U * (24 * K * (d * d)))) ≤
      16 / 15 * (710 + 24 * n) * (K * (d * d) * U) := by nlinarith
  have r1 : n * (16 / 15 * (710 + 24 * n) * (K * (d * d) * U)) ≤ 16 / 15 * (710 + 24 * n) * (K * d * U) := by
    have := mul_le_mul_of_nonneg_right nd (show 0 ≤ 16 / 15 * (710 + 24 * n) * (K * d * U) by positivity)
    nlinarith
  have b1 : 16 / 15 * (110 * (K * d) * U + n * (16 / 15 * (420 * (K * (d * d)) * U + n * (290 * (K * (d * d * d)) * U +
      U * (24 * K * (d * d)))) + U * (6 * K * d))) ≤
      16 / 15 * (110 + 16 / 15 * (710 + 24 * n) + 6 * n) * (K * d * U) := by
    have := mul_le_mul_of_nonneg_left b2 hn0
    nlinarith
  have r0 : (n + 1) * (16 / 15 * (110 + 16 / 15 * (710 + 24 * n) + 6 * n) * (K * d * U)) ≤
      16 / 15 * (110 + 16 / 15 * (710 + 24 * n) + 6 * n) * (K * U) := by
    have := mul_le_mul_of_nonneg_right hN (show 0 ≤ 16 / 15 * (110 + 16 / 15 * (710 + 24 * n) + 6 * n) * (K * U) by positivity)
    nlinarith
  have := mul_le_mul_of_nonneg_left b1 (show 0 ≤ n + 1 by positivity)
  have nw : 0 ≤ n * (K * U) := by positivity
  nlinarith

theorem arith_tan {n d K U : ℝ} (hn0 : 0 ≤ n) (hd0 : 0 ≤ d) (hK : 0 ≤ K) (hu : 0 ≤ U) (nd : n * d ≤ 1) (hN : (n + 1) * d ≤ 1) :
    16 / 15 * (121 / 10 * K * U + (n + 1) * (16 / 15 * (195 * (K * d) * U + n * (242 * (K * (d * d)) * U + U * (24 * K * d))) +
      U * (6 * K))) ≤ (520 + 34 * (n + 1)) * K * U := by
  have w0 : 0 ≤ K * U := by positivity
  have w1 : 0 ≤ K * d * U := by positivity
  have r1 : n * (242 * (K * (d * d)) * U) ≤ 242 * (K * d * U) := by
    have := mul_le_mul_of_nonneg_right nd w1; nlinarith
  have b1 : 16 / 15 * (195 * (K * d) * U + n * (242 * (K * (d * d)) * U + U * (24 * K * d))) ≤
      16 / 15 * (437 + 24 * n) * (K * d * U) := by nlinarith
  have r0 : (n + 1) * (16 / 15 * (437 + 24 * n) * (K * d * U)) ≤ 16 / 15 * (437 + 24 * n) * (K * U) := by
    have := mul_le_mul_of_nonneg_right hN (show 0 ≤ 16 / 15 * (437 + 24 * n) * (K * U) by positivity)
    nlinarith
  have := mul_le_mul_of_nonneg_left b1 (show 0 ≤ n + 1 by positivity)
  have nw : 0 ≤ n * (K * U) := by positivity
  nlinarith

section coord
variable {p : ℕ} (hp : 12 ≤ p) {d K y₁ y₂ y₃ y₄ : ℝ} (hd0 : 0 ≤ d) {N : ℕ} (hN : N * d ≤ 1)
  (hNp : 16 * N ≤ 2 ^ p) (k₁ : |y₁| ≤ K) (k₂ : |y₂| ≤ K) (k₃ : |y₃| ≤ K) (k₄ : |y₄| ≤ K)
include hp hd0 hN hNp k₁ k₂ k₃ k₄

local notation "U" => (2 : ℝ) ^ (-(p : ℤ))
local notation "f" => bern y₁ y₂ y₃ y₄
local notation "f'" => bern' y₁ y₂ y₃ y₄

/-- one coordinate of the points -/
theorem coord_pos {q dq ddq : ℕ → ℝ} {g : ℝ} (hq : ∀ k, q (k + 1) = rne p (q k + dq k))
    (hdq : ∀ k, dq (k + 1) = rne p (dq k + ddq k)) (hddq : ∀ k, ddq (k + 1) = rne p (ddq k + g)) (q0 : q 0 = y₁)
    (d0 : |dq 0 - (f d - f 0)| ≤ 110 * (K * d) * U) (e0 : |ddq 0 - (f (d + d) - f d - (f d - f 0))| ≤ 420 * (K * (d * d)) * U)
    (g0 : |g - ((y₄ - y₁) * (d * d * d * 6) + (y₃ - y₂) * (-(d * d * d) * 18))| ≤ 290 * (K * (d * d * d)) * U) :
    |q N - f (N * d)| ≤ (1000 + 38 * N) * K * U := by
  have hr := isRel_rne p (by omega : 1 ≤ p)
  have hu := hr.nonneg
  have hK : 0 ≤ K := (abs_nonneg _).trans k₁
  have f0 : f 0 = y₁ := by rw [bern]; ring
  rcases N with _ | n
  · rw [q0]; simp only [Nat.cast_zero, zero_mul, f0, sub_self, abs_zero]; positivity
  push_cast at *
  have hn0 : (0 : ℝ) ≤ n := Nat.cast_nonneg n
  have hU1 : 16 * ((n : ℝ) + 1) * U ≤ 1 := by
    have : (16 * ((n : ℝ) + 1)) ≤ 2 ^ p := by exact_mod_cast hNp
    rw [zpow_neg, zpow_natCast, ← div_eq_mul_inv, div_le_one (by positivity)]; exact this
  have hle : ∀ k < n, (k : ℝ) + 2 ≤ n + 1 := fun k hk => by
    have : (k : ℝ) + 1 ≤ n := by exact_mod_cast hk
    linarith
  have in1 : ∀ k < n, ((k : ℝ) + 2) * d ≤ 1 := fun k hk => (mul_le_mul_of_nonneg_right (hle k hk) hd0).trans hN
  have hUn : 16 * (n : ℝ) * U ≤ 1 := by nlinarith
  have nd : (n : ℝ) * d ≤ 1 := by nlinarith
  -- the second differences
  have L2 := drift' hr (N := n) hUn (x' := ddq) (y' := fun _ => g)
    (x := fun k => f (k * d + d + d) - f (k * d + d) - (f (k * d + d) - f (k * d)))
    (y := fun _ => (y₄ - y₁) * (d * d * d * 6) + (y₃ - y₂) * (-(d * d * d) * 18))
    (e₀ := 420 * (K * (d * d)) * U) (ε := 290 * (K * (d * d * d)) * U) (X := 24 * K * (d * d))
    (fun k _ => by simp only [bern]; push_cast; ring) (fun k _ => hddq k)
    (by simpa using e0) (fun k _ => g0) (fun k hk => by
      have := bern_diff2 k₁ k₂ k₃ k₄ (t := (k + 2) * d) (d := d) (by positivity) (in1 k hk)
      push_cast
      convert this using 3 <;> ring_nf)
  -- the first differences
  have L1 := drift' hr (N := n) hUn (x' := dq) (y' := ddq)
    (x := fun k => f (k * d + d) - f (k * d))
    (y := fun k => f (k * d + d + d) - f (k * d + d) - (f (k * d + d) - f (k * d)))
    (e₀ := 110 * (K * d) * U) (ε := _) (X := 6 * K * d)
    (fun k _ => by push_cast; ring_nf) (fun k _ => hdq k)
    (by simpa using d0) (fun k hk => L2 k hk.le) (fun k hk => by
      have := bern_diff k₁ k₂ k₃ k₄ (t := (k + 1) * d) (s := (k + 2) * d) (by positivity)
        (mul_le_mul_of_nonneg_right (by linarith) hd0) (in1 k hk)
      push_cast
      convert this using 2 <;> ring_nf)
  have L0 := drift' hr (N := n + 1) (by push_cast; exact hU1) (x' := q) (y' := dq)
    (x := fun k => f (k * d)) (y := fun k => f (k * d + d) - f (k * d)) (e₀ := 0) (ε := _) (X := K)
    (fun k _ => by push_cast; ring_nf) (fun k _ => hq k)
    (by simp [q0, f0]) (fun k hk => L1 k (by omega)) (fun k hk => bern_le k₁ k₂ k₃ k₄ (by positivity) (by
      refine le_trans (mul_le_mul_of_nonneg_right ?_ hd0) hN
      exact_mod_cast hk)) (n + 1) le_rfl
  push_cast at L0
  refine L0.trans ?_
  exact arith_pos hn0 hd0 hK hu nd hN

/-- one coordinate of the tangents -/
theorem coord_tan {q dq : ℕ → ℝ} {g : ℝ} (hq : ∀ k, q (k + 1) = rne p (q k + dq k))
    (hdq : ∀ k, dq (k + 1) = rne p (dq k + g)) (q0 : |q 0 - f' 0| ≤ 121 / 10 * K * U)
    (d0 : |dq 0 - (f' d - f' 0)| ≤ 195 * (K * d) * U)
    (g0 : |g - ((y₄ - y₁) * (d * d * 6) + (y₃ - y₂) * (-(d * d) * 18))| ≤ 242 * (K * (d * d)) * U) :
    |q N - f' (N * d)| ≤ (520 + 34 * N) * K * U := by
  have hr := isRel_rne p (by omega : 1 ≤ p)
  have hu := hr.nonneg
  have hK : 0 ≤ K := (abs_nonneg _).trans k₁
  rcases N with _ | n
  · have : 0 ≤ K * U := by positivity
    simp only [Nat.cast_zero, zero_mul]; linarith
  push_cast at *
  have hn0 : (0 : ℝ) ≤ n := Nat.cast_nonneg n
  have hU1 : 16 * ((n : ℝ) + 1) * U ≤ 1 := by
    have : (16 * ((n : ℝ) + 1)) ≤ 2 ^ p := by exact_mod_cast hNp
    rw [zpow_neg, zpow_natCast, ← div_eq_mul_inv, div_le_one (by positivity)]; exact this
  have hle : ∀ k < n, (k : ℝ) + 2 ≤ n + 1 := fun k hk => by
    have : (k : ℝ) + 1 ≤ n := by exact_mod_cast hk
    linarith
  have in1 : ∀ k < n, ((k : ℝ) + 2) * d ≤ 1 := fun k hk => (mul_le_mul_of_nonneg_right (hle k hk) hd0).trans hN
  have hUn : 16 * (n : ℝ) * U ≤ 1 := by nlinarith
  have nd : (n : ℝ) * d ≤ 1 := by nlinarith
  have L1 := drift' hr (N := n) hUn (x' := dq) (y' := fun _ => g)
    (x := fun k => f' (k * d + d) - f' (k * d))
    (y := fun _ => (y₄ - y₁) * (d * d * 6) + (y₃ - y₂) * (-(d * d) * 18))
    (e₀ := 195 * (K * d) * U) (ε := 242 * (K * (d * d)) * U) (X := 24 * K * d)
    (fun k _ => by simp only [bern']; push_cast; ring) (fun k _ => hdq k)
    (by simpa using d0) (fun k _ => g0) (fun k hk => by
      have := bern'_diff k₁ k₂ k₃ k₄ (t := (k + 1) * d) (s := (k + 2) * d) (by positivity)
        (mul_le_mul_of_nonneg_right (by linarith) hd0) (in1 k hk)
      push_cast
      convert this using 2 <;> ring_nf)
  have L0 := drift' hr (N := n + 1) (by push_cast; exact hU1) (x' := q) (y' := dq)
    (x := fun k => f' (k * d)) (y := fun k => f' (k * d + d) - f' (k * d)) (e₀ := 121 / 10 * K * U) (ε := _) (X := 6 * K)
    (fun k _ => by push_cast; ring_nf) (fun k _ => hq k)
    (by simpa using q0) (fun k hk => L1 k (by omega)) (fun k hk => bern'_le k₁ k₂ k₃ k₄ (by positivity) (by
      refine le_trans (mul_le_mul_of_nonneg_right ?_ hd0) hN
      exact_mod_cast hk)) (n + 1) le_rfl
  push_cast at L0
  refine L0.trans ?_
  exact arith_tan hn0 hd0 hK hu nd hN
end coord

/-! ## All together -/

section main
variable {p : ℕ}

/-- the state as numbers -/
def BezierSegment3FwdDiff.num {K : Type} {rnd : K → K} (s : BezierSegment3FwdDiff K) : BezierSegment3FwdDiff (Fl K rnd) :=
  ⟨s.P.num, s.dP.num, s.d2P.num, s.d3P.num, s.T.num, s.dT.num, s.d2T.num⟩
noncomputable def rndSum (p : ℕ) (v w : Vec3 ℝ) : Vec3 ℝ := ⟨rne p (v.x + w.x), rne p (v.y + w.y), rne p (v.z + w.z)⟩
/-- a step of the numbers -/
noncomputable def rndStep (p : ℕ) (s : BezierSegment3FwdDiff ℝ) : BezierSegment3FwdDiff ℝ :=
  ⟨rndSum p s.P s.dP, rndSum p s.dP s.d2P, rndSum p s.d2P s.d3P, s.d3P, rndSum p s.T s.dT, rndSum p s.dT s.d2T, s.d2T⟩

theorem step_num (s : BezierSegment3FwdDiff ℝ) :
    (s.num : BezierSegment3FwdDiff (Fl ℝ (rne p))).stepForward = (rndStep p s).num := rfl
theorem steps_num (s : BezierSegment3FwdDiff ℝ) (k : ℕ) :
    BezierSegment3FwdDiff.stepForward^[k] (s.num : BezierSegment3FwdDiff (Fl ℝ (rne p))) = ((rndStep p)^[k] s).num := by
  induction k with
  | zero => rfl
  | succ k ih => rw [Function.iterate_succ_apply', Function.iterate_succ_apply', ih, step_num]
theorem steps_d3P (s : BezierSegment3FwdDiff ℝ) (k : ℕ) : ((rndStep p)^[k] s).d3P = s.d3P := by
  induction k with
  | zero => rfl
  | succ k ih => rw [Function.iterate_succ_apply', ← ih]; rfl
theorem steps_d2T (s : BezierSegment3FwdDiff ℝ) (k : ℕ) : ((rndStep p)^[k] s).d2T = s.d2T := by
  induction k with
  | zero => rfl
  | succ k ih => rw [Function.iterate_succ_apply', ← ih]; rfl

section
variable (y₁ y₂ y₃ y₄ d : ℝ)
theorem bern_s1 : bern y₁ y₂ y₃ y₄ d - bern y₁ y₂ y₃ y₄ 0 =
    (y₄ - y₁) * (d * d * d) + (y₃ - y₂) * ((d * d - d * d * d) * 3) + (y₂ - y₁) * ((d - d * d) * 3) := by
  simp only [bern]; ring
theorem bern_s2 : bern y₁ y₂ y₃ y₄ (d + d) - bern y₁ y₂ y₃ y₄ d - (bern y₁ y₂ y₃ y₄ d - bern y₁ y₂ y₃ y₄ 0) =
    (y₄ - y₁) * (d * d * d * 6) + (y₃ - y₂) * ((d * d - d * d * d * 3) * 6) + (y₂ - y₁) * (-(d * d) * 6) := by
  simp only [bern]; ring
theorem bern'_s0 : bern' y₁ y₂ y₃ y₄ 0 = (y₂ - y₁) * 3 := by simp only [bern']; ring
theorem bern'_s1 : bern' y₁ y₂ y₃ y₄ d - bern' y₁ y₂ y₃ y₄ 0 =
    (y₄ - y₁) * (d * d * 3) + (y₃ - y₂) * (d * 6 - d * d * 9) + (y₂ - y₁) * (-d * 6) := by
  simp only [bern']; ring
end

/-- C143, what holds: after `k` steps point and tangent are off by at most `(1000 + 38 k) 2^-p` and
`(520 + 34 k) 2^-p` times the largest coordinate of the control points, for all `k ≤ 2^p / 16` that do not lead beyond
the end.  Missing: a bound that does not grow with the number of steps, which is false. -/
theorem C143_drift_partial (hp : 12 ≤ p) (s : BezierSegment3 ℝ) (d K : ℝ) (k : ℕ) (hd0 : 0 ≤ d) (hd1 : d ≤ 1)
    (hk : k * d ≤ 1) (hkp : 16 * k ≤ 2 ^ p)
    (k1 : s.P1.BoundedBy K) (k2 : s.P2.BoundedBy K) (k3 : s.P3.BoundedBy K) (k4 : s.P4.BoundedBy K) :
    ∃ w w' : Vec3 ℝ,
      let F : BezierSegment3FwdDiff (Fl ℝ (rne p)) :=
        BezierSegment3FwdDiff.stepForward^[k] (.init s.P1.num s.P2.num s.P3.num s.P4.num (.num d))
      F.currentPoint = w.num ∧ F.currentTangent = w'.num ∧
      ∀ j, |w.toE j - s.curve (k * d) j| ≤ (1000 + 38 * k) * K * 2 ^ (-(p : ℤ)) ∧
        |w'.toE j - deriv s.curve (k * d) j| ≤ (520 + 34 * k) * K * 2 ^ (-(p : ℤ)) := by
  have hK : 0 ≤ K := (abs_nonneg _).trans k1.1
  obtain ⟨⟨ax, ax1, ax2, -⟩, ⟨bx, bx1, bx2, -⟩, ⟨cx, cx1, cx2, -⟩⟩ := start_pos hp hd0 hd1 hK (apx_diff hp k4.1 k1.1)
    (apx_diff hp k3.1 k2.1) (apx_diff hp k2.1 k1.1)
  obtain ⟨⟨ay, ay1, ay2, -⟩, ⟨by', by1, by2, -⟩, ⟨cy, cy1, cy2, -⟩⟩ := start_pos hp hd0 hd1 hK (apx_diff hp k4.2.1 k1.2.1)
    (apx_diff hp k3.2.1 k2.2.1) (apx_diff hp k2.2.1 k1.2.1)
  obtain ⟨⟨az, az1, az2, -⟩, ⟨bz, bz1, bz2, -⟩, ⟨cz, cz1, cz2, -⟩⟩ := start_pos hp hd0 hd1 hK (apx_diff hp k4.2.2 k1.2.2)
    (apx_diff hp k3.2.2 k2.2.2) (apx_diff hp k2.2.2 k1.2.2)
  obtain ⟨⟨tx, tx1, tx2, -⟩, ⟨ux, ux1, ux2, -⟩, ⟨vx, vx1, vx2, -⟩⟩ := start_tan hp hd0 hd1 hK (apx_diff hp k4.1 k1.1)
    (apx_diff hp k3.1 k2.1) (apx_diff hp k2.1 k1.1)
  obtain ⟨⟨ty, ty1, ty2, -⟩, ⟨uy, uy1, uy2, -⟩, ⟨vy, vy1, vy2, -⟩⟩ := start_tan hp hd0 hd1 hK (apx_diff hp k4.2.1 k1.2.1)
    (apx_diff hp k3.2.1 k2.2.1) (apx_diff hp k2.2.1 k1.2.1)
  obtain ⟨⟨tz, tz1, tz2, -⟩, ⟨uz, uz1, uz2, -⟩, ⟨vz, vz1, vz2, -⟩⟩ := start_tan hp hd0 hd1 hK (apx_diff hp k4.2.2 k1.2.2)
    (apx_diff hp k3.2.2 k2.2.2) (apx_diff hp k2.2.2 k1.2.2)
  let st : BezierSegment3FwdDiff ℝ := ⟨s.P1, ⟨ax, ay, az⟩, ⟨bx, by', bz⟩, ⟨cx, cy, cz⟩, ⟨tx, ty, tz⟩, ⟨ux, uy, uz⟩, ⟨vx, vy, vz⟩⟩
  have e : (.init s.P1.num s.P2.num s.P3.num s.P4.num (.num d) : BezierSegment3FwdDiff (Fl ℝ (rne p))) = st.num := by
    refine BezierSegment3FwdDiff.mk.injEq .. ▸ ⟨rfl, Vec3.ext ax1 ay1 az1, Vec3.ext bx1 by1 bz1, Vec3.ext cx1 cy1 cz1,
      Vec3.ext tx1 ty1 tz1, Vec3.ext ux1 uy1 uz1, Vec3.ext vx1 vy1 vz1⟩
  refine ⟨((rndStep p)^[k] st).P, ((rndStep p)^[k] st).T, ?_⟩
  rw [e, steps_num]
  refine ⟨rfl, rfl, fun j => ?_⟩
  rw [← s.toE_val, s.deriv_curve]
  fin_cases j
  · constructor
    · exact coord_pos hp hd0 hk hkp k1.1 k2.1 k3.1 k4.1 (q := fun k => ((rndStep p)^[k] st).P.x)
        (dq := fun k => ((rndStep p)^[k] st).dP.x) (ddq := fun k => ((rndStep p)^[k] st).d2P.x) (g := cx)
        (fun k => by simp only [Function.iterate_succ_apply']; rfl) (fun k => by simp only [Function.iterate_succ_apply']; rfl)
        (fun k => by simp only [Function.iterate_succ_apply']; rw [show cx = ((rndStep p)^[k] st).d3P.x by rw [steps_d3P]]; rfl)
        rfl (by rw [bern_s1]; exact ax2) (by rw [bern_s2]; exact bx2) cx2
    · exact coord_tan hp hd0 hk hkp k1.1 k2.1 k3.1 k4.1 (q := fun k => ((rndStep p)^[k] st).T.x)
        (dq := fun k => ((rndStep p)^[k] st).dT.x) (g := vx)
        (fun k => by simp only [Function.iterate_succ_apply']; rfl)
        (fun k => by simp only [Function.iterate_succ_apply']; rw [show vx = ((rndStep p)^[k] st).d2T.x by rw [steps_d2T]]; rfl)
        (by rw [bern'_s0]; exact tx2) (by rw [bern'_s1]; exact ux2) vx2
  · constructor
    · exact coord_pos hp hd0 hk hkp k1.2.1 k2.2.1 k3.2.1 k4.2.1 (q := fun k => ((rndStep p)^[k] st).P.y)
        (dq := fun k => ((rndStep p)^[k] st).dP.y) (ddq := fun k => ((rndStep p)^[k] st).d2P.y) (g := cy)
        (fun k => by simp only [Function.iterate_succ_apply']; rfl) (fun k => by simp only [Function.iterate_succ_apply']; rfl)
        (fun k => by simp only [Function.iterate_succ_apply']; rw [show cy = ((rndStep p)^[k] st).d3P.y by rw [steps_d3P]]; rfl)
        rfl (by rw [bern_s1]; exact ay2) (by rw [bern_s2]; exact by2) cy2
    · exact coord_tan hp hd0 hk hkp k1.2.1 k2.2.1 k3.2.1 k4.2.1 (q := fun k => ((rndStep p)^[k] st).T.y)
        (dq := fun k => ((rndStep p)^[k] st).dT.y) (g := vy)
        (fun k => by simp only [Function.iterate_succ_apply']; rfl)
        (fun k => by simp only [Function.iterate_succ_apply']; rw [show vy = ((rndStep p)^[k] st).d2T.y by rw [steps_d2T]]; rfl)
        (by rw [bern'_s0]; exact ty2) (by rw [bern'_s1]; exact uy2) vy2
  · constructor
    · exact coord_pos hp hd0 hk hkp k1.2.2 k2.2.2 k3.2.2 k4.2.2 (q := fun k => ((rndStep p)^[k] st).P.z)
        (dq := fun k => ((rndStep p)^[k] st).dP.z) (ddq := fun k => ((rndStep p)^[k] st).d2P.z) (g := cz)
        (fun k => by simp only [Function.iterate_succ_apply']; rfl) (fun k => by simp only [Function.iterate_succ_apply']; rfl)
        (fun k => by simp only [Function.iterate_succ_apply']; rw [show cz = ((rndStep p)^[k] st).d3P.z by rw [steps_d3P]]; rfl)
        rfl (by rw [bern_s1]; exact az2) (by rw [bern_s2]; exact bz2) cz2
    · exact coord_tan hp hd0 hk hkp k1.2.2 k2.2.2 k3.2.2 k4.2.2 (q := fun k => ((rndStep p)^[k] st).T.z)
        (dq := fun k => ((rndStep p)^[k] st).dT.z) (g := vz)
        (fun k => by simp only [Function.iterate_succ_apply']; rfl)
        (fun k => by simp only [Function.iterate_succ_apply']; rw [show vz = ((rndStep p)^[k] st).d2T.z by rw [steps_d2T]]; rfl)
        (by rw [bern'_s0]; exact tz2) (by rw [bern'_s1]; exact uz2) vz2

/-- a thousand steps of a thousandth in `float` -/
example : ((1024 : ℕ) : ℝ) * (1 / 1024) ≤ 1 ∧ 16 * 1024 ≤ 2 ^ 24 ∧ (⟨1, -2, 3⟩ : Vec3 ℝ).BoundedBy 3 := by
  norm_num [Vec3.BoundedBy]
end main
end MathLib
