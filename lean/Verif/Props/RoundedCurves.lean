import Verif.Proof.Apx
import Verif.Props.RoundedSplines

/-! # Property C142: points of curves in floating point -/

namespace MathLib

/-- a segment of numbers -/
def BezierSegment3.num {K : Type} {rnd : K → K} (s : BezierSegment3 K) : BezierSegment3 (Fl K rnd) :=
  ⟨s.P1.num, s.P2.num, s.P3.num, s.P4.num⟩
def HermiteSplineSegment3.num {K : Type} {rnd : K → K} (s : HermiteSplineSegment3 K) : HermiteSplineSegment3 (Fl K rnd) :=
  ⟨s.P1.num, s.P4.num, s.R1.num, s.R4.num⟩

/-- The claim, for `float`: like the curve itself, the computed points do not leave the box around the
control points.  One coordinate is enough. -/
def C142_full : Prop :=
  ∀ (s : BezierSegment3 ℚ) (t : ℚ) (w : Vec3 ℚ) (lo hi : ℚ),
    (∀ v ∈ [s.P1, s.P2, s.P3, s.P4], Rep 24 v.x ∧ lo ≤ v.x ∧ v.x ≤ hi) → Rep 24 t → 0 ≤ t → t ≤ 1 →
    (s.num : BezierSegment3 F32).pointAt (.num t) = .ok w.num → lo ≤ w.x ∧ w.x ≤ hi

/-- The claim is false: for `t = 8388425 / 8388608` the coefficient of the first control point is computed as
`-2^-23`. -/
theorem C142_refuted : ¬ C142_full := by
  intro h
  have e : ((⟨⟨1, 0, 0⟩, ⟨0, 0, 0⟩, ⟨0, 0, 0⟩, ⟨0, 0, 0⟩⟩ : BezierSegment3 ℚ).num : BezierSegment3 F32).pointAt
      (.num (8388425 / 8388608)) = .ok (Vec3.num ⟨-1 / 8388608, 0, 0⟩) := by decide +kernel
  have r0 : Rep 24 (0 : ℚ) := by simpa using Rep.int (K := ℚ) (p := 24) 0 (by norm_num)
  have r1 : Rep 24 (1 : ℚ) := by simpa using Rep.int (K := ℚ) (p := 24) 1 (by norm_num)
  have := (h ⟨⟨1, 0, 0⟩, ⟨0, 0, 0⟩, ⟨0, 0, 0⟩, ⟨0, 0, 0⟩⟩ (8388425 / 8388608) ⟨-1 / 8388608, 0, 0⟩ 0 1 (by
    intro v hv
    simp only [List.mem_cons, List.not_mem_nil, or_false] at hv
    rcases hv with rfl | rfl | rfl | rfl <;> simp [r0, r1]) ⟨8388425, -23, by norm_num, by norm_num⟩ (by norm_num) (by norm_num) e).1
  norm_num at this

section
variable {p : ℕ}

theorem lit (hp : 12 ≤ p) (u : ℝ) (n : ℕ) [n.AtLeastTwo] (hn : n ≤ 4096) :
    Apx u (OfNat.ofNat n : Fl ℝ (rne p)) (OfNat.ofNat n) 0 (OfNat.ofNat n) := by
  refine ⟨OfNat.ofNat n, ?_, by simp, ?_⟩
  · rw [Fl.ofNat_def, rne_of_rep (by omega)]
    · simp
    · have : (2 : ℤ) ^ 12 ≤ 2 ^ p := pow_le_pow_right₀ (by norm_num) hp
      have h := Rep.int (K := ℝ) (p := p) (OfNat.ofNat n : ℕ) (by
        rw [abs_of_nonneg (by positivity)]
        have : ((OfNat.ofNat n : ℕ) : ℤ) ≤ 4096 := by exact_mod_cast hn
        linarith)
      simpa using h
  · simp

theorem one_lit (u : ℝ) : Apx u (1 : Fl ℝ (rne p)) 1 0 1 := ⟨1, rfl, by simp, by simp⟩

/-- the sum of four products -/
theorem comb4 {u : ℝ} {rnd : ℝ → ℝ} (hr : IsRel rnd u) (hu : u ≤ 1 / 4096) {a₁ a₂ a₃ a₄ : Fl ℝ rnd}
    {x₁ x₂ x₃ x₄ y₁ y₂ y₃ y₄ e₁ e₂ e₃ e₄ M₁ M₂ M₃ M₄ K S e : ℝ} (hK : 0 ≤ K)
    (h₁ : Apx u a₁ x₁ e₁ M₁) (h₂ : Apx u a₂ x₂ e₂ M₂) (h₃ : Apx u a₃ x₃ e₃ M₃) (h₄ : Apx u a₄ x₄ e₄ M₄)
    (e1 : 0 ≤ e₁) (e2 : 0 ≤ e₂) (e3 : 0 ≤ e₃) (e4 : 0 ≤ e₄)
    (k₁ : |y₁| ≤ K) (k₂ : |y₂| ≤ K) (k₃ : |y₃| ≤ K) (k₄ : |y₄| ≤ K) (hS : |x₁| + |x₂| + |x₃| + |x₄| ≤ S)
    (he : (((e₁ + M₁ + e₂ + M₂) * (1002 / 1000) + S + e₃ + M₃) * (1001 / 1000) + S + e₄ + M₄) * (1001 / 1000) + S ≤ e) :
    Apx u (Fl.num y₁ * a₁ + Fl.num y₂ * a₂ + Fl.num y₃ * a₃ + Fl.num y₄ * a₄)
      (y₁ * x₁ + y₂ * x₂ + y₃ * x₃ + y₄ * x₄) (e * K) (S * K) := by
  have prod : ∀ {a : Fl ℝ rnd} {x y f M : ℝ}, Apx u a x f M → 0 ≤ f → |y| ≤ K →
      Apx u (Fl.num y * a) (y * x) (((f * (4097 / 4096)) + M) * K) (M * K) := by
    intro a x y f M h hf hy
    have hM : 0 ≤ M := (abs_nonneg _).trans h.choose_spec.2.2
    refine Apx.mul hr hu (Apx.num (M := K) hy) h hf ?_ (le_of_eq (by ring))
    have := mul_le_mul hy h.choose_spec.2.2 (abs_nonneg _) hK
    rw [abs_mul]; linarith
  have b : ∀ {x y : ℝ}, |y| ≤ K → |y * x| ≤ |x| * K := fun hy => by
    rw [abs_mul, mul_comm]; exact mul_le_mul_of_nonneg_left hy (abs_nonneg _)
  have b1 := b (x := x₁) k₁
  have b2 := b (x := x₂) k₂
  have b3 := b (x := x₃) k₃
  have b4 := b (x := x₄) k₄
  have hSK := mul_le_mul_of_nonneg_right hS hK
  have n1 := mul_nonneg (abs_nonneg x₁) hK
  have n2 := mul_nonneg (abs_nonneg x₂) hK
  have n3 := mul_nonneg (abs_nonneg x₃) hK
  have n4 := mul_nonneg (abs_nonneg x₄) hK
  have m1 : 0 ≤ M₁ := (abs_nonneg _).trans h₁.choose_spec.2.2
  have m2 : 0 ≤ M₂ := (abs_nonneg _).trans h₂.choose_spec.2.2
  have m3 : 0 ≤ M₃ := (abs_nonneg _).trans h₃.choose_spec.2.2
  have m4 : 0 ≤ M₄ := (abs_nonneg _).trans h₄.choose_spec.2.2
  have hS0 : 0 ≤ S := by have := abs_nonneg x₁; have := abs_nonneg x₂; have := abs_nonneg x₃; have := abs_nonneg x₄; linarith
  have s12 := abs_add_le (y₁ * x₁) (y₂ * x₂)
  have s123 := abs_add_le (y₁ * x₁ + y₂ * x₂) (y₃ * x₃)
  have s1234 := abs_add_le (y₁ * x₁ + y₂ * x₂ + y₃ * x₃) (y₄ * x₄)
  have c2 := Apx.add hr hu (prod h₁ e1 k₁) (prod h₂ e2 k₂) (M := S * K)
    (e := ((e₁ + M₁ + e₂ + M₂) * (1002 / 1000) + S) * K) (by linarith) (by
      rw [← add_mul, mul_right_comm, ← add_mul]
      refine mul_le_mul_of_nonneg_right ?_ hK
      linarith)
  have c3 := Apx.add hr hu c2 (prod h₃ e3 k₃) (M := S * K)
    (e := (((e₁ + M₁ + e₂ + M₂) * (1002 / 1000) + S + e₃ + M₃) * (1001 / 1000) + S) * K) (by linarith) (by
      rw [← add_mul, mul_right_comm, ← add_mul]
      refine mul_le_mul_of_nonneg_right ?_ hK
      linarith)
  refine Apx.add hr hu c3 (prod h₄ e4 k₄) (by linarith) ?_
  rw [← add_mul, mul_right_comm, ← add_mul]
  refine mul_le_mul_of_nonneg_right (le_trans ?_ he) hK
  linarith

theorem Apx.val {rnd : ℝ → ℝ} {u : ℝ} {a : Fl ℝ rnd} {x e M : ℝ} (h : Apx u a x e M) : ∃ v, a = .num v ∧ |v - x| ≤ e * u :=
  let ⟨v, h1, h2, _⟩ := h
  ⟨v, h1, h2⟩

section unit
variable (hp : 12 ≤ p) {t : ℝ} (h0 : 0 ≤ t) (h1 : t ≤ 1)
include hp h0 h1

omit hp in
theorem apx_t : Apx (2 ^ (-(p : ℤ))) (Fl.num t : Fl ℝ (rne p)) t 0 1 := Apx.num (by rw [abs_of_nonneg h0]; exact h1)

theorem apx_t2 : Apx (2 ^ (-(p : ℤ))) (Fl.num t * Fl.num t : Fl ℝ (rne p)) (t * t) 1 1 := by
  have hr := isRel_rne p (by omega : 1 ≤ p)
  refine (apx_t h0 h1).mul hr (small_unit hp) (apx_t h0 h1) le_rfl ?_ (by norm_num)
  rw [abs_of_nonneg (by positivity)]; nlinarith

theorem apx_t3 : Apx (2 ^ (-(p : ℤ))) (Fl.num t * Fl.num t * Fl.num t : Fl ℝ (rne p)) (t * t * t) (2001 / 1000) 1 := by
  have hr := isRel_rne p (by omega : 1 ≤ p)
  refine (apx_t2 hp h0 h1).mul hr (small_unit hp) (apx_t h0 h1) le_rfl ?_ (by norm_num)
  rw [abs_of_nonneg (by positivity)]
  have : t * t ≤ 1 := by nlinarith
  nlinarith

/-- the coefficients of a Bezier segment as `pointAt` computes them -/
theorem bezier_coeffs :
    Apx (2 ^ (-(p : ℤ))) (-(Fl.num t * Fl.num t * Fl.num t) + 3 * (Fl.num t * Fl.num t) - 3 * Fl.num t + 1 : Fl ℝ (rne p))
      ((1 - t) ^ 3) (151 / 10) 1 ∧
    Apx (2 ^ (-(p : ℤ))) (3 * (Fl.num t * Fl.num t * Fl.num t) - 6 * (Fl.num t * Fl.num t) + 3 * Fl.num t : Fl ℝ (rne p))
      (3 * t * (1 - t) ^ 2) (276 / 10) (1 / 2) ∧
    Apx (2 ^ (-(p : ℤ))) (-3 * (Fl.num t * Fl.num t * Fl.num t) + 3 * (Fl.num t * Fl.num t) : Fl ℝ (rne p))
      (3 * t ^ 2 * (1 - t)) (156 / 10) (1 / 2) := by
  have hr := isRel_rne p (by omega : 1 ≤ p)
  have hu := small_unit hp
  have a2 := apx_t2 hp h0 h1
  have a3 := apx_t3 hp h0 h1
  have a1 : Apx (2 ^ (-(p : ℤ))) (Fl.num t : Fl ℝ (rne p)) t 0 1 := apx_t h0 h1
  have l3 := lit hp (2 ^ (-(p : ℤ))) 3 (by norm_num)
  have l6 := lit hp (2 ^ (-(p : ℤ))) 6 (by norm_num)
  have t2 : t * t ≤ t := by nlinarith
  have t3 : t * t * t ≤ t * t := by nlinarith [mul_nonneg h0 h0]
  have p2 : 0 ≤ t * t := by positivity
  have p3 : 0 ≤ t * t * t := by positivity
  have c0 : 0 ≤ 1 - t := by linarith
  have d1 := l3.mul hr hu a2 (by norm_num) (M := 3) (e := 6001 / 1000)
    (by rw [abs_of_nonneg (by positivity)]; linarith) (by norm_num)
  have d2 := l3.mul hr hu a1 (by norm_num) (M := 3) (e := 3)
    (by rw [abs_of_nonneg (by positivity)]; linarith) (by norm_num)
  have d3 := l3.mul hr hu a3 (by norm_num) (M := 3) (e := 901 / 100)
    (by rw [abs_of_nonneg (by positivity)]; linarith) (by norm_num)
  have d4 := l6.mul hr hu a2 (by norm_num) (M := 6) (e := 1201 / 100)
    (by rw [abs_of_nonneg (by positivity)]; linarith) (by norm_num)
  have d5 := l3.neg.mul hr hu a3 (by norm_num) (M := 3) (e := 901 / 100)
    (by rw [abs_mul, abs_neg, abs_of_nonneg p3]; norm_num; linarith) (by norm_num)
  refine ⟨?_, ?_, ?_⟩
  · have f1 := a3.neg.add hr hu d1 (M := 2) (e := 1002 / 100) (by
      rw [abs_le]; constructor <;> nlinarith) (by norm_num)
    have f2 := f1.sub hr hu d2 (M := 1) (e := 1404 / 100) (by
      have : -(t * t * t) + 3 * (t * t) - 3 * t = (1 - t) ^ 3 - 1 := by ring
      have k : (1 - t) ^ 3 ≤ 1 := pow_le_one₀ c0 (by linarith)
      have k' : 0 ≤ (1 - t) ^ 3 := pow_nonneg c0 3
      rw [this, abs_le]; constructor <;> linarith) (by norm_num)
    have f3 := f2.add hr hu (one_lit _) (M := 1) (e := 151 / 10) (by
      have : -(t * t * t) + 3 * (t * t) - 3 * t + 1 = (1 - t) ^ 3 := by ring
      rw [this, abs_of_nonneg (pow_nonneg c0 3)]; exact pow_le_one₀ c0 (by linarith)) (by norm_num)
    convert f3 using 1; ring
  · have f1 := d3.sub hr hu d4 (M := 3) (e := 2403 / 100) (by
      rw [abs_le]; constructor <;> nlinarith) (by norm_num)
    have f2 := f1.add hr hu d2 (M := 1 / 2) (e := 276 / 10) (by
      have : 3 * (t * t * t) - 6 * (t * t) + 3 * t = 3 * t * (1 - t) ^ 2 := by ring
      rw [this, abs_of_nonneg (by positivity)]
      nlinarith [mul_nonneg h0 c0, mul_nonneg (sq_nonneg (3 * t - 1)) (show 0 ≤ 4 - 3 * t by linarith)]) (by norm_num)
    convert f2 using 1; ring
  · have f1 := d5.add hr hu d1 (M := 1 / 2) (e := 156 / 10) (by
      have : -3 * (t * t * t) + 3 * (t * t) = 3 * t ^ 2 * (1 - t) := by ring
      rw [this, abs_of_nonneg (by positivity)]
      nlinarith [mul_nonneg h0 c0, mul_nonneg (sq_nonneg (3 * t - 2)) (show 0 ≤ 3 * t + 1 by linarith)]) (by norm_num)
    convert f1 using 1; ring

/-- one coordinate of a point -/
theorem bezier_coord {y₁ y₂ y₃ y₄ K : ℝ} (k₁ : |y₁| ≤ K) (k₂ : |y₂| ≤ K) (k₃ : |y₃| ≤ K) (k₄ : |y₄| ≤ K) :
    ∃ v, (Fl.num y₁ * (-(Fl.num t * Fl.num t * Fl.num t) + 3 * (Fl.num t * Fl.num t) - 3 * Fl.num t + 1) +
        Fl.num y₂ * (3 * (Fl.num t * Fl.num t * Fl.num t) - 6 * (Fl.num t * Fl.num t) + 3 * Fl.num t) +
        Fl.num y₃ * (-3 * (Fl.num t * Fl.num t * Fl.num t) + 3 * (Fl.num t * Fl.num t)) +
        Fl.num y₄ * (Fl.num t * Fl.num t * Fl.num t) : Fl ℝ (rne p)) = .num v ∧
      |v - (y₁ * (1 - t) ^ 3 + y₂ * (3 * t * (1 - t) ^ 2) + y₃ * (3 * t ^ 2 * (1 - t)) + y₄ * (t * t * t))| ≤
        68 * K * 2 ^ (-(p : ℤ)) := by
  have hr := isRel_rne p (by omega : 1 ≤ p)
  obtain ⟨c1, c2, c3⟩ := bezier_coeffs hp h0 h1
  have c0 : 0 ≤ 1 - t := by linarith
  refine (comb4 hr (small_unit hp) ((abs_nonneg _).trans k₁) c1 c2 c3 (apx_t3 hp h0 h1) (by norm_num) (by norm_num) (by norm_num)
    (by norm_num) k₁ k₂ k₃ k₄ (S := 1) ?_ ?_).val
  · rw [abs_of_nonneg (by positivity), abs_of_nonneg (by positivity), abs_of_nonneg (by positivity),
      abs_of_nonneg (by positivity)]
    exact le_of_eq (by ring)
  · norm_num

/-- the coefficients of the tangent of a Bezier segment -/
theorem bezier_dcoeffs :
    Apx (2 ^ (-(p : ℤ))) (-3 * (Fl.num t * Fl.num t) + 6 * Fl.num t - 3 : Fl ℝ (rne p))
      (-3 * (1 - t) ^ 2) (1803 / 100) 3 ∧
    Apx (2 ^ (-(p : ℤ))) (9 * (Fl.num t * Fl.num t) - 12 * Fl.num t + 3 : Fl ℝ (rne p))
      (3 * (1 - t) ^ 2 - 6 * t * (1 - t)) (3705 / 100) 3 ∧
    Apx (2 ^ (-(p : ℤ))) (-9 * (Fl.num t * Fl.num t) + 6 * Fl.num t : Fl ℝ (rne p))
      (6 * t * (1 - t) - 3 * t ^ 2) (2703 / 100) 3 ∧
    Apx (2 ^ (-(p : ℤ))) (3 * (Fl.num t * Fl.num t) : Fl ℝ (rne p)) (3 * t ^ 2) (6001 / 1000) 3 := by
  have hr := isRel_rne p (by omega : 1 ≤ p)
  have hu := small_unit hp
  have a2 := apx_t2 hp h0 h1
  have a1 : Apx (2 ^ (-(p : ℤ))) (Fl.num t : Fl ℝ (rne p)) t 0 1 := apx_t h0 h1
  have l3 := lit hp (2 ^ (-(p : ℤ))) 3 (by norm_num)
  have l6 := lit hp (2 ^ (-(p : ℤ))) 6 (by norm_num)
  have l9 := lit hp (2 ^ (-(p : ℤ))) 9 (by norm_num)
  have l12 := lit hp (2 ^ (-(p : ℤ))) 12 (by norm_num)
  have t2 : t * t ≤ t := by nlinarith
  have p2 : 0 ≤ t * t := by positivity
  have d1 := l3.neg.mul hr hu a2 (by norm_num) (M := 3) (e := 6001 / 1000)
    (by rw [abs_mul, abs_neg, abs_of_nonneg p2]; norm_num; linarith) (by norm_num)
  have d2 := l6.mul hr hu a1 (by norm_num) (M := 6) (e := 6)
    (by rw [abs_of_nonneg (by positivity)]; linarith) (by norm_num)
  have d3 := l9.mul hr hu a2 (by norm_num) (M := 9) (e := 18003 / 1000)
    (by rw [abs_of_nonneg (by positivity)]; linarith) (by norm_num)
  have d4 := l12.mul hr hu a1 (by norm_num) (M := 12) (e := 12)
    (by rw [abs_of_nonneg (by positivity)]; linarith) (by norm_num)
  have d5 := l9.neg.mul hr hu a2 (by norm_num) (M := 9) (e := 18003 / 1000)
    (by rw [abs_mul, abs_neg, abs_of_nonneg p2]; norm_num; linarith) (by norm_num)
  have d6 := l3.mul hr hu a2 (by norm_num) (M := 3) (e := 6001 / 1000)
    (by rw [abs_of_nonneg (by positivity)]; linarith) (by norm_num)
  refine ⟨?_, ?_, ?_, ?_⟩
  · have f1 := d1.add hr hu d2 (M := 3) (e := 1501 / 100) (by
      rw [abs_le]; constructor <;> nlinarith [sq_nonneg (1 - t)]) (by norm_num)
    have f2 := f1.sub hr hu l3 (M := 3) (e := 1803 / 100) (by
      rw [abs_le]; constructor <;> nlinarith [sq_nonneg (1 - t)]) (by norm_num)
    convert f2 using 1; ring
  · have f1 := d3.sub hr hu d4 (M := 4) (e := 3402 / 100) (by
      rw [abs_le]; constructor <;> nlinarith [sq_nonneg (3 * t - 2)]) (by norm_num)
    have f2 := f1.add hr hu l3 (M := 3) (e := 3705 / 100) (by
      rw [abs_le]; constructor <;> nlinarith [sq_nonneg (3 * t - 2)]) (by norm_num)
    convert f2 using 1; ring
  · have f1 := d5.add hr hu d2 (M := 3) (e := 2703 / 100) (by
      rw [abs_le]; constructor <;> nlinarith [sq_nonneg (3 * t - 1)]) (by norm_num)
    convert f1 using 1; ring
  · convert d6 using 1; ring

/-- one coordinate of a tangent -/
theorem bezier_dcoord {y₁ y₂ y₃ y₄ K : ℝ} (k₁ : |y₁| ≤ K) (k₂ : |y₂| ≤ K) (k₃ : |y₃| ≤ K) (k₄ : |y₄| ≤ K) :
    ∃ v, (Fl.num y₁ * (-3 * (Fl.num t * Fl.num t) + 6 * Fl.num t - 3) +
        Fl.num y₂ * (9 * (Fl.num t * Fl.num t) - 12 * Fl.num t + 3) +
        Fl.num y₃ * (-9 * (Fl.num t * Fl.num t) + 6 * Fl.num t) +
        Fl.num y₄ * (3 * (Fl.num t * Fl.num t)) : Fl ℝ (rne p)) = .num v ∧
      |v - (y₁ * (-3 * (1 - t) ^ 2) + y₂ * (3 * (1 - t) ^ 2 - 6 * t * (1 - t)) + y₃ * (6 * t * (1 - t) - 3 * t ^ 2) +
        y₄ * (3 * t ^ 2))| ≤ 120 * K * 2 ^ (-(p : ℤ)) := by
  have hr := isRel_rne p (by omega : 1 ≤ p)
  obtain ⟨c1, c2, c3, c4⟩ := bezier_dcoeffs hp h0 h1
  have c0 : 0 ≤ 1 - t := by linarith
  refine (comb4 hr (small_unit hp) ((abs_nonneg _).trans k₁) c1 c2 c3 c4 (by norm_num) (by norm_num) (by norm_num)
    (by norm_num) k₁ k₂ k₃ k₄ (S := 6) ?_ ?_).val
  · have q1 : 0 ≤ 3 * (1 - t) ^ 2 := by positivity
    have q2 : 0 ≤ 6 * t * (1 - t) := by positivity
    have q3 : 0 ≤ 3 * t ^ 2 := by positivity
    have b2 := abs_sub (3 * (1 - t) ^ 2) (6 * t * (1 - t))
    have b3 := abs_sub (6 * t * (1 - t)) (3 * t ^ 2)
    have b1 : |-3 * (1 - t) ^ 2| = 3 * (1 - t) ^ 2 := by rw [neg_mul, abs_neg, abs_of_nonneg q1]
    rw [abs_of_nonneg q1, abs_of_nonneg q2] at b2
    rw [abs_of_nonneg q3, abs_of_nonneg q2] at b3
    rw [b1, abs_of_nonneg q3]
    have : 6 * (1 - t) ^ 2 + 2 * (6 * t * (1 - t)) + 6 * t ^ 2 = 6 := by ring
    linarith
  · norm_num

/-- the coefficients of a Hermite segment -/
theorem hermite_coeffs :
    Apx (2 ^ (-(p : ℤ))) (-2 * (Fl.num t * Fl.num t * Fl.num t) + 3 * (Fl.num t * Fl.num t) : Fl ℝ (rne p))
      (-2 * t ^ 3 + 3 * t ^ 2) (1303 / 100) 1 ∧
    Apx (2 ^ (-(p : ℤ))) (1 - (-2 * (Fl.num t * Fl.num t * Fl.num t) + 3 * (Fl.num t * Fl.num t)) : Fl ℝ (rne p))
      (1 - (-2 * t ^ 3 + 3 * t ^ 2)) (1404 / 100) 1 ∧
    Apx (2 ^ (-(p : ℤ))) (Fl.num t * Fl.num t * Fl.num t - 2 * (Fl.num t * Fl.num t) + Fl.num t : Fl ℝ (rne p))
      (t ^ 3 - 2 * t ^ 2 + t) (723 / 100) (1 / 5) ∧
    Apx (2 ^ (-(p : ℤ))) (Fl.num t * Fl.num t * Fl.num t - Fl.num t * Fl.num t : Fl ℝ (rne p))
      (t ^ 3 - t ^ 2) (322 / 100) (1 / 5) := by
  have hr := isRel_rne p (by omega : 1 ≤ p)
  have hu := small_unit hp
  have a2 := apx_t2 hp h0 h1
  have a3 := apx_t3 hp h0 h1
  have a1 : Apx (2 ^ (-(p : ℤ))) (Fl.num t : Fl ℝ (rne p)) t 0 1 := apx_t h0 h1
  have l3 := lit hp (2 ^ (-(p : ℤ))) 3 (by norm_num)
  have l2 := lit hp (2 ^ (-(p : ℤ))) 2 (by norm_num)
  have t2 : t * t ≤ t := by nlinarith
  have t3 : t * t * t ≤ t * t := by nlinarith [mul_nonneg h0 h0]
  have p2 : 0 ≤ t * t := by positivity
  have p3 : 0 ≤ t * t * t := by positivity
  have c0 : 0 ≤ 1 - t := by linarith
  have m0 : 0 ≤ 1 - (-2 * (t * t * t) + 3 * (t * t)) := by
    have : 1 - (-2 * (t * t * t) + 3 * (t * t)) = (1 - t) ^ 2 * (1 + 2 * t) := by ring
    rw [this]; positivity
  have d1 := l2.neg.mul hr hu a3 (by norm_num) (M := 2) (e := 601 / 100)
    (by rw [abs_mul, abs_neg, abs_of_nonneg p3]; norm_num; linarith) (by norm_num)
  have d2 := l3.mul hr hu a2 (by norm_num) (M := 3) (e := 6001 / 1000)
    (by rw [abs_of_nonneg (by positivity)]; linarith) (by norm_num)
  have d3 := l2.mul hr hu a2 (by norm_num) (M := 2) (e := 4001 / 1000)
    (by rw [abs_of_nonneg (by positivity)]; linarith) (by norm_num)
  have f1 := d1.add hr hu d2 (M := 1) (e := 1303 / 100) (by
      rw [abs_le]; constructor <;> nlinarith) (by norm_num)
  refine ⟨?_, ?_, ?_, ?_⟩
  · convert f1 using 1; ring
  · have f2 := (one_lit _).sub hr hu f1 (M := 1) (e := 1404 / 100) (by
      rw [abs_le]; constructor <;> nlinarith) (by norm_num)
    convert f2 using 1; ring
  · have f2 := a3.sub hr hu d3 (M := 1) (e := 701 / 100) (by
      rw [abs_le]; constructor <;> nlinarith [mul_nonneg p2 c0]) (by norm_num)
    have f3 := f2.add hr hu a1 (M := 1 / 5) (e := 723 / 100) (by
      have : t * t * t - 2 * (t * t) + t = t * (1 - t) ^ 2 := by ring
      rw [this, abs_of_nonneg (by positivity)]
      nlinarith [mul_nonneg h0 c0, mul_nonneg (sq_nonneg (3 * t - 1)) (show 0 ≤ 4 - 3 * t by linarith)]) (by norm_num)
    convert f3 using 1; ring
  · have f2 := a3.sub hr hu a2 (M := 1 / 5) (e := 322 / 100) (by
      have : t * t * t - t * t = -(t ^ 2 * (1 - t)) := by ring
      rw [this, abs_neg, abs_of_nonneg (by positivity)]
      nlinarith [mul_nonneg h0 c0, mul_nonneg (sq_nonneg (3 * t - 2)) (show 0 ≤ 3 * t + 1 by linarith)]) (by norm_num)
    convert f2 using 1; ring

/-- one coordinate of a point of a Hermite segment -/
theorem hermite_coord {y₁ y₂ y₃ y₄ K : ℝ} (k₁ : |y₁| ≤ K) (k₂ : |y₂| ≤ K) (k₃ : |y₃| ≤ K) (k₄ : |y₄| ≤ K) :
    ∃ v, (Fl.num y₁ * (1 - (-2 * (Fl.num t * Fl.num t * Fl.num t) + 3 * (Fl.num t * Fl.num t))) +
        Fl.num y₂ * (-2 * (Fl.num t * Fl.num t * Fl.num t) + 3 * (Fl.num t * Fl.num t)) +
        Fl.num y₃ * (Fl.num t * Fl.num t * Fl.num t - 2 * (Fl.num t * Fl.num t) + Fl.num t) +
        Fl.num y₄ * (Fl.num t * Fl.num t * Fl.num t - Fl.num t * Fl.num t) : Fl ℝ (rne p)) = .num v ∧
      |v - (y₁ * (1 - (-2 * t ^ 3 + 3 * t ^ 2)) + y₂ * (-2 * t ^ 3 + 3 * t ^ 2) + y₃ * (t ^ 3 - 2 * t ^ 2 + t) +
        y₄ * (t ^ 3 - t ^ 2))| ≤ 45 * K * 2 ^ (-(p : ℤ)) := by
  have hr := isRel_rne p (by omega : 1 ≤ p)
  obtain ⟨c1, c2, c3, c4⟩ := hermite_coeffs hp h0 h1
  have c0 : 0 ≤ 1 - t := by linarith
  have m3 := c3.choose_spec.2.2
  have m4 := c4.choose_spec.2.2
  refine (comb4 hr (small_unit hp) ((abs_nonneg _).trans k₁) c2 c1 c3 c4 (by norm_num) (by norm_num) (by norm_num)
    (by norm_num) k₁ k₂ k₃ k₄ (S := 7 / 5) ?_ ?_).val
  · have e1 : 1 - (-2 * t ^ 3 + 3 * t ^ 2) = (1 - t) ^ 2 * (1 + 2 * t) := by ring
    have e2 : -2 * t ^ 3 + 3 * t ^ 2 = t ^ 2 * (1 + 2 * (1 - t)) := by ring
    have q1 : |1 - (-2 * t ^ 3 + 3 * t ^ 2)| = 1 - (-2 * t ^ 3 + 3 * t ^ 2) := by
      rw [abs_of_nonneg]; rw [e1]; positivity
    have q2 : |-2 * t ^ 3 + 3 * t ^ 2| = -2 * t ^ 3 + 3 * t ^ 2 := by
      rw [abs_of_nonneg]; rw [e2]; positivity
    rw [q1, q2]
    linarith
  · norm_num

/-- the coefficients of the tangent of a Hermite segment -/
theorem hermite_dcoeffs :
    Apx (2 ^ (-(p : ℤ))) (-6 * (Fl.num t * Fl.num t) + 6 * Fl.num t : Fl ℝ (rne p))
      (-6 * t ^ 2 + 6 * t) (1953 / 100) (3 / 2) ∧
    Apx (2 ^ (-(p : ℤ))) (3 * (Fl.num t * Fl.num t) - 4 * Fl.num t + 1 : Fl ℝ (rne p))
      (3 * t ^ 2 - 4 * t + 1) (1253 / 100) 1 ∧
    Apx (2 ^ (-(p : ℤ))) (3 * (Fl.num t * Fl.num t) - 2 * Fl.num t : Fl ℝ (rne p))
      (3 * t ^ 2 - 2 * t) (901 / 100) 1 := by
  have hr := isRel_rne p (by omega : 1 ≤ p)
  have hu := small_unit hp
  have a2 := apx_t2 hp h0 h1
  have a1 : Apx (2 ^ (-(p : ℤ))) (Fl.num t : Fl ℝ (rne p)) t 0 1 := apx_t h0 h1
  have l3 := lit hp (2 ^ (-(p : ℤ))) 3 (by norm_num)
  have l2 := lit hp (2 ^ (-(p : ℤ))) 2 (by norm_num)
  have l6 := lit hp (2 ^ (-(p : ℤ))) 6 (by norm_num)
  have l4 := lit hp (2 ^ (-(p : ℤ))) 4 (by norm_num)
  have t2 : t * t ≤ t := by nlinarith
  have p2 : 0 ≤ t * t := by positivity
  have d1 := l6.neg.mul hr hu a2 (by norm_num) (M := 6) (e := 12002 / 1000)
    (by rw [abs_mul, abs_neg, abs_of_nonneg p2]; norm_num; linarith) (by norm_num)
  have d2 := l6.mul hr hu a1 (by norm_num) (M := 6) (e := 6)
    (by rw [abs_of_nonneg (by positivity)]; linarith) (by norm_num)
  have d3 := l3.mul hr hu a2 (by norm_num) (M := 3) (e := 6001 / 1000)
    (by rw [abs_of_nonneg (by positivity)]; linarith) (by norm_num)
  have d4 := l4.mul hr hu a1 (by norm_num) (M := 4) (e := 4)
    (by rw [abs_of_nonneg (by positivity)]; linarith) (by norm_num)
  have d5 := l2.mul hr hu a1 (by norm_num) (M := 2) (e := 2)
    (by rw [abs_of_nonneg (by positivity)]; linarith) (by norm_num)
  refine ⟨?_, ?_, ?_⟩
  · have f1 := d1.add hr hu d2 (M := 3 / 2) (e := 1953 / 100) (by
      rw [abs_le]; constructor <;> nlinarith [sq_nonneg (2 * t - 1)]) (by norm_num)
    convert f1 using 1; ring
  · have f1 := d3.sub hr hu d4 (M := 3 / 2) (e := 1151 / 100) (by
      rw [abs_le]; constructor <;> nlinarith [sq_nonneg (3 * t - 2)]) (by norm_num)
    have f2 := f1.add hr hu (one_lit _) (M := 1) (e := 1253 / 100) (by
      rw [abs_le]; constructor <;> nlinarith [sq_nonneg (3 * t - 2)]) (by norm_num)
    convert f2 using 1; ring
  · have f1 := d3.sub hr hu d5 (M := 1) (e := 901 / 100) (by
      rw [abs_le]; constructor <;> nlinarith [sq_nonneg (3 * t - 1)]) (by norm_num)
    convert f1 using 1; ring

/-- one coordinate of a tangent of a Hermite segment -/
theorem hermite_dcoord {y₁ y₂ y₃ y₄ K : ℝ} (k₁ : |y₁| ≤ K) (k₂ : |y₂| ≤ K) (k₃ : |y₃| ≤ K) (k₄ : |y₄| ≤ K) :
    ∃ v, (Fl.num y₁ * (-(-6 * (Fl.num t * Fl.num t) + 6 * Fl.num t)) +
        Fl.num y₂ * (-6 * (Fl.num t * Fl.num t) + 6 * Fl.num t) +
        Fl.num y₃ * (3 * (Fl.num t * Fl.num t) - 4 * Fl.num t + 1) +
        Fl.num y₄ * (3 * (Fl.num t * Fl.num t) - 2 * Fl.num t) : Fl ℝ (rne p)) = .num v ∧
      |v - (y₁ * (-(-6 * t ^ 2 + 6 * t)) + y₂ * (-6 * t ^ 2 + 6 * t) + y₃ * (3 * t ^ 2 - 4 * t + 1) +
        y₄ * (3 * t ^ 2 - 2 * t))| ≤ 82 * K * 2 ^ (-(p : ℤ)) := by
  have hr := isRel_rne p (by omega : 1 ≤ p)
  obtain ⟨c1, c2, c3⟩ := hermite_dcoeffs hp h0 h1
  have m1 := c1.choose_spec.2.2
  have m2 := c2.choose_spec.2.2
  have m3 := c3.choose_spec.2.2
  refine (comb4 hr (small_unit hp) ((abs_nonneg _).trans k₁) c1.neg c1 c2 c3 (by norm_num) (by norm_num) (by norm_num)
    (by norm_num) k₁ k₂ k₃ k₄ (S := 5) ?_ ?_).val
  · rw [abs_neg]; linarith
  · norm_num
end unit

theorem unit_test {t : ℝ} (h0 : 0 ≤ t) (h1 : t ≤ 1) : (Fl.num t : Fl ℝ (rne p)) ≥ 0 ∧ (Fl.num t : Fl ℝ (rne p)) ≤ 1 :=
  ⟨by show (0 : Fl ℝ (rne p)) ≤ _; rw [Fl.zero_def, Fl.num_le]; exact h0, by rw [Fl.one_def, Fl.num_le]; exact h1⟩

/-- C142, what holds: with rounding to `p ≥ 12` bits no coordinate of a point is off by more than `68 * 2^-p` times the
largest coordinate of the control points.  Missing: that the points do not leave the box, which is false. -/
theorem C142_point_partial (hp : 12 ≤ p) (s : BezierSegment3 ℝ) (t K : ℝ) (h0 : 0 ≤ t) (h1 : t ≤ 1)
    (k1 : s.P1.BoundedBy K) (k2 : s.P2.BoundedBy K) (k3 : s.P3.BoundedBy K) (k4 : s.P4.BoundedBy K) :
    ∃ w : Vec3 ℝ, (s.num : BezierSegment3 (Fl ℝ (rne p))).pointAt (.num t) = .ok w.num ∧
      ∀ j, |w.toE j - s.curve t j| ≤ 68 * K * 2 ^ (-(p : ℤ)) := by
  obtain ⟨x, ex, hx⟩ := bezier_coord hp h0 h1 k1.1 k2.1 k3.1 k4.1
  obtain ⟨y, ey, hy⟩ := bezier_coord hp h0 h1 k1.2.1 k2.2.1 k3.2.1 k4.2.1
  obtain ⟨z, ez, hz⟩ := bezier_coord hp h0 h1 k1.2.2 k2.2.2 k3.2.2 k4.2.2
  refine ⟨⟨x, y, z⟩, ?_, fun j => ?_⟩
  · rw [BezierSegment3.pointAt, if_pos (unit_test h0 h1)]
    refine congrArg Except.ok ?_
    exact Vec3.ext ex ey ez
  · rw [← s.toE_val]
    fin_cases j
    · show |x - _| ≤ _
      have e : t * t * t = t ^ 3 := by ring
      rw [e] at hx; exact hx
    · show |y - _| ≤ _
      have e : t * t * t = t ^ 3 := by ring
      rw [e] at hy; exact hy
    · show |z - _| ≤ _
      have e : t * t * t = t ^ 3 := by ring
      rw [e] at hz; exact hz

/-- The same for tangents, compared with the derivative of the curve. -/
theorem C142_tangent_partial (hp : 12 ≤ p) (s : BezierSegment3 ℝ) (t K : ℝ) (h0 : 0 ≤ t) (h1 : t ≤ 1)
    (k1 : s.P1.BoundedBy K) (k2 : s.P2.BoundedBy K) (k3 : s.P3.BoundedBy K) (k4 : s.P4.BoundedBy K) :
    ∃ w : Vec3 ℝ, (s.num : BezierSegment3 (Fl ℝ (rne p))).tangentAt (.num t) = .ok w.num ∧
      ∀ j, |w.toE j - deriv s.curve t j| ≤ 120 * K * 2 ^ (-(p : ℤ)) := by
  obtain ⟨x, ex, hx⟩ := bezier_dcoord hp h0 h1 k1.1 k2.1 k3.1 k4.1
  obtain ⟨y, ey, hy⟩ := bezier_dcoord hp h0 h1 k1.2.1 k2.2.1 k3.2.1 k4.2.1
  obtain ⟨z, ez, hz⟩ := bezier_dcoord hp h0 h1 k1.2.2 k2.2.2 k3.2.2 k4.2.2
  refine ⟨⟨x, y, z⟩, ?_, fun j => ?_⟩
  · rw [BezierSegment3.tangentAt, if_pos (unit_test h0 h1)]
    refine congrArg Except.ok ?_
    exact Vec3.ext ex ey ez
  · rw [s.deriv_curve]
    fin_cases j
    · exact hx
    · exact hy
    · exact hz

/-- The same for Hermite segments, compared with exact evaluation (which C87 describes). -/
theorem C142_hermite_partial (hp : 12 ≤ p) (s : HermiteSplineSegment3 ℝ) (t K : ℝ) (h0 : 0 ≤ t) (h1 : t ≤ 1)
    (k1 : s.P1.BoundedBy K) (k2 : s.P4.BoundedBy K) (k3 : s.R1.BoundedBy K) (k4 : s.R4.BoundedBy K) :
    ∃ w w' v v' : Vec3 ℝ, (s.num : HermiteSplineSegment3 (Fl ℝ (rne p))).pointAt (.num t) = .ok w.num ∧
      s.pointAt t = .ok v ∧ w.Near v (45 * K * 2 ^ (-(p : ℤ))) ∧
      (s.num : HermiteSplineSegment3 (Fl ℝ (rne p))).tangentAt (.num t) = .ok w'.num ∧
      s.tangentAt t = .ok v' ∧ w'.Near v' (82 * K * 2 ^ (-(p : ℤ))) := by
  obtain ⟨x, ex, hx⟩ := hermite_coord hp h0 h1 k1.1 k2.1 k3.1 k4.1
  obtain ⟨y, ey, hy⟩ := hermite_coord hp h0 h1 k1.2.1 k2.2.1 k3.2.1 k4.2.1
  obtain ⟨z, ez, hz⟩ := hermite_coord hp h0 h1 k1.2.2 k2.2.2 k3.2.2 k4.2.2
  obtain ⟨x', ex', hx'⟩ := hermite_dcoord hp h0 h1 k1.1 k2.1 k3.1 k4.1
  obtain ⟨y', ey', hy'⟩ := hermite_dcoord hp h0 h1 k1.2.1 k2.2.1 k3.2.1 k4.2.1
  obtain ⟨z', ez', hz'⟩ := hermite_dcoord hp h0 h1 k1.2.2 k2.2.2 k3.2.2 k4.2.2
  refine ⟨⟨x, y, z⟩, ⟨x', y', z'⟩, _, _, ?_, by rw [HermiteSplineSegment3.pointAt, if_pos ⟨h0, h1⟩], ⟨?_, ?_, ?_⟩, ?_,
    by rw [HermiteSplineSegment3.tangentAt, if_pos ⟨h0, h1⟩], ⟨?_, ?_, ?_⟩⟩
  · rw [HermiteSplineSegment3.pointAt, if_pos (unit_test h0 h1)]
    refine congrArg Except.ok ?_
    exact Vec3.ext ex ey ez
  · convert hx using 3; simp; ring
  · convert hy using 3; simp; ring
  · convert hz using 3; simp; ring
  · rw [HermiteSplineSegment3.tangentAt, if_pos (unit_test h0 h1)]
    refine congrArg Except.ok ?_
    exact Vec3.ext ex' ey' ez'
  · convert hx' using 3; simp; ring
  · convert hy' using 3; simp; ring
  · convert hz' using 3; simp; ring

/-- The ends are exact: nothing is rounded there. -/
theorem C142_ends (hp : 12 ≤ p) (s : BezierSegment3 ℝ)
    (h1 : Rep p s.P1.x ∧ Rep p s.P1.y ∧ Rep p s.P1.z) (h4 : Rep p s.P4.x ∧ Rep p s.P4.y ∧ Rep p s.P4.z) :
    (s.num : BezierSegment3 (Fl ℝ (rne p))).pointAt 0 = .ok s.P1.num ∧
    (s.num : BezierSegment3 (Fl ℝ (rne p))).pointAt 1 = .ok s.P4.num := by
  have i : ∀ z : ℤ, |z| ≤ 16 → rne p (z : ℝ) = z := fun z hz => rne_of_rep (by omega) (Rep.int z (hz.trans (by
    have : (2 : ℤ) ^ 12 ≤ 2 ^ p := pow_le_pow_right₀ (by norm_num) hp
    linarith)))
  have r0 : rne p (0 : ℝ) = 0 := by simpa using i 0 (by norm_num)
  have r1 : rne p (1 : ℝ) = 1 := by simpa using i 1 (by norm_num)
  have r2 : rne p (2 : ℝ) = 2 := by simpa using i 2 (by norm_num)
  have r3 : rne p (3 : ℝ) = 3 := by simpa using i 3 (by norm_num)
  have r6 : rne p (6 : ℝ) = 6 := by simpa using i 6 (by norm_num)
  have n1 : rne p (-1 : ℝ) = -1 := by simpa using i (-1) (by norm_num)
  have n3 : rne p (-3 : ℝ) = -3 := by simpa using i (-3) (by norm_num)
  have l3 : (3 : Fl ℝ (rne p)) = .num 3 := num_lit hp 3 (by norm_num)
  have l6 : (6 : Fl ℝ (rne p)) = .num 6 := num_lit hp 6 (by norm_num)
  have rr : ∀ {x : ℝ}, Rep p x → rne p x = x := fun h => rne_of_rep (by omega) h
  obtain ⟨a1, a2, a3⟩ := h1
  obtain ⟨b1, b2, b3⟩ := h4
  rw [BezierSegment3.pointAt, BezierSegment3.pointAt, Fl.zero_def, Fl.one_def, if_pos (by constructor <;> simp),
    if_pos (by constructor <;> simp)]
  refine ⟨congrArg _ (Vec3.ext ?_ ?_ ?_), congrArg _ (Vec3.ext ?_ ?_ ?_)⟩
  all_goals
    simp only [BezierSegment3.num, Vec3.num, Vec3.add_x, Vec3.add_y, Vec3.add_z, Vec3.mul_x, Vec3.mul_y, Vec3.mul_z, l3, l6,
      Fl.num_add, Fl.num_mul, Fl.num_sub, Fl.num_neg]
    norm_num [r0, r1, r2, r3, r6, n1, n3, rr a1, rr a2, rr a3, rr b1, rr b2, rr b3]

/-- concrete cases -/
example : (⟨1, -2, 3⟩ : Vec3 ℝ).BoundedBy 3 ∧ Rep 24 (3 : ℝ) := by
  refine ⟨by norm_num [Vec3.BoundedBy], by simpa using Rep.int (K := ℝ) (p := 24) 3 (by norm_num)⟩

end
end MathLib
