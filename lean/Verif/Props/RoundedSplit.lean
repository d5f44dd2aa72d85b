import Verif.Props.RoundedCurves
import Verif.Props.Splines

/-! # Property C172: splitting a Bezier segment in floating point -/

namespace MathLib
open Set

section generic
variable {R : Type} [Zero R] [One R] [NatCast R] [Add R] [Sub R] [Mul R] [LE R] [DecidableLE R]

/-- what `split` writes -/
private theorem split_eq {ι : Type} [DecidableEq ι] (m : ι → BezierSegment3 R) (this start «end» : ι) (a : R)
    (h1 : start ≠ this) (h2 : start ≠ «end») (ha : a ≥ 0 ∧ a ≤ 1) :
    ∃ m', BezierSegment3.split m this start «end» a = .ok m' ∧
      m' start = ⟨(m this).P1, (m this).P1 * (1 - a) + (m this).P2 * a,
        (m this).P1 * ((1 - a) * (1 - a)) + (m this).P2 * (2 * a * (1 - a)) + (m this).P3 * (a * a),
        (m this).P1 * ((1 - a) * ((1 - a) * (1 - a))) + (m this).P2 * (3 * a * ((1 - a) * (1 - a))) +
          (m this).P3 * (3 * (a * a) * (1 - a)) + (m this).P4 * (a * (a * a))⟩ ∧
      m' «end» = ⟨(m this).P1 * ((1 - a) * ((1 - a) * (1 - a))) + (m this).P2 * (3 * a * ((1 - a) * (1 - a))) +
          (m this).P3 * (3 * (a * a) * (1 - a)) + (m this).P4 * (a * (a * a)),
        (m this).P2 * ((1 - a) * (1 - a)) + (m this).P3 * (2 * a * (1 - a)) + (m this).P4 * (a * a),
        (m this).P3 * (1 - a) + (m this).P4 * a, (m this).P4⟩ ∧
      ∀ i, i ≠ start → i ≠ «end» → m' i = m i := by
  rw [BezierSegment3.split, if_pos ha]
  extract_lets a2 a3 ca ca2 ca3 w1 m1 w2 m2 w3 m3 w4 m4 w5 m5 w6 m6 w7 m7 w8 m8
  have t1 : m1 this = m this := Function.update_of_ne h1.symm _ _
  have t2 : m2 this = m this := (Function.update_of_ne h1.symm _ _).trans t1
  have t3 : m3 this = m this := (Function.update_of_ne h1.symm _ _).trans t2
  have t4 : m4 this = m this := (Function.update_of_ne h1.symm _ _).trans t3
  have s1 : m1 start = _ := Function.update_self ..
  have s2 : m2 start = _ := Function.update_self ..
  have s3 : m3 start = _ := Function.update_self ..
  have s4 : m4 start = _ := Function.update_self ..
  have s5 : m5 start = m4 start := Function.update_of_ne h2 _ _
  have s6 : m6 start = m5 start := Function.update_of_ne h2 _ _
  have s7 : m7 start = m6 start := Function.update_of_ne h2 _ _
  have s8 : m8 start = m7 start := Function.update_of_ne h2 _ _
  have e5 : m5 «end» = _ := Function.update_self ..
  have e6 : m6 «end» = _ := Function.update_self ..
  have e7 : m7 «end» = _ := Function.update_self ..
  have e8 : m8 «end» = _ := Function.update_self ..
  have r5 : (m5 this).P2 = (m this).P2 ∧ (m5 this).P3 = (m this).P3 ∧ (m5 this).P4 = (m this).P4 := by
    by_cases h : this = «end»
    · rw [h] at t4 ⊢; rw [e5, ← t4]; exact ⟨rfl, rfl, rfl⟩
    · rw [show m5 this = m4 this from Function.update_of_ne h _ _, t4]; exact ⟨rfl, rfl, rfl⟩
  have r6 : (m6 this).P3 = (m this).P3 ∧ (m6 this).P4 = (m this).P4 := by
    by_cases h : this = «end»
    · rw [h] at r5 ⊢; rw [e6]; exact r5.2
    · rw [show m6 this = m5 this from Function.update_of_ne h _ _]; exact r5.2
  have r7 : (m7 this).P4 = (m this).P4 := by
    by_cases h : this = «end»
    · rw [h] at r6 ⊢; rw [e7]; exact r6.2
    · rw [show m7 this = m6 this from Function.update_of_ne h _ _]; exact r6.2
  refine ⟨m8, rfl, ?_, ?_, ?_⟩
  · rw [s8, s7, s6, s5, s4, show w4 = m3 start from rfl, s3, show w3 = m2 start from rfl, s2, show w2 = m1 start from rfl, s1, t3, t2, t1]
  · rw [e8, r7, show w8 = m7 «end» from rfl, e7, r6.1, r6.2, show w7 = m6 «end» from rfl, e6, r5.1, r5.2.1, r5.2.2,
      show w6 = m5 «end» from rfl, e5, t4]
  · intro i hi1 hi2
    rw [show m8 i = m7 i from Function.update_of_ne hi2 _ _, show m7 i = m6 i from Function.update_of_ne hi2 _ _,
      show m6 i = m5 i from Function.update_of_ne hi2 _ _, show m5 i = m4 i from Function.update_of_ne hi2 _ _,
      show m4 i = m3 i from Function.update_of_ne hi1 _ _, show m3 i = m2 i from Function.update_of_ne hi1 _ _,
      show m2 i = m1 i from Function.update_of_ne hi1 _ _, show m1 i = m i from Function.update_of_ne hi1 _ _]

end generic

section
variable {u : ℝ} {rnd : ℝ → ℝ} (hr : IsRel rnd u) (hu : u ≤ 1 / 4096)
include hr hu

private theorem prod {a : Fl ℝ rnd} {x y f M K : ℝ} (h : Apx u a x f M) (hf : 0 ≤ f) (hy : |y| ≤ K) :
    Apx u (Fl.num y * a) (y * x) (((f * (4097 / 4096)) + M) * K) (M * K) := by
  have hK : 0 ≤ K := (abs_nonneg _).trans hy
  refine Apx.mul hr hu (Apx.num (M := K) hy) h hf ?_ (le_of_eq (by ring))
  have := mul_le_mul hy h.choose_spec.2.2 (abs_nonneg _) hK
  rw [abs_mul]; linarith

/-- two terms, of weights that add up to 1 -/
private theorem comb2 {a₁ a₂ : Fl ℝ rnd} {x₁ x₂ y₁ y₂ e₁ e₂ M₁ M₂ K e : ℝ}
    (h₁ : Apx u a₁ x₁ e₁ M₁) (h₂ : Apx u a₂ x₂ e₂ M₂) (e1 : 0 ≤ e₁) (e2 : 0 ≤ e₂)
    (k₁ : |y₁| ≤ K) (k₂ : |y₂| ≤ K) (p1 : 0 ≤ x₁) (p2 : 0 ≤ x₂) (hS : x₁ + x₂ ≤ 1)
    (he : (e₁ + M₁ + e₂ + M₂) * (1002 / 1000) + 1 ≤ e) :
    Apx u (Fl.num y₁ * a₁ + Fl.num y₂ * a₂) (y₁ * x₁ + y₂ * x₂) (e * K) K := by
  have hK : 0 ≤ K := (abs_nonneg _).trans k₁
  have m1 : 0 ≤ M₁ := (abs_nonneg _).trans h₁.choose_spec.2.2
  have m2 : 0 ≤ M₂ := (abs_nonneg _).trans h₂.choose_spec.2.2
  refine Apx.add hr hu (prod hr hu h₁ e1 k₁) (prod hr hu h₂ e2 k₂) ?_ ?_
  · have s := abs_add_le (y₁ * x₁) (y₂ * x₂)
    rw [abs_mul, abs_mul, abs_of_nonneg p1, abs_of_nonneg p2] at s
    have b1 := mul_le_mul_of_nonneg_right k₁ p1
    have b2 := mul_le_mul_of_nonneg_right k₂ p2
    have b3 := mul_le_mul_of_nonneg_left hS hK
    linarith
  · have e3 : (((e₁ * (4097 / 4096) + M₁) * K + (e₂ * (4097 / 4096) + M₂) * K) * (4097 / 4096) + K) =
        ((e₁ * (4097 / 4096) + M₁ + (e₂ * (4097 / 4096) + M₂)) * (4097 / 4096) + 1) * K := by ring
    rw [e3]
    refine mul_le_mul_of_nonneg_right (le_trans ?_ he) hK
    linarith

/-- three terms, of weights that add up to 1 -/
private theorem comb3 {a₁ a₂ a₃ : Fl ℝ rnd} {x₁ x₂ x₃ y₁ y₂ y₃ e₁ e₂ e₃ M₁ M₂ M₃ K e : ℝ}
    (h₁ : Apx u a₁ x₁ e₁ M₁) (h₂ : Apx u a₂ x₂ e₂ M₂) (h₃ : Apx u a₃ x₃ e₃ M₃) (e1 : 0 ≤ e₁) (e2 : 0 ≤ e₂) (e3 : 0 ≤ e₃)
    (k₁ : |y₁| ≤ K) (k₂ : |y₂| ≤ K) (k₃ : |y₃| ≤ K) (p1 : 0 ≤ x₁) (p2 : 0 ≤ x₂) (p3 : 0 ≤ x₃) (hS : x₁ + x₂ + x₃ ≤ 1)
    (he : ((e₁ + M₁ + e₂ + M₂) * (1002 / 1000) + 1 + e₃ + M₃) * (1001 / 1000) + 1 ≤ e) :
    Apx u (Fl.num y₁ * a₁ + Fl.num y₂ * a₂ + Fl.num y₃ * a₃) (y₁ * x₁ + y₂ * x₂ + y₃ * x₃) (e * K) K := by
  have hK : 0 ≤ K := (abs_nonneg _).trans k₁
  have m3 : 0 ≤ M₃ := (abs_nonneg _).trans h₃.choose_spec.2.2
  have m1 : 0 ≤ M₁ := (abs_nonneg _).trans h₁.choose_spec.2.2
  have m2 : 0 ≤ M₂ := (abs_nonneg _).trans h₂.choose_spec.2.2
  refine Apx.add hr hu (comb2 hr hu h₁ h₂ e1 e2 k₁ k₂ p1 p2 (by linarith) le_rfl) (prod hr hu h₃ e3 k₃) ?_ ?_
  · have s := abs_add_le (y₁ * x₁ + y₂ * x₂) (y₃ * x₃)
    have s' := abs_add_le (y₁ * x₁) (y₂ * x₂)
    rw [abs_mul, abs_mul, abs_of_nonneg p1, abs_of_nonneg p2] at s'
    rw [abs_mul y₃, abs_of_nonneg p3] at s
    have b1 := mul_le_mul_of_nonneg_right k₁ p1
    have b2 := mul_le_mul_of_nonneg_right k₂ p2
    have b3 := mul_le_mul_of_nonneg_right k₃ p3
    have b4 := mul_le_mul_of_nonneg_left hS hK
    linarith
  · have e4 : (((e₁ + M₁ + e₂ + M₂) * (1002 / 1000) + 1) * K + (e₃ * (4097 / 4096) + M₃) * K) * (4097 / 4096) + K =
        (((e₁ + M₁ + e₂ + M₂) * (1002 / 1000) + 1 + (e₃ * (4097 / 4096) + M₃)) * (4097 / 4096) + 1) * K := by ring
    rw [e4]
    refine mul_le_mul_of_nonneg_right (le_trans ?_ he) hK
    linarith

end

section
variable {p : ℕ} (hp : 12 ≤ p) {a : ℝ} (h0 : 0 ≤ a) (h1 : a ≤ 1) {τ : Fl ℝ (rne p)} (hτ : τ = .num a)
include hp h0 h1 hτ

/-- the weights as `split` computes them -/
private theorem weights :
    Apx (2 ^ (-(p : ℤ))) τ a 0 1 ∧ Apx (2 ^ (-(p : ℤ))) (1 - τ) (1 - a) 1 1 ∧
    Apx (2 ^ (-(p : ℤ))) (τ * τ) (a * a) 1 1 ∧ Apx (2 ^ (-(p : ℤ))) (τ * (τ * τ)) (a * (a * a)) 2.01 1 ∧
    Apx (2 ^ (-(p : ℤ))) ((1 - τ) * (1 - τ)) ((1 - a) * (1 - a)) 3.01 1 ∧
    Apx (2 ^ (-(p : ℤ))) ((1 - τ) * ((1 - τ) * (1 - τ))) ((1 - a) * ((1 - a) * (1 - a))) 5.02 1 ∧
    Apx (2 ^ (-(p : ℤ))) (2 * τ * (1 - τ)) (2 * a * (1 - a)) 4.51 0.5 ∧
    Apx (2 ^ (-(p : ℤ))) (3 * τ * ((1 - τ) * (1 - τ))) (3 * a * ((1 - a) * (1 - a))) 13.06 1 ∧
    Apx (2 ^ (-(p : ℤ))) (3 * (τ * τ) * (1 - τ)) (3 * (a * a) * (1 - a)) 10.02 1 := by
  subst hτ
  have hr := isRel_rne p (by omega : 1 ≤ p)
  have hu := small_unit hp
  have c0 : 0 ≤ 1 - a := by linarith
  have a1 : Apx (2 ^ (-(p : ℤ))) (Fl.num a : Fl ℝ (rne p)) a 0 1 := apx_t h0 h1
  have one : Apx (2 ^ (-(p : ℤ))) (1 : Fl ℝ (rne p)) 1 0 1 := by rw [Fl.one_def]; exact Apx.num (by norm_num)
  have l2 := lit hp (2 ^ (-(p : ℤ))) 2 (by norm_num)
  have l3 := lit hp (2 ^ (-(p : ℤ))) 3 (by norm_num)
  have aa : a * a ≤ a := by nlinarith
  have aaa : a * (a * a) ≤ a * a := by nlinarith [mul_nonneg h0 h0]
  have cc : (1 - a) * (1 - a) ≤ 1 - a := by nlinarith
  have ccc : (1 - a) * ((1 - a) * (1 - a)) ≤ (1 - a) * (1 - a) := by nlinarith [mul_nonneg c0 c0]
  have b0 : 0 ≤ a * (1 - a) := mul_nonneg h0 c0
  have c1 := one.sub hr hu a1 (M := 1) (e := 1) (by rw [abs_of_nonneg c0]; linarith) (by norm_num)
  have a2 := a1.mul hr hu a1 (by norm_num) (M := 1) (e := 1) (by rw [abs_of_nonneg (by positivity)]; linarith) (by norm_num)
  have a3 := a1.mul hr hu a2 (by norm_num) (M := 1) (e := 2.01) (by rw [abs_of_nonneg (by positivity)]; linarith) (by norm_num)
  have c2 := c1.mul hr hu c1 (by norm_num) (M := 1) (e := 3.01) (by rw [abs_of_nonneg (by positivity)]; linarith) (by norm_num)
  have c3 := c1.mul hr hu c2 (by norm_num) (M := 1) (e := 5.02) (by rw [abs_of_nonneg (by positivity)]; linarith) (by norm_num)
  have d2 := l2.mul hr hu a1 (by norm_num) (M := 2) (e := 2) (by rw [abs_of_nonneg (by positivity)]; linarith) (by norm_num)
  have d3 := l3.mul hr hu a1 (by norm_num) (M := 3) (e := 3) (by rw [abs_of_nonneg (by positivity)]; linarith) (by norm_num)
  have d4 := l3.mul hr hu a2 (by norm_num) (M := 3) (e := 6.01) (by rw [abs_of_nonneg (by positivity)]; linarith) (by norm_num)
  refine ⟨a1, c1, a2, a3, c2, c3, ?_, ?_, ?_⟩
  · refine d2.mul hr hu c1 (by norm_num) ?_ (by norm_num)
    rw [abs_of_nonneg (by positivity)]; nlinarith [sq_nonneg (2 * a - 1)]
  · refine d3.mul hr hu c2 (by norm_num) ?_ (by norm_num)
    rw [abs_of_nonneg (by positivity)]
    have : 0 ≤ a * (a * a) := by positivity
    have : 0 ≤ a * a * (1 - a) := by positivity
    nlinarith
  · refine d4.mul hr hu c1 (by norm_num) ?_ (by norm_num)
    rw [abs_of_nonneg (by positivity)]
    have : 0 ≤ a * ((1 - a) * (1 - a)) := by positivity
    have : 0 ≤ (1 - a) * ((1 - a) * (1 - a)) := by positivity
    have : 0 ≤ a * (a * a) := by positivity
    nlinarith

/-- one coordinate of the new control points -/
private theorem coord {y₁ y₂ y₃ y₄ K : ℝ} (k₁ : |y₁| ≤ K) (k₂ : |y₂| ≤ K) (k₃ : |y₃| ≤ K) (k₄ : |y₄| ≤ K) :
    ∃ b c j c' b' : ℝ,
      Fl.num y₁ * (1 - τ) + Fl.num y₂ * τ = .num b ∧
      Fl.num y₁ * ((1 - τ) * (1 - τ)) + Fl.num y₂ * (2 * τ * (1 - τ)) + Fl.num y₃ * (τ * τ) = .num c ∧
      Fl.num y₁ * ((1 - τ) * ((1 - τ) * (1 - τ))) + Fl.num y₂ * (3 * τ * ((1 - τ) * (1 - τ))) +
        Fl.num y₃ * (3 * (τ * τ) * (1 - τ)) + Fl.num y₄ * (τ * (τ * τ)) = .num j ∧
      Fl.num y₂ * ((1 - τ) * (1 - τ)) + Fl.num y₃ * (2 * τ * (1 - τ)) + Fl.num y₄ * (τ * τ) = .num c' ∧
      Fl.num y₃ * (1 - τ) + Fl.num y₄ * τ = .num b' ∧ Rep p j ∧
      |b - (y₁ * (1 - a) + y₂ * a)| ≤ 38 * K * 2 ^ (-(p : ℤ)) ∧
      |c - (y₁ * ((1 - a) * (1 - a)) + y₂ * (2 * a * (1 - a)) + y₃ * (a * a))| ≤ 38 * K * 2 ^ (-(p : ℤ)) ∧
      |j - (y₁ * ((1 - a) * ((1 - a) * (1 - a))) + y₂ * (3 * a * ((1 - a) * (1 - a))) + y₃ * (3 * (a * a) * (1 - a)) +
        y₄ * (a * (a * a)))| ≤ 38 * K * 2 ^ (-(p : ℤ)) ∧
      |c' - (y₂ * ((1 - a) * (1 - a)) + y₃ * (2 * a * (1 - a)) + y₄ * (a * a))| ≤ 38 * K * 2 ^ (-(p : ℤ)) ∧
      |b' - (y₃ * (1 - a) + y₄ * a)| ≤ 38 * K * 2 ^ (-(p : ℤ)) := by
  have hr := isRel_rne p (by omega : 1 ≤ p)
  have hu := small_unit hp
  have c0 : 0 ≤ 1 - a := by linarith
  have hK : 0 ≤ K := (abs_nonneg _).trans k₁
  obtain ⟨w1, v1, w2, w3, v2, v3, w4, w5, w6⟩ := weights hp h0 h1 hτ
  have n1 : 0 ≤ (1 - a) * (1 - a) := by positivity
  have n2 : 0 ≤ 2 * a * (1 - a) := by positivity
  have n3 : 0 ≤ a * a := by positivity
  have n4 : 0 ≤ (1 - a) * ((1 - a) * (1 - a)) := by positivity
  have n5 : 0 ≤ 3 * a * ((1 - a) * (1 - a)) := by positivity
  have n6 : 0 ≤ 3 * (a * a) * (1 - a) := by positivity
  have n7 : 0 ≤ a * (a * a) := by positivity
  have s3 : (1 - a) * (1 - a) + 2 * a * (1 - a) + a * a ≤ 1 := le_of_eq (by ring)
  obtain ⟨b, eb, hb, -⟩ := comb2 hr hu v1 w1 (by norm_num) le_rfl k₁ k₂ c0 h0 (by linarith) (e := 38) (by norm_num)
  obtain ⟨c, ec, hc, -⟩ := comb3 hr hu v2 w4 w2 (by norm_num) (by norm_num) (by norm_num) k₁ k₂ k₃ n1 n2 n3 s3 (e := 38)
    (by norm_num)
  obtain ⟨c', ec', hc', -⟩ := comb3 hr hu v2 w4 w2 (by norm_num) (by norm_num) (by norm_num) k₂ k₃ k₄ n1 n2 n3 s3 (e := 38)
    (by norm_num)
  obtain ⟨b', eb', hb', -⟩ := comb2 hr hu v1 w1 (by norm_num) le_rfl k₃ k₄ c0 h0 (by linarith) (e := 38) (by norm_num)
  obtain ⟨j, ej, hj, -⟩ := comb4 hr hu hK v3 w5 w6 w3 (by norm_num) (by norm_num) (by norm_num) (by norm_num) k₁ k₂ k₃ k₄
    (S := 1) (e := 38) (by
      rw [abs_of_nonneg n4, abs_of_nonneg n5, abs_of_nonneg n6, abs_of_nonneg n7]
      exact le_of_eq (by ring)) (by norm_num)
  refine ⟨b, c, j, c', b', eb, ec, ej, ec', eb', ?_, hb, hc, hj, hc', hb'⟩
  -- a sum is rounded
  have rr : ∀ {x y : Fl ℝ (rne p)} {v : ℝ}, x + y = .num v → Rep p v := fun {x y v} h => by
    cases x <;> cases y <;> first | (rw [Fl.num_add] at h; injection h with h; rw [← h]; exact rep_rne p (by omega) _) | cases h
  exact rr ej

end

/-- points of two curves whose control points are close -/
private theorem bern_near {t ε x₁ x₂ x₃ x₄ y₁ y₂ y₃ y₄ : ℝ} (h0 : 0 ≤ t) (h1 : t ≤ 1) (d₁ : |x₁ - y₁| ≤ ε) (d₂ : |x₂ - y₂| ≤ ε)
    (d₃ : |x₃ - y₃| ≤ ε) (d₄ : |x₄ - y₄| ≤ ε) :
    |x₁ * (1 - t) ^ 3 + x₂ * (3 * t * (1 - t) ^ 2) + x₃ * (3 * t ^ 2 * (1 - t)) + x₄ * t ^ 3 -
      (y₁ * (1 - t) ^ 3 + y₂ * (3 * t * (1 - t) ^ 2) + y₃ * (3 * t ^ 2 * (1 - t)) + y₄ * t ^ 3)| ≤ ε := by
  have c0 : 0 ≤ 1 - t := by linarith
  rw [abs_le] at *
  have n1 : 0 ≤ (1 - t) ^ 3 := by positivity
  have n2 : 0 ≤ 3 * t * (1 - t) ^ 2 := by positivity
  have n3 : 0 ≤ 3 * t ^ 2 * (1 - t) := by positivity
  have n4 : 0 ≤ t ^ 3 := by positivity
  have e : (1 - t) ^ 3 * ε + 3 * t * (1 - t) ^ 2 * ε + 3 * t ^ 2 * (1 - t) * ε + t ^ 3 * ε = ε := by ring
  have a1 := mul_le_mul_of_nonneg_left d₁.1 n1
  have a2 := mul_le_mul_of_nonneg_left d₂.1 n2
  have a3 := mul_le_mul_of_nonneg_left d₃.1 n3
  have a4 := mul_le_mul_of_nonneg_left d₄.1 n4
  have b1 := mul_le_mul_of_nonneg_left d₁.2 n1
  have b2 := mul_le_mul_of_nonneg_left d₂.2 n2
  have b3 := mul_le_mul_of_nonneg_left d₃.2 n3
  have b4 := mul_le_mul_of_nonneg_left d₄.2 n4
  constructor <;> linarith

private theorem seg_ext {R : Type} {s t : BezierSegment3 R} (h1 : s.P1 = t.P1) (h2 : s.P2 = t.P2) (h3 : s.P3 = t.P3)
    (h4 : s.P4 = t.P4) : s = t := by
  cases s; cases t; subst h1 h2 h3 h4; rfl

/-- what `split` computes, for the theorems below -/
private theorem halves {p : ℕ} (hp : 12 ≤ p) {ι : Type} [DecidableEq ι] (m : ι → BezierSegment3 (Fl ℝ (rne p)))
    (this start «end» : ι) (h1 : start ≠ this) (h2 : start ≠ «end») (s : BezierSegment3 ℝ) (hm : m this = s.num) (a K : ℝ)
    (ha : a ∈ Icc (0 : ℝ) 1) (k1 : s.P1.BoundedBy K) (k2 : s.P2.BoundedBy K) (k3 : s.P3.BoundedBy K) (k4 : s.P4.BoundedBy K) :
    ∃ m' S E, BezierSegment3.split m this start «end» (.num a) = .ok m' ∧ m' start = BezierSegment3.num S ∧
      m' «end» = BezierSegment3.num E ∧ (∀ i, i ≠ start → i ≠ «end» → m' i = m i) ∧
      S.P1 = s.P1 ∧ S.P4 = E.P1 ∧ E.P4 = s.P4 ∧ (Rep p S.P4.x ∧ Rep p S.P4.y ∧ Rep p S.P4.z) ∧
      ∀ t ∈ Icc (0 : ℝ) 1, ∀ j, |S.curve t j - s.curve (a * t) j| ≤ 38 * K * 2 ^ (-(p : ℤ)) ∧
        |E.curve t j - s.curve (a + (1 - a) * t) j| ≤ 38 * K * 2 ^ (-(p : ℤ)) := by
  obtain ⟨m', em, eS, eE, eo⟩ := split_eq m this start «end» (.num a) h1 h2 (unit_test ha.1 ha.2)
  have key : ∀ {σ : BezierSegment3 (Fl ℝ (rne p))} {τ : Fl ℝ (rne p)}, σ = s.num → τ = .num a → _ := fun {σ τ} hσ hτ =>
    And.intro (coord hp ha.1 ha.2 hτ k1.1 k2.1 k3.1 k4.1)
      (And.intro (coord hp ha.1 ha.2 hτ k1.2.1 k2.2.1 k3.2.1 k4.2.1) (coord hp ha.1 ha.2 hτ k1.2.2 k2.2.2 k3.2.2 k4.2.2))
  obtain ⟨⟨bx, cx, jx, cx', bx', x1, x2, x3, x4, x5, rx, dx1, dx2, dx3, dx4, dx5⟩,
    ⟨by', cy, jy, cy', by'', y1, y2, y3, y4, y5, ry, dy1, dy2, dy3, dy4, dy5⟩,
    ⟨bz, cz, jz, cz', bz', z1, z2, z3, z4, z5, rz, dz1, dz2, dz3, dz4, dz5⟩⟩ := key rfl rfl
  have hKu : 0 ≤ 38 * K * (2 : ℝ) ^ (-(p : ℤ)) := (abs_nonneg _).trans dx1
  have z0 : ∀ x : ℝ, |x - x| ≤ 38 * K * (2 : ℝ) ^ (-(p : ℤ)) := fun x => by rw [sub_self, abs_zero]; exact hKu
  refine ⟨m', ⟨s.P1, ⟨bx, by', bz⟩, ⟨cx, cy, cz⟩, ⟨jx, jy, jz⟩⟩, ⟨⟨jx, jy, jz⟩, ⟨cx', cy', cz'⟩, ⟨bx', by'', bz'⟩, s.P4⟩, em,
    ?_, ?_, eo, rfl, rfl, rfl, ⟨rx, ry, rz⟩, ?_⟩
  · rw [eS, hm]
    exact seg_ext rfl (Vec3.ext x1 y1 z1) (Vec3.ext x2 y2 z2) (Vec3.ext x3 y3 z3)
  · rw [eE, hm]
    exact seg_ext (Vec3.ext x3 y3 z3) (Vec3.ext x4 y4 z4) (Vec3.ext x5 y5 z5) rfl
  · intro t ht j
    rw [← BezierSegment3.toE_val, ← BezierSegment3.toE_val, ← BezierSegment3.toE_val, ← BezierSegment3.toE_val]
    have f : ∀ y₁ y₂ y₃ y₄ : ℝ, y₁ * (1 - t) ^ 3 + (y₁ * (1 - a) + y₂ * a) * (3 * t * (1 - t) ^ 2) +
        (y₁ * ((1 - a) * (1 - a)) + y₂ * (2 * a * (1 - a)) + y₃ * (a * a)) * (3 * t ^ 2 * (1 - t)) +
        (y₁ * ((1 - a) * ((1 - a) * (1 - a))) + y₂ * (3 * a * ((1 - a) * (1 - a))) + y₃ * (3 * (a * a) * (1 - a)) +
          y₄ * (a * (a * a))) * t ^ 3 =
        y₁ * ((1 - a * t) ^ 3) + y₂ * (3 * (a * t) * (1 - a * t) ^ 2) + y₃ * (3 * (a * t) ^ 2 * (1 - a * t)) +
          y₄ * ((a * t) ^ 3) := fun y₁ y₂ y₃ y₄ => by ring
    have g : ∀ y₁ y₂ y₃ y₄ : ℝ, (y₁ * ((1 - a) * ((1 - a) * (1 - a))) + y₂ * (3 * a * ((1 - a) * (1 - a))) +
          y₃ * (3 * (a * a) * (1 - a)) + y₄ * (a * (a * a))) * (1 - t) ^ 3 +
        (y₂ * ((1 - a) * (1 - a)) + y₃ * (2 * a * (1 - a)) + y₄ * (a * a)) * (3 * t * (1 - t) ^ 2) +
        (y₃ * (1 - a) + y₄ * a) * (3 * t ^ 2 * (1 - t)) + y₄ * t ^ 3 =
        y₁ * ((1 - (a + (1 - a) * t)) ^ 3) + y₂ * (3 * (a + (1 - a) * t) * (1 - (a + (1 - a) * t)) ^ 2) +
          y₃ * (3 * (a + (1 - a) * t) ^ 2 * (1 - (a + (1 - a) * t))) + y₄ * ((a + (1 - a) * t) ^ 3) := fun y₁ y₂ y₃ y₄ => by ring
    fin_cases j
    · have a1 := bern_near ht.1 ht.2 (z0 s.P1.x) dx1 dx2 dx3
      have a2 := bern_near ht.1 ht.2 dx3 dx4 dx5 (z0 s.P4.x)
      rw [f] at a1; rw [g] at a2
      exact ⟨a1, a2⟩
    · have a1 := bern_near ht.1 ht.2 (z0 s.P1.y) dy1 dy2 dy3
      have a2 := bern_near ht.1 ht.2 dy3 dy4 dy5 (z0 s.P4.y)
      rw [f] at a1; rw [g] at a2
      exact ⟨a1, a2⟩
    · have a1 := bern_near ht.1 ht.2 (z0 s.P1.z) dz1 dz2 dz3
      have a2 := bern_near ht.1 ht.2 dz3 dz4 dz5 (z0 s.P4.z)
      rw [f] at a1; rw [g] at a2
      exact ⟨a1, a2⟩

/-- C172: with rounding to `p ≥ 12` bits `split` leaves no gap: the first part begins where the segment begins, the second
begins where the first ends and ends where the segment ends; and neither part is further than `38 * 2^-p` times the largest
coordinate of the control points from its part of the curve in any coordinate.  The second part may be the object itself. -/
theorem C172_split {p : ℕ} (hp : 12 ≤ p) {ι : Type} [DecidableEq ι] (m : ι → BezierSegment3 (Fl ℝ (rne p)))
    (this start «end» : ι) (h1 : start ≠ this) (h2 : start ≠ «end») (s : BezierSegment3 ℝ) (hm : m this = s.num) (a K : ℝ)
    (ha : a ∈ Icc (0 : ℝ) 1) (k1 : s.P1.BoundedBy K) (k2 : s.P2.BoundedBy K) (k3 : s.P3.BoundedBy K) (k4 : s.P4.BoundedBy K) :
    ∃ m' S E, BezierSegment3.split m this start «end» (.num a) = .ok m' ∧ m' start = BezierSegment3.num S ∧
      m' «end» = BezierSegment3.num E ∧ (∀ i, i ≠ start → i ≠ «end» → m' i = m i) ∧
      S.P1 = s.P1 ∧ S.P4 = E.P1 ∧ E.P4 = s.P4 ∧
      ∀ t ∈ Icc (0 : ℝ) 1, ∀ j, |S.curve t j - s.curve (a * t) j| ≤ 38 * K * 2 ^ (-(p : ℤ)) ∧
        |E.curve t j - s.curve (a + (1 - a) * t) j| ≤ 38 * K * 2 ^ (-(p : ℤ)) := by
  obtain ⟨m', S, E, q1, q2, q3, q4, q5, q6, q7, -, q9⟩ := halves hp m this start «end» h1 h2 s hm a K ha k1 k2 k3 k4
  exact ⟨m', S, E, q1, q2, q3, q4, q5, q6, q7, q9⟩

/-- C172: the points `pointAt` computes for the two parts leave no gap either: the last point of the first part is the first
point of the second, the same numbers, and the outer ends are those of the segment. -/
theorem C172_points {p : ℕ} (hp : 12 ≤ p) {ι : Type} [DecidableEq ι] (m : ι → BezierSegment3 (Fl ℝ (rne p)))
    (this start «end» : ι) (h1 : start ≠ this) (h2 : start ≠ «end») (s : BezierSegment3 ℝ) (hm : m this = s.num) (a : ℝ)
    (ha : a ∈ Icc (0 : ℝ) 1)
    (r1 : Rep p s.P1.x ∧ Rep p s.P1.y ∧ Rep p s.P1.z) (r4 : Rep p s.P4.x ∧ Rep p s.P4.y ∧ Rep p s.P4.z) :
    ∃ m' v, BezierSegment3.split m this start «end» (.num a) = .ok m' ∧
      (m' start).pointAt 0 = (m this).pointAt 0 ∧ (m' start).pointAt 1 = .ok v ∧ (m' «end»).pointAt 0 = .ok v ∧
      (m' «end»).pointAt 1 = (m this).pointAt 1 := by
  obtain ⟨K, k1, k2, k3, k4⟩ : ∃ K, s.P1.BoundedBy K ∧ s.P2.BoundedBy K ∧ s.P3.BoundedBy K ∧ s.P4.BoundedBy K := by
    refine ⟨|s.P1.x| + |s.P1.y| + |s.P1.z| + (|s.P2.x| + |s.P2.y| + |s.P2.z|) + (|s.P3.x| + |s.P3.y| + |s.P3.z|) +
      (|s.P4.x| + |s.P4.y| + |s.P4.z|), ?_⟩
    have := abs_nonneg s.P1.x; have := abs_nonneg s.P1.y; have := abs_nonneg s.P1.z
    have := abs_nonneg s.P2.x; have := abs_nonneg s.P2.y; have := abs_nonneg s.P2.z
    have := abs_nonneg s.P3.x; have := abs_nonneg s.P3.y; have := abs_nonneg s.P3.z
    have := abs_nonneg s.P4.x; have := abs_nonneg s.P4.y; have := abs_nonneg s.P4.z
    refine ⟨⟨?_, ?_, ?_⟩, ⟨?_, ?_, ?_⟩, ⟨?_, ?_, ?_⟩, ⟨?_, ?_, ?_⟩⟩ <;> linarith
  obtain ⟨m', S, E, q1, q2, q3, -, q5, q6, q7, q8, -⟩ := halves hp m this start «end» h1 h2 s hm a K ha k1 k2 k3 k4
  have e1 := C142_ends hp s r1 r4
  have e2 := C142_ends hp S (by rw [q5]; exact r1) q8
  have e3 := C142_ends hp E (by rw [← q6]; exact q8) (by rw [q7]; exact r4)
  refine ⟨m', S.P4.num, q1, ?_, ?_, ?_, ?_⟩
  · rw [q2, hm, e1.1, e2.1, q5]
  · rw [q2, e2.2]
  · rw [q3, e3.1, q6]
  · rw [q3, hm, e1.2, e3.2, q7]

/-- a concrete case: two of three segments -/
example : (1 : Fin 3) ≠ 0 ∧ (1 : Fin 3) ≠ 2 ∧ (1 / 4 : ℝ) ∈ Icc (0 : ℝ) 1 ∧ (⟨1, -2, 3⟩ : Vec3 ℝ).BoundedBy 3 ∧ Rep 24 (3 : ℝ) := by
  refine ⟨by decide, by decide, by norm_num, by norm_num [Vec3.BoundedBy], by simpa using Rep.int (K := ℝ) (p := 24) 3 (by norm_num)⟩

end MathLib
