import Verif.Proof.Apx
import Verif.Props.RoundedCurves

/-! # Forward differences with rounding -/

namespace MathLib

/-! ## How fast one can drift -/

section drift
variable {rnd : ℝ → ℝ} {u : ℝ}

/-- summing up in `k` steps: the error is at most that of the summands and one rounding of the result per step -/
theorem drift (hr : IsRel rnd u) {N : ℕ} {x y x' y' : ℕ → ℝ} {e₀ ε X : ℝ} (hx : ∀ k < N, x (k + 1) = x k + y k)
    (hx' : ∀ k < N, x' (k + 1) = rnd (x' k + y' k)) (h0 : |x' 0 - x 0| ≤ e₀) (hy : ∀ k < N, |y' k - y k| ≤ ε)
    (hX : ∀ k < N, |x (k + 1)| ≤ X) (k : ℕ) (hk : k ≤ N) : |x' k - x k| ≤ (1 + u) ^ k * (e₀ + k * (ε + u * X)) := by
  have hu := hr.nonneg
  induction k with
  | zero => simpa using h0
  | succ k ih =>
    have hlt : k < N := by omega
    have ih := ih (by omega)
    have hy := hy k hlt
    have hX := hX k hlt
    have hX0 : 0 ≤ X := (abs_nonneg _).trans hX
    have hε0 : 0 ≤ ε := (abs_nonneg _).trans hy
    rw [hx' k hlt]
    have b1 : |x' k + y' k - x (k + 1)| ≤ |x' k - x k| + ε := by
      rw [hx k hlt]
      have := abs_add_le (x' k - x k) (y' k - y k)
      rw [show x' k + y' k - (x k + y k) = (x' k - x k) + (y' k - y k) by ring]
      linarith
    have b2 := hr.err (x' k + y' k)
    have b3 : |x' k + y' k| ≤ X + (|x' k - x k| + ε) := by
      have := abs_sub_abs_le_abs_sub (x' k + y' k) (x (k + 1)); linarith
    have b4 := abs_add_le (rnd (x' k + y' k) - (x' k + y' k)) (x' k + y' k - x (k + 1))
    rw [sub_add_sub_cancel] at b4
    have b5 := mul_le_mul_of_nonneg_left b3 hu
    have p1 : 1 ≤ (1 + u) ^ k := one_le_pow₀ (by linarith)
    have b6 : |rnd (x' k + y' k) - x (k + 1)| ≤ (1 + u) * (|x' k - x k| + ε) + u * X := by nlinarith
    refine b6.trans ?_
    have b7 := mul_le_mul_of_nonneg_left ih (show 0 ≤ 1 + u by linarith)
    have b8 : ε ≤ (1 + u) ^ k * ε := le_mul_of_one_le_left hε0 p1
    have p2 : 1 ≤ (1 + u) ^ (k + 1) := one_le_pow₀ (by linarith)
    have b9 : u * X ≤ (1 + u) ^ (k + 1) * (u * X) := le_mul_of_one_le_left (mul_nonneg hu hX0) p2
    have b10 := mul_le_mul_of_nonneg_left b8 (show 0 ≤ 1 + u by linarith)
    rw [pow_succ] at b9 ⊢
    push_cast
    nlinarith

/-- few steps: the growth is harmless -/
theorem growth (hu : 0 ≤ u) {N k : ℕ} (hN : 16 * (N : ℝ) * u ≤ 1) (hk : k ≤ N) : (1 + u) ^ k ≤ 16 / 15 := by
  rcases Nat.eq_zero_or_pos N with rfl | hpos
  · have : k = 0 := by omega
    subst this; norm_num
  have hN1 : (1 : ℝ) ≤ N := by exact_mod_cast hpos
  have hu1 : u ≤ 1 := by nlinarith
  have h1 : (1 + u) ^ k ≤ (1 + u) ^ N := pow_le_pow_right₀ (by linarith) hk
  have h2 : 1 + (N : ℝ) * (-u) ≤ (1 + -u) ^ N := one_add_mul_le_pow (by linarith) N
  have h3 : (1 + u) ^ N * (1 + -u) ^ N ≤ 1 := by
    rw [← mul_pow]; exact pow_le_one₀ (by nlinarith) (by nlinarith)
  have h4 : 0 ≤ (1 + u) ^ N := by positivity
  have h5 : (1 + u) ^ N * (15 / 16) ≤ (1 + u) ^ N * (1 + -u) ^ N := mul_le_mul_of_nonneg_left (by linarith) h4
  linarith

/-- `drift` with the growth bounded -/
theorem drift' (hr : IsRel rnd u) {N : ℕ} (hN : 16 * (N : ℝ) * u ≤ 1) {x y x' y' : ℕ → ℝ} {e₀ ε X : ℝ}
    (hx : ∀ k < N, x (k + 1) = x k + y k)
    (hx' : ∀ k < N, x' (k + 1) = rnd (x' k + y' k)) (h0 : |x' 0 - x 0| ≤ e₀) (hy : ∀ k < N, |y' k - y k| ≤ ε)
    (hX : ∀ k < N, |x (k + 1)| ≤ X) (k : ℕ) (hk : k ≤ N) : |x' k - x k| ≤ 16 / 15 * (e₀ + N * (ε + u * X)) := by
  rcases Nat.eq_zero_or_pos N with rfl | hpos
  · have : k = 0 := by omega
    subst this
    have := (abs_nonneg _).trans h0
    simp only [Nat.cast_zero, zero_mul, add_zero]; linarith
  have hu := hr.nonneg
  have a1 : 0 ≤ e₀ := (abs_nonneg _).trans h0
  have a2 : 0 ≤ ε := (abs_nonneg _).trans (hy 0 hpos)
  have a3 : 0 ≤ X := (abs_nonneg _).trans (hX 0 hpos)
  refine (drift hr hx hx' h0 hy hX k hk).trans ?_
  have hk' : (k : ℝ) ≤ N := by exact_mod_cast hk
  refine mul_le_mul (growth hu hN hk) ?_ (by positivity) (by norm_num)
  have := mul_le_mul_of_nonneg_right hk' (show 0 ≤ ε + u * X by positivity)
  linarith
end drift

/-! ## The differences at the start -/

namespace Apx
variable {rnd : ℝ → ℝ} {u x y s t E M E₁ E₂ M₁ M₂ : ℝ} {a b : Fl ℝ rnd}

theorem smul (hr : IsRel rnd u) (hu : u ≤ 1 / 4096) (hs : 0 ≤ s) (ht : 0 ≤ t) (ha : Apx u a x (E₁ * s) (M₁ * s))
    (hb : Apx u b y (E₂ * t) (M₂ * t)) (h₂ : 0 ≤ E₂) (hM₁ : 0 ≤ M₁)
    (he : (E₁ * (M₂ + E₂ / 4096) + M₁ * E₂) * (4097 / 4096) + M₁ * M₂ ≤ E) (hM : M₁ * M₂ = M) :
    Apx u (a * b) (x * y) (E * (s * t)) (M * (s * t)) := by
  have m1 := ha.choose_spec.2.2
  have m2 := hb.choose_spec.2.2
  refine Apx.mul hr hu ha hb (mul_nonneg h₂ ht) ?_ ?_
  · rw [abs_mul, ← hM]
    have := mul_le_mul m1 m2 (abs_nonneg _) (mul_nonneg hM₁ hs)
    linarith
  · have := mul_le_mul_of_nonneg_right he (mul_nonneg hs ht)
    subst hM
    linarith

theorem sadd (hr : IsRel rnd u) (hu : u ≤ 1 / 4096) (hs : 0 ≤ s) (ha : Apx u a x (E₁ * s) (M₁ * s))
    (hb : Apx u b y (E₂ * s) (M₂ * s)) (hM : |x + y| ≤ M * s) (he : (E₁ + E₂) * (4097 / 4096) + M ≤ E) :
    Apx u (a + b) (x + y) (E * s) (M * s) := by
  refine Apx.add hr hu ha hb hM ?_
  have := mul_le_mul_of_nonneg_right he hs
  linarith

theorem ssub (hr : IsRel rnd u) (hu : u ≤ 1 / 4096) (hs : 0 ≤ s) (ha : Apx u a x (E₁ * s) (M₁ * s))
    (hb : Apx u b y (E₂ * s) (M₂ * s)) (hM : |x - y| ≤ M * s) (he : (E₁ + E₂) * (4097 / 4096) + M ≤ E) :
    Apx u (a - b) (x - y) (E * s) (M * s) := by
  refine Apx.sub hr hu ha hb hM ?_
  have := mul_le_mul_of_nonneg_right he hs
  linarith

theorem sadd' (hr : IsRel rnd u) (hu : u ≤ 1 / 4096) (hs : 0 ≤ s) (ha : Apx u a x (E₁ * s) (M₁ * s))
    (hb : Apx u b y (E₂ * s) (M₂ * s)) (hM : M₁ + M₂ = M) (he : (E₁ + E₂) * (4097 / 4096) + M ≤ E) :
    Apx u (a + b) (x + y) (E * s) (M * s) := by
  refine ha.sadd hr hu hs hb ?_ he
  have := abs_add_le x y
  have m1 := ha.choose_spec.2.2
  have m2 := hb.choose_spec.2.2
  subst hM
  linarith

theorem scale (hu : 0 ≤ u) (hE : 0 ≤ E) (hM : 0 ≤ M) (h : Apx u a x (E * s) (M * s)) (hst : s ≤ t) :
    Apx u a x (E * t) (M * t) :=
  h.mono hu (mul_le_mul_of_nonneg_left hst hE)
    (h.choose_spec.2.2.trans (mul_le_mul_of_nonneg_left hst hM))
end Apx

section start
variable {p : ℕ} (hp : 12 ≤ p) {d K : ℝ} (hd0 : 0 ≤ d) (hd1 : d ≤ 1)
include hp hd0 hd1

local notation "U" => (2 : ℝ) ^ (-(p : ℤ))

omit hp hd1 in
theorem apx_d : Apx U (.num d : Fl ℝ (rne p)) d (0 * d) (1 * d) := by
  rw [zero_mul, one_mul]; exact Apx.num (abs_of_nonneg hd0).le

omit hd1 in
theorem apx_d2 : Apx U (.num d * .num d : Fl ℝ (rne p)) (d * d) (1 * (d * d)) (1 * (d * d)) :=
  Apx.smul (isRel_rne p (by omega)) (small_unit hp) hd0 hd0 (apx_d hd0) (apx_d hd0) le_rfl (by norm_num) (by norm_num)
    (by norm_num)

omit hd1 in
theorem apx_d3 : Apx U (.num d * .num d * .num d : Fl ℝ (rne p)) (d * d * d) (2001 / 1000 * (d * d * d)) (1 * (d * d * d)) :=
  Apx.smul (isRel_rne p (by omega)) (small_unit hp) (mul_nonneg hd0 hd0) hd0 (apx_d2 hp hd0) (apx_d hd0) le_rfl
    (by norm_num) (by norm_num) (by norm_num)

omit hd0 hd1 in
theorem apx_diff {a b : ℝ} (ha : |a| ≤ K) (hb : |b| ≤ K) :
    Apx U (.num a - .num b : Fl ℝ (rne p)) (a - b) (2 * K) (2 * K) := by
  refine Apx.sub (isRel_rne p (by omega)) (small_unit hp) (Apx.num ha) (Apx.num hb) ?_ (by simp)
  have := abs_sub a b; linarith

omit hd0 hd1 in
theorem slit (n : ℕ) [n.AtLeastTwo] (hn : n ≤ 4096) :
    Apx U (OfNat.ofNat n : Fl ℝ (rne p)) (OfNat.ofNat n) (0 * 1) (OfNat.ofNat n * 1) := by
  rw [zero_mul, mul_one]; exact lit hp _ n hn

theorem start_pos {a b c : Fl ℝ (rne p)} {x y z : ℝ} (hK : 0 ≤ K) (ha : Apx U a x (2 * K) (2 * K)) (hb : Apx U b y (2 * K) (2 * K))
    (hc : Apx U c z (2 * K) (2 * K)) :
    Apx U (a * (.num d * .num d * .num d) + b * ((.num d * .num d - .num d * .num d * .num d) * 3) +
        c * ((.num d - .num d * .num d) * 3))
      (x * (d * d * d) + y * ((d * d - d * d * d) * 3) + z * ((d - d * d) * 3)) (110 * (K * d)) (14 * (K * d)) ∧
    Apx U (a * (.num d * .num d * .num d * 6) + b * ((.num d * .num d - .num d * .num d * .num d * 3) * 6) +
        c * (-(.num d * .num d) * 6))
      (x * (d * d * d * 6) + y * ((d * d - d * d * d * 3) * 6) + z * (-(d * d) * 6)) (420 * (K * (d * d))) (48 * (K * (d * d))) ∧
    Apx U (a * (.num d * .num d * .num d * 6) + b * (-(.num d * .num d * .num d) * 18))
      (x * (d * d * d * 6) + y * (-(d * d * d) * 18)) (290 * (K * (d * d * d))) (48 * (K * (d * d * d))) := by
  have hr := isRel_rne p (by omega : 1 ≤ p)
  have hu := small_unit hp
  have h0 := hr.nonneg
  have a1 := apx_d (p := p) hd0
  have a2 := apx_d2 hp hd0
  have a3 := apx_d3 hp hd0
  have l3 := slit hp 3 (by norm_num)
  have l6 := slit hp 6 (by norm_num)
  have l18 := slit hp 18 (by norm_num)
  have q2 : 0 ≤ d * d := mul_nonneg hd0 hd0
  have q3 : 0 ≤ d * d * d := mul_nonneg q2 hd0
  have o2 : d * d ≤ d := by nlinarith
  have o3 : d * d * d ≤ d * d := by nlinarith
  have k1 : 0 ≤ K * d := mul_nonneg hK hd0
  have k2 : 0 ≤ K * (d * d) := mul_nonneg hK q2
  have k3 : 0 ≤ K * (d * d * d) := mul_nonneg hK q3
  refine ⟨?_, ?_, ?_⟩
  · have t1 := (ha.smul hr hu hK q3 a3 (by norm_num) (by norm_num) (E := 801 / 100) (M := 2) (by norm_num) (by norm_num)).scale
      h0 (by norm_num) (by norm_num) (mul_le_mul_of_nonneg_left (o3.trans o2) hK)
    have s1 := a2.ssub hr hu q2 (a3.scale h0 (by norm_num) (by norm_num) o3) (M := 1) (E := 401 / 100)
      (by rw [abs_of_nonneg] <;> linarith) (by norm_num)
    have s2 := s1.smul hr hu q2 (by norm_num) l3 (by norm_num) (by norm_num) (E := 151 / 10) (M := 3) (by norm_num) (by norm_num)
    have t2 := (hb.smul hr hu hK (by positivity) s2 (by norm_num) (by norm_num) (E := 423 / 10) (M := 6) (by norm_num) (by norm_num)).scale
      h0 (by norm_num) (by norm_num) (t := K * d) (by rw [mul_one]; exact mul_le_mul_of_nonneg_left o2 hK)
    have s3 := a1.ssub hr hu hd0 (a2.scale h0 (by norm_num) (by norm_num) o2) (M := 1) (E := 201 / 100)
      (by rw [abs_of_nonneg] <;> linarith) (by norm_num)
    have s4 := s3.smul hr hu hd0 (by norm_num) l3 (by norm_num) (by norm_num) (E := 91 / 10) (M := 3) (by norm_num) (by norm_num)
    have t3 := (hc.smul hr hu hK (by positivity) s4 (by norm_num) (by norm_num) (E := 303 / 10) (M := 6) (by norm_num) (by norm_num)).scale
      h0 (by norm_num) (by norm_num) (t := K * d) (by rw [mul_one])
    have t12 := t1.sadd' hr hu k1 t2 (M := 8) (E := 584 / 10) (by norm_num) (by norm_num)
    exact t12.sadd' hr hu k1 t3 (M := 14) (E := 110) (by norm_num) (by norm_num)
  · have s0 := a3.smul hr hu q3 (by norm_num) l6 (by norm_num) (by norm_num) (E := 181 / 10) (M := 6) (by norm_num) (by norm_num)
    have t1 := (ha.smul hr hu hK (by positivity) s0 (by norm_num) (by norm_num) (E := 603 / 10) (M := 12) (by norm_num) (by norm_num)).scale
      h0 (by norm_num) (by norm_num) (t := K * (d * d)) (by rw [mul_one]; exact mul_le_mul_of_nonneg_left o3 hK)
    have s1 := (a3.smul hr hu q3 (by norm_num) l3 (by norm_num) (by norm_num) (E := 901 / 100) (M := 3) (by norm_num) (by norm_num)).scale
      h0 (by norm_num) (by norm_num) (t := d * d) (by rw [mul_one]; exact o3)
    have s2 := a2.ssub hr hu q2 s1 (M := 2) (E := 1203 / 100)
      (by rw [abs_le]; constructor <;> linarith) (by norm_num)
    have s3 := s2.smul hr hu q2 (by norm_num) l6 (by norm_num) (by norm_num) (E := 843 / 10) (M := 12) (by norm_num) (by norm_num)
    have t2 := (hb.smul hr hu hK (by positivity) s3 (by norm_num) (by norm_num) (E := 2168 / 10) (M := 24) (by norm_num) (by norm_num)).scale
      h0 (by norm_num) (by norm_num) (t := K * (d * d)) (by rw [mul_one])
    have s4 := a2.neg.smul hr hu q2 (by norm_num) l6 (by norm_num) (by norm_num) (E := 1201 / 100) (M := 6) (by norm_num) (by norm_num)
    have t3 := (hc.smul hr hu hK (by positivity) s4 (by norm_num) (by norm_num) (E := 481 / 10) (M := 12) (by norm_num) (by norm_num)).scale
      h0 (by norm_num) (by norm_num) (t := K * (d * d)) (by rw [mul_one])
    have t12 := t1.sadd' hr hu k2 t2 (M := 36) (E := 3133 / 10) (by norm_num) (by norm_num)
    exact t12.sadd' hr hu k2 t3 (M := 48) (E := 420) (by norm_num) (by norm_num)
  · have s0 := a3.smul hr hu q3 (by norm_num) l6 (by norm_num) (by norm_num) (E := 181 / 10) (M := 6) (by norm_num) (by norm_num)
    have t1 := (ha.smul hr hu hK (by positivity) s0 (by norm_num) (by norm_num) (E := 603 / 10) (M := 12) (by norm_num) (by norm_num)).scale
      h0 (by norm_num) (by norm_num) (t := K * (d * d * d)) (by rw [mul_one])
    have s1 := a3.neg.smul hr hu q3 (by norm_num) l18 (by norm_num) (by norm_num) (E := 541 / 10) (M := 18) (by norm_num) (by norm_num)
    have t2 := (hb.smul hr hu hK (by positivity) s1 (by norm_num) (by norm_num) (E := 1804 / 10) (M := 36) (by norm_num) (by norm_num)).scale
      h0 (by norm_num) (by norm_num) (t := K * (d * d * d)) (by rw [mul_one])
    exact t1.sadd' hr hu k3 t2 (M := 48) (E := 290) (by norm_num) (by norm_num)

theorem start_tan {a b c : Fl ℝ (rne p)} {x y z : ℝ} (hK : 0 ≤ K) (ha : Apx U a x (2 * K) (2 * K)) (hb : Apx U b y (2 * K) (2 * K))
    (hc : Apx U c z (2 * K) (2 * K)) :
    Apx U (c * 3) (z * 3) (121 / 10 * K) (6 * K) ∧
    Apx U (a * (.num d * .num d * 3) + b * (.num d * 6 - .num d * .num d * 9) + c * (-(.num d) * 6))
      (x * (d * d * 3) + y * (d * 6 - d * d * 9) + z * (-d * 6)) (195 * (K * d)) (30 * (K * d)) ∧
    Apx U (a * (.num d * .num d * 6) + b * (-(.num d * .num d) * 18))
      (x * (d * d * 6) + y * (-(d * d) * 18)) (242 * (K * (d * d))) (48 * (K * (d * d))) := by
  have hr := isRel_rne p (by omega : 1 ≤ p)
  have hu := small_unit hp
  have h0 := hr.nonneg
  have a1 := apx_d (p := p) hd0
  have a2 := apx_d2 hp hd0
  have l3 := slit hp 3 (by norm_num)
  have l6 := slit hp 6 (by norm_num)
  have l9 := slit hp 9 (by norm_num)
  have l18 := slit hp 18 (by norm_num)
  have q2 : 0 ≤ d * d := mul_nonneg hd0 hd0
  have o2 : d * d ≤ d := by nlinarith
  have k1 : 0 ≤ K * d := mul_nonneg hK hd0
  have k2 : 0 ≤ K * (d * d) := mul_nonneg hK q2
  refine ⟨?_, ?_, ?_⟩
  · have := hc.smul hr hu hK (by norm_num) l3 (by norm_num) (by norm_num) (E := 121 / 10) (M := 6) (by norm_num) (by norm_num)
    rwa [mul_one] at this
  · have s0 := a2.smul hr hu q2 (by norm_num) l3 (by norm_num) (by norm_num) (E := 601 / 100) (M := 3) (by norm_num) (by norm_num)
    have t1 := (ha.smul hr hu hK (by positivity) s0 (by norm_num) (by norm_num) (E := 241 / 10) (M := 6) (by norm_num) (by norm_num)).scale
      h0 (by norm_num) (by norm_num) (t := K * d) (by rw [mul_one]; exact mul_le_mul_of_nonneg_left o2 hK)
    have s1 := (a1.smul hr hu hd0 (by norm_num) l6 (by norm_num) (by norm_num) (E := 6) (M := 6) (by norm_num) (by norm_num)).scale
      h0 (by norm_num) (by norm_num) (t := d) (by rw [mul_one])
    have s2 := (a2.smul hr hu q2 (by norm_num) l9 (by norm_num) (by norm_num) (E := 1801 / 100) (M := 9) (by norm_num) (by norm_num)).scale
      h0 (by norm_num) (by norm_num) (t := d) (by rw [mul_one]; exact o2)
    have s3 := s1.ssub hr hu hd0 s2 (M := 6) (E := 301 / 10)
      (by rw [abs_le]; constructor <;> linarith) (by norm_num)
    have t2 := hb.smul hr hu hK hd0 s3 (by norm_num) (by norm_num) (E := 843 / 10) (M := 12) (by norm_num) (by norm_num)
    have s4 := a1.neg.smul hr hu hd0 (by norm_num) l6 (by norm_num) (by norm_num) (E := 6) (M := 6) (by norm_num) (by norm_num)
    have t3 := (hc.smul hr hu hK (by positivity) s4 (by norm_num) (by norm_num) (E := 361 / 10) (M := 12) (by norm_num) (by norm_num)).scale
      h0 (by norm_num) (by norm_num) (t := K * d) (by rw [mul_one])
    have t12 := t1.sadd' hr hu k1 t2 (M := 18) (E := 1265 / 10) (by norm_num) (by norm_num)
    exact t12.sadd' hr hu k1 t3 (M := 30) (E := 195) (by norm_num) (by norm_num)
  · have s0 := a2.smul hr hu q2 (by norm_num) l6 (by norm_num) (by norm_num) (E := 1201 / 100) (M := 6) (by norm_num) (by norm_num)
    have t1 := (ha.smul hr hu hK (by positivity) s0 (by norm_num) (by norm_num) (E := 481 / 10) (M := 12) (by norm_num) (by norm_num)).scale
      h0 (by norm_num) (by norm_num) (t := K * (d * d)) (by rw [mul_one])
    have s1 := a2.neg.smul hr hu q2 (by norm_num) l18 (by norm_num) (by norm_num) (E := 3601 / 100) (M := 18) (by norm_num) (by norm_num)
    have t2 := (hb.smul hr hu hK (by positivity) s1 (by norm_num) (by norm_num) (E := 1442 / 10) (M := 36) (by norm_num) (by norm_num)).scale
      h0 (by norm_num) (by norm_num) (t := K * (d * d)) (by rw [mul_one])
    exact t1.sadd' hr hu k2 t2 (M := 48) (E := 242) (by norm_num) (by norm_num)
end start

/-! ## One coordinate of the curve -/

/-- one coordinate of a curve, and of its derivative -/
def bern (y₁ y₂ y₃ y₄ t : ℝ) : ℝ :=
  y₁ * (1 - t) ^ 3 + y₂ * (3 * t * (1 - t) ^ 2) + y₃ * (3 * t ^ 2 * (1 - t)) + y₄ * t ^ 3
def bern' (y₁ y₂ y₃ y₄ t : ℝ) : ℝ :=
  y₁ * (-3 * (1 - t) ^ 2) + y₂ * (3 * (1 - t) ^ 2 - 6 * t * (1 - t)) + y₃ * (6 * t * (1 - t) - 3 * t ^ 2) + y₄ * (3 * t ^ 2)

section bern
variable {y₁ y₂ y₃ y₄ K s t : ℝ} (k₁ : |y₁| ≤ K) (k₂ : |y₂| ≤ K) (k₃ : |y₃| ≤ K) (k₄ : |y₄| ≤ K)
include k₁ k₂ k₃ k₄

theorem comb_le {a b c e : ℝ} (ha : 0 ≤ a) (hb : 0 ≤ b) (hc : 0 ≤ c) (he : 0 ≤ e) :
    |a * y₁ + b * y₂ + c * y₃ + e * y₄| ≤ (a + b + c + e) * K := by
  rw [abs_le] at *
  have m : ∀ {w y : ℝ}, 0 ≤ w → -K ≤ y ∧ y ≤ K → -(w * K) ≤ w * y ∧ w * y ≤ w * K := fun hw hy =>
    ⟨by nlinarith [mul_le_mul_of_nonneg_left hy.1 hw], mul_le_mul_of_nonneg_left hy.2 hw⟩
  have := m ha k₁
  have := m hb k₂
  have := m hc k₃
  have := m he k₄
  constructor <;> linarith

theorem bern_le (h0 : 0 ≤ t) (h1 : t ≤ 1) : |bern y₁ y₂ y₃ y₄ t| ≤ K := by
  have c0 : 0 ≤ 1 - t := by linarith
  have := comb_le k₁ k₂ k₃ k₄ (a := (1 - t) ^ 3) (b := 3 * t * (1 - t) ^ 2) (c := 3 * t ^ 2 * (1 - t)) (e := t ^ 3)
    (by positivity) (by positivity) (by positivity) (by positivity)
  convert this using 1
  · rw [bern]; ring_nf
  · ring

theorem diffs_le {a b c : ℝ} (ha : 0 ≤ a) (hb : 0 ≤ b) (hc : 0 ≤ c) :
    |a * (y₂ - y₁) + b * (y₃ - y₂) + c * (y₄ - y₃)| ≤ (a + b + c) * (2 * K) := by
  rw [abs_le] at *
  have m : ∀ {w y : ℝ}, 0 ≤ w → -(2 * K) ≤ y ∧ y ≤ 2 * K → -(w * (2 * K)) ≤ w * y ∧ w * y ≤ w * (2 * K) := fun hw hy =>
    ⟨by nlinarith [mul_le_mul_of_nonneg_left hy.1 hw], mul_le_mul_of_nonneg_left hy.2 hw⟩
  have := m ha (y := y₂ - y₁) ⟨by linarith, by linarith⟩
  have := m hb (y := y₃ - y₂) ⟨by linarith, by linarith⟩
  have := m hc (y := y₄ - y₃) ⟨by linarith, by linarith⟩
  constructor <;> linarith

theorem bern_diff (h0 : 0 ≤ t) (h1 : t ≤ s) (h2 : s ≤ 1) : |bern y₁ y₂ y₃ y₄ s - bern y₁ y₂ y₃ y₄ t| ≤ 6 * K * (s - t) := by
  have c0 : 0 ≤ 1 - t := by linarith
  have c1 : 0 ≤ 1 - s := by linarith
  have c2 : 0 ≤ s := by linarith
  have e : bern y₁ y₂ y₃ y₄ s - bern y₁ y₂ y₃ y₄ t = (s - t) * (((1 - s) ^ 2 + (1 - s) * (1 - t) + (1 - t) ^ 2) * (y₂ - y₁) +
      (2 * (s * (1 - s)) + 2 * (t * (1 - t)) + s * (1 - t) + t * (1 - s)) * (y₃ - y₂) + (s ^ 2 + s * t + t ^ 2) * (y₄ - y₃)) := by
    rw [bern, bern]; ring
  rw [e, abs_mul, abs_of_nonneg (by linarith : 0 ≤ s - t)]
  have := mul_le_mul_of_nonneg_left (diffs_le k₁ k₂ k₃ k₄ (a := (1 - s) ^ 2 + (1 - s) * (1 - t) + (1 - t) ^ 2)
    (b := 2 * (s * (1 - s)) + 2 * (t * (1 - t)) + s * (1 - t) + t * (1 - s)) (c := s ^ 2 + s * t + t ^ 2)
    (by positivity) (by positivity) (by positivity)) (by linarith : 0 ≤ s - t)
  refine this.trans (le_of_eq ?_)
  ring

theorem curv_le (h0 : 0 ≤ t) (h1 : t ≤ 1) :
    |6 * ((1 - t) * (y₃ - 2 * y₂ + y₁) + t * (y₄ - 2 * y₃ + y₂))| ≤ 24 * K := by
  rw [abs_le] at *
  have c0 : 0 ≤ 1 - t := by linarith
  have m : ∀ {w y : ℝ}, 0 ≤ w → -(4 * K) ≤ y ∧ y ≤ 4 * K → -(w * (4 * K)) ≤ w * y ∧ w * y ≤ w * (4 * K) := fun hw hy =>
    ⟨by nlinarith [mul_le_mul_of_nonneg_left hy.1 hw], mul_le_mul_of_nonneg_left hy.2 hw⟩
  have := m c0 (y := y₃ - 2 * y₂ + y₁) ⟨by linarith, by linarith⟩
  have := m h0 (y := y₄ - 2 * y₃ + y₂) ⟨by linarith, by linarith⟩
  constructor <;> linarith

theorem bern_diff2 {d : ℝ} (h0 : 0 ≤ t) (h1 : t ≤ 1) :
    |bern y₁ y₂ y₃ y₄ (t + d) - bern y₁ y₂ y₃ y₄ t - (bern y₁ y₂ y₃ y₄ t - bern y₁ y₂ y₃ y₄ (t - d))| ≤ 24 * K * (d * d) := by
  have e : bern y₁ y₂ y₃ y₄ (t + d) - bern y₁ y₂ y₃ y₄ t - (bern y₁ y₂ y₃ y₄ t - bern y₁ y₂ y₃ y₄ (t - d)) =
      (d * d) * (6 * ((1 - t) * (y₃ - 2 * y₂ + y₁) + t * (y₄ - 2 * y₃ + y₂))) := by
    rw [bern, bern, bern]; ring
  rw [e, abs_mul, abs_of_nonneg (mul_self_nonneg d), mul_comm]
  exact mul_le_mul_of_nonneg_right (curv_le k₁ k₂ k₃ k₄ h0 h1) (mul_self_nonneg d)

theorem bern'_le (h0 : 0 ≤ t) (h1 : t ≤ 1) : |bern' y₁ y₂ y₃ y₄ t| ≤ 6 * K := by
  have c0 : 0 ≤ 1 - t := by linarith
  have := diffs_le k₁ k₂ k₃ k₄ (a := 3 * (1 - t) ^ 2) (b := 6 * (t * (1 - t))) (c := 3 * t ^ 2)
    (by positivity) (by positivity) (by positivity)
  convert this using 1
  · rw [bern']; ring_nf
  · ring

theorem bern'_diff (h0 : 0 ≤ t) (h1 : t ≤ s) (h2 : s ≤ 1) : |bern' y₁ y₂ y₃ y₄ s - bern' y₁ y₂ y₃ y₄ t| ≤ 24 * K * (s - t) := by
  have e : bern' y₁ y₂ y₃ y₄ s - bern' y₁ y₂ y₃ y₄ t =
      (s - t) * (6 * ((1 - (s + t) / 2) * (y₃ - 2 * y₂ + y₁) + ((s + t) / 2) * (y₄ - 2 * y₃ + y₂))) := by
    rw [bern', bern']; ring
  rw [e, abs_mul, abs_of_nonneg (by linarith : 0 ≤ s - t), mul_comm]
  exact mul_le_mul_of_nonneg_right (curv_le k₁ k₂ k₃ k₄ (by linarith) (by linarith)) (by linarith)
end bern

end MathLib
