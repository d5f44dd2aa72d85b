import Verif.Spec.RoundSpec
import Verif.Proof.Rne
import Mathlib.Analysis.Real.Sqrt
import Mathlib.Tactic.LinearCombination
import Mathlib.Tactic.Positivity
import Mathlib.Algebra.Order.Ring.Pow

/-! # Propagation of rounding errors

`Rel u n x a`: the computed `a` is `x` up to `n` relative errors of `u`.  `Abs u n A x a`: it is off by at most
`((1-u)⁻ⁿ - 1) A`, where `A` is the sum of the absolute values of the terms. -/

namespace MathLib

theorem isRel_rne (p : ℕ) (hp : 1 ≤ p) : IsRel (rne p) ((2 : ℝ) ^ (-(p : ℤ))) where
  nonneg := (zpow2_pos _).le
  lt_one := by
    have : (2 : ℝ) ^ (-(p : ℤ)) ≤ 2 ^ (-1 : ℤ) := zpow_le_zpow_right₀ one_le_two (by omega)
    refine this.trans_lt (by norm_num)
  err x := by rw [abs_sub_comm, mul_comm]; exact rne_rel p x

theorem isRel_id : IsRel id 0 := ⟨le_rfl, zero_lt_one, by simp⟩

/-- a factor made of at most `n` relative errors -/
def Fac (u : ℝ) (n : ℕ) (θ : ℝ) : Prop := (1 - u) ^ n ≤ θ ∧ θ * (1 - u) ^ n ≤ 1

namespace Fac
variable {u : ℝ} {n m : ℕ} {θ φ : ℝ}

theorem gpos (h1 : u < 1) (n : ℕ) : 0 < (1 - u) ^ n := pow_pos (by linarith) n
theorem gle (h0 : 0 ≤ u) (h1 : u < 1) (n : ℕ) : (1 - u) ^ n ≤ 1 := pow_le_one₀ (by linarith) (by linarith)
theorem pos (h1 : u < 1) (h : Fac u n θ) : 0 < θ := (gpos h1 n).trans_le h.1
theorem one (h0 : 0 ≤ u) (h1 : u < 1) : Fac u n 1 := ⟨gle h0 h1 n, by rw [one_mul]; exact gle h0 h1 n⟩
theorem mono (h0 : 0 ≤ u) (h1 : u < 1) (h : Fac u n θ) (hm : n ≤ m) : Fac u m θ := by
  have := pow_le_pow_of_le_one (by linarith : 0 ≤ 1 - u) (by linarith) hm
  exact ⟨this.trans h.1, (mul_le_mul_of_nonneg_left this (h.pos h1).le).trans h.2⟩
theorem mul (h1 : u < 1) (h : Fac u n θ) (h' : Fac u m φ) : Fac u (n + m) (θ * φ) := by
  refine ⟨?_, ?_⟩
  · rw [pow_add]; exact mul_le_mul h.1 h'.1 (gpos h1 m).le (h.pos h1).le
  · calc θ * φ * (1 - u) ^ (n + m) = (θ * (1 - u) ^ n) * (φ * (1 - u) ^ m) := by rw [pow_add]; ring
      _ ≤ 1 := mul_le_one₀ h.2 (mul_pos (h'.pos h1) (gpos h1 m)).le h'.2
theorem inv (h1 : u < 1) (h : Fac u n θ) : Fac u n θ⁻¹ := by
  have hp := h.pos h1
  refine ⟨?_, ?_⟩
  · rw [le_inv_comm₀ (gpos h1 n) hp, ← one_div, le_div_iff₀ (gpos h1 n)]; exact h.2
  · rw [inv_mul_le_iff₀ hp, mul_one]; exact h.1
theorem sqrt (h1 : u < 1) (h : Fac u (2 * n) θ) : Fac u n √θ := by
  have hg := gpos h1 n
  refine ⟨?_, ?_⟩
  · apply Real.le_sqrt_of_sq_le; rw [← pow_mul, mul_comm]; exact h.1
  · have : √θ * (1 - u) ^ n = √(θ * (1 - u) ^ (2 * n)) := by
      rw [Real.sqrt_mul (h.pos h1).le, mul_comm 2 n, pow_mul, Real.sqrt_sq hg.le]
    rw [this, Real.sqrt_le_one]; exact h.2
theorem abs_sub_one (h1 : u < 1) (h : Fac u n θ) : |θ - 1| ≤ gam u n := by
  unfold gam
  have hg := gpos h1 n
  have h2 : θ ≤ ((1 - u) ^ n)⁻¹ := by rw [← one_div, le_div_iff₀ hg]; exact h.2
  rw [abs_le]
  refine ⟨?_, by linarith⟩
  have : 2 ≤ (1 - u) ^ n + ((1 - u) ^ n)⁻¹ := by
    have e : (1 - u) ^ n * ((1 - u) ^ n)⁻¹ = 1 := mul_inv_cancel₀ hg.ne'
    have := inv_pos.2 hg
    nlinarith [sq_nonneg ((1 - u) ^ n - ((1 - u) ^ n)⁻¹)]
  linarith [h.1]
/-- weighted mean of two factors -/
theorem mean {x y : ℝ} (hx : 0 ≤ x) (hy : 0 ≤ y) (h0 : 0 ≤ u) (h1 : u < 1) (h : Fac u n θ) (h' : Fac u n φ) :
    ∃ ψ, Fac u n ψ ∧ x * θ + y * φ = (x + y) * ψ := by
  rcases (add_nonneg hx hy).eq_or_lt with e | e
  · have hx0 : x = 0 := by linarith
    have hy0 : y = 0 := by linarith
    exact ⟨1, one h0 h1, by rw [hx0, hy0]; ring⟩
  · refine ⟨(x * θ + y * φ) / (x + y), ⟨?_, ?_⟩, by field_simp⟩
    · rw [le_div_iff₀ e]; nlinarith [mul_le_mul_of_nonneg_left h.1 hx, mul_le_mul_of_nonneg_left h'.1 hy]
    · rw [div_mul_eq_mul_div, div_le_one e]
      nlinarith [mul_le_mul_of_nonneg_left h.2 hx, mul_le_mul_of_nonneg_left h'.2 hy]

end Fac

/-- The bound in the usual form `n u / (1 - n u)`. -/
theorem gam_le {u : ℝ} (h1 : u < 1) {n : ℕ} (hn : n * u < 1) : gam u n ≤ n * u / (1 - n * u) := by
  have hb : 1 - n * u ≤ (1 - u) ^ n := by
    have := one_add_mul_le_pow (show (-2 : ℝ) ≤ -u by linarith) n
    simpa [sub_eq_add_neg] using this
  have h2 : 0 < 1 - n * u := by linarith
  have h3 : ((1 - u) ^ n)⁻¹ ≤ (1 - n * u)⁻¹ := inv_anti₀ h2 hb
  have h4 : (1 - n * u)⁻¹ - 1 = n * u / (1 - n * u) := by field_simp; ring
  unfold gam; linarith

theorem gam_zero (n : ℕ) : gam 0 n = 0 := by simp [gam]

variable {rnd : ℝ → ℝ} {u : ℝ}

theorem IsRel.fac (hr : IsRel rnd u) (x : ℝ) : ∃ θ, Fac u 1 θ ∧ rnd x = x * θ := by
  by_cases hx : x = 0
  · refine ⟨1, Fac.one hr.nonneg hr.lt_one, ?_⟩
    have := hr.err x; rw [hx] at this ⊢; simpa using this
  · refine ⟨rnd x / x, ?_, by field_simp⟩
    have h := hr.err x
    have h2 : |rnd x / x - 1| ≤ u := by
      rw [show rnd x / x - 1 = (rnd x - x) / x by field_simp, abs_div, div_le_iff₀ (abs_pos.2 hx)]; exact h
    obtain ⟨h3, h4⟩ := abs_le.1 h2
    refine ⟨by rw [pow_one]; linarith, ?_⟩
    rw [pow_one]; nlinarith [hr.nonneg, hr.lt_one, sq_nonneg u]

/-- `a` is `x` up to `n` relative errors -/
def Rel (u : ℝ) (n : ℕ) (x : ℝ) (a : Fl ℝ rnd) : Prop := ∃ θ, Fac u n θ ∧ a = .num (x * θ)

namespace Rel
variable {n m k : ℕ} {x y : ℝ} {a b : Fl ℝ rnd}

theorem exact (hr : IsRel rnd u) (x : ℝ) : Rel u 0 x (.num x : Fl ℝ rnd) :=
  ⟨1, Fac.one hr.nonneg hr.lt_one, by rw [mul_one]⟩
theorem mono (hr : IsRel rnd u) (h : Rel u n x a) (hm : n ≤ m) : Rel u m x a := by
  obtain ⟨θ, ht, e⟩ := h
  exact ⟨θ, ht.mono hr.nonneg hr.lt_one hm, e⟩
theorem neg (h : Rel u n x a) : Rel u n (-x) (-a) := by
  obtain ⟨θ, ht, rfl⟩ := h
  exact ⟨θ, ht, by rw [Fl.num_neg, neg_mul]⟩
theorem mul (hr : IsRel rnd u) (h : Rel u n x a) (h' : Rel u m y b) (hk : n + m + 1 ≤ k := by norm_num) :
    Rel u k (x * y) (a * b) := by
  obtain ⟨θ, ht, rfl⟩ := h
  obtain ⟨φ, hf, rfl⟩ := h'
  obtain ⟨ψ, hp, e⟩ := hr.fac (x * θ * (y * φ))
  exact ⟨θ * φ * ψ, ((ht.mul hr.lt_one hf).mul hr.lt_one hp).mono hr.nonneg hr.lt_one hk, by
    rw [Fl.num_mul, e]; congr 1; ring⟩
theorem div (hr : IsRel rnd u) (h : Rel u n x a) (h' : Rel u m y b) (hy : y ≠ 0)
    (hk : n + m + 1 ≤ k := by norm_num) : Rel u k (x / y) (a / b) := by
  obtain ⟨θ, ht, rfl⟩ := h
  obtain ⟨φ, hf, rfl⟩ := h'
  obtain ⟨ψ, hp, e⟩ := hr.fac (x * θ / (y * φ))
  have hφ := (hf.pos hr.lt_one).ne'
  refine ⟨θ * φ⁻¹ * ψ, ((ht.mul hr.lt_one (hf.inv hr.lt_one)).mul hr.lt_one hp).mono hr.nonneg hr.lt_one hk, ?_⟩
  rw [Fl.num_div, if_neg (mul_ne_zero hy hφ), e]
  congr 1; field_simp
/-- a sum of two terms of the same sign -/
theorem add (hr : IsRel rnd u) (h : Rel u n x a) (h' : Rel u m y b) (hx : 0 ≤ x) (hy : 0 ≤ y)
    (hk : max n m + 1 ≤ k := by norm_num) : Rel u k (x + y) (a + b) := by
  obtain ⟨θ, ht, rfl⟩ := h
  obtain ⟨φ, hf, rfl⟩ := h'
  obtain ⟨χ, hc, e'⟩ := Fac.mean hx hy hr.nonneg hr.lt_one
    (ht.mono hr.nonneg hr.lt_one (le_max_left n m)) (hf.mono hr.nonneg hr.lt_one (le_max_right n m))
  obtain ⟨ψ, hp, e⟩ := hr.fac (x * θ + y * φ)
  refine ⟨χ * ψ, (hc.mul hr.lt_one hp).mono hr.nonneg hr.lt_one hk, ?_⟩
  rw [Fl.num_add, e, e']; congr 1; ring
/-- the difference of two given numbers -/
theorem sub (hr : IsRel rnd u) (x y : ℝ) : Rel u 1 (x - y) (.num x - .num y : Fl ℝ rnd) := by
  obtain ⟨ψ, hp, e⟩ := hr.fac (x - y)
  exact ⟨ψ, hp, by rw [Fl.num_sub, e]⟩
theorem sum (hr : IsRel rnd u) (x y : ℝ) : Rel u 1 (x + y) (.num x + .num y : Fl ℝ rnd) := by
  obtain ⟨ψ, hp, e⟩ := hr.fac (x + y)
  exact ⟨ψ, hp, by rw [Fl.num_add, e]⟩
theorem sqrt (hr : IsRel rnd u) (h : Rel u n x a) (hx : 0 ≤ x) (hm : n ≤ 2 * m := by norm_num)
    (hk : m + 1 ≤ k := by norm_num) : Rel u k √x (MathFns.sqrt a) := by
  obtain ⟨θ, ht, rfl⟩ := h
  obtain ⟨ψ, hp, e⟩ := hr.fac √(x * θ)
  have ht' := ht.mono hr.nonneg hr.lt_one hm
  refine ⟨√θ * ψ, ((ht'.sqrt hr.lt_one).mul hr.lt_one hp).mono hr.nonneg hr.lt_one hk, ?_⟩
  change (if x * θ < 0 then Fl.nan else Fl.num (rnd √(x * θ))) = _
  rw [if_neg (not_lt.2 (mul_nonneg hx (ht.pos hr.lt_one).le)), e, Real.sqrt_mul hx, mul_assoc]
/-- the absolute value of the error -/
theorem error (hr : IsRel rnd u) (h : Rel u n x a) : ∃ v, a = .num v ∧ |v - x| ≤ gam u n * |x| := by
  obtain ⟨θ, ht, rfl⟩ := h
  refine ⟨_, rfl, ?_⟩
  rw [show x * θ - x = (θ - 1) * x by ring, abs_mul]
  exact mul_le_mul_of_nonneg_right (ht.abs_sub_one hr.lt_one) (abs_nonneg _)

end Rel

/-- `a` is `x` up to `n` relative errors of the quantity `A ≥ |x|` -/
def AbsErr (u : ℝ) (n : ℕ) (A x : ℝ) (a : Fl ℝ rnd) : Prop :=
  |x| ≤ A ∧ ∃ v, a = .num v ∧ |v - x| ≤ gam u n * A

namespace AbsErr
variable {n m k : ℕ} {x y A B : ℝ} {a b : Fl ℝ rnd}

private theorem g1 (hr : IsRel rnd u) (n : ℕ) : 1 ≤ ((1 - u) ^ n)⁻¹ :=
  (one_le_inv₀ (Fac.gpos hr.lt_one n)).2 (Fac.gle hr.nonneg hr.lt_one n)
private theorem gmono (hr : IsRel rnd u) {n m : ℕ} (h : n ≤ m) : ((1 - u) ^ n)⁻¹ ≤ ((1 - u) ^ m)⁻¹ :=
  inv_anti₀ (Fac.gpos hr.lt_one m)
    (pow_le_pow_of_le_one (by linarith [hr.lt_one]) (by linarith [hr.nonneg]) h)

theorem of_rel (hr : IsRel rnd u) (h : Rel u n x a) : AbsErr u n |x| x a := ⟨le_rfl, h.error hr⟩
theorem exact (hr : IsRel rnd u) (x : ℝ) : AbsErr u 0 |x| x (.num x : Fl ℝ rnd) := of_rel hr (Rel.exact hr x)
theorem mono (hr : IsRel rnd u) (h : AbsErr u n A x a) (hm : n ≤ m) (hA : A ≤ B) : AbsErr u m B x a := by
  obtain ⟨h1, v, rfl, h2⟩ := h
  unfold gam at h2
  refine ⟨h1.trans hA, v, rfl, h2.trans ?_⟩
  unfold gam
  exact mul_le_mul (by linarith [gmono hr hm]) hA ((abs_nonneg _).trans h1) (by linarith [g1 hr m])
theorem neg (h : AbsErr u n A x a) : AbsErr u n A (-x) (-a) := by
  obtain ⟨h1, v, rfl, h2⟩ := h
  exact ⟨by rwa [abs_neg], -v, rfl, by rwa [← abs_neg, show -(-v - -x) = v - x by ring]⟩

/-- one more rounding -/
private theorem round (hr : IsRel rnd u) {v : ℝ} (hx : |x| ≤ A) (h : |v - x| ≤ gam u n * A) :
    |rnd v - x| ≤ gam u (n + 1) * A := by
  unfold gam at *
  obtain ⟨θ, ht, e⟩ := hr.fac v
  have hA : 0 ≤ A := (abs_nonneg _).trans hx
  have h1 := ht.abs_sub_one hr.lt_one
  unfold gam at h1
  have h2 : |v| ≤ ((1 - u) ^ n)⁻¹ * A := by
    calc |v| = |(v - x) + x| := by ring_nf
      _ ≤ |v - x| + |x| := abs_add_le _ _
      _ ≤ ((1 - u) ^ n)⁻¹ * A := by linarith
  calc |rnd v - x| = |v * (θ - 1) + (v - x)| := by rw [e]; ring_nf
    _ ≤ |v| * |θ - 1| + |v - x| := by rw [← abs_mul]; exact abs_add_le _ _
    _ ≤ ((1 - u) ^ n)⁻¹ * A * (((1 - u) ^ 1)⁻¹ - 1) + (((1 - u) ^ n)⁻¹ - 1) * A := by
      gcongr
      exact mul_nonneg (by linarith [g1 hr n]) hA
    _ = _ := by rw [pow_one, pow_succ, mul_inv]; ring

theorem add (hr : IsRel rnd u) (h : AbsErr u n A x a) (h' : AbsErr u m B y b)
    (hk : max n m + 1 ≤ k := by norm_num) : AbsErr u k (A + B) (x + y) (a + b) := by
  obtain ⟨h1, v, rfl, h2⟩ := h.mono hr (le_max_left n m) le_rfl
  obtain ⟨h3, w, rfl, h4⟩ := h'.mono hr (le_max_right n m) le_rfl
  have h5 : |x + y| ≤ A + B := (abs_add_le _ _).trans (add_le_add h1 h3)
  refine mono hr (n := max n m + 1) ⟨h5, _, rfl, round hr h5 ?_⟩ hk le_rfl
  calc |v + w - (x + y)| = |(v - x) + (w - y)| := by ring_nf
    _ ≤ |v - x| + |w - y| := abs_add_le _ _
    _ ≤ _ := by linarith
theorem sub (hr : IsRel rnd u) (h : AbsErr u n A x a) (h' : AbsErr u m B y b)
    (hk : max n m + 1 ≤ k := by norm_num) : AbsErr u k (A + B) (x - y) (a - b) := by
  have := add hr h h'.neg hk
  obtain ⟨-, v, rfl, -⟩ := h
  obtain ⟨-, w, rfl, -⟩ := h'
  rw [Fl.num_sub]; rwa [Fl.num_neg, Fl.num_add, ← sub_eq_add_neg, ← sub_eq_add_neg] at this
theorem mul (hr : IsRel rnd u) (h : AbsErr u n A x a) (h' : AbsErr u m B y b)
    (hk : n + m + 1 ≤ k := by norm_num) : AbsErr u k (A * B) (x * y) (a * b) := by
  obtain ⟨h1, v, rfl, h2⟩ := h
  obtain ⟨h3, w, rfl, h4⟩ := h'
  unfold gam at h2 h4
  have hA : 0 ≤ A := (abs_nonneg _).trans h1
  have hB : 0 ≤ B := (abs_nonneg _).trans h3
  have h5 : |x * y| ≤ A * B := by rw [abs_mul]; exact mul_le_mul h1 h3 (abs_nonneg _) hA
  refine mono hr (n := n + m + 1) ⟨h5, _, rfl, round hr h5 ?_⟩ hk le_rfl
  have gn := g1 hr n
  have gm := g1 hr m
  calc |v * w - x * y| = |(v - x) * (w - y) + (v - x) * y + x * (w - y)| := by ring_nf
    _ ≤ |v - x| * |w - y| + |v - x| * |y| + |x| * |w - y| := by
      rw [← abs_mul, ← abs_mul, ← abs_mul]; exact abs_add_three _ _ _
    _ ≤ (((1 - u) ^ n)⁻¹ - 1) * A * ((((1 - u) ^ m)⁻¹ - 1) * B) + (((1 - u) ^ n)⁻¹ - 1) * A * B +
        A * ((((1 - u) ^ m)⁻¹ - 1) * B) := by
      have e1 : 0 ≤ (((1 - u) ^ n)⁻¹ - 1) * A := mul_nonneg (by linarith) hA
      gcongr
    _ = _ := by unfold gam; rw [pow_add, mul_inv]; ring

end AbsErr
end MathLib
