import Verif.Proof.RneNearest

/-! # Ties -/

namespace MathLib
variable {K : Type} [Field K] [LinearOrder K] [IsStrictOrderedRing K] [FloorRing K]

theorem rhe_eq_even (y : K) (n : ℤ) (hn : n % 2 = 0) (h : |y - n| ≤ 1 / 2) : roundHalfEven y = n := by
  rw [abs_le] at h
  rcases le_total y n with hy | hy
  · exact (rhe_eq_even_iff y n hn hy).2 (by linarith [h.1])
  · have := (rhe_eq_even_iff (-y) (-n) (by omega) (by push_cast; linarith)).2 (by push_cast; linarith [h.2])
    rw [rhe_neg] at this
    omega

/-- A number halfway between two neighbours goes to the even one. -/
theorem rne_tie {p : ℕ} {x : K} (e n : ℤ) (h1 : (2 : K) ^ (e + (p - 1)) ≤ x) (h2 : x < 2 ^ (e + p))
    (hn : n % 2 = 0) (h : |x - n * 2 ^ e| ≤ 2 ^ e / 2) : rne p x = n * 2 ^ e := by
  have hx : 0 < x := (zpow2_pos _).trans_le h1
  have hl : Int.log 2 x = e + (p - 1) := by
    apply le_antisymm
    · have := (Int.lt_zpow_iff_log_lt (R := K) (b := 2) (by norm_num) (x := e + p) hx).1 (by exact_mod_cast h2)
      omega
    · exact (Int.zpow_le_iff_le_log (R := K) (b := 2) (by norm_num) hx).1 (by exact_mod_cast h1)
  have hpos := zpow2_pos (K := K) e
  have e' : e + ((p : ℤ) - 1) - (p - 1) = e := by omega
  rw [rne, if_neg hx.ne', abs_of_pos hx]
  simp only [hl, e']
  rw [rhe_eq_even _ n hn]
  have : x / 2 ^ e - n = (x - n * 2 ^ e) / 2 ^ e := by rw [sub_div, mul_div_cancel_right₀ _ hpos.ne']
  rw [this, abs_div, abs_of_pos hpos, div_le_iff₀ hpos]
  linarith

/-- Just above a power of two. -/
theorem rne_tie_above {p : ℕ} (hp : 2 ≤ p) (k : ℤ) {x : K} (h : x ≤ 2 ^ k + 2 ^ (k - p)) : rne p x ≤ 2 ^ k := by
  refine (rne_mono p (by omega) h).trans (le_of_eq ?_)
  have hk := zpow2_pos (K := K) k
  have e0 : (2 : K) ^ k = 2 ^ (p - 1) * 2 ^ (k - (p - 1)) := by
    rw [← zpow_natCast, ← zpow_add₀ two_ne_zero]; congr 1; push_cast [Nat.cast_sub (show 1 ≤ p by omega)]; ring
  have e1 : (2 : K) ^ (k - p) = 2 ^ (k - (p - 1)) / 2 := by
    rw [show k - (p : ℤ) = k - (p - 1) - 1 by ring, zpow_sub_one₀ two_ne_zero]; ring
  have e2 : (2 : K) ^ (k - p) ≤ 2 ^ (k - 2) := zpow_le_zpow_right₀ one_le_two (by omega)
  have e3 : (2 : K) ^ (k - 2) = 2 ^ k / 4 := by rw [zpow_sub₀ two_ne_zero]; norm_num
  have := rne_tie (K := K) (p := p) (x := 2 ^ k + 2 ^ (k - p)) (k - (p - 1)) (2 ^ (p - 1)) ?_ ?_ ?_ ?_
  · rw [this, e0]; push_cast; rfl
  · rw [show k - ((p : ℤ) - 1) + (p - 1) = k by ring]; linarith [zpow2_pos (K := K) (k - p)]
  · rw [show k - ((p : ℤ) - 1) + p = k + 1 by ring, zpow_add_one₀ two_ne_zero]; linarith
  · obtain ⟨q, rfl⟩ : ∃ q, p = q + 2 := ⟨p - 2, by omega⟩
    have : (2 : ℤ) ^ (q + 2 - 1) = 2 * 2 ^ q := by rw [show q + 2 - 1 = q + 1 by omega, pow_succ]; ring
    omega
  · push_cast
    rw [← e0, add_sub_cancel_left, abs_of_pos (zpow2_pos _), e1]

/-- Just below a power of two. -/
theorem rne_tie_below {p : ℕ} (hp : 1 ≤ p) (k : ℤ) {x : K} (h : 2 ^ k - 2 ^ (k - p - 1) ≤ x) : 2 ^ k ≤ rne p x := by
  refine le_trans (le_of_eq ?_) (rne_mono p hp h)
  have hk := zpow2_pos (K := K) k
  have e0 : (2 : K) ^ k = 2 ^ p * 2 ^ (k - p) := by
    rw [← zpow_natCast, ← zpow_add₀ two_ne_zero]; congr 1; ring
  have e1 : (2 : K) ^ (k - p - 1) = 2 ^ (k - p) / 2 := by
    rw [zpow_sub_one₀ two_ne_zero]; ring
  have e2 : (2 : K) ^ (k - p - 1) ≤ 2 ^ (k - 2) := zpow_le_zpow_right₀ one_le_two (by omega)
  have e3 : (2 : K) ^ (k - 2) = 2 ^ k / 4 := by rw [zpow_sub₀ two_ne_zero]; norm_num
  have := rne_tie (K := K) (p := p) (x := 2 ^ k - 2 ^ (k - p - 1)) (k - p) (2 ^ p) ?_ ?_ ?_ ?_
  · rw [this, e0]; push_cast; rfl
  · rw [show k - (p : ℤ) + (p - 1) = k - 1 by ring, zpow_sub_one₀ two_ne_zero]; linarith
  · rw [show k - (p : ℤ) + p = k by ring]; linarith [zpow2_pos (K := K) (k - p - 1)]
  · obtain ⟨q, rfl⟩ : ∃ q, p = q + 1 := ⟨p - 1, by omega⟩
    rw [pow_succ]; omega
  · push_cast
    rw [← e0, sub_sub_cancel_left, abs_neg, abs_of_pos (zpow2_pos _), e1]

end MathLib
