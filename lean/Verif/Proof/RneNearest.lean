import Verif.Proof.Rne

/-! # Rounding yields a nearest number -/

namespace MathLib
variable {K : Type} [Field K] [LinearOrder K] [IsStrictOrderedRing K] [FloorRing K]

theorem rhe_nearest (y : K) (n : ℤ) : |y - roundHalfEven y| ≤ |y - n| := by
  by_cases h : n = roundHalfEven y
  · rw [h]
  · have h1 := rhe_err y
    have h2 : (1 : K) ≤ |((n - roundHalfEven y : ℤ) : K)| := by
      have : 1 ≤ |n - roundHalfEven y| := Int.one_le_abs (sub_ne_zero.2 h)
      exact_mod_cast this
    have h3 : |((n - roundHalfEven y : ℤ) : K)| ≤ |y - n| + |y - roundHalfEven y| := by
      have := abs_sub (y - roundHalfEven y) (y - n)
      push_cast
      calc |(n : K) - roundHalfEven y| = |(y - roundHalfEven y) - (y - n)| := by congr 1; ring
        _ ≤ _ := by linarith
    linarith

theorem rne_nearest {p : ℕ} (hp : 1 ≤ p) {x w : K} (hx : 0 < x) (hw : Rep p w) : |rne p x - x| ≤ |w - x| := by
  obtain ⟨e, he⟩ : ∃ e, e = Int.log 2 x - ((p : ℤ) - 1) := ⟨_, rfl⟩
  have hr : rne p x = roundHalfEven (x / (2 : K) ^ e) * (2 : K) ^ e := by
    rw [rne, if_neg hx.ne', abs_of_pos hx, he]
  have hpos := zpow2_pos (K := K) e
  have key : ∀ n : ℤ, |rne p x - x| ≤ |(n : K) * 2 ^ e - x| := fun n => by
    have h := rhe_nearest (x / (2 : K) ^ e) n
    have s : ∀ m : ℤ, |(m : K) * 2 ^ e - x| = |x / 2 ^ e - m| * 2 ^ e := fun m => by
      rw [← abs_of_pos hpos, ← abs_mul, abs_of_pos hpos, sub_mul, div_mul_cancel₀ _ hpos.ne', abs_sub_comm]
    rw [hr, s, s]
    exact mul_le_mul_of_nonneg_right h hpos.le
  have hb := log_bounds x hx
  have hlow : (2 : K) ^ (e + (p - 1)) ≤ x := by
    have : e + ((p : ℤ) - 1) = Int.log 2 x := by omega
    rw [this]; exact hb.1
  rcases le_or_gt ((2 : K) ^ (e + (p - 1))) |w| with h | h
  · obtain ⟨m, hm⟩ := hw.multiple hp _ h
    rw [hm]
    have e' : e + ((p : ℤ) - 1) - (p - 1) = e := by omega
    rw [e']
    exact key m
  · have h1 := key (2 ^ (p - 1))
    push_cast at h1
    rw [← zpow_natCast (2 : K) (p - 1), ← zpow_add₀ two_ne_zero, Nat.cast_sub hp, Nat.cast_one, add_comm] at h1
    have h2 := (abs_lt.1 h).2
    have h3 : |(2 : K) ^ (e + ((p : ℤ) - 1)) - x| = x - 2 ^ (e + ((p : ℤ) - 1)) := by
      rw [abs_of_nonpos (by linarith), neg_sub]
    have h4 : |w - x| = x - w := by rw [abs_of_nonpos (by linarith), neg_sub]
    rw [h3] at h1
    rw [h4]
    linarith

/-- the scale is known: rounding is to the nearest multiple -/
theorem rne_eq {p : ℕ} {x : K} (e n : ℤ) (h1 : (2 : K) ^ (e + (p - 1)) ≤ x) (h2 : x < 2 ^ (e + p))
    (h : |x - n * 2 ^ e| < 2 ^ e / 2) : rne p x = n * 2 ^ e := by
  have hx : 0 < x := (zpow2_pos _).trans_le h1
  have hl : Int.log 2 x = e + (p - 1) := by
    apply le_antisymm
    · have := (Int.lt_zpow_iff_log_lt (R := K) (b := 2) (by norm_num) (x := e + p) hx).1 (by exact_mod_cast h2)
      omega
    · exact (Int.zpow_le_iff_le_log (R := K) (b := 2) (by norm_num) hx).1 (by exact_mod_cast h1)
  have hpos := zpow2_pos (K := K) e
  have e' : e + ((p : ℤ) - 1) - (p - 1) = e := by omega
  rw [rne, if_neg hx.ne', abs_of_pos hx]
  simp only [hl, e']
  rw [rhe_eq_of_lt _ n]
  have : x / 2 ^ e - n = (x - n * 2 ^ e) / 2 ^ e := by rw [sub_div, mul_div_cancel_right₀ _ hpos.ne']
  rw [this, abs_div, abs_of_pos hpos, div_lt_iff₀ hpos]
  linarith

end MathLib
