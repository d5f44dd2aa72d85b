import Verif.Spec.Float
import Mathlib.Tactic.Linarith
import Mathlib.Tactic.Ring
import Mathlib.Tactic.Positivity
import Mathlib.Tactic.FieldSimp
import Mathlib.Tactic.LinearCombination

/-! # Facts about rounding to `p` bits, ties to even -/

set_option linter.unusedSectionVars false

namespace MathLib

variable {K : Type} [Field K] [LinearOrder K] [IsStrictOrderedRing K] [FloorRing K]

/-! ## Rounding to an integer -/

theorem rhe_le (x : K) : roundHalfEven x ≤ ⌊x⌋ + 1 := by
  unfold roundHalfEven; simp only; split_ifs <;> omega

theorem rhe_ge (x : K) : ⌊x⌋ ≤ roundHalfEven x := by
  unfold roundHalfEven; simp only; split_ifs <;> omega

theorem rhe_int (n : ℤ) : roundHalfEven (n : K) = n := by
  unfold roundHalfEven
  simp

theorem rhe_err (x : K) : |x - roundHalfEven x| ≤ 1 / 2 := by
  have h0 := Int.floor_le x
  have h1 := Int.lt_floor_add_one x
  unfold roundHalfEven
  simp only
  rw [abs_le]
  split_ifs with a b c <;> push_cast <;> constructor <;> linarith

theorem rhe_mono : Monotone (roundHalfEven : K → ℤ) := by
  intro x y h
  rcases (Int.floor_le_floor h).lt_or_eq with h1 | h1
  · exact (rhe_le x).trans (le_trans (by omega) (rhe_ge y))
  · unfold roundHalfEven
    simp only [h1]
    split_ifs <;> first | omega | (exfalso; linarith)

theorem rhe_eq_of_lt (x : K) (n : ℤ) (h : |x - n| < 1 / 2) : roundHalfEven x = n := by
  have h1 := rhe_err x
  have h2 : |((roundHalfEven x - n : ℤ) : K)| < 1 := by
    push_cast
    rw [abs_lt] at h ⊢
    rw [abs_le] at h1
    constructor <;> linarith [h.1, h.2, h1.1, h1.2]
  have h3 : |roundHalfEven x - n| < 1 := by exact_mod_cast h2
  have := Int.abs_lt_one_iff.1 h3
  omega

theorem rhe_neg (x : K) : roundHalfEven (-x) = -roundHalfEven x := by
  have h0 := Int.floor_le x
  have h1 := Int.lt_floor_add_one x
  by_cases ht : x - ⌊x⌋ = 1 / 2
  · have hf : ⌊-x⌋ = -⌊x⌋ - 1 := by
      rw [Int.floor_eq_iff]; push_cast; constructor <;> linarith
    have e1 : ¬ (x - ⌊x⌋ < 1 / 2) := by rw [ht]; exact lt_irrefl _
    have e2 : ¬ (1 / 2 < x - (⌊x⌋ : K)) := by rw [ht]; exact lt_irrefl _
    have e3 : -x - (-(⌊x⌋ : K) - 1) = 1 / 2 := by linarith
    unfold roundHalfEven
    simp only [hf, gt_iff_lt, if_neg e1, if_neg e2]
    push_cast
    rw [e3]
    simp only [lt_irrefl, if_false]
    split_ifs <;> omega
  · have : |x - roundHalfEven x| < 1 / 2 := by
      refine lt_of_le_of_ne (rhe_err x) ?_
      intro h
      apply ht
      rcases (by have := rhe_le x; have := rhe_ge x; omega :
        roundHalfEven x = ⌊x⌋ ∨ roundHalfEven x = ⌊x⌋ + 1) with e | e
      · rw [e, abs_of_nonneg (by linarith)] at h; exact h
      · rw [e] at h; push_cast at h
        rw [abs_of_neg (by linarith)] at h; linarith
    apply rhe_eq_of_lt
    push_cast
    rw [show -x - -(roundHalfEven x : K) = -(x - roundHalfEven x) by ring, abs_neg]
    exact this

/-- An integer below an even integer `n` rounds to `n` from `n - 1/2` on. -/
theorem rhe_eq_even_iff (x : K) (n : ℤ) (hn : n % 2 = 0) (hx : x ≤ n) :
    roundHalfEven x = n ↔ (n : K) - 1 / 2 ≤ x := by
  constructor
  · intro h
    have := rhe_err x
    rw [h, abs_le] at this
    linarith [this.1]
  · intro h
    rcases h.eq_or_lt with h | h
    · have hf : ⌊x⌋ = n - 1 := by rw [Int.floor_eq_iff]; push_cast; constructor <;> linarith
      have e3 : x - ((n : K) - 1) = 1 / 2 := by linarith
      unfold roundHalfEven
      simp only [hf, gt_iff_lt]
      push_cast
      rw [e3]
      simp only [lt_irrefl, if_false]
      split_ifs <;> omega
    · apply rhe_eq_of_lt
      rw [abs_lt]; constructor <;> linarith

/-! ## Rounding to `p` bits -/

theorem rne_zero (p : ℕ) : rne p (0 : K) = 0 := by simp [rne]

theorem rne_neg (p : ℕ) (x : K) : rne p (-x) = -rne p x := by
  unfold rne
  by_cases h : x = 0
  · simp [h]
  · rw [if_neg (by simpa using h), if_neg h]
    simp only [abs_neg, neg_div, rhe_neg]
    push_cast
    ring

/-- exponent of the leading bit -/
theorem log_bounds (x : K) (hx : 0 < x) :
    (2 : K) ^ Int.log 2 x ≤ x ∧ x < (2 : K) ^ (Int.log 2 x + 1) := by
  constructor
  · simpa using Int.zpow_log_le_self (b := 2) one_lt_two hx
  · simpa using Int.lt_zpow_succ_log_self (b := 2) one_lt_two x

theorem rne_pos_eq (p : ℕ) (x : K) (hx : 0 < x) :
    rne p x = roundHalfEven (x / (2 : K) ^ (Int.log 2 x - (p - 1))) *
      (2 : K) ^ (Int.log 2 x - (p - 1)) := by
  unfold rne
  rw [if_neg hx.ne']
  simp only [abs_of_pos hx]

theorem zpow2_pos (e : ℤ) : (0 : K) < (2 : K) ^ e := zpow_pos two_pos e

/-- scaled significand is in `[2^(p-1), 2^p)` -/
theorem scaled_bounds (p : ℕ) (hp : 1 ≤ p) (x : K) (hx : 0 < x) :
    ((2 ^ (p - 1) : ℤ) : K) ≤ x / (2 : K) ^ (Int.log 2 x - (p - 1)) ∧
    x / (2 : K) ^ (Int.log 2 x - (p - 1)) < ((2 ^ p : ℤ) : K) := by
  obtain ⟨h0, h1⟩ := log_bounds x hx
  set k := Int.log 2 x
  have e0 : ((2 ^ (p - 1) : ℤ) : K) * (2 : K) ^ (k - (p - 1)) = (2 : K) ^ k := by
    push_cast
    rw [← zpow_natCast, ← zpow_add₀ two_ne_zero]
    congr 1
    push_cast [Nat.cast_sub hp]
    ring
  have e1 : ((2 ^ p : ℤ) : K) * (2 : K) ^ (k - (p - 1)) = (2 : K) ^ (k + 1) := by
    push_cast
    rw [← zpow_natCast, ← zpow_add₀ two_ne_zero]
    congr 1
    ring
  rw [le_div_iff₀ (zpow2_pos _), div_lt_iff₀ (zpow2_pos _), e0, e1]
  exact ⟨h0, h1⟩

theorem rne_pos_bounds (p : ℕ) (hp : 1 ≤ p) (x : K) (hx : 0 < x) :
    (2 : K) ^ Int.log 2 x ≤ rne p x ∧ rne p x ≤ (2 : K) ^ (Int.log 2 x + 1) := by
  obtain ⟨h0, h1⟩ := scaled_bounds p hp x hx
  rw [rne_pos_eq p x hx]
  have g0 := rhe_mono h0
  have g1 := rhe_mono h1.le
  rw [rhe_int] at g0 g1
  set k := Int.log 2 x
  have e0 : ((2 ^ (p - 1) : ℤ) : K) * (2 : K) ^ (k - (p - 1)) = (2 : K) ^ k := by
    push_cast
    rw [← zpow_natCast, ← zpow_add₀ two_ne_zero]
    congr 1
    push_cast [Nat.cast_sub hp]
    ring
  have e1 : ((2 ^ p : ℤ) : K) * (2 : K) ^ (k - (p - 1)) = (2 : K) ^ (k + 1) := by
    push_cast
    rw [← zpow_natCast, ← zpow_add₀ two_ne_zero]
    congr 1
    ring
  rw [← e0, ← e1]
  exact ⟨mul_le_mul_of_nonneg_right (by exact_mod_cast g0) (zpow2_pos _).le,
    mul_le_mul_of_nonneg_right (by exact_mod_cast g1) (zpow2_pos _).le⟩

theorem rne_pos (p : ℕ) (hp : 1 ≤ p) (x : K) (hx : 0 < x) : 0 < rne p x :=
  (zpow2_pos _).trans_le (rne_pos_bounds p hp x hx).1

theorem rne_mono_pos (p : ℕ) (hp : 1 ≤ p) (x y : K) (hx : 0 < x) (hxy : x ≤ y) :
    rne p x ≤ rne p y := by
  have hy := hx.trans_le hxy
  have hl : Int.log 2 x ≤ Int.log 2 y := Int.log_mono_right hx hxy
  rcases hl.lt_or_eq with h | h
  · refine (rne_pos_bounds p hp x hx).2.trans (le_trans ?_ (rne_pos_bounds p hp y hy).1)
    exact zpow_le_zpow_right₀ one_le_two (by omega)
  · rw [rne_pos_eq p x hx, rne_pos_eq p y hy, h]
    refine mul_le_mul_of_nonneg_right ?_ (zpow2_pos _).le
    exact_mod_cast rhe_mono (div_le_div_of_nonneg_right hxy (zpow2_pos _).le)

/-- Rounding is monotone. -/
theorem rne_mono (p : ℕ) (hp : 1 ≤ p) : Monotone (rne p : K → K) := by
  intro x y h
  rcases lt_trichotomy x 0 with hx | hx | hx
  · rcases lt_trichotomy y 0 with hy | hy | hy
    · have := rne_mono_pos p hp (-y) (-x) (by linarith) (by linarith)
      rw [rne_neg, rne_neg] at this
      linarith
    · rw [hy, rne_zero]
      have := rne_pos p hp (-x) (by linarith)
      rw [rne_neg] at this
      linarith
    · have h1 := rne_pos p hp (-x) (by linarith)
      rw [rne_neg] at h1
      have h2 := rne_pos p hp y hy
      linarith
  · rw [hx, rne_zero]
    rcases (hx ▸ h : 0 ≤ y).eq_or_lt with hy | hy
    · rw [← hy, rne_zero]
    · exact (rne_pos p hp y hy).le
  · exact rne_mono_pos p hp x y hx h

/-- A number with a significand of `p` bits. -/
def Rep (p : ℕ) (x : K) : Prop := ∃ m e : ℤ, |m| ≤ 2 ^ p ∧ x = m * (2 : K) ^ e

theorem Rep.neg {p : ℕ} {x : K} (h : Rep p x) : Rep p (-x) := by
  obtain ⟨m, e, hm, rfl⟩ := h
  exact ⟨-m, e, by rwa [abs_neg], by push_cast; ring⟩

theorem Rep.zero (p : ℕ) : Rep p (0 : K) := ⟨0, 0, by simp, by simp⟩

theorem Rep.int {p : ℕ} (n : ℤ) (h : |n| ≤ 2 ^ p) : Rep p (n : K) := ⟨n, 0, h, by simp⟩

theorem Rep.nat {p : ℕ} (n : ℕ) (h : n ≤ 2 ^ p) : Rep p (n : K) :=
  ⟨n, 0, by rw [abs_of_nonneg (Int.natCast_nonneg n)]; exact_mod_cast h, by simp⟩

theorem Rep.zpow {p : ℕ} (e : ℤ) : Rep p ((2 : K) ^ e) :=
  ⟨1, e, by simpa using one_le_pow₀ one_le_two, by simp⟩

/-- Scaling by a power of two keeps representability. -/
theorem Rep.mul_zpow {p : ℕ} {x : K} (h : Rep p x) (k : ℤ) : Rep p (x * (2 : K) ^ k) := by
  obtain ⟨m, e, hm, rfl⟩ := h
  exact ⟨m, e + k, hm, by rw [zpow_add₀ two_ne_zero]; ring⟩

/-- Results of rounding are representable. -/
theorem rep_rne (p : ℕ) (hp : 1 ≤ p) (x : K) : Rep p (rne p x) := by
  have pos : ∀ x : K, 0 < x → Rep p (rne p x) := by
    intro x hx
    obtain ⟨h0, h1⟩ := scaled_bounds p hp x hx
    have g0 := rhe_mono h0
    have g1 := rhe_mono h1.le
    rw [rhe_int] at g0 g1
    rw [rne_pos_eq p x hx]
    exact ⟨_, _, by rw [abs_of_nonneg (le_trans (by positivity) g0)]; exact g1, rfl⟩
  rcases lt_trichotomy x 0 with hx | hx | hx
  · have := (pos (-x) (by linarith)).neg
    rwa [rne_neg, neg_neg] at this
  · rw [hx, rne_zero]; exact Rep.zero p
  · exact pos x hx

/-- Representable numbers are not changed. -/
theorem rne_of_rep {p : ℕ} (hp : 1 ≤ p) {x : K} (h : Rep p x) : rne p x = x := by
  have pos : ∀ x : K, 0 < x → Rep p x → rne p x = x := by
    rintro x hx ⟨m, e, hm, hxe⟩
    obtain ⟨h0, h1⟩ := log_bounds x hx
    have hm0 : 0 < m := by
      rw [hxe] at hx
      exact_mod_cast (pos_iff_pos_of_mul_pos hx).2 (zpow2_pos e)
    rw [abs_of_pos hm0] at hm
    suffices h : ∃ n : ℤ, x = n * (2 : K) ^ (Int.log 2 x - (p - 1)) by
      obtain ⟨n, hn⟩ := h
      rw [rne_pos_eq p x hx]
      have : x / (2 : K) ^ (Int.log 2 x - (p - 1)) = n := by
        rw [div_eq_iff (zpow2_pos _).ne']; exact hn
      rw [this, rhe_int, ← hn]
    set k := Int.log 2 x
    have hle : x ≤ (2 : K) ^ ((p : ℤ) + e) := by
      rw [hxe, zpow_add₀ two_ne_zero, zpow_natCast]
      exact mul_le_mul_of_nonneg_right (by exact_mod_cast hm) (zpow2_pos e).le
    have hk : k ≤ p + e := (zpow_le_zpow_iff_right₀ one_lt_two).1 (h0.trans hle)
    rcases hk.lt_or_eq with hk | hk
    · refine ⟨m * 2 ^ (e - (k - (p - 1))).toNat, ?_⟩
      push_cast
      rw [hxe, mul_assoc, ← zpow_natCast, ← zpow_add₀ two_ne_zero]
      congr 2
      rw [Int.toNat_of_nonneg (by omega)]
      ring
    · have : x = (2 : K) ^ k := le_antisymm (hk ▸ hle) h0
      refine ⟨2 ^ (p - 1), ?_⟩
      push_cast
      rw [this, ← zpow_natCast, ← zpow_add₀ two_ne_zero]
      congr 1
      push_cast [Nat.cast_sub hp]
      ring
  rcases lt_trichotomy x 0 with hx | hx | hx
  · have := pos (-x) (by linarith) h.neg
    rw [rne_neg] at this
    linarith
  · rw [hx, rne_zero]
  · exact pos x hx h

theorem rne_rne (p : ℕ) (hp : 1 ≤ p) (x : K) : rne p (rne p x) = rne p x :=
  rne_of_rep hp (rep_rne p hp x)

/-- Representable numbers are exactly the fixed points. -/
theorem rep_iff {p : ℕ} (hp : 1 ≤ p) (x : K) : Rep p x ↔ rne p x = x :=
  ⟨rne_of_rep hp, fun h => h ▸ rep_rne p hp x⟩

/-- Half-ulp error bound. -/
theorem rne_err (p : ℕ) (x : K) (hx : x ≠ 0) :
    |x - rne p x| ≤ (2 : K) ^ (Int.log 2 |x| - p) := by
  unfold rne
  rw [if_neg hx]
  simp only
  set e := Int.log 2 |x| - ((p : ℤ) - 1) with he
  have h := rhe_err (x / (2 : K) ^ e)
  have : x - (roundHalfEven (x / (2 : K) ^ e) : K) * (2 : K) ^ e =
      (x / (2 : K) ^ e - roundHalfEven (x / (2 : K) ^ e)) * (2 : K) ^ e := by
    rw [sub_mul, div_mul_cancel₀ _ (zpow2_pos e).ne']
  rw [this, abs_mul, abs_of_pos (zpow2_pos (K := K) e)]
  refine (mul_le_mul_of_nonneg_right h (zpow2_pos e).le).trans (le_of_eq ?_)
  rw [show Int.log 2 |x| - (p : ℤ) = e - 1 by rw [he]; ring, zpow_sub_one₀ two_ne_zero]
  ring

/-- Relative error bound. -/
theorem rne_rel (p : ℕ) (x : K) : |x - rne p x| ≤ |x| * (2 : K) ^ (-(p : ℤ)) := by
  by_cases hx : x = 0
  · simp [hx, rne_zero]
  · refine (rne_err p x hx).trans ?_
    rw [sub_eq_add_neg, zpow_add₀ two_ne_zero]
    exact mul_le_mul_of_nonneg_right (log_bounds _ (abs_pos.2 hx)).1 (zpow2_pos _).le

/-- A representable number with leading bit `2^k` (or above) is a multiple of `2^(k-p+1)`. -/
theorem Rep.multiple {p : ℕ} (hp : 1 ≤ p) {x : K} (h : Rep p x) (k : ℤ) (hk : (2 : K) ^ k ≤ |x|) :
    ∃ n : ℤ, x = n * (2 : K) ^ (k - (p - 1)) := by
  have hx : x ≠ 0 := by
    rintro rfl
    rw [abs_zero] at hk
    exact absurd hk (zpow2_pos k).not_ge
  have hkl : k ≤ Int.log 2 |x| := by
    by_contra hc
    have h1 := (log_bounds _ (abs_pos.2 hx)).2
    have : (2 : K) ^ (Int.log 2 |x| + 1) ≤ (2 : K) ^ k := zpow_le_zpow_right₀ one_le_two (by omega)
    linarith
  have := rne_of_rep hp h
  unfold rne at this
  rw [if_neg hx] at this
  simp only at this
  refine ⟨roundHalfEven (x / (2 : K) ^ (Int.log 2 |x| - (p - 1))) * 2 ^ (Int.log 2 |x| - k).toNat, ?_⟩
  push_cast
  rw [mul_assoc, ← zpow_natCast, ← zpow_add₀ two_ne_zero, Int.toNat_of_nonneg (by omega)]
  rw [show Int.log 2 |x| - k + (k - ((p : ℤ) - 1)) = Int.log 2 |x| - (p - 1) by ring]
  exact this.symm

/-- The difference of two multiples of a common power of two that is not larger than a representable
number with that power is representable. -/
theorem Rep.of_multiple {p : ℕ} {x : K} (m e : ℤ) (hx : x = m * (2 : K) ^ e)
    (hb : |x| ≤ (2 : K) ^ ((p : ℤ) + e)) : Rep p x := by
  refine ⟨m, e, ?_, hx⟩
  rw [hx, abs_mul, abs_of_pos (zpow2_pos (K := K) e), zpow_add₀ two_ne_zero, zpow_natCast] at hb
  have := le_of_mul_le_mul_right hb (zpow2_pos e)
  exact_mod_cast this

end MathLib
