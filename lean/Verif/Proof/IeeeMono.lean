import Verif.Proof.Ieee
import Verif.Spec.IeeeValid

/-! # IEEE rounding is monotone, and sums are exact below the normal range -/

namespace MathLib
namespace Ieee

section
variable {K : Type} [Field K] [LinearOrder K] [IsStrictOrderedRing K] [FloorRing K] {p : ℕ} {emax : ℤ}

/-- rounding to a multiple of `2 ^ e` -/
def fix (e : ℤ) (x : K) : K := roundHalfEven (x / (2 : K) ^ e) * (2 : K) ^ e

theorem fix_mono (e : ℤ) : Monotone (fix e : K → K) := by
  intro x y h
  refine mul_le_mul_of_nonneg_right ?_ (zpow2_pos e).le
  exact_mod_cast rhe_mono (div_le_div_of_nonneg_right h (zpow2_pos e).le)

theorem fix_int (e m : ℤ) : fix e ((m : K) * 2 ^ e) = m * 2 ^ e := by
  rw [fix, mul_div_assoc, div_self (zpow2_pos (K := K) e).ne', mul_one, rhe_int]

theorem grid_low {x : K} (h : |x| ≤ (2 : K) ^ (1 - emax)) :
    grid p emax x = fix (1 - emax - (p - 1)) x := by
  by_cases hx : x = 0
  · have := fix_int (K := K) (1 - emax - (p - 1)) 0
    push_cast at this
    rw [zero_mul] at this
    rw [hx, grid_zero, this]
  have hl : Int.log 2 |x| ≤ 1 - emax := by
    have := Int.log_mono_right (b := 2) (abs_pos.2 hx) h
    have e := Int.log_zpow (R := K) (b := 2) (by norm_num) (1 - emax)
    push_cast at e
    rwa [e] at this
  simp only [grid, hx, if_false, max_eq_right hl, fix]

theorem grid_neg (x : K) : grid p emax (-x) = -grid p emax x := by
  unfold grid
  by_cases hx : x = 0
  · simp [hx]
  · simp only [neg_eq_zero, hx, if_false, abs_neg, neg_div, rhe_neg]
    push_cast; ring

private theorem log_lt {x : K} (h0 : 0 < x) (h : x < 2 ^ (1 - emax)) : Int.log 2 x ≤ 1 - emax := by
  have := Int.log_mono_right (b := 2) h0 h.le
  have e := Int.log_zpow (R := K) (b := 2) (by norm_num) (1 - emax)
  push_cast at e
  rwa [e] at this

theorem grid_small {x : K} (h0 : 0 ≤ x) (h : x < 2 ^ (1 - emax)) :
    grid p emax x = roundHalfEven (x / (2 : K) ^ (1 - emax - ((p : ℤ) - 1))) * (2 : K) ^ (1 - emax - ((p : ℤ) - 1)) := by
  rcases h0.eq_or_lt with rfl | h0
  · have := rhe_int (K := K) 0
    push_cast at this
    simp [grid, this]
  · simp only [grid, h0.ne', if_false, abs_of_pos h0, max_eq_right (log_lt h0 h)]

theorem grid_nonneg {x : K} (h : 0 ≤ x) : 0 ≤ grid p emax x := by
  unfold grid
  split_ifs with h0
  · exact le_rfl
  · refine mul_nonneg ?_ (zpow2_pos _).le
    have := rhe_mono (show (0 : K) ≤ x / 2 ^ (max (Int.log 2 |x|) (1 - emax) - ((p : ℤ) - 1)) from
      div_nonneg h (zpow2_pos _).le)
    have h0 := rhe_int (K := K) 0
    push_cast at h0
    rw [h0] at this
    exact_mod_cast this

theorem grid_zpow (hp : 1 ≤ p) {j : ℤ} (hj : 2 - emax - p ≤ j) : grid p emax ((2 : K) ^ j) = 2 ^ j := by
  rcases lt_or_ge ((2 : K) ^ j) (2 ^ (1 - emax)) with h | h
  · rw [grid_small (zpow2_pos j).le h]
    have e : (2 : K) ^ j / 2 ^ (1 - emax - ((p : ℤ) - 1)) = ((2 ^ (j - (1 - emax - ((p : ℤ) - 1))).toNat : ℤ) : K) := by
      push_cast
      rw [← zpow_natCast (2 : K), Int.toNat_of_nonneg (by omega), zpow_sub₀ two_ne_zero j]
    rw [e, rhe_int, ← e, div_mul_cancel₀ _ (zpow2_pos (K := K) _).ne']
  · rw [grid_eq_rne (by rwa [abs_of_pos (zpow2_pos (K := K) j)]), rne_zpow hp]

theorem grid_mono_nonneg (hp : 1 ≤ p) {x y : K} (h0 : 0 ≤ x) (h : x ≤ y) : grid p emax x ≤ grid p emax y := by
  have hx := abs_of_nonneg h0
  have hy := abs_of_nonneg (h0.trans h)
  rcases le_total y ((2 : K) ^ (1 - emax)) with h1 | h1
  · rw [grid_low (by rw [hx]; exact h.trans h1), grid_low (by rwa [hy])]
    exact fix_mono _ h
  rcases le_total x ((2 : K) ^ (1 - emax)) with h2 | h2
  · have a : grid p emax x ≤ 2 ^ (1 - emax) := by
      rw [← grid_zpow (K := K) (p := p) (emax := emax) hp (j := 1 - emax) (by omega), grid_low (by rwa [hx]),
        grid_low (by rw [abs_of_pos (zpow2_pos _)])]
      exact fix_mono _ h2
    refine a.trans ?_
    rw [grid_eq_rne (by rwa [hy]), ← rne_zpow (K := K) hp (1 - emax)]
    exact rne_mono p hp h1
  · rw [grid_eq_rne (by rwa [hx]), grid_eq_rne (by rwa [hy])]
    exact rne_mono p hp h

theorem grid_mono (hp : 1 ≤ p) : Monotone (grid p emax : K → K) := by
  intro x y h
  rcases le_total 0 x with h0 | h0
  · exact grid_mono_nonneg hp h0 h
  rcases le_total 0 y with h1 | h1
  · have a := grid_nonneg (p := p) (emax := emax) h1
    have b := grid_nonneg (p := p) (emax := emax) (neg_nonneg.2 h0)
    rw [grid_neg] at b
    linarith
  · have := grid_mono_nonneg (p := p) (emax := emax) hp (neg_nonneg.2 h1) (neg_le_neg h)
    rw [grid_neg, grid_neg] at this
    linarith

theorem abs_grid_le (hp : 1 ≤ p) {x : K} {e : ℤ} (he : 1 - emax ≤ e) (h : |x| ≤ 2 ^ e) :
    |grid p emax x| ≤ 2 ^ e := by
  rw [abs_le] at *
  refine ⟨?_, ?_⟩
  · have := grid_mono (p := p) (emax := emax) hp h.1
    rwa [grid_neg, grid_zpow hp (by omega)] at this
  · have := grid_mono (p := p) (emax := emax) hp h.2
    rwa [grid_zpow hp (by omega)] at this

theorem grid_grid (hp : 1 ≤ p) (x : K) : grid p emax (grid p emax x) = grid p emax x := by
  rcases le_total |x| ((2 : K) ^ (1 - emax)) with h | h
  · rw [grid_low (abs_grid_le hp le_rfl h), grid_low h]; exact fix_int _ _
  · rw [grid_eq_rne h, grid_eq_rne (zpow_le_rne hp h), rne_rne p hp]

/-- numbers of the format are multiples of the smallest one -/
theorem grid_multiple (hp : 1 ≤ p) (x : K) : ∃ m : ℤ, grid p emax x = m * (2 : K) ^ (1 - emax - (p - 1)) := by
  rcases le_total |x| ((2 : K) ^ (1 - emax)) with h | h
  · exact ⟨_, grid_low h⟩
  · rw [grid_eq_rne h]
    exact (rep_rne p hp x).multiple hp (1 - emax) (zpow_le_rne hp h)

theorem grid_add_rel (hp : 1 ≤ p) {v w : K} (hv : OnFormat p emax v) (hw : OnFormat p emax w) :
    |(v + w) - grid p emax (v + w)| ≤ |v + w| * (2 : K) ^ (-(p : ℤ)) := by
  rcases le_total |v + w| ((2 : K) ^ (1 - emax)) with h | h
  · obtain ⟨m, hm⟩ := grid_multiple (p := p) (emax := emax) hp v
    obtain ⟨n, hn⟩ := grid_multiple (p := p) (emax := emax) hp w
    rw [hv] at hm
    rw [hw] at hn
    have : v + w = ((m + n : ℤ) : K) * 2 ^ (1 - emax - (p - 1)) := by rw [hm, hn]; push_cast; ring
    rw [grid_low h]
    rw [this, fix_int, sub_self, abs_zero]
    exact mul_nonneg (abs_nonneg _) (zpow2_pos _).le
  · rw [grid_eq_rne h]; exact rne_rel p _

omit [IsStrictOrderedRing K] in
/-- the exact value of a rounded result, when it is finite -/
theorem round_cases (x : K) (s : Bool) :
    (∃ t, (Ieee.round x s : Ieee K p emax) = inf t ∧ (2 : K) ^ (emax + 1) ≤ |grid p emax x| ∧ t = decide (x < 0)) ∨
    ((Ieee.round x s : Ieee K p emax).fin? = some (grid p emax x) ∧ |grid p emax x| < 2 ^ (emax + 1)) := by
  unfold Ieee.round
  simp only
  split_ifs with h1 h2 h3
  · exact Or.inl ⟨_, rfl, h1, rfl⟩
  · exact Or.inr ⟨by rw [h2]; rfl, not_le.1 h1⟩
  · exact Or.inr ⟨by rw [h2]; rfl, not_le.1 h1⟩
  · exact Or.inr ⟨rfl, not_le.1 h1⟩

/-- adding finite values -/
theorem add_cases {a b : Ieee K p emax} {x y : K} (ha : a.fin? = some x) (hb : b.fin? = some y) :
    (∃ t, a + b = inf t ∧ (2 : K) ^ (emax + 1) ≤ |grid p emax (x + y)| ∧ t = decide (x + y < 0)) ∨
    ((a + b).fin? = some (grid p emax (x + y)) ∧ |grid p emax (x + y)| < 2 ^ (emax + 1)) := by
  change (∃ t, add a b = inf t ∧ _) ∨ ((add a b).fin? = _ ∧ _)
  rcases fin?_cases ha with ⟨s, rfl, rfl⟩ | rfl <;> rcases fin?_cases hb with ⟨t, rfl, rfl⟩ | rfl
  · right; rw [add_zero, grid_zero]; exact ⟨rfl, by rw [abs_zero]; exact zpow2_pos _⟩
  · rw [zero_add]; exact round_cases y false
  · rw [add_zero]; exact round_cases x false
  · exact round_cases (x + y) false

theorem sub_cases {a b : Ieee K p emax} {x y : K} (ha : a.fin? = some x) (hb : b.fin? = some y) :
    (∃ t, a - b = inf t ∧ (2 : K) ^ (emax + 1) ≤ |grid p emax (x - y)| ∧ t = decide (x - y < 0)) ∨
    ((a - b).fin? = some (grid p emax (x - y)) ∧ |grid p emax (x - y)| < 2 ^ (emax + 1)) := by
  have := add_cases ha (fin?_neg hb)
  rwa [← sub_eq_add_neg] at this

theorem valid_round (hp : 1 ≤ p) (x : K) (s : Bool) : (round x s : Ieee K p emax).Valid := by
  simp only [round]
  split_ifs with h1 h2 h3
  · trivial
  · trivial
  · trivial
  · exact ⟨h2, grid_grid hp x, not_le.1 h1⟩

theorem Valid.fin {a : Ieee K p emax} {v : K} (h : a.Valid) (ha : a.fin? = some v) :
    OnFormat p emax v ∧ |v| < 2 ^ (emax + 1) := by
  rcases fin?_cases ha with ⟨s, rfl, rfl⟩ | rfl
  · exact ⟨grid_zero, by rw [abs_zero]; exact zpow2_pos _⟩
  · exact h.2

/-- Comparing with a rounded number, overflow included. -/
theorem le_round {c : Ieee K p emax} {t : K} (hc : c.fin? = some t) (ht : |t| < 2 ^ (emax + 1))
    (x : K) (s : Bool) : c ≤ round x s ↔ t ≤ grid p emax x := by
  simp only [round]
  rw [abs_lt] at ht
  split_ifs with h1 h2 h3
  · rcases lt_or_ge x 0 with hx | hx
    · have h3 := grid_nonneg (p := p) (emax := emax) (neg_nonneg.2 hx.le)
      rw [grid_neg] at h3
      rw [abs_of_nonpos (by linarith)] at h1
      have : ¬ t ≤ grid p emax x := by linarith
      simp only [hx, decide_true, this, iff_false]
      change ¬ leB _ _ = true
      rcases fin?_cases hc with ⟨s, rfl, rfl⟩ | rfl <;> simp [leB]
    · have h3 := grid_nonneg (p := p) (emax := emax) hx
      rw [abs_of_nonneg h3] at h1
      have : t ≤ grid p emax x := by linarith
      simp only [not_lt.2 hx, decide_false, this, iff_true]
      change leB _ _ = true
      rcases fin?_cases hc with ⟨s, rfl, rfl⟩ | rfl <;> simp [leB]
  · rw [h2]; exact le_fin hc rfl
  · rw [h2]; exact le_fin hc rfl
  · exact le_fin hc rfl

/-- the exact sum of two finite numbers, rounded -/
theorem le_add {a b c : Ieee K p emax} {v w t : K} (ha : a.fin? = some v) (hb : b.fin? = some w)
    (hc : c.fin? = some t) (ht : |t| < 2 ^ (emax + 1)) : c ≤ a + b ↔ t ≤ grid p emax (v + w) := by
  change c ≤ add a b ↔ _
  rcases fin?_cases ha with ⟨s, rfl, rfl⟩ | rfl <;> rcases fin?_cases hb with ⟨s', rfl, rfl⟩ | rfl
  · rw [add_zero, grid_zero]; exact le_fin hc rfl
  · rw [zero_add]; exact le_round hc ht _ _
  · rw [add_zero]; exact le_round hc ht _ _
  · exact le_round hc ht _ _

omit [LinearOrder K] [IsStrictOrderedRing K] [FloorRing K] in
theorem fin?_widen {p' : ℕ} {emax' : ℤ} (a : Ieee K p emax) :
    (widen a : Ieee K p' emax').fin? = a.fin? := by cases a <;> rfl

theorem onFormat_rep (hp : 1 ≤ p) {v : K} (h : OnFormat p emax v) : Rep p v := by
  rcases le_total |v| ((2 : K) ^ (1 - emax)) with h1 | h1
  · obtain ⟨m, hm⟩ := grid_multiple (p := p) (emax := emax) hp v
    rw [h] at hm
    refine Rep.of_multiple m _ hm (h1.trans ?_)
    exact zpow_le_zpow_right₀ one_le_two (by omega)
  · rw [OnFormat, grid_eq_rne h1] at h
    exact (rep_iff hp v).2 h

/-- a format with more bits and a range at least as large, subnormal numbers included, has all the values -/
theorem onFormat_wider {p' : ℕ} {emax' : ℤ} (hp : 1 ≤ p) (hpp : p ≤ p') (he : emax + p ≤ emax' + 1) {v : K}
    (h : OnFormat p emax v) : OnFormat p' emax' v := by
  by_cases h0 : v = 0
  · rw [h0]; exact grid_zero
  have hr : Rep p' v := by
    obtain ⟨m, e, hm, hv⟩ := onFormat_rep hp h
    exact ⟨m, e, hm.trans (pow_le_pow_right₀ (by norm_num) hpp), hv⟩
  obtain ⟨m, hm⟩ := grid_multiple (p := p) (emax := emax) hp v
  rw [h] at hm
  have hm0 : m ≠ 0 := fun h => h0 (by rw [hm, h]; simp)
  have h1 : (2 : K) ^ (1 - emax') ≤ |v| := by
    rw [hm, abs_mul, abs_of_pos (zpow2_pos (K := K) _)]
    have : (1 : K) ≤ |(m : K)| := by exact_mod_cast Int.one_le_abs hm0
    calc (2 : K) ^ (1 - emax') ≤ 2 ^ (1 - emax - ((p : ℤ) - 1)) :=
          zpow_le_zpow_right₀ one_le_two (by omega)
      _ ≤ _ := le_mul_of_one_le_left (zpow2_pos _).le this
  rw [OnFormat, grid_eq_rne h1]
  exact rne_of_rep (hp.trans hpp) hr

theorem valid_widen {p' : ℕ} {emax' : ℤ} (hp : 1 ≤ p) (hpp : p ≤ p') (he : emax + p ≤ emax' + 1)
    {a : Ieee K p emax} (h : a.Valid) : (widen a : Ieee K p' emax').Valid := by
  cases a with
  | num v =>
    refine ⟨h.1, onFormat_wider hp hpp he h.2.1, h.2.2.trans_le ?_⟩
    exact zpow_le_zpow_right₀ one_le_two (by omega)
  | _ => trivial

end
end Ieee
end MathLib
