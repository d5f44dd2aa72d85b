import Verif.Props.IeeeBoxes
import Verif.Proof.IeeeMono

/-! # Property C135: the centre of a box in floating point

`center` adds the corners and halves the sum.  Both operations round, and the sum may overflow. -/

namespace MathLib
open Ieee

section
variable {K : Type} [Field K] [LinearOrder K] [IsStrictOrderedRing K] [FloorRing K] {p : ℕ} {emax : ℤ}

/-- a finite number of the format -/
def Ieee.Finite (a : Ieee K p emax) : Prop := a.Valid ∧ ∃ v, a.fin? = some v

theorem grid_double (hp : 1 ≤ p) {v : K} (h : OnFormat p emax v) : grid p emax (2 * v) = 2 * v := by
  by_cases hv : v = 0
  · rw [hv, mul_zero]; exact grid_zero
  rcases le_total ((2 : K) ^ (1 - emax)) |2 * v| with h1 | h1
  · rw [grid_eq_rne h1]
    refine rne_of_rep hp ?_
    have := onFormat_rep hp h
    obtain ⟨m, e, hm, hv⟩ := this
    refine ⟨m, e + 1, hm, ?_⟩
    rw [hv, zpow_add₀ two_ne_zero]; ring
  · rw [grid_low h1]
    obtain ⟨m, hm⟩ := grid_multiple (p := p) (emax := emax) hp v
    rw [h] at hm
    have := fix_int (K := K) (1 - emax - (p - 1)) (2 * m)
    push_cast at this
    rw [hm, ← mul_assoc]
    exact this

theorem two_eq (hp : 1 ≤ p) (he : 2 ≤ emax) : (2 : Ieee K p emax) = num 2 := by
  change Ieee.round ((2 : ℕ) : K) false = _
  have g : grid p emax (2 : K) = 2 := by
    have := grid_zpow (K := K) (p := p) (emax := emax) hp (j := 1) (by omega)
    rwa [zpow_one] at this
  have : ¬ (2 : K) ^ (emax + 1) ≤ 2 := by
    rw [not_le]
    calc (2 : K) = 2 ^ (1 : ℤ) := (zpow_one _).symm
      _ < _ := zpow_lt_zpow_right₀ one_lt_two (by omega)
  simp [Ieee.round, g, this]

theorem half_eq (hp : 1 ≤ p) (he : 2 ≤ emax) : (1 / 2 : Ieee K p emax) = num (1 / 2) := by
  rw [two_eq hp he]
  change Ieee.round (1 / 2 : K) false = _
  have g : grid p emax (1 / 2 : K) = 1 / 2 := by
    have := grid_zpow (K := K) (p := p) (emax := emax) hp (j := -1) (by omega)
    rwa [zpow_neg_one, ← one_div] at this
  have : ¬ (2 : K) ^ (emax + 1) ≤ |1 / 2| := by
    rw [not_le, abs_of_pos (by norm_num), one_div, ← zpow_neg_one]
    exact zpow_lt_zpow_right₀ one_lt_two (by omega)
  simp only [Ieee.round, g, this, if_false]
  norm_num

theorem half_cases (hp : 1 ≤ p) (he : 2 ≤ emax) {a : Ieee K p emax} {v : K} (hv : a.fin? = some v) (h : |v| < 2 ^ (emax + 1)) :
    (a * (1 / 2)).fin? = some (grid p emax (v / 2)) := by
  rw [half_eq hp he]
  change (Ieee.mul a (num (1 / 2))).fin? = _
  rcases fin?_cases hv with ⟨s, rfl, rfl⟩ | rfl
  · rw [zero_div, grid_zero]; rfl
  · change (Ieee.round (v * (1 / 2)) false).fin? = _
    rw [mul_one_div]
    rcases round_cases (p := p) (emax := emax) (v / 2) false with ⟨t, ht, -⟩ | h1
    · exfalso
      have h2 : |grid p emax (v / 2)| ≤ 2 ^ emax := by
        refine abs_grid_le hp (by omega) ?_
        rw [abs_div, abs_two, div_le_iff₀ two_pos, ← zpow_add_one₀ two_ne_zero]; exact h.le
      have h3 : ¬ (2 : K) ^ (emax + 1) ≤ |grid p emax (v / 2)| := by
        rw [not_le]; exact h2.trans_lt (zpow_lt_zpow_right₀ one_lt_two (by omega))
      simp only [Ieee.round, h3, if_false] at ht
      split_ifs at ht
    · exact h1.1

/-- the midpoint of two numbers lies between them, unless the sum overflows -/
theorem mid_iff (hp : 1 ≤ p) (he : 2 ≤ emax) {a b : Ieee K p emax} (ha : a.Finite) (hb : b.Finite) (h : a ≤ b) :
    (a ≤ (a + b) * (1 / 2) ∧ (a + b) * (1 / 2) ≤ b) ↔ ∀ t, a + b ≠ inf t := by
  obtain ⟨ha, v, hv⟩ := ha
  obtain ⟨hb, w, hw⟩ := hb
  have hvw := (le_fin hv hw).1 h
  rcases add_cases hv hw with ⟨t, ht, -⟩ | ⟨h1, h2⟩
  · rw [iff_false_right (fun h => h t ht), ht, half_eq hp he]
    change ¬ (leB a (inf (t ^^ decide ((1 / 2 : K) < 0))) = true ∧ leB (inf (t ^^ decide ((1 / 2 : K) < 0))) b = true)
    rw [decide_eq_false (by norm_num)]
    rcases fin?_cases hv with ⟨s, rfl, rfl⟩ | rfl <;> rcases fin?_cases hw with ⟨s', rfl, rfl⟩ | rfl <;> cases t <;> simp [leB]
  · have h3 := half_cases hp he h1 h2
    rw [iff_true_right (fun t ht => by rw [ht] at h1; cases h1), le_fin hv h3, le_fin h3 hw]
    have k1 : 2 * v ≤ grid p emax (v + w) := by
      rw [← grid_double hp (ha.fin hv).1]; exact grid_mono hp (by linarith)
    have k2 : grid p emax (v + w) ≤ 2 * w := by
      rw [← grid_double hp (hb.fin hw).1]; exact grid_mono hp (by linarith)
    constructor
    · calc v = grid p emax v := (ha.fin hv).1.symm
        _ ≤ _ := grid_mono hp (by linarith)
    · calc _ ≤ grid p emax w := grid_mono hp (by linarith)
        _ = w := (hb.fin hw).1

/-- The claim: a box with finite corners in order contains its centre. -/
def C135_full2 : Prop := ∀ b : AABB2 (Ieee ℚ 24 127), b.Valid →
  (b.inf.x.Finite ∧ b.sup.x.Finite ∧ b.inf.y.Finite ∧ b.sup.y.Finite) → b.contains b.center = true

/-- It contains its centre exactly if no sum of two corner coordinates overflows. -/
theorem C135_center2_partial (hp : 1 ≤ p) (he : 2 ≤ emax) (b : AABB2 (Ieee K p emax)) (h : b.Valid)
    (hf : b.inf.x.Finite ∧ b.sup.x.Finite ∧ b.inf.y.Finite ∧ b.sup.y.Finite) :
    b.contains b.center = true ↔ (∀ t, b.inf.x + b.sup.x ≠ inf t) ∧ (∀ t, b.inf.y + b.sup.y ≠ inf t) := by
  rw [AABB2.contains_iff]
  exact and_congr (mid_iff hp he hf.1 hf.2.1 h.1) (mid_iff hp he hf.2.2.1 hf.2.2.2 h.2)

theorem big_ex2 : let b : AABB2 (Ieee ℚ 24 127) := ⟨⟨num (2 ^ 127), 0⟩, ⟨num (2 ^ 127), 0⟩⟩
    b.inf.x.Finite ∧ b.sup.x.Finite ∧ b.inf.y.Finite ∧ b.sup.y.Finite := by
  have fb : (num (2 ^ 127) : Ieee ℚ 24 127).Finite := ⟨⟨by norm_num, by
    have := grid_zpow (K := ℚ) (p := 24) (emax := 127) (by norm_num) (j := 127) (by norm_num)
    exact_mod_cast this, by rw [abs_of_pos (by positivity)]; norm_num⟩, _, rfl⟩
  have fz : (0 : Ieee ℚ 24 127).Finite := ⟨trivial, _, rfl⟩
  exact ⟨fb, fb, fz, fz⟩

theorem C135_refuted2 : ¬ C135_full2 := fun h => by
  have := (C135_center2_partial (K := ℚ) (p := 24) (emax := 127) (by norm_num) (by norm_num) ⟨⟨num (2 ^ 127), 0⟩, ⟨num (2 ^ 127), 0⟩⟩
    ⟨by decide +kernel, by decide +kernel⟩ big_ex2).1 (h _ ⟨by decide +kernel, by decide +kernel⟩ big_ex2)
  refine this.1 false ?_
  change Ieee.round (2 ^ 127 + 2 ^ 127 : ℚ) false = _
  have e : (2 ^ 127 + 2 ^ 127 : ℚ) = 2 ^ (128 : ℤ) := by norm_num
  rw [e, round_big (by norm_num) (by norm_num)]
  · simp
  · rw [abs_of_pos (by positivity)]; norm_num

/-- non-vacuous, with the conclusion true: the corners are two neighbouring numbers -/
example : ∃ b : AABB2 (Ieee ℚ 24 127), b.Valid ∧ (b.inf.x.Finite ∧ b.sup.x.Finite ∧ b.inf.y.Finite ∧ b.sup.y.Finite) ∧ b.contains b.center = true ∧ b.inf.x < b.sup.x := by
  have f1 : (num 1 : Ieee ℚ 24 127).Finite := ⟨⟨by norm_num, by unfold OnFormat; decide +kernel, by rw [abs_one]; norm_num⟩, _, rfl⟩
  have f2 : (num (1 + 2 ^ (-23 : ℤ)) : Ieee ℚ 24 127).Finite := ⟨⟨by norm_num, by unfold OnFormat; decide +kernel, by norm_num⟩, _, rfl⟩
  have fz : (0 : Ieee ℚ 24 127).Finite := ⟨trivial, _, rfl⟩
  exact ⟨⟨⟨num 1, 0⟩, ⟨num (1 + 2 ^ (-23 : ℤ)), 0⟩⟩, ⟨by decide +kernel, by decide +kernel⟩, ⟨f1, f2, fz, fz⟩,
    by decide +kernel, by decide +kernel⟩

/-- The claim: a box with finite corners in order contains its centre. -/
def C135_full3 : Prop := ∀ b : AABB3 (Ieee ℚ 24 127), b.Valid →
  (b.inf.x.Finite ∧ b.sup.x.Finite ∧ b.inf.y.Finite ∧ b.sup.y.Finite ∧ b.inf.z.Finite ∧ b.sup.z.Finite) → b.contains b.center = true

/-- It contains its centre exactly if no sum of two corner coordinates overflows. -/
theorem C135_center3_partial (hp : 1 ≤ p) (he : 2 ≤ emax) (b : AABB3 (Ieee K p emax)) (h : b.Valid)
    (hf : b.inf.x.Finite ∧ b.sup.x.Finite ∧ b.inf.y.Finite ∧ b.sup.y.Finite ∧ b.inf.z.Finite ∧ b.sup.z.Finite) :
    b.contains b.center = true ↔ (∀ t, b.inf.x + b.sup.x ≠ inf t) ∧ (∀ t, b.inf.y + b.sup.y ≠ inf t) ∧ (∀ t, b.inf.z + b.sup.z ≠ inf t) := by
  rw [AABB3.contains_iff]
  exact and_congr (mid_iff hp he hf.1 hf.2.1 h.1) (and_congr (mid_iff hp he hf.2.2.1 hf.2.2.2.1 h.2.1)
    (mid_iff hp he hf.2.2.2.2.1 hf.2.2.2.2.2 h.2.2))

theorem big_ex3 : let b : AABB3 (Ieee ℚ 24 127) := ⟨⟨num (2 ^ 127), 0, 0⟩, ⟨num (2 ^ 127), 0, 0⟩⟩
    b.inf.x.Finite ∧ b.sup.x.Finite ∧ b.inf.y.Finite ∧ b.sup.y.Finite ∧ b.inf.z.Finite ∧ b.sup.z.Finite := by
  have fb : (num (2 ^ 127) : Ieee ℚ 24 127).Finite := ⟨⟨by norm_num, by
    have := grid_zpow (K := ℚ) (p := 24) (emax := 127) (by norm_num) (j := 127) (by norm_num)
    exact_mod_cast this, by rw [abs_of_pos (by positivity)]; norm_num⟩, _, rfl⟩
  have fz : (0 : Ieee ℚ 24 127).Finite := ⟨trivial, _, rfl⟩
  exact ⟨fb, fb, fz, fz, fz, fz⟩

theorem C135_refuted3 : ¬ C135_full3 := fun h => by
  have := (C135_center3_partial (K := ℚ) (p := 24) (emax := 127) (by norm_num) (by norm_num) ⟨⟨num (2 ^ 127), 0, 0⟩, ⟨num (2 ^ 127), 0, 0⟩⟩
    ⟨by decide +kernel, by decide +kernel, by decide +kernel⟩ big_ex3).1 (h _ ⟨by decide +kernel, by decide +kernel, by decide +kernel⟩ big_ex3)
  refine this.1 false ?_
  change Ieee.round (2 ^ 127 + 2 ^ 127 : ℚ) false = _
  have e : (2 ^ 127 + 2 ^ 127 : ℚ) = 2 ^ (128 : ℤ) := by norm_num
  rw [e, round_big (by norm_num) (by norm_num)]
  · simp
  · rw [abs_of_pos (by positivity)]; norm_num

/-- non-vacuous, with the conclusion true: the corners are two neighbouring numbers -/
example : ∃ b : AABB3 (Ieee ℚ 24 127), b.Valid ∧ (b.inf.x.Finite ∧ b.sup.x.Finite ∧ b.inf.y.Finite ∧ b.sup.y.Finite ∧ b.inf.z.Finite ∧ b.sup.z.Finite) ∧ b.contains b.center = true ∧ b.inf.x < b.sup.x := by
  have f1 : (num 1 : Ieee ℚ 24 127).Finite := ⟨⟨by norm_num, by unfold OnFormat; decide +kernel, by rw [abs_one]; norm_num⟩, _, rfl⟩
  have f2 : (num (1 + 2 ^ (-23 : ℤ)) : Ieee ℚ 24 127).Finite := ⟨⟨by norm_num, by unfold OnFormat; decide +kernel, by norm_num⟩, _, rfl⟩
  have fz : (0 : Ieee ℚ 24 127).Finite := ⟨trivial, _, rfl⟩
  exact ⟨⟨⟨num 1, 0, 0⟩, ⟨num (1 + 2 ^ (-23 : ℤ)), 0, 0⟩⟩, ⟨by decide +kernel, by decide +kernel, by decide +kernel⟩, ⟨f1, f2, fz, fz, fz, fz⟩,
    by decide +kernel, by decide +kernel⟩
end
end MathLib
