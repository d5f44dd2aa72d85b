import Verif.Proof.IeeeMono
import Verif.Spec.RoundSpec

/-! # Squares, sums of squares and lengths in an IEEE format -/

namespace MathLib
open Ieee

variable {p : ℕ} {emax k : ℤ}

namespace Ieee

theorem bet_of {a : Ieee ℝ p emax} {x : ℝ} (h : a.fin? = some x) (hx : Moderate k x) :
    Bet (-k) k a (.num x) := ⟨x, h, rfl, hx⟩

theorem len3 (hp : 1 ≤ p) (hk0 : 0 ≤ k) (hk : 2 * k + 2 ≤ emax) (v : Vec3 (Ieee ℝ p emax)) (r : Vec3 ℝ)
    (hv : v.Is r) (hx : Moderate k r.x) (hy : Moderate k r.y) (hz : Moderate k r.z) :
    BetNN (-k) (k + 1) v.length (Vec3.num r : Vec3 (Fl ℝ (rne p))).length := by
  obtain ⟨vx, vy, vz⟩ := hv
  have sx := Bet.sq hp (bet_of vx hx) (by omega) (by omega)
  have sy := Bet.sq hp (bet_of vy hy) (by omega) (by omega)
  have sz := Bet.sq hp (bet_of vz hz) (by omega) (by omega)
  have s1 := BetNN.add hp sx sy (by omega) (by omega)
  have s2 := BetNN.add hp s1 (sz.mono le_rfl (by omega)) (by omega) (by omega)
  exact BetNN.sqrt hp (s2.mono le_rfl (by omega : k + k + 1 + 1 ≤ (k + 1) + (k + 1))) (by omega) (by omega)

theorem len2 (hp : 1 ≤ p) (hk0 : 0 ≤ k) (hk : 2 * k + 2 ≤ emax) (v : Vec2 (Ieee ℝ p emax)) (r : Vec2 ℝ)
    (hv : v.Is r) (hx : Moderate k r.x) (hy : Moderate k r.y) :
    BetNN (-k) (k + 1) v.length (Vec2.num r : Vec2 (Fl ℝ (rne p))).length := by
  obtain ⟨vx, vy⟩ := hv
  have sx := Bet.sq hp (bet_of vx hx) (by omega) (by omega)
  have sy := Bet.sq hp (bet_of vy hy) (by omega) (by omega)
  have s1 := BetNN.add hp sx sy (by omega) (by omega)
  exact BetNN.sqrt hp (s1.mono le_rfl (by omega : k + k + 1 ≤ (k + 1) + (k + 1))) (by omega) (by omega)

theorem pos_of_ne {l h : ℤ} {a : Ieee ℝ p emax} {b : Fl ℝ (rne p)} (H : BetNN l h a b)
    (hb : (b == 0) = false) : BetPos l h a b := by
  obtain ⟨v, h1, rfl, h3⟩ := H
  refine ⟨v, h1, rfl, h3.resolve_left fun h => ?_⟩
  rw [h, Fl.zero_def, Fl.num_beq] at hb
  simp at hb

theorem one_bet : BetPos 0 0 (1 : Ieee ℝ p emax) 1 := ⟨1, rfl, rfl, by simp⟩

theorem fin_of {l h : ℤ} {a : Ieee ℝ p emax} {x : ℝ} (H : Bet l h a (.num x)) : a.fin? = some x := by
  obtain ⟨v, h1, h2, -⟩ := H
  rw [h1]; congr 1; simpa using h2.symm

theorem sq_big {a : Ieee ℝ p emax} {x : ℝ} (hp : 1 ≤ p) (he : 0 ≤ emax) (ha : a.fin? = some x) {j : ℤ}
    (hj : emax + 1 ≤ 2 * j) (h : (2 : ℝ) ^ j ≤ |x|) : a * a = inf false := by
  have hx : x ≠ 0 := fun h0 => by
    rw [h0, abs_zero] at h; exact absurd (zpow2_pos (K := ℝ) j) (not_lt.2 h)
  rcases fin?_cases ha with ⟨s, rfl, h0⟩ | rfl
  · exact absurd h0 hx
  change Ieee.round (x * x) false = _
  rw [round_big hp he ?_, decide_eq_false (not_lt.2 (mul_self_nonneg x))]
  rw [abs_mul_self, ← abs_mul_abs_self]
  calc (2 : ℝ) ^ (emax + 1) ≤ 2 ^ (j + j) := zpow_le_zpow_right₀ one_le_two (by omega)
    _ = 2 ^ j * 2 ^ j := zpow_add₀ two_ne_zero _ _
    _ ≤ |x| * |x| := mul_le_mul h h (zpow2_pos _).le (abs_nonneg _)

/-- not NaN and not negative -/
def NN (a : Ieee ℝ p emax) : Prop := a = inf false ∨ ∃ x, a.fin? = some x ∧ 0 ≤ x

theorem round_nn {x : ℝ} (h : 0 ≤ x) (s : Bool) : NN (Ieee.round x s : Ieee ℝ p emax) := by
  unfold Ieee.round
  have hg := grid_nonneg (p := p) (emax := emax) h
  simp only [decide_eq_false (not_lt.2 h)]
  split_ifs with h1 h2
  · exact Or.inl rfl
  · exact Or.inr ⟨0, rfl, le_rfl⟩
  · exact Or.inr ⟨0, rfl, le_rfl⟩
  · exact Or.inr ⟨_, rfl, hg⟩

theorem sq_nn {a : Ieee ℝ p emax} {x : ℝ} (ha : a.fin? = some x) : NN (a * a) := by
  rcases fin?_cases ha with ⟨s, rfl, h0⟩ | rfl
  · right; exact ⟨0, rfl, le_rfl⟩
  · exact round_nn (mul_self_nonneg x) _

theorem add_nn {a b : Ieee ℝ p emax} (ha : NN a) (hb : NN b) : NN (a + b) := by
  change NN (add a b)
  rcases ha with rfl | ⟨x, hx, hx0⟩ <;> rcases hb with rfl | ⟨y, hy, hy0⟩
  · left; rfl
  · left; rcases fin?_cases hy with ⟨s, rfl, -⟩ | rfl <;> rfl
  · left; rcases fin?_cases hx with ⟨s, rfl, -⟩ | rfl <;> rfl
  · rcases fin?_cases hx with ⟨s, rfl, -⟩ | rfl <;> rcases fin?_cases hy with ⟨t, rfl, -⟩ | rfl
    · right; exact ⟨0, rfl, le_rfl⟩
    · exact round_nn hy0 _
    · exact round_nn hx0 _
    · exact round_nn (add_nonneg hx0 hy0) _

theorem inf_add {b : Ieee ℝ p emax} (hb : NN b) : inf false + b = inf false := by
  change add (inf false) b = _
  rcases hb with rfl | ⟨y, hy, -⟩
  · rfl
  · rcases fin?_cases hy with ⟨s, rfl, -⟩ | rfl <;> rfl

theorem add_inf {b : Ieee ℝ p emax} (hb : NN b) : b + inf false = inf false := by
  change add b (inf false) = _
  rcases hb with rfl | ⟨y, hy, -⟩
  · rfl
  · rcases fin?_cases hy with ⟨s, rfl, -⟩ | rfl <;> rfl

theorem mul_one_div_inf {a : Ieee ℝ p emax} {x : ℝ} (ha : a.fin? = some x) :
    (a * ((1 : Ieee ℝ p emax) / inf false)).fin? = some 0 := by
  have : (1 : Ieee ℝ p emax) / inf false = zero false := by
    change div (num 1) (inf false) = _
    have : ¬ (1 : ℝ) < 0 := by norm_num
    simp [div, sign, this]
  rw [this]
  change (mul a (zero false)).fin? = _
  rcases fin?_cases ha with ⟨s, rfl, -⟩ | rfl <;> rfl

theorem sq_tiny {a : Ieee ℝ p emax} {x : ℝ} (hp : 1 ≤ p) (ha : a.fin? = some x) {j : ℤ}
    (hj : 2 * j ≤ 1 - emax - p) (h : |x| < (2 : ℝ) ^ j) : a * a = zero false := by
  rcases fin?_cases ha with ⟨s, rfl, h0⟩ | rfl
  · change mul (zero s) (zero s) = _
    simp [mul, sign]
  change Ieee.round (x * x) false = _
  by_cases hx : x = 0
  · subst hx
    simp [Ieee.round, grid_zero, not_le.2 (zpow2_pos (K := ℝ) (emax + 1))]
  rw [round_tiny (mul_ne_zero hx hx) ?_ hp, decide_eq_false (not_lt.2 (mul_self_nonneg x))]
  rw [abs_mul_self, ← abs_mul_abs_self]
  calc |x| * |x| < 2 ^ j * 2 ^ j := mul_lt_mul'' h h (abs_nonneg _) (abs_nonneg _)
    _ = 2 ^ (j + j) := (zpow_add₀ two_ne_zero _ _).symm
    _ ≤ _ := zpow_le_zpow_right₀ one_le_two (by omega)

/-! ## Monotonicity of rounding, with underflow -/

theorem grid_small_le (hp : 1 ≤ p) {x : ℝ} (h0 : 0 ≤ x) (h : x < 2 ^ (1 - emax)) {j : ℤ} (hj : 2 - emax - p ≤ j)
    (hx : x ≤ 2 ^ j) : grid p emax x ≤ 2 ^ j := by
  rw [grid_small h0 h]
  have e : (2 : ℝ) ^ j / 2 ^ (1 - emax - ((p : ℤ) - 1)) = ((2 ^ (j - (1 - emax - ((p : ℤ) - 1))).toNat : ℤ) : ℝ) := by
    push_cast
    rw [← zpow_natCast (2 : ℝ), Int.toNat_of_nonneg (by omega), zpow_sub₀ two_ne_zero j]
  have h1 := rhe_mono (div_le_div_of_nonneg_right hx (zpow2_pos (K := ℝ) (1 - emax - ((p : ℤ) - 1))).le)
  rw [e, rhe_int] at h1
  have h2 : (roundHalfEven (x / (2 : ℝ) ^ (1 - emax - ((p : ℤ) - 1))) : ℝ) ≤
      (2 : ℝ) ^ j / 2 ^ (1 - emax - ((p : ℤ) - 1)) := by
    rw [e]; exact_mod_cast h1
  rwa [le_div_iff₀ (zpow2_pos _)] at h2

theorem abs_grid (x : ℝ) : |grid p emax x| = grid p emax |x| := by
  rcases le_total 0 x with h | h
  · rw [abs_of_nonneg h, abs_of_nonneg (grid_nonneg h)]
  · have := grid_nonneg (p := p) (emax := emax) (neg_nonneg.2 h)
    rw [abs_of_nonpos h]
    rw [grid_neg] at this ⊢
    exact abs_of_nonpos (by linarith)

theorem inf_sq (t : Bool) : (inf t : Ieee ℝ p emax) * inf t = inf false := by
  change mul (inf t) (inf t) = _
  cases t <;> rfl

/-- The square of a large difference is infinite. -/
theorem sq_sub_big (hp : 1 ≤ p) (he : 0 ≤ emax) {a b : Ieee ℝ p emax} {x y : ℝ} (ha : a.fin? = some x)
    (hb : b.fin? = some y) {j : ℤ} (hj : emax + 1 ≤ 2 * j) (h : (2 : ℝ) ^ j ≤ |x - y|) :
    (a - b) * (a - b) = inf false := by
  rcases sub_cases ha hb with ⟨t, h1, -⟩ | ⟨h1, -⟩
  · rw [h1, inf_sq]
  · refine sq_big hp he h1 hj ?_
    rw [abs_grid, ← grid_zpow (p := p) (emax := emax) hp (j := j) (by omega)]
    exact grid_mono hp h

/-- The square of a tiny difference is zero. -/
theorem sq_sub_tiny (hp : 1 ≤ p) {a b : Ieee ℝ p emax} {x y : ℝ} (ha : a.fin? = some x)
    (hb : b.fin? = some y) {j : ℤ} (hj0 : 2 - emax - p ≤ j) (hj1 : j < emax + 1) (hj : 2 * j + 2 ≤ 1 - emax - p)
    (h : |x - y| ≤ 2 ^ j) : (a - b) * (a - b) = zero false := by
  have hg : |grid p emax (x - y)| ≤ 2 ^ j := by
    rw [abs_grid, ← grid_zpow (p := p) (emax := emax) hp hj0]
    exact grid_mono hp h
  rcases sub_cases ha hb with ⟨t, -, h2, -⟩ | ⟨h1, -⟩
  · exact absurd (h2.trans hg) (not_le.2 (zpow_lt_zpow_right₀ one_lt_two hj1))
  · exact sq_tiny hp h1 (j := j + 1) (by omega) (hg.trans_lt (zpow_lt_zpow_right₀ one_lt_two (by omega)))

theorem sq_sub_nn {a b : Ieee ℝ p emax} {x y : ℝ} (ha : a.fin? = some x) (hb : b.fin? = some y) :
    NN ((a - b) * (a - b)) := by
  rcases sub_cases ha hb with ⟨t, h1, -⟩ | ⟨h1, -⟩
  · rw [h1, inf_sq]; exact Or.inl rfl
  · exact sq_nn h1

/-- The square of a large sum is infinite. -/
theorem sq_add_big (hp : 1 ≤ p) (he : 0 ≤ emax) {a b : Ieee ℝ p emax} {x y : ℝ} (ha : a.fin? = some x)
    (hb : b.fin? = some y) {j : ℤ} (hj : emax + 1 ≤ 2 * j) (h : (2 : ℝ) ^ j ≤ |x + y|) :
    (a + b) * (a + b) = inf false := by
  rcases add_cases ha hb with ⟨t, h1, -⟩ | ⟨h1, -⟩
  · rw [h1, inf_sq]
  · refine sq_big hp he h1 hj ?_
    rw [abs_grid, ← grid_zpow (p := p) (emax := emax) hp (j := j) (by omega)]
    exact grid_mono hp h

theorem sq_add_nn {a b : Ieee ℝ p emax} {x y : ℝ} (ha : a.fin? = some x) (hb : b.fin? = some y) :
    NN ((a + b) * (a + b)) := by
  rcases add_cases ha hb with ⟨t, h1, -⟩ | ⟨h1, -⟩
  · rw [h1, inf_sq]; exact Or.inl rfl
  · exact sq_nn h1

end Ieee
end MathLib
