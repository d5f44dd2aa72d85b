import Verif.Proof.IeeeVec
import Verif.Props.RoundedInverse

/-! # Property C127: matrix inversion with overflow and underflow -/

namespace MathLib
open Ieee

variable {p : ℕ} {emax : ℤ}

/-- finite, with the given entries -/
def Mat2.Is (m : Mat2 (Ieee ℝ p emax)) (r : Matrix (Fin 2) (Fin 2) ℝ) : Prop :=
  ∀ i j, (m.toM i j).fin? = some (r i j)
def Mat3.Is (m : Mat3 (Ieee ℝ p emax)) (r : Matrix (Fin 3) (Fin 3) ℝ) : Prop :=
  ∀ i j, (m.toM i j).fin? = some (r i j)
/-- the entries are multiples of `2^g` of size at most `2^h` -/
def Matrix.OnGrid {n : ℕ} (g h : ℤ) (r : Matrix (Fin n) (Fin n) ℝ) : Prop := ∀ i j, Ieee.OnGrid g h (r i j)

/-- The property: the multiple `2^k` of the identity is inverted to `2^(-k)`, whenever both are well inside the
range of the format. -/
def C127_full (p : ℕ) (emax : ℤ) : Prop :=
  ∀ k : ℤ, 2 - emax ≤ k → k ≤ emax - 2 →
    (∃ n : Mat2 (Ieee ℝ p emax), (Mat2.ofScalar (num (2 ^ k))).inversed = .ok n ∧ n.Is ((2 : ℝ) ^ (-k) • 1)) ∧
    (∃ n : Mat3 (Ieee ℝ p emax), (Mat3.ofScalar (num (2 ^ k))).inversed = .ok n ∧ n.Is ((2 : ℝ) ^ (-k) • 1))

private theorem beq_one {a : Ieee ℝ p emax} {v : ℝ} (ha : a.fin? = some v) : (a == 1) = decide (v = 1) := by
  change eqB a (num 1) = _
  rcases fin?_cases ha with ⟨s, rfl, rfl⟩ | rfl <;> simp [eqB]

private theorem is2 {m : Mat2 (Ieee ℝ p emax)} {s : ℝ} (h00 : (m.toM 0 0).fin? = some s) (h01 : (m.toM 0 1).fin? = some 0)
    (h10 : (m.toM 1 0).fin? = some 0) (h11 : (m.toM 1 1).fin? = some s) : m.Is (s • 1) := by
  intro i j
  fin_cases i <;> fin_cases j <;> simp [h00, h01, h10, h11]

private theorem is3 {m : Mat3 (Ieee ℝ p emax)} {s : ℝ} (h00 : (m.toM 0 0).fin? = some s) (h01 : (m.toM 0 1).fin? = some 0)
    (h02 : (m.toM 0 2).fin? = some 0) (h10 : (m.toM 1 0).fin? = some 0) (h11 : (m.toM 1 1).fin? = some s)
    (h12 : (m.toM 1 2).fin? = some 0) (h20 : (m.toM 2 0).fin? = some 0) (h21 : (m.toM 2 1).fin? = some 0)
    (h22 : (m.toM 2 2).fin? = some s) : m.Is (s • 1) := by
  intro i j
  fin_cases i <;> fin_cases j <;> simp [h00, h01, h02, h10, h11, h12, h20, h21, h22]

section scalar
variable (hp : 1 ≤ p)
include hp

private theorem mul_fin_zero {a b : Ieee ℝ p emax} {x : ℝ} (ha : a.fin? = some x) (hb : b.fin? = some 0) :
    (a * b).fin? = some 0 ∧ (b * a).fin? = some 0 := by
  have h1 := agr_mul hp ha hb (Or.inl (mul_zero x))
  have h2 := agr_mul hp hb ha (Or.inl (zero_mul x))
  rw [mul_zero, rne_zero] at h1
  rw [zero_mul, rne_zero] at h2
  exact ⟨h1, h2⟩

private theorem sub_fin_zero {a b : Ieee ℝ p emax} (ha : a.fin? = some 0) (hb : b.fin? = some 0) :
    (a - b).fin? = some 0 ∧ (a + b).fin? = some 0 := by
  have h1 := agr_sub hp ha hb (Or.inl (sub_self 0))
  have h2 := agr_add hp ha hb (Or.inl (add_zero 0))
  rw [sub_self, rne_zero] at h1
  rw [add_zero, rne_zero] at h2
  exact ⟨h1, h2⟩

omit hp in
private theorem safe_pow {k : ℤ} (h1 : 1 - emax ≤ k) (h2 : k ≤ emax) : Safe emax ((2 : ℝ) ^ k) := by
  right; rw [abs_of_pos (zpow2_pos _)]
  exact ⟨zpow_le_zpow_right₀ one_le_two h1, zpow_le_zpow_right₀ one_le_two h2⟩

private theorem mul_pow {a b : Ieee ℝ p emax} {k l : ℤ} (ha : a.fin? = some (2 ^ k)) (hb : b.fin? = some (2 ^ l))
    (h1 : 1 - emax ≤ k + l) (h2 : k + l ≤ emax) : (a * b).fin? = some (2 ^ (k + l)) := by
  have := agr_mul hp ha hb (by rw [← zpow_add₀ two_ne_zero]; exact safe_pow h1 h2)
  rwa [← zpow_add₀ two_ne_zero, rne_zpow hp] at this

private theorem div_pow {a b : Ieee ℝ p emax} {k l : ℤ} (ha : a.fin? = some (2 ^ k)) (hb : b.fin? = some (2 ^ l))
    (h1 : 1 - emax ≤ k - l) (h2 : k - l ≤ emax) : (a / b).fin? = some (2 ^ (k - l)) := by
  have := agr_div hp ha hb (zpow2_pos (K := ℝ) l).ne' (by rw [← zpow_sub₀ two_ne_zero]; exact safe_pow h1 h2)
  rwa [← zpow_sub₀ two_ne_zero, rne_zpow hp] at this

private theorem div_zero_num {a b : Ieee ℝ p emax} {x : ℝ} (ha : a.fin? = some 0) (hb : b.fin? = some x) (hx : x ≠ 0) :
    (a / b).fin? = some 0 := by
  have := agr_div hp ha hb hx (Or.inl (zero_div x))
  rwa [zero_div, rne_zero] at this

private theorem pow_sub_zero {a b : Ieee ℝ p emax} {k : ℤ} (ha : a.fin? = some (2 ^ k)) (hb : b.fin? = some 0)
    (h1 : 1 - emax ≤ k) (h2 : k ≤ emax) : (a - b).fin? = some (2 ^ k) ∧ (a + b).fin? = some (2 ^ k) := by
  have h3 := agr_sub hp ha hb (by rw [sub_zero]; exact safe_pow h1 h2)
  have h4 := agr_add hp ha hb (by rw [add_zero]; exact safe_pow h1 h2)
  rw [sub_zero, rne_zpow hp] at h3
  rw [add_zero, rne_zpow hp] at h4
  exact ⟨h3, h4⟩

/-- C127, what holds of multiples of the identity: they are inverted exactly as long as the determinant, and the
quotient, stay within the range. -/
theorem C127_scalar_partial (k : ℤ) (hk : 1 - emax ≤ k) (hk' : k ≤ emax - 1) :
    (1 - emax ≤ 2 * k → 2 * k ≤ emax →
      ∃ n : Mat2 (Ieee ℝ p emax), (Mat2.ofScalar (num (2 ^ k))).inversed = .ok n ∧ n.Is ((2 : ℝ) ^ (-k) • 1)) ∧
    (1 - emax ≤ 3 * k → 3 * k ≤ emax →
      ∃ n : Mat3 (Ieee ℝ p emax), (Mat3.ofScalar (num (2 ^ k))).inversed = .ok n ∧ n.Is ((2 : ℝ) ^ (-k) • 1)) := by
  have z : (0 : Ieee ℝ p emax).fin? = some 0 := rfl
  have c : (num (2 ^ k) : Ieee ℝ p emax).fin? = some (2 ^ k) := rfl
  have nz : (-(0 : Ieee ℝ p emax)).fin? = some 0 := by have := fin?_neg z; rwa [neg_zero] at this
  constructor
  · intro h1 h2
    have m := mul_pow hp c c (by omega) (by omega)
    have d := (pow_sub_zero hp m (mul_fin_zero hp z z).1 (by omega) (by omega)).1
    have hz := beq_zero d
    rw [decide_eq_false (zpow2_pos (K := ℝ) _).ne'] at hz
    have ho := beq_one d
    have hdet : (Mat2.ofScalar (num (2 ^ k)) : Mat2 (Ieee ℝ p emax)).determinant =
        num (2 ^ k) * num (2 ^ k) - 0 * 0 := rfl
    by_cases hk0 : k = 0
    · subst hk0
      rw [neg_zero]
      rw [show (2 : ℝ) ^ ((0 : ℤ) + 0) = 1 by norm_num, decide_eq_true rfl] at ho
      refine ⟨(Mat2.ofScalar (num (2 ^ (0 : ℤ)))).adjoint, ?_, ?_⟩
      · simp only [Mat2.inversed, hdet, hz, Mat2.sdiv, ho, Bool.false_eq_true, if_false, if_true]
      · exact is2 c nz nz c
    · have h1' : (2 : ℝ) ^ (k + k) ≠ 1 := by
        intro h
        have := zpow_right_injective₀ (a := (2 : ℝ)) (by norm_num) (by norm_num) (h.trans (zpow_zero 2).symm)
        omega
      rw [decide_eq_false h1'] at ho
      have q := div_pow hp c d (by omega) (by omega)
      rw [show k - (k + k) = -k by ring] at q
      have qz := div_zero_num hp nz d (zpow2_pos (K := ℝ) _).ne'
      refine ⟨Mat2.ofCols ⟨num (2 ^ k) / (num (2 ^ k) * num (2 ^ k) - 0 * 0), -0 / (num (2 ^ k) * num (2 ^ k) - 0 * 0)⟩
        ⟨-0 / (num (2 ^ k) * num (2 ^ k) - 0 * 0), num (2 ^ k) / (num (2 ^ k) * num (2 ^ k) - 0 * 0)⟩, ?_, ?_⟩
      · simp only [Mat2.inversed, hdet, hz, Mat2.sdiv, ho, Vec2.div, Bool.false_eq_true, if_false]; rfl
      · exact is2 q qz qz q
  · intro h1 h2
    have m := mul_pow hp c c (by omega) (by omega)
    have zz := (mul_fin_zero hp z z).1
    have zc := (mul_fin_zero hp c z).2
    have cz := (mul_fin_zero hp c z).1
    have d1 := (pow_sub_zero hp m zz (by omega) (by omega)).1
    have t1 := mul_pow hp c d1 (by omega) (by omega)
    have d2 := (sub_fin_zero hp zc zz).1
    have d3 := (sub_fin_zero hp zz zc).1
    have d4 := (sub_fin_zero hp zz cz).1
    have t2 := (mul_fin_zero hp z d2).1
    have d5 := (sub_fin_zero hp zz cz).1
    have t3 := (mul_fin_zero hp z d5).1
    have t12 := (pow_sub_zero hp t1 t2 (by omega) (by omega)).1
    have d := (pow_sub_zero hp t12 t3 (by omega) (by omega)).2
    have hz := beq_zero d
    rw [decide_eq_false (zpow2_pos (K := ℝ) _).ne'] at hz
    have ho := beq_one d
    set D := num (2 ^ k) * (num (2 ^ k) * num (2 ^ k) - 0 * 0) - 0 * (0 * num (2 ^ k) - 0 * 0) +
      0 * (0 * 0 - num (2 ^ k) * (0 : Ieee ℝ p emax)) with hD
    have hdet : (Mat3.ofScalar (num (2 ^ k)) : Mat3 (Ieee ℝ p emax)).determinant = D := rfl
    by_cases hk0 : k = 0
    · subst hk0
      rw [neg_zero]
      rw [show (2 : ℝ) ^ ((0 : ℤ) + (0 + 0)) = 1 by norm_num, decide_eq_true rfl] at ho
      refine ⟨(Mat3.ofScalar (num (2 ^ (0 : ℤ)))).adjoint, ?_, ?_⟩
      · simp only [Mat3.inversed, hdet, hz, Mat3.sdiv, ho, Bool.false_eq_true, if_false, if_true]
      · exact is3 d1 d3 d4 d3 d1 d4 d4 d4 d1
    · have h1' : (2 : ℝ) ^ (k + (k + k)) ≠ 1 := by
        intro h
        have := zpow_right_injective₀ (a := (2 : ℝ)) (by norm_num) (by norm_num) (h.trans (zpow_zero 2).symm)
        omega
      rw [decide_eq_false h1'] at ho
      have q := div_pow hp d1 d (by omega) (by omega)
      rw [show k + k - (k + (k + k)) = -k by ring] at q
      have Dz := (zpow2_pos (K := ℝ) (k + (k + k))).ne'
      have q3 := div_zero_num hp d3 d Dz
      have q4 := div_zero_num hp d4 d Dz
      refine ⟨Mat3.ofCols ⟨(num (2 ^ k) * num (2 ^ k) - 0 * 0) / D, (0 * 0 - 0 * num (2 ^ k)) / D,
          (0 * 0 - num (2 ^ k) * 0) / D⟩
        ⟨(0 * 0 - 0 * num (2 ^ k)) / D, (num (2 ^ k) * num (2 ^ k) - 0 * 0) / D, (0 * 0 - num (2 ^ k) * 0) / D⟩
        ⟨(0 * 0 - 0 * num (2 ^ k)) / D, (0 * 0 - num (2 ^ k) * 0) / D, (num (2 ^ k) * num (2 ^ k) - 0 * 0) / D⟩, ?_, ?_⟩
      · simp only [Mat3.inversed, hdet, hz, Mat3.sdiv, ho, Vec3.div, Bool.false_eq_true, if_false]; rfl
      · exact is3 q q3 q3 q3 q q4 q4 q4 q

omit hp in
private theorem inf_sub_fin {b : Ieee ℝ p emax} {y : ℝ} (hb : b.fin? = some y) (s : Bool) :
    inf s - b = inf s ∧ inf s + b = inf s := by
  change add (inf s) (neg b) = _ ∧ add (inf s) b = _
  rcases fin?_cases hb with ⟨t, rfl, -⟩ | rfl <;> exact ⟨rfl, rfl⟩

omit hp in
private theorem fin_div_inf {b : Ieee ℝ p emax} {y : ℝ} (hb : b.fin? = some y) (s : Bool) :
    (b / inf s).fin? = some 0 := by
  change (div b (inf s)).fin? = _
  rcases fin?_cases hb with ⟨t, rfl, -⟩ | rfl <;> rfl

private theorem mul_big {a b : Ieee ℝ p emax} (he : 0 ≤ emax) {k l : ℤ} (ha : a.fin? = some (2 ^ k))
    (hb : b.fin? = some (2 ^ l)) (h : emax + 1 ≤ k + l) : a * b = inf false := by
  rcases fin?_cases ha with ⟨t, rfl, h0⟩ | rfl
  · exact absurd h0 (zpow2_pos (K := ℝ) k).ne'
  rcases fin?_cases hb with ⟨t, rfl, h0⟩ | rfl
  · exact absurd h0 (zpow2_pos (K := ℝ) l).ne'
  change Ieee.round (2 ^ k * 2 ^ l) false = _
  rw [← zpow_add₀ two_ne_zero, round_big hp he, decide_eq_false (not_lt.2 (zpow2_pos _).le)]
  rw [abs_of_pos (zpow2_pos _)]
  exact zpow_le_zpow_right₀ one_le_two h

private theorem mul_tiny {a b : Ieee ℝ p emax} {k l : ℤ} (ha : a.fin? = some (2 ^ k))
    (hb : b.fin? = some (2 ^ l)) (h : k + l < 1 - emax - p) : (a * b).fin? = some 0 := by
  rcases fin?_cases ha with ⟨t, rfl, h0⟩ | rfl
  · exact absurd h0 (zpow2_pos (K := ℝ) k).ne'
  rcases fin?_cases hb with ⟨t, rfl, h0⟩ | rfl
  · exact absurd h0 (zpow2_pos (K := ℝ) l).ne'
  change (Ieee.round (2 ^ k * 2 ^ l) false : Ieee ℝ p emax).fin? = _
  rw [← zpow_add₀ two_ne_zero, round_tiny (zpow2_pos _).ne' ?_ hp]
  · rfl
  rw [abs_of_pos (zpow2_pos _)]
  exact zpow_lt_zpow_right₀ one_lt_two h

/-- The determinant overflows: the inverse of `2^k` times the identity comes out as zero, or, in space, with NaN on the
diagonal. -/
theorem C127_overflow (k : ℤ) (he : 1 ≤ emax) (hk : 1 ≤ k) :
    (emax + 1 ≤ 2 * k →
      (∃ n : Mat2 (Ieee ℝ p emax), (Mat2.ofScalar (num (2 ^ k))).inversed = .ok n ∧ n.Is 0) ∧
      ∃ n : Mat3 (Ieee ℝ p emax), (Mat3.ofScalar (num (2 ^ k))).inversed = .ok n ∧ ∀ i, n.toM i i = nan) ∧
    (2 * k ≤ emax → emax + 1 ≤ 3 * k →
      ∃ n : Mat3 (Ieee ℝ p emax), (Mat3.ofScalar (num (2 ^ k))).inversed = .ok n ∧ n.Is 0) := by
  have z : (0 : Ieee ℝ p emax).fin? = some 0 := rfl
  have c : (num (2 ^ k) : Ieee ℝ p emax).fin? = some (2 ^ k) := rfl
  have nz : (-(0 : Ieee ℝ p emax)).fin? = some 0 := by have := fin?_neg z; rwa [neg_zero] at this
  have zz := (mul_fin_zero hp z z).1
  have zc := (mul_fin_zero hp c z).2
  have cz := (mul_fin_zero hp c z).1
  have d2 := (sub_fin_zero hp zc zz).1
  have d3 := (sub_fin_zero hp zz zc).1
  have d4 := (sub_fin_zero hp zz cz).1
  have t2 := (mul_fin_zero hp z d2).1
  have t3 := (mul_fin_zero hp z d4).1
  have hz : ((inf false : Ieee ℝ p emax) == 0) = false := rfl
  have ho : ((inf false : Ieee ℝ p emax) == 1) = false := rfl
  constructor
  · intro h
    have m := mul_big hp (by omega) c c (by omega)
    have d := (inf_sub_fin zz false).1
    rw [← m] at d
    have t1 : num (2 ^ k) * (inf false) = (inf false : Ieee ℝ p emax) := by
      change mul (num (2 ^ k)) (inf false) = _
      have : ¬ (2 : ℝ) ^ k < 0 := not_lt.2 (zpow2_pos k).le
      simp [mul, sign, this]
    constructor
    · have hdet : (Mat2.ofScalar (num (2 ^ k)) : Mat2 (Ieee ℝ p emax)).determinant = inf false := d.trans m
      refine ⟨Mat2.ofCols ⟨num (2 ^ k) / inf false, -0 / inf false⟩ ⟨-0 / inf false, num (2 ^ k) / inf false⟩, ?_, ?_⟩
      · simp only [Mat2.inversed, hdet, hz, Mat2.sdiv, ho, Vec2.div, Bool.false_eq_true, if_false]; rfl
      · have a := fin_div_inf c false
        have b := fin_div_inf nz false
        rw [← zero_smul ℝ (1 : Matrix (Fin 2) (Fin 2) ℝ)]
        exact is2 a b b a
    · have hdet : (Mat3.ofScalar (num (2 ^ k)) : Mat3 (Ieee ℝ p emax)).determinant = inf false := by
        change num (2 ^ k) * (num (2 ^ k) * num (2 ^ k) - 0 * 0) - 0 * (0 * num (2 ^ k) - 0 * 0) +
          0 * (0 * 0 - num (2 ^ k) * (0 : Ieee ℝ p emax)) = _
        rw [d, m, t1, (inf_sub_fin t2 false).1, (inf_sub_fin t3 false).2]
      have hq : (num (2 ^ k) * num (2 ^ k) - 0 * 0) / inf false = (nan : Ieee ℝ p emax) := by rw [d, m]; rfl
      refine ⟨Mat3.ofCols ⟨(num (2 ^ k) * num (2 ^ k) - 0 * 0) / inf false, (0 * 0 - 0 * num (2 ^ k)) / inf false,
          (0 * 0 - num (2 ^ k) * 0) / inf false⟩
        ⟨(0 * 0 - 0 * num (2 ^ k)) / inf false, (num (2 ^ k) * num (2 ^ k) - 0 * 0) / inf false,
          (0 * 0 - num (2 ^ k) * 0) / inf false⟩
        ⟨(0 * 0 - 0 * num (2 ^ k)) / inf false, (0 * 0 - num (2 ^ k) * 0) / inf false,
          (num (2 ^ k) * num (2 ^ k) - 0 * 0) / inf false⟩, ?_, ?_⟩
      · simp only [Mat3.inversed, hdet, hz, Mat3.sdiv, ho, Vec3.div, Bool.false_eq_true, if_false]; rfl
      · intro i
        fin_cases i <;> exact hq
  · intro h1 h2
    have m := mul_pow hp c c (by omega) (by omega)
    have d1 := (pow_sub_zero hp m zz (by omega) (by omega)).1
    have t1 := mul_big hp (by omega) c d1 (by omega)
    have hdet : (Mat3.ofScalar (num (2 ^ k)) : Mat3 (Ieee ℝ p emax)).determinant = inf false := by
      change num (2 ^ k) * (num (2 ^ k) * num (2 ^ k) - 0 * 0) - 0 * (0 * num (2 ^ k) - 0 * 0) +
        0 * (0 * 0 - num (2 ^ k) * (0 : Ieee ℝ p emax)) = _
      rw [t1, (inf_sub_fin t2 false).1, (inf_sub_fin t3 false).2]
    refine ⟨Mat3.ofCols ⟨(num (2 ^ k) * num (2 ^ k) - 0 * 0) / inf false, (0 * 0 - 0 * num (2 ^ k)) / inf false,
        (0 * 0 - num (2 ^ k) * 0) / inf false⟩
      ⟨(0 * 0 - 0 * num (2 ^ k)) / inf false, (num (2 ^ k) * num (2 ^ k) - 0 * 0) / inf false,
        (0 * 0 - num (2 ^ k) * 0) / inf false⟩
      ⟨(0 * 0 - 0 * num (2 ^ k)) / inf false, (0 * 0 - num (2 ^ k) * 0) / inf false,
        (num (2 ^ k) * num (2 ^ k) - 0 * 0) / inf false⟩, ?_, ?_⟩
    · simp only [Mat3.inversed, hdet, hz, Mat3.sdiv, ho, Vec3.div, Bool.false_eq_true, if_false]; rfl
    · have a := fin_div_inf d1 false
      have b3 := fin_div_inf d3 false
      have b4 := fin_div_inf d4 false
      rw [← zero_smul ℝ (1 : Matrix (Fin 3) (Fin 3) ℝ)]
      exact is3 a b3 b3 b3 a b4 b4 b4 a

/-- The determinant underflows: the inverse of `2^k` times the identity comes out as zero. -/
theorem C127_underflow (k : ℤ) :
    (2 * k < 1 - emax - p →
      ∃ n : Mat2 (Ieee ℝ p emax), (Mat2.ofScalar (num (2 ^ k))).inversed = .ok n ∧ n.Is 0) ∧
    (3 * k < 1 - emax - p → (2 * k < 1 - emax - p ∨ (1 - emax ≤ 2 * k ∧ 2 * k ≤ emax)) →
      ∃ n : Mat3 (Ieee ℝ p emax), (Mat3.ofScalar (num (2 ^ k))).inversed = .ok n ∧ n.Is 0) := by
  have z : (0 : Ieee ℝ p emax).fin? = some 0 := rfl
  have c : (num (2 ^ k) : Ieee ℝ p emax).fin? = some (2 ^ k) := rfl
  have zz := (mul_fin_zero hp z z).1
  constructor
  · intro h
    have d := (sub_fin_zero hp (mul_tiny hp c c (by omega)) zz).1
    have hz := beq_zero d
    rw [decide_eq_true rfl] at hz
    refine ⟨Mat2.zero, ?_, ?_⟩
    · simp only [Mat2.inversed]
      exact if_pos hz
    · have := is2 (m := (Mat2.zero : Mat2 (Ieee ℝ p emax))) z z z z
      rwa [zero_smul] at this
  · intro h h'
    have zc := (mul_fin_zero hp c z).2
    have cz := (mul_fin_zero hp c z).1
    have d2 := (sub_fin_zero hp zc zz).1
    have d4 := (sub_fin_zero hp zz cz).1
    have t2 := (mul_fin_zero hp z d2).1
    have t3 := (mul_fin_zero hp z d4).1
    have t1 : (num (2 ^ k) * (num (2 ^ k) * num (2 ^ k) - 0 * 0) : Ieee ℝ p emax).fin? = some 0 := by
      rcases h' with h' | ⟨h1, h2⟩
      · exact (mul_fin_zero hp c (sub_fin_zero hp (mul_tiny hp c c (by omega)) zz).1).1
      · exact mul_tiny hp c (pow_sub_zero hp (mul_pow hp c c (by omega) (by omega)) zz (by omega) (by omega)).1 (by omega)
    have d := (sub_fin_zero hp (sub_fin_zero hp t1 t2).1 t3).2
    have hz := beq_zero d
    rw [decide_eq_true rfl] at hz
    refine ⟨Mat3.zero, ?_, ?_⟩
    · simp only [Mat3.inversed]
      exact if_pos hz
    · have := is3 (m := (Mat3.zero : Mat3 (Ieee ℝ p emax))) z z z z z z z z z
      rwa [zero_smul] at this

/-- So the property is false of every format with a few more exponents than bits, of `float` and `double` in
particular. -/
theorem C127_refuted (he : (p : ℤ) + 6 ≤ emax) : ¬ C127_full p emax := by
  intro H
  obtain ⟨n, hn, h1⟩ := (H (emax - 2) (by omega) (by omega)).1
  obtain ⟨n', hn', h2⟩ := ((C127_overflow (emax := emax) hp (emax - 2) (by omega) (by omega)).1 (by omega)).1
  rw [hn] at hn'
  obtain rfl := Except.ok.inj hn'
  have a := h1 0 0
  have b := h2 0 0
  rw [a] at b
  have := Option.some.inj b
  simp at this
  exact (zpow2_pos (K := ℝ) _).ne' this

example : (1 : ℕ) ≤ 24 ∧ ((24 : ℕ) : ℤ) + 6 ≤ 127 ∧ ((53 : ℕ) : ℤ) + 6 ≤ 1023 := by norm_num

end scalar


/-! ## General matrices -/

/-- the same number -/
private def Agr (a : Ieee ℝ p emax) (b : Fl ℝ (rne p)) : Prop := ∃ v, a.fin? = some v ∧ b = .num v

private theorem agr_bet {l h : ℤ} {a : Ieee ℝ p emax} {b : Fl ℝ (rne p)} (H : Bet l h a b) : Agr a b := by
  obtain ⟨v, h1, h2, -⟩ := H; exact ⟨v, h1, h2⟩

private theorem agr_beq {a : Ieee ℝ p emax} {b : Fl ℝ (rne p)} (H : Agr a b) :
    (a == 0) = (b == 0) ∧ (a == 1) = (b == 1) := by
  obtain ⟨v, h1, rfl⟩ := H
  rw [Ieee.beq_zero h1, beq_one h1, Fl.zero_def, Fl.one_def, Fl.num_beq, Fl.num_beq]
  exact ⟨rfl, rfl⟩

private theorem gr_of {g h : ℤ} {a : Ieee ℝ p emax} {x : ℝ} (h1 : a.fin? = some x) (h2 : Ieee.OnGrid g h x) :
    Gr g h a (.num x) := ⟨x, h1, rfl, h2⟩

/-- C127, what holds of general matrices of the plane: if the entries are multiples of `2^g` of size at most `2^h`, and the
determinant and the quotients cannot leave the range, then the result is that of C126, with its error bounds.
Missing: matrices with larger or finer entries (false). -/
theorem C127_mat2_partial (hp : 1 ≤ p) (m' : Mat2 (Ieee ℝ p emax)) (m : Mat2 ℝ) (g h : ℤ) (hm : m'.Is m.toM)
    (hgr : Matrix.OnGrid g h m.toM) (h1 : 1 - emax ≤ 2 * g) (h2 : 2 * h + 1 ≤ emax) (h3 : 1 - emax ≤ g - (2 * h + 1))
    (h4 : h - 2 * g ≤ emax) (κ : ℝ) (hκ : κ < 1) (h0 : m.toM.det ≠ 0)
    (hb : gam (2 ^ (-(p : ℤ))) 2 * (|m.x.x * m.y.y| + |m.x.y * m.y.x|) ≤ κ * |m.toM.det|) :
    ∃ n : Mat2 (Ieee ℝ p emax), m'.inversed = .ok n ∧ ∃ r, n.Is r ∧
      ∀ i j, |r i j - m.toM⁻¹ i j| ≤ ((1 + gam (2 ^ (-(p : ℤ))) 1) / (1 - κ) - 1) * |m.toM⁻¹ i j| := by
  obtain ⟨n, hn, hbd⟩ := (C126_mat2_partial (isRel_rne p hp) m).2 κ hκ h0 hb
  have xx := gr_of (hm 0 0) (hgr 0 0)
  have xy := gr_of (hm 1 0) (hgr 1 0)
  have yx := gr_of (hm 0 1) (hgr 0 1)
  have yy := gr_of (hm 1 1) (hgr 1 1)
  have D := (Gr.sub hp (Gr.mul hp xx yy (by omega) (by omega)) (Gr.mul hp xy yx (by omega) (by omega)) (by omega)
    (by omega)).bet
  have D' : Agr m'.determinant (Mat2.num m : Mat2 (Fl ℝ (rne p))).determinant := agr_bet D
  obtain ⟨e0, e1⟩ := agr_beq D'
  have key : ∃ X' X, m'.inversed = .ok X' ∧ (Mat2.num m : Mat2 (Fl ℝ (rne p))).inversed = .ok X ∧
      Agr X'.x.x X.x.x ∧ Agr X'.x.y X.x.y ∧ Agr X'.y.x X.y.x ∧ Agr X'.y.y X.y.y := by
    simp only [Mat2.inversed, Mat2.sdiv, e0, e1, Vec2.div]
    by_cases c0 : ((Mat2.num m : Mat2 (Fl ℝ (rne p))).determinant == 0) = true
    · rw [if_pos c0, if_pos c0]
      have z : Agr (0 : Ieee ℝ p emax) 0 := ⟨0, rfl, rfl⟩
      exact ⟨_, _, rfl, rfl, z, z, z, z⟩
    · have c0' := Bool.eq_false_iff.2 c0
      simp only [c0', Bool.false_eq_true, if_false]
      by_cases c1 : ((Mat2.num m : Mat2 (Fl ℝ (rne p))).determinant == 1) = true
      · simp only [c1, if_true]
        refine ⟨_, _, rfl, rfl, ?_⟩
        exact ⟨agr_bet yy.bet, agr_bet xy.neg.bet, agr_bet yx.neg.bet, agr_bet xx.bet⟩
      · simp only [Bool.eq_false_iff.2 c1, Bool.false_eq_true, if_false]
        have q : ∀ {a : Ieee ℝ p emax} {b : Fl ℝ (rne p)}, Gr g h a b →
            Agr (a / m'.determinant) (b / (Mat2.num m : Mat2 (Fl ℝ (rne p))).determinant) := fun H =>
          agr_bet (Bet.div' hp H.bet D c0' (by omega) (by omega))
        refine ⟨_, _, rfl, rfl, ?_⟩
        exact ⟨q yy, q xy.neg, q yx.neg, q xx⟩
  obtain ⟨X', X, k1, k2, a1, a2, a3, a4⟩ := key
  rw [hn] at k2
  obtain rfl := Except.ok.inj k2
  refine ⟨X', k1, n.toM, ?_, hbd⟩
  have f : ∀ {a : Ieee ℝ p emax} {x : ℝ}, Agr a (.num x) → a.fin? = some x := by
    rintro a x ⟨v, h1, h2⟩
    rw [h1, Fl.num.inj h2]
  intro i j
  fin_cases i <;> fin_cases j
  exacts [f a1, f a3, f a2, f a4]

/-- C127, what holds of general matrices of space.
Missing: matrices with larger or finer entries (false). -/
theorem C127_mat3_partial (hp : 1 ≤ p) (m' : Mat3 (Ieee ℝ p emax)) (m : Mat3 ℝ) (g h : ℤ) (hm : m'.Is m.toM)
    (hgr : Matrix.OnGrid g h m.toM) (h1 : 1 - emax ≤ 3 * g) (h1' : 1 - emax ≤ 2 * g) (h2 : 3 * h + 3 ≤ emax)
    (h2' : 2 * h + 1 ≤ emax) (h3 : 1 - emax ≤ 2 * g - (3 * h + 3))
    (h4 : 2 * h + 1 - 3 * g ≤ emax) (κ : ℝ) (hκ : κ < 1) (h0 : m.toM.det ≠ 0)
    (hb : gam (2 ^ (-(p : ℤ))) 5 * (|m.x.x| * (|m.y.y * m.z.z| + |m.z.y * m.y.z|) +
        |m.y.x| * (|m.x.y * m.z.z| + |m.z.y * m.x.z|) + |m.z.x| * (|m.x.y * m.y.z| + |m.y.y * m.x.z|)) ≤
        κ * |m.toM.det|) :
    ∃ n : Mat3 (Ieee ℝ p emax), m'.inversed = .ok n ∧ ∃ r, n.Is r ∧
      ∀ i j, |r i j - m.toM⁻¹ i j| ≤
        ((1 + gam (2 ^ (-(p : ℤ))) 3) / (1 - κ) - 1) * (m.absAdj i j / |m.toM.det|) := by
  obtain ⟨n, hn, -, hbd⟩ := C126_mat3_partial (isRel_rne p hp) m κ hκ h0 hb
  have xx := gr_of (hm 0 0) (hgr 0 0)
  have xy := gr_of (hm 1 0) (hgr 1 0)
  have xz := gr_of (hm 2 0) (hgr 2 0)
  have yx := gr_of (hm 0 1) (hgr 0 1)
  have yy := gr_of (hm 1 1) (hgr 1 1)
  have yz := gr_of (hm 2 1) (hgr 2 1)
  have zx := gr_of (hm 0 2) (hgr 0 2)
  have zy := gr_of (hm 1 2) (hgr 1 2)
  have zz := gr_of (hm 2 2) (hgr 2 2)
  have mn : ∀ {a a' b b' : Ieee ℝ p emax} {c c' d d' : Fl ℝ (rne p)}, Gr g h a c → Gr g h a' c' → Gr g h b d → Gr g h b' d' →
      Gr (2 * g) (2 * h + 1) (a * a' - b * b') (c * c' - d * d') := fun A A' B B' =>
    (Gr.sub hp (Gr.mul hp A A' (by omega) (by omega)) (Gr.mul hp B B' (by omega) (by omega)) (by omega)
      (by omega)).mono (by omega) (by omega)
  have tm : ∀ {a b : Ieee ℝ p emax} {c d : Fl ℝ (rne p)}, Gr g h a c → Gr (2 * g) (2 * h + 1) b d →
      Gr (3 * g) (3 * h + 1) (a * b) (c * d) := fun A B =>
    (Gr.mul hp A B (by omega) (by omega)).mono (by omega) (by omega)
  have D : Bet (3 * g) (3 * h + 3) m'.determinant (Mat3.num m : Mat3 (Fl ℝ (rne p))).determinant :=
    ((Gr.add hp (Gr.sub hp (tm xx (mn yy zz zy yz)) (tm yx (mn xy zz zy xz)) (by omega) (by omega))
      ((tm zx (mn xy yz yy xz)).mono (by omega) (by omega)) (by omega) (by omega)).mono (by omega) (by omega)).bet
  obtain ⟨e0, e1⟩ := agr_beq (agr_bet D)
  have A1 := mn yy zz zy yz
  have A2 := mn zy xz xy zz
  have A3 := mn xy yz yy xz
  have A4 := mn zx yz yx zz
  have A5 := mn xx zz zx xz
  have A6 := mn yx xz xx yz
  have A7 := mn yx zy zx yy
  have A8 := mn zx xy xx zy
  have A9 := mn xx yy yx xy
  have key : ∃ X' X, m'.inversed = .ok X' ∧ (Mat3.num m : Mat3 (Fl ℝ (rne p))).inversed = .ok X ∧
      Agr X'.x.x X.x.x ∧ Agr X'.x.y X.x.y ∧ Agr X'.x.z X.x.z ∧ Agr X'.y.x X.y.x ∧ Agr X'.y.y X.y.y ∧
      Agr X'.y.z X.y.z ∧ Agr X'.z.x X.z.x ∧ Agr X'.z.y X.z.y ∧ Agr X'.z.z X.z.z := by
    simp only [Mat3.inversed, Mat3.sdiv, e0, e1, Vec3.div]
    by_cases c0 : ((Mat3.num m : Mat3 (Fl ℝ (rne p))).determinant == 0) = true
    · rw [if_pos c0, if_pos c0]
      have z : Agr (0 : Ieee ℝ p emax) 0 := ⟨0, rfl, rfl⟩
      exact ⟨_, _, rfl, rfl, z, z, z, z, z, z, z, z, z⟩
    · have c0' := Bool.eq_false_iff.2 c0
      simp only [c0', Bool.false_eq_true, if_false]
      by_cases c1 : ((Mat3.num m : Mat3 (Fl ℝ (rne p))).determinant == 1) = true
      · simp only [c1, if_true]
        refine ⟨_, _, rfl, rfl, ?_⟩
        exact ⟨agr_bet A1.bet, agr_bet A2.bet, agr_bet A3.bet, agr_bet A4.bet, agr_bet A5.bet,
          agr_bet A6.bet, agr_bet A7.bet, agr_bet A8.bet, agr_bet A9.bet⟩
      · simp only [Bool.eq_false_iff.2 c1, Bool.false_eq_true, if_false]
        have q : ∀ {a : Ieee ℝ p emax} {b : Fl ℝ (rne p)}, Gr (2 * g) (2 * h + 1) a b →
            Agr (a / m'.determinant) (b / (Mat3.num m : Mat3 (Fl ℝ (rne p))).determinant) := fun H =>
          agr_bet (Bet.div' hp H.bet D c0' (by omega) (by omega))
        refine ⟨_, _, rfl, rfl, ?_⟩
        exact ⟨q A1, q A2, q A3, q A4, q A5, q A6, q A7, q A8, q A9⟩
  obtain ⟨X', X, k1, k2, a1, a2, a3, a4, a5, a6, a7, a8, a9⟩ := key
  rw [hn] at k2
  obtain rfl := Except.ok.inj k2
  refine ⟨X', k1, n.toM, ?_, hbd⟩
  have f : ∀ {a : Ieee ℝ p emax} {x : ℝ}, Agr a (.num x) → a.fin? = some x := by
    rintro a x ⟨v, h1, h2⟩
    rw [h1, Fl.num.inj h2]
  intro i j
  fin_cases i <;> fin_cases j
  exacts [f a1, f a4, f a7, f a2, f a5, f a8, f a3, f a6, f a9]

/-- a matrix of `float` which satisfies the conditions with `g = 0`, `h = 3` -/
example : (⟨⟨.num 3, .num 1⟩, ⟨.num (-2), .num 5⟩, Flags.start⟩ : Mat2 (Ieee ℝ 24 127)).Is
      (⟨⟨3, 1⟩, ⟨-2, 5⟩, Flags.start⟩ : Mat2 ℝ).toM ∧
    Matrix.OnGrid 0 3 (⟨⟨3, 1⟩, ⟨-2, 5⟩, Flags.start⟩ : Mat2 ℝ).toM := by
  constructor
  · intro i j; fin_cases i <;> fin_cases j <;> rfl
  · have k : ∀ n : ℤ, |n| ≤ 8 → Ieee.OnGrid 0 3 (n : ℝ) := fun n hn =>
      ⟨⟨n, by simp⟩, by rw [← Int.cast_abs]; norm_num; exact_mod_cast hn⟩
    intro i j
    fin_cases i <;> fin_cases j
    · have := k 3 (by decide); exact_mod_cast this
    · have := k (-2) (by decide); exact_mod_cast this
    · have := k 1 (by decide); exact_mod_cast this
    · have := k 5 (by decide); exact_mod_cast this

end MathLib
