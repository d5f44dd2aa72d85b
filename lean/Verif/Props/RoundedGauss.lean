import Verif.Proof.GaussRun
import Verif.Props.GaussJordan
import Mathlib.Data.Rat.Floor
import Mathlib.Tactic.NormNum.DivMod
import Mathlib.LinearAlgebra.Matrix.Gershgorin

/-! # Property C160: Gauss-Jordan elimination in floating point -/

namespace MathLib
open GaussJordan

/-- `fabsf` in floating point: `g` is the absolute value for `float` and the absolute value rounded to `float`
for `double`, which is converted on the way. -/
def Fl.fabsf {K : Type} {rnd : K → K} (g : K → K) : Fl K rnd → Fl K rnd
  | .num v => .num (g v)
  | .nan => .nan

/-- The claim, for `float`: `false` is returned exactly for singular matrices. -/
def C160_full : Prop :=
  ∀ (n m : ℕ) (A : Matrix (Fin n) (Fin n) ℚ) (B : Matrix (Fin n) (Fin m) ℚ) (a b : Buf F32),
    (∀ i j, Rep 24 (A i j)) → (∀ i j, Rep 24 (B i j)) → a.HoldsMat (A.map .num) → b.HoldsMat (B.map .num) →
    (solve (Fl.fabsf abs) a n b m = .ok none ↔ A.det = 0)

/-- The claim fails both ways.  The matrix `1, 5; 3, 15` is singular, but its elimination reports success and
numbers in the millions that solve nothing.  The matrix `3871, 3872; 3870, 3871` has the determinant 1, but its
elimination reports that it is singular. -/
theorem C160_refuted : ¬ C160_full ∧
    (solve (Fl.fabsf abs) (Buf.ofList [1, .num 5, .num 3, .num 15]) 2 (Buf.ofList [1, .num 2] : Buf F32) 1).map
      (fun r => r.map fun p => p.2.toList) = .ok (some [some (.num (-5592405 / 2)), some (.num (8947851 / 16))]) ∧
    (solve (Fl.fabsf abs) (Buf.ofList [.num 3871, .num 3872, .num 3870, .num 3871]) 2 (Buf.ofList [1, 1] : Buf F32) 1).map
      (fun r => r.isNone) = .ok true ∧
    (!![1, 5; 3, 15] : Matrix (Fin 2) (Fin 2) ℚ).det = 0 ∧
    (!![3871, 3872; 3870, 3871] : Matrix (Fin 2) (Fin 2) ℚ).det = 1 := by
  have d1 : (!![1, 5; 3, 15] : Matrix (Fin 2) (Fin 2) ℚ).det = 0 := by
    rw [Matrix.det_fin_two]; norm_num
  have d2 : (!![3871, 3872; 3870, 3871] : Matrix (Fin 2) (Fin 2) ℚ).det = 1 := by
    rw [Matrix.det_fin_two]; norm_num
  have e1 : (solve (Fl.fabsf abs) (Buf.ofList [1, .num 5, .num 3, .num 15]) 2 (Buf.ofList [1, .num 2] : Buf F32) 1).map
      (fun r => r.map fun p => p.2.toList) = .ok (some [some (.num (-5592405 / 2)), some (.num (8947851 / 16))]) := by
    decide +kernel
  have e2 : (solve (Fl.fabsf abs) (Buf.ofList [.num 3871, .num 3872, .num 3870, .num 3871]) 2
      (Buf.ofList [1, 1] : Buf F32) 1).map (fun r => r.isNone) = .ok true := by
    decide +kernel
  refine ⟨fun h => ?_, e1, e2, d1, d2⟩
  have hrep : ∀ k : ℤ, |k| ≤ 2 ^ 24 → Rep 24 (k : ℚ) := fun k hk => ⟨k, 0, hk, by simp⟩
  have := (h 2 1 !![1, 5; 3, 15] !![1; 2] (Buf.ofList [1, .num 5, .num 3, .num 15]) (Buf.ofList [1, .num 2])
    (fun i j => by
      fin_cases i <;> fin_cases j
      · simpa using hrep 1 (by norm_num)
      · simpa using hrep 5 (by norm_num)
      · simpa using hrep 3 (by norm_num)
      · simpa using hrep 15 (by norm_num))
    (fun i j => by
      fin_cases i <;> fin_cases j
      · simpa using hrep 1 (by norm_num)
      · simpa using hrep 2 (by norm_num))
    ⟨by decide, by decide +kernel⟩ ⟨by decide, by decide +kernel⟩).2 d1
  rw [this] at e1
  cases e1

namespace GaussErr

theorem off_eq {n : ℕ} (A : Matrix (Fin n) (Fin n) ℝ) (i : Fin n) :
    off n (natExt A) i = ∑ j ∈ Finset.univ.erase i, |A i j| := by
  have h1 := sum_split i.2 (fun j => |natExt A i j|)
  have h2 := Finset.add_sum_erase Finset.univ (fun j : Fin n => |A i j|) (Finset.mem_univ i)
  have h3 := Fin.sum_univ_eq_sum_range (fun j => |natExt A i j|) n
  simp only [natExt_fin] at h1 h3
  rw [off]
  linarith

theorem resid_eq {n : ℕ} (A : Matrix (Fin n) (Fin n) ℝ) (b x : ℕ → ℝ) (i : Fin n) :
    resid n (natExt A) b x i = b i - ∑ j : Fin n, A i j * x j := by
  rw [resid, ← Fin.sum_univ_eq_sum_range (fun j => natExt A i j * x j)]
  simp only [natExt_fin]

theorem holds_num {n w : ℕ} {rnd : ℝ → ℝ} {b : Buf (Fl ℝ rnd)} {A : Matrix (Fin n) (Fin w) ℝ}
    (h : b.HoldsMat (A.map .num)) : HoldsM b n w (fun i j => .num (natExt A i j)) :=
  ⟨h.1, fun i hi j hj => by rw [h.2 ⟨i, hi⟩ ⟨j, hj⟩, Matrix.map_apply, ← natExt_fin A]⟩

end GaussErr
open GaussErr

/-- The elimination in floating point for a matrix dominated by its diagonal: let the sum of the magnitudes in
each row be at most `κ` times what the diagonal entry exceeds the others by.  `X` need not solve the system
exactly; the residual in each row may be the part `τ` of that excess.  Then the elimination succeeds, leaves the
identity in `a`, and what it leaves in `b` is within `τ` and `60 n κ` units of `X`. -/
theorem C160_residual {p : ℕ} (hp : 1 ≤ p) (g : ℝ → ℝ) (δ κ : ℝ) (hg : ∀ v, |g v - (|v|)| ≤ δ * |v|)
    (hδ : 2 * δ * κ < 1) {n m : ℕ} (A : Matrix (Fin n) (Fin n) ℝ) (B X : Matrix (Fin n) (Fin m) ℝ) (hκ1 : 1 ≤ κ)
    (hd : ∀ i, ∑ j ∈ Finset.univ.erase i, |A i j| < |A i i|)
    (hκ : ∀ i, ∑ j, |A i j| ≤ κ * (|A i i| - ∑ j ∈ Finset.univ.erase i, |A i j|))
    (hu : 150 * n * κ * 2 ^ (-(p : ℤ)) ≤ 1) (M τ : Fin m → ℝ) (hM : ∀ j k, |X j k| ≤ M k) (hτ0 : ∀ k, 0 ≤ τ k)
    (hτ : ∀ i k, |B i k - (A * X) i k| ≤ τ k * (|A i i| - ∑ j ∈ Finset.univ.erase i, |A i j|))
    (a b : Buf (Fl ℝ (rne p))) (ha : a.HoldsMat (A.map .num)) (hb : b.HoldsMat (B.map .num)) :
    ∃ (a' b' : Buf (Fl ℝ (rne p))) (Y : Matrix (Fin n) (Fin m) ℝ),
      solve (Fl.fabsf g) a n b m = .ok (some (a', b')) ∧ a'.HoldsMat ((1 : Matrix (Fin n) (Fin n) ℝ).map .num) ∧
      b'.HoldsMat (Y.map .num) ∧ ∀ j k, |Y j k - X j k| ≤ τ k + 60 * n * κ * 2 ^ (-(p : ℤ)) * (M k + τ k) := by
  have hr := isRel_rne p hp
  have h1 : rne p (1 : ℝ) = 1 := rne_of_rep hp (by simpa using Rep.zpow (K := ℝ) (p := p) 0)
  have hu0 := hr.nonneg
  set u : ℝ := 2 ^ (-(p : ℤ))
  have hκ0 : 0 < κ := by linarith
  rcases Nat.eq_zero_or_pos n with rfl | hn
  · refine ⟨a, b, X, by simp [solve, loop, loopFrom, loopBreak, loopBreakFrom, unscramble, loopDown, bind, Except.bind, pure, Except.pure],
      ⟨by simp, fun i => i.elim0⟩, ⟨by simp, fun i => i.elim0⟩, fun i => i.elim0⟩
  have hn1 : (1 : ℝ) ≤ n := by exact_mod_cast hn
  have hnκ : κ * u ≤ n * (κ * u) := le_mul_of_one_le_left (by positivity) hn1
  let x : ℕ → ℕ → ℝ := fun k j => natExt X j k
  let M' : ℕ → ℝ := fun k => if h : k < m then M ⟨k, h⟩ else 0
  let τ' : ℕ → ℝ := fun k => if h : k < m then τ ⟨k, h⟩ else 0
  obtain ⟨a', b', Y, e, h1, h2, h3⟩ := solve_num (n := n) (m := m) (c0 := 1 / κ) (η := 6 * κ * u) (x := x)
    (X := M') (α := τ') (g := g) (δ := δ) (A := natExt A) (B := natExt B) hr h1 (Fl.fabsf g) (fun _ => rfl) hg
    (by rw [lt_div_iff₀ (by norm_num), lt_div_iff₀ hκ0]; linarith) (by positivity)
    (by rw [div_le_one hκ0]; exact hκ1)
    (by rw [le_div_iff₀ hκ0]; nlinarith)
    (by field_simp; exact le_rfl) (by nlinarith) (by nlinarith)
    (fun k hk j hj => by
      have := hM ⟨j, hj⟩ ⟨k, hk⟩
      rw [← natExt_fin X] at this
      simpa [x, M', hk] using this)
    (fun k hk => by simpa [τ', hk] using hτ0 ⟨k, hk⟩) (holds_num ha) (holds_num hb)
    (fun i hi => by
      have a := off_eq A ⟨i, hi⟩
      have c := hκ ⟨i, hi⟩
      have d := hd ⟨i, hi⟩
      rw [← Finset.add_sum_erase Finset.univ _ (Finset.mem_univ (⟨i, hi⟩ : Fin n))] at c
      rw [← a, ← natExt_fin A ⟨i, hi⟩ ⟨i, hi⟩] at c d
      simp only at c d
      refine ⟨by linarith, ?_⟩
      rw [div_mul_eq_mul_div, div_le_iff₀ hκ0]
      linarith)
    (fun k hk j hj => by
      have a := off_eq A ⟨j, hj⟩
      have c := resid_eq A (fun r => natExt B r k) (x k) ⟨j, hj⟩
      have d := hτ ⟨j, hj⟩ ⟨k, hk⟩
      rw [← a, ← natExt_fin A ⟨j, hj⟩ ⟨j, hj⟩, ← natExt_fin B, Matrix.mul_apply] at d
      simp only at c d
      rw [c]
      simp only [τ', hk, dif_pos]
      convert d using 5
      simp only [x]
      rw [← natExt_fin X])
  refine ⟨a', b', Matrix.of fun i j => Y i j, e, ⟨h1.1, fun i j => ?_⟩, ⟨h2.1, fun i j => h2.2 i i.2 j j.2⟩,
    fun j k => ?_⟩
  · rw [h1.2 i i.2 j j.2, Matrix.map_apply, Matrix.one_apply]
    simp only [Fin.val_inj]
  · have := h3 k k.2 j j.2
    simp only [M', τ', k.2, dif_pos, x, natExt_fin] at this
    rw [Matrix.of_apply]
    linarith

/-- C160 for matrices dominated by their diagonal: the elimination succeeds, and what it leaves in `b` is within
`60 n κ` units, relative to the largest entry of the column, of the solution. -/
theorem C160_dominant_partial {p : ℕ} (hp : 1 ≤ p) (g : ℝ → ℝ) (δ κ : ℝ) (hg : ∀ v, |g v - (|v|)| ≤ δ * |v|)
    (hδ : 2 * δ * κ < 1) {n m : ℕ} (A : Matrix (Fin n) (Fin n) ℝ) (B : Matrix (Fin n) (Fin m) ℝ) (hκ1 : 1 ≤ κ)
    (hd : ∀ i, ∑ j ∈ Finset.univ.erase i, |A i j| < |A i i|)
    (hκ : ∀ i, ∑ j, |A i j| ≤ κ * (|A i i| - ∑ j ∈ Finset.univ.erase i, |A i j|))
    (hu : 150 * n * κ * 2 ^ (-(p : ℤ)) ≤ 1)
    (a b : Buf (Fl ℝ (rne p))) (ha : a.HoldsMat (A.map .num)) (hb : b.HoldsMat (B.map .num)) :
    ∃ (a' b' : Buf (Fl ℝ (rne p))) (X Y : Matrix (Fin n) (Fin m) ℝ), A * X = B ∧
      (∀ X', A * X' = B → X' = X) ∧
      solve (Fl.fabsf g) a n b m = .ok (some (a', b')) ∧ a'.HoldsMat ((1 : Matrix (Fin n) (Fin n) ℝ).map .num) ∧
      b'.HoldsMat (Y.map .num) ∧
      ∀ (M : ℝ) (k : Fin m), (∀ j, |X j k| ≤ M) → ∀ j, |Y j k - X j k| ≤ 60 * n * κ * 2 ^ (-(p : ℤ)) * M := by
  have hdet : A.det ≠ 0 := det_ne_zero_of_sum_row_lt_diag fun i => by simpa only [Real.norm_eq_abs] using hd i
  have hun : IsUnit A.det := isUnit_iff_ne_zero.2 hdet
  set X := A⁻¹ * B with hX
  have hAX : A * X = B := by rw [hX, Matrix.mul_nonsing_inv_cancel_left _ _ hun]
  have huniq : ∀ X', A * X' = B → X' = X := by
    intro X' h
    rw [hX, ← h, Matrix.nonsing_inv_mul_cancel_left _ _ hun]
  obtain ⟨a', b', Y, e, h1, h2, h3⟩ := C160_residual hp g δ κ hg hδ A B X hκ1 hd hκ hu (fun k => ∑ j, |X j k|)
    (fun _ => 0) (fun j k => Finset.single_le_sum (f := fun j => |X j k|) (fun _ _ => abs_nonneg _) (Finset.mem_univ j))
    (fun _ => le_rfl) (fun i k => by simp [hAX]) a b ha hb
  refine ⟨a', b', X, Y, hAX, huniq, e, h1, h2, fun M k hM j => ?_⟩
  obtain ⟨a2, b2, Y2, e2, -, q2, q3⟩ := C160_residual hp g δ κ hg hδ A B X hκ1 hd hκ hu
    (fun k' => if k' = k then M else ∑ j, |X j k'|)
    (fun _ => 0) (fun j k' => by
      by_cases h : k' = k
      · subst h; simpa using hM j
      · simp only [h, if_false]
        exact Finset.single_le_sum (f := fun j => |X j k'|) (fun _ _ => abs_nonneg _) (Finset.mem_univ j))
    (fun _ => le_rfl) (fun i k => by simp [hAX]) a b ha hb
  rw [e] at e2
  cases e2
  have : Y j k = Y2 j k := by
    have t := (h2.2 j k).symm.trans (q2.2 j k)
    simpa using t
  have t := q3 j k
  simp only [if_true, add_zero, zero_add] at t
  rw [this]
  exact t

/-- for `float` -/
theorem C160_float_partial {n m : ℕ} (κ : ℝ) (A : Matrix (Fin n) (Fin n) ℝ) (B : Matrix (Fin n) (Fin m) ℝ) (hκ1 : 1 ≤ κ)
    (hd : ∀ i, ∑ j ∈ Finset.univ.erase i, |A i j| < |A i i|)
    (hκ : ∀ i, ∑ j, |A i j| ≤ κ * (|A i i| - ∑ j ∈ Finset.univ.erase i, |A i j|)) (hu : n * κ ≤ 110000)
    (a b : Buf (Fl ℝ (rne 24))) (ha : a.HoldsMat (A.map .num)) (hb : b.HoldsMat (B.map .num)) :
    ∃ (a' b' : Buf (Fl ℝ (rne 24))) (X Y : Matrix (Fin n) (Fin m) ℝ), A * X = B ∧
      solve (Fl.fabsf abs) a n b m = .ok (some (a', b')) ∧ b'.HoldsMat (Y.map .num) ∧
      ∀ (M : ℝ) (k : Fin m), (∀ j, |X j k| ≤ M) → ∀ j, |Y j k - X j k| ≤ 60 * n * κ * 2 ^ (-24 : ℤ) * M := by
  obtain ⟨a', b', X, Y, h1, -, h2, -, h3, h4⟩ := C160_dominant_partial (p := 24) (by norm_num) abs 0 κ (fun v => by simp) (by simp)
    A B hκ1 hd hκ (by norm_num; linarith) a b ha hb
  exact ⟨a', b', X, Y, h1, h2, h3, h4⟩

/-- for `double`, whose pivots are compared after conversion to `float` -/
theorem C160_double_partial {n m : ℕ} (κ : ℝ) (A : Matrix (Fin n) (Fin n) ℝ) (B : Matrix (Fin n) (Fin m) ℝ) (hκ1 : 1 ≤ κ)
    (hd : ∀ i, ∑ j ∈ Finset.univ.erase i, |A i j| < |A i i|)
    (hκ : ∀ i, ∑ j, |A i j| ≤ κ * (|A i i| - ∑ j ∈ Finset.univ.erase i, |A i j|)) (hu : n * κ ≤ 2 ^ 45) (hκ2 : κ < 2 ^ 23)
    (a b : Buf (Fl ℝ (rne 53))) (ha : a.HoldsMat (A.map .num)) (hb : b.HoldsMat (B.map .num)) :
    ∃ (a' b' : Buf (Fl ℝ (rne 53))) (X Y : Matrix (Fin n) (Fin m) ℝ), A * X = B ∧
      solve (Fl.fabsf fun v => rne 24 |v|) a n b m = .ok (some (a', b')) ∧ b'.HoldsMat (Y.map .num) ∧
      ∀ (M : ℝ) (k : Fin m), (∀ j, |X j k| ≤ M) → ∀ j, |Y j k - X j k| ≤ 60 * n * κ * 2 ^ (-53 : ℤ) * M := by
  obtain ⟨a', b', X, Y, h1, -, h2, -, h3, h4⟩ := C160_dominant_partial (p := 53) (by norm_num) (fun v => rne 24 |v|)
    (2 ^ (-24 : ℤ)) κ (fun v => by simpa using (isRel_rne 24 (by norm_num)).err |v|)
    (by norm_num at hκ2 ⊢; linarith) A B hκ1 hd hκ (by norm_num at hu ⊢; linarith) a b ha hb
  exact ⟨a', b', X, Y, h1, h2, h3, h4⟩

/-! ## Examples -/

theorem C160_example_matrix : (∀ i : Fin 2, ∑ j ∈ Finset.univ.erase i, |(!![3, 1; -1, 4] : Matrix _ _ ℝ) i j| < |(!![3, 1; -1, 4] : Matrix _ _ ℝ) i i|) ∧
    ∀ i : Fin 2, ∑ j, |(!![3, 1; -1, 4] : Matrix _ _ ℝ) i j| ≤
      2 * (|(!![3, 1; -1, 4] : Matrix _ _ ℝ) i i| - ∑ j ∈ Finset.univ.erase i, |(!![3, 1; -1, 4] : Matrix _ _ ℝ) i j|) := by
  have e0 : (Finset.univ.erase (0 : Fin 2)) = {1} := by decide
  have e1 : (Finset.univ.erase (1 : Fin 2)) = {0} := by decide
  constructor <;> intro i <;> fin_cases i
  all_goals simp [e0, e1, Fin.sum_univ_two]
  all_goals norm_num

/-- a dominated matrix: `κ = 2` -/
example : ∃ (a' b' : Buf (Fl ℝ (rne 24))) (X Y : Matrix (Fin 2) (Fin 1) ℝ),
      (!![3, 1; -1, 4] : Matrix _ _ ℝ) * X = !![5; 7] ∧
    solve (Fl.fabsf abs) (Buf.ofList [.num 3, .num 1, .num (-1), .num 4]) 2 (Buf.ofList [.num 5, .num 7]) 1 =
      .ok (some (a', b')) ∧ b'.HoldsMat (Y.map .num) ∧
    ∀ (M : ℝ) (k : Fin 1), (∀ j, |X j k| ≤ M) → ∀ j, |Y j k - X j k| ≤ 60 * (2 : ℕ) * 2 * 2 ^ (-24 : ℤ) * M :=
  C160_float_partial 2 !![3, 1; -1, 4] !![5; 7] (by norm_num) C160_example_matrix.1 C160_example_matrix.2 (by norm_num) _ _
    ⟨by decide, fun i j => by fin_cases i <;> fin_cases j <;> rfl⟩
    ⟨by decide, fun i j => by fin_cases i <;> fin_cases j <;> rfl⟩

/-- the same matrix in `float`: the solution is 1, 2 -/
example : (solve (Fl.fabsf abs) (Buf.ofList [.num 3, .num 1, .num (-1), .num 4]) 2 (Buf.ofList [.num 5, .num 7] : Buf F32) 1).map
    (fun r => r.map fun p => p.2.toList) = .ok (some [some (.num 1), some (.num 2)]) := by decide +kernel

end MathLib
