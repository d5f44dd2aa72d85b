import Verif.Proof.GaussJordan
import Verif.Spec.MatrixBuffer
import Mathlib.LinearAlgebra.Matrix.ToLinearEquiv
import Mathlib.LinearAlgebra.Matrix.NonsingularInverse
import Mathlib.LinearAlgebra.Matrix.Notation
import Mathlib.Algebra.Order.Ring.Abs

/-! # Properties C18-C20: Gauss-Jordan elimination

Over an arbitrary linearly ordered field (in particular `ℝ`).  `absf` stands for `fabsf`: for
`Real = float` it is the absolute value, for `Real = double` the absolute value of the argument
rounded to `float`. -/

namespace MathLib
open GaussJordan

variable {K : Type} [Field K] [LinearOrder K] [BEq K] [LawfulBEq K]

/-- extension of a finite matrix by zero -/
def natExt {n w : ℕ} (A : Matrix (Fin n) (Fin w) K) (i j : ℕ) : K :=
  if h : i < n ∧ j < w then A ⟨i, h.1⟩ ⟨j, h.2⟩ else 0

omit [LinearOrder K] [BEq K] [LawfulBEq K] in
theorem natExt_fin {n w : ℕ} (A : Matrix (Fin n) (Fin w) K) (i : Fin n) (j : Fin w) :
    natExt A i j = A i j := by simp [natExt]

omit [LinearOrder K] [BEq K] [LawfulBEq K] in
theorem HoldsM_of_mat {n w : ℕ} {b : Buf K} {A : Matrix (Fin n) (Fin w) K} (h : b.HoldsMat A) :
    HoldsM b n w (natExt A) :=
  ⟨h.1, fun i hi j hj => by rw [h.2 ⟨i, hi⟩ ⟨j, hj⟩, ← natExt_fin A]⟩

omit [LinearOrder K] [BEq K] [LawfulBEq K] in
/-- the augmented system in matrix form -/
theorem Sys_iff {n m : ℕ} (A B : ℕ → ℕ → K) (x y : ℕ → K) :
    Sys n m A B x y ↔ ∀ i : Fin n,
      ∑ j : Fin n, A i j * x j + ∑ j : Fin m, B i j * y j = 0 := by
  simp only [Sys, lhs, ← Fin.sum_univ_eq_sum_range (fun j => A _ j * x j),
    ← Fin.sum_univ_eq_sum_range (fun j => B _ j * y j)]
  exact ⟨fun h i => h i i.2, fun h i hi => h ⟨i, hi⟩⟩

omit [LinearOrder K] [BEq K] [LawfulBEq K] in
/-- kernel of the square part -/
theorem Sys_det {n m : ℕ} (A : Matrix (Fin n) (Fin n) K) (B : ℕ → ℕ → K) :
    A.det = 0 ↔ ∃ x : ℕ → K, (∃ k < n, x k ≠ 0) ∧ Sys n m (natExt A) B x (fun _ => 0) := by
  rw [← Matrix.exists_mulVec_eq_zero_iff]
  constructor
  · rintro ⟨v, hv, h⟩
    obtain ⟨k, hk⟩ := Function.ne_iff.1 hv
    refine ⟨fun i => if h : i < n then v ⟨i, h⟩ else 0, ⟨k, k.2, by simpa using hk⟩, ?_⟩
    rw [Sys_iff]
    intro i
    have := congrFun h i
    simpa [Matrix.mulVec, dotProduct, natExt_fin] using this
  · rintro ⟨x, ⟨k, hk, hx⟩, h⟩
    refine ⟨fun i => x i, fun h0 => hx (congrFun h0 ⟨k, hk⟩), ?_⟩
    ext i
    have := (Sys_iff _ _ _ _).1 h i
    simpa [Matrix.mulVec, dotProduct, natExt_fin] using this

/-! ## C18 -/

/-- `GaussJordan::solve` never faults and, if it returns true, `b` holds a solution `X` of
`A * X = B`; `absf` only has to be non-negative, so this covers `float` and `double`. -/
theorem C18_solution (absf : K → K) (habs : ∀ x, 0 ≤ absf x) {n m : ℕ}
    (A : Matrix (Fin n) (Fin n) K) (B : Matrix (Fin n) (Fin m) K) (a b : Buf K)
    (ha : a.HoldsMat A) (hb : b.HoldsMat B) :
    ∃ ret, solve absf a n b m = .ok ret ∧
      ∀ a' b', ret = some (a', b') →
        ∃ X : Matrix (Fin n) (Fin m) K, b'.HoldsMat X ∧ A * X = B := by
  rcases solve_spec absf habs n m a b _ _ (HoldsM_of_mat ha) (HoldsM_of_mat hb) with
    ⟨a', b', X, e, -, hX, hsys⟩ | ⟨e, -⟩
  · refine ⟨_, e, ?_⟩
    rintro _ _ ⟨⟩
    refine ⟨Matrix.of fun i j => X i j, ⟨hX.1, fun i j => hX.2 i i.2 j j.2⟩, ?_⟩
    ext i c
    have h1 := (hsys (fun j => X j c) (fun j => if j = c then -1 else 0)).1 (by
      rw [Sys_iff]
      intro i
      simp [Fin.val_inj])
    have := (Sys_iff _ _ _ _).1 h1 i
    simp only [natExt_fin, Fin.val_inj] at this
    simp at this
    simp only [Matrix.mul_apply, Matrix.of_apply]
    linear_combination this
  · exact ⟨_, e, by simp⟩

/-! ## C19 -/

/-- With an exact absolute value, `false` is returned exactly for singular matrices, and no run
accesses an array out of range or reads an unset cell. -/
theorem C19_singular_iff [IsStrictOrderedRing K] {n m : ℕ}
    (A : Matrix (Fin n) (Fin n) K) (B : Matrix (Fin n) (Fin m) K) (a b : Buf K)
    (ha : a.HoldsMat A) (hb : b.HoldsMat B) :
    (∃ ret, solve (fun x : K => |x|) a n b m = .ok ret) ∧
    (solve (fun x : K => |x|) a n b m = .ok none ↔ A.det = 0) := by
  rcases solve_spec (fun x : K => |x|) (fun _ => abs_nonneg _) n m a b _ _ (HoldsM_of_mat ha)
    (HoldsM_of_mat hb) with ⟨a', b', X, e, -, hX, hsys⟩ | ⟨e, h⟩
  · refine ⟨⟨_, e⟩, ?_⟩
    rw [e]
    refine ⟨by simp, fun hdet => ?_⟩
    obtain ⟨x, ⟨k, hk, hx⟩, hs⟩ := (Sys_det A (natExt B) (m := m)).1 hdet
    have := (hsys x (fun _ => 0)).2 hs k hk
    simp only [lhs, ite_mul, one_mul, zero_mul, mul_zero, Finset.sum_const_zero, add_zero,
      Finset.sum_ite_eq, Finset.mem_range, hk, if_true] at this
    exact absurd this hx
  · refine ⟨⟨_, e⟩, ?_⟩
    refine ⟨fun _ => (Sys_det A (natExt B)).2 (h fun x hx => ?_), fun _ => e⟩
    simpa using hx

/-- Two runs, one of each kind. -/
example : (solve (fun x : ℚ => |x|) (Buf.ofList [0, 2, 1, 1]) 2 (Buf.ofList [4, 5]) 1).map
    (fun r => r.map (fun p => p.2.toList)) = .ok (some [some 3, some 2]) := by decide +kernel

example : (solve (fun x : ℚ => |x|) (Buf.ofList [1, 2, 2, 4]) 2 (Buf.ofList [4, 5]) 1).map
    (fun r => r.isNone) = .ok true := by decide +kernel

example : (Buf.ofList [(0 : ℚ), 2, 1, 1]).HoldsMat !![(0 : ℚ), 2; 1, 1] :=
  ⟨by decide, by decide +kernel⟩

/-- `fabsf` of a `double`: the conversion to `float` turns every magnitude up to `2^-150` into 0
(the rounding of larger magnitudes is left out here). -/
def fabsfFlush (x : ℚ) : ℚ := if |x| ≤ 1 / 2 ^ 150 then 0 else |x|

/-- For `Real = double` the pivot search compares `fabsf(a[j*n+k])`, i.e. magnitudes rounded to
`float`, and the invertible matrix `[[0,ε],[ε,0]]` with `ε = 2^-160` (a normal `double`) is reported
singular. -/
theorem C19_double_refuted :
    (solve fabsfFlush (Buf.ofList [0, 1 / 2 ^ 160, 1 / 2 ^ 160, 0]) 2 (Buf.ofList [1, 1]) 1).map
      (fun r => r.isNone) = .ok true ∧
    (!![0, 1 / 2 ^ 160; 1 / 2 ^ 160, 0] : Matrix (Fin 2) (Fin 2) ℚ).det ≠ 0 := by
  refine ⟨by decide +kernel, ?_⟩
  rw [Matrix.det_fin_two_of]
  norm_num

/-! ## C20 -/

/-- The part of the documentation that holds: with the identity matrix as right-hand side, `b` (not
`a`) is replaced by the inverse.  Missing: the documented replacement of `a`, which is refuted
below. -/
theorem C20_inverse_in_b_partial (absf : K → K) (habs : ∀ x, 0 ≤ absf x) {n : ℕ}
    (A : Matrix (Fin n) (Fin n) K) (a b : Buf K) (ha : a.HoldsMat A)
    (hb : b.HoldsMat (1 : Matrix (Fin n) (Fin n) K)) (a' b' : Buf K)
    (h : solve absf a n b n = .ok (some (a', b'))) :
    IsUnit A.det ∧ b'.HoldsMat A⁻¹ := by
  obtain ⟨ret, e, hr⟩ := C18_solution absf habs A 1 a b ha hb
  rw [h] at e
  cases e
  obtain ⟨X, hX, hAX⟩ := hr a' b' rfl
  have hdet : IsUnit A.det := (Matrix.isUnit_det_of_right_inverse hAX)
  exact ⟨hdet, by rwa [Matrix.inv_eq_right_inv hAX]⟩

/-- On success the array `a` holds a permutation matrix, whatever the input was. -/
theorem C20_permutation_left (absf : K → K) (habs : ∀ x, 0 ≤ absf x) {n m : ℕ}
    (A : Matrix (Fin n) (Fin n) K) (B : Matrix (Fin n) (Fin m) K) (a b : Buf K)
    (ha : a.HoldsMat A) (hb : b.HoldsMat B) (a' b' : Buf K)
    (h : solve absf a n b m = .ok (some (a', b'))) :
    ∃ σ : Equiv.Perm (Fin n),
      a'.HoldsMat (Matrix.of fun i j => if i = σ j then (1 : K) else 0) := by
  rcases solve_spec absf habs n m a b _ _ (HoldsM_of_mat ha) (HoldsM_of_mat hb) with
    ⟨a'', b'', X, e, ⟨σ, hσ, hA⟩, -, -⟩ | ⟨e, -⟩
  · rw [h] at e
    cases e
    let f : Fin n → Fin n := fun j => ⟨σ j, hσ j j.2⟩
    have hf : Function.Injective f := fun i j hij =>
      Fin.ext (σ.injective (congrArg Fin.val hij))
    refine ⟨Equiv.ofBijective f (Finite.injective_iff_bijective.1 hf), hA.1, fun i j => ?_⟩
    rw [hA.2 i i.2 j j.2]
    simp [f, Fin.ext_iff]
  · rw [h] at e
    cases e

/-- The documentation is wrong already for the 1×1 matrix `(2)`: `a` becomes `(1)`, not `(1/2)`. -/
theorem C20_refuted :
    (solve (fun x : ℚ => |x|) (Buf.ofList [2]) 1 (Buf.ofList [6]) 1).map
      (fun r => r.map (fun p => (p.1.toList, p.2.toList))) = .ok (some ([some 1], [some 3])) ∧
    ((!![2] : Matrix (Fin 1) (Fin 1) ℚ)⁻¹ 0 0 ≠ 1) := by
  refine ⟨by decide +kernel, ?_⟩
  simp

example : (solve (fun x : ℚ => |x|) (Buf.ofList [0, 2, 1, 1]) 2 (Buf.ofList [1, 0, 0, 1]) 2).map
    (fun r => r.map (fun p => (p.1.toList, p.2.toList))) =
    .ok (some ([some 0, some 1, some 1, some 0],
      [some (-1/2), some 1, some (1/2), some 0])) := by decide +kernel

end MathLib
