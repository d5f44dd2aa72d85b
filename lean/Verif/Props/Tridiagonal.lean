import Verif.Proof.TriSolve
import Mathlib.LinearAlgebra.Matrix.ToLinearEquiv
import Mathlib.Data.Rat.Defs
import Mathlib.Data.Real.Basic
import Mathlib.LinearAlgebra.Matrix.Notation

/-! # Properties C15-C17: tridiagonal solvers

Stated over an arbitrary field `K` (in particular `ℝ` and `ℚ`).  The hypotheses `Holds` say that
the arrays have (at least) the documented extents and are initialised; `u` only has to be
allocated. -/

namespace MathLib
open TriDiagonal

variable {K : Type} [Field K] [BEq K] [LawfulBEq K]

/-! ## C15 -/

/-- `TriDiagonal::solve` never faults; if it returns true, the `n` first cells of `u` hold the one
and only solution of the tridiagonal system, and nothing beyond them is touched. -/
theorem C15_solve (n : ℕ) (hn : 0 < n) (a b c r : ℕ → K) (A B C R U : Buf K)
    (hA : A.Holds (n - 1) a) (hB : B.Holds n b) (hC : C.Holds (n - 1) c) (hR : R.Holds n r)
    (hU : n ≤ U.size) :
    ∃ ret U', TriDiagonal.solve A B C R U n = .ok (ret, U') ∧
      (ret = true → ∃ u : ℕ → K, U'.Holds n u ∧ (∀ j, n ≤ j → U'.data j = U.data j) ∧
        (tridiag n a b c).mulVec (fun i => u i) = (fun i : Fin n => r i) ∧
        ∀ v : Fin n → K, (tridiag n a b c).mulVec v = (fun i : Fin n => r i) → v = fun i : Fin n => u i) := by
  obtain ⟨h1, h2⟩ := scalar_spec n hn a b c r A B C R U hA hB hC hR hU
  by_cases hp : ∀ j < n, piv a b c j ≠ 0
  · obtain ⟨U', e, hU', -, htail⟩ := h1 hp
    refine ⟨true, U', e, fun _ => ⟨_, hU', htail, ?_, ?_⟩⟩
    · have := (rows_iff n a b c r (sol a b c r n) hp).2
        ((reduced_iff n a b c r _).2 (fun i _ => rfl))
      ext i
      rw [mulVec_tridiag n a b c _ (sol a b c r n) (fun _ => rfl)]
      exact this i i.2
    · intro v hv
      let w : ℕ → K := fun i => if h : i < n then v ⟨i, h⟩ else 0
      have hw : ∀ i : Fin n, w i = v i := fun i => by simp [w]
      have := (reduced_iff n a b c r w).1 ((rows_iff n a b c r w hp).1 (fun i hi => by
        rw [← mulVec_tridiag n a b c v w hw ⟨i, hi⟩, hv]))
      ext i
      rw [← hw i]; exact this i i.2
  · push Not at hp
    obtain ⟨U', e⟩ := h2 hp
    exact ⟨false, U', e, by simp⟩

/-- The same for `Vec3` right-hand sides: every row sum of scalar coefficients times vectors. -/
theorem C15_solve_vec3 (n : ℕ) (hn : 0 < n) (a b c : ℕ → K) (r : ℕ → Vec3 K) (A B C : Buf K)
    (R U : Buf (Vec3 K))
    (hA : A.Holds (n - 1) a) (hB : B.Holds n b) (hC : C.Holds (n - 1) c) (hR : R.Holds n r)
    (hU : n ≤ U.size) :
    ∃ ret U', TriDiagonal.solve3 A B C R U n = .ok (ret, U') ∧
      (ret = true → ∃ u : ℕ → Vec3 K, U'.Holds n u ∧ (∀ j, n ≤ j → U'.data j = U.data j) ∧
        (∀ i : Fin n, ∑ j : Fin n, u j * tridiag n a b c i j = r i) ∧
        ∀ v : Fin n → Vec3 K, (∀ i : Fin n, ∑ j : Fin n, v j * tridiag n a b c i j = r i) →
          v = fun i : Fin n => u i) := by
  obtain ⟨h1, h2⟩ := vec3_spec n hn a b c r A B C R U hA hB hC hR hU
  by_cases hp : ∀ j < n, piv a b c j ≠ 0
  · obtain ⟨U', e, hU', -, htail⟩ := h1 hp
    refine ⟨true, U', e, fun _ => ⟨_, hU', htail, ?_, ?_⟩⟩
    · have := (rows_iff n a b c r (sol a b c r n) hp).2
        ((reduced_iff n a b c r _).2 (fun i _ => rfl))
      intro i
      rw [← this i i.2, ← row_eq_tridiag]
      rfl
    · intro v hv
      let w : ℕ → Vec3 K := fun i => if h : i < n then v ⟨i, h⟩ else 0
      have hw : ∀ i : Fin n, w i = v i := fun i => by simp [w]
      have := (reduced_iff n a b c r w).1 ((rows_iff n a b c r w hp).1 (fun i hi => by
        have e := row_eq_tridiag n a b c w ⟨i, hi⟩
        simp only [hw] at e
        rw [← e, ← hv ⟨i, hi⟩]
        rfl))
      ext1 i
      rw [← hw i]; exact this i i.2
  · push Not at hp
    obtain ⟨U', e⟩ := h2 hp
    exact ⟨false, U', e, by simp⟩

omit [LawfulBEq K] in
/-- `n = 0`: the scalar overload asserts; the `Vec3` overload has no assertion and reads `b[0]`
out of range. -/
theorem C15_empty (A B C R U : Buf K) (R3 U3 : Buf (Vec3 K)) (hB : B.size = 0) :
    TriDiagonal.solve A B C R U 0 = .error .assertion ∧
    TriDiagonal.solve3 A B C R3 U3 0 = .error .outOfRange := by
  constructor
  · simp [TriDiagonal.solve]
  · simp [TriDiagonal.solve3, TriDiagonal.solveCore, Buf.get, hB, bind, Except.bind]

/-- Hypotheses are satisfiable and the success branch is reached (test_linearequations.cpp). -/
example : (TriDiagonal.solve (Buf.ofList [(1 : ℚ)]) (Buf.ofList [2, 3]) (Buf.ofList [1])
    (Buf.ofList [5, 10]) (Buf.alloc 2) 2).map (fun p => (p.1, p.2.toList)) =
      .ok (true, [some 1, some 3]) := by decide +kernel

example : (TriDiagonal.solve3 (Buf.ofList [(1 : ℚ)]) (Buf.ofList [2, 3]) (Buf.ofList [1])
    (Buf.ofList [⟨5, 0, 2⟩, ⟨10, 5, 1⟩]) (Buf.alloc 2) 2).map (fun p => (p.1, p.2.toList)) =
      .ok (true, [some ⟨1, -1, 1⟩, some ⟨3, 2, 0⟩]) := by decide +kernel

example : (Buf.ofList [(2 : ℚ), 3]).Holds 2 (fun i => [(2 : ℚ), 3][i]!) := Buf.ofList_holds _

/-! ## C16 -/

/-- `false` is returned exactly when some leading principal minor vanishes. -/
theorem C16_iff (n : ℕ) (hn : 0 < n) (a b c r : ℕ → K) (A B C R U : Buf K)
    (hA : A.Holds (n - 1) a) (hB : B.Holds n b) (hC : C.Holds (n - 1) c) (hR : R.Holds n r)
    (hU : n ≤ U.size) :
    (∃ U', TriDiagonal.solve A B C R U n = .ok (false, U')) ↔
      ∃ k ≤ n, (tridiag k a b c).det = 0 := by
  obtain ⟨h1, h2⟩ := scalar_spec n hn a b c r A B C R U hA hB hC hR hU
  constructor
  · rintro ⟨U', e⟩
    by_contra hc
    push Not at hc
    obtain ⟨U'', e', -⟩ := h1 ((pivots_iff_minors a b c n).2 hc)
    rw [e] at e'
    simp at e'
  · intro h
    apply h2
    by_contra hc
    push Not at hc
    obtain ⟨k, hk, hd⟩ := h
    exact (pivots_iff_minors a b c n).1 hc k hk hd

/-- The same for `Vec3` right-hand sides. -/
theorem C16_iff_vec3 (n : ℕ) (hn : 0 < n) (a b c : ℕ → K) (r : ℕ → Vec3 K) (A B C : Buf K)
    (R U : Buf (Vec3 K))
    (hA : A.Holds (n - 1) a) (hB : B.Holds n b) (hC : C.Holds (n - 1) c) (hR : R.Holds n r)
    (hU : n ≤ U.size) :
    (∃ U', TriDiagonal.solve3 A B C R U n = .ok (false, U')) ↔
      ∃ k ≤ n, (tridiag k a b c).det = 0 := by
  obtain ⟨h1, h2⟩ := vec3_spec n hn a b c r A B C R U hA hB hC hR hU
  constructor
  · rintro ⟨U', e⟩
    by_contra hc
    push Not at hc
    obtain ⟨U'', e', -⟩ := h1 ((pivots_iff_minors a b c n).2 hc)
    rw [e] at e'
    simp at e'
  · intro h
    apply h2
    by_contra hc
    push Not at hc
    obtain ⟨k, hk, hd⟩ := h
    exact (pivots_iff_minors a b c n).1 hc k hk hd

/-- Strictly (row) diagonally dominant systems are always solved, whatever their size. -/
theorem C16_dominant {F : Type} [Field F] [LinearOrder F] [IsStrictOrderedRing F] (n : ℕ)
    (hn : 0 < n) (a b c r : ℕ → F) (A B C R U : Buf F)
    (hA : A.Holds (n - 1) a) (hB : B.Holds n b) (hC : C.Holds (n - 1) c) (hR : R.Holds n r)
    (hU : n ≤ U.size)
    (hd : ∀ i < n, (if 0 < i then |a (i - 1)| else 0) + (if i + 1 < n then |c i| else 0) < |b i|) :
    ∃ U', TriDiagonal.solve A B C R U n = .ok (true, U') := by
  obtain ⟨U', e, -⟩ := (scalar_spec n hn a b c r A B C R U hA hB hC hR hU).1
    (fun j hj => (dominant_pivots n a b c hd j hj).1)
  exact ⟨U', e⟩

/-- It can return false on an invertible matrix: `[[0,1],[1,0]]`. -/
theorem C16_false_on_invertible :
    (∃ U', TriDiagonal.solve (Buf.ofList [(1 : ℚ)]) (Buf.ofList [0, 0]) (Buf.ofList [1])
      (Buf.ofList [5, 10]) (Buf.alloc 2) 2 = .ok (false, U')) ∧
    (tridiag 2 (fun _ => (1 : ℚ)) (fun _ => 0) (fun _ => 1)).det ≠ 0 := by
  refine ⟨⟨_, rfl⟩, ?_⟩
  rw [Matrix.det_fin_two]
  simp [tridiag]

/-! ## C17 -/

/-- `solveCyclic` never faults (given the documented extents), returns false for `n ≤ 2`, and if
it returns true on an **invertible** cyclic system then `x` holds its solution.
Missing: singular systems, where it can return true although nothing was solved
(`C17_refuted`). -/
theorem C17_solveCyclic_partial (n : ℕ) (a b c r : ℕ → K) (alpha beta : K) (A B C R X : Buf K)
    (hA : A.Holds (n - 1) a) (hB : B.Holds n b) (hC : C.Holds (n - 1) c) (hR : R.Holds n r)
    (hX : n ≤ X.size) :
    ∃ ret X', solveCyclic A B C alpha beta R X n = .ok (ret, X') ∧ (n ≤ 2 → ret = false) ∧
      (ret = true → (cyclicTridiag n a b c alpha beta).det ≠ 0 → ∃ x : ℕ → K, X'.Holds n x ∧
        (cyclicTridiag n a b c alpha beta).mulVec (fun i => x i) = (fun i : Fin n => r i)) := by
  by_cases hn : n ≤ 2
  · exact ⟨false, X, by simp [solveCyclic, hn, pure, Except.pure], fun _ => rfl, by simp⟩
  by_cases hab : alpha = 0 ∧ beta = 0
  · obtain ⟨ret, X', e, h⟩ := C15_solve n (by omega) a b c r A B C R X hA hB hC hR hX
    refine ⟨ret, X', ?_, fun h => absurd h hn, fun hr _ => ?_⟩
    · simp [solveCyclic, hn, hab, e]
    · obtain ⟨u, h1, -, h2, -⟩ := h hr
      refine ⟨u, h1, ?_⟩
      rw [← h2]
      congr 1
      ext i j
      simp [cyclicTridiag, hab]
  obtain ⟨ret, X', e, h⟩ := cyclic_spec n (by omega) a b c r alpha beta A B C R X hA hB hC hR hX hab
  refine ⟨ret, X', e, fun h => absurd h hn, fun hr hdet => ?_⟩
  obtain ⟨hb0, y, z, hy, hz, hX'⟩ := h hr
  refine ⟨_, hX', ?_⟩
  set bb : ℕ → K := fun i => if i = 0 then b 0 - -b 0 else
    if i + 1 = n then b (n - 1) - alpha * beta / -b 0 else b i with hbb
  -- rows of M in terms of rows of the modified matrix
  have rowM : ∀ (w : ℕ → K) (i : ℕ), i < n → row n a b c w i +
      (if i + 1 = n then alpha * w 0 else 0) + (if i = 0 then beta * w (n - 1) else 0) =
      row n a bb c w i + (if i = 0 then -b 0 else if i + 1 = n then alpha else 0) *
        (w 0 + beta * w (n - 1) / -b 0) := by
    intro w i hi
    have hbb' : row n a b c w i = row n a bb c w i + (b i - bb i) * w i := by
      simp only [row, smul_eq_mul]; ring
    rw [hbb']
    by_cases c1 : i = 0
    · subst c1
      have : ¬ (0 + 1 = n) := by omega
      have e1 : bb 0 = b 0 - -b 0 := by simp only [hbb, if_true]
      rw [e1]
      simp only [this, if_false, if_true]
      field_simp; ring
    · by_cases c2 : i + 1 = n
      · have hi' : i = n - 1 := by omega
        have e1 : bb i = b (n - 1) - alpha * beta / -b 0 := by simp only [hbb, c1, c2, if_false, if_true]
        rw [e1]
        simp only [c1, c2, if_false, if_true]
        rw [hi']
        field_simp; ring
      · simp only [c1, c2, if_false, hbb]; ring
  by_cases hden : 1 + z 0 + beta * z (n - 1) / -b 0 = 0
  · -- then M z = 0 with z ≠ 0
    exfalso
    apply hdet
    rw [← Matrix.exists_mulVec_eq_zero_iff]
    refine ⟨fun i => z i, ?_, ?_⟩
    · intro hz0
      have hz0' : ∀ i < n, z i = 0 := fun i hi => congrFun hz0 ⟨i, hi⟩
      have := hz 0 (by omega)
      simp only [row, lt_irrefl, if_false, if_true, smul_eq_mul, hz0' 0 (by omega),
        hz0' (0 + 1) (by omega)] at this
      simp at this
      exact hb0 this
    · ext i
      rw [mulVec_cyclic n (by omega) a b c alpha beta _ z (fun _ => rfl), rowM z i i.2, hz i i.2]
      simp only [Pi.zero_apply]
      have : z 0 + beta * z (n - 1) / -b 0 = -1 := by
        rw [eq_neg_iff_add_eq_zero, ← hden]; ring
      rw [this]; ring
  · ext i
    set x : ℕ → K := fun i => y i - (y 0 + beta * y (n - 1) / -b 0) /
          (1 + z 0 + beta * z (n - 1) / -b 0) * z i with hx
    rw [mulVec_cyclic n (by omega) a b c alpha beta _ x (fun _ => rfl), rowM x i i.2]
    set fact := (y 0 + beta * y (n - 1) / -b 0) / (1 + z 0 + beta * z (n - 1) / -b 0) with hf
    have hlin : row n a bb c x i = row n a bb c y i - fact * row n a bb c z i := by
      simp only [row, hx, smul_eq_mul]
      split_ifs <;> ring
    have hfd : fact * (1 + z 0 + beta * z (n - 1) / -b 0) = y 0 + beta * y (n - 1) / -b 0 := by
      rw [hf, div_mul_cancel₀ _ hden]
    rw [hlin, hy i i.2, hz i i.2]
    set q : K := if (i : ℕ) = 0 then -b 0 else if (i : ℕ) + 1 = n then alpha else 0 with hq
    have : x 0 + beta * x (n - 1) / -b 0 = fact := by
      have e : x 0 + beta * x (n - 1) / -b 0 = (y 0 + beta * y (n - 1) / -b 0) -
          fact * (z 0 + beta * z (n - 1) / -b 0) := by
        simp only [hx]; ring
      rw [e, ← hfd]; ring
    rw [this]; ring

/-- A singular cyclic system without any solution for which `solveCyclic` returns true: the
periodic Laplacian of size 3 with right-hand side `(1,0,0)`.  (In the exact model the quotient by
zero is 0; in floating point `x` is filled with infinities or NaN.) -/
theorem C17_refuted :
    ((solveCyclic (Buf.ofList [(-1 : ℚ), -1]) (Buf.ofList [2, 2, 2]) (Buf.ofList [-1, -1]) (-1) (-1)
      (Buf.ofList [1, 0, 0]) (Buf.alloc 3) 3).map (fun p => p.1) = .ok true) ∧
    ¬ ∃ x : Fin 3 → ℚ, (cyclicTridiag 3 (fun _ => (-1 : ℚ)) (fun _ => 2) (fun _ => -1) (-1)
      (-1)).mulVec x = ![1, 0, 0] := by
  refine ⟨by decide +kernel, ?_⟩
  rintro ⟨x, hx⟩
  have h0 := congrFun hx 0
  have h1 := congrFun hx 1
  have h2 := congrFun hx 2
  simp [Matrix.mulVec, dotProduct, Fin.sum_univ_three, cyclicTridiag, tridiag] at h0 h1 h2
  linarith

example : (solveCyclic (Buf.ofList [(1 : ℚ), 1]) (Buf.ofList [4, 4, 4]) (Buf.ofList [1, 1]) 1 1
      (Buf.ofList [6, 6, 12]) (Buf.alloc 3) 3).map (fun p => (p.1, p.2.toList)) =
      .ok (true, [some (2/3), some (2/3), some (8/3)]) := by decide +kernel

/-- The determinant hypothesis of `C17_solveCyclic_partial` is met by that system. -/
example : (cyclicTridiag 3 (fun _ => (1 : ℚ)) (fun _ => 4) (fun _ => 1) 1 1).det ≠ 0 := by
  rw [Matrix.det_fin_three]
  simp [cyclicTridiag, tridiag]
  norm_num

end MathLib
