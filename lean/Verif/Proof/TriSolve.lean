import Verif.Proof.TriDiag
import Verif.Proof.VecModule
import Mathlib.Algebra.Order.Field.Basic

/-! # The overloads of `TriDiagonal::solve` and `solveCyclic` in terms of the elimination -/

namespace MathLib
open TriDiagonal

variable {K : Type} [Field K] [BEq K] [LawfulBEq K]

omit [BEq K] [LawfulBEq K] in
/-- row form of the matrix equation -/
theorem mulVec_tridiag (n : ℕ) (a b c : ℕ → K) (v : Fin n → K) (w : ℕ → K)
    (hw : ∀ i : Fin n, w i = v i) (i : Fin n) :
    (tridiag n a b c).mulVec v i = row n a b c w i := by
  rw [← row_eq_tridiag]
  simp only [Matrix.mulVec, dotProduct, smul_eq_mul, hw]

theorem scalar_spec (n : ℕ) (hn : 0 < n) (a b c r : ℕ → K) (A B C R U : Buf K)
    (hA : A.Holds (n - 1) a) (hB : B.Holds n b) (hC : C.Holds (n - 1) c) (hR : R.Holds n r)
    (hU : n ≤ U.size) :
    ((∀ j < n, piv a b c j ≠ 0) → ∃ U', TriDiagonal.solve A B C R U n = .ok (true, U') ∧
      U'.Holds n (sol a b c r n) ∧ U'.size = U.size ∧ ∀ j, n ≤ j → U'.data j = U.data j) ∧
    ((∃ j < n, piv a b c j = 0) → ∃ U', TriDiagonal.solve A B C R U n = .ok (false, U')) := by
  rw [TriDiagonal.solve, if_neg (by omega)]
  exact solveCore_spec _ _ _ (fun x y => rfl) (fun x k => rfl)
    (fun x k hk => by rw [smul_eq_mul, div_eq_inv_mul]) n hn a b c r A B C R U hA hB hC hR hU

theorem vec3_spec (n : ℕ) (hn : 0 < n) (a b c : ℕ → K) (r : ℕ → Vec3 K) (A B C : Buf K)
    (R U : Buf (Vec3 K))
    (hA : A.Holds (n - 1) a) (hB : B.Holds n b) (hC : C.Holds (n - 1) c) (hR : R.Holds n r)
    (hU : n ≤ U.size) :
    ((∀ j < n, piv a b c j ≠ 0) → ∃ U', TriDiagonal.solve3 A B C R U n = .ok (true, U') ∧
      U'.Holds n (sol a b c r n) ∧ U'.size = U.size ∧ ∀ j, n ≤ j → U'.data j = U.data j) ∧
    ((∃ j < n, piv a b c j = 0) → ∃ U', TriDiagonal.solve3 A B C R U n = .ok (false, U')) := by
  refine solveCore_spec _ _ _ (fun x y => rfl) (fun x k => rfl)
    (fun x k hk => ?_) n hn a b c r A B C R U hA hB hC hR hU
  simp only [Vec3.div, beq_iff_eq, hk, if_false, Vec3.smul_def]
  congr 1
  ext <;> simp [div_eq_mul_inv]

theorem dominant_pivots {F : Type} [Field F] [LinearOrder F] [IsStrictOrderedRing F] (n : ℕ)
    (a b c : ℕ → F)
    (hd : ∀ i < n, (if 0 < i then |a (i - 1)| else 0) + (if i + 1 < n then |c i| else 0) < |b i|) :
    ∀ j < n, piv a b c j ≠ 0 ∧ (j + 1 < n → |c j| < |piv a b c j|) := by
  intro j
  induction j with
  | zero =>
    intro hj
    have := hd 0 hj
    simp only [lt_irrefl, if_false, zero_add] at this
    have hpos : 0 < |b 0| := lt_of_le_of_lt (by split_ifs <;> positivity) this
    refine ⟨by simpa [piv] using hpos, fun h => ?_⟩
    rw [if_pos (by omega)] at this
    simpa [piv] using this
  | succ j ih =>
    intro hj
    obtain ⟨ih1, ih2⟩ := ih (by omega)
    have ih2 := ih2 hj
    have := hd (j + 1) hj
    simp only [Nat.succ_pos, if_true, Nat.add_sub_cancel] at this
    have hq : |c j / piv a b c j| ≤ 1 := by
      rw [abs_div, div_le_one (abs_pos.2 ih1)]; exact ih2.le
    have hb : |b (j + 1)| - |a j| ≤ |piv a b c (j + 1)| := by
      have h1 : |b (j + 1)| - |a j * (c j / piv a b c j)| ≤ |piv a b c (j + 1)| := by
        rw [piv]; exact abs_sub_abs_le_abs_sub _ _
      have h2 : |a j * (c j / piv a b c j)| ≤ |a j| := by
        rw [abs_mul]; exact mul_le_of_le_one_right (abs_nonneg _) hq
      linarith
    constructor
    · rw [← abs_pos]
      have : 0 ≤ (if j + 1 + 1 < n then |c (j + 1)| else 0) := by split_ifs <;> positivity
      linarith
    · intro h
      rw [if_pos h] at this
      linarith

omit [BEq K] [LawfulBEq K] in
theorem mulVec_cyclic (n : ℕ) (hn : 0 < n) (a b c : ℕ → K) (alpha beta : K) (v : Fin n → K)
    (w : ℕ → K) (hw : ∀ i : Fin n, w i = v i) (i : Fin n) :
    (cyclicTridiag n a b c alpha beta).mulVec v i = row n a b c w i +
      (if (i : ℕ) + 1 = n then alpha * w 0 else 0) + (if (i : ℕ) = 0 then beta * w (n - 1) else 0)
      := by
  rw [← mulVec_tridiag n a b c v w hw i]
  simp only [Matrix.mulVec, dotProduct, cyclicTridiag, add_mul, Finset.sum_add_distrib]
  congr 1
  · congr 1
    rw [Finset.sum_eq_single ⟨0, hn⟩]
    · simp only [and_true]
      rw [← hw]
      split_ifs <;> simp
    · intro j _ hj
      have : (j : ℕ) ≠ 0 := fun h => hj (Fin.ext h)
      simp [this]
    · simp
  · rw [Finset.sum_eq_single ⟨n - 1, by omega⟩]
    · have : n - 1 + 1 = n := by omega
      simp only [this, and_true]
      rw [← hw]
      split_ifs <;> simp
    · intro j _ hj
      have : ¬ ((j : ℕ) + 1 = n) := fun h => hj (Fin.ext (by simp only; omega))
      simp [this]
    · simp

theorem holds_set {α : Type} {b : Buf α} {i : ℕ} {v : α} (hi : i < b.size) :
    ∃ b', b.set i v = .ok b' ∧ b'.size = b.size ∧ b'.data i = some v ∧
      ∀ j, j ≠ i → b'.data j = b.data j :=
  ⟨_, Buf.set_of hi, rfl, by simp, fun j hj => by simp [hj]⟩

/-- What `solveCyclic` computes when it returns true and there are corner entries. -/
theorem cyclic_spec (n : ℕ) (hn : 2 < n) (a b c r : ℕ → K) (alpha beta : K) (A B C R X : Buf K)
    (hA : A.Holds (n - 1) a) (hB : B.Holds n b) (hC : C.Holds (n - 1) c) (hR : R.Holds n r)
    (hX : n ≤ X.size) (hab : ¬ (alpha = 0 ∧ beta = 0)) :
    ∃ ret X', solveCyclic A B C alpha beta R X n = .ok (ret, X') ∧
      (ret = true → b 0 ≠ 0 ∧ ∃ y z : ℕ → K,
        let bb : ℕ → K := fun i => if i = 0 then b 0 - -b 0 else
          if i + 1 = n then b (n - 1) - alpha * beta / -b 0 else b i
        (∀ i < n, row n a bb c y i = r i) ∧
        (∀ i < n, row n a bb c z i =
          if i = 0 then -b 0 else if i + 1 = n then alpha else 0) ∧
        X'.Holds n (fun i => y i - (y 0 + beta * y (n - 1) / -b 0) /
          (1 + z 0 + beta * z (n - 1) / -b 0) * z i)) := by
  set bb : ℕ → K := fun i => if i = 0 then b 0 - -b 0 else
          if i + 1 = n then b (n - 1) - alpha * beta / -b 0 else b i with hbb
  set uu : ℕ → K := fun i => if i = 0 then -b 0 else if i + 1 = n then alpha else 0 with huu
  have eb0 : B.get 0 = .ok (b 0) := hB.get (by omega)
  have ebl : B.get (n - 1) = .ok (b (n - 1)) := hB.get (by omega)
  -- building `bb`
  obtain ⟨B1, e1, s1, d1, f1⟩ := holds_set (b := (Buf.alloc n : Buf K)) (i := 0)
    (v := b 0 - -b 0) (by simp [Buf.alloc]; omega)
  obtain ⟨B2, e2, s2, d2, f2⟩ := holds_set (b := B1) (i := n - 1)
    (v := b (n - 1) - alpha * beta / -b 0) (by rw [s1]; simp [Buf.alloc]; omega)
  have hsz : B2.size = n := by rw [s2, s1]; rfl
  obtain ⟨B3, e3, s3, h3⟩ := loop_rule
    (f := fun i (bb : Buf K) => (do
      let bi ← B.get i
      bb.set i bi : Res (Buf K)))
    (fun i (q : Buf K) => q.size = n ∧ (∀ j < i, q.data j = some (bb j)) ∧
      q.data (n - 1) = some (bb (n - 1))) (lo := 1) (hi := n - 1) (s := B2) (by omega)
    ⟨hsz, fun j hj => by
      have : j = 0 := by omega
      subst this
      rw [f2 0 (by omega), d1]; simp [hbb],
      by
        rw [d2]
        have h1 : n - 1 ≠ 0 := by omega
        have h2 : n - 1 + 1 = n := by omega
        simp [hbb, h1, h2]⟩
    (by
      rintro i q h1 h2 ⟨q1, q2, q3⟩
      have eb : B.get i = .ok (b i) := hB.get (by omega)
      obtain ⟨q', e, s, d, f⟩ := holds_set (b := q) (i := i) (v := b i) (by omega)
      refine ⟨q', by simp only [eb, bind, Except.bind, e], by omega, ?_, ?_⟩
      · intro j hj
        by_cases hji : j = i
        · subst hji
          rw [d]
          have c1 : j ≠ 0 := by omega
          have c2 : ¬ (j + 1 = n) := by omega
          simp [hbb, c1, c2]
        · rw [f j hji]; exact q2 j (by omega)
      · rw [f _ (by omega)]; exact q3)
  obtain ⟨h3a, h3b⟩ := h3
  have hB3 : B3.Holds n bb := ⟨by omega, fun i hi => by
    by_cases h : i = n - 1
    · subst h; exact h3b
    · exact h3a i (by omega)⟩
  -- building `u`
  obtain ⟨U1, eu1, su1, du1, fu1⟩ := holds_set (b := (Buf.alloc n : Buf K)) (i := 0)
    (v := -b 0) (by simp [Buf.alloc]; omega)
  obtain ⟨U2, eu2, su2, du2, fu2⟩ := holds_set (b := U1) (i := n - 1)
    (v := alpha) (by rw [su1]; simp [Buf.alloc]; omega)
  have hsu : U2.size = n := by rw [su2, su1]; rfl
  obtain ⟨U3, eu3, su3, hu3⟩ := loop_rule
    (f := fun i (u : Buf K) => u.set i 0)
    (fun i (q : Buf K) => q.size = n ∧ (∀ j < i, q.data j = some (uu j)) ∧
      q.data (n - 1) = some (uu (n - 1))) (lo := 1) (hi := n - 1) (s := U2) (by omega)
    ⟨hsu, fun j hj => by
      have : j = 0 := by omega
      subst this
      rw [fu2 0 (by omega), du1]; simp [huu],
      by
        rw [du2]
        have h1 : n - 1 ≠ 0 := by omega
        have h2 : n - 1 + 1 = n := by omega
        simp [huu, h1, h2]⟩
    (by
      rintro i q h1 h2 ⟨q1, q2, q3⟩
      obtain ⟨q', e, s, d, f⟩ := holds_set (b := q) (i := i) (v := (0 : K)) (by omega)
      refine ⟨q', e, by omega, ?_, ?_⟩
      · intro j hj
        by_cases hji : j = i
        · subst hji
          rw [d]
          have c1 : j ≠ 0 := by omega
          have c2 : ¬ (j + 1 = n) := by omega
          simp [huu, c1, c2]
        · rw [f j hji]; exact q2 j (by omega)
      · rw [f _ (by omega)]; exact q3)
  obtain ⟨hu3a, hu3b⟩ := hu3
  have hU3 : U3.Holds n uu := ⟨by omega, fun i hi => by
    by_cases h : i = n - 1
    · subst h; exact hu3b
    · exact hu3a i (by omega)⟩
  -- the two solves
  have hab' : (alpha == 0 && beta == 0) = false := by
    rw [Bool.eq_false_iff]
    simpa using hab
  have hzsz : n ≤ (Buf.alloc n : Buf K).size := le_rfl
  have sx := scalar_spec n (by omega) a bb c r A B3 C R X hA hB3 hC hR hX
  have sz := scalar_spec n (by omega) a bb c uu A B3 C U3 (Buf.alloc n) hA hB3 hC hU3 hzsz
  by_cases hp : ∀ j < n, piv a bb c j ≠ 0
  · obtain ⟨X1, ex, hX1, sX1, -⟩ := sx.1 hp
    obtain ⟨Z1, ez, hZ1, -, -⟩ := sz.1 hp
    set y := sol a bb c r n with hy
    set z := sol a bb c uu n with hz
    set fact := (y 0 + beta * y (n - 1) / -b 0) / (1 + z 0 + beta * z (n - 1) / -b 0) with hfact
    obtain ⟨X2, ex2, sx2, hx2a, hx2b⟩ := loop_rule
      (f := fun i (x : Buf K) => (do
        let xi ← x.get i
        let zi ← Z1.get i
        x.set i (xi - fact * zi) : Res (Buf K)))
      (fun i (q : Buf K) => q.size = X.size ∧ (∀ j < i, q.data j = some (y j - fact * z j)) ∧
        (∀ j, i ≤ j → j < n → q.data j = some (y j))) (lo := 0) (hi := n) (s := X1) (by omega)
      ⟨sX1, by omega, fun j _ hj => hX1.2 j hj⟩
      (by
        rintro i q h1 h2 ⟨q1, q2, q3⟩
        have g1 : q.get i = .ok (y i) := Buf.get_of (by omega) (q3 i le_rfl h2)
        have g2 : Z1.get i = .ok (z i) := hZ1.get h2
        obtain ⟨q', e, s, d, f⟩ := holds_set (b := q) (i := i) (v := y i - fact * z i) (by omega)
        refine ⟨q', by simp only [g1, g2, bind, Except.bind, e], by omega, ?_, ?_⟩
        · intro j hj
          by_cases hji : j = i
          · subst hji; exact d
          · rw [f j hji]; exact q2 j (by omega)
        · intro j h4 h5
          rw [f j (by omega)]; exact q3 j (by omega) h5)
    refine ⟨true, X2, ?_, fun _ => ⟨?_, y, z, ?_, ?_, ⟨by omega, hx2a⟩⟩⟩
    · have g0 : X1.get 0 = .ok (y 0) := hX1.get (by omega)
      have g1 : X1.get (n - 1) = .ok (y (n - 1)) := hX1.get (by omega)
      have g2 : Z1.get 0 = .ok (z 0) := hZ1.get (by omega)
      have g3 : Z1.get (n - 1) = .ok (z (n - 1)) := hZ1.get (by omega)
      simp only [bind, Except.bind] at e3 ex2
      simp only [solveCyclic, hab', show ¬ n ≤ 2 by omega, if_false, bind, Except.bind, pure,
        Except.pure, eb0, ebl, e1, e2, e3, ex, eu1, eu2, eu3, ez, g0, g1, g2, g3,
        Bool.not_true, Bool.false_eq_true]
      rw [← hfact, ex2]
    · intro h0
      apply hp 0 (by omega)
      simp [piv, hbb, h0]
    · exact (rows_iff n a bb c r y hp).2 ((reduced_iff n a bb c r _).2 (fun i _ => rfl))
    · exact (rows_iff n a bb c uu z hp).2 ((reduced_iff n a bb c uu _).2 (fun i _ => rfl))
  · push Not at hp
    obtain ⟨X1, ex⟩ := sx.2 hp
    refine ⟨false, X1, ?_, by simp⟩
    simp only [bind, Except.bind] at e3
    simp only [solveCyclic, hab', show ¬ n ≤ 2 by omega, if_false, bind, Except.bind, pure,
      Except.pure, eb0, ebl, e1, e2, e3, ex, Bool.not_false, if_true, Bool.false_eq_true]

end MathLib
