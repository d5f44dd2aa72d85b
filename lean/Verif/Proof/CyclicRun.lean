import Verif.Proof.TriSolve

/-! # A run of `solveCyclic` over any scalar type

Given what the two calls of `solve` leave in their arrays, what the whole function leaves in `x`. -/

namespace MathLib
open TriDiagonal

variable {K : Type} [Zero K] [One K] [Add K] [Sub K] [Mul K] [Div K] [Neg K] [BEq K]

/-- the diagonal of the auxiliary system -/
def cycDiag (n : ℕ) (b : ℕ → K) (alpha beta : K) (i : ℕ) : K :=
  if i = 0 then b 0 - -b 0 else if i + 1 = n then b (n - 1) - alpha * beta / -b 0 else b i

/-- its second right-hand side -/
def cycRhs (n : ℕ) (b : ℕ → K) (alpha : K) (i : ℕ) : K :=
  if i = 0 then -b 0 else if i + 1 = n then alpha else 0

theorem cyclic_run (n : ℕ) (hn : 2 < n) (b : ℕ → K) (alpha beta : K) (A B C R X : Buf K)
    (hB : B.Holds n b) (hX : n ≤ X.size) (hab' : (alpha == 0 && beta == 0) = false) (y z : ℕ → K)
    (hy : ∀ B' : Buf K, B'.Holds n (cycDiag n b alpha beta) →
      ∃ Y, solve A B' C R X n = .ok (true, Y) ∧ Y.Holds n y ∧ Y.size = X.size)
    (hz : ∀ B' U Z : Buf K, B'.Holds n (cycDiag n b alpha beta) → U.Holds n (cycRhs n b alpha) → n ≤ Z.size →
      ∃ Z', solve A B' C U Z n = .ok (true, Z') ∧ Z'.Holds n z) :
    ∃ X', solveCyclic A B C alpha beta R X n = .ok (true, X') ∧
      X'.Holds n (fun i => y i - (y 0 + beta * y (n - 1) / -b 0) /
          (1 + z 0 + beta * z (n - 1) / -b 0) * z i) := by
  set bb : ℕ → K := cycDiag n b alpha beta with hbb0
  set uu : ℕ → K := cycRhs n b alpha with huu0
  have hbb : bb = fun i => if i = 0 then b 0 - -b 0 else
    if i + 1 = n then b (n - 1) - alpha * beta / -b 0 else b i := rfl
  have huu : uu = fun i => if i = 0 then -b 0 else if i + 1 = n then alpha else 0 := rfl
  have eb0 : B.get 0 = .ok (b 0) := hB.get (by omega)
  have ebl : B.get (n - 1) = .ok (b (n - 1)) := hB.get (by omega)
  -- building `bb`
  obtain ⟨B1, e1, s1, d1, f1⟩ := holds_set (b := (Buf.alloc n : Buf K)) (i := 0)
    (v := b 0 - -b 0) (by simp [Buf.alloc]; omega)
  obtain ⟨B2, e2, s2, d2, f2⟩ := holds_set (b := B1) (i := n - 1)
    (v := b (n - 1) - alpha * beta / -b 0) (by rw [s1]; simp [Buf.alloc]; omega)
  have hsz : B2.size = n := by rw [s2, s1]; rfl
  obtain ⟨B3, e3, s3, h3⟩ := loop_rule
    (f := fun i (bb : Buf K) => (do
      let bi ← B.get i
      bb.set i bi : Res (Buf K)))
    (fun i (q : Buf K) => q.size = n ∧ (∀ j < i, q.data j = some (bb j)) ∧
      q.data (n - 1) = some (bb (n - 1))) (lo := 1) (hi := n - 1) (s := B2) (by omega)
    ⟨hsz, fun j hj => by
      have : j = 0 := by omega
      subst this
      rw [f2 0 (by omega), d1]; simp [hbb],
      by
        rw [d2]
        have h1 : n - 1 ≠ 0 := by omega
        have h2 : n - 1 + 1 = n := by omega
        simp [hbb, h1, h2]⟩
    (by
      rintro i q h1 h2 ⟨q1, q2, q3⟩
      have eb : B.get i = .ok (b i) := hB.get (by omega)
      obtain ⟨q', e, s, d, f⟩ := holds_set (b := q) (i := i) (v := b i) (by omega)
      refine ⟨q', by simp only [eb, bind, Except.bind, e], by omega, ?_, ?_⟩
      · intro j hj
        by_cases hji : j = i
        · subst hji
          rw [d]
          have c1 : j ≠ 0 := by omega
          have c2 : ¬ (j + 1 = n) := by omega
          simp [hbb, c1, c2]
        · rw [f j hji]; exact q2 j (by omega)
      · rw [f _ (by omega)]; exact q3)
  obtain ⟨h3a, h3b⟩ := h3
  have hB3 : B3.Holds n bb := ⟨by omega, fun i hi => by
    by_cases h : i = n - 1
    · subst h; exact h3b
    · exact h3a i (by omega)⟩
  -- building `u`
  obtain ⟨U1, eu1, su1, du1, fu1⟩ := holds_set (b := (Buf.alloc n : Buf K)) (i := 0)
    (v := -b 0) (by simp [Buf.alloc]; omega)
  obtain ⟨U2, eu2, su2, du2, fu2⟩ := holds_set (b := U1) (i := n - 1)
    (v := alpha) (by rw [su1]; simp [Buf.alloc]; omega)
  have hsu : U2.size = n := by rw [su2, su1]; rfl
  obtain ⟨U3, eu3, su3, hu3⟩ := loop_rule
    (f := fun i (u : Buf K) => u.set i 0)
    (fun i (q : Buf K) => q.size = n ∧ (∀ j < i, q.data j = some (uu j)) ∧
      q.data (n - 1) = some (uu (n - 1))) (lo := 1) (hi := n - 1) (s := U2) (by omega)
    ⟨hsu, fun j hj => by
      have : j = 0 := by omega
      subst this
      rw [fu2 0 (by omega), du1]; simp [huu],
      by
        rw [du2]
        have h1 : n - 1 ≠ 0 := by omega
        have h2 : n - 1 + 1 = n := by omega
        simp [huu, h1, h2]⟩
    (by
      rintro i q h1 h2 ⟨q1, q2, q3⟩
      obtain ⟨q', e, s, d, f⟩ := holds_set (b := q) (i := i) (v := (0 : K)) (by omega)
      refine ⟨q', e, by omega, ?_, ?_⟩
      · intro j hj
        by_cases hji : j = i
        · subst hji
          rw [d]
          have c1 : j ≠ 0 := by omega
          have c2 : ¬ (j + 1 = n) := by omega
          simp [huu, c1, c2]
        · rw [f j hji]; exact q2 j (by omega)
      · rw [f _ (by omega)]; exact q3)
  obtain ⟨hu3a, hu3b⟩ := hu3
  have hU3 : U3.Holds n uu := ⟨by omega, fun i hi => by
    by_cases h : i = n - 1
    · subst h; exact hu3b
    · exact hu3a i (by omega)⟩
  -- the two solves
  obtain ⟨X1, ex, hX1, sX1⟩ := hy B3 hB3
  obtain ⟨Z1, ez, hZ1⟩ := hz B3 U3 (Buf.alloc n) hB3 hU3 le_rfl
  set fact := (y 0 + beta * y (n - 1) / -b 0) / (1 + z 0 + beta * z (n - 1) / -b 0) with hfact
  obtain ⟨X2, ex2, sx2, hx2a, hx2b⟩ := loop_rule
    (f := fun i (x : Buf K) => (do
      let xi ← x.get i
      let zi ← Z1.get i
      x.set i (xi - fact * zi) : Res (Buf K)))
    (fun i (q : Buf K) => q.size = X.size ∧ (∀ j < i, q.data j = some (y j - fact * z j)) ∧
      (∀ j, i ≤ j → j < n → q.data j = some (y j))) (lo := 0) (hi := n) (s := X1) (by omega)
    ⟨sX1, by omega, fun j _ hj => hX1.2 j hj⟩
    (by
      rintro i q h1 h2 ⟨q1, q2, q3⟩
      have g1 : q.get i = .ok (y i) := Buf.get_of (by omega) (q3 i le_rfl h2)
      have g2 : Z1.get i = .ok (z i) := hZ1.get h2
      obtain ⟨q', e, s, d, f⟩ := holds_set (b := q) (i := i) (v := y i - fact * z i) (by omega)
      refine ⟨q', by simp only [g1, g2, bind, Except.bind, e], by omega, ?_, ?_⟩
      · intro j hj
        by_cases hji : j = i
        · subst hji; exact d
        · rw [f j hji]; exact q2 j (by omega)
      · intro j h4 h5
        rw [f j (by omega)]; exact q3 j (by omega) h5)
  refine ⟨X2, ?_, by omega, hx2a⟩
  · have g0 : X1.get 0 = .ok (y 0) := hX1.get (by omega)
    have g1 : X1.get (n - 1) = .ok (y (n - 1)) := hX1.get (by omega)
    have g2 : Z1.get 0 = .ok (z 0) := hZ1.get (by omega)
    have g3 : Z1.get (n - 1) = .ok (z (n - 1)) := hZ1.get (by omega)
    simp only [bind, Except.bind] at e3 ex2
    simp only [solveCyclic, hab', show ¬ n ≤ 2 by omega, if_false, bind, Except.bind, pure,
      Except.pure, eb0, ebl, e1, e2, e3, ex, eu1, eu2, eu3, ez, g0, g1, g2, g3,
      Bool.not_true, Bool.false_eq_true]
    rw [← hfact, ex2]

end MathLib
