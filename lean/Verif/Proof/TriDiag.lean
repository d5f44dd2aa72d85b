import Verif.Model.LinearEquations
import Verif.Proof.Loops
import Verif.Spec.Tridiagonal
import Mathlib.LinearAlgebra.Matrix.Block
import Mathlib.Algebra.Module.Basic
import Mathlib.Tactic.Module
import Mathlib.Tactic.Linarith
import Mathlib.Tactic.FieldSimp

/-! # Correctness of the tridiagonal elimination -/

namespace MathLib
namespace TriDiagonal

variable {K : Type} [Field K] {V : Type} [AddCommGroup V] [Module K V]

section seqs
variable (a b c : ℕ → K) (r : ℕ → V)

mutual
/-- pivots of the elimination without row exchange -/
def piv : ℕ → K
  | 0 => b 0
  | j + 1 => b (j + 1) - a j * (c j / piv j)
end

def gam (j : ℕ) : K := c (j - 1) / piv a b c (j - 1)

def fwd : ℕ → V
  | 0 => (piv a b c 0)⁻¹ • r 0
  | j + 1 => (piv a b c (j + 1))⁻¹ • (r (j + 1) - a j • fwd j)

/-- back substitution, counted from the last index -/
def bwd (n : ℕ) : ℕ → V
  | 0 => fwd a b c r (n - 1)
  | k + 1 => fwd a b c r (n - 1 - (k + 1)) - gam a b c (n - 1 - k) • bwd n k

def sol (n j : ℕ) : V := bwd a b c r n (n - 1 - j)

theorem sol_last (n : ℕ) : sol a b c r n (n - 1) = fwd a b c r (n - 1) := by
  simp [sol, bwd]

theorem sol_step (n j : ℕ) (h : j + 1 < n) :
    sol a b c r n j = fwd a b c r j - gam a b c (j + 1) • sol a b c r n (j + 1) := by
  unfold sol
  have : n - 1 - j = (n - 1 - (j + 1)) + 1 := by omega
  rw [this, bwd]
  congr 2 <;> first | omega | (congr 1; omega)

end seqs

/-- left-hand side of row `i` -/
def row (n : ℕ) (a b c : ℕ → K) (v : ℕ → V) (i : ℕ) : V :=
  (if 0 < i then a (i - 1) • v (i - 1) else 0) + b i • v i +
    (if i + 1 < n then c i • v (i + 1) else 0)

theorem row_eq_tridiag (n : ℕ) (a b c : ℕ → K) (v : ℕ → V) (i : Fin n) :
    ∑ j : Fin n, tridiag n a b c i j • v j = row n a b c v i := by
  have h : ∀ j : Fin n, tridiag n a b c i j • v j =
      (if (i : ℕ) = j + 1 then a j • v j else 0) + (if i = j then b i • v j else 0) +
        (if (i : ℕ) + 1 = j then c i • v j else 0) := by
    intro j
    unfold tridiag
    by_cases h1 : (i : ℕ) = j
    · have : i = j := Fin.ext h1
      subst this
      simp
    · have h1' : i ≠ j := fun h => h1 (congrArg _ h)
      by_cases h2 : (i : ℕ) = j + 1
      · have : ¬ ((j : ℕ) + 1 + 1 = j) := by omega
        simp [h1', h2, this]
      · by_cases h3 : (i : ℕ) + 1 = j
        · simp [h1, h1', h2, h3]
        · simp [h1, h1', h2, h3]
  simp only [h, Finset.sum_add_distrib]
  unfold row
  congr 1
  · congr 1
    · by_cases hi : 0 < (i : ℕ)
      · rw [if_pos hi, Finset.sum_eq_single ⟨i - 1, by omega⟩]
        · rw [if_pos (by simp; omega)]
        · intro j _ hj
          rw [if_neg]
          intro h'; apply hj; ext; simp; omega
        · simp
      · rw [if_neg hi]
        apply Finset.sum_eq_zero
        intro j _
        rw [if_neg (by omega)]
    · simp
  · by_cases hi : (i : ℕ) + 1 < n
    · rw [if_pos hi, Finset.sum_eq_single ⟨i + 1, hi⟩]
      · rw [if_pos (by simp)]
      · intro j _ hj
        rw [if_neg]
        intro h'; apply hj; ext; simp; omega
      · simp
    · rw [if_neg hi]
      apply Finset.sum_eq_zero
      intro j _
      rw [if_neg (by omega)]

/-- the rows hold iff the reduced (upper bidiagonal) equations hold -/
theorem rows_iff (n : ℕ) (a b c : ℕ → K) (r v : ℕ → V) (hp : ∀ j < n, piv a b c j ≠ 0) :
    (∀ i < n, row n a b c v i = r i) ↔
    (∀ i < n, v i + (if i + 1 < n then gam a b c (i + 1) • v (i + 1) else 0) = fwd a b c r i) := by
  have key : ∀ i < n, (∀ j, j + 1 = i →
      v j + gam a b c (j + 1) • v (j + 1) = fwd a b c r j) →
      (row n a b c v i = r i ↔
        v i + (if i + 1 < n then gam a b c (i + 1) • v (i + 1) else 0) = fwd a b c r i) := by
    intro i hi hprev
    have hpi := hp i hi
    have htail : (piv a b c i)⁻¹ • (if i + 1 < n then c i • v (i + 1) else 0) =
        (if i + 1 < n then gam a b c (i + 1) • v (i + 1) else 0) := by
      split_ifs
      · rw [smul_smul, gam, Nat.add_sub_cancel, div_eq_inv_mul]
      · simp
    have hred : row n a b c v i = r i ↔
        piv a b c i • v i + (if i + 1 < n then c i • v (i + 1) else 0) =
          piv a b c i • fwd a b c r i := by
      cases i with
      | zero =>
        simp only [row, fwd, piv, lt_irrefl, if_false, zero_add]
        rw [smul_smul, mul_inv_cancel₀ (by simpa [piv] using hpi), one_smul]
      | succ i =>
        have h := hprev i rfl
        rw [fwd, smul_smul, mul_inv_cancel₀ hpi, one_smul, ← h]
        simp only [row, Nat.succ_pos, if_true, Nat.add_sub_cancel, piv, gam]
        set t := (if i + 1 + 1 < n then c (i + 1) • v (i + 1 + 1) else 0)
        constructor
        · intro e
          rw [← e]; module
        · intro e
          rw [← sub_eq_zero] at e ⊢
          rw [← e]; module
    rw [hred, ← htail]
    constructor
    · intro e
      have := congrArg (fun w => (piv a b c i)⁻¹ • w) e
      simp only [smul_add, smul_smul, inv_mul_cancel₀ hpi, one_smul] at this
      exact this
    · intro e
      rw [← e, smul_add, smul_smul, mul_inv_cancel₀ hpi, one_smul]
  constructor
  · intro h i hi
    induction i with
    | zero => exact (key 0 hi (by omega)).1 (h 0 hi)
    | succ i ih =>
      refine (key (i + 1) hi ?_).1 (h (i + 1) hi)
      intro j hj
      have : j = i := by omega
      subst this
      have := ih (by omega)
      rwa [if_pos hi] at this
  · intro h i hi
    refine (key i hi ?_).2 (h i hi)
    intro j hj
    subst hj
    have := h j (by omega)
    rwa [if_pos hi] at this

/-- the reduced system has exactly the solution `sol` -/
theorem reduced_iff (n : ℕ) (a b c : ℕ → K) (r v : ℕ → V) :
    (∀ i < n, v i + (if i + 1 < n then gam a b c (i + 1) • v (i + 1) else 0) = fwd a b c r i) ↔
    ∀ i < n, v i = sol a b c r n i := by
  constructor
  · intro h
    have : ∀ k, k < n → v (n - 1 - k) = sol a b c r n (n - 1 - k) := by
      intro k
      induction k with
      | zero =>
        intro hk
        have := h (n - 1) (by omega)
        rw [if_neg (by omega), add_zero] at this
        simpa [sol_last] using this
      | succ k ih =>
        intro hk
        have := h (n - 1 - (k + 1)) (by omega)
        rw [if_pos (by omega)] at this
        rw [sol_step _ _ _ _ _ _ (by omega), ← this]
        have e : n - 1 - (k + 1) + 1 = n - 1 - k := by omega
        rw [e, ih (by omega)]; abel
    intro i hi
    have := this (n - 1 - i) (by omega)
    rwa [show n - 1 - (n - 1 - i) = i by omega] at this
  · intro h i hi
    by_cases hi' : i + 1 < n
    · rw [if_pos hi', h i hi, h (i + 1) hi', sol_step _ _ _ _ _ _ hi']; abel
    · rw [if_neg hi', h i hi, add_zero]
      have : i = n - 1 := by omega
      rw [this, sol_last]

/-! ## determinant = product of pivots -/

section det
variable (a b c : ℕ → K)

def lowerM (n : ℕ) : Matrix (Fin n) (Fin n) K := fun i j =>
  if (i : ℕ) = j then piv a b c i else if (i : ℕ) = j + 1 then a j else 0

def upperM (n : ℕ) : Matrix (Fin n) (Fin n) K := fun i j =>
  if (i : ℕ) = j then 1 else if (i : ℕ) + 1 = j then gam a b c j else 0

theorem lu (n : ℕ) (hp : ∀ j, j + 1 < n → piv a b c j ≠ 0) :
    tridiag n a b c = lowerM a b c n * upperM a b c n := by
  ext i j
  rw [Matrix.mul_apply]
  have h : ∀ k : Fin n, lowerM a b c n i k * upperM a b c n k j =
      (if k = i then piv a b c i * upperM a b c n i j else 0) +
      (if (i : ℕ) = k + 1 then a k * upperM a b c n k j else 0) := by
    intro k
    unfold lowerM
    by_cases h1 : (i : ℕ) = k
    · have : i = k := Fin.ext h1
      subst this
      simp
    · have h1' : ¬ k = i := fun h => h1 (congrArg _ h.symm)
      by_cases h2 : (i : ℕ) = k + 1 <;> simp [h1, h1', h2]
  simp only [h, Finset.sum_add_distrib, Finset.sum_ite_eq', Finset.mem_univ, if_true]
  by_cases hi : 0 < (i : ℕ)
  · rw [Finset.sum_eq_single ⟨i - 1, by omega⟩]
    rotate_left
    · intro k _ hk
      rw [if_neg]
      intro h'; apply hk; ext; simp; omega
    · simp
    rw [if_pos (by simp; omega)]
    obtain ⟨i, hi'⟩ := i
    obtain ⟨m, rfl⟩ : ∃ m, i = m + 1 := ⟨i - 1, by simp at hi; omega⟩
    simp only [upperM, tridiag, Nat.add_sub_cancel]
    have hpm := hp m (by omega)
    obtain ⟨j, hj⟩ := j
    simp only
    by_cases c1 : j = m
    · subst c1; simp; omega
    by_cases c2 : j = m + 1
    · subst c2; simp [piv, gam]
    by_cases c3 : j = m + 2
    · subst c3
      have := hp (m + 1) (by omega)
      simp [gam]
      field_simp
    · have d1 : ¬ (m = j) := by omega
      have d2 : ¬ (m + 1 = j) := by omega
      have d3 : ¬ (m + 1 + 1 = j) := by omega
      simp [d1, d2, d3]
  · rw [Finset.sum_eq_zero]
    rotate_left
    · intro k _
      rw [if_neg (by omega)]
    obtain ⟨i, hi'⟩ := i
    have : i = 0 := by simp at hi; omega
    subst this
    simp only [upperM, tridiag]
    obtain ⟨j, hj⟩ := j
    simp only
    by_cases c1 : j = 0
    · subst c1; simp [piv]
    by_cases c2 : j = 1
    · subst c2
      have := hp 0 (by omega)
      simp [gam]
      field_simp
    · have d1 : ¬ (0 = j) := by omega
      have d2 : ¬ (1 = j) := by omega
      simp [d1, d2]

theorem det_tridiag (n : ℕ) (hp : ∀ j, j + 1 < n → piv a b c j ≠ 0) :
    (tridiag n a b c).det = ∏ j : Fin n, piv a b c j := by
  rw [lu a b c n hp, Matrix.det_mul]
  have h1 : (lowerM a b c n).det = ∏ j : Fin n, piv a b c j := by
    rw [Matrix.det_of_isLowerTriangular]
    · simp [lowerM]
    · intro i j hij
      have hij : (i : ℕ) < j := hij
      simp only [lowerM]
      rw [if_neg (by omega), if_neg (by omega)]
  have h2 : (upperM a b c n).det = 1 := by
    rw [Matrix.det_of_isUpperTriangular]
    · simp [upperM]
    · intro i j hij
      have hij : (j : ℕ) < i := hij
      simp only [upperM]
      rw [if_neg (by omega), if_neg (by omega)]
  rw [h1, h2, mul_one]

/-- all pivots are non-zero iff all leading principal minors are -/
theorem pivots_iff_minors (n : ℕ) :
    (∀ j < n, piv a b c j ≠ 0) ↔ ∀ k, k ≤ n → (tridiag k a b c).det ≠ 0 := by
  constructor
  · intro h k hk
    rw [det_tridiag a b c k (fun j hj => h j (by omega)), Finset.prod_ne_zero_iff]
    intro j _
    exact h j (by omega)
  · intro h
    by_contra hc
    push Not at hc
    classical
    let j := Nat.find hc
    have hj : j < n ∧ piv a b c j = 0 := Nat.find_spec hc
    apply h (j + 1) (by omega)
    rw [det_tridiag a b c (j + 1)]
    · apply Finset.prod_eq_zero (Finset.mem_univ (Fin.last j))
      simpa using hj.2
    · intro i hi
      have := Nat.find_min hc (m := i) (by omega)
      intro h0
      exact this ⟨by omega, h0⟩

end det

/-! ## the program -/

theorem solveCore_spec [BEq K] [LawfulBEq K] (vsub : V → V → V) (vmul : V → K → V)
    (vdiv : V → K → Res V)
    (hsub : ∀ x y, vsub x y = x - y) (hmul : ∀ x k, vmul x k = k • x)
    (hdiv : ∀ x k, k ≠ 0 → vdiv x k = .ok (k⁻¹ • x))
    (n : ℕ) (hn : 0 < n) (a b c : ℕ → K) (r : ℕ → V) (A B C : Buf K) (Rb U : Buf V)
    (hA : A.Holds (n - 1) a) (hB : B.Holds n b) (hC : C.Holds (n - 1) c) (hR : Rb.Holds n r)
    (hU : n ≤ U.size) :
    ((∀ j < n, piv a b c j ≠ 0) → ∃ U', solveCore vsub vmul vdiv A B C Rb U n = .ok (true, U') ∧
      U'.Holds n (sol a b c r n) ∧ U'.size = U.size ∧ ∀ j, n ≤ j → U'.data j = U.data j) ∧
    ((∃ j < n, piv a b c j = 0) → ∃ U', solveCore vsub vmul vdiv A B C Rb U n = .ok (false, U')) := by
  have e0 : B.get 0 = .ok (b 0) := hB.get hn
  by_cases h0 : b 0 = 0
  · constructor
    · intro h; exact absurd (by simpa [piv] using h0) (h 0 hn)
    · intro _
      exact ⟨U, by simp [solveCore, e0, h0, bind, Except.bind, pure, Except.pure]⟩
  have er0 : Rb.get 0 = .ok (r 0) := hR.get hn
  have ed0 : vdiv (r 0) (b 0) = .ok (fwd a b c r 0) := by rw [hdiv _ _ h0]; simp [fwd, piv]
  have eU : U.set 0 (fwd a b c r 0) =
      .ok ⟨U.size, Function.update U.data 0 (some (fwd a b c r 0))⟩ := Buf.set_of (by omega)
  -- invariant of the forward loop
  have hfwd := loopBreak_rule
    (f := fun j (st : St K V) => (do
      let cj ← C.get (j - 1)
      let gam ← st.gam.set j (cj / st.bet)
      let gj ← gam.get j
      let bj ← B.get j
      let aj ← A.get (j - 1)
      let bet := bj - aj * gj
      if bet == 0 then return none
      let rj ← Rb.get j
      let uj ← st.u.get (j - 1)
      let q ← vdiv (vsub rj (vmul uj aj)) bet
      let u ← st.u.set j q
      return some ⟨gam, bet, u⟩ : Res (Option (St K V))))
    (fun j st => st.gam.size = n ∧ (∀ i, 1 ≤ i → i < j → st.gam.data i = some (gam a b c i)) ∧
      st.bet = piv a b c (j - 1) ∧ st.u.size = U.size ∧
      (∀ i < j, st.u.data i = some (fwd a b c r i)) ∧ (∀ i, n ≤ i → st.u.data i = U.data i) ∧
      (∀ i < j, piv a b c i ≠ 0))
    (∃ j < n, piv a b c j = 0)
    (lo := 1) (hi := n)
    (s := ⟨Buf.alloc n, b 0, ⟨U.size, Function.update U.data 0 (some (fwd a b c r 0))⟩⟩) (by omega)
    (by
      refine ⟨rfl, fun i h1 h2 => by omega, by simp [piv], rfl, ?_, ?_, ?_⟩
      · intro i hi; have : i = 0 := by omega
        subst this; simp
      · intro i hi
        have : i ≠ 0 := by omega
        simp [this]
      · intro i hi; have : i = 0 := by omega
        subst this; simpa [piv] using h0)
    (by
      rintro j ⟨g, bet, u⟩ hj1 hjn ⟨hg1, hg2, hbet, hu1, hu2, hu3, hpv⟩
      obtain ⟨m, rfl⟩ : ∃ m, j = m + 1 := ⟨j - 1, by omega⟩
      simp only [Nat.add_sub_cancel] at *
      have ec : C.get m = .ok (c m) := hC.get (by omega)
      have ea : A.get m = .ok (a m) := hA.get (by omega)
      have eb : B.get (m + 1) = .ok (b (m + 1)) := hB.get hjn
      have er : Rb.get (m + 1) = .ok (r (m + 1)) := hR.get hjn
      have eg : g.set (m + 1) (c m / bet) =
          .ok ⟨g.size, Function.update g.data (m + 1) (some (c m / bet))⟩ := Buf.set_of (by omega)
      have eg2 : Buf.get ⟨g.size, Function.update g.data (m + 1) (some (c m / bet))⟩ (m + 1) =
          .ok (c m / bet) := Buf.get_of (by simp only; omega) (by simp)
      have eu : u.get m = .ok (fwd a b c r m) := Buf.get_of (by omega) (hu2 m (by omega))
      have ebet : b (m + 1) - a m * (c m / bet) = piv a b c (m + 1) := by rw [hbet, piv]
      simp only [ec, ea, eb, er, eg, eg2, eu, bind, Except.bind, ebet, pure, Except.pure]
      by_cases hz : piv a b c (m + 1) = 0
      · right
        exact ⟨by simp [hz], m + 1, hjn, hz⟩
      · left
        have ev : vdiv (vsub (r (m + 1)) (vmul (fwd a b c r m) (a m))) (piv a b c (m + 1)) =
            .ok (fwd a b c r (m + 1)) := by
          rw [hdiv _ _ hz, hsub, hmul, fwd]
        have es : u.set (m + 1) (fwd a b c r (m + 1)) =
          .ok ⟨u.size, Function.update u.data (m + 1) (some (fwd a b c r (m + 1)))⟩ :=
          Buf.set_of (by omega)
        simp only [beq_iff_eq, hz, if_false, ev, es]
        refine ⟨_, rfl, hg1, ?_, rfl, hu1, ?_, ?_, ?_⟩
        · intro i h1 h2
          by_cases hi : i = m + 1
          · subst hi; simp [gam, hbet]
          · simp only [Function.update_of_ne hi]; exact hg2 i h1 (by omega)
        · intro i h2
          by_cases hi : i = m + 1
          · subst hi; simp
          · simp only [Function.update_of_ne hi]; exact hu2 i (by omega)
        · intro i h2
          have hi : i ≠ m + 1 := by omega
          simp only [Function.update_of_ne hi]; exact hu3 i h2
        · intro i h2
          by_cases hi : i = m + 1
          · subst hi; exact hz
          · exact hpv i (by omega))
  rcases hfwd with ⟨⟨g, bet, u⟩, e1, hg1, hg2, hbet, hu1, hu2, hu3, hpv⟩ | ⟨e1, hfail⟩
  · have hback := loopDown_rule
      (f := fun j (u : Buf V) => (do
        let uj ← u.get j
        let g ← g.get (j + 1)
        let u1 ← u.get (j + 1)
        u.set j (vsub uj (vmul u1 g)) : Res (Buf V)))
      (fun j u => u.size = U.size ∧ (∀ i < j, u.data i = some (fwd a b c r i)) ∧
        (∀ i, j ≤ i → i < n → u.data i = some (sol a b c r n i)) ∧
        (∀ i, n ≤ i → u.data i = U.data i)) (k := n - 1) (s := u)
      ⟨hu1, fun i hi => hu2 i (by omega), fun i h1 h2 => by
        have : i = n - 1 := by omega
        subst this; rw [sol_last]; exact hu2 _ h2, hu3⟩
      (by
        rintro j w hj ⟨hw1, hw2, hw3, hw4⟩
        have e1 : w.get j = .ok (fwd a b c r j) := Buf.get_of (by omega) (hw2 j (by omega))
        have e2 : g.get (j + 1) = .ok (gam a b c (j + 1)) :=
          Buf.get_of (by simp only at hg1; omega) (hg2 _ (by omega) (by omega))
        have e3 : w.get (j + 1) = .ok (sol a b c r n (j + 1)) :=
          Buf.get_of (by omega) (hw3 _ le_rfl (by omega))
        have e4 : vsub (fwd a b c r j) (vmul (sol a b c r n (j + 1)) (gam a b c (j + 1))) =
            sol a b c r n j := by
          rw [hsub, hmul, sol_step _ _ _ _ _ _ (show j + 1 < n by omega)]
        have e5 : w.set j (sol a b c r n j) =
          .ok ⟨w.size, Function.update w.data j (some (sol a b c r n j))⟩ := Buf.set_of (by omega)
        simp only [e1, e2, e3, e4, e5, bind, Except.bind]
        refine ⟨_, rfl, hw1, ?_, ?_, ?_⟩
        · intro i hi
          have : i ≠ j := by omega
          simp only [Function.update_of_ne this]; exact hw2 i (by omega)
        · intro i h1 h2
          by_cases hi : i = j
          · subst hi; simp
          · simp only [Function.update_of_ne hi]; exact hw3 i (by omega) h2
        · intro i hi
          have : i ≠ j := by omega
          simp only [Function.update_of_ne this]; exact hw4 i hi)
    obtain ⟨w, ew, hw1, -, hw3, hw4⟩ := hback
    constructor
    · intro _
      refine ⟨w, ?_, ⟨by omega, fun i hi => hw3 i (by omega) hi⟩, hw1, hw4⟩
      simp only [solveCore, e0, bind, Except.bind, beq_iff_eq, h0, if_false, er0, ed0, eU]
      simp only [bind, Except.bind] at e1 ew
      rw [e1]
      simp only
      rw [ew]
      rfl
    · rintro ⟨j, hj, hz⟩
      exact absurd hz (hpv j hj)
  · constructor
    · intro h
      obtain ⟨j, hj, hz⟩ := hfail
      exact absurd hz (h j hj)
    · intro _
      simp only [solveCore, e0, bind, Except.bind, beq_iff_eq, h0, if_false, er0, ed0, eU]
      simp only [bind, Except.bind] at e1
      rw [e1]
      exact ⟨_, rfl⟩

end TriDiagonal
end MathLib
