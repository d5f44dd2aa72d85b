import Verif.Proof.SolverSafety
import Verif.Proof.IeeeMono

/-! # Property C149: the solvers stay inside their arrays whatever the numbers are

`Buf.Filled b n`: the array has at least `n` cells and the first `n` of them hold something.  The theorems assume
nothing about the arithmetic and the comparisons: they hold of IEEE numbers with infinities and NaN, of wrapped
integers, of anything.  A fault of the model (`Except.error`) is an access outside an array, a read of a cell or a
variable that was never written, or a failed assertion. -/

namespace MathLib

section
variable {R : Type} [Zero R] [One R] [Add R] [Sub R] [Mul R] [Div R] [Neg R]
  [LT R] [LE R] [DecidableLT R] [DecidableLE R] [BEq R]

/-- `TriDiagonal::solve` and `solveCyclic` -/
theorem C149_tridiagonal {a b c r u : Buf R} (alpha beta : R) {n : ℕ} (hn : 0 < n) (ha : a.Filled (n - 1))
    (hb : b.Filled n) (hc : c.Filled (n - 1)) (hr : r.Filled n) (hu : n ≤ u.size) :
    (∃ res u', TriDiagonal.solve a b c r u n = .ok (res, u') ∧ u'.size = u.size ∧ (res = true → u'.Filled n)) ∧
    (∃ res u', TriDiagonal.solveCyclic a b c alpha beta r u n = .ok (res, u') ∧ u'.size = u.size ∧
      (res = true → u'.Filled n)) := by
  obtain ⟨x, v, e, h1, h2⟩ := TriDiagonal.solve_safe hn ha hb hc hr hu
  obtain ⟨y, w, e', h1', h2'⟩ := TriDiagonal.solveCyclic_safe alpha beta ha hb hc hr hu
  exact ⟨⟨x, v, e, h2, h1⟩, y, w, e', h2', h1'⟩

/-- `TriDiagonal::solve` for vectors: the assertion in `Vec3::operator/` never fails -/
theorem C149_tridiagonal3 {a b c : Buf R} {r u : Buf (Vec3 R)} {n : ℕ} (hn : 0 < n) (ha : a.Filled (n - 1))
    (hb : b.Filled n) (hc : c.Filled (n - 1)) (hr : r.Filled n) (hu : n ≤ u.size) :
    ∃ res u', TriDiagonal.solve3 a b c r u n = .ok (res, u') ∧ u'.size = u.size ∧ (res = true → u'.Filled n) := by
  obtain ⟨x, v, e, h1, h2⟩ := TriDiagonal.solve3_safe hn ha hb hc hr hu
  exact ⟨x, v, e, h2, h1⟩

omit [One R] [Add R] [Neg R] [LT R] [LE R] [DecidableLT R] [DecidableLE R] in
/-- Without unknowns the scalar overload stops at its assertion, the one for vectors has none and reads `b[0]`. -/
theorem C149_empty (a b c r u : Buf R) (r' u' : Buf (Vec3 R)) (hb : b.size = 0) :
    TriDiagonal.solve a b c r u 0 = .error .assertion ∧ TriDiagonal.solve3 a b c r' u' 0 = .error .outOfRange := by
  refine ⟨rfl, ?_⟩
  have : b.get 0 = .error .outOfRange := by simp [Buf.get, hb]
  unfold TriDiagonal.solve3 TriDiagonal.solveCore
  rw [this]; rfl

example : (Buf.alloc 0 : Buf ℚ).size = 0 := rfl

/-- `GaussJordan::solve` faults exactly if there is at least one row and no entry of the matrix compares as at least
zero in magnitude; then the fault is the use of `icol` before it has a value.  Otherwise it stays inside the arrays. -/
theorem C149_gauss (absf : R → R) {a b : Buf R} {n m : ℕ} (ha : a.Filled (n * n)) (hb : b.Filled (n * m)) :
    ((0 < n ∧ ∀ i < n * n, ∀ v, a.data i = some v → ¬ absf v ≥ 0) ∧
      GaussJordan.solve absf a n b m = .error .uninit) ∨
    ((n = 0 ∨ ∃ i < n * n, ∃ v, a.data i = some v ∧ absf v ≥ 0) ∧
      (GaussJordan.solve absf a n b m = .ok none ∨ ∃ a' b', GaussJordan.solve absf a n b m = .ok (some (a', b')) ∧
        a'.Filled (n * n) ∧ b'.Filled (n * m) ∧ b'.size = b.size)) := by
  by_cases h : n = 0 ∨ ∃ i < n * n, ∃ v, a.data i = some v ∧ absf v ≥ 0
  · exact Or.inr ⟨h, GaussJordan.solve_safe absf ha hb h⟩
  · push Not at h
    exact Or.inl ⟨⟨Nat.pos_of_ne_zero h.1, h.2⟩,
      GaussJordan.solve_uninit absf b m (Nat.pos_of_ne_zero h.1) ha h.2⟩

variable [NatCast R]

/-- The three spline solvers, with `n ≥ 2` points in `p1`. -/
theorem C149_splines (absf : R → R) (h2 : ((2 : R) == 0) = false) (h3 : ((3 : R) == 0) = false) (h4 : absf 4 ≥ 0)
    {n : ℕ} (hn : 2 ≤ n) {p1 p2 p3 : Buf (Vec3 R)} (s e : Vec3 R) (k1 : p1.Filled n) :
    (n - 1 ≤ p2.size → n - 1 ≤ p3.size →
      (∃ res q2 q3, SplineSolver3.naturalBezierSpline n p1 p2 p3 = .ok (res, q2, q3) ∧
        (res = true → q2.Filled (n - 1) ∧ q3.Filled (n - 1))) ∧
      ∃ res q2 q3, SplineSolver3.bezierSpline n p1 s e p2 p3 = .ok (res, q2, q3) ∧
        (res = true → q2.Filled (n - 1) ∧ q3.Filled (n - 1))) ∧
    (n ≤ p2.size → n ≤ p3.size →
      ∃ res q2 q3, SplineSolver3.closedBezierSpline absf n p1 p2 p3 = .ok (res, q2, q3) ∧
        (res = true → q2.Filled n ∧ q3.Filled n)) :=
  ⟨fun k2 k3 => ⟨SplineSolver3.natural_safe h3 h2 hn k1 k2 k3, SplineSolver3.bezier_safe h3 hn s e k1 k2 k3⟩,
    fun k2 k3 => SplineSolver3.closed_safe absf h4 hn k1 k2 k3⟩

end

/-! ## IEEE numbers -/

namespace Ieee
variable {K : Type} [Field K] [LinearOrder K] [IsStrictOrderedRing K] [FloorRing K] {p : ℕ} {emax : ℤ}

/-- `fabsf` -/
def fabs : Ieee K p emax → Ieee K p emax
  | nan => nan
  | inf _ => inf false
  | zero _ => zero false
  | num v => num |v|

omit [FloorRing K] in
theorem fabs_ge (v : Ieee K p emax) : fabs v ≥ 0 ↔ v ≠ nan := by
  change leB (zero false) (fabs v) = true ↔ _
  cases v <;> simp [fabs, leB]

theorem lit_ne (hp : 1 ≤ p) (he : 1 ≤ emax) {n : ℕ} (hn : 1 ≤ n) : ((n : Ieee K p emax) == 0) = false := by
  have h1 : (1 : K) ≤ grid p emax (n : K) := by
    have := grid_mono (K := K) (p := p) (emax := emax) hp (show (2 : K) ^ (0 : ℤ) ≤ n by simpa using hn)
    rwa [grid_zpow hp (by omega), zpow_zero] at this
  rcases round_cases (p := p) (emax := emax) (n : K) false with ⟨t, h, -⟩ | ⟨h, -⟩
  · change eqB (round (n : K) false) (zero false) = false
    rw [h]; rfl
  · change ((round (n : K) false : Ieee K p emax) == 0) = false
    rw [beq_zero h]; simp; linarith

omit [IsStrictOrderedRing K] in
theorem lit_nan (n : ℕ) : (n : Ieee K p emax) ≠ nan := by
  change (round (n : K) false : Ieee K p emax) ≠ nan
  unfold round
  dsimp only
  split_ifs <;> simp

end Ieee
open Ieee

section
variable {K : Type} [Field K] [LinearOrder K] [IsStrictOrderedRing K] [FloorRing K] {p : ℕ} {emax : ℤ}

/-- The claim of C149: with arrays of the right sizes, fully initialised, no solver faults. -/
def C149_full : Prop := ∀ (n m : ℕ) (a b : Buf (Ieee ℚ 24 127)), a.Filled (n * n) → b.Filled (n * m) →
  ∃ r, GaussJordan.solve fabs a n b m = .ok r

/-- A matrix of NaNs: `irow` and `icol` are never assigned and `++ipiv[icol]` writes anywhere. -/
theorem C149_refuted : ¬ C149_full ∧
    (∀ n > 0, GaussJordan.solve (fabs (K := ℚ) (p := 24) (emax := 127)) ⟨n * n, fun _ => some nan⟩ n
      ⟨n, fun _ => some 0⟩ 1 = .error .uninit) := by
  have h : ∀ n > 0, GaussJordan.solve (fabs (K := ℚ) (p := 24) (emax := 127)) ⟨n * n, fun _ => some nan⟩ n
      ⟨n, fun _ => some 0⟩ 1 = .error .uninit := fun n hn =>
    GaussJordan.solve_uninit _ _ _ hn ⟨le_refl _, fun _ _ => rfl⟩ (by
      intro i _ v hv
      rw [← Option.some.inj hv, fabs_ge]; simp)
  refine ⟨fun H => ?_, h⟩
  obtain ⟨r, hr⟩ := H 1 1 ⟨1, fun _ => some nan⟩ ⟨1, fun _ => some 0⟩ ⟨le_refl _, fun _ _ => rfl⟩
    ⟨le_refl _, fun _ _ => rfl⟩
  rw [h 1 one_pos] at hr
  exact absurd hr (by simp)

/-- With IEEE numbers: the Gauss-Jordan solver faults exactly if the matrix has at least one row and all its entries
are NaN, and the spline solvers never do, even if coordinates of the points are infinite or NaN. -/
theorem C149_partial (hp : 1 ≤ p) (he : 1 ≤ emax) :
    (∀ (n m : ℕ) (a b : Buf (Ieee K p emax)), a.Filled (n * n) → b.Filled (n * m) →
      ((∃ f, GaussJordan.solve fabs a n b m = .error f) ↔ 0 < n ∧ ∀ i < n * n, a.data i = some nan)) ∧
    (∀ (n : ℕ) (p1 p2 p3 : Buf (Vec3 (Ieee K p emax))) (s e : Vec3 (Ieee K p emax)), 2 ≤ n → p1.Filled n →
      (n - 1 ≤ p2.size → n - 1 ≤ p3.size →
        (∃ r, SplineSolver3.naturalBezierSpline n p1 p2 p3 = .ok r) ∧
        ∃ r, SplineSolver3.bezierSpline n p1 s e p2 p3 = .ok r) ∧
      (n ≤ p2.size → n ≤ p3.size → ∃ r, SplineSolver3.closedBezierSpline fabs n p1 p2 p3 = .ok r)) := by
  refine ⟨fun n m a b ha hb => ?_, fun n p1 p2 p3 s e hn k1 => ?_⟩
  · rcases C149_gauss fabs ha hb with ⟨⟨h1, h2⟩, h⟩ | ⟨h1, h⟩
    · refine ⟨fun _ => ⟨h1, fun i hi => ?_⟩, fun _ => ⟨_, h⟩⟩
      obtain ⟨v, -, hv⟩ := ha.get hi
      have := h2 i hi v hv
      rw [fabs_ge, not_not] at this
      rw [hv, this]
    · refine ⟨fun ⟨f, hf⟩ => ?_, fun ⟨h2, h3⟩ => ?_⟩
      · rcases h with h | ⟨_, _, h, -⟩ <;> rw [h] at hf <;> simp at hf
      · rcases h1 with h1 | ⟨i, hi, v, hv, hv'⟩
        · omega
        · rw [h3 i hi] at hv
          rw [← Option.some.inj hv, fabs_ge] at hv'
          exact absurd rfl hv'
  · obtain ⟨h1, h2⟩ := C149_splines (R := Ieee K p emax) fabs (lit_ne hp he (n := 2) (by omega))
      (lit_ne hp he (n := 3) (by omega)) ((fabs_ge _).2 (lit_nan 4)) hn (p2 := p2) (p3 := p3) s e k1
    refine ⟨fun k2 k3 => ?_, fun k2 k3 => ?_⟩
    · obtain ⟨⟨x, y, z, h, -⟩, x', y', z', h', -⟩ := h1 k2 k3
      exact ⟨⟨_, h⟩, _, h'⟩
    · obtain ⟨x, y, z, h, -⟩ := h2 k2 k3
      exact ⟨_, h⟩

end

/-- single precision numbers, arrays of two elements with an infinity among them -/
example : (Buf.ofList [(nan : Ieee ℚ 24 127), inf true, 0, 1]).Filled (2 * 2) ∧
    (Buf.ofList [(1 : Ieee ℚ 24 127), nan]).Filled (2 * 1) ∧
    ¬ ∃ f, GaussJordan.solve fabs (Buf.ofList [(nan : Ieee ℚ 24 127), inf true, 0, 1]) 2
      (Buf.ofList [(1 : Ieee ℚ 24 127), nan]) 1 = .error f := by
  have h1 : (Buf.ofList [(nan : Ieee ℚ 24 127), inf true, 0, 1]).Filled (2 * 2) :=
    ⟨le_refl _, fun i hi => by simpa [Buf.ofList] using hi⟩
  have h2 : (Buf.ofList [(1 : Ieee ℚ 24 127), nan]).Filled (2 * 1) :=
    ⟨le_refl _, fun i hi => by simpa [Buf.ofList] using hi⟩
  refine ⟨h1, h2, fun h => ?_⟩
  have := (((C149_partial (by omega) (by omega)).1 2 1 _ _ h1 h2).1 h).2 1 (by omega)
  simp [Buf.ofList] at this

/-- a tridiagonal system with a NaN and an array for the result that has not been written -/
example : (Buf.ofList [(nan : Ieee ℚ 24 127)]).Filled (2 - 1) ∧ (Buf.ofList [(1 : Ieee ℚ 24 127), 1]).Filled 2 ∧
    2 ≤ (Buf.alloc 2 : Buf (Ieee ℚ 24 127)).size :=
  ⟨⟨le_refl _, fun i hi => by simpa [Buf.ofList] using hi⟩, ⟨le_refl _, fun i hi => by simpa [Buf.ofList] using hi⟩,
    le_refl _⟩

end MathLib
