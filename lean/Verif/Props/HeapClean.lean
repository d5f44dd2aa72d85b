import Verif.Proof.HeapSolvers
import Verif.Proof.HeapSplines
import Verif.Props.Tridiagonal
import Verif.Props.SplineSolvers

/-! # Properties C128-C130: the solvers on the heap

C128 is about memory: what the functions allocate, use and delete, also when `new` throws.  C129 and C130 say which
of the arrays passed to one call may be the same, a question which the array model of C15-C17 and C93-C94 leaves
open. -/

namespace MathLib
open HM

section
variable {R : Type} [Zero R] [One R] [NatCast R] [Add R] [Sub R] [Mul R] [Div R] [Neg R]
  [LT R] [LE R] [DecidableLT R] [DecidableLE R] [BEq R]

/-! ## C128 -/

/-- the other five functions clean up after themselves on the heap `h`: for all pointers, equal or not -/
def C128_others (R : Type) [Zero R] [One R] [NatCast R] [Add R] [Sub R] [Mul R] [Div R] [Neg R]
    [LT R] [LE R] [DecidableLT R] [DecidableLE R] [BEq R] (h : Heap R) : Prop :=
  (∀ a b c r x n (alpha beta : R), Clean [(.real, a), (.real, b), (.real, c), (.real, r), (.real, x)] [(.real, x)]
    (TriDiagonal.solveCyclicH a b c alpha beta r x n) h) ∧
  (∀ absf a n b m, Clean [(.real, a), b.addr] [(.real, a), b.addr] (GaussJordan.solveH absf a n b m) h) ∧
  (∀ n p1 p2 p3, Clean [(.vec, p1), (.vec, p2), (.vec, p3)] [(.vec, p2), (.vec, p3)]
    (SplineSolver3.naturalBezierSplineH n p1 p2 p3) h) ∧
  (∀ n p1 s e p2 p3, Clean [(.vec, p1), (.vec, p2), (.vec, p3)] [(.vec, p2), (.vec, p3)]
    (SplineSolver3.bezierSplineH n p1 s e p2 p3) h) ∧
  (∀ absf n p1 p2 p3, Clean [(.vec, p1), (.vec, p2), (.vec, p3)] [(.vec, p2), (.vec, p3)]
    (SplineSolver3.closedBezierSplineH absf n p1 p2 p3) h)

/-- both overloads of `TriDiagonal::solve` clean up after themselves -/
def C128_solve (R : Type) [Zero R] [Sub R] [Mul R] [Div R] [BEq R] (h : Heap R) : Prop :=
  (∀ a b c r u n, Clean [(.real, a), (.real, b), (.real, c), (.real, r), (.real, u)] [(.real, u)]
    (TriDiagonal.solveH a b c r u n) h) ∧
  (∀ a b c r u n, Clean [(.real, a), (.real, b), (.real, c), (.vec, r), (.vec, u)] [(.vec, u)]
    (TriDiagonal.solve3H a b c r u n) h)

/-- C128: none of the functions leaks, uses freed memory, deletes twice or writes to its inputs, whatever `new` does. -/
def C128_full (R : Type) [Zero R] [One R] [NatCast R] [Add R] [Sub R] [Mul R] [Div R] [Neg R]
    [LT R] [LE R] [DecidableLT R] [DecidableLE R] [BEq R] : Prop := ∀ h : Heap R, C128_solve R h ∧ C128_others R h

omit [One R] [NatCast R] [Add R] [Neg R] [LT R] [LE R] [DecidableLT R] [DecidableLE R] in
/-- `TriDiagonal::solve` allocates only once, so it is clean even if `new` throws. -/
theorem C128_tridiagonal (h : Heap R) : C128_solve R h := by
  refine ⟨fun a b c r u n => ?_, fun a b c r u n => ?_⟩
  · refine Ht.clean h (by simp) fun L F hL hF => ?_
    simp only [List.forall_mem_cons, List.not_mem_nil, false_implies, implies_true, and_true] at hL hF
    obtain ⟨h1, h2, h3, h4, h5⟩ := hL
    exact solveH_ht a b c r u n h1 h2 h3 h4 h5 hF fun _ _ _ H => H
  · refine Ht.clean h (by simp) fun L F hL hF => ?_
    simp only [List.forall_mem_cons, List.not_mem_nil, false_implies, implies_true, and_true] at hL hF
    obtain ⟨h1, h2, h3, h4, h5⟩ := hL
    exact solve3H_ht a b c r u n h1 h2 h3 h4 h5 hF fun _ _ _ H => H

/-- C128, partial: the other five are clean if memory does not run out.  Missing: `new` that throws; then they leak
(`C128_leak`). -/
theorem C128_partial (h : Heap R) (ho : ∀ k, h.oom k = false) : C128_others R h := by
  refine ⟨fun a b c r x n al be => ?_, fun absf a n b m => ?_, fun n p1 p2 p3 => ?_, fun n p1 s e p2 p3 => ?_,
    fun absf n p1 p2 p3 => ?_⟩ <;> refine Ht.clean h (by simp) fun L F hL hF => ?_ <;>
    simp only [List.forall_mem_cons, List.not_mem_nil, false_implies, implies_true, and_true] at hL hF
  · obtain ⟨h1, h2, h3, h4, h5⟩ := hL
    exact solveCyclicH_ht a b c al be r x n h1 h2 h3 h4 h5 hF ho
  · exact gjH_ht absf a n b m hL.1 hF.1 hL.2 hF.2 ho
  · exact naturalH_ht n p1 p2 p3 hL.1 hL.2.1 hF.1 hL.2.2 hF.2 ho
  · exact bezierH_ht n p1 s e p2 p3 hL.1 hL.2.1 hF.1 hL.2.2 hF.2 ho
  · exact closedH_ht absf n p1 p2 p3 hL.1 hL.2.1 hF.1 hL.2.2 hF.2 ho

omit [Zero R] [One R] [NatCast R] [Add R] [Sub R] [Mul R] [Div R] [Neg R] [LT R] [LE R] [DecidableLT R] [DecidableLE R]
  [BEq R] in
/-- two allocations of which the second throws -/
private theorem two_new {α : Type} (t1 t2 : Ty) (n1 n2 : ℕ) (f : ℕ → ℕ → HM R α) (h : Heap R) (h0 : h.oom h.next = false)
    (h1 : h.oom (h.next + 1) = true) : ∃ h', (do
      let a ← new t1 n1
      let b ← new t2 n2
      f a b : HM R α) h = .ok (none, h') ∧ (h'.block (t1, h.next)).isSome := by
  obtain ⟨s, e, x⟩ := Sim.new (t := t1) (n := n1) h0
  refine ⟨{ s with next := s.next + 1 }, ?_, by show (s.block _).isSome; rw [x.self]; rfl⟩
  rw [HM.bind_ok e]
  have : (new t2 n2 : HM R ℕ) s = .ok (none, { s with next := s.next + 1 }) := by
    unfold new
    rw [x.next, x.oom, h1, if_pos rfl]
  simp only [Bind.bind, this]

omit [LT R] [DecidableLT R] in
/-- Whenever the first allocation succeeds and the second throws, the first block is left behind: in `solveCyclic`
(n > 2, a corner not 0), in `GaussJordan::solve` always, in the two open splines for three or more points. -/
theorem C128_leak (h : Heap R) (h0 : h.oom h.next = false) (h1 : h.oom (h.next + 1) = true) :
    (∀ a b c r x n (alpha beta : R), 2 < n → (alpha == 0 && beta == 0) = false →
      ∃ h', TriDiagonal.solveCyclicH a b c alpha beta r x n h = .ok (none, h') ∧ (h'.block (.real, h.next)).isSome) ∧
    (∀ absf a n b m, ∃ h', GaussJordan.solveH absf a n b m h = .ok (none, h') ∧ (h'.block (.idx, h.next)).isSome) ∧
    (∀ n p1 p2 p3, 2 < n → ∃ h', SplineSolver3.naturalBezierSplineH n p1 p2 p3 h = .ok (none, h') ∧
      (h'.block (.real, h.next)).isSome) ∧
    (∀ n p1 s e p2 p3, 2 < n → ∃ h', SplineSolver3.bezierSplineH n p1 s e p2 p3 h = .ok (none, h') ∧
      (h'.block (.real, h.next)).isSome) := by
  refine ⟨fun a b c r x n al be hn hab => ?_, fun absf a n b m => ?_, fun n p1 p2 p3 hn => ?_, fun n p1 s e p2 p3 hn => ?_⟩
  · unfold TriDiagonal.solveCyclicH
    rw [if_neg (by omega), hab]
    exact two_new _ _ _ _ _ h h0 h1
  · exact two_new _ _ _ _ _ h h0 h1
  · unfold SplineSolver3.naturalBezierSplineH
    rw [if_pos (by omega), if_neg (by omega)]
    exact two_new _ _ _ _ _ h h0 h1
  · unfold SplineSolver3.bezierSplineH
    rw [if_pos (by omega), if_neg (by omega)]
    exact two_new _ _ _ _ _ h h0 h1

/-- C128 is false for every type of scalars. -/
theorem C128_refuted (R : Type) [Zero R] [One R] [NatCast R] [Add R] [Sub R] [Mul R] [Div R] [Neg R]
    [LT R] [LE R] [DecidableLT R] [DecidableLE R] [BEq R] : ¬ C128_full R := by
  intro H
  let h : Heap R := Heap.ofLists [[1], [1]] [] (fun k => k == 3)
  obtain ⟨h', e, l⟩ := (C128_leak h rfl rfl).2.1 id 0 1 (.reals 1) 1
  have hw : h.WF := Heap.ofLists_wf _ _ _
  have c := (H h).2.2.1 id 0 1 (.reals 1) 1 hw (by
    simp only [List.forall_mem_cons, List.not_mem_nil, false_implies, implies_true, and_true]
    exact ⟨rfl, rfl⟩)
  rw [e] at c
  have c1 := c.1 (.idx, h.next) (by simp [GaussJordan.Rhs.addr])
  rw [c1] at l
  cases l

end

/-- the closed spline leaks too: its matrix, when an array of the solver cannot be allocated -/
example : outcome (SplineSolver3.closedBezierSplineH (fun x : ℚ => |x|) 2 0 1 2)
    (Heap.ofLists [] [[⟨0, 0, 0⟩, ⟨1, 0, 0⟩], [⟨0, 0, 0⟩, ⟨0, 0, 0⟩], [⟨0, 0, 0⟩, ⟨0, 0, 0⟩]] (fun k => k == 4)) 3 =
    some (none, some [some 4, some 1, some 1, some 4]) := by
  decide +kernel

/-- `TriDiagonal::solve` when memory runs out: the exception, and no block left -/
example : outcome (TriDiagonal.solveH 0 1 2 3 4 2)
    (Heap.ofLists [[(1 : ℚ)], [2, 3], [1], [5, 10], [0, 0]] [] (fun k => k == 5)) 5 = some (none, none) := by
  decide +kernel

/-- a run of `GaussJordan::solve` on the heap -/
example : outcome (GaussJordan.solveH (fun x : ℚ => |x|) 0 2 (.reals 1) 1)
    (Heap.ofLists [[(2 : ℚ), 1, 1, 3], [5, 10]] [] (fun _ => false)) 1 =
    some (some true, some [some 1, some 3]) := by
  decide +kernel

/-! ## C129 -/

section
variable {K : Type} [Field K] [BEq K] [LawfulBEq K]

/-- C129: `TriDiagonal::solve` on the heap.  The result array `u` may be the array of the right-hand side or of the
diagonal (or a fifth one): the system that is solved is the one in memory at the time of the call.  `u` must not be the
array of the lower or upper diagonal (`C129_overlap`).  Nothing but `u` is changed. -/
theorem C129_solve (n : ℕ) (hn : 0 < n) (a b c r : ℕ → K) (pa pb pc pr pu : ℕ) (h : Heap K) (hw : h.WF)
    (ho : h.oom h.next = false) (A B C Q U : Buf K)
    (mA : h.block (.real, pa) = some A) (mB : h.block (.real, pb) = some B) (mC : h.block (.real, pc) = some C)
    (mQ : h.block (.real, pr) = some Q) (mU : h.block (.real, pu) = some U)
    (hA : A.Holds (n - 1) a) (hB : B.Holds n b) (hC : C.Holds (n - 1) c) (hQ : Q.Holds n r)
    (hU : n ≤ U.size) (ha : pu ≠ pa) (hc : pu ≠ pc) :
    ∃ ret h', TriDiagonal.solveH pa pb pc pr pu n h = .ok (some ret, h') ∧
      (∀ q ≠ (.real, pu), h'.block q = h.block q) ∧
      (ret = false ↔ ∃ k ≤ n, (tridiag k a b c).det = 0) ∧
      (ret = true → ∃ U' u, h'.block (.real, pu) = some U' ∧ U'.Holds n u ∧
        (tridiag n a b c).mulVec (fun i => u i) = (fun i : Fin n => r i)) := by
  have s := solveH_sim pa pb pc pr pu n hw ho mA mB mC mQ mU ha hc
  obtain ⟨ret, U', e, f⟩ := C15_solve n hn a b c r A B C Q U hA hB hC hQ hU
  have i := C16_iff n hn a b c r A B C Q U hA hB hC hQ hU
  rw [e] at s
  obtain ⟨ret, h', e', rfl, o, g⟩ := s
  refine ⟨ret, h', e', o.same, ?_, fun hr => ?_⟩
  · rw [← i, e]
    constructor
    · rintro rfl; exact ⟨U', rfl⟩
    · rintro ⟨U'', e''⟩
      injection e'' with e''
      exact (Prod.mk.inj e'').1
  · obtain ⟨u, f1, -, f2, -⟩ := f hr
    exact ⟨U', u, g hr, f1, f2⟩

/-- the same for vectors on the right-hand side: `u` may be `r` -/
theorem C129_solve_vec3 (n : ℕ) (hn : 0 < n) (a b c : ℕ → K) (r : ℕ → Vec3 K) (pa pb pc pr pu : ℕ) (h : Heap K) (hw : h.WF)
    (ho : h.oom h.next = false) (A B C : Buf K) (Q U : Buf (Vec3 K))
    (mA : h.block (.real, pa) = some A) (mB : h.block (.real, pb) = some B) (mC : h.block (.real, pc) = some C)
    (mQ : h.block (.vec, pr) = some Q) (mU : h.block (.vec, pu) = some U)
    (hA : A.Holds (n - 1) a) (hB : B.Holds n b) (hC : C.Holds (n - 1) c) (hQ : Q.Holds n r)
    (hU : n ≤ U.size) :
    ∃ ret h', TriDiagonal.solve3H pa pb pc pr pu n h = .ok (some ret, h') ∧
      (∀ q ≠ (.vec, pu), h'.block q = h.block q) ∧
      (ret = true → ∃ U' u, h'.block (.vec, pu) = some U' ∧ U'.Holds n u ∧
        (∀ i : Fin n, ∑ j : Fin n, u j * tridiag n a b c i j = r i)) := by
  have s := solve3H_sim pa pb pc pr pu n hw ho mA mB mC mQ mU
  obtain ⟨ret, U', e, f⟩ := C15_solve_vec3 n hn a b c r A B C Q U hA hB hC hQ hU
  rw [e] at s
  obtain ⟨ret, h', e', rfl, o, g⟩ := s
  refine ⟨ret, h', e', o.same, fun hr => ?_⟩
  obtain ⟨u, f1, -, f2, -⟩ := f hr
  exact ⟨U', u, g hr, f1, f2⟩

/-- `solveCyclic`: `x` may be `r` or `b` here too (for invertible systems, as in C17) -/
theorem C129_solveCyclic (n : ℕ) (a b c r : ℕ → K) (alpha beta : K) (pa pb pc pr px : ℕ) (h : Heap K) (hw : h.WF)
    (ho : ∀ k, h.oom k = false) (A B C Q X : Buf K)
    (mA : h.block (.real, pa) = some A) (mB : h.block (.real, pb) = some B) (mC : h.block (.real, pc) = some C)
    (mQ : h.block (.real, pr) = some Q) (mX : h.block (.real, px) = some X)
    (hA : A.Holds (n - 1) a) (hB : B.Holds n b) (hC : C.Holds (n - 1) c) (hQ : Q.Holds n r)
    (hX : n ≤ X.size) (ha : px ≠ pa) (hc : px ≠ pc) :
    ∃ ret h', TriDiagonal.solveCyclicH pa pb pc alpha beta pr px n h = .ok (some ret, h') ∧
      (∀ q ≠ (.real, px), h'.block q = h.block q) ∧ (n ≤ 2 → ret = false) ∧
      (ret = true → (cyclicTridiag n a b c alpha beta).det ≠ 0 → ∃ X' x, h'.block (.real, px) = some X' ∧ X'.Holds n x ∧
        (cyclicTridiag n a b c alpha beta).mulVec (fun i => x i) = (fun i : Fin n => r i)) := by
  have s := solveCyclicH_sim pa pb pc alpha beta pr px n hw ho mA mB mC mQ mX ha hc
  obtain ⟨ret, X', e, f1, f2⟩ := C17_solveCyclic_partial n a b c r alpha beta A B C Q X hA hB hC hQ hX
  rw [e] at s
  obtain ⟨ret, h', e', rfl, o, g⟩ := s
  refine ⟨ret, h', e', o.same, f1, fun hr hd => ?_⟩
  obtain ⟨x, f3, f4⟩ := f2 hr hd
  exact ⟨X', x, g hr, f3, f4⟩

end

/-- Overlap that is not allowed: 1 x + 1 y = 2, 1 x + 3 y = 3 has the solution 3/2, 1/2, but with `u` in the place of
the lower or of the upper diagonal something else is returned, with the value true. -/
theorem C129_overlap :
    outcome (TriDiagonal.solveH 0 1 2 3 4 2) (Heap.ofLists [[(1 : ℚ), 0], [1, 3], [1, 0], [2, 3], [0, 0]] []
      (fun _ => false)) 4 = some (some true, some [some (3/2), some (1/2)]) ∧
    outcome (TriDiagonal.solveH 0 1 2 3 0 2) (Heap.ofLists [[(1 : ℚ), 0], [1, 3], [1, 0], [2, 3], [0, 0]] []
      (fun _ => false)) 0 = some (some true, some [some 3, some (-1)]) ∧
    outcome (TriDiagonal.solveH 0 1 2 3 2 2) (Heap.ofLists [[(1 : ℚ), 0], [1, 3], [1, 0], [2, 3], [0, 0]] []
      (fun _ => false)) 2 = some (some true, some [some 0, some 1]) := by
  decide +kernel

/-- the hypotheses of `C129_solve` are met with `u` the array of the right-hand side -/
example : ∃ ret h', TriDiagonal.solveH 0 1 2 3 3 2
      (Heap.ofLists [[(1 : ℚ)], [1, 3], [1], [2, 3]] [] (fun _ => false)) = .ok (some ret, h') := by
  obtain ⟨ret, h', e, -⟩ := C129_solve 2 (by omega) (fun i => [(1 : ℚ)][i]!) (fun i => [(1 : ℚ), 3][i]!) (fun i => [(1 : ℚ)][i]!)
    (fun i => [(2 : ℚ), 3][i]!) 0 1 2 3 3 (Heap.ofLists [[(1 : ℚ)], [1, 3], [1], [2, 3]] [] (fun _ => false))
    (Heap.ofLists_wf _ _ _) rfl _ _ _ _ _ rfl rfl rfl rfl rfl (Buf.ofList_holds _) (Buf.ofList_holds _) (Buf.ofList_holds _)
    (Buf.ofList_holds _) le_rfl (by decide) (by decide)
  exact ⟨ret, h', e⟩

/-- in place: the right-hand side and the diagonal replaced by the solution -/
example :
    outcome (TriDiagonal.solveH 0 1 2 3 3 2) (Heap.ofLists [[(1 : ℚ)], [1, 3], [1], [2, 3]] []
      (fun _ => false)) 3 = some (some true, some [some (3/2), some (1/2)]) ∧
    outcome (TriDiagonal.solveH 0 1 2 3 1 2) (Heap.ofLists [[(1 : ℚ)], [1, 3], [1], [2, 3]] []
      (fun _ => false)) 1 = some (some true, some [some (3/2), some (1/2)]) ∧
    outcome (TriDiagonal.solveCyclicH 0 1 2 1 1 3 3 3) (Heap.ofLists [[(1 : ℚ), 1], [4, 4, 4], [1, 1], [6, 6, 12]] []
      (fun _ => false)) 3 = some (some true, some [some (2/3), some (2/3), some (8/3)]) := by
  decide +kernel

/-! ## C130 -/

/-- C130: the open splines on the heap: the array `p3` of the second inner control points may be the array of the
points themselves (which it overwrites); `p1` and `p2`, and `p2` and `p3`, must be different (`C130_overlap`). -/
theorem C130_natural (n : ℕ) (hn : 2 ≤ n) (k : ℕ → Vec3 ℝ) (p1 p2 p3 : ℕ) (h : Heap ℝ) (hw : h.WF)
    (ho : ∀ k, h.oom k = false) (P1 P2 P3 : Buf (Vec3 ℝ)) (m1 : h.block (.vec, p1) = some P1)
    (m2 : h.block (.vec, p2) = some P2) (m3 : h.block (.vec, p3) = some P3) (h1 : P1.Holds n k)
    (h2 : n - 1 ≤ P2.size) (h3 : n - 1 ≤ P3.size) (n12 : p1 ≠ p2) (n23 : p2 ≠ p3) :
    ∃ h' P2' P3' q2 q3, SplineSolver3.naturalBezierSplineH n p1 p2 p3 h = .ok (some true, h') ∧
      h'.block (.vec, p2) = some P2' ∧ h'.block (.vec, p3) = some P3' ∧ P2'.Holds (n - 1) q2 ∧ P3'.Holds (n - 1) q3 ∧
      IsNaturalSpline (n - 1) (splineSeg k q2 q3) ∧
      ∀ q, q ≠ (.vec, p2) → q ≠ (.vec, p3) → h'.block q = h.block q := by
  have s := naturalH_sim n p1 p2 p3 hw ho m1 m2 m3 n12 n23
  obtain ⟨P2', P3', q2, q3, e, f2, f3, f4, -⟩ := C93_natural n hn k P1 P2 P3 h1 h2 h3
  rw [e] at s
  obtain ⟨ret, h', e', rfl, o, g⟩ := s
  exact ⟨h', P2', P3', q2, q3, e', (g rfl).1, (g rfl).2, f2, f3, f4, o.same⟩

/-- the same with prescribed end control points -/
theorem C130_clamped (n : ℕ) (hn : 2 ≤ n) (k : ℕ → Vec3 ℝ) (first last : Vec3 ℝ) (p1 p2 p3 : ℕ) (h : Heap ℝ) (hw : h.WF)
    (ho : ∀ k, h.oom k = false) (P1 P2 P3 : Buf (Vec3 ℝ)) (m1 : h.block (.vec, p1) = some P1)
    (m2 : h.block (.vec, p2) = some P2) (m3 : h.block (.vec, p3) = some P3) (h1 : P1.Holds n k)
    (h2 : n - 1 ≤ P2.size) (h3 : n - 1 ≤ P3.size) (n12 : p1 ≠ p2) (n23 : p2 ≠ p3) :
    ∃ h' P2' P3' q2 q3, SplineSolver3.bezierSplineH n p1 first last p2 p3 h = .ok (some true, h') ∧
      h'.block (.vec, p2) = some P2' ∧ h'.block (.vec, p3) = some P3' ∧ P2'.Holds (n - 1) q2 ∧ P3'.Holds (n - 1) q3 ∧
      IsClampedSpline (n - 1) first last (splineSeg k q2 q3) ∧
      ∀ q, q ≠ (.vec, p2) → q ≠ (.vec, p3) → h'.block q = h.block q := by
  have s := bezierH_sim n p1 first last p2 p3 hw ho m1 m2 m3 n12 n23
  obtain ⟨P2', P3', q2, q3, e, f2, f3, f4, -⟩ := C94_clamped n hn k first last P1 P2 P3 h1 h2 h3
  rw [e] at s
  obtain ⟨ret, h', e', rfl, o, g⟩ := s
  exact ⟨h', P2', P3', q2, q3, e', (g rfl).1, (g rfl).2, f2, f3, f4, o.same⟩

/-- Points 0, 1, 1 on a line: the second inner control points are 5/6 and 13/12, also when they replace the points;
with `p1` as `p2` they are wrong. -/
theorem C130_overlap :
    outcome3 (SplineSolver3.naturalBezierSplineH 3 0 1 2) (Heap.ofLists [] [[⟨(0 : ℚ), 0, 0⟩, ⟨1, 0, 0⟩, ⟨1, 0, 0⟩],
      [⟨0, 0, 0⟩, ⟨0, 0, 0⟩], [⟨0, 0, 0⟩, ⟨0, 0, 0⟩]] (fun _ => false)) 2 =
      some (some true, some [some ⟨5/6, 0, 0⟩, some ⟨13/12, 0, 0⟩]) ∧
    outcome3 (SplineSolver3.naturalBezierSplineH 3 0 1 0) (Heap.ofLists [] [[⟨(0 : ℚ), 0, 0⟩, ⟨1, 0, 0⟩, ⟨1, 0, 0⟩],
      [⟨0, 0, 0⟩, ⟨0, 0, 0⟩], [⟨0, 0, 0⟩, ⟨0, 0, 0⟩]] (fun _ => false)) 0 =
      some (some true, some [some ⟨5/6, 0, 0⟩, some ⟨13/12, 0, 0⟩, some ⟨1, 0, 0⟩]) ∧
    outcome3 (SplineSolver3.naturalBezierSplineH 3 0 0 2) (Heap.ofLists [] [[⟨(0 : ℚ), 0, 0⟩, ⟨1, 0, 0⟩, ⟨1, 0, 0⟩],
      [⟨0, 0, 0⟩, ⟨0, 0, 0⟩], [⟨0, 0, 0⟩, ⟨0, 0, 0⟩]] (fun _ => false)) 2 =
      some (some true, some [some ⟨7/6, 0, 0⟩, some ⟨13/12, 0, 0⟩]) := by
  refine ⟨by decide +kernel, by decide +kernel, by decide +kernel⟩

end MathLib
