import Verif.Proof.HeapGauss
import Verif.Props.GaussJordan
import Verif.Props.SplineSolvers

/-! # Property C166: Gauss-Jordan elimination and closed splines on the heap -/

namespace MathLib
open HM

section
variable {K : Type} [Field K] [LinearOrder K] [IsStrictOrderedRing K] [BEq K] [LawfulBEq K]

/-- C166: `GaussJordan::solve` on the heap, for a matrix and a right-hand side in two different arrays: it returns `false`
exactly if the matrix is singular, otherwise the right-hand side becomes the solution of the system in memory at the time of the
call.  No array but the two is changed, and the three arrays it allocates are deleted. -/
theorem C166_gauss {n m : ℕ} (A : Matrix (Fin n) (Fin n) K) (B : Matrix (Fin n) (Fin m) K) (pa pb : ℕ) (ne : pb ≠ pa)
    (h : Heap K) (hw : h.WF) (ho : ∀ k, h.oom k = false) (a b : Buf K) (ma : h.block (.real, pa) = some a)
    (mb : h.block (.real, pb) = some b) (ha : a.HoldsMat A) (hb : b.HoldsMat B) :
    ∃ ret h', GaussJordan.solveH (fun x : K => |x|) pa n (.reals pb) m h = .ok (some ret, h') ∧ (ret = false ↔ A.det = 0) ∧
      (ret = true → ∃ b' X, h'.block (.real, pb) = some b' ∧ b'.HoldsMat X ∧ A * X = B) ∧
      ∀ q, q ≠ (.real, pa) → q ≠ (.real, pb) → h'.block q = h.block q := by
  have s := GaussJordan.gaussH_sim (fun x : K => |x|) pa n (.reals pb) m hw ho ma (B := b) mb (by
    simp only [GaussJordan.Rhs.addr, ne_eq, Prod.mk.injEq, true_and]; exact ne)
  obtain ⟨ret, e, hs⟩ := C18_solution (fun x : K => |x|) (fun _ => abs_nonneg _) A B a b ha hb
  have hi := (C19_singular_iff A B a b ha hb).2
  rw [e] at s hi
  obtain ⟨r, h', e', o, -, -, hm⟩ := s
  refine ⟨r, h', e', ?_, ?_, o.same⟩
  · rw [← hi]
    cases ret with
    | none => simp only at hm; simp [hm]
    | some ab => simp only at hm; simp [hm.1]
  · rintro rfl
    cases ret with
    | none => simp at hm
    | some ab =>
      obtain ⟨a', b'⟩ := ab
      obtain ⟨X, hX, hAX⟩ := hs a' b' rfl
      exact ⟨b', X, hm.2.2, hX, hAX⟩

/-- C166: the overload for vectors, which passes `&b->x`: the system is solved for vectors. -/
theorem C166_gauss3 {n : ℕ} (A : Matrix (Fin n) (Fin n) K) (r : ℕ → Vec3 K) (pa pb : ℕ)
    (h : Heap K) (hw : h.WF) (ho : ∀ k, h.oom k = false) (a : Buf K) (b : Buf (Vec3 K)) (ma : h.block (.real, pa) = some a)
    (mb : h.block (.vec, pb) = some b) (ha : a.HoldsMat A) (hb : b.Holds n r) :
    ∃ ret h', GaussJordan.solveH (fun x : K => |x|) pa n (.vecs pb) 3 h = .ok (some ret, h') ∧ (ret = false ↔ A.det = 0) ∧
      (ret = true → ∃ (b' : Buf (Vec3 K)) (x : ℕ → Vec3 K), h'.block (.vec, pb) = some b' ∧ b'.Holds n x ∧
        ∀ i : Fin n, ∑ j : Fin n, A i j * (x j).x = (r i).x ∧ ∑ j : Fin n, A i j * (x j).y = (r i).y ∧
          ∑ j : Fin n, A i j * (x j).z = (r i).z) ∧
      ∀ q, q ≠ (.real, pa) → q ≠ (.vec, pb) → h'.block q = h.block q := by
  have s := GaussJordan.gaussH_sim (fun x : K => |x|) pa n (.vecs pb) 3 hw ho ma (B := SplineSolver3.flat b) ⟨b, mb, rfl⟩ (by
    simp [GaussJordan.Rhs.addr])
  have hB : (SplineSolver3.flat b).HoldsMat (Matrix.of fun (i : Fin n) (c : Fin 3) => SplineSolver3.comp (r i) c) := by
    refine ⟨Nat.mul_le_mul_right 3 hb.1, fun i j => ?_⟩
    have e1 : (i.val * 3 + j.val) / 3 = i.val := by omega
    have e2 : (i.val * 3 + j.val) % 3 = j.val := by omega
    simp only [SplineSolver3.flat, e1, e2, hb.2 i i.2]
    rfl
  obtain ⟨ret, e, hs⟩ := C18_solution (fun x : K => |x|) (fun _ => abs_nonneg _) A _ a _ ha hB
  have hi := (C19_singular_iff A _ a _ ha hB).2
  rw [e] at s hi
  obtain ⟨ret', h', e', o, -, -, hm⟩ := s
  refine ⟨ret', h', e', ?_, ?_, o.same⟩
  · rw [← hi]
    cases ret with
    | none => simp only at hm; simp [hm]
    | some ab => simp only at hm; simp [hm.1]
  · rintro rfl
    cases ret with
    | none => simp at hm
    | some ab =>
      obtain ⟨a', b'⟩ := ab
      obtain ⟨X, hX, hAX⟩ := hs a' b' rfl
      obtain ⟨-, -, V, hV, hf⟩ := hm
      have hX2 : ∀ (i : Fin n) (c : Fin 3), ((V : Buf (Vec3 K)).data i).map (fun v => SplineSolver3.comp v c) = some (X i c) := by
        intro i c
        have t := hX.2 i c
        rw [← hf] at t
        have e1 : (i.val * 3 + c.val) / 3 = i.val := by omega
        have e2 : (i.val * 3 + c.val) % 3 = c.val := by omega
        simp only [SplineSolver3.flat, e1, e2] at t
        exact t
      have hsz : n ≤ (V : Buf (Vec3 K)).size := by
        have t := hX.1
        rw [← hf] at t
        exact Nat.le_of_mul_le_mul_right t (by norm_num)
      have hx : ∀ i : Fin n, ((V : Buf (Vec3 K)).data i) = some ⟨X i 0, X i 1, X i 2⟩ := by
        intro i
        have t0 := hX2 i 0
        have t1 := hX2 i 1
        have t2 := hX2 i 2
        cases hd : (V : Buf (Vec3 K)).data i with
        | none => rw [hd] at t0; simp at t0
        | some v =>
          rw [hd] at t0 t1 t2
          simp only [Option.map_some, Option.some.injEq] at t0 t1 t2
          rw [← t0, ← t1, ← t2]
          rfl
      refine ⟨V, fun i => if hi : i < n then ⟨X ⟨i, hi⟩ 0, X ⟨i, hi⟩ 1, X ⟨i, hi⟩ 2⟩ else Vec3.zero, hV, ⟨hsz, fun i hi => ?_⟩, fun i => ?_⟩
      · simp only [hi, dite_true]; exact hx ⟨i, hi⟩
      · simp only [Fin.is_lt, dite_true, Fin.eta]
        exact ⟨congrFun (congrFun hAX i) 0, congrFun (congrFun hAX i) 1, congrFun (congrFun hAX i) 2⟩

/-- The hypotheses hold for 2x2 systems, with a right-hand side of numbers and of vectors. -/
example :
    (∃ ret h', GaussJordan.solveH (fun x : ℚ => |x|) 0 2 (.reals 1) 1
      (Heap.ofLists [[(2 : ℚ), 1, 1, 3], [5, 10]] [] (fun _ => false)) = .ok (some ret, h')) ∧
    ∃ ret h', GaussJordan.solveH (fun x : ℚ => |x|) 0 2 (.vecs 0) 3
      (Heap.ofLists [[(2 : ℚ), 1, 1, 3]] [[⟨5, 0, 1⟩, ⟨10, 0, 3⟩]] (fun _ => false)) = .ok (some ret, h') := by
  have hA : (Buf.ofList [(2 : ℚ), 1, 1, 3]).HoldsMat (!![2, 1; 1, 3] : Matrix (Fin 2) (Fin 2) ℚ) :=
    ⟨le_rfl, by decide +kernel⟩
  constructor
  · obtain ⟨ret, h', e, -⟩ := C166_gauss !![(2 : ℚ), 1; 1, 3] !![(5 : ℚ); 10] 0 1 (by decide)
      (Heap.ofLists [[(2 : ℚ), 1, 1, 3], [5, 10]] [] (fun _ => false)) (Heap.ofLists_wf _ _ _) (fun _ => rfl) _ _ rfl rfl hA
      ⟨le_rfl, by decide +kernel⟩
    exact ⟨ret, h', e⟩
  · obtain ⟨ret, h', e, -⟩ := C166_gauss3 !![(2 : ℚ), 1; 1, 3] (fun i => [(⟨5, 0, 1⟩ : Vec3 ℚ), ⟨10, 0, 3⟩].getD i ⟨0, 0, 0⟩) 0 0
      (Heap.ofLists [[(2 : ℚ), 1, 1, 3]] [[⟨5, 0, 1⟩, ⟨10, 0, 3⟩]] (fun _ => false)) (Heap.ofLists_wf _ _ _) (fun _ => rfl)
      _ _ rfl rfl hA ⟨le_rfl, by decide +kernel⟩
    exact ⟨ret, h', e⟩

/-- Runs of the overload for vectors, and on a singular matrix. -/
example :
    outcome3 (GaussJordan.solveH (fun x : ℚ => |x|) 0 2 (.vecs 0) 3)
      (Heap.ofLists [[(2 : ℚ), 1, 1, 3]] [[⟨5, 0, 1⟩, ⟨10, 0, 3⟩]] (fun _ => false)) 0 =
      some (some true, some [some ⟨1, 0, 0⟩, some ⟨3, 0, 1⟩]) ∧
    (outcome3 (GaussJordan.solveH (fun x : ℚ => |x|) 0 2 (.vecs 0) 3)
      (Heap.ofLists [[(2 : ℚ), 1, 4, 2]] [[⟨5, 0, 1⟩, ⟨10, 0, 3⟩]] (fun _ => false)) 0).map Prod.fst =
      some (some false) := by
  decide +kernel
end

/-- C166: closed splines on the heap: the array `p3` of the second inner control points may be the array of the points
themselves, which it overwrites; `p2` must be different from both (`C166_overlap`). -/
theorem C166_closed (absf : ℝ → ℝ) (habs : ∀ x, 0 ≤ absf x) (habs' : ∀ x, absf x ≤ absf 0 → x = 0) (n : ℕ) (hn : 3 ≤ n)
    (k : ℕ → Vec3 ℝ) (p1 p2 p3 : ℕ) (h : Heap ℝ) (hw : h.WF)
    (ho : ∀ k, h.oom k = false) (P1 P2 P3 : Buf (Vec3 ℝ)) (m1 : h.block (.vec, p1) = some P1)
    (m2 : h.block (.vec, p2) = some P2) (m3 : h.block (.vec, p3) = some P3) (h1 : P1.Holds n k)
    (h2 : n ≤ P2.size) (h3 : n ≤ P3.size) (n12 : p1 ≠ p2) (n23 : p2 ≠ p3) :
    ∃ h' P2' P3' q2 q3, SplineSolver3.closedBezierSplineH absf n p1 p2 p3 h = .ok (some true, h') ∧
      h'.block (.vec, p2) = some P2' ∧ h'.block (.vec, p3) = some P3' ∧ P2'.Holds n q2 ∧ P3'.Holds n q3 ∧
      IsClosedSpline n (closedSeg n k q2 q3) ∧
      ∀ q, q ≠ (.vec, p2) → q ≠ (.vec, p3) → h'.block q = h.block q := by
  have s := closedH_sim absf n p1 p2 p3 hw ho m1 m2 m3 n12 n23
  obtain ⟨P2', P3', q2, q3, e, f2, f3, f4, -⟩ := C95_closed_partial absf habs habs' n hn k P1 P2 P3 h1 h2 h3
  rw [e] at s
  obtain ⟨ret, h', e', rfl, o, g⟩ := s
  exact ⟨h', P2', P3', q2, q3, e', (g rfl).1, (g rfl).2, f2, f3, f4, o.same⟩

/-- The hypotheses hold for three points, with the second inner control points in the place of the points. -/
example : ∃ h', SplineSolver3.closedBezierSplineH (fun x : ℝ => |x|) 3 0 1 0 (Heap.ofLists []
      [[(⟨0, 0, 0⟩ : Vec3 ℝ), ⟨1, 0, 0⟩, ⟨0, 1, 0⟩], [⟨0, 0, 0⟩, ⟨0, 0, 0⟩, ⟨0, 0, 0⟩]] (fun _ => false)) = .ok (some true, h') := by
  obtain ⟨h', -, -, -, -, e, -⟩ := C166_closed (fun x => |x|) (fun x => abs_nonneg x) (fun x hx => by simpa using hx) 3 le_rfl
    (fun i => [(⟨0, 0, 0⟩ : Vec3 ℝ), ⟨1, 0, 0⟩, ⟨0, 1, 0⟩].getD i ⟨0, 0, 0⟩) 0 1 0 (Heap.ofLists []
      [[(⟨0, 0, 0⟩ : Vec3 ℝ), ⟨1, 0, 0⟩, ⟨0, 1, 0⟩], [⟨0, 0, 0⟩, ⟨0, 0, 0⟩, ⟨0, 0, 0⟩]] (fun _ => false))
    (Heap.ofLists_wf _ _ _) (fun _ => rfl) _ _ _ rfl rfl rfl
    ⟨le_rfl, fun i hi => by obtain rfl | rfl | rfl : i = 0 ∨ i = 1 ∨ i = 2 := by omega
                            all_goals rfl⟩ le_rfl le_rfl (by decide) (by decide)
  exact ⟨h', e⟩

/-- Points 0, 1, 1 on a line: the second inner control points are 2/3, 4/3, 0, also when they replace the points; with `p1` as
`p2` they are wrong, although `true` is returned. -/
theorem C166_overlap :
    outcome3 (SplineSolver3.closedBezierSplineH (fun x : ℚ => |x|) 3 0 1 2) (Heap.ofLists [] [[⟨(0 : ℚ), 0, 0⟩, ⟨1, 0, 0⟩, ⟨1, 0, 0⟩],
      [⟨0, 0, 0⟩, ⟨0, 0, 0⟩, ⟨0, 0, 0⟩], [⟨0, 0, 0⟩, ⟨0, 0, 0⟩, ⟨0, 0, 0⟩]] (fun _ => false)) 2 =
      some (some true, some [some ⟨2/3, 0, 0⟩, some ⟨4/3, 0, 0⟩, some ⟨0, 0, 0⟩]) ∧
    outcome3 (SplineSolver3.closedBezierSplineH (fun x : ℚ => |x|) 3 0 1 0) (Heap.ofLists [] [[⟨(0 : ℚ), 0, 0⟩, ⟨1, 0, 0⟩, ⟨1, 0, 0⟩],
      [⟨0, 0, 0⟩, ⟨0, 0, 0⟩, ⟨0, 0, 0⟩], [⟨0, 0, 0⟩, ⟨0, 0, 0⟩, ⟨0, 0, 0⟩]] (fun _ => false)) 0 =
      some (some true, some [some ⟨2/3, 0, 0⟩, some ⟨4/3, 0, 0⟩, some ⟨0, 0, 0⟩]) ∧
    outcome3 (SplineSolver3.closedBezierSplineH (fun x : ℚ => |x|) 3 0 0 2) (Heap.ofLists [] [[⟨(0 : ℚ), 0, 0⟩, ⟨1, 0, 0⟩, ⟨1, 0, 0⟩],
      [⟨0, 0, 0⟩, ⟨0, 0, 0⟩, ⟨0, 0, 0⟩], [⟨0, 0, 0⟩, ⟨0, 0, 0⟩, ⟨0, 0, 0⟩]] (fun _ => false)) 2 =
      some (some true, some [some ⟨10/9, 0, 0⟩, some ⟨16/9, 0, 0⟩, some ⟨10/9, 0, 0⟩]) := by
  refine ⟨by decide +kernel, by decide +kernel, by decide +kernel⟩

end MathLib
