import Verif.Proof.Heap

/-! # Triples for the solvers on the heap -/

namespace MathLib
open HM

variable {R : Type} [Zero R] [One R] [NatCast R] [Add R] [Sub R] [Mul R] [Div R] [Neg R]
  [LT R] [LE R] [DecidableLT R] [DecidableLE R] [BEq R]

omit [One R] [NatCast R] [Add R] [Neg R] [LT R] [LE R] [DecidableLT R] [DecidableLE R] in
theorem solveCoreH_ht (t : Ty) (vsub : t.den R → t.den R → t.den R) (vmul : t.den R → R → t.den R)
    (vdiv : t.den R → R → Res (t.den R)) (a b c r u n : ℕ) {o : ℕ → Bool} {L F : Set (Ty × ℕ)} {h₀ : Heap R} {E : Heap R → Prop}
    (ha : (.real, a) ∈ L) (hb : (.real, b) ∈ L) (hc : (.real, c) ∈ L) (hr : (t, r) ∈ L) (hu : (t, u) ∈ L) (fu : (t, u) ∉ F)
    (hE : ∀ h k, o k = true → Heap.Live o L F h₀ h → E h) :
    Ht (Heap.Live o L F h₀) (TriDiagonal.solveCoreH t vsub vmul vdiv a b c r u n : HM R Bool) (fun _ => Heap.Live o L F h₀) E := by
  unfold TriDiagonal.solveCoreH
  refine Ht.bind (Ht.load hb) fun b0 => ?_
  refine Ht.ite (fun _ => Ht.pure' fun _ h => h) fun _ => ?_
  refine Ht.bind (Ht.new hE) fun g => Ht.pre fun ⟨hg, fg⟩ => ?_
  have e : insert (Ty.real, g) L \ {(Ty.real, g)} = L := by grind
  refine Ht.bind (Ht.load (by simp [*])) fun r0 => ?_
  refine Ht.bind Ht.lift fun q0 => ?_
  refine Ht.bind (Ht.store (by simp [*]) fu) fun _ => ?_
  refine Ht.bind (Q := fun _ => Heap.Live o (insert (Ty.real, g) L) F h₀) (Ht.forBreak fun j bet => ?_) fun bet => ?_
  · heap
  · cases bet with
    | none =>
      refine Ht.bind (Ht.delete (by simp) fg) fun _ => ?_
      rw [e]
      heap
    | some _ =>
      refine Ht.bind (Q := fun _ => Heap.Live o (insert (Ty.real, g) L) F h₀) (Ht.forDown fun j => ?_) fun _ => ?_
      · heap
      refine Ht.bind (Ht.delete (by simp) fg) fun _ => ?_
      rw [e]
      heap

omit [One R] [NatCast R] [Add R] [Neg R] [LT R] [LE R] [DecidableLT R] [DecidableLE R] in
theorem solveH_ht (a b c r u n : ℕ) {o : ℕ → Bool} {L F : Set (Ty × ℕ)} {h₀ : Heap R} {E : Heap R → Prop}
    (ha : (.real, a) ∈ L) (hb : (.real, b) ∈ L) (hc : (.real, c) ∈ L) (hr : (.real, r) ∈ L) (hu : (.real, u) ∈ L) (fu : (.real, u) ∉ F)
    (hE : ∀ h k, o k = true → Heap.Live o L F h₀ h → E h) :
    Ht (Heap.Live o L F h₀) (TriDiagonal.solveH a b c r u n : HM R Bool) (fun _ => Heap.Live o L F h₀) E :=
  Ht.ite (fun _ => Ht.lift) fun _ => solveCoreH_ht .real _ _ _ a b c r u n ha hb hc hr hu fu hE

omit [One R] [NatCast R] [Add R] [Neg R] [LT R] [LE R] [DecidableLT R] [DecidableLE R] in
theorem solve3H_ht (a b c r u n : ℕ) {o : ℕ → Bool} {L F : Set (Ty × ℕ)} {h₀ : Heap R} {E : Heap R → Prop}
    (ha : (.real, a) ∈ L) (hb : (.real, b) ∈ L) (hc : (.real, c) ∈ L) (hr : (.vec, r) ∈ L) (hu : (.vec, u) ∈ L) (fu : (.vec, u) ∉ F)
    (hE : ∀ h k, o k = true → Heap.Live o L F h₀ h → E h) :
    Ht (Heap.Live o L F h₀) (TriDiagonal.solve3H a b c r u n : HM R Bool) (fun _ => Heap.Live o L F h₀) E :=
  solveCoreH_ht .vec _ _ _ a b c r u n ha hb hc hr hu fu hE

omit [NatCast R] [LT R] [LE R] [DecidableLT R] [DecidableLE R] in
theorem solveCyclicH_ht (a b c : ℕ) (alpha beta : R) (r x n : ℕ) {o : ℕ → Bool} {L F : Set (Ty × ℕ)} {h₀ : Heap R} {E : Heap R → Prop}
    (ha : (.real, a) ∈ L) (hb : (.real, b) ∈ L) (hc : (.real, c) ∈ L) (hr : (.real, r) ∈ L) (hx : (.real, x) ∈ L) (fx : (.real, x) ∉ F)
    (ho : ∀ k, o k = false) :
    Ht (Heap.Live o L F h₀) (TriDiagonal.solveCyclicH a b c alpha beta r x n : HM R Bool) (fun _ => Heap.Live o L F h₀) E := by
  have hE : ∀ (M : Set (Ty × ℕ)) (h : Heap R) k, o k = true → Heap.Live o M F h₀ h → E h := fun _ _ k hk => by simp [ho] at hk
  unfold TriDiagonal.solveCyclicH
  refine Ht.ite (fun _ => Ht.pure' fun _ h => h) fun _ => ?_
  refine Ht.ite (fun _ => solveH_ht a b c r x n ha hb hc hr hx fx (hE _)) fun _ => ?_
  refine Ht.bind (Ht.new (hE _)) fun bb => Ht.pre fun ⟨hbb, fbb⟩ => ?_
  refine Ht.bind (Ht.new (hE _)) fun u => Ht.pre fun ⟨hu, fu⟩ => ?_
  refine Ht.bind (Ht.new (hE _)) fun z => Ht.pre fun ⟨hz, fz⟩ => ?_
  have e : ((insert (Ty.real, z) (insert (Ty.real, u) (insert (Ty.real, bb) L)) \ {(Ty.real, z)}) \ {(Ty.real, u)})
      \ {(Ty.real, bb)} = L := by grind
  generalize hM : insert (Ty.real, z) (insert (Ty.real, u) (insert (Ty.real, bb) L)) = M at e ⊢
  have m1 : (Ty.real, a) ∈ M := by grind
  have m2 : (Ty.real, b) ∈ M := by grind
  have m3 : (Ty.real, c) ∈ M := by grind
  have m4 : (Ty.real, r) ∈ M := by grind
  have m5 : (Ty.real, x) ∈ M := by grind
  have m6 : (Ty.real, bb) ∈ M := by grind
  have m7 : (Ty.real, u) ∈ M := by grind
  have m8 : (Ty.real, z) ∈ M := by grind
  have d1 : (Ty.real, u) ∈ M \ {(Ty.real, z)} := by grind
  have d2 : (Ty.real, bb) ∈ (M \ {(Ty.real, z)}) \ {(Ty.real, u)} := by grind
  refine Ht.bind (Ht.load m2) fun b0 => ?_
  refine Ht.bind (Ht.store m6 fbb) fun _ => ?_
  refine Ht.bind (Ht.load m2) fun bl => ?_
  refine Ht.bind (Ht.store m6 fbb) fun _ => ?_
  refine Ht.bind (Ht.for' fun i => Ht.bind (Ht.load m2) fun bi => Ht.store m6 fbb) fun _ => ?_
  refine Ht.bind (solveH_ht a bb c r x n m1 m6 m3 m4 m5 fx (hE _)) fun res => ?_
  have fin : ∀ res : Bool, Ht (Heap.Live o M F h₀) (do
      delete .real z
      delete .real u
      delete .real bb
      pure res : HM R Bool) (fun _ => Heap.Live o L F h₀) E := by
    intro res
    refine Ht.bind (Ht.delete m8 fz) fun _ => ?_
    refine Ht.bind (Ht.delete d1 fu) fun _ => ?_
    refine Ht.bind (Ht.delete d2 fbb) fun _ => ?_
    rw [e]
    heap
  refine Ht.ite (fun _ => ?_) fun _ => Ht.pbind (fin _)
  refine Ht.bind (Ht.store m7 fu) fun _ => ?_
  refine Ht.bind (Ht.store m7 fu) fun _ => ?_
  refine Ht.bind (Ht.for' fun i => Ht.store m7 fu) fun _ => ?_
  refine Ht.bind (solveH_ht a bb c u z n m1 m6 m3 m7 m8 fz (hE _)) fun res => ?_
  refine Ht.ite (fun _ => ?_) fun _ => Ht.pbind (fin _)
  refine Ht.bind (Ht.load m5) fun _ => ?_
  refine Ht.bind (Ht.load m5) fun _ => ?_
  refine Ht.bind (Ht.load m8) fun _ => ?_
  refine Ht.bind (Ht.load m8) fun _ => ?_
  exact Ht.bind (Ht.for' fun i => Ht.bind (Ht.load m5) fun _ => Ht.bind (Ht.load m8) fun _ => Ht.store m5 fx) fun _ =>
    Ht.pbind (fin _)

omit [NatCast R] [Add R] [Neg R] [LT R] [DecidableLT R] in
theorem gjH_ht (absf : R → R) (a n : ℕ) (b : GaussJordan.Rhs) (m : ℕ) {o : ℕ → Bool} {L F : Set (Ty × ℕ)} {h₀ : Heap R}
    {E : Heap R → Prop} (ha : (.real, a) ∈ L) (fa : (.real, a) ∉ F) (hb : b.addr ∈ L) (fb : b.addr ∉ F) (ho : ∀ k, o k = false) :
    Ht (Heap.Live o L F h₀) (GaussJordan.solveH absf a n b m : HM R Bool) (fun _ => Heap.Live o L F h₀) E := by
  have hE : ∀ (M : Set (Ty × ℕ)) (h : Heap R) k, o k = true → Heap.Live o M F h₀ h → E h := fun _ _ k hk => by simp [ho] at hk
  unfold GaussJordan.solveH
  refine Ht.bind (Ht.new (hE _)) fun ic => Ht.pre fun ⟨hic, fic⟩ => ?_
  refine Ht.bind (Ht.new (hE _)) fun ir => Ht.pre fun ⟨hir, fir⟩ => ?_
  refine Ht.bind (Ht.new (hE _)) fun ip => Ht.pre fun ⟨hip, fip⟩ => ?_
  have e : ((insert (Ty.int, ip) (insert (Ty.idx, ir) (insert (Ty.idx, ic) L)) \ {(Ty.idx, ic)}) \ {(Ty.idx, ir)})
      \ {(Ty.int, ip)} = L := by grind
  generalize hM : insert (Ty.int, ip) (insert (Ty.idx, ir) (insert (Ty.idx, ic) L)) = M at e ⊢
  have m1 : (Ty.real, a) ∈ M := by grind
  have m2 : b.addr ∈ M := by grind
  have m6 : (Ty.idx, ic) ∈ M := by grind
  have m7 : (Ty.idx, ir) ∈ M := by grind
  have m8 : (Ty.int, ip) ∈ M := by grind
  have d1 : (Ty.idx, ir) ∈ M \ {(Ty.idx, ic)} := by grind
  have d2 : (Ty.int, ip) ∈ (M \ {(Ty.idx, ic)}) \ {(Ty.idx, ir)} := by grind
  have g : Ht (Heap.Live o M F h₀) (b.get : HM R _) (fun _ => Heap.Live o M F h₀) E := by
    cases b with
    | reals p => exact Ht.deref m2
    | vecs p => exact Ht.bind (Ht.deref m2) fun _ => Ht.pure' fun _ h => h
  have p : ∀ v : Buf R, Ht (Heap.Live o M F h₀) (b.put v : HM R _) (fun _ => Heap.Live o M F h₀) E := by
    intro v
    cases b with
    | reals p => exact Ht.put m2 fb
    | vecs p => exact Ht.put m2 fb
  have fin : ∀ res : Bool, Ht (Heap.Live o M F h₀) (do
      delete .idx ic
      delete .idx ir
      delete .int ip
      pure res : HM R Bool) (fun _ => Heap.Live o L F h₀) E := by
    intro res
    refine Ht.bind (Ht.delete m6 fic) fun _ => ?_
    refine Ht.bind (Ht.delete d1 fir) fun _ => ?_
    refine Ht.bind (Ht.delete d2 fip) fun _ => ?_
    rw [e]
    heap
  refine Ht.bind (Ht.for' fun j => Ht.store m8 fip) fun _ => ?_
  refine Ht.bind (Q := fun _ => Heap.Live o M F h₀) (Ht.forBreak fun i piv => ?_) fun piv => ?_
  · refine Ht.bind (Ht.deref m1) fun _ => Ht.bind g fun _ => Ht.bind (Ht.deref m6) fun _ => Ht.bind (Ht.deref m7) fun _ =>
      Ht.bind (Ht.deref m8) fun _ => Ht.bind Ht.lift fun s => ?_
    cases s with
    | none => exact Ht.pure' fun _ h => h
    | some s =>
      exact Ht.bind (Ht.put m1 fa) fun _ => Ht.bind (p _) fun _ => Ht.bind (Ht.put m6 fic) fun _ => Ht.bind (Ht.put m7 fir) fun _ =>
        Ht.bind (Ht.put m8 fip) fun _ => Ht.pure' fun _ h => h
  · cases piv with
    | none => exact fin false
    | some piv =>
      exact Ht.bind (Ht.deref m1) fun _ => Ht.bind (Ht.deref m7) fun _ => Ht.bind (Ht.deref m6) fun _ =>
        Ht.bind Ht.lift fun _ => Ht.bind (Ht.put m1 fa) fun _ => fin true

omit [Zero R] [One R] [NatCast R] [Add R] [Sub R] [Mul R] [Div R] [Neg R] [LT R] [LE R] [DecidableLT R]
  [DecidableLE R] [BEq R] in
/-- the part of the two open splines from the call of the solver on: any `mid` and `last` that keep the blocks -/
theorem finH {o : ℕ → Bool} {L M F : Set (Ty × ℕ)} {h₀ : Heap R} {E : Heap R → Prop} {a b c r : ℕ}
    (hM : M = insert (Ty.vec, r) (insert (Ty.real, c) (insert (Ty.real, b) (insert (Ty.real, a) L))))
    (ha : (Ty.real, a) ∉ L) (hb : (Ty.real, b) ∉ insert (Ty.real, a) L)
    (hc : (Ty.real, c) ∉ insert (Ty.real, b) (insert (Ty.real, a) L))
    (hr : (Ty.vec, r) ∉ insert (Ty.real, c) (insert (Ty.real, b) (insert (Ty.real, a) L))) (fa : (Ty.real, a) ∉ F)
    (fb : (Ty.real, b) ∉ F) (fc : (Ty.real, c) ∉ F) (fr : (Ty.vec, r) ∉ F) (res : Bool) :
    Ht (Heap.Live o M F h₀) (do
      delete .real a
      delete .real b
      delete .real c
      delete .vec r
      pure res : HM R Bool) (fun _ => Heap.Live o L F h₀) E := by
  have e : (((M \ {(Ty.real, a)}) \ {(Ty.real, b)}) \ {(Ty.real, c)}) \ {(Ty.vec, r)} = L := by grind
  refine Ht.bind (Ht.delete (by grind) fa) fun _ => ?_
  refine Ht.bind (Ht.delete (by grind) fb) fun _ => ?_
  refine Ht.bind (Ht.delete (by grind) fc) fun _ => ?_
  refine Ht.bind (Ht.delete (by grind) fr) fun _ => ?_
  rw [e]
  heap

omit [Neg R] [LT R] [LE R] [DecidableLT R] [DecidableLE R] in
theorem naturalH_ht (n p1 p2 p3 : ℕ) {o : ℕ → Bool} {L F : Set (Ty × ℕ)} {h₀ : Heap R} {E : Heap R → Prop}
    (h1 : (.vec, p1) ∈ L) (h2 : (.vec, p2) ∈ L) (f2 : (.vec, p2) ∉ F) (h3 : (.vec, p3) ∈ L) (f3 : (.vec, p3) ∉ F) (ho : ∀ k, o k = false) :
    Ht (Heap.Live o L F h₀) (SplineSolver3.naturalBezierSplineH n p1 p2 p3 : HM R Bool) (fun _ => Heap.Live o L F h₀) E := by
  have hE : ∀ (M : Set (Ty × ℕ)) (h : Heap R) k, o k = true → Heap.Live o M F h₀ h → E h := fun _ _ k hk => by simp [ho] at hk
  unfold SplineSolver3.naturalBezierSplineH
  refine Ht.ite (fun _ => Ht.ite (fun _ => ?_) fun _ => ?_) (fun _ => Ht.lift)
  · exact Ht.bind (Ht.load h1) fun _ => Ht.bind (Ht.load h1) fun _ => Ht.bind Ht.lift fun _ => Ht.bind (Ht.load h1) fun _ =>
      Ht.bind (Ht.store h2 f2) fun _ => Ht.bind (Ht.load h1) fun _ => Ht.bind (Ht.store h3 f3) fun _ => Ht.pure' fun _ h => h
  refine Ht.bind (Ht.new (hE _)) fun a => Ht.pre fun ⟨ha, fa⟩ => ?_
  refine Ht.bind (Ht.new (hE _)) fun b => Ht.pre fun ⟨hb, fb⟩ => ?_
  refine Ht.bind (Ht.new (hE _)) fun c => Ht.pre fun ⟨hc, fc⟩ => ?_
  refine Ht.bind (Ht.new (hE _)) fun r => Ht.pre fun ⟨hr, fr⟩ => ?_
  have fin := fun o E => finH (R := R) (o := o) (E := E) (h₀ := h₀) rfl ha hb hc hr fa fb fc fr
  generalize hM : insert (Ty.vec, r) (insert (Ty.real, c) (insert (Ty.real, b) (insert (Ty.real, a) L))) = M at fin ⊢
  have m1 : (Ty.vec, p1) ∈ M := by grind
  have m2 : (Ty.vec, p2) ∈ M := by grind
  have m3 : (Ty.vec, p3) ∈ M := by grind
  have m4 : (Ty.real, a) ∈ M := by grind
  have m5 : (Ty.real, b) ∈ M := by grind
  have m6 : (Ty.real, c) ∈ M := by grind
  have m7 : (Ty.vec, r) ∈ M := by grind
  refine Ht.bind (Ht.for' fun i => Ht.bind (Ht.store m4 fa) fun _ => Ht.bind (Ht.store m5 fb) fun _ => Ht.store m6 fc) fun _ => ?_
  refine Ht.bind (Ht.store m5 fb) fun _ => Ht.bind (Ht.store m4 fa) fun _ => Ht.bind (Ht.store m5 fb) fun _ => ?_
  refine Ht.bind (Ht.for' fun i => Ht.bind (Ht.load m1) fun _ => Ht.bind (Ht.load m1) fun _ => Ht.store m7 fr) fun _ => ?_
  refine Ht.bind (Ht.load m1) fun _ => Ht.bind (Ht.load m1) fun _ => Ht.bind (Ht.store m7 fr) fun _ =>
    Ht.bind (Ht.load m1) fun _ => Ht.bind (Ht.load m1) fun _ => Ht.bind (Ht.store m7 fr) fun _ => ?_
  refine Ht.bind (solve3H_ht a b c r p2 _ m4 m5 m6 m7 m2 f2 (hE _)) fun ret => ?_
  refine Ht.ite (fun _ => fin _ _ false) fun _ => ?_
  refine Ht.bind (Ht.for' fun i => Ht.bind (Ht.load m1) fun _ => Ht.bind (Ht.load m2) fun _ => Ht.store m3 f3) fun _ => ?_
  exact Ht.bind (Ht.load m1) fun _ => Ht.bind (Ht.load m2) fun _ => Ht.bind Ht.lift fun _ => Ht.bind (Ht.store m3 f3) fun _ =>
    fin _ _ true

omit [Neg R] [LT R] [LE R] [DecidableLT R] [DecidableLE R] in
theorem bezierH_ht (n p1 : ℕ) (ps pe : Vec3 R) (p2 p3 : ℕ) {o : ℕ → Bool} {L F : Set (Ty × ℕ)} {h₀ : Heap R} {E : Heap R → Prop}
    (h1 : (.vec, p1) ∈ L) (h2 : (.vec, p2) ∈ L) (f2 : (.vec, p2) ∉ F) (h3 : (.vec, p3) ∈ L) (f3 : (.vec, p3) ∉ F) (ho : ∀ k, o k = false) :
    Ht (Heap.Live o L F h₀) (SplineSolver3.bezierSplineH n p1 ps pe p2 p3 : HM R Bool) (fun _ => Heap.Live o L F h₀) E := by
  have hE : ∀ (M : Set (Ty × ℕ)) (h : Heap R) k, o k = true → Heap.Live o M F h₀ h → E h := fun _ _ k hk => by simp [ho] at hk
  unfold SplineSolver3.bezierSplineH
  refine Ht.ite (fun _ => Ht.ite (fun _ => ?_) fun _ => ?_) (fun _ => Ht.lift)
  · exact Ht.bind (Ht.load h1) fun _ => Ht.bind (Ht.load h1) fun _ => Ht.bind Ht.lift fun _ =>
      Ht.bind (Ht.store h2 f2) fun _ => Ht.bind (Ht.store h3 f3) fun _ => Ht.pure' fun _ h => h
  refine Ht.bind (Ht.new (hE _)) fun a => Ht.pre fun ⟨ha, fa⟩ => ?_
  refine Ht.bind (Ht.new (hE _)) fun b => Ht.pre fun ⟨hb, fb⟩ => ?_
  refine Ht.bind (Ht.new (hE _)) fun c => Ht.pre fun ⟨hc, fc⟩ => ?_
  refine Ht.bind (Ht.new (hE _)) fun r => Ht.pre fun ⟨hr, fr⟩ => ?_
  have fin := fun o E => finH (R := R) (o := o) (E := E) (h₀ := h₀) rfl ha hb hc hr fa fb fc fr
  generalize hM : insert (Ty.vec, r) (insert (Ty.real, c) (insert (Ty.real, b) (insert (Ty.real, a) L))) = M at fin ⊢
  have m1 : (Ty.vec, p1) ∈ M := by grind
  have m2 : (Ty.vec, p2) ∈ M := by grind
  have m3 : (Ty.vec, p3) ∈ M := by grind
  have m4 : (Ty.real, a) ∈ M := by grind
  have m5 : (Ty.real, b) ∈ M := by grind
  have m6 : (Ty.real, c) ∈ M := by grind
  have m7 : (Ty.vec, r) ∈ M := by grind
  refine Ht.bind (Ht.for' fun i => Ht.bind (Ht.store m4 fa) fun _ => Ht.bind (Ht.store m5 fb) fun _ => Ht.store m6 fc) fun _ => ?_
  refine Ht.bind (Ht.store m5 fb) fun _ => Ht.bind (Ht.store m5 fb) fun _ => Ht.bind (Ht.store m6 fc) fun _ => ?_
  refine Ht.bind (Ht.for' fun i => Ht.bind (Ht.load m1) fun _ => Ht.bind (Ht.load m1) fun _ => Ht.store m7 fr) fun _ => ?_
  refine Ht.bind (Ht.store m7 fr) fun _ => Ht.bind (Ht.load m1) fun _ => Ht.bind (Ht.store m7 fr) fun _ => ?_
  refine Ht.bind (solve3H_ht a b c r p2 _ m4 m5 m6 m7 m2 f2 (hE _)) fun ret => ?_
  refine Ht.ite (fun _ => fin _ _ false) fun _ => ?_
  refine Ht.bind (Ht.for' fun i => Ht.bind (Ht.load m1) fun _ => Ht.bind (Ht.load m2) fun _ => Ht.store m3 f3) fun _ => ?_
  exact Ht.bind (Ht.store m3 f3) fun _ => fin _ _ true

omit [Neg R] [LT R] [DecidableLT R] in
theorem closedH_ht (absf : R → R) (n p1 p2 p3 : ℕ) {o : ℕ → Bool} {L F : Set (Ty × ℕ)} {h₀ : Heap R} {E : Heap R → Prop}
    (h1 : (.vec, p1) ∈ L) (h2 : (.vec, p2) ∈ L) (f2 : (.vec, p2) ∉ F) (h3 : (.vec, p3) ∈ L) (f3 : (.vec, p3) ∉ F) (ho : ∀ k, o k = false) :
    Ht (Heap.Live o L F h₀) (SplineSolver3.closedBezierSplineH absf n p1 p2 p3 : HM R Bool) (fun _ => Heap.Live o L F h₀) E := by
  have hE : ∀ (M : Set (Ty × ℕ)) (h : Heap R) k, o k = true → Heap.Live o M F h₀ h → E h := fun _ _ k hk => by simp [ho] at hk
  unfold SplineSolver3.closedBezierSplineH
  refine Ht.ite (fun _ => ?_) (fun _ => Ht.lift)
  refine Ht.bind (Ht.new (hE _)) fun a => Ht.pre fun ⟨ha, fa⟩ => ?_
  have e : insert (Ty.real, a) L \ {(Ty.real, a)} = L := by grind
  generalize hM : insert (Ty.real, a) L = M at e ⊢
  have m1 : (Ty.vec, p1) ∈ M := by grind
  have m2 : (Ty.vec, p2) ∈ M := by grind
  have m3 : (Ty.vec, p3) ∈ M := by grind
  have m4 : (Ty.real, a) ∈ M := by grind
  have fin : ∀ res : Bool, Ht (Heap.Live o M F h₀) (do
      delete .real a
      pure res : HM R Bool) (fun _ => Heap.Live o L F h₀) E := by
    intro res
    refine Ht.bind (Ht.delete m4 fa) fun _ => ?_
    rw [e]
    heap
  refine Ht.bind (Ht.forDown fun i => Ht.store m4 fa) fun _ => ?_
  refine Ht.bind (Ht.for' fun i => Ht.bind (Ht.store m4 fa) fun _ => Ht.bind (Ht.store m4 fa) fun _ => Ht.store m4 fa) fun _ => ?_
  refine Ht.bind (Ht.store m4 fa) fun _ => Ht.bind (Ht.store m4 fa) fun _ => Ht.bind (Ht.store m4 fa) fun _ => Ht.bind (Ht.store m4 fa) fun _ =>
    Ht.bind (Ht.store m4 fa) fun _ => Ht.bind (Ht.store m4 fa) fun _ => ?_
  refine Ht.bind (Ht.for' fun i => Ht.bind (Ht.load m1) fun _ => Ht.bind (Ht.load m1) fun _ => Ht.store m2 f2) fun _ => ?_
  refine Ht.bind (Ht.load m1) fun _ => Ht.bind (Ht.load m1) fun _ => Ht.bind (Ht.store m2 f2) fun _ => ?_
  refine Ht.bind (gjH_ht absf a n (.vecs p2) 3 m4 fa m2 f2 ho) fun ret => ?_
  refine Ht.ite (fun _ => fin false) fun _ => ?_
  refine Ht.bind (Ht.for' fun i => Ht.bind (Ht.load m1) fun _ => Ht.bind (Ht.load m2) fun _ => Ht.store m3 f3) fun _ => ?_
  exact Ht.bind (Ht.load m2) fun _ => Ht.bind (Ht.load m2) fun _ => Ht.bind (Ht.load m1) fun _ => Ht.bind (Ht.store m3 f3) fun _ =>
    fin true

end MathLib
