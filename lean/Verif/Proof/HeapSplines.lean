import Verif.Proof.HeapAlias

/-! # The open splines on the heap return what they return on separate arrays -/

namespace MathLib
open HM

variable {R : Type} [Zero R] [One R] [NatCast R] [Add R] [Sub R] [Mul R] [Div R] [Neg R]
  [LT R] [LE R] [DecidableLT R] [DecidableLE R] [BEq R]

omit [Zero R] [One R] [NatCast R] [Add R] [Sub R] [Mul R] [Div R] [Neg R] [LT R] [LE R] [DecidableLT R] [DecidableLE R]
  [BEq R] in
theorem Heap.WF.lt {h : Heap R} (hw : h.WF) {t : Ty} {p : ℕ} {X : Buf (t.den R)} (hX : h.block (t, p) = some X) :
    p < h.next := by
  by_contra hn
  rw [hw (t, p) (not_lt.1 hn)] at hX
  cases hX

/-- only the contents of the blocks `p2` and `p3` of vectors differ -/
structure Heap.Only2 (h h' : Heap R) (p2 p3 : ℕ) : Prop where
  oom : h'.oom = h.oom
  next : h.next ≤ h'.next
  some2 : (h'.block (.vec, p2)).isSome
  some3 : (h'.block (.vec, p3)).isSome
  same : ∀ q, q ≠ (.vec, p2) → q ≠ (.vec, p3) → h'.block q = h.block q

/-- the heap while a spline is computed: `a`, `b`, `c`, `r` are the blocks `h.next`, …, `h.next + 3` -/
private structure SInv (h : Heap R) (p2 p3 : ℕ) (A B C : Buf R) (Q P2 P3 : Buf (Vec3 R)) (h' : Heap R) : Prop where
  oom : h'.oom = h.oom
  next : h.next + 4 ≤ h'.next
  a : h'.block (.real, h.next) = some A
  b : h'.block (.real, h.next + 1) = some B
  c : h'.block (.real, h.next + 2) = some C
  r : h'.block (.vec, h.next + 3) = some Q
  h2 : h'.block (.vec, p2) = some P2
  h3 : h'.block (.vec, p3) = some P3
  same : ∀ q, q ≠ (.real, h.next) → q ≠ (.real, h.next + 1) → q ≠ (.real, h.next + 2) → q ≠ (.vec, h.next + 3) →
    q ≠ (.vec, p2) → q ≠ (.vec, p3) → h'.block q = h.block q

section
omit [Zero R] [One R] [NatCast R] [Add R] [Sub R] [Mul R] [Div R] [Neg R] [LT R] [LE R] [DecidableLT R] [DecidableLE R]
  [BEq R]
variable {h h' h'' : Heap R} {p2 p3 : ℕ} {A B C Y : Buf R} {Q P2 P3 V : Buf (Vec3 R)}

private theorem SInv.wf (I : SInv h p2 p3 A B C Q P2 P3 h') (hw : h.WF) (l2 : p2 < h.next) (l3 : p3 < h.next) : h'.WF := by
  intro q hq
  have := I.next
  rw [I.same q, hw q (by omega)] <;> · rintro rfl; simp only at hq; omega

private theorem SInv.setA (I : SInv h p2 p3 A B C Q P2 P3 h') (o : h'.Only h'' (.real, h.next))
    (e : h''.block (.real, h.next) = some Y) : SInv h p2 p3 Y B C Q P2 P3 h'' :=
  ⟨o.oom.trans I.oom, I.next.trans o.next, e, by rw [o.same _ (by simp)]; exact I.b, by rw [o.same _ (by simp)]; exact I.c,
    by rw [o.same _ (by simp)]; exact I.r, by rw [o.same _ (by simp)]; exact I.h2, by rw [o.same _ (by simp)]; exact I.h3,
    fun q h1 h2 h3 h4 h5 h6 => by rw [o.same _ h1, I.same q h1 h2 h3 h4 h5 h6]⟩

private theorem SInv.setB (I : SInv h p2 p3 A B C Q P2 P3 h') (o : h'.Only h'' (.real, h.next + 1))
    (e : h''.block (.real, h.next + 1) = some Y) : SInv h p2 p3 A Y C Q P2 P3 h'' :=
  ⟨o.oom.trans I.oom, I.next.trans o.next, by rw [o.same _ (by simp)]; exact I.a, e, by rw [o.same _ (by simp)]; exact I.c,
    by rw [o.same _ (by simp)]; exact I.r, by rw [o.same _ (by simp)]; exact I.h2, by rw [o.same _ (by simp)]; exact I.h3,
    fun q h1 h2 h3 h4 h5 h6 => by rw [o.same _ h2, I.same q h1 h2 h3 h4 h5 h6]⟩

private theorem SInv.setC (I : SInv h p2 p3 A B C Q P2 P3 h') (o : h'.Only h'' (.real, h.next + 2))
    (e : h''.block (.real, h.next + 2) = some Y) : SInv h p2 p3 A B Y Q P2 P3 h'' :=
  ⟨o.oom.trans I.oom, I.next.trans o.next, by rw [o.same _ (by simp)]; exact I.a, by rw [o.same _ (by simp)]; exact I.b, e,
    by rw [o.same _ (by simp)]; exact I.r, by rw [o.same _ (by simp)]; exact I.h2, by rw [o.same _ (by simp)]; exact I.h3,
    fun q h1 h2 h3 h4 h5 h6 => by rw [o.same _ h3, I.same q h1 h2 h3 h4 h5 h6]⟩

private theorem SInv.setR (I : SInv h p2 p3 A B C Q P2 P3 h') (l2 : p2 < h.next) (l3 : p3 < h.next)
    (o : h'.Only h'' (.vec, h.next + 3)) (e : h''.block (.vec, h.next + 3) = some V) : SInv h p2 p3 A B C V P2 P3 h'' :=
  ⟨o.oom.trans I.oom, I.next.trans o.next, by rw [o.same _ (by simp)]; exact I.a, by rw [o.same _ (by simp)]; exact I.b,
    by rw [o.same _ (by simp)]; exact I.c, e, by rw [o.same _ (by simp; omega)]; exact I.h2,
    by rw [o.same _ (by simp; omega)]; exact I.h3,
    fun q h1 h2 h3 h4 h5 h6 => by rw [o.same _ h4, I.same q h1 h2 h3 h4 h5 h6]⟩

private theorem SInv.set2 (I : SInv h p2 p3 A B C Q P2 P3 h') (l2 : p2 < h.next) (ne : p2 ≠ p3)
    (o : h'.Only h'' (.vec, p2)) (e : h''.block (.vec, p2) = some V) : SInv h p2 p3 A B C Q V P3 h'' :=
  ⟨o.oom.trans I.oom, I.next.trans o.next, by rw [o.same _ (by simp)]; exact I.a, by rw [o.same _ (by simp)]; exact I.b,
    by rw [o.same _ (by simp)]; exact I.c, by rw [o.same _ (by simp; omega)]; exact I.r, e,
    by rw [o.same _ (by simp; omega)]; exact I.h3,
    fun q h1 h2 h3 h4 h5 h6 => by rw [o.same _ h5, I.same q h1 h2 h3 h4 h5 h6]⟩

private theorem SInv.set3 (I : SInv h p2 p3 A B C Q P2 P3 h') (l3 : p3 < h.next) (ne : p2 ≠ p3)
    (o : h'.Only h'' (.vec, p3)) (e : h''.block (.vec, p3) = some V) : SInv h p2 p3 A B C Q P2 V h'' :=
  ⟨o.oom.trans I.oom, I.next.trans o.next, by rw [o.same _ (by simp)]; exact I.a, by rw [o.same _ (by simp)]; exact I.b,
    by rw [o.same _ (by simp)]; exact I.c, by rw [o.same _ (by simp; omega)]; exact I.r,
    by rw [o.same _ (by simp; omega)]; exact I.h2, e,
    fun q h1 h2 h3 h4 h5 h6 => by rw [o.same _ h6, I.same q h1 h2 h3 h4 h5 h6]⟩

/-- the knots; `p3` may be the same array if the cell has not been overwritten -/
private theorem SInv.knots (I : SInv h p2 p3 A B C Q P2 P3 h') (hw : h.WF) {p1 : ℕ} {K : Buf (Vec3 R)} {P : Buf (Vec3 R)}
    (hK : h.block (.vec, p1) = some K) (hP : h.block (.vec, p3) = some P) (ne : p1 ≠ p2) {i : ℕ}
    (hi : P3.get i = P.get i) : ∃ X, h'.block (.vec, p1) = some X ∧ X.get i = K.get i := by
  have l1 := hw.lt hK
  by_cases e : p1 = p3
  · subst e
    rw [hK] at hP
    cases hP
    exact ⟨P3, I.h3, hi⟩
  · exact ⟨K, by rw [I.same _ (by simp) (by simp) (by simp) (by simp; omega) (by simp; omega) (by simp; omega), hK], rfl⟩

/-- the four `delete[]` at the end -/
private theorem SInv.fin (I : SInv h p2 p3 A B C Q P2 P3 h') (hw : h.WF) (l2 : p2 < h.next) (l3 : p3 < h.next) (res : Bool)
    {o2 o3 : Buf (Vec3 R)} (ho : res = true → P2 = o2 ∧ P3 = o3) :
    Sim ((do
      delete .real h.next
      delete .real (h.next + 1)
      delete .real (h.next + 2)
      delete .vec (h.next + 3)
      pure res : HM R Bool) h') (.ok (res, o2, o3))
      (fun res h' out => res = out.1 ∧ h.Only2 h' p2 p3 ∧
        (out.1 = true → h'.block (.vec, p2) = some out.2.1 ∧ h'.block (.vec, p3) = some out.2.2)) := by
  obtain ⟨s1, e1, x1⟩ := Sim.delete I.a
  refine Sim.step e1 ?_
  obtain ⟨s2, e2, x2⟩ := Sim.delete (s := s1) (t := .real) (p := h.next + 1) (X := B) (by rw [x1.same _ (by simp)]; exact I.b)
  refine Sim.step e2 ?_
  obtain ⟨s3, e3, x3⟩ := Sim.delete (s := s2) (t := .real) (p := h.next + 2) (X := C)
    (by rw [x2.same _ (by simp), x1.same _ (by simp)]; exact I.c)
  refine Sim.step e3 ?_
  obtain ⟨s4, e4, x4⟩ := Sim.delete (s := s3) (t := .vec) (p := h.next + 3) (X := Q)
    (by rw [x3.same _ (by simp), x2.same _ (by simp), x1.same _ (by simp)]; exact I.r)
  refine Sim.step e4 (Sim.pure' ?_)
  have hX2 : s4.block (.vec, p2) = some P2 := by
    rw [x4.same _ (by simp; omega), x3.same _ (by simp), x2.same _ (by simp), x1.same _ (by simp)]; exact I.h2
  have hX3 : s4.block (.vec, p3) = some P3 := by
    rw [x4.same _ (by simp; omega), x3.same _ (by simp), x2.same _ (by simp), x1.same _ (by simp)]; exact I.h3
  refine ⟨rfl, ⟨?_, ?_, ?_, ?_, ?_⟩, ?_⟩
  · rw [x4.oom, x3.oom, x2.oom, x1.oom, I.oom]
  · rw [x4.next, x3.next, x2.next, x1.next]; have := I.next; omega
  · rw [hX2]; rfl
  · rw [hX3]; rfl
  · intro q h5 h6
    by_cases c4 : q = (.vec, h.next + 3)
    · subst c4; rw [x4.self, hw _ (by simp)]
    by_cases c3 : q = (.real, h.next + 2)
    · subst c3; rw [x4.same _ c4, x3.self, hw _ (by simp)]
    by_cases c2 : q = (.real, h.next + 1)
    · subst c2; rw [x4.same _ c4, x3.same _ c3, x2.self, hw _ (by simp)]
    by_cases c1 : q = (.real, h.next)
    · subst c1; rw [x4.same _ c4, x3.same _ c3, x2.same _ c2, x1.self, hw _ (by simp)]
    rw [x4.same _ c4, x3.same _ c3, x2.same _ c2, x1.same _ c1, I.same q c1 c2 c3 c4 h5 h6]
  · intro hr
    rw [hX2, hX3, (ho hr).1, (ho hr).2]
    exact ⟨rfl, rfl⟩

/-- the four `new` at the beginning -/
private theorem SInv.init (hw : h.WF) (ho : ∀ k, h.oom k = false) (h2 : h.block (.vec, p2) = some P2)
    (h3 : h.block (.vec, p3) = some P3) (na nb nc nr : ℕ) : ∃ s1 s2 s3 s4,
    HM.new .real na h = .ok (some h.next, s1) ∧ HM.new .real nb s1 = .ok (some (h.next + 1), s2) ∧
    HM.new .real nc s2 = .ok (some (h.next + 2), s3) ∧ HM.new .vec nr s3 = .ok (some (h.next + 3), s4) ∧
    SInv h p2 p3 (Buf.alloc na) (Buf.alloc nb) (Buf.alloc nc) (Buf.alloc nr) P2 P3 s4 := by
  have l2 := hw.lt h2
  have l3 := hw.lt h3
  obtain ⟨s1, e1, x1⟩ := Sim.new (t := .real) (n := na) (ho _)
  obtain ⟨s2, e2, x2⟩ := Sim.new (t := .real) (n := nb) (s := s1) (by rw [x1.oom]; exact ho _)
  obtain ⟨s3, e3, x3⟩ := Sim.new (t := .real) (n := nc) (s := s2) (by rw [x2.oom, x1.oom]; exact ho _)
  obtain ⟨s4, e4, x4⟩ := Sim.new (t := .vec) (n := nr) (s := s3) (by rw [x3.oom, x2.oom, x1.oom]; exact ho _)
  have n1 := x1.next
  have n2 : s2.next = h.next + 2 := by rw [x2.next, n1]
  have n3 : s3.next = h.next + 3 := by rw [x3.next, n2]
  have n4 : s4.next = h.next + 4 := by rw [x4.next, n3]
  have x2' := x2.same
  have x3' := x3.same
  have x4' := x4.same
  have x2s := x2.self
  have x3s := x3.self
  have x4s := x4.self
  rw [n1] at x2' x2s e2
  rw [n2] at x3' x3s e3
  rw [n3] at x4' x4s e4
  refine ⟨s1, s2, s3, s4, e1, e2, e3, e4, by rw [x4.oom, x3.oom, x2.oom, x1.oom], n4.ge, ?_, ?_, ?_, x4s, ?_, ?_, ?_⟩
  · rw [x4' _ (by simp), x3' _ (by simp), x2' _ (by simp)]; exact x1.self
  · rw [x4' _ (by simp), x3' _ (by simp)]; exact x2s
  · rw [x4' _ (by simp)]; exact x3s
  · rw [x4' _ (by simp; omega), x3' _ (by simp), x2' _ (by simp), x1.same _ (by simp)]; exact h2
  · rw [x4' _ (by simp; omega), x3' _ (by simp), x2' _ (by simp), x1.same _ (by simp)]; exact h3
  · intro q c1 c2 c3 c4 _ _
    rw [x4' _ c4, x3' _ c3, x2' _ c2, x1.same _ c1]

end

omit [One R] [NatCast R] [Add R] [Neg R] [LT R] [LE R] [DecidableLT R] [DecidableLE R] in
theorem solve3H_sim (a b c r u n : ℕ) {h : Heap R} (hw : h.WF) (ho : h.oom h.next = false)
    {A B C : Buf R} {Q U : Buf (Vec3 R)} (hA : h.block (.real, a) = some A) (hB : h.block (.real, b) = some B)
    (hC : h.block (.real, c) = some C) (hQ : h.block (.vec, r) = some Q) (hU : h.block (.vec, u) = some U) :
    Sim (TriDiagonal.solve3H a b c r u n h) (TriDiagonal.solve3 A B C Q U n)
      (fun res h' out => res = out.1 ∧ h.Only h' (.vec, u) ∧ (out.1 = true → h'.block (.vec, u) = some out.2)) :=
  solveCoreH_sim .vec _ _ _ a b c r u n hw ho hA hB hC hQ hU (by simp) (by simp)

omit [Neg R] [LT R] [LE R] [DecidableLT R] [DecidableLE R] in
theorem naturalH_sim (n p1 p2 p3 : ℕ) {h : Heap R} (hw : h.WF) (ho : ∀ k, h.oom k = false) {K P2 P3 : Buf (Vec3 R)}
    (h1 : h.block (.vec, p1) = some K) (h2 : h.block (.vec, p2) = some P2) (h3 : h.block (.vec, p3) = some P3)
    (n12 : p1 ≠ p2) (n23 : p2 ≠ p3) :
    Sim (SplineSolver3.naturalBezierSplineH n p1 p2 p3 h) (SplineSolver3.naturalBezierSpline n K P2 P3)
      (fun res h' out => res = out.1 ∧ h.Only2 h' p2 p3 ∧
        (out.1 = true → h'.block (.vec, p2) = some out.2.1 ∧ h'.block (.vec, p3) = some out.2.2)) := by
  have l2 := hw.lt h2
  have l3 := hw.lt h3
  unfold SplineSolver3.naturalBezierSplineH SplineSolver3.naturalBezierSpline
  by_cases c0 : n ≥ 2
  swap
  · rw [if_neg c0, if_neg c0]; exact rfl
  rw [if_pos c0, if_pos c0]
  by_cases c1 : n = 2
  · rw [if_pos c1, if_pos c1]
    refine Sim.bind (Sim.load' h1 rfl) ?_
    rintro k1 _ _ ⟨rfl, rfl, g1⟩
    refine Sim.bind (Sim.load' h1 rfl) ?_
    rintro k0 _ _ ⟨rfl, rfl, g0⟩
    refine Sim.bind Sim.lift ?_
    rintro t _ _ ⟨rfl, rfl⟩
    refine Sim.step (Sim.again h1 g0) ?_
    refine Sim.bind (Sim.store h2) ?_
    rintro _ s1 P2' ⟨-, y1⟩
    have e1 : s1.block (.vec, p1) = some K := by rw [y1.same _ (by simp; omega), h1]
    have e3 : s1.block (.vec, p3) = some P3 := by rw [y1.same _ (by simp; omega), h3]
    refine Sim.step (Sim.again e1 g1) ?_
    refine Sim.bind (Sim.store e3) ?_
    rintro _ s2 P3' ⟨-, y2⟩
    have e2 : s2.block (.vec, p2) = some P2' := by rw [y2.same _ (by simp; omega)]; exact y1.self
    refine Sim.pure' ⟨rfl, ⟨y2.oom.trans y1.oom, (y2.next.trans y1.next).ge, by rw [e2]; rfl, by rw [y2.self]; rfl, ?_⟩,
      fun _ => ⟨e2, y2.self⟩⟩
    intro q q2 q3
    rw [y2.same _ q3, y1.same _ q2]
  rw [if_neg c1, if_neg c1]
  generalize n - 1 = n
  obtain ⟨s1, s2, s3, s4, e1, e2, e3, e4, I0⟩ := SInv.init hw ho h2 h3 (n - 1) n (n - 1) n
  refine Sim.step e1 (Sim.step e2 (Sim.step e3 (Sim.step e4 ?_)))
  refine Sim.bind (Sim.for' (fun _ h' (s : Buf R × Buf R × Buf R) => SInv h p2 p3 s.1 s.2.1 s.2.2 (Buf.alloc n) P2 P3 h') ?_ I0) ?_
  · rintro i _ _ h' ⟨A, B, C⟩ I
    refine Sim.bind (Sim.store I.a) ?_
    rintro _ h1 A1 ⟨-, y⟩
    have I := I.setA y.only y.self
    refine Sim.bind (Sim.store I.b) ?_
    rintro _ h2 B1 ⟨-, y⟩
    have I := I.setB y.only y.self
    refine Sim.tail (Sim.store I.c) ?_
    rintro _ h3 C1 ⟨-, y⟩
    exact I.setC y.only y.self
  rintro _ h5 ⟨A5, B5, C5⟩ I5
  dsimp only at I5 ⊢
  have kn : ∀ {h' A B C Q P}, SInv h p2 p3 A B C Q P P3 h' → ∀ i, ∃ X, h'.block (.vec, p1) = some X ∧ X.get i = K.get i :=
    fun I i => I.knots hw h1 h3 n12 rfl
  refine Sim.bind (Sim.store I5.b) ?_
  rintro _ h6 X6 ⟨-, y⟩
  have I6 := I5.setB y.only y.self
  refine Sim.bind (Sim.store I6.a) ?_
  rintro _ h7 X7 ⟨-, y⟩
  have I7 := I6.setA y.only y.self
  refine Sim.bind (Sim.store I7.b) ?_
  rintro _ h8 X8 ⟨-, y⟩
  have I8 := I7.setB y.only y.self
  refine Sim.bind (Sim.for' (fun _ h' (Q : Buf (Vec3 R)) => SInv h p2 p3 X7 X8 C5 Q P2 P3 h') ?_ I8) ?_
  · rintro i _ _ h' Q I
    obtain ⟨_, k1, k2⟩ := kn I i
    refine Sim.bind (Sim.load k1 k2) ?_
    rintro ki _ _ ⟨rfl, rfl⟩
    obtain ⟨_, k1, k2⟩ := kn I (i + 1)
    refine Sim.bind (Sim.load k1 k2) ?_
    rintro kj _ _ ⟨rfl, rfl⟩
    refine Sim.post (Sim.store I.r) ?_
    rintro _ h1 R1 ⟨-, y⟩
    exact I.setR l2 l3 y.only y.self
  rintro _ h9 R9 I9
  obtain ⟨_, k1, k2⟩ := kn I9 0
  refine Sim.bind (Sim.load k1 k2) ?_
  rintro k0 _ _ ⟨rfl, rfl⟩
  obtain ⟨_, k1, k2⟩ := kn I9 1
  refine Sim.bind (Sim.load k1 k2) ?_
  rintro k1 _ _ ⟨rfl, rfl⟩
  refine Sim.bind (Sim.store I9.r) ?_
  rintro _ h10 R10 ⟨-, y⟩
  have I10 := I9.setR l2 l3 y.only y.self
  obtain ⟨_, k1, k2⟩ := kn I10 (n - 1)
  refine Sim.bind (Sim.load k1 k2) ?_
  rintro kl _ _ ⟨rfl, rfl⟩
  obtain ⟨_, k1, k2⟩ := kn I10 n
  refine Sim.bind (Sim.load k1 k2) ?_
  rintro kn' _ _ ⟨rfl, rfl⟩
  refine Sim.bind (Sim.store I10.r) ?_
  rintro _ h11 R11 ⟨-, y⟩
  have I11 := I10.setR l2 l3 y.only y.self
  refine Sim.bind (solve3H_sim _ _ _ _ p2 n (I11.wf hw l2 l3) (by rw [I11.oom]; exact ho _) I11.a I11.b I11.c I11.r I11.h2) ?_
  rintro res h12 ⟨_, X2⟩ ⟨rfl, o12, f12⟩
  obtain ⟨X2', hX2⟩ := Option.isSome_iff_exists.1 o12.some
  have I12 := I11.set2 l2 n23 o12 hX2
  cases res with
  | false => exact I12.fin hw l2 l3 false (by simp)
  | true =>
  have e12 : X2' = X2 := by
    have := f12 rfl
    rw [hX2] at this
    exact Option.some.inj this
  subst e12
  refine Sim.bind (Sim.for' (fun j h' (P : Buf (Vec3 R)) => SInv h p2 p3 X7 X8 C5 R11 X2' P h' ∧
    ∀ i, j ≤ i → P.get i = P3.get i) ?_ ⟨I12, fun _ _ => rfl⟩) ?_
  · rintro i _ _ h' P ⟨I, J⟩
    obtain ⟨_, k1, k2⟩ := I.knots hw h1 h3 n12 (J (i + 1) (by omega))
    refine Sim.bind (Sim.load k1 k2) ?_
    rintro k _ _ ⟨rfl, rfl⟩
    refine Sim.bind (Sim.load I.h2 rfl) ?_
    rintro q _ _ ⟨rfl, rfl⟩
    refine Sim.post (Sim.store I.h3) ?_
    rintro _ h1 P1 ⟨hs, y⟩
    exact ⟨I.set3 l3 n23 y.only y.self, fun k hk => by rw [Buf.get_set_ne hs (by omega)]; exact J k (by omega)⟩
  rintro _ h13 P13 ⟨I13, J13⟩
  obtain ⟨_, k1, k2⟩ := I13.knots hw h1 h3 n12 (J13 n (by omega))
  refine Sim.bind (Sim.load k1 k2) ?_
  rintro kn' _ _ ⟨rfl, rfl⟩
  refine Sim.bind (Sim.load I13.h2 rfl) ?_
  rintro ql _ _ ⟨rfl, rfl⟩
  refine Sim.bind Sim.lift ?_
  rintro v _ _ ⟨rfl, rfl⟩
  refine Sim.bind (Sim.store I13.h3) ?_
  rintro _ h14 P14 ⟨-, y⟩
  exact (I13.set3 l3 n23 y.only y.self).fin hw l2 l3 true (fun _ => ⟨rfl, rfl⟩)

omit [Neg R] [LT R] [LE R] [DecidableLT R] [DecidableLE R] in
theorem bezierH_sim (n p1 : ℕ) (ps pe : Vec3 R) (p2 p3 : ℕ) {h : Heap R} (hw : h.WF) (ho : ∀ k, h.oom k = false) {K P2 P3 : Buf (Vec3 R)}
    (h1 : h.block (.vec, p1) = some K) (h2 : h.block (.vec, p2) = some P2) (h3 : h.block (.vec, p3) = some P3)
    (n12 : p1 ≠ p2) (n23 : p2 ≠ p3) :
    Sim (SplineSolver3.bezierSplineH n p1 ps pe p2 p3 h) (SplineSolver3.bezierSpline n K ps pe P2 P3)
      (fun res h' out => res = out.1 ∧ h.Only2 h' p2 p3 ∧
        (out.1 = true → h'.block (.vec, p2) = some out.2.1 ∧ h'.block (.vec, p3) = some out.2.2)) := by
  have l2 := hw.lt h2
  have l3 := hw.lt h3
  unfold SplineSolver3.bezierSplineH SplineSolver3.bezierSpline
  by_cases c0 : n ≥ 2
  swap
  · rw [if_neg c0, if_neg c0]; exact rfl
  rw [if_pos c0, if_pos c0]
  by_cases c1 : n = 2
  · rw [if_pos c1, if_pos c1]
    refine Sim.bind (Sim.load h1 rfl) ?_
    rintro k1 _ _ ⟨rfl, rfl⟩
    refine Sim.bind (Sim.load h1 rfl) ?_
    rintro k0 _ _ ⟨rfl, rfl⟩
    refine Sim.bind Sim.lift ?_
    rintro t _ _ ⟨rfl, rfl⟩
    refine Sim.bind (Sim.store h2) ?_
    rintro _ s1 P2' ⟨-, y1⟩
    have e3 : s1.block (.vec, p3) = some P3 := by rw [y1.same _ (by simp; omega), h3]
    refine Sim.bind (Sim.store e3) ?_
    rintro _ s2 P3' ⟨-, y2⟩
    have e2 : s2.block (.vec, p2) = some P2' := by rw [y2.same _ (by simp; omega)]; exact y1.self
    refine Sim.pure' ⟨rfl, ⟨y2.oom.trans y1.oom, (y2.next.trans y1.next).ge, by rw [e2]; rfl, by rw [y2.self]; rfl, ?_⟩,
      fun _ => ⟨e2, y2.self⟩⟩
    intro q q2 q3
    rw [y2.same _ q3, y1.same _ q2]
  rw [if_neg c1, if_neg c1]
  generalize n - 1 = n
  obtain ⟨s1, s2, s3, s4, e1, e2, e3, e4, I0⟩ := SInv.init hw ho h2 h3 (n - 1) n (n - 1) n
  refine Sim.step e1 (Sim.step e2 (Sim.step e3 (Sim.step e4 ?_)))
  refine Sim.bind (Sim.for' (fun _ h' (s : Buf R × Buf R × Buf R) => SInv h p2 p3 s.1 s.2.1 s.2.2 (Buf.alloc n) P2 P3 h') ?_ I0) ?_
  · rintro i _ _ h' ⟨A, B, C⟩ I
    refine Sim.bind (Sim.store I.a) ?_
    rintro _ h1 A1 ⟨-, y⟩
    have I := I.setA y.only y.self
    refine Sim.bind (Sim.store I.b) ?_
    rintro _ h2 B1 ⟨-, y⟩
    have I := I.setB y.only y.self
    refine Sim.tail (Sim.store I.c) ?_
    rintro _ h3 C1 ⟨-, y⟩
    exact I.setC y.only y.self
  rintro _ h5 ⟨A5, B5, C5⟩ I5
  dsimp only at I5 ⊢
  have kn : ∀ {h' A B C Q P}, SInv h p2 p3 A B C Q P P3 h' → ∀ i, ∃ X, h'.block (.vec, p1) = some X ∧ X.get i = K.get i :=
    fun I i => I.knots hw h1 h3 n12 rfl
  refine Sim.bind (Sim.store I5.b) ?_
  rintro _ h6 X6 ⟨-, y⟩
  have I6 := I5.setB y.only y.self
  refine Sim.bind (Sim.store I6.b) ?_
  rintro _ h7 X7 ⟨-, y⟩
  have I7 := I6.setB y.only y.self
  refine Sim.bind (Sim.store I7.c) ?_
  rintro _ h8 X8 ⟨-, y⟩
  have I8 := I7.setC y.only y.self
  refine Sim.bind (Sim.for' (fun _ h' (Q : Buf (Vec3 R)) => SInv h p2 p3 A5 X7 X8 Q P2 P3 h') ?_ I8) ?_
  · rintro i _ _ h' Q I
    obtain ⟨_, k1, k2⟩ := kn I i
    refine Sim.bind (Sim.load k1 k2) ?_
    rintro ki _ _ ⟨rfl, rfl⟩
    obtain ⟨_, k1, k2⟩ := kn I (i + 1)
    refine Sim.bind (Sim.load k1 k2) ?_
    rintro kj _ _ ⟨rfl, rfl⟩
    refine Sim.post (Sim.store I.r) ?_
    rintro _ h1 R1 ⟨-, y⟩
    exact I.setR l2 l3 y.only y.self
  rintro _ h9 R9 I9
  refine Sim.bind (Sim.store I9.r) ?_
  rintro _ h10 R10 ⟨-, y⟩
  have I10 := I9.setR l2 l3 y.only y.self
  obtain ⟨_, k1, k2⟩ := kn I10 (n - 1)
  refine Sim.bind (Sim.load k1 k2) ?_
  rintro kl _ _ ⟨rfl, rfl⟩
  refine Sim.bind (Sim.store I10.r) ?_
  rintro _ h11 R11 ⟨-, y⟩
  have I11 := I10.setR l2 l3 y.only y.self
  refine Sim.bind (solve3H_sim _ _ _ _ p2 n (I11.wf hw l2 l3) (by rw [I11.oom]; exact ho _) I11.a I11.b I11.c I11.r I11.h2) ?_
  rintro res h12 ⟨_, X2⟩ ⟨rfl, o12, f12⟩
  obtain ⟨X2', hX2⟩ := Option.isSome_iff_exists.1 o12.some
  have I12 := I11.set2 l2 n23 o12 hX2
  cases res with
  | false => exact I12.fin hw l2 l3 false (by simp)
  | true =>
  have e12 : X2' = X2 := by
    have := f12 rfl
    rw [hX2] at this
    exact Option.some.inj this
  subst e12
  refine Sim.bind (Sim.for' (fun j h' (P : Buf (Vec3 R)) => SInv h p2 p3 A5 X7 X8 R11 X2' P h' ∧
    ∀ i, j ≤ i → P.get i = P3.get i) ?_ ⟨I12, fun _ _ => rfl⟩) ?_
  · rintro i _ _ h' P ⟨I, J⟩
    obtain ⟨_, k1, k2⟩ := I.knots hw h1 h3 n12 (J (i + 1) (by omega))
    refine Sim.bind (Sim.load k1 k2) ?_
    rintro k _ _ ⟨rfl, rfl⟩
    refine Sim.bind (Sim.load I.h2 rfl) ?_
    rintro q _ _ ⟨rfl, rfl⟩
    refine Sim.post (Sim.store I.h3) ?_
    rintro _ h1 P1 ⟨hs, y⟩
    exact ⟨I.set3 l3 n23 y.only y.self, fun k hk => by rw [Buf.get_set_ne hs (by omega)]; exact J k (by omega)⟩
  rintro _ h13 P13 ⟨I13, J13⟩
  refine Sim.bind (Sim.store I13.h3) ?_
  rintro _ h14 P14 ⟨-, y⟩
  exact (I13.set3 l3 n23 y.only y.self).fin hw l2 l3 true (fun _ => ⟨rfl, rfl⟩)

end MathLib
