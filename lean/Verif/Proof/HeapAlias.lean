import Verif.Proof.HeapSim

/-! # The tridiagonal solvers on the heap return what they return on separate arrays -/

namespace MathLib
open HM

theorem Buf.get_set_ne {α : Type} {b b' : Buf α} {i k : ℕ} {v : α} (h : b.set i v = .ok b') (hk : k ≠ i) :
    b'.get k = b.get k := by
  unfold Buf.set at h
  split_ifs at h with c
  injection h with h
  subst h
  simp [Buf.get, Function.update_of_ne hk]

variable {R : Type}

/-- what the solvers do to the heap: only the contents of `q` change -/
structure Heap.Only (h h' : Heap R) (q : Ty × ℕ) : Prop where
  oom : h'.oom = h.oom
  next : h.next ≤ h'.next
  some : (h'.block q).isSome
  same : ∀ q' ≠ q, h'.block q' = h.block q'

theorem Heap.Only.wf {h h' : Heap R} {q : Ty × ℕ} (o : h.Only h' q) (hw : h.WF) (hq : (h.block q).isSome) : h'.WF := by
  intro q' hq'
  have h1 := hw q' (o.next.trans hq')
  by_cases e : q' = q
  · subst e; rw [h1] at hq; cases hq
  · rw [o.same _ e, h1]

theorem Heap.WF.ne {h : Heap R} (hw : h.WF) {t' t : Ty} {p : ℕ} {X : Buf (t'.den R)} (hX : h.block (t', p) = some X) :
    (t', p) ≠ (t, h.next) := by
  intro e
  have := hw (t', p) (by rw [e])
  rw [this] at hX
  cases hX

/-- invariant of the loops of `solveCore` -/
private structure TInv (h : Heap R) (t : Ty) (u : ℕ) (U : Buf (t.den R)) (j : ℕ) (bet : R) (h' : Heap R)
    (st : TriDiagonal.St R (t.den R)) : Prop where
  bet : bet = st.bet
  oom : h'.oom = h.oom
  next : h'.next = h.next + 1
  hu : h'.block (t, u) = some st.u
  gam : h'.block (.real, h.next) = some st.gam
  same : ∀ q, q ≠ (t, u) → q ≠ (.real, h.next) → h'.block q = h.block q
  rest : ∀ i, j ≤ i → st.u.get i = U.get i

private theorem TInv.look {h : Heap R} {t : Ty} {u : ℕ} {U : Buf (t.den R)} {j : ℕ} {bet : R} {h' : Heap R}
    {st : TriDiagonal.St R (t.den R)} (I : TInv h t u U j bet h' st) (hU : h.block (t, u) = some U) (hw : h.WF)
    {t' : Ty} {p : ℕ} {X : Buf (t'.den R)} (hX : h.block (t', p) = some X) {i : ℕ} (hi : j ≤ i ∨ (t, u) ≠ (t', p)) :
    ∃ X', h'.block (t', p) = some X' ∧ X'.get i = X.get i := by
  by_cases e : (t', p) = (t, u)
  · obtain ⟨rfl, rfl⟩ := Prod.mk.inj e
    rw [hU] at hX
    injection hX with hX
    subst hX
    rcases hi with hi | hi
    · exact ⟨_, I.hu, I.rest i hi⟩
    · exact absurd rfl hi
  · exact ⟨X, by rw [I.same _ e (hw.ne hX), hX], rfl⟩

variable [Zero R] [One R] [NatCast R] [Add R] [Sub R] [Mul R] [Div R] [Neg R]
  [LT R] [LE R] [DecidableLT R] [DecidableLE R] [BEq R]

omit [One R] [NatCast R] [Add R] [Neg R] [LT R] [LE R] [DecidableLT R] [DecidableLE R] in
theorem solveCoreH_sim (t : Ty) (vsub : t.den R → t.den R → t.den R) (vmul : t.den R → R → t.den R)
    (vdiv : t.den R → R → Res (t.den R)) (a b c r u n : ℕ) {h : Heap R} (hw : h.WF) (ho : h.oom h.next = false)
    {A B C : Buf R} {Q U : Buf (t.den R)} (hA : h.block (.real, a) = some A) (hB : h.block (.real, b) = some B)
    (hC : h.block (.real, c) = some C) (hQ : h.block (t, r) = some Q) (hU : h.block (t, u) = some U)
    (ha : (t, u) ≠ (.real, a)) (hc : (t, u) ≠ (.real, c)) :
    Sim (TriDiagonal.solveCoreH t vsub vmul vdiv a b c r u n h) (TriDiagonal.solveCore vsub vmul vdiv A B C Q U n)
      (fun res h' out => res = out.1 ∧ h.Only h' (t, u) ∧ (out.1 = true → h'.block (t, u) = some out.2)) := by
  unfold TriDiagonal.solveCoreH TriDiagonal.solveCore
  have ngb : h.block (.real, h.next) = none := hw _ le_rfl
  refine Sim.bind (Sim.load hB rfl) ?_
  rintro b0 _ _ ⟨rfl, rfl⟩
  by_cases c0 : (b0 == 0) = true
  · rw [if_pos c0, if_pos c0]
    exact Sim.pure' ⟨rfl, ⟨rfl, le_rfl, by rw [hU]; rfl, fun _ _ => rfl⟩, by simp⟩
  rw [if_neg c0, if_neg c0]
  obtain ⟨s1, e1, x1⟩ := Sim.new (t := .real) (n := n) ho
  refine Sim.step e1 ?_
  refine Sim.bind (Sim.load (X := Q) (by rw [x1.same _ (hw.ne hQ), hQ]) rfl) ?_
  rintro r0 _ _ ⟨rfl, rfl⟩
  refine Sim.bind Sim.lift ?_
  rintro q0 _ _ ⟨rfl, rfl⟩
  refine Sim.bind (P := fun _ h' U' => TInv h t u U 1 b0 h' ⟨Buf.alloc n, b0, U'⟩) ?_ ?_
  · refine Sim.post (Sim.store (X := U) (by rw [x1.same _ (hw.ne hU), hU])) ?_
    rintro _ h' U' ⟨hs, x⟩
    exact ⟨rfl, x.oom.trans x1.oom, x.next.trans x1.next, x.self, by rw [x.same _ (hw.ne hU).symm]; exact x1.self, fun q h1 h2 => by
      rw [x.same _ h1, x1.same _ h2], fun i hi => Buf.get_set_ne hs (by omega)⟩
  intro _ h1 U1 I1
  refine Sim.bind (Sim.forBreak (fun j bet h' st => TInv h t u U j bet h' st)
    (fun h' => h'.oom = h.oom ∧ h'.next = h.next + 1 ∧ (h'.block (t, u)).isSome ∧ (h'.block (.real, h.next)).isSome ∧
      ∀ q, q ≠ (t, u) → q ≠ (.real, h.next) → h'.block q = h.block q) ?_ I1) ?_
  · intro j hj _ bet h' st I
    obtain ⟨C', c1, c2⟩ := I.look hU hw hC (i := j - 1) (.inr hc)
    refine Sim.bind (Sim.load c1 c2) ?_
    rintro cj _ _ ⟨rfl, rfl⟩
    rw [I.bet]
    refine Sim.bind (P := fun _ h' G => TInv h t u U j st.bet h' ⟨G, st.bet, st.u⟩) (Sim.post (Sim.store I.gam) ?_) ?_
    · rintro _ h'' G ⟨hs, x⟩
      exact ⟨rfl, x.oom.trans I.oom, x.next.trans I.next, by rw [x.same _ (hw.ne hU)]; exact I.hu, x.self, fun q h1 h2 => by
        rw [x.same _ h2, I.same _ h1 h2], I.rest⟩
    intro _ h2 G I2
    refine Sim.bind (Sim.load I2.gam rfl) ?_
    rintro gj _ _ ⟨rfl, rfl⟩
    obtain ⟨B', b1, b2⟩ := I2.look hU hw hB (i := j) (.inl le_rfl)
    refine Sim.bind (Sim.load b1 b2) ?_
    rintro bj _ _ ⟨rfl, rfl⟩
    obtain ⟨A', a1, a2⟩ := I2.look hU hw hA (i := j - 1) (.inr ha)
    refine Sim.bind (Sim.load a1 a2) ?_
    rintro aj _ _ ⟨rfl, rfl⟩
    dsimp only
    by_cases cb : (bj - aj * gj == 0) = true
    · rw [if_pos cb, if_pos cb]
      exact Sim.pure' ⟨rfl, I2.oom, I2.next, by rw [I2.hu]; rfl, by rw [I2.gam]; rfl, I2.same⟩
    rw [if_neg cb, if_neg cb]
    obtain ⟨Q', q1, q2⟩ := I2.look hU hw hQ (i := j) (.inl le_rfl)
    refine Sim.bind (Sim.load q1 q2) ?_
    rintro rj _ _ ⟨rfl, rfl⟩
    refine Sim.bind (Sim.load I2.hu rfl) ?_
    rintro uj _ _ ⟨rfl, rfl⟩
    refine Sim.bind Sim.lift ?_
    rintro q _ _ ⟨rfl, rfl⟩
    refine Sim.bind (Sim.store I2.hu) ?_
    rintro _ h3 U' ⟨hs, x⟩
    exact Sim.pure' ⟨_, rfl, rfl, x.oom.trans I2.oom, x.next.trans I2.next, x.self, by
      rw [x.same _ (hw.ne hU).symm]; exact I2.gam, fun q h1 h2 => by
      rw [x.same _ h1, I2.same _ h1 h2], fun i hi => by rw [Buf.get_set_ne hs (by omega)]; exact I2.rest i (by omega)⟩
  · intro bet h2 st I2
    cases st with
    | none =>
      obtain ⟨rfl, i1, i2, i3, i4, i5⟩ := I2
      obtain ⟨X, hX⟩ := Option.isSome_iff_exists.1 i4
      obtain ⟨s2, e2, x2⟩ := Sim.delete hX
      refine Sim.step e2 (Sim.pure' ⟨rfl, ⟨x2.oom.trans i1, by rw [x2.next, i2]; omega, ?_, ?_⟩, by simp⟩)
      · rw [x2.same _ (hw.ne hU)]; exact i3
      · intro q hq
        by_cases e : q = (.real, h.next)
        · subst e; rw [x2.self, ngb]
        · rw [x2.same _ e, i5 _ hq e]
    | some st =>
      obtain ⟨bet, rfl, I2⟩ := I2
      refine Sim.bind (Sim.forDown (fun h' (u' : Buf (t.den R)) => h'.oom = h.oom ∧ h'.next = h.next + 1 ∧
        h'.block (t, u) = some u' ∧ h'.block (.real, h.next) = some st.gam ∧
        ∀ q, q ≠ (t, u) → q ≠ (.real, h.next) → h'.block q = h.block q) ?_ ⟨I2.oom, I2.next, I2.hu, I2.gam, I2.same⟩) ?_
      · rintro j h' u' ⟨i1, i2, i3, i4, i5⟩
        refine Sim.bind (Sim.load i3 rfl) ?_
        rintro uj _ _ ⟨rfl, rfl⟩
        refine Sim.bind (Sim.load i4 rfl) ?_
        rintro gj _ _ ⟨rfl, rfl⟩
        refine Sim.bind (Sim.load i3 rfl) ?_
        rintro u1 _ _ ⟨rfl, rfl⟩
        refine Sim.post (Sim.store i3) ?_
        rintro _ h'' U' ⟨hs, x⟩
        exact ⟨x.oom.trans i1, x.next.trans i2, x.self, by rw [x.same _ (hw.ne hU).symm]; exact i4, fun q h1 h2 => by
          rw [x.same _ h1, i5 _ h1 h2]⟩
      · rintro _ h3 u' ⟨i1, i2, i3, i4, i5⟩
        obtain ⟨s2, e2, x2⟩ := Sim.delete i4
        refine Sim.step e2 (Sim.pure' ⟨rfl, ⟨x2.oom.trans i1, by rw [x2.next, i2]; omega, ?_, ?_⟩, ?_⟩)
        · rw [x2.same _ (hw.ne hU), i3]; rfl
        · intro q hq
          by_cases e : q = (.real, h.next)
          · subst e; rw [x2.self, ngb]
          · rw [x2.same _ e, i5 _ hq e]
        · rw [x2.same _ (hw.ne hU)]; exact fun _ => i3

omit [One R] [NatCast R] [Add R] [Neg R] [LT R] [LE R] [DecidableLT R] [DecidableLE R] in
theorem solveH_sim (a b c r u n : ℕ) {h : Heap R} (hw : h.WF) (ho : h.oom h.next = false)
    {A B C Q U : Buf R} (hA : h.block (.real, a) = some A) (hB : h.block (.real, b) = some B)
    (hC : h.block (.real, c) = some C) (hQ : h.block (.real, r) = some Q) (hU : h.block (.real, u) = some U)
    (ha : u ≠ a) (hc : u ≠ c) :
    Sim (TriDiagonal.solveH a b c r u n h) (TriDiagonal.solve A B C Q U n)
      (fun res h' out => res = out.1 ∧ h.Only h' (.real, u) ∧ (out.1 = true → h'.block (.real, u) = some out.2)) := by
  unfold TriDiagonal.solveH TriDiagonal.solve
  by_cases h0 : n = 0
  · rw [if_pos h0, if_pos h0]; exact rfl
  · rw [if_neg h0, if_neg h0]
    exact solveCoreH_sim .real _ _ _ a b c r u n hw ho hA hB hC hQ hU (fun e => ha (Prod.mk.inj e).2)
      (fun e => hc (Prod.mk.inj e).2)

omit [Zero R] [One R] [NatCast R] [Add R] [Sub R] [Mul R] [Div R] [Neg R] [LT R] [LE R] [DecidableLT R] [DecidableLE R]
  [BEq R] in
theorem Heap.Upd.only {h h' : Heap R} {q : Ty × ℕ} {X : Buf (q.1.den R)} (u : h.Upd q (some X) h') : h.Only h' q :=
  ⟨u.oom, u.next.ge, by rw [u.self]; rfl, u.same⟩

/-- the heap while `solveCyclic` runs: `bb`, `u`, `z` are the blocks `h.next`, `h.next + 1`, `h.next + 2` -/
private structure CInv (h : Heap R) (x : ℕ) (B' U' Z' X' : Buf R) (h' : Heap R) : Prop where
  oom : h'.oom = h.oom
  next : h.next + 3 ≤ h'.next
  bb : h'.block (.real, h.next) = some B'
  u : h'.block (.real, h.next + 1) = some U'
  z : h'.block (.real, h.next + 2) = some Z'
  hx : h'.block (.real, x) = some X'
  same : ∀ q, q ≠ (.real, h.next) → q ≠ (.real, h.next + 1) → q ≠ (.real, h.next + 2) → q ≠ (.real, x) → h'.block q = h.block q

section
omit [Zero R] [One R] [NatCast R] [Add R] [Sub R] [Mul R] [Div R] [Neg R] [LT R] [LE R] [DecidableLT R] [DecidableLE R]
  [BEq R]
variable {h h' h'' : Heap R} {x : ℕ} {B' U' Z' X' Y : Buf R}

private theorem CInv.wf (I : CInv h x B' U' Z' X' h') (hw : h.WF) (hx : x < h.next) : h'.WF := by
  intro q hq
  have := I.next
  rw [I.same q, hw q (by omega)] <;> · rintro rfl; simp only at hq; omega

private theorem CInv.setBB (I : CInv h x B' U' Z' X' h') (hx : x < h.next) (o : h'.Only h'' (.real, h.next))
    (e : h''.block (.real, h.next) = some Y) : CInv h x Y U' Z' X' h'' :=
  ⟨o.oom.trans I.oom, I.next.trans o.next, e, by rw [o.same _ (by simp)]; exact I.u, by rw [o.same _ (by simp)]; exact I.z,
    by rw [o.same _ (by simp; omega)]; exact I.hx, fun q h1 h2 h3 h4 => by rw [o.same _ h1, I.same q h1 h2 h3 h4]⟩

private theorem CInv.setU (I : CInv h x B' U' Z' X' h') (hx : x < h.next) (o : h'.Only h'' (.real, h.next + 1))
    (e : h''.block (.real, h.next + 1) = some Y) : CInv h x B' Y Z' X' h'' :=
  ⟨o.oom.trans I.oom, I.next.trans o.next, by rw [o.same _ (by simp)]; exact I.bb, e, by rw [o.same _ (by simp)]; exact I.z,
    by rw [o.same _ (by simp; omega)]; exact I.hx, fun q h1 h2 h3 h4 => by rw [o.same _ h2, I.same q h1 h2 h3 h4]⟩

private theorem CInv.setZ (I : CInv h x B' U' Z' X' h') (hx : x < h.next) (o : h'.Only h'' (.real, h.next + 2))
    (e : h''.block (.real, h.next + 2) = some Y) : CInv h x B' U' Y X' h'' :=
  ⟨o.oom.trans I.oom, I.next.trans o.next, by rw [o.same _ (by simp)]; exact I.bb, by rw [o.same _ (by simp)]; exact I.u, e,
    by rw [o.same _ (by simp; omega)]; exact I.hx, fun q h1 h2 h3 h4 => by rw [o.same _ h3, I.same q h1 h2 h3 h4]⟩

private theorem CInv.setX (I : CInv h x B' U' Z' X' h') (hx : x < h.next) (o : h'.Only h'' (.real, x))
    (e : h''.block (.real, x) = some Y) : CInv h x B' U' Z' Y h'' :=
  ⟨o.oom.trans I.oom, I.next.trans o.next, by rw [o.same _ (by simp; omega)]; exact I.bb,
    by rw [o.same _ (by simp; omega)]; exact I.u, by rw [o.same _ (by simp; omega)]; exact I.z, e,
    fun q h1 h2 h3 h4 => by rw [o.same _ h4, I.same q h1 h2 h3 h4]⟩

/-- a block that existed before and is not `x` -/
private theorem CInv.old (I : CInv h x B' U' Z' X' h') (hw : h.WF) {p : ℕ} (hp : h.block (.real, p) = some Y) (ne : x ≠ p) :
    h'.block (.real, p) = some Y := by
  have hl : p < h.next := by
    by_contra hn
    rw [hw (.real, p) (not_lt.1 hn)] at hp
    cases hp
  rw [I.same _ (by simp; omega) (by simp; omega) (by simp; omega) (by simp; omega), hp]

/-- a block that existed before, as long as `x` has not been written -/
private theorem CInv.orig {X : Buf R} (I : CInv h x B' U' Z' X h') (hw : h.WF) (hX : h.block (.real, x) = some X) {p : ℕ}
    (hp : h.block (.real, p) = some Y) : h'.block (.real, p) = some Y := by
  by_cases ne : x = p
  · subst ne
    rw [I.hx, ← hX, hp]
  · exact I.old hw hp ne

/-- the three `delete[]` at the end -/
private theorem CInv.fin (I : CInv h x B' U' Z' X' h') (hw : h.WF) (hx : x < h.next) (res : Bool) {out : Buf R}
    (ho : res = true → X' = out) :
    Sim ((do
      delete .real (h.next + 2)
      delete .real (h.next + 1)
      delete .real h.next
      pure res : HM R Bool) h') (.ok (res, out))
      (fun res h' out => res = out.1 ∧ h.Only h' (.real, x) ∧ (out.1 = true → h'.block (.real, x) = some out.2)) := by
  obtain ⟨s1, e1, x1⟩ := Sim.delete I.z
  refine Sim.step e1 ?_
  obtain ⟨s2, e2, x2⟩ := Sim.delete (s := s1) (t := .real) (p := h.next + 1) (X := U') (by rw [x1.same _ (by simp)]; exact I.u)
  refine Sim.step e2 ?_
  obtain ⟨s3, e3, x3⟩ := Sim.delete (s := s2) (t := .real) (p := h.next) (X := B')
    (by rw [x2.same _ (by simp), x1.same _ (by simp)]; exact I.bb)
  refine Sim.step e3 (Sim.pure' ?_)
  have hX : s3.block (.real, x) = some X' := by
    rw [x3.same _ (by simp; omega), x2.same _ (by simp; omega), x1.same _ (by simp; omega)]; exact I.hx
  refine ⟨rfl, ⟨?_, ?_, ?_, ?_⟩, ?_⟩
  · rw [x3.oom, x2.oom, x1.oom, I.oom]
  · rw [x3.next, x2.next, x1.next]; have := I.next; omega
  · rw [hX]; rfl
  · intro q hq
    by_cases c1 : q = (.real, h.next)
    · subst c1; rw [x3.self, hw _ le_rfl]
    by_cases c2 : q = (.real, h.next + 1)
    · subst c2; rw [x3.same _ c1, x2.self, hw _ (Nat.le_succ _)]
    by_cases c3 : q = (.real, h.next + 2)
    · subst c3; rw [x3.same _ c1, x2.same _ c2, x1.self, hw _ (by simp)]
    rw [x3.same _ c1, x2.same _ c2, x1.same _ c3, I.same q c1 c2 c3 hq]
  · intro hr
    rw [hX, ho hr]

end

omit [NatCast R] [LT R] [LE R] [DecidableLT R] [DecidableLE R] in
theorem solveCyclicH_sim (a b c : ℕ) (alpha beta : R) (r x n : ℕ) {h : Heap R} (hw : h.WF) (ho : ∀ k, h.oom k = false)
    {A B C Q X : Buf R} (hA : h.block (.real, a) = some A) (hB : h.block (.real, b) = some B)
    (hC : h.block (.real, c) = some C) (hQ : h.block (.real, r) = some Q) (hX : h.block (.real, x) = some X)
    (ha : x ≠ a) (hc : x ≠ c) :
    Sim (TriDiagonal.solveCyclicH a b c alpha beta r x n h) (TriDiagonal.solveCyclic A B C alpha beta Q X n)
      (fun res h' out => res = out.1 ∧ h.Only h' (.real, x) ∧ (out.1 = true → h'.block (.real, x) = some out.2)) := by
  have hx : x < h.next := by
    by_contra hn
    rw [hw (.real, x) (not_lt.1 hn)] at hX
    cases hX
  unfold TriDiagonal.solveCyclicH TriDiagonal.solveCyclic
  by_cases c0 : n ≤ 2
  · rw [if_pos c0, if_pos c0]
    exact Sim.pure' ⟨rfl, ⟨rfl, le_rfl, by rw [hX]; rfl, fun _ _ => rfl⟩, by simp⟩
  rw [if_neg c0, if_neg c0]
  by_cases c1 : (alpha == 0 && beta == 0) = true
  · rw [if_pos c1, if_pos c1]
    exact solveH_sim a b c r x n hw (ho _) hA hB hC hQ hX ha hc
  rw [if_neg c1, if_neg c1]
  obtain ⟨s1, e1, x1⟩ := Sim.new (t := .real) (n := n) (ho _)
  refine Sim.step e1 ?_
  obtain ⟨s2, e2, x2⟩ := Sim.new (t := .real) (n := n) (s := s1) (by rw [x1.oom]; exact ho _)
  refine Sim.step e2 ?_
  obtain ⟨s3, e3, x3⟩ := Sim.new (t := .real) (n := n) (s := s2) (by rw [x2.oom, x1.oom]; exact ho _)
  refine Sim.step e3 ?_
  have n1 := x1.next
  have n2 : s2.next = h.next + 2 := by rw [x2.next, n1]
  have n3 : s3.next = h.next + 3 := by rw [x3.next, n2]
  have I0 : CInv h x (Buf.alloc n) (Buf.alloc n) (Buf.alloc n) X s3 := by
    have x2' := x2.same
    have x3' := x3.same
    have x2s := x2.self
    have x3s := x3.self
    rw [n1] at x2' x2s
    rw [n2] at x3' x3s
    refine ⟨by rw [x3.oom, x2.oom, x1.oom], n3.ge, ?_, ?_, x3s, ?_, fun q h1 h2 h3 h4 => ?_⟩
    · rw [x3' _ (by simp), x2' _ (by simp)]; exact x1.self
    · rw [x3' _ (by simp)]; exact x2s
    · rw [x3' _ (by simp; omega), x2' _ (by simp; omega), x1.same _ (by simp; omega)]; exact hX
    · rw [x3' _ h3, x2' _ h2, x1.same _ h1]
  rw [n1, n2]
  clear e1 x1 e2 x2 e3 x3 n1 n2 n3
  refine Sim.bind (Sim.load (I0.orig hw hX hB) rfl) ?_
  rintro b0 _ _ ⟨rfl, rfl⟩
  refine Sim.bind (Sim.store I0.bb) ?_
  rintro _ h1 B1 ⟨-, y⟩
  have I1 := I0.setBB hx y.only y.self
  refine Sim.bind (Sim.load (I1.orig hw hX hB) rfl) ?_
  rintro bl _ _ ⟨rfl, rfl⟩
  refine Sim.bind (Sim.store I1.bb) ?_
  rintro _ h2 B2 ⟨-, y⟩
  have I2 := I1.setBB hx y.only y.self
  refine Sim.bind (Sim.for' (fun _ h' B' => CInv h x B' (Buf.alloc n) (Buf.alloc n) X h') ?_ I2) ?_
  · intro i _ _ h' B' I
    refine Sim.bind (Sim.load (I.orig hw hX hB) rfl) ?_
    rintro bi _ _ ⟨rfl, rfl⟩
    refine Sim.post (Sim.store I.bb) ?_
    rintro _ h1 B1 ⟨-, y⟩
    exact I.setBB hx y.only y.self
  rintro _ h3 B3 I3
  refine Sim.bind (solveH_sim a h.next c r x n (I3.wf hw hx) (by rw [I3.oom]; exact ho _) (I3.orig hw hX hA) I3.bb
    (I3.orig hw hX hC) (I3.orig hw hX hQ) I3.hx ha hc) ?_
  rintro res h4 ⟨_, X4⟩ ⟨rfl, o4, f4⟩
  obtain ⟨X4', hX4⟩ := Option.isSome_iff_exists.1 o4.some
  have I4 := I3.setX hx o4 hX4
  cases res with
  | false => exact I4.fin hw hx false (by simp)
  | true =>
  have e4 : X4' = X4 := by
    have := f4 rfl
    rw [hX4] at this
    exact Option.some.inj this
  subst e4
  refine Sim.bind (Sim.store I4.u) ?_
  rintro _ h5 U5 ⟨-, y⟩
  have I5 := I4.setU hx y.only y.self
  refine Sim.bind (Sim.store I5.u) ?_
  rintro _ h6 U6 ⟨-, y⟩
  have I6 := I5.setU hx y.only y.self
  refine Sim.bind (Sim.for' (fun _ h' U' => CInv h x B3 U' (Buf.alloc n) X4' h') ?_ I6) ?_
  · intro i _ _ h' U' I
    refine Sim.post (Sim.store I.u) ?_
    rintro _ h1 B1 ⟨-, y⟩
    exact I.setU hx y.only y.self
  rintro _ h7 U7 I7
  have al : a < h.next := by
    by_contra hn
    rw [hw (.real, a) (not_lt.1 hn)] at hA
    cases hA
  have cl : c < h.next := by
    by_contra hn
    rw [hw (.real, c) (not_lt.1 hn)] at hC
    cases hC
  refine Sim.bind (solveH_sim a h.next c (h.next + 1) (h.next + 2) n (I7.wf hw hx) (by rw [I7.oom]; exact ho _) (I7.old hw hA ha) I7.bb
    (I7.old hw hC hc) I7.u I7.z (by omega) (by omega)) ?_
  rintro res h8 ⟨_, Z8⟩ ⟨rfl, o8, f8⟩
  obtain ⟨Z8', hZ8⟩ := Option.isSome_iff_exists.1 o8.some
  have I8 := I7.setZ hx o8 hZ8
  cases res with
  | false => exact I8.fin hw hx false (by simp)
  | true =>
  have e8 : Z8' = Z8 := by
    have := f8 rfl
    rw [hZ8] at this
    exact Option.some.inj this
  subst e8
  refine Sim.bind (Sim.load I8.hx rfl) ?_
  rintro x0 _ _ ⟨rfl, rfl⟩
  refine Sim.bind (Sim.load I8.hx rfl) ?_
  rintro xl _ _ ⟨rfl, rfl⟩
  refine Sim.bind (Sim.load I8.z rfl) ?_
  rintro z0 _ _ ⟨rfl, rfl⟩
  refine Sim.bind (Sim.load I8.z rfl) ?_
  rintro zl _ _ ⟨rfl, rfl⟩
  refine Sim.bind (Sim.for' (fun _ h' X' => CInv h x B3 U7 Z8' X' h') ?_ I8) ?_
  · intro i _ _ h' X' I
    refine Sim.bind (Sim.load I.hx rfl) ?_
    rintro xi _ _ ⟨rfl, rfl⟩
    refine Sim.bind (Sim.load I.z rfl) ?_
    rintro zi _ _ ⟨rfl, rfl⟩
    refine Sim.post (Sim.store I.hx) ?_
    rintro _ h1 B1 ⟨-, y⟩
    exact I.setX hx y.only y.self
  rintro _ h9 X9 I9
  exact I9.fin hw hx true (fun _ => rfl)

end MathLib
