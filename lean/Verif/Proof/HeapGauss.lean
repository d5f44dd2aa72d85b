import Verif.Proof.HeapSplines

/-! # Gauss-Jordan elimination and closed splines on the heap return what they return on separate arrays -/

namespace MathLib
open HM

/-! ## Cells that are set have been read -/

/-- the same cells are initialised -/
structure Buf.Shape {α : Type} (b b' : Buf α) : Prop where
  size : b'.size = b.size
  data : ∀ k, (b'.data k).isSome = (b.data k).isSome

namespace Buf.Shape
variable {α σ : Type} {b b' b'' : Buf α}

theorem refl (b : Buf α) : b.Shape b := ⟨rfl, fun _ => rfl⟩
theorem trans (h : b.Shape b') (h' : b'.Shape b'') : b.Shape b'' :=
  ⟨h'.size.trans h.size, fun k => (h'.data k).trans (h.data k)⟩

theorem of_get {i : ℕ} {v : α} (h : b.get i = .ok v) : (b.data i).isSome := by
  unfold Buf.get at h
  split_ifs at h
  cases e : b.data i with
  | none => rw [e] at h; cases h
  | some _ => rfl

theorem of_set {i : ℕ} {v : α} (h : b.set i v = .ok b') (hi : (b.data i).isSome) : b.Shape b' := by
  unfold Buf.set at h
  split_ifs at h
  injection h with h
  subst h
  refine ⟨rfl, fun k => ?_⟩
  by_cases e : k = i
  · subst e; simp [hi]
  · simp [Function.update_of_ne e]

theorem loopFrom {f : ℕ → σ → Res σ} (I : σ → Prop) (H : ∀ i s s', I s → f i s = .ok s' → I s') :
    ∀ k lo s s', I s → MathLib.loopFrom f lo k s = .ok s' → I s' := by
  intro k
  induction k with
  | zero => rintro lo s s' i e; injection e with e; subst e; exact i
  | succ k ih =>
    intro lo s s' i e
    rw [MathLib.loopFrom] at e
    cases ef : f lo s with
    | error x => rw [ef] at e; cases e
    | ok t => rw [ef] at e; exact ih (lo + 1) t s' (H lo s t i ef) e

theorem loop {f : ℕ → σ → Res σ} (I : σ → Prop) (H : ∀ i s s', I s → f i s = .ok s' → I s') {lo hi : ℕ} {s s' : σ} (i : I s)
    (e : MathLib.loop lo hi f s = .ok s') : I s' := loopFrom I H _ _ _ _ i e
end Buf.Shape

/-- results of a sequence that ends without a fault -/
theorem Res.bind_ok {α β : Type} {x : Res α} {f : α → Res β} {b : β} (h : (x >>= f) = .ok b) : ∃ a, x = .ok a ∧ f a = .ok b := by
  cases x with
  | error e => cases h
  | ok a => exact ⟨a, rfl, h⟩

namespace GaussJordan
variable {R : Type}

theorem swap_shape {p p' : Buf R} {i j : ℕ} (h : swap p i j = .ok p') : p.Shape p' := by
  unfold swap at h
  obtain ⟨v, h1, h⟩ := Res.bind_ok h
  obtain ⟨w, h2, h⟩ := Res.bind_ok h
  obtain ⟨q, h3, h⟩ := Res.bind_ok h
  have s := Buf.Shape.of_set h3 (Buf.Shape.of_get h1)
  exact s.trans (Buf.Shape.of_set h (by rw [s.data]; exact Buf.Shape.of_get h2))

theorem exchange_shape {p p' : Buf R} {w i j : ℕ} (h : exchange p w i j = .ok p') : p.Shape p' := by
  unfold exchange at h
  split_ifs at h
  · exact Buf.Shape.loop (fun s => p.Shape s) (fun _ _ _ i e => i.trans (swap_shape e)) (Buf.Shape.refl p) h
  · injection h with h; subst h; exact Buf.Shape.refl p

theorem scaleRow_shape [Mul R] {p p' : Buf R} {w row : ℕ} {k : R} (h : scaleRow p w row k = .ok p') : p.Shape p' := by
  refine Buf.Shape.loop (fun s => p.Shape s) (fun _ _ _ i e => ?_) (Buf.Shape.refl p) h
  obtain ⟨v, h1, e⟩ := Res.bind_ok e
  exact i.trans (Buf.Shape.of_set e (Buf.Shape.of_get h1))

theorem reduceRow_shape [Mul R] [Sub R] {p p' : Buf R} {w row ll : ℕ} {k : R} (h : reduceRow p w row ll k = .ok p') : p.Shape p' := by
  refine Buf.Shape.loop (fun s => p.Shape s) (fun _ _ _ i e => ?_) (Buf.Shape.refl p) h
  obtain ⟨v, h1, e⟩ := Res.bind_ok e
  obtain ⟨w, h2, e⟩ := Res.bind_ok e
  exact i.trans (Buf.Shape.of_set e (Buf.Shape.of_get h1))

theorem reduce_shape [Zero R] [Mul R] [Sub R] {a b : Buf R} {n m icol : ℕ} {r : Buf R × Buf R}
    (h : reduce a b n m icol = .ok r) : b.Shape r.2 := by
  refine Buf.Shape.loop (fun s : Buf R × Buf R => b.Shape s.2) (fun l s s' i e => ?_) (Buf.Shape.refl b) h
  split_ifs at e
  · injection e with e; subst e; exact i
  · obtain ⟨v, h1, e⟩ := Res.bind_ok e
    obtain ⟨a1, h2, e⟩ := Res.bind_ok e
    obtain ⟨a2, h3, e⟩ := Res.bind_ok e
    obtain ⟨b1, h4, e⟩ := Res.bind_ok e
    injection e with e
    subst e
    exact i.trans (reduceRow_shape h4)

theorem step_shape [Zero R] [One R] [Sub R] [Mul R] [Div R] [LE R] [DecidableLE R] [BEq R] {absf : R → R} {n m i : ℕ} {s s' : St R}
    (h : step absf n m i s = .ok (some s')) : s.b.Shape s'.b := by
  unfold step at h
  obtain ⟨piv, -, h⟩ := Res.bind_ok h
  obtain ⟨icol, -, h⟩ := Res.bind_ok h
  obtain ⟨irow, -, h⟩ := Res.bind_ok h
  obtain ⟨pc, -, h⟩ := Res.bind_ok h
  obtain ⟨ipiv, -, h⟩ := Res.bind_ok h
  obtain ⟨a, -, h⟩ := Res.bind_ok h
  obtain ⟨b, hb, h⟩ := Res.bind_ok h
  obtain ⟨indxr, -, h⟩ := Res.bind_ok h
  obtain ⟨indxc, -, h⟩ := Res.bind_ok h
  obtain ⟨p, -, h⟩ := Res.bind_ok h
  split_ifs at h
  · cases h
  · obtain ⟨a1, -, h⟩ := Res.bind_ok h
    obtain ⟨a2, -, h⟩ := Res.bind_ok h
    obtain ⟨b1, hb1, h⟩ := Res.bind_ok h
    obtain ⟨r, hr, h⟩ := Res.bind_ok h
    injection h with h
    injection h with h
    subst h
    exact (exchange_shape hb).trans ((scaleRow_shape hb1).trans (reduce_shape hr))

end GaussJordan

/-! ## Vectors as arrays of components -/

namespace SplineSolver3
variable {R : Type}

theorem unflat_flat (V : Buf (Vec3 R)) : unflat (flat V) = V := by
  obtain ⟨n, d⟩ := V
  have e : ∀ i, (match (d (i * 3 / 3)).map fun v => comp v (i * 3 % 3), (d ((i * 3 + 1) / 3)).map fun v => comp v ((i * 3 + 1) % 3),
      (d ((i * 3 + 2) / 3)).map fun v => comp v ((i * 3 + 2) % 3) with
      | some x, some y, some z => some (⟨x, y, z⟩ : Vec3 R)
      | _, _, _ => none) = d i := by
    intro i
    have a1 : i * 3 / 3 = i := by omega
    have a2 : (i * 3 + 1) / 3 = i := by omega
    have a3 : (i * 3 + 2) / 3 = i := by omega
    have b1 : i * 3 % 3 = 0 := by omega
    have b2 : (i * 3 + 1) % 3 = 1 := by omega
    have b3 : (i * 3 + 2) % 3 = 2 := by omega
    rw [a1, a2, a3, b1, b2, b3]
    cases d i <;> rfl
  simp only [unflat, flat]
  congr 1
  · omega
  · exact funext e

theorem flat_unflat {V : Buf (Vec3 R)} {b : Buf R} (h : (flat V).Shape b) : flat (unflat b) = b := by
  obtain ⟨n, d⟩ := b
  obtain ⟨hs, hd⟩ := h
  have hs : n = V.size * 3 := hs
  have hd : ∀ k, (d k).isSome = (V.data (k / 3)).isSome := fun k => by rw [hd k]; simp [flat]
  simp only [unflat, flat]
  congr 1
  · omega
  · funext k
    have e1 := hd (k / 3 * 3)
    have e2 := hd (k / 3 * 3 + 1)
    have e3 := hd (k / 3 * 3 + 2)
    have e4 := hd k
    have a1 : k / 3 * 3 / 3 = k / 3 := by omega
    have a2 : (k / 3 * 3 + 1) / 3 = k / 3 := by omega
    have a3 : (k / 3 * 3 + 2) / 3 = k / 3 := by omega
    rw [a1] at e1; rw [a2] at e2; rw [a3] at e3
    cases hv : V.data (k / 3) with
    | none =>
      rw [hv] at e1 e4
      simp only [Option.isSome_none, Option.isSome_eq_false_iff, Option.isNone_iff_eq_none] at e1 e4
      rw [e1, e4]; rfl
    | some w =>
      rw [hv] at e1 e2 e3
      obtain ⟨x, hx⟩ := Option.isSome_iff_exists.1 e1
      obtain ⟨y, hy⟩ := Option.isSome_iff_exists.1 e2
      obtain ⟨z, hz⟩ := Option.isSome_iff_exists.1 e3
      rw [hx, hy, hz]
      have : k % 3 = 0 ∨ k % 3 = 1 ∨ k % 3 = 2 := by omega
      rcases this with r | r | r
      · rw [show k = k / 3 * 3 by omega, hx, show k / 3 * 3 % 3 = 0 by omega]; rfl
      · rw [show k = k / 3 * 3 + 1 by omega, hy, show (k / 3 * 3 + 1) % 3 = 1 by omega]; rfl
      · rw [show k = k / 3 * 3 + 2 by omega, hz, show (k / 3 * 3 + 2) % 3 = 2 by omega]; rfl

end SplineSolver3

/-! ## The elimination -/

namespace Sim
variable {R α β γ : Type}

theorem lift' {r : Res α} {s : Heap R} : Sim (HM.lift r s) r (fun a h b => a = b ∧ s = h ∧ r = .ok b) := by
  cases r with
  | error e => exact rfl
  | ok a => exact ⟨a, s, rfl, rfl, rfl, rfl⟩

/-- steps of the heap program after the last one of the array program -/
theorem after {m : HM R α} {s : Heap R} {y : Res β} {P : α → Heap R → β → Prop} {f : α → HM R γ} {Q : γ → Heap R → β → Prop}
    (h1 : Sim (m s) y P) (h2 : ∀ a h b, P a h b → ∃ c h', f a h = .ok (some c, h') ∧ Q c h' b) : Sim ((m >>= f) s) y Q := by
  cases y with
  | error e => exact HM.bind_err h1
  | ok b =>
    obtain ⟨a, h, e, p⟩ := h1
    obtain ⟨c, h', e', q⟩ := h2 a h b p
    exact ⟨c, h', by rw [HM.bind_ok e, e'], q⟩

theorem put {t : Ty} {p : ℕ} {s : Heap R} {X : Buf (t.den R)} (hx : s.block (t, p) = some X) (Y : Buf (t.den R)) :
    ∃ s', HM.put t p Y s = .ok (some (), s') ∧ s.Upd (t, p) (some Y) s' := by
  refine ⟨{ s with block := Function.update s.block (t, p) (some Y) }, ?_, rfl, rfl, ?_, ?_⟩
  · unfold HM.put
    rw [hx]
  · exact Function.update_self ..
  · exact fun q hq => Function.update_of_ne hq ..
end Sim

namespace GaussJordan
variable {R : Type}

/-- the right-hand side in memory -/
def Rhs.At (b : Rhs) (h : Heap R) (B : Buf R) : Prop :=
  match b with
  | reals p => h.block (.real, p) = some B
  | vecs p => ∃ V, h.block (.vec, p) = some V ∧ SplineSolver3.flat V = B

theorem Rhs.At.get {b : Rhs} {h : Heap R} {B : Buf R} (H : b.At h B) : b.get h = .ok (some B, h) := by
  cases b with
  | reals p => exact HM.deref_ok H
  | vecs p =>
    obtain ⟨V, h1, rfl⟩ := H
    exact HM.bind_ok (HM.deref_ok h1)

theorem Rhs.At.put {b : Rhs} {h : Heap R} {B B' : Buf R} (H : b.At h B) (s : B.Shape B') :
    ∃ h', b.put B' h = .ok (some (), h') ∧ h'.oom = h.oom ∧ h'.next = h.next ∧ b.At h' B' ∧ ∀ q ≠ b.addr, h'.block q = h.block q := by
  cases b with
  | reals p =>
    obtain ⟨h', e, x⟩ := Sim.put (t := .real) H B'
    exact ⟨h', e, x.oom, x.next, x.self, x.same⟩
  | vecs p =>
    obtain ⟨V, h1, rfl⟩ := H
    obtain ⟨h', e, x⟩ := Sim.put (t := .vec) h1 (SplineSolver3.unflat B')
    exact ⟨h', e, x.oom, x.next, ⟨_, x.self, SplineSolver3.flat_unflat s⟩, x.same⟩

theorem Rhs.At.congr {b : Rhs} {h h' : Heap R} {B : Buf R} (H : b.At h B) (e : h'.block b.addr = h.block b.addr) : b.At h' B := by
  cases b with
  | reals p => exact Eq.trans e H
  | vecs p =>
    obtain ⟨V, h1, h2⟩ := H
    exact ⟨V, Eq.trans e h1, h2⟩

theorem Rhs.At.isSome {b : Rhs} {h : Heap R} {B : Buf R} (H : b.At h B) : (h.block b.addr).isSome := by
  cases b with
  | reals p => exact Option.isSome_iff_exists.2 ⟨_, H⟩
  | vecs p =>
    obtain ⟨V, h1, -⟩ := H
    exact Option.isSome_iff_exists.2 ⟨_, h1⟩

/-- the heap while the elimination runs: `indxc`, `indxr`, `ipiv` are the blocks `h.next`, `h.next + 1`, `h.next + 2` -/
structure GInv (h : Heap R) (a : ℕ) (b : Rhs) (h' : Heap R) (s : St R) : Prop where
  oom : h'.oom = h.oom
  next : h'.next = h.next + 3
  ha : h'.block (.real, a) = some s.a
  hb : b.At h' s.b
  hc : h'.block (.idx, h.next) = some s.indxc
  hr : h'.block (.idx, h.next + 1) = some s.indxr
  hi : h'.block (.int, h.next + 2) = some s.ipiv
  same : ∀ q, q ≠ (.real, a) → q ≠ b.addr → q ≠ (.idx, h.next) → q ≠ (.idx, h.next + 1) → q ≠ (.int, h.next + 2) →
    h'.block q = h.block q

/-- only the matrix and the right-hand side have changed -/
structure Only (h h' : Heap R) (a : ℕ) (b : Rhs) : Prop where
  oom : h'.oom = h.oom
  next : h.next ≤ h'.next
  same : ∀ q, q ≠ (.real, a) → q ≠ b.addr → h'.block q = h.block q

theorem Rhs.addr_idx (b : Rhs) (p : ℕ) : b.addr ≠ (.idx, p) := by cases b <;> simp [Rhs.addr]
theorem Rhs.addr_int (b : Rhs) (p : ℕ) : b.addr ≠ (.int, p) := by cases b <;> simp [Rhs.addr]

/-- the three `delete[]` at the end -/
theorem GInv.fin {h h' : Heap R} {a : ℕ} {b : Rhs} {s : St R} (I : GInv h a b h' s) (hw : h.WF) (res : Bool) :
    ∃ h'', (do
      delete .idx h.next
      delete .idx (h.next + 1)
      delete .int (h.next + 2)
      pure res : HM R Bool) h' = .ok (some res, h'') ∧ Only h h'' a b ∧ h''.block (.real, a) = some s.a ∧ b.At h'' s.b := by
  obtain ⟨s1, e1, x1⟩ := Sim.delete I.hc
  obtain ⟨s2, e2, x2⟩ := Sim.delete (s := s1) (t := .idx) (p := h.next + 1) (X := s.indxr) (by rw [x1.same _ (by simp)]; exact I.hr)
  obtain ⟨s3, e3, x3⟩ := Sim.delete (s := s2) (t := .int) (p := h.next + 2) (X := s.ipiv) (by
    rw [x2.same _ (by simp), x1.same _ (by simp)]; exact I.hi)
  refine ⟨s3, ?_, ⟨?_, ?_, ?_⟩, ?_, ?_⟩
  · rw [HM.bind_ok e1, HM.bind_ok e2, HM.bind_ok e3]; rfl
  · rw [x3.oom, x2.oom, x1.oom, I.oom]
  · rw [x3.next, x2.next, x1.next, I.next]; omega
  · intro q q1 q2
    by_cases c3 : q = (.int, h.next + 2)
    · subst c3; rw [x3.self, hw _ (by simp)]
    rw [x3.same _ c3]
    by_cases c2 : q = (.idx, h.next + 1)
    · subst c2; rw [x2.self, hw _ (by simp)]
    rw [x2.same _ c2]
    by_cases c1 : q = (.idx, h.next)
    · subst c1; rw [x1.self, hw _ (by simp)]
    rw [x1.same _ c1, I.same q q1 q2 c1 c2 c3]
  · rw [x3.same _ (by simp), x2.same _ (by simp), x1.same _ (by simp)]; exact I.ha
  · exact I.hb.congr (by rw [x3.same _ (b.addr_int _), x2.same _ (b.addr_idx _), x1.same _ (b.addr_idx _)])

variable [Zero R] [One R] [Sub R] [Mul R] [Div R] [LE R] [DecidableLE R] [BEq R]

/-- `GaussJordan::solve` on the heap: the result of the array program, for a matrix and a right-hand side in different blocks. -/
theorem gaussH_sim (absf : R → R) (a n : ℕ) (b : Rhs) (m : ℕ) {h : Heap R} (hw : h.WF) (ho : ∀ k, h.oom k = false)
    {A B : Buf R} (hA : h.block (.real, a) = some A) (hB : b.At h B) (ne : b.addr ≠ (.real, a)) :
    Sim (solveH absf a n b m h) (solve absf A n B m) (fun res h' out => Only h h' a b ∧ (h'.block (.real, a)).isSome ∧
      (h'.block b.addr).isSome ∧ match out with
      | none => res = false
      | some (A', B') => res = true ∧ h'.block (.real, a) = some A' ∧ b.At h' B') := by
  unfold solveH solve
  obtain ⟨s1, e1, x1⟩ := Sim.new (t := .idx) (n := n) (ho _)
  obtain ⟨s2, e2, x2⟩ := Sim.new (s := s1) (t := .idx) (n := n) (by rw [x1.oom]; exact ho _)
  obtain ⟨s3, e3, x3⟩ := Sim.new (s := s2) (t := .int) (n := n) (by rw [x2.oom, x1.oom]; exact ho _)
  have n1 := x1.next
  have n2 : s2.next = h.next + 2 := by rw [x2.next, n1]
  have n3 : s3.next = h.next + 3 := by rw [x3.next, n2]
  refine Sim.step e1 (Sim.step e2 (Sim.step e3 ?_))
  rw [n1, n2]
  obtain ⟨y2o, y2n, y2s, y2r⟩ := x2
  obtain ⟨y3o, y3n, y3s, y3r⟩ := x3
  rw [n1] at y2s y2r
  rw [n2] at y3s y3r
  have I0 : GInv h a b s3 ⟨A, B, Buf.alloc n, Buf.alloc n, Buf.alloc n, ⟨0, none, none⟩⟩ := by
    refine ⟨by rw [y3o, y2o, x1.oom], n3, ?_, ?_, ?_, ?_, y3s, ?_⟩
    · rw [y3r _ (by simp), y2r _ (by simp), x1.same _ (by simp)]; exact hA
    · exact hB.congr (by rw [y3r _ (b.addr_int _), y2r _ (b.addr_idx _), x1.same _ (b.addr_idx _)])
    · rw [y3r _ (by simp), y2r _ (by simp)]; exact x1.self
    · rw [y3r _ (by simp)]; exact y2s
    · intro q q1 q2 q3 q4 q5
      rw [y3r _ q5, y2r _ q4, x1.same _ q3]
  refine Sim.bind (Sim.for' (fun _ h' (p : Buf Int) => GInv h a b h' ⟨A, B, Buf.alloc n, Buf.alloc n, p, ⟨0, none, none⟩⟩) ?_ I0) ?_
  · intro j _ _ h' p I
    refine Sim.post (Sim.store I.hi) ?_
    rintro _ h'' p' ⟨-, x⟩
    exact ⟨x.oom.trans I.oom, x.next.trans I.next, by rw [x.same _ (by simp)]; exact I.ha,
      I.hb.congr (x.same _ (b.addr_int _)), by rw [x.same _ (by simp)]; exact I.hc, by rw [x.same _ (by simp)]; exact I.hr, x.self,
      fun q q1 q2 q3 q4 q5 => by rw [x.same _ q5, I.same q q1 q2 q3 q4 q5]⟩
  intro _ h4 p I4
  refine Sim.bind (Sim.forBreak (fun _ (pv : Piv R) h' (s : St R) => pv = s.piv ∧ GInv h a b h' s)
    (fun h' => ∃ s, GInv h a b h' s) ?_ ⟨rfl, I4⟩) ?_
  · rintro i _ _ _ h' s ⟨rfl, I⟩
    refine Sim.step (HM.deref_ok I.ha) (Sim.step I.hb.get (Sim.step (HM.deref_ok I.hc) (Sim.step (HM.deref_ok I.hr)
      (Sim.step (HM.deref_ok I.hi) (Sim.after Sim.lift' ?_)))))
    rintro o _ _ ⟨rfl, rfl, eo⟩
    cases o with
    | none => exact ⟨none, h', rfl, rfl, s, I⟩
    | some s' =>
      have sh := step_shape eo
      obtain ⟨t1, f1, z1⟩ := Sim.put (t := .real) I.ha s'.a
      obtain ⟨t2, f2, z2o, z2n, z2b, z2s⟩ := (I.hb.congr (h' := t1) (z1.same _ ne)).put sh
      obtain ⟨t3, f3, z3⟩ := Sim.put (t := .idx) (s := t2) (p := h.next) (X := s.indxc) (by
        rw [z2s _ (b.addr_idx _).symm, z1.same _ (by simp)]; exact I.hc) s'.indxc
      obtain ⟨t4, f4, z4⟩ := Sim.put (t := .idx) (s := t3) (p := h.next + 1) (X := s.indxr) (by
        rw [z3.same _ (by simp), z2s _ (b.addr_idx _).symm, z1.same _ (by simp)]; exact I.hr) s'.indxr
      obtain ⟨t5, f5, z5⟩ := Sim.put (t := .int) (s := t4) (p := h.next + 2) (X := s.ipiv) (by
        rw [z4.same _ (by simp), z3.same _ (by simp), z2s _ (b.addr_int _).symm, z1.same _ (by simp)]; exact I.hi) s'.ipiv
      refine ⟨some s'.piv, t5, ?_, s'.piv, rfl, rfl, ?_, ?_, ?_, ?_, ?_, ?_, ?_, ?_⟩
      · dsimp only
        rw [HM.bind_ok f1, HM.bind_ok f2, HM.bind_ok f3, HM.bind_ok f4, HM.bind_ok f5]; rfl
      · rw [z5.oom, z4.oom, z3.oom, z2o, z1.oom, I.oom]
      · rw [z5.next, z4.next, z3.next, z2n, z1.next, I.next]
      · rw [z5.same _ (by simp), z4.same _ (by simp), z3.same _ (by simp), z2s _ ne.symm]; exact z1.self
      · exact z2b.congr (by rw [z5.same _ (b.addr_int _), z4.same _ (b.addr_idx _), z3.same _ (b.addr_idx _)])
      · rw [z5.same _ (by simp), z4.same _ (by simp)]; exact z3.self
      · rw [z5.same _ (by simp)]; exact z4.self
      · exact z5.self
      · intro q q1 q2 q3 q4 q5
        rw [z5.same _ q5, z4.same _ q4, z3.same _ q3, z2s _ q2, z1.same _ q1, I.same q q1 q2 q3 q4 q5]
  rintro pv h5 o I5
  cases o with
  | none =>
    obtain ⟨rfl, s, I5⟩ := I5
    obtain ⟨h6, e6, o6, a6, b6⟩ := I5.fin hw false
    exact ⟨false, h6, e6, o6, by rw [a6]; rfl, b6.isSome, rfl⟩
  | some s =>
    obtain ⟨_, rfl, rfl, I5⟩ := I5
    refine Sim.step (HM.deref_ok I5.ha) (Sim.step (HM.deref_ok I5.hr) (Sim.step (HM.deref_ok I5.hc) (Sim.bind Sim.lift ?_)))
    rintro A' _ _ ⟨rfl, rfl⟩
    obtain ⟨t1, f1, z1⟩ := Sim.put (t := .real) I5.ha A'
    refine Sim.step f1 ?_
    have I6 : GInv h a b t1 ⟨A', s.b, s.indxc, s.indxr, s.ipiv, s.piv⟩ :=
      ⟨z1.oom.trans I5.oom, z1.next.trans I5.next, z1.self, I5.hb.congr (z1.same _ ne), by rw [z1.same _ (by simp)]; exact I5.hc,
        by rw [z1.same _ (by simp)]; exact I5.hr, by rw [z1.same _ (by simp)]; exact I5.hi,
        fun q q1 q2 q3 q4 q5 => by rw [z1.same _ q1, I5.same q q1 q2 q3 q4 q5]⟩
    obtain ⟨h6, e6, o6, a6, b6⟩ := I6.fin hw true
    exact ⟨true, h6, e6, o6, by rw [a6]; rfl, b6.isSome, rfl, a6, b6⟩

end GaussJordan

/-! ## Closed splines -/

/-- the heap while a closed spline is computed: the matrix is the block `h.next` -/
private structure KInv {R : Type} (h : Heap R) (p2 p3 : ℕ) (A : Buf R) (P2 P3 : Buf (Vec3 R)) (h' : Heap R) : Prop where
  oom : h'.oom = h.oom
  next : h.next + 1 ≤ h'.next
  a : h'.block (.real, h.next) = some A
  h2 : h'.block (.vec, p2) = some P2
  h3 : h'.block (.vec, p3) = some P3
  same : ∀ q, q ≠ (.real, h.next) → q ≠ (.vec, p2) → q ≠ (.vec, p3) → h'.block q = h.block q

section
variable {R : Type} {h h' h'' : Heap R} {p2 p3 : ℕ} {A Y : Buf R} {P2 P3 V : Buf (Vec3 R)}

private theorem KInv.wf (I : KInv h p2 p3 A P2 P3 h') (hw : h.WF) (l2 : p2 < h.next) (l3 : p3 < h.next) : h'.WF := by
  intro q hq
  have := I.next
  rw [I.same q, hw q (by omega)] <;> · rintro rfl; simp only at hq; omega

private theorem KInv.setA (I : KInv h p2 p3 A P2 P3 h') (o : h'.Only h'' (.real, h.next))
    (e : h''.block (.real, h.next) = some Y) : KInv h p2 p3 Y P2 P3 h'' :=
  ⟨o.oom.trans I.oom, I.next.trans o.next, e, by rw [o.same _ (by simp)]; exact I.h2, by rw [o.same _ (by simp)]; exact I.h3,
    fun q h1 h2 h3 => by rw [o.same _ h1, I.same q h1 h2 h3]⟩

private theorem KInv.set2 (I : KInv h p2 p3 A P2 P3 h') (ne : p2 ≠ p3) (o : h'.Only h'' (.vec, p2))
    (e : h''.block (.vec, p2) = some V) : KInv h p2 p3 A V P3 h'' :=
  ⟨o.oom.trans I.oom, I.next.trans o.next, by rw [o.same _ (by simp)]; exact I.a, e, by rw [o.same _ (by simp; omega)]; exact I.h3,
    fun q h1 h2 h3 => by rw [o.same _ h2, I.same q h1 h2 h3]⟩

private theorem KInv.set3 (I : KInv h p2 p3 A P2 P3 h') (ne : p2 ≠ p3) (o : h'.Only h'' (.vec, p3))
    (e : h''.block (.vec, p3) = some V) : KInv h p2 p3 A P2 V h'' :=
  ⟨o.oom.trans I.oom, I.next.trans o.next, by rw [o.same _ (by simp)]; exact I.a, by rw [o.same _ (by simp; omega)]; exact I.h2, e,
    fun q h1 h2 h3 => by rw [o.same _ h3, I.same q h1 h2 h3]⟩

/-- the points, as far as they have not been overwritten -/
private theorem KInv.knots {P : Buf (Vec3 R)} (I : KInv h p2 p3 A P2 P h') {p1 : ℕ} {K : Buf (Vec3 R)}
    (h1 : h.block (.vec, p1) = some K) (h3 : h.block (.vec, p3) = some P3) (ne : p1 ≠ p2) {i : ℕ} (hi : P.get i = P3.get i) :
    ∃ X, h'.block (.vec, p1) = some X ∧ X.get i = K.get i := by
  by_cases e : p1 = p3
  · subst e
    rw [h1] at h3
    injection h3 with h3
    subst h3
    exact ⟨P, I.h3, hi⟩
  · exact ⟨K, by rw [I.same _ (by simp) (by simp; omega) (by simp; omega), h1], rfl⟩

private theorem KInv.fin (I : KInv h p2 p3 A P2 P3 h') (hw : h.WF) (res : Bool)
    {out : Buf (Vec3 R) × Buf (Vec3 R)} (ho : res = true → P2 = out.1 ∧ P3 = out.2) :
    Sim ((do
      delete .real h.next
      pure res : HM R Bool) h') (.ok (res, out))
      (fun res h' out => res = out.1 ∧ h.Only2 h' p2 p3 ∧
        (out.1 = true → h'.block (.vec, p2) = some out.2.1 ∧ h'.block (.vec, p3) = some out.2.2)) := by
  obtain ⟨s1, e1, x1⟩ := Sim.delete I.a
  have e2 : s1.block (.vec, p2) = some P2 := by rw [x1.same _ (by simp)]; exact I.h2
  have e3 : s1.block (.vec, p3) = some P3 := by rw [x1.same _ (by simp)]; exact I.h3
  refine Sim.step e1 (Sim.pure' ⟨rfl, ⟨x1.oom.trans I.oom, by rw [x1.next]; have := I.next; omega, by rw [e2]; rfl, by rw [e3]; rfl, ?_⟩, ?_⟩)
  · intro q q2 q3
    by_cases c : q = (.real, h.next)
    · subst c; rw [x1.self, hw _ le_rfl]
    · rw [x1.same _ c, I.same q c q2 q3]
  · intro hr
    obtain ⟨a, b⟩ := ho hr
    rw [e2, e3, a, b]; exact ⟨rfl, rfl⟩
end

variable {R : Type} [Zero R] [One R] [NatCast R] [Add R] [Sub R] [Mul R] [Div R] [LE R] [DecidableLE R] [BEq R]

theorem closedH_sim (absf : R → R) (n p1 p2 p3 : ℕ) {h : Heap R} (hw : h.WF) (ho : ∀ k, h.oom k = false) {K P2 P3 : Buf (Vec3 R)}
    (h1 : h.block (.vec, p1) = some K) (h2 : h.block (.vec, p2) = some P2) (h3 : h.block (.vec, p3) = some P3)
    (n12 : p1 ≠ p2) (n23 : p2 ≠ p3) :
    Sim (SplineSolver3.closedBezierSplineH absf n p1 p2 p3 h) (SplineSolver3.closedBezierSpline absf n K P2 P3)
      (fun res h' out => res = out.1 ∧ h.Only2 h' p2 p3 ∧
        (out.1 = true → h'.block (.vec, p2) = some out.2.1 ∧ h'.block (.vec, p3) = some out.2.2)) := by
  have l2 := hw.lt h2
  have l3 := hw.lt h3
  unfold SplineSolver3.closedBezierSplineH SplineSolver3.closedBezierSpline
  by_cases c0 : n ≥ 2
  swap
  · rw [if_neg c0, if_neg c0]; exact rfl
  rw [if_pos c0, if_pos c0]
  obtain ⟨s1, e1, x1⟩ := Sim.new (t := .real) (n := n * n) (ho _)
  refine Sim.step e1 ?_
  have I0 : KInv h p2 p3 (Buf.alloc (n * n)) P2 P3 s1 :=
    ⟨x1.oom, x1.next.ge, x1.self, by rw [x1.same _ (by simp)]; exact h2, by rw [x1.same _ (by simp)]; exact h3,
      fun q q1 _ _ => x1.same q q1⟩
  refine Sim.bind (Sim.forDown (fun h' (A : Buf R) => KInv h p2 p3 A P2 P3 h') ?_ I0) ?_
  · intro j h' A I
    refine Sim.post (Sim.store I.a) ?_
    rintro _ h'' A' ⟨-, y⟩
    exact I.setA y.only y.self
  rintro _ h2' A2 I2
  refine Sim.bind (Sim.for' (fun _ h' (A : Buf R) => KInv h p2 p3 A P2 P3 h') ?_ I2) ?_
  · intro j _ _ h' A I
    refine Sim.bind (Sim.store I.a) ?_
    rintro _ g1 A1 ⟨-, y⟩
    have I := I.setA y.only y.self
    refine Sim.bind (Sim.store I.a) ?_
    rintro _ g2 A2 ⟨-, y⟩
    have I := I.setA y.only y.self
    refine Sim.post (Sim.store I.a) ?_
    rintro _ g3 A3 ⟨-, y⟩
    exact I.setA y.only y.self
  rintro _ g0 A0 I
  refine Sim.bind (Sim.store I.a) ?_
  rintro _ g1 A1 ⟨-, y⟩
  have I := I.setA y.only y.self
  refine Sim.bind (Sim.store I.a) ?_
  rintro _ g2 A2' ⟨-, y⟩
  have I := I.setA y.only y.self
  refine Sim.bind (Sim.store I.a) ?_
  rintro _ g3 A3 ⟨-, y⟩
  have I := I.setA y.only y.self
  refine Sim.bind (Sim.store I.a) ?_
  rintro _ g4 A4 ⟨-, y⟩
  have I := I.setA y.only y.self
  refine Sim.bind (Sim.store I.a) ?_
  rintro _ g5 A5 ⟨-, y⟩
  have I := I.setA y.only y.self
  refine Sim.bind (Sim.store I.a) ?_
  rintro _ g6 A6 ⟨-, y⟩
  have I := I.setA y.only y.self
  refine Sim.bind (Sim.for' (fun _ h' (P : Buf (Vec3 R)) => KInv h p2 p3 A6 P P3 h') ?_ I) ?_
  · intro i _ _ h' P I
    obtain ⟨_, k1, k2⟩ := I.knots h1 h3 n12 (i := i) rfl
    refine Sim.bind (Sim.load k1 k2) ?_
    rintro ki _ _ ⟨rfl, rfl⟩
    obtain ⟨_, k1, k2⟩ := I.knots h1 h3 n12 (i := i + 1) rfl
    refine Sim.bind (Sim.load k1 k2) ?_
    rintro kj _ _ ⟨rfl, rfl⟩
    refine Sim.post (Sim.store I.h2) ?_
    rintro _ h'' P' ⟨-, y⟩
    exact I.set2 n23 y.only y.self
  rintro _ h7 P7 I7
  obtain ⟨_, k1, k2⟩ := I7.knots h1 h3 n12 (i := n - 1) rfl
  refine Sim.bind (Sim.load k1 k2) ?_
  rintro kl _ _ ⟨rfl, rfl⟩
  obtain ⟨_, k1, k2⟩ := I7.knots h1 h3 n12 (i := 0) rfl
  refine Sim.bind (Sim.load k1 k2) ?_
  rintro k0 _ _ ⟨rfl, rfl⟩
  refine Sim.bind (Sim.store I7.h2) ?_
  rintro _ h8 P8 ⟨-, y⟩
  have I8 := I7.set2 n23 y.only y.self
  refine Sim.bind (GaussJordan.gaussH_sim absf h.next n (.vecs p2) 3 (I8.wf hw l2 l3) (by rw [I8.oom]; exact ho) I8.a
    ⟨P8, I8.h2, rfl⟩ (by simp [GaussJordan.Rhs.addr])) ?_
  rintro res h9 out ⟨o9, a9, b9, m9⟩
  obtain ⟨A9, hA9⟩ := Option.isSome_iff_exists.1 a9
  obtain ⟨V9, hV9⟩ := Option.isSome_iff_exists.1 b9
  have I9 : KInv h p2 p3 A9 V9 P3 h9 :=
    ⟨o9.oom.trans I8.oom, I8.next.trans o9.next, hA9, hV9, by
      rw [o9.same _ (by simp) (by simp [GaussJordan.Rhs.addr]; omega)]; exact I8.h3, fun q q1 q2 q3 => by
      rw [o9.same _ q1 q2, I8.same q q1 q2 q3]⟩
  cases out with
  | none =>
    subst m9
    exact I9.fin hw false (by simp)
  | some ab =>
    obtain ⟨A', B'⟩ := ab
    obtain ⟨rfl, -, V, hV, rfl⟩ := m9
    have eV : V9 = V := by
      have := hV.symm.trans hV9
      injection this with this
      exact this.symm
    subst eV
    dsimp only
    have uf : SplineSolver3.unflat (SplineSolver3.flat V9) = V9 := SplineSolver3.unflat_flat (R := R) V9
    rw [uf]
    refine Sim.bind (Sim.for' (fun j h' (P : Buf (Vec3 R)) => KInv h p2 p3 A9 V9 P h' ∧
      ∀ i, j ≤ i → P.get i = P3.get i) ?_ ⟨I9, fun _ _ => rfl⟩) ?_
    · rintro i _ _ h' P ⟨I, J⟩
      obtain ⟨_, k1, k2⟩ := I.knots h1 h3 n12 (J (i + 1) (by omega))
      refine Sim.bind (Sim.load k1 k2) ?_
      rintro k _ _ ⟨rfl, rfl⟩
      refine Sim.bind (Sim.load I.h2 rfl) ?_
      rintro q _ _ ⟨rfl, rfl⟩
      refine Sim.post (Sim.store I.h3) ?_
      rintro _ h1 P1 ⟨hs, y⟩
      exact ⟨I.set3 n23 y.only y.self, fun k hk => by rw [Buf.get_set_ne hs (by omega)]; exact J k (by omega)⟩
    rintro _ h10 P10 ⟨I10, J10⟩
    refine Sim.bind (Sim.load I10.h2 rfl) ?_
    rintro qm _ _ ⟨rfl, rfl⟩
    refine Sim.bind (Sim.load I10.h2 rfl) ?_
    rintro ql _ _ ⟨rfl, rfl⟩
    obtain ⟨_, k1, k2⟩ := I10.knots h1 h3 n12 (J10 (n - 1) (by omega))
    refine Sim.bind (Sim.load k1 k2) ?_
    rintro kl' _ _ ⟨rfl, rfl⟩
    refine Sim.bind (Sim.store I10.h3) ?_
    rintro _ h11 P11 ⟨-, y⟩
    exact (I10.set3 n23 y.only y.self).fin hw true (fun _ => ⟨rfl, rfl⟩)

end MathLib
