import Verif.Proof.Heap

/-! # Heap programs against programs on arrays -/

namespace MathLib
open HM
variable {R α β γ δ : Type}

/-- the heap program faults as the array program does, or ends normally with `P` between the results -/
def Sim (x : Except HFault (Option α × Heap R)) (y : Res β) (P : α → Heap R → β → Prop) : Prop :=
  match y with
  | .error f => x = .error (.fault f)
  | .ok b => ∃ a h, x = .ok (some a, h) ∧ P a h b

theorem HM.bind_ok {m : HM R α} {s s' : Heap R} {a : α} {f : α → HM R γ} (h : m s = .ok (some a, s')) :
    (m >>= f) s = f a s' := by
  simp only [Bind.bind, h]

theorem HM.bind_err {m : HM R α} {s : Heap R} {e : HFault} {f : α → HM R γ} (h : m s = .error e) :
    (m >>= f) s = .error e := by
  simp only [Bind.bind, h]

theorem HM.deref_ok {t : Ty} {p : ℕ} {s : Heap R} {X : Buf (t.den R)} (hx : s.block (t, p) = some X) :
    HM.deref t p s = .ok (some X, s) := by
  unfold HM.deref
  rw [hx]

/-- `h` with the contents of one block replaced -/
structure Heap.Upd (h : Heap R) (q : Ty × ℕ) (v : Option (Buf (q.1.den R))) (h' : Heap R) : Prop where
  oom : h'.oom = h.oom
  next : h'.next = h.next
  self : h'.block q = v
  same : ∀ q' ≠ q, h'.block q' = h.block q'

/-- `h` with one more block -/
structure Heap.Ext (h : Heap R) (t : Ty) (n : ℕ) (h' : Heap R) : Prop where
  oom : h'.oom = h.oom
  next : h'.next = h.next + 1
  self : h'.block (t, h.next) = some (Buf.alloc n)
  same : ∀ q' ≠ (t, h.next), h'.block q' = h.block q'

namespace Sim

theorem bind {m : HM R α} {s : Heap R} {y : Res β} {P : α → Heap R → β → Prop} {f : α → HM R γ} {g : β → Res δ}
    {Q : γ → Heap R → δ → Prop} (h1 : Sim (m s) y P) (h2 : ∀ a h b, P a h b → Sim (f a h) (g b) Q) :
    Sim ((m >>= f) s) (y >>= g) Q := by
  cases y with
  | error e =>
    exact HM.bind_err h1
  | ok b =>
    obtain ⟨a, h, e, p⟩ := h1
    rw [HM.bind_ok e]
    exact h2 a h b p

theorem pure' {a : α} {s : Heap R} {b : β} {P : α → Heap R → β → Prop} (h : P a s b) :
    Sim ((pure a : HM R α) s) (.ok b) P := ⟨a, s, rfl, h⟩

theorem lift {r : Res α} {s : Heap R} : Sim (HM.lift r s) r (fun a h b => a = b ∧ s = h) := by
  cases r with
  | error e => exact rfl
  | ok a => exact ⟨a, s, rfl, rfl, rfl⟩

theorem load {t : Ty} {p i : ℕ} {s : Heap R} {X Y : Buf (t.den R)} (hx : s.block (t, p) = some X) (hy : X.get i = Y.get i) :
    Sim (HM.load t p i s) (Y.get i) (fun a h b => a = b ∧ s = h) := by
  have : HM.load t p i s = HM.lift (Y.get i) s := by rw [← hy]; exact HM.bind_ok (HM.deref_ok hx)
  rw [this]
  exact lift

theorem load' {t : Ty} {p i : ℕ} {s : Heap R} {X Y : Buf (t.den R)} (hx : s.block (t, p) = some X) (hy : X.get i = Y.get i) :
    Sim (HM.load t p i s) (Y.get i) (fun a h b => a = b ∧ s = h ∧ Y.get i = .ok a) := by
  have := load hx hy
  cases e : Y.get i with
  | error f => rw [e] at this; exact this
  | ok b =>
    rw [e] at this
    obtain ⟨a, h, h1, rfl, rfl⟩ := this
    exact ⟨a, s, h1, rfl, rfl, rfl⟩

/-- a second read of a cell whose contents are known -/
theorem again {t : Ty} {p i : ℕ} {s : Heap R} {X : Buf (t.den R)} {v : t.den R} (hx : s.block (t, p) = some X)
    (hy : X.get i = .ok v) : HM.load t p i s = .ok (some v, s) := by
  have : HM.load t p i s = HM.lift (X.get i) s := HM.bind_ok (HM.deref_ok hx)
  rw [this, hy]
  rfl

theorem store {t : Ty} {p i : ℕ} {v : t.den R} {s : Heap R} {X : Buf (t.den R)} (hx : s.block (t, p) = some X) :
    Sim (HM.store t p i v s) (X.set i v)
      (fun _ h X' => X.set i v = .ok X' ∧ s.Upd (t, p) (some X') h) := by
  have : HM.store t p i v s = (do
      let b ← HM.lift (X.set i v)
      HM.put t p b : HM R Unit) s := HM.bind_ok (HM.deref_ok hx)
  rw [this]
  cases hs : X.set i v with
  | error e => exact rfl
  | ok X' =>
    refine ⟨(), { s with block := Function.update s.block (t, p) (some X') }, ?_, rfl, rfl, rfl, ?_, ?_⟩
    · show HM.put t p X' s = _
      unfold HM.put
      rw [hx]
    · exact Function.update_self ..
    · exact fun q hq => Function.update_of_ne hq ..

theorem new {t : Ty} {n : ℕ} {s : Heap R} (ho : s.oom s.next = false) :
    ∃ s', HM.new t n s = .ok (some s.next, s') ∧ s.Ext t n s' := by
  refine ⟨{ s with block := Function.update s.block (t, s.next) (some (Buf.alloc n)), next := s.next + 1 }, ?_, rfl, rfl, ?_, ?_⟩
  · unfold HM.new
    rw [ho]
    rfl
  · exact Function.update_self ..
  · exact fun q hq => Function.update_of_ne hq ..

theorem delete {t : Ty} {p : ℕ} {s : Heap R} {X : Buf (t.den R)} (hx : s.block (t, p) = some X) :
    ∃ s', HM.delete t p s = .ok (some (), s') ∧ s.Upd (t, p) none s' := by
  refine ⟨{ s with block := Function.update s.block (t, p) none }, ?_, rfl, rfl, ?_, ?_⟩
  · unfold HM.delete
    rw [hx]
  · exact Function.update_self ..
  · exact fun q hq => Function.update_of_ne hq ..

/-- a step of the heap program with no counterpart -/
theorem step {m : HM R α} {s s' : Heap R} {a : α} {f : α → HM R γ} {y : Res δ} {Q : γ → Heap R → δ → Prop}
    (h : m s = .ok (some a, s')) (h2 : Sim (f a s') y Q) : Sim ((m >>= f) s) y Q := by
  rw [HM.bind_ok h]
  exact h2

theorem post {x : Except HFault (Option α × Heap R)} {y : Res β} {P Q : α → Heap R → β → Prop} (h : Sim x y P)
    (H : ∀ a h b, P a h b → Q a h b) : Sim x y Q := by
  cases y with
  | error e => exact h
  | ok b =>
    obtain ⟨a, s, e, p⟩ := h
    exact ⟨a, s, e, H a s b p⟩

/-- a last step of the array program that cannot fail -/
theorem tail {x : Except HFault (Option α × Heap R)} {y : Res β} {g : β → δ} {P : α → Heap R → β → Prop}
    {Q : α → Heap R → δ → Prop} (h : Sim x y P) (H : ∀ a h b, P a h b → Q a h (g b)) :
    Sim x (y >>= fun b => .ok (g b)) Q := by
  cases y with
  | error e => exact h
  | ok b =>
    obtain ⟨a, s, e, p⟩ := h
    exact ⟨a, s, e, H a s b p⟩

theorem loopFrom {f : ℕ → HM R Unit} {g : ℕ → β → Res β} {I : ℕ → Heap R → β → Prop} {lo hi : ℕ}
    (H : ∀ j, lo ≤ j → j < hi → ∀ h b, I j h b → Sim (f j h) (g j b) (fun _ h b => I (j + 1) h b)) :
    ∀ k, lo + k = hi → ∀ h b, I lo h b →
      Sim (HM.forFrom (fun i (_ : Unit) => f i) lo k () h) (MathLib.loopFrom g lo k b) (fun _ h b => I hi h b) := by
  intro k
  induction k generalizing lo with
  | zero =>
    rintro rfl h b i
    exact ⟨(), h, rfl, i⟩
  | succ k ih =>
    intro e h b i
    exact bind (H lo le_rfl (by omega) h b i) fun _ h' b' i' =>
      ih (fun j h1 h2 => H j (by omega) h2) (by omega) h' b' i'

theorem for' {f : ℕ → HM R Unit} {g : ℕ → β → Res β} (I : ℕ → Heap R → β → Prop) {lo hi : ℕ}
    (H : ∀ j, lo ≤ j → j < hi → ∀ h b, I j h b → Sim (f j h) (g j b) (fun _ h b => I (j + 1) h b)) {h : Heap R} {b : β}
    (i : I lo h b) : Sim (HM.for' lo hi f h) (MathLib.loop lo hi g b) (fun _ h b => I (lo + (hi - lo)) h b) :=
  loopFrom (fun j h1 h2 => H j h1 (by omega)) (hi - lo) rfl h b i

theorem forBreakFrom {f : ℕ → α → HM R (Option α)} {g : ℕ → β → Res (Option β)} {I : ℕ → α → Heap R → β → Prop}
    {N : Heap R → Prop} {lo hi : ℕ}
    (H : ∀ j, lo ≤ j → j < hi → ∀ a h b, I j a h b → Sim (f j a h) (g j b) (fun a h b =>
      match b with | none => a = none ∧ N h | some b => ∃ a', a = some a' ∧ I (j + 1) a' h b)) :
    ∀ k, lo + k = hi → ∀ a h b, I lo a h b →
      Sim (HM.forBreakFrom f lo k a h) (MathLib.loopBreakFrom g lo k b) (fun a h b =>
      match b with | none => a = none ∧ N h | some b => ∃ a', a = some a' ∧ I hi a' h b) := by
  intro k
  induction k generalizing lo with
  | zero =>
    rintro rfl a h b i
    exact ⟨some a, h, rfl, a, rfl, i⟩
  | succ k ih =>
    intro e a h b i
    refine bind (H lo le_rfl (by omega) a h b i) fun a h' b' i' => ?_
    cases b' with
    | none =>
      obtain ⟨rfl, n⟩ := i'
      exact ⟨none, h', rfl, rfl, n⟩
    | some b' =>
      obtain ⟨a', rfl, i'⟩ := i'
      exact ih (fun j h1 h2 => H j (by omega) h2) (by omega) a' h' b' i'

theorem forBreak {f : ℕ → α → HM R (Option α)} {g : ℕ → β → Res (Option β)} (I : ℕ → α → Heap R → β → Prop)
    (N : Heap R → Prop) {lo hi : ℕ}
    (H : ∀ j, lo ≤ j → j < hi → ∀ a h b, I j a h b → Sim (f j a h) (g j b) (fun a h b =>
      match b with | none => a = none ∧ N h | some b => ∃ a', a = some a' ∧ I (j + 1) a' h b)) {a : α} {h : Heap R} {b : β}
    (i : I lo a h b) : Sim (HM.forBreak lo hi f a h) (MathLib.loopBreak lo hi g b) (fun a h b =>
      match b with | none => a = none ∧ N h | some b => ∃ a', a = some a' ∧ I (lo + (hi - lo)) a' h b) :=
  forBreakFrom (fun j h1 h2 => H j h1 (by omega)) (hi - lo) rfl a h b i

theorem forDown {f : ℕ → HM R Unit} {g : ℕ → β → Res β} (I : Heap R → β → Prop)
    (H : ∀ j h b, I h b → Sim (f j h) (g j b) (fun _ h b => I h b)) {k : ℕ} {h : Heap R} {b : β}
    (i : I h b) : Sim (HM.forDown f k h) (MathLib.loopDown g k b) (fun _ h b => I h b) := by
  induction k generalizing h b with
  | zero => exact ⟨(), h, rfl, i⟩
  | succ k ih => exact bind (H k h b i) fun _ h' b' i' => ih i'

end Sim
end MathLib
