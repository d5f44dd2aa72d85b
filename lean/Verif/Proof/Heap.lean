import Verif.Spec.HeapSpec
import Mathlib.Data.Set.Basic

/-! # Triples for heap programs -/

namespace MathLib
variable {R α β : Type}

/-- the allocated blocks are those of `L`, and those of `F` have the contents they have in `h₀` -/
structure Heap.Live (o : ℕ → Bool) (L F : Set (Ty × ℕ)) (h₀ h : Heap R) : Prop where
  some : ∀ q, (h.block q).isSome ↔ q ∈ L
  lt : ∀ q ∈ L, q.2 < h.next
  oom : h.oom = o
  sub : F ⊆ L
  same : ∀ q ∈ F, h.block q = h₀.block q

/-- faults of the array model are allowed, faults of the heap are not; `E` holds after an exception -/
def Ht (P : Heap R → Prop) (m : HM R α) (Q : α → Heap R → Prop) (E : Heap R → Prop) : Prop :=
  ∀ h, P h → match m h with
    | .error (.fault _) => True
    | .error _ => False
    | .ok (none, h') => E h'
    | .ok (some a, h') => Q a h'

theorem Heap.ofLists_wf (reals : List (List R)) (vecs : List (List (Vec3 R))) (o : ℕ → Bool) :
    (Heap.ofLists reals vecs o).WF := by
  rintro ⟨t, p⟩ hp
  have hp : max reals.length vecs.length ≤ p := hp
  cases t
  · show Option.map _ _ = none
    rw [List.getElem?_eq_none (le_trans (le_max_left _ _) hp)]
    rfl
  · rfl
  · rfl
  · show Option.map _ _ = none
    rw [List.getElem?_eq_none (le_trans (le_max_right _ _) hp)]
    rfl

namespace Ht
variable {P : Heap R → Prop} {Q Q' : α → Heap R → Prop} {E : Heap R → Prop} {o : ℕ → Bool} {L F : Set (Ty × ℕ)} {h₀ : Heap R}

theorem pure' {a : α} (h : ∀ s, P s → Q a s) : Ht P (pure a : HM R α) Q E := fun s hs => h s hs

theorem bind {m : HM R α} {f : α → HM R β} {Q' : β → Heap R → Prop} (h1 : Ht P m Q E) (h2 : ∀ a, Ht (Q a) (f a) Q' E) :
    Ht P (m >>= f) Q' E := by
  intro s hs
  have := h1 s hs
  simp only [Bind.bind]
  rcases hm : m s with e | ⟨_ | a, s'⟩ <;> rw [hm] at this
  · rcases e with f | _ | _
    · trivial
    · exact this
    · exact this
  · exact this
  · exact h2 a s' this

theorem post {m : HM R α} (h1 : Ht P m Q' E) (h2 : ∀ a s, Q' a s → Q a s) : Ht P m Q E := by
  intro s hs
  have := h1 s hs
  rcases hm : m s with e | ⟨_ | a, s'⟩ <;> rw [hm] at this
  · rcases e with f | _ | _ <;> exact this
  · exact this
  · exact h2 a s' this

theorem lift {r : Res α} : Ht P (HM.lift r : HM R α) (fun _ => P) E := by
  intro s hs
  unfold HM.lift
  cases r
  · trivial
  · exact hs

theorem new {t : Ty} {n : ℕ} (hE : ∀ h k, o k = true → Heap.Live o L F h₀ h → E h) :
    Ht (Heap.Live o L F h₀) (HM.new t n : HM R ℕ)
      (fun p h => ((t, p) ∉ L ∧ (t, p) ∉ F) ∧ Heap.Live o (insert (t, p) L) F h₀ h) E := by
  intro s hs
  obtain ⟨h1, h2, h3, h4, h5⟩ := hs
  unfold HM.new
  by_cases c : s.oom s.next = true
  · rw [if_pos c]
    exact hE _ s.next (by rw [← h3]; exact c) ⟨h1, fun q hq => (h2 q hq).trans (Nat.lt_succ_self _), h3, h4, h5⟩
  · rw [if_neg c]
    have hn : (t, s.next) ∉ L := fun hq => lt_irrefl _ (h2 _ hq)
    have hn' : (t, s.next) ∉ F := fun hq => hn (h4 hq)
    refine ⟨⟨hn, hn'⟩, fun q => ?_, fun q hq => ?_, h3, fun q hq => Or.inr (h4 hq), fun q hq => ?_⟩
    · by_cases hq : q = (t, s.next)
      · subst hq; simp
      · simp [hq, h1]
    · rcases hq with rfl | hq
      · exact Nat.lt_succ_self _
      · exact (h2 q hq).trans (Nat.lt_succ_self _)
    · have : q ≠ (t, s.next) := fun e => hn' (e ▸ hq)
      simp [this, h5 q hq]

theorem delete {t : Ty} {p : ℕ} (hp : (t, p) ∈ L) (hf : (t, p) ∉ F) :
    Ht (Heap.Live o L F h₀) (HM.delete t p : HM R Unit) (fun _ => Heap.Live o (L \ {(t, p)}) F h₀) E := by
  intro s hs
  obtain ⟨h1, h2, h3, h4, h5⟩ := hs
  obtain ⟨b, hb⟩ := Option.isSome_iff_exists.1 ((h1 _).2 hp)
  unfold HM.delete
  rw [hb]
  have ne : ∀ q ∈ F, q ≠ (t, p) := fun q hq e => hf (e ▸ hq)
  refine ⟨fun q => ?_, fun q hq => h2 q hq.1, h3, fun q hq => ⟨h4 hq, ne q hq⟩, fun q hq => ?_⟩
  · by_cases hq : q = (t, p)
    · subst hq; simp
    · simp [hq, h1]
  · simp [ne q hq, h5 q hq]

theorem deref {t : Ty} {p : ℕ} (hp : (t, p) ∈ L) :
    Ht (Heap.Live o L F h₀) (HM.deref t p : HM R _) (fun _ => Heap.Live o L F h₀) E := by
  intro s hs
  obtain ⟨b, hb⟩ := Option.isSome_iff_exists.1 ((hs.1 _).2 hp)
  unfold HM.deref
  rw [hb]
  exact hs

theorem put {t : Ty} {p : ℕ} {b : Buf (t.den R)} (hp : (t, p) ∈ L) (hf : (t, p) ∉ F) :
    Ht (Heap.Live o L F h₀) (HM.put t p b : HM R _) (fun _ => Heap.Live o L F h₀) E := by
  intro s hs
  obtain ⟨h1, h2, h3, h4, h5⟩ := hs
  obtain ⟨b', hb⟩ := Option.isSome_iff_exists.1 ((h1 _).2 hp)
  unfold HM.put
  rw [hb]
  have ne : ∀ q ∈ F, q ≠ (t, p) := fun q hq e => hf (e ▸ hq)
  refine ⟨fun q => ?_, h2, h3, h4, fun q hq => ?_⟩
  · by_cases hq : q = (t, p)
    · subst hq; simp [hp]
    · simp [hq, h1]
  · simp [ne q hq, h5 q hq]

theorem load {t : Ty} {p i : ℕ} (hp : (t, p) ∈ L) :
    Ht (Heap.Live o L F h₀) (HM.load t p i : HM R _) (fun _ => Heap.Live o L F h₀) E :=
  bind (deref hp) fun _ => lift

theorem store {t : Ty} {p i : ℕ} {v : t.den R} (hp : (t, p) ∈ L) (hf : (t, p) ∉ F) :
    Ht (Heap.Live o L F h₀) (HM.store t p i v : HM R _) (fun _ => Heap.Live o L F h₀) E :=
  bind (deref hp) fun _ => bind lift fun _ => put hp hf

theorem forFrom {f : ℕ → α → HM R α} (h : ∀ i a, Ht P (f i a) (fun _ => P) E) (lo k : ℕ) (s : α) :
    Ht P (HM.forFrom f lo k s) (fun _ => P) E := by
  induction k generalizing lo s with
  | zero => exact pure' fun _ h => h
  | succ k ih => exact bind (h lo s) fun a => ih (lo + 1) a

theorem for' {f : ℕ → HM R Unit} {lo hi : ℕ} (h : ∀ i, Ht P (f i) (fun _ => P) E) :
    Ht P (HM.for' lo hi f) (fun _ => P) E := forFrom (fun i _ => h i) _ _ _

theorem forBreakFrom {f : ℕ → α → HM R (Option α)} (h : ∀ i a, Ht P (f i a) (fun _ => P) E) (lo k : ℕ) (s : α) :
    Ht P (HM.forBreakFrom f lo k s) (fun _ => P) E := by
  induction k generalizing lo s with
  | zero => exact pure' fun _ h => h
  | succ k ih =>
    refine bind (h lo s) fun a => ?_
    cases a with
    | none => exact pure' fun _ h => h
    | some a => exact ih (lo + 1) a

theorem forBreak {f : ℕ → α → HM R (Option α)} {lo hi : ℕ} {s : α} (h : ∀ i a, Ht P (f i a) (fun _ => P) E) :
    Ht P (HM.forBreak lo hi f s) (fun _ => P) E := forBreakFrom h _ _ _

theorem forDown {f : ℕ → HM R Unit} {k : ℕ} (h : ∀ i, Ht P (f i) (fun _ => P) E) :
    Ht P (HM.forDown f k) (fun _ => P) E := by
  induction k with
  | zero => exact pure' fun _ h => h
  | succ k ih => exact bind (h k) fun _ => ih

theorem ite {c : Prop} [Decidable c] {m m' : HM R α} (h1 : c → Ht P m Q E) (h2 : ¬ c → Ht P m' Q E) :
    Ht P (if c then m else m') Q E := by
  split_ifs with h
  · exact h1 h
  · exact h2 h

theorem pbind {a : α} {f : α → HM R β} {Q' : β → Heap R → Prop} (h : Ht P (f a) Q' E) :
    Ht P ((pure a : HM R α) >>= f) Q' E := h

/-- a fact in the precondition -/
theorem pre {m : HM R α} {c : Prop} (h : c → Ht P m Q E) : Ht (fun s => c ∧ P s) m Q E := fun s hs => h hs.1 s hs.2

/-- from triples to the statement -/
theorem clean {m : HM R α} {args outs : List (Ty × ℕ)} (h : Heap R) (hs : outs ⊆ args)
    (H : ∀ L F : Set (Ty × ℕ), (∀ q ∈ args, q ∈ L) → (∀ q ∈ outs, q ∉ F) →
      Ht (Heap.Live h.oom L F h) m (fun _ => Heap.Live h.oom L F h) (Heap.Live h.oom L F h)) :
    Clean args outs m h := by
  intro hw ha
  have := H {q | (h.block q).isSome} {q | (h.block q).isSome ∧ q ∉ outs} ha (fun q hq hf => hf.2 hq) h
    ⟨fun q => Iff.rfl, fun q hq => by
      by_contra hn
      have := hw q (not_lt.1 hn)
      simp [this] at hq, rfl, fun q hq => hq.1, fun q _ => rfl⟩
  have key : ∀ h', Heap.Live h.oom {q | (h.block q).isSome} {q | (h.block q).isSome ∧ q ∉ outs} h h' →
      (∀ q ∉ outs, h'.block q = h.block q) ∧ ∀ q ∈ outs, (h'.block q).isSome := by
    intro h' H
    refine ⟨fun q hq => ?_, fun q hq => (H.some q).2 (ha q (hs hq))⟩
    by_cases c : (h.block q).isSome
    · exact H.same q ⟨c, hq⟩
    · have c' : ¬ (h'.block q).isSome := fun e => c ((H.some q).1 e)
      rw [Option.not_isSome_iff_eq_none] at c c'
      rw [c, c']
  rcases hm : m h with e | ⟨a, h'⟩
  · rw [hm] at this
    rcases e with f | _ | _
    · exact ⟨f, rfl⟩
    · exact this.elim
    · exact this.elim
  · rw [hm] at this
    rcases a with _ | a
    · exact key h' this
    · exact key h' this

end Ht

/-- steps that do not allocate or delete -/
macro "heap" : tactic => `(tactic| repeat' first
  | exact Ht.pure' fun _ h => h
  | exact Ht.lift
  | exact Ht.load (by simp [*])
  | exact Ht.store (by simp [*]) (by simp [*])
  | exact Ht.deref (by simp [*])
  | exact Ht.put (by simp [*]) (by simp [*])
  | refine Ht.for' fun _ => ?_
  | refine Ht.forDown fun _ => ?_
  | refine Ht.forBreak fun _ _ => ?_
  | refine Ht.ite (fun _ => ?_) (fun _ => ?_)
  | refine Ht.bind Ht.lift fun _ => ?_
  | refine Ht.bind (Ht.load (by simp [*])) fun _ => ?_
  | refine Ht.bind (Ht.store (by simp [*]) (by simp [*])) fun _ => ?_
  | refine Ht.bind (Ht.deref (by simp [*])) fun _ => ?_
  | refine Ht.bind (Ht.put (by simp [*]) (by simp [*])) fun _ => ?_)

end MathLib
