import Verif.Model.Buffer

/-! # Contents of a buffer -/

namespace MathLib

/-- The first `n` cells exist and hold `f 0, …, f (n-1)`. -/
def Buf.Holds {α : Type} (b : Buf α) (n : ℕ) (f : ℕ → α) : Prop :=
  n ≤ b.size ∧ ∀ i < n, b.data i = some (f i)

/-- The first `n` cells exist and hold something. -/
def Buf.Filled {α : Type} (b : Buf α) (n : ℕ) : Prop := n ≤ b.size ∧ ∀ i < n, (b.data i).isSome

/-- A fully initialised buffer with the elements of a list. -/
def Buf.ofList {α : Type} (l : List α) : Buf α := ⟨l.length, fun i => l[i]?⟩

/-- The contents of a buffer (used to state concrete runs). -/
def Buf.toList {α : Type} (b : Buf α) : List (Option α) := (List.range b.size).map b.data

instance Res.decEq {α : Type} [DecidableEq α] : DecidableEq (Res α)
  | .ok a, .ok b => if h : a = b then isTrue (by rw [h]) else isFalse (fun e => h (by cases e; rfl))
  | .error a, .error b => if h : a = b then isTrue (by rw [h]) else
      isFalse (fun e => h (by cases e; rfl))
  | .ok _, .error _ => isFalse (fun e => nomatch e)
  | .error _, .ok _ => isFalse (fun e => nomatch e)

theorem Buf.ofList_holds {α : Type} [Inhabited α] (l : List α) :
    (Buf.ofList l).Holds l.length (fun i => l[i]!) := by
  refine ⟨Nat.le_refl _, fun i hi => ?_⟩
  simp [Buf.ofList, hi]

end MathLib
