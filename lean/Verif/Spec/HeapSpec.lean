import Verif.Model.Heap
import Verif.Spec.Buffer
import Mathlib.Data.Set.Insert

/-! # Vocabulary for the heap -/

namespace MathLib

/-- no block has a number that is still to be given away -/
def Heap.WF {R : Type} (h : Heap R) : Prop := ∀ q, h.next ≤ q.2 → h.block q = none

/-- A function that cleans up: called with pointers `args` to allocated blocks it never uses or deletes a block that
is not allocated, and when it is left, by `return` or by an exception, the heap is as before except for the contents
of the blocks `outs`: nothing else was changed, nothing is left allocated, nothing else was deleted. -/
def Clean {R α : Type} (args outs : List (Ty × Nat)) (m : HM R α) (h : Heap R) : Prop :=
  h.WF → (∀ q ∈ args, (h.block q).isSome) →
    match m h with
    | .error e => ∃ f, e = .fault f
    | .ok (_, h') => (∀ q ∉ outs, h'.block q = h.block q) ∧ ∀ q ∈ outs, (h'.block q).isSome

/-- a heap with the given arrays of scalars and of vectors, numbered from 0 -/
def Heap.ofLists {R : Type} (reals : List (List R)) (vecs : List (List (Vec3 R))) (oom : Nat → Bool) : Heap R where
  block := fun (t, p) => match t with
    | .real => reals[p]?.map Buf.ofList
    | .vec => vecs[p]?.map Buf.ofList
    | .int => none
    | .idx => none
  next := max reals.length vecs.length
  oom := oom

/-- the outcome of a run on the heap, with the contents of one array of scalars afterwards; `none` for a fault -/
def outcome {R α : Type} (m : HM R α) (h : Heap R) (p : Nat) : Option (Option α × Option (List (Option R))) :=
  match m h with
  | .error _ => none
  | .ok (a, h') => some (a, (h'.block (.real, p)).map Buf.toList)

/-- the same with an array of vectors -/
def outcome3 {R α : Type} (m : HM R α) (h : Heap R) (p : Nat) : Option (Option α × Option (List (Option (Vec3 R)))) :=
  match m h with
  | .error _ => none
  | .ok (a, h') => some (a, (h'.block (.vec, p)).map Buf.toList)

end MathLib
