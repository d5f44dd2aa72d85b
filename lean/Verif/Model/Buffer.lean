import Verif.Model.Basic
import Mathlib.Logic.Function.Basic

/-! # Arrays and counted loops

C++ arrays (`T*` with a known extent) as bounds-checked buffers whose cells may be uninitialised;
reading or writing outside the extent and reading a cell that was never written are faults.
Pointers passed to one function are modelled as distinct objects (no aliasing) unless a definition
says otherwise.  Index arithmetic is on `ℕ`: overflow of the `int` index expressions (possible only
for arrays of more than 2^31 elements) is not modelled. -/

namespace MathLib

/-- An array of `size` cells; `none` marks a cell that was never written (e.g. `gam`, impl/linearequations.h:12). -/
structure Buf (α : Type) where
  size : Nat
  data : Nat → Option α

namespace Buf
variable {α : Type}

/-- `new T[n]`: uninitialised storage (impl/linearequations.h:12). -/
def alloc (n : Nat) : Buf α := ⟨n, fun _ => none⟩

/-- read `p[i]` (as in impl/linearequations.h:16-20) -/
def get (b : Buf α) (i : Nat) : Res α :=
  if i < b.size then
    match b.data i with
    | some v => .ok v
    | none => .error .uninit
  else .error .outOfRange

/-- `p[i] = v` (as in impl/linearequations.h:16-20) -/
def set (b : Buf α) (i : Nat) (v : α) : Res (Buf α) :=
  if i < b.size then .ok ⟨b.size, Function.update b.data i (some v)⟩
  else .error .outOfRange

end Buf

/-- `for (i = lo; i < lo + k; i++) s = f(i, s)` (as in impl/linearequations.h:142) -/
def loopFrom {σ : Type} (f : Nat → σ → Res σ) : (lo k : Nat) → σ → Res σ
  | _, 0, s => .ok s
  | lo, k + 1, s => do
    let s' ← f lo s
    loopFrom f (lo + 1) k s'

/-- `for (i = lo; i < hi; i++) s = f(i, s)` (as in impl/linearequations.h:142) -/
def loop {σ : Type} (lo hi : Nat) (f : Nat → σ → Res σ) (s : σ) : Res σ := loopFrom f lo (hi - lo) s

/-- The same with an early `return` (`none`), as in impl/linearequations.h:17-27. -/
def loopBreakFrom {σ : Type} (f : Nat → σ → Res (Option σ)) : (lo k : Nat) → σ → Res (Option σ)
  | _, 0, s => .ok (some s)
  | lo, k + 1, s => do
    match ← f lo s with
    | none => .ok none
    | some s' => loopBreakFrom f (lo + 1) k s'

/-- The same from `lo` to `hi` (impl/linearequations.h:17-27). -/
def loopBreak {σ : Type} (lo hi : Nat) (f : Nat → σ → Res (Option σ)) (s : σ) : Res (Option σ) :=
  loopBreakFrom f lo (hi - lo) s

/-- `for (j = k - 1; j >= 0; j--) s = f(j, s)` (impl/linearequations.h:29) -/
def loopDown {σ : Type} (f : Nat → σ → Res σ) : (k : Nat) → σ → Res σ
  | 0, s => .ok s
  | k + 1, s => do
    let s' ← f k s
    loopDown f k s'

end MathLib
