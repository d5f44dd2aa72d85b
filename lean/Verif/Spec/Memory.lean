import Verif.Model.Transform

/-! # Predicates on memory -/

namespace MathLib
variable {R : Type}

/-- `count` vectors of `k` scalars starting at `a`, `a + stride`, ... are readable and hold `v`. -/
def Mem.Holds (mem : Mem R) (a stride count k : ℕ) (v : ℕ → ℕ → R) : Prop :=
  ∀ i < count, ∀ j < k, mem.alloc (a + i * stride + j * mem.sz) = true ∧
    mem.val (a + i * stride + j * mem.sz) = some (v i j)

/-- `count` vectors of `n` scalars starting at `a`, `a + stride`, ... are writable. -/
def Mem.Writable (mem : Mem R) (a stride count n : ℕ) : Prop :=
  ∀ i < count, ∀ j < n, mem.alloc (a + i * stride + j * mem.sz) = true

/-- No destination vector (`n` scalars of `sz` bytes) shares a byte with a source vector. -/
def Apart (sz d ds n s ss k count : ℕ) : Prop :=
  ∀ i < count, ∀ i' < count, d + i * ds + n * sz ≤ s + i' * ss ∨ s + i' * ss + k * sz ≤ d + i * ds

/-- After the call exactly the destination vectors have changed, and they hold `out`: every scalar that
shares no byte with them keeps its value. -/
def Mem.Wrote (mem mem' : Mem R) (d ds count n : ℕ) (out : ℕ → ℕ → R) : Prop :=
  mem'.sz = mem.sz ∧ mem'.alloc = mem.alloc ∧
  (∀ i < count, ∀ j < n, mem'.val (d + i * ds + j * mem.sz) = some (out i j)) ∧
  (∀ b, (∀ i < count, b + mem.sz ≤ d + i * ds ∨ d + i * ds + n * mem.sz ≤ b) → mem'.val b = mem.val b)

end MathLib
