import Verif.Model.Layout

/-! # Objects as arrays of scalars -/

namespace MathLib

/-- what every ABI guarantees of its scalar types: sizes are positive multiples of the alignment -/
structure Abi.Valid (abi : Abi) : Prop where
  size_pos : 0 < abi.size
  align_pos : 0 < abi.align
  align_dvd : abi.align ∣ abi.size
  wsize_pos : 0 < abi.wsize
  walign_pos : 0 < abi.walign
  walign_dvd : abi.walign ∣ abi.wsize

/-- `p[0]`, …, `p[n-1]` are the scalars `l`, inside the object -/
def IsArray {R : Type} (abi : Abi) (im : Img R) (p : Nat) (l : List R) : Prop :=
  p + l.length * abi.size ≤ im.size ∧
    ∀ i (h : i < l.length), im.read (p + i * abi.size) = .ok l[i]

/-- `data()` gives an array of the components `comps`: reading finds them, writing one changes that one,
leaves the others and leaves what `kept` gives. -/
def DataArray {R C K : Type} (abi : Abi) (img : C → Img R) (data : C → Nat) (comps : C → List R)
    (kept : C → K) : Prop :=
  ∀ c, IsArray abi (img c) (data c) (comps c) ∧
    ∀ i, i < (comps c).length → ∀ v, ∃ c', (img c).write (data c + i * abi.size) v = .ok (img c') ∧
      comps c' = (comps c).set i v ∧ kept c' = kept c

end MathLib
