import Verif.Model.Spline
import Verif.Proof.Loops

/-! # The solvers with arbitrary arithmetic

No law about the operations is used: what is shown here holds for any results of the arithmetic and of the
comparisons, such as those of IEEE numbers. -/

set_option linter.unusedSectionVars false

namespace MathLib

namespace Buf
variable {α : Type}

theorem Filled.get {b : Buf α} {n : ℕ} (h : b.Filled n) {i : ℕ} (hi : i < n) :
    ∃ v, b.get i = .ok v ∧ b.data i = some v := by
  obtain ⟨v, hv⟩ := Option.isSome_iff_exists.1 (h.2 i hi)
  exact ⟨v, get_of (hi.trans_le h.1) hv, hv⟩

theorem Filled.set {b : Buf α} {n : ℕ} (h : b.Filled n) {i : ℕ} (hi : i < n) (v : α) :
    ∃ b', b.set i v = .ok b' ∧ b'.Filled n ∧ b'.size = b.size := by
  refine ⟨_, set_of (hi.trans_le h.1), ⟨h.1, fun k hk => ?_⟩, rfl⟩
  by_cases hki : k = i
  · rw [hki]; simp
  · simpa [Function.update, hki] using h.2 k hk

/-- filling cell after cell -/
theorem Filled.grow {b : Buf α} {n : ℕ} (h : b.Filled n) (hs : n < b.size) (v : α) :
    ∃ b', b.set n v = .ok b' ∧ b'.Filled (n + 1) ∧ b'.size = b.size := by
  refine ⟨_, set_of hs, ⟨hs, fun k hk => ?_⟩, rfl⟩
  by_cases hki : k = n
  · rw [hki]; simp
  · simpa [Function.update, hki] using h.2 k (by omega)

theorem Filled.nil (b : Buf α) : b.Filled 0 := ⟨Nat.zero_le _, fun i hi => by omega⟩

theorem Filled.mono {b : Buf α} {n m : ℕ} (h : b.Filled n) (hm : m ≤ n) : b.Filled m :=
  ⟨hm.trans h.1, fun i hi => h.2 i (by omega)⟩

theorem Holds.filled {b : Buf α} {n : ℕ} {f : ℕ → α} (h : b.Holds n f) : b.Filled n :=
  ⟨h.1, fun i hi => by rw [h.2 i hi]; rfl⟩

/-- a store keeps the size, fills its cell and empties none -/
theorem set_keep (b : Buf α) {i : ℕ} (v : α) (hi : i < b.size) :
    ∃ b', b.set i v = .ok b' ∧ b'.size = b.size ∧ b'.data i = some v ∧ ∀ k, k ≠ i → b'.data k = b.data k :=
  ⟨_, set_of hi, rfl, by simp, fun k hk => by simp [Function.update, hk]⟩

theorem set_fill (b : Buf α) {i : ℕ} (v : α) (hi : i < b.size) :
    ∃ b', b.set i v = .ok b' ∧ b'.size = b.size ∧ (b'.data i).isSome ∧
      ∀ k, (b.data k).isSome → (b'.data k).isSome := by
  obtain ⟨b', e, h1, h2, h3⟩ := b.set_keep v hi
  refine ⟨b', e, h1, by rw [h2]; rfl, fun k hk => ?_⟩
  by_cases hki : k = i
  · rw [hki, h2]; rfl
  · rw [h3 k hki]; exact hk

end Buf

open Buf

theorem ok_bind {α β : Type} {x : Res α} {f : α → Res β} {a : α} (h : x = .ok a) : (x >>= f) = f a := by
  rw [h]; rfl

section
variable {R : Type} [Zero R] [One R] [Add R] [Sub R] [Mul R] [Div R] [Neg R]
  [LT R] [LE R] [DecidableLT R] [DecidableLE R] [BEq R]

namespace TriDiagonal

theorem solveCore_safe {V : Type} (vsub : V → V → V) (vmul : V → R → V) (vdiv : V → R → Res V)
    (hv : ∀ v k, (k == 0) = false → ∃ w, vdiv v k = .ok w) {a b c : Buf R} {r u : Buf V} {n : ℕ} (hn : 0 < n)
    (ha : a.Filled (n - 1)) (hb : b.Filled n) (hc : c.Filled (n - 1)) (hr : r.Filled n) (hu : n ≤ u.size) :
    ∃ res u', solveCore vsub vmul vdiv a b c r u n = .ok (res, u') ∧ (res = true → u'.Filled n) ∧
      u'.size = u.size := by
  unfold solveCore
  obtain ⟨b0, e, -⟩ := hb.get hn
  rw [ok_bind e]
  by_cases hz : (b0 == 0) = true
  · exact ⟨false, u, by rw [if_pos hz]; rfl, by simp, rfl⟩
  rw [if_neg hz]
  have hz : (b0 == 0) = false := by simpa using hz
  obtain ⟨r0, e, -⟩ := hr.get hn
  dsimp only
  rw [ok_bind e]
  obtain ⟨q0, e⟩ := hv r0 b0 hz
  rw [ok_bind e]
  obtain ⟨u1, e, hu1, hs1⟩ := (Filled.nil u).grow (by omega) q0
  rw [ok_bind e]
  have hl := loopBreak_rule (f := fun j (st : St R V) => (do
    let cj ← c.get (j - 1)
    let gam ← st.gam.set j (cj / st.bet)
    let gj ← gam.get j
    let bj ← b.get j
    let aj ← a.get (j - 1)
    let bet := bj - aj * gj
    if bet == 0 then return none
    let rj ← r.get j
    let uj ← st.u.get (j - 1)
    let q ← vdiv (vsub rj (vmul uj aj)) bet
    let u ← st.u.set j q
    return some ⟨gam, bet, u⟩ : Res (Option (St R V))))
    (fun j st => (st.gam.size = n ∧ ∀ k, 1 ≤ k → k < j → (st.gam.data k).isSome) ∧ st.u.Filled j ∧ st.u.size = u.size)
    True (lo := 1) (hi := n) (s := ⟨Buf.alloc n, b0, u1⟩) (by omega)
    ⟨⟨rfl, fun k h1 h2 => by omega⟩, hu1, hs1⟩ (by
      intro j st h1 h2 ⟨⟨g1, g2⟩, f1, f2⟩
      obtain ⟨cj, e, -⟩ := hc.get (i := j - 1) (by omega)
      rw [ok_bind e]
      have e : st.gam.set j (cj / st.bet) = .ok ⟨st.gam.size, Function.update st.gam.data j (some (cj / st.bet))⟩ :=
        set_of (by omega)
      rw [ok_bind e]
      have e : (⟨st.gam.size, Function.update st.gam.data j (some (cj / st.bet))⟩ : Buf R).get j =
        .ok (cj / st.bet) := get_of (by simp only; omega) (by simp)
      rw [ok_bind e]
      obtain ⟨bj, e, -⟩ := hb.get h2
      rw [ok_bind e]
      obtain ⟨aj, e, -⟩ := ha.get (i := j - 1) (by omega)
      rw [ok_bind e]
      dsimp only
      by_cases hz : (bj - aj * (cj / st.bet) == 0) = true
      · right; rw [if_pos hz]; exact ⟨rfl, trivial⟩
      · rw [if_neg hz]
        obtain ⟨rj, e, -⟩ := hr.get h2
        rw [ok_bind e]
        obtain ⟨uj, e, -⟩ := f1.get (i := j - 1) (by omega)
        rw [ok_bind e]
        obtain ⟨q, e⟩ := hv (vsub rj (vmul uj aj)) _ (by simpa using hz)
        rw [ok_bind e]
        obtain ⟨u', e, k1, k2⟩ := f1.grow (by omega) q
        rw [ok_bind e]
        refine Or.inl ⟨_, rfl, ⟨g1, fun k m1 m2 => ?_⟩, k1, by rw [k2, f2]⟩
        by_cases hk : k = j
        · simp [hk]
        · simpa [Function.update, hk] using g2 k m1 (by omega))
  rcases hl with ⟨st, e, ⟨g1, g2⟩, f1, f2⟩ | ⟨e, -⟩
  · rw [ok_bind e]
    dsimp only
    obtain ⟨u', e, k1, k2⟩ := loopDown_rule (f := fun j (u : Buf V) => (do
      let uj ← u.get j
      let g ← st.gam.get (j + 1)
      let u1 ← u.get (j + 1)
      u.set j (vsub uj (vmul u1 g)) : Res (Buf V)))
      (fun _ v => v.Filled n ∧ v.size = u.size) (k := n - 1) (s := st.u) ⟨f1, f2⟩ (by
        intro j v hj ⟨k1, k2⟩
        obtain ⟨x, e, -⟩ := k1.get (i := j) (by omega)
        rw [ok_bind e]
        obtain ⟨g, hg⟩ := Option.isSome_iff_exists.1 (g2 (j + 1) (by omega) (by omega))
        rw [ok_bind (get_of (by omega) hg)]
        obtain ⟨y, e, -⟩ := k1.get (i := j + 1) (by omega)
        rw [ok_bind e]
        obtain ⟨v', e, k3, k4⟩ := k1.set (i := j) (by omega) (vsub x (vmul y g))
        exact ⟨v', e, k3, k4.trans k2⟩)
    rw [ok_bind e]
    exact ⟨true, u', rfl, fun _ => k1, k2⟩
  · rw [ok_bind e]
    exact ⟨false, u1, rfl, by simp, hs1⟩

theorem solve_safe {a b c r u : Buf R} {n : ℕ} (hn : 0 < n)
    (ha : a.Filled (n - 1)) (hb : b.Filled n) (hc : c.Filled (n - 1)) (hr : r.Filled n) (hu : n ≤ u.size) :
    ∃ res u', solve a b c r u n = .ok (res, u') ∧ (res = true → u'.Filled n) ∧ u'.size = u.size := by
  unfold solve
  rw [if_neg (by omega)]
  exact solveCore_safe _ _ _ (fun v k _ => ⟨_, rfl⟩) hn ha hb hc hr hu

theorem solve3_safe {a b c : Buf R} {r u : Buf (Vec3 R)} {n : ℕ} (hn : 0 < n)
    (ha : a.Filled (n - 1)) (hb : b.Filled n) (hc : c.Filled (n - 1)) (hr : r.Filled n) (hu : n ≤ u.size) :
    ∃ res u', solve3 a b c r u n = .ok (res, u') ∧ (res = true → u'.Filled n) ∧ u'.size = u.size :=
  solveCore_safe _ _ _ (fun v k hk => by simp [Vec3.div, hk]) hn ha hb hc hr hu

/-- filling the cells from 1 to n - 2 when the first and the last are filled -/
theorem inner_fill {α : Type} {b : Buf α} {n : ℕ} (hn : 2 ≤ n) (f : ℕ → Buf α → Res (Buf α))
    (hf : ∀ i (q : Buf α), 1 ≤ i → i < n - 1 → ∃ v, f i q = q.set i v)
    (hs : n ≤ b.size) (h0 : (b.data 0).isSome) (h1 : (b.data (n - 1)).isSome) :
    ∃ b', loop 1 (n - 1) f b = .ok b' ∧ b'.Filled n ∧ b'.size = b.size := by
  obtain ⟨b', e, k1, k2, k3, k4⟩ := loop_rule (f := f)
    (fun i q => q.size = b.size ∧ (q.data 0).isSome ∧ (q.data (n - 1)).isSome ∧
      ∀ k, 1 ≤ k → k < i → (q.data k).isSome) (lo := 1) (hi := n - 1) (s := b) (by omega)
    ⟨rfl, h0, h1, fun k _ _ => by omega⟩ (by
      intro i q hi1 hi2 ⟨k1, k2, k3, k4⟩
      obtain ⟨v, hv⟩ := hf i q hi1 hi2
      obtain ⟨q', e, l1, l2, l3⟩ := q.set_fill (i := i) v (by omega)
      refine ⟨q', hv.trans e, l1.trans k1, l3 _ k2, l3 _ k3, fun k m1 m2 => ?_⟩
      by_cases hki : k = i
      · rw [hki]; exact l2
      · exact l3 _ (k4 k m1 (by omega)))
  refine ⟨b', e, ⟨by omega, fun i hi => ?_⟩, k1⟩
  rcases Nat.eq_zero_or_pos i with h | h
  · rw [h]; exact k2
  · rcases Nat.lt_or_ge i (n - 1) with h' | h'
    · exact k4 i h h'
    · rw [show i = n - 1 by omega]; exact k3

theorem solveCyclic_safe {a b c r x : Buf R} (alpha beta : R) {n : ℕ}
    (ha : a.Filled (n - 1)) (hb : b.Filled n) (hc : c.Filled (n - 1)) (hr : r.Filled n) (hx : n ≤ x.size) :
    ∃ res x', solveCyclic a b c alpha beta r x n = .ok (res, x') ∧ (res = true → x'.Filled n) ∧
      x'.size = x.size := by
  unfold solveCyclic
  by_cases hn : n ≤ 2
  · rw [if_pos hn]; exact ⟨false, x, rfl, by simp, rfl⟩
  rw [if_neg hn]
  by_cases hab : (alpha == 0 && beta == 0) = true
  · rw [if_pos hab]
    obtain ⟨res, u', e, h⟩ := solve_safe (by omega) ha hb hc hr hx
    exact ⟨res, u', by rw [e], h⟩
  rw [if_neg hab]
  dsimp only
  obtain ⟨b0, e, -⟩ := hb.get (i := 0) (by omega)
  rw [ok_bind e]
  obtain ⟨bb1, e, s1, f1, -⟩ := (Buf.alloc n : Buf R).set_fill (i := 0) (b0 - -b0) (by simp only [Buf.alloc]; omega)
  rw [ok_bind e]
  obtain ⟨bl, e, -⟩ := hb.get (i := n - 1) (by omega)
  rw [ok_bind e]
  have s1 : bb1.size = n := s1
  obtain ⟨bb2, e, s2, f2, f3⟩ := bb1.set_fill (i := n - 1) (bl - alpha * beta / -b0) (by omega)
  rw [ok_bind e]
  obtain ⟨bb, e, hbb, -⟩ := inner_fill (n := n) (b := bb2) (by omega) (fun i (bb : Buf R) => (do
    let bi ← b.get i
    bb.set i bi : Res (Buf R))) (fun i q _ hi => by
      obtain ⟨v, e, -⟩ := hb.get (i := i) (by omega)
      exact ⟨v, ok_bind e⟩) (by omega) (f3 _ f1) f2
  rw [ok_bind e]
  obtain ⟨res, x1, e, g1, g2⟩ := solve_safe (by omega) ha hbb hc hr hx
  rw [ok_bind e]
  dsimp only
  cases res
  · exact ⟨false, x1, rfl, by simp, g2⟩
  rw [if_neg (by simp)]
  obtain ⟨u1, e, s3, f4, -⟩ := (Buf.alloc n : Buf R).set_fill (i := 0) (-b0) (by simp only [Buf.alloc]; omega)
  rw [ok_bind e]
  have s3 : u1.size = n := s3
  obtain ⟨u2, e, s4, f5, f6⟩ := u1.set_fill (i := n - 1) alpha (by omega)
  rw [ok_bind e]
  obtain ⟨u3, e, hu3, -⟩ := inner_fill (n := n) (b := u2) (by omega) (fun i (u : Buf R) => u.set i 0)
    (fun i q _ _ => ⟨0, rfl⟩) (by omega) (f6 _ f4) f5
  rw [ok_bind e]
  obtain ⟨res, z, e, g3, -⟩ := solve_safe (u := Buf.alloc n) (by omega) ha hbb hc hu3 (le_refl n)
  rw [ok_bind e]
  dsimp only
  cases res
  · exact ⟨false, x1, rfl, by simp, g2⟩
  rw [if_neg (by simp)]
  have g1 := g1 rfl
  have g3 := g3 rfl
  obtain ⟨x0, e, -⟩ := g1.get (i := 0) (by omega)
  rw [ok_bind e]
  obtain ⟨xl, e, -⟩ := g1.get (i := n - 1) (by omega)
  rw [ok_bind e]
  obtain ⟨z0, e, -⟩ := g3.get (i := 0) (by omega)
  rw [ok_bind e]
  obtain ⟨zl, e, -⟩ := g3.get (i := n - 1) (by omega)
  rw [ok_bind e]
  obtain ⟨x', e, k1, k2⟩ := loop_rule (f := fun i (x : Buf R) => (do
    let xi ← x.get i
    let zi ← z.get i
    x.set i (xi - (x0 + beta * xl / -b0) / (1 + z0 + beta * zl / -b0) * zi) : Res (Buf R)))
    (fun _ (q : Buf R) => q.Filled n ∧ q.size = x.size) (Nat.zero_le n) (s := x1) ⟨g1, g2⟩ (by
      intro i q _ hi ⟨k1, k2⟩
      obtain ⟨v, e, -⟩ := k1.get hi
      rw [ok_bind e]
      obtain ⟨w, e, -⟩ := g3.get hi
      rw [ok_bind e]
      obtain ⟨q', e, l1, l2⟩ := k1.set hi (v - (x0 + beta * xl / -b0) / (1 + z0 + beta * zl / -b0) * w)
      exact ⟨q', e, l1, l2.trans k2⟩)
  rw [ok_bind e]
  exact ⟨true, x', rfl, fun _ => k1, k2⟩

end TriDiagonal

namespace GaussJordan

/-- both indices have been set, to rows of the matrix -/
def Piv.Set (n : ℕ) (p : Piv R) : Prop := ∃ r c, p.irow = some r ∧ p.icol = some c ∧ r < n ∧ c < n

theorem cell_lt {n w i j : ℕ} (hi : i < n) (hj : j < w) : i * w + j < n * w := by
  have := Nat.mul_le_mul_right w (Nat.succ_le_of_lt hi)
  rw [Nat.succ_mul] at this; omega

theorem swap_safe {α : Type} {p : Buf α} {N i j : ℕ} (h : p.Filled N) (hi : i < N) (hj : j < N) :
    ∃ p', swap p i j = .ok p' ∧ p'.Filled N ∧ p'.size = p.size := by
  unfold swap
  obtain ⟨x, e, -⟩ := h.get hi
  rw [ok_bind e]
  obtain ⟨y, e, -⟩ := h.get hj
  rw [ok_bind e]
  obtain ⟨p1, e, h1, s1⟩ := h.set hi y
  rw [ok_bind e]
  obtain ⟨p2, e, h2, s2⟩ := h1.set hj x
  exact ⟨p2, e, h2, s2.trans s1⟩

theorem exchange_safe {p : Buf R} {n w r c : ℕ} (h : p.Filled (n * w)) (hr : r < n) (hc : c < n) :
    ∃ p', exchange p w r c = .ok p' ∧ p'.Filled (n * w) ∧ p'.size = p.size := by
  unfold exchange
  split
  · exact loop_rule (fun _ (q : Buf R) => q.Filled (n * w) ∧ q.size = p.size) (Nat.zero_le w) ⟨h, rfl⟩ (by
      intro l q _ hl ⟨h1, h2⟩
      obtain ⟨q', e, h3, h4⟩ := swap_safe h1 (cell_lt hr hl) (cell_lt hc hl)
      exact ⟨q', e, h3, h4.trans h2⟩)
  · exact ⟨p, rfl, h, rfl⟩

theorem scaleRow_safe {p : Buf R} {n w r : ℕ} (k : R) (h : p.Filled (n * w)) (hr : r < n) :
    ∃ p', scaleRow p w r k = .ok p' ∧ p'.Filled (n * w) ∧ p'.size = p.size :=
  loop_rule (fun _ (q : Buf R) => q.Filled (n * w) ∧ q.size = p.size) (Nat.zero_le w) ⟨h, rfl⟩ (by
    intro l q _ hl ⟨h1, h2⟩
    obtain ⟨v, e, -⟩ := h1.get (cell_lt hr hl)
    rw [ok_bind e]
    obtain ⟨q', e, h3, h4⟩ := h1.set (cell_lt hr hl) (v * k)
    exact ⟨q', e, h3, h4.trans h2⟩)

theorem reduceRow_safe {p : Buf R} {n w r l' : ℕ} (k : R) (h : p.Filled (n * w)) (hr : r < n) (hl' : l' < n) :
    ∃ p', reduceRow p w r l' k = .ok p' ∧ p'.Filled (n * w) ∧ p'.size = p.size :=
  loop_rule (fun _ (q : Buf R) => q.Filled (n * w) ∧ q.size = p.size) (Nat.zero_le w) ⟨h, rfl⟩ (by
    intro l q _ hl ⟨h1, h2⟩
    obtain ⟨v, e, -⟩ := h1.get (cell_lt hl' hl)
    rw [ok_bind e]
    obtain ⟨u, e, -⟩ := h1.get (cell_lt hr hl)
    rw [ok_bind e]
    obtain ⟨q', e, h3, h4⟩ := h1.set (cell_lt hl' hl) (v - u * k)
    exact ⟨q', e, h3, h4.trans h2⟩)

theorem reduce_safe {a b : Buf R} {n m c : ℕ} (ha : a.Filled (n * n)) (hb : b.Filled (n * m)) (hc : c < n) :
    ∃ a' b', reduce a b n m c = .ok (a', b') ∧ a'.Filled (n * n) ∧ b'.Filled (n * m) ∧ b'.size = b.size := by
  obtain ⟨⟨a', b'⟩, e, h⟩ := loop_rule (f := fun ll (ab : Buf R × Buf R) => (do
    if ll = c then return ab
    let dum ← ab.1.get (ll * n + c)
    let a ← reduceRow ab.1 n c ll dum
    let a ← a.set (ll * n + c) 0
    let b ← reduceRow ab.2 m c ll dum
    return (a, b) : Res (Buf R × Buf R)))
    (fun _ q => q.1.Filled (n * n) ∧ q.2.Filled (n * m) ∧ q.2.size = b.size) (Nat.zero_le n)
    (s := (a, b)) ⟨ha, hb, rfl⟩ (by
      intro l q _ hl ⟨h1, h2, h3⟩
      by_cases hlc : l = c
      · rw [if_pos hlc]; exact ⟨q, rfl, h1, h2, h3⟩
      rw [if_neg hlc]
      obtain ⟨d, e, -⟩ := h1.get (cell_lt hl hc)
      rw [ok_bind e]
      obtain ⟨a1, e, k1, -⟩ := reduceRow_safe d h1 hc hl
      rw [ok_bind e]
      obtain ⟨a2, e, k2, -⟩ := k1.set (cell_lt hl hc) 0
      rw [ok_bind e]
      obtain ⟨b1, e, k3, k4⟩ := reduceRow_safe d h2 hc hl
      rw [ok_bind e]
      exact ⟨_, rfl, k2, k3, k4.trans h3⟩)
  exact ⟨a', b', e, h⟩

/-- the search never faults, and sets both indices in range or neither -/
theorem search_safe (absf : R → R) {a : Buf R} {ipiv : Buf ℤ} {n : ℕ} {p : Piv R} (ha : a.Filled (n * n))
    (hi : ipiv.Filled n) (hp : p.Set n) : ∃ p', search absf a ipiv n p = .ok p' ∧ p'.Set n := by
  unfold search
  refine loop_rule (fun _ q => Piv.Set n q) (Nat.zero_le n) hp ?_
  intro j q _ hj hq
  obtain ⟨pj, e, -⟩ := hi.get hj
  rw [ok_bind e]
  by_cases hpj : pj = 0
  · rw [if_pos hpj]; exact ⟨q, rfl, hq⟩
  rw [if_neg hpj]
  refine loop_rule (fun _ q => Piv.Set n q) (Nat.zero_le n) hq ?_
  intro k q _ hk hq
  obtain ⟨pk, e, -⟩ := hi.get hk
  rw [ok_bind e]
  by_cases hpk : pk ≠ -1
  · rw [if_pos hpk]; exact ⟨q, rfl, hq⟩
  rw [if_neg hpk]
  obtain ⟨v, e, -⟩ := ha.get (cell_lt hj hk)
  rw [ok_bind e]
  by_cases hv : absf v ≥ q.big
  · rw [if_pos hv]; exact ⟨_, rfl, j, k, rfl, rfl, hj, hk⟩
  · rw [if_neg hv]; exact ⟨q, rfl, hq⟩

/-- the first search: it sets the indices exactly if some entry passes the test against zero -/
theorem search_first (absf : R → R) {a : Buf R} {ipiv : Buf ℤ} {n : ℕ} (x : R) (ha : a.Filled (n * n))
    (hi : ipiv.Holds n fun _ => -1) :
    ∃ p', search absf a ipiv n ⟨x, none, none⟩ = .ok p' ∧
      ((p'.Set n ∧ ∃ i < n * n, ∃ v, a.data i = some v ∧ absf v ≥ 0) ∨
        (p'.irow = none ∧ p'.icol = none ∧ ∀ i < n * n, ∀ v, a.data i = some v → ¬ absf v ≥ 0)) := by
  unfold search
  have key := loop_rule (f := fun j (p : Piv R) => (do
    let pj ← ipiv.get j
    if pj = 0 then return p
    loop 0 n (fun k (p : Piv R) => do
      let pk ← ipiv.get k
      if pk ≠ -1 then return p
      let v ← a.get (j * n + k)
      if absf v ≥ p.big then return ⟨absf v, some j, some k⟩
      return p) p : Res (Piv R)))
    (fun j q => (Piv.Set n q ∧ ∃ i < n * n, ∃ v, a.data i = some v ∧ absf v ≥ 0) ∨
        (q = ⟨0, none, none⟩ ∧ ∀ i < j * n, ∀ v, a.data i = some v → ¬ absf v ≥ 0))
    (Nat.zero_le n) (s := ⟨0, none, none⟩) (Or.inr ⟨rfl, fun i h => by omega⟩) (by
      intro j q _ hj hq
      rw [ok_bind (hi.get hj)]
      rw [if_neg (by decide)]
      have := loop_rule (f := fun k (p : Piv R) => (do
        let pk ← ipiv.get k
        if pk ≠ -1 then return p
        let v ← a.get (j * n + k)
        if absf v ≥ p.big then return ⟨absf v, some j, some k⟩
        return p : Res (Piv R)))
        (fun k q => (Piv.Set n q ∧ ∃ i < n * n, ∃ v, a.data i = some v ∧ absf v ≥ 0) ∨
          (q = ⟨0, none, none⟩ ∧ ∀ i < j * n + k, ∀ v, a.data i = some v → ¬ absf v ≥ 0))
        (Nat.zero_le n) (s := q) (by simpa using hq) (by
          intro k q _ hk hq
          rw [ok_bind (hi.get hk)]
          rw [if_neg (by decide)]
          obtain ⟨v, e, hv⟩ := ha.get (cell_lt hj hk)
          rw [ok_bind e]
          rcases hq with ⟨h1, h2⟩ | ⟨rfl, h2⟩
          · by_cases hc : absf v ≥ q.big
            · rw [if_pos hc]; exact ⟨_, rfl, Or.inl ⟨⟨j, k, rfl, rfl, hj, hk⟩, h2⟩⟩
            · rw [if_neg hc]; exact ⟨q, rfl, Or.inl ⟨h1, h2⟩⟩
          · by_cases hc : absf v ≥ 0
            · rw [if_pos hc]
              exact ⟨_, rfl, Or.inl ⟨⟨j, k, rfl, rfl, hj, hk⟩, _, cell_lt hj hk, v, hv, hc⟩⟩
            · rw [if_neg hc]
              refine ⟨_, rfl, Or.inr ⟨rfl, fun i hi w hw => ?_⟩⟩
              by_cases hik : i = j * n + k
              · rw [hik, hv] at hw
                rw [← Option.some.inj hw]; exact hc
              · exact h2 i (by omega) w hw)
      simpa [Nat.succ_mul] using this)
  obtain ⟨p', e, h⟩ := key
  refine ⟨p', e, ?_⟩
  rcases h with h | ⟨rfl, h⟩
  · exact Or.inl h
  · exact Or.inr ⟨rfl, rfl, h⟩

/-- the part of the state that makes the indices of the main loop good -/
def St.Good (n m : ℕ) (N : ℕ) (i : ℕ) (s : St R) : Prop :=
  s.a.Filled (n * n) ∧ s.b.Filled (n * m) ∧ s.b.size = N ∧ s.ipiv.Filled n ∧ (s.indxr.size = n ∧ s.indxc.size = n) ∧
    ∀ l < i, (∃ r, s.indxr.data l = some r ∧ r < n) ∧ ∃ c, s.indxc.data l = some c ∧ c < n

theorem step_safe (absf : R → R) {n m N i : ℕ} {s : St R} (hin : i < n) (h : s.Good n m N i) {p : Piv R}
    (hs : search absf s.a s.ipiv n s.piv = .ok p) (hp : p.Set n) :
    (∃ s', step absf n m i s = .ok (some s') ∧ s'.Good n m N (i + 1) ∧ s'.piv = p) ∨ step absf n m i s = .ok none := by
  obtain ⟨ha, hb, hN, hi, ⟨z1, z2⟩, hx⟩ := h
  obtain ⟨r, c, e1, e2, hr, hc⟩ := hp
  unfold step
  rw [ok_bind hs, e1, e2]
  simp only [readVar]
  rw [ok_bind (rfl : (Except.ok c : Res ℕ) = .ok c), ok_bind (rfl : (Except.ok r : Res ℕ) = .ok r)]
  obtain ⟨pc, e, -⟩ := hi.get hc
  rw [ok_bind e]
  obtain ⟨ip, e, hip, -⟩ := hi.set hc (pc + 1)
  rw [ok_bind e]
  obtain ⟨a1, e, ha1, -⟩ := exchange_safe ha hr hc
  rw [ok_bind e]
  obtain ⟨b1, e, hb1, sb1⟩ := exchange_safe hb hr hc
  rw [ok_bind e, ok_bind (set_of (by omega) : s.indxr.set i r = _), ok_bind (set_of (by omega) : s.indxc.set i c = _)]
  obtain ⟨q, e, -⟩ := ha1.get (cell_lt hc hc)
  rw [ok_bind e]
  by_cases hz : (q == 0) = true
  · right; rw [if_pos hz]; rfl
  rw [if_neg hz]
  left
  obtain ⟨a2, e, ha2, -⟩ := scaleRow_safe (1 / q) ha1 hc
  rw [ok_bind e]
  obtain ⟨a3, e, ha3, -⟩ := ha2.set (cell_lt hc hc) 1
  rw [ok_bind e]
  obtain ⟨b2, e, hb2, sb2⟩ := scaleRow_safe (1 / q) hb1 hc
  rw [ok_bind e]
  obtain ⟨a4, b3, e, ha4, hb3, sb3⟩ := reduce_safe ha3 hb2 hc
  rw [ok_bind e]
  refine ⟨_, rfl, ⟨ha4, hb3, by rw [sb3, sb2, sb1, hN], hip, ⟨z1, z2⟩, fun l hl => ?_⟩, by
    cases p; simp_all⟩
  by_cases hli : l = i
  · subst hli; exact ⟨⟨r, by simp, hr⟩, c, by simp, hc⟩
  · simpa [Function.update, hli] using hx l (by omega)

theorem unscramble_safe {a : Buf R} {indxr indxc : Buf ℕ} {n : ℕ} (ha : a.Filled (n * n))
    (hs : indxr.size = n ∧ indxc.size = n)
    (hx : ∀ l < n, (∃ r, indxr.data l = some r ∧ r < n) ∧ ∃ c, indxc.data l = some c ∧ c < n) :
    ∃ a', unscramble a indxr indxc n = .ok a' ∧ a'.Filled (n * n) :=
  loopDown_rule (fun _ (q : Buf R) => q.Filled (n * n)) ha (by
    intro l q hl hq
    obtain ⟨⟨r, h1, h2⟩, c, h3, h4⟩ := hx l hl
    rw [ok_bind (get_of (by omega) h1), ok_bind (get_of (by omega) h3)]
    by_cases hrc : r = c
    · rw [if_pos hrc]; exact ⟨q, rfl, hq⟩
    rw [if_neg hrc]
    exact loop_rule (fun _ (q : Buf R) => q.Filled (n * n)) (Nat.zero_le n) hq (by
      intro k q _ hk hq
      obtain ⟨q', e, h5, -⟩ := swap_safe hq (cell_lt hk h2) (cell_lt hk h4)
      exact ⟨q', e, h5⟩))

theorem minus_ones (n : ℕ) : ∃ p, loop 0 n (fun j (p : Buf ℤ) => p.set j (-1)) (Buf.alloc n) = .ok p ∧
    p.Holds n fun _ => -1 := by
  obtain ⟨p, e, h1, h2⟩ := loop_rule (f := fun j (p : Buf ℤ) => p.set j (-1))
    (fun j p => p.size = n ∧ ∀ i < j, p.data i = some (-1)) (Nat.zero_le n) (s := Buf.alloc n)
    ⟨rfl, fun i hi => by omega⟩ (by
      intro j p _ hj ⟨h1, h2⟩
      refine ⟨_, set_of (by omega), h1, fun i hi => ?_⟩
      by_cases hij : i = j
      · simp [hij]
      · simpa [Function.update, hij] using h2 i (by omega))
  exact ⟨p, e, h1.ge, h2⟩

theorem solve_safe (absf : R → R) {a b : Buf R} {n m : ℕ} (ha : a.Filled (n * n)) (hb : b.Filled (n * m))
    (hv : n = 0 ∨ ∃ i < n * n, ∃ v, a.data i = some v ∧ absf v ≥ 0) :
    solve absf a n b m = .ok none ∨ ∃ a' b', solve absf a n b m = .ok (some (a', b')) ∧ a'.Filled (n * n) ∧
      b'.Filled (n * m) ∧ b'.size = b.size := by
  unfold solve
  obtain ⟨ip, e, hip⟩ := minus_ones n
  dsimp only
  rw [ok_bind e]
  have hl := loopBreak_rule (f := step absf n m)
    (fun i s => s.Good n m b.size i ∧ (i = 0 → s.a = a ∧ s.ipiv = ip ∧ s.piv = ⟨0, none, none⟩) ∧ (0 < i → s.piv.Set n))
    True (Nat.zero_le n) (s := ⟨a, b, Buf.alloc n, Buf.alloc n, ip, ⟨0, none, none⟩⟩)
    ⟨⟨ha, hb, rfl, hip.filled, ⟨rfl, rfl⟩, fun l hl => by omega⟩, fun _ => ⟨rfl, rfl, rfl⟩, fun h => by omega⟩ (by
      intro i s _ hi ⟨hg, h0, h1⟩
      have hp : ∃ p, search absf s.a s.ipiv n s.piv = .ok p ∧ p.Set n := by
        rcases Nat.eq_zero_or_pos i with hi0 | hi0
        · obtain ⟨q1, q2, q3⟩ := h0 hi0
          rw [q1, q2, q3]
          obtain ⟨p, e, h⟩ := search_first absf 0 ha hip
          rcases h with ⟨h, -⟩ | ⟨-, -, h⟩
          · exact ⟨p, e, h⟩
          · rcases hv with hv | ⟨k, hk, v, w1, w2⟩
            · omega
            · exact absurd w2 (h k hk v w1)
        · exact search_safe absf hg.1 hg.2.2.2.1 (h1 hi0)
      obtain ⟨p, e, hp⟩ := hp
      rcases step_safe absf hi hg e hp with ⟨s', e', hg', hp'⟩ | e'
      · exact Or.inl ⟨s', e', hg', by omega, fun _ => hp' ▸ hp⟩
      · exact Or.inr ⟨e', trivial⟩)
  rcases hl with ⟨s, e, ⟨g1, g2, g3, g4, g5, g6⟩, -⟩ | ⟨e, -⟩
  · right
    rw [ok_bind e]
    dsimp only
    obtain ⟨a', e, h⟩ := unscramble_safe g1 g5 g6
    rw [ok_bind e]
    exact ⟨a', s.b, rfl, h, g2, g3⟩
  · left; rw [ok_bind e]; rfl

theorem solve_uninit (absf : R → R) {a : Buf R} (b : Buf R) {n : ℕ} (m : ℕ) (hn : 0 < n) (ha : a.Filled (n * n))
    (hv : ∀ i < n * n, ∀ v, a.data i = some v → ¬ absf v ≥ 0) : solve absf a n b m = .error .uninit := by
  unfold solve
  obtain ⟨ip, e, hip⟩ := minus_ones n
  dsimp only
  rw [ok_bind e]
  have hs : step absf n m 0 ⟨a, b, Buf.alloc n, Buf.alloc n, ip, ⟨0, none, none⟩⟩ = .error .uninit := by
    obtain ⟨p, e, h⟩ := search_first absf 0 ha hip
    unfold step
    rw [ok_bind e]
    rcases h with ⟨-, k, hk, v, w1, w2⟩ | ⟨-, h, -⟩
    · exact absurd w2 (hv k hk v w1)
    · rw [h]; rfl
  obtain ⟨k, rfl⟩ : ∃ k, n = k + 1 := ⟨n - 1, by omega⟩
  have : loopBreak 0 (k + 1) (step absf (k + 1) m) ⟨a, b, Buf.alloc (k + 1), Buf.alloc (k + 1), ip, ⟨0, none, none⟩⟩ =
      .error .uninit := by
    simp only [loopBreak, Nat.sub_zero, loopBreakFrom]
    rw [hs]; rfl
  rw [this]; rfl

end GaussJordan

namespace SplineSolver3
variable [NatCast R]

theorem rows_fill (n : ℕ) : ∃ a b c : Buf R, loop 0 (n - 1) (fun i (s : Buf R × Buf R × Buf R) => (do
        let a ← s.1.set i 1
        let b ← s.2.1.set i 4
        let c ← s.2.2.set i 1
        .ok (a, b, c) : Res (Buf R × Buf R × Buf R))) (Buf.alloc (n - 1), Buf.alloc n, Buf.alloc (n - 1)) =
      .ok (a, b, c) ∧ a.Filled (n - 1) ∧ (b.size = n ∧ b.Filled (n - 1)) ∧ c.Filled (n - 1) := by
  obtain ⟨⟨a, b, c⟩, e, -, -, -, h1, h2, h3⟩ := loop_rule (f := fun i (s : Buf R × Buf R × Buf R) => (do
        let a ← s.1.set i 1
        let b ← s.2.1.set i 4
        let c ← s.2.2.set i 1
        .ok (a, b, c) : Res (Buf R × Buf R × Buf R)))
    (fun i q => q.1.size = n - 1 ∧ q.2.1.size = n ∧ q.2.2.size = n - 1 ∧ q.1.Filled i ∧
      (q.2.1.size = n ∧ q.2.1.Filled i) ∧ q.2.2.Filled i)
    (Nat.zero_le (n - 1)) (s := (Buf.alloc (n - 1), Buf.alloc n, Buf.alloc (n - 1)))
    ⟨rfl, rfl, rfl, Filled.nil _, ⟨rfl, Filled.nil _⟩, Filled.nil _⟩ (by
      rintro i ⟨a, b, c⟩ - hi ⟨s1, s2, s3, h1, ⟨-, h2⟩, h3⟩
      dsimp only at *
      obtain ⟨a', e, k1, k2⟩ := h1.grow (by omega) 1
      rw [ok_bind e]
      obtain ⟨b', e, k3, k4⟩ := h2.grow (by omega) 4
      rw [ok_bind e]
      obtain ⟨c', e, k5, k6⟩ := h3.grow (by omega) 1
      rw [ok_bind e]
      exact ⟨_, rfl, k2.trans s1, k4.trans s2, k6.trans s3, k1, ⟨k4.trans s2, k3⟩, k5⟩)
  exact ⟨a, b, c, e, h1, h2, h3⟩

/-- the first `n - 1` cells of `p3` -/
theorem thirds_fill {p1 p2 p3 : Buf (Vec3 R)} {n : ℕ} (h1 : p1.Filled n) (h2 : p2.Filled n) (h3 : n - 1 ≤ p3.size) :
    ∃ q, loop 0 (n - 1) (fun i (p3 : Buf (Vec3 R)) => (do
          let k ← p1.get (i + 1)
          let q ← p2.get (i + 1)
          p3.set i (k * (2 : R) - q) : Res (Buf (Vec3 R)))) p3 = .ok q ∧ q.Filled (n - 1) ∧ q.size = p3.size :=
  loop_rule (fun i (q : Buf (Vec3 R)) => q.Filled i ∧ q.size = p3.size) (Nat.zero_le (n - 1)) ⟨Filled.nil _, rfl⟩ (by
    intro i q _ hi ⟨k1, k2⟩
    obtain ⟨v, e, -⟩ := h1.get (i := i + 1) (by omega)
    rw [ok_bind e]
    obtain ⟨w, e, -⟩ := h2.get (i := i + 1) (by omega)
    rw [ok_bind e]
    obtain ⟨q', e, l1, l2⟩ := k1.grow (by omega) (v * (2 : R) - w)
    exact ⟨q', e, l1, l2.trans k2⟩)

theorem div_ok (v : Vec3 R) {k : R} (hk : (k == 0) = false) : ∃ w, v.div k = .ok w := by simp [Vec3.div, hk]

theorem natural_safe (h3 : ((3 : R) == 0) = false) (h2 : ((2 : R) == 0) = false) {n : ℕ} (hn : 2 ≤ n)
    {p1 p2 p3 : Buf (Vec3 R)} (k1 : p1.Filled n) (k2 : n - 1 ≤ p2.size) (k3 : n - 1 ≤ p3.size) :
    ∃ res q2 q3, naturalBezierSpline n p1 p2 p3 = .ok (res, q2, q3) ∧
      (res = true → q2.Filled (n - 1) ∧ q3.Filled (n - 1)) := by
  unfold naturalBezierSpline
  rw [if_pos hn]
  by_cases hn2 : n = 2
  · subst hn2
    rw [if_pos rfl]
    obtain ⟨x1, e, -⟩ := k1.get (i := 1) (by omega)
    rw [ok_bind e]
    obtain ⟨x0, e, -⟩ := k1.get (i := 0) (by omega)
    rw [ok_bind e]
    obtain ⟨t, e⟩ := div_ok (x1 - x0) h3
    rw [ok_bind e]
    obtain ⟨q2, e, l1, -⟩ := (Filled.nil p2).grow (by omega) (x0 + t)
    rw [ok_bind e]
    obtain ⟨q3, e, l2, -⟩ := (Filled.nil p3).grow (by omega) (x1 - t)
    rw [ok_bind e]
    exact ⟨true, q2, q3, rfl, fun _ => ⟨l1, l2⟩⟩
  rw [if_neg hn2]
  obtain ⟨n, rfl⟩ : ∃ m, n = m + 1 := ⟨n - 1, by omega⟩
  simp only [Nat.add_sub_cancel] at k2 k3 ⊢
  obtain ⟨a, b, c, e, fa, ⟨sb, fb⟩, fc⟩ := rows_fill (R := R) n
  rw [ok_bind e]
  dsimp only
  obtain ⟨b1, e, gb1, sb1⟩ := fb.set (i := 0) (by omega) 2
  rw [ok_bind e]
  obtain ⟨a1, e, ga, -⟩ := fa.set (i := n - 2) (by omega) 2
  rw [ok_bind e]
  obtain ⟨b2, e, gb2, -⟩ := gb1.grow (by omega) 7
  rw [ok_bind e]
  rw [show n - 1 + 1 = n by omega] at gb2
  obtain ⟨r1, e, s1, f1⟩ := loop_rule (f := fun i (r : Buf (Vec3 R)) => (do
        let ki ← p1.get i
        let kj ← p1.get (i + 1)
        r.set i (ki * (4 : R) + kj * (2 : R)) : Res (Buf (Vec3 R))))
    (fun i q => q.size = n ∧ ∀ k, 1 ≤ k → k < i → (q.data k).isSome) (lo := 1) (hi := n - 1) (by omega)
    (s := Buf.alloc n) ⟨rfl, fun k _ _ => by omega⟩ (by
      intro i q hi1 hi2 ⟨l1, l2⟩
      obtain ⟨v, e, -⟩ := k1.get (i := i) (by omega)
      rw [ok_bind e]
      obtain ⟨w, e, -⟩ := k1.get (i := i + 1) (by omega)
      rw [ok_bind e]
      obtain ⟨q', e, m1, m2, m3⟩ := q.set_fill (i := i) (v * (4 : R) + w * (2 : R)) (by omega)
      refine ⟨q', e, m1.trans l1, fun k t1 t2 => ?_⟩
      by_cases hki : k = i
      · rw [hki]; exact m2
      · exact m3 _ (l2 k t1 (by omega)))
  rw [ok_bind e]
  obtain ⟨x0, e, -⟩ := k1.get (i := 0) (by omega)
  rw [ok_bind e]
  obtain ⟨x1, e, -⟩ := k1.get (i := 1) (by omega)
  rw [ok_bind e]
  obtain ⟨r2, e, s2, f2, f3⟩ := r1.set_fill (i := 0) (x0 + x1 * (2 : R)) (by omega)
  rw [ok_bind e]
  obtain ⟨xl, e, -⟩ := k1.get (i := n - 1) (by omega)
  rw [ok_bind e]
  obtain ⟨xn, exn, -⟩ := k1.get (i := n) (by omega)
  rw [ok_bind exn]
  obtain ⟨r3, e, s3, f4, f5⟩ := r2.set_fill (i := n - 1) (xl * (8 : R) + xn) (by omega)
  rw [ok_bind e]
  have fr : r3.Filled n := ⟨by omega, fun i hi => by
    rcases Nat.eq_zero_or_pos i with h | h
    · rw [h]; exact f5 _ f2
    · rcases Nat.lt_or_ge i (n - 1) with h' | h'
      · exact f5 _ (f3 _ (f1 i h h'))
      · rw [show i = n - 1 by omega]; exact f4⟩
  obtain ⟨res, q2, e, g1, -⟩ := TriDiagonal.solve3_safe (by omega) ga gb2 fc fr k2
  rw [ok_bind e]
  dsimp only
  cases res
  · exact ⟨false, q2, p3, rfl, by simp⟩
  rw [if_neg (by simp)]
  have g1 := g1 rfl
  obtain ⟨q3, e, l1, l2⟩ := thirds_fill (n := n) (k1.mono (by omega)) g1 (p3 := p3) (by omega)
  rw [ok_bind e, ok_bind exn]
  obtain ⟨ql, e, -⟩ := g1.get (i := n - 1) (by omega)
  rw [ok_bind e]
  obtain ⟨v, e⟩ := div_ok (xn + ql) h2
  rw [ok_bind e]
  obtain ⟨q3', e, m1, -⟩ := l1.grow (by omega) v
  rw [ok_bind e]
  rw [show n - 1 + 1 = n by omega] at m1
  exact ⟨true, q2, q3', rfl, fun _ => ⟨g1, m1⟩⟩

theorem bezier_safe (h3 : ((3 : R) == 0) = false) {n : ℕ} (hn : 2 ≤ n)
    {p1 p2 p3 : Buf (Vec3 R)} (s e' : Vec3 R) (k1 : p1.Filled n) (k2 : n - 1 ≤ p2.size) (k3 : n - 1 ≤ p3.size) :
    ∃ res q2 q3, bezierSpline n p1 s e' p2 p3 = .ok (res, q2, q3) ∧
      (res = true → q2.Filled (n - 1) ∧ q3.Filled (n - 1)) := by
  unfold bezierSpline
  rw [if_pos hn]
  by_cases hn2 : n = 2
  · subst hn2
    rw [if_pos rfl]
    obtain ⟨x1, e, -⟩ := k1.get (i := 1) (by omega)
    rw [ok_bind e]
    obtain ⟨x0, e, -⟩ := k1.get (i := 0) (by omega)
    rw [ok_bind e]
    obtain ⟨t, e⟩ := div_ok (x1 - x0) h3
    rw [ok_bind e]
    obtain ⟨q2, e, l1, -⟩ := (Filled.nil p2).grow (by omega) s
    rw [ok_bind e]
    obtain ⟨q3, e, l2, -⟩ := (Filled.nil p3).grow (by omega) e'
    rw [ok_bind e]
    exact ⟨true, q2, q3, rfl, fun _ => ⟨l1, l2⟩⟩
  rw [if_neg hn2]
  obtain ⟨n, rfl⟩ : ∃ m, n = m + 1 := ⟨n - 1, by omega⟩
  simp only [Nat.add_sub_cancel] at k2 k3 ⊢
  obtain ⟨a, b, c, e, fa, ⟨sb, fb⟩, fc⟩ := rows_fill (R := R) n
  rw [ok_bind e]
  dsimp only
  obtain ⟨b1, e, gb1, sb1⟩ := fb.set (i := 0) (by omega) 1
  rw [ok_bind e]
  obtain ⟨b2, e, gb2, -⟩ := gb1.grow (by omega) 4
  rw [ok_bind e]
  rw [show n - 1 + 1 = n by omega] at gb2
  obtain ⟨c1, e, gc, -⟩ := fc.set (i := 0) (by omega) 0
  rw [ok_bind e]
  obtain ⟨r1, e, s1, f1⟩ := loop_rule (f := fun i (r : Buf (Vec3 R)) => (do
        let ki ← p1.get i
        let kj ← p1.get (i + 1)
        r.set i (ki * (4 : R) + kj * (2 : R)) : Res (Buf (Vec3 R))))
    (fun i q => q.size = n ∧ ∀ k, 1 ≤ k → k < i → (q.data k).isSome) (lo := 1) (hi := n - 1) (by omega)
    (s := Buf.alloc n) ⟨rfl, fun k _ _ => by omega⟩ (by
      intro i q hi1 hi2 ⟨l1, l2⟩
      obtain ⟨v, e, -⟩ := k1.get (i := i) (by omega)
      rw [ok_bind e]
      obtain ⟨w, e, -⟩ := k1.get (i := i + 1) (by omega)
      rw [ok_bind e]
      obtain ⟨q', e, m1, m2, m3⟩ := q.set_fill (i := i) (v * (4 : R) + w * (2 : R)) (by omega)
      refine ⟨q', e, m1.trans l1, fun k t1 t2 => ?_⟩
      by_cases hki : k = i
      · rw [hki]; exact m2
      · exact m3 _ (l2 k t1 (by omega)))
  rw [ok_bind e]
  obtain ⟨r2, e, s2, f2, f3⟩ := r1.set_fill (i := 0) s (by omega)
  rw [ok_bind e]
  obtain ⟨xl, e, -⟩ := k1.get (i := n - 1) (by omega)
  rw [ok_bind e]
  obtain ⟨r3, e, s3, f4, f5⟩ := r2.set_fill (i := n - 1) (e' + xl * (4 : R)) (by omega)
  rw [ok_bind e]
  have fr : r3.Filled n := ⟨by omega, fun i hi => by
    rcases Nat.eq_zero_or_pos i with h | h
    · rw [h]; exact f5 _ f2
    · rcases Nat.lt_or_ge i (n - 1) with h' | h'
      · exact f5 _ (f3 _ (f1 i h h'))
      · rw [show i = n - 1 by omega]; exact f4⟩
  obtain ⟨res, q2, e, g1, -⟩ := TriDiagonal.solve3_safe (by omega) fa gb2 gc fr k2
  rw [ok_bind e]
  dsimp only
  cases res
  · exact ⟨false, q2, p3, rfl, by simp⟩
  rw [if_neg (by simp)]
  have g1 := g1 rfl
  obtain ⟨q3, e, l1, l2⟩ := thirds_fill (n := n) (k1.mono (by omega)) g1 (p3 := p3) (by omega)
  rw [ok_bind e]
  obtain ⟨q3', e, m1, -⟩ := l1.grow (by omega) e'
  rw [ok_bind e]
  rw [show n - 1 + 1 = n by omega] at m1
  exact ⟨true, q2, q3', rfl, fun _ => ⟨g1, m1⟩⟩

theorem flat_filled {b : Buf (Vec3 R)} {n : ℕ} (h : b.Filled n) : (flat b).Filled (n * 3) :=
  ⟨Nat.mul_le_mul_right 3 h.1, fun k hk => by
    have := h.2 (k / 3) (by omega)
    simpa [flat] using this⟩

theorem unflat_filled {b : Buf R} {n : ℕ} (h : b.Filled (n * 3)) : (unflat b).Filled n :=
  ⟨by have := h.1; simp only [unflat]; omega, fun i hi => by
    obtain ⟨x, -, hx⟩ := h.get (i := i * 3) (by omega)
    obtain ⟨y, -, hy⟩ := h.get (i := i * 3 + 1) (by omega)
    obtain ⟨z, -, hz⟩ := h.get (i := i * 3 + 2) (by omega)
    simp [unflat, hx, hy, hz]⟩

theorem closed_safe (absf : R → R) (h4 : absf 4 ≥ 0) {n : ℕ} (hn : 2 ≤ n)
    {p1 p2 p3 : Buf (Vec3 R)} (k1 : p1.Filled n) (k2 : n ≤ p2.size) (k3 : n ≤ p3.size) :
    ∃ res q2 q3, closedBezierSpline absf n p1 p2 p3 = .ok (res, q2, q3) ∧
      (res = true → q2.Filled n ∧ q3.Filled n) := by
  unfold closedBezierSpline
  rw [if_pos hn]
  dsimp only
  have hz : ∃ a : Buf R, loopDown (fun i (a : Buf R) => a.set i 0) (n * n) (Buf.alloc (n * n)) = .ok a ∧
      a.Filled (n * n) := by
    obtain ⟨a, e, h1, h2⟩ := loopDown_rule (f := fun i (a : Buf R) => a.set i 0)
      (fun i (q : Buf R) => q.size = n * n ∧ ∀ k < n * n, i ≤ k → (q.data k).isSome) (k := n * n)
      (s := Buf.alloc (n * n)) ⟨rfl, fun k _ _ => by omega⟩ (by
        intro i q hi ⟨h1, h2⟩
        obtain ⟨q', e, m1, m2, m3⟩ := q.set_fill (i := i) 0 (by omega)
        refine ⟨q', e, m1.trans h1, fun k t1 t2 => ?_⟩
        by_cases hki : k = i
        · rw [hki]; exact m2
        · exact m3 _ (h2 k t1 (by omega)))
    exact ⟨a, e, by omega, fun i hi => h2 i hi (Nat.zero_le i)⟩
  obtain ⟨a0, e, f0⟩ := hz
  rw [ok_bind e]
  have hnn : n * 2 ≤ n * n := Nat.mul_le_mul_left n hn
  have hcell : ∀ i j, i < n → j < n → i * n + j < n * n := fun i j => GaussJordan.cell_lt
  obtain ⟨a1, e, f1⟩ := loop_rule (f := fun i (a : Buf R) => (do
      let a ← a.set (i * n + i - 1) 1
      let a ← a.set (i * n + i) 4
      a.set (i * n + i + 1) 1 : Res (Buf R))) (fun _ (q : Buf R) => q.Filled (n * n)) (lo := 1) (hi := n - 1)
    (by omega) (s := a0) f0 (by
      intro i q hi1 hi2 h
      have := hcell i (i + 1) (by omega) (by omega)
      obtain ⟨q1, e, h1, -⟩ := h.set (i := i * n + i - 1) (by omega) 1
      rw [ok_bind e]
      obtain ⟨q2, e, h2, -⟩ := h1.set (i := i * n + i) (by omega) 4
      rw [ok_bind e]
      obtain ⟨q3, e, h3, -⟩ := h2.set (i := i * n + i + 1) (by omega) 1
      exact ⟨q3, e, h3⟩)
  rw [ok_bind e]
  have hl := hcell (n - 1) (n - 1) (by omega) (by omega)
  have hl' : n ≤ (n - 1) * n := Nat.le_mul_of_pos_left n (by omega)
  have z1 := f1.1
  obtain ⟨a2, e, s2, d2, -⟩ := a1.set_keep (i := 0) (4 : R) (by omega)
  have f2 : a2.Filled (n * n) := by
    obtain ⟨a2', e', h, -⟩ := f1.set (i := 0) (by omega) (4 : R)
    rw [e] at e'; cases e'; exact h
  rw [ok_bind e]
  have next : ∀ (q : Buf R) (i : ℕ), q.Filled (n * n) → q.data 0 = some 4 → 0 < i → i < n * n → ∀ v,
      ∃ q', q.set i v = .ok q' ∧ q'.Filled (n * n) ∧ q'.data 0 = some 4 := by
    intro q i h h0 hi1 hi2 v
    obtain ⟨q', e, -, -, k⟩ := q.set_keep (i := i) v (by have := h.1; omega)
    obtain ⟨q'', e', h', -⟩ := h.set hi2 v
    rw [e] at e'; cases e'
    exact ⟨q', e, h', by rw [k 0 (by omega), h0]⟩
  obtain ⟨a3, e, f3, d3⟩ := next a2 1 f2 d2 (by omega) (by omega) 1
  rw [ok_bind e]
  obtain ⟨a4, e, f4, d4⟩ := next a3 (n - 1) f3 d3 (by omega) (by omega) 1
  rw [ok_bind e]
  obtain ⟨a5, e, f5, d5⟩ := next a4 ((n - 1) * n) f4 d4 (by omega) (by omega) 1
  rw [ok_bind e]
  obtain ⟨a6, e, f6, d6⟩ := next a5 ((n - 1) * n + n - 2) f5 d5 (by omega) (by omega) 1
  rw [ok_bind e]
  obtain ⟨a7, e, f7, d7⟩ := next a6 ((n - 1) * n + n - 1) f6 d6 (by omega) (by omega) 4
  rw [ok_bind e]
  obtain ⟨r1, e, g1, t1⟩ := loop_rule (f := fun i (p2 : Buf (Vec3 R)) => (do
      let ki ← p1.get i
      let kj ← p1.get (i + 1)
      p2.set i (ki * (4 : R) + kj * (2 : R)) : Res (Buf (Vec3 R))))
    (fun i (q : Buf (Vec3 R)) => q.Filled i ∧ q.size = p2.size) (Nat.zero_le (n - 1)) (s := p2)
    ⟨Filled.nil _, rfl⟩ (by
      intro i q _ hi ⟨l1, l2⟩
      obtain ⟨v, e, -⟩ := k1.get (i := i) (by omega)
      rw [ok_bind e]
      obtain ⟨w, e, -⟩ := k1.get (i := i + 1) (by omega)
      rw [ok_bind e]
      obtain ⟨q', e, m1, m2⟩ := l1.grow (by omega) (v * (4 : R) + w * (2 : R))
      exact ⟨q', e, m1, m2.trans l2⟩)
  rw [ok_bind e]
  obtain ⟨xl, exl, -⟩ := k1.get (i := n - 1) (by omega)
  rw [ok_bind exl]
  obtain ⟨x0, e, -⟩ := k1.get (i := 0) (by omega)
  rw [ok_bind e]
  obtain ⟨r2, e, g2, t2⟩ := g1.grow (by omega) (xl * (4 : R) + x0 * (2 : R))
  rw [ok_bind e]
  rw [show n - 1 + 1 = n by omega] at g2
  rcases GaussJordan.solve_safe absf f7 (flat_filled g2) (Or.inr ⟨0, by omega, 4, d7, h4⟩) with e | ⟨a', b', e, -, gb, -⟩
  · rw [ok_bind e]; exact ⟨false, r2, p3, rfl, by simp⟩
  rw [ok_bind e]
  dsimp only
  have gu := unflat_filled gb
  obtain ⟨q3, e, l1, l2⟩ := thirds_fill (n := n) k1 gu (p3 := p3) (by omega)
  rw [ok_bind e]
  obtain ⟨qm, e, -⟩ := gu.get (i := n - 2) (by omega)
  rw [ok_bind e]
  obtain ⟨ql, e, -⟩ := gu.get (i := n - 1) (by omega)
  rw [ok_bind e, ok_bind exl]
  obtain ⟨q3', e, m1, -⟩ := l1.grow (by omega) (qm + ql * (4 : R) - xl * (4 : R))
  rw [ok_bind e]
  rw [show n - 1 + 1 = n by omega] at m1
  exact ⟨true, _, q3', rfl, fun _ => ⟨gu, m1⟩⟩

end SplineSolver3
end
end MathLib
