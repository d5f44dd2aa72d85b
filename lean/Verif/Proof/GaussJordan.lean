import Verif.Model.LinearEquations
import Verif.Proof.Loops
import Mathlib.Algebra.BigOperators.Group.Finset.Basic
import Mathlib.Algebra.BigOperators.Ring.Finset
import Mathlib.Algebra.Order.Field.Basic
import Mathlib.Tactic.Ring
import Mathlib.Tactic.FieldSimp
import Mathlib.Tactic.LinearCombination

/-! # Gauss-Jordan elimination: helper lemmas -/

namespace MathLib
open GaussJordan

/-- The first `n * w` cells hold the matrix `A` in row-major order. -/
def HoldsM {K : Type} (b : Buf K) (n w : ℕ) (A : ℕ → ℕ → K) : Prop :=
  n * w ≤ b.size ∧ ∀ i < n, ∀ j < w, b.data (i * w + j) = some (A i j)

theorem idx_lt {n w i j : ℕ} (hi : i < n) (hj : j < w) : i * w + j < n * w := by
  calc i * w + j < i * w + w := by omega
    _ = (i + 1) * w := by ring
    _ ≤ n * w := Nat.mul_le_mul_right w hi

theorem idx_inj {w i j i' j' : ℕ} (hj : j < w) (hj' : j' < w) :
    i * w + j = i' * w + j' ↔ i = i' ∧ j = j' := by
  constructor
  · intro h
    have hw : 0 < w := by omega
    have h1 : (i * w + j) / w = i := by
      rw [Nat.add_comm, Nat.add_mul_div_right _ _ hw, Nat.div_eq_of_lt hj, Nat.zero_add]
    have h2 : (i' * w + j') / w = i' := by
      rw [Nat.add_comm, Nat.add_mul_div_right _ _ hw, Nat.div_eq_of_lt hj', Nat.zero_add]
    have : i = i' := by rw [← h1, h, h2]
    subst this
    exact ⟨rfl, by omega⟩
  · rintro ⟨rfl, rfl⟩; rfl

namespace HoldsM
variable {K : Type} {b : Buf K} {n w : ℕ} {A : ℕ → ℕ → K}

theorem get (h : HoldsM b n w A) {i j : ℕ} (hi : i < n) (hj : j < w) :
    b.get (i * w + j) = .ok (A i j) :=
  Buf.get_of ((idx_lt hi hj).trans_le h.1) (h.2 i hi j hj)

theorem set (h : HoldsM b n w A) {i j : ℕ} (hi : i < n) (hj : j < w) (v : K) :
    ∃ b', b.set (i * w + j) v = .ok b' ∧
      HoldsM b' n w (fun i' j' => if i' = i ∧ j' = j then v else A i' j') := by
  refine ⟨_, Buf.set_of ((idx_lt hi hj).trans_le h.1), h.1, fun i' hi' j' hj' => ?_⟩
  by_cases e : i' = i ∧ j' = j
  · obtain ⟨rfl, rfl⟩ := e
    simp
  · have : i' * w + j' ≠ i * w + j := fun h => e ((idx_inj hj' hj).1 h)
    simp only [Function.update_of_ne this, e, if_false]
    exact h.2 i' hi' j' hj'

theorem congr {A' : ℕ → ℕ → K} (h : HoldsM b n w A) (e : ∀ i < n, ∀ j < w, A i j = A' i j) :
    HoldsM b n w A' := ⟨h.1, fun i hi j hj => by rw [h.2 i hi j hj, e i hi j hj]⟩

end HoldsM

section ops
variable {K : Type} {b : Buf K} {n w : ℕ} {A : ℕ → ℕ → K}

theorem swapRows_spec (h : HoldsM b n w A) {r c : ℕ} (hr : r < n) (hc : c < n) (hrc : r ≠ c) :
    ∃ b', swapRows b w r c = .ok b' ∧
      HoldsM b' n w (fun i j => if i = r then A c j else if i = c then A r j else A i j) := by
  obtain ⟨b', e, h'⟩ := loop_rule (f := fun l p => swap p (r * w + l) (c * w + l))
    (fun l (p : Buf K) => HoldsM p n w (fun i j =>
      if j < l then (if i = r then A c j else if i = c then A r j else A i j) else A i j))
    (lo := 0) (hi := w) (s := b) (Nat.zero_le _)
    (h.congr (by simp))
    (by
      intro l p _ hl hp
      have g1 := hp.get hr hl
      have g2 := hp.get hc hl
      simp only [lt_irrefl, if_false] at g1 g2
      obtain ⟨p1, e1, h1⟩ := hp.set hr hl (A c l)
      obtain ⟨p2, e2, h2⟩ := h1.set hc hl (A r l)
      refine ⟨p2, by simp only [swap, g1, g2, e1, e2, bind, Except.bind], h2.congr ?_⟩
      intro i _ j _
      by_cases hjl : j = l
      · subst hjl
        by_cases h1 : i = c
        · subst h1
          simp [Ne.symm hrc]
        · by_cases h2 : i = r <;> simp [h1, h2, hrc]
      · have : j < l + 1 ↔ j < l := by omega
        simp [hjl, this])
  exact ⟨b', e, h'.congr (fun i _ j hj => by simp [hj])⟩

theorem scaleRow_spec [Mul K] (h : HoldsM b n w A) {r : ℕ} (hr : r < n) (k : K) :
    ∃ b', scaleRow b w r k = .ok b' ∧
      HoldsM b' n w (fun i j => if i = r then A r j * k else A i j) := by
  obtain ⟨b', e, h'⟩ := loop_rule (f := fun l (p : Buf K) => (do
      let v ← p.get (r * w + l)
      p.set (r * w + l) (v * k) : Res (Buf K)))
    (fun l (p : Buf K) => HoldsM p n w (fun i j =>
      if j < l then (if i = r then A r j * k else A i j) else A i j))
    (lo := 0) (hi := w) (s := b) (Nat.zero_le _)
    (h.congr (by simp))
    (by
      intro l p _ hl hp
      have g1 := hp.get hr hl
      simp only [lt_irrefl, if_false] at g1
      obtain ⟨p1, e1, h1⟩ := hp.set hr hl (A r l * k)
      refine ⟨p1, by simp only [g1, e1, bind, Except.bind], h1.congr ?_⟩
      intro i _ j _
      by_cases hjl : j = l
      · subst hjl
        by_cases h1 : i = r <;> simp [h1]
      · have : j < l + 1 ↔ j < l := by omega
        simp [hjl, this])
  exact ⟨b', e, h'.congr (fun i _ j hj => by simp [hj])⟩

theorem reduceRow_spec [Mul K] [Sub K] (h : HoldsM b n w A) {r ll : ℕ} (hr : r < n) (hl : ll < n) (k : K) :
    ∃ b', reduceRow b w r ll k = .ok b' ∧
      HoldsM b' n w (fun i j => if i = ll then A ll j - A r j * k else A i j) := by
  obtain ⟨b', e, h'⟩ := loop_rule (f := fun l (p : Buf K) => (do
      let v ← p.get (ll * w + l)
      let q ← p.get (r * w + l)
      p.set (ll * w + l) (v - q * k) : Res (Buf K)))
    (fun l (p : Buf K) => HoldsM p n w (fun i j =>
      if j < l then (if i = ll then A ll j - A r j * k else A i j) else A i j))
    (lo := 0) (hi := w) (s := b) (Nat.zero_le _)
    (h.congr (by simp))
    (by
      intro l p _ hl' hp
      have g1 := hp.get hl hl'
      have g2 := hp.get hr hl'
      simp only [lt_irrefl, if_false] at g1 g2
      obtain ⟨p1, e1, h1⟩ := hp.set hl hl' (A ll l - A r l * k)
      refine ⟨p1, by simp only [g1, g2, e1, bind, Except.bind], h1.congr ?_⟩
      intro i _ j _
      by_cases hjl : j = l
      · subst hjl
        by_cases h1 : i = ll <;> simp [h1]
      · have : j < l + 1 ↔ j < l := by omega
        simp [hjl, this])
  exact ⟨b', e, h'.congr (fun i _ j hj => by simp [hj])⟩

/-- the reduction in any arithmetic -/
theorem reduce_gen [Mul K] [Sub K] [Zero K] {m : ℕ} {a b : Buf K} {A B : ℕ → ℕ → K} (ha : HoldsM a n n A)
    (hb : HoldsM b n m B) {c : ℕ} (hc : c < n) :
    ∃ a' b', reduce a b n m c = .ok (a', b') ∧
      HoldsM a' n n (fun i j => if i = c then A c j else if j = c then 0 else A i j - A c j * A i c) ∧
      HoldsM b' n m (fun i j => if i = c then B c j else B i j - B c j * A i c) := by
  obtain ⟨⟨a', b'⟩, e, h1, h2⟩ := loop_rule (f := fun ll (ab : Buf K × Buf K) => (do
      if ll = c then return ab
      let dum ← ab.1.get (ll * n + c)
      let a ← reduceRow ab.1 n c ll dum
      let a ← a.set (ll * n + c) 0
      let b ← reduceRow ab.2 m c ll dum
      return (a, b) : Res (Buf K × Buf K)))
    (fun ll (ab : Buf K × Buf K) =>
      HoldsM ab.1 n n (fun i j => if i < ll ∧ i ≠ c then (if j = c then 0 else A i j - A c j * A i c) else A i j) ∧
      HoldsM ab.2 n m (fun i j => if i < ll ∧ i ≠ c then B i j - B c j * A i c else B i j))
    (lo := 0) (hi := n) (s := (a, b)) (Nat.zero_le _)
    ⟨ha.congr (by simp), hb.congr (by simp)⟩
    (by
      rintro ll ⟨p, q⟩ _ hl ⟨hp, hq⟩
      by_cases hlc : ll = c
      · refine ⟨(p, q), by simp [hlc, pure, Except.pure], hp.congr ?_, hq.congr ?_⟩
        all_goals
          intro i _ j _
          have : (i < ll + 1 ∧ i ≠ c) ↔ (i < ll ∧ i ≠ c) := by omega
          simp only [this]
      · have g1 := hp.get hl hc
        simp only [lt_irrefl, false_and, if_false] at g1
        obtain ⟨p1, e1, h1⟩ := reduceRow_spec hp hc hl (A ll c)
        obtain ⟨p2, e2, h2⟩ := h1.set hl hc 0
        obtain ⟨q1, e3, h3⟩ := reduceRow_spec hq hc hl (A ll c)
        refine ⟨(p2, q1), ?_, h2.congr ?_, h3.congr ?_⟩
        · simp only [hlc, if_false, g1, e1, e2, e3, bind, Except.bind, pure, Except.pure]
        · intro i _ j _
          by_cases h : i = ll
          · subst h
            by_cases hj : j = c
            · subst hj; simp [hlc]
            · simp [hlc, hj]
          · have : (i < ll + 1 ∧ i ≠ c) ↔ (i < ll ∧ i ≠ c) := by omega
            simp [h, this]
        · intro i _ j _
          by_cases h : i = ll
          · subst h
            simp [hlc]
          · have : (i < ll + 1 ∧ i ≠ c) ↔ (i < ll ∧ i ≠ c) := by omega
            simp [h, this])
  refine ⟨a', b', e, h1.congr ?_, h2.congr ?_⟩
  all_goals
    intro i hi j _
    by_cases h : i = c
    · simp [h]
    · simp [h, hi]

theorem reduce_spec [Field K] {m : ℕ} {a b : Buf K} {A B : ℕ → ℕ → K} (ha : HoldsM a n n A)
    (hb : HoldsM b n m B) {c : ℕ} (hc : c < n) (hA : A c c = 1) :
    ∃ a' b', reduce a b n m c = .ok (a', b') ∧
      HoldsM a' n n (fun i j => if i = c then A c j else A i j - A c j * A i c) ∧
      HoldsM b' n m (fun i j => if i = c then B c j else B i j - B c j * A i c) := by
  obtain ⟨a', b', e, h1, h2⟩ := reduce_gen ha hb hc
  refine ⟨a', b', e, h1.congr fun i _ j _ => ?_, h2⟩
  by_cases hj : j = c
  · subst hj; simp [hA]
  · simp [hj]

end ops

section search
variable {K : Type} [Field K] [LinearOrder K]

/-- `ipiv` is 0 on the columns already treated, -1 elsewhere. -/
def HoldsPiv (ipiv : Buf Int) (n : ℕ) (S : Finset ℕ) : Prop :=
  ipiv.Holds n (fun k => if k ∈ S then 0 else -1)

theorem search_spec (absf : K → K) (h0 : ∀ x, 0 ≤ absf x) {a : Buf K} {n : ℕ} {A : ℕ → ℕ → K}
    (ha : HoldsM a n n A) {ipiv : Buf Int} {S : Finset ℕ} (hS : HoldsPiv ipiv n S)
    {k0 : ℕ} (hk0 : k0 < n) (hk0S : k0 ∉ S) (p : Piv K) :
    ∃ p' r c, search absf a ipiv n p = .ok p' ∧ p'.irow = some r ∧ p'.icol = some c ∧
      r < n ∧ c < n ∧ r ∉ S ∧ c ∉ S ∧
      ∀ j < n, ∀ k < n, j ∉ S → k ∉ S → absf (A j k) ≤ absf (A r c) := by
  let Good : (ℕ → ℕ → Prop) → Piv K → Prop := fun D p =>
    0 ≤ p.big ∧ (∀ j < n, ∀ k < n, j ∉ S → k ∉ S → D j k → absf (A j k) ≤ p.big) ∧
    ((∃ j < n, ∃ k < n, j ∉ S ∧ k ∉ S ∧ D j k) ∨ 0 < p.big →
      ∃ r c, p.irow = some r ∧ p.icol = some c ∧ r < n ∧ c < n ∧ r ∉ S ∧ c ∉ S ∧
        p.big = absf (A r c))
  have gcongr : ∀ (D D' : ℕ → ℕ → Prop) (q : Piv K), Good D q →
      (∀ j < n, ∀ k < n, j ∉ S → k ∉ S → (D' j k ↔ D j k)) → Good D' q := by
    rintro D D' q ⟨g1, g2, g3⟩ hD
    refine ⟨g1, fun j hj k hk hjS hkS hd => g2 j hj k hk hjS hkS ((hD j hj k hk hjS hkS).1 hd), ?_⟩
    rintro (⟨j, hj, k, hk, hjS, hkS, hd⟩ | hb)
    · exact g3 (Or.inl ⟨j, hj, k, hk, hjS, hkS, (hD j hj k hk hjS hkS).1 hd⟩)
    · exact g3 (Or.inr hb)
  obtain ⟨p', e, hp'⟩ := loop_rule (f := fun j p => (do
    let pj ← ipiv.get j
    if pj = 0 then return p
    loop 0 n (fun k (p : Piv K) => do
      let pk ← ipiv.get k
      if pk ≠ -1 then return p
      let v ← a.get (j * n + k)
      if absf v ≥ p.big then return ⟨absf v, some j, some k⟩
      return p) p : Res (Piv K)))
    (fun j q => Good (fun j' _ => j' < j) q) (lo := 0) (hi := n) (s := { p with big := 0 })
    (Nat.zero_le _) ⟨le_rfl, by simp, by simp⟩
    (by
      intro j q _ hj hq
      have gj := hS.get hj
      by_cases hjS : j ∈ S
      · refine ⟨q, by simp [gj, hjS, bind, Except.bind, pure, Except.pure], ?_⟩
        refine gcongr _ _ q hq (fun j' hj' k hk hj'S hkS => ?_)
        have : j' ≠ j := fun h => hj'S (h ▸ hjS)
        omega
      · obtain ⟨q', e, hq'⟩ := loop_rule (f := fun k (p : Piv K) => (do
            let pk ← ipiv.get k
            if pk ≠ -1 then return p
            let v ← a.get (j * n + k)
            if absf v ≥ p.big then return ⟨absf v, some j, some k⟩
            return p : Res (Piv K)))
          (fun k q => Good (fun j' k' => j' < j ∨ (j' = j ∧ k' < k)) q) (lo := 0) (hi := n) (s := q)
          (Nat.zero_le _) (gcongr _ _ q hq (by simp))
          (by
            intro k q _ hk hq
            have gk := hS.get hk
            by_cases hkS : k ∈ S
            · refine ⟨q, by simp [gk, hkS, bind, Except.bind, pure, Except.pure], ?_⟩
              refine gcongr _ _ q hq (fun j' hj' k' hk' hj'S hk'S => ?_)
              have : k' ≠ k := fun h => hk'S (h ▸ hkS)
              omega
            · have ga := ha.get hj hk
              obtain ⟨q1, q2, q3⟩ := hq
              by_cases hge : absf (A j k) ≥ q.big
              · refine ⟨⟨absf (A j k), some j, some k⟩, ?_, h0 _, ?_, ?_⟩
                · simp [gk, hkS, ga, hge, bind, Except.bind, pure, Except.pure]
                · intro j' hj' k' hk' hj'S hk'S hd
                  by_cases hh : j' = j ∧ k' = k
                  · rw [hh.1, hh.2]
                  · exact (q2 j' hj' k' hk' hj'S hk'S (by omega)).trans hge
                · intro _
                  exact ⟨j, k, rfl, rfl, hj, hk, hjS, hkS, rfl⟩
              · refine ⟨q, ?_, q1, ?_, ?_⟩
                · simp [gk, hkS, ga, hge, bind, Except.bind, pure, Except.pure]
                · intro j' hj' k' hk' hj'S hk'S hd
                  by_cases hh : j' = j ∧ k' = k
                  · rw [hh.1, hh.2]; exact (lt_of_not_ge hge).le
                  · exact q2 j' hj' k' hk' hj'S hk'S (by omega)
                · intro _
                  -- `big > absf v ≥ 0`: a candidate was already found
                  exact q3 (Or.inr ((h0 _).trans_lt (lt_of_not_ge hge))))
        refine ⟨q', ?_, gcongr _ _ q' hq' (fun j' hj' k' hk' _ _ => by omega)⟩
        simp only [gj, hjS, if_false, bind, Except.bind] at e ⊢
        simpa using e)
  obtain ⟨g1, g2, g3⟩ := hp'
  obtain ⟨r, c, e1, e2, hr, hc, hrS, hcS, hb⟩ := g3 (Or.inl ⟨k0, hk0, k0, hk0, hk0S, hk0S, hk0⟩)
  refine ⟨p', r, c, e, e1, e2, hr, hc, hrS, hcS, fun j hj k hk hjS hkS => ?_⟩
  rw [← hb]
  exact g2 j hj k hk hjS hkS hj

end search

section main
variable {K : Type} [Field K] [LinearOrder K]

/-- the left-hand side of row `i` -/
def lhs (n m : ℕ) (A B : ℕ → ℕ → K) (x y : ℕ → K) (i : ℕ) : K :=
  ∑ j ∈ Finset.range n, A i j * x j + ∑ j ∈ Finset.range m, B i j * y j

/-- `(x, y)` is in the kernel of the augmented matrix `(A | B)`. -/
def Sys (n m : ℕ) (A B : ℕ → ℕ → K) (x y : ℕ → K) : Prop := ∀ i < n, lhs n m A B x y i = 0

omit [LinearOrder K] in
theorem lhs_comb (n m : ℕ) (A B A' B' : ℕ → ℕ → K) (x y : ℕ → K) (i r c : ℕ) (p q : K)
    (hA : ∀ j < n, A' i j = A r j * p - A c j * q) (hB : ∀ j < m, B' i j = B r j * p - B c j * q) :
    lhs n m A' B' x y i = lhs n m A B x y r * p - lhs n m A B x y c * q := by
  have e1 : ∑ j ∈ Finset.range n, A' i j * x j =
      (∑ j ∈ Finset.range n, A r j * x j) * p - (∑ j ∈ Finset.range n, A c j * x j) * q := by
    rw [Finset.sum_mul, Finset.sum_mul, ← Finset.sum_sub_distrib]
    refine Finset.sum_congr rfl (fun j hj => ?_)
    rw [hA j (Finset.mem_range.1 hj)]; ring
  have e2 : ∑ j ∈ Finset.range m, B' i j * y j =
      (∑ j ∈ Finset.range m, B r j * y j) * p - (∑ j ∈ Finset.range m, B c j * y j) * q := by
    rw [Finset.sum_mul, Finset.sum_mul, ← Finset.sum_sub_distrib]
    refine Finset.sum_congr rfl (fun j hj => ?_)
    rw [hB j (Finset.mem_range.1 hj)]; ring
  simp only [lhs, e1, e2]; ring

omit [LinearOrder K] in
theorem sys_swap (n m : ℕ) (A B : ℕ → ℕ → K) (x y : ℕ → K) {r c : ℕ} (hr : r < n) (hc : c < n) :
    Sys n m (fun i j => if i = r then A c j else if i = c then A r j else A i j)
      (fun i j => if i = r then B c j else if i = c then B r j else B i j) x y ↔
    Sys n m A B x y := by
  constructor
  · intro h i hi
    by_cases h1 : i = r
    · have := h c hc
      by_cases hrc : c = r
      · subst hrc; subst h1; simpa [lhs] using this
      · subst h1; simpa [lhs, hrc] using this
    · by_cases h2 : i = c
      · have := h r hr
        subst h2; simpa [lhs] using this
      · have := h i hi
        simpa [lhs, h1, h2] using this
  · intro h i hi
    by_cases h1 : i = r
    · simpa [lhs, h1] using h c hc
    · by_cases h2 : i = c
      · simpa [lhs, h1, h2, if_neg (h2 ▸ h1 : ¬ c = r)] using h r hr
      · simpa [lhs, h1, h2] using h i hi

omit [LinearOrder K] in
theorem sys_elim (n m : ℕ) (A B : ℕ → ℕ → K) (x y : ℕ → K) {c : ℕ} (hc : c < n)
    (hp : A c c ≠ 0) :
    Sys n m (fun i j => if i = c then A c j * (1 / A c c) else A i j - A c j * (1 / A c c) * A i c)
      (fun i j => if i = c then B c j * (1 / A c c) else B i j - B c j * (1 / A c c) * A i c) x y ↔
    Sys n m A B x y := by
  have e1 := lhs_comb n m A B
    (fun i j => if i = c then A c j * (1 / A c c) else A i j - A c j * (1 / A c c) * A i c)
    (fun i j => if i = c then B c j * (1 / A c c) else B i j - B c j * (1 / A c c) * A i c) x y
    c c c (1 / A c c) 0 (fun j _ => by simp) (fun j _ => by simp)
  have e2 : ∀ i, i ≠ c → _ := fun i hi => lhs_comb n m A B
    (fun i j => if i = c then A c j * (1 / A c c) else A i j - A c j * (1 / A c c) * A i c)
    (fun i j => if i = c then B c j * (1 / A c c) else B i j - B c j * (1 / A c c) * A i c) x y
    i i c 1 (1 / A c c * A i c) (fun j _ => by simp only [hi, if_false]; ring)
      (fun j _ => by simp only [hi, if_false]; ring)
  constructor
  · intro h
    have hc0 : lhs n m A B x y c = 0 := by
      have := h c hc
      rw [e1, mul_zero, sub_zero] at this
      rcases mul_eq_zero.1 this with h | h
      · exact h
      · exact absurd h (one_div_ne_zero hp)
    intro i hi
    by_cases hic : i = c
    · subst hic; exact hc0
    · have := h i hi
      rw [e2 i hic, hc0] at this
      change lhs n m A B x y i = 0
      linear_combination this
  · intro h i hi
    have hc0 : lhs n m A B x y c = 0 := h c hc
    by_cases hic : i = c
    · subst hic; rw [e1, hc0]; ring
    · rw [e2 i hic, hc0, show lhs n m A B x y i = 0 from h i hi]; ring

/-- The loop invariant of the reduction. -/
structure GJInv (n m : ℕ) (A0 B0 : ℕ → ℕ → K) (i : ℕ) (s : St K) (A B : ℕ → ℕ → K)
    (S : Finset ℕ) : Prop where
  ha : HoldsM s.a n n A
  hb : HoldsM s.b n m B
  hS : S ⊆ Finset.range n
  card : S.card = i
  piv : HoldsPiv s.ipiv n S
  col : ∀ k ∈ S, ∀ j < n, A j k = if j = k then 1 else 0
  sys : ∀ x y, Sys n m A B x y ↔ Sys n m A0 B0 x y
  szr : n ≤ s.indxr.size
  szc : n ≤ s.indxc.size
  ixr : ∀ l < i, ∃ r < n, s.indxr.data l = some r
  ixc : ∀ l < i, ∃ r < n, s.indxc.data l = some r

variable [BEq K] [LawfulBEq K]

theorem step_spec (absf : K → K) (h0 : ∀ x, 0 ≤ absf x) {n m : ℕ} {A0 B0 : ℕ → ℕ → K} {i : ℕ}
    {s : St K} (hi : i < n) (h : ∃ A B S, GJInv n m A0 B0 i s A B S) :
    (∃ s', step absf n m i s = .ok (some s') ∧ ∃ A B S, GJInv n m A0 B0 (i + 1) s' A B S) ∨
    (step absf n m i s = .ok none ∧ ((∀ x, absf x ≤ absf 0 → x = 0) →
      ∃ x, (∃ k < n, x k ≠ 0) ∧ Sys n m A0 B0 x (fun _ => 0))) := by
  obtain ⟨A, B, S, inv⟩ := h
  obtain ⟨k0, hk0, hk0S⟩ : ∃ k0 < n, k0 ∉ S := by
    by_contra hc
    push Not at hc
    have : (Finset.range n).card ≤ S.card :=
      Finset.card_le_card (fun k hk => hc k (Finset.mem_range.1 hk))
    rw [Finset.card_range, inv.card] at this
    omega
  obtain ⟨p', r, c, es, er, ec, hr, hc, hrS, hcS, hmax⟩ :=
    search_spec absf h0 inv.ha inv.piv hk0 hk0S s.piv
  have gp := inv.piv.get hc
  simp only [hcS, if_false] at gp
  -- ipiv
  obtain ⟨ipiv, ei, hpiv⟩ : ∃ ipiv', s.ipiv.set c (-1 + 1) = .ok ipiv' ∧
      HoldsPiv ipiv' n (insert c S) := by
    refine ⟨_, Buf.set_of (hc.trans_le inv.piv.1), inv.piv.1, fun k hk => ?_⟩
    by_cases hkc : k = c
    · subst hkc; simp
    · simp only [Function.update_of_ne hkc, Finset.mem_insert, hkc, false_or]
      exact inv.piv.2 k hk
  -- rows exchanged
  obtain ⟨a1, ea1, ha1⟩ : ∃ a1, exchange s.a n r c = .ok a1 ∧
      HoldsM a1 n n (fun i j => if i = r then A c j else if i = c then A r j else A i j) := by
    by_cases hrc : r = c
    · refine ⟨s.a, by simp [exchange, hrc], inv.ha.congr (fun i _ j _ => ?_)⟩
      subst hrc
      by_cases h : i = r <;> simp [h]
    · simpa [exchange, hrc] using swapRows_spec inv.ha hr hc hrc
  obtain ⟨b1, eb1, hb1⟩ : ∃ b1, exchange s.b m r c = .ok b1 ∧
      HoldsM b1 n m (fun i j => if i = r then B c j else if i = c then B r j else B i j) := by
    by_cases hrc : r = c
    · refine ⟨s.b, by simp [exchange, hrc], inv.hb.congr (fun i _ j _ => ?_)⟩
      subst hrc
      by_cases h : i = r <;> simp [h]
    · simpa [exchange, hrc] using swapRows_spec inv.hb hr hc hrc
  set A1 : ℕ → ℕ → K := fun i j => if i = r then A c j else if i = c then A r j else A i j with hA1
  set B1 : ℕ → ℕ → K := fun i j => if i = r then B c j else if i = c then B r j else B i j with hB1
  have hcol1 : ∀ k ∈ S, ∀ j < n, A1 j k = if j = k then 1 else 0 := by
    intro k hk j hj
    have hkr : r ≠ k := fun h => hrS (h ▸ hk)
    have hkc : c ≠ k := fun h => hcS (h ▸ hk)
    simp only [hA1]
    by_cases h1 : j = r
    · subst h1; simp [hkr, inv.col k hk c hc, hkc]
    · by_cases h2 : j = c
      · subst h2; simp [h1, hkc, inv.col k hk r hr, hkr]
      · simp [h1, h2, inv.col k hk j hj]
  have hsys1 : ∀ x y, Sys n m A1 B1 x y ↔ Sys n m A0 B0 x y := fun x y =>
    (sys_swap n m A B x y hr hc).trans (inv.sys x y)
  have hpivA : A1 c c = A r c := by
    simp only [hA1]
    by_cases h : c = r
    · simp [h]
    · simp [h]
  obtain ⟨xr, exr, hxr⟩ : ∃ xr, s.indxr.set i r = .ok xr ∧ xr = ⟨s.indxr.size,
      Function.update s.indxr.data i (some r)⟩ := ⟨_, Buf.set_of (hi.trans_le inv.szr), rfl⟩
  obtain ⟨xc, exc, hxc⟩ : ∃ xc, s.indxc.set i c = .ok xc ∧ xc = ⟨s.indxc.size,
      Function.update s.indxc.data i (some c)⟩ := ⟨_, Buf.set_of (hi.trans_le inv.szc), rfl⟩
  have gcc : a1.get (c * n + c) = .ok (A1 c c) := ha1.get hc hc
  by_cases hz : A1 c c = 0
  · -- singular
    right
    constructor
    · simp only [step, es, er, ec, readVar, gp, ei, ea1, eb1, exr, exc, gcc, hz, bind,
        Except.bind, beq_self_eq_true, if_true, pure, Except.pure]
    · intro habs
      have hzero : ∀ j < n, ∀ k < n, j ∉ S → k ∉ S → A j k = 0 := by
        intro j hj k hk hjS hkS
        apply habs
        have := hmax j hj k hk hjS hkS
        rwa [← hpivA, hz] at this
      refine ⟨fun k => if k = k0 then 1 else if k ∈ S then -A k k0 else 0, ⟨k0, hk0, by simp⟩, ?_⟩
      rw [← inv.sys]
      intro j hj
      simp only [lhs, mul_zero, Finset.sum_const_zero, add_zero]
      have hsplit : ∀ k ∈ Finset.range n,
          A j k * (if k = k0 then (1 : K) else if k ∈ S then -A k k0 else 0) =
          (if k = k0 then A j k0 else 0) + (if k = j then (if j ∈ S then -A j k0 else 0) else 0) := by
        intro k hk
        have hk := Finset.mem_range.1 hk
        by_cases h1 : k = k0
        · subst h1
          by_cases h2 : k = j
          · subst h2; simp [hk0S]
          · simp [h2]
        · by_cases h2 : k ∈ S
          · rw [inv.col k h2 j hj]
            by_cases h3 : k = j
            · subst h3; simp [h1, h2]
            · simp [h1, h2, h3, Ne.symm h3]
          · by_cases h3 : k = j
            · subst h3; simp [h1, h2]
            · simp [h1, h2, h3]
      rw [Finset.sum_congr rfl hsplit, Finset.sum_add_distrib, Finset.sum_ite_eq',
        Finset.sum_ite_eq', if_pos (Finset.mem_range.2 hk0), if_pos (Finset.mem_range.2 hj)]
      by_cases hjS : j ∈ S
      · simp [hjS]
      · simp [hjS, hzero j hj k0 hk0 hjS hk0S]
  · left
    obtain ⟨a2, ea2, ha2⟩ := scaleRow_spec ha1 hc (1 / A1 c c)
    obtain ⟨a3, ea3, ha3⟩ := ha2.set hc hc 1
    obtain ⟨b2, eb2, hb2⟩ := scaleRow_spec hb1 hc (1 / A1 c c)
    obtain ⟨a4, b4, e4, ha4, hb4⟩ := reduce_spec ha3 hb2 hc (by simp)
    have ha5 : HoldsM a4 n n (fun i j => if i = c then A1 c j * (1 / A1 c c) else
        A1 i j - A1 c j * (1 / A1 c c) * A1 i c) := ha4.congr (fun i _ j _ => by
      by_cases hic : i = c
      · subst hic
        by_cases hjc : j = i
        · subst hjc; simp [hz]
        · simp [hjc]
      · by_cases hjc : j = c
        · subst hjc; simp [hic, hz]
        · simp [hic, hjc])
    have hb5 : HoldsM b4 n m (fun i j => if i = c then B1 c j * (1 / A1 c c) else
        B1 i j - B1 c j * (1 / A1 c c) * A1 i c) := hb4.congr (fun i _ j _ => by
      by_cases hic : i = c
      · subst hic; simp
      · simp [hic])
    refine ⟨⟨a4, b4, xc, xr, ipiv, p'⟩, ?_, _, _, insert c S, ha5, hb5, ?_, ?_, hpiv, ?_, ?_,
      ?_, ?_, ?_, ?_⟩
    · have hz' : (A1 c c == 0) = false := by simpa using hz
      simp only [step, es, er, ec, readVar, gp, ei, ea1, eb1, exr, exc, gcc, hz', bind,
        Except.bind, if_false, pure, Except.pure, ea2, ea3, eb2, e4, Bool.false_eq_true]
    · exact Finset.insert_subset (Finset.mem_range.2 hc) inv.hS
    · rw [Finset.card_insert_of_notMem hcS, inv.card]
    · intro k hk j hj
      rcases Finset.mem_insert.1 hk with rfl | hkS
      · by_cases h : j = k
        · simp [h, hz]
        · simp [h, hz]
      · have hck : c ≠ k := fun h => hcS (h ▸ hkS)
        have h1 : A1 c k = 0 := by rw [hcol1 k hkS c hc, if_neg hck]
        by_cases h : j = c
        · subst h; simp [h1, hck]
        · simp [h, h1, hcol1 k hkS j hj]
    · exact fun x y => (sys_elim n m A1 B1 x y hc hz).trans (hsys1 x y)
    · rw [hxr]; exact inv.szr
    · rw [hxc]; exact inv.szc
    · intro l hl
      by_cases h : l = i
      · exact ⟨r, hr, by simp [hxr, h]⟩
      · obtain ⟨q, hq, e⟩ := inv.ixr l (by omega)
        exact ⟨q, hq, by simp only [hxr, Function.update_of_ne h]; exact e⟩
    · intro l hl
      by_cases h : l = i
      · exact ⟨c, hc, by simp [hxc, h]⟩
      · obtain ⟨q, hq, e⟩ := inv.ixc l (by omega)
        exact ⟨q, hq, by simp only [hxc, Function.update_of_ne h]; exact e⟩

omit [Field K] [LinearOrder K] [BEq K] [LawfulBEq K] in
theorem swapCols_spec {a : Buf K} {n : ℕ} {A : ℕ → ℕ → K} (ha : HoldsM a n n A) {r c : ℕ}
    (hr : r < n) (hc : c < n) (hrc : r ≠ c) :
    ∃ a', loop 0 n (fun k a => swap a (k * n + r) (k * n + c)) a = .ok a' ∧
      HoldsM a' n n (fun i j => A i (Equiv.swap r c j)) := by
  obtain ⟨b', e, h'⟩ := loop_rule (f := fun k a => swap a (k * n + r) (k * n + c))
    (fun l (p : Buf K) => HoldsM p n n (fun i j => if i < l then A i (Equiv.swap r c j) else A i j))
    (lo := 0) (hi := n) (s := a) (Nat.zero_le _)
    (ha.congr (by simp))
    (by
      intro l p _ hl hp
      have g1 := hp.get hl hr
      have g2 := hp.get hl hc
      simp only [lt_irrefl, if_false] at g1 g2
      obtain ⟨p1, e1, h1⟩ := hp.set hl hr (A l c)
      obtain ⟨p2, e2, h2⟩ := h1.set hl hc (A l r)
      refine ⟨p2, by simp only [swap, g1, g2, e1, e2, bind, Except.bind], h2.congr ?_⟩
      intro i _ j _
      by_cases hil : i = l
      · subst hil
        by_cases h1 : j = c
        · subst h1; simp
        · by_cases h2 : j = r
          · subst h2; simp [hrc]
          · simp [h1, h2, Equiv.swap_apply_of_ne_of_ne h2 h1]
      · have : i < l + 1 ↔ i < l := by omega
        simp [hil, this])
  exact ⟨b', e, h'.congr (fun i hi j _ => by simp [hi])⟩

/-- The complete run. -/
theorem solve_spec (absf : K → K) (h0 : ∀ x, 0 ≤ absf x) (n m : ℕ) (a b : Buf K)
    (A0 B0 : ℕ → ℕ → K) (ha : HoldsM a n n A0) (hb : HoldsM b n m B0) :
    (∃ a' b' B, solve absf a n b m = .ok (some (a', b')) ∧
      (∃ σ : Equiv.Perm ℕ, (∀ j < n, σ j < n) ∧ HoldsM a' n n (fun i j => if i = σ j then 1 else 0)) ∧
      HoldsM b' n m B ∧ ∀ x y, Sys n m (fun i j => if i = j then 1 else 0) B x y ↔
        Sys n m A0 B0 x y) ∨
    (solve absf a n b m = .ok none ∧ ((∀ x, absf x ≤ absf 0 → x = 0) →
      ∃ x, (∃ k < n, x k ≠ 0) ∧ Sys n m A0 B0 x (fun _ => 0))) := by
  obtain ⟨ipiv, ei, hi⟩ := loop_rule (f := fun j (p : Buf Int) => p.set j (-1))
    (fun j (p : Buf Int) => p.size = n ∧ ∀ k < j, p.data k = some (-1))
    (lo := 0) (hi := n) (s := Buf.alloc n) (Nat.zero_le _) ⟨rfl, by simp⟩
    (by
      rintro j p _ hj ⟨hs, hp⟩
      refine ⟨_, Buf.set_of (by omega), hs, fun k hk => ?_⟩
      by_cases h : k = j
      · simp [h]
      · simp only [Function.update_of_ne h]; exact hp k (by omega))
  have hpiv : HoldsPiv ipiv n ∅ := ⟨by omega, fun k hk => by simpa using hi.2 k hk⟩
  rcases loopBreak_rule (f := step absf n m) (fun i s => ∃ A B S, GJInv n m A0 B0 i s A B S)
    ((∀ x, absf x ≤ absf 0 → x = 0) → ∃ x, (∃ k < n, x k ≠ 0) ∧ Sys n m A0 B0 x (fun _ => 0))
    (lo := 0) (hi := n) (s := ⟨a, b, Buf.alloc n, Buf.alloc n, ipiv, ⟨0, none, none⟩⟩)
    (Nat.zero_le _) ⟨A0, B0, ∅, ha, hb, by simp, rfl, hpiv, by simp, fun _ _ => Iff.rfl, le_rfl,
      le_rfl, by simp, by simp⟩
    (fun i s _ hi h => step_spec absf h0 hi h) with ⟨s', es, A, B, S, inv⟩ | ⟨es, hf⟩
  · left
    have hSn : S = Finset.range n := Finset.eq_of_subset_of_card_le inv.hS (by
      rw [inv.card, Finset.card_range])
    have hA : ∀ i < n, ∀ j < n, A i j = if i = j then 1 else 0 := fun i hi j hj =>
      inv.col j (by rw [hSn]; exact Finset.mem_range.2 hj) i hi
    obtain ⟨a', ea, σ, hσ, hA'⟩ := loopDown_rule (f := fun l a => (do
        let ir ← s'.indxr.get l
        let ic ← s'.indxc.get l
        if ir = ic then return a
        loop 0 n (fun k a => swap a (k * n + ir) (k * n + ic)) a : Res (Buf K)))
      (fun _ (p : Buf K) => ∃ σ : Equiv.Perm ℕ, (∀ j < n, σ j < n) ∧
        HoldsM p n n (fun i j => if i = σ j then 1 else 0)) (k := n) (s := s'.a)
      ⟨Equiv.refl _, by simp, inv.ha.congr hA⟩
      (by
        rintro l p hl ⟨σ, hσ, hp⟩
        obtain ⟨r, hr, er⟩ := inv.ixr l hl
        obtain ⟨c, hc, ec⟩ := inv.ixc l hl
        have gr := Buf.get_of (hl.trans_le inv.szr) er
        have gc := Buf.get_of (hl.trans_le inv.szc) ec
        by_cases hrc : r = c
        · exact ⟨p, by simp [gr, gc, hrc, bind, Except.bind, pure, Except.pure], σ, hσ, hp⟩
        · obtain ⟨p', e, hp'⟩ := swapCols_spec hp hr hc hrc
          refine ⟨p', by simp [gr, gc, hrc, bind, Except.bind, e], (Equiv.swap r c).trans σ, ?_, ?_⟩
          · intro j hj
            rw [Equiv.trans_apply]
            apply hσ
            rw [Equiv.swap_apply_def]
            split_ifs <;> assumption
          · exact hp'.congr (fun i _ j _ => rfl))
    refine ⟨a', s'.b, B, ?_, ⟨σ, hσ, hA'⟩, inv.hb, fun x y => ?_⟩
    · have ea' : unscramble s'.a s'.indxr s'.indxc n = .ok a' := ea
      simp only [solve, ei, es, bind, Except.bind, pure, Except.pure, ea']
    · rw [← inv.sys]
      refine forall₂_congr (fun i hi => ?_)
      rw [lhs, lhs, Finset.sum_congr rfl (fun j hj => ?_)]
      rw [hA i hi j (Finset.mem_range.1 hj)]
  · right
    refine ⟨?_, hf⟩
    simp only [solve, ei, es, bind, Except.bind, pure, Except.pure]

end main

end MathLib
