import Verif.Spec.Memory
import Verif.Proof.Loops
import Mathlib.Tactic.Ring

/-! # The generic batch transform -/

namespace MathLib
variable {R : Type}

theorem Mem.read_of {mem : Mem R} {a : ℕ} {v : R} (h1 : mem.alloc a = true) (h2 : mem.val a = some v) :
    mem.read a = .ok v := by simp [Mem.read, h1, h2]

/-- the components that were read -/
def firstN [Zero R] (k : ℕ) (v : ℕ → R) : ℕ → R := fun j => if j < k then v j else 0

theorem Mem.readVec_of [Zero R] {mem : Mem R} {s k : ℕ} {v : ℕ → R}
    (h : ∀ j < k, mem.alloc (s + j * mem.sz) = true ∧ mem.val (s + j * mem.sz) = some (v j)) :
    mem.readVec s k = .ok (firstN k v) := by
  induction k with
  | zero => simp only [Mem.readVec, Except.ok.injEq]; funext j; simp [firstN]
  | succ k ih =>
    have h1 := ih (fun j hj => h j (by omega))
    have h2 := Mem.read_of (h k (by omega)).1 (h k (by omega)).2
    simp only [Mem.readVec, h1, h2, bind, Except.bind]
    congr 1
    funext j
    by_cases hj : j = k
    · subst hj; simp [firstN]
    · have : j < k ↔ j < k + 1 := by omega
      simp [Function.update_of_ne hj, firstN, this]

theorem Mem.write_of {mem : Mem R} {a : ℕ} (v : R) (h1 : mem.alloc a = true) :
    ∃ mem', mem.write a v = .ok mem' ∧ mem'.sz = mem.sz ∧ mem'.alloc = mem.alloc ∧
      mem'.val a = some v ∧ ∀ b, b ≠ a → (b + mem.sz ≤ a ∨ a + mem.sz ≤ b) → mem'.val b = mem.val b := by
  refine ⟨{ mem with val := fun b => if b = a then some v
      else if b < a + mem.sz ∧ a < b + mem.sz then none else mem.val b },
    by simp [Mem.write, h1], rfl, rfl, by simp, fun b hb h => ?_⟩
  have : ¬ (b < a + mem.sz ∧ a < b + mem.sz) := by omega
  simp [hb, this]

theorem Mem.assign_of [Zero R] {mem : Mem R} (hsz : 0 < mem.sz) {n k : ℕ} (row : ℕ → (ℕ → R) → R)
    {d s : ℕ} {v : ℕ → R}
    (hs : ∀ j < k, mem.alloc (s + j * mem.sz) = true ∧ mem.val (s + j * mem.sz) = some (v j))
    (hd : ∀ j < n, mem.alloc (d + j * mem.sz) = true)
    (hap : d + n * mem.sz ≤ s ∨ s + k * mem.sz ≤ d) :
    ∃ mem', mem.assign n k row d s = .ok mem' ∧ mem'.sz = mem.sz ∧ mem'.alloc = mem.alloc ∧
      (∀ j < n, mem'.val (d + j * mem.sz) = some (row j (firstN k v))) ∧
      (∀ b, (b + mem.sz ≤ d ∨ d + n * mem.sz ≤ b) → mem'.val b = mem.val b) := by
  have := loop_rule (f := fun i (m : Mem R) => do
      let v ← m.readVec s k
      m.write (d + i * m.sz) (row i v)) (lo := 0) (hi := n) (s := mem)
    (fun i m => m.sz = mem.sz ∧ m.alloc = mem.alloc ∧
      (∀ j < i, m.val (d + j * mem.sz) = some (row j (firstN k v))) ∧
      (∀ b, (b + mem.sz ≤ d ∨ d + i * mem.sz ≤ b) → m.val b = mem.val b)) (Nat.zero_le _)
    ⟨rfl, rfl, fun j hj => absurd hj (by omega), fun b _ => rfl⟩ ?_
  · exact this
  · rintro i m - hi ⟨h1, h2, h3, h4⟩
    have hin : (i + 1) * mem.sz ≤ n * mem.sz := Nat.mul_le_mul_right _ hi
    have hi1 : (i + 1) * mem.sz = i * mem.sz + mem.sz := by ring
    have hr : m.readVec s k = .ok (firstN k v) := by
      refine Mem.readVec_of fun j hj => ?_
      have hjk : (j + 1) * mem.sz ≤ k * mem.sz := Nat.mul_le_mul_right _ hj
      have hj1 : (j + 1) * mem.sz = j * mem.sz + mem.sz := by ring
      rw [h1, h2, h4 _ (by omega)]
      exact hs j hj
    obtain ⟨m', e, k1, k2, k3, k4⟩ := Mem.write_of (mem := m) (row i (firstN k v))
      (a := d + i * m.sz) (by rw [h2, h1]; exact hd i hi)
    refine ⟨m', by simp only [hr, bind, Except.bind, e], k1.trans h1, k2.trans h2, ?_, ?_⟩
    · intro j hj
      rcases Nat.lt_succ_iff_lt_or_eq.1 hj with hj | rfl
      · have hji : (j + 1) * mem.sz ≤ i * mem.sz := Nat.mul_le_mul_right _ hj
        have hj1 : (j + 1) * mem.sz = j * mem.sz + mem.sz := by ring
        rw [k4 _ (by rw [h1]; omega) (by rw [h1]; omega)]
        exact h3 j hj
      · rw [h1] at k3; exact k3
    · intro b hb
      rw [k4 b (by rw [h1]; omega) (by rw [h1]; omega)]
      exact h4 b (by omega)

/-- Both batch loops, as one statement about the strided one. -/
theorem Mem.assignStrided_of [Zero R] {mem : Mem R} (hsz : 0 < mem.sz) {n k : ℕ}
    (row : ℕ → (ℕ → R) → R) {d s count ds ss : ℕ} {v : ℕ → ℕ → R}
    (hs : mem.Holds s ss count k v) (hd : mem.Writable d ds count n)
    (hap : Apart mem.sz d ds n s ss k count) (hsep : n * mem.sz ≤ ds) :
    ∃ mem', mem.eachStrided (Mem.assign n k row) d s count ds ss = .ok mem' ∧
      mem.Wrote mem' d ds count n (fun i j => row j (firstN k (v i))) := by
  have := loop_rule (f := fun _ (st : Mem R × ℕ × ℕ) => do
      let mem ← st.1.assign n k row st.2.1 st.2.2
      .ok (mem, st.2.1 + ds, st.2.2 + ss)) (lo := 0) (hi := count) (s := (mem, d, s))
    (fun i st => st.2.1 = d + i * ds ∧ st.2.2 = s + i * ss ∧
      mem.Wrote st.1 d ds i n (fun i j => row j (firstN k (v i)))) (Nat.zero_le _)
    ⟨by simp, by simp, rfl, rfl, fun i hi => absurd hi (by omega), fun b _ => rfl⟩ ?_
  · obtain ⟨⟨m', d', s'⟩, e, -, -, hw⟩ := this
    refine ⟨m', ?_, hw⟩
    unfold Mem.eachStrided
    rw [show (loop 0 count (fun _ (x : Mem R × ℕ × ℕ) => match x with
      | (mem, d, s) => do
        let mem ← mem.assign n k row d s
        Except.ok (mem, d + ds, s + ss)) (mem, d, s)) = .ok (m', d', s') from e]
    rfl
  · rintro i ⟨m, d', s'⟩ - hi ⟨h1, h2, w1, w2, w3, w4⟩
    simp only at h1 h2 w1 w2 w3 w4
    subst h1 h2
    have hself : ∀ i' < i, d + i' * ds + n * mem.sz ≤ d + i * ds := fun i' hi' => by
      have : (i' + 1) * ds ≤ i * ds := Nat.mul_le_mul_right _ hi'
      have e : (i' + 1) * ds = i' * ds + ds := by ring
      omega
    obtain ⟨m', e, k1, k2, k3, k4⟩ := Mem.assign_of (mem := m) (by rw [w1]; exact hsz) row
      (n := n) (k := k) (d := d + i * ds) (s := s + i * ss) (v := v i)
      (fun j hj => by
        have hjk : (j + 1) * mem.sz ≤ k * mem.sz := Nat.mul_le_mul_right _ hj
        have hj1 : (j + 1) * mem.sz = j * mem.sz + mem.sz := by ring
        rw [w1, w2, w4]
        · exact hs i hi j hj
        · intro i' hi'
          have := hap i' (by omega) i hi
          omega)
      (fun j hj => by rw [w1, w2]; exact hd i hi j hj)
      (by rw [w1]; exact hap i hi i hi)
    rw [w1] at k3 k4
    refine ⟨(m', d + i * ds + ds, s + i * ss + ss), by simp only [e, bind, Except.bind],
      by simp only; ring, by simp only; ring, k1.trans w1, k2.trans w2, ?_, ?_⟩
    · intro i' hi' j hj
      rcases Nat.lt_succ_iff_lt_or_eq.1 hi' with hi' | rfl
      · have hjn : (j + 1) * mem.sz ≤ n * mem.sz := Nat.mul_le_mul_right _ hj
        have hj1 : (j + 1) * mem.sz = j * mem.sz + mem.sz := by ring
        have := hself i' hi'
        rw [k4 _ (by omega)]
        exact w3 i' hi' j hj
      · exact k3 j hj
    · intro b hb
      rw [k4 b (hb i (by omega))]
      exact w4 b (fun i' hi' => hb i' (by omega))

theorem Mem.assignArr_eq [Zero R] (mem : Mem R) (n k : ℕ) (row : ℕ → (ℕ → R) → R) (d s count : ℕ) :
    ∀ r, mem.eachStrided (Mem.assign n k row) d s count (n * mem.sz) (n * mem.sz) = r →
      (∀ m d s m', Mem.assign n k row m d s = .ok m' → m'.sz = m.sz) →
      mem.each n (Mem.assign n k row) d s count = r := by
  rintro r rfl hs
  unfold Mem.each Mem.eachStrided loop
  suffices h : ∀ c lo m d s, m.sz = mem.sz →
      loopFrom (fun _ (x : Mem R × ℕ × ℕ) => match x with
        | (mem, d, s) => do
          let mem ← mem.assign n k row d s
          Except.ok (mem, d + n * mem.sz, s + n * mem.sz)) lo c (m, d, s) =
      loopFrom (fun _ (x : Mem R × ℕ × ℕ) => match x with
        | (m, d, s) => do
          let m ← m.assign n k row d s
          Except.ok (m, d + n * mem.sz, s + n * mem.sz)) lo c (m, d, s) by
    rw [h _ _ _ _ _ rfl]
  intro c
  induction c with
  | zero => intros; rfl
  | succ c ih =>
    intro lo m d s hm
    simp only [loopFrom, bind, Except.bind]
    cases hq : m.assign n k row d s with
    | error e => rfl
    | ok m' =>
      have := (hs _ _ _ _ hq).trans hm
      simp only [this]
      exact ih _ _ _ _ this

theorem Mem.assign_sz [Zero R] (n k : ℕ) (row : ℕ → (ℕ → R) → R) (m : Mem R) (d s : ℕ) (m' : Mem R)
    (h : Mem.assign n k row m d s = .ok m') : m'.sz = m.sz := by
  unfold Mem.assign loop at h
  suffices ∀ c lo (a b : Mem R), loopFrom (fun i (mem : Mem R) => do
      let v ← mem.readVec s k
      mem.write (d + i * mem.sz) (row i v)) lo c a = .ok b → b.sz = a.sz from this _ _ _ _ h
  intro c
  induction c with
  | zero => intro lo a b h; cases h; rfl
  | succ c ih =>
    intro lo a b h
    simp only [loopFrom, bind, Except.bind] at h
    cases hq : a.readVec s k with
    | error e => simp [hq] at h
    | ok v =>
      simp only [hq] at h
      cases hw : a.write (d + lo * a.sz) (row lo v) with
      | error e => simp [hw] at h
      | ok a' =>
        simp only [hw] at h
        have h1 := ih _ _ _ h
        have h2 : a'.sz = a.sz := by
          unfold Mem.write at hw
          split_ifs at hw
          cases hw; rfl
        rw [h1, h2]

theorem Mem.assignArr_of [Zero R] {mem : Mem R} (hsz : 0 < mem.sz) {n k : ℕ}
    (row : ℕ → (ℕ → R) → R) {d s count : ℕ} {v : ℕ → ℕ → R}
    (hs : mem.Holds s (n * mem.sz) count k v) (hd : mem.Writable d (n * mem.sz) count n)
    (hap : Apart mem.sz d (n * mem.sz) n s (n * mem.sz) k count) :
    ∃ mem', mem.each n (Mem.assign n k row) d s count = .ok mem' ∧
      mem.Wrote mem' d (n * mem.sz) count n (fun i j => row j (firstN k (v i))) := by
  obtain ⟨m', e, h⟩ := Mem.assignStrided_of hsz row hs hd hap le_rfl
  exact ⟨m', Mem.assignArr_eq mem n k row d s count _ e
    (fun m d s m' h => Mem.assign_sz n k row m d s m' h), h⟩

end MathLib

namespace MathLib
variable {R : Type}

theorem Mem.Wrote.congr {mem mem' : Mem R} {d ds count n : ℕ} {out out' : ℕ → ℕ → R}
    (h : mem.Wrote mem' d ds count n out) (e : ∀ i < count, ∀ j < n, out i j = out' i j) :
    mem.Wrote mem' d ds count n out' :=
  ⟨h.1, h.2.1, fun i hi j hj => by rw [h.2.2.1 i hi j hj, e i hi j hj], h.2.2.2⟩

/-- successive overwriting of the components of a vector by rows reading the current vector -/
def seqRows [Zero R] (k : ℕ) (row : ℕ → (ℕ → R) → R) (v : ℕ → R) : ℕ → ℕ → R
  | 0 => v
  | i + 1 => Function.update (seqRows k row v i) i (row i (firstN k (seqRows k row v i)))

/-- destination and source are the same object -/
theorem Mem.assign_alias [Zero R] {mem : Mem R} (hsz : 0 < mem.sz) {n k : ℕ} (hkn : k ≤ n)
    (row : ℕ → (ℕ → R) → R) {a : ℕ} {v : ℕ → R}
    (hs : mem.Holds a 0 1 k (fun _ => v)) (hd : mem.Writable a 0 1 n) :
    ∃ mem', mem.assign n k row a a = .ok mem' ∧
      mem.Wrote mem' a 0 1 n (fun _ => seqRows k row v n) := by
  have hd' : ∀ j < n, mem.alloc (a + j * mem.sz) = true := fun j hj => by
    have := hd 0 (by omega) j hj; simpa using this
  have hs' : ∀ j < k, mem.val (a + j * mem.sz) = some (v j) := fun j hj => by
    have := (hs 0 (by omega) j hj).2; simpa using this
  have := loop_rule (f := fun i (m : Mem R) => do
      let v ← m.readVec a k
      m.write (a + i * m.sz) (row i v)) (lo := 0) (hi := n) (s := mem)
    (fun i m => m.sz = mem.sz ∧ m.alloc = mem.alloc ∧
      (∀ j, (j < i ∨ j < k) → m.val (a + j * mem.sz) = some (seqRows k row v i j)) ∧
      (∀ b, (b + mem.sz ≤ a ∨ a + i * mem.sz ≤ b) → m.val b = mem.val b)) (Nat.zero_le _)
    ⟨rfl, rfl, fun j hj => hs' j (by omega), fun b _ => rfl⟩ ?_
  · obtain ⟨m', e, h1, h2, h3, h4⟩ := this
    refine ⟨m', e, h1, h2, fun i hi j hj => ?_, fun b hb => h4 b (by simpa using hb 0 (by omega))⟩
    obtain rfl : i = 0 := by omega
    simpa using h3 j (Or.inl hj)
  · rintro i m - hi ⟨h1, h2, h3, h4⟩
    have hr : m.readVec a k = .ok (firstN k (seqRows k row v i)) := by
      refine Mem.readVec_of fun j hj => ?_
      rw [h1, h2, h3 j (Or.inr hj)]
      exact ⟨hd' j (by omega), rfl⟩
    obtain ⟨m', e, k1, k2, k3, k4⟩ := Mem.write_of (mem := m) (row i (firstN k (seqRows k row v i)))
      (a := a + i * m.sz) (by rw [h2, h1]; exact hd' i hi)
    refine ⟨m', by simp only [hr, bind, Except.bind, e], k1.trans h1, k2.trans h2, ?_, ?_⟩
    · intro j hj
      rw [seqRows]
      rcases lt_trichotomy j i with h | rfl | h
      · have hji : (j + 1) * mem.sz ≤ i * mem.sz := Nat.mul_le_mul_right _ h
        have hj1 : (j + 1) * mem.sz = j * mem.sz + mem.sz := by ring
        rw [Function.update_of_ne (by omega), k4 _ (by rw [h1]; omega) (by rw [h1]; omega)]
        exact h3 j (by omega)
      · rw [Function.update_self]; rw [h1] at k3; exact k3
      · have hji : (i + 1) * mem.sz ≤ j * mem.sz := Nat.mul_le_mul_right _ h
        have hj1 : (i + 1) * mem.sz = i * mem.sz + mem.sz := by ring
        rw [Function.update_of_ne (by omega), k4 _ (by rw [h1]; omega) (by rw [h1]; omega)]
        exact h3 j (by omega)
    · intro b hb
      have hj1 : (i + 1) * mem.sz = i * mem.sz + mem.sz := by ring
      rw [k4 b (by rw [h1]; omega) (by rw [h1]; omega)]
      exact h4 b (by omega)

end MathLib
