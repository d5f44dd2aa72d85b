import Verif.Proof.GaussRound

/-! # Gauss-Jordan elimination in floating point: the run -/

namespace MathLib
open GaussJordan

namespace GaussErr

/-- The pivot search on numbers. -/
theorem search_num {rnd g : ℝ → ℝ} (absf : Fl ℝ rnd → Fl ℝ rnd) (hg : ∀ v, absf (.num v) = .num (g v))
    (h0 : ∀ v, 0 ≤ g v) {a : Buf (Fl ℝ rnd)} {n : ℕ} {A : ℕ → ℕ → ℝ}
    (ha : HoldsM a n n (fun i j => .num (A i j))) {ipiv : Buf Int} {S : Finset ℕ} (hS : HoldsPiv ipiv n S)
    {k0 : ℕ} (hk0 : k0 < n) (hk0S : k0 ∉ S) (p : Piv (Fl ℝ rnd)) :
    ∃ p' r c, search absf a ipiv n p = .ok p' ∧ p'.irow = some r ∧ p'.icol = some c ∧
      r < n ∧ c < n ∧ r ∉ S ∧ c ∉ S ∧
      ∀ j < n, ∀ k < n, j ∉ S → k ∉ S → g (A j k) ≤ g (A r c) := by
  let Good : (ℕ → ℕ → Prop) → Piv (Fl ℝ rnd) → Prop := fun D p => ∃ β : ℝ, p.big = .num β ∧
    0 ≤ β ∧ (∀ j < n, ∀ k < n, j ∉ S → k ∉ S → D j k → g (A j k) ≤ β) ∧
    ((∃ j < n, ∃ k < n, j ∉ S ∧ k ∉ S ∧ D j k) ∨ 0 < β →
      ∃ r c, p.irow = some r ∧ p.icol = some c ∧ r < n ∧ c < n ∧ r ∉ S ∧ c ∉ S ∧
        β = g (A r c))
  have gcongr : ∀ (D D' : ℕ → ℕ → Prop) (q : Piv (Fl ℝ rnd)), Good D q →
      (∀ j < n, ∀ k < n, j ∉ S → k ∉ S → (D' j k ↔ D j k)) → Good D' q := by
    rintro D D' q ⟨β, g0, g1, g2, g3⟩ hD
    refine ⟨β, g0, g1, fun j hj k hk hjS hkS hd => g2 j hj k hk hjS hkS ((hD j hj k hk hjS hkS).1 hd), ?_⟩
    rintro (⟨j, hj, k, hk, hjS, hkS, hd⟩ | hb)
    · exact g3 (Or.inl ⟨j, hj, k, hk, hjS, hkS, (hD j hj k hk hjS hkS).1 hd⟩)
    · exact g3 (Or.inr hb)
  obtain ⟨p', e, hp'⟩ := loop_rule (f := fun j p => (do
    let pj ← ipiv.get j
    if pj = 0 then return p
    loop 0 n (fun k (p : Piv (Fl ℝ rnd)) => do
      let pk ← ipiv.get k
      if pk ≠ -1 then return p
      let v ← a.get (j * n + k)
      if absf v ≥ p.big then return ⟨absf v, some j, some k⟩
      return p) p : Res (Piv (Fl ℝ rnd))))
    (fun j q => Good (fun j' _ => j' < j) q) (lo := 0) (hi := n) (s := { p with big := 0 })
    (Nat.zero_le _) ⟨0, rfl, le_rfl, by simp, by simp⟩
    (by
      intro j q _ hj hq
      have gj := hS.get hj
      by_cases hjS : j ∈ S
      · refine ⟨q, by simp [gj, hjS, bind, Except.bind, pure, Except.pure], ?_⟩
        refine gcongr _ _ q hq (fun j' hj' k hk hj'S hkS => ?_)
        have : j' ≠ j := fun h => hj'S (h ▸ hjS)
        omega
      · obtain ⟨q', e, hq'⟩ := loop_rule (f := fun k (p : Piv (Fl ℝ rnd)) => (do
            let pk ← ipiv.get k
            if pk ≠ -1 then return p
            let v ← a.get (j * n + k)
            if absf v ≥ p.big then return ⟨absf v, some j, some k⟩
            return p : Res (Piv (Fl ℝ rnd))))
          (fun k q => Good (fun j' k' => j' < j ∨ (j' = j ∧ k' < k)) q) (lo := 0) (hi := n) (s := q)
          (Nat.zero_le _) (gcongr _ _ q hq (by simp))
          (by
            intro k q _ hk hq
            have gk := hS.get hk
            by_cases hkS : k ∈ S
            · refine ⟨q, by simp [gk, hkS, bind, Except.bind, pure, Except.pure], ?_⟩
              refine gcongr _ _ q hq (fun j' hj' k' hk' hj'S hk'S => ?_)
              have : k' ≠ k := fun h => hk'S (h ▸ hkS)
              omega
            · have ga := ha.get hj hk
              obtain ⟨β, q0, q1, q2, q3⟩ := hq
              by_cases hge : β ≤ g (A j k)
              · refine ⟨⟨.num (g (A j k)), some j, some k⟩, ?_, g (A j k), rfl, h0 _, ?_, ?_⟩
                · simp [gk, hkS, ga, hg, q0, hge, bind, Except.bind, pure, Except.pure]
                · intro j' hj' k' hk' hj'S hk'S hd
                  by_cases hh : j' = j ∧ k' = k
                  · rw [hh.1, hh.2]
                  · exact (q2 j' hj' k' hk' hj'S hk'S (by omega)).trans hge
                · intro _
                  exact ⟨j, k, rfl, rfl, hj, hk, hjS, hkS, rfl⟩
              · refine ⟨q, ?_, β, q0, q1, ?_, ?_⟩
                · simp [gk, hkS, ga, hg, q0, hge, bind, Except.bind, pure, Except.pure]
                · intro j' hj' k' hk' hj'S hk'S hd
                  by_cases hh : j' = j ∧ k' = k
                  · rw [hh.1, hh.2]; exact (lt_of_not_ge hge).le
                  · exact q2 j' hj' k' hk' hj'S hk'S (by omega)
                · intro _
                  exact q3 (Or.inr ((h0 _).trans_lt (lt_of_not_ge hge))))
        refine ⟨q', ?_, gcongr _ _ q' hq' (fun j' hj' k' hk' _ _ => by omega)⟩
        simp only [gj, hjS, if_false, bind, Except.bind] at e ⊢
        simpa using e)
  obtain ⟨β, g0, g1, g2, g3⟩ := hp'
  obtain ⟨r, c, e1, e2, hr, hc, hrS, hcS, hb⟩ := g3 (Or.inl ⟨k0, hk0, k0, hk0, hk0S, hk0S, hk0⟩)
  refine ⟨p', r, c, e, e1, e2, hr, hc, hrS, hcS, fun j hj k hk hjS hkS => ?_⟩
  rw [← hb]
  exact g2 j hj k hk hjS hkS hj

/-- a quotient formed as the product with the rounded reciprocal -/
theorem scale_err {rnd : ℝ → ℝ} {u : ℝ} (hr : IsRel rnd u) (y d : ℝ) :
    |rnd (y * rnd (1 / d)) - y / d| ≤ 3 * u * |y / d| := by
  have h0 := hr.nonneg
  have h1 := hr.lt_one
  have a := hr.err (1 / d)
  have b := hr.err (y * rnd (1 / d))
  have e1 : |y * rnd (1 / d) - y / d| ≤ u * |y / d| := by
    have : y * rnd (1 / d) - y / d = y * (rnd (1 / d) - 1 / d) := by ring
    rw [this, abs_mul]
    calc _ ≤ |y| * (u * |1 / d|) := mul_le_mul_of_nonneg_left a (abs_nonneg _)
      _ = u * |y / d| := by rw [abs_div, abs_div, abs_one]; ring
  have e2 : |y * rnd (1 / d)| ≤ (1 + u) * |y / d| := by
    have := abs_add_le (y * rnd (1 / d) - y / d) (y / d)
    simp only [sub_add_cancel] at this
    linarith
  have e3 : |rnd (y * rnd (1 / d)) - y / d| ≤ u * |y * rnd (1 / d)| + u * |y / d| := by
    have := abs_add_le (rnd (y * rnd (1 / d)) - y * rnd (1 / d)) (y * rnd (1 / d) - y / d)
    simp only [sub_add_sub_cancel] at this
    linarith
  have e4 := mul_le_mul_of_nonneg_left e2 h0
  have e5 : u * u * |y / d| ≤ u * |y / d| := by
    rw [mul_assoc]
    exact mul_le_mul_of_nonneg_left (mul_le_of_le_one_left (abs_nonneg _) h1.le) h0
  linarith

theorem red_err {rnd : ℝ → ℝ} {u : ℝ} (hr : IsRel rnd u) (y q e : ℝ) :
    |rnd (y - rnd (q * e)) - (y - q * e)| ≤ 3 * u * (|y| + |q * e|) := by
  have h0 := hr.nonneg
  have h1 := hr.lt_one
  have a := hr.err (q * e)
  have b := hr.err (y - rnd (q * e))
  have e2 : |rnd (q * e)| ≤ (1 + u) * |q * e| := by
    have := abs_add_le (rnd (q * e) - q * e) (q * e)
    simp only [sub_add_cancel] at this
    linarith
  have e1 := abs_sub y (rnd (q * e))
  have e3 : |rnd (y - rnd (q * e)) - (y - q * e)| ≤ u * |y - rnd (q * e)| + u * |q * e| := by
    have := abs_sub (rnd (y - rnd (q * e)) - (y - rnd (q * e))) (rnd (q * e) - q * e)
    have e : rnd (y - rnd (q * e)) - (y - rnd (q * e)) - (rnd (q * e) - q * e) =
        rnd (y - rnd (q * e)) - (y - q * e) := by ring
    rw [e] at this
    linarith
  have e4 : u * |y - rnd (q * e)| ≤ u * (|y| + (1 + u) * |q * e|) := mul_le_mul_of_nonneg_left (by linarith) h0
  have e5 : u * u * |q * e| ≤ u * |q * e| := by
    rw [mul_assoc]
    exact mul_le_mul_of_nonneg_left (mul_le_of_le_one_left (abs_nonneg _) h1.le) h0
  have := mul_nonneg h0 (abs_nonneg y)
  linarith

/-- the state of the loop after `i` turns: the matrix is dominated by its diagonal, its first columns are those
of the identity and the residuals of `x` are small -/
structure Inv (rnd : ℝ → ℝ) (n m : ℕ) (c0 u η : ℝ) (x : ℕ → ℕ → ℝ) (X α : ℕ → ℝ) (i : ℕ) (s : St (Fl ℝ rnd))
    (A B : ℕ → ℕ → ℝ) (S : Finset ℕ) : Prop where
  ha : HoldsM s.a n n (fun i j => .num (A i j))
  hb : HoldsM s.b n m (fun i j => .num (B i j))
  hS : S ⊆ Finset.range n
  card : S.card = i
  piv : HoldsPiv s.ipiv n S
  col : ∀ k ∈ S, ∀ j < n, A j k = if j = k then 1 else 0
  dom : Dom n (c0 - 6 * u * i) A
  res : ∀ k < m, ∀ j < n, |resid n A (fun r => B r k) (x k) j| ≤
    (α k + 10 * η * i * (X k + α k)) * (|A j j| - off n A j)
  szr : n ≤ s.indxr.size
  szc : n ≤ s.indxc.size
  ix : ∀ l < i, ∃ r < n, s.indxr.data l = some r ∧ s.indxc.data l = some r

/-- the pivot is on the diagonal -/
theorem pivot_diag {n : ℕ} {c δ : ℝ} {A : ℕ → ℕ → ℝ} {g : ℝ → ℝ} (hg : ∀ v, |g v - (|v|)| ≤ δ * |v|)
    (hD : Dom n c A) (hδ : δ < c) {r k : ℕ} (hr : r < n) (hk : k < n) (h : g (A r r) ≤ g (A r k)) : r = k := by
  by_contra hne
  have a := le_off (E := A) hk (Ne.symm hne)
  obtain ⟨m1, c1⟩ := hD r hr
  have g1 := abs_le.1 (hg (A r r))
  have g2 := abs_le.1 (hg (A r k))
  have o0 := off_nonneg n A r
  have hδ0 : 0 ≤ δ := by
    have := (abs_nonneg _).trans (hg (A r r))
    by_contra hh
    push Not at hh
    have := mul_neg_of_neg_of_pos hh (show 0 < |A r r| by linarith)
    linarith
  have e1 : |A r r| - off n A r ≤ δ * (|A r r| + off n A r) := by
    have := mul_le_mul_of_nonneg_left a hδ0
    linarith [g1.1, g2.2]
  have e2 : δ * (|A r r| + off n A r) < c * (|A r r| + off n A r) :=
    mul_lt_mul_of_pos_right hδ (by linarith)
  linarith

theorem grow {η k X α : ℝ} (hη0 : 0 ≤ η) (hk : 50 * (η * k) ≤ 2) (hX : 0 ≤ X) (hα : 0 ≤ α) :
    (1 + 5 * η) * (α + 10 * η * k * (X + α)) + 8 * η * X ≤ α + 10 * η * (k + 1) * (X + α) := by
  have h1 : 50 * (η * k) * (η * (X + α)) ≤ 2 * (η * (X + α)) :=
    mul_le_mul_of_nonneg_right hk (mul_nonneg hη0 (by linarith))
  have h2 : 0 ≤ η * α := mul_nonneg hη0 hα
  linarith

section run
variable {rnd g : ℝ → ℝ} {u c0 η δ : ℝ} {n m : ℕ} {x : ℕ → ℕ → ℝ} {X α : ℕ → ℝ}

/-- One turn of the main loop. -/
theorem step_num (hr : IsRel rnd u) (h1 : rnd 1 = 1) (absf : Fl ℝ rnd → Fl ℝ rnd)
    (hg : ∀ v, absf (.num v) = .num (g v)) (hgd : ∀ v, |g v - (|v|)| ≤ δ * |v|) (hδ : δ < c0 / 2)
    (hc0 : 0 < c0) (hc1 : c0 ≤ 1) (hu : 12 * u * n ≤ c0) (hη : 6 * u ≤ η * c0) (hη1 : η ≤ 1 / 12)
    (hηn : 50 * (η * n) ≤ 2) (hX : ∀ k < m, ∀ j < n, |x k j| ≤ X k) (hα : ∀ k < m, 0 ≤ α k)
    {i : ℕ} {s : St (Fl ℝ rnd)} (hi : i < n) (h : ∃ A B S, Inv rnd n m c0 u η x X α i s A B S) :
    ∃ s', step absf n m i s = .ok (some s') ∧ ∃ A B S, Inv rnd n m c0 u η x X α (i + 1) s' A B S := by
  obtain ⟨A, B, S, inv⟩ := h
  have hu0 := hr.nonneg
  have r0 : rnd 0 = 0 := by have := hr.err 0; simpa using this
  have hη0 : 0 ≤ η := by
    by_contra hh
    push Not at hh
    have := mul_neg_of_neg_of_pos hh hc0
    linarith
  have hi' : (i : ℝ) ≤ n := by exact_mod_cast hi.le
  have hun : 12 * u * i ≤ 12 * u * n := mul_le_mul_of_nonneg_left hi' (by linarith)
  have hcc : c0 / 2 ≤ c0 - 6 * u * i := by linarith
  have hc2 : c0 - 6 * u * i ≤ 1 := by
    have : 0 ≤ u * i := mul_nonneg hu0 (by positivity)
    linarith
  have hδ1 : δ < 1 := by linarith
  have h0 : ∀ v, 0 ≤ g v := by
    intro v
    have a := (abs_le.1 (hgd v)).1
    have b : δ * |v| ≤ |v| := mul_le_of_le_one_left (abs_nonneg _) hδ1.le
    linarith
  obtain ⟨k0, hk0, hk0S⟩ : ∃ k0 < n, k0 ∉ S := by
    by_contra hc
    push Not at hc
    have : (Finset.range n).card ≤ S.card :=
      Finset.card_le_card (fun k hk => hc k (Finset.mem_range.1 hk))
    rw [Finset.card_range, inv.card] at this
    omega
  obtain ⟨p', r, c, es, er, ec, hr', hc, hrS, hcS, hmax⟩ :=
    search_num absf hg h0 inv.ha inv.piv hk0 hk0S s.piv
  have hrc : r = c := pivot_diag hgd inv.dom (by linarith) hr' hc (hmax r hr' r hr' hrS hrS)
  subst hrc
  have gp := inv.piv.get hc
  simp only [hcS, if_false] at gp
  obtain ⟨ipiv, ei, hpiv⟩ : ∃ ipiv', s.ipiv.set r (-1 + 1) = .ok ipiv' ∧
      HoldsPiv ipiv' n (insert r S) := by
    refine ⟨_, Buf.set_of (hc.trans_le inv.piv.1), inv.piv.1, fun k hk => ?_⟩
    by_cases hkc : k = r
    · subst hkc; simp
    · simp only [Function.update_of_ne hkc, Finset.mem_insert, hkc, false_or]
      exact inv.piv.2 k hk
  obtain ⟨xr, exr, hxr⟩ : ∃ xr, s.indxr.set i r = .ok xr ∧ xr = ⟨s.indxr.size,
      Function.update s.indxr.data i (some r)⟩ := ⟨_, Buf.set_of (hi.trans_le inv.szr), rfl⟩
  obtain ⟨xc, exc, hxc⟩ : ∃ xc, s.indxc.set i r = .ok xc ∧ xc = ⟨s.indxc.size,
      Function.update s.indxc.data i (some r)⟩ := ⟨_, Buf.set_of (hi.trans_le inv.szc), rfl⟩
  have gcc := inv.ha.get hc hc
  have orr := off_nonneg n A r
  have hz : A r r ≠ 0 := abs_pos.1 (by linarith [(inv.dom r hc).1])
  obtain ⟨a2, ea2, ha2⟩ := scaleRow_spec inv.ha hc (.num (rnd (1 / A r r)))
  obtain ⟨a3, ea3, ha3⟩ := ha2.set hc hc 1
  obtain ⟨b2, eb2, hb2⟩ := scaleRow_spec inv.hb hc (.num (rnd (1 / A r r)))
  obtain ⟨a4, b4, e4, ha4, hb4⟩ := reduce_gen ha3 hb2 hc
  -- the new matrix
  set q : ℕ → ℝ := fun j => rnd (A r j * rnd (1 / A r r)) with hq
  set A' : ℕ → ℕ → ℝ := fun i j => if i = r then (if j = r then 1 else q j) else
    if j = r then 0 else rnd (A i j - rnd (q j * A i r)) with hA'
  set B' : ℕ → ℕ → ℝ := fun i j => if i = r then rnd (B r j * rnd (1 / A r r)) else
    rnd (B i j - rnd (rnd (B r j * rnd (1 / A r r)) * A i r)) with hB'
  have ha5 : HoldsM a4 n n (fun i j => .num (A' i j)) := ha4.congr (fun i _ j _ => by
    by_cases hic : i = r
    · subst hic
      by_cases hjc : j = i
      · subst hjc; simp [hA', Fl.one_def]
      · simp [hA', hjc, hq]
    · by_cases hjc : j = r
      · subst hjc; simp [hA', hic, Fl.zero_def]
      · simp [hA', hic, hjc, hq])
  have hb5 : HoldsM b4 n m (fun i j => .num (B' i j)) := hb4.congr (fun i _ j _ => by
    by_cases hic : i = r
    · subst hic; simp [hB']
    · simp [hB', hic])
  have hT : Turn n r (3 * u) A A' := by
    refine ⟨by simp [hA'], fun j hj hjr => ?_, fun i hi hir => by simp [hA', hir], fun i hi hir j hj hjr => ?_⟩
    · simp only [hA', hjr, if_true, if_false, hq]
      exact scale_err hr _ _
    · simp only [hA', hjr, hir, if_true, if_false]
      exact red_err hr _ _ _
  have hTB : ∀ k, TurnB n r (3 * u) A (fun l => B l k) (fun l => B' l k) := by
    intro k
    refine ⟨?_, fun i hi hir => ?_⟩
    · simp only [hB', if_true]
      exact scale_err hr _ _
    · simp only [hB', hir, if_true, if_false]
      exact red_err hr _ _ _
  have hu0' : 12 * u ≤ c0 := by
    have : (1 : ℝ) ≤ n := by exact_mod_cast (by omega : 1 ≤ n)
    have : 12 * u * 1 ≤ 12 * u * n := mul_le_mul_of_nonneg_left this (by linarith)
    linarith
  have h2 : 2 * (3 * u) < c0 - 6 * u * i := by
    have e : 12 * u * (i + 1) ≤ 12 * u * n :=
      mul_le_mul_of_nonneg_left (by exact_mod_cast hi) (by linarith)
    linarith
  refine ⟨⟨a4, b4, xc, xr, ipiv, p'⟩, ?_, A', B', insert r S, ha5, hb5, ?_, ?_, hpiv, ?_, ?_,
    ?_, ?_, ?_, ?_⟩
  · have hz' : ((Fl.num (A r r) : Fl ℝ rnd) == 0) = false := by
      rw [Fl.zero_def]; simpa using hz
    have hd : (1 : Fl ℝ rnd) / .num (A r r) = .num (rnd (1 / A r r)) := by
      rw [Fl.one_def, Fl.num_div, if_neg hz]
    have x1 : exchange s.a n r r = .ok s.a := by simp [exchange]
    have x2 : exchange s.b m r r = .ok s.b := by simp [exchange]
    simp only [step, es, er, ec, readVar, gp, ei, x1, x2, exr, exc, gcc, hz', bind, hd,
      Except.bind, if_false, pure, Except.pure, ea2, ea3, eb2, e4, Bool.false_eq_true]
  · exact Finset.insert_subset (Finset.mem_range.2 hc) inv.hS
  · rw [Finset.card_insert_of_notMem hcS, inv.card]
  · intro k hk j hj
    rcases Finset.mem_insert.1 hk with rfl | hkS
    · by_cases h : j = k
      · simp [hA', h]
      · simp [hA', h]
    · have hck : k ≠ r := fun h => hcS (h ▸ hkS)
      have z1 : A r k = 0 := by rw [inv.col k hkS r hc, if_neg hck.symm]
      have z2 : q k = 0 := by simp [hq, z1, r0]
      by_cases h : j = r
      · subst h; simp [hA', hck, z2, hck.symm]
      · simp only [hA', h, hck, if_false, z2, zero_mul, r0, sub_zero]
        rw [inv.col k hkS j hj]
        split_ifs
        · exact h1
        · exact r0
  · have := inv.dom.turn hc hT hc2 (by linarith) h2
    have e : c0 - 6 * u * ((i + 1 : ℕ) : ℝ) = c0 - 6 * u * i - 2 * (3 * u) := by push_cast; ring
    rw [e]
    exact this
  · intro k hk j hj
    have hXk : 0 ≤ X k := (abs_nonneg _).trans (hX k hk j hj)
    have hα0 := hα k hk
    have a0 : 0 ≤ α k + 10 * η * i * (X k + α k) := by positivity
    have hη2 : 3 * u ≤ η * (c0 - 6 * u * i) := by
      have := mul_le_mul_of_nonneg_left hcc hη0
      linarith
    have t := resid_turn inv.dom hc hT (hTB k) (hX k hk) hc2 (by linarith) hη2 hη1
      (by linarith) a0 (inv.res k hk) j hj
    have d := ((inv.dom.turn hc hT hc2 (by linarith) h2) j hj).1
    refine t.trans (mul_le_mul_of_nonneg_right ?_ d.le)
    have e : 50 * (η * i) ≤ 2 := by
      have := mul_le_mul_of_nonneg_left hi' hη0
      linarith
    push_cast
    exact grow hη0 e hXk hα0
  · rw [hxr]; exact inv.szr
  · rw [hxc]; exact inv.szc
  · intro l hl
    by_cases h : l = i
    · exact ⟨r, hc, by simp [hxr, h], by simp [hxc, h]⟩
    · obtain ⟨q, hq, e1, e2⟩ := inv.ix l (by omega)
      exact ⟨q, hq, by simp only [hxr, Function.update_of_ne h]; exact e1,
        by simp only [hxc, Function.update_of_ne h]; exact e2⟩

/-- The complete run. -/
theorem solve_num (hr : IsRel rnd u) (h1 : rnd 1 = 1) (absf : Fl ℝ rnd → Fl ℝ rnd)
    (hg : ∀ v, absf (.num v) = .num (g v)) (hgd : ∀ v, |g v - (|v|)| ≤ δ * |v|) (hδ : δ < c0 / 2)
    (hc0 : 0 < c0) (hc1 : c0 ≤ 1) (hu : 12 * u * n ≤ c0) (hη : 6 * u ≤ η * c0) (hη1 : η ≤ 1 / 12)
    (hηn : 50 * (η * n) ≤ 2) (hX : ∀ k < m, ∀ j < n, |x k j| ≤ X k) (hα : ∀ k < m, 0 ≤ α k)
    {a b : Buf (Fl ℝ rnd)} {A B : ℕ → ℕ → ℝ} (ha : HoldsM a n n (fun i j => .num (A i j)))
    (hb : HoldsM b n m (fun i j => .num (B i j))) (hD : Dom n c0 A)
    (hres : ∀ k < m, ∀ j < n, |resid n A (fun r => B r k) (x k) j| ≤ α k * (|A j j| - off n A j)) :
    ∃ (a' b' : Buf (Fl ℝ rnd)) (B' : ℕ → ℕ → ℝ), solve absf a n b m = .ok (some (a', b')) ∧
      HoldsM a' n n (fun i j => .num (if i = j then 1 else 0)) ∧ HoldsM b' n m (fun i j => .num (B' i j)) ∧
      ∀ k < m, ∀ j < n, |B' j k - x k j| ≤ α k + 10 * η * n * (X k + α k) := by
  obtain ⟨ipiv, ei, hi⟩ := loop_rule (f := fun j (p : Buf Int) => p.set j (-1))
    (fun j (p : Buf Int) => p.size = n ∧ ∀ k < j, p.data k = some (-1))
    (lo := 0) (hi := n) (s := Buf.alloc n) (Nat.zero_le _) ⟨rfl, by simp⟩
    (by
      rintro j p _ hj ⟨hs, hp⟩
      refine ⟨_, Buf.set_of (by omega), hs, fun k hk => ?_⟩
      by_cases h : k = j
      · simp [h]
      · simp only [Function.update_of_ne h]; exact hp k (by omega))
  have hpiv : HoldsPiv ipiv n ∅ := ⟨by omega, fun k hk => by simpa using hi.2 k hk⟩
  rcases loopBreak_rule (f := step absf n m) (fun i s => ∃ A B S, Inv rnd n m c0 u η x X α i s A B S)
    False
    (lo := 0) (hi := n) (s := ⟨a, b, Buf.alloc n, Buf.alloc n, ipiv, ⟨0, none, none⟩⟩)
    (Nat.zero_le _) ⟨A, B, ∅, ha, hb, by simp, rfl, hpiv, by simp, by simpa using hD,
      by simpa using hres, le_rfl, le_rfl, by simp⟩
    (fun i s _ hi h => Or.inl (step_num hr h1 absf hg hgd hδ hc0 hc1 hu hη hη1 hηn hX hα hi h)) with
    ⟨s', es, A', B', S, inv⟩ | ⟨es, hf⟩
  · have hSn : S = Finset.range n := Finset.eq_of_subset_of_card_le inv.hS (by
      rw [inv.card, Finset.card_range])
    have hA : ∀ i < n, ∀ j < n, A' i j = if i = j then 1 else 0 := fun i hi j hj =>
      inv.col j (by rw [hSn]; exact Finset.mem_range.2 hj) i hi
    obtain ⟨a', ea, hA'⟩ := loopDown_rule (f := fun l a => (do
        let ir ← s'.indxr.get l
        let ic ← s'.indxc.get l
        if ir = ic then return a
        loop 0 n (fun k a => swap a (k * n + ir) (k * n + ic)) a : Res (Buf (Fl ℝ rnd))))
      (fun _ (p : Buf (Fl ℝ rnd)) => p = s'.a) (k := n) (s := s'.a) rfl
      (by
        rintro l p hl rfl
        obtain ⟨r, hr, er, ec⟩ := inv.ix l hl
        have gr := Buf.get_of (hl.trans_le inv.szr) er
        have gc := Buf.get_of (hl.trans_le inv.szc) ec
        exact ⟨_, by simp [gr, gc, bind, Except.bind, pure, Except.pure], rfl⟩)
    subst hA'
    refine ⟨s'.a, s'.b, B', ?_, inv.ha.congr fun i hi j hj => by rw [hA i hi j hj], inv.hb, fun k hk j hj => ?_⟩
    · have ea' : unscramble s'.a s'.indxr s'.indxc n = .ok s'.a := ea
      simp only [solve, ei, es, bind, Except.bind, pure, Except.pure, ea']
    · have t := inv.res k hk j hj
      have o : off n A' j = 0 := Finset.sum_eq_zero fun l hl => by
        have hl' := Finset.mem_erase.1 hl
        rw [hA j hj l (Finset.mem_range.1 hl'.2), if_neg (Ne.symm hl'.1), abs_zero]
      have d : A' j j = 1 := by rw [hA j hj j hj, if_pos rfl]
      have e : resid n A' (fun r => B' r k) (x k) j = B' j k - x k j := by
        rw [resid, sum_split hj, d, one_mul, Finset.sum_eq_zero, add_zero]
        intro l hl
        have hl' := Finset.mem_erase.1 hl
        rw [hA j hj l (Finset.mem_range.1 hl'.2), if_neg (Ne.symm hl'.1), zero_mul]
      rw [o, d, e, abs_one, sub_zero, mul_one] at t
      exact t
  · exact hf.elim

end run
end GaussErr

end MathLib
