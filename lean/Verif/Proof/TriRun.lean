import Verif.Model.LinearEquations
import Verif.Proof.Loops

/-! # What `TriDiagonal::solve` does, whatever the arithmetic

`pv`, `gm`, `fw` and `so` are the pivots, the multipliers, the result of the forward loop and the final result. -/

namespace MathLib
namespace TriDiagonal

theorem solveCore_run {K V : Type} [Zero K] [Sub K] [Mul K] [Div K] [BEq K] (vsub : V → V → V) (vmul : V → K → V)
    (vdiv : V → K → Res V) (n : ℕ) (hn : 0 < n) (a b c pv gm : ℕ → K) (r fw so : ℕ → V)
    (hp0 : pv 0 = b 0)
    (hgm : ∀ j, (∀ i ≤ j, (pv i == 0) = false) → gm (j + 1) = c j / pv j)
    (hpv : ∀ j, (∀ i ≤ j, (pv i == 0) = false) → pv (j + 1) = b (j + 1) - a j * gm (j + 1))
    (hf0 : (pv 0 == 0) = false → vdiv (r 0) (pv 0) = .ok (fw 0))
    (hfw : ∀ j, (∀ i ≤ j + 1, (pv i == 0) = false) →
      vdiv (vsub (r (j + 1)) (vmul (fw j) (a j))) (pv (j + 1)) = .ok (fw (j + 1)))
    (hs0 : so (n - 1) = fw (n - 1))
    (hso : ∀ j, j + 1 < n → so j = vsub (fw j) (vmul (so (j + 1)) (gm (j + 1))))
    (A B C : Buf K) (Rb U : Buf V)
    (hA : A.Holds (n - 1) a) (hB : B.Holds n b) (hC : C.Holds (n - 1) c) (hR : Rb.Holds n r)
    (hU : n ≤ U.size) :
    ((∀ j < n, (pv j == 0) = false) → ∃ U', solveCore vsub vmul vdiv A B C Rb U n = .ok (true, U') ∧
      U'.Holds n so ∧ U'.size = U.size ∧ ∀ j, n ≤ j → U'.data j = U.data j) ∧
    ((∃ j < n, (pv j == 0) = true) → ∃ U', solveCore vsub vmul vdiv A B C Rb U n = .ok (false, U')) := by
  have e0 : B.get 0 = .ok (b 0) := hB.get hn
  rcases Bool.eq_false_or_eq_true (b 0 == 0) with h0 | h0
  · constructor
    · intro h; have := h 0 hn; rw [hp0, h0] at this; cases this
    · intro _
      exact ⟨U, by simp [solveCore, e0, h0, bind, Except.bind, pure, Except.pure]⟩
  have er0 : Rb.get 0 = .ok (r 0) := hR.get hn
  have ed0 : vdiv (r 0) (b 0) = .ok (fw 0) := by rw [← hp0]; exact hf0 (by rw [hp0]; exact h0)
  have eU : U.set 0 (fw 0) =
      .ok ⟨U.size, Function.update U.data 0 (some (fw 0))⟩ := Buf.set_of (by omega)
  -- invariant of the forward loop
  have hfwd := loopBreak_rule
    (f := fun j (st : St K V) => (do
      let cj ← C.get (j - 1)
      let gam ← st.gam.set j (cj / st.bet)
      let gj ← gam.get j
      let bj ← B.get j
      let aj ← A.get (j - 1)
      let bet := bj - aj * gj
      if bet == 0 then return none
      let rj ← Rb.get j
      let uj ← st.u.get (j - 1)
      let q ← vdiv (vsub rj (vmul uj aj)) bet
      let u ← st.u.set j q
      return some ⟨gam, bet, u⟩ : Res (Option (St K V))))
    (fun j st => st.gam.size = n ∧ (∀ i, 1 ≤ i → i < j → st.gam.data i = some (gm i)) ∧
      st.bet = pv (j - 1) ∧ st.u.size = U.size ∧
      (∀ i < j, st.u.data i = some (fw i)) ∧ (∀ i, n ≤ i → st.u.data i = U.data i) ∧
      (∀ i < j, (pv i == 0) = false))
    (∃ j < n, (pv j == 0) = true)
    (lo := 1) (hi := n)
    (s := ⟨Buf.alloc n, b 0, ⟨U.size, Function.update U.data 0 (some (fw 0))⟩⟩) (by omega)
    (by
      refine ⟨rfl, fun i h1 h2 => by omega, by simp [hp0], rfl, ?_, ?_, ?_⟩
      · intro i hi; have : i = 0 := by omega
        subst this; simp
      · intro i hi
        have : i ≠ 0 := by omega
        simp [this]
      · intro i hi; have : i = 0 := by omega
        subst this; rw [hp0]; exact h0)
    (by
      rintro j ⟨g, bet, u⟩ hj1 hjn ⟨hg1, hg2, hbet, hu1, hu2, hu3, hpn⟩
      obtain ⟨m, rfl⟩ : ∃ m, j = m + 1 := ⟨j - 1, by omega⟩
      simp only [Nat.add_sub_cancel] at *
      have ec : C.get m = .ok (c m) := hC.get (by omega)
      have ea : A.get m = .ok (a m) := hA.get (by omega)
      have eb : B.get (m + 1) = .ok (b (m + 1)) := hB.get hjn
      have er : Rb.get (m + 1) = .ok (r (m + 1)) := hR.get hjn
      have eg : g.set (m + 1) (c m / bet) =
          .ok ⟨g.size, Function.update g.data (m + 1) (some (c m / bet))⟩ := Buf.set_of (by omega)
      have eg2 : Buf.get ⟨g.size, Function.update g.data (m + 1) (some (c m / bet))⟩ (m + 1) =
          .ok (c m / bet) := Buf.get_of (by simp only; omega) (by simp)
      have eu : u.get m = .ok (fw m) := Buf.get_of (by omega) (hu2 m (by omega))
      have ebet : b (m + 1) - a m * (c m / bet) = pv (m + 1) := by
        rw [hbet, hpv m fun i hi => hpn i (by omega), hgm m fun i hi => hpn i (by omega)]
      simp only [ec, ea, eb, er, eg, eg2, eu, bind, Except.bind, ebet, pure, Except.pure]
      rcases Bool.eq_false_or_eq_true (pv (m + 1) == 0) with hz | hz
      · right
        exact ⟨by simp [hz], m + 1, hjn, hz⟩
      · left
        have ev : vdiv (vsub (r (m + 1)) (vmul (fw m) (a m))) (pv (m + 1)) =
            .ok (fw (m + 1)) :=
          hfw m fun i hi => if h : i = m + 1 then by rw [h]; exact hz else hpn i (by omega)
        have es : u.set (m + 1) (fw (m + 1)) =
          .ok ⟨u.size, Function.update u.data (m + 1) (some (fw (m + 1)))⟩ :=
          Buf.set_of (by omega)
        simp only [hz, Bool.false_eq_true, if_false, ev, es]
        refine ⟨_, rfl, hg1, ?_, rfl, hu1, ?_, ?_, ?_⟩
        · intro i h1 h2
          by_cases hi : i = m + 1
          · subst hi; simp [hgm m fun i hi => hpn i (by omega), hbet]
          · simp only [Function.update_of_ne hi]; exact hg2 i h1 (by omega)
        · intro i h2
          by_cases hi : i = m + 1
          · subst hi; simp
          · simp only [Function.update_of_ne hi]; exact hu2 i (by omega)
        · intro i h2
          have hi : i ≠ m + 1 := by omega
          simp only [Function.update_of_ne hi]; exact hu3 i h2
        · intro i h2
          by_cases hi : i = m + 1
          · subst hi; exact hz
          · exact hpn i (by omega))
  rcases hfwd with ⟨⟨g, bet, u⟩, e1, hg1, hg2, hbet, hu1, hu2, hu3, hpn⟩ | ⟨e1, hfail⟩
  · have hback := loopDown_rule
      (f := fun j (u : Buf V) => (do
        let uj ← u.get j
        let g ← g.get (j + 1)
        let u1 ← u.get (j + 1)
        u.set j (vsub uj (vmul u1 g)) : Res (Buf V)))
      (fun j u => u.size = U.size ∧ (∀ i < j, u.data i = some (fw i)) ∧
        (∀ i, j ≤ i → i < n → u.data i = some (so i)) ∧
        (∀ i, n ≤ i → u.data i = U.data i)) (k := n - 1) (s := u)
      ⟨hu1, fun i hi => hu2 i (by omega), fun i h1 h2 => by
        have : i = n - 1 := by omega
        subst this; rw [hs0]; exact hu2 _ h2, hu3⟩
      (by
        rintro j w hj ⟨hw1, hw2, hw3, hw4⟩
        have e1 : w.get j = .ok (fw j) := Buf.get_of (by omega) (hw2 j (by omega))
        have e2 : g.get (j + 1) = .ok (gm (j + 1)) :=
          Buf.get_of (by simp only at hg1; omega) (hg2 _ (by omega) (by omega))
        have e3 : w.get (j + 1) = .ok (so (j + 1)) :=
          Buf.get_of (by omega) (hw3 _ le_rfl (by omega))
        have e4 : vsub (fw j) (vmul (so (j + 1)) (gm (j + 1))) =
            so j :=
          (hso j (by omega)).symm
        have e5 : w.set j (so j) =
          .ok ⟨w.size, Function.update w.data j (some (so j))⟩ := Buf.set_of (by omega)
        simp only [e1, e2, e3, e4, e5, bind, Except.bind]
        refine ⟨_, rfl, hw1, ?_, ?_, ?_⟩
        · intro i hi
          have : i ≠ j := by omega
          simp only [Function.update_of_ne this]; exact hw2 i (by omega)
        · intro i h1 h2
          by_cases hi : i = j
          · subst hi; simp
          · simp only [Function.update_of_ne hi]; exact hw3 i (by omega) h2
        · intro i hi
          have : i ≠ j := by omega
          simp only [Function.update_of_ne this]; exact hw4 i hi)
    obtain ⟨w, ew, hw1, -, hw3, hw4⟩ := hback
    constructor
    · intro _
      refine ⟨w, ?_, ⟨by omega, fun i hi => hw3 i (by omega) hi⟩, hw1, hw4⟩
      simp only [solveCore, e0, bind, Except.bind, h0, Bool.false_eq_true, if_false, er0, ed0, eU]
      simp only [bind, Except.bind] at e1 ew
      rw [e1]
      simp only
      rw [ew]
      rfl
    · rintro ⟨j, hj, hz⟩
      rw [hpn j hj] at hz; cases hz
  · constructor
    · intro h
      obtain ⟨j, hj, hz⟩ := hfail
      rw [h j hj] at hz; cases hz
    · intro _
      simp only [solveCore, e0, bind, Except.bind, h0, Bool.false_eq_true, if_false, er0, ed0, eU]
      simp only [bind, Except.bind] at e1
      rw [e1]
      exact ⟨_, rfl⟩

end TriDiagonal
end MathLib
