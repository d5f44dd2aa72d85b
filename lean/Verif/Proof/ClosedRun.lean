import Verif.Proof.SplineRun
import Verif.Proof.ClosedSpline

/-! # What the closed spline solver does, whatever the arithmetic -/

namespace MathLib
namespace SplineSolver3
open GaussJordan

section lit
variable (R : Type) [Zero R] [One R] [NatCast R]

/-- the matrix the code sets up -/
def circG (n i j : ℕ) : R := if j = i then 4 else if j = nxt n i ∨ j = prv n i then 1 else 0
end lit

section run
variable {R : Type} [Zero R] [One R] [NatCast R]

theorem circ_buf_gen (n : ℕ) (hn : 2 ≤ n) :
    ∃ a a1 a2 a3 a4 a5 a6 a7 : Buf R, loopDown (fun i (a : Buf R) => a.set i 0) (n * n) (Buf.alloc (n * n)) = .ok a ∧
      loop 1 (n - 1) (fun i (a : Buf R) => (do
        let a ← a.set (i * n + i - 1) 1
        let a ← a.set (i * n + i) 4
        a.set (i * n + i + 1) 1 : Res (Buf R))) a = .ok a1 ∧
      a1.set 0 4 = .ok a2 ∧ a2.set 1 1 = .ok a3 ∧ a3.set (n - 1) 1 = .ok a4 ∧ a4.set ((n - 1) * n) 1 = .ok a5 ∧
      a5.set ((n - 1) * n + n - 2) 1 = .ok a6 ∧ a6.set ((n - 1) * n + n - 1) 4 = .ok a7 ∧
      HoldsM a7 n n (circG R n) := by
  obtain ⟨a, e, h1, h2⟩ := loopDown_rule (f := fun i (a : Buf R) => a.set i 0) (k := n * n) (s := Buf.alloc (n * n))
    (fun j a => a.size = n * n ∧ ∀ i, j ≤ i → i < n * n → a.data i = some 0) ⟨rfl, by omega⟩ (by
      rintro j a hj ⟨h1, h2⟩
      refine ⟨⟨a.size, Function.update a.data j (some 0)⟩, Buf.set_of (by omega), h1, fun i h3 h4 => ?_⟩
      by_cases hij : i = j
      · subst hij; simp
      · simp only [Function.update_of_ne hij]; exact h2 i (by omega) h4)
  have H0 : HoldsM a n n (fun _ _ => (0 : R)) := ⟨h1.ge, fun i hi j hj => h2 _ (Nat.zero_le _) (by nlinarith)⟩
  obtain ⟨a1, e1, H1⟩ := loop_rule (f := fun i (a : Buf R) => (do
        let a ← a.set (i * n + i - 1) 1
        let a ← a.set (i * n + i) 4
        a.set (i * n + i + 1) 1 : Res (Buf R))) (lo := 1) (hi := n - 1) (s := a)
    (fun l a => HoldsM a n n (fun i j => if 1 ≤ i ∧ i < l then circG R n i j else 0)) (by omega)
    (H0.congr fun i hi j hj => by rw [if_neg (by omega)]) (by
      intro l b hl1 hl2 H
      obtain ⟨b1, f1, H1⟩ := H.set (i := l) (j := l - 1) (by omega) (by omega) 1
      obtain ⟨b2, f2, H2⟩ := H1.set (i := l) (j := l) (by omega) (by omega) 4
      obtain ⟨b3, f3, H3⟩ := H2.set (i := l) (j := l + 1) (by omega) (by omega) 1
      have g1 : l * n + l - 1 = l * n + (l - 1) := by omega
      refine ⟨b3, ?_, H3.congr fun i hi j hj => ?_⟩
      · simp only [g1, f1, f2, Res.ok_bind]; exact f3
      · simp only [circG, nxt, prv]
        split_ifs <;> first | rfl | omega)
  obtain ⟨a2, e2, H2⟩ := H1.set (i := 0) (j := 0) (by omega) (by omega) 4
  obtain ⟨a3, e3, H3⟩ := H2.set (i := 0) (j := 1) (by omega) (by omega) 1
  obtain ⟨a4, e4, H4⟩ := H3.set (i := 0) (j := n - 1) (by omega) (by omega) 1
  obtain ⟨a5, e5, H5⟩ := H4.set (i := n - 1) (j := 0) (by omega) (by omega) 1
  obtain ⟨a6, e6, H6⟩ := H5.set (i := n - 1) (j := n - 2) (by omega) (by omega) 1
  obtain ⟨a7, e7, H7⟩ := H6.set (i := n - 1) (j := n - 1) (by omega) (by omega) 4
  simp only [zero_mul, zero_add, add_zero] at e2 e3 e4 e5
  refine ⟨a, a1, a2, a3, a4, a5, a6, a7, e, e1, e2, e3, e4, e5, ?_, ?_, H7.congr fun i hi j hj => ?_⟩
  · rw [show (n - 1) * n + n - 2 = (n - 1) * n + (n - 2) by omega]; exact e6
  · rw [show (n - 1) * n + n - 1 = (n - 1) * n + (n - 1) by omega]; exact e7
  · by_cases h0 : i = 0
    · subst h0
      have h1 : ¬ (0 = n - 1) := by omega
      simp only [h1, false_and, if_false, true_and]
      simp only [circG, nxt, prv]
      split_ifs <;> first | rfl | omega
    · by_cases h1 : i = n - 1
      · simp only [h1, true_and]
        have h2 : ¬ (n - 1 = 0) := by omega
        simp only [h2, false_and, if_false]
        have h3 : ¬ (n - 1 < n - 1) := by omega
        simp only [h3, and_false, if_false, circG, nxt, prv]
        split_ifs <;> first | rfl | omega
      · simp only [h0, h1, false_and, if_false]
        rw [if_pos (by omega)]

omit [Zero R] [One R] [NatCast R] in
/-- vectors as an `n` by 3 matrix and back -/
theorem flat_holds_gen {b : Buf (Vec3 R)} {n : ℕ} {f : ℕ → Vec3 R} (h : b.Holds n f) :
    HoldsM (flat b) n 3 (fun i c => comp (f i) c) := by
  refine ⟨Nat.mul_le_mul_right 3 h.1, fun i hi j hj => ?_⟩
  have e1 : (i * 3 + j) / 3 = i := by omega
  have e2 : (i * 3 + j) % 3 = j := by omega
  simp only [flat, e1, e2, h.2 i hi, Option.map_some]

omit [Zero R] [One R] [NatCast R] in
theorem unflat_holds_gen {b : Buf R} {n : ℕ} {B : ℕ → ℕ → R} (h : HoldsM b n 3 B) :
    (unflat b).Holds n (fun i => ⟨B i 0, B i 1, B i 2⟩) := by
  refine ⟨?_, fun i hi => ?_⟩
  · have := h.1
    simp only [unflat]
    omega
  · have e0 := h.2 i hi 0 (by omega)
    have e1 := h.2 i hi 1 (by omega)
    have e2 := h.2 i hi 2 (by omega)
    simp only [add_zero] at e0
    simp only [unflat, e0, e1, e2]

variable [Add R] [Sub R] [Mul R] [Div R] [LE R] [DecidableLE R] [BEq R]

theorem closed_run (absf : R → R) (n : ℕ) (hn : 2 ≤ n) (k : ℕ → Vec3 R) (p1 p2 p3 : Buf (Vec3 R)) (h1 : p1.Holds n k)
    (h2 : n ≤ p2.size) (h3 : n ≤ p3.size) (P : (ℕ → Vec3 R) → Prop)
    (hs : ∀ (a r : Buf R), HoldsM a n n (circG R n) →
      HoldsM r n 3 (fun i c => comp (k i * (4 : R) + k (nxt n i) * (2 : R)) c) →
      ∃ a' b' q, solve absf a n r 3 = .ok (some (a', b')) ∧ HoldsM b' n 3 (fun i c => comp (q i) c) ∧ P q) :
    ∃ p2' p3' q, closedBezierSpline absf n p1 p2 p3 = .ok (true, p2', p3') ∧ P q ∧ p2'.Holds n q ∧
      p3'.Holds n (fun i => if i = n - 1 then q (n - 2) + q (n - 1) * (4 : R) - k (n - 1) * (4 : R) else
        k (i + 1) * (2 : R) - q (i + 1)) := by
  obtain ⟨a, a1, a2, a3, a4, a5, a6, a7, f0, f1, f2, f3, f4, f5, f6, f7, Ha⟩ := circ_buf_gen (R := R) n hn
  obtain ⟨r, er, sr, dr⟩ := rhs_run (m := n - 1) k (r := p2) 0 n h1 (by omega) (by omega) (by omega)
  obtain ⟨r1, er1, sr1, dr1⟩ := Buf.set_data (b := r) (i := n - 1) (k (n - 1) * (4 : R) + k 0 * (2 : R)) (by omega)
  have hR : r1.Holds n (fun i => k i * (4 : R) + k (nxt n i) * (2 : R)) := by
    refine ⟨by omega, fun i hi => ?_⟩
    rw [dr1, dr]
    simp only [nxt]
    by_cases h : i = n - 1
    · rw [if_pos h, if_pos (by omega), h]
    · rw [if_neg h, if_pos (by omega), if_neg (by omega)]
  obtain ⟨a', b', q, es, hX, hP⟩ := hs a7 (flat r1) Ha (flat_holds_gen hR)
  have hp2 : (unflat b').Holds n q := unflat_holds_gen hX
  obtain ⟨p3', e3, s3, d3⟩ := p3_run (m := n - 1) k q (p3 := p3) n n h1 hp2 (by omega) (by omega) (by omega)
  obtain ⟨p4', e4, s4, d4⟩ := Buf.set_data (b := p3') (i := n - 1) (q (n - 2) + q (n - 1) * (4 : R) - k (n - 1) * (4 : R))
    (by omega)
  refine ⟨unflat b', p4', q, ?_, hP, hp2, ⟨by omega, fun i hi => ?_⟩⟩
  · simp only [closedBezierSpline, if_pos (show n ≥ 2 from hn), f0, f1, f2, f3, f4, f5, f6, f7, er, er1, es,
      h1.get (show n - 1 < n by omega), h1.get (show 0 < n by omega), hp2.get (show n - 2 < n by omega),
      hp2.get (show n - 1 < n by omega), e3, e4, Res.ok_bind]
  · rw [d4, d3]
    beta_reduce
    split_ifs
    · rfl
    · rfl
    · omega

end run
end SplineSolver3
end MathLib
