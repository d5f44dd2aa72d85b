import Verif.Proof.SplineSolve
import Verif.Props.GaussJordan
import Mathlib.LinearAlgebra.Matrix.Gershgorin
import Mathlib.Analysis.Real.Sqrt

/-! # The closed spline solver -/

namespace MathLib
namespace SplineSolver3
open GaussJordan

def nxt (n i : ℕ) : ℕ := if i + 1 = n then 0 else i + 1
def prv (n i : ℕ) : ℕ := if i = 0 then n - 1 else i - 1

/-- the matrix the code sets up -/
def circ (n i j : ℕ) : ℝ := if j = i then 4 else if j = nxt n i ∨ j = prv n i then 1 else 0

theorem circ_buf (n : ℕ) (hn : 2 ≤ n) :
    ∃ a a1 a2 a3 a4 a5 a6 a7 : Buf ℝ, loopDown (fun i (a : Buf ℝ) => a.set i 0) (n * n) (Buf.alloc (n * n)) = .ok a ∧
      loop 1 (n - 1) (fun i (a : Buf ℝ) => (do
        let a ← a.set (i * n + i - 1) 1
        let a ← a.set (i * n + i) 4
        a.set (i * n + i + 1) 1 : Res (Buf ℝ))) a = .ok a1 ∧
      a1.set 0 4 = .ok a2 ∧ a2.set 1 1 = .ok a3 ∧ a3.set (n - 1) 1 = .ok a4 ∧ a4.set ((n - 1) * n) 1 = .ok a5 ∧
      a5.set ((n - 1) * n + n - 2) 1 = .ok a6 ∧ a6.set ((n - 1) * n + n - 1) 4 = .ok a7 ∧
      HoldsM a7 n n (circ n) := by
  obtain ⟨a, e, h1, h2⟩ := loopDown_rule (f := fun i (a : Buf ℝ) => a.set i 0) (k := n * n) (s := Buf.alloc (n * n))
    (fun j a => a.size = n * n ∧ ∀ i, j ≤ i → i < n * n → a.data i = some 0) ⟨rfl, by omega⟩ (by
      rintro j a hj ⟨h1, h2⟩
      refine ⟨⟨a.size, Function.update a.data j (some 0)⟩, Buf.set_of (by omega), h1, fun i h3 h4 => ?_⟩
      by_cases hij : i = j
      · subst hij; simp
      · simp only [Function.update_of_ne hij]; exact h2 i (by omega) h4)
  have H0 : HoldsM a n n (fun _ _ => (0 : ℝ)) := ⟨h1.ge, fun i hi j hj => h2 _ (Nat.zero_le _) (by nlinarith)⟩
  obtain ⟨a1, e1, H1⟩ := loop_rule (f := fun i (a : Buf ℝ) => (do
        let a ← a.set (i * n + i - 1) 1
        let a ← a.set (i * n + i) 4
        a.set (i * n + i + 1) 1 : Res (Buf ℝ))) (lo := 1) (hi := n - 1) (s := a)
    (fun l a => HoldsM a n n (fun i j => if 1 ≤ i ∧ i < l then circ n i j else 0)) (by omega)
    (H0.congr fun i hi j hj => by rw [if_neg (by omega)]) (by
      intro l b hl1 hl2 H
      obtain ⟨b1, f1, H1⟩ := H.set (i := l) (j := l - 1) (by omega) (by omega) 1
      obtain ⟨b2, f2, H2⟩ := H1.set (i := l) (j := l) (by omega) (by omega) 4
      obtain ⟨b3, f3, H3⟩ := H2.set (i := l) (j := l + 1) (by omega) (by omega) 1
      have g1 : l * n + l - 1 = l * n + (l - 1) := by omega
      refine ⟨b3, ?_, H3.congr fun i hi j hj => ?_⟩
      · simp only [g1, f1, f2, Res.ok_bind]; exact f3
      · simp only [circ, nxt, prv]
        split_ifs <;> first | rfl | omega)
  obtain ⟨a2, e2, H2⟩ := H1.set (i := 0) (j := 0) (by omega) (by omega) 4
  obtain ⟨a3, e3, H3⟩ := H2.set (i := 0) (j := 1) (by omega) (by omega) 1
  obtain ⟨a4, e4, H4⟩ := H3.set (i := 0) (j := n - 1) (by omega) (by omega) 1
  obtain ⟨a5, e5, H5⟩ := H4.set (i := n - 1) (j := 0) (by omega) (by omega) 1
  obtain ⟨a6, e6, H6⟩ := H5.set (i := n - 1) (j := n - 2) (by omega) (by omega) 1
  obtain ⟨a7, e7, H7⟩ := H6.set (i := n - 1) (j := n - 1) (by omega) (by omega) 4
  simp only [zero_mul, zero_add, add_zero] at e2 e3 e4 e5
  refine ⟨a, a1, a2, a3, a4, a5, a6, a7, e, e1, e2, e3, e4, e5, ?_, ?_, H7.congr fun i hi j hj => ?_⟩
  · rw [show (n - 1) * n + n - 2 = (n - 1) * n + (n - 2) by omega]; exact e6
  · rw [show (n - 1) * n + n - 1 = (n - 1) * n + (n - 1) by omega]; exact e7
  · by_cases h0 : i = 0
    · subst h0
      have h1 : ¬ (0 = n - 1) := by omega
      simp only [h1, false_and, if_false, true_and]
      simp only [circ, nxt, prv]
      split_ifs <;> first | rfl | omega
    · by_cases h1 : i = n - 1
      · simp only [h1, true_and]
        have h2 : ¬ (n - 1 = 0) := by omega
        simp only [h2, false_and, if_false]
        have h3 : ¬ (n - 1 < n - 1) := by omega
        simp only [h3, and_false, if_false, circ, nxt, prv]
        split_ifs <;> first | rfl | omega
      · simp only [h0, h1, false_and, if_false]
        rw [if_pos (by omega)]

theorem circ_sum3 (n : ℕ) (hn : 3 ≤ n) (i : ℕ) (hi : i < n) (x : ℕ → ℝ) :
    ∑ j ∈ Finset.range n, circ n i j * x j = x (prv n i) + 4 * x i + x (nxt n i) := by
  have h1 : nxt n i ≠ i := by simp only [nxt]; split_ifs <;> omega
  have h2 : prv n i ≠ i := by simp only [prv]; split_ifs <;> omega
  have h3 : prv n i ≠ nxt n i := by simp only [prv, nxt]; split_ifs <;> omega
  have h4 : nxt n i < n := by simp only [nxt]; split_ifs <;> omega
  have h5 : prv n i < n := by simp only [prv]; split_ifs <;> omega
  have : ∀ j ∈ Finset.range n, circ n i j * x j = (if j = prv n i then x j else 0) + (if j = i then 4 * x j else 0) +
      (if j = nxt n i then x j else 0) := by
    intro j _
    simp only [circ]
    by_cases a : j = i
    · simp [a, h1.symm, h2.symm]
    · by_cases b : j = nxt n i
      · simp [b, h1, h3.symm]
      · by_cases c : j = prv n i
        · simp [c, h2, h3]
        · simp [a, b, c]
  rw [Finset.sum_congr rfl this, Finset.sum_add_distrib, Finset.sum_add_distrib, Finset.sum_ite_eq', Finset.sum_ite_eq',
    Finset.sum_ite_eq', if_pos (Finset.mem_range.2 h5), if_pos (Finset.mem_range.2 hi), if_pos (Finset.mem_range.2 h4)]

theorem circ_det (n : ℕ) (hn : 2 ≤ n) : (Matrix.of fun i j : Fin n => circ n i j).det ≠ 0 := by
  rcases Nat.eq_or_lt_of_le hn with rfl | h3
  · rw [Matrix.det_fin_two]
    simp [circ, nxt, prv]
    norm_num
  refine det_ne_zero_of_sum_row_lt_diag fun k => ?_
  have hk : circ n k k = 4 := by simp [circ]
  have h0 : ∀ j : Fin n, ‖circ n k j‖ = circ n k j := fun j => Real.norm_of_nonneg (by
    simp only [circ]; split_ifs <;> norm_num)
  have hs := circ_sum3 n h3 k k.2 fun _ => 1
  rw [← Fin.sum_univ_eq_sum_range (fun j => circ n k j * 1)] at hs
  have := Finset.add_sum_erase Finset.univ (fun j : Fin n => circ n k j) (Finset.mem_univ k)
  rw [Matrix.of_apply, h0, hk]
  simp only [Matrix.of_apply, h0]
  simp only [mul_one, hk] at hs this
  linarith

/-- vectors as an `n` by 3 matrix and back -/
theorem flat_holds {b : Buf (Vec3 ℝ)} {n : ℕ} {f : ℕ → Vec3 ℝ} (h : b.Holds n f) :
    HoldsM (flat b) n 3 (fun i c => comp (f i) c) := by
  refine ⟨Nat.mul_le_mul_right 3 h.1, fun i hi j hj => ?_⟩
  have e1 : (i * 3 + j) / 3 = i := by omega
  have e2 : (i * 3 + j) % 3 = j := by omega
  simp only [flat, e1, e2, h.2 i hi, Option.map_some]

theorem unflat_holds {b : Buf ℝ} {n : ℕ} {B : ℕ → ℕ → ℝ} (h : HoldsM b n 3 B) :
    (unflat b).Holds n (fun i => ⟨B i 0, B i 1, B i 2⟩) := by
  refine ⟨?_, fun i hi => ?_⟩
  · have := h.1
    simp only [unflat]
    omega
  · have e0 := h.2 i hi 0 (by omega)
    have e1 := h.2 i hi 1 (by omega)
    have e2 := h.2 i hi 2 (by omega)
    simp only [add_zero] at e0
    simp only [unflat, e0, e1, e2]

def cloR (n : ℕ) (k : ℕ → Vec3 ℝ) (i : ℕ) : Vec3 ℝ := k i * (4 : ℝ) + k (nxt n i) * (2 : ℝ)
def cloQ3 (n : ℕ) (k q : ℕ → Vec3 ℝ) (i : ℕ) : Vec3 ℝ :=
  if i = n - 1 then q (n - 2) + q (n - 1) * (4 : ℝ) - k (n - 1) * (4 : ℝ) else k (i + 1) * (2 : ℝ) - q (i + 1)

/-- the system of the closed spline, for each coordinate -/
def CloSys (n : ℕ) (k q : ℕ → Vec3 ℝ) : Prop :=
  ∀ i < n, ∀ c < 3, ∑ j ∈ Finset.range n, circ n i j * comp (q j) c = comp (cloR n k i) c

theorem closed_spec (absf : ℝ → ℝ) (habs : ∀ x, 0 ≤ absf x) (habs' : ∀ x, absf x ≤ absf 0 → x = 0) (n : ℕ) (hn : 2 ≤ n)
    (k : ℕ → Vec3 ℝ) (p1 p2 p3 : Buf (Vec3 ℝ)) (h1 : p1.Holds n k) (h2 : n ≤ p2.size) (h3 : n ≤ p3.size) :
    ∃ p2' p3' q, closedBezierSpline absf n p1 p2 p3 = .ok (true, p2', p3') ∧ CloSys n k q ∧
      (∀ v : ℕ → Vec3 ℝ, CloSys n k v → ∀ i < n, v i = q i) ∧
      p2'.Holds n q ∧ p3'.Holds n (cloQ3 n k q) ∧ (p3'.size = p3.size ∧ ∀ j, n ≤ j → p3'.data j = p3.data j) := by
  obtain ⟨a, a1, a2, a3, a4, a5, a6, a7, f0, f1, f2, f3, f4, f5, f6, f7, Ha⟩ := circ_buf n hn
  obtain ⟨r, er, sr, dr⟩ := rhs_loop (m := n - 1) k (r := p2) 0 n h1 (by omega) (by omega) (by omega)
  obtain ⟨r1, er1, sr1, dr1⟩ := Buf.set_data (b := r) (i := n - 1) (k (n - 1) * (4 : ℝ) + k 0 * (2 : ℝ)) (by omega)
  have hR : r1.Holds n (cloR n k) := by
    refine ⟨by omega, fun i hi => ?_⟩
    rw [dr1, dr, cloR, nxt]
    by_cases h : i = n - 1
    · rw [if_pos h, if_pos (by omega), h]
    · rw [if_neg h, if_pos (by omega), if_neg (by omega)]
  have hdet := circ_det n hn
  rcases solve_spec absf habs n 3 a7 (flat r1) _ _ Ha (flat_holds hR) with ⟨a', b', X, es, -, hX, hsys⟩ | ⟨-, hker⟩
  swap
  · exfalso
    obtain ⟨x, hx, hs⟩ := hker habs'
    refine hdet ((Sys_det (m := 3) _ (fun i c => comp (cloR n k i) c)).2 ⟨x, hx, ?_⟩)
    rw [Sys_iff] at hs ⊢
    intro i
    simpa [natExt_fin] using hs i
  set q : ℕ → Vec3 ℝ := fun i => ⟨X i 0, X i 1, X i 2⟩ with hq
  have hcomp : ∀ i, ∀ c < 3, comp (q i) c = X i c := by
    intro i c hc
    interval_cases c <;> rfl
  have hp2 : (unflat b').Holds n q := unflat_holds hX
  obtain ⟨p3', e3, s3, d3⟩ := p3_loop (m := n - 1) k q (p3 := p3) n n h1 hp2 (by omega) (by omega) (by omega)
  obtain ⟨p4', e4, s4, d4⟩ := Buf.set_data (b := p3') (i := n - 1) (q (n - 2) + q (n - 1) * (4 : ℝ) - k (n - 1) * (4 : ℝ))
    (by omega)
  have hsol : CloSys n k q := by
    intro i hi c hc
    have h := (hsys (fun j => X j c) (fun j => if j = c then -1 else 0)).1 (by
      rw [Sys_iff]
      intro i
      have : ∀ x : Fin 3, ((x : ℕ) = c) = (x = ⟨c, hc⟩) := fun x => by simp [Fin.ext_iff]
      simp [Fin.val_inj, this])
    have h' := (Sys_iff _ _ _ _).1 h ⟨i, hi⟩
    have : ∀ x : Fin 3, ((x : ℕ) = c) = (x = ⟨c, hc⟩) := fun x => by simp [Fin.ext_iff]
    simp [this] at h'
    rw [← Fin.sum_univ_eq_sum_range (fun j => circ n i j * comp (q j) c)]
    simp only [hcomp _ c hc]
    linarith
  refine ⟨unflat b', p4', q, ?_, hsol, ?_, hp2, ⟨by omega, fun i hi => ?_⟩, by omega, fun j hj => ?_⟩
  · simp only [closedBezierSpline, if_pos (show n ≥ 2 from hn), f0, f1, f2, f3, f4, f5, f6, f7, er, er1, es,
      h1.get (show n - 1 < n by omega), h1.get (show 0 < n by omega), hp2.get (show n - 2 < n by omega),
      hp2.get (show n - 1 < n by omega), e3, e4, Res.ok_bind]
  · intro v hv i hi
    have key : ∀ c < 3, comp (v i) c = comp (q i) c := by
      intro c hc
      have h0 : (Matrix.of fun i j : Fin n => circ n i j).mulVec (fun j => comp (v j) c - comp (q j) c) = 0 := by
        ext i
        have e1 := hv i i.2 c hc
        have e2 := hsol i i.2 c hc
        rw [← Fin.sum_univ_eq_sum_range (fun j => circ n i j * comp (v j) c)] at e1
        rw [← Fin.sum_univ_eq_sum_range (fun j => circ n i j * comp (q j) c)] at e2
        simp only [Matrix.mulVec, dotProduct, Matrix.of_apply, mul_sub, Finset.sum_sub_distrib, Pi.zero_apply, e1, e2, sub_self]
      have := congrFun (Matrix.eq_zero_of_mulVec_eq_zero hdet h0) ⟨i, hi⟩
      simp only [Pi.zero_apply] at this
      linarith
    ext
    · exact key 0 (by omega)
    · exact key 1 (by omega)
    · exact key 2 (by omega)
  · rw [d4, d3, cloQ3]
    split_ifs
    · rfl
    · rfl
    · omega
  · rw [d4, d3, if_neg (by omega), if_neg (by omega)]

end SplineSolver3
end MathLib
