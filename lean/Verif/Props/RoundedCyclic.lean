import Verif.Proof.CyclicRun
import Verif.Proof.CyclicErr
import Verif.Props.RoundedSplines
import Mathlib.LinearAlgebra.Matrix.Determinant.Basic
import Mathlib.Tactic.NormNum.DivMod

/-! # Property C162: cyclic tridiagonal systems in floating point -/

namespace MathLib
open TriDiagonal

/-- Every diagonal entry exceeds the other entries of its row together, and by no less than the part `1/κ` of the
entries of the row together. -/
def RowDominant {n : ℕ} (M : Matrix (Fin n) (Fin n) ℝ) (κ : ℝ) : Prop :=
  ∀ i, ∑ j ∈ Finset.univ.erase i, |M i j| < |M i i| ∧
    ∑ j ∈ Finset.univ.erase i, |M i j| + |M i i| ≤ κ * (|M i i| - ∑ j ∈ Finset.univ.erase i, |M i j|)

/-- The claim, for `float`: if the solver reports success for an invertible matrix then all results are numbers, and
none is off by more than a quarter of the largest component of the solution. -/
def C162_full : Prop :=
  ∀ (n : ℕ) (a b c r x : ℕ → ℚ) (al be : ℚ) (A B C R X X' : Buf F32), 2 < n →
    (∀ i, Rep 24 (a i) ∧ Rep 24 (b i) ∧ Rep 24 (c i) ∧ Rep 24 (r i)) → Rep 24 al → Rep 24 be →
    (A.Holds (n - 1) fun i => .num (a i)) → (B.Holds n fun i => .num (b i)) → (C.Holds (n - 1) fun i => .num (c i)) →
    (R.Holds n fun i => .num (r i)) → (cyclicTridiag n a b c al be).det ≠ 0 →
    ((cyclicTridiag n a b c al be).mulVec fun i => x i) = (fun i : Fin n => r i) →
    solveCyclic A B C (.num al) (.num be) R X n = .ok (true, X') →
    ∃ x' : ℕ → ℚ, (X'.Holds n fun i => .num (x' i)) ∧ ∀ i < n, ∃ j < n, |x' i - x i| ≤ 1 / 4 * |x j|

/-- The claim is false: for `2^-24, 1, 1; 1, 1, 0; 1, 1, 1` and the right-hand side `2, 3, 2`, whose solution is
`0, 3, -1`, the solver reports success and `1.5, 1.49…, 0.5`.  With `2^-30` in the place of `2^-24` it reports
success and three NaN.  Both matrices are far from singular: the determinant is close to -1. -/
theorem C162_refuted : ¬ C162_full ∧
    (solveCyclic (Buf.ofList [1, 1]) (Buf.ofList [.num (2 ^ (-24 : ℤ)), 1, 1]) (Buf.ofList [1, 0]) 1 1
      (Buf.ofList [.num 2, .num 3, .num 2]) (Buf.alloc 3) 3).map (fun p => (p.1, p.2.toList)) =
        .ok (true, [some (.num (3 / 2) : F32), some (.num (12582911 / 8388608)), some (.num (1 / 2))]) ∧
    (solveCyclic (Buf.ofList [1, 1]) (Buf.ofList [.num (2 ^ (-30 : ℤ)), 1, 1]) (Buf.ofList [1, 0]) 1 1
      (Buf.ofList [.num 2, .num 3, .num 2]) (Buf.alloc 3) 3).map (fun p => (p.1, p.2.toList)) =
        .ok (true, [some (.nan : F32), some .nan, some .nan]) := by
  have h1 : (solveCyclic (Buf.ofList [1, 1]) (Buf.ofList [.num (2 ^ (-24 : ℤ)), 1, 1]) (Buf.ofList [1, 0]) 1 1
      (Buf.ofList [.num 2, .num 3, .num 2]) (Buf.alloc 3) 3).map (fun p => (p.1, p.2.toList)) =
        .ok (true, [some (.num (3 / 2) : F32), some (.num (12582911 / 8388608)), some (.num (1 / 2))]) := by
    decide +kernel
  refine ⟨fun h => ?_, h1, by decide +kernel⟩
  have r1 : Rep 24 (1 : ℚ) := by simpa using Rep.int (K := ℚ) (p := 24) 1 (by norm_num)
  have r0 : Rep 24 (0 : ℚ) := by simpa using Rep.int (K := ℚ) (p := 24) 0 (by norm_num)
  have r2 : Rep 24 (2 : ℚ) := by simpa using Rep.int (K := ℚ) (p := 24) 2 (by norm_num)
  have r3 : Rep 24 (3 : ℚ) := by simpa using Rep.int (K := ℚ) (p := 24) 3 (by norm_num)
  rcases e : solveCyclic (Buf.ofList [1, 1]) (Buf.ofList [.num (2 ^ (-24 : ℤ)), 1, 1]) (Buf.ofList [1, 0]) 1 1
      (Buf.ofList [.num 2, .num 3, .num 2]) (Buf.alloc 3 : Buf F32) 3 with f | ⟨ret, X'⟩
  · rw [e] at h1; cases h1
  rw [e] at h1
  simp only [Except.map, Except.ok.injEq, Prod.mk.injEq] at h1
  obtain ⟨rfl, hl⟩ := h1
  have hs : X'.size = 3 := by simpa [Buf.toList] using congrArg List.length hl
  simp only [Buf.toList, hs] at hl
  norm_num [List.range_succ] at hl
  obtain ⟨x', hX', hx'⟩ := h 3 (fun _ => 1) (fun i => if i = 0 then 2 ^ (-24 : ℤ) else 1) (fun i => if i = 0 then 1 else 0)
    (fun i => if i = 1 then 3 else 2) (fun i => if i = 0 then 0 else if i = 1 then 3 else -1) 1 1 (Buf.ofList [1, 1])
    (Buf.ofList [.num (2 ^ (-24 : ℤ)), 1, 1]) (Buf.ofList [1, 0]) (Buf.ofList [.num 2, .num 3, .num 2]) (Buf.alloc 3) X' (by norm_num)
    (fun i => ⟨r1, by
      by_cases h : i = 0
      · rw [if_pos h]; exact Rep.zpow _
      · rw [if_neg h]; exact r1, by split_ifs <;> assumption, by split_ifs <;> assumption⟩) r1 r1
    ⟨by simp [Buf.ofList], fun i hi => by interval_cases i <;> rfl⟩
    ⟨by simp [Buf.ofList], fun i hi => by interval_cases i <;> rfl⟩
    ⟨by simp [Buf.ofList], fun i hi => by interval_cases i <;> rfl⟩
    ⟨by simp [Buf.ofList], fun i hi => by interval_cases i <;> rfl⟩
    (by rw [Matrix.det_fin_three]; simp [cyclicTridiag, tridiag]; norm_num)
    (by
      ext i
      fin_cases i <;> simp [Matrix.mulVec, dotProduct, Fin.sum_univ_three, cyclicTridiag, tridiag] <;> norm_num) e
  have d0 := hX'.2 0 (by norm_num)
  rw [hl.1] at d0
  simp only [Option.some.injEq, Fl.num.injEq] at d0
  obtain ⟨j, hj, hb⟩ := hx' 0 (by norm_num)
  rw [← d0] at hb
  interval_cases j <;> norm_num at hb

/-! ## Dominant systems -/

theorem gam_eleven {u : ℝ} (h0 : 0 ≤ u) (hu : u ≤ 1 / 4096) : gam u 11 ≤ 1104 / 100 * u := by
  refine (gam_le (by linarith) (by norm_num; linarith)).trans ?_
  rw [div_le_iff₀ (by norm_num; linarith)]
  norm_num
  nlinarith

theorem cyc_entry {n : ℕ} (hn : 2 < n) (a b c : ℕ → ℝ) (α β : ℝ) (i j : Fin n) : |cyclicTridiag n a b c α β i j| =
    cyclicTridiag n (fun k => |a k|) (fun k => |b k|) (fun k => |c k|) |α| |β| i j := by
  have hi := i.2
  have hj := j.2
  unfold cyclicTridiag tridiag
  split_ifs <;> first | omega | simp

theorem cyc_diag {n : ℕ} (hn : 2 < n) (a b c : ℕ → ℝ) (α β : ℝ) (i : Fin n) : cyclicTridiag n a b c α β i i = b i := by
  have hi := i.2
  unfold cyclicTridiag tridiag
  rw [if_pos rfl, if_neg (by omega), if_neg (by omega), add_zero, add_zero]

theorem cyc_off {n : ℕ} (hn : 2 < n) (a b c : ℕ → ℝ) (α β : ℝ) (i : Fin n) :
    ∑ j ∈ Finset.univ.erase i, |cyclicTridiag n a b c α β i j| = coff n a c α β i := by
  have h := Finset.add_sum_erase Finset.univ (fun j => |cyclicTridiag n a b c α β i j|) (Finset.mem_univ i)
  have h2 := mulVec_cyclic n (by omega) (fun k => |a k|) (fun k => |b k|) (fun k => |c k|) |α| |β| (fun _ => (1 : ℝ))
    (fun _ => 1) (fun _ => rfl) i
  simp only [Matrix.mulVec, dotProduct, mul_one, ← cyc_entry hn] at h2
  rw [← h, cyc_diag hn] at h2
  simp only [row, smul_eq_mul, mul_one] at h2
  unfold coff offdiag
  linarith

theorem RowDominant.cycDom {n : ℕ} (hn : 2 < n) {a b c : ℕ → ℝ} {α β κ : ℝ} (h : RowDominant (cyclicTridiag n a b c α β) κ) :
    CycDom n a b c α β κ := by
  intro i hi
  have := h ⟨i, hi⟩
  rwa [cyc_off hn, cyc_diag hn] at this

theorem cyc_rows {n : ℕ} (hn : 2 < n) {a b c x r : ℕ → ℝ} {α β : ℝ}
    (h : ((cyclicTridiag n a b c α β).mulVec fun i => x i) = (fun i : Fin n => r i)) : ∀ i < n, crow n a b c α β x i = r i := by
  intro i hi
  have h1 := congrFun h ⟨i, hi⟩
  rw [mulVec_cyclic n (by omega) a b c α β _ x (fun _ => rfl)] at h1
  exact h1

section
variable {p : ℕ} (hp : 12 ≤ p) {n : ℕ} (hn : 2 < n) {a b c : ℕ → ℝ} (ha : ∀ i, Rep p (a i)) (hc : ∀ i, Rep p (c i))
include hp ha hc hn

/-- what `solve` does on a strictly dominant tridiagonal system -/
theorem solve_float {κ : ℝ} (h : CycDom n a b c 0 0 κ) (r : ℕ → ℝ) :
    SolvesNearby n a b c r (rsol (rne p) a b c r n) (gam (2 ^ (-(p : ℤ))) 11) ∧
    ∀ A B C R U : Buf (Fl ℝ (rne p)), (A.Holds (n - 1) fun i => .num (a i)) → (B.Holds n fun i => .num (b i)) →
      (C.Holds (n - 1) fun i => .num (c i)) → (R.Holds n fun i => .num (r i)) → n ≤ U.size →
      ∃ U', solve A B C R U n = .ok (true, U') ∧ (U'.Holds n fun i => .num (rsol (rne p) a b c r n i)) ∧ U'.size = U.size := by
  have hp1 : 1 ≤ p := by omega
  have e0 : ∀ i, coff n a c 0 0 i = offdiag n a c i := fun i => by unfold coff; simp
  have hs : ∀ i < n, (if 0 < i then |a (i - 1)| else 0) + (if i + 1 < n then |c i| else 0) < |b i| := fun i hi => by
    have := (h i hi).1; rw [e0] at this; exact this
  have hz : ∀ j < n, rpiv (rne p) a b c j ≠ 0 :=
    rpiv_ne_zero n a b c (rne_mono p hp1) (rne_neg p) (rne_of_rep hp1 (by simpa using Rep.zpow (K := ℝ) (p := p) 0))
      (fun x hx => by
        by_contra h0
        rcases lt_or_gt_of_ne h0 with h | h
        · have := rne_pos p hp1 (-x) (by linarith)
          rw [rne_neg, hx] at this; simp at this
        · have := rne_pos p hp1 x h
          rw [hx] at this; simp at this)
      (fun i => rne_of_rep hp1 (ha i)) (fun i => rne_of_rep hp1 (hc i)) hs
  refine ⟨rsol_nearby hp1 n a b c ha hc r (fun i hi => (hs i hi).le) hz, fun A B C R U hA hB hC hR hU => ?_⟩
  obtain ⟨U', e1, e2, e3, -⟩ := (solve_num n (by omega) a b c r A B C R U hA hB hC hR hU).1 hz
  exact ⟨U', e1, e2, e3⟩

omit ha hc in
/-- the auxiliary system that is solved belongs to a cyclic system close to the given one -/
theorem cyc_near {α β κ Z : ℝ} (h : CycDom n a b c α β κ) (hZ1 : 1 ≤ Z) (hκu : 320 * (κ * 2 ^ (-(p : ℤ))) ≤ 1)
    (hZ : |α| ≤ Z * (|auxDiag n b α β (n - 1)| - offdiag n a c (n - 1))) :
    ∃ b' : ℕ → ℝ, (∀ i < n - 1, b' i = b i) ∧
      |b' (n - 1) - b (n - 1)| ≤ 301 / 100 * (2 ^ (-(p : ℤ)) * (coff n a c α β (n - 1) + |b (n - 1)|)) ∧
      auxDiag n b' α β (n - 1) = rne p (b (n - 1) - rne p (rne p (α * β) / -b 0)) ∧
      CycDom n a b' c α β (102 / 100 * κ) ∧
      |α| ≤ 102 / 100 * Z * (|auxDiag n b' α β (n - 1)| - offdiag n a c (n - 1)) := by
  have hp1 : 1 ≤ p := by omega
  have hr := isRel_rne p hp1
  have hu := small_unit hp
  set u : ℝ := 2 ^ (-(p : ℤ)) with hud
  have hu0 := hr.nonneg
  have hκ := h.one_le (by omega)
  set q := rne p (b (n - 1) - rne p (rne p (α * β) / -b 0)) with hq
  set L := coff n a c α β (n - 1) with hL
  set W := L + |b (n - 1)| with hW
  have hW0 : 0 ≤ W := add_nonneg (coff_nonneg ..) (abs_nonneg _)
  have hLe : L = offdiag n a c (n - 1) + |α| := cyc_last_eq hn
  have ho := offdiag_nonneg n a c (n - 1)
  have hb := abs_nonneg (b (n - 1))
  have hα0 := abs_nonneg α
  have hαW : |α| ≤ W := by linarith
  have huW : u * W ≤ 1 / 4096 * W := mul_le_mul_of_nonneg_right hu hW0
  have huW0 : 0 ≤ u * W := mul_nonneg hu0 hW0
  have huα : u * |α| ≤ u * W := mul_le_mul_of_nonneg_left hαW hu0
  -- the rounding of the last diagonal entry
  have k1 := corner_err hr hu (h.ratio hn) (le_refl |α|)
  rw [mul_comm β α] at k1
  set m := rne p (rne p (α * β) / -b 0) with hm
  have et : β / -b 0 * α = -(α * β / b 0) := by rw [div_neg]; ring
  rw [et] at k1
  have k2 := h.corner hn
  set t := α * β / b 0 with ht
  have k3 : |b (n - 1) - m| ≤ 1001 / 1000 * W := by
    have h1 := abs_sub (b (n - 1)) m
    have h2 := abs_sub_abs_le_abs_sub m (-t)
    rw [abs_neg] at h2
    linarith
  have k4 := rnd_le hr k3
  rw [← hq] at k4
  have hδ : |q - (b (n - 1) + t)| ≤ 301 / 100 * (u * W) := by
    have h1 := abs_sub_le q (b (n - 1) - m) (b (n - 1) + t)
    have e : b (n - 1) - m - (b (n - 1) + t) = -(m - -t) := by ring
    rw [e, abs_neg] at h1
    linarith
  have n0 : (0 : ℕ) ≠ n - 1 := by omega
  have n1 : n - 1 + 1 = n := by omega
  refine ⟨fun i => if i = n - 1 then q - t else b i, fun i hi => by simp only [if_neg (show i ≠ n - 1 by omega)], ?_, ?_, ?_, ?_⟩
  · simp only [if_true]
    have e : q - t - b (n - 1) = q - (b (n - 1) + t) := by ring
    rw [e]; exact hδ
  · unfold auxDiag
    simp only [if_neg n0.symm, if_pos n1, if_true, if_neg n0]
    rw [← ht]; ring
  · intro i hi
    by_cases hil : i = n - 1
    · subst hil
      simp only [if_true]
      obtain ⟨g1, g2⟩ := h _ hi
      rw [← hL] at g1 g2 ⊢
      have e1 := abs_sub_abs_le_abs_sub (b (n - 1)) (q - t)
      have e2 := abs_sub_abs_le_abs_sub (q - t) (b (n - 1))
      have e3 : q - t - b (n - 1) = q - (b (n - 1) + t) := by ring
      rw [abs_sub_comm (b (n - 1)) (q - t), e3] at e1
      rw [e3] at e2
      have e4 : 320 * (κ * (u * W)) ≤ W := by
        have := mul_le_mul_of_nonneg_right hκu hW0
        linarith
      have e5 : κ * (|b (n - 1)| - 301 / 100 * (u * W)) ≤ κ * |q - t| := mul_le_mul_of_nonneg_left (by linarith) (by linarith)
      have e6 : 0 < W - κ * (301 / 100 * (u * W)) := by
        have : 0 < W := by linarith [coff_nonneg n a c α β (n - 1)]
        linarith
      constructor
      · have : 0 < κ * (|q - t| - L) := by linarith
        exact sub_pos.1 ((mul_pos_iff_of_pos_left (by linarith)).1 this)
      · linarith
    · obtain ⟨g1, g2⟩ := h i hi
      simp only [if_neg hil]
      refine ⟨g1, g2.trans ?_⟩
      have := mul_nonneg (show 0 ≤ κ by linarith) (sub_nonneg.2 g1.le)
      linarith
  · have e1 : auxDiag n (fun i => if i = n - 1 then q - t else b i) α β (n - 1) = q := by
      unfold auxDiag
      simp only [if_neg n0.symm, if_pos n1, if_true, if_neg n0]
      rw [← ht]; ring
    rw [e1]
    have e2 : auxDiag n b α β (n - 1) = b (n - 1) + t := by
      unfold auxDiag; rw [if_neg n0.symm, if_pos n1]
    rw [e2] at hZ
    obtain ⟨g1, g2⟩ := h (n - 1) (by omega)
    rw [← hL] at g1 g2
    have e3 := abs_sub_abs_le_abs_sub (b (n - 1) + t) q
    rw [abs_sub_comm (b (n - 1) + t) q] at e3
    have e4 := abs_sub_abs_le_abs_sub (b (n - 1)) (-t)
    rw [abs_neg, sub_neg_eq_add] at e4
    set V := |b (n - 1) + t| - offdiag n a c (n - 1) with hV
    have e5 : W ≤ κ * V := g2.trans (mul_le_mul_of_nonneg_left (by linarith) (by linarith))
    have e6 : 301 / 100 * (u * W) ≤ 1 / 100 * V := by
      have h1 := mul_le_mul_of_nonneg_left e5 hu0
      have hV0 : 0 ≤ V := by linarith
      have h2 := mul_le_mul_of_nonneg_right hκu hV0
      linarith
    have e7 : 99 / 100 * V ≤ |q| - offdiag n a c (n - 1) := by linarith
    have e8 := mul_le_mul_of_nonneg_left e7 (show 0 ≤ Z by linarith)
    have hV0 : 0 ≤ Z * V := by linarith
    linarith

/-- The general form: `Z` bounds what the correction adds, see the two theorems below. -/
theorem cyclic_float (hb : ∀ i, Rep p (b i)) {α β κ Z X : ℝ} {r x : ℕ → ℝ} (A B C R Xb : Buf (Fl ℝ (rne p)))
    (hA : A.Holds (n - 1) fun i => .num (a i)) (hB : B.Holds n fun i => .num (b i))
    (hC : C.Holds (n - 1) fun i => .num (c i)) (hR : R.Holds n fun i => .num (r i)) (hXb : n ≤ Xb.size)
    (h : CycDom n a b c α β κ) (hZ1 : 1 ≤ Z)
    (hZ : |α| ≤ Z * (|auxDiag n b α β (n - 1)| - offdiag n a c (n - 1)))
    (hs : 320 * (κ ^ 2 * Z) * 2 ^ (-(p : ℤ)) ≤ 1) (hx : ∀ i < n, crow n a b c α β x i = r i) (hX : ∀ i < n, |x i| ≤ X) :
    ∃ (X' : Buf (Fl ℝ (rne p))) (x' : ℕ → ℝ), solveCyclic A B C (.num α) (.num β) R Xb n = .ok (true, X') ∧
      (X'.Holds n fun i => .num (x' i)) ∧ ∀ i < n, |x' i - x i| ≤ 1000 * (κ ^ 2 * Z ^ 2) * 2 ^ (-(p : ℤ)) * X := by
  have hp1 : 1 ≤ p := by omega
  have hr := isRel_rne p hp1
  have hu := small_unit hp
  have hgam := gam_eleven hr.nonneg hu
  have hgam0 : 0 ≤ gam (2 ^ (-(p : ℤ)) : ℝ) 11 := by
    have := one_le_inv₀ (Fac.gpos hr.lt_one 11) |>.2 (Fac.gle hr.nonneg hr.lt_one 11)
    unfold gam; linarith
  have hu0 := hr.nonneg
  have hκ := h.one_le (by omega)
  have hX0 : 0 ≤ X := (abs_nonneg _).trans (hX 0 (by omega))
  have hκu : 320 * (κ * 2 ^ (-(p : ℤ))) ≤ 1 := by
    have h0 : 0 ≤ κ * 2 ^ (-(p : ℤ)) := by positivity
    have h1 : 1 ≤ κ * Z := one_le_mul_of_one_le_of_one_le hκ hZ1
    have := mul_le_mul_of_nonneg_right h1 h0
    linarith
  have hbound : 0 ≤ κ * 2 ^ (-(p : ℤ)) * X ∧ κ * 2 ^ (-(p : ℤ)) * X ≤ κ ^ 2 * Z ^ 2 * 2 ^ (-(p : ℤ)) * X := by
    have h0 : 0 ≤ κ * 2 ^ (-(p : ℤ)) * X := by positivity
    have h1 : 1 ≤ κ * Z ^ 2 := one_le_mul_of_one_le_of_one_le hκ (one_le_pow₀ hZ1)
    have := mul_le_mul_of_nonneg_right h1 h0
    exact ⟨h0, by linarith⟩
  by_cases hab : α = 0 ∧ β = 0
  · -- no corner entries: the plain solver
    obtain ⟨rfl, rfl⟩ := hab
    obtain ⟨s1, s2⟩ := solve_float hp hn ha hc h r
    obtain ⟨X', e, hX', -⟩ := s2 A B C R Xb hA hB hC hR hXb
    refine ⟨X', _, ?_, hX', fun i hi => ?_⟩
    · rw [← e]
      simp only [solveCyclic, show ¬ n ≤ 2 by omega, if_false, Fl.zero_def, Fl.num_beq, decide_true, Bool.and_self, if_true]
    · refine (near_err (by omega) h hgam0 hgam (by linarith) s1 hx hX i hi).trans ?_
      linarith
  -- the perturbed system
  obtain ⟨b', hb'1, hb'2, hb'3, h', hZ'⟩ := cyc_near hp hn h hZ1 hκu hZ
  obtain ⟨x1, hx1⟩ := h'.exists (by omega) r
  set u : ℝ := 2 ^ (-(p : ℤ)) with hud
  -- its solution is close
  have hb'0 : b' 0 = b 0 := hb'1 0 (by omega)
  have : Nonempty (Fin n) := ⟨⟨0, by omega⟩⟩
  obtain ⟨i0, -, hmax⟩ := Finset.exists_max_image (Finset.univ : Finset (Fin n)) (fun i => |x1 i|) Finset.univ_nonempty
  have hx1m : ∀ j < n, |x1 j| ≤ |x1 i0| := fun j hj => hmax ⟨j, hj⟩ (Finset.mem_univ _)
  have hdiff : ∀ j < n, |x1 j - x j| ≤ κ * (301 / 100 * (u * |x1 i0|)) := by
    refine h.bound (e := fun j => x1 j - x j) (by positivity) fun i hi => ?_
    rw [crow_sub, hx i hi, ← hx1 i hi]
    have e : crow n a b c α β x1 i - crow n a b' c α β x1 i = (b i - b' i) * x1 i := by
      unfold crow row; simp only [smul_eq_mul]; ring
    rw [e, abs_mul, abs_sub_comm]
    by_cases hil : i = n - 1
    · subst hil
      have := mul_le_mul hb'2 (hx1m _ hi) (abs_nonneg _) ((abs_nonneg _).trans hb'2)
      linarith
    · rw [hb'1 i (by omega), sub_self, abs_zero, zero_mul]
      have := coff_nonneg n a c α β i
      positivity
  have hx1X : ∀ i < n, |x1 i| ≤ 102 / 100 * X := by
    intro i hi
    have h1 := hdiff i0 i0.2
    have h2 := hX i0 i0.2
    have h3 := abs_sub_abs_le_abs_sub (x1 i0) (x i0)
    have h4 := mul_le_mul_of_nonneg_right hκu (abs_nonneg (x1 i0))
    have := hx1m i hi
    linarith
  -- what the two calls of `solve` compute
  have eD : ∀ i < n, cycDiag n (fun i => (.num (b i) : Fl ℝ (rne p))) (.num α) (.num β) i = .num (auxDiag n b' α β i) := by
    intro i hi
    have hb0 : b 0 ≠ 0 := abs_pos.1 (h.first hn).1
    by_cases c1 : i = 0
    · subst c1
      have e1 : auxDiag n b' α β 0 = 2 * b 0 := by simp [auxDiag, hb'0]
      rw [e1]
      simp only [cycDiag, if_true, Fl.num_neg, Fl.num_sub]
      congr 1
      rw [sub_neg_eq_add, ← two_mul]
      refine rne_of_rep hp1 ?_
      have := (hb 0).mul_zpow 1
      rw [mul_comm]
      simpa using this
    · by_cases c2 : i + 1 = n
      · have hil : i = n - 1 := by omega
        subst hil
        rw [hb'3]
        simp [cycDiag, c1, c2, hb0]
      · have e1 : auxDiag n b' α β i = b i := by
          unfold auxDiag; rw [if_neg c1, if_neg c2]; exact hb'1 i (by omega)
        rw [e1]
        simp [cycDiag, c1, c2]
  have eR : ∀ i < n, cycRhs n (fun i => (.num (b i) : Fl ℝ (rne p))) (.num α) i = .num (auxRhs n b' α i) := by
    intro i hi
    unfold cycRhs auxRhs
    rw [hb'0]
    split_ifs <;> simp [Fl.zero_def]
  have hD' := h'.aux hn
  obtain ⟨sy, hy⟩ := solve_float hp hn ha hc hD' r
  obtain ⟨sz, hz⟩ := solve_float hp hn ha hc hD' (auxRhs n b' α)
  set y' := rsol (rne p) a (auxDiag n b' α β) c r n with hy'
  set z' := rsol (rne p) a (auxDiag n b' α β) c (auxRhs n b' α) n with hz'
  obtain ⟨hD0, hfin⟩ := CycDom.float (X := 102 / 100 * X) (Z := 102 / 100 * Z) hr hu hn h' (by linarith) hZ' (by
    have : 300 * (102 / 100 * κ * (102 / 100 * κ * (102 / 100 * Z) * u)) ≤ 320 * (κ ^ 2 * Z) * u := by
      have : 0 ≤ κ ^ 2 * Z * u := by positivity
      linarith
    exact this.trans hs) hx1 hx1X hgam0 hgam sy sz
  have hab' : ((.num α : Fl ℝ (rne p)) == 0 && (.num β : Fl ℝ (rne p)) == 0) = false := by
    rw [Fl.zero_def, Fl.num_beq, Fl.num_beq, Bool.eq_false_iff]
    simpa using hab
  obtain ⟨X', e, hX'⟩ := cyclic_run n hn (fun i => (.num (b i) : Fl ℝ (rne p))) (.num α) (.num β) A B C R Xb hB hXb hab'
    (fun i => .num (y' i)) (fun i => .num (z' i))
    (fun B' hB' => hy A B' C R Xb hA ⟨hB'.1, fun i hi => (hB'.2 i hi).trans (by rw [eD i hi])⟩ hC hR hXb)
    (fun B' U Zb hB' hU hZb => by
      obtain ⟨Z', k1, k2, -⟩ := hz A B' C U Zb hA ⟨hB'.1, fun i hi => (hB'.2 i hi).trans (by rw [eD i hi])⟩ hC
        ⟨hU.1, fun i hi => (hU.2 i hi).trans (by rw [eR i hi])⟩ hZb
      exact ⟨Z', k1, k2⟩)
  rw [hb'0] at hD0 hfin
  have hb0 : -b 0 ≠ 0 := neg_ne_zero.2 (abs_pos.1 (h.first hn).1)
  refine ⟨X', fun i => rne p (y' i - rne p (rne p (rne p (y' 0 + rne p (rne p (β * y' (n - 1)) / -b 0)) /
        rne p (rne p (1 + z' 0) + rne p (rne p (β * z' (n - 1)) / -b 0))) * z' i)),
    e, ⟨hX'.1, fun i hi => (hX'.2 i hi).trans ?_⟩, fun i hi => ?_⟩
  · simp only [Fl.one_def, Fl.num_mul, Fl.num_neg, Fl.num_div, if_neg hb0, Fl.num_add, if_neg hD0, Fl.num_sub]
  · have h1 := hfin i hi
    have h2 := hdiff i hi
    have h3 := hx1X i0 i0.2
    have h4 := mul_le_mul_of_nonneg_left h3 (show 0 ≤ κ * u by positivity)
    refine (abs_sub_le _ (x1 i) _).trans ?_
    obtain ⟨w1, w2⟩ := hbound
    have e5 : 861 * (102 / 100 * κ * (102 / 100 * κ) * (102 / 100 * Z) * (102 / 100 * Z) * u * (102 / 100 * X)) ≤
        955 * (κ ^ 2 * Z ^ 2 * u * X) := by
      have : 0 ≤ κ ^ 2 * Z ^ 2 * u * X := by positivity
      linarith
    linarith

/-- C162, what holds: for dominant cyclic systems of any size the solver reports success, and the numbers it
computes are within `1000 κ⁴` rounding errors of the solution, relative to its largest component.  Missing: other
systems, for which the claim is false. -/
theorem C162_dominant_partial (hb : ∀ i, Rep p (b i)) {α β κ X : ℝ} {r x : ℕ → ℝ} (A B C R Xb : Buf (Fl ℝ (rne p)))
    (hA : A.Holds (n - 1) fun i => .num (a i)) (hB : B.Holds n fun i => .num (b i))
    (hC : C.Holds (n - 1) fun i => .num (c i)) (hR : R.Holds n fun i => .num (r i)) (hXb : n ≤ Xb.size)
    (h : RowDominant (cyclicTridiag n a b c α β) κ) (hs : 320 * κ ^ 3 * 2 ^ (-(p : ℤ)) ≤ 1)
    (hx : ((cyclicTridiag n a b c α β).mulVec fun i => x i) = (fun i : Fin n => r i)) (hX : ∀ i < n, |x i| ≤ X) :
    ∃ (X' : Buf (Fl ℝ (rne p))) (x' : ℕ → ℝ), solveCyclic A B C (.num α) (.num β) R Xb n = .ok (true, X') ∧
      (X'.Holds n fun i => .num (x' i)) ∧ ∀ i < n, |x' i - x i| ≤ 1000 * κ ^ 4 * 2 ^ (-(p : ℤ)) * X := by
  have h' := h.cycDom hn
  have hκ := h'.one_le (by omega)
  have hZ : |α| ≤ κ * (|auxDiag n b α β (n - 1)| - offdiag n a c (n - 1)) := by
    obtain ⟨g1, g2⟩ := h' (n - 1) (by omega)
    rw [cyc_last_eq hn] at g1 g2
    have e2 : auxDiag n b α β (n - 1) = b (n - 1) + α * β / b 0 := by
      unfold auxDiag; rw [if_neg (by omega), if_pos (by omega)]
    have h4 := h'.corner hn
    have h5 := abs_sub_abs_le_abs_sub (b (n - 1)) (-(α * β / b 0))
    rw [abs_neg, sub_neg_eq_add, ← e2] at h5
    have h6 : κ * (|b (n - 1)| - (offdiag n a c (n - 1) + |α|)) ≤ κ * (|auxDiag n b α β (n - 1)| - offdiag n a c (n - 1)) :=
      mul_le_mul_of_nonneg_left (by linarith) (by linarith)
    have := offdiag_nonneg n a c (n - 1)
    have := abs_nonneg (b (n - 1))
    linarith
  obtain ⟨X', x', e, h1, h2⟩ := cyclic_float hp hn ha hc hb A B C R Xb hA hB hC hR hXb h' hκ hZ
    (by rw [show κ ^ 2 * κ = κ ^ 3 by ring]; exact hs) (cyc_rows hn hx) hX
  exact ⟨X', x', e, h1, fun i hi => (h2 i hi).trans (by rw [show κ ^ 2 * κ ^ 2 = κ ^ 4 by ring])⟩

/-- If the product of the corners has the sign of the product of the first and the last diagonal entry, as for
symmetric matrices with a positive diagonal, `1000 κ²` rounding errors are enough. -/
theorem C162_same_sign_partial (hb : ∀ i, Rep p (b i)) {α β κ X : ℝ} {r x : ℕ → ℝ} (A B C R Xb : Buf (Fl ℝ (rne p)))
    (hA : A.Holds (n - 1) fun i => .num (a i)) (hB : B.Holds n fun i => .num (b i))
    (hC : C.Holds (n - 1) fun i => .num (c i)) (hR : R.Holds n fun i => .num (r i)) (hXb : n ≤ Xb.size)
    (h : RowDominant (cyclicTridiag n a b c α β) κ) (hsign : 0 ≤ α * β * (b 0 * b (n - 1)))
    (hs : 320 * κ ^ 2 * 2 ^ (-(p : ℤ)) ≤ 1)
    (hx : ((cyclicTridiag n a b c α β).mulVec fun i => x i) = (fun i : Fin n => r i)) (hX : ∀ i < n, |x i| ≤ X) :
    ∃ (X' : Buf (Fl ℝ (rne p))) (x' : ℕ → ℝ), solveCyclic A B C (.num α) (.num β) R Xb n = .ok (true, X') ∧
      (X'.Holds n fun i => .num (x' i)) ∧ ∀ i < n, |x' i - x i| ≤ 1000 * κ ^ 2 * 2 ^ (-(p : ℤ)) * X := by
  have h' := h.cycDom hn
  have hZ : |α| ≤ 1 * (|auxDiag n b α β (n - 1)| - offdiag n a c (n - 1)) := by
    obtain ⟨g1, -⟩ := h' (n - 1) (by omega)
    rw [cyc_last_eq hn] at g1
    have e2 : auxDiag n b α β (n - 1) = b (n - 1) + α * β / b 0 := by
      unfold auxDiag; rw [if_neg (by omega), if_pos (by omega)]
    have hb0 : b 0 ≠ 0 := abs_pos.1 (h'.first hn).1
    have h5 : 0 ≤ b (n - 1) * (α * β / b 0) := by
      have e : b (n - 1) * (α * β / b 0) = α * β * (b 0 * b (n - 1)) / b 0 ^ 2 := by field_simp
      rw [e]; positivity
    have h6 : |b (n - 1)| ≤ |b (n - 1) + α * β / b 0| := by
      rw [← sq_le_sq]
      nlinarith [sq_nonneg (α * β / b 0)]
    rw [e2]; linarith
  obtain ⟨X', x', e, h1, h2⟩ := cyclic_float hp hn ha hc hb A B C R Xb hA hB hC hR hXb h' le_rfl hZ
    (by rw [mul_one]; exact hs) (cyc_rows hn hx) hX
  exact ⟨X', x', e, h1, fun i hi => (h2 i hi).trans (by rw [one_pow, mul_one])⟩
end

/-- A dominant system has exactly one solution. -/
theorem C162_unique {n : ℕ} (hn : 2 < n) {a b c : ℕ → ℝ} {α β κ : ℝ} (h : RowDominant (cyclicTridiag n a b c α β) κ)
    (r : Fin n → ℝ) : ∃! x : Fin n → ℝ, (cyclicTridiag n a b c α β).mulVec x = r := by
  have h' := h.cycDom hn
  have hM : ∀ (v : Fin n → ℝ) (w : ℕ → ℝ), (∀ i : Fin n, w i = v i) → ∀ i : Fin n,
      (cyclicTridiag n a b c α β).mulVec v i = crow n a b c α β w i := fun v w hw i =>
    mulVec_cyclic n (by omega) a b c α β v w hw i
  obtain ⟨x, hx⟩ := h'.exists (by omega) (fun j => if hj : j < n then r ⟨j, hj⟩ else 0)
  refine ⟨fun i => x i, ?_, fun y hy => ?_⟩
  · ext i
    rw [hM _ x (fun _ => rfl), hx i i.2]; simp
  · set w : ℕ → ℝ := fun j => if hj : j < n then y ⟨j, hj⟩ else 0 with hw
    have hb := h'.bound (e := fun j => w j - x j) le_rfl (fun i hi => by
      have h1 := congrFun hy ⟨i, hi⟩
      rw [hM y w (fun i => by simp [hw])] at h1
      rw [crow_sub, hx i hi]
      simp only [hi, dif_pos]
      rw [h1]; simp)
    ext i
    have h3 := hb i i.2
    rw [mul_zero] at h3
    have h4 := sub_eq_zero.1 (abs_eq_zero.1 (le_antisymm h3 (abs_nonneg _)))
    rw [← h4, hw]; simp

theorem ones_dominant {n : ℕ} (hn : 2 < n) : RowDominant (cyclicTridiag n (fun _ => 1) (fun _ => 4) (fun _ => 1) 1 1) 3 := by
  intro i
  rw [cyc_off hn, cyc_diag hn]
  have hi := i.2
  have : coff n (fun _ => 1) (fun _ => 1) 1 1 i ≤ 2 := by
    unfold coff offdiag
    split_ifs <;> first | omega | norm_num
  have := coff_nonneg n (fun _ => 1) (fun _ => 1) 1 1 i
  rw [abs_of_pos (by norm_num : (0 : ℝ) < 4)]
  constructor <;> linarith

/-- The system of a closed spline, `1 4 1` with ones in the corners, for `double`: it is solved within `10^-11` of
the largest component, for any number of points. -/
theorem C162_ones_partial {n : ℕ} (hn : 2 < n) {X : ℝ} {r x : ℕ → ℝ} (A B C R Xb : Buf (Fl ℝ (rne 53)))
    (hA : A.Holds (n - 1) fun _ => .num 1) (hB : B.Holds n fun _ => .num 4)
    (hC : C.Holds (n - 1) fun _ => .num 1) (hR : R.Holds n fun i => .num (r i)) (hXb : n ≤ Xb.size)
    (hx : ((cyclicTridiag n (fun _ => 1) (fun _ => 4) (fun _ => 1) 1 1).mulVec fun i => x i) = (fun i : Fin n => r i))
    (hX : ∀ i < n, |x i| ≤ X) :
    ∃ (X' : Buf (Fl ℝ (rne 53))) (x' : ℕ → ℝ), solveCyclic A B C 1 1 R Xb n = .ok (true, X') ∧
      (X'.Holds n fun i => .num (x' i)) ∧ ∀ i < n, |x' i - x i| ≤ 1 / 10 ^ 11 * X := by
  have r1 : Rep 53 (1 : ℝ) := by simpa using Rep.int (K := ℝ) (p := 53) 1 (by norm_num)
  have r4 : Rep 53 (4 : ℝ) := by simpa using Rep.int (K := ℝ) (p := 53) 4 (by norm_num)
  obtain ⟨X', x', e, h1, h2⟩ := C162_same_sign_partial (p := 53) (by norm_num) hn (fun _ => r1) (fun _ => r1) (fun _ => r4)
    A B C R Xb hA hB hC hR hXb (ones_dominant hn) (by norm_num) (by norm_num) hx hX
  refine ⟨X', x', e, h1, fun i hi => (h2 i hi).trans ?_⟩
  have hX0 : 0 ≤ X := (abs_nonneg _).trans (hX 0 (by omega))
  refine mul_le_mul_of_nonneg_right ?_ hX0
  norm_num

/-- `1 4 1` with the corners 1 meets the hypotheses for `float`, for every size above 2. -/
example (n : ℕ) (hn : 2 < n) : RowDominant (cyclicTridiag n (fun _ => 1) (fun _ => 4) (fun _ => 1) 1 1) 3 ∧
    Rep 24 (1 : ℝ) ∧ Rep 24 (4 : ℝ) ∧ (320 * 3 ^ 3 * 2 ^ (-(24 : ℤ)) : ℝ) ≤ 1 ∧ (320 * 3 ^ 2 * 2 ^ (-(24 : ℤ)) : ℝ) ≤ 1 :=
  ⟨ones_dominant hn, by simpa using Rep.int (K := ℝ) (p := 24) 1 (by norm_num),
    by simpa using Rep.int (K := ℝ) (p := 24) 4 (by norm_num), by norm_num, by norm_num⟩

/-- A run in `float`: the right-hand side `6, 6, 12` has the solution `2/3, 2/3, 8/3`. -/
example : (solveCyclic (Buf.ofList [1, 1]) (Buf.ofList [.num 4, .num 4, .num 4]) (Buf.ofList [1, 1]) 1 1
      (Buf.ofList [.num 6, .num 6, .num 12]) (Buf.alloc 3 : Buf F32) 3).map (fun q => q.1) = .ok true := by decide +kernel

end MathLib
