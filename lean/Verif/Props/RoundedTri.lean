import Verif.Proof.TriRound
import Verif.Proof.TriSolve
import Mathlib.Data.Rat.Floor
import Mathlib.Tactic.IntervalCases

/-! # Property C140: the tridiagonal solver in floating point

The numbers the solver computes are the exact solution of another system.  The question is how far that
system is from the given one. -/

namespace MathLib
open TriDiagonal

/-- `x` is the exact solution of a system in which no coefficient differs from that of the tridiagonal
system by more than the part `ε`, and the right-hand side is the same. -/
def SolvesNearby {K : Type} [Field K] [LinearOrder K] (n : ℕ) (a b c r x : ℕ → K) (ε : K) : Prop :=
  ∃ A : Matrix (Fin n) (Fin n) K, (∀ i j, |A i j - tridiag n a b c i j| ≤ ε * |tridiag n a b c i j|) ∧
    A.mulVec (fun i => x i) = fun i : Fin n => r i

/-- no diagonal entry is smaller than the other entries of its row together -/
def Dominant (n : ℕ) (a b c : ℕ → ℝ) : Prop :=
  ∀ i < n, (if 0 < i then |a (i - 1)| else 0) + (if i + 1 < n then |c i| else 0) ≤ |b i|

/-- The claim, for `float`: if the solver reports success then what it computed solves a nearby system, the
coefficients being off by 12 units of `2^-24`. -/
def C140_full : Prop :=
  ∀ (n : ℕ) (a b c r x : ℕ → ℚ) (A B C R U U' : Buf F32), 0 < n →
    (∀ i, Rep 24 (a i) ∧ Rep 24 (b i) ∧ Rep 24 (c i) ∧ Rep 24 (r i)) →
    (A.Holds (n - 1) fun i => .num (a i)) → (B.Holds n fun i => .num (b i)) → (C.Holds (n - 1) fun i => .num (c i)) →
    (R.Holds n fun i => .num (r i)) → TriDiagonal.solve A B C R U n = .ok (true, U') →
    (U'.Holds n fun i => .num (x i)) → SolvesNearby n a b c r x (12 * 2 ^ (-24 : ℤ))

/-- The claim is false: for the coefficients `2^-30, 1; 1, 1` and the right-hand side `1, 2` the solver reports
success and `0, 1`, although the solution is close to `1, 1`.  There is no nearby system with the solution
`0, 1`, even if the coefficients may be off by any part less than all of them. -/
theorem C140_refuted : ¬ C140_full ∧
    (TriDiagonal.solve (Buf.ofList [1]) (Buf.ofList [.num (2 ^ (-30 : ℤ)), 1]) (Buf.ofList [1]) (Buf.ofList [1, .num 2])
      (Buf.alloc 2) 2).map (fun p => (p.1, p.2.toList)) = .ok (true, [some (.num 0 : F32), some (.num 1)]) ∧
    ∀ (a b c r x : ℕ → ℚ) (ε : ℚ), b 1 = 1 → r 1 = 2 → x 0 = 0 → x 1 = 1 → ε < 1 → ¬ SolvesNearby 2 a b c r x ε := by
  have h3 : ∀ (a b c r x : ℕ → ℚ) (ε : ℚ), b 1 = 1 → r 1 = 2 → x 0 = 0 → x 1 = 1 → ε < 1 →
      ¬ SolvesNearby 2 a b c r x ε := by
    rintro a b c r x ε hb hr h0 h1 he ⟨A, hA, hx⟩
    have e := congrFun hx 1
    have k := hA 1 1
    simp [Matrix.mulVec, dotProduct, Fin.sum_univ_two, h0, h1, hr, tridiag, hb] at e k
    rw [e] at k
    norm_num at k
    linarith
  have h2 : (TriDiagonal.solve (Buf.ofList [1]) (Buf.ofList [.num (2 ^ (-30 : ℤ)), 1]) (Buf.ofList [1])
      (Buf.ofList [1, .num 2]) (Buf.alloc 2) 2).map (fun p => (p.1, p.2.toList)) =
        .ok (true, [some (.num 0 : F32), some (.num 1)]) := by decide +kernel
  refine ⟨fun h => ?_, h2, h3⟩
  obtain ⟨⟨ret, U'⟩, e⟩ : ∃ q, TriDiagonal.solve (Buf.ofList [1]) (Buf.ofList [.num (2 ^ (-30 : ℤ)), 1]) (Buf.ofList [1])
      (Buf.ofList [1, .num 2]) (Buf.alloc 2 : Buf F32) 2 = .ok q := by
    cases k : TriDiagonal.solve (Buf.ofList [1]) (Buf.ofList [.num (2 ^ (-30 : ℤ)), 1]) (Buf.ofList [1])
      (Buf.ofList [1, .num 2]) (Buf.alloc 2 : Buf F32) 2 with
    | error f => rw [k] at h2; cases h2
    | ok q => exact ⟨q, rfl⟩
  rw [e] at h2
  simp only [Except.map, Except.ok.injEq, Prod.mk.injEq] at h2
  obtain ⟨rfl, hl⟩ := h2
  have hs : U'.size = 2 := by simpa [Buf.toList] using congrArg List.length hl
  simp only [Buf.toList, hs] at hl
  norm_num [List.range_succ] at hl
  refine h3 (fun _ => 1) (fun i => if i = 0 then 2 ^ (-30 : ℤ) else 1) (fun _ => 1)
    (fun i => if i = 0 then 1 else 2) (fun i => if i = 0 then 0 else 1) _ rfl rfl rfl rfl ?_
    (h 2 _ _ _ _ _ _ _ _ _ _ _ two_pos ?_ ?_ ?_ ?_ ?_ e ?_)
  · norm_num
  · intro i
    refine ⟨by simpa using Rep.int (K := ℚ) (p := 24) 1 (by norm_num), ?_,
      by simpa using Rep.int (K := ℚ) (p := 24) 1 (by norm_num), ?_⟩
    · by_cases h : i = 0
      · rw [if_pos h]; exact Rep.zpow _
      · rw [if_neg h]; simpa using Rep.int (K := ℚ) (p := 24) 1 (by norm_num)
    · by_cases h : i = 0
      · rw [if_pos h]; simpa using Rep.int (K := ℚ) (p := 24) 1 (by norm_num)
      · rw [if_neg h]; simpa using Rep.int (K := ℚ) (p := 24) 2 (by norm_num)
  · exact ⟨by simp [Buf.ofList], fun i hi => by interval_cases i; rfl⟩
  · exact ⟨by simp [Buf.ofList], fun i hi => by interval_cases i <;> rfl⟩
  · exact ⟨by simp [Buf.ofList], fun i hi => by interval_cases i; rfl⟩
  · exact ⟨by simp [Buf.ofList], fun i hi => by interval_cases i <;> rfl⟩
  · refine ⟨hs.ge, fun i hi => ?_⟩
    interval_cases i
    · exact hl.1
    · exact hl.2

section
variable {p : ℕ} (hp : 1 ≤ p) (n : ℕ) (hn : 0 < n) (a b c : ℕ → ℝ)
  (ha : ∀ i, Rep p (a i)) (hc : ∀ i, Rep p (c i))
include hp hn ha hc

omit hn in
theorem rsol_nearby (r : ℕ → ℝ) (hd : Dominant n a b c) (hz : ∀ j < n, rpiv (rne p) a b c j ≠ 0) :
    SolvesNearby n a b c r (rsol (rne p) a b c r n) (gam (2 ^ (-(p : ℤ))) 11) := by
  have hr := isRel_rne p hp
  have hu0 := hr.nonneg
  have hu1 := hr.lt_one
  obtain ⟨a', b', c', k1, k2, k3, k4⟩ := rsol_backward hr n a b c r hz
  have hg : ∀ m, 0 ≤ MathLib.gam (2 ^ (-(p : ℤ)) : ℝ) m := fun m => by
    have := Fac.gle hu0 hu1 m
    have := one_le_inv₀ (Fac.gpos hu1 m) |>.2 this
    unfold MathLib.gam; linarith
  have hadd : ∀ m k, MathLib.gam (2 ^ (-(p : ℤ)) : ℝ) m + MathLib.gam (2 ^ (-(p : ℤ))) k ≤
      MathLib.gam (2 ^ (-(p : ℤ))) (m + k) := fun m k => by
    have e : MathLib.gam (2 ^ (-(p : ℤ)) : ℝ) (m + k) = (1 + MathLib.gam (2 ^ (-(p : ℤ)) : ℝ) m) *
        (1 + MathLib.gam (2 ^ (-(p : ℤ)) : ℝ) k) - 1 := by
      simp only [MathLib.gam, pow_add, mul_inv]; ring
    rw [e]; nlinarith [mul_nonneg (hg m) (hg k)]
  have hmono : ∀ m k, m ≤ k → MathLib.gam (2 ^ (-(p : ℤ)) : ℝ) m ≤ MathLib.gam (2 ^ (-(p : ℤ))) k := fun m k h => by
    obtain ⟨d, rfl⟩ := Nat.exists_eq_add_of_le h
    linarith [hadd m d, hg d]
  have hb : ∀ j < n, |b' j - b j| ≤ MathLib.gam (2 ^ (-(p : ℤ))) 11 * |b j| := by
    intro j hj
    refine (k3 j).trans ?_
    by_cases h0 : 0 < j
    · obtain ⟨i, rfl⟩ : ∃ i, j = i + 1 := ⟨j - 1, by omega⟩
      have hgm := (rgam_le_one n a b c (rne_mono p hp) (rne_neg p) (rne_of_rep hp (by simpa using Rep.zpow (K := ℝ) (p := p) 0))
        (fun i => rne_of_rep hp (ha i)) (fun i => rne_of_rep hp (hc i)) hd i hj fun k hk => hz k (by omega)).2
      have hab : |a i| ≤ |b (i + 1)| := by
        have := hd (i + 1) hj
        simp only [Nat.succ_pos, if_true, Nat.add_sub_cancel] at this
        have h3 : 0 ≤ (if i + 1 + 1 < n then |c (i + 1)| else 0) := by split_ifs <;> positivity
        linarith
      simp only [Nat.succ_pos, if_true, Nat.add_sub_cancel]
      have : |a i * rgam (rne p) a b c (i + 1)| ≤ |b (i + 1)| := by
        rw [abs_mul]; exact (mul_le_of_le_one_right (abs_nonneg _) hgm).trans hab
      have h5 := mul_le_mul_of_nonneg_left this (add_nonneg (hg 2) (hg 5))
      have h6 : MathLib.gam (2 ^ (-(p : ℤ)) : ℝ) 4 + (MathLib.gam (2 ^ (-(p : ℤ))) 2 + MathLib.gam (2 ^ (-(p : ℤ))) 5) ≤
          MathLib.gam (2 ^ (-(p : ℤ))) 11 := by
        have h7 := hadd 2 5
        have h8 := hadd 4 7
        norm_num at h7 h8
        norm_num
        linarith
      have h9 := mul_le_mul_of_nonneg_right h6 (abs_nonneg (b (i + 1)))
      linarith
    · rw [if_neg h0, add_zero]
      exact mul_le_mul_of_nonneg_right (hmono 4 11 (by norm_num)) (abs_nonneg _)
  refine ⟨tridiag n a' b' c', fun i j => ?_, ?_⟩
  · unfold tridiag
    split_ifs with h1 h2 h3
    · exact hb i i.2
    · exact (k1 j).trans (mul_le_mul_of_nonneg_right (hmono 2 11 (by norm_num)) (abs_nonneg _))
    · exact (k2 i).trans (mul_le_mul_of_nonneg_right (hmono 4 11 (by norm_num)) (abs_nonneg _))
    · simp
  · ext i
    rw [mulVec_tridiag n a' b' c' _ (rsol (rne p) a b c r n) (fun _ => rfl)]
    exact k4 i i.2

/-- C140, what holds: for diagonally dominant systems of any size the solver either reports failure, or it
has computed the exact solution of a nearby system, with coefficients off by 11 rounding errors at
most.  If the dominance is strict it succeeds.  Missing: other systems, for which the claim is false. -/
theorem C140_dominant_partial (r : ℕ → ℝ) (A B C R U : Buf (Fl ℝ (rne p)))
    (hA : A.Holds (n - 1) fun i => .num (a i)) (hB : B.Holds n fun i => .num (b i))
    (hC : C.Holds (n - 1) fun i => .num (c i)) (hR : R.Holds n fun i => .num (r i)) (hU : n ≤ U.size)
    (hd : Dominant n a b c) :
    ∃ ret U', TriDiagonal.solve A B C R U n = .ok (ret, U') ∧
      (ret = true → ∃ x : ℕ → ℝ, (U'.Holds n fun i => .num (x i)) ∧
        SolvesNearby n a b c r x (gam (2 ^ (-(p : ℤ))) 11)) ∧
      ((∀ i < n, (if 0 < i then |a (i - 1)| else 0) + (if i + 1 < n then |c i| else 0) < |b i|) → ret = true) := by
  obtain ⟨h1, h2⟩ := solve_num n hn a b c r A B C R U hA hB hC hR hU
  by_cases hz : ∀ j < n, rpiv (rne p) a b c j ≠ 0
  · obtain ⟨U', e, hU', -⟩ := h1 hz
    exact ⟨true, U', e, fun _ => ⟨_, hU', rsol_nearby hp n a b c ha hc r hd hz⟩, fun _ => rfl⟩
  · have hz' := hz
    push Not at hz
    obtain ⟨U', e⟩ := h2 hz
    refine ⟨false, U', e, by simp, fun hs => absurd ?_ hz'⟩
    exact rpiv_ne_zero n a b c (rne_mono p hp) (rne_neg p) (rne_of_rep hp (by simpa using Rep.zpow (K := ℝ) (p := p) 0))
      (fun x hx => by
        by_contra h0
        rcases lt_or_gt_of_ne h0 with h | h
        · have := rne_pos p hp (-x) (by linarith)
          rw [rne_neg, hx] at this; simp at this
        · have := rne_pos p hp x h
          rw [hx] at this; simp at this)
      (fun i => rne_of_rep hp (ha i)) (fun i => rne_of_rep hp (hc i)) hs

/-- The same for `Vec3` right-hand sides, in every component. -/
theorem C140_dominant_vec3_partial (r : ℕ → Vec3 ℝ) (A B C : Buf (Fl ℝ (rne p))) (R U : Buf (Vec3 (Fl ℝ (rne p))))
    (hA : A.Holds (n - 1) fun i => .num (a i)) (hB : B.Holds n fun i => .num (b i))
    (hC : C.Holds (n - 1) fun i => .num (c i)) (hR : R.Holds n fun i => (r i).num) (hU : n ≤ U.size)
    (hd : Dominant n a b c) :
    ∃ ret U', TriDiagonal.solve3 A B C R U n = .ok (ret, U') ∧
      (ret = true → ∃ x : ℕ → Vec3 ℝ, (U'.Holds n fun i => (x i).num) ∧
        SolvesNearby n a b c (fun i => (r i).x) (fun i => (x i).x) (gam (2 ^ (-(p : ℤ))) 11) ∧
        SolvesNearby n a b c (fun i => (r i).y) (fun i => (x i).y) (gam (2 ^ (-(p : ℤ))) 11) ∧
        SolvesNearby n a b c (fun i => (r i).z) (fun i => (x i).z) (gam (2 ^ (-(p : ℤ))) 11)) ∧
      ((∀ i < n, (if 0 < i then |a (i - 1)| else 0) + (if i + 1 < n then |c i| else 0) < |b i|) → ret = true) := by
  obtain ⟨h1, h2⟩ := solve3_num n hn a b c r A B C R U hA hB hC hR hU
  by_cases hz : ∀ j < n, rpiv (rne p) a b c j ≠ 0
  · obtain ⟨U', e, hU', -⟩ := h1 hz
    exact ⟨true, U', e, fun _ => ⟨_, hU', rsol_nearby hp n a b c ha hc _ hd hz,
      rsol_nearby hp n a b c ha hc _ hd hz, rsol_nearby hp n a b c ha hc _ hd hz⟩, fun _ => rfl⟩
  · have hz' := hz
    push Not at hz
    obtain ⟨U', e⟩ := h2 hz
    refine ⟨false, U', e, by simp, fun hs => absurd ?_ hz'⟩
    exact rpiv_ne_zero n a b c (rne_mono p hp) (rne_neg p) (rne_of_rep hp (by simpa using Rep.zpow (K := ℝ) (p := p) 0))
      (fun x hx => by
        by_contra h0
        rcases lt_or_gt_of_ne h0 with h | h
        · have := rne_pos p hp (-x) (by linarith)
          rw [rne_neg, hx] at this; simp at this
        · have := rne_pos p hp x h
          rw [hx] at this; simp at this)
      (fun i => rne_of_rep hp (ha i)) (fun i => rne_of_rep hp (hc i)) hs
end

/-- the other entries of row `i` together -/
def offdiag (n : ℕ) (a c : ℕ → ℝ) (i : ℕ) : ℝ := (if 0 < i then |a (i - 1)| else 0) + (if i + 1 < n then |c i| else 0)

/-- What a nearby system means for the solution: if the entries of no row add up to more than `κ` times the
amount by which its diagonal entry dominates, the error of `x` is at most `κ ε` times the largest component of `x`,
and a change of the right-hand side by the part `ρ` of the row adds `κ ρ`. -/
theorem C140_error (n : ℕ) (a b c r r' x y : ℕ → ℝ) (ε ρ κ m : ℝ)
    (hd : ∀ i < n, offdiag n a c i < |b i|)
    (hκ : ∀ i < n, offdiag n a c i + |b i| ≤ κ * (|b i| - offdiag n a c i))
    (hm : ∀ i < n, |x i| ≤ m) (h0 : 0 ≤ ε) (hρ : 0 ≤ ρ) (hx : SolvesNearby n a b c r' x ε)
    (hy : ∀ i < n, row n a b c y i = r i)
    (hr : ∀ i < n, |r' i - r i| ≤ ρ * (offdiag n a c i + |b i|)) :
    ∀ i < n, |x i - y i| ≤ κ * (ε * m + ρ) := by
  obtain ⟨A, hA, hx⟩ := hx
  intro i0 hi0
  have : Nonempty (Fin n) := ⟨⟨i0, hi0⟩⟩
  obtain ⟨i, -, hmax⟩ := Finset.exists_max_image (Finset.univ : Finset (Fin n)) (fun i => |x i - y i|) Finset.univ_nonempty
  have hi := hmax ⟨i0, hi0⟩ (Finset.mem_univ _)
  refine hi.trans ?_
  set e : ℕ → ℝ := fun j => x j - y j with he
  -- the residual
  have hsum : ∀ f : ℕ → ℝ, ∑ j : Fin n, |tridiag n a b c i j| * f j =
      row n (fun j => |a j|) (fun j => |b j|) (fun j => |c j|) f i := by
    intro f
    rw [← row_eq_tridiag]
    refine Finset.sum_congr rfl fun j _ => ?_
    unfold tridiag
    split_ifs <;> simp
  have hres : row n a b c e i = (∑ j : Fin n, (tridiag n a b c i j - A i j) * x j) + (r' i - r i) := by
    have h1 := congrFun hx i
    have h2 := hy i i.2
    rw [← mulVec_tridiag n a b c _ y (fun _ => rfl)] at h2
    rw [← mulVec_tridiag n a b c _ e (fun _ => rfl)]
    simp only [Matrix.mulVec, dotProduct, he] at h1 h2 ⊢
    simp only [mul_sub, sub_mul, Finset.sum_sub_distrib, h1, h2]
    ring
  have hm0 : 0 ≤ m := (abs_nonneg _).trans (hm i0 hi0)
  have hres2 : |row n a b c e i| ≤ (ε * m + ρ) * (offdiag n a c i + |b i|) := by
    rw [hres]
    have : |∑ j : Fin n, (tridiag n a b c i j - A i j) * x j| ≤ ε * m * (offdiag n a c i + |b i|) :=
      calc |∑ j : Fin n, (tridiag n a b c i j - A i j) * x j|
        ≤ ∑ j : Fin n, |(tridiag n a b c i j - A i j) * x j| := Finset.abs_sum_le_sum_abs _ _
      _ ≤ ∑ j : Fin n, |tridiag n a b c i j| * (ε * m) := Finset.sum_le_sum fun j _ => by
          rw [abs_mul, abs_sub_comm]
          have := mul_le_mul (hA i j) (hm j j.2) (abs_nonneg _) (mul_nonneg h0 (abs_nonneg _))
          linarith [this]
      _ = row n (fun j => |a j|) (fun j => |b j|) (fun j => |c j|) (fun _ => ε * m) i := hsum fun _ => ε * m
      _ = ε * m * (offdiag n a c i + |b i|) := by
          simp only [row, smul_eq_mul, offdiag]
          split_ifs <;> ring
    refine (abs_add_le _ _).trans ?_
    have := hr i i.2
    linarith
  -- the largest component of the error
  have hle : ∀ j < n, |e j| ≤ |e i| := fun j hj => hmax ⟨j, hj⟩ (Finset.mem_univ _)
  have hrow : (|b i| - offdiag n a c i) * |e i| ≤ |row n a b c e i| := by
    have h1 : |if 0 < (i : ℕ) then a (i - 1) • e (i - 1) else 0| ≤ (if 0 < (i : ℕ) then |a (i - 1)| else 0) * |e i| := by
      split_ifs
      · rw [smul_eq_mul, abs_mul]
        exact mul_le_mul_of_nonneg_left (hle _ (by omega)) (abs_nonneg _)
      · simp
    have h2 : |if (i : ℕ) + 1 < n then c i • e (i + 1) else 0| ≤ (if (i : ℕ) + 1 < n then |c i| else 0) * |e i| := by
      split_ifs with h
      · rw [smul_eq_mul, abs_mul]
        exact mul_le_mul_of_nonneg_left (hle _ h) (abs_nonneg _)
      · simp
    unfold row
    have h4 : |b i • e i| = |b i| * |e i| := by rw [smul_eq_mul, abs_mul]
    have h5 := abs_sub_abs_le_abs_sub (b i • e i) (-((if 0 < (i : ℕ) then a (i - 1) • e (i - 1) else 0) +
      (if (i : ℕ) + 1 < n then c i • e (i + 1) else 0)))
    rw [sub_neg_eq_add, abs_neg, ← add_assoc, add_comm (b i • e i)] at h5
    have h6 := abs_add_le (if 0 < (i : ℕ) then a (i - 1) • e (i - 1) else 0)
      (if (i : ℕ) + 1 < n then c i • e (i + 1) else 0)
    unfold offdiag
    linarith
  have hpos := sub_pos.2 (hd i i.2)
  have hw : 0 ≤ ε * m + ρ := by positivity
  have h7 := mul_le_mul_of_nonneg_left (hκ i i.2) hw
  have h8 : (|b i| - offdiag n a c i) * |e i| ≤ (|b i| - offdiag n a c i) * (κ * (ε * m + ρ)) := by
    linarith
  exact le_of_mul_le_mul_left h8 hpos

/-- The system of the splines, `1 4 1`, is dominant with `κ = 3`, for every size; the hypotheses
on representable numbers hold too. -/
example (n : ℕ) : Dominant n (fun _ => 1) (fun _ => 4) (fun _ => 1) ∧
    (∀ i < n, offdiag n (fun _ => 1) (fun _ => 1) i < |(4 : ℝ)|) ∧
    (∀ i < n, offdiag n (fun _ => 1) (fun _ => 1) i + |(4 : ℝ)| ≤ 3 * (|(4 : ℝ)| - offdiag n (fun _ => 1) (fun _ => 1) i)) ∧
    Rep 24 (1 : ℝ) ∧ gam (2 ^ (-(24 : ℤ))) 11 ≤ (12 : ℝ) * 2 ^ (-24 : ℤ) := by
  refine ⟨fun i _ => ?_, fun i _ => ?_, fun i _ => ?_, by simpa using Rep.zpow (K := ℝ) (p := 24) 0, ?_⟩
  · split_ifs <;> norm_num
  · unfold offdiag; split_ifs <;> norm_num
  · unfold offdiag; split_ifs <;> norm_num
  · refine (gam_le (by norm_num) (by norm_num)).trans ?_
    norm_num

end MathLib
