import Verif.Proof.TriRun
import Verif.Proof.RelErr
import Verif.Proof.TriDiag

/-! # `TriDiagonal::solve` with rounding: the numbers it computes and the system they solve exactly -/

namespace MathLib
namespace TriDiagonal

section seqs
variable (rnd : ℝ → ℝ) (a b c r : ℕ → ℝ)

/-- computed pivots -/
noncomputable def rpiv : ℕ → ℝ
  | 0 => b 0
  | j + 1 => rnd (b (j + 1) - rnd (a j * rnd (c j / rpiv j)))
/-- computed multipliers -/
noncomputable def rgam (j : ℕ) : ℝ := rnd (c (j - 1) / rpiv rnd a b c (j - 1))
/-- computed by the forward loop -/
noncomputable def rfwd : ℕ → ℝ
  | 0 => rnd (r 0 / rpiv rnd a b c 0)
  | j + 1 => rnd (rnd (r (j + 1) - rnd (a j * rfwd j)) / rpiv rnd a b c (j + 1))
/-- computed by the backward loop, counted from the last index -/
noncomputable def rbwd (n : ℕ) : ℕ → ℝ
  | 0 => rfwd rnd a b c r (n - 1)
  | k + 1 => rnd (rfwd rnd a b c r (n - 1 - (k + 1)) - rnd (rgam rnd a b c (n - 1 - k) * rbwd n k))
noncomputable def rsol (n j : ℕ) : ℝ := rbwd rnd a b c r n (n - 1 - j)

theorem rsol_last (n : ℕ) : rsol rnd a b c r n (n - 1) = rfwd rnd a b c r (n - 1) := by
  simp [rsol, rbwd]
theorem rsol_step (n j : ℕ) (h : j + 1 < n) : rsol rnd a b c r n j =
    rnd (rfwd rnd a b c r j - rnd (rgam rnd a b c (j + 1) * rsol rnd a b c r n (j + 1))) := by
  unfold rsol
  have : n - 1 - j = (n - 1 - (j + 1)) + 1 := by omega
  rw [this, rbwd]
  have e1 : n - 1 - (n - 1 - (j + 1) + 1) = j := by omega
  have e2 : n - 1 - (n - 1 - (j + 1)) = j + 1 := by omega
  rw [e1, e2]
end seqs

variable {rnd : ℝ → ℝ}

/-- the scalar solver computes these numbers -/
theorem solve_num (n : ℕ) (hn : 0 < n) (a b c r : ℕ → ℝ) (A B C R U : Buf (Fl ℝ rnd))
    (hA : A.Holds (n - 1) fun i => .num (a i)) (hB : B.Holds n fun i => .num (b i))
    (hC : C.Holds (n - 1) fun i => .num (c i)) (hR : R.Holds n fun i => .num (r i)) (hU : n ≤ U.size) :
    ((∀ j < n, rpiv rnd a b c j ≠ 0) → ∃ U', TriDiagonal.solve A B C R U n = .ok (true, U') ∧
      (U'.Holds n fun i => .num (rsol rnd a b c r n i)) ∧ U'.size = U.size ∧ ∀ j, n ≤ j → U'.data j = U.data j) ∧
    ((∃ j < n, rpiv rnd a b c j = 0) → ∃ U', TriDiagonal.solve A B C R U n = .ok (false, U')) := by
  have e0 : (0 : Fl ℝ rnd) = .num 0 := rfl
  have hz : ∀ x : ℝ, ((Fl.num x : Fl ℝ rnd) == 0) = decide (x = 0) := fun x => by rw [e0, Fl.num_beq]
  have hz' : ∀ x : ℝ, ((Fl.num x : Fl ℝ rnd) == 0) = false → x ≠ 0 := fun x h => by simpa [hz] using h
  have := solveCore_run (K := Fl ℝ rnd) (V := Fl ℝ rnd) (fun x y => x - y) (fun x k => k * x) (fun x k => .ok (x / k))
    n hn (fun i => .num (a i)) (fun i => .num (b i)) (fun i => .num (c i)) (fun i => .num (rpiv rnd a b c i))
    (fun i => .num (rgam rnd a b c i)) (fun i => .num (r i)) (fun i => .num (rfwd rnd a b c r i))
    (fun i => .num (rsol rnd a b c r n i)) rfl
    (fun j h => by simp [rgam, hz' _ (h j le_rfl)])
    (fun j h => by simp [rgam, rpiv])
    (fun h => by simp [rfwd, hz' _ h])
    (fun j h => by simp [rfwd, hz' _ (h (j + 1) le_rfl)])
    (by simp [rsol_last])
    (fun j h => by simp [rsol_step rnd a b c r n j h]) A B C R U hA hB hC hR hU
  rw [TriDiagonal.solve, if_neg (by omega)]
  simpa [hz] using this

/-- the vector solver computes them in every component -/
theorem solve3_num (n : ℕ) (hn : 0 < n) (a b c : ℕ → ℝ) (r : ℕ → Vec3 ℝ) (A B C : Buf (Fl ℝ rnd))
    (R U : Buf (Vec3 (Fl ℝ rnd)))
    (hA : A.Holds (n - 1) fun i => .num (a i)) (hB : B.Holds n fun i => .num (b i))
    (hC : C.Holds (n - 1) fun i => .num (c i)) (hR : R.Holds n fun i => (r i).num) (hU : n ≤ U.size) :
    ((∀ j < n, rpiv rnd a b c j ≠ 0) → ∃ U', TriDiagonal.solve3 A B C R U n = .ok (true, U') ∧
      (U'.Holds n fun i => Vec3.num ⟨rsol rnd a b c (fun i => (r i).x) n i, rsol rnd a b c (fun i => (r i).y) n i,
        rsol rnd a b c (fun i => (r i).z) n i⟩) ∧ U'.size = U.size ∧ ∀ j, n ≤ j → U'.data j = U.data j) ∧
    ((∃ j < n, rpiv rnd a b c j = 0) → ∃ U', TriDiagonal.solve3 A B C R U n = .ok (false, U')) := by
  have e0 : (0 : Fl ℝ rnd) = .num 0 := rfl
  have hz : ∀ x : ℝ, ((Fl.num x : Fl ℝ rnd) == 0) = decide (x = 0) := fun x => by rw [e0, Fl.num_beq]
  have hz' : ∀ x : ℝ, ((Fl.num x : Fl ℝ rnd) == 0) = false → x ≠ 0 := fun x h => by simpa [hz] using h
  have hd : ∀ (v : Vec3 ℝ) (x : ℝ), x ≠ 0 → (Vec3.num v : Vec3 (Fl ℝ rnd)).div (.num x) =
      .ok (Vec3.num ⟨rnd (v.x / x), rnd (v.y / x), rnd (v.z / x)⟩) := fun v x hx => by
    simp [Vec3.div, hz, hx, Vec3.num]
  have hsub : ∀ v w : Vec3 ℝ, (Vec3.num v : Vec3 (Fl ℝ rnd)) - Vec3.num w =
      Vec3.num ⟨rnd (v.x - w.x), rnd (v.y - w.y), rnd (v.z - w.z)⟩ := fun v w => rfl
  have hmul : ∀ (v : Vec3 ℝ) (x : ℝ), (Vec3.num v : Vec3 (Fl ℝ rnd)) * (Fl.num x : Fl ℝ rnd) =
      Vec3.num ⟨rnd (v.x * x), rnd (v.y * x), rnd (v.z * x)⟩ := fun v x => rfl
  have := solveCore_run (K := Fl ℝ rnd) (V := Vec3 (Fl ℝ rnd)) (fun x y => x - y) (fun x k => x * k) Vec3.div
    n hn (fun i => .num (a i)) (fun i => .num (b i)) (fun i => .num (c i)) (fun i => .num (rpiv rnd a b c i))
    (fun i => .num (rgam rnd a b c i)) (fun i => (r i).num)
    (fun i => Vec3.num ⟨rfwd rnd a b c (fun i => (r i).x) i, rfwd rnd a b c (fun i => (r i).y) i,
        rfwd rnd a b c (fun i => (r i).z) i⟩)
    (fun i => Vec3.num ⟨rsol rnd a b c (fun i => (r i).x) n i, rsol rnd a b c (fun i => (r i).y) n i,
        rsol rnd a b c (fun i => (r i).z) n i⟩) rfl
    (fun j h => by simp [rgam, hz' _ (h j le_rfl)])
    (fun j h => by simp [rgam, rpiv])
    (fun h => by simp [hd _ _ (hz' _ h), rfwd])
    (fun j h => by
      rw [hmul, hsub, hd _ _ (hz' _ (h (j + 1) le_rfl))]
      simp only [rfwd, mul_comm])
    (by simp only [rsol_last])
    (fun j h => by
      simp only [hmul, hsub]
      rw [rsol_step rnd a b c _ n j h, rsol_step rnd a b c _ n j h, rsol_step rnd a b c _ n j h]
      simp only [mul_comm]) A B C R U hA hB hC hR hU
  rw [TriDiagonal.solve3]
  simpa [hz] using this

/-- The computed numbers solve a system with coefficients `a'`, `b'`, `c'` close to the given ones. -/
theorem rsol_backward {u : ℝ} (hr : IsRel rnd u) (n : ℕ) (a b c r : ℕ → ℝ) (hp : ∀ j < n, rpiv rnd a b c j ≠ 0) :
    ∃ a' b' c' : ℕ → ℝ, (∀ j, |a' j - a j| ≤ MathLib.gam u 2 * |a j|) ∧ (∀ j, |c' j - c j| ≤ MathLib.gam u 4 * |c j|) ∧
      (∀ j, |b' j - b j| ≤ MathLib.gam u 4 * |b j| +
        if 0 < j then (MathLib.gam u 2 + MathLib.gam u 5) * |a (j - 1) * rgam rnd a b c j| else 0) ∧
      ∀ i < n, row n a' b' c' (rsol rnd a b c r n) i = r i := by
  have h0 := hr.nonneg
  have h1 := hr.lt_one
  -- the errors
  have E1 : ∀ j, ∃ φ, Fac u 2 φ ∧ ∃ θ, Fac u 1 θ ∧ (j < n → r j = rpiv rnd a b c j * rfwd rnd a b c r j * φ +
      if 0 < j then a (j - 1) * rfwd rnd a b c r (j - 1) * θ else 0) := by
    intro j
    by_cases hj : j < n
    · rcases j with _ | j
      · obtain ⟨θ, ht, e⟩ := hr.fac (r 0 / rpiv rnd a b c 0)
        refine ⟨θ⁻¹, ht.inv h1 |>.mono h0 h1 (by norm_num), 1, Fac.one h0 h1, fun _ => ?_⟩
        have := hp 0 hj
        have := (ht.pos h1).ne'
        simp only [rfwd, e, lt_irrefl, if_false]
        field_simp
        ring
      · obtain ⟨θ1, ht1, e1⟩ := hr.fac (a j * rfwd rnd a b c r j)
        obtain ⟨θ2, ht2, e2⟩ := hr.fac (r (j + 1) - a j * rfwd rnd a b c r j * θ1)
        obtain ⟨θ3, ht3, e3⟩ := hr.fac ((r (j + 1) - a j * rfwd rnd a b c r j * θ1) * θ2 / rpiv rnd a b c (j + 1))
        refine ⟨(θ2 * θ3)⁻¹, (ht2.mul h1 ht3).inv h1, θ1, ht1, fun _ => ?_⟩
        have := hp (j + 1) hj
        have := (ht2.pos h1).ne'
        have := (ht3.pos h1).ne'
        rw [rfwd, e1, e2, e3]
        simp only [Nat.succ_pos, if_true, Nat.add_sub_cancel]
        field_simp
        ring
    · exact ⟨1, Fac.one h0 h1, 1, Fac.one h0 h1, fun h => absurd h hj⟩
  have E2 : ∀ j, ∃ σ, Fac u 1 σ ∧ ∃ τ, Fac u 1 τ ∧ (j < n → rfwd rnd a b c r j = rsol rnd a b c r n j * σ +
      if j + 1 < n then rgam rnd a b c (j + 1) * rsol rnd a b c r n (j + 1) * τ else 0) := by
    intro j
    by_cases hj : j + 1 < n
    · obtain ⟨θ1, ht1, e1⟩ := hr.fac (rgam rnd a b c (j + 1) * rsol rnd a b c r n (j + 1))
      obtain ⟨θ2, ht2, e2⟩ := hr.fac (rfwd rnd a b c r j - rgam rnd a b c (j + 1) * rsol rnd a b c r n (j + 1) * θ1)
      refine ⟨θ2⁻¹, ht2.inv h1, θ1, ht1, fun _ => ?_⟩
      have := (ht2.pos h1).ne'
      rw [rsol_step rnd a b c r n j hj, e1, e2, if_pos hj]
      field_simp
      ring
    · refine ⟨1, Fac.one h0 h1, 1, Fac.one h0 h1, fun h => ?_⟩
      have : j = n - 1 := by omega
      rw [if_neg hj, this, rsol_last]
      ring
  have E3 : ∀ j, ∃ θ, Fac u 1 θ ∧ ∃ ω, Fac u 1 ω ∧ rpiv rnd a b c j =
      (b j - if 0 < j then a (j - 1) * rgam rnd a b c j * θ else 0) * ω := by
    intro j
    rcases j with _ | j
    · exact ⟨1, Fac.one h0 h1, 1, Fac.one h0 h1, by simp [rpiv]⟩
    · obtain ⟨θ1, ht1, e1⟩ := hr.fac (a j * rgam rnd a b c (j + 1))
      obtain ⟨θ2, ht2, e2⟩ := hr.fac (b (j + 1) - a j * rgam rnd a b c (j + 1) * θ1)
      refine ⟨θ1, ht1, θ2, ht2, ?_⟩
      simp only [Nat.succ_pos, if_true, Nat.add_sub_cancel]
      rw [← e2, ← e1]
      simp [rpiv, rgam]
  have E4 : ∀ j, ∃ ω, Fac u 1 ω ∧ (j < n → rpiv rnd a b c j * rgam rnd a b c (j + 1) = c j * ω) := by
    intro j
    obtain ⟨θ, ht, e⟩ := hr.fac (c j / rpiv rnd a b c j)
    refine ⟨θ, ht, fun hj => ?_⟩
    have := hp j hj
    simp only [rgam, Nat.add_sub_cancel, e]
    field_simp
  choose φ hφ θ hθ e1 using E1
  choose σ hσ τ hτ e2 using E2
  choose κ hκ ω hω e3 using E3
  choose ρ hρ e4 using E4
  refine ⟨fun j => a j * (θ (j + 1) * σ j),
    fun j => rpiv rnd a b c j * φ j * σ j +
      if 0 < j then a (j - 1) * rgam rnd a b c j * (θ j * τ (j - 1)) else 0,
    fun j => c j * (ρ j * φ j * τ j), fun j => ?_, fun j => ?_, fun j => ?_, fun i hi => ?_⟩
  · have := ((hθ (j + 1)).mul h1 (hσ j)).abs_sub_one h1
    rw [← mul_sub_one, abs_mul, mul_comm]
    exact mul_le_mul_of_nonneg_right this (abs_nonneg _)
  · have := (((hρ j).mul h1 (hφ j)).mul h1 (hτ j)).abs_sub_one h1
    rw [← mul_sub_one, abs_mul, mul_comm]
    exact mul_le_mul_of_nonneg_right this (abs_nonneg _)
  · have k1 := (((hω j).mul h1 (hφ j)).mul h1 (hσ j)).abs_sub_one h1
    have k2 := (((hκ j).mul h1 (hω j)).mul h1 (hφ j) |>.mul h1 (hσ j)).abs_sub_one h1
    have k3 := ((hθ j).mul h1 (hτ (j - 1))).abs_sub_one h1
    norm_num at k1 k2 k3
    beta_reduce
    rw [e3 j]
    by_cases hj : 0 < j
    · simp only [hj, if_true]
      rw [show (b j - a (j - 1) * rgam rnd a b c j * κ j) * ω j * φ j * σ j +
          a (j - 1) * rgam rnd a b c j * (θ j * τ (j - 1)) - b j =
        (ω j * φ j * σ j - 1) * b j + (a (j - 1) * rgam rnd a b c j) * ((θ j * τ (j - 1) - 1) - (κ j * ω j * φ j * σ j - 1))
        by ring]
      refine (abs_add_le _ _).trans (add_le_add ?_ ?_)
      · rw [abs_mul]; exact mul_le_mul_of_nonneg_right k1 (abs_nonneg _)
      · rw [abs_mul, mul_comm]
        exact mul_le_mul_of_nonneg_right ((abs_sub _ _).trans (add_le_add k3 k2)) (abs_nonneg _)
    · simp only [hj, if_false]
      rw [sub_zero, add_zero, add_zero, show b j * ω j * φ j * σ j - b j = (ω j * φ j * σ j - 1) * b j by ring, abs_mul]
      exact mul_le_mul_of_nonneg_right k1 (abs_nonneg _)
  · simp only [row, smul_eq_mul]
    rw [e1 i hi, e2 i hi]
    by_cases hp0 : 0 < i
    · have e5 := e2 (i - 1) (by omega)
      have e6 : i - 1 + 1 = i := by omega
      rw [e6, if_pos hi] at e5
      simp only [hp0, if_true, e5, e6]
      by_cases hn : i + 1 < n
      · simp only [hn, if_true]
        linear_combination (-(rsol rnd a b c r n (i + 1) * φ i * τ i)) * e4 i hi
      · simp only [hn, if_false]
        ring
    · simp only [hp0, if_false]
      by_cases hn : i + 1 < n
      · simp only [hn, if_true]
        linear_combination (-(rsol rnd a b c r n (i + 1) * φ i * τ i)) * e4 i hi
      · simp only [hn, if_false]
        ring

/-- In a dominant system the computed multipliers are at most 1 in size. -/
theorem rgam_le_one (n : ℕ) (a b c : ℕ → ℝ) (hm : Monotone rnd) (hneg : ∀ x, rnd (-x) = -rnd x) (h1 : rnd 1 = 1)
    (ha : ∀ j, rnd (a j) = a j) (hc : ∀ j, rnd (c j) = c j)
    (hd : ∀ i < n, (if 0 < i then |a (i - 1)| else 0) + (if i + 1 < n then |c i| else 0) ≤ |b i|) :
    ∀ j, j + 1 < n → (∀ i ≤ j, rpiv rnd a b c i ≠ 0) →
      |c j| ≤ |rpiv rnd a b c j| ∧ |rgam rnd a b c (j + 1)| ≤ 1 := by
  have habs : ∀ x, |rnd x| = rnd |x| := by
    have h0 : rnd 0 = 0 := by have := hneg 0; rw [neg_zero] at this; linarith
    intro x
    rcases le_total 0 x with h | h
    · rw [abs_of_nonneg h, abs_of_nonneg]; rw [← h0]; exact hm h
    · rw [abs_of_nonpos h, hneg, abs_of_nonpos]; rw [← h0]; exact hm h
  have hle : ∀ x y, |x| ≤ |y| → rnd y = y → |rnd x| ≤ |y| := fun x y h e => by
    rw [habs]
    have := hm h
    rwa [← habs y, e] at this
  have hge : ∀ x y, |y| ≤ |x| → rnd y = y → |y| ≤ |rnd x| := fun x y h e => by
    rw [habs]
    have := hm h
    rwa [← habs y, e] at this
  have hgm : ∀ j, rpiv rnd a b c j ≠ 0 → |c j| ≤ |rpiv rnd a b c j| → |rgam rnd a b c (j + 1)| ≤ 1 := by
    intro j hp h
    have := hle (c j / rpiv rnd a b c j) 1 (by rw [abs_div, abs_one, div_le_one (abs_pos.2 hp)]; exact h) h1
    simpa [rgam] using this
  intro j
  induction j with
  | zero =>
    intro hj hp
    have := hd 0 (by omega)
    simp only [lt_irrefl, if_false, zero_add, hj, if_true] at this
    exact ⟨this, hgm 0 (hp 0 le_rfl) this⟩
  | succ j ih =>
    intro hj hp
    obtain ⟨-, ih2⟩ := ih (by omega) fun i hi => hp i (by omega)
    have := hd (j + 1) (by omega)
    simp only [Nat.succ_pos, if_true, Nat.add_sub_cancel, hj] at this
    have k1 : |rnd (a j * rgam rnd a b c (j + 1))| ≤ |a j| :=
      hle _ _ (by rw [abs_mul]; exact mul_le_of_le_one_right (abs_nonneg _) ih2) (ha j)
    have k2 : |c (j + 1)| ≤ |rpiv rnd a b c (j + 1)| := by
      rw [rpiv]
      refine hge _ _ ?_ (hc _)
      have := abs_sub_abs_le_abs_sub (b (j + 1)) (rnd (a j * rgam rnd a b c (j + 1)))
      simp only [rgam, Nat.add_sub_cancel] at this k1
      linarith
    exact ⟨k2, hgm _ (hp _ le_rfl) k2⟩

/-- In a strictly dominant system no pivot vanishes. -/
theorem rpiv_ne_zero (n : ℕ) (a b c : ℕ → ℝ) (hm : Monotone rnd) (hneg : ∀ x, rnd (-x) = -rnd x) (h1 : rnd 1 = 1)
    (hz : ∀ x, rnd x = 0 → x = 0) (ha : ∀ j, rnd (a j) = a j) (hc : ∀ j, rnd (c j) = c j)
    (hd : ∀ i < n, (if 0 < i then |a (i - 1)| else 0) + (if i + 1 < n then |c i| else 0) < |b i|) :
    ∀ j < n, rpiv rnd a b c j ≠ 0 := by
  have habs : ∀ x y, |x| ≤ |y| → rnd y = y → |rnd x| ≤ |y| := by
    intro x y h e
    rw [abs_le] at h ⊢
    have e' : rnd |y| = |y| := by rcases abs_choice y with k | k <;> rw [k] <;> simp [hneg, e]
    have e'' : rnd (-|y|) = -|y| := by rw [hneg, e']
    exact ⟨by rw [← e'']; exact hm h.1, by rw [← e']; exact hm h.2⟩
  intro j
  induction j using Nat.strong_induction_on with
  | _ j ih =>
    intro hj
    rcases j with _ | j
    · intro e
      have := hd 0 hj
      rw [rpiv] at e
      rw [e, abs_zero] at this
      have : 0 ≤ (if 0 < 0 then |a (0 - 1)| else 0) + (if 0 + 1 < n then |c 0| else 0) := by
        split_ifs <;> positivity
      linarith
    · intro e
      have hg := (rgam_le_one n a b c hm hneg h1 ha hc (fun i hi => (hd i hi).le) j hj
        fun i hi => ih i (by omega) (by omega)).2
      have k1 : |rnd (a j * rgam rnd a b c (j + 1))| ≤ |a j| :=
        habs _ _ (by rw [abs_mul]; exact mul_le_of_le_one_right (abs_nonneg _) hg) (ha j)
      rw [rpiv] at e
      have e2 := hz _ e
      have := hd (j + 1) hj
      simp only [Nat.succ_pos, if_true, Nat.add_sub_cancel] at this
      have h3 : 0 ≤ (if j + 1 + 1 < n then |c (j + 1)| else 0) := by split_ifs <;> positivity
      simp only [rgam, Nat.add_sub_cancel] at k1
      rw [← sub_eq_zero.1 e2] at k1
      linarith

end TriDiagonal
end MathLib
