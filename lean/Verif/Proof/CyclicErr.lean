import Verif.Props.RoundedTri
import Mathlib.LinearAlgebra.Matrix.NonsingularInverse
import Mathlib.LinearAlgebra.FiniteDimensional.Lemmas
import Mathlib.LinearAlgebra.Dimension.Finite
import Mathlib.LinearAlgebra.Matrix.ToLin

/-! # Dominant cyclic systems and the correction by Sherman and Morrison: the error -/

namespace MathLib
open TriDiagonal

/-- row `i` of the cyclic system, applied to `w` -/
noncomputable def crow (n : ℕ) (a b c : ℕ → ℝ) (α β : ℝ) (w : ℕ → ℝ) (i : ℕ) : ℝ :=
  row n a b c w i + (if i + 1 = n then α * w 0 else 0) + (if i = 0 then β * w (n - 1) else 0)

/-- the entries of row `i` off the diagonal together -/
noncomputable def coff (n : ℕ) (a c : ℕ → ℝ) (α β : ℝ) (i : ℕ) : ℝ :=
  offdiag n a c i + (if i + 1 = n then |α| else 0) + (if i = 0 then |β| else 0)

/-- every diagonal entry exceeds the other entries of its row together, by the part `1/κ` of the whole row -/
def CycDom (n : ℕ) (a b c : ℕ → ℝ) (α β κ : ℝ) : Prop :=
  ∀ i < n, coff n a c α β i < |b i| ∧ coff n a c α β i + |b i| ≤ κ * (|b i| - coff n a c α β i)

theorem offdiag_nonneg (n : ℕ) (a c : ℕ → ℝ) (i : ℕ) : 0 ≤ offdiag n a c i := by
  unfold offdiag; split_ifs <;> positivity

theorem coff_nonneg (n : ℕ) (a c : ℕ → ℝ) (α β : ℝ) (i : ℕ) : 0 ≤ coff n a c α β i := by
  have := offdiag_nonneg n a c i
  unfold coff; split_ifs <;> positivity

/-- at the largest component the diagonal wins -/
theorem crow_max (n : ℕ) (hn : 0 < n) (a b c : ℕ → ℝ) (α β : ℝ) (e : ℕ → ℝ) :
    ∃ i < n, (∀ j < n, |e j| ≤ |e i|) ∧ (|b i| - coff n a c α β i) * |e i| ≤ |crow n a b c α β e i| := by
  have : Nonempty (Fin n) := ⟨⟨0, hn⟩⟩
  obtain ⟨i, -, hmax⟩ := Finset.exists_max_image (Finset.univ : Finset (Fin n)) (fun i => |e i|) Finset.univ_nonempty
  have hle : ∀ j < n, |e j| ≤ |e i| := fun j hj => hmax ⟨j, hj⟩ (Finset.mem_univ _)
  refine ⟨i, i.2, hle, ?_⟩
  have h1 : |if 0 < (i : ℕ) then a (i - 1) • e (i - 1) else 0| ≤ (if 0 < (i : ℕ) then |a (i - 1)| else 0) * |e i| := by
    split_ifs
    · rw [smul_eq_mul, abs_mul]
      exact mul_le_mul_of_nonneg_left (hle _ (by omega)) (abs_nonneg _)
    · simp
  have h2 : |if (i : ℕ) + 1 < n then c i • e (i + 1) else 0| ≤ (if (i : ℕ) + 1 < n then |c i| else 0) * |e i| := by
    split_ifs with h
    · rw [smul_eq_mul, abs_mul]
      exact mul_le_mul_of_nonneg_left (hle _ h) (abs_nonneg _)
    · simp
  have h3 : |if (i : ℕ) + 1 = n then α * e 0 else 0| ≤ (if (i : ℕ) + 1 = n then |α| else 0) * |e i| := by
    split_ifs with h
    · rw [abs_mul]
      exact mul_le_mul_of_nonneg_left (hle _ hn) (abs_nonneg _)
    · simp
  have h4 : |if (i : ℕ) = 0 then β * e (n - 1) else 0| ≤ (if (i : ℕ) = 0 then |β| else 0) * |e i| := by
    split_ifs with h
    · rw [abs_mul]
      exact mul_le_mul_of_nonneg_left (hle _ (by omega)) (abs_nonneg _)
    · simp
  unfold crow row coff offdiag
  set t1 := if 0 < (i : ℕ) then a (i - 1) • e (i - 1) else 0
  set t2 := if (i : ℕ) + 1 < n then c i • e (i + 1) else 0
  set t3 := if (i : ℕ) + 1 = n then α * e 0 else 0
  set t4 := if (i : ℕ) = 0 then β * e (n - 1) else 0
  have h5 : |b i • e i| = |b i| * |e i| := by rw [smul_eq_mul, abs_mul]
  have h6 := abs_sub_abs_le_abs_sub (b i • e i) (-(t1 + t2 + t3 + t4))
  rw [abs_neg, sub_neg_eq_add] at h6
  have h7 := abs_add_le (t1 + t2 + t3) t4
  have h8 := abs_add_le (t1 + t2) t3
  have h9 := abs_add_le t1 t2
  have e1 : t1 + b i • e i + t2 + t3 + t4 = b i • e i + (t1 + t2 + t3 + t4) := by ring
  rw [e1]
  linarith

/-- a small residual means a small vector -/
theorem CycDom.bound {n : ℕ} {a b c : ℕ → ℝ} {α β κ : ℝ} (h : CycDom n a b c α β κ) {e : ℕ → ℝ} {ρ : ℝ} (hρ : 0 ≤ ρ)
    (he : ∀ i < n, |crow n a b c α β e i| ≤ ρ * (coff n a c α β i + |b i|)) : ∀ j < n, |e j| ≤ κ * ρ := by
  intro j hj
  obtain ⟨i, hi, hm, hr⟩ := crow_max n (by omega) a b c α β e
  obtain ⟨h1, h2⟩ := h i hi
  refine (hm j hj).trans ?_
  have h3 := mul_le_mul_of_nonneg_left h2 hρ
  have h4 := he i hi
  have h5 : (|b i| - coff n a c α β i) * |e i| ≤ (|b i| - coff n a c α β i) * (κ * ρ) := by linarith
  exact le_of_mul_le_mul_left h5 (by linarith)

theorem CycDom.one_le {n : ℕ} {a b c : ℕ → ℝ} {α β κ : ℝ} (hn : 0 < n) (h : CycDom n a b c α β κ) : 1 ≤ κ := by
  obtain ⟨h1, h2⟩ := h 0 hn
  have h3 := coff_nonneg n a c α β 0
  by_contra hk
  nlinarith

theorem crow_sub (n : ℕ) (a b c : ℕ → ℝ) (α β : ℝ) (v w : ℕ → ℝ) (i : ℕ) :
    crow n a b c α β (fun j => v j - w j) i = crow n a b c α β v i - crow n a b c α β w i := by
  unfold crow row
  simp only [smul_eq_mul]
  split_ifs <;> ring

theorem crow_smul (n : ℕ) (a b c : ℕ → ℝ) (α β : ℝ) (k : ℝ) (w : ℕ → ℝ) (i : ℕ) :
    crow n a b c α β (fun j => k * w j) i = k * crow n a b c α β w i := by
  unfold crow row
  simp only [smul_eq_mul]
  split_ifs <;> ring

/-- a dominant system has a solution -/
theorem CycDom.exists {n : ℕ} {a b c : ℕ → ℝ} {α β κ : ℝ} (hn : 0 < n) (h : CycDom n a b c α β κ) (r : ℕ → ℝ) :
    ∃ x : ℕ → ℝ, ∀ i < n, crow n a b c α β x i = r i := by
  have hM : ∀ (v : Fin n → ℝ) (w : ℕ → ℝ), (∀ i : Fin n, w i = v i) → ∀ i : Fin n,
      (cyclicTridiag n a b c α β).mulVec v i = crow n a b c α β w i := fun v w hw i =>
    mulVec_cyclic n hn a b c α β v w hw i
  have hinj : Function.Injective (cyclicTridiag n a b c α β).mulVec := by
    intro v w hvw
    set e : ℕ → ℝ := fun j => (if hj : j < n then v ⟨j, hj⟩ else 0) - (if hj : j < n then w ⟨j, hj⟩ else 0) with he
    have h1 : ∀ i < n, crow n a b c α β e i = 0 := by
      intro i hi
      have := congrFun hvw ⟨i, hi⟩
      rw [he, crow_sub, ← hM v _ (fun i => by simp) ⟨i, hi⟩, ← hM w _ (fun i => by simp) ⟨i, hi⟩, this, sub_self]
    have h2 := h.bound (e := e) le_rfl (fun i hi => by rw [h1 i hi]; simp)
    ext i
    have h3 := h2 i i.2
    rw [mul_zero] at h3
    have h4 := abs_eq_zero.1 (le_antisymm h3 (abs_nonneg _))
    rw [he] at h4
    simp only [i.2, dif_pos] at h4
    exact sub_eq_zero.1 h4
  have hsurj : Function.Surjective (cyclicTridiag n a b c α β).mulVec := by
    have := (LinearMap.injective_iff_surjective (f := (cyclicTridiag n a b c α β).mulVecLin)).1 hinj
    exact this
  obtain ⟨v, hv⟩ := hsurj fun i => r i
  refine ⟨fun j => if hj : j < n then v ⟨j, hj⟩ else 0, fun i hi => ?_⟩
  rw [← hM v _ (fun i => by simp) ⟨i, hi⟩, hv]

/-- the diagonal of the auxiliary system -/
noncomputable def auxDiag (n : ℕ) (b : ℕ → ℝ) (α β : ℝ) (i : ℕ) : ℝ :=
  if i = 0 then 2 * b 0 else if i + 1 = n then b (n - 1) + α * β / b 0 else b i

/-- the second right-hand side -/
noncomputable def auxRhs (n : ℕ) (b : ℕ → ℝ) (α : ℝ) (i : ℕ) : ℝ :=
  if i = 0 then -b 0 else if i + 1 = n then α else 0

section
variable {n : ℕ} {a b c : ℕ → ℝ} {α β κ : ℝ} (hn : 2 < n) (h : CycDom n a b c α β κ)
include hn h

theorem CycDom.first : 0 < |b 0| ∧ |β| ≤ |b 0| ∧ offdiag n a c 0 ≤ |b 0| := by
  have h1 := (h 0 (by omega)).1
  have h2 := offdiag_nonneg n a c 0
  have h3 : coff n a c α β 0 = offdiag n a c 0 + |β| := by
    unfold coff; rw [if_neg (by omega), if_pos rfl, add_zero]
  have h4 := abs_nonneg β
  refine ⟨?_, ?_, ?_⟩ <;> linarith

omit h in
theorem cyc_last_eq : coff n a c α β (n - 1) = offdiag n a c (n - 1) + |α| := by
  unfold coff; rw [if_pos (by omega), if_neg (by omega), add_zero]

/-- the entry `β / γ` of the second vector of the correction -/
theorem CycDom.ratio : |β / -b 0| ≤ 1 := by
  obtain ⟨h1, h2, -⟩ := h.first hn
  rw [abs_div, abs_neg]
  exact div_le_one_of_le₀ h2 h1.le

theorem CycDom.corner : |α * β / b 0| ≤ |α| := by
  have := h.ratio hn
  rw [abs_div, abs_neg] at this
  rw [abs_div, abs_mul, mul_div_assoc]
  exact mul_le_of_le_one_right (abs_nonneg _) this

/-- the auxiliary system is dominant as well -/
theorem CycDom.aux : CycDom n a (auxDiag n b α β) c 0 0 κ := by
  have hκ := h.one_le (by omega)
  obtain ⟨f1, f2, f3⟩ := h.first hn
  intro i hi
  have e0 : coff n a c 0 0 i = offdiag n a c i := by unfold coff; simp
  rw [e0]
  obtain ⟨g1, g2⟩ := h i hi
  have g3 := offdiag_nonneg n a c i
  by_cases c1 : i = 0
  · subst c1
    have e1 : coff n a c α β 0 = offdiag n a c 0 + |β| := by
      unfold coff; rw [if_neg (by omega), if_pos rfl, add_zero]
    rw [e1] at g1 g2
    have e2 : |auxDiag n b α β 0| = 2 * |b 0| := by simp [auxDiag, abs_mul]
    have := abs_nonneg β
    rw [e2]
    constructor
    · linarith
    · nlinarith
  · by_cases c2 : i + 1 = n
    · have hi' : i = n - 1 := by omega
      subst hi'
      rw [cyc_last_eq hn] at g1 g2
      have e2 : auxDiag n b α β (n - 1) = b (n - 1) + α * β / b 0 := by
        unfold auxDiag; rw [if_neg c1, if_pos c2]
      have h4 := h.corner hn
      have h5 := abs_sub_abs_le_abs_sub (b (n - 1)) (-(α * β / b 0))
      rw [abs_neg, sub_neg_eq_add, ← e2] at h5
      constructor
      · linarith
      · have e3 : κ * (|b (n - 1)| - (offdiag n a c (n - 1) + |α|)) ≥ |b (n - 1)| + offdiag n a c (n - 1) + |α| := by linarith
        have k0 := abs_nonneg α
        set B := |auxDiag n b α β (n - 1)|
        have k1 : 0 ≤ (κ - 1) * (B - |b (n - 1)| + |α|) := mul_nonneg (by linarith) (by linarith)
        nlinarith
    · have e2 : auxDiag n b α β i = b i := by unfold auxDiag; rw [if_neg c1, if_neg c2]
      have e1 : coff n a c α β i = offdiag n a c i := by unfold coff; rw [if_neg c1, if_neg c2]; ring
      rw [e2, ← e1]
      exact ⟨g1, g2⟩

/-- the rows of the cyclic system in terms of those of the auxiliary one -/
theorem CycDom.rows (w : ℕ → ℝ) (i : ℕ) (hi : i < n) : crow n a b c α β w i =
    crow n a (auxDiag n b α β) c 0 0 w i + auxRhs n b α i * (w 0 + β / -b 0 * w (n - 1)) := by
  obtain ⟨f1, -, -⟩ := h.first hn
  have hb0 : b 0 ≠ 0 := abs_pos.1 f1
  unfold crow
  have hbb' : row n a b c w i = row n a (auxDiag n b α β) c w i + (b i - auxDiag n b α β i) * w i := by
    simp only [row, smul_eq_mul]; ring
  rw [hbb']
  by_cases c1 : i = 0
  · subst c1
    have : ¬ (0 + 1 = n) := by omega
    simp only [this, if_false, if_true, auxDiag, auxRhs]
    field_simp; ring
  · by_cases c2 : i + 1 = n
    · have hi' : i = n - 1 := by omega
      simp only [c1, c2, if_false, if_true, auxDiag, auxRhs]
      rw [hi']
      field_simp; ring
    · simp only [c1, c2, if_false, auxDiag, auxRhs]; ring

/-- the second solution -/
theorem CycDom.second {Z : ℝ} (hZ1 : 1 ≤ Z) (hZ : |α| ≤ Z * (|auxDiag n b α β (n - 1)| - offdiag n a c (n - 1)))
    {z : ℕ → ℝ} (hz : ∀ i < n, crow n a (auxDiag n b α β) c 0 0 z i = auxRhs n b α i) : ∀ j < n, |z j| ≤ Z := by
  intro j hj
  obtain ⟨i, hi, hm, hr⟩ := crow_max n (by omega) a (auxDiag n b α β) c 0 0 z
  refine (hm j hj).trans ?_
  obtain ⟨f1, f2, f3⟩ := h.first hn
  obtain ⟨g1, -⟩ := h.aux hn i hi
  have e0 : coff n a c 0 0 i = offdiag n a c i := by unfold coff; simp
  rw [hz i hi] at hr
  rw [e0] at hr g1
  by_cases c1 : i = 0
  · subst c1
    have e2 : |auxDiag n b α β 0| = 2 * |b 0| := by simp [auxDiag, abs_mul]
    have e3 : |auxRhs n b α 0| = |b 0| := by simp [auxRhs]
    rw [e2] at hr
    rw [e3] at hr
    have : |b 0| * |z 0| ≤ |b 0| * 1 := by
      have := mul_le_mul_of_nonneg_right (show |b 0| ≤ 2 * |b 0| - offdiag n a c 0 by linarith) (abs_nonneg (z 0))
      linarith
    exact (le_of_mul_le_mul_left this f1).trans hZ1
  · by_cases c2 : i + 1 = n
    · have hi' : i = n - 1 := by omega
      subst hi'
      have e3 : auxRhs n b α (n - 1) = α := by unfold auxRhs; rw [if_neg c1, if_pos c2]
      rw [e3] at hr
      have := hr.trans hZ
      rw [mul_comm Z] at this
      exact le_of_mul_le_mul_left this (by linarith)
    · have e3 : auxRhs n b α i = 0 := by unfold auxRhs; rw [if_neg c1, if_neg c2]
      rw [e3, abs_zero] at hr
      have : (|auxDiag n b α β i| - offdiag n a c i) * |z i| ≤ (|auxDiag n b α β i| - offdiag n a c i) * 0 := by linarith
      exact (le_of_mul_le_mul_left this (by linarith)).trans (by linarith)

/-- the denominator of the correction -/
theorem CycDom.denom {z : ℕ → ℝ} (hz : ∀ i < n, crow n a (auxDiag n b α β) c 0 0 z i = auxRhs n b α i) :
    1 ≤ 3 * κ * |1 + z 0 + β / -b 0 * z (n - 1)| := by
  have hκ := h.one_le (by omega)
  obtain ⟨f1, f2, f3⟩ := h.first hn
  have hq := h.ratio hn
  set q := β / -b 0 with hqd
  set D := 1 + z 0 + q * z (n - 1) with hD
  have hzM : ∀ i < n, crow n a b c α β z i = auxRhs n b α i * D := by
    intro i hi
    rw [h.rows hn z i hi, hz i hi, hD]; ring
  -- the largest component of `z` is at most `κ D`
  have hzb : ∀ j < n, |z j| ≤ κ * |D| := by
    refine h.bound (abs_nonneg D) fun i hi => ?_
    rw [hzM i hi, abs_mul, mul_comm]
    refine mul_le_mul_of_nonneg_left ?_ (abs_nonneg _)
    have g0 := coff_nonneg n a c α β i
    unfold auxRhs
    split_ifs with c1 c2
    · subst c1; rw [abs_neg]; linarith
    · have hi' : i = n - 1 := by omega
      subst hi'
      rw [cyc_last_eq hn]
      have := offdiag_nonneg n a c (n - 1)
      have := abs_nonneg (b (n - 1))
      linarith
    · rw [abs_zero]; positivity
  have k1 := hzb 0 (by omega)
  have k2 := hzb (n - 1) (by omega)
  have k3 : |q * z (n - 1)| ≤ κ * |D| := by
    rw [abs_mul]
    exact (mul_le_of_le_one_left (abs_nonneg _) hq).trans k2
  have k4 : (1 : ℝ) = |D - z 0 - q * z (n - 1)| := by
    rw [hD]
    have : 1 + z 0 + q * z (n - 1) - z 0 - q * z (n - 1) = 1 := by ring
    rw [this, abs_one]
  have k5 := abs_sub (D - z 0) (q * z (n - 1))
  have k6 := abs_sub D (z 0)
  have k7 := mul_le_mul_of_nonneg_right hκ (abs_nonneg D)
  linarith
end

/-- solving a nearby tridiagonal system, relative to the solution -/
theorem near_err {n : ℕ} (hn : 0 < n) {a b c r x y : ℕ → ℝ} {ε κ u Y : ℝ} (h : CycDom n a b c 0 0 κ) (hε : 0 ≤ ε)
    (hεu : ε ≤ 1104 / 100 * u) (hκu : 300 * (κ * u) ≤ 1) (hx : SolvesNearby n a b c r x ε)
    (hy : ∀ i < n, crow n a b c 0 0 y i = r i) (hY : ∀ i < n, |y i| ≤ Y) : ∀ i < n, |x i - y i| ≤ 12 * (κ * u * Y) := by
  have e0 : ∀ i, coff n a c 0 0 i = offdiag n a c i := fun i => by unfold coff; simp
  have : Nonempty (Fin n) := ⟨⟨0, hn⟩⟩
  obtain ⟨i, -, hmax⟩ := Finset.exists_max_image (Finset.univ : Finset (Fin n)) (fun i => |x i|) Finset.univ_nonempty
  have key := C140_error n a b c r r x y ε 0 κ |x i| (fun i hi => by have := (h i hi).1; rwa [e0] at this)
    (fun i hi => by have := (h i hi).2; rwa [e0] at this) (fun j hj => hmax ⟨j, hj⟩ (Finset.mem_univ _)) hε le_rfl hx
    (fun i hi => by have := hy i hi; simpa [crow] using this) (fun i _ => by
      rw [sub_self, abs_zero, zero_mul])
  have hκ := h.one_le hn
  have k1 := key i i.2
  have k2 := hY i i.2
  have k3 := abs_sub_abs_le_abs_sub (x i) (y i)
  have hx0 := abs_nonneg (x i)
  have k4 : κ * (ε * |x i| + 0) ≤ 1104 / 100 * (κ * u * |x i|) := by
    have := mul_le_mul_of_nonneg_right hεu (mul_nonneg (show 0 ≤ κ by linarith) hx0)
    linarith
  have k5 : 300 * (κ * u * |x i|) ≤ |x i| := by
    have := mul_le_mul_of_nonneg_right hκu hx0
    linarith
  have k6 : |x i| ≤ 104 / 100 * Y := by linarith
  have hu : 0 ≤ κ * u := mul_nonneg (by linarith) (by linarith)
  have k7 := mul_le_mul_of_nonneg_left k6 hu
  have k8 : 0 ≤ κ * u * Y := mul_nonneg hu (by linarith)
  intro j hj
  have := key j hj
  linarith

section
variable {rnd : ℝ → ℝ} {u : ℝ} (hr : IsRel rnd u) (hu : u ≤ 1 / 4096)
include hr hu

omit hu in
/-- a rounded result, when a bound on the exact one is known -/
theorem rnd_le {x S : ℝ} (h : |x| ≤ S) : |rnd x - x| ≤ u * S :=
  (hr.err x).trans (mul_le_mul_of_nonneg_left h hr.nonneg)

/-- the product and the quotient in front of the corner component -/
theorem corner_err {β γ xl S : ℝ} (hq : |β / γ| ≤ 1) (hl : |xl| ≤ S) :
    |rnd (rnd (β * xl) / γ) - β / γ * xl| ≤ 2001 / 1000 * (u * S) := by
  have hu0 := hr.nonneg
  have hS : 0 ≤ S := (abs_nonneg _).trans hl
  have h0 : |β / γ * xl| ≤ S := by
    rw [abs_mul]; exact (mul_le_of_le_one_left (abs_nonneg _) hq).trans hl
  have h1 : |rnd (β * xl) / γ - β / γ * xl| ≤ u * S := by
    have e : rnd (β * xl) / γ - β / γ * xl = (rnd (β * xl) - β * xl) / γ := by ring
    rw [e, abs_div]
    have := div_le_div_of_nonneg_right (hr.err (β * xl)) (abs_nonneg γ)
    refine this.trans ?_
    rw [mul_div_assoc, ← abs_div]
    refine mul_le_mul_of_nonneg_left ?_ hu0
    rwa [mul_div_right_comm]
  have hus : u * S ≤ 1 / 4096 * S := mul_le_mul_of_nonneg_right hu hS
  have h2 : |rnd (β * xl) / γ| ≤ 4097 / 4096 * S := by
    have := abs_sub_abs_le_abs_sub (rnd (β * xl) / γ) (β / γ * xl)
    linarith
  have h3 := rnd_le hr h2
  have h4 := abs_sub_le (rnd (rnd (β * xl) / γ)) (rnd (β * xl) / γ) (β / γ * xl)
  have : 0 ≤ u * S := mul_nonneg hu0 hS
  linarith

theorem numer_err {β γ x0 xl S : ℝ} (hq : |β / γ| ≤ 1) (h0 : |x0| ≤ S) (hl : |xl| ≤ S) :
    |rnd (x0 + rnd (rnd (β * xl) / γ)) - (x0 + β / γ * xl)| ≤ 401 / 100 * (u * S) := by
  have hu0 := hr.nonneg
  have hS : 0 ≤ S := (abs_nonneg _).trans hl
  have h1 := corner_err hr hu hq hl
  set m := rnd (rnd (β * xl) / γ)
  have h2 : |β / γ * xl| ≤ S := by
    rw [abs_mul]; exact (mul_le_of_le_one_left (abs_nonneg _) hq).trans hl
  have hus : u * S ≤ 1 / 4096 * S := mul_le_mul_of_nonneg_right hu hS
  have hus0 : 0 ≤ u * S := mul_nonneg hu0 hS
  have h3 : |x0 + m| ≤ 2001 / 1000 * S := by
    have k1 := abs_add_le x0 m
    have k2 := abs_sub_abs_le_abs_sub m (β / γ * xl)
    linarith
  have h4 := rnd_le hr h3
  have h5 := abs_sub_le (rnd (x0 + m)) (x0 + m) (x0 + β / γ * xl)
  have e : x0 + m - (x0 + β / γ * xl) = m - β / γ * xl := by ring
  rw [e] at h5
  linarith

theorem denom_err {β γ x0 xl S : ℝ} (hq : |β / γ| ≤ 1) (h0 : |x0| ≤ S) (hl : |xl| ≤ S) (hS1 : 1 ≤ S) :
    |rnd (rnd (1 + x0) + rnd (rnd (β * xl) / γ)) - (1 + x0 + β / γ * xl)| ≤ 71 / 10 * (u * S) := by
  have hu0 := hr.nonneg
  have hS : 0 ≤ S := (abs_nonneg _).trans hl
  have h1 := corner_err hr hu hq hl
  set m := rnd (rnd (β * xl) / γ)
  have h2 : |β / γ * xl| ≤ S := by
    rw [abs_mul]; exact (mul_le_of_le_one_left (abs_nonneg _) hq).trans hl
  have hus : u * S ≤ 1 / 4096 * S := mul_le_mul_of_nonneg_right hu hS
  have hus0 : 0 ≤ u * S := mul_nonneg hu0 hS
  have h6 : |1 + x0| ≤ 2 * S := by
    have := abs_add_le 1 x0
    rw [abs_one] at this
    linarith
  have h7 := rnd_le hr h6
  set d := rnd (1 + x0)
  have h3 : |d + m| ≤ 3002 / 1000 * S := by
    have k1 := abs_add_le d m
    have k2 := abs_sub_abs_le_abs_sub m (β / γ * xl)
    have k3 := abs_sub_abs_le_abs_sub d (1 + x0)
    linarith
  have h4 := rnd_le hr h3
  have h5 := abs_sub_le (rnd (d + m)) (d + m) (1 + x0 + β / γ * xl)
  have e : d + m - (1 + x0 + β / γ * xl) = (d - (1 + x0)) + (m - β / γ * xl) := by ring
  have h8 := abs_add_le (d - (1 + x0)) (m - β / γ * xl)
  rw [e] at h5
  linarith
end

/-- the quotient of the correction, in real numbers -/
theorem quot_err {N D N' D' F κ s X : ℝ} (hκ : 1 ≤ κ) (hD : 1 ≤ 3 * κ * |D|) (hF : N = F * D) (hFX : |F| ≤ 2 * X)
    (hN : |N' - N| ≤ 85 * (s * X)) (hD' : |D' - D| ≤ 32 * s) (hs : 300 * (κ * s) ≤ 1) :
    D' ≠ 0 ∧ |N' / D' - F| ≤ 745 * (κ * s * X) := by
  have hX : 0 ≤ X := by linarith [abs_nonneg F]
  have k1 : 1 ≤ 5 * κ * |D'| := by
    have h1 := abs_sub_abs_le_abs_sub D D'
    rw [abs_sub_comm] at h1
    have h2 : κ * |D| ≤ κ * (|D'| + 32 * s) := mul_le_mul_of_nonneg_left (by linarith) (by linarith)
    linarith
  have hD0 : D' ≠ 0 := by
    rintro rfl
    rw [abs_zero, mul_zero] at k1; linarith
  refine ⟨hD0, ?_⟩
  have e : N' / D' - F = ((N' - N) - F * (D' - D)) / D' := by
    rw [hF]; field_simp; ring
  have hs0 : 0 ≤ s := by linarith [abs_nonneg (D' - D)]
  have k2 : |(N' - N) - F * (D' - D)| ≤ 149 * (s * X) := by
    refine (abs_sub _ _).trans ?_
    rw [abs_mul]
    have := mul_le_mul hFX hD' (abs_nonneg _) (by linarith)
    linarith
  have hp : 0 < |D'| := abs_pos.2 hD0
  rw [e, abs_div, div_le_iff₀ hp]
  have k3 := mul_le_mul_of_nonneg_right k1 (show 0 ≤ 149 * (s * X) by positivity)
  linarith

/-- the last step: `x - fact * z` -/
theorem sub_err {rnd : ℝ → ℝ} {u : ℝ} (hr : IsRel rnd u) (hu : u ≤ 1 / 4096) {y z y' z' F Q κ Z X : ℝ} (hκ : 1 ≤ κ) (hZ : 1 ≤ Z)
    (hs : 300 * (κ * (κ * Z * u)) ≤ 1) (hX : 0 ≤ X) (hF : |F| ≤ 2 * X) (hy : |y' - y| ≤ 36 * (κ * Z * u * X))
    (hY : |y| ≤ 3 * (Z * X)) (hz : |z' - z| ≤ 12 * (κ * Z * u)) (hzZ : |z| ≤ Z) (hQ : |Q - F| ≤ 745 * (κ * (κ * Z * u) * X)) :
    |rnd (y' - rnd (rnd Q * z')) - (y - F * z)| ≤ 861 * (κ * κ * Z * Z * u * X) := by
  have hu0 := hr.nonneg
  -- everything in terms of `w = κ² Z² u X` and `Z X`
  have hZX : 0 ≤ Z * X := by positivity
  have hX1 : X ≤ Z * X := by nlinarith
  set w := κ * κ * Z * Z * u * X with hw
  have huX : u * X ≤ κ * (κ * Z * u) * X := by
    have h1 : 1 ≤ κ * κ * Z := by
      have := one_le_mul_of_one_le_of_one_le (one_le_mul_of_one_le_of_one_le hκ hκ) hZ
      exact this
    have := mul_le_mul_of_nonneg_right h1 (mul_nonneg hu0 hX)
    linarith
  have hsX : 300 * (κ * (κ * Z * u) * X) ≤ X := by
    have := mul_le_mul_of_nonneg_right hs hX; linarith
  have hw1 : κ * (κ * Z * u) * X ≤ w := by
    have h0 : 0 ≤ κ * (κ * Z * u) * X := by positivity
    have := mul_le_mul_of_nonneg_left hZ h0
    rw [hw]; linarith
  have hw2 : κ * Z * u * X ≤ κ * (κ * Z * u) * X := by
    have h0 : 0 ≤ κ * Z * u * X := by positivity
    have := mul_le_mul_of_nonneg_right hκ h0
    linarith
  have hw3 : u * (Z * X) ≤ κ * Z * u * X := by
    have h0 : 0 ≤ u * (Z * X) := by positivity
    have := mul_le_mul_of_nonneg_right hκ h0
    linarith
  have hW0 : 0 ≤ κ * (κ * Z * u) * X := by positivity
  have hQ1 : |Q| ≤ 45 / 10 * X := by
    have := abs_sub_abs_le_abs_sub Q F
    linarith
  have hQ2 := rnd_le hr hQ1
  have huX2 : u * X ≤ 1 / 4096 * X := mul_le_mul_of_nonneg_right hu hX
  set G := rnd Q with hG
  have hG1 : |G| ≤ 451 / 100 * X := by
    have := abs_sub_abs_le_abs_sub G Q
    linarith
  have hG2 : |G - F| ≤ 750 * (κ * (κ * Z * u) * X) := by
    have := abs_sub_le G Q F
    linarith
  have hs2 : 12 * (κ * Z * u) ≤ 4 / 100 * Z := by
    have h0 : 0 ≤ κ * Z * u := by positivity
    have := mul_le_mul_of_nonneg_right hκ h0
    linarith
  have hz' : |z'| ≤ 104 / 100 * Z := by
    have := abs_sub_abs_le_abs_sub z' z
    linarith
  have hy' : |y'| ≤ 312 / 100 * (Z * X) := by
    have h1 := abs_sub_abs_le_abs_sub y' y
    linarith
  have hP : |G * z'| ≤ 47 / 10 * (Z * X) := by
    rw [abs_mul]
    have := mul_le_mul hG1 hz' (abs_nonneg _) (by positivity)
    linarith
  have hP2 := rnd_le hr hP
  set P := rnd (G * z')
  have huZX : u * (Z * X) ≤ 1 / 4096 * (Z * X) := mul_le_mul_of_nonneg_right hu hZX
  have hL : |y' - P| ≤ 79 / 10 * (Z * X) := by
    have h1 := abs_sub y' P
    have h2 := abs_sub_abs_le_abs_sub P (G * z')
    linarith
  have hL2 := rnd_le hr hL
  have e : rnd (y' - P) - (y - F * z) = (rnd (y' - P) - (y' - P)) - (P - G * z') + (y' - y) - ((G - F) * z + G * (z' - z)) := by ring
  have t1 : |(G - F) * z| ≤ 750 * w := by
    rw [abs_mul]
    have h0 : 0 ≤ 750 * (κ * (κ * Z * u) * X) := by positivity
    have := mul_le_mul hG2 hzZ (abs_nonneg _) h0
    rw [hw]; linarith
  have t2 : |G * (z' - z)| ≤ 55 * (κ * Z * u * X) := by
    rw [abs_mul]
    have := mul_le_mul hG1 hz (abs_nonneg _) (by positivity)
    have h0 : 0 ≤ κ * Z * u * X := by positivity
    linarith
  rw [e]
  have s1 := abs_sub (rnd (y' - P) - (y' - P) - (P - G * z') + (y' - y)) ((G - F) * z + G * (z' - z))
  have s2 := abs_add_le ((G - F) * z) (G * (z' - z))
  have s3 := abs_add_le (rnd (y' - P) - (y' - P) - (P - G * z')) (y' - y)
  have s4 := abs_sub (rnd (y' - P) - (y' - P)) (P - G * z')
  linarith

/-- The error of the correction, for a cyclic system whose auxiliary system is the one that was solved. -/
theorem CycDom.float {n : ℕ} {a b c r x : ℕ → ℝ} {α β κ Z X ε : ℝ} {y' z' : ℕ → ℝ} {rnd : ℝ → ℝ} {u : ℝ} (hr : IsRel rnd u)
    (hu : u ≤ 1 / 4096) (hn : 2 < n) (h : CycDom n a b c α β κ) (hZ1 : 1 ≤ Z)
    (hZ : |α| ≤ Z * (|auxDiag n b α β (n - 1)| - offdiag n a c (n - 1))) (hs : 300 * (κ * (κ * Z * u)) ≤ 1)
    (hx : ∀ i < n, crow n a b c α β x i = r i) (hX : ∀ i < n, |x i| ≤ X) (hε : 0 ≤ ε) (hεu : ε ≤ 1104 / 100 * u)
    (hy' : SolvesNearby n a (auxDiag n b α β) c r y' ε) (hz' : SolvesNearby n a (auxDiag n b α β) c (auxRhs n b α) z' ε) :
    rnd (rnd (1 + z' 0) + rnd (rnd (β * z' (n - 1)) / -b 0)) ≠ 0 ∧ ∀ i < n,
      |rnd (y' i - rnd (rnd (rnd (y' 0 + rnd (rnd (β * y' (n - 1)) / -b 0)) /
        rnd (rnd (1 + z' 0) + rnd (rnd (β * z' (n - 1)) / -b 0))) * z' i)) - x i| ≤ 861 * (κ * κ * Z * Z * u * X) := by
  have hu0 := hr.nonneg
  have hκ := h.one_le (by omega)
  have hX0 : 0 ≤ X := (abs_nonneg _).trans (hX 0 (by omega))
  have hq := h.ratio hn
  obtain ⟨z, hz⟩ := (h.aux hn).exists (by omega) (auxRhs n b α)
  have hzZ := h.second hn hZ1 hZ hz
  have hD := h.denom hn hz
  set F := x 0 + β / -b 0 * x (n - 1) with hF
  set y : ℕ → ℝ := fun i => x i - (-F) * z i with hy
  have hyr : ∀ i < n, crow n a (auxDiag n b α β) c 0 0 y i = r i := by
    intro i hi
    rw [hy, crow_sub, crow_smul, hz i hi, ← hx i hi, h.rows hn x i hi, hF]; ring
  have hFX : |F| ≤ 2 * X := by
    have h1 := abs_add_le (x 0) (β / -b 0 * x (n - 1))
    rw [← hF, abs_mul] at h1
    have h2 := mul_le_of_le_one_left (abs_nonneg (x (n - 1))) hq
    have h3 := hX 0 (by omega)
    have h4 := hX (n - 1) (by omega)
    linarith
  have hyY : ∀ i < n, |y i| ≤ 3 * (Z * X) := by
    intro i hi
    have h1 := abs_sub (x i) (-F * z i)
    have h2 : |(-F) * z i| ≤ 2 * X * Z := by
      rw [abs_mul, abs_neg]
      exact mul_le_mul hFX (hzZ i hi) (abs_nonneg _) (by linarith)
    have h3 := hX i hi
    have h4 : X ≤ Z * X := by nlinarith
    simp only [hy]
    linarith
  have hκs : 300 * (κ * u) ≤ 1 := by
    have h0 : 0 ≤ κ * u := by positivity
    have h1 : 1 ≤ κ * Z := one_le_mul_of_one_le_of_one_le hκ hZ1
    have := mul_le_mul_of_nonneg_right h1 h0
    linarith
  have ey := near_err (by omega) (h.aux hn) hε hεu hκs hy' hyr hyY
  have ez := near_err (by omega) (h.aux hn) hε hεu hκs hz' hz hzZ
  have hs0 : 0 ≤ κ * Z * u := by positivity
  have hss : 300 * (κ * Z * u) ≤ 1 := by
    have := mul_le_mul_of_nonneg_right hκ hs0
    linarith
  have by' : ∀ i < n, |y' i| ≤ 312 / 100 * (Z * X) := by
    intro i hi
    have h1 := abs_sub_abs_le_abs_sub (y' i) (y i)
    have h2 := ey i hi
    have h3 := hyY i hi
    have h4 := mul_le_mul_of_nonneg_right hκs (show 0 ≤ Z * X by positivity)
    linarith
  have bz' : ∀ i < n, |z' i| ≤ 104 / 100 * Z := by
    intro i hi
    have h1 := abs_sub_abs_le_abs_sub (z' i) (z i)
    have h2 := ez i hi
    have h3 := hzZ i hi
    have h4 := mul_le_mul_of_nonneg_right hκs (show 0 ≤ Z by positivity)
    linarith
  have n0 : 0 < n := by omega
  have nl : n - 1 < n := by omega
  have eN := numer_err hr hu hq (by' 0 n0) (by' _ nl)
  have eD := denom_err hr hu hq (bz' 0 n0) (bz' _ nl) (by linarith)
  set N' := rnd (y' 0 + rnd (rnd (β * y' (n - 1)) / -b 0))
  set D' := rnd (rnd (1 + z' 0) + rnd (rnd (β * z' (n - 1)) / -b 0))
  have hu1 : u * (Z * X) ≤ κ * Z * u * X := by
    have h0 : 0 ≤ u * (Z * X) := by positivity
    have := mul_le_mul_of_nonneg_right hκ h0
    linarith
  have hu2 : u * Z ≤ κ * Z * u := by
    have h0 : 0 ≤ u * Z := by positivity
    have := mul_le_mul_of_nonneg_right hκ h0
    linarith
  have kN : |N' - (y 0 + β / -b 0 * y (n - 1))| ≤ 85 * (κ * Z * u * X) := by
    have h1 := abs_sub_le N' (y' 0 + β / -b 0 * y' (n - 1)) (y 0 + β / -b 0 * y (n - 1))
    have e : y' 0 + β / -b 0 * y' (n - 1) - (y 0 + β / -b 0 * y (n - 1)) =
      (y' 0 - y 0) + β / -b 0 * (y' (n - 1) - y (n - 1)) := by ring
    have h2 := abs_add_le (y' 0 - y 0) (β / -b 0 * (y' (n - 1) - y (n - 1)))
    rw [abs_mul] at h2
    have h3 := mul_le_of_le_one_left (abs_nonneg (y' (n - 1) - y (n - 1))) hq
    have h4 := ey 0 n0
    have h5 := ey _ nl
    rw [e] at h1
    have h6 : 0 ≤ κ * Z * u * X := by positivity
    have h7 : κ * u * (3 * (Z * X)) = 3 * (κ * Z * u * X) := by ring
    linarith
  have kD : |D' - (1 + z 0 + β / -b 0 * z (n - 1))| ≤ 32 * (κ * Z * u) := by
    have h1 := abs_sub_le D' (1 + z' 0 + β / -b 0 * z' (n - 1)) (1 + z 0 + β / -b 0 * z (n - 1))
    have e : 1 + z' 0 + β / -b 0 * z' (n - 1) - (1 + z 0 + β / -b 0 * z (n - 1)) =
      (z' 0 - z 0) + β / -b 0 * (z' (n - 1) - z (n - 1)) := by ring
    have h2 := abs_add_le (z' 0 - z 0) (β / -b 0 * (z' (n - 1) - z (n - 1)))
    rw [abs_mul] at h2
    have h3 := mul_le_of_le_one_left (abs_nonneg (z' (n - 1) - z (n - 1))) hq
    have h4 := ez 0 n0
    have h5 := ez _ nl
    rw [e] at h1
    linarith
  obtain ⟨hD0, hQ⟩ := quot_err (F := F) (X := X) (s := κ * Z * u) hκ hD (by simp only [hy, hF]; ring) hFX kN kD hs
  refine ⟨hD0, fun i hi => ?_⟩
  have e : x i = y i - F * z i := by simp only [hy]; ring
  rw [e]
  refine sub_err hr hu hκ hZ1 hs hX0 hFX ?_ (hyY i hi) ?_ (hzZ i hi) hQ
  · have := ey i hi; linarith
  · have := ez i hi; linarith

end MathLib
