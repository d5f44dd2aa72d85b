import Verif.Proof.RelErr
import Mathlib.Tactic.Linarith

/-! # Absolute errors in units of `u`

`Apx u a x e M`: the computed `a` is a number, off by at most `e * u` from `x`, and `x` is at most `M` in size. -/

namespace MathLib

def Apx {rnd : ℝ → ℝ} (u : ℝ) (a : Fl ℝ rnd) (x e M : ℝ) : Prop := ∃ v, a = .num v ∧ |v - x| ≤ e * u ∧ |x| ≤ M

namespace Apx
variable {rnd : ℝ → ℝ} {u x y e M e₁ e₂ M₁ M₂ : ℝ} {a b : Fl ℝ rnd}

theorem num {v : ℝ} (h : |v| ≤ M) : Apx u (.num v : Fl ℝ rnd) v 0 M := ⟨v, rfl, by simp, h⟩

theorem mono (hu : 0 ≤ u) (h : Apx u a x e₁ M₁) (he : e₁ ≤ e) (hM : |x| ≤ M) : Apx u a x e M := by
  obtain ⟨v, h1, h2, -⟩ := h
  exact ⟨v, h1, h2.trans (mul_le_mul_of_nonneg_right he hu), hM⟩

theorem neg (h : Apx u a x e M) : Apx u (-a) (-x) e M := by
  obtain ⟨v, rfl, h2, h3⟩ := h
  refine ⟨-v, rfl, ?_, by rwa [abs_neg]⟩
  rw [← abs_neg]; convert h2 using 2; ring

theorem round (hr : IsRel rnd u) (hu : u ≤ 1 / 4096) {v : ℝ} (h : |v - x| ≤ e₁ * u)
    (hM : |x| ≤ M) (he : e₁ * (4097 / 4096) + M ≤ e) : Apx u (.num (rnd v) : Fl ℝ rnd) x e M := by
  refine ⟨_, rfl, ?_, hM⟩
  have h0 := hr.nonneg
  have h1 := hr.err v
  have h2 := abs_sub_abs_le_abs_sub v x
  have h3 : |rnd v - x| ≤ |rnd v - v| + |v - x| := by
    have := abs_add_le (rnd v - v) (v - x); rwa [sub_add_sub_cancel] at this
  have h4 : u * |v| ≤ u * (M + e₁ * u) := mul_le_mul_of_nonneg_left (by linarith) h0
  have h5 : 0 ≤ e₁ * u := (abs_nonneg _).trans h
  have h6 : u * (e₁ * u) ≤ 1 / 4096 * (e₁ * u) := mul_le_mul_of_nonneg_right hu h5
  have h7 := mul_le_mul_of_nonneg_right he h0
  nlinarith

theorem add (hr : IsRel rnd u) (hu : u ≤ 1 / 4096) (ha : Apx u a x e₁ M₁) (hb : Apx u b y e₂ M₂)
    (hM : |x + y| ≤ M) (he : (e₁ + e₂) * (4097 / 4096) + M ≤ e) : Apx u (a + b) (x + y) e M := by
  obtain ⟨v, rfl, h1, -⟩ := ha
  obtain ⟨w, rfl, h2, -⟩ := hb
  rw [Fl.num_add]
  refine round hr hu (e₁ := e₁ + e₂) ?_ hM he
  have := abs_add_le (v - x) (w - y)
  rw [show v + w - (x + y) = (v - x) + (w - y) by ring]
  linarith

theorem sub (hr : IsRel rnd u) (hu : u ≤ 1 / 4096) (ha : Apx u a x e₁ M₁) (hb : Apx u b y e₂ M₂)
    (hM : |x - y| ≤ M) (he : (e₁ + e₂) * (4097 / 4096) + M ≤ e) : Apx u (a - b) (x - y) e M := by
  obtain ⟨v, rfl, h1, -⟩ := ha
  obtain ⟨w, rfl, h2, -⟩ := hb
  rw [Fl.num_sub]
  refine round hr hu (e₁ := e₁ + e₂) ?_ hM he
  have := abs_sub (v - x) (w - y)
  rw [show v - w - (x - y) = (v - x) - (w - y) by ring]
  linarith

theorem mul (hr : IsRel rnd u) (hu : u ≤ 1 / 4096) (ha : Apx u a x e₁ M₁) (hb : Apx u b y e₂ M₂) (h₂ : 0 ≤ e₂)
    (hM : |x * y| ≤ M) (he : (e₁ * (M₂ + e₂ / 4096) + M₁ * e₂) * (4097 / 4096) + M ≤ e) : Apx u (a * b) (x * y) e M := by
  obtain ⟨v, rfl, h1, m1⟩ := ha
  obtain ⟨w, rfl, h2, m2⟩ := hb
  rw [Fl.num_mul]
  refine round hr hu (e₁ := e₁ * (M₂ + e₂ / 4096) + M₁ * e₂) ?_ hM he
  have h0 := hr.nonneg
  have h3 : |w| ≤ M₂ + e₂ / 4096 := by
    have := abs_sub_abs_le_abs_sub w y
    have : e₂ * u ≤ e₂ * (1 / 4096) := mul_le_mul_of_nonneg_left hu h₂
    linarith
  have h5 : 0 ≤ e₁ * u := (abs_nonneg _).trans h1
  have k1 : |(v - x) * w| ≤ e₁ * u * (M₂ + e₂ / 4096) := by
    rw [abs_mul]; exact mul_le_mul h1 h3 (abs_nonneg _) h5
  have k2 : |x * (w - y)| ≤ M₁ * (e₂ * u) := by
    rw [abs_mul]; exact mul_le_mul m1 h2 (abs_nonneg _) ((abs_nonneg _).trans m1)
  have := abs_add_le ((v - x) * w) (x * (w - y))
  rw [show v * w - x * y = (v - x) * w + x * (w - y) by ring]
  linarith

end Apx
end MathLib
