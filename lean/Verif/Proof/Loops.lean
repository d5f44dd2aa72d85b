import Verif.Spec.Buffer
import Mathlib.Tactic.Linarith

/-! # Proof rules for the loops and buffers -/

namespace MathLib

namespace Buf
variable {α : Type}

theorem get_of {b : Buf α} {i : ℕ} {v : α} (hi : i < b.size) (hv : b.data i = some v) :
    b.get i = .ok v := by
  simp [get, hi, hv]

theorem set_of {b : Buf α} {i : ℕ} {v : α} (hi : i < b.size) :
    b.set i v = .ok ⟨b.size, Function.update b.data i (some v)⟩ := by
  simp [set, hi]

theorem Holds.get {b : Buf α} {n : ℕ} {f : ℕ → α} (h : b.Holds n f) {i : ℕ} (hi : i < n) :
    b.get i = .ok (f i) := get_of (hi.trans_le h.1) (h.2 i hi)

end Buf

variable {σ : Type}

theorem loopFrom_rule (f : ℕ → σ → Res σ) (Inv : ℕ → σ → Prop) (lo k : ℕ) (s : σ)
    (h0 : Inv lo s)
    (hstep : ∀ i s, lo ≤ i → i < lo + k → Inv i s → ∃ s', f i s = .ok s' ∧ Inv (i + 1) s') :
    ∃ s', loopFrom f lo k s = .ok s' ∧ Inv (lo + k) s' := by
  induction k generalizing lo s with
  | zero => exact ⟨s, rfl, h0⟩
  | succ k ih =>
    obtain ⟨s1, e1, h1⟩ := hstep lo s le_rfl (by omega) h0
    obtain ⟨s2, e2, h2⟩ := ih (lo + 1) s1 h1
      (fun i s hl hh => hstep i s (by omega) (by omega))
    refine ⟨s2, ?_, by rwa [show lo + (k + 1) = lo + 1 + k by omega]⟩
    simp only [loopFrom, e1, bind, Except.bind, e2]

theorem loop_rule {f : ℕ → σ → Res σ} (Inv : ℕ → σ → Prop) {lo hi : ℕ} {s : σ} (hlh : lo ≤ hi)
    (h0 : Inv lo s)
    (hstep : ∀ i s, lo ≤ i → i < hi → Inv i s → ∃ s', f i s = .ok s' ∧ Inv (i + 1) s') :
    ∃ s', loop lo hi f s = .ok s' ∧ Inv hi s' := by
  have := loopFrom_rule f Inv lo (hi - lo) s h0
    (fun i s h1 h2 => hstep i s h1 (by omega))
  rwa [show lo + (hi - lo) = hi by omega] at this

theorem loopBreakFrom_rule (f : ℕ → σ → Res (Option σ)) (Inv : ℕ → σ → Prop) (Fail : Prop)
    (lo k : ℕ) (s : σ) (h0 : Inv lo s)
    (hstep : ∀ i s, lo ≤ i → i < lo + k → Inv i s →
      (∃ s', f i s = .ok (some s') ∧ Inv (i + 1) s') ∨ (f i s = .ok none ∧ Fail)) :
    (∃ s', loopBreakFrom f lo k s = .ok (some s') ∧ Inv (lo + k) s') ∨
      (loopBreakFrom f lo k s = .ok none ∧ Fail) := by
  induction k generalizing lo s with
  | zero => exact Or.inl ⟨s, rfl, h0⟩
  | succ k ih =>
    rcases hstep lo s le_rfl (by omega) h0 with ⟨s1, e1, h1⟩ | ⟨e1, h1⟩
    · rcases ih (lo + 1) s1 h1 (fun i s hl hh => hstep i s (by omega) (by omega)) with
        ⟨s2, e2, h2⟩ | ⟨e2, h2⟩
      · refine Or.inl ⟨s2, ?_, by rwa [show lo + (k + 1) = lo + 1 + k by omega]⟩
        simp only [loopBreakFrom, e1, bind, Except.bind, e2]
      · refine Or.inr ⟨?_, h2⟩
        simp only [loopBreakFrom, e1, bind, Except.bind, e2]
    · refine Or.inr ⟨?_, h1⟩
      simp only [loopBreakFrom, e1, bind, Except.bind]

theorem loopBreak_rule {f : ℕ → σ → Res (Option σ)} (Inv : ℕ → σ → Prop) (Fail : Prop)
    {lo hi : ℕ} {s : σ} (hlh : lo ≤ hi) (h0 : Inv lo s)
    (hstep : ∀ i s, lo ≤ i → i < hi → Inv i s →
      (∃ s', f i s = .ok (some s') ∧ Inv (i + 1) s') ∨ (f i s = .ok none ∧ Fail)) :
    (∃ s', loopBreak lo hi f s = .ok (some s') ∧ Inv hi s') ∨
      (loopBreak lo hi f s = .ok none ∧ Fail) := by
  have := loopBreakFrom_rule f Inv Fail lo (hi - lo) s h0
    (fun i s h1 h2 => hstep i s h1 (by omega))
  rwa [show lo + (hi - lo) = hi by omega] at this

theorem loopDown_rule {f : ℕ → σ → Res σ} (Inv : ℕ → σ → Prop) {k : ℕ} {s : σ}
    (h0 : Inv k s) (hstep : ∀ j s, j < k → Inv (j + 1) s → ∃ s', f j s = .ok s' ∧ Inv j s') :
    ∃ s', loopDown f k s = .ok s' ∧ Inv 0 s' := by
  induction k generalizing s with
  | zero => exact ⟨s, rfl, h0⟩
  | succ k ih =>
    obtain ⟨s1, e1, h1⟩ := hstep k s (by omega) h0
    obtain ⟨s2, e2, h2⟩ := ih h1 (fun j s hj => hstep j s (by omega))
    exact ⟨s2, by simp only [loopDown, e1, bind, Except.bind, e2], h2⟩

end MathLib
