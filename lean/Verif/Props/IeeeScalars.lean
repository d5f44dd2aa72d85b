import Verif.Props.IeeeBoxes
import Verif.Model.Functions

/-! # Property C136: comparing functions with NaN, infinities and signed zeros -/

namespace MathLib
open Ieee

section
variable {K : Type} [Field K] [LinearOrder K] [IsStrictOrderedRing K] [FloorRing K] {p : ℕ} {emax : ℤ}

omit [IsStrictOrderedRing K] [FloorRing K] in
/-- `min` and `max` of numbers other than NaN return one of them and bound both, infinities included; if
either argument is NaN they return the second, so `min(NaN, x)` is `x` and `min(x, NaN)` is NaN. -/
theorem C136_min_max (a b : Ieee K p emax) :
    (a ≠ .nan → b ≠ .nan →
      (min' a b = a ∨ min' a b = b) ∧ min' a b ≤ a ∧ min' a b ≤ b ∧
      (max' a b = a ∨ max' a b = b) ∧ a ≤ max' a b ∧ b ≤ max' a b) ∧
    (a = .nan ∨ b = .nan → min' a b = b ∧ max' a b = b) := by
  refine ⟨fun ha hb => ?_, ?_⟩
  · unfold min' max'
    have l := low_one (q := a) hb
    have h := high_one (q := a) hb
    refine ⟨?_, l.2.2 ha, l.2.1 _ (NotNaN.refl hb), ?_, h.2.2 ha, h.2.1 _ (NotNaN.refl hb)⟩ <;> split_ifs <;> simp
  · rintro (rfl | rfl) <;> simp [min', max', not_lt_nan, not_nan_lt]

/-- The claim: a number clipped between two bounds in order lies between them. -/
def C136_full : Prop := ∀ v a b : Ieee ℚ 24 127, a ≤ b → a ≤ clippedBetween v a b ∧ clippedBetween v a b ≤ b

omit [IsStrictOrderedRing K] [FloorRing K] in
/-- It holds unless the number is NaN, which is returned unchanged. -/
theorem C136_clip_partial (v a b : Ieee K p emax) (h : a ≤ b) :
    (v ≠ .nan ↔ a ≤ clippedBetween v a b ∧ clippedBetween v a b ≤ b) ∧
    (v = .nan → clippedBetween v a b = .nan) ∧ (a ≤ v → v ≤ b → clippedBetween v a b = v) := by
  have h1 : v = .nan → clippedBetween v a b = .nan := by
    rintro rfl; simp [clippedBetween, not_lt_nan, not_nan_lt]
  refine ⟨⟨fun hv => ?_, ?_⟩, h1, fun h2 h3 => ?_⟩
  · unfold clippedBetween
    split_ifs with c1 c2
    · exact ⟨h, NotNaN.refl (Ieee.ne_right h)⟩
    · exact ⟨NotNaN.refl (Ieee.ne_left h), h⟩
    · exact ⟨Ieee.le_of_not hv (Ieee.ne_left h) c2, Ieee.le_of_not (Ieee.ne_right h) hv c1⟩
  · intro hc hv
    rw [h1 hv] at hc
    exact not_le_nan _ hc.1
  · unfold clippedBetween
    rw [if_neg (Ieee.not_lt_of_le h3), if_neg (Ieee.not_lt_of_le h2)]

theorem C136_refuted : ¬ C136_full := fun h => by
  have := h .nan 0 1 (by decide +kernel)
  rw [(C136_clip_partial .nan 0 1 (by decide +kernel)).2.1 rfl] at this
  exact not_le_nan _ this.1

omit [IsStrictOrderedRing K] [FloorRing K] in
/-- A NaN bound is no bound: with a NaN lower bound the number is only clipped from above, and vice versa. -/
theorem C136_clip_nan (v b : Ieee K p emax) :
    (clippedBetween v .nan b = if v > b then b else v) ∧ (clippedBetween v b .nan = if v < b then b else v) := by
  constructor <;> simp [clippedBetween, not_lt_nan, not_nan_lt]

/-- The claim: the absolute value has no minus sign. -/
def C136_abs_full : Prop := ∀ v : Ieee ℚ 24 127, (abs' v).sign = false

omit [FloorRing K] in
/-- The absolute value is NaN for NaN, and otherwise not below zero and equal to the number or its
opposite; its sign bit is clear except that `-0` remains `-0`. -/
theorem C136_abs_partial (v : Ieee K p emax) (hv : ∀ x, v = .num x → x ≠ 0) :
    (v = .nan → abs' v = .nan) ∧ (v ≠ .nan → 0 ≤ abs' v ∧ (abs' v = v ∨ abs' v = -v)) ∧
    ((abs' v).sign = true ↔ v = .zero true) := by
  cases v with
  | nan => simp [abs', not_nan_lt, sign]
  | inf s =>
    cases s
    · have : ¬ (inf false : Ieee K p emax) < 0 := fun h => Bool.false_ne_true h
      simp only [abs', if_neg this]
      exact ⟨nofun, fun _ => ⟨rfl, .inl trivial⟩, by simp [sign]⟩
    · have : (inf true : Ieee K p emax) < 0 := rfl
      simp only [abs', if_pos this]
      exact ⟨nofun, fun _ => ⟨rfl, .inr trivial⟩, ⟨nofun, fun h => by cases h⟩⟩
  | zero s =>
    have : ¬ (zero s : Ieee K p emax) < 0 := fun h => Bool.false_ne_true h
    simp only [abs', if_neg this]
    exact ⟨nofun, fun _ => ⟨rfl, .inl trivial⟩, by simp [sign]⟩
  | num x =>
    rcases lt_or_gt_of_ne (hv x rfl) with h | h
    · have : (num x : Ieee K p emax) < 0 := by change ltB _ _ = true; simpa [ltB] using h
      simp only [abs', if_pos this]
      refine ⟨nofun, fun _ => ⟨?_, .inr trivial⟩, ?_⟩
      · change leB (zero false) (num (-x)) = true; simp [leB, h.le]
      · change decide (-x < 0) = true ↔ _
        simp [h.le]
    · have : ¬ (num x : Ieee K p emax) < 0 := by
        change ¬ ltB _ _ = true; simpa [ltB] using h.le
      simp only [abs', if_neg this]
      refine ⟨nofun, fun _ => ⟨?_, .inl trivial⟩, ?_⟩
      · change leB (zero false) (num x) = true; simp [leB, h.le]
      · simp [sign, h.le]

theorem C136_abs_refuted : ¬ C136_abs_full := fun h => by
  have := h (.zero true)
  revert this; decide +kernel

/-- non-vacuous: an infinite number clipped, a NaN one, a negative infinity made positive -/
example : (0 : Ieee ℚ 24 127) ≤ 1 ∧ (.inf true : Ieee ℚ 24 127) ≠ .nan ∧
    (1 : Ieee ℚ 24 127) ≤ clippedBetween (.inf false) 0 1 ∧ (∀ x, (.inf true : Ieee ℚ 24 127) = .num x → x ≠ 0) :=
  ⟨by decide +kernel, nofun, by decide +kernel, nofun⟩

end
end MathLib
