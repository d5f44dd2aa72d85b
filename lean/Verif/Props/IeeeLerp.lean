import Verif.Props.IeeeCenter
import Verif.Model.Interpolation

/-! # Property C148: `lerp` near the largest numbers

`lerp` computes `from + (to - from) * ratio`.  The difference may overflow although both ends and the result
are finite. -/

namespace MathLib
open Ieee

section
variable {K : Type} [Field K] [LinearOrder K] [IsStrictOrderedRing K] [FloorRing K] {p : ℕ} {emax : ℤ}

deriving instance DecidableEq for Ieee

/-- multiplying finite values -/
theorem mul_cases {a b : Ieee K p emax} {x y : K} (ha : a.fin? = some x) (hb : b.fin? = some y) :
    (∃ t, a * b = inf t ∧ (2 : K) ^ (emax + 1) ≤ |grid p emax (x * y)| ∧ t = decide (x * y < 0)) ∨
    ((a * b).fin? = some (grid p emax (x * y)) ∧ |grid p emax (x * y)| < 2 ^ (emax + 1)) := by
  change (∃ t, Ieee.mul a b = inf t ∧ _) ∨ ((Ieee.mul a b).fin? = _ ∧ _)
  have z : |(0 : K)| < 2 ^ (emax + 1) := by rw [abs_zero]; exact zpow2_pos _
  rcases fin?_cases ha with ⟨s, rfl, rfl⟩ | rfl <;> rcases fin?_cases hb with ⟨t, rfl, rfl⟩ | rfl
  · right; rw [mul_zero, grid_zero]; exact ⟨rfl, z⟩
  · right; rw [zero_mul, grid_zero]; exact ⟨rfl, z⟩
  · right; rw [mul_zero, grid_zero]; exact ⟨rfl, z⟩
  · exact round_cases (x * y) false

theorem valid_add (hp : 1 ≤ p) (a b : Ieee K p emax) : (a + b).Valid := by
  change (Ieee.add a b).Valid
  unfold Ieee.add
  split
  all_goals first
    | exact valid_round hp _ _
    | (split_ifs <;> trivial)
    | trivial

/-- the factor does not enlarge -/
theorem delta_mul (hp : 1 ≤ p) {d t : Ieee K p emax} {x r : K} (hd : d.fin? = some x) (ht : t.fin? = some r)
    (hx : OnFormat p emax x) (hb : |x| < 2 ^ (emax + 1)) (h0 : 0 ≤ r) (h1 : r ≤ 1) :
    (d * t).fin? = some (grid p emax (x * r)) ∧ |grid p emax (x * r)| ≤ |x| := by
  have hl : |grid p emax (x * r)| ≤ |x| := by
    rcases le_total 0 x with h | h
    · rw [abs_of_nonneg (grid_nonneg (mul_nonneg h h0)), abs_of_nonneg h]
      conv_rhs => rw [← show grid p emax x = x from hx]
      exact grid_mono hp (mul_le_of_le_one_right h h1)
    · have h2 : grid p emax x ≤ grid p emax (x * r) := grid_mono hp (by nlinarith)
      have h3 := grid_mono (p := p) (emax := emax) hp (mul_nonpos_of_nonpos_of_nonneg h h0)
      rw [grid_zero] at h3
      rw [show grid p emax x = x from hx] at h2
      rw [abs_of_nonpos h3, abs_of_nonpos h]; linarith
  rcases mul_cases hd ht with ⟨s, -, h, -⟩ | h
  · exact absurd (h.trans hl) (not_le.2 hb)
  · exact ⟨h.1, hl⟩

/-- what `lerp` computes if the difference does not overflow -/
theorem lerp_fin (hp : 1 ≤ p) {a b t : Ieee K p emax} {v w r : K} (ha : a.fin? = some v) (hb : b.fin? = some w)
    (ht : t.fin? = some r) (hd : ∀ s, b - a ≠ inf s) (h0 : 0 ≤ r) (h1 : r ≤ 1) :
    ((b - a) * t).fin? = some (grid p emax (grid p emax (w - v) * r)) ∧
    |grid p emax (grid p emax (w - v) * r)| ≤ |grid p emax (w - v)| ∧ |grid p emax (w - v)| < 2 ^ (emax + 1) := by
  rcases sub_cases hb ha with ⟨s, hs, -⟩ | ⟨h2, h3⟩
  · exact absurd hs (hd s)
  · have := delta_mul hp h2 ht (grid_grid hp _) h3 h0 h1
    exact ⟨this.1, this.2, h3⟩

/-- The claim: between finite ends `lerp` is finite. -/
def C148_full : Prop := ∀ a b t : Ieee ℚ 24 127, a.Finite → b.Finite → t.Finite → 0 ≤ t → t ≤ 1 →
  (lerp a b t).Finite

theorem finite_num {v : ℚ} (h0 : v ≠ 0) (h : grid 24 127 v = v) (h1 : |v| < 2 ^ (128 : ℤ)) :
    (num v : Ieee ℚ 24 127).Finite := ⟨⟨h0, h, h1⟩, v, rfl⟩

/-- False, even at the ends of the range of the ratio: from `-2 ^ 127` to `2 ^ 127` with ratio 0 the result
is not a number, and from `3 * 2 ^ 103` to the largest number with ratio 1 it is infinite although the
difference does not overflow. -/
theorem C148_refuted : ¬ C148_full ∧
    (lerp (num (-2 ^ 127)) (num (2 ^ 127)) 0 : Ieee ℚ 24 127) = nan ∧
    (lerp (num (3 * 2 ^ 103)) (num ((2 ^ 24 - 1) * 2 ^ 104)) 1 : Ieee ℚ 24 127) = inf false ∧
    (num ((2 ^ 24 - 1) * 2 ^ 104) - num (3 * 2 ^ 103) : Ieee ℚ 24 127) = num ((2 ^ 24 - 2) * 2 ^ 104) := by
  have e2 : (lerp (num (-2 ^ 127)) (num (2 ^ 127)) 0 : Ieee ℚ 24 127) = nan := by
    decide +kernel
  refine ⟨fun h => ?_, e2, ?_, ?_⟩
  · have f : grid 24 127 (2 ^ 127 : ℚ) = 2 ^ 127 := by
      have := grid_zpow (K := ℚ) (p := 24) (emax := 127) (by norm_num) (j := 127) (by norm_num)
      exact_mod_cast this
    have := h (num (-2 ^ 127)) (num (2 ^ 127)) 0
      (finite_num (by norm_num) (by rw [grid_neg, f]) (by norm_num)) (finite_num (by norm_num) f (by norm_num))
      ⟨trivial, 0, rfl⟩ rfl rfl
    rw [e2] at this
    obtain ⟨-, v, hv⟩ := this
    cases hv
  · decide +kernel
  · decide +kernel

/-- Exactly when `lerp` is not a number: the difference overflows and the ratio is 0.  If the difference
overflows and the ratio is not 0, the result is infinite. -/
theorem C148_nan (hp : 1 ≤ p) {a b t : Ieee K p emax} (ha : a.Finite) (hb : b.Finite) (ht : t.Finite)
    (h0 : 0 ≤ t) (h1 : t ≤ 1) :
    (lerp a b t = nan ↔ (∃ s, b - a = inf s) ∧ t.fin? = some 0) ∧
    (∀ s, b - a = inf s → t.fin? ≠ some 0 → lerp a b t = inf s) := by
  obtain ⟨ha, v, hv⟩ := ha
  obtain ⟨hb, w, hw⟩ := hb
  obtain ⟨ht, r, hr⟩ := ht
  have h0' := (le_fin fin?_zero hr).1 h0
  have h1' := (le_fin hr fin?_one).1 h1
  have key : ∀ s, b - a = inf s → (t.fin? = some 0 → lerp a b t = nan) ∧ (t.fin? ≠ some 0 → lerp a b t = inf s) := by
    intro s hs
    unfold lerp
    rw [hs]
    rcases fin?_cases hr with ⟨z, rfl, rfl⟩ | rfl
    · refine ⟨fun _ => ?_, fun h => absurd rfl h⟩
      change Ieee.add a nan = nan
      cases a <;> rfl
    · refine ⟨fun h => ?_, fun _ => ?_⟩
      · have : r = 0 := by simpa [fin?] using h
        exact absurd this ht.1
      · change Ieee.add a (inf (s ^^ decide (r < 0))) = _
        rw [decide_eq_false (not_lt.2 h0'), Bool.xor_false]
        rcases fin?_cases hv with ⟨z, rfl, rfl⟩ | rfl <;> rfl
  refine ⟨⟨fun h => ?_, fun h => ?_⟩, fun s hs h => (key s hs).2 h⟩
  · by_cases hd : ∃ s, b - a = inf s
    · refine ⟨hd, ?_⟩
      by_contra hc
      obtain ⟨s, hs⟩ := hd
      rw [(key s hs).2 hc] at h; cases h
    · exfalso
      obtain ⟨h2, -⟩ := lerp_fin hp hv hw hr (fun s hs => hd ⟨s, hs⟩) h0' h1'
      unfold lerp at h
      simp only at h
      rcases add_cases hv h2 with ⟨z, hz, -⟩ | ⟨h3, -⟩
      · rw [hz] at h; cases h
      · rw [h] at h3; cases h3
  · obtain ⟨⟨s, hs⟩, hz⟩ := h
    exact (key s hs).1 hz

/-- If neither end is above half the largest power of two, the result is finite. -/
theorem C148_partial (hp : 2 ≤ p) (he : 1 ≤ emax) {a b t : Ieee K p emax} (ht : t.Finite) (h0 : 0 ≤ t) (h1 : t ≤ 1) {v w : K} (hv : a.fin? = some v) (hw : b.fin? = some w)
    (hva : |v| ≤ 2 ^ (emax - 1)) (hwa : |w| ≤ 2 ^ (emax - 1)) : (lerp a b t).Finite := by
  obtain ⟨ht, r, hr⟩ := ht
  have h0' := (le_fin fin?_zero hr).1 h0
  have h1' := (le_fin hr fin?_one).1 h1
  have e1 : (2 : K) ^ emax = 2 * 2 ^ (emax - 1) := by
    rw [mul_comm, ← zpow_add_one₀ two_ne_zero]; congr 1; ring
  have e2 : (2 : K) ^ (emax + 1) = 4 * 2 ^ (emax - 1) := by
    rw [zpow_add_one₀ two_ne_zero, e1]; ring
  have q := zpow2_pos (K := K) (emax - 1)
  have hg : |grid p emax (w - v)| ≤ 2 ^ emax := by
    refine abs_grid_le (by omega) (by omega) ?_
    rw [e1]; exact (abs_sub _ _).trans (by linarith)
  have hd : ∀ s, b - a ≠ inf s := by
    intro s hs
    rcases sub_cases hw hv with ⟨s, -, h, -⟩ | ⟨h, -⟩
    · linarith
    · rw [hs] at h; cases h
  obtain ⟨h2, h3, h4⟩ := lerp_fin (by omega) hv hw hr hd h0' h1'
  refine ⟨valid_add (by omega) _ _, ?_⟩
  unfold lerp
  simp only
  rcases add_cases hv h2 with ⟨z, -, h, -⟩ | ⟨h, -⟩
  · exfalso
    set y := grid p emax (grid p emax (w - v) * r)
    have h5 : |v + y| ≤ 3 * 2 ^ (emax - 1) := (abs_add_le _ _).trans (by linarith)
    have h6 : grid p emax (3 * (2 : K) ^ (emax - 1)) = 3 * 2 ^ (emax - 1) := by
      rw [grid_eq_rne]
      · refine rne_of_rep (by omega) ⟨3, emax - 1, ?_, by push_cast; ring⟩
        have : (2 : ℤ) ^ 2 ≤ 2 ^ p := pow_le_pow_right₀ (by norm_num) hp
        rw [abs_of_pos (by norm_num)]
        linarith
      · rw [abs_of_pos (by positivity)]
        have : (2 : K) ^ (1 - emax) ≤ 2 ^ (emax - 1) := zpow_le_zpow_right₀ one_le_two (by omega)
        linarith
    rw [abs_le] at h5
    have h7 := grid_mono (p := p) (emax := emax) (by omega) h5.1
    have h8 := grid_mono (p := p) (emax := emax) (by omega) h5.2
    rw [grid_neg, h6] at h7
    rw [h6] at h8
    have := abs_le.2 ⟨h7, h8⟩
    linarith
  · exact ⟨_, h⟩

/-- From the lower to the upper end `lerp` starts at the lower end and grows with the ratio, rounding and an
overflow of the last addition included, if only the difference does not overflow. -/
theorem C148_monotone (hp : 1 ≤ p) {a b t u : Ieee K p emax} (ha : a.Finite) (hb : b.Finite) (ht : t.Finite)
    (hu : u.Finite) (hab : a ≤ b) (h0 : 0 ≤ t) (htu : t ≤ u) (h1 : u ≤ 1) (hd : ∀ s, b - a ≠ inf s) :
    a ≤ lerp a b t ∧ lerp a b t ≤ lerp a b u ∧ (lerp a b 0).fin? = a.fin? := by
  obtain ⟨ha, v, hv⟩ := ha
  obtain ⟨hb, w, hw⟩ := hb
  obtain ⟨ht, r, hr⟩ := ht
  obtain ⟨hu, q, hq⟩ := hu
  have h0' := (le_fin fin?_zero hr).1 h0
  have h1' := (le_fin hq fin?_one).1 h1
  have htu' := (le_fin hr hq).1 htu
  have hvw := (le_fin hv hw).1 hab
  obtain ⟨t1, t2, t3⟩ := lerp_fin hp hv hw hr hd h0' (htu'.trans h1')
  obtain ⟨u1, u2, -⟩ := lerp_fin hp hv hw hq hd (h0'.trans htu') h1'
  have z1 := (lerp_fin hp hv hw fin?_zero hd le_rfl zero_le_one).1
  have hg := grid_nonneg (p := p) (emax := emax) (sub_nonneg.2 hvw)
  have hf := (ha.fin hv)
  have m1 : grid p emax (v + 0) ≤ grid p emax (v + grid p emax (grid p emax (w - v) * r)) :=
    grid_mono hp (by have := grid_nonneg (p := p) (emax := emax) (mul_nonneg hg h0'); linarith)
  have m2 : grid p emax (v + grid p emax (grid p emax (w - v) * r)) ≤
      grid p emax (v + grid p emax (grid p emax (w - v) * q)) :=
    grid_mono hp (by
      have := grid_mono (p := p) (emax := emax) hp (mul_le_mul_of_nonneg_left htu' hg)
      linarith)
  rw [add_zero, show grid p emax v = v from hf.1] at m1
  refine ⟨(le_add hv t1 hv hf.2).2 m1, ?_, ?_⟩
  · unfold lerp
    simp only
    have hlow := (abs_lt.1 hf.2).1
    rcases add_cases hv t1 with ⟨z, hz, hz1, hz2⟩ | ⟨h3, h4⟩
    · have pos := zpow2_pos (K := K) (emax + 1)
      have hz3 : (2 : K) ^ (emax + 1) ≤ grid p emax (v + grid p emax (grid p emax (w - v) * r)) := by
        rcases le_abs'.1 hz1 with h | h <;> linarith
      have nn : ∀ y : K, 0 < grid p emax y → 0 ≤ y := by
        intro y hy
        by_contra hc
        have := grid_mono (p := p) (emax := emax) hp (not_le.1 hc).le
        rw [grid_zero] at this
        linarith
      rcases add_cases hv u1 with ⟨y, hy, hy1, hy2⟩ | ⟨h5, h6⟩
      · rw [hz, hy, hz2, hy2, decide_eq_false (not_lt.2 (nn _ (by linarith))),
          decide_eq_false (not_lt.2 (nn _ (by linarith)))]
        rfl
      · have := (abs_lt.1 h6).2
        linarith
    · exact (le_add hv u1 h3 h4).2 m2
  · unfold lerp
    simp only
    rw [mul_zero, grid_zero] at z1
    rcases add_cases hv z1 with ⟨z, hz, hz1, hz2⟩ | ⟨h3, h4⟩
    · rw [add_zero, show grid p emax v = v from hf.1] at hz1
      exact absurd hz1 (not_le.2 hf.2)
    · rw [h3, add_zero, show grid p emax v = v from hf.1, hv]

/-- from 1 to 2 by a quarter and by a half meets all the hypotheses -/
example : ∃ a b t u : Ieee ℚ 24 127, a.Finite ∧ b.Finite ∧ t.Finite ∧ u.Finite ∧ a ≤ b ∧ 0 ≤ t ∧ t ≤ u ∧ u ≤ 1 ∧
    (∀ s, b - a ≠ inf s) ∧ a.fin? = some 1 ∧ b.fin? = some 2 ∧ |(2 : ℚ)| ≤ 2 ^ (127 - 1) ∧
    lerp a b t = num (5 / 4) :=
  ⟨num 1, num 2, num (1 / 4), num (1 / 2), finite_num (by norm_num) (by decide +kernel) (by norm_num),
    finite_num (by norm_num) (by decide +kernel) (by norm_num),
    finite_num (by norm_num) (by decide +kernel) (by norm_num [abs_of_pos]),
    finite_num (by norm_num) (by decide +kernel) (by norm_num [abs_of_pos]), by decide +kernel, by decide +kernel,
    by decide +kernel, by decide +kernel, by decide +kernel, rfl, rfl, by norm_num, by decide +kernel⟩

omit [IsStrictOrderedRing K] in
/-- Vectors: componentwise, so the same conditions for every component. -/
theorem C148_vectors (a b : Vec2 (Ieee K p emax)) (c d : Vec3 (Ieee K p emax)) (t : Ieee K p emax) :
    lerpVec2 a b t = ⟨lerp a.x b.x t, lerp a.y b.y t⟩ ∧
    lerpVec3 c d t = ⟨lerp c.x d.x t, lerp c.y d.y t, lerp c.z d.z t⟩ := ⟨rfl, rfl⟩

end
end MathLib
