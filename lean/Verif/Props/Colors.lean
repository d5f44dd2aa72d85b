import Verif.Model.Color
import Verif.Spec.RealInst
import Verif.Spec.FloatReal
import Verif.Props.Scalar
import Verif.Props.Interp

/-! # C96–C99: colours -/

namespace MathLib

/-! ## `toRGB`, sector by sector -/

theorem truncR_eq (x : ℝ) (n : ℕ) (h0 : (n : ℝ) ≤ x) (h1 : x < n + 1) : truncR x = n := by
  have hx : 0 ≤ x := le_trans (Nat.cast_nonneg n) h0
  unfold truncR
  rw [if_pos hx, Int.floor_eq_iff]
  exact ⟨by exact_mod_cast h0, by exact_mod_cast h1⟩

/-- the colour of sector `n` (60 degrees each) at the fraction `f` of the sector -/
def sectorColor (s v f : ℝ) : ℕ → ColorRGB ℝ
  | 0 => ⟨v, v * (1 - s * (1 - f)), v * (1 - s)⟩
  | 1 => ⟨v * (1 - s * f), v, v * (1 - s)⟩
  | 2 => ⟨v * (1 - s), v, v * (1 - s * (1 - f))⟩
  | 3 => ⟨v * (1 - s), v * (1 - s * f), v⟩
  | 4 => ⟨v * (1 - s * (1 - f)), v * (1 - s), v⟩
  | _ => ⟨v, v * (1 - s), v * (1 - s * f)⟩

theorem toRGB_sector (h s v p0 : ℝ) (n : ℕ) (hn : n < 6) (hp : fmodPositive (h / 60) 6 = .ok p0)
    (h0 : (n : ℝ) ≤ p0) (h1 : p0 < n + 1) :
    (ColorHSV.mk h s v).toRGB = .ok (sectorColor s v (p0 - n) n) := by
  have ht := truncR_eq p0 n h0 h1
  have hm : mkInt (n : ℤ) = .ok (n : ℤ) := by
    unfold mkInt intMin intMax; rw [if_pos (by constructor <;> omega)]
  have hb : (p0 == p0) = true := by simp
  simp only [ColorHSV.toRGB, hp, bind, Except.bind, hb, if_true, real_trunc, ht, hm,
    Int.toNat_natCast]
  interval_cases n <;> simp [sectorColor]

theorem exists_sector (p0 : ℝ) (h0 : 0 ≤ p0) (h6 : p0 < 6) :
    ∃ n : ℕ, n < 6 ∧ (n : ℝ) ≤ p0 ∧ p0 < n + 1 := by
  refine ⟨⌊p0⌋₊, ?_, Nat.floor_le h0, Nat.lt_floor_add_one p0⟩
  rw [Nat.floor_lt h0]; exact_mod_cast h6

/-- `p0` for a hue already in `[0,360)` -/
theorem fmodPositive_hue (h : ℝ) (h0 : 0 ≤ h) (h6 : h < 360) :
    fmodPositive (h / 60) 6 = .ok (h / 60) := by
  obtain ⟨r, hr, -, -, hu⟩ := C03_fmodPositive (h / 60) 6 (by norm_num)
  rw [hr, hu (h / 60) ⟨by linarith, by linarith⟩ ⟨0, by simp⟩]

/-- `toRGB` of a hue in sector `n`, in terms of the hue -/
theorem toRGB_hue (s v x : ℝ) (n : ℕ) (hn : n < 6) (h0 : (n : ℝ) ≤ x) (h1 : x < n + 1) :
    (ColorHSV.mk (x * 60) s v).toRGB = .ok (sectorColor s v (x - n) n) := by
  have hn' : (n : ℝ) + 1 ≤ 6 := by exact_mod_cast hn
  have hx : 0 ≤ x := le_trans (Nat.cast_nonneg n) h0
  have := fmodPositive_hue (x * 60) (by linarith) (by linarith)
  have e : x * 60 / 60 = x := mul_div_cancel_right₀ _ (by norm_num)
  rw [e] at this
  exact toRGB_sector _ s v x n hn (by rw [e]; exact this) h0 h1

/-! ## `toHSV`, order by order -/

theorem ColorRGB.low_eq (c : ColorRGB ℝ) : c.low = min c.r (min c.g c.b) := by
  unfold ColorRGB.low
  simp only
  rcases lt_or_ge c.g c.r with h1 | h1
  · rw [if_pos h1]
    rcases lt_or_ge c.b c.g with h2 | h2
    · rw [if_pos h2, min_eq_right h2.le, min_eq_right (h2.trans h1).le]
    · rw [if_neg h2.not_gt, min_eq_left h2, min_eq_right h1.le]
  · rw [if_neg h1.not_gt]
    rcases lt_or_ge c.b c.r with h2 | h2
    · rw [if_pos h2, min_eq_right (h2.le.trans h1), min_eq_right h2.le]
    · rw [if_neg h2.not_gt, min_eq_left (le_min h1 h2)]

theorem ColorRGB.vee_eq (c : ColorRGB ℝ) : c.vee = max c.r (max c.g c.b) := by
  unfold ColorRGB.vee
  simp only [gt_iff_lt]
  rcases lt_or_ge c.r c.g with h1 | h1
  · rw [if_pos h1]
    rcases lt_or_ge c.g c.b with h2 | h2
    · rw [if_pos h2, max_eq_right h2.le, max_eq_right (h1.trans h2).le]
    · rw [if_neg h2.not_gt, max_eq_left h2, max_eq_right h1.le]
  · rw [if_neg h1.not_gt]
    rcases lt_or_ge c.r c.b with h2 | h2
    · rw [if_pos h2, max_eq_right (h1.trans h2.le), max_eq_right h2.le]
    · rw [if_neg h2.not_gt, max_eq_left (max_le h1 h2)]

theorem toHSV_of (c : ColorRGB ℝ) (l m x y : ℝ) (hl : c.low = l) (hm : c.vee = m) (hlt : l < m)
    (hx : x = if m = c.r then (c.g - c.b) / (m - l) else if m = c.g then 2 + (c.b - c.r) / (m - l)
      else if m = c.b then 4 + (c.r - c.g) / (m - l) else 0)
    (hy : 0 ≤ x ∧ x < 6 ∧ y = x ∨ x < 0 ∧ y = x + 6) :
    c.toHSV = ⟨y * 60, (m - l) / m, m⟩ := by
  simp only [ColorRGB.toHSV, hl, hm, gt_iff_lt, if_pos hlt, beq_iff_eq, ← hx]
  rcases hy with ⟨h0, h6, rfl⟩ | ⟨h0, rfl⟩
  · rw [if_neg (not_lt.2 h0), if_neg (not_le.2 h6)]
  · rw [if_pos h0]

/-- The hue (in sectors) of a colour that is not grey, and the sector it lies in: for the order of
the channels at hand, `toHSV` is `⟨x * 60, (max - min) / max, max⟩`. -/
theorem toHSV_cases (c : ColorRGB ℝ) :
    (c.r = c.g ∧ c.g = c.b ∧ c.toHSV = ⟨0, 0, c.r⟩) ∨
    (c.g < c.r ∧ c.b ≤ c.g ∧
      c.toHSV = ⟨((c.g - c.b) / (c.r - c.b)) * 60, (c.r - c.b) / c.r, c.r⟩) ∨
    (c.b < c.g ∧ c.r = c.g ∧ c.toHSV = ⟨1 * 60, (c.r - c.b) / c.r, c.r⟩) ∨
    (c.g < c.b ∧ c.b ≤ c.r ∧
      c.toHSV = ⟨((c.g - c.b) / (c.r - c.g) + 6) * 60, (c.r - c.g) / c.r, c.r⟩) ∨
    (c.r < c.g ∧ c.b < c.r ∧
      c.toHSV = ⟨(2 + (c.b - c.r) / (c.g - c.b)) * 60, (c.g - c.b) / c.g, c.g⟩) ∨
    (c.r ≤ c.b ∧ c.b < c.g ∧
      c.toHSV = ⟨(2 + (c.b - c.r) / (c.g - c.r)) * 60, (c.g - c.r) / c.g, c.g⟩) ∨
    (c.r < c.b ∧ c.b = c.g ∧ c.toHSV = ⟨3 * 60, (c.g - c.r) / c.g, c.g⟩) ∨
    (c.r < c.g ∧ c.g < c.b ∧
      c.toHSV = ⟨(4 + (c.r - c.g) / (c.b - c.r)) * 60, (c.b - c.r) / c.b, c.b⟩) ∨
    (c.g ≤ c.r ∧ c.r < c.b ∧
      c.toHSV = ⟨(4 + (c.r - c.g) / (c.b - c.g)) * 60, (c.b - c.g) / c.b, c.b⟩) := by
  rcases c with ⟨r, g, b⟩
  have lo := ColorRGB.low_eq ⟨r, g, b⟩
  have ve := ColorRGB.vee_eq ⟨r, g, b⟩
  simp only at lo ve ⊢
  have div01 : ∀ p q : ℝ, 0 ≤ p → p ≤ q → 0 < q → 0 ≤ p / q ∧ p / q ≤ 1 := fun p q h0 h1 h2 =>
    ⟨div_nonneg h0 h2.le, (div_le_one h2).2 h1⟩
  have divneg : ∀ p q : ℝ, p < 0 → -q ≤ p → 0 < q → -1 ≤ p / q ∧ p / q < 0 := fun p q h0 h1 h2 =>
    ⟨by rw [le_div_iff₀ h2]; linarith, div_neg_of_neg_of_pos h0 h2⟩
  rcases lt_trichotomy r g with hrg | hrg | hrg
  · -- r < g
    rcases lt_trichotomy g b with hgb | hgb | hgb
    · -- r < g < b
      rw [min_eq_left hgb.le, min_eq_left hrg.le] at lo
      rw [max_eq_right hgb.le, max_eq_right (hrg.trans hgb).le] at ve
      have := divneg (r - g) (b - r) (by linarith) (by linarith) (by linarith)
      iterate 7 right
      left
      refine ⟨hrg, hgb, toHSV_of _ r b _ _ lo ve (hrg.trans hgb) rfl (Or.inl ?_)⟩
      simp only [(hrg.trans hgb).ne', hgb.ne', if_false, if_true]
      exact ⟨by linarith, by linarith, trivial⟩
    · -- r < g = b
      subst hgb
      rw [min_self, min_eq_left hrg.le] at lo
      rw [max_self, max_eq_right hrg.le] at ve
      iterate 6 right
      left
      refine ⟨hrg, rfl, toHSV_of _ r g _ _ lo ve hrg rfl (Or.inl ?_)⟩
      simp only [hrg.ne', if_false, if_true]
      rw [div_self (by linarith)]; norm_num
    · rw [max_eq_left hgb.le, max_eq_right hrg.le] at ve
      rcases lt_or_ge b r with hbr | hbr
      · -- b < r < g
        rw [min_eq_right hgb.le, min_eq_right hbr.le] at lo
        have := divneg (b - r) (g - b) (by linarith) (by linarith) (by linarith)
        iterate 4 right
        left
        refine ⟨hrg, hbr, toHSV_of _ b g _ _ lo ve hgb rfl (Or.inl ?_)⟩
        simp only [hrg.ne', if_false, if_true]
        exact ⟨by linarith, by linarith, trivial⟩
      · -- r ≤ b < g
        rw [min_eq_right hgb.le, min_eq_left hbr] at lo
        have := div01 (b - r) (g - r) (by linarith) (by linarith) (by linarith)
        iterate 5 right
        left
        refine ⟨hbr, hgb, toHSV_of _ r g _ _ lo ve hrg rfl (Or.inl ?_)⟩
        simp only [hrg.ne', if_false, if_true]
        exact ⟨by linarith, by linarith, trivial⟩
  · -- r = g
    subst hrg
    rcases lt_trichotomy r b with hgb | hgb | hgb
    · rw [min_eq_left hgb.le, min_self] at lo
      rw [max_eq_right hgb.le, max_eq_right hgb.le] at ve
      iterate 8 right
      refine ⟨le_refl _, hgb, toHSV_of _ r b _ _ lo ve hgb rfl (Or.inl ?_)⟩
      simp only [hgb.ne', if_false, if_true]
      norm_num
    · subst hgb
      left
      simp only [max_self, min_self] at lo ve
      simp only [ColorRGB.toHSV, lo, ve, gt_iff_lt, lt_irrefl, if_false, and_self]
    · rw [min_eq_right hgb.le, min_eq_right hgb.le] at lo
      rw [max_eq_left hgb.le, max_self] at ve
      right; right; left
      refine ⟨hgb, rfl, toHSV_of _ b r _ _ lo ve hgb rfl (Or.inl ?_)⟩
      simp only [if_true]
      rw [div_self (by linarith)]; norm_num
  · -- g < r
    rcases lt_or_ge g b with hgb | hgb
    · rw [min_eq_left hgb.le, min_eq_right hrg.le] at lo
      rw [max_eq_right hgb.le] at ve
      rcases lt_or_ge r b with hbr | hbr
      · rw [max_eq_right hbr.le] at ve
        have := div01 (r - g) (b - g) (by linarith) (by linarith) (by linarith)
        iterate 8 right
        refine ⟨hrg.le, hbr, toHSV_of _ g b _ _ lo ve hgb rfl (Or.inl ?_)⟩
        simp only [hbr.ne', hgb.ne', if_false, if_true]
        exact ⟨by linarith, by linarith, trivial⟩
      · rw [max_eq_left hbr] at ve
        have := divneg (g - b) (r - g) (by linarith) (by linarith) (by linarith)
        right; right; right; left
        refine ⟨hgb, hbr, toHSV_of _ g r _ _ lo ve hrg rfl (Or.inr ?_)⟩
        simp only [if_true]
        exact ⟨this.2, trivial⟩
    · rw [min_eq_right hgb, min_eq_right (hgb.trans hrg.le)] at lo
      rw [max_eq_left hgb, max_eq_left hrg.le] at ve
      have := div01 (g - b) (r - b) (by linarith) (by linarith) (by linarith)
      right; left
      refine ⟨hrg, hgb, toHSV_of _ b r _ _ lo ve (by linarith) rfl (Or.inl ?_)⟩
      simp only [if_true]
      exact ⟨by linarith, by linarith, trivial⟩

/-! ## C96 -/

theorem C96_general (c : ColorRGB ℝ)
    (hc : (c.r = c.g ∧ c.g = c.b) ∨ max c.r (max c.g c.b) ≠ 0) :
    c.toHSV.toRGB = .ok c := by
  have hm : ¬ (c.r = c.g ∧ c.g = c.b) → max c.r (max c.g c.b) ≠ 0 := fun h =>
    hc.resolve_left h
  clear hc
  obtain ⟨r, g, b⟩ := c
  simp only at hm
  rcases toHSV_cases ⟨r, g, b⟩ with ⟨h1, h2, h⟩ | ⟨h1, h2, h⟩ | ⟨h1, h2, h⟩ | ⟨h1, h2, h⟩ |
      ⟨h1, h2, h⟩ | ⟨h1, h2, h⟩ | ⟨h1, h2, h⟩ | ⟨h1, h2, h⟩ | ⟨h1, h2, h⟩ <;>
    simp only at h1 h2 h <;> rw [h]
  · subst h1; subst h2
    have := toRGB_hue 0 r 0 0 (by norm_num) (by norm_num) (by norm_num)
    rw [zero_mul] at this
    rw [this]
    simp [sectorColor]
  · have hr : r ≠ 0 := by
      have := hm (fun h => by linarith [h.1])
      rwa [max_eq_left h2, max_eq_left h1.le] at this
    have hd : 0 < r - b := by linarith
    rw [toRGB_hue _ _ _ 0 (by norm_num) (by simpa using div_nonneg (by linarith) hd.le)
      (by rw [Nat.cast_zero, zero_add, div_lt_one hd]; linarith)]
    apply congrArg; ext <;> simp [sectorColor] <;> field_simp <;> ring
  · subst h2
    have hr : r ≠ 0 := by
      have := hm (fun h => by linarith [h.2])
      rwa [max_eq_left h1.le, max_self] at this
    rw [toRGB_hue _ _ _ 1 (by norm_num) (by norm_num) (by norm_num)]
    apply congrArg; ext <;> simp [sectorColor]; field_simp; ring
  · have hr : r ≠ 0 := by
      have := hm (fun h => by linarith [h.2])
      rwa [max_eq_right h1.le, max_eq_left h2] at this
    have hd : 0 < r - g := by linarith
    have h3 : (g - b) / (r - g) < 0 := div_neg_of_neg_of_pos (by linarith) hd
    have h4 : -1 ≤ (g - b) / (r - g) := by rw [le_div_iff₀ hd]; linarith
    rw [toRGB_hue _ _ _ 5 (by norm_num) (by push_cast; linarith) (by push_cast; linarith)]
    apply congrArg; ext <;> simp [sectorColor] <;> field_simp <;> ring
  · have hr : g ≠ 0 := by
      have := hm (fun h => by linarith [h.1])
      rwa [max_eq_left (h2.trans h1).le, max_eq_right h1.le] at this
    have hd : 0 < g - b := by linarith
    have h3 : (b - r) / (g - b) < 0 := div_neg_of_neg_of_pos (by linarith) hd
    have h4 : -1 ≤ (b - r) / (g - b) := by rw [le_div_iff₀ hd]; linarith
    rw [toRGB_hue _ _ _ 1 (by norm_num) (by push_cast; linarith) (by push_cast; linarith)]
    apply congrArg; ext <;> simp [sectorColor] <;> field_simp <;> ring
  · have hr : g ≠ 0 := by
      have := hm (fun h => by linarith [h.2])
      rwa [max_eq_left h2.le, max_eq_right (by linarith)] at this
    have hd : 0 < g - r := by linarith
    have h3 : 0 ≤ (b - r) / (g - r) := div_nonneg (by linarith) hd.le
    have h4 : (b - r) / (g - r) < 1 := by rw [div_lt_one hd]; linarith
    rw [toRGB_hue _ _ _ 2 (by norm_num) (by push_cast; linarith) (by push_cast; linarith)]
    apply congrArg; ext <;> simp [sectorColor] <;> field_simp <;> ring
  · subst h2
    have hr : b ≠ 0 := by
      have := hm (fun h => by linarith [h.1])
      rwa [max_self, max_eq_right h1.le] at this
    rw [toRGB_hue _ _ _ 3 (by norm_num) (by norm_num) (by norm_num)]
    apply congrArg; ext <;> simp [sectorColor]; field_simp; ring
  · have hr : b ≠ 0 := by
      have := hm (fun h => by linarith [h.1])
      rwa [max_eq_right h2.le, max_eq_right (h1.trans h2).le] at this
    have hd : 0 < b - r := by linarith
    have h3 : (r - g) / (b - r) < 0 := div_neg_of_neg_of_pos (by linarith) hd
    have h4 : -1 ≤ (r - g) / (b - r) := by rw [le_div_iff₀ hd]; linarith
    rw [toRGB_hue _ _ _ 3 (by norm_num) (by push_cast; linarith) (by push_cast; linarith)]
    apply congrArg; ext <;> simp [sectorColor] <;> field_simp <;> ring
  · have hr : b ≠ 0 := by
      have := hm (fun h => by linarith [h.2, h.1])
      rwa [max_eq_right (h1.trans h2.le), max_eq_right h2.le] at this
    have hd : 0 < b - g := by linarith
    have h3 : 0 ≤ (r - g) / (b - g) := div_nonneg (by linarith) hd.le
    have h4 : (r - g) / (b - g) < 1 := by rw [div_lt_one hd]; linarith
    rw [toRGB_hue _ _ _ 4 (by norm_num) (by push_cast; linarith) (by push_cast; linarith)]
    apply congrArg; ext <;> simp [sectorColor] <;> field_simp <;> ring

/-- C96: converting a colour with non-negative channels to HSV and back gives the colour. -/
theorem C96_roundtrip (c : ColorRGB ℝ) (hr : 0 ≤ c.r) (hg : 0 ≤ c.g) (hb : 0 ≤ c.b) :
    c.toHSV.toRGB = .ok c := by
  apply C96_general
  by_contra h
  push Not at h
  have h1 := le_max_left c.r (max c.g c.b)
  have h2 := (le_max_left c.g c.b).trans (le_max_right c.r _)
  have h3 := (le_max_right c.g c.b).trans (le_max_right c.r _)
  rw [h.2] at h1 h2 h3
  exact h.1 (by linarith) (by linarith)

/-- A grey, as built by `ColorRGB(k)` and `ColorRGBA(k, a)`, has hue and saturation 0 and its level as value,
and the way back gives the same grey. -/
theorem C96_grey (k a : ℝ) :
    (ColorRGB.ofGrey k).toHSV = ⟨0, 0, k⟩ ∧ (ColorRGBA.ofGrey k a).toHSV = ⟨0, 0, k⟩ ∧
    (ColorRGBA.ofGrey k a).a = a ∧ (⟨0, 0, k⟩ : ColorHSV ℝ).toRGB = .ok (ColorRGB.ofGrey k) := by
  have h : (ColorRGB.ofGrey k).toHSV = ⟨0, 0, k⟩ := by
    simp [ColorRGB.toHSV, ColorRGB.low_eq, ColorRGB.vee_eq, ColorRGB.ofGrey]
  refine ⟨h, h, rfl, ?_⟩
  have := toRGB_hue 0 k 0 0 (by norm_num) (by norm_num) (by norm_num)
  simpa [ColorRGB.ofGrey, sectorColor] using this

/-- The same through `ColorRGBA`, alpha being carried by the caller. -/
theorem C96_rgba (c : ColorRGBA ℝ) (hr : 0 ≤ c.r) (hg : 0 ≤ c.g) (hb : 0 ≤ c.b) :
    c.toHSV.toRGBA c.a = .ok c := by
  simp only [ColorHSV.toRGBA, ColorRGBA.toHSV, C96_roundtrip c.toRGB hr hg hb, bind, Except.bind]
  rfl

/-- Without the hypothesis the claim fails: the saturation of a colour that is not grey and whose
largest channel is 0 is the undefined quotient `1 / 0`, and the round trip does not give it back. -/
theorem C96_negative : (⟨.num 0, .num (-1), .num (-1)⟩ : ColorRGB XR).toHSV.s = .nan ∧
    (⟨.num 0, .num (-1), .num (-1)⟩ : ColorRGB XR).toHSV.toRGB ≠
      .ok ⟨.num 0, .num (-1), .num (-1)⟩ := by
  have e0 : (0 : XR) = .num 0 := rfl
  have e1 : (1 : XR) = .num 1 := rfl
  have e6 : (6 : XR) = .num 6 := rfl
  have e60 : (60 : XR) = .num 60 := rfl
  have hsv : (⟨.num 0, .num (-1), .num (-1)⟩ : ColorRGB XR).toHSV = ⟨.num 0, .nan, .num 0⟩ := by
    simp only [ColorRGB.toHSV, ColorRGB.low, ColorRGB.vee, e0, e6, e60]
    norm_num
  rw [hsv]
  refine ⟨rfl, ?_⟩
  have t0 : truncR 0 = 0 := by simp [truncR]
  have hm : mkInt 0 = .ok 0 := rfl
  simp only [ColorHSV.toRGB, fmodPositive, e0, e1, e6, e60]
  norm_num [bind, Except.bind, fmodR, t0, hm]
  intro _ h
  cases h

example : (⟨1 / 4, 1, 1 / 2⟩ : ColorRGB ℝ).toHSV.toRGB = .ok ⟨1 / 4, 1, 1 / 2⟩ :=
  C96_roundtrip _ (by norm_num) (by norm_num) (by norm_num)

/-! ## C97 -/

/-- C97: ranges of `toHSV` on channels in [0,1]. -/
theorem C97_toHSV_range (c : ColorRGB ℝ) (hr : c.r ∈ Set.Icc (0 : ℝ) 1)
    (hg : c.g ∈ Set.Icc (0 : ℝ) 1) (hb : c.b ∈ Set.Icc (0 : ℝ) 1) :
    c.toHSV.h ∈ Set.Ico (0 : ℝ) 360 ∧ c.toHSV.s ∈ Set.Icc (0 : ℝ) 1 ∧
      c.toHSV.v ∈ Set.Icc (0 : ℝ) 1 ∧ c.toHSV.v = max c.r (max c.g c.b) := by
  obtain ⟨r, g, b⟩ := c
  obtain ⟨hr0, hr1⟩ := hr
  obtain ⟨hg0, hg1⟩ := hg
  obtain ⟨hb0, hb1⟩ := hb
  simp only at hr0 hr1 hg0 hg1 hb0 hb1
  have sat : ∀ p q : ℝ, 0 ≤ p → p < q → 0 ≤ (q - p) / q ∧ (q - p) / q ≤ 1 := fun p q h0 h1 =>
    ⟨div_nonneg (by linarith) (by linarith), (div_le_one (by linarith)).2 (by linarith)⟩
  have div01 : ∀ p q : ℝ, 0 ≤ p → p ≤ q → 0 < q → 0 ≤ p / q ∧ p / q ≤ 1 := fun p q h0 h1 h2 =>
    ⟨div_nonneg h0 h2.le, (div_le_one h2).2 h1⟩
  have divneg : ∀ p q : ℝ, p < 0 → -q ≤ p → 0 < q → -1 ≤ p / q ∧ p / q < 0 := fun p q h0 h1 h2 =>
    ⟨by rw [le_div_iff₀ h2]; linarith, div_neg_of_neg_of_pos h0 h2⟩
  simp only [Set.mem_Ico, Set.mem_Icc]
  rcases toHSV_cases ⟨r, g, b⟩ with ⟨h1, h2, h⟩ | ⟨h1, h2, h⟩ | ⟨h1, h2, h⟩ | ⟨h1, h2, h⟩ |
      ⟨h1, h2, h⟩ | ⟨h1, h2, h⟩ | ⟨h1, h2, h⟩ | ⟨h1, h2, h⟩ | ⟨h1, h2, h⟩ <;>
    simp only at h1 h2 h <;> rw [h] <;> simp only
  · subst h1; subst h2; simp; exact ⟨hr0, hr1⟩
  · have := div01 (g - b) (r - b) (by linarith) (by linarith) (by linarith)
    exact ⟨⟨by linarith, by linarith⟩, sat b r hb0 (by linarith), ⟨hr0, hr1⟩,
      by rw [max_eq_left h2, max_eq_left h1.le]⟩
  · subst h2
    exact ⟨⟨by linarith, by linarith⟩, sat b r hb0 (by linarith), ⟨hr0, hr1⟩,
      by rw [max_eq_left h1.le, max_self]⟩
  · have := divneg (g - b) (r - g) (by linarith) (by linarith) (by linarith)
    exact ⟨⟨by linarith, by linarith⟩, sat g r hg0 (by linarith), ⟨hr0, hr1⟩,
      by rw [max_eq_right h1.le, max_eq_left h2]⟩
  · have := divneg (b - r) (g - b) (by linarith) (by linarith) (by linarith)
    exact ⟨⟨by linarith, by linarith⟩, sat b g hb0 (by linarith), ⟨hg0, hg1⟩,
      by rw [max_eq_left (h2.trans h1).le, max_eq_right h1.le]⟩
  · have := div01 (b - r) (g - r) (by linarith) (by linarith) (by linarith)
    exact ⟨⟨by linarith, by linarith⟩, sat r g hr0 (by linarith), ⟨hg0, hg1⟩,
      by rw [max_eq_left h2.le, max_eq_right (by linarith)]⟩
  · subst h2
    exact ⟨⟨by linarith, by linarith⟩, sat r b hr0 (by linarith), ⟨hb0, hb1⟩,
      by rw [max_self, max_eq_right h1.le]⟩
  · have := divneg (r - g) (b - r) (by linarith) (by linarith) (by linarith)
    exact ⟨⟨by linarith, by linarith⟩, sat r b hr0 (by linarith), ⟨hb0, hb1⟩,
      by rw [max_eq_right h2.le, max_eq_right (h1.trans h2).le]⟩
  · have := div01 (r - g) (b - g) (by linarith) (by linarith) (by linarith)
    exact ⟨⟨by linarith, by linarith⟩, sat g b hg0 (by linarith), ⟨hb0, hb1⟩,
      by rw [max_eq_right (h1.trans h2.le), max_eq_right h2.le]⟩

/-- C97: `toRGB` always returns an initialised colour: the hue selects one of the six sectors. -/
theorem C97_defined (c : ColorHSV ℝ) : ∃ n : ℕ, ∃ f : ℝ, ∃ k : ℤ, n < 6 ∧ 0 ≤ f ∧ f < 1 ∧
    c.h = 60 * (n + f) + 360 * k ∧ c.toRGB = .ok (sectorColor c.s c.v f n) := by
  obtain ⟨p0, hp, ⟨h0, h6⟩, ⟨k, hk⟩, -⟩ := C03_fmodPositive (c.h / 60) 6 (by norm_num)
  obtain ⟨n, hn, h1, h2⟩ := exists_sector p0 h0 h6
  exact ⟨n, p0 - n, k, hn, by linarith, by linarith, by rw [hk]; ring,
    toRGB_sector c.h c.s c.v p0 n hn hp h1 h2⟩

/-- C97: channels of `toRGB` for saturation and value in [0,1]; the largest channel is the value
and the smallest is `v (1 - s)`. -/
theorem C97_toRGB_range (c : ColorHSV ℝ) (hs : c.s ∈ Set.Icc (0 : ℝ) 1)
    (hv : c.v ∈ Set.Icc (0 : ℝ) 1) : ∃ x, c.toRGB = .ok x ∧ x.r ∈ Set.Icc (0 : ℝ) 1 ∧
      x.g ∈ Set.Icc (0 : ℝ) 1 ∧ x.b ∈ Set.Icc (0 : ℝ) 1 ∧ max x.r (max x.g x.b) = c.v ∧
      min x.r (min x.g x.b) = c.v * (1 - c.s) := by
  obtain ⟨n, f, k, hn, hf0, hf1, -, h⟩ := C97_defined c
  refine ⟨_, h, ?_⟩
  obtain ⟨hs0, hs1⟩ := hs
  obtain ⟨hv0, hv1⟩ := hv
  have key : ∀ t : ℝ, 0 ≤ t → t ≤ 1 → (c.v * (1 - c.s) ≤ c.v * (1 - c.s * t) ∧
      c.v * (1 - c.s * t) ≤ c.v) := by
    intro t h0 h1
    have a1 : c.s * t ≤ c.s := by nlinarith
    have a2 : 0 ≤ c.s * t := by positivity
    constructor <;> nlinarith
  have kp : 0 ≤ c.v * (1 - c.s) := mul_nonneg hv0 (by linarith)
  have kv : c.v * (1 - c.s) ≤ c.v := by nlinarith
  have k1 := key f hf0 hf1.le
  have k2 := key (1 - f) (by linarith) (by linarith)
  simp only [Set.mem_Icc]
  interval_cases n <;> simp only [sectorColor] <;>
    refine ⟨⟨?_, ?_⟩, ⟨?_, ?_⟩, ⟨?_, ?_⟩, ?_, ?_⟩ <;>
    first
      | linarith
      | (apply le_antisymm
         · simp only [max_le_iff]; refine ⟨?_, ?_, ?_⟩ <;> linarith
         · simp)
      | (apply le_antisymm
         · simp
         · simp only [le_min_iff]; refine ⟨?_, ?_, ?_⟩ <;> linarith)

/-- C97: `toRGB` has period 360 in the hue. -/
theorem C97_periodic (h s v : ℝ) (k : ℤ) :
    (ColorHSV.mk (h + 360 * k) s v).toRGB = (ColorHSV.mk h s v).toRGB := by
  have : fmodPositive ((h + 360 * k) / 60) 6 = fmodPositive (h / 60) 6 := by
    obtain ⟨r, hr, hr1, ⟨m, hm⟩, -⟩ := C03_fmodPositive ((h + 360 * k) / 60) 6 (by norm_num)
    obtain ⟨r', hr', -, -, hu⟩ := C03_fmodPositive (h / 60) 6 (by norm_num)
    rw [hr, hr', hu r hr1 ⟨m - k, by rw [hm]; push_cast; ring⟩]
  simp only [ColorHSV.toRGB, this]

/-- C97: converting to RGB and back gives the colour, for a normalised hue and positive saturation
and value (at saturation 0 or value 0 the hue is not recoverable). -/
theorem C97_inverse (c : ColorHSV ℝ) (hh : c.h ∈ Set.Ico (0 : ℝ) 360) (hs : 0 < c.s) (hv : 0 < c.v) :
    ∃ x, c.toRGB = .ok x ∧ x.toHSV = c := by
  obtain ⟨h, s, v⟩ := c
  obtain ⟨h0, h6⟩ := hh
  simp only at h0 h6 hs hv
  obtain ⟨n, hn, h1, h2⟩ := exists_sector (h / 60) (by linarith) (by linarith)
  refine ⟨_, toRGB_sector h s v (h / 60) n hn (fmodPositive_hue h h0 h6) h1 h2, ?_⟩
  set f := h / 60 - n with hf
  have hf0 : 0 ≤ f := by linarith
  have hf1 : f < 1 := by linarith
  have hh : h = (n + f) * 60 := by rw [hf]; ring
  clear_value f
  have hvs : 0 < v * s := mul_pos hv hs
  have key : ∀ t : ℝ, 0 ≤ t → t ≤ 1 → (v * (1 - s) ≤ v * (1 - s * t) ∧
      v * (1 - s * t) ≤ v) := by
    intro t h0 h1
    have : v * s * t ≤ v * s := by nlinarith
    have : 0 ≤ v * s * t := by positivity
    constructor <;> nlinarith
  have kv : v * (1 - s) < v := by nlinarith
  have k1 := key f hf0 hf1.le
  have k2 := key (1 - f) (by linarith) (by linarith)
  have k2' : v * (1 - s * (1 - f)) < v := by nlinarith [mul_pos hvs (sub_pos.2 hf1)]
  have k1' : 0 < f → v * (1 - s * f) < v := fun h => by nlinarith [mul_pos hvs h]
  have es : (v - v * (1 - s)) / v = s := by field_simp; ring
  have ed : v - v * (1 - s) = v * s := by ring
  have main : ∀ c : ColorRGB ℝ, ∀ x y : ℝ, c.low = v * (1 - s) → c.vee = v →
      (x = if v = c.r then (c.g - c.b) / (v - v * (1 - s)) else if v = c.g then
        2 + (c.b - c.r) / (v - v * (1 - s))
        else if v = c.b then 4 + (c.r - c.g) / (v - v * (1 - s)) else 0) →
      (0 ≤ x ∧ x < 6 ∧ y = x ∨ x < 0 ∧ y = x + 6) → h = y * 60 → c.toHSV = ⟨h, s, v⟩ := by
    intro c x y hl hm hx hy e
    rw [toHSV_of c _ _ x y hl hm kv hx hy, es, e]
  interval_cases n
  · refine main _ f f ?_ ?_ ?_ (Or.inl ⟨hf0, by linarith, rfl⟩) (by rw [hh]; push_cast; ring)
    · rw [ColorRGB.low_eq]; simp only [sectorColor]
      rw [min_eq_right k2.1, min_eq_right kv.le]
    · rw [ColorRGB.vee_eq]; simp only [sectorColor]
      rw [max_eq_left (max_le k2.2 kv.le)]
    · simp only [sectorColor, if_true, ed]; field_simp; ring
  · refine main _ (1 + f) (1 + f) ?_ ?_ ?_ (Or.inl ⟨by linarith, by linarith, rfl⟩)
      (by rw [hh]; push_cast; ring)
    · rw [ColorRGB.low_eq]; simp only [sectorColor]
      rw [min_eq_right kv.le, min_eq_right k1.1]
    · rw [ColorRGB.vee_eq]; simp only [sectorColor]
      rw [max_eq_left kv.le, max_eq_right k1.2]
    · simp only [sectorColor, ed]
      rcases hf0.eq_or_lt with h | h
      · rw [← h]; simp; field_simp
      · rw [if_neg (k1' h).ne', if_pos trivial]; field_simp; ring
  · refine main _ (2 + f) (2 + f) ?_ ?_ ?_ (Or.inl ⟨by linarith, by linarith, rfl⟩)
      (by rw [hh]; push_cast; ring)
    · rw [ColorRGB.low_eq]; simp only [sectorColor]
      rw [min_eq_left (le_min kv.le k2.1)]
    · rw [ColorRGB.vee_eq]; simp only [sectorColor]
      rw [max_eq_left k2.2, max_eq_right kv.le]
    · simp only [sectorColor, ed]
      rw [if_neg kv.ne', if_pos trivial]; field_simp; ring
  · refine main _ (3 + f) (3 + f) ?_ ?_ ?_ (Or.inl ⟨by linarith, by linarith, rfl⟩)
      (by rw [hh]; push_cast; ring)
    · rw [ColorRGB.low_eq]; simp only [sectorColor]
      rw [min_eq_left (le_min k1.1 kv.le)]
    · rw [ColorRGB.vee_eq]; simp only [sectorColor]
      rw [max_eq_right k1.2, max_eq_right kv.le]
    · simp only [sectorColor, ed]
      rw [if_neg kv.ne']
      rcases hf0.eq_or_lt with h | h
      · rw [← h]; simp; field_simp; norm_num
      · rw [if_neg (k1' h).ne', if_pos trivial]; field_simp; ring
  · refine main _ (4 + f) (4 + f) ?_ ?_ ?_ (Or.inl ⟨by linarith, by linarith, rfl⟩)
      (by rw [hh]; push_cast; ring)
    · rw [ColorRGB.low_eq]; simp only [sectorColor]
      rw [min_eq_left kv.le, min_eq_right k2.1]
    · rw [ColorRGB.vee_eq]; simp only [sectorColor]
      rw [max_eq_right kv.le, max_eq_right k2.2]
    · simp only [sectorColor, ed]
      rw [if_neg k2'.ne', if_neg kv.ne', if_pos trivial]; field_simp; ring
  · refine main _ (f - 1) (f + 5) ?_ ?_ ?_ (Or.inr ⟨by linarith, by ring⟩)
      (by rw [hh]; push_cast; ring)
    · rw [ColorRGB.low_eq]; simp only [sectorColor]
      rw [min_eq_left k1.1, min_eq_right kv.le]
    · rw [ColorRGB.vee_eq]; simp only [sectorColor]
      rw [max_eq_left (max_le kv.le k1.2)]
    · simp only [sectorColor, if_true, ed]; field_simp; ring

/-- the hypotheses of the C97 theorems on a concrete colour, and the value -/
example : (⟨90, 1 / 2, 1⟩ : ColorHSV ℝ).toRGB = .ok ⟨3 / 4, 1, 1 / 2⟩ ∧
    (∃ x, (⟨90, 1 / 2, 1⟩ : ColorHSV ℝ).toRGB = .ok x ∧ x.toHSV = ⟨90, 1 / 2, 1⟩) := by
  constructor
  · have := toRGB_hue (1 / 2) 1 (3 / 2) 1 (by norm_num) (by norm_num) (by norm_num)
    norm_num [sectorColor] at this
    exact this
  · exact C97_inverse _ (by norm_num) (by norm_num) (by norm_num)

example : (⟨(1 / 4), 1, (1 / 2)⟩ : ColorRGB ℝ).toHSV.h ∈ Set.Ico (0 : ℝ) 360 :=
  (C97_toHSV_range _ (by norm_num) (by norm_num) (by norm_num)).1

/-! ## C98 -/

theorem abs'_real (x : ℝ) : abs' x = |x| := by
  unfold abs'
  split_ifs with h
  · rw [abs_of_neg h]
  · rw [abs_of_nonneg (not_lt.1 h)]

/-- C98: `interp` of two hues in [0,360) turns from the first hue by `ratio` times the shorter way
`δ` to the second one; saturation and value are interpolated linearly. -/
theorem C98_interp (a b : ColorHSV ℝ) (t : ℝ) (ha : a.h ∈ Set.Ico (0 : ℝ) 360)
    (hb : b.h ∈ Set.Ico (0 : ℝ) 360) :
    ∃ c δ, ColorHSV.interp a b t = .ok c ∧ c.h ∈ Set.Ico (0 : ℝ) 360 ∧
      (∃ k : ℤ, b.h = a.h + δ + 360 * k) ∧ |δ| ≤ 180 ∧
      (∀ δ', (∃ k : ℤ, b.h = a.h + δ' + 360 * k) → |δ| ≤ |δ'|) ∧
      (∃ k : ℤ, c.h = a.h + t * δ + 360 * k) ∧
      c.s = (1 - t) * a.s + t * b.s ∧ c.v = (1 - t) * a.v + t * b.v := by
  obtain ⟨ha0, ha1⟩ := ha
  obtain ⟨hb0, hb1⟩ := hb
  have hδ : ∃ δ : ℝ, δ = b.h - a.h + (if abs' (b.h - a.h) > 180 then
      (if b.h - a.h < 0 then 360 else -360) else 0) ∧ |δ| ≤ 180 ∧
      ∃ k : ℤ, b.h = a.h + δ + 360 * k := by
    refine ⟨_, rfl, ?_⟩
    rw [abs'_real]
    by_cases h1 : |b.h - a.h| > 180
    · rw [if_pos h1]
      by_cases h2 : b.h - a.h < 0
      · rw [if_pos h2]
        rw [abs_of_neg h2] at h1
        exact ⟨by rw [abs_le]; constructor <;> linarith, -1, by push_cast; ring⟩
      · rw [if_neg h2]
        rw [abs_of_nonneg (not_lt.1 h2)] at h1
        exact ⟨by rw [abs_le]; constructor <;> linarith, 1, by push_cast; ring⟩
    · rw [if_neg h1]
      exact ⟨by rw [add_zero]; exact not_lt.1 h1, 0, by push_cast; ring⟩
  obtain ⟨δ, hδ, hδ1, k, hk⟩ := hδ
  have short : ∀ δ', (∃ k : ℤ, b.h = a.h + δ' + 360 * k) → |δ| ≤ |δ'| := by
    rintro δ' ⟨k', hk'⟩
    have e : δ' = δ + 360 * ((k - k' : ℤ) : ℝ) := by push_cast; linarith
    rcases lt_trichotomy (k - k') 0 with h | h | h
    · have : ((k - k' : ℤ) : ℝ) ≤ -1 := by exact_mod_cast Int.le_sub_one_of_lt h
      have := neg_abs_le δ
      have := le_abs_self δ
      have := neg_abs_le δ'
      linarith
    · rw [h] at e; rw [e]; simp
    · have : (1 : ℝ) ≤ ((k - k' : ℤ) : ℝ) := by exact_mod_cast h
      have := neg_abs_le δ
      have := le_abs_self δ'
      linarith
  by_cases h0 : t = 0
  · subst h0
    exact ⟨a, δ, by simp [ColorHSV.interp], ⟨ha0, ha1⟩, ⟨k, hk⟩, hδ1, short, ⟨0, by simp⟩,
      by ring, by ring⟩
  by_cases h1 : t = 1
  · subst h1
    exact ⟨b, δ, by simp [ColorHSV.interp], ⟨hb0, hb1⟩, ⟨k, hk⟩, hδ1, short,
      ⟨k, by rw [one_mul]; exact hk⟩, by ring, by ring⟩
  obtain ⟨r, hr, hr1, ⟨m, hm⟩, -⟩ := C03_fmodPositive (a.h + δ * t) 360 (by norm_num)
  refine ⟨⟨r, lerp a.s b.s t, lerp a.v b.v t⟩, δ, ?_, hr1, ⟨k, hk⟩, hδ1, short,
    ⟨-m, by simp only; rw [hm]; push_cast; ring⟩, by simp only [lerp]; ring,
    by simp only [lerp]; ring⟩
  rw [ColorHSV.interp, if_neg (by simpa using h0), if_neg (by simpa using h1)]
  simp only [← hδ, hr]
  rfl

/-- C98: the end points are attained exactly, in any arithmetic (`rnd` arbitrary). -/
theorem C98_ends {rnd : ℝ → ℝ} (a b : ColorHSV (Fl ℝ rnd)) :
    ColorHSV.interp a b 0 = .ok a ∧ ColorHSV.interp a b 1 = .ok b := by
  have e0 : ((0 : Fl ℝ rnd) == 0) = true := by simp [Fl.zero_def]
  have e1 : ((1 : Fl ℝ rnd) == 0) = false := by simp [Fl.zero_def, Fl.one_def]
  have e2 : ((1 : Fl ℝ rnd) == 1) = true := by simp [Fl.one_def]
  constructor
  · rw [ColorHSV.interp, if_pos e0]
  · rw [ColorHSV.interp, if_neg (by simp [e1]), if_pos e2]

/-- C98 needs hues in [0,360): from hue 0 to the equal hue 720 the code turns half a circle by
ratio 1/2. -/
theorem C98_unnormalised : ColorHSV.interp (⟨0, 1, 1⟩ : ColorHSV ℝ) ⟨720, 1, 1⟩ (1 / 2) =
    .ok ⟨180, 1, 1⟩ := by
  obtain ⟨r, hr, hr1, -, hu⟩ := C03_fmodPositive (0 + (720 - 0 + -360) * (1 / 2)) 360 (by norm_num)
  have : (180 : ℝ) = r := hu 180 (by norm_num) ⟨0, by norm_num⟩
  subst this
  rw [ColorHSV.interp, if_neg (by norm_num), if_neg (by norm_num)]
  have e : abs' ((720 : ℝ) - 0) > 180 := by rw [abs'_real]; norm_num
  have e2 : ¬ ((720 : ℝ) - 0 < 0) := by norm_num
  simp only [if_pos e, if_neg e2, hr]
  norm_num [lerp, bind, Except.bind]

example : ∃ c, ColorHSV.interp (⟨350, 1, 1⟩ : ColorHSV ℝ) ⟨30, 0, 1⟩ (1 / 2) = .ok c ∧ c.h = 10 := by
  obtain ⟨c, δ, h, ⟨h0, h1⟩, ⟨k, hk⟩, hδ, -, ⟨m, hm⟩, -⟩ :=
    C98_interp ⟨350, 1, 1⟩ ⟨30, 0, 1⟩ (1 / 2) (by norm_num) (by norm_num)
  refine ⟨c, h, ?_⟩
  simp only at hk hm
  rw [abs_le] at hδ
  have k1 : k = -1 := by
    have : (k : ℝ) < 0 := by linarith
    have : (-2 : ℝ) < k := by linarith
    have : k < 0 := by exact_mod_cast ‹(k : ℝ) < 0›
    have : -2 < k := by exact_mod_cast ‹(-2 : ℝ) < k›
    omega
  subst k1
  push_cast at hk
  have m1 : m = -1 := by
    have : (m : ℝ) < 0 := by linarith
    have : (-2 : ℝ) < m := by linarith
    have : m < 0 := by exact_mod_cast ‹(m : ℝ) < 0›
    have : -2 < m := by exact_mod_cast ‹(-2 : ℝ) < m›
    omega
  subst m1
  push_cast at hm
  linarith

/-! ## C99 -/

/-- channels of a colour -/
def ColorRGB.vec {K : Type} (c : ColorRGB K) : Fin 3 → K := ![c.r, c.g, c.b]
/-- channels of a colour with alpha -/
def ColorRGBA.vec {K : Type} (c : ColorRGBA K) : Fin 4 → K := ![c.r, c.g, c.b, c.a]

/-- C99: the RGB operators act channelwise. -/
theorem C99_rgb_ops (x c : ColorRGB ℝ) (k : ℝ) :
    (x.add c).vec = x.vec + c.vec ∧ x.neg.vec = -x.vec ∧ (x.sub c).vec = x.vec - c.vec ∧
    (x.mul k).vec = k • x.vec ∧ (k ≠ 0 → ∃ y, x.div k = .ok y ∧ y.vec = k⁻¹ • x.vec) ∧
    (k = 0 → x.div k = .error .assertion) := by
  refine ⟨?_, ?_, ?_, ?_, fun h => ⟨_, by rw [ColorRGB.div, if_neg (by simpa using h)], ?_⟩,
    fun h => by simp [ColorRGB.div, h]⟩
  all_goals
    ext i
    fin_cases i <;> simp [ColorRGB.vec, ColorRGB.add, ColorRGB.neg, ColorRGB.sub, ColorRGB.mul,
      mul_comm, div_eq_mul_inv]

/-- C99: the RGBA operators combine the colour channels like the RGB operators and keep the alpha
of the left operand; the assignment forms agree with the binary ones. -/
theorem C99_rgba_ops (x c : ColorRGBA ℝ) (k : ℝ) :
    ((x.add c).toRGB = x.toRGB.add c.toRGB ∧ (x.add c).a = x.a) ∧
    (x.neg.toRGB = x.toRGB.neg ∧ x.neg.a = x.a) ∧
    ((x.sub c).toRGB = x.toRGB.sub c.toRGB ∧ (x.sub c).a = x.a) ∧
    ((x.mul k).toRGB = x.toRGB.mul k ∧ (x.mul k).a = x.a) ∧
    (∀ y, x.div k = .ok y → x.toRGB.div k = .ok y.toRGB ∧ y.a = x.a) ∧
    (x.div k = .error .assertion ↔ k = 0) ∧
    x.addAssign c = x.add c ∧ x.subAssign c = x.sub c ∧ x.mulAssign k = x.mul k ∧
    x.divAssign k = x.div k := by
  refine ⟨⟨rfl, rfl⟩, ⟨rfl, rfl⟩, ⟨rfl, rfl⟩, ⟨rfl, rfl⟩, ?_, ?_, rfl, rfl, rfl, rfl⟩
  · intro y h
    by_cases hk : k = 0
    · simp [ColorRGBA.div, hk] at h
    · rw [ColorRGBA.div, if_neg (by simpa using hk)] at h
      cases h
      rw [ColorRGB.div, if_neg (by simpa using hk)]
      exact ⟨rfl, rfl⟩
  · by_cases hk : k = 0 <;> simp [ColorRGBA.div, hk]

/-- C99: comparison. -/
theorem C99_compare (x c : ColorRGB ℝ) (y d : ColorRGBA ℝ) (z e : ColorHSV ℝ) :
    (x.eq c = true ↔ x = c) ∧ (y.eq d = true ↔ y = d) ∧ (z.eq e = true ↔ z = e) ∧
    (x.ne c = !x.eq c) ∧ (y.ne d = !y.eq d) ∧ (z.ne e = !z.eq e) := by
  refine ⟨?_, ?_, ?_, ?_, ?_, ?_⟩
  · simp [ColorRGB.eq, ColorRGB.ext_iff, and_assoc]
  · simp [ColorRGBA.eq, ColorRGBA.ext_iff, and_assoc]
  · simp [ColorHSV.eq, ColorHSV.ext_iff, and_assoc]
  · simp [ColorRGB.eq, ColorRGB.ne, bne, Bool.not_and]
  · simp [ColorRGBA.eq, ColorRGBA.ne, bne, Bool.not_and]
  · simp [ColorHSV.eq, ColorHSV.ne, bne, Bool.not_and]

/-- C99: `interp` is the affine combination, on the segment between the colours for ratios in
[0,1]. -/
theorem C99_interp (a b : ColorRGB ℝ) (c d : ColorRGBA ℝ) (t : ℝ) :
    (a.interp b t).vec = (1 - t) • a.vec + t • b.vec ∧
    (c.interp d t).vec = (1 - t) • c.vec + t • d.vec ∧
    (t ∈ Set.Icc (0 : ℝ) 1 → (a.interp b t).vec ∈ segment ℝ a.vec b.vec ∧
      (c.interp d t).vec ∈ segment ℝ c.vec d.vec) := by
  have h1 : (a.interp b t).vec = (1 - t) • a.vec + t • b.vec := by
    unfold ColorRGB.interp
    by_cases h0 : t = 0
    · simp [h0]
    by_cases h1 : t = 1
    · simp [h1]
    rw [if_neg (by simpa using h0), if_neg (by simpa using h1)]
    ext i
    fin_cases i <;> simp [ColorRGB.vec] <;> ring
  have h2 : (c.interp d t).vec = (1 - t) • c.vec + t • d.vec := by
    unfold ColorRGBA.interp
    by_cases h0 : t = 0
    · simp [h0]
    by_cases h1 : t = 1
    · simp [h1]
    rw [if_neg (by simpa using h0), if_neg (by simpa using h1)]
    ext i
    fin_cases i <;> simp [ColorRGBA.vec] <;> ring
  refine ⟨h1, h2, fun ht => ?_⟩
  rw [h1, h2]
  exact ⟨⟨1 - t, t, by linarith [ht.2], ht.1, by ring, rfl⟩,
    ⟨1 - t, t, by linarith [ht.2], ht.1, by ring, rfl⟩⟩

/-- C99: the ends are exact in any arithmetic. -/
theorem C99_interp_ends {rnd : ℝ → ℝ} (a b : ColorRGB (Fl ℝ rnd)) (c d : ColorRGBA (Fl ℝ rnd)) :
    a.interp b 0 = a ∧ a.interp b 1 = b ∧ c.interp d 0 = c ∧ c.interp d 1 = d := by
  have e0 : ((0 : Fl ℝ rnd) == 0) = true := by simp [Fl.zero_def]
  have e1 : ((1 : Fl ℝ rnd) == 0) = false := by simp [Fl.zero_def, Fl.one_def]
  have e2 : ((1 : Fl ℝ rnd) == 1) = true := by simp [Fl.one_def]
  simp [ColorRGB.interp, ColorRGBA.interp, e0, e1, e2]

/-- C99: outside [0,1] `interp` extrapolates, it does not clamp. -/
theorem C99_interp_extrapolates :
    (ColorRGB.Black : ColorRGB ℝ).interp ColorRGB.White 2 = ⟨2, 2, 2⟩ := by
  simp [ColorRGB.interp, ColorRGB.Black, ColorRGB.White]

/-- C99: the integer constructors map 0..255 strictly monotonically into [0,1], 0 to 0 and 255
to 1, each channel from its own argument. -/
theorem C99_ofInts : ∃ u : ℤ → ℝ, u 0 = 0 ∧ u 255 = 1 ∧ StrictMono u ∧
    (∀ i, 0 ≤ i → i ≤ 255 → u i ∈ Set.Icc (0 : ℝ) 1) ∧
    ∀ r g b a : ℤ, ColorRGB.ofInts (fun n : ℤ => (n : ℝ)) r g b = ⟨u r, u g, u b⟩ ∧
      ColorRGBA.ofInts (fun n : ℤ => (n : ℝ)) r g b a = ⟨u r, u g, u b, u a⟩ := by
  refine ⟨fun n => n / 255, by norm_num, by norm_num, fun i j h => ?_, fun i h0 h1 => ?_,
    fun r g b a => ⟨rfl, rfl⟩⟩
  · simp only; rw [div_lt_div_iff_of_pos_right (by norm_num)]; exact_mod_cast h
  · have h0' : (0 : ℝ) ≤ i := by exact_mod_cast h0
    have h1' : (i : ℝ) ≤ 255 := by exact_mod_cast h1
    exact ⟨by positivity, by rw [div_le_one (by norm_num)]; exact h1'⟩

/-- C99: the same in rounded arithmetic (monotone, not strictly), for any monotone rounding that
keeps the integers 0..255. -/
theorem C99_ofInts_rounded {rnd : ℝ → ℝ} (hm : Monotone rnd)
    (h255 : ∀ n : ℕ, n ≤ 255 → rnd n = n) :
    ∃ u : ℤ → ℝ, u 0 = 0 ∧ u 255 = 1 ∧
      (∀ i j, 0 ≤ i → i ≤ j → j ≤ 255 → u i ≤ u j ∧ u i ∈ Set.Icc (0 : ℝ) 1) ∧
      ∀ r g b a : ℤ, ColorRGB.ofInts (fun n : ℤ => (.num (rnd n) : Fl ℝ rnd)) r g b =
          ⟨.num (u r), .num (u g), .num (u b)⟩ ∧
        ColorRGBA.ofInts (fun n : ℤ => (.num (rnd n) : Fl ℝ rnd)) r g b a =
          ⟨.num (u r), .num (u g), .num (u b), .num (u a)⟩ := by
  have e0 : rnd 0 = 0 := by simpa using h255 0 (by norm_num)
  have e1 : rnd 1 = 1 := by simpa using h255 1 (by norm_num)
  have e255 : rnd 255 = 255 := by simpa using h255 255 (by norm_num)
  have lit : (255 : Fl ℝ rnd) = .num 255 := by rw [Fl.ofNat_def]; simp [e255]
  refine ⟨fun n => rnd (rnd n / 255), by simp [e0], by simp [e1, e255], ?_, ?_⟩
  · intro i j h0 hij h1
    have hij' : (i : ℝ) ≤ j := by exact_mod_cast hij
    have h0' : (0 : ℝ) ≤ i := by exact_mod_cast h0
    have h1' : (i : ℝ) ≤ 255 := by exact_mod_cast hij.trans h1
    refine ⟨hm (by have := hm hij'; linarith), ?_, ?_⟩
    · rw [← e0]; apply hm; have := hm h0'; rw [e0] at this; positivity
    · rw [← e1]; apply hm; have := hm h1'; rw [e255] at this; linarith
  · intro r g b a
    simp [ColorRGB.ofInts, ColorRGBA.ofInts, lit]

/-- C99: the named colours of the three classes agree. -/
theorem C99_named :
    (ColorRGB.Black : ColorRGB ℝ).toHSV = .Black ∧ (ColorRGB.White : ColorRGB ℝ).toHSV = .White ∧
    (ColorRGB.Red : ColorRGB ℝ).toHSV = .Red ∧ (ColorRGB.Green : ColorRGB ℝ).toHSV = .Green ∧
    (ColorRGB.Blue : ColorRGB ℝ).toHSV = .Blue ∧
    (ColorHSV.Black : ColorHSV ℝ).toRGBA 1 = .ok .Black ∧
    (ColorHSV.White : ColorHSV ℝ).toRGBA 1 = .ok .White ∧
    (ColorHSV.Red : ColorHSV ℝ).toRGBA 1 = .ok .Red ∧
    (ColorHSV.Green : ColorHSV ℝ).toRGBA 1 = .ok .Green ∧
    (ColorHSV.Blue : ColorHSV ℝ).toRGBA 1 = .ok .Blue := by
  have h1 : (ColorRGB.Black : ColorRGB ℝ).toHSV = .Black := by
    simp [ColorRGB.Black, ColorHSV.Black, ColorRGB.toHSV, ColorRGB.low, ColorRGB.vee]
  have h2 : (ColorRGB.White : ColorRGB ℝ).toHSV = .White := by
    simp [ColorRGB.White, ColorHSV.White, ColorRGB.toHSV, ColorRGB.low, ColorRGB.vee]
  have h3 : (ColorRGB.Red : ColorRGB ℝ).toHSV = .Red := by
    norm_num [ColorRGB.Red, ColorHSV.Red, ColorRGB.toHSV, ColorRGB.low, ColorRGB.vee]
  have h4 : (ColorRGB.Green : ColorRGB ℝ).toHSV = .Green := by
    norm_num [ColorRGB.Green, ColorHSV.Green, ColorRGB.toHSV, ColorRGB.low, ColorRGB.vee]
  have h5 : (ColorRGB.Blue : ColorRGB ℝ).toHSV = .Blue := by
    norm_num [ColorRGB.Blue, ColorHSV.Blue, ColorRGB.toHSV, ColorRGB.low, ColorRGB.vee]
  refine ⟨h1, h2, h3, h4, h5, ?_⟩
  have k1 := C96_rgba .Black (by simp [ColorRGBA.Black]) (by simp [ColorRGBA.Black])
    (by simp [ColorRGBA.Black])
  have k2 := C96_rgba .White (by simp [ColorRGBA.White]) (by simp [ColorRGBA.White])
    (by simp [ColorRGBA.White])
  have k3 := C96_rgba .Red (by simp [ColorRGBA.Red]) (by simp [ColorRGBA.Red])
    (by simp [ColorRGBA.Red])
  have k4 := C96_rgba .Green (by simp [ColorRGBA.Green]) (by simp [ColorRGBA.Green])
    (by simp [ColorRGBA.Green])
  have k5 := C96_rgba .Blue (by simp [ColorRGBA.Blue]) (by simp [ColorRGBA.Blue])
    (by simp [ColorRGBA.Blue])
  rw [← h1, ← h2, ← h3, ← h4, ← h5]
  exact ⟨k1, k2, k3, k4, k5⟩

/-- C99: random colours have channels in [0,1] and a hue in [0,360] (360 is attained), for every
value `r` of `::rand()` between 0 and `RAND_MAX`. -/
theorem C99_random (m r1 r2 r3 a : ℝ) (hm : 0 < m) (h1 : r1 ∈ Set.Icc 0 m) (h2 : r2 ∈ Set.Icc 0 m)
    (h3 : r3 ∈ Set.Icc 0 m) :
    (∀ i, (ColorRGB.random m r1 r2 r3).vec i ∈ Set.Icc (0 : ℝ) 1) ∧
    (ColorRGBA.random m r1 r2 r3 a).toRGB = ColorRGB.random m r1 r2 r3 ∧
    (ColorRGBA.random m r1 r2 r3 a).a = a ∧
    (ColorHSV.random m r1 r2 r3).h ∈ Set.Icc (0 : ℝ) 360 ∧
    (ColorHSV.random m r1 r2 r3).s ∈ Set.Icc (0 : ℝ) 1 ∧
    (ColorHSV.random m r1 r2 r3).v ∈ Set.Icc (0 : ℝ) 1 ∧
    (ColorHSV.random m m r2 r3).h = 360 := by
  have key : ∀ r f : ℝ, 0 ≤ f → r ∈ Set.Icc 0 m → randReal m r f ∈ Set.Icc 0 f := by
    rintro r f hf ⟨h0, h1⟩
    unfold randReal
    constructor
    · positivity
    · rw [mul_div_assoc', div_le_iff₀ hm]; nlinarith
  refine ⟨fun i => ?_, rfl, rfl, key _ _ (by norm_num) h1, key _ _ (by norm_num) h2,
    key _ _ (by norm_num) h3, ?_⟩
  · fin_cases i
    · exact key _ _ zero_le_one h1
    · exact key _ _ zero_le_one h2
    · exact key _ _ zero_le_one h3
  · simp only [ColorHSV.random, randReal]; field_simp

example : ∀ i, (ColorRGB.random (32767 : ℝ) 1 2 32767).vec i ∈ Set.Icc (0 : ℝ) 1 :=
  (C99_random 32767 1 2 32767 1 (by norm_num) (by norm_num) (by norm_num) (by norm_num)).1

end MathLib
