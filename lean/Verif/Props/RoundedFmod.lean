import Verif.Props.RoundedQuatDirs
import Verif.Props.Rounding

/-! # C188: `fmodCentered` in floating point

`Fl ℝ (rne p)` rounds every operation to `p` significant bits, ties to even.  The remainder itself is exact; the sum `x + y/2`, the
addition of `y` and the final subtraction are rounded. -/

set_option linter.unusedSectionVars false

namespace MathLib

namespace FmodC

variable {p : ℕ}

theorem half_mul (hp : 1 ≤ p) (y : ℝ) (hy : Rep p y) : (.num y : Fl ℝ (rne p)) * (1 / 2) = .num (y / 2) ∧ Rep p (y / 2) := by
  have h : Rep p (y / 2) := by
    have := hy.mul_zpow (-1)
    rwa [show y * (2 : ℝ) ^ (-1 : ℤ) = y / 2 by rw [zpow_neg_one]; ring] at this
  refine ⟨?_, h⟩
  rw [QDirs.half_lit hp, Fl.num_mul, show y * (1 / 2) = y / 2 by ring, rne_of_rep hp h]

/-- The steps of `fmodCentered` on representable numbers. -/
theorem steps (hp : 1 ≤ p) (x y : ℝ) (hy : Rep p y) (hy0 : 0 < y) (S F : ℝ) (hS : S = rne p (x + y / 2))
    (hF : F = if 0 ≤ fmodR S y then fmodR S y else rne p (y + fmodR S y)) :
    fmodCentered (.num x : Fl ℝ (rne p)) (.num y) = .ok (.num (rne p (F - y / 2))) := by
  simp only [fmodCentered, (half_mul hp y hy).1, Fl.num_add, ← hS]
  rw [fmodPositive_rounded p hp S y (hS ▸ rep_rne p hp _) hy hy0, ← hF]
  rfl

theorem fmodR_small (S y : ℝ) (hy0 : 0 < y) (h0 : 0 ≤ S) (h1 : S < y) : fmodR S y = S := by
  have : truncR (S / y) = 0 := by
    unfold truncR
    rw [if_pos (div_nonneg h0 hy0.le), Int.floor_eq_zero_iff]
    exact ⟨div_nonneg h0 hy0.le, (div_lt_one hy0).2 h1⟩
  unfold fmodR; rw [this]; simp

theorem fmodR_self (y : ℝ) (hy0 : 0 < y) : fmodR y y = 0 := by
  have : truncR (y / y) = 1 := by
    rw [div_self hy0.ne']; unfold truncR; norm_num
  unfold fmodR; rw [this]; simp

end FmodC

open FmodC

/-- C188, what holds of `fmodCentered`: for `y > 0` the result is a representable number from `-y/2` to `y/2`, both included, and a whole number of
`y` off `x` up to `(|x| + 2 y) 2^-p`.  For `x + y/2 ≥ 0`, `y/2` itself is not reached, and the error is at most `(|x| + y) 2^-p`.
Missing: the canonical residue in `[-y/2, y/2)`, up to rounding continuously in `x`, which is false (`C188_refuted`, `C188_wrap`). -/
theorem C188_range_partial {p : ℕ} (hp : 2 ≤ p) (x y : ℝ) (hy : Rep p y) (hy0 : 0 < y) : ∃ (r : ℝ) (k : ℤ),
    fmodCentered (.num x : Fl ℝ (rne p)) (.num y) = .ok (.num r) ∧ -(y / 2) ≤ r ∧ r ≤ y / 2 ∧ Rep p r ∧
    |r - (x - k * y)| ≤ (|x| + 2 * y) * (2 : ℝ) ^ (-(p : ℤ)) ∧
    (0 ≤ x + y / 2 → r < y / 2 ∧ |r - (x - k * y)| ≤ (|x| + y) * (2 : ℝ) ^ (-(p : ℤ))) := by
  have hp1 : 1 ≤ p := by omega
  have hr := isRel_rne p hp1
  have u0 := hr.nonneg
  obtain ⟨-, hh⟩ := half_mul hp1 y hy
  have hF := rep_rne p hp1 (x + y / 2)
  have e1 := hr.err (x + y / 2)
  have sgn : 0 ≤ x + y / 2 → 0 ≤ rne p (x + y / 2) := fun h => by
    have := rne_mono p hp1 h
    rwa [rne_zero] at this
  have st := steps hp1 x y hy hy0 _ _ rfl rfl
  generalize rne p (x + y / 2) = S at *
  obtain ⟨f1, f2, k, hk⟩ := fmodR_spec S y hy0
  have hfr := fmodR_rep hF hy hy0
  have hab := abs_lt.1 (fmodR_abs_le S y hy0).2
  have ax : |x + y / 2| ≤ |x| + y / 2 := (abs_add_le _ _).trans (by rw [abs_of_pos (by linarith : 0 < y / 2)])
  have e1' : |S - (x + y / 2)| ≤ (2 : ℝ) ^ (-(p : ℤ)) * |x| + (2 : ℝ) ^ (-(p : ℤ)) * y / 2 := e1.trans (by
    have := mul_le_mul_of_nonneg_left ax u0
    linarith)
  have fin : ∀ F, 0 ≤ F → F ≤ y → -(y / 2) ≤ rne p (F - y / 2) ∧ rne p (F - y / 2) ≤ y / 2 ∧
      |rne p (F - y / 2) - (F - y / 2)| ≤ (2 : ℝ) ^ (-(p : ℤ)) * y / 2 := fun F h0 h1 => by
    have a := rne_mono p hp1 (show -(y / 2) ≤ F - y / 2 by linarith)
    have b := rne_mono p hp1 (show F - y / 2 ≤ y / 2 by linarith)
    rw [rne_of_rep hp1 hh.neg] at a
    rw [rne_of_rep hp1 hh] at b
    refine ⟨a, b, (hr.err _).trans ?_⟩
    have := mul_le_mul_of_nonneg_left (show |F - y / 2| ≤ y / 2 by rw [abs_le]; constructor <;> linarith) u0
    linarith
  rw [st]
  generalize (2 : ℝ) ^ (-(p : ℤ)) = u at *
  have uy := mul_nonneg u0 hy0.le
  by_cases h : 0 ≤ fmodR S y
  · rw [if_pos h]
    generalize fmodR S y = F at *
    obtain ⟨g1, g2, g3⟩ := fin F h hab.2.le
    have err : |rne p (F - y / 2) - (x - k * y)| ≤ (|x| + y) * u := by
      have e : rne p (F - y / 2) - (x - k * y) = (rne p (F - y / 2) - (F - y / 2)) + (S - (x + y / 2)) := by rw [hk]; ring
      rw [e]
      refine (abs_add_le _ _).trans ?_
      linarith
    refine ⟨_, k, rfl, g1, g2, rep_rne p hp1 _, err.trans (by linarith), fun _ => ⟨?_, err⟩⟩
    rcases le_total F (y / 2) with hF2 | hF2
    · have := rne_mono p hp1 (show F - y / 2 ≤ 0 by linarith)
      rw [rne_zero] at this
      linarith
    · have := sterbenz hh hfr (by linarith) (by linarith)
      rw [rne_of_rep hp1 this]
      linarith
  · rw [if_neg h]
    have hn := not_le.1 h
    have S0 : S < 0 := by
      by_contra hS
      exact h (f1 (not_lt.1 hS)).1
    have w0 := rne_mono p hp1 (show 0 ≤ y + fmodR S y by linarith)
    have w1 := rne_mono p hp1 (show y + fmodR S y ≤ y by linarith)
    rw [rne_zero] at w0
    rw [rne_of_rep hp1 hy] at w1
    have w2 := hr.err (y + fmodR S y)
    have w3 := mul_le_mul_of_nonneg_left (show |y + fmodR S y| ≤ y by rw [abs_le]; constructor <;> linarith) u0
    generalize rne p (y + fmodR S y) = F at *
    obtain ⟨g1, g2, g3⟩ := fin F w0 w1
    refine ⟨_, k - 1, rfl, g1, g2, rep_rne p hp1 _, ?_, fun h' => absurd (sgn h') (not_le.2 S0)⟩
    have e : rne p (F - y / 2) - (x - ((k - 1 : ℤ) : ℝ) * y) =
        (rne p (F - y / 2) - (F - y / 2)) + ((F - (y + fmodR S y)) + (S - (x + y / 2))) := by rw [hk]; push_cast; ring
    rw [e]
    refine (abs_add_le _ _).trans ?_
    have := abs_add_le (F - (y + fmodR S y)) (S - (x + y / 2))
    linarith

/-- C188 for an argument that is centred already: `fmodCentered` gives it back up to `3/2 y 2^-p`, or it wraps to `-y/2`, which happens exactly
where the sum `x + y/2` rounds up to `y`, so only within `y 2^-p` of the upper end. -/
theorem C188_centred {p : ℕ} (hp : 2 ≤ p) (x y : ℝ) (hy : Rep p y) (hy0 : 0 < y) (h0 : -(y / 2) ≤ x) (h1 : x < y / 2) : ∃ r : ℝ,
    fmodCentered (.num x : Fl ℝ (rne p)) (.num y) = .ok (.num r) ∧
    (rne p (x + y / 2) < y → |r - x| ≤ 3 / 2 * (y * (2 : ℝ) ^ (-(p : ℤ)))) ∧
    (rne p (x + y / 2) = y → r = -(y / 2) ∧ y / 2 - x ≤ y * (2 : ℝ) ^ (-(p : ℤ))) ∧
    rne p (x + y / 2) ≤ y := by
  have hp1 : 1 ≤ p := by omega
  have hr := isRel_rne p hp1
  have u0 := hr.nonneg
  obtain ⟨-, hh⟩ := half_mul hp1 y hy
  have e1 := hr.err (x + y / 2)
  have w0 := rne_mono p hp1 (show 0 ≤ x + y / 2 by linarith)
  have w1 := rne_mono p hp1 (show x + y / 2 ≤ y by linarith)
  rw [rne_zero] at w0
  rw [rne_of_rep hp1 hy] at w1
  have st := steps hp1 x y hy hy0 _ _ rfl rfl
  have a1 := mul_le_mul_of_nonneg_left (show |x + y / 2| ≤ y by rw [abs_le]; constructor <;> linarith) u0
  generalize rne p (x + y / 2) = S at *
  rw [st]
  refine ⟨_, rfl, fun h => ?_, fun h => ?_, w1⟩
  · rw [fmodR_small S y hy0 w0 h, if_pos w0]
    have e2 := hr.err (S - y / 2)
    have a2 := mul_le_mul_of_nonneg_left (show |S - y / 2| ≤ y / 2 by rw [abs_le]; constructor <;> linarith) u0
    generalize rne p (S - y / 2) = r at *
    rw [show r - x = (r - (S - y / 2)) + (S - (x + y / 2)) by ring]
    refine (abs_add_le _ _).trans ?_
    linarith
  · subst h
    rw [fmodR_self S hy0, if_pos le_rfl, zero_sub, rne_of_rep hp1 hh.neg]
    refine ⟨rfl, ?_⟩
    have := (abs_le.1 e1).2
    linarith

/-- C188, where nothing is lost: a centred `x` for which the sum `x + y/2` is representable is returned exactly. -/
theorem C188_exact {p : ℕ} (hp : 2 ≤ p) (x y : ℝ) (hx : Rep p x) (hy : Rep p y) (hy0 : 0 < y) (h0 : -(y / 2) ≤ x) (h1 : x < y / 2)
    (hs : Rep p (x + y / 2)) : fmodCentered (.num x : Fl ℝ (rne p)) (.num y) = .ok (.num x) := by
  have hp1 : 1 ≤ p := by omega
  rw [steps hp1 x y hy hy0 _ _ rfl rfl, rne_of_rep hp1 hs, fmodR_small _ y hy0 (by linarith) (by linarith), if_pos (by linarith),
    show x + y / 2 - y / 2 = x by ring, rne_of_rep hp1 hx]

/-- The claim C188: the canonical residue, so `x` itself if it is centred already, up to `2 y 2^-p`. -/
def C188_full (p : ℕ) : Prop := ∀ x y : ℝ, Rep p x → Rep p y → 0 < y → -(y / 2) ≤ x → x < y / 2 →
  ∃ r, fmodCentered (.num x : Fl ℝ (rne p)) (.num y) = .ok (.num r) ∧ |r - x| ≤ 2 * (y * (2 : ℝ) ^ (-(p : ℤ)))

/-- C188: in every precision the largest number below one half is mapped to minus one half by `fmodCentered(x, 1)`. -/
theorem C188_wrap (p : ℕ) (hp : 2 ≤ p) :
    (let x : ℝ := 1 / 2 - 2 ^ (-((p : ℤ) + 1))
     Rep p x ∧ -(1 / 2) ≤ x ∧ x < 1 / 2 ∧ fmodCentered (.num x : Fl ℝ (rne p)) (.num 1) = .ok (.num (-(1 / 2)))) := by
  have hp1 : 1 ≤ p := by omega
  have ht := zpow2_pos (K := ℝ) (-((p : ℤ) + 1))
  have ht1 : (2 : ℝ) ^ (-((p : ℤ) + 1)) ≤ 1 / 4 := by
    rw [show (1 / 4 : ℝ) = 2 ^ (-2 : ℤ) by norm_num]
    exact zpow_le_zpow_right₀ one_le_two (by omega)
  have hy : Rep p (1 : ℝ) := by simpa using Rep.zpow (K := ℝ) (p := p) 0
  have hx : Rep p (1 / 2 - (2 : ℝ) ^ (-((p : ℤ) + 1))) := by
    refine ⟨2 ^ p - 1, -((p : ℤ) + 1), ?_, ?_⟩
    · have : (1 : ℤ) ≤ 2 ^ p := one_le_pow₀ one_le_two
      rw [abs_of_nonneg (by linarith)]; linarith
    · push_cast
      rw [sub_mul, ← zpow_natCast, ← zpow_add₀ two_ne_zero, show (p : ℤ) + -((p : ℤ) + 1) = -1 by ring]
      norm_num
  obtain ⟨r, e, -, h, -⟩ := C188_centred hp (1 / 2 - (2 : ℝ) ^ (-((p : ℤ) + 1))) 1 hy one_pos (by linarith) (by linarith)
  refine ⟨hx, by linarith, by linarith, ?_⟩
  have key := (rne_eq_even_iff p (1 / 2 - (2 : ℝ) ^ (-((p : ℤ) + 1)) + 1 / 2) (-1) (2 ^ p) ?_ ?_ ?_ ?_).2 ?_
  · rw [e, (h ?_).1]
    rw [key]
    push_cast
    rw [← zpow_natCast, ← zpow_add₀ two_ne_zero, show (p : ℤ) + (-1 - ((p : ℤ) - 1)) = 0 by ring, zpow_zero]
  · exact Int.emod_eq_zero_of_dvd (dvd_pow_self 2 (by omega))
  · rw [zpow_neg_one]; linarith
  · rw [show (-1 : ℤ) + 1 = 0 by norm_num, zpow_zero]; linarith
  · push_cast
    rw [← zpow_natCast, ← zpow_add₀ two_ne_zero, show (p : ℤ) + (-1 - ((p : ℤ) - 1)) = 0 by ring, zpow_zero]
    linarith
  · push_cast
    rw [← zpow_natCast, ← zpow_add₀ two_ne_zero, show (p : ℤ) + (-1 - ((p : ℤ) - 1)) = 0 by ring,
      zpow_zero, show -1 - (p : ℤ) = -((p : ℤ) + 1) by ring]
    linarith

/-- C188 is false in every precision from three bits on. -/
theorem C188_refuted (p : ℕ) (hp : 3 ≤ p) : ¬ C188_full p := by
  intro h
  obtain ⟨hx, h0, h1, e⟩ := C188_wrap p (by omega)
  have hy : Rep p (1 : ℝ) := by simpa using Rep.zpow (K := ℝ) (p := p) 0
  obtain ⟨r, e', hr⟩ := h _ 1 hx hy one_pos h0 h1
  rw [e] at e'
  injection e' with e'
  injection e' with e'
  have t : (2 : ℝ) ^ (-((p : ℤ) + 1)) = 2 ^ (-(p : ℤ)) / 2 := by
    rw [neg_add, zpow_add₀ two_ne_zero, zpow_neg_one]; ring
  have u8 : (2 : ℝ) ^ (-(p : ℤ)) ≤ 1 / 8 := by
    rw [show (1 / 8 : ℝ) = 2 ^ (-3 : ℤ) by norm_num]
    exact zpow_le_zpow_right₀ one_le_two (by omega)
  rw [← e', t] at hr
  have := (abs_le.1 hr).1
  linarith

/-- C188, the closed upper end: in `float`, with `y = 1 + 2^-22` and `x = -(y/2) - 2^-24`, the result is `y/2`. -/
theorem C188_upper : fmodCentered (.num (-(1 / 2 + 3 / 2 ^ 24)) : Fl ℝ (rne 24)) (.num (1 + 2 / 2 ^ 23)) = .ok (.num (1 / 2 + 2 / 2 ^ 24)) := by
  have hy : Rep 24 (1 + 2 / 2 ^ 23 : ℝ) := ⟨2 ^ 23 + 2, -23, by norm_num, by norm_num⟩
  have hs : rne 24 (-(1 / 2 + 3 / 2 ^ 24) + (1 + 2 / 2 ^ 23) / 2 : ℝ) = -(1 / 2 ^ 24) :=
    (rne_of_rep (by norm_num) ⟨-1, -24, by norm_num, by norm_num⟩).trans (by norm_num)
  have hf : fmodR (-(1 / 2 ^ 24)) (1 + 2 / 2 ^ 23) = -(1 / 2 ^ 24) := by
    have : truncR (-(1 / 2 ^ 24) / (1 + 2 / 2 ^ 23)) = 0 := by
      unfold truncR
      rw [if_neg (by norm_num), Int.ceil_eq_iff]
      norm_num
    unfold fmodR; rw [this]; norm_num
  rw [steps (by norm_num) _ _ hy (by norm_num) _ _ rfl rfl, hs, hf, if_neg (by norm_num)]
  have key := (rne_eq_even_iff 24 (1 + 2 / 2 ^ 23 + -(1 / 2 ^ 24) : ℝ) 0 (2 ^ 23 + 2) (by norm_num) (by norm_num) (by norm_num) (by norm_num)).2
    (by norm_num)
  rw [key, rne_of_rep (by norm_num) ⟨2 ^ 23 + 2, -24, by norm_num, by norm_num⟩]
  norm_num

/-- The hypotheses of `C188_range_partial`, `C188_centred` and `C188_exact` are met by `x = 1/4`, `y = 1` in `float`, and the first by `x = 1000`, `y = 3`. -/
example : Rep 24 (1 / 4 : ℝ) ∧ Rep 24 (1 : ℝ) ∧ (0 : ℝ) < 1 ∧ -(1 / 2 : ℝ) ≤ 1 / 4 ∧ (1 / 4 : ℝ) < 1 / 2 ∧ Rep 24 (1 / 4 + 1 / 2 : ℝ) ∧
    Rep 24 (3 : ℝ) ∧ fmodCentered (.num (1 / 4) : Fl ℝ (rne 24)) (.num 1) = .ok (.num (1 / 4)) := by
  have a : Rep 24 (1 / 4 : ℝ) := ⟨1, -2, by norm_num, by norm_num⟩
  have b : Rep 24 (1 : ℝ) := ⟨1, 0, by norm_num, by norm_num⟩
  have c : Rep 24 (1 / 4 + 1 / 2 : ℝ) := ⟨3, -2, by norm_num, by norm_num⟩
  exact ⟨a, b, one_pos, by norm_num, by norm_num, c, ⟨3, 0, by norm_num, by norm_num⟩,
    C188_exact (by norm_num) _ _ a b one_pos (by norm_num) (by norm_num) c⟩

end MathLib
