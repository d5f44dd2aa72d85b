import Verif.Props.RoundedBoxArea
import Verif.Props.RoundedEasing

/-! # C194: scaling boxes about their centres in floating point -/

namespace MathLib

section accuracy
variable {rnd : ℝ → ℝ} {u : ℝ}

/-- `a` and `b` are the ends of the interval from `lo` to `hi`, scaled by `k` about its middle, up to `e` times the size of middle and half length -/
def ScaledEnds (e lo hi k : ℝ) (a b : Fl ℝ rnd) : Prop :=
  a.Within (e * (|(lo + hi) / 2| + |(hi - lo) / 2 * k|)) ((lo + hi) / 2 - (hi - lo) / 2 * k) ∧
  b.Within (e * (|(lo + hi) / 2| + |(hi - lo) / 2 * k|)) ((lo + hi) / 2 + (hi - lo) / 2 * k)

namespace BoxScale
open BoxArea

theorem half (hr : IsRel rnd u) : Rel u 2 (1 / 2) (1 / 2 : Fl ℝ rnd) := by
  have := Rel.div hr (Rel.exact hr 1) (lit hr 2) (by norm_num) (k := 2)
  simpa [Fl.one_def] using this

theorem gam_close (hr : IsRel rnd u) (hu : u ≤ 1 / 4096) {n : ℕ} (hn : n ≤ 7) : gam u n ≤ 1.003 * n * u := by
  have h0 := hr.nonneg
  have hn' : (n : ℝ) ≤ 7 := by exact_mod_cast hn
  have n0 : (0 : ℝ) ≤ n := n.cast_nonneg
  have k : (n : ℝ) * u ≤ 7 / 4096 := by nlinarith
  refine (gam_le hr.lt_one (by linarith)).trans ?_
  rw [div_le_iff₀ (by linarith)]
  have : 0 ≤ (n : ℝ) * u := mul_nonneg n0 h0
  nlinarith

theorem ends (hr : IsRel rnd u) (hu : u ≤ 1 / 4096) {m : ℕ} (hm : m ≤ 1) {k : ℝ} {f : Fl ℝ rnd} (hf : Rel u m k f) (lo hi : ℝ) :
    ScaledEnds (1.003 * (6 + m) * u) lo hi k
      ((.num lo + .num hi) * (1 / 2) - (.num hi - .num lo) * (1 / 2) * f) ((.num lo + .num hi) * (1 / 2) + (.num hi - .num lo) * (1 / 2) * f) := by
  have c : Rel u 4 ((lo + hi) / 2) ((.num lo + .num hi) * (1 / 2) : Fl ℝ rnd) := by
    have := Rel.mul hr (Rel.sum hr lo hi) (half hr) (k := 4)
    rwa [mul_one_div] at this
  have e : Rel u (5 + m) ((hi - lo) / 2 * k) ((.num hi - .num lo) * (1 / 2) * f : Fl ℝ rnd) := by
    have := Rel.mul hr (Rel.mul hr (Rel.sub hr hi lo) (half hr) (k := 4)) hf (k := 5 + m) (by omega)
    rwa [mul_one_div] at this
  have g := gam_close hr hu (n := 6 + m) (by omega)
  push_cast at g
  have s : 0 ≤ |(lo + hi) / 2| + |(hi - lo) / 2 * k| := by positivity
  constructor
  · obtain ⟨-, v, ev, hv⟩ := AbsErr.sub hr (AbsErr.of_rel hr c) (AbsErr.of_rel hr e) (k := 6 + m) (by omega)
    exact ⟨v, ev, hv.trans (mul_le_mul_of_nonneg_right g s)⟩
  · obtain ⟨-, v, ev, hv⟩ := AbsErr.add hr (AbsErr.of_rel hr c) (AbsErr.of_rel hr e) (k := 6 + m) (by omega)
    exact ⟨v, ev, hv.trans (mul_le_mul_of_nonneg_right g s)⟩

theorem weaken {e e' lo hi k : ℝ} {a b : Fl ℝ rnd} (he : e ≤ e') (h : ScaledEnds e lo hi k a b) : ScaledEnds e' lo hi k a b := by
  have s : 0 ≤ |(lo + hi) / 2| + |(hi - lo) / 2 * k| := by positivity
  obtain ⟨⟨v, h1, h2⟩, w, h3, h4⟩ := h
  exact ⟨⟨v, h1, h2.trans (mul_le_mul_of_nonneg_right he s)⟩, w, h3, h4.trans (mul_le_mul_of_nonneg_right he s)⟩

end BoxScale
open BoxScale

/-- C194: the corners of a scaled box are right up to `6.1` units of the size of centre and scaled extents. -/
theorem C194_scale (hr : IsRel rnd u) (hu : u ≤ 1 / 4096) (b : AABB2 ℝ) (d : AABB3 ℝ) (k : ℝ) :
    (let r := (b.num : AABB2 (Fl ℝ rnd)).scaleCentered (.num k)
     ScaledEnds (6.1 * u) b.inf.x b.sup.x k r.inf.x r.sup.x ∧ ScaledEnds (6.1 * u) b.inf.y b.sup.y k r.inf.y r.sup.y) ∧
    (let r := (d.num : AABB3 (Fl ℝ rnd)).scaleCentered (.num k)
     ScaledEnds (6.1 * u) d.inf.x d.sup.x k r.inf.x r.sup.x ∧ ScaledEnds (6.1 * u) d.inf.y d.sup.y k r.inf.y r.sup.y ∧
     ScaledEnds (6.1 * u) d.inf.z d.sup.z k r.inf.z r.sup.z) := by
  have h0 := hr.nonneg
  have w : ∀ lo hi : ℝ, _ := fun lo hi => weaken (e' := 6.1 * u) (by push_cast; linarith) (ends hr hu (m := 0) (by norm_num) (Rel.exact hr k) lo hi)
  exact ⟨⟨w _ _, w _ _⟩, w _ _, w _ _, w _ _⟩

/-- C194: division: an assertion for `0`, otherwise the corners are right up to `7.1` units. -/
theorem C194_unscale (hr : IsRel rnd u) (hu : u ≤ 1 / 4096) (b : AABB2 ℝ) (d : AABB3 ℝ) (k : ℝ) :
    (k = 0 → (b.num : AABB2 (Fl ℝ rnd)).unscale (.num k) = .error .assertion ∧ (d.num : AABB3 (Fl ℝ rnd)).unscale (.num k) = .error .assertion) ∧
    (k ≠ 0 → (∃ r, (b.num : AABB2 (Fl ℝ rnd)).unscale (.num k) = .ok r ∧
      ScaledEnds (7.1 * u) b.inf.x b.sup.x (1 / k) r.inf.x r.sup.x ∧ ScaledEnds (7.1 * u) b.inf.y b.sup.y (1 / k) r.inf.y r.sup.y) ∧
      ∃ r, (d.num : AABB3 (Fl ℝ rnd)).unscale (.num k) = .ok r ∧
      ScaledEnds (7.1 * u) d.inf.x d.sup.x (1 / k) r.inf.x r.sup.x ∧ ScaledEnds (7.1 * u) d.inf.y d.sup.y (1 / k) r.inf.y r.sup.y ∧
      ScaledEnds (7.1 * u) d.inf.z d.sup.z (1 / k) r.inf.z r.sup.z) := by
  have h0 := hr.nonneg
  constructor
  · rintro rfl
    simp [AABB2.unscale, AABB3.unscale, Fl.zero_def]
  · intro hk
    have hf : Rel u 1 (1 / k) (1 / .num k : Fl ℝ rnd) := by
      rw [Fl.one_def]; exact Rel.div hr (Rel.exact hr 1) (Rel.exact hr k) hk
    have w : ∀ lo hi : ℝ, _ := fun lo hi => weaken (e' := 7.1 * u) (by push_cast; linarith) (ends hr hu (m := 1) (by norm_num) hf lo hi)
    refine ⟨⟨(b.num : AABB2 (Fl ℝ rnd)).scaleCentered (1 / .num k), ?_, w _ _, w _ _⟩,
      (d.num : AABB3 (Fl ℝ rnd)).scaleCentered (1 / .num k), ?_, w _ _, w _ _, w _ _⟩
    · simp [AABB2.unscale, Fl.zero_def, hk]
    · simp [AABB3.unscale, Fl.zero_def, hk]

end accuracy

section ieee
variable {p : ℕ}

/-- C194: boxes given by centre and extents keep their centre exactly; multiplying by a power of two and dividing by it again gives the same box. -/
theorem C194_centred (hp : 1 ≤ p) (c : CAABB2 ℝ) (d : CAABB3 ℝ) (hc : Rep p c.extents.x ∧ Rep p c.extents.y)
    (hd : Rep p d.extents.x ∧ Rep p d.extents.y ∧ Rep p d.extents.z) (n : ℤ) (k : ℝ) :
    ((c.num : CAABB2 (Fl ℝ (rne p))).scale (.num k)).center = Vec2.num c.center ∧
    ((d.num : CAABB3 (Fl ℝ (rne p))).scale (.num k)).center = Vec3.num d.center ∧
    ((c.num : CAABB2 (Fl ℝ (rne p))).scale (.num (2 ^ n))).unscale (.num (2 ^ n)) = .ok c.num ∧
    ((d.num : CAABB3 (Fl ℝ (rne p))).scale (.num (2 ^ n))).unscale (.num (2 ^ n)) = .ok d.num := by
  have z : (2 : ℝ) ^ n ≠ 0 := by positivity
  have s : ∀ x : ℝ, Rep p x → rne p (rne p (x * 2 ^ n) / 2 ^ n) = x := fun x hx => by
    rw [rne_mul_zpow, rne_of_rep hp hx, mul_div_assoc, div_self z, mul_one, rne_of_rep hp hx]
  refine ⟨rfl, rfl, ?_, ?_⟩
  · have : ((.num (2 ^ n) : Fl ℝ (rne p)) == 0) = false := by simp [Fl.zero_def, z]
    unfold CAABB2.unscale Vec2.div
    rw [if_neg (by simp [this]), if_neg (by simp [this])]
    change Except.ok (⟨Vec2.num c.center, ⟨.num c.extents.x * .num (2 ^ n) / .num (2 ^ n), .num c.extents.y * .num (2 ^ n) / .num (2 ^ n)⟩⟩ : CAABB2 (Fl ℝ (rne p))) = _
    simp only [Fl.num_mul, Fl.num_div, if_neg z, s _ hc.1, s _ hc.2]
    rfl
  · have : ((.num (2 ^ n) : Fl ℝ (rne p)) == 0) = false := by simp [Fl.zero_def, z]
    unfold CAABB3.unscale Vec3.div
    rw [if_neg (by simp [this]), if_neg (by simp [this])]
    change Except.ok (⟨Vec3.num d.center, ⟨.num d.extents.x * .num (2 ^ n) / .num (2 ^ n), .num d.extents.y * .num (2 ^ n) / .num (2 ^ n),
      .num d.extents.z * .num (2 ^ n) / .num (2 ^ n)⟩⟩ : CAABB3 (Fl ℝ (rne p))) = _
    simp only [Fl.num_mul, Fl.num_div, if_neg z, s _ hd.1, s _ hd.2.1, s _ hd.2.2]
    rfl

/-- C194: in `float` a box multiplied by `1` is not the same box: from `3` to `2^24` it starts at `7/2` afterwards and no longer contains its corner. -/
theorem C194_one : ((⟨⟨3, 0⟩, ⟨2 ^ 24, 0⟩⟩ : AABB2 ℝ).num.scaleCentered 1 : AABB2 (Fl ℝ (rne 24))).inf.x = .num (7 / 2) ∧
    ((⟨⟨3, 0⟩, ⟨2 ^ 24, 0⟩⟩ : AABB2 ℝ).num.scaleCentered 1 : AABB2 (Fl ℝ (rne 24))).contains (Vec2.num ⟨3, 0⟩) = false := by
  have h2 := QDirs.half_lit (p := 24) (by norm_num)
  have e1 : rne 24 ((3 : ℝ) + 2 ^ 24) = 2 ^ 24 + 4 := by
    rw [rne_tie 1 (2 ^ 23 + 2) (by norm_num) (by norm_num) (by norm_num) (by norm_num)]; norm_num
  have r : ∀ (m e : ℤ) (x : ℝ), |m| ≤ 2 ^ 24 → x = m * 2 ^ e → rne 24 x = x := fun m e x h1 h2 => rne_fix (by norm_num) m e h1 h2
  have e2 : rne 24 (((2 : ℝ) ^ 24 + 4) * (1 / 2)) = 2 ^ 23 + 2 := by
    rw [r (2 ^ 23 + 2) 0 _ (by norm_num) (by norm_num)]; norm_num
  have e3 : rne 24 ((2 : ℝ) ^ 24 - 3) = 2 ^ 24 - 3 := r (2 ^ 24 - 3) 0 _ (by norm_num) (by norm_num)
  have e4 : rne 24 (((2 : ℝ) ^ 24 - 3) * (1 / 2)) = (2 ^ 24 - 3) * (1 / 2) := r (2 ^ 24 - 3) (-1) _ (by norm_num) (by norm_num)
  have e5 : rne 24 (((2 : ℝ) ^ 23 + 2) - (2 ^ 24 - 3) * (1 / 2)) = 7 / 2 := by
    rw [r 7 (-1) _ (by norm_num) (by norm_num)]; norm_num
  have m : ((⟨⟨3, 0⟩, ⟨2 ^ 24, 0⟩⟩ : AABB2 ℝ).num.scaleCentered 1 : AABB2 (Fl ℝ (rne 24))).inf.x = .num (7 / 2) := by
    change (Fl.num 3 + Fl.num (2 ^ 24)) * (1 / 2 : Fl ℝ (rne 24)) - (Fl.num (2 ^ 24) - Fl.num 3) * (1 / 2 : Fl ℝ (rne 24)) * Fl.num 1 = _
    rw [h2]
    simp only [Fl.num_add, Fl.num_sub, Fl.num_mul, e1, e2, e3, e4, mul_one, e5]
  refine ⟨m, ?_⟩
  have n : ¬ ((Vec2.num ⟨3, 0⟩ : Vec2 (Fl ℝ (rne 24))).x ≥
      ((⟨⟨3, 0⟩, ⟨2 ^ 24, 0⟩⟩ : AABB2 ℝ).num.scaleCentered 1 : AABB2 (Fl ℝ (rne 24))).inf.x) := by
    rw [m]
    change ¬ ((Fl.num (7 / 2) : Fl ℝ (rne 24)) ≤ Fl.num 3)
    rw [Fl.num_le]; norm_num
  unfold AABB2.contains
  rw [decide_eq_false n, Bool.false_and, Bool.false_and]

/-- a box from `(1, -2)` to `(3, 5)`, divided by `3` in `float` -/
example : ∃ r, ((⟨⟨1, -2⟩, ⟨3, 5⟩⟩ : AABB2 ℝ).num : AABB2 (Fl ℝ (rne 24))).unscale (.num 3) = .ok r ∧
    ScaledEnds (7.1 * 2 ^ (-((24 : ℕ) : ℤ))) 1 3 (1 / 3) r.inf.x r.sup.x ∧ ScaledEnds (7.1 * 2 ^ (-((24 : ℕ) : ℤ))) (-2) 5 (1 / 3) r.inf.y r.sup.y :=
  ((C194_unscale (isRel_rne 24 (by norm_num)) (by norm_num) ⟨⟨1, -2⟩, ⟨3, 5⟩⟩ ⟨⟨0, 0, 0⟩, ⟨1, 1, 1⟩⟩ 3).2 (by norm_num)).1

example : Rep 24 (3 : ℝ) ∧ Rep 24 (5 : ℝ) := ⟨by simpa using Rep.nat (K := ℝ) (p := 24) 3 (by norm_num), by simpa using Rep.nat (K := ℝ) (p := 24) 5 (by norm_num)⟩

end ieee

end MathLib
