import Verif.Props.RoundedBoxBalls
import Verif.Props.RoundedSymmetry
import Verif.Props.RoundedSlerp
import Verif.Props.RoundedQuatDirs

/-! # C193: area and volume of boxes in floating point -/

namespace MathLib

section accuracy
variable {rnd : ℝ → ℝ} {u : ℝ}

def CAABB2.num (b : CAABB2 ℝ) : CAABB2 (Fl ℝ rnd) := ⟨Vec2.num b.center, Vec2.num b.extents⟩
def CAABB3.num (b : CAABB3 ℝ) : CAABB3 (Fl ℝ rnd) := ⟨Vec3.num b.center, Vec3.num b.extents⟩

namespace BoxArea

theorem lit (hr : IsRel rnd u) (n : ℕ) [n.AtLeastTwo] : Rel u 1 (n : ℝ) (OfNat.ofNat n : Fl ℝ rnd) := by
  obtain ⟨θ, k1, k2⟩ := hr.fac ((n : ℕ) : ℝ)
  exact ⟨θ, k1, congrArg Fl.num k2⟩

theorem close (hr : IsRel rnd u) (hu : u ≤ 1 / 4096) {n : ℕ} (hn : n ≤ 5) {x : ℝ} {a : Fl ℝ rnd} (h : Rel u n x a) :
    ∃ v, a = .num v ∧ |v - x| ≤ n * 1.003 * u * |x| := by
  obtain ⟨v, e, b⟩ := h.error hr
  have h0 := hr.nonneg
  refine ⟨v, e, b.trans (mul_le_mul_of_nonneg_right ?_ (abs_nonneg x))⟩
  have hn' : (n : ℝ) ≤ 5 := by exact_mod_cast hn
  have n0 : (0 : ℝ) ≤ n := n.cast_nonneg
  have k : (n : ℝ) * u ≤ 5 / 4096 := by nlinarith
  refine (gam_le hr.lt_one (by linarith)).trans ?_
  rw [div_le_iff₀ (by linarith)]
  have : 0 ≤ (n : ℝ) * u := mul_nonneg n0 h0
  nlinarith

end BoxArea
open BoxArea

/-- C193: area and volume of both kinds of boxes have a relative error of at most `3`, `5`, `3` and `4` roundings. -/
theorem C193_accurate (hr : IsRel rnd u) (hu : u ≤ 1 / 4096) (a : AABB2 ℝ) (b : AABB3 ℝ) (c : CAABB2 ℝ) (d : CAABB3 ℝ) :
    (∃ v, (a.num : AABB2 (Fl ℝ rnd)).area = .num v ∧
      |v - (a.sup.x - a.inf.x) * (a.sup.y - a.inf.y)| ≤ 3.01 * u * |(a.sup.x - a.inf.x) * (a.sup.y - a.inf.y)|) ∧
    (∃ v, (b.num : AABB3 (Fl ℝ rnd)).volume = .num v ∧
      |v - (b.sup.x - b.inf.x) * (b.sup.y - b.inf.y) * (b.sup.z - b.inf.z)| ≤
        5.02 * u * |(b.sup.x - b.inf.x) * (b.sup.y - b.inf.y) * (b.sup.z - b.inf.z)|) ∧
    (∃ v, (c.num : CAABB2 (Fl ℝ rnd)).area = .num v ∧
      |v - (2 * c.extents.x) * (2 * c.extents.y)| ≤ 3.01 * u * |(2 * c.extents.x) * (2 * c.extents.y)|) ∧
    (∃ v, (d.num : CAABB3 (Fl ℝ rnd)).volume = .num v ∧
      |v - (2 * d.extents.x) * (2 * d.extents.y) * (2 * d.extents.z)| ≤
        4.02 * u * |(2 * d.extents.x) * (2 * d.extents.y) * (2 * d.extents.z)|) := by
  have h0 := hr.nonneg
  refine ⟨?_, ?_, ?_, ?_⟩
  · obtain ⟨v, e, h⟩ := close hr hu (n := 3) (by norm_num)
      (Rel.mul hr (Rel.sub hr a.sup.x a.inf.x) (Rel.sub hr a.sup.y a.inf.y) (k := 3))
    refine ⟨v, e, h.trans (mul_le_mul_of_nonneg_right ?_ (abs_nonneg _))⟩
    push_cast; linarith
  · obtain ⟨v, e, h⟩ := close hr hu (n := 5) (by norm_num)
      (Rel.mul hr (Rel.mul hr (Rel.sub hr b.sup.x b.inf.x) (Rel.sub hr b.sup.y b.inf.y) (k := 3)) (Rel.sub hr b.sup.z b.inf.z) (k := 5))
    refine ⟨v, e, h.trans (mul_le_mul_of_nonneg_right ?_ (abs_nonneg _))⟩
    push_cast; linarith
  · obtain ⟨v, e, h⟩ := close hr hu (n := 3) (by norm_num)
      (Rel.mul hr (Rel.mul hr (Rel.exact hr c.extents.x) (Rel.exact hr c.extents.y) (k := 1)) (lit hr 4) (k := 3))
    have e1 : c.extents.x * c.extents.y * ((4 : ℕ) : ℝ) = (2 * c.extents.x) * (2 * c.extents.y) := by push_cast; ring
    rw [e1] at h
    refine ⟨v, e, h.trans (mul_le_mul_of_nonneg_right ?_ (abs_nonneg _))⟩
    push_cast; linarith
  · obtain ⟨v, e, h⟩ := close hr hu (n := 4) (by norm_num)
      (Rel.mul hr (Rel.mul hr (Rel.mul hr (Rel.exact hr d.extents.x) (Rel.exact hr d.extents.y) (k := 1)) (Rel.exact hr d.extents.z) (k := 2))
        (lit hr 8) (k := 4))
    have e1 : d.extents.x * d.extents.y * d.extents.z * ((8 : ℕ) : ℝ) = (2 * d.extents.x) * (2 * d.extents.y) * (2 * d.extents.z) := by
      push_cast; ring
    rw [e1] at h
    refine ⟨v, e, h.trans (mul_le_mul_of_nonneg_right ?_ (abs_nonneg _))⟩
    push_cast; linarith

end accuracy

section ieee
variable {p : ℕ}

namespace BoxArea

theorem scale (p : ℕ) (x : ℝ) (k : ℤ) {y c : ℝ} (hc : c = 2 ^ k) (h : y = x * c) : rne p y = rne p x * c := by
  subst h hc; exact rne_mul_zpow p x k

theorem nonneg (hp : 1 ≤ p) {x : ℝ} (h : 0 ≤ x) : 0 ≤ rne p x := by
  have := rne_mono (K := ℝ) p hp h
  rwa [rne_zero] at this

theorem pow_lit (hp : 1 ≤ p) (n k : ℕ) [n.AtLeastTwo] (h : n = 2 ^ k) : (OfNat.ofNat n : Fl ℝ (rne p)) = .num n := by
  have r : Rep p ((n : ℕ) : ℝ) := by
    have := Rep.zpow (K := ℝ) (p := p) k
    rw [h]; push_cast; simpa using this
  exact congrArg Fl.num (rne_of_rep hp r)

/-- the computed sides; halving them, and multiplying by a power of two, is exact -/
theorem half_side (hp : 1 ≤ p) (x : ℝ) : rne p (rne p x * (1 / 2)) = rne p x / 2 := by
  rw [scale p (rne p x) (-1) (by norm_num) rfl, rne_rne p hp]; ring

end BoxArea
open BoxArea

/-- C193: with rounding to nearest, turning a box into one given by its centre and extents keeps its computed area and volume bit for bit. -/
theorem C193_same (hp : 1 ≤ p) (a : AABB2 ℝ) (b : AABB3 ℝ) :
    (CAABB2.ofBox (a.num : AABB2 (Fl ℝ (rne p)))).area = (a.num : AABB2 (Fl ℝ (rne p))).area ∧
    (CAABB3.ofBox (b.num : AABB3 (Fl ℝ (rne p)))).volume = (b.num : AABB3 (Fl ℝ (rne p))).volume := by
  have h2 := QDirs.half_lit hp
  have l4 : (4 : Fl ℝ (rne p)) = .num 4 := by simpa using pow_lit hp 4 2 (by norm_num)
  have l8 : (8 : Fl ℝ (rne p)) = .num 8 := by simpa using pow_lit hp 8 3 (by norm_num)
  constructor
  · change (Fl.num _ - Fl.num _) * (1 / 2 : Fl ℝ (rne p)) * ((Fl.num _ - Fl.num _) * (1 / 2 : Fl ℝ (rne p))) * 4 =
      (Fl.num _ - Fl.num _) * (Fl.num _ - Fl.num _)
    rw [h2, l4]
    simp only [Fl.num_sub, Fl.num_mul, half_side hp]
    generalize rne p (a.sup.x - a.inf.x) = x
    generalize rne p (a.sup.y - a.inf.y) = y
    have q1 : rne p (x / 2 * (y / 2)) = rne p (x * y) * (1 / 4) := scale p (x * y) (-2) (by norm_num) (by ring)
    rw [q1, show rne p (x * y) * (1 / 4) * 4 = rne p (x * y) by ring, rne_rne p hp]
  · change (Fl.num _ - Fl.num _) * (1 / 2 : Fl ℝ (rne p)) * ((Fl.num _ - Fl.num _) * (1 / 2 : Fl ℝ (rne p))) *
      ((Fl.num _ - Fl.num _) * (1 / 2 : Fl ℝ (rne p))) * 8 = (Fl.num _ - Fl.num _) * (Fl.num _ - Fl.num _) * (Fl.num _ - Fl.num _)
    rw [h2, l8]
    simp only [Fl.num_sub, Fl.num_mul, half_side hp]
    generalize rne p (b.sup.x - b.inf.x) = x
    generalize rne p (b.sup.y - b.inf.y) = y
    generalize rne p (b.sup.z - b.inf.z) = z
    have q1 : rne p (x / 2 * (y / 2)) = rne p (x * y) * (1 / 4) := scale p (x * y) (-2) (by norm_num) (by ring)
    have q2 : rne p (rne p (x * y) * (1 / 4) * (z / 2)) = rne p (rne p (x * y) * z) * (1 / 8) :=
      scale p (rne p (x * y) * z) (-3) (by norm_num) (by ring)
    rw [q1, q2, show rne p (rne p (x * y) * z) * (1 / 8) * 8 = rne p (rne p (x * y) * z) by ring, rne_rne p hp]

/-- C193: a box inside another has no larger computed area or volume, exactly, and neither is negative. -/
theorem C193_monotone (hp : 1 ≤ p) (a b : AABB2 ℝ) (ha : a.inf.x ≤ a.sup.x ∧ a.inf.y ≤ a.sup.y)
    (h : b.inf.x ≤ a.inf.x ∧ b.inf.y ≤ a.inf.y ∧ a.sup.x ≤ b.sup.x ∧ a.sup.y ≤ b.sup.y)
    (c d : AABB3 ℝ) (hc : c.inf.x ≤ c.sup.x ∧ c.inf.y ≤ c.sup.y ∧ c.inf.z ≤ c.sup.z)
    (h' : d.inf.x ≤ c.inf.x ∧ d.inf.y ≤ c.inf.y ∧ d.inf.z ≤ c.inf.z ∧ c.sup.x ≤ d.sup.x ∧ c.sup.y ≤ d.sup.y ∧ c.sup.z ≤ d.sup.z) :
    (0 : Fl ℝ (rne p)) ≤ a.num.area ∧ (a.num.area : Fl ℝ (rne p)) ≤ b.num.area ∧
    (0 : Fl ℝ (rne p)) ≤ c.num.volume ∧ (c.num.volume : Fl ℝ (rne p)) ≤ d.num.volume := by
  have m := rne_mono (K := ℝ) p hp
  obtain ⟨a1, a2⟩ := ha
  obtain ⟨b1, b2, b3, b4⟩ := h
  obtain ⟨c1, c2, c3⟩ := hc
  obtain ⟨d1, d2, d3, d4, d5, d6⟩ := h'
  have x0 := nonneg hp (sub_nonneg.2 a1)
  have y0 := nonneg hp (sub_nonneg.2 a2)
  have z1 := nonneg hp (sub_nonneg.2 c1)
  have z2 := nonneg hp (sub_nonneg.2 c2)
  have z3 := nonneg hp (sub_nonneg.2 c3)
  have x1 := m (show a.sup.x - a.inf.x ≤ b.sup.x - b.inf.x by linarith)
  have y1 := m (show a.sup.y - a.inf.y ≤ b.sup.y - b.inf.y by linarith)
  have w1 := m (show c.sup.x - c.inf.x ≤ d.sup.x - d.inf.x by linarith)
  have w2 := m (show c.sup.y - c.inf.y ≤ d.sup.y - d.inf.y by linarith)
  have w3 := m (show c.sup.z - c.inf.z ≤ d.sup.z - d.inf.z by linarith)
  have n1 := nonneg hp (mul_nonneg z1 z2)
  have m1 := m (mul_le_mul w1 w2 z2 (z1.trans w1))
  refine ⟨?_, ?_, ?_, ?_⟩
  · change (Fl.num 0 : Fl ℝ (rne p)) ≤ (Fl.num _ - Fl.num _) * (Fl.num _ - Fl.num _)
    simp only [Fl.num_sub, Fl.num_mul, Fl.num_le]
    exact nonneg hp (mul_nonneg x0 y0)
  · change (Fl.num _ - Fl.num _) * (Fl.num _ - Fl.num _) ≤ (Fl.num _ - Fl.num _) * (Fl.num _ - Fl.num _ : Fl ℝ (rne p))
    simp only [Fl.num_sub, Fl.num_mul, Fl.num_le]
    exact m (mul_le_mul x1 y1 y0 (x0.trans x1))
  · change (Fl.num 0 : Fl ℝ (rne p)) ≤ (Fl.num _ - Fl.num _) * (Fl.num _ - Fl.num _) * (Fl.num _ - Fl.num _)
    simp only [Fl.num_sub, Fl.num_mul, Fl.num_le]
    exact nonneg hp (mul_nonneg n1 z3)
  · change (Fl.num _ - Fl.num _) * (Fl.num _ - Fl.num _) * (Fl.num _ - Fl.num _) ≤
      (Fl.num _ - Fl.num _) * (Fl.num _ - Fl.num _) * (Fl.num _ - Fl.num _ : Fl ℝ (rne p))
    simp only [Fl.num_sub, Fl.num_mul, Fl.num_le]
    exact m (mul_le_mul m1 w3 z3 (n1.trans m1))

/-- C193: the other way the computed area can be lost: in `float` a box of area `2` given by its centre and extents turns into one of area `0`. -/
theorem C193_lost : ((⟨⟨2 ^ 25, 0⟩, ⟨1 / 2, 1⟩⟩ : CAABB2 ℝ).num : CAABB2 (Fl ℝ (rne 24))).area = .num 2 ∧
    (AABB2.ofCBox ((⟨⟨2 ^ 25, 0⟩, ⟨1 / 2, 1⟩⟩ : CAABB2 ℝ).num : CAABB2 (Fl ℝ (rne 24)))).area = .num 0 := by
  have l4 : (4 : Fl ℝ (rne 24)) = .num 4 := by simpa using pow_lit (p := 24) (by norm_num) 4 2 (by norm_num)
  have e1 : rne 24 ((2 : ℝ) ^ 25 + 1 / 2) = 2 ^ 25 := by
    rw [rne_eq 2 (2 ^ 23) (by norm_num) (by norm_num) (by norm_num [abs_lt])]; norm_num
  have e2 : rne 24 ((2 : ℝ) ^ 25 - 1 / 2) = 2 ^ 25 := by
    rw [rne_eq 1 (2 ^ 24) (by norm_num) (by norm_num) (by norm_num [abs_lt])]; norm_num
  have e3 : rne 24 (1 / 2 * 1 : ℝ) = 1 / 2 := by
    have := rne_of_rep (p := 24) (by norm_num) (Rep.zpow (K := ℝ) (p := 24) (-1))
    norm_num at this ⊢; exact this
  have e4 : rne 24 (1 / 2 * 4 : ℝ) = 2 := by
    have := rne_of_rep (p := 24) (by norm_num) (Rep.zpow (K := ℝ) (p := 24) 1)
    norm_num at this ⊢; exact this
  constructor
  · change (Fl.num (1 / 2) * Fl.num 1 * 4 : Fl ℝ (rne 24)) = _
    rw [l4, Fl.num_mul, e3, Fl.num_mul, e4]
  · change ((Fl.num (2 ^ 25) + Fl.num (1 / 2)) - (Fl.num (2 ^ 25) - Fl.num (1 / 2))) * ((Fl.num 0 + Fl.num 1) - (Fl.num 0 - Fl.num 1) : Fl ℝ (rne 24)) = _
    simp only [Fl.num_add, Fl.num_sub, Fl.num_mul, e1, e2, sub_self, rne_zero, zero_mul]

example : ∃ v, ((⟨⟨0, 1⟩, ⟨3, 8⟩⟩ : AABB2 ℝ).num : AABB2 (Fl ℝ (rne 24))).area = .num v ∧
    |v - (3 - 0) * (8 - 1)| ≤ 3.01 * 2 ^ (-((24 : ℕ) : ℤ)) * |((3 : ℝ) - 0) * (8 - 1)| :=
  (C193_accurate (isRel_rne 24 (by norm_num)) (by norm_num) ⟨⟨0, 1⟩, ⟨3, 8⟩⟩ ⟨⟨0, 1, 2⟩, ⟨3, 8, 4⟩⟩ ⟨⟨0, 1⟩, ⟨3, 8⟩⟩ ⟨⟨0, 1, 2⟩, ⟨3, 8, 4⟩⟩).1

/-- a box with sides `1 / 10`, not a number of the type, in one twice as large -/
example : (((⟨⟨0, 0⟩, ⟨1 / 10, 1 / 10⟩⟩ : AABB2 ℝ).num.area : Fl ℝ (rne 24))) ≤ (⟨⟨0, -1⟩, ⟨1 / 5, 1 / 10⟩⟩ : AABB2 ℝ).num.area :=
  (C193_monotone (p := 24) (by norm_num) _ _ (by norm_num) (by norm_num) ⟨⟨0, 0, 0⟩, ⟨1, 1, 1⟩⟩ ⟨⟨0, 0, 0⟩, ⟨1, 1, 1⟩⟩ (by norm_num) (by norm_num)).2.1

end ieee

end MathLib
