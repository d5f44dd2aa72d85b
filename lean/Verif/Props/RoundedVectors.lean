import Verif.Proof.RelErr
import Verif.Props.Rounding
import Verif.Model.QuatBase

/-! # Properties C119, C120: accuracy of vector arithmetic in floating point

For every rounding function with relative error `u` (no underflow, no overflow): `rne p` with `u = 2^-p` is one
(`isRel_rne`), and for it `gam u n ≤ n u / (1 - n u)` (`gam_le`). -/

namespace MathLib
variable {rnd : ℝ → ℝ} {u : ℝ}

theorem Rel.within {n : ℕ} {x : ℝ} {a : Fl ℝ rnd} (hr : IsRel rnd u) (h : Rel u n x a) :
    a.Within (gam u n * |x|) x := h.error hr
theorem AbsErr.within {n : ℕ} {A x : ℝ} {a : Fl ℝ rnd} (h : AbsErr u n A x a) : a.Within (gam u n * A) x := h.2

/-! ## C119 -/

section rel
variable (hr : IsRel rnd u)
include hr

theorem rel_sq (x : ℝ) : Rel u 1 (x * x) (.num x * .num x : Fl ℝ rnd) :=
  Rel.mul hr (Rel.exact hr x) (Rel.exact hr x)

theorem Vec2.rel_lengthSqr (a : Vec2 ℝ) : Rel u 2 (a.x * a.x + a.y * a.y) (Vec2.num a : Vec2 (Fl ℝ rnd)).lengthSqr :=
  Rel.add hr (rel_sq hr _) (rel_sq hr _) (mul_self_nonneg _) (mul_self_nonneg _)
theorem Vec3.rel_lengthSqr (a : Vec3 ℝ) :
    Rel u 3 (a.x * a.x + a.y * a.y + a.z * a.z) (Vec3.num a : Vec3 (Fl ℝ rnd)).lengthSqr :=
  Rel.add hr (Rel.add hr (rel_sq hr _) (rel_sq hr _) (mul_self_nonneg _) (mul_self_nonneg _) (k := 2)) (rel_sq hr _)
    (add_nonneg (mul_self_nonneg _) (mul_self_nonneg _)) (mul_self_nonneg _)
theorem rel_sq4 (x y z w : ℝ) :
    Rel u 4 (x * x + y * y + z * z + w * w)
      (.num x * .num x + .num y * .num y + .num z * .num z + .num w * .num w : Fl ℝ rnd) :=
  Rel.add hr (Vec3.rel_lengthSqr hr ⟨x, y, z⟩) (rel_sq hr _)
    (add_nonneg (add_nonneg (mul_self_nonneg _) (mul_self_nonneg _)) (mul_self_nonneg _)) (mul_self_nonneg _)

theorem Vec2.rel_length (a : Vec2 ℝ) : Rel u 2 √(a.x * a.x + a.y * a.y) (Vec2.num a : Vec2 (Fl ℝ rnd)).length :=
  Rel.sqrt hr (Vec2.rel_lengthSqr hr a) (add_nonneg (mul_self_nonneg _) (mul_self_nonneg _)) (m := 1)
theorem Vec3.rel_length (a : Vec3 ℝ) :
    Rel u 3 √(a.x * a.x + a.y * a.y + a.z * a.z) (Vec3.num a : Vec3 (Fl ℝ rnd)).length :=
  Rel.sqrt hr (Vec3.rel_lengthSqr hr a)
    (add_nonneg (add_nonneg (mul_self_nonneg _) (mul_self_nonneg _)) (mul_self_nonneg _)) (m := 2)
theorem rel_length4 (x y z w : ℝ) :
    Rel u 3 √(x * x + y * y + z * z + w * w)
      (MathFns.sqrt (.num x * .num x + .num y * .num y + .num z * .num z + .num w * .num w : Fl ℝ rnd)) :=
  Rel.sqrt hr (rel_sq4 hr x y z w) (add_nonneg (add_nonneg (add_nonneg (mul_self_nonneg _) (mul_self_nonneg _))
    (mul_self_nonneg _)) (mul_self_nonneg _)) (m := 2)

theorem rel_dsq (x y : ℝ) : Rel u 3 ((x - y) * (x - y))
    ((.num x - .num y) * (.num x - .num y) : Fl ℝ rnd) :=
  Rel.mul hr (Rel.sub hr x y) (Rel.sub hr x y)
theorem rel_distanceSqr2 (a b : Vec2 ℝ) : Rel u 4 ((b.x - a.x) * (b.x - a.x) + (b.y - a.y) * (b.y - a.y))
    (distanceSqr2 (Vec2.num a : Vec2 (Fl ℝ rnd)) (Vec2.num b)) :=
  Rel.add hr (rel_dsq hr _ _) (rel_dsq hr _ _) (mul_self_nonneg _) (mul_self_nonneg _)
theorem rel_distanceSqr3 (a b : Vec3 ℝ) :
    Rel u 5 ((b.x - a.x) * (b.x - a.x) + (b.y - a.y) * (b.y - a.y) + (b.z - a.z) * (b.z - a.z))
    (distanceSqr3 (Vec3.num a : Vec3 (Fl ℝ rnd)) (Vec3.num b)) :=
  Rel.add hr (Rel.add hr (rel_dsq hr _ _) (rel_dsq hr _ _) (mul_self_nonneg _) (mul_self_nonneg _) (k := 4))
    (rel_dsq hr _ _) (add_nonneg (mul_self_nonneg _) (mul_self_nonneg _)) (mul_self_nonneg _)
theorem rel_distance2 (a b : Vec2 ℝ) : Rel u 3 √((b.x - a.x) * (b.x - a.x) + (b.y - a.y) * (b.y - a.y))
    (distance2 (Vec2.num a : Vec2 (Fl ℝ rnd)) (Vec2.num b)) :=
  Rel.sqrt hr (rel_distanceSqr2 hr a b) (add_nonneg (mul_self_nonneg _) (mul_self_nonneg _)) (m := 2)
theorem rel_distance3 (a b : Vec3 ℝ) :
    Rel u 4 √((b.x - a.x) * (b.x - a.x) + (b.y - a.y) * (b.y - a.y) + (b.z - a.z) * (b.z - a.z))
    (distance3 (Vec3.num a : Vec3 (Fl ℝ rnd)) (Vec3.num b)) :=
  Rel.sqrt hr (rel_distanceSqr3 hr a b)
    (add_nonneg (add_nonneg (mul_self_nonneg _) (mul_self_nonneg _)) (mul_self_nonneg _)) (m := 3)

/-- C119: squared lengths and lengths have a relative error of a few units, for all vectors. -/
theorem C119_length (a : Vec2 ℝ) (b : Vec3 ℝ) (c : Vec4 ℝ) :
    (Vec2.num a : Vec2 (Fl ℝ rnd)).lengthSqr.Within (gam u 2 * (a.x ^ 2 + a.y ^ 2)) (a.x ^ 2 + a.y ^ 2) ∧
    (Vec2.num a : Vec2 (Fl ℝ rnd)).length.Within (gam u 2 * √(a.x ^ 2 + a.y ^ 2)) √(a.x ^ 2 + a.y ^ 2) ∧
    (Vec3.num b : Vec3 (Fl ℝ rnd)).lengthSqr.Within (gam u 3 * (b.x ^ 2 + b.y ^ 2 + b.z ^ 2))
      (b.x ^ 2 + b.y ^ 2 + b.z ^ 2) ∧
    (Vec3.num b : Vec3 (Fl ℝ rnd)).length.Within (gam u 3 * √(b.x ^ 2 + b.y ^ 2 + b.z ^ 2))
      √(b.x ^ 2 + b.y ^ 2 + b.z ^ 2) ∧
    (Vec4.num c : Vec4 (Fl ℝ rnd)).lengthSqr.Within (gam u 4 * (c.x ^ 2 + c.y ^ 2 + c.z ^ 2 + c.w ^ 2))
      (c.x ^ 2 + c.y ^ 2 + c.z ^ 2 + c.w ^ 2) ∧
    (Vec4.num c : Vec4 (Fl ℝ rnd)).length.Within (gam u 3 * √(c.x ^ 2 + c.y ^ 2 + c.z ^ 2 + c.w ^ 2))
      √(c.x ^ 2 + c.y ^ 2 + c.z ^ 2 + c.w ^ 2) := by
  simp only [pow_two]
  refine ⟨?_, ?_, ?_, ?_, ?_, ?_⟩
  · simpa only [abs_of_nonneg (add_nonneg (mul_self_nonneg a.x) (mul_self_nonneg a.y))] using
      (Vec2.rel_lengthSqr hr a).within hr
  · simpa only [abs_of_nonneg (Real.sqrt_nonneg _)] using (Vec2.rel_length hr a).within hr
  · simpa only [abs_of_nonneg (add_nonneg (add_nonneg (mul_self_nonneg b.x) (mul_self_nonneg b.y))
      (mul_self_nonneg b.z))] using (Vec3.rel_lengthSqr hr b).within hr
  · simpa only [abs_of_nonneg (Real.sqrt_nonneg _)] using (Vec3.rel_length hr b).within hr
  · have := (rel_sq4 hr c.x c.y c.z c.w).within hr
    rwa [abs_of_nonneg (add_nonneg (add_nonneg (add_nonneg (mul_self_nonneg c.x) (mul_self_nonneg c.y))
      (mul_self_nonneg c.z)) (mul_self_nonneg c.w))] at this
  · have := (rel_length4 hr c.x c.y c.z c.w).within hr
    rwa [abs_of_nonneg (Real.sqrt_nonneg _)] at this

/-- C119: so have distances, also between points that are close together and far from the origin. -/
theorem C119_distance (a b : Vec2 ℝ) (c d : Vec3 ℝ) :
    (distance2 (Vec2.num a : Vec2 (Fl ℝ rnd)) (Vec2.num b)).Within
      (gam u 3 * √((b.x - a.x) ^ 2 + (b.y - a.y) ^ 2)) √((b.x - a.x) ^ 2 + (b.y - a.y) ^ 2) ∧
    (distance3 (Vec3.num c : Vec3 (Fl ℝ rnd)) (Vec3.num d)).Within
      (gam u 4 * √((d.x - c.x) ^ 2 + (d.y - c.y) ^ 2 + (d.z - c.z) ^ 2))
      √((d.x - c.x) ^ 2 + (d.y - c.y) ^ 2 + (d.z - c.z) ^ 2) ∧
    (distanceSqr2 (Vec2.num a : Vec2 (Fl ℝ rnd)) (Vec2.num b)).Within
      (gam u 4 * ((b.x - a.x) ^ 2 + (b.y - a.y) ^ 2)) ((b.x - a.x) ^ 2 + (b.y - a.y) ^ 2) ∧
    (distanceSqr3 (Vec3.num c : Vec3 (Fl ℝ rnd)) (Vec3.num d)).Within
      (gam u 5 * ((d.x - c.x) ^ 2 + (d.y - c.y) ^ 2 + (d.z - c.z) ^ 2))
      ((d.x - c.x) ^ 2 + (d.y - c.y) ^ 2 + (d.z - c.z) ^ 2) := by
  simp only [pow_two]
  refine ⟨?_, ?_, ?_, ?_⟩
  · simpa only [abs_of_nonneg (Real.sqrt_nonneg _)] using (rel_distance2 hr a b).within hr
  · simpa only [abs_of_nonneg (Real.sqrt_nonneg _)] using (rel_distance3 hr c d).within hr
  · have := (rel_distanceSqr2 hr a b).within hr
    rwa [abs_of_nonneg (add_nonneg (mul_self_nonneg _) (mul_self_nonneg _))] at this
  · have := (rel_distanceSqr3 hr c d).within hr
    rwa [abs_of_nonneg (add_nonneg (add_nonneg (mul_self_nonneg _) (mul_self_nonneg _)) (mul_self_nonneg _))] at this

private theorem Rel.ne_zero {n : ℕ} {x : ℝ} {a : Fl ℝ rnd} (h : Rel u n x a) : (a == 0) = decide (x = 0) := by
  obtain ⟨θ, ht, rfl⟩ := h
  rw [Fl.zero_def, Fl.num_beq]
  simp [(ht.pos hr.lt_one).ne']

/-- C119: the computed length is zero exactly for the null vector, so the test in `normalize` is the exact one. -/
theorem C119_null (a : Vec2 ℝ) (b : Vec3 ℝ) :
    ((Vec2.num a : Vec2 (Fl ℝ rnd)).length == 0) = decide (a = ⟨0, 0⟩) ∧
    ((Vec3.num b : Vec3 (Fl ℝ rnd)).length == 0) = decide (b = ⟨0, 0, 0⟩) := by
  constructor
  · rw [(Vec2.rel_length hr a).ne_zero hr, decide_eq_decide,
      Real.sqrt_eq_zero (add_nonneg (mul_self_nonneg _) (mul_self_nonneg _))]
    obtain ⟨x, y⟩ := a
    simp only [Vec2.mk.injEq]
    constructor
    · intro h; constructor <;> nlinarith [mul_self_nonneg x, mul_self_nonneg y]
    · rintro ⟨rfl, rfl⟩; simp
  · rw [(Vec3.rel_length hr b).ne_zero hr, decide_eq_decide, Real.sqrt_eq_zero
      (add_nonneg (add_nonneg (mul_self_nonneg _) (mul_self_nonneg _)) (mul_self_nonneg _))]
    obtain ⟨x, y, z⟩ := b
    simp only [Vec3.mk.injEq]
    constructor
    · intro h; refine ⟨?_, ?_, ?_⟩ <;> nlinarith [mul_self_nonneg x, mul_self_nonneg y, mul_self_nonneg z]
    · rintro ⟨rfl, rfl, rfl⟩; simp

/-- a vector whose coordinates are `k` times those of `v` divided by the length `l`, up to the factors, has length
`|k|` up to the same factor -/
private theorem fac_len {n : ℕ} {x y z w k l : ℝ} (hl : 0 < l) (e : x * x + y * y + z * z + w * w = l * l)
    {p q r s : ℝ} (hp : Fac u n p) (hq : Fac u n q) (hs : Fac u n r) (ht : Fac u n s) :
    (1 - u) ^ n * |k| ≤ √((x * (k / l) * p) ^ 2 + (y * (k / l) * q) ^ 2 + (z * (k / l) * r) ^ 2 +
      (w * (k / l) * s) ^ 2) ∧
    √((x * (k / l) * p) ^ 2 + (y * (k / l) * q) ^ 2 + (z * (k / l) * r) ^ 2 + (w * (k / l) * s) ^ 2) ≤
      |k| / (1 - u) ^ n := by
  have hg := Fac.gpos hr.lt_one n
  have h2 : ∀ {f : ℝ}, Fac u n f → ((1 - u) ^ n) ^ 2 ≤ f ^ 2 ∧ f ^ 2 ≤ (((1 - u) ^ n)⁻¹) ^ 2 := fun {f} hf => by
    have hf0 := hf.pos hr.lt_one
    have : f ≤ ((1 - u) ^ n)⁻¹ := by rw [← one_div, le_div_iff₀ hg]; exact hf.2
    exact ⟨pow_le_pow_left₀ hg.le hf.1 2, pow_le_pow_left₀ hf0.le this 2⟩
  have ek : (x * (k / l)) ^ 2 + (y * (k / l)) ^ 2 + (z * (k / l)) ^ 2 + (w * (k / l)) ^ 2 = k ^ 2 := by
    have : (x * (k / l)) ^ 2 + (y * (k / l)) ^ 2 + (z * (k / l)) ^ 2 + (w * (k / l)) ^ 2 =
        (x * x + y * y + z * z + w * w) * (k / l) ^ 2 := by ring
    rw [this, e]; field_simp
  constructor
  · apply Real.le_sqrt_of_sq_le
    rw [mul_pow, sq_abs, ← ek]
    nlinarith [mul_le_mul_of_nonneg_left (h2 hp).1 (sq_nonneg (x * (k / l))),
      mul_le_mul_of_nonneg_left (h2 hq).1 (sq_nonneg (y * (k / l))),
      mul_le_mul_of_nonneg_left (h2 hs).1 (sq_nonneg (z * (k / l))),
      mul_le_mul_of_nonneg_left (h2 ht).1 (sq_nonneg (w * (k / l)))]
  · have e2 : (|k| / (1 - u) ^ n) ^ 2 = k ^ 2 * (((1 - u) ^ n)⁻¹) ^ 2 := by rw [div_pow, sq_abs, inv_pow]; rfl
    rw [Real.sqrt_le_left (by positivity), e2, ← ek]
    nlinarith [mul_le_mul_of_nonneg_left (h2 hp).2 (sq_nonneg (x * (k / l))),
      mul_le_mul_of_nonneg_left (h2 hq).2 (sq_nonneg (y * (k / l))),
      mul_le_mul_of_nonneg_left (h2 hs).2 (sq_nonneg (z * (k / l))),
      mul_le_mul_of_nonneg_left (h2 ht).2 (sq_nonneg (w * (k / l)))]

private theorem fac_coord {n : ℕ} {x p : ℝ} (hp : Fac u n p) : |x * p - x| ≤ gam u n * |x| := by
  rw [show x * p - x = (p - 1) * x by ring, abs_mul]
  exact mul_le_mul_of_nonneg_right (hp.abs_sub_one hr.lt_one) (abs_nonneg _)

/-- C119: `normalized(k)` and `normalize(k)` of a non-null vector: every coordinate has a relative error of at most
five units, and the length of the result is `|k|` up to that factor. -/
theorem C119_normalized3 (b : Vec3 ℝ) (hb : b ≠ ⟨0, 0, 0⟩) (k : ℝ) :
    ∃ w : Vec3 ℝ, (Vec3.num b : Vec3 (Fl ℝ rnd)).normalized (.num k) = Vec3.num w ∧
      ((Vec3.num b : Vec3 (Fl ℝ rnd)).normalize (.num k)).1 = Vec3.num w ∧
      (let l := √(b.x ^ 2 + b.y ^ 2 + b.z ^ 2)
       |w.x - b.x * (k / l)| ≤ gam u 5 * |b.x * (k / l)| ∧ |w.y - b.y * (k / l)| ≤ gam u 5 * |b.y * (k / l)| ∧
       |w.z - b.z * (k / l)| ≤ gam u 5 * |b.z * (k / l)|) ∧
      (1 - u) ^ 5 * |k| ≤ √(w.x ^ 2 + w.y ^ 2 + w.z ^ 2) ∧ √(w.x ^ 2 + w.y ^ 2 + w.z ^ 2) ≤ |k| / (1 - u) ^ 5 := by
  have h0 := (C119_null hr ⟨0, 0⟩ b).2
  rw [decide_eq_false hb] at h0
  have hl := Vec3.rel_length hr b
  have hpos : 0 < √(b.x * b.x + b.y * b.y + b.z * b.z) := by
    have := hl.ne_zero hr
    rw [h0] at this
    exact lt_of_le_of_ne (Real.sqrt_nonneg _) fun h => by simp [← h] at this
  have hc : Rel u 4 (k / √(b.x * b.x + b.y * b.y + b.z * b.z))
      (.num k / (Vec3.num b : Vec3 (Fl ℝ rnd)).length) := Rel.div hr (Rel.exact hr k) hl hpos.ne'
  obtain ⟨p, hp, ep⟩ := Rel.mul hr (Rel.exact hr b.x) hc (k := 5)
  obtain ⟨q, hq, eq⟩ := Rel.mul hr (Rel.exact hr b.y) hc (k := 5)
  obtain ⟨r, hs, er⟩ := Rel.mul hr (Rel.exact hr b.z) hc (k := 5)
  have hlen := fac_len hr (k := k) hpos (w := 0) (x := b.x) (y := b.y) (z := b.z) (by
    rw [Real.mul_self_sqrt (add_nonneg (add_nonneg (mul_self_nonneg _) (mul_self_nonneg _)) (mul_self_nonneg _))]
    ring) hp hq hs hs
  rw [show (0 * (k / √(b.x * b.x + b.y * b.y + b.z * b.z)) * r) ^ 2 = 0 by ring, add_zero] at hlen
  simp only [← pow_two] at hlen ep eq er
  refine ⟨⟨_, _, _⟩, ?_, ?_, ⟨fac_coord hr hp, fac_coord hr hq, fac_coord hr hs⟩, hlen⟩
  · simp only [Vec3.normalized, h0, Bool.false_eq_true, if_false]
    simp only [Vec3.num] at ep eq er ⊢
    rw [ep, eq, er]
  · simp only [Vec3.normalize, h0, Bool.false_eq_true, if_false]
    simp only [Vec3.num] at ep eq er ⊢
    rw [ep, eq, er]

theorem C119_normalized2 (b : Vec2 ℝ) (hb : b ≠ ⟨0, 0⟩) (k : ℝ) :
    ∃ w v : Vec2 ℝ, (Vec2.num b : Vec2 (Fl ℝ rnd)).normalized (.num k) = Vec2.num w ∧
      ((Vec2.num b : Vec2 (Fl ℝ rnd)).normalize (.num k)).1 = Vec2.num v ∧ ∀ c ∈ [w, v],
      (let l := √(b.x ^ 2 + b.y ^ 2)
       |c.x - b.x * (k / l)| ≤ gam u 4 * |b.x * (k / l)| ∧ |c.y - b.y * (k / l)| ≤ gam u 4 * |b.y * (k / l)|) ∧
      (1 - u) ^ 4 * |k| ≤ √(c.x ^ 2 + c.y ^ 2) ∧ √(c.x ^ 2 + c.y ^ 2) ≤ |k| / (1 - u) ^ 4 := by
  have h0 := (C119_null hr b ⟨0, 0, 0⟩).1
  rw [decide_eq_false hb] at h0
  have hl := Vec2.rel_length hr b
  have hpos : 0 < √(b.x * b.x + b.y * b.y) := by
    have := hl.ne_zero hr
    rw [h0] at this
    exact lt_of_le_of_ne (Real.sqrt_nonneg _) fun h => by simp [← h] at this
  have hc : Rel u 3 (k / √(b.x * b.x + b.y * b.y))
      (.num k / (Vec2.num b : Vec2 (Fl ℝ rnd)).length) := Rel.div hr (Rel.exact hr k) hl hpos.ne'
  have hd : ∀ x : ℝ, Rel u 4 (x * (k / √(b.x * b.x + b.y * b.y)))
      (.num x * .num k / (Vec2.num b : Vec2 (Fl ℝ rnd)).length) := fun x => by
    rw [← mul_div_assoc]
    exact Rel.div hr (Rel.mul hr (Rel.exact hr x) (Rel.exact hr k) (k := 1)) hl hpos.ne'
  obtain ⟨p, hp, ep⟩ := Rel.mul hr (Rel.exact hr b.x) hc (k := 4)
  obtain ⟨q, hq, eq⟩ := Rel.mul hr (Rel.exact hr b.y) hc (k := 4)
  obtain ⟨p', hp', ep'⟩ := hd b.x
  obtain ⟨q', hq', eq'⟩ := hd b.y
  have hlen : ∀ {p q : ℝ}, Fac u 4 p → Fac u 4 q → _ := fun {p q} hp hq =>
    fac_len hr (k := k) hpos (z := 0) (w := 0) (x := b.x) (y := b.y) (by
      rw [Real.mul_self_sqrt (add_nonneg (mul_self_nonneg _) (mul_self_nonneg _))]
      ring) hp hq hp hq
  have z0 : ∀ p : ℝ, (0 * (k / √(b.x * b.x + b.y * b.y)) * p) ^ 2 = 0 := fun p => by ring
  simp only [z0, add_zero] at hlen
  simp only [← pow_two] at hlen ep eq ep' eq'
  refine ⟨⟨b.x * (k / √(b.x ^ 2 + b.y ^ 2)) * p', b.y * (k / √(b.x ^ 2 + b.y ^ 2)) * q'⟩,
    ⟨b.x * (k / √(b.x ^ 2 + b.y ^ 2)) * p, b.y * (k / √(b.x ^ 2 + b.y ^ 2)) * q⟩, ?_, ?_, fun c hcm => ?_⟩
  rotate_left 2
  · simp only [List.mem_cons, List.not_mem_nil, or_false] at hcm
    rcases hcm with rfl | rfl
    · exact ⟨⟨fac_coord hr hp', fac_coord hr hq'⟩, hlen hp' hq'⟩
    · exact ⟨⟨fac_coord hr hp, fac_coord hr hq⟩, hlen hp hq⟩
  · simp only [Vec2.normalized, h0, Bool.false_eq_true, if_false]
    simp only [Vec2.num] at ep' eq' ⊢
    rw [ep', eq']
  · simp only [Vec2.normalize, h0, Bool.false_eq_true, if_false]
    simp only [Vec2.num] at ep eq ⊢
    rw [ep, eq]

/-- C119: `Quat::normalize` of a non-zero quaternion. -/
theorem C119_quat (q : Quat ℝ) (hq : q ≠ ⟨0, 0, 0, 0⟩) :
    ∃ w : Quat ℝ, (Quat.num q : Quat (Fl ℝ rnd)).normalize = Quat.num w ∧
      (let l := √(q.x ^ 2 + q.y ^ 2 + q.z ^ 2 + q.w ^ 2)
       |w.x - q.x / l| ≤ gam u 5 * |q.x / l| ∧ |w.y - q.y / l| ≤ gam u 5 * |q.y / l| ∧
       |w.z - q.z / l| ≤ gam u 5 * |q.z / l| ∧ |w.w - q.w / l| ≤ gam u 5 * |q.w / l|) ∧
      (1 - u) ^ 5 ≤ √(w.x ^ 2 + w.y ^ 2 + w.z ^ 2 + w.w ^ 2) ∧
      √(w.x ^ 2 + w.y ^ 2 + w.z ^ 2 + w.w ^ 2) ≤ 1 / (1 - u) ^ 5 := by
  have hl := rel_length4 hr q.x q.y q.z q.w
  have hs0 : 0 ≤ q.x * q.x + q.y * q.y + q.z * q.z + q.w * q.w :=
    add_nonneg (add_nonneg (add_nonneg (mul_self_nonneg _) (mul_self_nonneg _)) (mul_self_nonneg _))
      (mul_self_nonneg _)
  have hpos : 0 < √(q.x * q.x + q.y * q.y + q.z * q.z + q.w * q.w) := by
    rw [Real.sqrt_pos]
    refine lt_of_le_of_ne hs0 fun h => hq ?_
    obtain ⟨x, y, z, w⟩ := q
    simp only [Quat.mk.injEq] at h ⊢
    refine ⟨?_, ?_, ?_, ?_⟩ <;>
      nlinarith [mul_self_nonneg x, mul_self_nonneg y, mul_self_nonneg z, mul_self_nonneg w]
  have h0 := hl.ne_zero hr
  rw [decide_eq_false hpos.ne'] at h0
  have hc := Rel.div hr (Rel.exact hr 1) hl hpos.ne' (k := 4)
  obtain ⟨p, hp, ep⟩ := Rel.mul hr (Rel.exact hr q.x) hc (k := 5)
  obtain ⟨p2, hp2, ep2⟩ := Rel.mul hr (Rel.exact hr q.y) hc (k := 5)
  obtain ⟨p3, hp3, ep3⟩ := Rel.mul hr (Rel.exact hr q.z) hc (k := 5)
  obtain ⟨p4, hp4, ep4⟩ := Rel.mul hr (Rel.exact hr q.w) hc (k := 5)
  have hlen := fac_len hr (k := 1) hpos (x := q.x) (y := q.y) (z := q.z) (w := q.w)
    (by rw [Real.mul_self_sqrt hs0]) hp hp2 hp3 hp4
  rw [abs_one, mul_one] at hlen
  have hd : ∀ x l : ℝ, x * (1 / l) = x / l := fun x l => by ring
  rw [hd] at ep ep2 ep3 ep4
  simp only [hd, ← pow_two] at hlen
  refine ⟨⟨_, _, _, _⟩, ?_, ?_, hlen⟩
  · simp only [Quat.normalize, Quat.num, h0, Bool.false_eq_true, if_false]
    rw [Fl.one_def, ep, ep2, ep3, ep4]
    simp only [← pow_two]
  · exact ⟨fac_coord hr hp, fac_coord hr hp2, fac_coord hr hp3, fac_coord hr hp4⟩

end rel

/-- The hypotheses hold for `float` and `double` significands. -/
example : IsRel (rne 24) (2 ^ (-24 : ℤ)) ∧ IsRel (rne 53) (2 ^ (-53 : ℤ)) ∧ gam (2 ^ (-24 : ℤ)) 5 ≤ 3 / 10 ^ 7 ∧
    (⟨3, 4, 0⟩ : Vec3 ℝ) ≠ ⟨0, 0, 0⟩ := by
  refine ⟨by exact_mod_cast isRel_rne 24 (by norm_num), by exact_mod_cast isRel_rne 53 (by norm_num), ?_, ?_⟩
  · exact (gam_le (by norm_num) (by norm_num)).trans (by norm_num)
  · simp

end MathLib
