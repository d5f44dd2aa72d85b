import Verif.Proof.RelErr
import Verif.Proof.BallLine
import Verif.Model.Vec
import Verif.Props.Vectors
import Verif.Props.Rounding

/-! # Property C179: where two lines cross, in floating point -/

namespace MathLib

/-- the determinant of two vectors with its terms taken absolutely: what rounding errors are measured by -/
def absDet (v w : Vec2 ℝ) : ℝ := |v.x * w.y| + |v.y * w.x|

section
variable {rnd : ℝ → ℝ} {u : ℝ}

private theorem det_err (hr : IsRel rnd u) (a b c d : Vec2 ℝ) :
    AbsErr u 4 (absDet (b - a) (d - c)) ((b - a).cross (d - c))
      ((Vec2.num b - Vec2.num a : Vec2 (Fl ℝ rnd)).cross (Vec2.num d - Vec2.num c)) := by
  have s := fun x y : ℝ => AbsErr.of_rel hr (Rel.sub hr x y)
  have h := ((s b.x a.x).mul hr (s d.y c.y) (k := 3)).sub hr ((s b.y a.y).mul hr (s d.x c.x) (k := 3)) (k := 4)
  rw [← abs_mul, ← abs_mul] at h
  exact h

private theorem quot {N D n d A B : ℝ} (hr : IsRel rnd u) (hu : u ≤ 1 / 4096) (hA : |N| ≤ A) (hB : |D| ≤ B) (hn : |n - N| ≤ gam u 4 * A)
    (hd : |d - D| ≤ gam u 4 * B) (h : 8.1 * u * B < |D|) :
    d ≠ 0 ∧ |rnd (n / d) - N / D| ≤ 9.1 * u * ((A + |N / D| * B) / |D|) := by
  have u0 := hr.nonneg
  obtain ⟨g1, g0⟩ := BallLine.gam_small u0 hu 4 (by norm_num)
  push_cast at g1
  have A0 := (abs_nonneg _).trans hA
  have B0 := (abs_nonneg _).trans hB
  have uB := mul_nonneg u0 B0
  have D0 : 0 < |D| := lt_of_le_of_lt (by linarith) h
  have hD : D ≠ 0 := abs_pos.1 D0
  have eB : gam u 4 * B ≤ 4.0137 * u * B := mul_le_mul_of_nonneg_right (by linarith) B0
  have eA : gam u 4 * A ≤ 4.0137 * u * A := mul_le_mul_of_nonneg_right (by linarith) A0
  have hd2 : |D| / 2 < |d| := by
    have := abs_sub_abs_le_abs_sub D d
    rw [abs_sub_comm] at this; linarith
  have d0 : d ≠ 0 := abs_pos.1 (by linarith)
  refine ⟨d0, ?_⟩
  have e1 : n / d - N / D = ((n - N) - N / D * (d - D)) / d := by field_simp; ring
  set L := |N / D| with hL
  have L0 : 0 ≤ L := abs_nonneg _
  have LB := mul_nonneg L0 B0
  have hT : |(n - N) - N / D * (d - D)| ≤ 4.0137 * u * (A + L * B) := by
    refine (abs_sub _ _).trans ?_
    rw [abs_mul, ← hL]
    have := mul_le_mul_of_nonneg_left (hd.trans eB) L0
    linarith
  have T0 : 0 ≤ 4.0137 * u * (A + L * B) := (abs_nonneg _).trans hT
  have e2 : |n / d - N / D| ≤ 8.0274 * u * ((A + L * B) / |D|) := by
    rw [e1, abs_div, div_le_iff₀ (abs_pos.2 d0)]
    refine hT.trans ?_
    have : 8.0274 * u * ((A + L * B) / |D|) * (|D| / 2) ≤ 8.0274 * u * ((A + L * B) / |D|) * |d| :=
      mul_le_mul_of_nonneg_left hd2.le (by positivity)
    refine le_trans (le_of_eq ?_) this
    field_simp; norm_num; ring
  set Q := (A + L * B) / |D| with hQ
  have LQ : L ≤ Q := by
    rw [hQ, le_div_iff₀ D0]
    have := mul_le_mul_of_nonneg_left hB L0
    linarith
  have Q0 := L0.trans LQ
  have e3 := hr.err (n / d)
  have e4 : |n / d| ≤ L + 8.0274 * u * Q := by
    have := abs_sub_abs_le_abs_sub (n / d) (N / D); linarith
  have e5 := mul_le_mul_of_nonneg_left e4 u0
  have e6 := abs_sub_le (rnd (n / d)) (n / d) (N / D)
  have e7 := mul_le_mul_of_nonneg_left LQ u0
  have e8 : u * (u * Q) ≤ 1 / 4096 * (u * Q) := mul_le_mul_of_nonneg_right hu (mul_nonneg u0 Q0)
  have uQ := mul_nonneg u0 Q0
  nlinarith

/-- C179, what holds of the claim that `intersection` finds the crossing of two lines: if the determinant of the directions is larger than
its rounding error, it does, and the parameters are right up to nine roundings, magnified by how nearly parallel the lines are.  Missing:
lines more nearly parallel than that; see `C179_refuted`. -/
theorem C179_crossing_partial (hr : IsRel rnd u) (hu : u ≤ 1 / 4096) (p q a b : Vec2 ℝ)
    (h : 8.1 * u * absDet (q - p) (b - a) < |(q - p).cross (b - a)|) :
    ∃ s t S T : ℝ, Vec2.intersection (Vec2.num p) (Vec2.num q) (Vec2.num a) (Vec2.num b : Vec2 (Fl ℝ rnd)) = (1, .num s, .num t) ∧
      p + (q - p) * S = a + (b - a) * T ∧
      |s - S| ≤ 9.1 * u * ((absDet (a - p) (b - a) + |S| * absDet (q - p) (b - a)) / |(q - p).cross (b - a)|) ∧
      |t - T| ≤ 9.1 * u * ((absDet (a - p) (q - p) + |T| * absDet (q - p) (b - a)) / |(q - p).cross (b - a)|) := by
  obtain ⟨hB, d, ed, hd⟩ := det_err hr p q a b
  obtain ⟨hA, n, en, hn⟩ := det_err hr p a a b
  obtain ⟨hC, m, em, hm⟩ := det_err hr p a p q
  obtain ⟨d0, h1⟩ := quot hr hu hA hB hn hd h
  obtain ⟨-, h2⟩ := quot hr hu hC hB hm hd h
  have hD : (q - p).cross (b - a) ≠ 0 := abs_pos.1 (lt_of_le_of_lt (mul_nonneg (by linarith [hr.nonneg]) ((abs_nonneg _).trans hB)) h)
  refine ⟨_, _, _, _, ?_, ?_, h1, h2⟩
  · unfold Vec2.intersection
    unfold Vec2.cross at ed en em
    simp only [ed, en, em]
    rw [if_neg (by rw [Fl.zero_def, Fl.num_beq]; simpa using d0), Fl.num_div, Fl.num_div, if_neg d0, if_neg d0]
  · obtain ⟨D, eD⟩ : ∃ D, D = (q - p).cross (b - a) := ⟨_, rfl⟩
    rw [← eD] at hD ⊢
    simp only [Vec2.cross, Vec2.sub_x, Vec2.sub_y] at eD
    ext <;> simp only [Vec2.add_x, Vec2.add_y, Vec2.mul_x, Vec2.mul_y, Vec2.cross, Vec2.sub_x, Vec2.sub_y] <;> field_simp <;> rw [eD] <;> ring

end

/-- C179: lines that are parallel are found to be so whenever the four differences of coordinates are representable, whatever the rounding. -/
theorem C179_parallel {K : Type} [Field K] [LinearOrder K] [IsStrictOrderedRing K] {rnd : K → K} (h0 : rnd 0 = 0) (p q a b : Vec2 K)
    (hx : rnd (q.x - p.x) = q.x - p.x ∧ rnd (q.y - p.y) = q.y - p.y) (hy : rnd (b.x - a.x) = b.x - a.x ∧ rnd (b.y - a.y) = b.y - a.y)
    (h : (q - p).cross (b - a) = 0) :
    Vec2.intersection (Vec2.num p) (Vec2.num q) (Vec2.num a) (Vec2.num b : Vec2 (Fl K rnd)) = (0, 0, 0) := by
  have e : (q.x - p.x) * (b.y - a.y) = (q.y - p.y) * (b.x - a.x) := sub_eq_zero.1 h
  unfold Vec2.intersection
  simp only [Vec2.sub_x, Vec2.sub_y, Vec2.num, Fl.num_sub, Fl.num_mul, hx.1, hx.2, hy.1, hy.2, e, sub_self, h0]
  rw [if_pos (by rw [Fl.zero_def, Fl.num_beq]; simp)]

/-- C179 is false for `float`: the parallel lines from `(-2^-24,0)` to `(1,1)` and from `(-3,0)` to `(3 * 2^-24,3)` are said to cross; and
the lines from `(0,0)` to `(1 + 2^-23,1)` and from `(1,0)` to `(2,1 - 2^-23)`, which are not parallel, are said to be. -/
theorem C179_refuted :
    ((Vec2.mk (1 : ℚ) 1 - ⟨-1 / 2 ^ 24, 0⟩).cross (⟨3 / 2 ^ 24, 3⟩ - ⟨-3, 0⟩) = 0 ∧
      (Vec2.intersection (Vec2.num ⟨-1 / 2 ^ 24, 0⟩) (Vec2.num ⟨1, 1⟩) (Vec2.num ⟨-3, 0⟩) (Vec2.num ⟨3 / 2 ^ 24, 3⟩ : Vec2 F32)).1 = 1) ∧
    ((Vec2.mk (1 + 1 / 2 ^ 23 : ℚ) 1 - ⟨0, 0⟩).cross (⟨2, 1 - 1 / 2 ^ 23⟩ - ⟨1, 0⟩) ≠ 0 ∧
      (Vec2.intersection (Vec2.num ⟨0, 0⟩) (Vec2.num ⟨1 + 1 / 2 ^ 23, 1⟩) (Vec2.num ⟨1, 0⟩) (Vec2.num ⟨2, 1 - 1 / 2 ^ 23⟩ : Vec2 F32)).1 = 0) := by
  decide +kernel

/-- the diagonals of a square in `float` -/
example : ∃ s t S T : ℝ, Vec2.intersection (Vec2.num ⟨0, 0⟩) (Vec2.num ⟨2, 2⟩) (Vec2.num ⟨0, 2⟩) (Vec2.num ⟨2, 0⟩ : Vec2 (Fl ℝ (rne 24))) =
    (1, .num s, .num t) ∧
      (Vec2.mk 0 0 : Vec2 ℝ) + ((Vec2.mk 2 2 : Vec2 ℝ) - Vec2.mk 0 0) * S = (Vec2.mk 0 2 : Vec2 ℝ) + ((Vec2.mk 2 0 : Vec2 ℝ) - Vec2.mk 0 2) * T := by
  have hr := isRel_rne 24 (by norm_num)
  obtain ⟨s, t, S, T, h, h', -⟩ := C179_crossing_partial hr (by norm_num) ⟨0, 0⟩ ⟨2, 2⟩ ⟨0, 2⟩ ⟨2, 0⟩ (by
    norm_num [absDet, Vec2.cross])
  exact ⟨s, t, S, T, h, h'⟩

/-- two parallel lines in `float` -/
example : Vec2.intersection (Vec2.num ⟨0, 0⟩) (Vec2.num ⟨2, 4⟩) (Vec2.num ⟨0, 1⟩) (Vec2.num ⟨1, 3⟩ : Vec2 F32) = (0, 0, 0) :=
  C179_parallel (rnd := rne 24) (rne_zero 24) ⟨0, 0⟩ ⟨2, 4⟩ ⟨0, 1⟩ ⟨1, 3⟩ (by decide +kernel) (by decide +kernel) (by decide +kernel)

end MathLib
