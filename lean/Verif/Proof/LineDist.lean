import Verif.Proof.BallLine
import Verif.Props.Lines
import Verif.Props.RoundedVectors

/-! # Proofs for C167: the distance of a point from a line, rounded -/

namespace MathLib
namespace LineDist
variable {rnd : ℝ → ℝ} {u : ℝ}

/-- the length of a vector -/
noncomputable def nm (v : Vec3 ℝ) : ℝ := √(v.x ^ 2 + v.y ^ 2 + v.z ^ 2)

theorem nm_nonneg (v : Vec3 ℝ) : 0 ≤ nm v := Real.sqrt_nonneg _
theorem nm_sq (v : Vec3 ℝ) : nm v ^ 2 = v.x ^ 2 + v.y ^ 2 + v.z ^ 2 := Real.sq_sqrt (by positivity)
theorem nm_eq (v : Vec3 ℝ) : nm v = ‖v.toE‖ := by
  rw [EuclideanSpace.norm_eq, Fin.sum_univ_three]
  simp [nm, Vec3.toE, Vec3.toFn]
theorem nm_add (v w : Vec3 ℝ) : nm (v + w) ≤ nm v + nm w := by
  have : (v + w).toE = v.toE + w.toE := by
    ext i; fin_cases i <;> simp [Vec3.toE, Vec3.toFn]
  rw [nm_eq, nm_eq, nm_eq, this]
  exact norm_add_le _ _
theorem nm_neg (v w : Vec3 ℝ) : nm (v - w) = nm (w - v) := by
  unfold nm; congr 1; simp only [Vec3.sub_x, Vec3.sub_y, Vec3.sub_z]; ring
theorem nm_near (v w : Vec3 ℝ) : |nm v - nm w| ≤ nm (v - w) := by
  have h1 := nm_add (v - w) w
  have h2 := nm_add (w - v) v
  rw [nm_neg w v] at h2
  have e1 : v - w + w = v := by ext <;> simp
  have e2 : w - v + v = w := by ext <;> simp
  rw [e1] at h1
  rw [e2] at h2
  rw [abs_le]; constructor <;> linarith
theorem dot_le (v w : Vec3 ℝ) : |v.dot w| ≤ nm v * nm w := by
  apply abs_le_of_sq_le_sq _ (mul_nonneg (nm_nonneg _) (nm_nonneg _))
  rw [mul_pow, nm_sq, nm_sq]
  simp only [Vec3.dot]
  nlinarith [sq_nonneg (v.x * w.y - v.y * w.x), sq_nonneg (v.y * w.z - v.z * w.y), sq_nonneg (v.z * w.x - v.x * w.z)]
theorem cross_sq (v w : Vec3 ℝ) : nm (v.cross w) ^ 2 + v.dot w ^ 2 = (nm v * nm w) ^ 2 := by
  rw [mul_pow, nm_sq, nm_sq, nm_sq]
  simp only [Vec3.cross, Vec3.dot]
  ring
theorem cross_le (v w : Vec3 ℝ) : nm (v.cross w) ≤ nm v * nm w := by
  apply le_of_sq_le_sq _ (mul_nonneg (nm_nonneg _) (nm_nonneg _))
  nlinarith [cross_sq v w, sq_nonneg (v.dot w)]
theorem nm_comp {v w : Vec3 ℝ} {c : ℝ} (hc : 0 ≤ c) (hx : |v.x| ≤ c * |w.x|) (hy : |v.y| ≤ c * |w.y|) (hz : |v.z| ≤ c * |w.z|) :
    nm v ≤ c * nm w := by
  apply le_of_sq_le_sq _ (mul_nonneg hc (nm_nonneg _))
  rw [mul_pow, nm_sq, nm_sq]
  have f : ∀ {a b : ℝ}, |a| ≤ c * |b| → a ^ 2 ≤ c ^ 2 * b ^ 2 := fun {a b} h => by
    have := pow_le_pow_left₀ (abs_nonneg a) h 2
    rwa [mul_pow, sq_abs, sq_abs] at this
  linarith [f hx, f hy, f hz]

/-- pure geometry: a normal computed through two inexact vector products -/
theorem core {E D N n : Vec3 ℝ} {α h : ℝ} (hα : 0 ≤ α) (hD : 0 < nm D) (h1 : nm (N - E.cross D) ≤ α * (nm E * nm D))
    (h2 : nm (n - D.cross N) ≤ α * (nm D * nm N)) (hh : 6 * α * nm E ≤ h) (hpos : 0 < h) (e : nm (E.cross D) = h * nm D) :
    0 < nm n ∧ |n.dot E / nm n - h| ≤ 7 * α * nm E := by
  set a := nm E with ha
  set b := nm D with hb
  set X := N - E.cross D with hX
  set ε := n - D.cross N with hε
  have a0 : 0 ≤ a := nm_nonneg _
  have aa : 0 ≤ α * a := mul_nonneg hα a0
  have hN : nm N ≤ 7 / 6 * h * b := by
    have q := nm_add X (E.cross D)
    have e1 : X + E.cross D = N := by rw [hX]; ext <;> simp
    rw [e1, e] at q
    nlinarith
  have hε' : nm ε ≤ α * (b * (7 / 6 * h * b)) :=
    h2.trans (mul_le_mul_of_nonneg_left (mul_le_mul_of_nonneg_left hN hD.le) hα)
  have hG : nm (D.cross (E.cross D)) = b ^ 2 * h := by
    have q := cross_sq D (E.cross D)
    have z : D.dot (E.cross D) = 0 := by simp only [Vec3.dot, Vec3.cross]; ring
    rw [z, e] at q
    have q : nm (D.cross (E.cross D)) ^ 2 = (b ^ 2 * h) ^ 2 := by linear_combination q
    exact (pow_left_inj₀ (nm_nonneg _) (by positivity) two_ne_zero).1 q
  have hha : h ≤ a := by
    have := cross_le E D
    rw [e] at this
    exact le_of_mul_le_mul_right this hD
  have hn : |nm n - b ^ 2 * h| ≤ 13 / 6 * (α * a) * b ^ 2 := by
    rw [← hG]
    refine (nm_near _ _).trans ?_
    have e1 : n - D.cross (E.cross D) = D.cross X + ε := by
      rw [hX, hε]; ext <;> simp [Vec3.cross] <;> ring
    rw [e1]
    have q1 := nm_add (D.cross X) ε
    have q2 := (cross_le D X).trans (mul_le_mul_of_nonneg_left h1 hD.le)
    rw [← hb] at q2
    have q3 : α * (b * (7 / 6 * h * b)) ≤ α * (b * (7 / 6 * a * b)) := by gcongr
    nlinarith
  have hdot : |n.dot E - b ^ 2 * h ^ 2| ≤ 13 / 6 * (α * a) * b ^ 2 * h := by
    have e1 : n.dot E - b ^ 2 * h ^ 2 = X.dot (E.cross D) + ε.dot E := by
      have q : (E.cross D).dot (E.cross D) = b ^ 2 * h ^ 2 := by
        have := nm_sq (E.cross D)
        rw [e] at this
        simp only [Vec3.dot]
        linear_combination -this
      rw [← q, hX, hε]
      simp only [Vec3.dot, Vec3.cross, Vec3.sub_x, Vec3.sub_y, Vec3.sub_z]
      ring
    rw [e1]
    have q1 := dot_le X (E.cross D)
    have q2 := dot_le ε E
    have q3 := abs_add_le (X.dot (E.cross D)) (ε.dot E)
    rw [e] at q1
    have q4 : nm X * (h * b) ≤ α * (a * b) * (h * b) := mul_le_mul_of_nonneg_right h1 (by positivity)
    have q5 : nm ε * a ≤ α * (b * (7 / 6 * h * b)) * a := mul_le_mul_of_nonneg_right hε' a0
    rw [← ha] at q2
    nlinarith
  have b2 : 0 < b ^ 2 := by positivity
  have hn0 : 23 / 36 * (b ^ 2 * h) ≤ nm n := by
    have q := (abs_le.1 hn).1
    have : 13 / 6 * (α * a) * b ^ 2 ≤ 13 / 36 * h * b ^ 2 := by
      apply mul_le_mul_of_nonneg_right _ b2.le
      linarith
    linarith
  have hbh : 0 < b ^ 2 * h := by positivity
  have hn1 : 0 < nm n := by linarith
  refine ⟨hn1, ?_⟩
  rw [div_sub' hn1.ne', abs_div, abs_of_pos hn1, div_le_iff₀ hn1]
  have e2 : n.dot E - nm n * h = (n.dot E - b ^ 2 * h ^ 2) - (nm n - b ^ 2 * h) * h := by ring
  rw [e2]
  have q1 := abs_sub (n.dot E - b ^ 2 * h ^ 2) ((nm n - b ^ 2 * h) * h)
  rw [abs_mul, abs_of_pos hpos] at q1
  have q2 := mul_le_mul_of_nonneg_right hn hpos.le
  have q3 : 7 * α * a * (23 / 36 * (b ^ 2 * h)) ≤ 7 * α * a * nm n := mul_le_mul_of_nonneg_left hn0 (by linarith)
  have q4 : 0 ≤ α * a * (b ^ 2 * h) := mul_nonneg aa hbh.le
  nlinarith

/-- how the distance depends on the direction -/
theorem turn {e d D : Vec3 ℝ} {β : ℝ} (hβ : 0 ≤ β) (hβ1 : β ≤ 1 / 100) (hd : 0 < nm d) (h : nm (D - d) ≤ β * nm d) :
    0 < nm D ∧ |nm (e.cross D) / nm D - nm (e.cross d) / nm d| ≤ 2.03 * β * nm e := by
  have h1 := (nm_near D d).trans h
  have hD : 99 / 100 * nm d ≤ nm D := by
    have := (abs_le.1 h1).1
    have := mul_le_mul_of_nonneg_right hβ1 hd.le
    linarith
  have hD0 : 0 < nm D := by linarith
  refine ⟨hD0, ?_⟩
  have h2 : |nm (e.cross D) - nm (e.cross d)| ≤ nm e * (β * nm d) := by
    refine (nm_near _ _).trans ?_
    have : e.cross D - e.cross d = e.cross (D - d) := by ext <;> simp [Vec3.cross] <;> ring
    rw [this]
    exact (cross_le _ _).trans (mul_le_mul_of_nonneg_left h (nm_nonneg _))
  rw [div_sub_div _ _ hD0.ne' hd.ne', abs_div, abs_of_pos (mul_pos hD0 hd), div_le_iff₀ (mul_pos hD0 hd)]
  have e1 : nm (e.cross D) * nm d - nm D * nm (e.cross d) =
      (nm (e.cross D) - nm (e.cross d)) * nm d - (nm D - nm d) * nm (e.cross d) := by ring
  rw [e1]
  have q1 := abs_sub ((nm (e.cross D) - nm (e.cross d)) * nm d) ((nm D - nm d) * nm (e.cross d))
  rw [abs_mul, abs_mul, abs_of_pos hd, abs_of_nonneg (nm_nonneg (e.cross d))] at q1
  have q2 := mul_le_mul_of_nonneg_right h2 hd.le
  have q3 := mul_le_mul h1 (cross_le e d) (nm_nonneg _) (mul_nonneg hβ hd.le)
  have q4 : 0 ≤ β * nm e * nm d := mul_nonneg (mul_nonneg hβ (nm_nonneg _)) hd.le
  have q5 := mul_le_mul_of_nonneg_left hD q4
  nlinarith

/-- moving the point by `δ` changes its distance by no more -/
theorem shift {e E D : Vec3 ℝ} (hD : 0 < nm D) : |nm (E.cross D) / nm D - nm (e.cross D) / nm D| ≤ nm (E - e) := by
  rw [← sub_div, abs_div, abs_of_pos hD, div_le_iff₀ hD]
  refine (nm_near _ _).trans ?_
  have : E.cross D - e.cross D = (E - e).cross D := by ext <;> simp [Vec3.cross] <;> ring
  rw [this]
  exact cross_le _ _

/-- the distance from a line, by a formula -/
theorem dist_eq {s d p : Vec3 ℝ} {h : ℝ} (hd : 0 < nm d) (H : IsLineDist3 s d p h) : h = nm ((p - s).cross d) / nm d := by
  have key : ∀ t : ℝ, dist (s + d * t).toE p.toE ^ 2 = (nm ((p - s).cross d) / nm d) ^ 2 + ((p - s).dot d / nm d - t * nm d) ^ 2 := by
    intro t
    have q := cross_sq (p - s) d
    rw [Vec3.dist_toE, Real.sq_sqrt (by positivity)]
    rw [div_pow]
    have q' : nm ((p - s).cross d) ^ 2 = (nm (p - s) * nm d) ^ 2 - (p - s).dot d ^ 2 := by linarith
    rw [q']
    have : ((nm (p - s) * nm d) ^ 2 - (p - s).dot d ^ 2) / nm d ^ 2 + ((p - s).dot d / nm d - t * nm d) ^ 2 =
        nm (p - s) ^ 2 - 2 * t * (p - s).dot d + t ^ 2 * nm d ^ 2 := by
      field_simp; ring
    rw [this, nm_sq, nm_sq]
    simp only [Vec3.add_x, Vec3.add_y, Vec3.add_z, Vec3.mul_x, Vec3.mul_y, Vec3.mul_z, Vec3.sub_x, Vec3.sub_y, Vec3.sub_z, Vec3.dot]
    ring
  have hpos : 0 ≤ nm ((p - s).cross d) / nm d := div_nonneg (nm_nonneg _) hd.le
  obtain ⟨⟨t, ht⟩, hl⟩ := H
  apply le_antisymm
  · refine (hl ⟨(p - s).dot d / nm d ^ 2, rfl⟩).trans ?_
    apply le_of_sq_le_sq _ hpos
    rw [key]
    have : (p - s).dot d / nm d - (p - s).dot d / nm d ^ 2 * nm d = 0 := by field_simp; ring
    rw [this]
    simp
  · rw [ht]
    apply le_of_sq_le_sq _ dist_nonneg
    rw [key]
    linarith [sq_nonneg ((p - s).dot d / nm d - t * nm d)]

/-! ## rounded -/

theorem abs_num (v : ℝ) : abs' (.num v : Fl ℝ rnd) = .num |v| := by
  unfold abs'
  rw [Fl.zero_def]
  simp only [Fl.num_lt, Fl.num_neg]
  split_ifs with h
  · rw [abs_of_neg h]
  · rw [abs_of_nonneg (not_lt.1 h)]

section
variable (hr : IsRel rnd u) (hu : u ≤ 1 / 4096)
include hr

theorem cross_err (a b : Vec3 ℝ) : ∃ c : Vec3 ℝ, (Vec3.num a : Vec3 (Fl ℝ rnd)).cross (Vec3.num b) = Vec3.num c ∧
    nm (c - a.cross b) ≤ 3 / 2 * gam u 2 * (nm a * nm b) := by
  have m : ∀ x y : ℝ, AbsErr u 1 (|x| * |y|) (x * y) (.num x * .num y : Fl ℝ rnd) := fun x y =>
    AbsErr.mul hr (AbsErr.exact hr x) (AbsErr.exact hr y)
  obtain ⟨-, cx, ex, hx⟩ := AbsErr.sub (k := 2) hr (m a.y b.z) (m a.z b.y)
  obtain ⟨-, cy, ey, hy⟩ := AbsErr.sub (k := 2) hr (m a.z b.x) (m a.x b.z)
  obtain ⟨-, cz, ez, hz⟩ := AbsErr.sub (k := 2) hr (m a.x b.y) (m a.y b.x)
  have g0 : 0 ≤ gam u 2 := by
    have h1 := hr.lt_one
    have := (one_le_inv₀ (Fac.gpos h1 2)).2 (Fac.gle hr.nonneg h1 2)
    unfold gam; linarith
  refine ⟨⟨cx, cy, cz⟩, ?_, ?_⟩
  · simp only [Vec3.cross, Vec3.num]
    rw [ex, ey, ez]
  · apply le_of_sq_le_sq _ (mul_nonneg (by linarith) (mul_nonneg (nm_nonneg _) (nm_nonneg _)))
    rw [nm_sq, mul_pow, mul_pow (nm a), nm_sq, nm_sq]
    simp only [Vec3.sub_x, Vec3.sub_y, Vec3.sub_z, Vec3.cross]
    have f : ∀ {x A B C D : ℝ}, |x| ≤ gam u 2 * (|A| * |B| + |C| * |D|) → x ^ 2 ≤ gam u 2 ^ 2 * (2 * (A ^ 2 * B ^ 2) + 2 * (C ^ 2 * D ^ 2)) :=
      fun {x A B C D} h => by
        have q := pow_le_pow_left₀ (abs_nonneg x) h 2
        rw [sq_abs, mul_pow] at q
        refine q.trans (mul_le_mul_of_nonneg_left ?_ (sq_nonneg _))
        have e1 : A ^ 2 * B ^ 2 = (|A| * |B|) ^ 2 := by rw [mul_pow, sq_abs, sq_abs]
        have e2 : C ^ 2 * D ^ 2 = (|C| * |D|) ^ 2 := by rw [mul_pow, sq_abs, sq_abs]
        rw [e1, e2]
        nlinarith [sq_nonneg (|A| * |B| - |C| * |D|)]
    have q := add_le_add (add_le_add (f hx) (f hy)) (f hz)
    refine q.trans ?_
    have hp : 0 ≤ gam u 2 ^ 2 := sq_nonneg _
    have e : (3 / 2 * gam u 2) ^ 2 * ((a.x ^ 2 + a.y ^ 2 + a.z ^ 2) * (b.x ^ 2 + b.y ^ 2 + b.z ^ 2)) =
        gam u 2 ^ 2 * (9 / 4 * ((a.x ^ 2 + a.y ^ 2 + a.z ^ 2) * (b.x ^ 2 + b.y ^ 2 + b.z ^ 2))) := by ring
    rw [e, ← mul_add, ← mul_add]
    refine mul_le_mul_of_nonneg_left ?_ hp
    nlinarith [mul_nonneg (sq_nonneg a.x) (sq_nonneg b.x), mul_nonneg (sq_nonneg a.y) (sq_nonneg b.y),
      mul_nonneg (sq_nonneg a.z) (sq_nonneg b.z), mul_nonneg (sq_nonneg a.x) (sq_nonneg b.y),
      mul_nonneg (sq_nonneg a.x) (sq_nonneg b.z), mul_nonneg (sq_nonneg a.y) (sq_nonneg b.x),
      mul_nonneg (sq_nonneg a.y) (sq_nonneg b.z), mul_nonneg (sq_nonneg a.z) (sq_nonneg b.x),
      mul_nonneg (sq_nonneg a.z) (sq_nonneg b.y)]

theorem dot_err {w m E : Vec3 ℝ} (hx : |w.x - m.x| ≤ gam u 5 * |m.x|) (hy : |w.y - m.y| ≤ gam u 5 * |m.y|)
    (hz : |w.z - m.z| ≤ gam u 5 * |m.z|) : ∃ v, (Vec3.num w : Vec3 (Fl ℝ rnd)).dot (Vec3.num E) = .num v ∧
      |v - m.dot E| ≤ gam u 8 * (nm m * nm E) := by
  have k : ∀ {x y e : ℝ}, |x - y| ≤ gam u 5 * |y| → AbsErr u 6 (|y| * |e|) (y * e) (.num x * .num e : Fl ℝ rnd) :=
    fun {x y e} h => AbsErr.mul hr (n := 5) (m := 0) ⟨le_rfl, x, rfl, h⟩ (AbsErr.exact hr e)
  obtain ⟨-, v, ev, hv⟩ := AbsErr.add (k := 8) hr (AbsErr.add (k := 7) hr (k (e := E.x) hx) (k (e := E.y) hy)) (k (e := E.z) hz)
  refine ⟨v, ev, hv.trans ?_⟩
  have g0 : 0 ≤ gam u 8 := by
    have h1 := hr.lt_one
    have := (one_le_inv₀ (Fac.gpos h1 8)).2 (Fac.gle hr.nonneg h1 8)
    unfold gam; linarith
  refine mul_le_mul_of_nonneg_left ?_ g0
  have q := (le_abs_self _).trans (dot_le ⟨|m.x|, |m.y|, |m.z|⟩ ⟨|E.x|, |E.y|, |E.z|⟩)
  simpa only [Vec3.dot, nm, sq_abs] using q

omit hr in
theorem nm_pos {v : Vec3 ℝ} (h : v ≠ ⟨0, 0, 0⟩) : 0 < nm v := by
  refine lt_of_le_of_ne (nm_nonneg v) fun e => h ?_
  have q := nm_sq v
  rw [← e] at q
  ext <;> nlinarith [sq_nonneg v.x, sq_nonneg v.y, sq_nonneg v.z]
omit hr in
theorem eq_zero {v : Vec3 ℝ} (h : nm v ≤ 0) : v = ⟨0, 0, 0⟩ := by
  by_contra q
  exact absurd (nm_pos q) (not_lt.2 h)

include hu
/-- the common part of `Line3::distance` and `Ray3::distance`, rounded, for the direction `D` and the difference `E` -/
theorem run (D E : Vec3 ℝ) (x : Fl ℝ rnd) :
    let n := ((Vec3.num D : Vec3 (Fl ℝ rnd)).cross ((Vec3.num E).cross (Vec3.num D))).normalize 1
    ((if n.2 == 0 then x else abs' (n.1.dot (Vec3.num E))) = x ∧
      (0 < nm D → nm (E.cross D) / nm D ≤ 18.1 * u * nm E)) ∨
    ∃ r, (if n.2 == 0 then x else abs' (n.1.dot (Vec3.num E))) = .num r ∧ 0 ≤ r ∧ r ≤ (1 + 8.1 * u) * nm E ∧ 0 < nm D ∧
      (18.1 * u * nm E < nm (E.cross D) / nm D → |r - nm (E.cross D) / nm D| ≤ 29.2 * u * nm E) := by
  intro n
  obtain ⟨N, eN, hN⟩ := cross_err hr E D
  obtain ⟨m, em, hm⟩ := cross_err hr D N
  obtain ⟨g2, g2'⟩ := BallLine.gam_small hr.nonneg hu 2 (by norm_num)
  obtain ⟨g8, g8'⟩ := BallLine.gam_small hr.nonneg hu 8 (by norm_num)
  norm_num at g2 g8
  have hn : n = (Vec3.num m : Vec3 (Fl ℝ rnd)).normalize (.num 1) := by
    simp only [n]; rw [eN, em, Fl.one_def]
  have hE := nm_nonneg E
  have big : 0 < nm D → 18.1 * u * nm E < nm (E.cross D) / nm D → 0 < nm m ∧
      |m.dot E / nm m - nm (E.cross D) / nm D| ≤ 21.1 * u * nm E := by
    intro hD h
    have p0 : 0 ≤ 18.1 * u * nm E := mul_nonneg (mul_nonneg (by norm_num) hr.nonneg) hE
    obtain ⟨c1, c2⟩ := core (h := nm (E.cross D) / nm D) (by linarith) hD hN hm (by
      refine le_trans ?_ h.le
      exact mul_le_mul_of_nonneg_right (by linarith) hE) (p0.trans_lt h) (by field_simp)
    exact ⟨c1, c2.trans (mul_le_mul_of_nonneg_right (by linarith) hE)⟩
  by_cases h0 : m = ⟨0, 0, 0⟩
  · left
    have z := (C119_null hr ⟨0, 0⟩ m).2
    rw [decide_eq_true h0] at z
    have hn2 : (n.2 == 0) = true := by
      rw [hn]
      simp only [Vec3.normalize, z, if_true]
    refine ⟨by rw [hn2, if_pos rfl], fun hD => ?_⟩
    by_contra q
    have := (big hD (not_le.1 q)).1
    rw [h0] at this
    simp [nm] at this
  · right
    have z := (C119_null hr ⟨0, 0⟩ m).2
    rw [decide_eq_false h0] at z
    have hn2 : (n.2 == 0) = false := by
      rw [hn]
      simp only [Vec3.normalize, z, Bool.false_eq_true, if_false]
    have hmp := nm_pos h0
    have hDp : 0 < nm D := by
      refine nm_pos fun hD => h0 ?_
      rw [hD] at hm
      have e1 : m - (⟨0, 0, 0⟩ : Vec3 ℝ).cross N = m := by ext <;> simp [Vec3.cross]
      have e2 : nm (⟨0, 0, 0⟩ : Vec3 ℝ) = 0 := by simp [nm]
      rw [e1, e2, zero_mul, mul_zero] at hm
      exact eq_zero hm
    obtain ⟨w, -, ew, ⟨hx, hy, hz⟩, -⟩ := C119_normalized3 hr m h0 1
    change |w.x - m.x * (1 / nm m)| ≤ _ * |m.x * (1 / nm m)| at hx
    change |w.y - m.y * (1 / nm m)| ≤ _ * |m.y * (1 / nm m)| at hy
    change |w.z - m.z * (1 / nm m)| ≤ _ * |m.z * (1 / nm m)| at hz
    obtain ⟨v, ev, hv⟩ := dot_err hr (w := w) (m := ⟨m.x * (1 / nm m), m.y * (1 / nm m), m.z * (1 / nm m)⟩) (E := E) hx hy hz
    have m1 : nm ⟨m.x * (1 / nm m), m.y * (1 / nm m), m.z * (1 / nm m)⟩ = 1 := by
      have q := nm_sq m
      have : nm ⟨m.x * (1 / nm m), m.y * (1 / nm m), m.z * (1 / nm m)⟩ ^ 2 = 1 ^ 2 := by
        rw [nm_sq]
        simp only
        field_simp
        linarith
      exact (pow_left_inj₀ (nm_nonneg _) zero_le_one two_ne_zero).1 this
    have md : (⟨m.x * (1 / nm m), m.y * (1 / nm m), m.z * (1 / nm m)⟩ : Vec3 ℝ).dot E = m.dot E / nm m := by
      simp only [Vec3.dot]; field_simp
    have mle := dot_le ⟨m.x * (1 / nm m), m.y * (1 / nm m), m.z * (1 / nm m)⟩ E
    rw [m1, one_mul, md] at mle
    rw [m1, one_mul, md] at hv
    have hv' : |v - m.dot E / nm m| ≤ 8.1 * u * nm E := hv.trans (mul_le_mul_of_nonneg_right (by linarith [hr.nonneg]) hE)
    refine ⟨|v|, ?_, abs_nonneg _, ?_, hDp, fun h => ?_⟩
    · rw [hn2, hn, ew, ev, abs_num]; rfl
    · have := abs_sub_abs_le_abs_sub v (m.dot E / nm m)
      linarith
    · obtain ⟨-, c⟩ := big hDp h
      have q : |v - nm (E.cross D) / nm D| ≤ 29.2 * u * nm E := by
        have := abs_sub_le v (m.dot E / nm m) (nm (E.cross D) / nm D)
        linarith
      have p0 : 0 ≤ nm (E.cross D) / nm D := div_nonneg (nm_nonneg _) (nm_nonneg _)
      refine le_trans ?_ q
      have := abs_abs_sub_abs_le v (nm (E.cross D) / nm D)
      rwa [abs_of_nonneg p0] at this

/-- `Ray3::distance` for a direction `D` near `d` -/
theorem whole (s d D p : Vec3 ℝ) {β : ℝ} (hβ : 0 ≤ β) (hβ1 : β ≤ 1 / 100) (hD : nm (D - d) ≤ β * nm d) :
    ∃ r, (⟨Vec3.num s, Vec3.num D⟩ : Ray3 (Fl ℝ rnd)).distance (Vec3.num p) = .num r ∧ 0 ≤ r ∧ r ≤ (1 + 9.2 * u) * nm (p - s) ∧
      ∀ h, IsLineDist3 s d p h → (19.3 * u + 2.03 * β) * nm (p - s) < h → |r - h| ≤ (30.4 * u + 2.03 * β) * nm (p - s) := by
  set E : Vec3 ℝ := ⟨rnd (p.x - s.x), rnd (p.y - s.y), rnd (p.z - s.z)⟩ with hEdef
  have h0 := hr.nonneg
  have he : nm (E - (p - s)) ≤ u * nm (p - s) := by
    refine nm_comp h0 ?_ ?_ ?_ <;> simp only [hEdef, Vec3.sub_x, Vec3.sub_y, Vec3.sub_z] <;> exact hr.err _
  have e0 := nm_nonneg (p - s)
  have hE : nm E ≤ (1 + u) * nm (p - s) := by
    have := (abs_le.1 ((nm_near _ _).trans he)).2
    linarith
  have uE : u * nm E ≤ 1.0003 * (u * nm (p - s)) := by
    have q1 := mul_le_mul_of_nonneg_left hE h0
    have q2 : u * (u * nm (p - s)) ≤ 1 / 4096 * (u * nm (p - s)) := mul_le_mul_of_nonneg_right hu (mul_nonneg h0 e0)
    nlinarith
  have ue := mul_nonneg h0 e0
  have prog : (⟨Vec3.num s, Vec3.num D⟩ : Ray3 (Fl ℝ rnd)).distance (Vec3.num p) =
      (let n := ((Vec3.num D : Vec3 (Fl ℝ rnd)).cross ((Vec3.num E).cross (Vec3.num D))).normalize 1
       if n.2 == 0 then distance3 (Vec3.num s) (Vec3.num p) else abs' (n.1.dot (Vec3.num E))) := rfl
  obtain ⟨g4, g4'⟩ := BallLine.gam_small h0 hu 4 (by norm_num)
  norm_num at g4
  rw [prog]
  rcases run hr hu D E (distance3 (Vec3.num s) (Vec3.num p)) with ⟨h1, h2⟩ | ⟨r, h1, r0, r1, hDp, h2⟩
  · obtain ⟨-, ⟨r, er, hdr⟩, -⟩ := C119_distance hr ⟨0, 0⟩ ⟨0, 0⟩ s p
    have hdr : |r - nm (p - s)| ≤ 4.02 * (u * nm (p - s)) := by
      refine le_trans hdr ?_
      have : gam u 4 * nm (p - s) ≤ 4.02 * u * nm (p - s) := mul_le_mul_of_nonneg_right (by linarith) e0
      rw [← mul_assoc]
      exact this
    have hq := abs_le.1 hdr
    have u1 : u * nm (p - s) ≤ 1 / 4096 * nm (p - s) := mul_le_mul_of_nonneg_right hu e0
    refine ⟨r, h1.trans er, by linarith, by linarith, fun h H hh => ?_⟩
    by_cases hd : d = ⟨0, 0, 0⟩
    · have : h = nm (p - s) := by
        obtain ⟨⟨t, ht⟩, -⟩ := H
        rw [ht, Vec3.dist_toE, hd, nm]
        congr 1
        simp only [Vec3.add_x, Vec3.add_y, Vec3.add_z, Vec3.mul_x, Vec3.mul_y, Vec3.mul_z, Vec3.sub_x, Vec3.sub_y, Vec3.sub_z]
        ring
      rw [this]
      have := mul_nonneg hβ e0
      linarith
    · obtain ⟨t1, t2⟩ := turn (e := p - s) hβ hβ1 (nm_pos hd) hD
      have q := h2 t1
      have t3 := shift (e := p - s) (E := E) t1
      have := dist_eq (nm_pos hd) H
      rw [← this] at t2
      have a2 := abs_le.1 t2
      have a3 := abs_le.1 (t3.trans he)
      exfalso
      linarith
  · refine ⟨r, h1, r0, r1.trans ?_, fun h H hh => ?_⟩
    · linarith
    · have hd : d ≠ ⟨0, 0, 0⟩ := by
        intro hd
        rw [hd] at hD
        have e2 : nm (⟨0, 0, 0⟩ : Vec3 ℝ) = 0 := by simp [nm]
        have e1 : D - ⟨0, 0, 0⟩ = D := by ext <;> simp
        rw [e1, e2, mul_zero] at hD
        linarith
      obtain ⟨t1, t2⟩ := turn (e := p - s) hβ hβ1 (nm_pos hd) hD
      have t3 := shift (e := p - s) (E := E) t1
      have := dist_eq (nm_pos hd) H
      rw [← this] at t2
      have a2 := abs_le.1 t2
      have a3 := abs_le.1 (t3.trans he)
      have q := abs_le.1 (h2 (by linarith))
      rw [abs_le]
      constructor <;> linarith
end

/-! ## in the plane -/

noncomputable def nm2 (x y : ℝ) : ℝ := √(x * x + y * y)

theorem nm2_cs (a b c d : ℝ) : |a| * |b| + |c| * |d| ≤ nm2 a c * nm2 b d := by
  unfold nm2
  rw [← Real.sqrt_mul (add_nonneg (mul_self_nonneg _) (mul_self_nonneg _))]
  apply Real.le_sqrt_of_sq_le
  have e1 : ∀ x : ℝ, x * x = |x| * |x| := fun x => (abs_mul_abs_self x).symm
  rw [e1 a, e1 b, e1 c, e1 d]
  nlinarith [sq_nonneg (|a| * |d| - |c| * |b|)]

theorem dist2_eq {s d p : Vec2 ℝ} {h : ℝ} (hd : 0 < nm2 d.x d.y) (H : IsLineDist2 s d p h) :
    h = |-(d.y * (1 / nm2 d.x d.y)) * (p.x - s.x) + d.x * (1 / nm2 d.x d.y) * (p.y - s.y)| := by
  have q := isLineDist2_scale (c := 1 / nm2 d.x d.y) (s := s) (p := p) (d := d) (by positivity) (isLineDist2_unit (p := p) (s := s) (by
    simp only [Vec2.mul_x, Vec2.mul_y]
    have : nm2 d.x d.y ^ 2 = d.x * d.x + d.y * d.y := Real.sq_sqrt (add_nonneg (mul_self_nonneg _) (mul_self_nonneg _))
    field_simp
    linarith))
  exact H.unique q

section
variable (hr : IsRel rnd u)
include hr

/-- the common part of `Line2::distance` and `Ray2::distance`, for a direction with `n` relative errors -/
theorem dist2_err {n k : ℕ} {dx dy ex ey : ℝ} {X Y : Fl ℝ rnd} {s p : Vec2 ℝ} (hx : Rel u n dx X) (hy : Rel u n dy Y)
    (hex : ex = p.x - s.x) (hey : ey = p.y - s.y) (hk : n + 3 = k) :
    (abs' (-Y * ((Vec2.num p : Vec2 (Fl ℝ rnd)).x - (Vec2.num s : Vec2 (Fl ℝ rnd)).x) +
      X * ((Vec2.num p : Vec2 (Fl ℝ rnd)).y - (Vec2.num s : Vec2 (Fl ℝ rnd)).y))).Within
      (gam u k * (nm2 dx dy * nm2 ex ey)) |-dy * ex + dx * ey| := by
  subst hex hey hk
  obtain ⟨-, v, ev, hv⟩ := AbsErr.add (k := n + 3) hr
    (AbsErr.of_rel hr (Rel.mul (k := n + 2) hr hy.neg (Rel.sub hr p.x s.x)))
    (AbsErr.of_rel hr (Rel.mul (k := n + 2) hr hx (Rel.sub hr p.y s.y))) (by simp)
  refine ⟨|v|, ?_, ?_⟩
  · simp only [Vec2.num] at ev ⊢
    rw [ev, abs_num]
  · refine (abs_abs_sub_abs_le _ _).trans (hv.trans ?_)
    have g0 : 0 ≤ gam u (n + 3) := by
      have h1 := hr.lt_one
      have := (one_le_inv₀ (Fac.gpos h1 (n + 3))).2 (Fac.gle hr.nonneg h1 (n + 3))
      unfold gam; linarith
    refine mul_le_mul_of_nonneg_left ?_ g0
    rw [abs_mul, abs_mul, abs_neg]
    have := nm2_cs dy (p.x - s.x) dx (p.y - s.y)
    have e : nm2 dy dx = nm2 dx dy := by unfold nm2; rw [add_comm]
    rwa [e] at this
end

end LineDist
end MathLib
