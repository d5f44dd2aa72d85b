import Verif.Proof.LineDist
import Verif.Props.RoundedForward
import Verif.Props.Frusta

/-! # Proofs for C168: planes through points, rounded -/

namespace MathLib
namespace PlaneFit
open LineDist
variable {rnd : ℝ → ℝ} {u : ℝ}

theorem nm_smul (v : Vec3 ℝ) (c : ℝ) : nm (v * c) = nm v * |c| := by
  have e : (v * c).x ^ 2 + (v * c).y ^ 2 + (v * c).z ^ 2 = (v.x ^ 2 + v.y ^ 2 + v.z ^ 2) * c ^ 2 := by
    simp only [Vec3.mul_x, Vec3.mul_y, Vec3.mul_z]; ring
  rw [nm, e, Real.sqrt_mul (by positivity), Real.sqrt_sq_eq_abs, nm]

/-- the directions of two vectors that differ little -/
theorem direction {N n : Vec3 ℝ} (hN : 0 < nm N) (hn : 0 < nm n) :
    nm (n * (1 / nm n) - N * (1 / nm N)) ≤ 2 * (nm (n - N) / nm N) := by
  have e : n * (1 / nm n) - N * (1 / nm N) = (n - N) * (1 / nm N) + n * (1 / nm n - 1 / nm N) := by
    ext <;> simp <;> ring
  rw [e]
  refine (nm_add _ _).trans ?_
  rw [nm_smul, nm_smul, abs_of_pos (by positivity)]
  have h1 : nm n * |1 / nm n - 1 / nm N| ≤ nm (n - N) / nm N := by
    have : 1 / nm n - 1 / nm N = -((nm n - nm N) / (nm n * nm N)) := by field_simp; ring
    rw [this, abs_neg, abs_div, abs_of_pos (mul_pos hn hN)]
    have : nm n * (|nm n - nm N| / (nm n * nm N)) = |nm n - nm N| / nm N := by field_simp
    rw [this]
    exact div_le_div_of_nonneg_right (nm_near _ _) hN.le
  have h2 : nm (n - N) * (1 / nm N) = nm (n - N) / nm N := by ring
  linarith

section
variable (hr : IsRel rnd u) (hu : u ≤ 1 / 4096)
include hr hu

/-- normalising a vector `n` that is near `N` -/
theorem unit {N n : Vec3 ℝ} (hN : 0 < nm N) : ∃ w : Vec3 ℝ, (Vec3.num n : Vec3 (Fl ℝ rnd)).normalized 1 = Vec3.num w ∧
    nm (w - N * (1 / nm N)) ≤ 2 * (nm (n - N) / nm N) + 5.02 * u ∧ nm w ≤ 1.002 := by
  have h0 := hr.nonneg
  obtain ⟨g5, g5'⟩ := BallLine.gam_small h0 hu 5 (by norm_num)
  norm_num at g5
  by_cases hn : n = ⟨0, 0, 0⟩
  · refine ⟨⟨0, 0, 0⟩, ?_, ?_, by simp [nm]; norm_num⟩
    · have z := (C119_null hr ⟨0, 0⟩ n).2
      rw [decide_eq_true hn] at z
      simp only [Vec3.normalized, z, if_true]
      rfl
    · have e1 : nm (⟨0, 0, 0⟩ - N * (1 / nm N)) = 1 := by
        have : (⟨0, 0, 0⟩ - N * (1 / nm N) : Vec3 ℝ) = N * (-(1 / nm N)) := by ext <;> simp
        rw [this, nm_smul, abs_neg, abs_of_pos (by positivity), mul_one_div_cancel hN.ne']
      have e2 : nm (n - N) = nm N := by
        rw [hn, nm_neg]; congr 1; ext <;> simp
      rw [e1, e2, div_self hN.ne']
      linarith
  · have hp := nm_pos hn
    obtain ⟨w, ew, -, ⟨hx, hy, hz⟩, -⟩ := C119_normalized3 hr n hn 1
    have m1 : nm (n * (1 / nm n)) = 1 := by
      rw [nm_smul, abs_of_pos (by positivity), mul_one_div_cancel hp.ne']
    have hw : nm (w - n * (1 / nm n)) ≤ gam u 5 * nm (n * (1 / nm n)) := nm_comp g5' hx hy hz
    rw [m1, mul_one] at hw
    refine ⟨w, by rw [Fl.one_def]; exact ew, ?_, ?_⟩
    · have e : w - N * (1 / nm N) = (w - n * (1 / nm n)) + (n * (1 / nm n) - N * (1 / nm N)) := by ext <;> simp
      rw [e]
      refine (nm_add _ _).trans ?_
      have := direction hN hp
      linarith
    · have q := (abs_le.1 ((nm_near _ _).trans hw)).2
      rw [m1] at q
      linarith

/-- the distance from a plane through `a` with a normal near `m` -/
theorem planeDist {q : Vec3 (Fl ℝ rnd)} {w m a p : Vec3 ℝ} {ρ : ℝ} (hq : q.normalized 1 = Vec3.num w)
    (hw : nm (w - m) ≤ ρ) (hw1 : nm w ≤ 1.002) :
    ((Plane.fromPoint (Vec3.num a) q).distance (Vec3.num p)).Within (ρ * nm (p - a) + 4.1 * u * nm p + 7.2 * u * nm a)
      (m.dot (p - a)) := by
  have h0 := hr.nonneg
  obtain ⟨g3, g3'⟩ := BallLine.gam_small h0 hu 3 (by norm_num)
  obtain ⟨g4, g4'⟩ := BallLine.gam_small h0 hu 4 (by norm_num)
  norm_num at g3 g4
  have habs : ∀ v : Vec3 ℝ, |v.x * w.x| + |v.y * w.y| + |v.z * w.z| ≤ 1.002 * nm v := by
    intro v
    have := (le_abs_self _).trans (dot_le ⟨|v.x|, |v.y|, |v.z|⟩ ⟨|w.x|, |w.y|, |w.z|⟩)
    simp only [Vec3.dot, nm, sq_abs, ← abs_mul] at this
    have q := mul_le_mul_of_nonneg_left hw1 (nm_nonneg v)
    unfold nm at q
    rw [nm]
    linarith
  obtain ⟨-, d, ed, hd⟩ := abs_sum3 hr w.x a.x w.y a.y w.z a.z
  have ep : Plane.fromPoint (Vec3.num a) q = (Plane.mk (Vec3.num w) (.num d) : Plane (Fl ℝ rnd)) := by
    simp only [Plane.fromPoint, hq]
    congr 1
  obtain ⟨v, ev, hv⟩ := C120_plane hr w p d
  rw [ep]
  refine ⟨v, ev, ?_⟩
  have ha0 := nm_nonneg a
  have hp0 := nm_nonneg p
  have ua := mul_nonneg h0 ha0
  have up := mul_nonneg h0 hp0
  have uua : u * (u * nm a) ≤ 1 / 4096 * (u * nm a) := mul_le_mul_of_nonneg_right hu ua
  have hd1 : |d - (w.x * a.x + w.y * a.y + w.z * a.z)| ≤ 3.02 * (u * nm a) := by
    refine hd.trans ?_
    have q1 := habs a
    have q2 : |w.x * a.x| + |w.y * a.y| + |w.z * a.z| ≤ 1.002 * nm a := by
      rw [mul_comm w.x, mul_comm w.y, mul_comm w.z]; exact q1
    have q3 := mul_le_mul g3 q2 (by positivity) (by linarith)
    linarith
  have hd2 : |d| ≤ 1.003 * nm a := by
    have q1 := habs a
    have q2 : |w.x * a.x + w.y * a.y + w.z * a.z| ≤ 1.002 * nm a := by
      refine (abs_add_three _ _ _).trans ?_
      rw [mul_comm w.x, mul_comm w.y, mul_comm w.z]; exact q1
    have q3 := abs_sub_abs_le_abs_sub d (w.x * a.x + w.y * a.y + w.z * a.z)
    have q4 : u * nm a ≤ 1 / 4096 * nm a := mul_le_mul_of_nonneg_right hu ha0
    linarith
  have hv1 : |v - (p.x * w.x + p.y * w.y + p.z * w.z - d)| ≤ 4.05 * (u * nm p) + 4.05 * (u * nm a) := by
    refine hv.trans ?_
    have q3 := mul_le_mul g4 (add_le_add (habs p) hd2) (by positivity) (by linarith)
    linarith
  have hm : |w.dot (p - a) - m.dot (p - a)| ≤ ρ * nm (p - a) := by
    have e : w.dot (p - a) - m.dot (p - a) = (w - m).dot (p - a) := by
      simp only [Vec3.dot, Vec3.sub_x, Vec3.sub_y, Vec3.sub_z]; ring
    rw [e]
    exact (dot_le _ _).trans (mul_le_mul_of_nonneg_right hw (nm_nonneg _))
  have e : v - m.dot (p - a) = (v - (p.x * w.x + p.y * w.y + p.z * w.z - d)) - (d - (w.x * a.x + w.y * a.y + w.z * a.z)) +
      (w.dot (p - a) - m.dot (p - a)) := by
    simp only [Vec3.dot, Vec3.sub_x, Vec3.sub_y, Vec3.sub_z]; ring
  rw [e]
  have q1 := abs_add_le ((v - (p.x * w.x + p.y * w.y + p.z * w.z - d)) - (d - (w.x * a.x + w.y * a.y + w.z * a.z)))
      (w.dot (p - a) - m.dot (p - a))
  have q2 := abs_sub (v - (p.x * w.x + p.y * w.y + p.z * w.z - d)) (d - (w.x * a.x + w.y * a.y + w.z * a.z))
  linarith

omit hu in
theorem diff_err (a b : Vec3 ℝ) : ∃ E : Vec3 ℝ, (Vec3.num b - Vec3.num a : Vec3 (Fl ℝ rnd)) = Vec3.num E ∧
    nm (E - (b - a)) ≤ u * nm (b - a) := by
  refine ⟨⟨rnd (b.x - a.x), rnd (b.y - a.y), rnd (b.z - a.z)⟩, rfl, ?_⟩
  refine nm_comp hr.nonneg ?_ ?_ ?_ <;> simp only [Vec3.sub_x, Vec3.sub_y, Vec3.sub_z] <;> exact hr.err _

/-- the computed normal of a triangle -/
theorem normal_err (a b c : Vec3 ℝ) : ∃ n : Vec3 ℝ,
    (Vec3.num b - Vec3.num a : Vec3 (Fl ℝ rnd)).cross (Vec3.num c - Vec3.num a) = Vec3.num n ∧
    nm (n - (b - a).cross (c - a)) ≤ 5.04 * u * (nm (b - a) * nm (c - a)) := by
  have h0 := hr.nonneg
  obtain ⟨E, eE, hE⟩ := diff_err hr a b
  obtain ⟨D, eD, hD⟩ := diff_err hr a c
  obtain ⟨n, en, hn⟩ := cross_err hr E D
  obtain ⟨g2, g2'⟩ := BallLine.gam_small h0 hu 2 (by norm_num)
  norm_num at g2
  refine ⟨n, by rw [eE, eD, en], ?_⟩
  set x := nm (b - a)
  set y := nm (c - a)
  have x0 : 0 ≤ x := nm_nonneg _
  have y0 : 0 ≤ y := nm_nonneg _
  have hE1 : nm E ≤ (1 + u) * x := by linarith [(abs_le.1 ((nm_near _ _).trans hE)).2]
  have hD1 : nm D ≤ (1 + u) * y := by linarith [(abs_le.1 ((nm_near _ _).trans hD)).2]
  have xy := mul_nonneg x0 y0
  have uxy := mul_nonneg h0 xy
  have uuxy : u * (u * (x * y)) ≤ 1 / 4096 * (u * (x * y)) := mul_le_mul_of_nonneg_right hu uxy
  have uuuxy : u * (u * (u * (x * y))) ≤ 1 / 4096 * (u * (u * (x * y))) := mul_le_mul_of_nonneg_right hu (mul_nonneg h0 uxy)
  have h1 : nm (n - E.cross D) ≤ 3.02 * (u * (x * y)) := by
    refine hn.trans ?_
    have q := mul_le_mul hE1 hD1 (nm_nonneg _) (mul_nonneg (by linarith) x0)
    have q2 := mul_le_mul (show 3 / 2 * gam u 2 ≤ 3.0108 * u by linarith) q (mul_nonneg (nm_nonneg _) (nm_nonneg _)) (by linarith)
    have e : 3.0108 * u * ((1 + u) * x * ((1 + u) * y)) = 3.0108 * (u * (x * y) + 2 * (u * (u * (x * y))) + u * (u * (u * (x * y)))) := by
      ring
    rw [e] at q2
    linarith
  have h2 : nm ((E - (b - a)).cross D) ≤ 1.0003 * (u * (x * y)) := by
    refine (cross_le _ _).trans ((mul_le_mul hE hD1 (nm_nonneg _) (mul_nonneg h0 x0)).trans ?_)
    have e : u * x * ((1 + u) * y) = u * (x * y) + u * (u * (x * y)) := by ring
    rw [e]
    linarith
  have h3 : nm ((b - a).cross (D - (c - a))) ≤ u * (x * y) := by
    refine (cross_le _ _).trans ((mul_le_mul_of_nonneg_left hD x0).trans (by linarith))
  have e : n - (b - a).cross (c - a) = (n - E.cross D) + ((E - (b - a)).cross D + (b - a).cross (D - (c - a))) := by
    ext <;> simp [Vec3.cross] <;> ring
  rw [e]
  have q1 := nm_add (n - E.cross D) ((E - (b - a)).cross D + (b - a).cross (D - (c - a)))
  have q2 := nm_add ((E - (b - a)).cross D) ((b - a).cross (D - (c - a)))
  linarith
end

end PlaneFit
end MathLib
