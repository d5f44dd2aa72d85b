import Verif.Proof.PlaneFit
import Verif.Proof.RneNearest
import Verif.Props.Rotations

/-! # Property C169: frames with one exact and one approximate axis in floating point -/

namespace MathLib
open LineDist PlaneFit
variable {rnd : ℝ → ℝ} {u : ℝ}

/-- the sine of the angle between two directions -/
noncomputable def sine (e a : Vec3 ℝ) : ℝ := ‖(e.cross a).toE‖ / (‖e.toE‖ * ‖a.toE‖)

/-- the columns of a matrix are numbers, and are within `ε` of those of `M` -/
def ColsNear (ε : ℝ) (F : Mat3 (Fl ℝ rnd)) (M : Mat3 ℝ) : Prop :=
  ∃ x y z : Vec3 ℝ, F.x = Vec3.num x ∧ F.y = Vec3.num y ∧ F.z = Vec3.num z ∧
    ‖(x - M.x).toE‖ ≤ ε ∧ ‖(y - M.y).toE‖ ≤ ε ∧ ‖(z - M.z).toE‖ ≤ ε

/-- the matrix with the columns `u`, `v` and `w`, or the opposites, in the order the coordinates ask for -/
private def arrange {R : Type} [Zero R] [One R] [NatCast R] [Add R] [Sub R] [Mul R] [Div R] [Neg R] [LT R]
    [DecidableLT R] [LE R] [DecidableLE R] [BEq R] (ec ac : Coord) (u v w : Vec3 R) : Res (Mat3 R) :=
  match ec, ac with
  | .X, .Y => .ok (Mat3.ofCols u w (-v))
  | .X, .Z => .ok (Mat3.ofCols u v w)
  | .Y, .X => .ok (Mat3.ofCols w u v)
  | .Y, .Z => .ok (Mat3.ofCols (-v) u w)
  | .Z, .X => .ok (Mat3.ofCols w (-v) u)
  | .Z, .Y => .ok (Mat3.ofCols v w u)
  | _, _ => .error .assertion

private theorem cols {R : Type} [Zero R] [One R] [NatCast R] [Add R] [Sub R] [Mul R] [Div R] [Neg R] [LT R]
    [DecidableLT R] [LE R] [DecidableLE R] [BEq R] (x y z : Vec3 R) :
    (Mat3.ofCols x y z).x = x ∧ (Mat3.ofCols x y z).y = y ∧ (Mat3.ofCols x y z).z = z := ⟨rfl, rfl, rfl⟩

private theorem colsNear {ε : ℝ} {x y z x' y' z' : Vec3 ℝ} (hx : ‖(x' - x).toE‖ ≤ ε) (hy : ‖(y' - y).toE‖ ≤ ε) (hz : ‖(z' - z).toE‖ ≤ ε) :
    ColsNear ε (Mat3.ofCols (Vec3.num x') (Vec3.num y') (Vec3.num z') : Mat3 (Fl ℝ rnd)) (Mat3.ofCols x y z) := by
  refine ⟨x', y', z', (cols _ _ _).1, (cols _ _ _).2.1, (cols _ _ _).2.2, ?_, ?_, ?_⟩
  · rw [(cols x y z).1]; exact hx
  · rw [(cols x y z).2.1]; exact hy
  · rw [(cols x y z).2.2]; exact hz

private theorem arrange_near {ec ac : Coord} (hec : ec = .X ∨ ec = .Y ∨ ec = .Z) (hac : ac = .X ∨ ac = .Y ∨ ac = .Z) (hne : ec ≠ ac)
    {u v w u' v' w' : Vec3 ℝ} {ε : ℝ} (hu : nm (u' - u) ≤ ε) (hv : nm (v' - v) ≤ ε) (hw : nm (w' - w) ≤ ε) :
    ∃ (M : Mat3 ℝ) (F : Mat3 (Fl ℝ rnd)), arrange ec ac u v w = .ok M ∧
      arrange ec ac (Vec3.num u' : Vec3 (Fl ℝ rnd)) (Vec3.num v') (Vec3.num w') = .ok F ∧ ColsNear ε F M := by
  have hv' : nm (-v' - -v) ≤ ε := by
    have : nm (-v' - -v) = nm (v' - v) := by rw [nm_neg v']; congr 1; ext <;> simp <;> ring
    rw [this]; exact hv
  rw [nm_eq] at hu hv hw hv'
  rcases hec with rfl | rfl | rfl <;> rcases hac with rfl | rfl | rfl <;> first | exact absurd rfl hne | skip
  · exact ⟨_, _, rfl, rfl, colsNear hu hw hv'⟩
  · exact ⟨_, _, rfl, rfl, colsNear hu hv hw⟩
  · exact ⟨_, _, rfl, rfl, colsNear hw hu hv⟩
  · exact ⟨_, _, rfl, rfl, colsNear hv' hu hw⟩
  · exact ⟨_, _, rfl, rfl, colsNear hw hv' hu⟩
  · exact ⟨_, _, rfl, rfl, colsNear hv hw hu⟩

private theorem exact_unit {v : Vec3 ℝ} (h : v ≠ ⟨0, 0, 0⟩) : v.normalized 1 = v * (1 / nm v) := by
  have := ((C22_normalize3 v 1).2.2.2 h).2.1
  have hl : v.length = nm v := by
    have : v.length = √(v.x * v.x + v.y * v.y + v.z * v.z) := rfl
    rw [this, nm]; congr 1; ring
  rw [this, hl]

private theorem zero_iff {v : Vec3 ℝ} : (v.x == 0 && v.y == 0 && v.z == 0) = false ↔ v ≠ ⟨0, 0, 0⟩ := by
  rw [← Bool.not_eq_true, not_iff_not, Vec3.ext_iff]
  simp [and_assoc]

private theorem num_zero_iff {v : Vec3 ℝ} : ((Vec3.num v : Vec3 (Fl ℝ rnd)).x == 0 && (Vec3.num v : Vec3 (Fl ℝ rnd)).y == 0 &&
    (Vec3.num v : Vec3 (Fl ℝ rnd)).z == 0) = false ↔ v ≠ ⟨0, 0, 0⟩ := by
  rw [← zero_iff]
  simp only [Fl.zero_def, Vec3.num, Fl.num_beq]
  rfl

private theorem normalize_fst {R : Type} [Add R] [Mul R] [Div R] [Zero R] [BEq R] [MathFns R] (v : Vec3 R) (k : R) :
    (v.normalize k).1 = v.normalized k := by
  simp only [Vec3.normalize, Vec3.normalized]
  split_ifs <;> rfl

section
variable (hr : IsRel rnd u) (hu : u ≤ 1 / 4096)
include hr hu

/-- C169 asks for a rotation up to rounding whenever the directions are not parallel, which is false (`C169_collapse`).  What
holds: unless the two directions are parallel up to a few rounding errors, the computed matrix differs from the exact one, a rotation, by rounding errors divided by the sine of their angle. -/
theorem C169_frame_partial (ec ac : Coord) (hec : ec = .X ∨ ec = .Y ∨ ec = .Z) (hac : ac = .X ∨ ac = .Y ∨ ac = .Z) (hne : ec ≠ ac)
    (e a : Vec3 ℝ) (hs : 8.1 * u < sine e a) :
    ∃ (M : Mat3 ℝ) (F : Mat3 (Fl ℝ rnd)), Mat3.ofExactApprox ec e ac a = .ok M ∧ IsRotation M.toM ∧
      Mat3.ofExactApprox ec (Vec3.num e) ac (Vec3.num a) = .ok F ∧ ColsNear (30 * u / sine e a) F M := by
  have h0 := hr.nonneg
  unfold sine at hs
  have hea : e.cross a ≠ ⟨0, 0, 0⟩ := by
    intro h
    rw [h, ← nm_eq, show nm (⟨0, 0, 0⟩ : Vec3 ℝ) = 0 by simp [nm], zero_div] at hs
    linarith
  obtain ⟨M, ca, hM, hrot, -⟩ := C45_frame ec ac hec hac hne e a hea
  have he : e ≠ ⟨0, 0, 0⟩ := by
    rintro rfl; apply hea; simp [Vec3.cross]
  have ha : a ≠ ⟨0, 0, 0⟩ := by
    rintro rfl; apply hea; simp [Vec3.cross]
  have he' := nm_pos he
  have ha' := nm_pos ha
  set U := e * (1 / nm e) with hU
  have hU1 : nm U = 1 := by rw [hU, nm_smul, abs_of_pos (by positivity), mul_one_div_cancel he'.ne']
  set N := a.cross U with hN
  have hNe : nm N = nm (e.cross a) / nm e := by
    have : N = e.cross a * (-(1 / nm e)) := by rw [hN, hU]; ext <;> simp [Vec3.cross] <;> ring
    rw [this, nm_smul, abs_neg, abs_of_pos (by positivity)]; ring
  have hea' := nm_pos hea
  have hN0 : 0 < nm N := by rw [hNe]; positivity
  have hsine : sine e a = nm N / nm a := by
    rw [sine, ← nm_eq, ← nm_eq, ← nm_eq, hNe]; field_simp
  have hs' : 8.1 * u < nm N / nm a := by rw [← hsine]; exact hs
  have hs1 : sine e a ≤ 1 := by
    rw [hsine, div_le_one ha']
    have := cross_le a U
    rwa [hU1, mul_one] at this
  have hs0 : 0 < sine e a := by rw [hsine]; positivity
  -- the exact axis
  obtain ⟨U', eU, hU', hU'1⟩ := unit hr hu (N := e) (n := e) he'
  rw [show nm (e - e) = 0 by simp [nm], zero_div, mul_zero, zero_add, ← hU] at hU'
  -- the cross product
  obtain ⟨n, en, hn⟩ := cross_err hr a U'
  obtain ⟨g2, g2'⟩ := BallLine.gam_small h0 hu 2 (by norm_num)
  norm_num at g2
  have hnN : nm (n - N) ≤ 8.06 * u * nm a := by
    have e1 : n - N = (n - a.cross U') + a.cross (U' - U) := by rw [hN]; ext <;> simp [Vec3.cross] <;> ring
    have q1 := nm_add (n - a.cross U') (a.cross (U' - U))
    have q2 := (cross_le a (U' - U)).trans (mul_le_mul_of_nonneg_left hU' ha'.le)
    have q3 := mul_le_mul (show 3 / 2 * gam u 2 ≤ 3.0108 * u by linarith) (mul_le_mul_of_nonneg_left hU'1 ha'.le)
      (mul_nonneg ha'.le (nm_nonneg _)) (by linarith)
    rw [← e1] at q1
    have := mul_nonneg h0 ha'.le
    linarith
  have hn0 : n ≠ ⟨0, 0, 0⟩ := by
    rintro rfl
    have e2 : nm (⟨0, 0, 0⟩ - N) = nm N := by rw [nm_neg]; congr 1; ext <;> simp
    rw [e2] at hnN
    rw [lt_div_iff₀ ha'] at hs'
    have := mul_nonneg h0 ha'.le
    linarith
  obtain ⟨V', eV, hV', hV'1⟩ := unit hr hu (N := N) (n := n) hN0
  set V := N * (1 / nm N) with hV
  have hV1 : nm V = 1 := by rw [hV, nm_smul, abs_of_pos (by positivity), mul_one_div_cancel hN0.ne']
  have hur : u ≤ u / sine e a := by
    rw [le_div_iff₀ hs0]; nlinarith
  set ρ := u / sine e a with hρ
  have hV2 : nm (V' - V) ≤ 21.2 * ρ := by
    refine hV'.trans ?_
    have q : nm (n - N) / nm N ≤ 8.06 * ρ := by
      rw [div_le_iff₀ hN0, hρ, hsine]
      have : 8.06 * (u / (nm N / nm a)) * nm N = 8.06 * u * nm a := by field_simp
      rw [this]; exact hnN
    linarith
  -- the third axis
  obtain ⟨W', eW, hW⟩ := cross_err hr U' V'
  have hW2 : nm (W' - U.cross V) ≤ 29.5 * ρ := by
    have e1 : W' - U.cross V = (W' - U'.cross V') + ((U' - U).cross V' + U.cross (V' - V)) := by
      ext <;> simp [Vec3.cross] <;> ring
    rw [e1]
    have q1 := nm_add (W' - U'.cross V') ((U' - U).cross V' + U.cross (V' - V))
    have q2 := nm_add ((U' - U).cross V') (U.cross (V' - V))
    have q3 := (cross_le (U' - U) V').trans (mul_le_mul hU' hV'1 (nm_nonneg _) (by linarith))
    have q4 := cross_le U (V' - V)
    rw [hU1, one_mul] at q4
    have q5 := mul_le_mul hU'1 hV'1 (nm_nonneg _) (by norm_num)
    have q6 := mul_le_mul (show 3 / 2 * gam u 2 ≤ 3.0108 * u by linarith) q5 (mul_nonneg (nm_nonneg _) (nm_nonneg _)) (by linarith)
    linarith
  have hρ0 : 0 ≤ ρ := h0.trans hur
  obtain ⟨M', F, hM', hF, hnear⟩ := arrange_near (rnd := rnd) hec hac hne (ε := 30 * u / sine e a) (u := U) (v := V) (w := U.cross V)
    (u' := U') (v' := V') (w' := W') (by rw [mul_div_assoc]; linarith) (by rw [mul_div_assoc]; linarith)
    (by rw [mul_div_assoc]; linarith)
  have x1 : Mat3.ofExactApprox ec e ac a = arrange ec ac U V (U.cross V) := by
    unfold Mat3.ofExactApprox
    rw [if_neg (by rw [zero_iff.2 he]; simp)]
    have eu : e.normalized 1 = U := exact_unit he
    have hNn : N ≠ ⟨0, 0, 0⟩ := by
      intro h; rw [h] at hN0; simp [nm] at hN0
    simp only [eu]
    rw [if_neg (by rw [zero_iff.2 hNn]; simp), normalize_fst, exact_unit hNn]
    rfl
  have x2 : Mat3.ofExactApprox ec (Vec3.num e : Vec3 (Fl ℝ rnd)) ac (Vec3.num a) =
      arrange ec ac (Vec3.num U' : Vec3 (Fl ℝ rnd)) (Vec3.num V') (Vec3.num W') := by
    unfold Mat3.ofExactApprox
    rw [if_neg (by rw [num_zero_iff.2 he]; simp)]
    simp only [eU, en]
    rw [if_neg (by rw [num_zero_iff.2 hn0]; simp), normalize_fst, eV, eW]
    rfl
  have hMM : M' = M := by
    have := hM.symm.trans (x1.trans hM')
    injection this with this
    exact this.symm
  subst hMM
  exact ⟨M', F, hM, hrot, x2.trans hF, hnear⟩
end

/-- C169: in `float` two directions that are not parallel may give columns that are almost parallel: the matrix is nowhere near a
rotation. -/
theorem C169_collapse :
    let e : Vec3 ℝ := ⟨2, 5, 14⟩
    let a : Vec3 ℝ := ⟨18, 45, 126 + 1 / 2 ^ 17⟩
    e.cross a ≠ ⟨0, 0, 0⟩ ∧ ∃ (F : Mat3 (Fl ℝ (rne 24))) (x y z : Vec3 ℝ),
      Mat3.ofExactApprox .X (Vec3.num e) .Z (Vec3.num a) = .ok F ∧ F.x = Vec3.num x ∧ F.y = Vec3.num y ∧ F.z = Vec3.num z ∧
      x.dot y < -(9 / 10) ∧ |x.dot (y.cross z)| < 1 / 5 := by
  intro e a
  have hc : e.cross a ≠ ⟨0, 0, 0⟩ := by
    intro h
    have := congrArg Vec3.x h
    simp only [e, a, Vec3.cross] at this
    norm_num at this
  refine ⟨hc, ?_⟩
  have r0 : rne 24 (0 : ℝ) = 0 := rne_of_rep (by norm_num) (Rep.zero _)
  have r1 : rne 24 (1 : ℝ) = 1 := rne_of_rep (by norm_num) ⟨1, 0, by norm_num, by norm_num⟩
  have r4 : rne 24 (4 : ℝ) = 4 := rne_of_rep (by norm_num) ⟨4, 0, by norm_num, by norm_num⟩
  have r25 : rne 24 (25 : ℝ) = 25 := rne_of_rep (by norm_num) ⟨25, 0, by norm_num, by norm_num⟩
  have r196 : rne 24 (196 : ℝ) = 196 := rne_of_rep (by norm_num) ⟨196, 0, by norm_num, by norm_num⟩
  have r29 : rne 24 (29 : ℝ) = 29 := rne_of_rep (by norm_num) ⟨29, 0, by norm_num, by norm_num⟩
  have r225 : rne 24 (225 : ℝ) = 225 := rne_of_rep (by norm_num) ⟨225, 0, by norm_num, by norm_num⟩
  have r15 : rne 24 (15 : ℝ) = 15 := rne_of_rep (by norm_num) ⟨15, 0, by norm_num, by norm_num⟩
  have s225 : √(225 : ℝ) = 15 := by rw [show (225 : ℝ) = 15 ^ 2 by norm_num, Real.sqrt_sq (by norm_num)]
  have rc : rne 24 (1 / 15 : ℝ) = 8947849 / 2 ^ 27 := by
    rw [rne_eq (-27) 8947849 (by norm_num) (by norm_num) (by rw [abs_lt]; norm_num)]; norm_num
  set U : Vec3 ℝ := ⟨8947849 / 2 ^ 26, 11184811 / 2 ^ 25, 15658736 / 2 ^ 24⟩ with hU
  have u1 : rne 24 (2 * (8947849 / 2 ^ 27) : ℝ) = 8947849 / 2 ^ 26 := by
    rw [rne_eq (-26) 8947849 (by norm_num) (by norm_num) (by rw [abs_lt]; norm_num)]; norm_num
  have u2 : rne 24 (5 * (8947849 / 2 ^ 27) : ℝ) = 11184811 / 2 ^ 25 := by
    rw [rne_eq (-25) 11184811 (by norm_num) (by norm_num) (by rw [abs_lt]; norm_num)]; norm_num
  have u3 : rne 24 (14 * (8947849 / 2 ^ 27) : ℝ) = 15658736 / 2 ^ 24 := by
    rw [rne_eq (-24) 15658736 (by norm_num) (by norm_num) (by rw [abs_lt]; norm_num)]; norm_num
  have p1 : rne 24 (45 * (15658736 / 2 ^ 24) : ℝ) = 11010049 / 2 ^ 18 := by
    rw [rne_eq (-18) 11010049 (by norm_num) (by norm_num) (by rw [abs_lt]; norm_num)]; norm_num
  have p2 : rne 24 ((126 + 1 / 2 ^ 17) * (11184811 / 2 ^ 25) : ℝ) = 11010049 / 2 ^ 18 := by
    rw [rne_eq (-18) 11010049 (by norm_num) (by norm_num) (by rw [abs_lt]; norm_num)]; norm_num
  have p3 : rne 24 ((126 + 1 / 2 ^ 17) * (8947849 / 2 ^ 26) : ℝ) = 8808039 / 2 ^ 19 := by
    rw [rne_eq (-19) 8808039 (by norm_num) (by norm_num) (by rw [abs_lt]; norm_num)]; norm_num
  have p4 : rne 24 (18 * (15658736 / 2 ^ 24) : ℝ) = 8808039 / 2 ^ 19 := by
    rw [rne_eq (-19) 8808039 (by norm_num) (by norm_num) (by rw [abs_lt]; norm_num)]; norm_num
  have p5 : rne 24 (18 * (11184811 / 2 ^ 25) : ℝ) = 6 := by
    rw [rne_eq (-21) 12582912 (by norm_num) (by norm_num) (by rw [abs_lt]; norm_num)]; norm_num
  have p6 : rne 24 (45 * (8947849 / 2 ^ 26) : ℝ) = 6 + 1 / 2 ^ 21 := by
    rw [rne_eq (-21) 12582913 (by norm_num) (by norm_num) (by rw [abs_lt]; norm_num)]; norm_num
  have p7 : rne 24 (6 - (6 + 1 / 2 ^ 21) : ℝ) = -(1 / 2 ^ 21) := by
    rw [show (6 - (6 + 1 / 2 ^ 21) : ℝ) = -(1 / 2 ^ 21) by ring]
    exact rne_of_rep (by norm_num) ⟨-1, -21, by norm_num, by norm_num⟩
  have eU : (Vec3.num e : Vec3 (Fl ℝ (rne 24))).normalized 1 = Vec3.num U := by
    have l : (Vec3.num e : Vec3 (Fl ℝ (rne 24))).length = .num 15 := by
      have m1 : rne 24 (2 * 2 : ℝ) = 4 := by rw [show (2 * 2 : ℝ) = 4 by norm_num, r4]
      have m2 : rne 24 (5 * 5 : ℝ) = 25 := by rw [show (5 * 5 : ℝ) = 25 by norm_num, r25]
      have m3 : rne 24 (14 * 14 : ℝ) = 196 := by rw [show (14 * 14 : ℝ) = 196 by norm_num, r196]
      have m4 : rne 24 (4 + 25 : ℝ) = 29 := by rw [show (4 + 25 : ℝ) = 29 by norm_num, r29]
      have m5 : rne 24 (29 + 196 : ℝ) = 225 := by rw [show (29 + 196 : ℝ) = 225 by norm_num, r225]
      simp only [Vec3.length, Vec3.num, e, Fl.num_mul, Fl.num_add, m1, m2, m3, m4, m5]
      show (if (225 : ℝ) < 0 then Fl.nan else .num (rne 24 (√225))) = _
      rw [if_neg (by norm_num), s225, r15]
    simp only [Vec3.normalized, l]
    rw [if_neg (by rw [Fl.zero_def, Fl.num_beq]; norm_num)]
    simp only [Fl.one_def, Fl.num_div, rc, Vec3.num, e, hU, show ¬(15 : ℝ) = 0 by norm_num, if_false, Fl.num_mul, u1, u2, u3]
  have en : (Vec3.num a : Vec3 (Fl ℝ (rne 24))).cross (Vec3.num U) = Vec3.num ⟨0, 0, -(1 / 2 ^ 21)⟩ := by
    simp only [Vec3.cross, Vec3.num, a, hU, Fl.num_mul, Fl.num_sub, p1, p2, p3, p4, p5, p6, p7, sub_self, r0]
  have eV : (Vec3.num ⟨0, 0, -(1 / 2 ^ 21)⟩ : Vec3 (Fl ℝ (rne 24))).normalized 1 = Vec3.num ⟨0, 0, -1⟩ := by
    have m1 : rne 24 (-(1 / 2 ^ 21) * -(1 / 2 ^ 21) : ℝ) = 1 / 2 ^ 42 := by
      rw [show (-(1 / 2 ^ 21) * -(1 / 2 ^ 21) : ℝ) = 1 / 2 ^ 42 by norm_num]
      exact rne_of_rep (by norm_num) ⟨1, -42, by norm_num, by norm_num⟩
    have m2 : rne 24 (1 / 2 ^ 42 : ℝ) = 1 / 2 ^ 42 := rne_of_rep (by norm_num) ⟨1, -42, by norm_num, by norm_num⟩
    have m3 : rne 24 (1 / 2 ^ 21 : ℝ) = 1 / 2 ^ 21 := rne_of_rep (by norm_num) ⟨1, -21, by norm_num, by norm_num⟩
    have m4 : √(1 / 2 ^ 42 : ℝ) = 1 / 2 ^ 21 := by
      rw [show (1 / 2 ^ 42 : ℝ) = (1 / 2 ^ 21) ^ 2 by norm_num, Real.sqrt_sq (by norm_num)]
    have m5 : rne 24 (1 / (1 / 2 ^ 21) : ℝ) = 2 ^ 21 := by
      rw [show (1 / (1 / 2 ^ 21) : ℝ) = 2 ^ 21 by norm_num]
      exact rne_of_rep (by norm_num) ⟨1, 21, by norm_num, by norm_num⟩
    have m6 : rne 24 (-(1 / 2 ^ 21) * 2 ^ 21 : ℝ) = -1 := by
      rw [show (-(1 / 2 ^ 21) * 2 ^ 21 : ℝ) = -1 by norm_num]
      exact rne_of_rep (by norm_num) ⟨-1, 0, by norm_num, by norm_num⟩
    have l : (Vec3.num ⟨0, 0, -(1 / 2 ^ 21)⟩ : Vec3 (Fl ℝ (rne 24))).length = .num (1 / 2 ^ 21) := by
      simp only [Vec3.length, Vec3.num, Fl.num_mul, Fl.num_add, m1, mul_zero, add_zero, zero_add, r0, m2]
      show (if (1 / 2 ^ 42 : ℝ) < 0 then Fl.nan else .num (rne 24 (√(1 / 2 ^ 42)))) = _
      rw [if_neg (by norm_num), m4, m3]
    simp only [Vec3.normalized, l]
    rw [if_neg (by rw [Fl.zero_def, Fl.num_beq]; norm_num)]
    simp only [Fl.one_def, Fl.num_div, Vec3.num, show ¬(1 / 2 ^ 21 : ℝ) = 0 by norm_num, if_false, Fl.num_mul, zero_mul, r0, m5, m6]
  have eW : (Vec3.num U : Vec3 (Fl ℝ (rne 24))).cross (Vec3.num ⟨0, 0, -1⟩) = Vec3.num ⟨-(11184811 / 2 ^ 25), 8947849 / 2 ^ 26, 0⟩ := by
    have m1 : rne 24 (-(11184811 / 2 ^ 25) : ℝ) = -(11184811 / 2 ^ 25) :=
      rne_of_rep (by norm_num) ⟨-11184811, -25, by norm_num, by norm_num⟩
    have m2 : rne 24 (-(8947849 / 2 ^ 26) : ℝ) = -(8947849 / 2 ^ 26) :=
      rne_of_rep (by norm_num) ⟨-8947849, -26, by norm_num, by norm_num⟩
    have m3 : rne 24 (8947849 / 2 ^ 26 : ℝ) = 8947849 / 2 ^ 26 :=
      rne_of_rep (by norm_num) ⟨8947849, -26, by norm_num, by norm_num⟩
    simp only [Vec3.cross, Vec3.num, hU, Fl.num_mul, Fl.num_sub, mul_zero, mul_neg, mul_one, m1, m2, m3, r0, sub_zero, zero_sub,
      neg_neg, sub_self]
  have prog : Mat3.ofExactApprox .X (Vec3.num e : Vec3 (Fl ℝ (rne 24))) .Z (Vec3.num a) =
      .ok (Mat3.ofCols (Vec3.num U) (Vec3.num ⟨0, 0, -1⟩) (Vec3.num ⟨-(11184811 / 2 ^ 25), 8947849 / 2 ^ 26, 0⟩)) := by
    unfold Mat3.ofExactApprox
    rw [if_neg (by
      rw [num_zero_iff.2]
      · simp
      · intro h
        have := congrArg Vec3.x h
        norm_num [e] at this)]
    simp only [eU, en]
    rw [if_neg (by
      rw [num_zero_iff.2]
      · simp
      · intro h
        have := congrArg Vec3.z h
        norm_num at this), normalize_fst, eV, eW]
  refine ⟨_, U, ⟨0, 0, -1⟩, ⟨-(11184811 / 2 ^ 25), 8947849 / 2 ^ 26, 0⟩, prog, (cols _ _ _).1, (cols _ _ _).2.1, (cols _ _ _).2.2, ?_, ?_⟩
  · simp only [hU, Vec3.dot]; norm_num
  · simp only [hU, Vec3.dot, Vec3.cross]; rw [abs_lt]; norm_num

/-- The hypotheses hold: two directions at 45 degrees, in `float`. -/
example : ∃ (M : Mat3 ℝ) (F : Mat3 (Fl ℝ (rne 24))), Mat3.ofExactApprox .X (⟨3, 0, 0⟩ : Vec3 ℝ) .Y ⟨1, 1, 0⟩ = .ok M ∧ IsRotation M.toM ∧
    Mat3.ofExactApprox .X (Vec3.num ⟨3, 0, 0⟩) .Y (Vec3.num ⟨1, 1, 0⟩) = .ok F ∧ ColsNear (1 / 300000) F M := by
  have n1 : nm (⟨3, 0, 0⟩ : Vec3 ℝ) = 3 := by
    rw [nm, show (3 : ℝ) ^ 2 + 0 ^ 2 + 0 ^ 2 = 3 ^ 2 by norm_num, Real.sqrt_sq (by norm_num)]
  have n2 : nm (⟨1, 1, 0⟩ : Vec3 ℝ) ≤ 1.5 := by
    rw [nm, Real.sqrt_le_left (by norm_num)]; norm_num
  have n2' : 0 < nm (⟨1, 1, 0⟩ : Vec3 ℝ) := nm_pos (by intro h; have := congrArg Vec3.x h; norm_num at this)
  have n3 : nm ((⟨3, 0, 0⟩ : Vec3 ℝ).cross ⟨1, 1, 0⟩) = 3 := by
    rw [nm, show (3 : ℝ) = √(3 ^ 2) by rw [Real.sqrt_sq (by norm_num)]]
    congr 1
    simp [Vec3.cross]
  have hs : 2 / 3 ≤ sine ⟨3, 0, 0⟩ ⟨1, 1, 0⟩ := by
    rw [sine, ← nm_eq, ← nm_eq, ← nm_eq, n1, n3, le_div_iff₀ (by positivity)]
    linarith
  obtain ⟨M, F, h1, h2, h3, x, y, z, ex, ey, ez, hx, hy, hz⟩ := C169_frame_partial (isRel_rne 24 (by norm_num)) (by norm_num) .X .Y (.inl rfl)
    (.inr (.inl rfl)) (by decide) ⟨3, 0, 0⟩ ⟨1, 1, 0⟩ (by norm_num at hs ⊢; linarith)
  have b : 30 * (2 : ℝ) ^ (-(24 : ℕ) : ℤ) / sine ⟨3, 0, 0⟩ ⟨1, 1, 0⟩ ≤ 1 / 300000 := by
    rw [div_le_iff₀ (by linarith)]
    norm_num at hs ⊢
    linarith
  exact ⟨M, F, h1, h2, h3, x, y, z, ex, ey, ez, hx.trans b, hy.trans b, hz.trans b⟩

end MathLib
