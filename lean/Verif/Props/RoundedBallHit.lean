import Verif.Props.RoundedPlanes
import Verif.Proof.RneNearest

/-! # C190: the hit of two circles, and of two spheres, in floating point

`Fl ℝ (rne p)` rounds every operation to `p` significant bits, ties to even. -/

namespace MathLib

namespace BallHit
variable {p : ℕ}

/-- The root of a rounded square is exact. -/
theorem sqrt_sq (hp : 1 ≤ p) {x : ℝ} (hx : Rep p x) (h0 : 0 < x) : rne p √(rne p (x * x)) = x := by
  have hr := isRel_rne p hp
  obtain ⟨k1, k2⟩ := log_bounds x h0
  generalize Int.log 2 x = k at *
  obtain ⟨n, hn⟩ := hx.multiple hp k (by rwa [abs_of_pos h0])
  have kp := zpow2_pos (K := ℝ) k
  have up := zpow2_pos (K := ℝ) (-(p : ℤ))
  have ek : (2 : ℝ) ^ (k + 1) = 2 * 2 ^ k := by rw [zpow_add₀ two_ne_zero, zpow_one]; ring
  have ee : (2 : ℝ) ^ (k - ((p : ℤ) - 1)) = 2 * (2 ^ k * 2 ^ (-(p : ℤ))) := by
    rw [show k - ((p : ℤ) - 1) = 1 + (k + -(p : ℤ)) by ring, zpow_add₀ two_ne_zero, zpow_add₀ two_ne_zero, zpow_one]
  -- `x` is below `2^(k+1)` by a unit
  have top : x ≤ 2 * 2 ^ k - 2 * (2 ^ k * 2 ^ (-(p : ℤ))) := by
    have hN : (2 : ℝ) ^ (k + 1) = ((2 ^ p : ℤ) : ℝ) * 2 ^ (k - ((p : ℤ) - 1)) := by
      push_cast
      rw [← zpow_natCast, ← zpow_add₀ two_ne_zero]; congr 1; ring
    have : n < 2 ^ p := by
      rw [hN, hn] at k2
      exact_mod_cast lt_of_mul_lt_mul_right k2 (zpow2_pos _).le
    have h1 : (n : ℝ) ≤ ((2 ^ p : ℤ) : ℝ) - 1 := by exact_mod_cast Int.le_sub_one_of_lt this
    have := mul_le_mul_of_nonneg_right h1 (zpow2_pos (K := ℝ) (k - ((p : ℤ) - 1))).le
    rw [← hn, sub_mul, ← hN, one_mul, ek, ee] at this
    exact this
  have hs := hr.err (x * x)
  have low : ((2 : ℝ) ^ k) ^ 2 ≤ rne p (x * x) := by
    have h2 : ((2 : ℝ) ^ k) ^ 2 = 2 ^ (k * 2) := by rw [zpow_mul]; norm_cast
    have := rne_mono p hp (show ((2 : ℝ) ^ k) ^ 2 ≤ x * x by nlinarith)
    rw [h2, rne_of_rep hp (Rep.zpow _)] at this
    rwa [h2]
  generalize rne p (x * x) = S at *
  have S0 : 0 ≤ S := (sq_nonneg _).trans low
  have ss := Real.sq_sqrt S0
  have s0 := Real.sqrt_nonneg S
  have slow : (2 : ℝ) ^ k ≤ √S := Real.le_sqrt_of_sq_le low
  rw [abs_mul_self] at hs
  have hu1 := hr.lt_one
  have hs' := abs_le.1 hs
  rw [hn]
  generalize √S = s at *
  generalize (2 : ℝ) ^ (-(p : ℤ)) = u at *
  -- `√S ≥ x (1 - u)`
  have s1 : x * (1 - u) ≤ s := by
    have h1 : 0 ≤ x * (1 - u) := mul_nonneg h0.le (by linarith)
    refine abs_le_of_sq_le_sq' ?_ s0 |>.2
    have : (1 - u) ^ 2 ≤ 1 - u := by nlinarith
    have := mul_le_mul_of_nonneg_left this (mul_self_nonneg x)
    rw [ss, mul_pow]
    nlinarith
  -- the distance is less than half a unit
  have close : |s - x| < 2 ^ k * u := by
    have h1 : |s - x| * (s + x) ≤ u * (x * x) := by
      rw [← abs_of_pos (show 0 < s + x by linarith), ← abs_mul, show (s - x) * (s + x) = S - x * x by rw [← ss]; ring]
      exact hs
    have h2 : x * x < 2 ^ k * (s + x) := by
      have h3 : x < 2 ^ k * (2 - u) := by nlinarith
      have h4 : x * x < 2 ^ k * (2 - u) * x := mul_lt_mul_of_pos_right h3 h0
      have h5 := mul_le_mul_of_nonneg_left s1 kp.le
      nlinarith
    by_contra h
    have h6 := mul_le_mul_of_nonneg_right (not_lt.1 h) (show 0 ≤ s + x by linarith)
    have h7 := mul_lt_mul_of_pos_left h2 up
    nlinarith
  have c2 := (abs_lt.1 close)
  refine rne_eq (k - ((p : ℤ) - 1)) n ?_ ?_ ?_
  · rw [show k - ((p : ℤ) - 1) + ((p : ℤ) - 1) = k by ring]; exact slow
  · rw [show k - ((p : ℤ) - 1) + (p : ℤ) = k + 1 by ring, ek]
    have := mul_pos kp up
    linarith
  · rw [← hn, ee]
    linarith

/-- The depth of the overlap. -/
theorem depth (hp : 12 ≤ p) {r s q : ℝ} {a : Fl ℝ (rne p)} (h0 : 0 ≤ r + s) (hq : 0 ≤ q) (ha : Rel ((2 : ℝ) ^ (-(p : ℤ))) 5 q a)
    (h : ¬ a > (.num r + .num s) * (.num r + .num s)) : ∃ τ : ℝ, (.num r + .num s : Fl ℝ (rne p)) - MathFns.sqrt a = .num τ ∧ 0 ≤ τ ∧
      |τ - (r + s - √q)| ≤ 11 * (2 : ℝ) ^ (-(p : ℤ)) * (r + s) := by
  have hp1 : 1 ≤ p := by omega
  have hr := isRel_rne p hp1
  have u0 := hr.nonneg
  have hu : (2 : ℝ) ^ (-(p : ℤ)) ≤ 1 / 4096 := by
    rw [show (1 / 4096 : ℝ) = 2 ^ (-12 : ℤ) by norm_num]
    exact zpow_le_zpow_right₀ one_le_two (by omega)
  obtain ⟨g4, g4'⟩ := PlaneErr.gam_small u0 hu 4 (by norm_num)
  obtain ⟨g5, g5'⟩ := PlaneErr.gam_small u0 hu 5 (by norm_num)
  push_cast at g4 g5
  have hsq : Rel ((2 : ℝ) ^ (-(p : ℤ))) 4 √q (MathFns.sqrt a) := Rel.sqrt hr ha hq (m := 3)
  obtain ⟨-, τ, eτ, hτ⟩ := AbsErr.sub (k := 5) hr (AbsErr.of_rel hr (Rel.sum hr r s)) (AbsErr.of_rel hr hsq)
  obtain ⟨V, eV, hV⟩ := hsq.error hr
  obtain ⟨v, ev, hv⟩ := ha.error hr
  have hg5 : gam ((2 : ℝ) ^ (-(p : ℤ))) 5 ≤ 1 := by linarith
  have v0 : 0 ≤ v := by
    have := (abs_le.1 hv).1
    rw [abs_of_nonneg hq] at this
    nlinarith
  have D0 := rne_mono p hp1 h0
  rw [rne_zero] at D0
  have eD := hr.err (r + s)
  have rD := rep_rne p hp1 (r + s)
  subst ev
  rw [Fl.num_add, Fl.num_mul, gt_iff_lt, Fl.num_lt, not_lt] at h
  rw [Fl.fl_sqrt, if_neg (not_lt.2 v0)] at eV eτ
  rw [Fl.num_add] at eτ
  rw [Fl.num_add, Fl.fl_sqrt, if_neg (not_lt.2 v0)]
  generalize rne p (r + s) = D at *
  have hVD : V ≤ D := by
    have e : rne p √v = V := by injection eV
    rw [← e]
    refine (rne_mono p hp1 (Real.sqrt_le_sqrt h)).trans ?_
    rcases D0.eq_or_lt with h' | h'
    · rw [← h', mul_zero, rne_zero, Real.sqrt_zero, rne_zero]
    · exact (sqrt_sq hp1 rD h').le
  refine ⟨τ, eτ, ?_, ?_⟩
  · rw [eV, Fl.num_sub] at eτ
    have e : rne p (D - V) = τ := by injection eτ
    rw [← e]
    have := rne_mono p hp1 (show 0 ≤ D - V by linarith)
    rwa [rne_zero] at this
  · rw [abs_of_nonneg h0, abs_of_nonneg (Real.sqrt_nonneg q)] at hτ
    rw [abs_of_nonneg (Real.sqrt_nonneg q)] at hV
    rw [abs_of_nonneg h0] at eD
    have q0 := Real.sqrt_nonneg q
    have h1 := (abs_le.1 hV).1
    have h2 := (abs_le.1 eD).2
    have h3 := mul_le_mul_of_nonneg_right (show gam ((2 : ℝ) ^ (-(p : ℤ))) 4 ≤ 0.001 by linarith) q0
    have h4 := mul_le_mul_of_nonneg_right hu h0
    have h5 : √q ≤ 1.01 * (r + s) := by linarith
    have h6 := mul_le_mul g5 (show r + s + √q ≤ 2.01 * (r + s) by linarith) (by linarith) (by linarith)
    have h7 := mul_nonneg u0 h0
    linarith

/-- A coordinate of the hit. -/
theorem coordinate (hp : 12 ≤ p) {c d s L : ℝ} {l : Fl ℝ (rne p)} (hL : L ≠ 0) (hl : Rel ((2 : ℝ) ^ (-(p : ℤ))) 4 L l) :
    ∃ v : ℝ, (.num d : Fl ℝ (rne p)) + (.num c - .num d) * (.num s / l) = .num v ∧
      |v - (d + (c - d) * (s / L))| ≤ 8.1 * (2 : ℝ) ^ (-(p : ℤ)) * (|d| + |(c - d) * (s / L)|) := by
  have hr := isRel_rne p (show 1 ≤ p by omega)
  have u0 := hr.nonneg
  have hu : (2 : ℝ) ^ (-(p : ℤ)) ≤ 1 / 4096 := by
    rw [show (1 / 4096 : ℝ) = 2 ^ (-12 : ℤ) by norm_num]
    exact zpow_le_zpow_right₀ one_le_two (by omega)
  obtain ⟨g8, -⟩ := PlaneErr.gam_small u0 hu 8 (by norm_num)
  push_cast at g8
  have h1 : Rel ((2 : ℝ) ^ (-(p : ℤ))) 7 ((c - d) * (s / L)) ((.num c - .num d) * (.num s / l) : Fl ℝ (rne p)) :=
    Rel.mul hr (Rel.sub hr c d) (Rel.div hr (Rel.exact hr s) hl hL (k := 5))
  obtain ⟨-, v, ev, hv⟩ := AbsErr.add (k := 8) hr (AbsErr.exact hr d) (AbsErr.of_rel hr h1)
  exact ⟨v, ev, hv.trans (mul_le_mul_of_nonneg_right (by linarith) (by positivity))⟩

/-- A coordinate of the hit of circles. -/
theorem coordinate2 (hp : 12 ≤ p) {c d s L : ℝ} {l : Fl ℝ (rne p)} (hL : L ≠ 0) (hl : Rel ((2 : ℝ) ^ (-(p : ℤ))) 3 L l) :
    ∃ v : ℝ, (.num d : Fl ℝ (rne p)) + (.num c - .num d) * .num s / l = .num v ∧
      |v - (d + (c - d) * (s / L))| ≤ 8.1 * (2 : ℝ) ^ (-(p : ℤ)) * (|d| + |(c - d) * (s / L)|) := by
  have hr := isRel_rne p (show 1 ≤ p by omega)
  have u0 := hr.nonneg
  have hu : (2 : ℝ) ^ (-(p : ℤ)) ≤ 1 / 4096 := by
    rw [show (1 / 4096 : ℝ) = 2 ^ (-12 : ℤ) by norm_num]
    exact zpow_le_zpow_right₀ one_le_two (by omega)
  obtain ⟨g8, -⟩ := PlaneErr.gam_small u0 hu 8 (by norm_num)
  push_cast at g8
  have h1 : Rel ((2 : ℝ) ^ (-(p : ℤ))) 6 ((c - d) * s / L) ((.num c - .num d) * .num s / l : Fl ℝ (rne p)) :=
    Rel.div hr (Rel.mul hr (Rel.sub hr c d) (Rel.exact hr s) (k := 2)) hl hL
  rw [mul_div_assoc] at h1
  obtain ⟨-, v, ev, hv⟩ := AbsErr.add (k := 8) hr (AbsErr.exact hr d) (AbsErr.of_rel hr h1)
  exact ⟨v, ev, hv.trans (mul_le_mul_of_nonneg_right (by linarith) (by positivity))⟩

end BallHit

open BallHit

/-- C190 for spheres: whatever the centres and the radii, if a hit is reported in floating point then the reported depth of the overlap is not negative, and right
up to 11 units of the sum of the radii; and each coordinate of the hit is that of the exact hit, the centre of the other sphere moved by its radius towards this
one, up to `8.1` units, or the centre itself for equal centres. -/
theorem C190_sphere {p : ℕ} (hp : 12 ≤ p) (c d : Vec3 ℝ) (r s : ℝ) (h0 : 0 ≤ r + s) (hit : Vec3 (Fl ℝ (rne p))) (t : Fl ℝ (rne p))
    (h : (⟨Vec3.num c, .num r⟩ : Sphere (Fl ℝ (rne p))).intersectsHit ⟨Vec3.num d, .num s⟩ = some (hit, t)) :
    ∃ (q : Vec3 ℝ) (τ : ℝ), hit = Vec3.num q ∧ t = .num τ ∧
    (let L := √((c.x - d.x) ^ 2 + (c.y - d.y) ^ 2 + (c.z - d.z) ^ 2)
     let u := (2 : ℝ) ^ (-(p : ℤ))
     0 ≤ τ ∧ |τ - (r + s - L)| ≤ 11 * u * (r + s) ∧
     (c = d → q = ⟨rne p d.x, rne p d.y, rne p d.z⟩) ∧
     (c ≠ d → |q.x - (d.x + (c.x - d.x) * (s / L))| ≤ 8.1 * u * (|d.x| + |(c.x - d.x) * (s / L)|) ∧
       |q.y - (d.y + (c.y - d.y) * (s / L))| ≤ 8.1 * u * (|d.y| + |(c.y - d.y) * (s / L)|) ∧
       |q.z - (d.z + (c.z - d.z) * (s / L))| ≤ 8.1 * u * (|d.z| + |(c.z - d.z) * (s / L)|))) := by
  have hp1 : 1 ≤ p := by omega
  have hr := isRel_rne p hp1
  have hQ := rel_distanceSqr3 hr d c
  have hL := rel_distance3 hr d c
  have q0 : 0 ≤ (c.x - d.x) * (c.x - d.x) + (c.y - d.y) * (c.y - d.y) + (c.z - d.z) * (c.z - d.z) :=
    add_nonneg (add_nonneg (mul_self_nonneg _) (mul_self_nonneg _)) (mul_self_nonneg _)
  simp only [pow_two]
  have run : (⟨Vec3.num c, .num r⟩ : Sphere (Fl ℝ (rne p))).intersectsHit ⟨Vec3.num d, .num s⟩ =
      if distanceSqr3 (Vec3.num d : Vec3 (Fl ℝ (rne p))) (Vec3.num c) > (.num r + .num s) * (.num r + .num s) then none else
      some (Vec3.num d + (Vec3.num c - Vec3.num d).normalized (.num s),
        (.num r + .num s) - MathFns.sqrt (distanceSqr3 (Vec3.num d : Vec3 (Fl ℝ (rne p))) (Vec3.num c))) := rfl
  rw [run] at h
  by_cases hgt : distanceSqr3 (Vec3.num d : Vec3 (Fl ℝ (rne p))) (Vec3.num c) > (.num r + .num s) * (.num r + .num s)
  · rw [if_pos hgt] at h; cases h
  rw [if_neg hgt] at h
  simp only [Option.some.injEq, Prod.mk.injEq] at h
  obtain ⟨rfl, rfl⟩ := h
  obtain ⟨τ, eτ, τ0, hτ⟩ := depth hp h0 q0 hQ hgt
  have norm : (Vec3.num c - Vec3.num d : Vec3 (Fl ℝ (rne p))).normalized (.num s) =
      if distance3 (Vec3.num d : Vec3 (Fl ℝ (rne p))) (Vec3.num c) == 0 then Vec3.zero else
      ⟨(.num c.x - .num d.x) * (.num s / distance3 (Vec3.num d : Vec3 (Fl ℝ (rne p))) (Vec3.num c)),
       (.num c.y - .num d.y) * (.num s / distance3 (Vec3.num d : Vec3 (Fl ℝ (rne p))) (Vec3.num c)),
       (.num c.z - .num d.z) * (.num s / distance3 (Vec3.num d : Vec3 (Fl ℝ (rne p))) (Vec3.num c))⟩ := rfl
  rw [norm]
  by_cases hcd : c = d
  · have hz : (distance3 (Vec3.num d : Vec3 (Fl ℝ (rne p))) (Vec3.num c) == 0) = true := by
      obtain ⟨θ, -, e⟩ := hL
      rw [e, hcd, Fl.zero_def, Fl.num_beq]
      simp
    rw [hz, if_pos rfl]
    refine ⟨⟨rne p d.x, rne p d.y, rne p d.z⟩, τ, ?_, eτ, τ0, hτ, fun _ => rfl, fun h => absurd hcd h⟩
    change (⟨.num (rne p (d.x + 0)), .num (rne p (d.y + 0)), .num (rne p (d.z + 0))⟩ : Vec3 (Fl ℝ (rne p))) = _
    simp only [add_zero]; rfl
  · have hpos : 0 < (c.x - d.x) * (c.x - d.x) + (c.y - d.y) * (c.y - d.y) + (c.z - d.z) * (c.z - d.z) := by
      refine lt_of_le_of_ne q0 fun h => hcd ?_
      have h1 := mul_self_nonneg (c.x - d.x)
      have h2 := mul_self_nonneg (c.y - d.y)
      have h3 := mul_self_nonneg (c.z - d.z)
      have e1 : (c.x - d.x) * (c.x - d.x) = 0 := by linarith
      have e2 : (c.y - d.y) * (c.y - d.y) = 0 := by linarith
      have e3 : (c.z - d.z) * (c.z - d.z) = 0 := by linarith
      rw [mul_self_eq_zero, sub_eq_zero] at e1 e2 e3
      exact Vec3.ext e1 e2 e3
    have L0 : √((c.x - d.x) * (c.x - d.x) + (c.y - d.y) * (c.y - d.y) + (c.z - d.z) * (c.z - d.z)) ≠ 0 := (Real.sqrt_pos.2 hpos).ne'
    have hz : (distance3 (Vec3.num d : Vec3 (Fl ℝ (rne p))) (Vec3.num c) == 0) = false := by
      obtain ⟨θ, hθ, e⟩ := hL
      rw [e, Fl.zero_def, Fl.num_beq]
      simpa [(hθ.pos hr.lt_one).ne'] using L0
    rw [hz, if_neg (by simp)]
    obtain ⟨x, ex, hx⟩ := coordinate (c := c.x) (d := d.x) (s := s) hp L0 hL
    obtain ⟨y, ey, hy⟩ := coordinate (c := c.y) (d := d.y) (s := s) hp L0 hL
    obtain ⟨z, ez, hz'⟩ := coordinate (c := c.z) (d := d.z) (s := s) hp L0 hL
    refine ⟨⟨x, y, z⟩, τ, ?_, eτ, τ0, hτ, fun h => absurd h hcd, fun _ => ⟨hx, hy, hz'⟩⟩
    change _ = (⟨.num x, .num y, .num z⟩ : Vec3 (Fl ℝ (rne p)))
    rw [← ex, ← ey, ← ez]; rfl

/-- C190 for circles: the same in the plane. -/
theorem C190_circle {p : ℕ} (hp : 12 ≤ p) (c d : Vec2 ℝ) (r s : ℝ) (h0 : 0 ≤ r + s) (hit : Vec2 (Fl ℝ (rne p))) (t : Fl ℝ (rne p))
    (h : (⟨Vec2.num c, .num r⟩ : Circle (Fl ℝ (rne p))).intersectsHit ⟨Vec2.num d, .num s⟩ = some (hit, t)) :
    ∃ (q : Vec2 ℝ) (τ : ℝ), hit = Vec2.num q ∧ t = .num τ ∧
    (let L := √((c.x - d.x) ^ 2 + (c.y - d.y) ^ 2)
     let u := (2 : ℝ) ^ (-(p : ℤ))
     0 ≤ τ ∧ |τ - (r + s - L)| ≤ 11 * u * (r + s) ∧
     (c = d → q = ⟨rne p d.x, rne p d.y⟩) ∧
     (c ≠ d → |q.x - (d.x + (c.x - d.x) * (s / L))| ≤ 8.1 * u * (|d.x| + |(c.x - d.x) * (s / L)|) ∧
       |q.y - (d.y + (c.y - d.y) * (s / L))| ≤ 8.1 * u * (|d.y| + |(c.y - d.y) * (s / L)|))) := by
  have hp1 : 1 ≤ p := by omega
  have hr := isRel_rne p hp1
  have hQ := (rel_distanceSqr2 hr d c).mono hr (show 4 ≤ 5 by norm_num)
  have hL := rel_distance2 hr d c
  have q0 : 0 ≤ (c.x - d.x) * (c.x - d.x) + (c.y - d.y) * (c.y - d.y) :=
    add_nonneg (mul_self_nonneg _) (mul_self_nonneg _)
  simp only [pow_two]
  have run : (⟨Vec2.num c, .num r⟩ : Circle (Fl ℝ (rne p))).intersectsHit ⟨Vec2.num d, .num s⟩ =
      if distanceSqr2 (Vec2.num d : Vec2 (Fl ℝ (rne p))) (Vec2.num c) > (.num r + .num s) * (.num r + .num s) then none else
      some (Vec2.num d + (Vec2.num c - Vec2.num d).normalized (.num s),
        (.num r + .num s) - MathFns.sqrt (distanceSqr2 (Vec2.num d : Vec2 (Fl ℝ (rne p))) (Vec2.num c))) := rfl
  rw [run] at h
  by_cases hgt : distanceSqr2 (Vec2.num d : Vec2 (Fl ℝ (rne p))) (Vec2.num c) > (.num r + .num s) * (.num r + .num s)
  · rw [if_pos hgt] at h; cases h
  rw [if_neg hgt] at h
  simp only [Option.some.injEq, Prod.mk.injEq] at h
  obtain ⟨rfl, rfl⟩ := h
  obtain ⟨τ, eτ, τ0, hτ⟩ := depth hp h0 q0 hQ hgt
  have norm : (Vec2.num c - Vec2.num d : Vec2 (Fl ℝ (rne p))).normalized (.num s) =
      if distance2 (Vec2.num d : Vec2 (Fl ℝ (rne p))) (Vec2.num c) == 0 then ⟨0, 0⟩ else
      ⟨(.num c.x - .num d.x) * .num s / distance2 (Vec2.num d : Vec2 (Fl ℝ (rne p))) (Vec2.num c),
       (.num c.y - .num d.y) * .num s / distance2 (Vec2.num d : Vec2 (Fl ℝ (rne p))) (Vec2.num c)⟩ := rfl
  rw [norm]
  by_cases hcd : c = d
  · have hz : (distance2 (Vec2.num d : Vec2 (Fl ℝ (rne p))) (Vec2.num c) == 0) = true := by
      obtain ⟨θ, -, e⟩ := hL
      rw [e, hcd, Fl.zero_def, Fl.num_beq]
      simp
    rw [hz, if_pos rfl]
    refine ⟨⟨rne p d.x, rne p d.y⟩, τ, ?_, eτ, τ0, hτ, fun _ => rfl, fun h => absurd hcd h⟩
    change (⟨.num (rne p (d.x + 0)), .num (rne p (d.y + 0))⟩ : Vec2 (Fl ℝ (rne p))) = _
    simp only [add_zero]; rfl
  · have hpos : 0 < (c.x - d.x) * (c.x - d.x) + (c.y - d.y) * (c.y - d.y) := by
      refine lt_of_le_of_ne q0 fun h => hcd ?_
      have h1 := mul_self_nonneg (c.x - d.x)
      have h2 := mul_self_nonneg (c.y - d.y)
      have e1 : (c.x - d.x) * (c.x - d.x) = 0 := by linarith
      have e2 : (c.y - d.y) * (c.y - d.y) = 0 := by linarith
      rw [mul_self_eq_zero, sub_eq_zero] at e1 e2
      exact Vec2.ext e1 e2
    have L0 : √((c.x - d.x) * (c.x - d.x) + (c.y - d.y) * (c.y - d.y)) ≠ 0 := (Real.sqrt_pos.2 hpos).ne'
    have hz : (distance2 (Vec2.num d : Vec2 (Fl ℝ (rne p))) (Vec2.num c) == 0) = false := by
      obtain ⟨θ, hθ, e⟩ := hL
      rw [e, Fl.zero_def, Fl.num_beq]
      simpa [(hθ.pos hr.lt_one).ne'] using L0
    rw [hz, if_neg (by simp)]
    obtain ⟨x, ex, hx⟩ := coordinate2 (c := c.x) (d := d.x) (s := s) hp L0 hL
    obtain ⟨y, ey, hy⟩ := coordinate2 (c := c.y) (d := d.y) (s := s) hp L0 hL
    refine ⟨⟨x, y⟩, τ, ?_, eτ, τ0, hτ, fun h => absurd h hcd, fun _ => ⟨hx, hy⟩⟩
    change _ = (⟨.num x, .num y⟩ : Vec2 (Fl ℝ (rne p)))
    rw [← ex, ← ey]; rfl

/-- A hit is reported in `float` for the unit spheres, and circles, around the origin and `(1, 0)`, with the depth 1. -/
example : (∃ hit, (⟨Vec3.num ⟨0, 0, 0⟩, .num 1⟩ : Sphere (Fl ℝ (rne 24))).intersectsHit ⟨Vec3.num ⟨1, 0, 0⟩, .num 1⟩ = some (hit, .num 1)) ∧
    (∃ hit, (⟨Vec2.num ⟨0, 0⟩, .num 1⟩ : Circle (Fl ℝ (rne 24))).intersectsHit ⟨Vec2.num ⟨1, 0⟩, .num 1⟩ = some (hit, .num 1)) := by
  have r0 : rne 24 (0 : ℝ) = 0 := rne_zero 24
  have r1 : rne 24 (1 : ℝ) = 1 := rne_of_rep (by norm_num) ⟨1, 0, by norm_num, by norm_num⟩
  have rm : rne 24 (-1 : ℝ) = -1 := rne_of_rep (by norm_num) ⟨-1, 0, by norm_num, by norm_num⟩
  have r2 : rne 24 (2 : ℝ) = 2 := rne_of_rep (by norm_num) ⟨2, 0, by norm_num, by norm_num⟩
  have r4 : rne 24 (4 : ℝ) = 4 := rne_of_rep (by norm_num) ⟨4, 0, by norm_num, by norm_num⟩
  have a3 : ((Vec3.num ⟨0, 0, 0⟩ : Vec3 (Fl ℝ (rne 24))) - Vec3.num ⟨1, 0, 0⟩).lengthSqr = .num 1 := by
    change Fl.num (rne 24 (rne 24 (rne 24 (rne 24 (0 - 1) * rne 24 (0 - 1)) + rne 24 (rne 24 (0 - 0) * rne 24 (0 - 0))) +
      rne 24 (rne 24 (0 - 0) * rne 24 (0 - 0)))) = _
    norm_num [r0, r1, rm]
  have a2 : ((Vec2.num ⟨0, 0⟩ : Vec2 (Fl ℝ (rne 24))) - Vec2.num ⟨1, 0⟩).lengthSqr = .num 1 := by
    change Fl.num (rne 24 (rne 24 (rne 24 (0 - 1) * rne 24 (0 - 1)) + rne 24 (rne 24 (0 - 0) * rne 24 (0 - 0)))) = _
    norm_num [r0, r1, rm]
  have b : (.num 1 + .num 1 : Fl ℝ (rne 24)) = .num 2 := by rw [Fl.num_add]; norm_num [r2]
  have c : (.num 2 * .num 2 : Fl ℝ (rne 24)) = .num 4 := by rw [Fl.num_mul]; norm_num [r4]
  have d : (MathFns.sqrt (.num 1) : Fl ℝ (rne 24)) = .num 1 := by rw [Fl.fl_sqrt, if_neg (by norm_num), Real.sqrt_one, r1]
  have e : (.num 2 - .num 1 : Fl ℝ (rne 24)) = .num 1 := by rw [Fl.num_sub]; norm_num [r1]
  have f : ¬ ((.num 1 : Fl ℝ (rne 24)) > .num 4) := by rw [gt_iff_lt, Fl.num_lt]; norm_num
  constructor
  · simp only [Sphere.intersectsHit, a3, b, c, d, e, if_neg f]
    exact ⟨_, rfl⟩
  · simp only [Circle.intersectsHit, a2, b, c, d, e, if_neg f]
    exact ⟨_, rfl⟩

end MathLib
