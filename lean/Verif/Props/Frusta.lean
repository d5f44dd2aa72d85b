import Verif.Model.Frustum
import Verif.Props.Planes
import Verif.Proof.VecModule
import Verif.Spec.MatSpec
import Verif.Spec.Float
import Mathlib.Analysis.Convex.Hull

/-! # C82, C83: frusta -/

namespace MathLib

theorem nonpos_iff {k u : ℝ} (hk : 0 < k) : k * u ≤ 0 ↔ u ≤ 0 := by
  rw [← not_lt, ← not_lt, not_iff_not, mul_pos_iff_of_pos_left hk]

/-! ## The tests in terms of the corners -/

theorem dot_normalized_pos (n v : Vec3 ℝ) : 0 < (n.normalized 1).dot v ↔ 0 < n.dot v := by
  by_cases h : n = Vec3.zero
  · rw [(C22_normalize3 n 1).2.2.1 h, h]
  · obtain ⟨hp, e, -⟩ := (C22_normalize3 n 1).2.2.2 h
    have e2 : (n * (1 / n.length)).dot v = n.dot v * (1 / n.length) := by
      simp only [Vec3.dot, Vec3.mul_x, Vec3.mul_y, Vec3.mul_z]; ring
    rw [e, e2]
    exact mul_pos_iff_of_pos_right (by positivity)

theorem Plane.fromPoint_pos (a n p : Vec3 ℝ) : 0 < (Plane.fromPoint a n).distance p ↔ 0 < n.dot (p - a) := by
  rw [← dot_normalized_pos n, show (Plane.fromPoint a n).distance p = (n.normalized 1).dot (p - a) by
    simp only [Plane.fromPoint, Plane.distance, Vec3.dot, Vec3.sub_x, Vec3.sub_y, Vec3.sub_z]; ring]

/-- six times the signed volume of a, b, c, p -/
def side (a b c p : Vec3 ℝ) : ℝ := ((b - a).cross (c - a)).dot (p - a)

theorem Plane.fromPoints_pos (a b c p : Vec3 ℝ) : 0 < (Plane.fromPoints a b c).distance p ↔ 0 < side a b c p :=
  Plane.fromPoint_pos _ _ _

theorem Frustum.contains_iff (f : Frustum ℝ) (p : Vec3 ℝ) :
    f.contains id p = true ↔ ∀ i, (f.planes i).distance p ≤ 0 := by
  simp [Frustum.contains]

/-- the frustum test on the corners, without planes -/
theorem Frustum.contains_corners (c : Fin 8 → Vec3 ℝ) (p : Vec3 ℝ) :
    (Frustum.computePlanes c).contains id p = true ↔
      side (c 4) (c 5) (c 6) p ≤ 0 ∧ 0 ≤ ((c 5 - c 4).cross (c 6 - c 4)).dot (p - c 0) ∧
      side (c 3) (c 7) (c 6) p ≤ 0 ∧ side (c 3) (c 4) (c 7) p ≤ 0 ∧ side (c 1) (c 5) (c 4) p ≤ 0 ∧
      side (c 1) (c 6) (c 5) p ≤ 0 := by
  rw [Frustum.contains_iff]
  have hnear : (Plane.fromPoint (c 0) (-(Plane.fromPoints (c 4) (c 5) (c 6)).normal)).distance p ≤ 0 ↔
      0 ≤ ((c 5 - c 4).cross (c 6 - c 4)).dot (p - c 0) := by
    rw [← not_lt, ← not_lt, not_iff_not, Plane.fromPoint_pos]
    have e1 : (-(Plane.fromPoints (c 4) (c 5) (c 6)).normal).dot (p - c 0) =
        (((c 5 - c 4).cross (c 6 - c 4)).normalized 1).dot (-(p - c 0)) := by
      simp [Plane.fromPoints, Plane.fromPoint, Vec3.dot]; ring
    rw [e1, dot_normalized_pos]
    simp only [Vec3.dot, Vec3.neg_x, Vec3.neg_y, Vec3.neg_z]
    constructor <;> intro h <;> linarith
  have key : ∀ a b d, (Plane.fromPoints a b d).distance p ≤ 0 ↔ side a b d p ≤ 0 := by
    intro a b d; rw [← not_lt, ← not_lt, not_iff_not, Plane.fromPoints_pos]
  rw [← key, ← key, ← key, ← key, ← key, ← hnear]
  constructor
  · intro h; exact ⟨h 0, h 1, h 2, h 3, h 4, h 5⟩
  · rintro ⟨h0, h1, h2, h3, h4, h5⟩ i
    fin_cases i
    exacts [h0, h1, h2, h3, h4, h5]

/-! ## C82 -/

/-- The corners, in the documented order, of the solid between the rectangle [l,r]×[b,t] at height `zn`
(near) and the rectangle [L,R]×[B,T] at height `zf` (far). -/
def rectCorners (l r b t zn L R B T zf : ℝ) : Fin 8 → Vec3 ℝ
  | 0 => ⟨r, t, zn⟩ | 1 => ⟨r, b, zn⟩ | 2 => ⟨l, b, zn⟩ | 3 => ⟨l, t, zn⟩
  | 4 => ⟨R, T, zf⟩ | 5 => ⟨R, B, zf⟩ | 6 => ⟨L, B, zf⟩ | 7 => ⟨L, T, zf⟩

theorem rect_contains {l r b t zn L R B T zf : ℝ} (hx : L < R) (hy : B < T) (p : Vec3 ℝ) :
    (Frustum.set (rectCorners l r b t zn L R B T zf)).contains id p = true ↔
      (zf ≤ p.z ∧ p.z ≤ zn) ∧
      (l * (p.z - zf) + L * (zn - p.z) ≤ p.x * (zn - zf) ∧ p.x * (zn - zf) ≤ r * (p.z - zf) + R * (zn - p.z)) ∧
      (b * (p.z - zf) + B * (zn - p.z) ≤ p.y * (zn - zf) ∧ p.y * (zn - zf) ≤ t * (p.z - zf) + T * (zn - p.z)) := by
  rw [Frustum.set, Frustum.contains_corners]
  simp only [rectCorners, side, Vec3.cross, Vec3.dot, Vec3.sub_x, Vec3.sub_y, Vec3.sub_z]
  have hX : 0 < R - L := by linarith
  have hY : 0 < T - B := by linarith
  have hXY := mul_pos hX hY
  have e : ∀ {k u v : ℝ}, 0 < k → v = k * u → (v ≤ 0 ↔ u ≤ 0) := by
    intro k u v hk h; rw [h]; exact nonpos_iff hk
  have e' : ∀ {k u v : ℝ}, 0 < k → v = k * u → (0 ≤ v ↔ 0 ≤ u) := by
    intro k u v hk h; rw [h]; exact mul_nonneg_iff_of_pos_left hk
  refine (and_congr (e hXY (u := zf - p.z) (by ring)) (and_congr (e' hXY (u := zn - p.z) (by ring))
    (and_congr (e hY (u := l * (p.z - zf) + L * (zn - p.z) - p.x * (zn - zf)) (by ring))
    (and_congr (e hX (u := p.y * (zn - zf) - (t * (p.z - zf) + T * (zn - p.z))) (by ring))
    (and_congr (e hY (u := p.x * (zn - zf) - (r * (p.z - zf) + R * (zn - p.z))) (by ring))
    (e hX (u := b * (p.z - zf) + B * (zn - p.z) - p.y * (zn - zf)) (by ring))))))).trans ?_
  constructor
  · rintro ⟨h1, h2, h3, h4, h5, h6⟩
    exact ⟨⟨by linarith, by linarith⟩, ⟨by linarith, by linarith⟩, by linarith, by linarith⟩
  · rintro ⟨⟨h1, h2⟩, ⟨h3, h4⟩, h5, h6⟩
    exact ⟨by linarith, by linarith, by linarith, by linarith, by linarith, by linarith⟩

/-- C82: whatever the corners (indeed whatever the planes), the accepted set is convex. -/
theorem C82_convex (f : Frustum ℝ) : Convex ℝ {p | f.contains id p = true} := by
  intro x hx y hy a b ha hb hab
  simp only [Set.mem_ofPred_eq, Frustum.contains_iff] at *
  intro i
  have e : (f.planes i).distance (a • x + b • y) = a * (f.planes i).distance x + b * (f.planes i).distance y := by
    simp only [Plane.distance, Vec3.dot, Vec3.add_x, Vec3.add_y, Vec3.add_z, Vec3.smul_x, Vec3.smul_y, Vec3.smul_z]
    linear_combination (f.planes i).d * hab
  rw [e]
  have := mul_nonpos_of_nonneg_of_nonpos ha (hx i)
  have := mul_nonpos_of_nonneg_of_nonpos hb (hy i)
  linarith

/-- a number between `x` and `y` is a convex combination -/
theorem between_comb {x y z : ℝ} (h1 : x ≤ z) (h2 : z ≤ y) : ∃ u, 0 ≤ u ∧ u ≤ 1 ∧ z = (1 - u) * x + u * y := by
  rcases h1.eq_or_lt with rfl | h
  · exact ⟨0, le_rfl, zero_le_one, by ring⟩
  · have hp : 0 < y - x := by linarith
    refine ⟨(z - x) / (y - x), div_nonneg (by linarith) hp.le, by rw [div_le_one hp]; linarith, ?_⟩
    field_simp
    ring

/-- C82: for the corners of a solid with parallel axis-aligned rectangular near and far sides (symmetric
or not; the far side is not degenerate), in the documented order, `contains(p)` holds iff p is in the
convex hull of the corners. -/
theorem C82_hull {l r b t zn L R B T zf : ℝ} (hz : zf < zn) (hx : L < R) (hy : B < T) (hx' : l ≤ r) (hy' : b ≤ t)
    (p : Vec3 ℝ) :
    (Frustum.set (rectCorners l r b t zn L R B T zf)).contains id p = true ↔
      p ∈ convexHull ℝ (Set.range (rectCorners l r b t zn L R B T zf)) := by
  constructor
  · rw [rect_contains hx hy]
    rintro ⟨⟨h1, h2⟩, ⟨h3, h4⟩, h5, h6⟩
    have hd : 0 < zn - zf := by linarith
    obtain ⟨s, hs0, hs1, hs⟩ := between_comb h1 h2
    have e1 : p.z - zf = s * (zn - zf) := by rw [hs]; ring
    have e2 : zn - p.z = (1 - s) * (zn - zf) := by rw [hs]; ring
    rw [e1, e2] at h3 h4 h5 h6
    have k : ∀ A B : ℝ, A * (s * (zn - zf)) + B * ((1 - s) * (zn - zf)) = ((1 - s) * B + s * A) * (zn - zf) := by
      intro A B; ring
    rw [k] at h3 h4 h5 h6
    have h3 := le_of_mul_le_mul_right h3 hd
    have h4 := le_of_mul_le_mul_right h4 hd
    have h5 := le_of_mul_le_mul_right h5 hd
    have h6 := le_of_mul_le_mul_right h6 hd
    obtain ⟨u, hu0, hu1, hu⟩ := between_comb h3 h4
    obtain ⟨v, hv0, hv1, hv⟩ := between_comb h5 h6
    have hc := convex_convexHull ℝ (Set.range (rectCorners l r b t zn L R B T zf))
    have mem : ∀ i, rectCorners l r b t zn L R B T zf i ∈ convexHull ℝ (Set.range (rectCorners l r b t zn L R B T zf)) :=
      fun i => subset_convexHull ℝ _ ⟨i, rfl⟩
    have a1 := hc (mem 6) (mem 2) (sub_nonneg.2 hs1) hs0 (by ring)
    have a2 := hc (mem 5) (mem 1) (sub_nonneg.2 hs1) hs0 (by ring)
    have a3 := hc (mem 7) (mem 3) (sub_nonneg.2 hs1) hs0 (by ring)
    have a4 := hc (mem 4) (mem 0) (sub_nonneg.2 hs1) hs0 (by ring)
    have b1 := hc a1 a2 (sub_nonneg.2 hu1) hu0 (by ring)
    have b2 := hc a3 a4 (sub_nonneg.2 hu1) hu0 (by ring)
    have c1 := hc b1 b2 (sub_nonneg.2 hv1) hv0 (by ring)
    convert c1 using 1
    ext
    · simp only [rectCorners, Vec3.add_x, Vec3.smul_x]; rw [hu]; ring
    · simp only [rectCorners, Vec3.add_y, Vec3.smul_y]; rw [hv]; ring
    · simp only [rectCorners, Vec3.add_z, Vec3.smul_z]; rw [hs]; ring
  · intro h
    have hsub : Set.range (rectCorners l r b t zn L R B T zf) ⊆
        {p | (Frustum.set (rectCorners l r b t zn L R B T zf)).contains id p = true} := by
      rintro _ ⟨i, rfl⟩
      rw [Set.mem_ofPred_eq, rect_contains hx hy]
      have hd : 0 < zn - zf := by linarith
      have := mul_le_mul_of_nonneg_right hx' hd.le
      have := mul_le_mul_of_nonneg_right hy' hd.le
      have := mul_le_mul_of_nonneg_right hx.le hd.le
      have := mul_le_mul_of_nonneg_right hy.le hd.le
      fin_cases i <;> simp only [rectCorners] <;>
        refine ⟨⟨?_, ?_⟩, ⟨?_, ?_⟩, ?_, ?_⟩ <;> linarith
    exact convexHull_min hsub (C82_convex _) h

/-- C82, the symmetric perspective frustum with near distance `n`, far distance `f`, half-width `a` and
half-height `b` of the near side, looking along -z: `contains(p)` holds iff p is between the near and
far distances and inside the pyramid. -/
theorem C82_perspective {n f a b : ℝ} (hn : 0 < n) (hf : n < f) (ha : 0 < a) (hb : 0 < b) (p : Vec3 ℝ) :
    (Frustum.set (rectCorners (-a) a (-b) b (-n) (-(a * f / n)) (a * f / n) (-(b * f / n)) (b * f / n) (-f))).contains
        id p = true ↔
      (n ≤ -p.z ∧ -p.z ≤ f) ∧ |p.x| ≤ a / n * -p.z ∧ |p.y| ≤ b / n * -p.z := by
  have hf0 : 0 < f := hn.trans hf
  have hA : 0 < a * f / n := by positivity
  have hB : 0 < b * f / n := by positivity
  have hd : 0 < f - n := by linarith
  rw [rect_contains (by linarith) (by linarith), abs_le, abs_le]
  have k : ∀ c : ℝ, c * (p.z - -f) + c * f / n * (-n - p.z) = c / n * -p.z * (-n - -f) := by
    intro c; field_simp; ring
  have k' : ∀ c : ℝ, -c * (p.z - -f) + -(c * f / n) * (-n - p.z) = -(c / n * -p.z) * (-n - -f) := by
    intro c; field_simp; ring
  rw [k, k, k', k', show -n - -f = f - n by ring, mul_le_mul_iff_left₀ hd, mul_le_mul_iff_left₀ hd,
    mul_le_mul_iff_left₀ hd, mul_le_mul_iff_left₀ hd]
  constructor
  · rintro ⟨⟨h1, h2⟩, h3, h4⟩; exact ⟨⟨by linarith, by linarith⟩, h3, h4⟩
  · rintro ⟨⟨h1, h2⟩, h3, h4⟩; exact ⟨⟨by linarith, by linarith⟩, h3, h4⟩

/-- C82, the axis-aligned box. -/
theorem C82_box (B : AABB3 ℝ) (hx : B.inf.x < B.sup.x) (hy : B.inf.y < B.sup.y) (hz : B.inf.z < B.sup.z)
    (p : Vec3 ℝ) :
    (Frustum.set (rectCorners B.inf.x B.sup.x B.inf.y B.sup.y B.sup.z B.inf.x B.sup.x B.inf.y B.sup.y
      B.inf.z)).contains id p = true ↔ p ∈ B.toSet := by
  rw [rect_contains hx hy]
  have hd : 0 < B.sup.z - B.inf.z := by linarith
  have k : ∀ c : ℝ, c * (p.z - B.inf.z) + c * (B.sup.z - p.z) = c * (B.sup.z - B.inf.z) := by intro c; ring
  rw [k, k, k, k, mul_le_mul_iff_left₀ hd, mul_le_mul_iff_left₀ hd, mul_le_mul_iff_left₀ hd,
    mul_le_mul_iff_left₀ hd]
  simp only [AABB3.toSet, Set.mem_ofPred_eq]
  tauto

example : (Frustum.set (rectCorners (-1) 1 (-1) 1 (-1) (-(1 * 10 / 1)) (1 * 10 / 1) (-(1 * 10 / 1)) (1 * 10 / 1)
    (-10))).contains id (⟨2, -1, -5⟩ : Vec3 ℝ) = true ∧
    (Frustum.set (rectCorners (-1) 1 (-1) 1 (-1) (-(1 * 10 / 1)) (1 * 10 / 1) (-(1 * 10 / 1)) (1 * 10 / 1)
    (-10))).contains id (⟨6, -1, -5⟩ : Vec3 ℝ) = false := by
  rw [Bool.eq_false_iff, ne_eq, C82_perspective one_pos (by norm_num) one_pos one_pos,
    C82_perspective one_pos (by norm_num) one_pos one_pos]
  norm_num [abs_of_pos]

theorem side_transform (m : Mat3 ℝ) (u v w : Vec3 ℝ) :
    ((m.mulVec u).cross (m.mulVec v)).dot (m.mulVec w) = m.toM.det * (u.cross v).dot w := by
  rw [Matrix.det_fin_three]
  simp only [Mat3.mulVec, Vec3.cross, Vec3.dot, Mat3.toM]
  simp
  ring

theorem transformed_sub (m : Mat34 ℝ) (u v : Vec3 ℝ) :
    Frustum.transformed m.row u - Frustum.transformed m.row v = m.rs.mulVec (u - v) := by
  ext <;> simp [Frustum.transformed, Mat34.row, Mat3.mulVec] <;> ring

/-- C82, after a transformation: a local-to-world matrix that keeps the orientation (positive
determinant; rotations, scalings, translations, …) carries the accepted set along.  Same for the
`Mat4` version. -/
theorem C82_transform (m : Mat34 ℝ) (hm : 0 < m.rs.toM.det) (c : Fin 8 → Vec3 ℝ) (p : Vec3 ℝ) :
    (Frustum.setMat34 m c).contains id (m.mulVec p) = (Frustum.set c).contains id p := by
  have hp : m.mulVec p = Frustum.transformed m.row p := by
    ext <;> simp [Frustum.transformed, Mat34.row, Mat34.mulVec]
  rw [Bool.eq_iff_iff, hp, Frustum.setMat34, Frustum.set, Frustum.contains_corners, Frustum.contains_corners]
  simp only [side, transformed_sub, side_transform, nonpos_iff hm, mul_nonneg_iff_of_pos_left hm]

theorem C82_transform4 (m : Mat4 ℝ) (hm : 0 < (m.toM.submatrix Fin.castSucc Fin.castSucc).det)
    (c : Fin 8 → Vec3 ℝ) (p : Vec3 ℝ) :
    (Frustum.setMat4 m c).contains id (m.mulVec3 p) = (Frustum.set c).contains id p := by
  let m' : Mat34 ℝ := ⟨⟨⟨m.x.x, m.x.y, m.x.z⟩, ⟨m.y.x, m.y.y, m.y.z⟩, ⟨m.z.x, m.z.y, m.z.z⟩, m.flags⟩,
    ⟨m.t.x, m.t.y, m.t.z⟩⟩
  have e : m'.rs.toM = m.toM.submatrix Fin.castSucc Fin.castSucc := by
    ext i j; fin_cases i <;> fin_cases j <;> rfl
  rw [← C82_transform m' (by rw [e]; exact hm)]
  rfl

/-- the orientation matters: after a mirroring matrix the planes face inwards and the image of an inner
point is rejected -/
theorem C82_mirror :
    ∃ (m : Mat34 ℝ) (c : Fin 8 → Vec3 ℝ) (p : Vec3 ℝ), m.rs.toM.det = -1 ∧
      (Frustum.set c).contains id p = true ∧ (Frustum.setMat34 m c).contains id (m.mulVec p) = false := by
  refine ⟨⟨⟨⟨-1, 0, 0⟩, ⟨0, 1, 0⟩, ⟨0, 0, 1⟩, ⟨false, false, false, false, false⟩⟩, ⟨0, 0, 0⟩⟩, rectCorners (-1) 1 (-1) 1 1 (-1) 1 (-1) 1 (-1),
    ⟨0, 0, 0⟩, ?_, ?_, ?_⟩
  · rw [Matrix.det_fin_three]; simp [Mat3.toM]
  · rw [rect_contains] <;> norm_num
  · rw [Bool.eq_false_iff, ne_eq, Frustum.setMat34, Frustum.contains_corners]
    norm_num [side, Frustum.transformed, Mat34.row, Mat34.mulVec, rectCorners, Vec3.cross, Vec3.dot]

/-- C82: the `Vec4` overload ignores w. -/
theorem C82_vec4 (f : Frustum ℝ) (p : Vec4 ℝ) : f.contains4 id p = f.contains id ⟨p.x, p.y, p.z⟩ := rfl

/-- C82, `Real` = double: the distance is converted to float before the comparison.  The conversion is
monotone and keeps zero, so accepted points stay accepted; if it flushes no positive distance to zero,
the conversion makes no difference. -/
theorem C82_narrow {K : Type} [Field K] [LinearOrder K] (narrow : K → K) (hmono : Monotone narrow)
    (h0 : narrow 0 = 0) (f : Frustum K) (p : Vec3 K) :
    (f.contains id p = true → f.contains narrow p = true) ∧
    ((∀ x, 0 < x → 0 < narrow x) → f.contains narrow p = f.contains id p) := by
  have h1 : f.contains id p = true → f.contains narrow p = true := by
    intro h
    simp only [Frustum.contains, List.all_eq_true, gt_iff_lt, id] at *
    intro i hi
    have := h i hi
    rw [Bool.if_false_left, Bool.and_true, Bool.not_eq_true', decide_eq_false_iff_not, not_lt] at this ⊢
    exact h0 ▸ hmono this
  refine ⟨h1, fun hpos => ?_⟩
  rw [Bool.eq_iff_iff]
  refine ⟨fun h => ?_, h1⟩
  simp only [Frustum.contains, List.all_eq_true, gt_iff_lt, id] at *
  intro i hi
  have := h i hi
  rw [Bool.if_false_left, Bool.and_true, Bool.not_eq_true', decide_eq_false_iff_not, not_lt] at this ⊢
  exact not_lt.1 fun hlt => absurd (hpos _ hlt) (not_lt.2 this)

/-- a conversion that flushes does accept a point outside -/
theorem C82_flush : ∃ (narrow : ℚ → ℚ) (f : Frustum ℚ) (p : Vec3 ℚ), Monotone narrow ∧ narrow 0 = 0 ∧
    f.contains id p = false ∧ f.contains narrow p = true := by
  refine ⟨fun x => if 0 ≤ x ∧ x < 1/1000 then 0 else x, ⟨fun _ => ⟨0, 0, 0⟩, fun _ => ⟨⟨1, 0, 0⟩, 0⟩⟩,
    ⟨1/2000, 0, 0⟩, ?_, by norm_num, by decide +kernel, by decide +kernel⟩
  intro x y h
  simp only
  split_ifs with h1 h2 h3
  · exact le_rfl
  · exact h1.1.trans h
  · by_contra hc
    exact h1 ⟨(not_le.1 hc).le, h.trans_lt h3.2⟩
  · exact h

/-! ## C83 -/

theorem ball_side (P : Plane ℝ) (hP : P.IsUnit) (s : Sphere ℝ) (hs : 0 ≤ s.radius) :
    ((∀ q ∈ s.toSet, P.distance q ≤ 0) ↔ P.distance s.center ≤ -s.radius) ∧
    ((∃ q ∈ s.toSet, P.distance q ≤ 0) ↔ P.distance s.center ≤ s.radius) := by
  have hu := hP
  simp only [Plane.IsUnit] at hu
  have hadd : ∀ q, P.distance q = P.distance s.center + (P.normal.x * (q.x - s.center.x) +
      P.normal.y * (q.y - s.center.y) + P.normal.z * (q.z - s.center.z)) := by
    intro q; simp only [Plane.distance, Vec3.dot]; ring
  have hin : ∀ q ∈ s.toSet, |P.distance q - P.distance s.center| ≤ s.radius := by
    intro q hq
    have hq' : dist q.toE s.center.toE ≤ s.radius := hq
    rw [hadd q, add_sub_cancel_left]
    exact (unit_dot_le hu q s.center).trans hq'
  have hmove : ∀ k : ℝ, |k| = s.radius → s.center + P.normal * k ∈ s.toSet ∧
      P.distance (s.center + P.normal * k) = P.distance s.center + k := by
    intro k hk
    constructor
    · change dist (s.center + P.normal * k).toE s.center.toE ≤ s.radius
      rw [Vec3.dist_toE, ← hk, ← Real.sqrt_sq_eq_abs]
      apply le_of_eq
      congr 1
      simp only [Vec3.add_x, Vec3.add_y, Vec3.add_z, Vec3.mul_x, Vec3.mul_y, Vec3.mul_z]
      linear_combination k ^ 2 * hu
    · rw [hadd]
      simp only [Vec3.add_x, Vec3.add_y, Vec3.add_z, Vec3.mul_x, Vec3.mul_y, Vec3.mul_z]
      linear_combination k * hu
  constructor
  · constructor
    · intro h
      obtain ⟨h1, h2⟩ := hmove s.radius (abs_of_nonneg hs)
      have := h _ h1
      linarith
    · intro h q hq
      have := (abs_le.1 (hin q hq)).2
      linarith
  · constructor
    · rintro ⟨q, hq, h⟩
      have := (abs_le.1 (hin q hq)).1
      linarith
    · intro h
      obtain ⟨h1, h2⟩ := hmove (-s.radius) (by rw [abs_neg, abs_of_nonneg hs])
      exact ⟨_, h1, by linarith⟩

/-- C83: for unit plane normals, `contains(sphere)` holds iff every point of the ball is accepted by
`contains(point)`; `intersects(sphere)` holds iff the ball reaches into the half-space of each plane,
and so whenever some point of the ball is in the frustum. -/
theorem C83_sphere (f : Frustum ℝ) (hf : ∀ i, (f.planes i).IsUnit) (s : Sphere ℝ) (hs : 0 ≤ s.radius) :
    (f.containsSphere id s = true ↔ ∀ q ∈ s.toSet, f.contains id q = true) ∧
    (f.intersectsSphere id s = true ↔ ∀ i, ∃ q ∈ s.toSet, (f.planes i).distance q ≤ 0) ∧
    ((∃ q ∈ s.toSet, f.contains id q = true) → f.intersectsSphere id s = true) := by
  have h1 : f.containsSphere id s = true ↔ ∀ i, (f.planes i).distance s.center ≤ -s.radius := by
    simp [Frustum.containsSphere]
  have h2 : f.intersectsSphere id s = true ↔ ∀ i, (f.planes i).distance s.center ≤ s.radius := by
    simp [Frustum.intersectsSphere]
  have h3 : f.intersectsSphere id s = true ↔ ∀ i, ∃ q ∈ s.toSet, (f.planes i).distance q ≤ 0 := by
    rw [h2]; exact forall_congr' fun i => (ball_side _ (hf i) s hs).2.symm
  refine ⟨?_, h3, ?_⟩
  · rw [h1]
    simp only [Frustum.contains_iff]
    rw [forall_congr' fun i => (ball_side _ (hf i) s hs).1.symm]
    exact ⟨fun h q hq i => h i q hq, fun h i q hq => h q hq i⟩
  · rintro ⟨q, hq, h⟩
    rw [Frustum.contains_iff] at h
    exact h3.2 fun i => ⟨q, hq, h i⟩

/-- The planes that `set` computes do have unit normals, for corners as in C82. -/
theorem C83_unit {l r b t zn L R B T zf : ℝ} (hz : zf < zn) (hx : L < R) (hy : B < T) (i : Fin 6) :
    ((Frustum.set (rectCorners l r b t zn L R B T zf)).planes i).IsUnit := by
  have hX : R - L ≠ 0 := by intro h; linarith
  have hX' : L - R ≠ 0 := by intro h; linarith
  have hY : T - B ≠ 0 := by intro h; linarith
  have hY' : B - T ≠ 0 := by intro h; linarith
  have hZ : zn - zf ≠ 0 := by intro h; linarith
  have key : ∀ a b c : Vec3 ℝ, ((b - a).cross (c - a)) ≠ Vec3.zero → (Plane.fromPoints a b c).IsUnit :=
    fun a b c h => (C77_normal a _ 0 h).1.1
  have hfar : (Plane.fromPoints (⟨R, T, zf⟩ : Vec3 ℝ) ⟨R, B, zf⟩ ⟨L, B, zf⟩).IsUnit := by
    apply key; simp [Vec3.cross, Vec3.zero, hX', hY']
  fin_cases i
  · exact hfar
  · refine (C77_normal _ _ 0 ?_).1.1
    intro h
    have h' : (Plane.fromPoints (⟨R, T, zf⟩ : Vec3 ℝ) ⟨R, B, zf⟩ ⟨L, B, zf⟩).normal = Vec3.zero := by
      have := congrArg (fun v : Vec3 ℝ => -v) h
      simpa [Vec3.zero, Vec3.ext_iff, rectCorners] using this
    simp [Plane.IsUnit, h', Vec3.zero] at hfar
  · refine key _ _ _ fun h => ?_
    have : (T - B) * (zn - zf) = 0 := by
      have := congrArg Vec3.x h
      simp only [rectCorners, Vec3.cross, Vec3.zero, Vec3.sub_x, Vec3.sub_y, Vec3.sub_z] at this
      linear_combination -this
    exact (mul_ne_zero hY hZ) this
  · refine key _ _ _ fun h => ?_
    have : (R - L) * (zn - zf) = 0 := by
      have := congrArg Vec3.y h
      simp only [rectCorners, Vec3.cross, Vec3.zero, Vec3.sub_x, Vec3.sub_y, Vec3.sub_z] at this
      linear_combination this
    exact (mul_ne_zero hX hZ) this
  · refine key _ _ _ fun h => ?_
    have : (T - B) * (zn - zf) = 0 := by
      have := congrArg Vec3.x h
      simp only [rectCorners, Vec3.cross, Vec3.zero, Vec3.sub_x, Vec3.sub_y, Vec3.sub_z] at this
      linear_combination this
    exact (mul_ne_zero hY hZ) this
  · refine key _ _ _ fun h => ?_
    have : (R - L) * (zn - zf) = 0 := by
      have := congrArg Vec3.y h
      simp only [rectCorners, Vec3.cross, Vec3.zero, Vec3.sub_x, Vec3.sub_y, Vec3.sub_z] at this
      linear_combination -this
    exact (mul_ne_zero hX hZ) this

/-- `intersects(sphere)` is conservative: near a corner it answers true for balls that miss the solid. -/
theorem C83_conservative :
    ∃ (f : Frustum ℝ) (s : Sphere ℝ), (∀ i, (f.planes i).IsUnit) ∧ 0 ≤ s.radius ∧
      f.intersectsSphere id s = true ∧ ∀ q ∈ s.toSet, f.contains id q = false := by
  refine ⟨Frustum.set (rectCorners (-1) 1 (-1) 1 1 (-1) 1 (-1) 1 (-1)), ⟨⟨3/2, 3/2, 3/2⟩, 1/2⟩, fun i =>
    C83_unit (by norm_num) (by norm_num) (by norm_num) i, by norm_num, ?_, ?_⟩
  · rw [(C83_sphere _ (fun i => C83_unit (by norm_num) (by norm_num) (by norm_num) i) _ (by norm_num)).2.1]
    have hmem : ∀ q : Vec3 ℝ, (q.x - 3/2) ^ 2 + (q.y - 3/2) ^ 2 + (q.z - 3/2) ^ 2 ≤ (1/2) ^ 2 →
        q ∈ (⟨⟨3/2, 3/2, 3/2⟩, 1/2⟩ : Sphere ℝ).toSet := by
      intro q h
      change dist q.toE (⟨3/2, 3/2, 3/2⟩ : Vec3 ℝ).toE ≤ 1/2
      rw [Vec3.dist_toE]
      exact Real.sqrt_le_iff.2 ⟨by norm_num, h⟩
    -- touching points of the ball for each plane, from the corner form of the test
    have hp : ∀ a b c q : Vec3 ℝ, side a b c q ≤ 0 → (Plane.fromPoints a b c).distance q ≤ 0 :=
      fun a b c q h => not_lt.1 fun h' => absurd ((Plane.fromPoints_pos a b c q).1 h') (not_lt.2 h)
    intro i
    fin_cases i
    · exact ⟨⟨3/2, 3/2, 3/2⟩, hmem _ (by norm_num), hp _ _ _ _ (by
        norm_num [side, rectCorners, Vec3.cross, Vec3.dot])⟩
    · refine ⟨⟨3/2, 3/2, 1⟩, hmem _ (by norm_num), ?_⟩
      have hn : ((Frustum.set (rectCorners (-1) 1 (-1) 1 1 (-1) 1 (-1) 1 (-1))).planes 1).distance ⟨3/2, 3/2, 1⟩ ≤ 0 := by
        refine not_lt.1 fun h' => ?_
        have h2 := (Plane.fromPoint_pos _ _ _).1 h'
        norm_num [rectCorners, Plane.fromPoints, Plane.fromPoint, Vec3.cross, Vec3.dot, Vec3.normalized, Vec3.length] at h2
      exact hn
    · exact ⟨⟨3/2, 3/2, 3/2⟩, hmem _ (by norm_num), hp _ _ _ _ (by
        norm_num [side, rectCorners, Vec3.cross, Vec3.dot])⟩
    · exact ⟨⟨3/2, 1, 3/2⟩, hmem _ (by norm_num), hp _ _ _ _ (by
        norm_num [side, rectCorners, Vec3.cross, Vec3.dot])⟩
    · exact ⟨⟨1, 3/2, 3/2⟩, hmem _ (by norm_num), hp _ _ _ _ (by
        norm_num [side, rectCorners, Vec3.cross, Vec3.dot])⟩
    · exact ⟨⟨3/2, 3/2, 3/2⟩, hmem _ (by norm_num), hp _ _ _ _ (by
        norm_num [side, rectCorners, Vec3.cross, Vec3.dot])⟩
  · intro q hq
    rw [Bool.eq_false_iff, ne_eq, rect_contains (by norm_num) (by norm_num)]
    have hq' : dist q.toE (⟨3/2, 3/2, 3/2⟩ : Vec3 ℝ).toE ≤ 1/2 := hq
    rw [Vec3.dist_toE, Real.sqrt_le_iff] at hq'
    rintro ⟨⟨h1, h2⟩, ⟨h3, h4⟩, h5, h6⟩
    nlinarith [hq'.2]

end MathLib
