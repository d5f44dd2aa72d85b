import Verif.Proof.IeeeVec
import Verif.Props.RoundedVectors

/-! # Property C124: length and normalisation with overflow and underflow -/

namespace MathLib
open Ieee

variable {p : ℕ} {emax k : ℤ}

/-- The property: whatever the size of a vector that is not null, its length is not 0 and normalising it gives
a vector whose length is within 1% of 1. -/
def C124_full (p : ℕ) (emax : ℤ) : Prop :=
  ∀ (v : Vec3 (Ieee ℝ p emax)) (r : Vec3 ℝ), v.Is r → r ≠ ⟨0, 0, 0⟩ →
    (v.length == 0) = false ∧
    ∃ w : Vec3 ℝ, (v.normalized 1).Is w ∧ |√(w.x ^ 2 + w.y ^ 2 + w.z ^ 2) - 1| ≤ 1 / 100

/-- C124: a vector with a coordinate so large that its square overflows has an infinite length, and
normalising it gives the null vector. -/
theorem C124_overflow (hp : 1 ≤ p) (he : 0 ≤ emax) (v : Vec3 (Ieee ℝ p emax)) (r : Vec3 ℝ) (hv : v.Is r) (j : ℤ)
    (hj : emax + 1 ≤ 2 * j) (h : (2 : ℝ) ^ j ≤ |r.x| ∨ (2 : ℝ) ^ j ≤ |r.y| ∨ (2 : ℝ) ^ j ≤ |r.z|) :
    v.length = inf false ∧ (v.normalized 1).Is ⟨0, 0, 0⟩ ∧ (v.normalize 1).1.Is ⟨0, 0, 0⟩ := by
  obtain ⟨vx, vy, vz⟩ := hv
  have hl : v.length = inf false := by
    have : v.x * v.x + v.y * v.y + v.z * v.z = inf false := by
      rcases h with h | h | h
      · rw [sq_big hp he vx hj h, inf_add (sq_nn vy), inf_add (sq_nn vz)]
      · rw [sq_big hp he vy hj h, add_inf (sq_nn vx), inf_add (sq_nn vz)]
      · rw [sq_big hp he vz hj h, add_inf (add_nn (sq_nn vx) (sq_nn vy))]
    rw [Vec3.length, this]; rfl
  have h0 : ((inf false : Ieee ℝ p emax) == 0) = false := rfl
  refine ⟨hl, ?_, ?_⟩
  · simp only [Vec3.normalized, hl, h0, Bool.false_eq_true, if_false]
    exact ⟨mul_one_div_inf vx, mul_one_div_inf vy, mul_one_div_inf vz⟩
  · simp only [Vec3.normalize, hl, h0, Bool.false_eq_true, if_false]
    exact ⟨mul_one_div_inf vx, mul_one_div_inf vy, mul_one_div_inf vz⟩

/-- C124: a vector so small that all squares underflow to zero has length 0, and normalising it gives the null
vector. -/
theorem C124_underflow (hp : 1 ≤ p) (v : Vec3 (Ieee ℝ p emax)) (r : Vec3 ℝ) (hv : v.Is r) (j : ℤ)
    (hj : 2 * j ≤ 1 - emax - p) (hx : |r.x| < (2 : ℝ) ^ j) (hy : |r.y| < (2 : ℝ) ^ j) (hz : |r.z| < (2 : ℝ) ^ j) :
    v.length = zero false ∧ v.normalized 1 = ⟨0, 0, 0⟩ ∧ (v.normalize 1).1 = ⟨0, 0, 0⟩ := by
  obtain ⟨vx, vy, vz⟩ := hv
  have hl : v.length = zero false := by
    rw [Vec3.length, sq_tiny hp vx hj hx, sq_tiny hp vy hj hy, sq_tiny hp vz hj hz]; rfl
  have h0 : ((zero false : Ieee ℝ p emax) == 0) = true := rfl
  refine ⟨hl, ?_, ?_⟩
  · simp only [Vec3.normalized, hl, h0, if_true]; rfl
  · simp only [Vec3.normalize, hl, h0, if_true]

example : (127 : ℤ) + 1 ≤ 2 * 64 ∧ (2 : ℤ) * (-75) ≤ 1 - 127 - 24 ∧ (2 : ℤ) * 62 + 2 ≤ 127 := by norm_num

/-- C124 is false in every format: the vector `(2^e, 0, 0)`, with `e` the greatest exponent, normalises to the
null vector, and the vector `(2^(-e), 0, 0)`, `e` as large as the format allows, has length 0.  For `float`,
`(2^64, 0, 0)` and `(2^-76, 0, 0)` do. -/
theorem C124_refuted :
    (∀ (p : ℕ) (emax : ℤ), 1 ≤ p → 1 ≤ emax → ¬ C124_full p emax) ∧
    (let v : Vec3 B32 := ⟨num (2 ^ (64 : ℤ)), 0, 0⟩; (v.normalized 1).Is ⟨0, 0, 0⟩) ∧
    (let v : Vec3 B32 := ⟨num (2 ^ (-76 : ℤ)), 0, 0⟩; v.length = 0 ∧ v.normalized 1 = ⟨0, 0, 0⟩) := by
  refine ⟨fun p emax hp he h => ?_, ?_, ?_⟩
  · have hv : (⟨num (2 ^ emax), 0, 0⟩ : Vec3 (Ieee ℝ p emax)).Is ⟨2 ^ emax, 0, 0⟩ := ⟨rfl, rfl, rfl⟩
    obtain ⟨-, w, hw, hn⟩ := h _ _ hv (by
      intro h; exact (zpow2_pos (K := ℝ) emax).ne' (congrArg Vec3.x h))
    have h2 := (C124_overflow hp (by omega) _ _ hv emax (by omega) (Or.inl (le_abs_self _))).2.1
    have ex : w.x = 0 := by have := hw.1.symm.trans h2.1; simpa using this
    have ey : w.y = 0 := by have := hw.2.1.symm.trans h2.2.1; simpa using this
    have ez : w.z = 0 := by have := hw.2.2.symm.trans h2.2.2; simpa using this
    rw [ex, ey, ez] at hn
    norm_num at hn
  · exact (C124_overflow (by norm_num) (by norm_num) _ ⟨2 ^ (64 : ℤ), 0, 0⟩ ⟨rfl, rfl, rfl⟩ 64 (by norm_num)
      (Or.inl (le_abs_self _))).2.1
  · have := C124_underflow (p := 24) (emax := 127) (by norm_num) ⟨num (2 ^ (-76 : ℤ)), 0, 0⟩ ⟨2 ^ (-76 : ℤ), 0, 0⟩
      ⟨rfl, rfl, rfl⟩ (-75) (by norm_num) (by
        rw [abs_of_pos (zpow2_pos _)]; exact zpow_lt_zpow_right₀ one_lt_two (by norm_num))
      (by rw [abs_zero]; exact zpow2_pos _) (by rw [abs_zero]; exact zpow2_pos _)
    exact ⟨this.1, this.2.1⟩

/-- C124, what holds (3-D): for vectors whose coordinates are 0 or between `2^(-k)` and `2^k`, with
`2k + 2 ≤ emax` (for `float` between 2^-62 and 2^62), the length has a relative error of at most three units and
normalising is accurate to five units.
Missing: larger and smaller coordinates (false, see `C124_refuted`). -/
theorem C124_partial (hp : 1 ≤ p) (hk0 : 0 ≤ k) (hk : 2 * k + 2 ≤ emax) (v : Vec3 (Ieee ℝ p emax)) (r : Vec3 ℝ)
    (hv : v.Is r) (hx : Moderate k r.x) (hy : Moderate k r.y) (hz : Moderate k r.z) (hr : r ≠ ⟨0, 0, 0⟩) :
    let u : ℝ := 2 ^ (-(p : ℤ))
    let l := √(r.x ^ 2 + r.y ^ 2 + r.z ^ 2)
    (∃ l', v.length.fin? = some l' ∧ |l' - l| ≤ gam u 3 * l) ∧
    ∃ w : Vec3 ℝ, (v.normalized 1).Is w ∧ (v.normalize 1).1.Is w ∧
      (|w.x - r.x * (1 / l)| ≤ gam u 5 * |r.x * (1 / l)| ∧ |w.y - r.y * (1 / l)| ≤ gam u 5 * |r.y * (1 / l)| ∧
       |w.z - r.z * (1 / l)| ≤ gam u 5 * |r.z * (1 / l)|) ∧
      (1 - u) ^ 5 ≤ √(w.x ^ 2 + w.y ^ 2 + w.z ^ 2) ∧ √(w.x ^ 2 + w.y ^ 2 + w.z ^ 2) ≤ 1 / (1 - u) ^ 5 := by
  intro u l
  have hrel := isRel_rne p hp
  have hl := len3 hp hk0 hk v r hv hx hy hz
  obtain ⟨w, e1, e2, herr, hb1, hb2⟩ := C119_normalized3 hrel r hr 1
  have hnz : ((Vec3.num r : Vec3 (Fl ℝ (rne p))).length == 0) = false := by
    rw [(C119_null hrel ⟨0, 0⟩ r).2, decide_eq_false hr]
  have hlp := pos_of_ne hl hnz
  have hc := BetPos.div hp one_bet hlp (by omega) (by omega)
  obtain ⟨vx, vy, vz⟩ := hv
  have mx := Bet.mul hp (bet_of vx hx) hc.bet (by omega) (by omega)
  have my := Bet.mul hp (bet_of vy hy) hc.bet (by omega) (by omega)
  have mz := Bet.mul hp (bet_of vz hz) hc.bet (by omega) (by omega)
  have e1' := e1
  have hone : (.num 1 : Fl ℝ (rne p)) = 1 := rfl
  rw [hone] at e1
  simp only [Vec3.normalized, hnz, Bool.false_eq_true, if_false] at e1
  simp only [Vec3.num, Vec3.mk.injEq] at e1
  have hI : ∀ a : Vec3 (Ieee ℝ p emax), a = ⟨v.x * (1 / v.length), v.y * (1 / v.length), v.z * (1 / v.length)⟩ →
      a.Is w := by
    rintro _ rfl
    refine ⟨fin_of (l := -k + (0 - (k + 1))) (h := k + (0 - -k)) ?_,
      fin_of (l := -k + (0 - (k + 1))) (h := k + (0 - -k)) ?_,
      fin_of (l := -k + (0 - (k + 1))) (h := k + (0 - -k)) ?_⟩
    · rw [← e1.1]; exact mx
    · rw [← e1.2.1]; exact my
    · rw [← e1.2.2]; exact mz
  rw [abs_one] at hb1 hb2
  rw [mul_one] at hb1
  refine ⟨?_, w, hI _ ?_, hI _ ?_, herr, hb1, hb2⟩
  · obtain ⟨l', h1, h2, -⟩ := hl
    obtain ⟨l'', h3, h4⟩ := (C119_length hrel ⟨0, 0⟩ r ⟨0, 0, 0, 0⟩).2.2.2.1
    rw [h2] at h3
    exact ⟨l', h1, by rw [show l' = l'' by simpa using h3]; exact h4⟩
  · simp [Vec3.normalized, hlp.ne_zero]
  · simp [Vec3.normalize, hlp.ne_zero]

example : ∃ r : Vec3 ℝ, r ≠ ⟨0, 0, 0⟩ ∧ Moderate 62 r.x ∧ Moderate 62 r.y ∧ Moderate 62 r.z ∧
    (⟨num 3, 0, num (-4)⟩ : Vec3 B32).Is r := by
  refine ⟨⟨3, 0, -4⟩, fun h => by simpa using congrArg Vec3.x h, Or.inr ?_, Or.inl rfl, Or.inr ?_, rfl, rfl, rfl⟩ <;>
    norm_num

/-- C124 in the plane: too large, too small. -/
theorem C124_plane_range (hp : 1 ≤ p) (he : 0 ≤ emax) (v : Vec2 (Ieee ℝ p emax)) (r : Vec2 ℝ) (hv : v.Is r) (j : ℤ) :
    (emax + 1 ≤ 2 * j → (2 : ℝ) ^ j ≤ |r.x| ∨ (2 : ℝ) ^ j ≤ |r.y| →
      v.length = inf false ∧ (v.normalize 1).1.Is ⟨0, 0⟩) ∧
    (2 * j ≤ 1 - emax - p → |r.x| < (2 : ℝ) ^ j → |r.y| < (2 : ℝ) ^ j →
      v.length = zero false ∧ v.normalized 1 = ⟨0, 0⟩ ∧ (v.normalize 1).1 = ⟨0, 0⟩) := by
  obtain ⟨vx, vy⟩ := hv
  refine ⟨fun hj h => ?_, fun hj hx hy => ?_⟩
  · have hl : v.length = inf false := by
      have : v.x * v.x + v.y * v.y = inf false := by
        rcases h with h | h
        · rw [sq_big hp he vx hj h, inf_add (sq_nn vy)]
        · rw [sq_big hp he vy hj h, add_inf (sq_nn vx)]
      rw [Vec2.length, this]; rfl
    have h0 : ((inf false : Ieee ℝ p emax) == 0) = false := rfl
    refine ⟨hl, ?_⟩
    simp only [Vec2.normalize, hl, h0, Bool.false_eq_true, if_false]
    exact ⟨mul_one_div_inf vx, mul_one_div_inf vy⟩
  · have hl : v.length = zero false := by
      rw [Vec2.length, sq_tiny hp vx hj hx, sq_tiny hp vy hj hy]; rfl
    have h0 : ((zero false : Ieee ℝ p emax) == 0) = true := rfl
    refine ⟨hl, ?_, ?_⟩
    · simp only [Vec2.normalized, hl, h0, if_true]
    · simp only [Vec2.normalize, hl, h0, if_true]

example : ((127 : ℤ) + 1 ≤ 2 * 64 ∧ (2 : ℝ) ^ (64 : ℤ) ≤ |(2 : ℝ) ^ (64 : ℤ)|) ∧
    ((2 : ℤ) * (-75) ≤ 1 - 127 - (24 : ℕ) ∧ |(0 : ℝ)| < (2 : ℝ) ^ (-75 : ℤ)) := by norm_num

/-- C124 in the plane, what holds; the two ways of computing the coordinates, `x * k / l` in `normalized` and
`x * (k / l)` in `normalize`, may differ in the last places. -/
theorem C124_plane_partial (hp : 1 ≤ p) (hk0 : 0 ≤ k) (hk : 2 * k + 2 ≤ emax) (v : Vec2 (Ieee ℝ p emax)) (r : Vec2 ℝ)
    (hv : v.Is r) (hx : Moderate k r.x) (hy : Moderate k r.y) (hr : r ≠ ⟨0, 0⟩) :
    let u : ℝ := 2 ^ (-(p : ℤ))
    let l := √(r.x ^ 2 + r.y ^ 2)
    ∃ w w' : Vec2 ℝ, (v.normalized 1).Is w ∧ (v.normalize 1).1.Is w' ∧ ∀ c ∈ [w, w'],
      (|c.x - r.x * (1 / l)| ≤ gam u 4 * |r.x * (1 / l)| ∧ |c.y - r.y * (1 / l)| ≤ gam u 4 * |r.y * (1 / l)|) ∧
      (1 - u) ^ 4 * |1| ≤ √(c.x ^ 2 + c.y ^ 2) ∧ √(c.x ^ 2 + c.y ^ 2) ≤ |1| / (1 - u) ^ 4 := by
  intro u l
  have hrel := isRel_rne p hp
  have hl := len2 hp hk0 hk v r hv hx hy
  obtain ⟨w, w', e1, e2, herr⟩ := C119_normalized2 hrel r hr 1
  have hnz : ((Vec2.num r : Vec2 (Fl ℝ (rne p))).length == 0) = false := by
    rw [(C119_null hrel r ⟨0, 0, 0⟩).1, decide_eq_false hr]
  have hlp := pos_of_ne hl hnz
  have hc := BetPos.div hp one_bet hlp (by omega) (by omega)
  obtain ⟨vx, vy⟩ := hv
  have mx := Bet.mul hp (bet_of vx hx) hc.bet (by omega) (by omega)
  have my := Bet.mul hp (bet_of vy hy) hc.bet (by omega) (by omega)
  have nx := Bet.div hp (Bet.mul hp (bet_of vx hx) one_bet.bet (by omega) (by omega)) hlp (by omega) (by omega)
  have ny := Bet.div hp (Bet.mul hp (bet_of vy hy) one_bet.bet (by omega) (by omega)) hlp (by omega) (by omega)
  have hone : (.num 1 : Fl ℝ (rne p)) = 1 := rfl
  rw [hone] at e1 e2
  simp only [Vec2.normalized, hnz, Bool.false_eq_true, if_false] at e1
  simp only [Vec2.normalize, hnz, Bool.false_eq_true, if_false] at e2
  simp only [Vec2.num, Vec2.mk.injEq] at e1 e2
  refine ⟨w, w', ?_, ?_, herr⟩
  · simp only [Vec2.normalized, hlp.ne_zero, Bool.false_eq_true, if_false]
    refine ⟨fin_of (l := -k + 0 - (k + 1)) (h := k + 0 - -k) ?_, fin_of (l := -k + 0 - (k + 1)) (h := k + 0 - -k) ?_⟩
    · rw [← e1.1]; exact nx
    · rw [← e1.2]; exact ny
  · simp only [Vec2.normalize, hlp.ne_zero, Bool.false_eq_true, if_false]
    refine ⟨fin_of (l := -k + (0 - (k + 1))) (h := k + (0 - -k)) ?_,
      fin_of (l := -k + (0 - (k + 1))) (h := k + (0 - -k)) ?_⟩
    · rw [← e2.1]; exact mx
    · rw [← e2.2]; exact my

/-- C124 for quaternions: from a component that is too large the result is the null quaternion, which is no rotation
at all; when all are too small it is the identity, whatever the direction was. -/
theorem C124_quat_range (hp : 1 ≤ p) (he : 0 ≤ emax) (q : Quat (Ieee ℝ p emax)) (r : Quat ℝ) (hq : q.Is r) (j : ℤ) :
    (emax + 1 ≤ 2 * j → (2 : ℝ) ^ j ≤ |r.x| ∨ (2 : ℝ) ^ j ≤ |r.y| ∨ (2 : ℝ) ^ j ≤ |r.z| ∨ (2 : ℝ) ^ j ≤ |r.w| →
      q.normalize.Is ⟨0, 0, 0, 0⟩) ∧
    (2 * j ≤ 1 - emax - p → |r.x| < (2 : ℝ) ^ j → |r.y| < (2 : ℝ) ^ j → |r.z| < (2 : ℝ) ^ j → |r.w| < (2 : ℝ) ^ j →
      q.normalize = ⟨0, 0, 0, 1⟩) := by
  obtain ⟨qx, qy, qz, qw⟩ := hq
  refine ⟨fun hj h => ?_, fun hj hx hy hz hw => ?_⟩
  · have hl : q.x * q.x + q.y * q.y + q.z * q.z + q.w * q.w = inf false := by
      rcases h with h | h | h | h
      · rw [sq_big hp he qx hj h, inf_add (sq_nn qy), inf_add (sq_nn qz), inf_add (sq_nn qw)]
      · rw [sq_big hp he qy hj h, add_inf (sq_nn qx), inf_add (sq_nn qz), inf_add (sq_nn qw)]
      · rw [sq_big hp he qz hj h, add_inf (add_nn (sq_nn qx) (sq_nn qy)), inf_add (sq_nn qw)]
      · rw [sq_big hp he qw hj h, add_inf (add_nn (add_nn (sq_nn qx) (sq_nn qy)) (sq_nn qz))]
    have hs : MathFns.sqrt (inf false : Ieee ℝ p emax) = inf false := rfl
    have h0 : ((inf false : Ieee ℝ p emax) == 0) = false := rfl
    simp only [Quat.normalize, hl, hs, h0, Bool.false_eq_true, if_false]
    exact ⟨mul_one_div_inf qx, mul_one_div_inf qy, mul_one_div_inf qz, mul_one_div_inf qw⟩
  · have hl : q.x * q.x + q.y * q.y + q.z * q.z + q.w * q.w = zero false := by
      rw [sq_tiny hp qx hj hx, sq_tiny hp qy hj hy, sq_tiny hp qz hj hz, sq_tiny hp qw hj hw]; rfl
    have hs : MathFns.sqrt (zero false : Ieee ℝ p emax) = zero false := rfl
    have h0 : ((zero false : Ieee ℝ p emax) == 0) = true := rfl
    simp only [Quat.normalize, hl, hs, h0, if_true, Quat.identity]

/-- C124 for quaternions, what holds. -/
theorem C124_quat_partial (hp : 1 ≤ p) (hk0 : 0 ≤ k) (hk : 2 * k + 3 ≤ emax) (q : Quat (Ieee ℝ p emax)) (r : Quat ℝ)
    (hq : q.Is r) (hr : r ≠ ⟨0, 0, 0, 0⟩) (hx : Moderate k r.x) (hy : Moderate k r.y) (hz : Moderate k r.z)
    (hw : Moderate k r.w) :
    let u : ℝ := 2 ^ (-(p : ℤ))
    let l := √(r.x ^ 2 + r.y ^ 2 + r.z ^ 2 + r.w ^ 2)
    ∃ w : Quat ℝ, q.normalize.Is w ∧
      (|w.x - r.x / l| ≤ gam u 5 * |r.x / l| ∧ |w.y - r.y / l| ≤ gam u 5 * |r.y / l| ∧
       |w.z - r.z / l| ≤ gam u 5 * |r.z / l| ∧ |w.w - r.w / l| ≤ gam u 5 * |r.w / l|) ∧
      (1 - u) ^ 5 ≤ √(w.x ^ 2 + w.y ^ 2 + w.z ^ 2 + w.w ^ 2) ∧
      √(w.x ^ 2 + w.y ^ 2 + w.z ^ 2 + w.w ^ 2) ≤ 1 / (1 - u) ^ 5 := by
  intro u l
  have hrel := isRel_rne p hp
  obtain ⟨w, e1, herr, hb1, hb2⟩ := C119_quat hrel r hr
  obtain ⟨qx, qy, qz, qw⟩ := hq
  have sx := Bet.sq hp (bet_of qx hx) (by omega) (by omega)
  have sy := Bet.sq hp (bet_of qy hy) (by omega) (by omega)
  have sz := Bet.sq hp (bet_of qz hz) (by omega) (by omega)
  have sw := Bet.sq hp (bet_of qw hw) (by omega) (by omega)
  have s1 := BetNN.add hp sx sy (by omega) (by omega)
  have s2 := BetNN.add hp s1 (sz.mono le_rfl (by omega)) (by omega) (by omega)
  have s3 := BetNN.add hp s2 (sw.mono le_rfl (by omega)) (by omega) (by omega)
  have hl := BetNN.sqrt hp (s3.mono le_rfl (by omega : k + k + 1 + 1 + 1 ≤ (k + 2) + (k + 2))) (by omega) (by omega)
  have hnz : ((MathFns.sqrt (.num r.x * .num r.x + .num r.y * .num r.y + .num r.z * .num r.z +
      .num r.w * .num r.w) : Fl ℝ (rne p)) == 0) = false := by
    obtain ⟨v, h1, h2, h3⟩ := hl
    rw [h2, Fl.zero_def, Fl.num_beq, decide_eq_false]
    rintro rfl
    obtain ⟨t, ht, h4⟩ := rel_length4 hrel r.x r.y r.z r.w
    rw [h2, Fl.num.injEq] at h4
    rcases mul_eq_zero.1 h4.symm with h5 | h5
    · rw [Real.sqrt_eq_zero (add_nonneg (add_nonneg (add_nonneg (mul_self_nonneg _) (mul_self_nonneg _))
        (mul_self_nonneg _)) (mul_self_nonneg _))] at h5
      apply hr
      obtain ⟨x, y, z, w⟩ := r
      simp only [Quat.mk.injEq]
      refine ⟨?_, ?_, ?_, ?_⟩ <;>
        nlinarith [mul_self_nonneg x, mul_self_nonneg y, mul_self_nonneg z, mul_self_nonneg w]
    · exact (ht.pos hrel.lt_one).ne' h5
  have hlp := pos_of_ne hl hnz
  have hc := BetPos.div hp one_bet hlp (by omega) (by omega)
  have mx := Bet.mul hp (bet_of qx hx) hc.bet (by omega) (by omega)
  have my := Bet.mul hp (bet_of qy hy) hc.bet (by omega) (by omega)
  have mz := Bet.mul hp (bet_of qz hz) hc.bet (by omega) (by omega)
  have mw := Bet.mul hp (bet_of qw hw) hc.bet (by omega) (by omega)
  simp only [Quat.normalize, Quat.num, hnz, Bool.false_eq_true, if_false, Quat.mk.injEq] at e1
  refine ⟨w, ?_, herr, hb1, hb2⟩
  simp only [Quat.normalize, hlp.ne_zero, Bool.false_eq_true, if_false]
  refine ⟨fin_of (l := -k + (0 - (k + 2))) (h := k + (0 - -k)) ?_,
    fin_of (l := -k + (0 - (k + 2))) (h := k + (0 - -k)) ?_,
    fin_of (l := -k + (0 - (k + 2))) (h := k + (0 - -k)) ?_,
    fin_of (l := -k + (0 - (k + 2))) (h := k + (0 - -k)) ?_⟩
  · rw [← e1.1]; exact mx
  · rw [← e1.2.1]; exact my
  · rw [← e1.2.2.1]; exact mz
  · rw [← e1.2.2.2]; exact mw

example : ∃ r : Quat ℝ, r ≠ ⟨0, 0, 0, 0⟩ ∧ Moderate 62 r.x ∧ Moderate 62 r.y ∧ Moderate 62 r.z ∧ Moderate 62 r.w ∧
    (⟨num 3, 0, num (-4), 0⟩ : Quat B32).Is r := by
  refine ⟨⟨3, 0, -4, 0⟩, fun h => by simpa using congrArg Quat.x h, Or.inr ?_, Or.inl rfl, Or.inr ?_, Or.inl rfl,
    rfl, rfl, rfl, rfl⟩ <;> norm_num

end MathLib
