import Verif.Props.Quaternions
import Verif.Model.Slerp

/-! # Properties C31, C32: spherical interpolation of vectors -/

namespace MathLib

/-- unit vectors -/
def Vec3.IsUnit (v : Vec3 ℝ) : Prop := v.x ^ 2 + v.y ^ 2 + v.z ^ 2 = 1

/-- angle between unit vectors -/
noncomputable def Vec3.arc (u v : Vec3 ℝ) : ℝ := Real.arccos (u.x * v.x + u.y * v.y + u.z * v.z)

theorem Vec3.IsUnit.length {v : Vec3 ℝ} (h : v.IsUnit) : v.length = 1 := by
  have : v.x * v.x + v.y * v.y + v.z * v.z = 1 := by unfold Vec3.IsUnit at h; linear_combination h
  simp [Vec3.length, this]

theorem Vec3.length_eq {v : Vec3 ℝ} {l : ℝ} (hl : 0 ≤ l)
    (h : v.x * v.x + v.y * v.y + v.z * v.z = l ^ 2) : v.length = l := by
  simp only [Vec3.length, real_sqrt, h]; exact Real.sqrt_sq hl

/-- Turning `u` about `u × v` by `φ`. -/
theorem turn_spec {u v : Vec3 ℝ} (hu : u.IsUnit) (hv : v.IsUnit) (hk : u.cross v ≠ Vec3.zero) (φ : ℝ) :
    let k := u.cross v
    let r := rodrigues (k.normalized 1) φ u
    0 < k.length ∧ k.length = Real.sin (u.arc v) ∧ k.dot (k.normalized 1) = k.length ∧ r.IsUnit ∧
    u.x * r.x + u.y * r.y + u.z * r.z = Real.cos φ ∧
    r = u * (Real.sin (u.arc v - φ) / k.length) + v * (Real.sin φ / k.length) := by
  intro k r
  obtain ⟨hn, hkn, hl⟩ := Vec3.normalized_unit hk
  obtain ⟨n, hn'⟩ : ∃ n, n = k.normalized 1 := ⟨_, rfl⟩
  obtain ⟨l, hl'⟩ : ∃ l, l = k.length := ⟨_, rfl⟩
  change (k.normalized 1).x ^ 2 + (k.normalized 1).y ^ 2 + (k.normalized 1).z ^ 2 = 1 at hn
  change k = k.normalized 1 * k.length at hkn
  change 0 < k.length at hl
  have hr : r = rodrigues n φ u := by rw [hn']
  rw [← hn'] at hn hkn
  rw [← hl'] at hl hkn
  unfold Vec3.IsUnit at hu hv
  obtain ⟨c, hc⟩ : ∃ c, c = u.x * v.x + u.y * v.y + u.z * v.z := ⟨_, rfl⟩
  have kx : n.x * l = u.y * v.z - u.z * v.y := (congrArg Vec3.x hkn).symm
  have ky : n.y * l = u.z * v.x - u.x * v.z := (congrArg Vec3.y hkn).symm
  have kz : n.z * l = u.x * v.y - u.y * v.x := (congrArg Vec3.z hkn).symm
  have hl2 : l ^ 2 = 1 - c ^ 2 := by
    have : l ^ 2 = (n.x * l) ^ 2 + (n.y * l) ^ 2 + (n.z * l) ^ 2 := by linear_combination (-l ^ 2) * hn
    rw [this, kx, ky, kz, hc]
    linear_combination (v.x ^ 2 + v.y ^ 2 + v.z ^ 2) * hu + hv
  have hc1 : -1 ≤ c := by nlinarith
  have hc2 : c ≤ 1 := by nlinarith
  have hcos : Real.cos (u.arc v) = c := by
    unfold Vec3.arc; rw [← hc]; exact Real.cos_arccos hc1 hc2
  have hsin : Real.sin (u.arc v) = l := by
    unfold Vec3.arc; rw [← hc, Real.sin_arccos, ← hl2, Real.sqrt_sq hl.le]
  have hnu : n.x * u.x + n.y * u.y + n.z * u.z = 0 := by
    have : (n.x * u.x + n.y * u.y + n.z * u.z) * l = 0 := by
      linear_combination u.x * kx + u.y * ky + u.z * kz
    exact (mul_eq_zero.1 this).resolve_right hl.ne'
  have hrr : r = u * (Real.sin (u.arc v - φ) / l) + v * (Real.sin φ / l) := by
    rw [hr, Real.sin_sub, hcos, hsin]
    have hd : n.dot u = 0 := hnu
    ext
    · simp only [rodrigues, hd, Vec3.cross, Vec3.add_x, Vec3.mul_x]
      field_simp
      linear_combination Real.sin φ * (u.z * ky - u.y * kz + v.x * hu + u.x * hc)
    · simp only [rodrigues, hd, Vec3.cross, Vec3.add_y, Vec3.mul_y]
      field_simp
      linear_combination Real.sin φ * (u.x * kz - u.z * kx + v.y * hu + u.y * hc)
    · simp only [rodrigues, hd, Vec3.cross, Vec3.add_z, Vec3.mul_z]
      field_simp
      linear_combination Real.sin φ * (u.y * kx - u.x * ky + v.z * hu + u.z * hc)
  have hsc := Real.sin_sq_add_cos_sq φ
  have hdotk : k.dot n = l := by
    have : k.dot n = (n.x ^ 2 + n.y ^ 2 + n.z ^ 2) * l := by
      rw [hkn]; simp [Vec3.dot]; ring
    rw [this, hn, one_mul]
  refine ⟨by rw [← hl']; exact hl, by rw [← hl', hsin], by rw [← hn', ← hl']; exact hdotk, ?_, ?_,
    by rw [← hl']; exact hrr⟩
  · have hd : n.dot u = 0 := hnu
    rw [hr]
    simp only [Vec3.IsUnit, rodrigues, hd, Vec3.cross, Vec3.add_x, Vec3.mul_x, Vec3.add_y, Vec3.mul_y,
      Vec3.add_z, Vec3.mul_z]
    linear_combination (Real.cos φ ^ 2 + Real.sin φ ^ 2 * (n.x ^ 2 + n.y ^ 2 + n.z ^ 2)) * hu +
      Real.sin φ ^ 2 * hn + hsc - Real.sin φ ^ 2 * (n.x * u.x + n.y * u.y + n.z * u.z) * hnu
  · have hd : n.dot u = 0 := hnu
    rw [hr]
    simp only [rodrigues, hd, Vec3.cross, Vec3.add_x, Vec3.mul_x, Vec3.add_y, Vec3.mul_y,
      Vec3.add_z, Vec3.mul_z]
    linear_combination Real.cos φ * hu

theorem asin'_eq {s : ℝ} (h1 : -1 ≤ s) (h2 : s ≤ 1) : asin' s = Real.arcsin s := by
  simp [asin', not_lt.2 h1, not_lt.2 h2]

theorem Vec3.normalize_unit {w : Vec3 ℝ} (h : w.IsUnit) : (w.normalize 1).1 = w := by
  rw [(C22_normalize3 w 1).1]
  have hl := h.length
  ext <;> simp [Vec3.normalized, hl]

theorem Vec3.length_mul {d : Vec3 ℝ} (h : d.IsUnit) {p : ℝ} (hp : 0 ≤ p) : (d * p).length = p := by
  refine Vec3.length_eq hp ?_
  unfold Vec3.IsUnit at h
  simp only [Vec3.mul_x, Vec3.mul_y, Vec3.mul_z]
  linear_combination p ^ 2 * h

theorem Vec3.cross_mul (d e : Vec3 ℝ) {p q : ℝ} (hp : 0 < p) (hq : 0 < q) :
    ((d * p).cross (e * q)).div (p * q) = .ok (d.cross e) := by
  have : p * q ≠ 0 := (mul_pos hp hq).ne'
  simp only [Vec3.div, beq_iff_eq, this, if_false, Except.ok.injEq]
  ext <;> simp [Vec3.cross] <;> field_simp

theorem rodrigues_mul (n d : Vec3 ℝ) (φ p : ℝ) : rodrigues n φ (d * p) = rodrigues n φ d * p := by
  ext <;> simp [rodrigues, Vec3.dot, Vec3.cross] <;> ring

theorem Vec3.normalize_mul {w : Vec3 ℝ} (h : w.IsUnit) {p : ℝ} (hp : 0 < p) (k : ℝ) :
    ((w * p).normalize k).1 = w * k := by
  rw [(C22_normalize3 _ k).1]
  have hl := Vec3.length_mul h hp.le
  ext <;> simp [Vec3.normalized, hl, hp.ne'] <;> field_simp

/-- What `slerp` computes in the rotation branch. -/
theorem Vec3.slerp_rot' {d e : Vec3 ℝ} (hd : d.IsUnit) (he : e.IsUnit)
    (hk : 13421773 / 268435456 ≤ (d.cross e).length) {p q : ℝ} (hp : 0 < p) (hq : 0 < q) (t : ℝ) (h0 : t ≠ 0) (h1 : t ≠ 1) :
    (d * p).slerp (e * q) t = .ok (rodrigues ((d.cross e).normalized 1)
      (Real.arcsin (d.cross e).length * t) d * (p + (q - p) * t)) := by
  have hk0 : d.cross e ≠ Vec3.zero := fun h => by
    rw [(C22_length_norm.2.1 _).2 h] at hk; norm_num at hk
  obtain ⟨s1, s2, s3, s4, -⟩ := turn_spec hd he hk0 (Real.arcsin (d.cross e).length * t)
  have hle : (d.cross e).length ≤ 1 := by rw [s2]; exact Real.sin_le_one _
  have habs : abs' (d.cross e).length = (d.cross e).length := by
    simp [abs', s1.le]
  simp only [Vec3.slerp, Vec3.length_mul hd hp.le, Vec3.length_mul he hq.le, Vec3.cross_mul d e hp hq,
    bind, Except.bind, s3, habs]
  have e1 : ¬ (d.cross e).length < 13421773 / 268435456 := not_lt.2 hk
  simp only [e1, if_false, asin'_eq (by linarith) hle]
  rw [(C52_construct (d.cross e) (Real.arcsin (d.cross e).length * t) 0).2.1 hk0 |>.2, rodrigues_mul,
    Vec3.normalize_mul s4 hp]
  simp [h0, h1, hp.ne', hq.ne']

theorem Vec3.mul_one' (d : Vec3 ℝ) : d * (1 : ℝ) = d := by ext <;> simp

/-- What `slerp` computes on unit vectors, when it takes the rotation branch. -/
theorem Vec3.slerp_rot {u v : Vec3 ℝ} (hu : u.IsUnit) (hv : v.IsUnit)
    (hk : 13421773 / 268435456 ≤ (u.cross v).length) (t : ℝ) (h0 : t ≠ 0) (h1 : t ≠ 1) :
    u.slerp v t = .ok (rodrigues ((u.cross v).normalized 1)
      (Real.arcsin (u.cross v).length * t) u) := by
  have := Vec3.slerp_rot' hu hv hk one_pos one_pos t h0 h1
  rwa [sub_self, zero_mul, add_zero, Vec3.mul_one', Vec3.mul_one', Vec3.mul_one'] at this

/-- What `slerp` computes in the branch for nearly parallel vectors. -/
theorem Vec3.slerp_lin {d e : Vec3 ℝ} (hd : d.IsUnit) (he : e.IsUnit)
    (hk : (d.cross e).length < 13421773 / 268435456) {p q : ℝ} (hp : 0 < p) (hq : 0 < q) (t : ℝ) :
    (d * p).slerp (e * q) t = .ok (d * ((1 - t) * p) + e * (t * q)) := by
  have hs : (d.cross e).dot ((d.cross e).normalized 1) = (d.cross e).length := by
    by_cases hk0 : d.cross e = Vec3.zero
    · rw [hk0, (C22_length_norm.2.1 _).2 rfl]; simp [Vec3.zero, Vec3.dot]
    · exact (turn_spec hd he hk0 0).2.2.1
  have habs : abs' (d.cross e).length = (d.cross e).length := by
    have : 0 ≤ (d.cross e).length := Real.sqrt_nonneg _
    simp [abs', this]
  simp only [Vec3.slerp, Vec3.length_mul hd hp.le, Vec3.length_mul he hq.le, Vec3.cross_mul d e hp hq,
    bind, Except.bind, hs, habs, hk, if_true]
  rcases eq_or_ne t 0 with rfl | h0
  · simp; ext <;> simp
  rcases eq_or_ne t 1 with rfl | h1
  · simp; ext <;> simp
  simp [h0, h1, hp.ne', hq.ne']
  ext <;> simp <;> ring

/-- For an obtuse angle the arc sine measures the supplementary angle, and for nearly parallel vectors
(sine below 0.05) the result is not even a unit vector. -/
theorem C31_refuted :
    (∃ u v : Vec3 ℝ, u.IsUnit ∧ v.IsUnit ∧ v ≠ -u ∧ ∃ r, u.slerp v (1 / 2) = .ok r ∧
      u.arc r ≠ 1 / 2 * u.arc v) ∧
    (∃ u v : Vec3 ℝ, u.IsUnit ∧ v.IsUnit ∧ 0 < u.dot v ∧ ∃ r, u.slerp v (1 / 2) = .ok r ∧
      ¬ r.IsUnit) := by
  constructor
  · have hu : (⟨1, 0, 0⟩ : Vec3 ℝ).IsUnit := by norm_num [Vec3.IsUnit]
    have hv : (⟨-3/5, 4/5, 0⟩ : Vec3 ℝ).IsUnit := by norm_num [Vec3.IsUnit]
    have hl : ((⟨1, 0, 0⟩ : Vec3 ℝ).cross ⟨-3/5, 4/5, 0⟩).length = 4 / 5 := by
      exact Vec3.length_eq (by norm_num) (by norm_num [Vec3.cross])
    have hk0 : (⟨1, 0, 0⟩ : Vec3 ℝ).cross ⟨-3/5, 4/5, 0⟩ ≠ Vec3.zero := fun h => by
      rw [(C22_length_norm.2.1 _).2 h] at hl; norm_num at hl
    refine ⟨⟨1, 0, 0⟩, ⟨-3/5, 4/5, 0⟩, hu, hv, ?_, _,
      Vec3.slerp_rot hu hv (by rw [hl]; norm_num) _ (by norm_num) (by norm_num), fun h => ?_⟩
    · intro h; have := congrArg Vec3.y h; norm_num at this
    · unfold Vec3.arc at h
      rw [(turn_spec hu hv hk0 _).2.2.2.2.1, hl] at h
      have h0 : 0 ≤ Real.arcsin (4 / 5) := Real.arcsin_nonneg.2 (by norm_num)
      have h1 := Real.arcsin_le_pi_div_two (4 / 5)
      have hpi := Real.pi_pos
      rw [Real.arccos_cos (by linarith) (by linarith)] at h
      have h2 : Real.pi / 2 < Real.arccos (1 * (-3 / 5) + 0 * (4 / 5) + 0 * 0) := by
        rw [← not_le, Real.arccos_le_pi_div_two]; norm_num
      linarith
  · refine ⟨⟨1, 0, 0⟩, ⟨2499 / 2501, 100 / 2501, 0⟩, by norm_num [Vec3.IsUnit],
      by norm_num [Vec3.IsUnit], by norm_num [Vec3.dot], ⟨2500 / 2501, 50 / 2501, 0⟩, ?_,
      by norm_num [Vec3.IsUnit]⟩
    have l1 : (⟨1, 0, 0⟩ : Vec3 ℝ).length = 1 := by norm_num [Vec3.length]
    have l2 : (⟨2499 / 2501, 100 / 2501, 0⟩ : Vec3 ℝ).length = 1 := by norm_num [Vec3.length]
    have l3 : (⟨0, 0, 100 / 2501⟩ : Vec3 ℝ).normalized 1 = ⟨0, 0, 1⟩ := by
      have : (⟨0, 0, 100 / 2501⟩ : Vec3 ℝ).length = 100 / 2501 :=
        Vec3.length_eq (by norm_num) (by norm_num)
      norm_num [this, Vec3.normalized]
    norm_num [Vec3.slerp, l1, l2, Vec3.cross, Vec3.div, bind, Except.bind, l3, Vec3.dot, abs']

/-- The angle the code turns by: the angle between the vectors or, if that is obtuse, its supplement. -/
theorem arcsin_cross {d e : Vec3 ℝ} (hd : d.IsUnit) (he : e.IsUnit) (hk0 : d.cross e ≠ Vec3.zero) :
    Real.arcsin (d.cross e).length = min (d.arc e) (Real.pi - d.arc e) := by
  obtain ⟨-, s2, -⟩ := turn_spec hd he hk0 0
  have h0 : 0 ≤ d.arc e := Real.arccos_nonneg _
  have h1 : d.arc e ≤ Real.pi := Real.arccos_le_pi _
  rcases le_total (d.arc e) (Real.pi / 2) with h | h
  · rw [s2, Real.arcsin_sin (by linarith) h, min_eq_left (by linarith)]
  · rw [s2, ← Real.sin_pi_sub, Real.arcsin_sin (by linarith) (by linarith), min_eq_right (by linarith)]

theorem min_supp {x : ℝ} (h0 : 0 ≤ x) (h1 : x ≤ Real.pi) :
    0 ≤ min x (Real.pi - x) ∧ min x (Real.pi - x) ≤ x ∧ min x (Real.pi - x) ≤ Real.pi - x :=
  ⟨le_min h0 (by linarith), min_le_left _ _, min_le_right _ _⟩

/-- Every case, for vectors of directions `d`, `e` and lengths `p`, `q`.  The ends are reached.  When
the sine of the angle between the directions is at least 0.05, the result has the interpolated length
and lies on the arc from `d` to `e`, at the fraction `t` of the angle or of its supplement, whichever is
smaller: for angles of at most 90° that is the claim.  When the sine is smaller, or one vector is null,
the result is the linear interpolation; for unit vectors less than 90° apart its length is then between
0.9996 and 1.
Missing: the angle for obtuse angles (false), the length for nearly parallel vectors (false). -/
theorem C31_partial (d e : Vec3 ℝ) (hd : d.IsUnit) (he : e.IsUnit) (p q : ℝ) (hp : 0 < p) (hq : 0 < q)
    (t : ℝ) (h0 : 0 ≤ t) (h1 : t ≤ 1) :
    (d * p).slerp (e * q) 0 = .ok (d * p) ∧ (d * p).slerp (e * q) 1 = .ok (e * q) ∧
    (13421773 / 268435456 ≤ (d.cross e).length → t < 1 →
      ∃ r, (d * p).slerp (e * q) t = .ok (r * ((1 - t) * p + t * q)) ∧ r.IsUnit ∧
        d.arc r = t * min (d.arc e) (Real.pi - d.arc e) ∧
        (0 ≤ d.dot e → d.arc r = t * d.arc e) ∧
        ∃ a b : ℝ, 0 ≤ a ∧ 0 ≤ b ∧ r = d * a + e * b) ∧
    ((d.cross e).length < 13421773 / 268435456 →
      (d * p).slerp (e * q) t = .ok (d * ((1 - t) * p) + e * (t * q)) ∧
      (0 ≤ d.dot e → (d * (1 - t) + e * t).length ≤ 1 ∧ 9996 / 10000 ≤ (d * (1 - t) + e * t).length)) ∧
    (Vec3.zero : Vec3 ℝ).slerp (e * q) t = .ok (e * (t * q)) ∧
    (d * p).slerp Vec3.zero t = .ok (d * ((1 - t) * p)) := by
  have hs0 : (d * p).slerp (e * q) 0 = .ok (d * p) := by simp [Vec3.slerp]
  have hs1 : (d * p).slerp (e * q) 1 = .ok (e * q) := by simp [Vec3.slerp]
  have hpi := Real.pi_pos
  have harc0 : 0 ≤ d.arc e := Real.arccos_nonneg _
  have harc1 : d.arc e ≤ Real.pi := Real.arccos_le_pi _
  obtain ⟨m0, m1, m2⟩ := min_supp harc0 harc1
  refine ⟨hs0, hs1, fun hk ht => ?_, fun hk => ⟨Vec3.slerp_lin hd he hk hp hq t, fun hdot => ?_⟩, ?_, ?_⟩
  · have hk0 : d.cross e ≠ Vec3.zero := fun h => by
      rw [(C22_length_norm.2.1 _).2 h] at hk; norm_num at hk
    have hacute : 0 ≤ d.dot e → min (d.arc e) (Real.pi - d.arc e) = d.arc e := fun h => by
      have : d.arc e ≤ Real.pi / 2 := Real.arccos_le_pi_div_two.2 h
      exact min_eq_left (by linarith)
    rcases eq_or_ne t 0 with rfl | ht0
    · have hdd : d.arc d = 0 := by
        have : d.x * d.x + d.y * d.y + d.z * d.z = 1 := by unfold Vec3.IsUnit at hd; linear_combination hd
        simp [Vec3.arc, this]
      exact ⟨d, by rw [hs0, sub_zero, one_mul, zero_mul, add_zero], hd, by rw [hdd, zero_mul],
        fun _ => by rw [hdd, zero_mul], 1, 0, zero_le_one, le_rfl, by ext <;> simp⟩
    obtain ⟨s1, s2, -, s4, s5, s6⟩ := turn_spec hd he hk0 (Real.arcsin (d.cross e).length * t)
    have hasin := arcsin_cross hd he hk0
    have harc : d.arc (rodrigues ((d.cross e).normalized 1) (Real.arcsin (d.cross e).length * t) d) =
        t * min (d.arc e) (Real.pi - d.arc e) := by
      change Real.arccos _ = _
      rw [s5, hasin, Real.arccos_cos (by positivity) (by nlinarith), mul_comm]
    refine ⟨_, ?_, s4, harc, fun h => by rw [harc, hacute h], _, _, ?_, ?_, s6⟩
    · rw [Vec3.slerp_rot' hd he hk hp hq t ht0 ht.ne]
      congr 2; ring
    · refine div_nonneg (Real.sin_nonneg_of_nonneg_of_le_pi ?_ ?_) s1.le <;> rw [hasin] <;> nlinarith
    · refine div_nonneg (Real.sin_nonneg_of_nonneg_of_le_pi ?_ ?_) s1.le <;> rw [hasin] <;> nlinarith
  · obtain ⟨c, hc⟩ : ∃ c, c = d.x * e.x + d.y * e.y + d.z * e.z := ⟨_, rfl⟩
    have hc0 : 0 ≤ c := by rw [hc]; exact hdot
    have hl0 : 0 ≤ (d.cross e).length := Real.sqrt_nonneg _
    have hl2 : (d.cross e).length ^ 2 = 1 - c ^ 2 := by
      unfold Vec3.IsUnit at hd he
      rw [Vec3.length, real_sqrt, Real.sq_sqrt (add_nonneg (add_nonneg (mul_self_nonneg _)
        (mul_self_nonneg _)) (mul_self_nonneg _)), hc]
      simp only [Vec3.cross]
      linear_combination (e.x ^ 2 + e.y ^ 2 + e.z ^ 2) * hd + he
    have hc1 : c ≤ 1 := by nlinarith
    have hc2 : 9987 / 10000 ≤ c := by nlinarith
    have ht : 0 ≤ t * (1 - t) := mul_nonneg h0 (by linarith)
    have ht4 : t * (1 - t) ≤ 1 / 4 := by nlinarith [sq_nonneg (t - 1 / 2)]
    have hsq : (d * (1 - t) + e * t).x * (d * (1 - t) + e * t).x +
        (d * (1 - t) + e * t).y * (d * (1 - t) + e * t).y +
        (d * (1 - t) + e * t).z * (d * (1 - t) + e * t).z = 1 - 2 * (t * (1 - t)) * (1 - c) := by
      unfold Vec3.IsUnit at hd he
      simp only [Vec3.add_x, Vec3.mul_x, Vec3.add_y, Vec3.mul_y, Vec3.add_z, Vec3.mul_z]
      rw [hc]
      linear_combination (1 - t) ^ 2 * hd + t ^ 2 * he
    rw [Vec3.length, real_sqrt, hsq]
    refine ⟨Real.sqrt_le_one.2 (by nlinarith), Real.le_sqrt_of_sq_le (by nlinarith)⟩
  · rcases eq_or_ne t 0 with rfl | ht0
    · simp [Vec3.slerp, Vec3.zero]; ext <;> simp
    rcases eq_or_ne t 1 with rfl | ht1
    · simp [Vec3.slerp]
    simp [Vec3.slerp, (C22_length_norm.2.1 _).2 rfl, ht0, ht1]
    ext <;> simp [Vec3.zero] <;> ring
  · rcases eq_or_ne t 0 with rfl | ht0
    · simp [Vec3.slerp]
    rcases eq_or_ne t 1 with rfl | ht1
    · simp [Vec3.slerp, Vec3.zero]; ext <;> simp
    simp [Vec3.slerp, (C22_length_norm.2.1 _).2 rfl, ht0, ht1]
    ext <;> simp [Vec3.zero] <;> ring

example : (⟨1, 0, 0⟩ : Vec3 ℝ).IsUnit ∧ (⟨3/5, 4/5, 0⟩ : Vec3 ℝ).IsUnit ∧
    0 ≤ (⟨1, 0, 0⟩ : Vec3 ℝ).dot ⟨3/5, 4/5, 0⟩ ∧
    13421773 / 268435456 ≤ ((⟨1, 0, 0⟩ : Vec3 ℝ).cross ⟨3/5, 4/5, 0⟩).length := by
  have hl : ((⟨1, 0, 0⟩ : Vec3 ℝ).cross ⟨3/5, 4/5, 0⟩).length = 4 / 5 :=
    Vec3.length_eq (by norm_num) (by norm_num [Vec3.cross])
  rw [hl]
  norm_num [Vec3.IsUnit, Vec3.dot]

example : (⟨1, 0, 0⟩ : Vec3 ℝ).IsUnit ∧ (⟨2499 / 2501, 100 / 2501, 0⟩ : Vec3 ℝ).IsUnit ∧
    0 ≤ (⟨1, 0, 0⟩ : Vec3 ℝ).dot ⟨2499 / 2501, 100 / 2501, 0⟩ ∧
    ((⟨1, 0, 0⟩ : Vec3 ℝ).cross ⟨2499 / 2501, 100 / 2501, 0⟩).length < 13421773 / 268435456 := by
  have hl : ((⟨1, 0, 0⟩ : Vec3 ℝ).cross ⟨2499 / 2501, 100 / 2501, 0⟩).length = 100 / 2501 :=
    Vec3.length_eq (by norm_num) (by norm_num [Vec3.cross])
  rw [hl]
  norm_num [Vec3.IsUnit, Vec3.dot]

/-! ## C32 -/

theorem slerpMax_rot' {d e : Vec3 ℝ} (hd : d.IsUnit) (he : e.IsUnit)
    (hk0 : d.cross e ≠ Vec3.zero) {p q : ℝ} (hp : 0 < p) (hq : 0 < q) (m : ℝ) (h0 : 0 < m) :
    (d * p).slerpMaxAngle (e * q) m = .ok (rodrigues ((d.cross e).normalized 1)
      (min m (Real.arcsin (d.cross e).length)) d *
      (p + (q - p) * (min m (Real.arcsin (d.cross e).length) / Real.arcsin (d.cross e).length))) := by
  obtain ⟨s1, s2, s3, s4, -⟩ := turn_spec hd he hk0 (min m (Real.arcsin (d.cross e).length))
  have hle : (d.cross e).length ≤ 1 := by rw [s2]; exact Real.sin_le_one _
  have ha : 0 < Real.arcsin (d.cross e).length := Real.arcsin_pos.2 s1
  have hsel : (if Real.arcsin (d.cross e).length ≥ 0 then
      (if Real.arcsin (d.cross e).length > m then m else Real.arcsin (d.cross e).length)
      else (if Real.arcsin (d.cross e).length < -m then -m else Real.arcsin (d.cross e).length)) =
      min m (Real.arcsin (d.cross e).length) := by
    rw [if_pos ha.le]; split_ifs with h
    · exact (min_eq_left h.le).symm
    · exact (min_eq_right (not_lt.1 h)).symm
  simp only [Vec3.slerpMaxAngle, Vec3.length_mul hd hp.le, Vec3.length_mul he hq.le,
    Vec3.cross_mul d e hp hq, bind, Except.bind, s3,
    asin'_eq (by linarith : -1 ≤ (d.cross e).length) hle, hsel]
  rw [(C52_construct (d.cross e) (min m (Real.arcsin (d.cross e).length)) 0).2.1 hk0 |>.2, rodrigues_mul,
    Vec3.normalize_mul s4 hp]
  simp [h0.le, h0.ne', ha.ne', hp.ne', hq.ne']

theorem slerpMax_rot {u v : Vec3 ℝ} (hu : u.IsUnit) (hv : v.IsUnit)
    (hk0 : u.cross v ≠ Vec3.zero) (m : ℝ) (h0 : 0 < m) :
    u.slerpMaxAngle v m = .ok (rodrigues ((u.cross v).normalized 1)
      (min m (Real.arcsin (u.cross v).length)) u) := by
  have := slerpMax_rot' hu hv hk0 one_pos one_pos m h0
  rwa [sub_self, zero_mul, add_zero, Vec3.mul_one', Vec3.mul_one', Vec3.mul_one'] at this

/-- Opposite vectors are reached at once, whatever `maxAngle`; for an obtuse angle the turn stops at
the supplementary angle even if `maxAngle` allows reaching `v`. -/
theorem C32_refuted :
    (∃ u v : Vec3 ℝ, u.IsUnit ∧ v.IsUnit ∧ u.slerpMaxAngle v 1 = .ok v ∧ 1 < u.arc v) ∧
    (∃ u v : Vec3 ℝ, u.IsUnit ∧ v.IsUnit ∧ v ≠ -u ∧ ∃ r, u.slerpMaxAngle v Real.pi = .ok r ∧
      u.arc v ≤ Real.pi ∧ r ≠ v ∧ u.arc r < u.arc v) := by
  constructor
  · refine ⟨⟨1, 0, 0⟩, ⟨-1, 0, 0⟩, by norm_num [Vec3.IsUnit], by norm_num [Vec3.IsUnit], ?_, ?_⟩
    · norm_num [Vec3.slerpMaxAngle, Vec3.length, Vec3.cross, Vec3.div, bind, Except.bind, Vec3.dot,
        Vec3.normalized, asin']
    · norm_num [Vec3.arc]; linarith [Real.two_le_pi]
  · have hu : (⟨1, 0, 0⟩ : Vec3 ℝ).IsUnit := by norm_num [Vec3.IsUnit]
    have hv : (⟨-3/5, 4/5, 0⟩ : Vec3 ℝ).IsUnit := by norm_num [Vec3.IsUnit]
    have hl : ((⟨1, 0, 0⟩ : Vec3 ℝ).cross ⟨-3/5, 4/5, 0⟩).length = 4 / 5 := by
      exact Vec3.length_eq (by norm_num) (by norm_num [Vec3.cross])
    have hk0 : (⟨1, 0, 0⟩ : Vec3 ℝ).cross ⟨-3/5, 4/5, 0⟩ ≠ Vec3.zero := fun h => by
      rw [(C22_length_norm.2.1 _).2 h] at hl; norm_num at hl
    have hpi := Real.pi_pos
    have h0 : 0 ≤ Real.arcsin (4 / 5) := Real.arcsin_nonneg.2 (by norm_num)
    have h1 := Real.arcsin_le_pi_div_two (4 / 5)
    have h2 : Real.pi / 2 < Real.arccos (1 * (-3 / 5) + 0 * (4 / 5) + 0 * 0) := by
      rw [← not_le, Real.arccos_le_pi_div_two]; norm_num
    have hlt : (⟨1, 0, 0⟩ : Vec3 ℝ).arc (rodrigues (((⟨1, 0, 0⟩ : Vec3 ℝ).cross ⟨-3/5, 4/5, 0⟩).normalized 1)
        (min Real.pi (Real.arcsin ((⟨1, 0, 0⟩ : Vec3 ℝ).cross ⟨-3/5, 4/5, 0⟩).length)) ⟨1, 0, 0⟩) <
        (⟨1, 0, 0⟩ : Vec3 ℝ).arc ⟨-3/5, 4/5, 0⟩ := by
      unfold Vec3.arc
      rw [(turn_spec hu hv hk0 _).2.2.2.2.1, hl, min_eq_right (by linarith),
        Real.arccos_cos h0 (by linarith)]
      linarith
    refine ⟨⟨1, 0, 0⟩, ⟨-3/5, 4/5, 0⟩, hu, hv, ?_, _, slerpMax_rot hu hv hk0 _ hpi,
      Real.arccos_le_pi _, fun h => ?_, hlt⟩
    · intro h; have := congrArg Vec3.y h; norm_num at this
    · rw [h] at hlt; exact lt_irrefl _ hlt

/-- Every case, for vectors of directions `d`, `e` and lengths `p`, `q`.  With `A` the angle between
them or, if that is obtuse, its supplement: when the directions are not parallel the turn is by
`min maxAngle A`, on the arc from `d` to `e`, and the length is interpolated with the ratio of the turn
to `A`; parallel and opposite vectors jump to the target unless `maxAngle` is 0.
Missing: the angle for obtuse angles (false), opposite vectors (false). -/
theorem C32_partial (d e : Vec3 ℝ) (hd : d.IsUnit) (he : e.IsUnit) (p q : ℝ) (hp : 0 < p) (hq : 0 < q)
    (m : ℝ) :
    let A := min (d.arc e) (Real.pi - d.arc e)
    (0 ≤ d.dot e → A = d.arc e) ∧
    (m < 0 → (d * p).slerpMaxAngle (e * q) m = .error .assertion) ∧
    (d * p).slerpMaxAngle (e * q) 0 = .ok (d * p) ∧
    (0 < m → (d = e ∨ d = -e) → (d * p).slerpMaxAngle (e * q) m = .ok (e * q)) ∧
    (0 ≤ m → d ≠ e → d ≠ -e → 0 < A ∧
      ∃ r k, (d * p).slerpMaxAngle (e * q) m = .ok (r * ((1 - k) * p + k * q)) ∧ k * A = min m A ∧
        r.IsUnit ∧ d.arc r = min m A ∧ (0 ≤ d.dot e → d.arc e ≤ m → r = e ∧ k = 1) ∧
        ∃ a b : ℝ, 0 ≤ a ∧ 0 ≤ b ∧ r = d * a + e * b) ∧
    (0 < m → (Vec3.zero : Vec3 ℝ).slerpMaxAngle (e * q) m = .ok (e * q) ∧
      (d * p).slerpMaxAngle Vec3.zero m = .ok (d * p)) := by
  intro A
  have harc0 : 0 ≤ d.arc e := Real.arccos_nonneg _
  have harc1 : d.arc e ≤ Real.pi := Real.arccos_le_pi _
  have hpi := Real.pi_pos
  obtain ⟨m0, m1, m2⟩ := min_supp harc0 harc1
  change 0 ≤ A at m0; change A ≤ _ at m1; change A ≤ _ at m2
  have hacute : 0 ≤ d.dot e → A = d.arc e := fun h => by
    have : d.arc e ≤ Real.pi / 2 := Real.arccos_le_pi_div_two.2 h
    exact min_eq_left (by linarith)
  have hz : (d * p).slerpMaxAngle (e * q) 0 = .ok (d * p) := by simp [Vec3.slerpMaxAngle]
  refine ⟨hacute, fun h => by simp [Vec3.slerpMaxAngle, h], hz, fun hm h => ?_, fun hm hne hne' => ?_,
    fun hm => ⟨?_, ?_⟩⟩
  · have hk0 : d.cross e = Vec3.zero := by
      rcases h with h | h <;> rw [h] <;> simp [Vec3.cross, Vec3.zero] <;>
        exact ⟨by ring, by ring, by ring⟩
    simp only [Vec3.slerpMaxAngle, Vec3.length_mul hd hp.le, Vec3.length_mul he hq.le,
      Vec3.cross_mul d e hp hq, bind, Except.bind, hk0]
    have ha : asin' (0 : ℝ) = 0 := by rw [asin'_eq (by norm_num) (by norm_num), Real.arcsin_zero]
    have hz : (Vec3.zero : Vec3 ℝ).dot (Vec3.zero.normalized 1) = 0 := by simp [Vec3.zero, Vec3.dot]
    simp [hz, ha, hm.le, hm.ne', hp.ne', hq.ne']
  · have hk0 : d.cross e ≠ Vec3.zero := fun hk0 => by
      have hx : d.y * e.z - d.z * e.y = 0 := congrArg Vec3.x hk0
      have hy : d.z * e.x - d.x * e.z = 0 := congrArg Vec3.y hk0
      have hz : d.x * e.y - d.y * e.x = 0 := congrArg Vec3.z hk0
      unfold Vec3.IsUnit at hd he
      have hsq : (d.x * e.x + d.y * e.y + d.z * e.z) ^ 2 = 1 := by
        linear_combination (e.x ^ 2 + e.y ^ 2 + e.z ^ 2) * hd + he - (d.y * e.z - d.z * e.y) * hx -
          (d.z * e.x - d.x * e.z) * hy - (d.x * e.y - d.y * e.x) * hz
      rw [sq, mul_self_eq_one_iff] at hsq
      rcases hsq with h | h
      · apply hne
        have : (d.x - e.x) ^ 2 + (d.y - e.y) ^ 2 + (d.z - e.z) ^ 2 ≤ 0 := by linarith
        have e1 := sq_nonneg (d.x - e.x); have e2 := sq_nonneg (d.y - e.y); have e3 := sq_nonneg (d.z - e.z)
        ext
        · exact sub_eq_zero.1 (pow_eq_zero_iff two_ne_zero |>.1 (by linarith))
        · exact sub_eq_zero.1 (pow_eq_zero_iff two_ne_zero |>.1 (by linarith))
        · exact sub_eq_zero.1 (pow_eq_zero_iff two_ne_zero |>.1 (by linarith))
      · apply hne'
        have : (d.x + e.x) ^ 2 + (d.y + e.y) ^ 2 + (d.z + e.z) ^ 2 ≤ 0 := by linarith
        have e1 := sq_nonneg (d.x + e.x); have e2 := sq_nonneg (d.y + e.y); have e3 := sq_nonneg (d.z + e.z)
        ext
        · exact eq_neg_of_add_eq_zero_left (pow_eq_zero_iff two_ne_zero |>.1 (by linarith))
        · exact eq_neg_of_add_eq_zero_left (pow_eq_zero_iff two_ne_zero |>.1 (by linarith))
        · exact eq_neg_of_add_eq_zero_left (pow_eq_zero_iff two_ne_zero |>.1 (by linarith))
    have hasin : Real.arcsin (d.cross e).length = A := arcsin_cross hd he hk0
    obtain ⟨s1, s2, -, s4, s5, s6⟩ := turn_spec hd he hk0 (min m A)
    have hA : 0 < A := by rw [← hasin]; exact Real.arcsin_pos.2 s1
    refine ⟨hA, ?_⟩
    have hmin0 : 0 ≤ min m A := le_min hm m0
    have hmin1 : min m A ≤ A := min_le_right _ _
    refine ⟨_, min m A / A, ?_, by field_simp, s4, ?_, fun h h' => ⟨?_, ?_⟩, _, _, ?_, ?_, s6⟩
    · rcases eq_or_lt_of_le hm with rfl | hm0
      · rw [hz, min_eq_left m0]
        have : rodrigues ((d.cross e).normalized 1) 0 d = d := by ext <;> simp [rodrigues]
        rw [this]; congr 1; ext <;> simp
      · rw [slerpMax_rot' hd he hk0 hp hq m hm0, hasin]
        congr 2; ring
    · change Real.arccos _ = _
      rw [s5, Real.arccos_cos hmin0 (by linarith)]
    · rw [s6, hacute h, min_eq_right h', sub_self, Real.sin_zero, ← s2]
      ext <;> simp [s1.ne']
    · rw [hacute h] at hA ⊢; rw [min_eq_right h', div_self hA.ne']
    · refine div_nonneg (Real.sin_nonneg_of_nonneg_of_le_pi ?_ ?_) s1.le <;> linarith
    · refine div_nonneg (Real.sin_nonneg_of_nonneg_of_le_pi ?_ ?_) s1.le <;> linarith
  · simp [Vec3.slerpMaxAngle, (C22_length_norm.2.1 _).2 rfl, hm.le, hm.ne']
  · simp [Vec3.slerpMaxAngle, (C22_length_norm.2.1 _).2 rfl, hm.le, hm.ne', Vec3.length_mul hd hp.le,
      hp.ne']

example : (⟨1, 0, 0⟩ : Vec3 ℝ).IsUnit ∧ (⟨0, 3/5, 4/5⟩ : Vec3 ℝ).IsUnit ∧
    0 ≤ (⟨1, 0, 0⟩ : Vec3 ℝ).dot ⟨0, 3/5, 4/5⟩ := by
  norm_num [Vec3.IsUnit, Vec3.dot]

end MathLib
