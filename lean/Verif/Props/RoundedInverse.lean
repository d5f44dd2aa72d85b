import Verif.Props.RoundedForward
import Verif.Props.MatDet
import Verif.Proof.Rne

/-! # Property C126: matrix inversion in floating point -/

namespace MathLib
variable {rnd : ℝ → ℝ} {u : ℝ}

/-- matrices whose entries are numbers -/
def Mat2.num {K : Type} {rnd : K → K} (m : Mat2 K) : Mat2 (Fl K rnd) := ⟨Vec2.num m.x, Vec2.num m.y, m.flags⟩
def Mat3.num {K : Type} {rnd : K → K} (m : Mat3 K) : Mat3 (Fl K rnd) :=
  ⟨Vec3.num m.x, Vec3.num m.y, Vec3.num m.z, m.flags⟩

/-- The property: the zero matrix is returned exactly for singular matrices. -/
def C126_full {K : Type} [Field K] [LinearOrder K] (rnd : K → K) : Prop :=
  (∀ m : Mat2 K, (∀ i j, rnd (m.toM i j) = m.toM i j) →
    (m.toM.det = 0 ↔ ∃ n : Mat2 K, (Mat2.num m : Mat2 (Fl K rnd)).inversed = .ok (Mat2.num n) ∧ n.toM = 0)) ∧
  (∀ m : Mat3 K, (∀ i j, rnd (m.toM i j) = m.toM i j) →
    (m.toM.det = 0 ↔ ∃ n : Mat3 K, (Mat3.num m : Mat3 (Fl K rnd)).inversed = .ok (Mat3.num n) ∧ n.toM = 0))

/-- False for `float`: a matrix of integers whose determinant is 1 is inverted to zero, because the two products of
the determinant round to the same number; and a singular matrix of integers below 400 is given an inverse, because the
determinant comes out as 1. -/
theorem C126_refuted :
    (∃ m : Mat2 ℚ, m.toM.det = 1 ∧ ∃ n, (Mat2.num m : Mat2 F32).inversed = .ok (Mat2.num n) ∧ n.toM = 0) ∧
    (∃ m : Mat3 ℚ, m.toM.det = 0 ∧ (Mat3.num m : Mat3 F32).determinant = 1 ∧
      ∃ n : Mat3 ℚ, (Mat3.num m : Mat3 F32).inversed = .ok (Mat3.num n) ∧ n.toM ≠ 0) ∧
    ¬ C126_full (rne 24 : ℚ → ℚ) := by
  have A : ∃ m : Mat2 ℚ, m.toM.det = 1 ∧ (∀ i j, rne 24 (m.toM i j) = m.toM i j) ∧
      ∃ n, (Mat2.num m : Mat2 F32).inversed = .ok (Mat2.num n) ∧ n.toM = 0 := by
    refine ⟨⟨⟨4097, 4096⟩, ⟨4098, 4097⟩, ⟨false, false, false, false, false⟩⟩, ?_, ?_, Mat2.zero, ?_, ?_⟩
    · simp [Mat2.toM, Matrix.det_fin_two]; norm_num
    · have h : ∀ x ∈ [(4097 : ℚ), 4096, 4098], rne 24 x = x := by decide +kernel
      intro i j
      fin_cases i <;> fin_cases j <;> exact h _ (by simp [Mat2.toM])
    · have : ((Mat2.num ⟨⟨4097, 4096⟩, ⟨4098, 4097⟩, ⟨false, false, false, false, false⟩⟩ : Mat2 F32).determinant == 0)
          = true := by decide +kernel
      simp only [Mat2.inversed, this, if_true]
      rfl
    · ext i j; fin_cases i <;> fin_cases j <;> rfl
  have B : ∃ m : Mat3 ℚ, m.toM.det = 0 ∧ (Mat3.num m : Mat3 F32).determinant = 1 ∧
      ∃ n : Mat3 ℚ, (Mat3.num m : Mat3 F32).inversed = .ok (Mat3.num n) ∧ n.toM ≠ 0 := by
    have hd : (Mat3.num ⟨⟨184, 289, 188⟩, ⟨-217, 97, -221⟩, ⟨-33, 386, -33⟩, ⟨false, false, false, false, false⟩⟩ :
        Mat3 F32).determinant = 1 := by decide +kernel
    obtain ⟨n, hn⟩ : ∃ n : Mat3 ℚ, (Mat3.num ⟨⟨184, 289, 188⟩, ⟨-217, 97, -221⟩, ⟨-33, 386, -33⟩,
        ⟨false, false, false, false, false⟩⟩ : Mat3 F32).adjoint = Mat3.num n := ⟨⟨⟨_, _, _⟩, ⟨_, _, _⟩, ⟨_, _, _⟩, _⟩, rfl⟩
    refine ⟨_, ?_, hd, n, ?_, ?_⟩
    · simp [Mat3.toM, Matrix.det_fin_three]; norm_num
    · have h1 : ((1 : F32) == 0) = false := by decide +kernel
      have h2 : ((1 : F32) == 1) = true := by decide +kernel
      simp only [Mat3.inversed, hd, h1, Mat3.sdiv, h2, hn, Bool.false_eq_true, if_false, if_true]
    · intro h0
      have h1 : n.x.x = 0 := congrFun (congrFun h0 0) 0
      have h2 := congrArg (fun m : Mat3 F32 => m.x.x) hn
      have h3 : (Mat3.num ⟨⟨184, 289, 188⟩, ⟨-217, 97, -221⟩, ⟨-33, 386, -33⟩,
        ⟨false, false, false, false, false⟩⟩ : Mat3 F32).adjoint.x.x ≠ .num 0 := by decide +kernel
      exact h3 (h2.trans (congrArg Fl.num h1))
  refine ⟨?_, B, fun h => ?_⟩
  · obtain ⟨m, h1, -, h2⟩ := A
    exact ⟨m, h1, h2⟩
  · obtain ⟨m, h1, h2, h3⟩ := A
    have := (h.1 m h2).2 h3
    rw [h1] at this; exact one_ne_zero this

/-- The quotient of two results with errors. -/
theorem quot_fac (hr : IsRel rnd u) {n k : ℕ} {P x D κ v w θ : ℝ} (hx : |x| ≤ P) (hv : |v - x| ≤ gam u n * P)
    (hw : |w - D| ≤ κ * |D|) (hD : D ≠ 0) (hκ : κ < 1) (ht : Fac u k θ) :
    w ≠ 0 ∧ |v * θ / w - x / D| ≤ ((1 + gam u (n + k)) / (1 - κ) - 1) * (P / |D|) := by
  have hP : 0 ≤ P := (abs_nonneg _).trans hx
  have hDp : 0 < |D| := abs_pos.2 hD
  have hwD : (1 - κ) * |D| ≤ |w| := by
    have := abs_sub_abs_le_abs_sub D w
    rw [abs_sub_comm D w] at this; linarith
  have hwp : 0 < |w| := lt_of_lt_of_le (mul_pos (by linarith) hDp) hwD
  have hw0 : w ≠ 0 := abs_pos.1 hwp
  have hvt : |v * θ - x| ≤ gam u (n + k) * P := by
    unfold gam at *
    have h1 := ht.abs_sub_one hr.lt_one
    unfold gam at h1
    have g1 : 1 ≤ ((1 - u) ^ n)⁻¹ := (one_le_inv₀ (Fac.gpos hr.lt_one n)).2 (Fac.gle hr.nonneg hr.lt_one n)
    have h2 : |v| ≤ ((1 - u) ^ n)⁻¹ * P := by
      calc |v| = |(v - x) + x| := by ring_nf
        _ ≤ |v - x| + |x| := abs_add_le _ _
        _ ≤ ((1 - u) ^ n)⁻¹ * P := by linarith
    calc |v * θ - x| = |v * (θ - 1) + (v - x)| := by ring_nf
      _ ≤ |v| * |θ - 1| + |v - x| := by rw [← abs_mul]; exact abs_add_le _ _
      _ ≤ ((1 - u) ^ n)⁻¹ * P * (((1 - u) ^ k)⁻¹ - 1) + (((1 - u) ^ n)⁻¹ - 1) * P := by
        gcongr
      _ = _ := by rw [pow_add, mul_inv]; ring
  refine ⟨hw0, ?_⟩
  have hκ0 : 0 ≤ κ * |D| := (abs_nonneg _).trans hw
  have hN : |(v * θ - x) * D + x * (D - w)| ≤ (gam u (n + k) + κ) * P * |D| := by
    calc _ ≤ |v * θ - x| * |D| + |x| * |D - w| := by rw [← abs_mul, ← abs_mul]; exact abs_add_le _ _
      _ ≤ gam u (n + k) * P * |D| + P * (κ * |D|) := by
        rw [abs_sub_comm D w]
        exact add_le_add (mul_le_mul_of_nonneg_right hvt hDp.le) (mul_le_mul hx hw (abs_nonneg _) hP)
      _ = _ := by ring
  have hk1 : 0 < 1 - κ := by linarith
  rw [show v * θ / w - x / D = ((v * θ - x) * D + x * (D - w)) / (w * D) by field_simp; ring, abs_div, abs_mul w,
    div_le_iff₀ (mul_pos hwp hDp)]
  refine hN.trans ?_
  have e : (1 + gam u (n + k)) / (1 - κ) - 1 = (gam u (n + k) + κ) / (1 - κ) := by field_simp; ring
  have hgk : 0 ≤ gam u (n + k) + κ := by
    have h1 : 0 ≤ gam u (n + k) := by
      have : 1 ≤ ((1 - u) ^ (n + k))⁻¹ :=
        (one_le_inv₀ (Fac.gpos hr.lt_one _)).2 (Fac.gle hr.nonneg hr.lt_one _)
      unfold gam; linarith
    have h2 : 0 ≤ κ := nonneg_of_mul_nonneg_left hκ0 hDp
    linarith
  rw [e, show (gam u (n + k) + κ) / (1 - κ) * (P / |D|) * (|w| * |D|) = (gam u (n + k) + κ) * P * (|w| / (1 - κ)) by
    field_simp]
  refine mul_le_mul_of_nonneg_left ?_ (mul_nonneg hgk hP)
  rw [le_div_iff₀ hk1]; linarith

/-- dividing, or not when the divisor is 1 -/
private theorem quot' (hr : IsRel rnd u) {n : ℕ} {P x D κ w : ℝ} {a : Fl ℝ rnd} (ha : AbsErr u n P x a)
    (hw : |w - D| ≤ κ * |D|) (hD : D ≠ 0) (hκ : κ < 1) :
    ∃ r : ℝ, (if w = 1 then a else a / .num w) = .num r ∧
      |r - x / D| ≤ ((1 + gam u (n + 1)) / (1 - κ) - 1) * (P / |D|) := by
  obtain ⟨hx, v, rfl, hv⟩ := ha
  split_ifs with h
  · refine ⟨v, rfl, ?_⟩
    have := (quot_fac hr hx hv hw hD hκ (Fac.one hr.nonneg hr.lt_one : Fac u 1 1)).2
    rwa [h, mul_one, div_one] at this
  · obtain ⟨θ, ht, e⟩ := hr.fac (v / w)
    obtain ⟨h0, h1⟩ := quot_fac hr hx hv hw hD hκ ht
    refine ⟨rnd (v / w), ?_, ?_⟩
    · rw [Fl.num_div, if_neg h0]
    · rw [e, div_mul_eq_mul_div]; exact h1

/-- C126, what holds in the plane.  A singular matrix gives the zero matrix, whatever the rounding.  Let `κ` bound the error
of the computed determinant relative to the determinant: if it is below 1 then every entry of the result is that of
the inverse up to about `u + κ`, relatively.
Missing: matrices whose determinant suffers cancellation (false). -/
theorem C126_mat2_partial (hr : IsRel rnd u) (m : Mat2 ℝ) :
    (m.toM.det = 0 → ∃ n : Mat2 ℝ, (Mat2.num m : Mat2 (Fl ℝ rnd)).inversed = .ok (Mat2.num n) ∧ n.toM = 0) ∧
    ∀ κ < 1, m.toM.det ≠ 0 → gam u 2 * (|m.x.x * m.y.y| + |m.x.y * m.y.x|) ≤ κ * |m.toM.det| →
      ∃ n : Mat2 ℝ, (Mat2.num m : Mat2 (Fl ℝ rnd)).inversed = .ok (Mat2.num n) ∧
        ∀ i j, |n.toM i j - m.toM⁻¹ i j| ≤ ((1 + gam u 1) / (1 - κ) - 1) * |m.toM⁻¹ i j| := by
  have hdet : m.toM.det = m.x.x * m.y.y - m.x.y * m.y.x := by simp [Mat2.toM, Matrix.det_fin_two]; ring
  have hd : (Mat2.num m : Mat2 (Fl ℝ rnd)).determinant =
      .num (rnd (rnd (m.x.x * m.y.y) - rnd (m.x.y * m.y.x))) := rfl
  constructor
  · intro h0
    refine ⟨Mat2.zero, ?_, by ext i j; fin_cases i <;> fin_cases j <;> rfl⟩
    rw [hdet, sub_eq_zero] at h0
    have r0 : rnd 0 = 0 := by have := hr.err 0; simpa using this
    rw [h0, sub_self, r0] at hd
    have hz : (Fl.num 0 == (0 : Fl ℝ rnd)) = true := by rw [Fl.zero_def, Fl.num_beq]; simp
    simp only [Mat2.inversed, hd, hz, if_true]
    rw [Mat2.zero, Mat2.ofScalar, Mat2.num, Mat2.zero, Mat2.ofScalar]
    have e : ((0 : Fl ℝ rnd) == 1) = ((0 : ℝ) == 1) := by rw [Fl.zero_def, Fl.one_def, Fl.num_beq]; rfl
    rw [e]; rfl
  · intro κ hκ h0 hb
    obtain ⟨-, w, hw, hwe⟩ := abs_diff2 hr m.x.x m.y.y m.x.y m.y.x
    have hw' : (Mat2.num m : Mat2 (Fl ℝ rnd)).determinant = .num w := hw
    rw [← hdet] at hwe
    have hwb : |w - m.toM.det| ≤ κ * |m.toM.det| := hwe.trans hb
    have q := fun x : ℝ => quot' hr (AbsErr.exact hr x) hwb h0 hκ
    obtain ⟨a, ea, ha⟩ := q m.y.y
    obtain ⟨b, eb, hb'⟩ := q (-m.x.y)
    obtain ⟨c, ec, hc⟩ := q (-m.y.x)
    obtain ⟨d, ed, hd'⟩ := q m.x.x
    have hw0 : w ≠ 0 := (quot_fac hr (n := 0) (le_refl |(0 : ℝ)|) (v := 0) (by simp) hwb h0 hκ
      (Fac.one hr.nonneg hr.lt_one : Fac u 1 1)).1
    have hz : (Fl.num w == (0 : Fl ℝ rnd)) = false := by rw [Fl.zero_def, Fl.num_beq]; simpa using hw0
    have ho : (Fl.num w == (1 : Fl ℝ rnd)) = decide (w = 1) := by rw [Fl.one_def, Fl.num_beq]
    obtain ⟨n, hn, h1, h2, h3, h4⟩ : ∃ n : Mat2 (Fl ℝ rnd), (Mat2.num m : Mat2 (Fl ℝ rnd)).inversed = .ok n ∧
        n.x.x = .num a ∧ n.x.y = .num b ∧ n.y.x = .num c ∧ n.y.y = .num d := by
      rw [← ea, ← eb, ← ec, ← ed]
      simp only [Mat2.inversed, hw', hz, Mat2.sdiv, ho, Vec2.div, Bool.false_eq_true, if_false]
      by_cases h : w = 1
      · simp only [h, decide_true, if_true]; exact ⟨_, rfl, rfl, rfl, rfl, rfl⟩
      · simp only [h, decide_false, if_false, Bool.false_eq_true]; exact ⟨_, rfl, rfl, rfl, rfl, rfl⟩
    refine ⟨⟨⟨a, b⟩, ⟨c, d⟩, n.flags⟩, ?_, ?_⟩
    · rw [hn]
      obtain ⟨⟨n1, n2⟩, ⟨n3, n4⟩, f⟩ := n
      simp only at h1 h2 h3 h4
      rw [h1, h2, h3, h4]; rfl
    · have hinv : m.toM⁻¹ = (m.toM.det)⁻¹ • !![m.y.y, -m.y.x; -m.x.y, m.x.x] := by
        rw [Matrix.inv_def, Ring.inverse_eq_inv']
        congr 1
        rw [Mat2.toM, Matrix.adjugate_fin_two]; rfl
      have k : ∀ {r x : ℝ}, |r - x / m.toM.det| ≤ ((1 + gam u (0 + 1)) / (1 - κ) - 1) * (|x| / |m.toM.det|) →
          |r - (m.toM.det)⁻¹ * x| ≤ ((1 + gam u 1) / (1 - κ) - 1) * |(m.toM.det)⁻¹ * x| := by
        intro r x h
        rwa [inv_mul_eq_div, abs_div]
      rw [hinv]
      intro i j
      fin_cases i <;> fin_cases j
      exacts [k ha, k hc, k hb', k hd']

example : (⟨⟨3, 1⟩, ⟨-2, 5⟩, Flags.start⟩ : Mat2 ℝ).toM.det ≠ 0 ∧ gam (2 ^ (-24 : ℤ)) 2 * (|(3 : ℝ) * 5| + |1 * (-2)|) ≤
    1 / 1000000 * |(⟨⟨3, 1⟩, ⟨-2, 5⟩, Flags.start⟩ : Mat2 ℝ).toM.det| := by
  have : (⟨⟨3, 1⟩, ⟨-2, 5⟩, Flags.start⟩ : Mat2 ℝ).toM.det = 17 := by
    simp [Mat2.toM, Matrix.det_fin_two]; norm_num
  rw [this]
  unfold gam
  norm_num

/-- the sums of the absolute values of the products of the adjoint matrix -/
def Mat3.absAdj (m : Mat3 ℝ) : Matrix (Fin 3) (Fin 3) ℝ :=
  !![|m.y.y * m.z.z| + |m.z.y * m.y.z|, |m.z.x * m.y.z| + |m.y.x * m.z.z|, |m.y.x * m.z.y| + |m.z.x * m.y.y|;
     |m.z.y * m.x.z| + |m.x.y * m.z.z|, |m.x.x * m.z.z| + |m.z.x * m.x.z|, |m.z.x * m.x.y| + |m.x.x * m.z.y|;
     |m.x.y * m.y.z| + |m.y.y * m.x.z|, |m.y.x * m.x.z| + |m.x.x * m.y.z|, |m.x.x * m.y.y| + |m.y.x * m.x.y|]

/-- C126, what holds in space.  Let `κ` bound the error of the computed determinant relative to the determinant: if it is
below 1 then the result is the inverse up to about `3 u + κ`, relative to the sums of the absolute values of the
products; `invert` does the same unless the matrix is marked as orthonormal.
Missing: matrices whose determinant suffers cancellation (false). -/
theorem C126_mat3_partial (hr : IsRel rnd u) (m : Mat3 ℝ) (κ : ℝ) (hκ : κ < 1) (h0 : m.toM.det ≠ 0)
    (hb : gam u 5 * (|m.x.x| * (|m.y.y * m.z.z| + |m.z.y * m.y.z|) + |m.y.x| * (|m.x.y * m.z.z| + |m.z.y * m.x.z|) +
        |m.z.x| * (|m.x.y * m.y.z| + |m.y.y * m.x.z|)) ≤ κ * |m.toM.det|) :
    ∃ n : Mat3 ℝ, (Mat3.num m : Mat3 (Fl ℝ rnd)).inversed = .ok (Mat3.num n) ∧
      ((Mat3.num m : Mat3 (Fl ℝ rnd)).isOrthonormal = false →
        (Mat3.num m : Mat3 (Fl ℝ rnd)).invert = .ok (Mat3.num n)) ∧
      ∀ i j, |n.toM i j - m.toM⁻¹ i j| ≤ ((1 + gam u 3) / (1 - κ) - 1) * (m.absAdj i j / |m.toM.det|) := by
  have hdet : m.toM.det = m.x.x * (m.y.y * m.z.z - m.z.y * m.y.z) - m.y.x * (m.x.y * m.z.z - m.z.y * m.x.z) +
      m.z.x * (m.x.y * m.y.z - m.y.y * m.x.z) := by
    simp [Mat3.toM, Matrix.det_fin_three]; ring
  obtain ⟨w, hw, hwe⟩ := C120_det3 hr m.x m.y m.z m.flags
  have hw' : (Mat3.num m : Mat3 (Fl ℝ rnd)).determinant = .num w := hw
  rw [← hdet] at hwe
  have hwb : |w - m.toM.det| ≤ κ * |m.toM.det| := hwe.trans hb
  have q := fun a b c d : ℝ => quot' hr (abs_diff2 hr a b c d) hwb h0 hκ
  obtain ⟨a1, e1, k1⟩ := q m.y.y m.z.z m.z.y m.y.z
  obtain ⟨a2, e2, k2⟩ := q m.z.y m.x.z m.x.y m.z.z
  obtain ⟨a3, e3, k3⟩ := q m.x.y m.y.z m.y.y m.x.z
  obtain ⟨a4, e4, k4⟩ := q m.z.x m.y.z m.y.x m.z.z
  obtain ⟨a5, e5, k5⟩ := q m.x.x m.z.z m.z.x m.x.z
  obtain ⟨a6, e6, k6⟩ := q m.y.x m.x.z m.x.x m.y.z
  obtain ⟨a7, e7, k7⟩ := q m.y.x m.z.y m.z.x m.y.y
  obtain ⟨a8, e8, k8⟩ := q m.z.x m.x.y m.x.x m.z.y
  obtain ⟨a9, e9, k9⟩ := q m.x.x m.y.y m.y.x m.x.y
  have hw0 : w ≠ 0 := (quot_fac hr (n := 0) (le_refl |(0 : ℝ)|) (v := 0) (by simp) hwb h0 hκ
    (Fac.one hr.nonneg hr.lt_one : Fac u 1 1)).1
  have hz : (Fl.num w == (0 : Fl ℝ rnd)) = false := by rw [Fl.zero_def, Fl.num_beq]; simpa using hw0
  have ho : (Fl.num w == (1 : Fl ℝ rnd)) = decide (w = 1) := by rw [Fl.one_def, Fl.num_beq]
  obtain ⟨n, hn, hx, hy, hzz⟩ : ∃ n : Mat3 (Fl ℝ rnd), (Mat3.num m : Mat3 (Fl ℝ rnd)).inversed = .ok n ∧
      n.x = ⟨.num a1, .num a2, .num a3⟩ ∧ n.y = ⟨.num a4, .num a5, .num a6⟩ ∧ n.z = ⟨.num a7, .num a8, .num a9⟩ := by
    rw [← e1, ← e2, ← e3, ← e4, ← e5, ← e6, ← e7, ← e8, ← e9]
    simp only [Mat3.inversed, hw', hz, Mat3.sdiv, ho, Vec3.div, Bool.false_eq_true, if_false]
    by_cases h : w = 1
    · simp only [h, decide_true, if_true]; exact ⟨_, rfl, rfl, rfl, rfl⟩
    · simp only [h, decide_false, if_false, Bool.false_eq_true]; exact ⟨_, rfl, rfl, rfl, rfl⟩
  have hn' : (Mat3.num m : Mat3 (Fl ℝ rnd)).inversed =
      .ok (Mat3.num ⟨⟨a1, a2, a3⟩, ⟨a4, a5, a6⟩, ⟨a7, a8, a9⟩, n.flags⟩) := by
    rw [hn]
    obtain ⟨n1, n2, n3, f⟩ := n
    simp only at hx hy hzz
    rw [hx, hy, hzz]; rfl
  refine ⟨_, hn', fun hf => ?_, ?_⟩
  · rw [← hn']; simp only [Mat3.invert, hf, Mat3.inversed, Bool.false_eq_true, if_false]
  · have hinv : m.toM⁻¹ = (m.toM.det)⁻¹ •
        !![m.y.y * m.z.z - m.z.y * m.y.z, m.z.x * m.y.z - m.y.x * m.z.z, m.y.x * m.z.y - m.z.x * m.y.y;
           m.z.y * m.x.z - m.x.y * m.z.z, m.x.x * m.z.z - m.z.x * m.x.z, m.z.x * m.x.y - m.x.x * m.z.y;
           m.x.y * m.y.z - m.y.y * m.x.z, m.y.x * m.x.z - m.x.x * m.y.z, m.x.x * m.y.y - m.y.x * m.x.y] := by
      rw [Matrix.inv_def, Ring.inverse_eq_inv']
      congr 1
      rw [Mat3.toM, Matrix.adjugate_fin_three]
      ext i j
      fin_cases i <;> fin_cases j <;> simp <;> ring
    have k : ∀ {r x P : ℝ}, |r - x / m.toM.det| ≤ ((1 + gam u (2 + 1)) / (1 - κ) - 1) * (P / |m.toM.det|) →
        |r - (m.toM.det)⁻¹ * x| ≤ ((1 + gam u 3) / (1 - κ) - 1) * (P / |m.toM.det|) := by
      intro r x P h
      rwa [inv_mul_eq_div]
    rw [hinv]
    intro i j
    fin_cases i <;> fin_cases j
    exacts [k k1, k k4, k k7, k k2, k k5, k k8, k k3, k k6, k k9]

example : (⟨⟨2, 0, 0⟩, ⟨1, 3, 0⟩, ⟨0, 1, 5⟩, Flags.start⟩ : Mat3 ℝ).toM.det ≠ 0 ∧
    gam (2 ^ (-24 : ℤ)) 5 * (|(2 : ℝ)| * (|3 * 5| + |1 * 0|) + |1| * (|0 * 5| + |1 * 0|) + |0| * (|0 * 0| + |3 * 0|)) ≤
    1 / 1000000 * |(⟨⟨2, 0, 0⟩, ⟨1, 3, 0⟩, ⟨0, 1, 5⟩, Flags.start⟩ : Mat3 ℝ).toM.det| := by
  have : (⟨⟨2, 0, 0⟩, ⟨1, 3, 0⟩, ⟨0, 1, 5⟩, Flags.start⟩ : Mat3 ℝ).toM.det = 30 := by
    simp [Mat3.toM, Matrix.det_fin_three]; norm_num
  rw [this]
  unfold gam
  norm_num

end MathLib
