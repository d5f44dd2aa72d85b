import Verif.Props.RoundedInverse

/-! # Property C163: inverting 4×4 matrices and affine maps in floating point -/

namespace MathLib
variable {rnd : ℝ → ℝ} {u : ℝ}

/-- matrices whose entries are numbers -/
def Mat4.num {K : Type} {rnd : K → K} (m : Mat4 K) : Mat4 (Fl K rnd) :=
  let c (v : Vec4 K) : Vec4 (Fl K rnd) := ⟨.num v.x, .num v.y, .num v.z, .num v.w⟩
  ⟨c m.x, c m.y, c m.z, c m.t, m.flags⟩
def Mat34.num {K : Type} {rnd : K → K} (m : Mat34 K) : Mat34 (Fl K rnd) := ⟨Mat3.num m.rs, Vec3.num m.t⟩

/-- The property: the zero matrix is returned for singular matrices only. -/
def C163_full {K : Type} [Field K] [LinearOrder K] (rnd : K → K) : Prop :=
  ∀ m : Mat4 K, (∀ i j, rnd (m.toM i j) = m.toM i j) → m.toM.det ≠ 0 →
    ∀ n : Mat4 K, (Mat4.num m : Mat4 (Fl K rnd)).inversed = .ok (Mat4.num n) → n.toM ≠ 0

/-- False for `float`: a matrix of integers whose determinant is 1 is inverted to zero. -/
theorem C163_refuted :
    (∃ m : Mat4 ℚ, m.toM.det = 1 ∧ (Mat4.num m : Mat4 F32).invert = Mat4.num Mat4.zero ∧
      (Mat4.num m : Mat4 F32).inversed = .ok (Mat4.num Mat4.zero)) ∧
    ¬ C163_full (rne 24 : ℚ → ℚ) := by
  have A : ∃ m : Mat4 ℚ, m.toM.det = 1 ∧ (∀ i j, rne 24 (m.toM i j) = m.toM i j) ∧
      (Mat4.num m : Mat4 F32).invert = Mat4.num Mat4.zero ∧
      (Mat4.num m : Mat4 F32).inversed = .ok (Mat4.num Mat4.zero) := by
    refine ⟨⟨⟨1, 0, 0, 0⟩, ⟨0, 1, 0, 0⟩, ⟨0, 0, 4097, 4096⟩, ⟨0, 0, 4098, 4097⟩, ⟨false, false, false, false, false⟩⟩,
      ?_, ?_, ?_⟩
    · rw [← Mat4.det_eq]; decide +kernel
    · have h : ∀ x ∈ [(4097 : ℚ), 4096, 4098, 0, 1], rne 24 x = x := by decide +kernel
      intro i j
      fin_cases i <;> fin_cases j <;> exact h _ (by simp [Mat4.toM])
    · constructor <;> decide +kernel
  have Z : (Mat4.zero : Mat4 ℚ).toM = 0 := by ext i j; fin_cases i <;> fin_cases j <;> rfl
  obtain ⟨m, h1, h2, h3, h4⟩ := A
  exact ⟨⟨m, h1, h3, h4⟩, fun h => h m h2 (by rw [h1]; exact one_ne_zero) _ h4 Z⟩

/-- the sums of the absolute values of the products of the adjoint matrix -/
def Mat4.absAdj (m : Mat4 ℝ) : Matrix (Fin 4) (Fin 4) ℝ := fun i j =>
  let s := m.toM.submatrix j.succAbove i.succAbove
  |s 0 0 * s 1 1 * s 2 2| + |s 0 0 * s 1 2 * s 2 1| + |s 0 1 * s 1 0 * s 2 2| + |s 0 1 * s 1 2 * s 2 0| +
    |s 0 2 * s 1 0 * s 2 1| + |s 0 2 * s 1 1 * s 2 0|

/-- the sum of the absolute values of the 24 products of the determinant -/
def Mat4.absDet (m : Mat4 ℝ) : ℝ := ∑ i, |m.toM i 0| * m.absAdj 0 i

private theorem pr (hr : IsRel rnd u) (x y : ℝ) : AbsErr u 1 |x * y| (x * y) (.num x * .num y : Fl ℝ rnd) :=
  AbsErr.of_rel hr (Rel.mul hr (Rel.exact hr x) (Rel.exact hr y))

/-- a number times the difference of two products -/
private theorem cf (hr : IsRel rnd u) (x a b c d : ℝ) : AbsErr u 3 (|x| * (|a * b| + |c * d|)) (x * (a * b - c * d))
    (.num x * (.num a * .num b - .num c * .num d) : Fl ℝ rnd) :=
  AbsErr.mul hr (AbsErr.exact hr x) (AbsErr.sub (k := 2) hr (pr hr a b) (pr hr c d))

private theorem cf' (hr : IsRel rnd u) (x a b c d : ℝ) : AbsErr u 3 (|x| * (|a * b| + |c * d|)) (-x * (a * b - c * d))
    (-.num x * (.num a * .num b - .num c * .num d) : Fl ℝ rnd) :=
  AbsErr.mul hr (AbsErr.neg (AbsErr.exact hr x)) (AbsErr.sub (k := 2) hr (pr hr a b) (pr hr c d))

/-- The adjoint matrix is computed with five roundings. -/
theorem Mat4.adj_err (hr : IsRel rnd u) (m : Mat4 ℝ) (i j : Fin 4) :
    AbsErr u 5 (m.absAdj i j) (m.adj.toM i j) ((Mat4.num m : Mat4 (Fl ℝ rnd)).adj.toM i j) := by
  have c : ∀ {P Q x : ℝ} {a : Fl ℝ rnd}, AbsErr u 5 P x a → Q = P → AbsErr u 5 Q x a := fun h e => e ▸ h
  fin_cases i <;> fin_cases j <;>
  first
  | refine c (AbsErr.add hr (AbsErr.sub (k := 4) hr (cf hr _ _ _ _ _) (cf hr _ _ _ _ _)) (cf hr _ _ _ _ _)) ?_
    simp [Mat4.absAdj, Mat4.toM, Fin.succAbove, abs_mul]; ring
  | refine c (AbsErr.sub hr (AbsErr.add (k := 4) hr (cf' hr _ _ _ _ _) (cf hr _ _ _ _ _)) (cf hr _ _ _ _ _)) ?_
    simp [Mat4.absAdj, Mat4.toM, Fin.succAbove, abs_mul]; ring

/-- The determinant is computed with nine roundings. -/
theorem Mat4.adjDet_err (hr : IsRel rnd u) (m : Mat4 ℝ) :
    AbsErr u 9 m.absDet m.toM.det ((Mat4.num m : Mat4 (Fl ℝ rnd)).adjDet (Mat4.num m : Mat4 (Fl ℝ rnd)).adj) := by
  have e := fun (x : ℝ) (i j : Fin 4) => AbsErr.mul (k := 6) hr (AbsErr.exact hr x) (m.adj_err hr i j)
  have h := AbsErr.add (k := 9) hr (AbsErr.add (k := 8) hr (AbsErr.add (k := 7) hr (e m.x.x 0 0) (e m.x.y 0 1)) (e m.x.z 0 2)) (e m.x.w 0 3)
  have d : m.toM.det = m.x.x * m.adj.toM 0 0 + m.x.y * m.adj.toM 0 1 + m.x.z * m.adj.toM 0 2 + m.x.w * m.adj.toM 0 3 := by
    rw [← m.det_eq]; rfl
  rw [d, Mat4.absDet, Fin.sum_univ_four]
  exact h

/-- multiplying by the reciprocal, or not when the divisor is 1 -/
private theorem recip (hr : IsRel rnd u) {n : ℕ} {P x D κ w : ℝ} {a : Fl ℝ rnd} (ha : AbsErr u n P x a)
    (hw : |w - D| ≤ κ * |D|) (hD : D ≠ 0) (hκ : κ < 1) :
    ∃ r : ℝ, (if w = 1 then a else a * (1 / .num w)) = .num r ∧
      |r - x / D| ≤ ((1 + gam u (n + 2)) / (1 - κ) - 1) * (P / |D|) := by
  obtain ⟨hx, v, rfl, hv⟩ := ha
  split_ifs with h
  · refine ⟨v, rfl, ?_⟩
    have := (quot_fac hr hx hv hw hD hκ (Fac.one hr.nonneg hr.lt_one : Fac u 2 1)).2
    rwa [h, mul_one, div_one] at this
  · obtain ⟨θ, ht, e⟩ := hr.fac (1 / w)
    obtain ⟨θ', ht', e'⟩ := hr.fac (v * rnd (1 / w))
    obtain ⟨h0, h1⟩ := quot_fac hr hx hv hw hD hκ (ht.mul hr.lt_one ht' : Fac u (1 + 1) (θ * θ'))
    refine ⟨rnd (v * rnd (1 / w)), ?_, ?_⟩
    · rw [Fl.one_def, Fl.num_div, if_neg h0, Fl.num_mul]
    · rw [e', e, show v * (1 / w * θ) * θ' = v * (θ * θ') / w by ring]; exact h1

private theorem collect {M : Mat4 (Fl ℝ rnd)} {p : Fin 4 → Fin 4 → ℝ → Prop}
    (h : ∀ i j, ∃ r, M.toM i j = .num r ∧ p i j r) : ∃ n : Mat4 ℝ, M = Mat4.num n ∧ ∀ i j, p i j (n.toM i j) := by
  choose r h1 h2 using h
  refine ⟨⟨⟨r 0 0, r 1 0, r 2 0, r 3 0⟩, ⟨r 0 1, r 1 1, r 2 1, r 3 1⟩, ⟨r 0 2, r 1 2, r 2 2, r 3 2⟩,
    ⟨r 0 3, r 1 3, r 2 3, r 3 3⟩, M.flags⟩, ?_, ?_⟩
  · obtain ⟨⟨a1, a2, a3, a4⟩, ⟨a5, a6, a7, a8⟩, ⟨b1, b2, b3, b4⟩, ⟨b5, b6, b7, b8⟩, f⟩ := M
    simp only [Mat4.num, Mat4.mk.injEq, Vec4.mk.injEq, and_true]
    exact ⟨⟨h1 0 0, h1 1 0, h1 2 0, h1 3 0⟩, ⟨h1 0 1, h1 1 1, h1 2 1, h1 3 1⟩, ⟨h1 0 2, h1 1 2, h1 2 2, h1 3 2⟩,
      h1 0 3, h1 1 3, h1 2 3, h1 3 3⟩
  · intro i j
    fin_cases i <;> fin_cases j <;> exact h2 _ _

/-- C163, what holds of 4×4 matrices not marked as orthonormal.  Let `κ` bound the error of the computed determinant
relative to the determinant: if it is below 1 then the result is the inverse up to about `7 u + κ`, relative to the sums
of the absolute values of the products; `invert` and `inversed` give the same numbers.
Missing: matrices whose determinant suffers cancellation (false). -/
theorem C163_mat4_partial (hr : IsRel rnd u) (m : Mat4 ℝ) (hf : m.isOrthonormal = false) (κ : ℝ) (hκ : κ < 1)
    (h0 : m.toM.det ≠ 0) (hb : gam u 9 * m.absDet ≤ κ * |m.toM.det|) :
    ∃ (n : Mat4 ℝ) (f : Flags), (Mat4.num m : Mat4 (Fl ℝ rnd)).invert = Mat4.num n ∧
      (Mat4.num m : Mat4 (Fl ℝ rnd)).inversed = .ok (Mat4.num { n with flags := f }) ∧
      ∀ i j, |n.toM i j - m.toM⁻¹ i j| ≤ ((1 + gam u 7) / (1 - κ) - 1) * (m.absAdj i j / |m.toM.det|) := by
  obtain ⟨-, w, hw, hwe⟩ := m.adjDet_err hr
  have hwb : |w - m.toM.det| ≤ κ * |m.toM.det| := hwe.trans hb
  have hw0 : w ≠ 0 := (quot_fac hr (n := 0) (le_refl |(0 : ℝ)|) (v := 0) (by simp) hwb h0 hκ
    (Fac.one hr.nonneg hr.lt_one : Fac u 1 1)).1
  have hz : (Fl.num w == (0 : Fl ℝ rnd)) = false := by rw [Fl.zero_def, Fl.num_beq]; simpa using hw0
  have ho : (Fl.num w == (1 : Fl ℝ rnd)) = decide (w = 1) := by rw [Fl.one_def, Fl.num_beq]
  have hf' : (Mat4.num m : Mat4 (Fl ℝ rnd)).isOrthonormal = false := hf
  have hv : ∀ i j, (Mat4.num m : Mat4 (Fl ℝ rnd)).invert.toM i j =
      if w = 1 then (Mat4.num m : Mat4 (Fl ℝ rnd)).adj.toM i j
      else (Mat4.num m : Mat4 (Fl ℝ rnd)).adj.toM i j * (1 / .num w) := by
    intro i j
    simp only [Mat4.invert, hf', Bool.false_eq_true, if_false, hw, hz, Mat4.sdiv, ho, decide_eq_true_eq]
    split_ifs with h
    · rfl
    · fin_cases i <;> fin_cases j <;> rfl
  obtain ⟨n, hn, hE⟩ := collect (M := (Mat4.num m : Mat4 (Fl ℝ rnd)).invert)
    (p := fun i j r => |r - m.adj.toM i j / m.toM.det| ≤
      ((1 + gam u 7) / (1 - κ) - 1) * (m.absAdj i j / |m.toM.det|))
    (fun i j => by rw [hv]; exact recip hr (m.adj_err hr i j) hwb h0 hκ)
  obtain ⟨N, hN, hx, hy, hzz, ht⟩ : ∃ N : Mat4 (Fl ℝ rnd), (Mat4.num m : Mat4 (Fl ℝ rnd)).inversed = .ok N ∧
      N.x = (Mat4.num m : Mat4 (Fl ℝ rnd)).invert.x ∧ N.y = (Mat4.num m : Mat4 (Fl ℝ rnd)).invert.y ∧
      N.z = (Mat4.num m : Mat4 (Fl ℝ rnd)).invert.z ∧ N.t = (Mat4.num m : Mat4 (Fl ℝ rnd)).invert.t := by
    simp only [Mat4.invert, Mat4.inversed, hf', Bool.false_eq_true, if_false, hw, hz, Mat4.sdiv, Mat4.sdivAssign, ho,
      decide_eq_true_eq]
    split_ifs with h
    · exact ⟨_, rfl, rfl, rfl, rfl, rfl⟩
    · exact ⟨_, rfl, rfl, rfl, rfl, rfl⟩
  refine ⟨n, N.flags, hn, ?_, fun i j => ?_⟩
  · rw [hN]
    rw [hn] at hx hy hzz ht
    obtain ⟨x, y, z, t, f⟩ := N
    simp only at hx hy hzz ht
    rw [hx, hy, hzz, ht]; rfl
  · have := hE i j
    rw [show m.adj.toM = m.toM.adjugate from
      (C39_mat4 { m with flags := ⟨false, false, false, false, false⟩ } { m with flags := ⟨false, false, false, false, false⟩ }
        (by simp [Mat4.isIdentity]) (by simp [Mat4.isIdentity])).2.2.1] at this
    rwa [Matrix.inv_def, Ring.inverse_eq_inv', Matrix.smul_apply, smul_eq_mul, inv_mul_eq_div]

/-- a shear that scales and translates, in `float` -/
example : ∃ m : Mat4 ℝ, m.isOrthonormal = false ∧ m.toM.det = 6 ∧
    gam (2 ^ (-24 : ℤ)) 9 * m.absDet ≤ 1 / 1000000 * |m.toM.det| := by
  have d : (⟨⟨2, 1, 0, 0⟩, ⟨0, 3, 0, 0⟩, ⟨0, 0, 1, 0⟩, ⟨5, 0, 0, 1⟩, Flags.start⟩ : Mat4 ℝ).toM.det = 6 := by
    rw [← Mat4.det_eq]; simp [Mat4.determinant]; norm_num
  refine ⟨⟨⟨2, 1, 0, 0⟩, ⟨0, 3, 0, 0⟩, ⟨0, 0, 1, 0⟩, ⟨5, 0, 0, 1⟩, Flags.start⟩, rfl, d, ?_⟩
  rw [d]
  have a : (⟨⟨2, 1, 0, 0⟩, ⟨0, 3, 0, 0⟩, ⟨0, 0, 1, 0⟩, ⟨5, 0, 0, 1⟩, Flags.start⟩ : Mat4 ℝ).absDet = 6 := by
    rw [Mat4.absDet, Fin.sum_univ_four]
    simp [Mat4.absAdj, Mat4.toM, Fin.succAbove]; norm_num
  rw [a]
  unfold gam
  norm_num

/-- the errors of `-(Rᵀ t)` and of the copies -/
private theorem neg3 (hr : IsRel rnd u) (a b c d e f : ℝ) : ∃ v : ℝ,
    (-(.num a * .num b + .num c * .num d + .num e * .num f) : Fl ℝ rnd) = .num v ∧
      |v - -(a * b + c * d + e * f)| ≤ gam u 3 * (|a * b| + |c * d| + |e * f|) :=
  (AbsErr.neg (abs_sum3 hr a b c d e f)).2

/-- C163, matrices marked as orthonormal, as rotations and translations are: the linear part of the result is the
transposed one, without any error; the translation is `-Rᵀ t` up to three roundings, relative to the absolute values of the
products.  `Mat4::inversed` writes the last row of a translation, `Mat4::invert` leaves that of the matrix. -/
theorem C163_rigid4 (hr : IsRel rnd u) (m : Mat4 ℝ) (hf : m.isOrthonormal = true) :
    ∃ s : Vec3 ℝ,
      (Mat4.num m : Mat4 (Fl ℝ rnd)).invert = Mat4.num ⟨⟨m.x.x, m.y.x, m.z.x, m.x.w⟩, ⟨m.x.y, m.y.y, m.z.y, m.y.w⟩,
        ⟨m.x.z, m.y.z, m.z.z, m.z.w⟩, ⟨s.x, s.y, s.z, m.t.w⟩, m.flags⟩ ∧
      (Mat4.num m : Mat4 (Fl ℝ rnd)).inversed = .ok (Mat4.num ⟨⟨m.x.x, m.y.x, m.z.x, 0⟩, ⟨m.x.y, m.y.y, m.z.y, 0⟩,
        ⟨m.x.z, m.y.z, m.z.z, 0⟩, ⟨s.x, s.y, s.z, 1⟩, m.flags⟩) ∧
      |s.x - -(m.x.x * m.t.x + m.x.y * m.t.y + m.x.z * m.t.z)| ≤
        gam u 3 * (|m.x.x * m.t.x| + |m.x.y * m.t.y| + |m.x.z * m.t.z|) ∧
      |s.y - -(m.y.x * m.t.x + m.y.y * m.t.y + m.y.z * m.t.z)| ≤
        gam u 3 * (|m.y.x * m.t.x| + |m.y.y * m.t.y| + |m.y.z * m.t.z|) ∧
      |s.z - -(m.z.x * m.t.x + m.z.y * m.t.y + m.z.z * m.t.z)| ≤
        gam u 3 * (|m.z.x * m.t.x| + |m.z.y * m.t.y| + |m.z.z * m.t.z|) := by
  have hf' : (Mat4.num m : Mat4 (Fl ℝ rnd)).isOrthonormal = true := hf
  obtain ⟨a, ea, ha⟩ := neg3 hr m.x.x m.t.x m.x.y m.t.y m.x.z m.t.z
  obtain ⟨b, eb, hb⟩ := neg3 hr m.y.x m.t.x m.y.y m.t.y m.y.z m.t.z
  obtain ⟨c, ec, hc⟩ := neg3 hr m.z.x m.t.x m.z.y m.t.y m.z.z m.t.z
  refine ⟨⟨a, b, c⟩, ?_, ?_, ha, hb, hc⟩
  · rw [Mat4.invert, if_pos hf']; simp only [Mat4.num, ea, eb, ec]
  · rw [Mat4.inversed, if_pos hf']; simp only [Mat4.num, ea, eb, ec, Fl.zero_def, Fl.one_def]

private theorem not_identity {m : Mat34 ℝ} (hi : m.rs.isIdentity = false ∨ m.t.x ≠ 0 ∨ m.t.y ≠ 0 ∨ m.t.z ≠ 0) :
    (Mat34.num m : Mat34 (Fl ℝ rnd)).isIdentity = false := by
  have e : (Mat34.num m : Mat34 (Fl ℝ rnd)).isIdentity = (m.rs.isIdentity && ((Vec3.num m.t : Vec3 (Fl ℝ rnd)).isNull)) := rfl
  rw [e]
  rcases hi with h | h
  · rw [h, Bool.false_and]
  · have : (Vec3.num m.t : Vec3 (Fl ℝ rnd)).isNull = false := by
      simp only [Vec3.isNull, Vec3.num, Fl.zero_def, Fl.num_beq]
      rcases h with h | h | h <;> simp [h]
    rw [this, Bool.and_false]

/-- C163, the same for `Mat34`, unless the matrix is marked as the identity and does not translate, in which case it is left
as it is. -/
theorem C163_rigid (hr : IsRel rnd u) (m : Mat34 ℝ) (hf : m.rs.isOrthonormal = true)
    (hi : m.rs.isIdentity = false ∨ m.t.x ≠ 0 ∨ m.t.y ≠ 0 ∨ m.t.z ≠ 0) :
    ∃ s : Vec3 ℝ,
      (Mat34.num m : Mat34 (Fl ℝ rnd)).invert = .ok (Mat34.num ⟨⟨⟨m.rs.x.x, m.rs.y.x, m.rs.z.x⟩,
        ⟨m.rs.x.y, m.rs.y.y, m.rs.z.y⟩, ⟨m.rs.x.z, m.rs.y.z, m.rs.z.z⟩, m.rs.flags⟩, s⟩) ∧
      |s.x - -(m.rs.x.x * m.t.x + m.rs.x.y * m.t.y + m.rs.x.z * m.t.z)| ≤
        gam u 3 * (|m.rs.x.x * m.t.x| + |m.rs.x.y * m.t.y| + |m.rs.x.z * m.t.z|) ∧
      |s.y - -(m.rs.y.x * m.t.x + m.rs.y.y * m.t.y + m.rs.y.z * m.t.z)| ≤
        gam u 3 * (|m.rs.y.x * m.t.x| + |m.rs.y.y * m.t.y| + |m.rs.y.z * m.t.z|) ∧
      |s.z - -(m.rs.z.x * m.t.x + m.rs.z.y * m.t.y + m.rs.z.z * m.t.z)| ≤
        gam u 3 * (|m.rs.z.x * m.t.x| + |m.rs.z.y * m.t.y| + |m.rs.z.z * m.t.z|) := by
  have hf' : (Mat34.num m : Mat34 (Fl ℝ rnd)).isOrthonormal = true := hf
  have hi' := not_identity hi (rnd := rnd)
  have k : ∀ x y z a b c : ℝ, ∃ v : ℝ, (-.num a * .num x + -.num b * .num y + -.num c * .num z : Fl ℝ rnd) = .num v ∧
      |v - -(x * a + y * b + z * c)| ≤ gam u 3 * (|x * a| + |y * b| + |z * c|) := by
    intro x y z a b c
    obtain ⟨-, v, e, h⟩ := abs_sum3 hr (-a) x (-b) y (-c) z
    refine ⟨v, e, ?_⟩
    rw [show -(x * a + y * b + z * c) = -a * x + -b * y + -c * z by ring]
    simpa only [abs_mul, abs_neg, mul_comm |x|, mul_comm |y|, mul_comm |z|] using h
  obtain ⟨a, ea, ha⟩ := k m.rs.x.x m.rs.x.y m.rs.x.z m.t.x m.t.y m.t.z
  obtain ⟨b, eb, hb⟩ := k m.rs.y.x m.rs.y.y m.rs.y.z m.t.x m.t.y m.t.z
  obtain ⟨c, ec, hc⟩ := k m.rs.z.x m.rs.z.y m.rs.z.z m.t.x m.t.y m.t.z
  refine ⟨⟨a, b, c⟩, ?_, ha, hb, hc⟩
  have ht : Mat3.vecMul (-(Mat34.num m : Mat34 (Fl ℝ rnd)).t) (Mat34.num m : Mat34 (Fl ℝ rnd)).rs =
      Vec3.num ⟨a, b, c⟩ := by
    rw [Vec3.num, ← ea, ← eb, ← ec]; rfl
  simp only [Mat34.invert, hi', hf', Bool.false_eq_true, if_false, if_true, ht]
  rfl

/-- C163, what holds of affine maps not marked as orthonormal: the linear part is inverted as a 3×3 matrix (C126), with errors
at most `E`, and the translation is `-R⁻¹ t` up to these errors and three roundings more.
Missing: maps whose determinant suffers cancellation (false). -/
theorem C163_affine_partial (hr : IsRel rnd u) (m : Mat34 ℝ) (hf : m.rs.isOrthonormal = false)
    (hi : m.rs.isIdentity = false ∨ m.t.x ≠ 0 ∨ m.t.y ≠ 0 ∨ m.t.z ≠ 0) (κ : ℝ) (hκ : κ < 1) (h0 : m.rs.toM.det ≠ 0)
    (hb : gam u 5 * (|m.rs.x.x| * (|m.rs.y.y * m.rs.z.z| + |m.rs.z.y * m.rs.y.z|) +
        |m.rs.y.x| * (|m.rs.x.y * m.rs.z.z| + |m.rs.z.y * m.rs.x.z|) +
        |m.rs.z.x| * (|m.rs.x.y * m.rs.y.z| + |m.rs.y.y * m.rs.x.z|)) ≤ κ * |m.rs.toM.det|)
    (E : Matrix (Fin 3) (Fin 3) ℝ)
    (hE : ∀ i j, E i j = ((1 + gam u 3) / (1 - κ) - 1) * (m.rs.absAdj i j / |m.rs.toM.det|)) :
    ∃ n : Mat34 ℝ, (Mat34.num m : Mat34 (Fl ℝ rnd)).invert = .ok (Mat34.num n) ∧
      (∀ i j, |n.rs.toM i j - m.rs.toM⁻¹ i j| ≤ E i j) ∧
      ∀ i, |![n.t.x, n.t.y, n.t.z] i - -(m.rs.toM⁻¹.mulVec ![m.t.x, m.t.y, m.t.z] i)| ≤
        ∑ j, (E i j + gam u 3 * (|m.rs.toM⁻¹ i j| + E i j)) * |![m.t.x, m.t.y, m.t.z] j| := by
  obtain ⟨R, -, hR, hRE⟩ := C126_mat3_partial hr m.rs κ hκ h0 hb
  have hR := hR hf
  have hi' := not_identity hi (rnd := rnd)
  have hf' : (Mat34.num m : Mat34 (Fl ℝ rnd)).isOrthonormal = false := hf
  have hg : 0 ≤ gam u 3 := by
    have : 1 ≤ ((1 - u) ^ 3)⁻¹ := (one_le_inv₀ (Fac.gpos hr.lt_one 3)).2 (Fac.gle hr.nonneg hr.lt_one 3)
    unfold gam; linarith
  have hRE' : ∀ i j, |R.toM i j - m.rs.toM⁻¹ i j| ≤ E i j := fun i j => by rw [hE]; exact hRE i j
  obtain ⟨a, ea, ha⟩ := neg3 hr m.t.x R.x.x m.t.y R.y.x m.t.z R.z.x
  obtain ⟨b, eb, hb⟩ := neg3 hr m.t.x R.x.y m.t.y R.y.y m.t.z R.z.y
  obtain ⟨c, ec, hc⟩ := neg3 hr m.t.x R.x.z m.t.y R.y.z m.t.z R.z.z
  refine ⟨⟨R, ⟨a, b, c⟩⟩, ?_, hRE', ?_⟩
  · have ht : -((Mat3.num R : Mat3 (Fl ℝ rnd)).mulVec (Mat34.num m : Mat34 (Fl ℝ rnd)).t) = Vec3.num ⟨a, b, c⟩ := by
      rw [Vec3.num, ← ea, ← eb, ← ec]; rfl
    have hR' : (Mat34.num m : Mat34 (Fl ℝ rnd)).rs.invert = .ok (Mat3.num R) := hR
    simp only [Mat34.invert, hi', hf', Bool.false_eq_true, if_false, hR']
    change Except.ok (Mat34.mk (Mat3.num R) (-((Mat3.num R : Mat3 (Fl ℝ rnd)).mulVec (Mat34.num m : Mat34 (Fl ℝ rnd)).t))) = _
    rw [ht]; rfl
  · have one : ∀ {r s e t : ℝ}, |r - s| ≤ e → |t * r - t * s| + gam u 3 * |t * r| ≤ (e + gam u 3 * (|s| + e)) * |t| := by
      intro r s e t h
      have h1 : |r| ≤ |s| + e := by
        calc |r| = |s + (r - s)| := by ring_nf
          _ ≤ _ := (abs_add_le _ _).trans (by linarith)
      rw [← mul_sub, abs_mul, abs_mul]
      have h2 := mul_le_mul_of_nonneg_left h (abs_nonneg t)
      have h3 := mul_le_mul_of_nonneg_left h1 (mul_nonneg hg (abs_nonneg t))
      linarith
    have all : ∀ {v t1 t2 t3 r1 r2 r3 s1 s2 s3 e1 e2 e3 : ℝ},
        |v - -(t1 * r1 + t2 * r2 + t3 * r3)| ≤ gam u 3 * (|t1 * r1| + |t2 * r2| + |t3 * r3|) →
        |r1 - s1| ≤ e1 → |r2 - s2| ≤ e2 → |r3 - s3| ≤ e3 →
        |v - -(s1 * t1 + (s2 * t2 + s3 * t3))| ≤ (e1 + gam u 3 * (|s1| + e1)) * |t1| +
          ((e2 + gam u 3 * (|s2| + e2)) * |t2| + (e3 + gam u 3 * (|s3| + e3)) * |t3|) := by
      intro v t1 t2 t3 r1 r2 r3 s1 s2 s3 e1 e2 e3 h h1 h2 h3
      have k1 := one (t := t1) h1
      have k2 := one (t := t2) h2
      have k3 := one (t := t3) h3
      have e : v - -(s1 * t1 + (s2 * t2 + s3 * t3)) = (v - -(t1 * r1 + t2 * r2 + t3 * r3)) - (t1 * r1 - t1 * s1) -
          (t2 * r2 - t2 * s2) - (t3 * r3 - t3 * s3) := by ring
      rw [e]
      have q1 := abs_sub ((v - -(t1 * r1 + t2 * r2 + t3 * r3)) - (t1 * r1 - t1 * s1) - (t2 * r2 - t2 * s2)) (t3 * r3 - t3 * s3)
      have q2 := abs_sub ((v - -(t1 * r1 + t2 * r2 + t3 * r3)) - (t1 * r1 - t1 * s1)) (t2 * r2 - t2 * s2)
      have q3 := abs_sub (v - -(t1 * r1 + t2 * r2 + t3 * r3)) (t1 * r1 - t1 * s1)
      linarith
    intro i
    have e0 := hRE' i 0
    have e1 := hRE' i 1
    have e2 := hRE' i 2
    simp only [Matrix.mulVec, dotProduct, Fin.sum_univ_three, add_assoc]
    fin_cases i
    exacts [all ha e0 e1 e2, all hb e0 e1 e2, all hc e0 e1 e2]

/-- a quarter turn about the third axis followed by a translation -/
example : (⟨⟨0, 1, 0, 0⟩, ⟨-1, 0, 0, 0⟩, ⟨0, 0, 1, 0⟩, ⟨5, 7, 0, 1⟩, ⟨true, true, false, true, false⟩⟩ :
    Mat4 ℝ).isOrthonormal = true := rfl

/-- a shear that scales and translates, in `float` -/
example : ∃ m : Mat34 ℝ, m.rs.isOrthonormal = false ∧ m.t.x ≠ 0 ∧ m.rs.toM.det = 17 ∧
    gam (2 ^ (-24 : ℤ)) 5 * (|m.rs.x.x| * (|m.rs.y.y * m.rs.z.z| + |m.rs.z.y * m.rs.y.z|) +
        |m.rs.y.x| * (|m.rs.x.y * m.rs.z.z| + |m.rs.z.y * m.rs.x.z|) +
        |m.rs.z.x| * (|m.rs.x.y * m.rs.y.z| + |m.rs.y.y * m.rs.x.z|)) ≤ 1 / 1000000 * |m.rs.toM.det| := by
  have d : (⟨⟨3, 1, 0⟩, ⟨-2, 5, 0⟩, ⟨0, 0, 1⟩, Flags.start⟩ : Mat3 ℝ).toM.det = 17 := by
    simp [Mat3.toM, Matrix.det_fin_three]; norm_num
  refine ⟨⟨⟨⟨3, 1, 0⟩, ⟨-2, 5, 0⟩, ⟨0, 0, 1⟩, Flags.start⟩, ⟨5, 7, 0⟩⟩, rfl, by norm_num, d, ?_⟩
  rw [d]
  unfold gam
  norm_num

end MathLib
