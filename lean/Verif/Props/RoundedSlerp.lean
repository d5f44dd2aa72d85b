import Verif.Props.RoundedQuatMatrix
import Verif.Props.QuatInterp
import Mathlib.Analysis.SpecialFunctions.Trigonometric.InverseDeriv
import Mathlib.Analysis.Quaternion

/-! # Property C158: interpolating quaternions in floating point -/

namespace MathLib
variable {rnd : ℝ → ℝ} {u : ℝ}

namespace SlerpErr

/-- `arccos` is Lipschitz away from the ends. -/
theorem arccos_lip {x y : ℝ} (hx : -0.96 ≤ x) (hx1 : x ≤ 0.96) (hy : -0.96 ≤ y) (hy1 : y ≤ 0.96) :
    |Real.arccos x - Real.arccos y| ≤ 3.6 * |x - y| := by
  have h := (convex_Icc (-0.96 : ℝ) 0.96).norm_image_sub_le_of_norm_hasDerivWithin_le (f := Real.arccos)
    (f' := fun x => -(1 / √(1 - x ^ 2))) (C := 3.6)
    (fun x hx => (Real.hasDerivAt_arccos (by have := hx.1; norm_num at this ⊢; linarith) (by have := hx.2; norm_num at this ⊢; linarith)).hasDerivWithinAt)
    (fun x hx => by
      have h1 : (1 / 3.6 : ℝ) ≤ √(1 - x ^ 2) := by
        apply Real.le_sqrt_of_sq_le
        have := hx.1; have := hx.2
        norm_num at *
        nlinarith
      rw [norm_neg, Real.norm_of_nonneg (by positivity), div_le_iff₀ (by linarith)]
      linarith) ⟨hy, hy1⟩ ⟨hx, hx1⟩
  simpa [Real.norm_eq_abs] using h

theorem sin {x : ℝ} {e e₁ M : ℝ} {a : Fl ℝ rnd} (hr : IsRel rnd u) (hu : u ≤ 1 / 4096) (h : Apx u a x e₁ M)
    (he : e₁ * (4097 / 4096) + 1 ≤ e) : Apx u (MathFns.sin a) (Real.sin x) e 1 := by
  obtain ⟨v, rfl, h1, -⟩ := h
  rw [Fl.fl_sin]
  exact Apx.round hr hu ((Real.abs_sin_sub_sin_le v x).trans h1) (Real.abs_sin_le_one x) he

theorem coords {P : Quat ℝ} (h : P.IsUnit) : |P.x| ≤ 1 ∧ |P.y| ≤ 1 ∧ |P.z| ≤ 1 ∧ |P.w| ≤ 1 := by
  unfold Quat.IsUnit at h
  refine ⟨?_, ?_, ?_, ?_⟩ <;> apply (sq_le_one_iff_abs_le_one _).1 <;> nlinarith [sq_nonneg P.x, sq_nonneg P.y, sq_nonneg P.z, sq_nonneg P.w]

theorem near_apx {a : Quat (Fl ℝ rnd)} {P : Quat ℝ} {e : ℝ} (ha : a.Near (e * u) P) (h : P.IsUnit) :
    Apx u a.x P.x e 1 ∧ Apx u a.y P.y e 1 ∧ Apx u a.z P.z e 1 ∧ Apx u a.w P.w e 1 := by
  obtain ⟨⟨x, h1, h1'⟩, ⟨y, h2, h2'⟩, ⟨z, h3, h3'⟩, ⟨w, h4, h4'⟩⟩ := ha
  obtain ⟨c1, c2, c3, c4⟩ := coords h
  exact ⟨⟨x, h1, h1', c1⟩, ⟨y, h2, h2', c2⟩, ⟨z, h3, h3', c3⟩, ⟨w, h4, h4', c4⟩⟩

theorem mul1 {x y : ℝ} (hx : |x| ≤ 1) (hy : |y| ≤ 1) : |x * y| ≤ 1 := by
  rw [abs_mul]; exact mul_le_one₀ hx (abs_nonneg _) hy

/-- the dot product of two nearly unit quaternions -/
theorem dot (hr : IsRel rnd u) (hu : u ≤ 1 / 4096) {a b : Quat (Fl ℝ rnd)} {P Q : Quat ℝ} (hP : P.IsUnit) (hQ : Q.IsUnit)
    (ha : a.Near (8 * u) P) (hb : b.Near (8 * u) Q) : Apx u (a.dot b) (P.dot Q) 72 1 := by
  obtain ⟨a1, a2, a3, a4⟩ := near_apx ha hP
  obtain ⟨b1, b2, b3, b4⟩ := near_apx hb hQ
  obtain ⟨p1, p2, p3, p4⟩ := coords hP
  obtain ⟨q1, q2, q3, q4⟩ := coords hQ
  have m1 := Apx.mul hr hu a1 b1 (by norm_num) (mul1 p1 q1) (e := 17.1) (by norm_num)
  have m2 := Apx.mul hr hu a2 b2 (by norm_num) (mul1 p2 q2) (e := 17.1) (by norm_num)
  have m3 := Apx.mul hr hu a3 b3 (by norm_num) (mul1 p3 q3) (e := 17.1) (by norm_num)
  have m4 := Apx.mul hr hu a4 b4 (by norm_num) (mul1 p4 q4) (e := 17.1) (by norm_num)
  unfold Quat.IsUnit at hP hQ
  have s1 := Apx.add hr hu m1 m2 (M := 1) (by
    rw [abs_le]; constructor <;> nlinarith [sq_nonneg (P.x + Q.x), sq_nonneg (P.y + Q.y), sq_nonneg (P.x - Q.x), sq_nonneg (P.y - Q.y), sq_nonneg P.z, sq_nonneg P.w, sq_nonneg Q.z, sq_nonneg Q.w]) (e := 35.3) (by norm_num)
  have s2 := Apx.add hr hu s1 m3 (M := 1) (by
    rw [abs_le]; constructor <;> nlinarith [sq_nonneg (P.x + Q.x), sq_nonneg (P.y + Q.y), sq_nonneg (P.x - Q.x), sq_nonneg (P.y - Q.y), sq_nonneg (P.z + Q.z), sq_nonneg (P.z - Q.z), sq_nonneg P.w, sq_nonneg Q.w]) (e := 53.5) (by norm_num)
  exact Apx.add hr hu s2 m4 (M := 1) (by
    rw [abs_le]; constructor <;> nlinarith [sq_nonneg (P.x + Q.x), sq_nonneg (P.y + Q.y), sq_nonneg (P.x - Q.x), sq_nonneg (P.y - Q.y), sq_nonneg (P.z + Q.z), sq_nonneg (P.z - Q.z), sq_nonneg (P.w + Q.w), sq_nonneg (P.w - Q.w)]) (e := 72) (by norm_num)

theorem acos_num {v : ℝ} (h0 : -1 ≤ v) (h1 : v ≤ 1) : acos' (.num v : Fl ℝ rnd) = .num (rnd (Real.arccos v)) := by
  have e1 : ¬ (.num v : Fl ℝ rnd) > 1 := by rw [Fl.one_def]; simpa using h1
  have e2 : ¬ (.num v : Fl ℝ rnd) < -1 := by rw [Fl.one_def]; simpa using h0
  simp only [acos', if_neg e1, if_neg e2]
  rw [Fl.fl_acos, if_neg (by push Not; exact ⟨h0, h1⟩)]

theorem recip (hr : IsRel rnd u) (hu : u ≤ 1 / 1048576) {a : Fl ℝ rnd} {s : ℝ} (h : Apx u a s 265 1) (hs : 0.31 ≤ s) :
    Apx u (1 / a) (1 / s) 2780 3.23 := by
  obtain ⟨v, rfl, h1, -⟩ := h
  have h0 := hr.nonneg
  have hv := abs_le.1 h1
  have v0 : 0.309 ≤ v := by linarith
  rw [Fl.one_def, Fl.num_div, if_neg (by linarith)]
  refine Apx.round hr (hu.trans (by norm_num)) (e₁ := 2775) ?_ ?_ (by norm_num)
  · rw [div_sub_div _ _ (by linarith) (by linarith), abs_div, abs_of_pos (by nlinarith : 0 < v * s),
      div_le_iff₀ (by nlinarith), one_mul, mul_one, abs_sub_comm]
    have : 0.09579 ≤ v * s := by nlinarith
    have : 2775 * u * 0.09579 ≤ 2775 * u * (v * s) := mul_le_mul_of_nonneg_left this (by linarith)
    linarith
  · rw [abs_of_nonneg (by positivity), div_le_iff₀ (by linarith)]
    linarith

end SlerpErr

/-- The point at parameter `w` of the great-circle arc from `P` to `Q`. -/
noncomputable def Quat.arcPoint (P Q : Quat ℝ) (w : ℝ) : Quat ℝ :=
  let θ := Real.arccos (P.x * Q.x + P.y * Q.y + P.z * Q.z + P.w * Q.w)
  let f := Real.sin (θ * (1 - w))
  let g := Real.sin (θ * w)
  ⟨(P.x * f + Q.x * g) * (1 / Real.sin θ), (P.y * f + Q.y * g) * (1 / Real.sin θ),
   (P.z * f + Q.z * g) * (1 / Real.sin θ), (P.w * f + Q.w * g) * (1 / Real.sin θ)⟩

/-- The point at parameter `w` of the chord from `P` to `Q`, pushed out to the sphere. -/
noncomputable def Quat.chordPoint (P Q : Quat ℝ) (w : ℝ) : Quat ℝ :=
  let x := (1 - w) * P.x + w * Q.x
  let y := (1 - w) * P.y + w * Q.y
  let z := (1 - w) * P.z + w * Q.z
  let t := (1 - w) * P.w + w * Q.w
  let n := √(x ^ 2 + y ^ 2 + z ^ 2 + t ^ 2)
  ⟨x / n, y / n, z / n, t / n⟩

namespace SlerpErr

theorem arcPoint_eq {P Q : Quat ℝ} (h1 : -1 ≤ P.dot Q) (h2 : P.dot Q ≤ 1) (w : ℝ) :
    P.slerpArc Q (P.dot Q) w = P.arcPoint Q w := by
  simp only [Quat.slerpArc, acos'_eq h1 h2, real_sin]; rfl

theorem arc_coord (hr : IsRel rnd u) (hu : u ≤ 1 / 4096) {a b f g r : Fl ℝ rnd} {x y F G s : ℝ}
    (ha : Apx u a x 8 1) (hb : Apx u b y 8 1) (hf : Apx u f F 271 1) (hg : Apx u g G 271 1)
    (hrr : Apx u r (1 / s) 2780 3.23) (s0 : 0 < s) (s1 : s ≤ 1) (h : |(x * F + y * G) * (1 / s)| ≤ 1) :
    ((a * f + b * g) * r).Within (5100 * u) ((x * F + y * G) * (1 / s)) := by
  have m1 := Apx.mul hr hu ha hf (by norm_num) (mul1 ha.choose_spec.2.2 hf.choose_spec.2.2) (e := 281) (by norm_num)
  have m2 := Apx.mul hr hu hb hg (by norm_num) (mul1 hb.choose_spec.2.2 hg.choose_spec.2.2) (e := 281) (by norm_num)
  have A := Apx.add hr hu m1 m2 (M := 1) (by
    rw [mul_one_div, abs_div, abs_of_pos s0, div_le_iff₀ s0] at h
    linarith) (e := 564) (by norm_num)
  obtain ⟨v, h1, h2, -⟩ := Apx.mul hr hu A hrr (by norm_num) h (e := 5100) (by norm_num)
  exact ⟨v, h1, h2⟩

theorem arc (hr : IsRel rnd u) (hu : u ≤ 1 / 1048576) {a b : Quat (Fl ℝ rnd)} {P Q : Quat ℝ} (hP : P.IsUnit) (hQ : Q.IsUnit)
    (ha : a.Near (8 * u) P) (hb : b.Near (8 * u) Q) {v w : ℝ} (hv : |v - P.dot Q| ≤ 72 * u) (v0 : -0.9501 ≤ v) (v1 : v ≤ 0.9501)
    (w0 : 0 ≤ w) (w1 : w ≤ 1) : (Quat.slerpArc a b (.num v) (.num w)).Near (5100 * u) (P.arcPoint Q w) := by
  have hu' : u ≤ 1 / 4096 := hu.trans (by norm_num)
  have h0 := hr.nonneg
  have hv' := abs_le.1 hv
  have d0 : -0.9502 ≤ P.dot Q := by norm_num at v0 ⊢; linarith
  have d1 : P.dot Q ≤ 0.9502 := by linarith
  obtain ⟨-, un, -⟩ := Quat.slerpArc_spec hP hQ (by linarith) (by linarith) w w0 w1
  rw [arcPoint_eq (by linarith) (by linarith)] at un
  obtain ⟨u1, u2, u3, u4⟩ := coords un
  have lip := arccos_lip (x := v) (y := P.dot Q) (by linarith) (by linarith) (by linarith) (by linarith)
  have sθ : Real.sin (Real.arccos (P.dot Q)) = √(1 - (P.dot Q) ^ 2) := Real.sin_arccos _
  have s0 : 0.31 ≤ Real.sin (Real.arccos (P.dot Q)) := by
    rw [sθ]; apply Real.le_sqrt_of_sq_le; norm_num; nlinarith
  have θ0 : 0 ≤ Real.arccos (P.dot Q) := Real.arccos_nonneg _
  have θ1 : Real.arccos (P.dot Q) ≤ 3.15 := (Real.arccos_le_pi _).trans (by linarith [Real.pi_lt_d2])
  obtain ⟨hθ, hdef⟩ : ∃ θ, θ = Real.arccos (P.dot Q) := ⟨_, rfl⟩
  have K : P.arcPoint Q w = ⟨(P.x * Real.sin (hθ * (1 - w)) + Q.x * Real.sin (hθ * w)) * (1 / Real.sin hθ),
      (P.y * Real.sin (hθ * (1 - w)) + Q.y * Real.sin (hθ * w)) * (1 / Real.sin hθ),
      (P.z * Real.sin (hθ * (1 - w)) + Q.z * Real.sin (hθ * w)) * (1 / Real.sin hθ),
      (P.w * Real.sin (hθ * (1 - w)) + Q.w * Real.sin (hθ * w)) * (1 / Real.sin hθ)⟩ := by rw [hdef]; rfl
  rw [K] at u1 u2 u3 u4 ⊢
  rw [← hdef] at lip s0 θ0 θ1
  have ang : Apx u (acos' (.num v : Fl ℝ rnd)) hθ 263 3.15 := by
    rw [acos_num (by linarith) (by linarith)]
    exact Apx.round hr hu' (e₁ := 259.3) (by linarith) (by rw [abs_of_nonneg θ0]; exact θ1) (by norm_num)
  have mb : ∀ t : ℝ, 0 ≤ t → t ≤ 1 → |hθ * t| ≤ 3.15 := fun t t0 t1 => by
    rw [abs_of_nonneg (mul_nonneg θ0 t0)]; nlinarith
  have omw : Apx u (1 - .num w : Fl ℝ rnd) (1 - w) 1 1 := by
    rw [Fl.one_def]
    exact Apx.sub hr hu' (Apx.num (v := 1) (M := 1) (by norm_num)) (Apx.num (v := w) (M := 1) (by rw [abs_le]; constructor <;> linarith))
      (by rw [abs_le]; constructor <;> linarith) (by norm_num)
  have wn : Apx u (.num w : Fl ℝ rnd) w 0 1 := Apx.num (by rw [abs_le]; constructor <;> linarith)
  have sa := sin hr hu' ang (e := 265) (by norm_num)
  have f := sin hr hu' (Apx.mul hr hu' ang omw (by norm_num) (mb _ (by linarith) (by linarith)) (e := 269.5) (by norm_num)) (e := 271) (by norm_num)
  have g := sin hr hu' (Apx.mul hr hu' ang wn (by norm_num) (mb _ w0 w1) (e := 269.5) (by norm_num)) (e := 271) (by norm_num)
  have rc := recip hr hu sa s0
  obtain ⟨a1, a2, a3, a4⟩ := near_apx ha hP
  obtain ⟨b1, b2, b3, b4⟩ := near_apx hb hQ
  have s1 := Real.sin_le_one hθ
  have sp : 0 < Real.sin hθ := by linarith
  exact ⟨arc_coord hr hu' a1 b1 f g rc sp s1 u1, arc_coord hr hu' a2 b2 f g rc sp s1 u2,
    arc_coord hr hu' a3 b3 f g rc sp s1 u3, arc_coord hr hu' a4 b4 f g rc sp s1 u4⟩

theorem toQ_norm (q : Quat ℝ) : ‖q.toQ‖ = √(q.x ^ 2 + q.y ^ 2 + q.z ^ 2 + q.w ^ 2) := by
  rw [← Real.sqrt_sq (norm_nonneg q.toQ), sq, ← Quaternion.normSq_eq_norm_mul_self, Quaternion.normSq_def']
  congr 1
  simp only [Quat.toQ_re, Quat.toQ_imI, Quat.toQ_imJ, Quat.toQ_imK]; ring

theorem length_lip {q l : Quat ℝ} {e : ℝ} (he : 0 ≤ e)
    (h1 : |q.x - l.x| ≤ e) (h2 : |q.y - l.y| ≤ e) (h3 : |q.z - l.z| ≤ e) (h4 : |q.w - l.w| ≤ e) :
    |√(q.x ^ 2 + q.y ^ 2 + q.z ^ 2 + q.w ^ 2) - √(l.x ^ 2 + l.y ^ 2 + l.z ^ 2 + l.w ^ 2)| ≤ 2 * e := by
  have h := abs_norm_sub_norm_le q.toQ l.toQ
  rw [toQ_norm, toQ_norm] at h
  refine h.trans ?_
  rw [show q.toQ - l.toQ = (⟨q.x - l.x, q.y - l.y, q.z - l.z, q.w - l.w⟩ : Quat ℝ).toQ by ext <;> simp, toQ_norm]
  apply Real.sqrt_le_iff.2 ⟨by linarith, ?_⟩
  have s : ∀ t : ℝ, |t| ≤ e → t ^ 2 ≤ e ^ 2 := fun t ht => sq_le_sq' (abs_le.1 ht).1 (abs_le.1 ht).2
  nlinarith [s _ h1, s _ h2, s _ h3, s _ h4]

/-- normalising moves two near points by at most twice their distance, relative to the length -/
theorem normalise_lip {q l : Quat ℝ} {e m : ℝ} (he : 0 ≤ e) (hm : 0 < m)
    (h1 : |q.x - l.x| ≤ e) (h2 : |q.y - l.y| ≤ e) (h3 : |q.z - l.z| ≤ e) (h4 : |q.w - l.w| ≤ e)
    (hl : m ≤ √(l.x ^ 2 + l.y ^ 2 + l.z ^ 2 + l.w ^ 2)) (hq : 0 < √(q.x ^ 2 + q.y ^ 2 + q.z ^ 2 + q.w ^ 2)) :
    let n := √(q.x ^ 2 + q.y ^ 2 + q.z ^ 2 + q.w ^ 2)
    let k := √(l.x ^ 2 + l.y ^ 2 + l.z ^ 2 + l.w ^ 2)
    |q.x / n - l.x / k| ≤ 3 * e / m ∧ |q.y / n - l.y / k| ≤ 3 * e / m ∧ |q.z / n - l.z / k| ≤ 3 * e / m ∧
      |q.w / n - l.w / k| ≤ 3 * e / m := by
  intro n k
  have d : |n - k| ≤ 2 * e := length_lip he h1 h2 h3 h4
  have k0 : 0 < k := hm.trans_le hl
  have n0 : 0 < n := hq
  have c : ∀ x y : ℝ, |x - y| ≤ e → |x| ≤ n → |x / n - y / k| ≤ 3 * e / m := by
    intro x y hxy hx
    have : |x / n - y / k| ≤ 3 * e / k := by
      rw [show x / n - y / k = ((x - y) + x / n * (k - n)) / k by field_simp; ring, abs_div, abs_of_pos k0]
      apply div_le_div_of_nonneg_right _ k0.le
      have t1 := abs_add_le (x - y) (x / n * (k - n))
      have t2 : |x / n * (k - n)| ≤ 1 * (2 * e) := by
        rw [abs_mul]
        refine mul_le_mul ?_ (by rwa [abs_sub_comm]) (abs_nonneg _) zero_le_one
        rw [abs_div, abs_of_pos n0]; exact (div_le_one n0).2 hx
      linarith
    exact this.trans (div_le_div_of_nonneg_left (by linarith) hm hl)
  have b : ∀ t : ℝ, t ^ 2 ≤ q.x ^ 2 + q.y ^ 2 + q.z ^ 2 + q.w ^ 2 → |t| ≤ n := fun t ht => Real.abs_le_sqrt ht
  refine ⟨c _ _ h1 (b _ ?_), c _ _ h2 (b _ ?_), c _ _ h3 (b _ ?_), c _ _ h4 (b _ ?_)⟩ <;>
    nlinarith [sq_nonneg q.x, sq_nonneg q.y, sq_nonneg q.z, sq_nonneg q.w]

theorem lerp_coord (hr : IsRel rnd u) (hu : u ≤ 1 / 4096) {a b : Fl ℝ rnd} {x y w : ℝ} (ha : Apx u a x 8 1) (hb : Apx u b y 8 1)
    (w0 : 0 ≤ w) (w1 : w ≤ 1) : ∃ v, a + (b - a) * .num w = .num v ∧ |v - ((1 - w) * x + w * y)| ≤ 30 * u := by
  have hx := abs_le.1 ha.choose_spec.2.2
  have hy := abs_le.1 hb.choose_spec.2.2
  have wn : Apx u (.num w : Fl ℝ rnd) w 0 1 := Apx.num (by rw [abs_le]; constructor <;> linarith)
  have d := Apx.sub hr hu hb ha (M := 2) (by rw [abs_le]; constructor <;> linarith) (e := 18.1) (by norm_num)
  have m := Apx.mul hr hu d wn le_rfl (M := 2) (by
    rw [abs_mul, abs_of_nonneg w0]
    have : |y - x| ≤ 2 := by rw [abs_le]; constructor <;> linarith
    nlinarith [abs_nonneg (y - x)]) (e := 20.2) (by norm_num)
  have s := Apx.add hr hu ha m (M := 1) (by
    rw [abs_le]; constructor <;> nlinarith) (e := 30) (by norm_num)
  obtain ⟨v, h1, h2, -⟩ := s
  exact ⟨v, h1, by rwa [show (1 - w) * x + w * y = x + (y - x) * w by ring]⟩

end SlerpErr

open SlerpErr

/-- Linear interpolation: the result is a quaternion off from the normalised chord by a few units, more if the chord comes near
the centre of the sphere. -/
theorem C158_lerp (hr : IsRel rnd u) (hu : u ≤ 1 / 1048576) {a b : Quat (Fl ℝ rnd)} {P Q : Quat ℝ} (hP : P.IsUnit) (hQ : Q.IsUnit)
    (ha : a.Near (8 * u) P) (hb : b.Near (8 * u) Q) {w m : ℝ} (w0 : 0 ≤ w) (w1 : w ≤ 1) (hm : 1 / 1000 ≤ m)
    (hl : m ^ 2 ≤ ((1 - w) * P.x + w * Q.x) ^ 2 + ((1 - w) * P.y + w * Q.y) ^ 2 + ((1 - w) * P.z + w * Q.z) ^ 2 +
      ((1 - w) * P.w + w * Q.w) ^ 2) :
    ∃ r, a.lerp b (.num w) = .ok r ∧ r.Near ((90 / m + 5.1) * u) (P.chordPoint Q w) := by
  have hu' : u ≤ 1 / 4096 := hu.trans (by norm_num)
  have h0 := hr.nonneg
  obtain ⟨a1, a2, a3, a4⟩ := near_apx ha hP
  obtain ⟨b1, b2, b3, b4⟩ := near_apx hb hQ
  obtain ⟨x, ex, dx⟩ := lerp_coord hr hu' a1 b1 w0 w1
  obtain ⟨y, ey, dy⟩ := lerp_coord hr hu' a2 b2 w0 w1
  obtain ⟨z, ez, dz⟩ := lerp_coord hr hu' a3 b3 w0 w1
  obtain ⟨t, et, dt⟩ := lerp_coord hr hu' a4 b4 w0 w1
  have hw : (.num w : Fl ℝ rnd) ≥ 0 ∧ (.num w : Fl ℝ rnd) ≤ 1 := by
    rw [Fl.zero_def, Fl.one_def]; simpa using ⟨w0, w1⟩
  unfold Quat.lerp
  rw [if_pos hw, ex, ey, ez, et]
  have hl' := Real.le_sqrt_of_sq_le hl
  have nq : 0 < √(x ^ 2 + y ^ 2 + z ^ 2 + t ^ 2) := by
    have h := length_lip (q := ⟨x, y, z, t⟩) (l := ⟨(1 - w) * P.x + w * Q.x, (1 - w) * P.y + w * Q.y,
      (1 - w) * P.z + w * Q.z, (1 - w) * P.w + w * Q.w⟩) (e := 30 * u) (by linarith) dx dy dz dt
    have := (abs_le.1 h).1
    dsimp only at this
    linarith
  obtain ⟨s, e1, e2⟩ := C156_normalize hr ⟨x, y, z, t⟩ (by
    intro h
    injection h with h1 h2 h3 h4
    rw [h1, h2, h3, h4] at nq
    norm_num at nq)
  refine ⟨_, rfl, ?_⟩
  have L := normalise_lip (q := ⟨x, y, z, t⟩) (l := ⟨(1 - w) * P.x + w * Q.x, (1 - w) * P.y + w * Q.y,
      (1 - w) * P.z + w * Q.z, (1 - w) * P.w + w * Q.w⟩) (e := 30 * u) (m := m) (by linarith) (by linarith) dx dy dz dt hl' nq
  have g : gam u 5 ≤ 5.1 * u := by
    have h := gam_le hr.lt_one (n := 5) (by push_cast; linarith)
    refine h.trans ?_
    rw [div_le_iff₀ (by push_cast; linarith)]
    push_cast
    nlinarith
  have fin : ∀ {r c l n : ℝ}, |r - c / n| ≤ gam u 5 * |c / n| → |c / n| ≤ 1 → |c / n - l| ≤ 3 * (30 * u) / m →
      |r - l| ≤ (90 / m + 5.1) * u := by
    intro r c l n h1 h2 h3
    have h4 := abs_add_le (r - c / n) (c / n - l)
    rw [sub_add_sub_cancel] at h4
    have h5 : gam u 5 * |c / n| ≤ 5.1 * u * 1 := mul_le_mul g h2 (abs_nonneg _) (by linarith)
    have h6 : 3 * (30 * u) / m = 90 / m * u := by ring
    linarith
  have b : ∀ c : ℝ, c ^ 2 ≤ x ^ 2 + y ^ 2 + z ^ 2 + t ^ 2 → |c / √(x ^ 2 + y ^ 2 + z ^ 2 + t ^ 2)| ≤ 1 := fun c hc => by
    rw [abs_div, abs_of_pos nq, div_le_one nq]; exact Real.abs_le_sqrt hc
  have hx := sq_nonneg x; have hy := sq_nonneg y; have hz := sq_nonneg z; have ht := sq_nonneg t
  rw [show (⟨.num x, .num y, .num z, .num t⟩ : Quat (Fl ℝ rnd)) = Quat.num ⟨x, y, z, t⟩ from rfl, e1]
  exact ⟨⟨_, rfl, fin e2.1 (b x (by linarith)) L.1⟩, ⟨_, rfl, fin e2.2.1 (b y (by linarith)) L.2.1⟩,
    ⟨_, rfl, fin e2.2.2.1 (b z (by linarith)) L.2.2.1⟩, ⟨_, rfl, fin e2.2.2.2 (b t (by linarith)) L.2.2.2⟩⟩

theorem SlerpErr.literal (hr : IsRel rnd u) (hu : u ≤ 1 / 1048576) {x y : ℝ} (hy : y ≠ 0) (h : |x / y - 0.95| ≤ 0.00001) :
    ∃ c, (.num (rnd x) / .num (rnd y) : Fl ℝ rnd) = .num c ∧ |c - 0.95| ≤ 0.00005 := by
  have k : ∀ t : ℝ, Rel u 1 t (.num (rnd t) : Fl ℝ rnd) := fun t => by
    obtain ⟨θ, h1, h2⟩ := hr.fac t
    exact ⟨θ, h1, by rw [h2]⟩
  obtain ⟨c, e, hc⟩ := (Rel.div hr (k x) (k y) hy (k := 3)).error hr
  refine ⟨c, e, ?_⟩
  have h0 := hr.nonneg
  have g : gam u 3 ≤ 0.00001 := by
    refine (gam_le hr.lt_one (n := 3) (by push_cast; linarith)).trans ?_
    rw [div_le_iff₀ (by push_cast; linarith)]
    push_cast
    linarith
  have b := abs_le.1 h
  have : |x / y| ≤ 1 := by rw [abs_le]; constructor <;> linarith
  have : gam u 3 * |x / y| ≤ 0.00001 * 1 := mul_le_mul g this (abs_nonneg _) (by norm_num)
  have := abs_le.1 hc
  rw [abs_le]; constructor <;> linarith

/-- For near quaternions the chord stays near the sphere. -/
theorem SlerpErr.chord_long {P Q : Quat ℝ} (hP : P.IsUnit) (hQ : Q.IsUnit) (h : 0.9497 ≤ P.dot Q) {w : ℝ} (w0 : 0 ≤ w) (w1 : w ≤ 1) :
    0.98 ^ 2 ≤ ((1 - w) * P.x + w * Q.x) ^ 2 + ((1 - w) * P.y + w * Q.y) ^ 2 + ((1 - w) * P.z + w * Q.z) ^ 2 +
      ((1 - w) * P.w + w * Q.w) ^ 2 := by
  unfold Quat.IsUnit at hP hQ
  have e : ((1 - w) * P.x + w * Q.x) ^ 2 + ((1 - w) * P.y + w * Q.y) ^ 2 + ((1 - w) * P.z + w * Q.z) ^ 2 +
      ((1 - w) * P.w + w * Q.w) ^ 2 = (1 - w) ^ 2 + w ^ 2 + 2 * (w * (1 - w)) * P.dot Q := by
    unfold Quat.dot; linear_combination (1 - w) ^ 2 * hP + w ^ 2 * hQ
  rw [e]
  have k : 0 ≤ w * (1 - w) := mul_nonneg w0 (by linarith)
  have := mul_le_mul_of_nonneg_left h k
  norm_num at this ⊢
  nlinarith [sq_nonneg (w - 1 / 2)]

/-- The result of either interpolation: near the point of the arc, or, for near quaternions, near the normalised chord. -/
def Quat.Interp (u : ℝ) (P Q : Quat ℝ) (w : ℝ) (r : Quat (Fl ℝ rnd)) : Prop :=
  (P.dot Q ≤ 0.9502 ∧ r.Near (5100 * u) (P.arcPoint Q w)) ∨ (0.9498 ≤ P.dot Q ∧ r.Near (97 * u) (P.chordPoint Q w))

theorem SlerpErr.branch (hr : IsRel rnd u) (hu : u ≤ 1 / 1048576) {a b : Quat (Fl ℝ rnd)} {P Q : Quat ℝ} (hP : P.IsUnit) (hQ : Q.IsUnit)
    (ha : a.Near (8 * u) P) (hb : b.Near (8 * u) Q) {v w c : ℝ} (w0 : 0 ≤ w) (w1 : w ≤ 1)
    (hv : |v - P.dot Q| ≤ 72 * u) (v0 : -0.9501 ≤ v) (hc : |c - 0.95| ≤ 0.00005) :
    ∃ r, (if (.num v : Fl ℝ rnd) < .num c then .ok (a.slerpArc b (.num v) (.num w)) else a.lerp b (.num w)) = .ok r ∧
      Quat.Interp u P Q w r := by
  have h0 := hr.nonneg
  have hv' := abs_le.1 hv
  have hc' := abs_le.1 hc
  by_cases h : v < c
  · rw [if_pos (by simpa using h)]
    exact ⟨_, rfl, Or.inl ⟨by linarith, arc hr hu hP hQ ha hb hv v0 (by linarith) w0 w1⟩⟩
  · rw [if_neg (by simpa using h)]
    have h1 : 0.9498 ≤ P.dot Q := by linarith
    obtain ⟨r, e, k⟩ := C158_lerp hr hu hP hQ ha hb w0 w1 (m := 0.98) (by norm_num) (chord_long hP hQ (by linarith) w0 w1)
    refine ⟨r, e, Or.inr ⟨h1, ?_⟩⟩
    have m : ∀ {x : Fl ℝ rnd} {y : ℝ}, x.Within ((90 / 0.98 + 5.1) * u) y → x.Within (97 * u) y := fun ⟨z, h1, h2⟩ =>
      ⟨z, h1, h2.trans (mul_le_mul_of_nonneg_right (by norm_num) h0)⟩
    exact ⟨m k.1, m k.2.1, m k.2.2.1, m k.2.2.2⟩

/-- Spherical interpolation: no assertion, no NaN, and the result is near the point of the minor arc from the one quaternion to the
other or its negative, whichever is nearer; or near the normalised chord if those are close. -/
theorem C158_slerp (hr : IsRel rnd u) (hu : u ≤ 1 / 1048576) {a b : Quat (Fl ℝ rnd)} {P Q : Quat ℝ} (hP : P.IsUnit) (hQ : Q.IsUnit)
    (ha : a.Near (8 * u) P) (hb : b.Near (8 * u) Q) {w : ℝ} (w0 : 0 ≤ w) (w1 : w ≤ 1) :
    ∃ r Q', a.slerp b (.num w) = .ok r ∧ (Q' = Q ∨ Q' = Q.neg) ∧ -(72 * u) ≤ P.dot Q' ∧ Quat.Interp u P Q' w r := by
  have h0 := hr.nonneg
  obtain ⟨d, ed, hd, -⟩ := dot hr (hu.trans (by norm_num)) hP hQ ha hb
  have hw : (.num w : Fl ℝ rnd) ≥ 0 ∧ (.num w : Fl ℝ rnd) ≤ 1 := by
    rw [Fl.zero_def, Fl.one_def]; simpa using ⟨w0, w1⟩
  obtain ⟨c, ec, hc⟩ : ∃ c, (95 / 100 : Fl ℝ rnd) = .num c ∧ |c - 0.95| ≤ 0.00005 :=
    literal hr hu (x := ((95 : ℕ) : ℝ)) (y := ((100 : ℕ) : ℝ)) (by norm_num) (by norm_num)
  unfold Quat.slerp
  rw [if_pos hw, ed, ec]
  dsimp only
  by_cases h : d < 0
  · have h' : (.num d : Fl ℝ rnd) < 0 := by rw [Fl.zero_def]; simpa using h
    rw [if_pos h', if_pos h']
    have hn : (⟨-b.x, -b.y, -b.z, -b.w⟩ : Quat (Fl ℝ rnd)).Near (8 * u) Q.neg := by
      have m : ∀ {x : Fl ℝ rnd} {y : ℝ}, x.Within (8 * u) y → (-x).Within (8 * u) (-y) := fun ⟨z, h1, h2⟩ =>
        ⟨-z, by rw [h1]; rfl, by rw [← abs_neg]; convert h2 using 2; ring⟩
      exact ⟨m hb.1, m hb.2.1, m hb.2.2.1, m hb.2.2.2⟩
    have e : P.dot Q.neg = -P.dot Q := by simp only [Quat.dot, Quat.neg]; ring
    obtain ⟨r, er, i⟩ := branch hr hu hP (Quat.neg_unit hQ) ha hn (v := -d) w0 w1 (by
      rw [e, ← abs_neg]; convert hd using 2; ring) (by linarith) hc
    refine ⟨r, _, er, Or.inr rfl, ?_, i⟩
    rw [e]; linarith [(abs_le.1 hd).1]
  · have h' : ¬ (.num d : Fl ℝ rnd) < 0 := by rw [Fl.zero_def]; simpa using h
    rw [if_neg h', if_neg h']
    obtain ⟨r, er, i⟩ := branch hr hu hP hQ ha hb (v := d) w0 w1 hd (by linarith) hc
    exact ⟨r, _, er, Or.inl rfl, by linarith [(abs_le.1 hd).2], i⟩

/-- `slerpNoInvert`: the same along the arc to the quaternion given, as long as the two are not nearly opposite. -/
theorem C158_noInvert (hr : IsRel rnd u) (hu : u ≤ 1 / 1048576) {a b : Quat (Fl ℝ rnd)} {P Q : Quat ℝ} (hP : P.IsUnit) (hQ : Q.IsUnit)
    (ha : a.Near (8 * u) P) (hb : b.Near (8 * u) Q) {w : ℝ} (w0 : 0 ≤ w) (w1 : w ≤ 1) (h : -0.95 ≤ P.dot Q) :
    ∃ r, a.slerpNoInvert b (.num w) = .ok r ∧ Quat.Interp u P Q w r := by
  have h0 := hr.nonneg
  obtain ⟨d, ed, hd, -⟩ := dot hr (hu.trans (by norm_num)) hP hQ ha hb
  have hw : (.num w : Fl ℝ rnd) ≥ 0 ∧ (.num w : Fl ℝ rnd) ≤ 1 := by
    rw [Fl.zero_def, Fl.one_def]; simpa using ⟨w0, w1⟩
  obtain ⟨c, ec, hc⟩ : ∃ c, (15938355 / 16777216 : Fl ℝ rnd) = .num c ∧ |c - 0.95| ≤ 0.00005 :=
    literal hr hu (x := ((15938355 : ℕ) : ℝ)) (y := ((16777216 : ℕ) : ℝ)) (by norm_num) (by norm_num)
  unfold Quat.slerpNoInvert
  rw [if_pos hw, ed, ec]
  dsimp only
  exact branch hr hu hP hQ ha hb (v := d) w0 w1 hd (by norm_num at h ⊢; linarith [(abs_le.1 hd).1]) hc

/-- What is approximated are unit quaternions: on the arc, at the fraction `w` of the angle, or in the direction of the chord. -/
theorem C158_points {P Q : Quat ℝ} (hP : P.IsUnit) (hQ : Q.IsUnit) {w : ℝ} (w0 : 0 ≤ w) (w1 : w ≤ 1) :
    (|P.dot Q| < 1 → (P.arcPoint Q w).IsUnit ∧ P.dot (P.arcPoint Q w) = Real.cos (w * Real.arccos (P.dot Q)) ∧
      Q.dot (P.arcPoint Q w) = Real.cos ((1 - w) * Real.arccos (P.dot Q))) ∧
    (-1 < P.dot Q → (P.chordPoint Q w).IsUnit ∧ ∃ k : ℝ, 0 < k ∧ (P.chordPoint Q w).toQ = k • ((1 - w) • P.toQ + w • Q.toQ)) := by
  constructor
  · intro h
    obtain ⟨h1, h2⟩ := abs_lt.1 h
    obtain ⟨-, a, b, c, -⟩ := Quat.slerpArc_spec hP hQ h1 h2 w w0 w1
    rw [arcPoint_eq h1.le h2.le] at a b c
    exact ⟨a, b, c⟩
  · intro h
    unfold Quat.IsUnit at hP hQ
    have e : ((1 - w) * P.x + w * Q.x) ^ 2 + ((1 - w) * P.y + w * Q.y) ^ 2 + ((1 - w) * P.z + w * Q.z) ^ 2 +
        ((1 - w) * P.w + w * Q.w) ^ 2 = (1 - w) ^ 2 + w ^ 2 + 2 * (w * (1 - w)) * P.dot Q := by
      unfold Quat.dot; linear_combination (1 - w) ^ 2 * hP + w ^ 2 * hQ
    have pos : 0 < ((1 - w) * P.x + w * Q.x) ^ 2 + ((1 - w) * P.y + w * Q.y) ^ 2 + ((1 - w) * P.z + w * Q.z) ^ 2 +
        ((1 - w) * P.w + w * Q.w) ^ 2 := by
      rw [e]
      rcases eq_or_lt_of_le (mul_nonneg w0 (sub_nonneg.2 w1)) with k | k
      · rw [← k]; nlinarith
      · nlinarith [mul_lt_mul_of_pos_left h k, sq_nonneg (1 - w - w)]
    have sp := Real.sqrt_pos.2 pos
    have ss := Real.sq_sqrt pos.le
    constructor
    · simp only [Quat.IsUnit, Quat.chordPoint]
      rw [div_pow, div_pow, div_pow, div_pow, ss, ← add_div, ← add_div, ← add_div, div_eq_one_iff_eq pos.ne']
    · refine ⟨1 / √(((1 - w) * P.x + w * Q.x) ^ 2 + ((1 - w) * P.y + w * Q.y) ^ 2 + ((1 - w) * P.z + w * Q.z) ^ 2 +
        ((1 - w) * P.w + w * Q.w) ^ 2), by positivity, ?_⟩
      ext <;> simp [Quat.chordPoint] <;> ring

/-- So the interpolated quaternion is a unit quaternion up to a relative error. -/
theorem C158_unit (hr : IsRel rnd u) (hu : u ≤ 1 / 1048576) {a b : Quat (Fl ℝ rnd)} {P Q : Quat ℝ} (hP : P.IsUnit) (hQ : Q.IsUnit)
    (ha : a.Near (8 * u) P) (hb : b.Near (8 * u) Q) {w : ℝ} (w0 : 0 ≤ w) (w1 : w ≤ 1) :
    ∃ r R, a.slerp b (.num w) = .ok r ∧ R.IsUnit ∧ r.Near (5100 * u) R := by
  have h0 := hr.nonneg
  obtain ⟨r, Q', e, hQ', hd, h⟩ := C158_slerp hr hu hP hQ ha hb w0 w1
  have hu' : Q'.IsUnit := by rcases hQ' with rfl | rfl; exacts [hQ, Quat.neg_unit hQ]
  rcases h with ⟨h1, h2⟩ | ⟨h1, h2⟩
  · exact ⟨r, _, e, ((C158_points hP hu' w0 w1).1 (by rw [abs_lt]; constructor <;> linarith)).1, h2⟩
  · refine ⟨r, _, e, ((C158_points hP hu' w0 w1).2 (by linarith)).1, ?_⟩
    have m : ∀ {x : Fl ℝ rnd} {y : ℝ}, x.Within (97 * u) y → x.Within (5100 * u) y := fun ⟨z, h1, h2⟩ =>
      ⟨z, h1, h2.trans (mul_le_mul_of_nonneg_right (by norm_num) h0)⟩
    exact ⟨m h2.1, m h2.2.1, m h2.2.2.1, m h2.2.2.2⟩

theorem SlerpErr.exact (hr : IsRel rnd u) (q : Quat ℝ) : (Quat.num q : Quat (Fl ℝ rnd)).Near (8 * u) q := by
  have m : ∀ x : ℝ, (.num x : Fl ℝ rnd).Within (8 * u) x := fun x => ⟨x, rfl, by simpa using hr.nonneg⟩
  exact ⟨m _, m _, m _, m _⟩

private theorem u24 : (2 : ℝ) ^ (-((24 : ℕ) : ℤ)) ≤ 1 / 1048576 := by norm_num

/-- A quarter of the way from no rotation to a half turn about `z`, in `float`. -/
example : ∃ r Q', (Quat.num ⟨0, 0, 0, 1⟩ : Quat (Fl ℝ (rne 24))).slerp (Quat.num ⟨0, 0, 1, 0⟩) (.num (1 / 4)) = .ok r ∧
    (Q' = ⟨0, 0, 1, 0⟩ ∨ Q' = (⟨0, 0, 1, 0⟩ : Quat ℝ).neg) ∧ -(72 * 2 ^ (-((24 : ℕ) : ℤ))) ≤ (⟨0, 0, 0, 1⟩ : Quat ℝ).dot Q' ∧
    Quat.Interp (2 ^ (-((24 : ℕ) : ℤ))) ⟨0, 0, 0, 1⟩ Q' (1 / 4) r :=
  C158_slerp (isRel_rne 24 (by norm_num)) u24 (by norm_num [Quat.IsUnit]) (by norm_num [Quat.IsUnit])
    (exact (isRel_rne 24 (by norm_num)) _) (exact (isRel_rne 24 (by norm_num)) _) (by norm_num) (by norm_num)

example : ∃ r, (Quat.num ⟨0, 0, 0, 1⟩ : Quat (Fl ℝ (rne 24))).slerpNoInvert (Quat.num ⟨0, 0, 4 / 5, -(3 / 5)⟩) (.num (1 / 4)) = .ok r ∧
    Quat.Interp (2 ^ (-((24 : ℕ) : ℤ))) ⟨0, 0, 0, 1⟩ ⟨0, 0, 4 / 5, -(3 / 5)⟩ (1 / 4) r :=
  C158_noInvert (isRel_rne 24 (by norm_num)) u24 (by norm_num [Quat.IsUnit]) (by norm_num [Quat.IsUnit])
    (exact (isRel_rne 24 (by norm_num)) _) (exact (isRel_rne 24 (by norm_num)) _) (by norm_num) (by norm_num)
    (by norm_num [Quat.dot])

example : ∃ r, (Quat.num ⟨0, 0, 0, 1⟩ : Quat (Fl ℝ (rne 24))).lerp (Quat.num ⟨0, 0, 4 / 5, 3 / 5⟩) (.num (1 / 2)) = .ok r ∧
    r.Near ((90 / 0.8 + 5.1) * 2 ^ (-((24 : ℕ) : ℤ))) (Quat.chordPoint ⟨0, 0, 0, 1⟩ ⟨0, 0, 4 / 5, 3 / 5⟩ (1 / 2)) :=
  C158_lerp (isRel_rne 24 (by norm_num)) u24 (by norm_num [Quat.IsUnit]) (by norm_num [Quat.IsUnit])
    (exact (isRel_rne 24 (by norm_num)) _) (exact (isRel_rne 24 (by norm_num)) _) (by norm_num) (by norm_num)
    (by norm_num) (by norm_num)

end MathLib
