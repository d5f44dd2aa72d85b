import Verif.Props.RoundedRotations
import Verif.Props.QuatMatrix

/-! # Property C156: quaternions from matrices, and orthonormalising, in floating point -/

namespace MathLib
variable {p : ℕ}

private theorem u12 (hp : 12 ≤ p) : (2 : ℝ) ^ (-(p : ℤ)) ≤ 1 / 4096 := by
  rw [show (1 / 4096 : ℝ) = 2 ^ (-12 : ℤ) by norm_num]
  exact zpow_le_zpow_right₀ one_le_two (by omega)

private theorem two (hp : 12 ≤ p) : (2 : Fl ℝ (rne p)) = .num 2 ∧ (4 : Fl ℝ (rne p)) = .num 4 := by
  have k : ∀ n : ℕ, n ≤ 4 → Rep p (n : ℝ) := fun n hn => Rep.nat n
    ((hn.trans (by norm_num)).trans (Nat.pow_le_pow_right (n := 2) (by norm_num) hp))
  constructor
  · rw [Fl.ofNat_def]; exact congrArg Fl.num (rne_of_rep (by omega) (k 2 (by norm_num)))
  · rw [Fl.ofNat_def]; exact congrArg Fl.num (rne_of_rep (by omega) (k 4 (by norm_num)))

/-- the scale factor of the chosen branch: `2 √(4 c²) = 4 c` -/
private theorem scale (hp : 12 ≤ p) {e c d : ℝ} (he : 0 ≤ e) (heu : e * 2 ^ (-(p : ℤ)) ≤ 1 / 50)
    (hc : 0.47 ≤ c) (hc1 : c ≤ 1) (hd : |d - 4 * c ^ 2| ≤ (3.01 * e + 9.1) * 2 ^ (-(p : ℤ))) :
    ∃ s, (MathFns.sqrt (.num d) * 2 : Fl ℝ (rne p)) = .num s ∧ (.num s / 4 : Fl ℝ (rne p)) = .num (s / 4) ∧ 1.78 ≤ s ∧
      |s - 4 * c| ≤ (3.28 * e + 14.2) * 2 ^ (-(p : ℤ)) := by
  have hr := isRel_rne p (by omega)
  have hu := u12 hp
  set u : ℝ := 2 ^ (-(p : ℤ)) with hu'
  have u0 : 0 < u := zpow2_pos _
  have hd' := abs_le.1 hd
  have cc : 0.8836 ≤ 4 * c ^ 2 := by nlinarith
  have d0 : 0.81 ≤ d := by nlinarith
  have sd : (0.9 : ℝ) ≤ √d := Real.le_sqrt_of_sq_le (by norm_num; linarith)
  have sq : √d * √d = d := Real.mul_self_sqrt (by linarith)
  have e1 : |√d - 2 * c| ≤ (3.01 * e + 9.1) * u / 1.84 := by
    rw [le_div_iff₀ (by norm_num)]
    have : |√d - 2 * c| * (√d + 2 * c) = |d - 4 * c ^ 2| := by
      rw [← abs_of_nonneg (by linarith : 0 ≤ √d + 2 * c), ← abs_mul]
      congr 1
      linear_combination sq
    have h := abs_nonneg (√d - 2 * c)
    nlinarith
  have e2 := hr.err √d
  have b1 := abs_le.1 e1
  have sd2 : √d ≤ 2.1 := by
    have : (3.01 * e + 9.1) * u / 1.84 ≤ 0.1 := by
      rw [div_le_iff₀ (by norm_num)]; nlinarith
    linarith
  rw [abs_of_nonneg (by linarith : 0 ≤ √d)] at e2
  have e3 : u * √d ≤ u * 2.1 := mul_le_mul_of_nonneg_left sd2 u0.le
  have b2 := abs_le.1 e2
  rw [(two hp).1, Fl.fl_sqrt, if_neg (by linarith), Fl.num_mul]
  have rs := rep_rne p (by omega) √d
  have m2 : rne p (rne p √d * 2) = rne p √d * 2 := rne_of_rep (by omega) (by simpa using rs.mul_zpow 1)
  have m4 : rne p (rne p √d * 2 / 4) = rne p √d * 2 / 4 := rne_of_rep (by omega) (by
    have := rs.mul_zpow (-1)
    rwa [show rne p √d * 2 / 4 = rne p √d * 2 ^ (-1 : ℤ) by rw [zpow_neg_one]; ring])
  refine ⟨_, congrArg _ m2, ?_, ?_, ?_⟩
  · rw [(two hp).2, Fl.num_div, if_neg (by norm_num), m4]
  · linarith
  · rw [abs_le]
    have : (3.01 * e + 9.1) * u / 1.84 ≤ (1.64 * e + 4.95) * u := by
      rw [div_le_iff₀ (by norm_num)]; nlinarith
    constructor <;> nlinarith

private theorem quot (hp : 12 ≤ p) {e c y s n : ℝ} (he : 0 ≤ e) (heu : e * 2 ^ (-(p : ℤ)) ≤ 1 / 50)
    (hy : |y| ≤ 1) (hs : 1.78 ≤ s) (hsc : |s - 4 * c| ≤ (3.28 * e + 14.2) * 2 ^ (-(p : ℤ)))
    (hn : |n - 4 * c * y| ≤ (2.01 * e + 2.1) * 2 ^ (-(p : ℤ))) :
    (.num n / .num s : Fl ℝ (rne p)).Within ((3 * e + 12) * 2 ^ (-(p : ℤ))) y := by
  have hr := isRel_rne p (by omega)
  have hu := u12 hp
  rw [Fl.num_div, if_neg (by linarith)]
  refine ⟨_, rfl, ?_⟩
  set u : ℝ := 2 ^ (-(p : ℤ)) with hu'
  have u0 : 0 < u := zpow2_pos _
  have k1 : |n / s - y| ≤ (2.98 * e + 9.2) * u := by
    rw [show n / s - y = (n - s * y) / s by field_simp, abs_div, abs_of_pos (by linarith : 0 < s),
      div_le_iff₀ (by linarith)]
    have a1 := abs_sub (n - 4 * c * y) ((s - 4 * c) * y)
    rw [show n - 4 * c * y - (s - 4 * c) * y = n - s * y by ring, abs_mul] at a1
    have a2 : |s - 4 * c| * |y| ≤ (3.28 * e + 14.2) * u * 1 := mul_le_mul hsc hy (abs_nonneg _) (by positivity)
    have a3 : (2.98 * e + 9.2) * u * 1.78 ≤ (2.98 * e + 9.2) * u * s := mul_le_mul_of_nonneg_left hs (by positivity)
    nlinarith
  have k2 := hr.err (n / s)
  have k3 : |n / s| ≤ 1.1 := by
    have := abs_sub_abs_le_abs_sub (n / s) y
    nlinarith
  have k4 := mul_le_mul_of_nonneg_left k3 u0.le
  have k5 := abs_add_le (rne p (n / s) - n / s) (n / s - y)
  rw [sub_add_sub_cancel] at k5
  nlinarith

/-- the computed coordinates are numbers, each within `e` of the given ones -/
def Quat.Near {rnd : ℝ → ℝ} (a : Quat (Fl ℝ rnd)) (e : ℝ) (q : Quat ℝ) : Prop :=
  a.x.Within e q.x ∧ a.y.Within e q.y ∧ a.z.Within e q.z ∧ a.w.Within e q.w

private theorem within_apx {u e x M : ℝ} {rnd : ℝ → ℝ} {a : Fl ℝ rnd} (h : a.Within (e * u) x) (hM : |x| ≤ M) :
    Apx u a x e M := by
  obtain ⟨v, hv, h1⟩ := h; exact ⟨v, hv, h1, hM⟩

/-- what is known about the entries -/
private structure Ent (M : Mat3 (Fl ℝ (rne p))) (e u : ℝ) (q : Quat ℝ) : Prop where
  unit : q.x ^ 2 + q.y ^ 2 + q.z ^ 2 + q.w ^ 2 = 1
  xx : Apx u M.x.x (1 - 2 * (q.y * q.y + q.z * q.z)) e 1
  xy : Apx u M.x.y (2 * (q.x * q.y + q.w * q.z)) e 1
  xz : Apx u M.x.z (2 * (q.z * q.x - q.w * q.y)) e 1
  yx : Apx u M.y.x (2 * (q.x * q.y - q.w * q.z)) e 1
  yy : Apx u M.y.y (1 - 2 * (q.x * q.x + q.z * q.z)) e 1
  yz : Apx u M.y.z (2 * (q.y * q.z + q.w * q.x)) e 1
  zx : Apx u M.z.x (2 * (q.z * q.x + q.w * q.y)) e 1
  zy : Apx u M.z.y (2 * (q.y * q.z - q.w * q.x)) e 1
  zz : Apx u M.z.z (1 - 2 * (q.x * q.x + q.y * q.y)) e 1

private theorem Ent.of {M : Mat3 (Fl ℝ (rne p))} {e u : ℝ} {r : Quat ℝ} (hr1 : r.IsUnit)
    (hM : M.Near (e * u) (Mat3.ofQuat r)) : Ent M e u r := by
  obtain ⟨⟨hxx, hxy, hxz⟩, ⟨hyx, hyy, hyz⟩, hzx, hzy, hzz⟩ := hM
  unfold Quat.IsUnit at hr1
  have sx := sq_nonneg r.x
  have sy := sq_nonneg r.y
  have sz := sq_nonneg r.z
  have sw := sq_nonneg r.w
  have pm : ∀ x y z w : ℝ, x ^ 2 + y ^ 2 + z ^ 2 + w ^ 2 = 1 → |2 * (x * y + z * w)| ≤ 1 ∧ |2 * (x * y - z * w)| ≤ 1 := by
    intro x y z w h
    have := sq_nonneg (x - y); have := sq_nonneg (x + y); have := sq_nonneg (z - w); have := sq_nonneg (z + w)
    constructor <;> rw [abs_le] <;> constructor <;> nlinarith
  exact ⟨by linarith, within_apx hxx (by rw [abs_le]; constructor <;> nlinarith),
    within_apx hxy (pm r.x r.y r.w r.z (by linarith)).1, within_apx hxz (pm r.z r.x r.w r.y (by linarith)).2,
    within_apx hyx (pm r.x r.y r.w r.z (by linarith)).2, within_apx hyy (by rw [abs_le]; constructor <;> nlinarith),
    within_apx hyz (pm r.y r.z r.w r.x (by linarith)).1, within_apx hzx (pm r.z r.x r.w r.y (by linarith)).1,
    within_apx hzy (pm r.y r.z r.w r.x (by linarith)).2, within_apx hzz (by rw [abs_le]; constructor <;> nlinarith)⟩

private theorem Ent.neg {M : Mat3 (Fl ℝ (rne p))} {e u : ℝ} {q : Quat ℝ} (h : Ent M e u q) : Ent M e u q.neg := by
  obtain ⟨h0, h1, h2, h3, h4, h5, h6, h7, h8, h9⟩ := h
  constructor <;> simp only [Quat.neg, neg_mul_neg] <;> first | assumption | linarith

/-- the conclusion for one branch -/
private theorem finish (hp : 12 ≤ p) {e c : ℝ} (he : 0 ≤ e) (heu : e * 2 ^ (-(p : ℤ)) ≤ 1 / 50)
    (hc : 0.2209 ≤ c ^ 2) (hc0 : 0 ≤ c) (hc1 : c ^ 2 ≤ 1) {D : Fl ℝ (rne p)}
    (hD : Apx (2 ^ (-(p : ℤ))) D (4 * c ^ 2) (3.01 * e + 9.1) 4) :
    (MathFns.sqrt D * 2 / 4).Within ((3 * e + 12) * 2 ^ (-(p : ℤ))) c ∧
    (∀ (A B : Fl ℝ (rne p)) (a b y : ℝ), Apx (2 ^ (-(p : ℤ))) A a e 1 → Apx (2 ^ (-(p : ℤ))) B b e 1 → y ^ 2 ≤ 1 →
      (a - b = 4 * c * y → ((A - B) / (MathFns.sqrt D * 2)).Within ((3 * e + 12) * 2 ^ (-(p : ℤ))) y) ∧
      (a + b = 4 * c * y → ((A + B) / (MathFns.sqrt D * 2)).Within ((3 * e + 12) * 2 ^ (-(p : ℤ))) y)) := by
  have hr := isRel_rne p (by omega)
  have hu := u12 hp
  have u0 : (0 : ℝ) < 2 ^ (-(p : ℤ)) := zpow2_pos _
  obtain ⟨d, rfl, hd, -⟩ := hD
  obtain ⟨s, es, es4, hs, hsc⟩ := scale hp he heu (by nlinarith : 0.47 ≤ c) (by nlinarith) hd
  rw [es]
  constructor
  · rw [es4]
    refine ⟨_, rfl, ?_⟩
    rw [show s / 4 - c = (s - 4 * c) / 4 by ring, abs_div, abs_of_pos (by norm_num : (0 : ℝ) < 4),
      div_le_iff₀ (by norm_num)]
    nlinarith
  · intro A B a b y hA hB hy
    have hy' : |y| ≤ 1 := by rw [abs_le]; constructor <;> nlinarith
    have ma := abs_le.1 hA.choose_spec.2.2
    have mb := abs_le.1 hB.choose_spec.2.2
    constructor
    · intro h
      obtain ⟨n, en, hn, -⟩ := hA.sub hr hu hB (e := 2.01 * e + 2.1) (M := 2)
        (by rw [abs_le]; constructor <;> linarith) (by linarith)
      rw [en]
      exact quot hp he heu hy' hs hsc (h ▸ hn)
    · intro h
      obtain ⟨n, en, hn, -⟩ := hA.add hr hu hB (e := 2.01 * e + 2.1) (M := 2)
        (by rw [abs_le]; constructor <;> linarith) (by linarith)
      rw [en]
      exact quot hp he heu hy' hs hsc (h ▸ hn)

private theorem diff (hp : 12 ≤ p) {e a b c : ℝ} (he : 0 ≤ e) (h : a ^ 2 + b ^ 2 + c ^ 2 ≤ 1) {A B C : Fl ℝ (rne p)}
    {x y z : ℝ} (hA : Apx (2 ^ (-(p : ℤ))) A x e 1) (hB : Apx (2 ^ (-(p : ℤ))) B y e 1)
    (hC : Apx (2 ^ (-(p : ℤ))) C z e 1) (hx : x = 1 - 2 * (b ^ 2 + c ^ 2)) (hy : y = 1 - 2 * (a ^ 2 + c ^ 2))
    (hz : z = 1 - 2 * (a ^ 2 + b ^ 2)) :
    Apx (2 ^ (-(p : ℤ))) (1 + A - B - C) (4 * a ^ 2) (3.01 * e + 9.1) 4 := by
  have hr := isRel_rne p (by omega)
  have hu := u12 hp
  have O : Apx (2 ^ (-(p : ℤ))) (1 : Fl ℝ (rne p)) 1 0 1 := Apx.num (by simp)
  have sa := sq_nonneg a
  have sb := sq_nonneg b
  have sc := sq_nonneg c
  have D := ((O.add hr hu hA (e := 1.001 * e + 2) (M := 2) (by rw [abs_le]; constructor <;> linarith)
    (by linarith)).sub hr hu hB (e := 2.002 * e + 5.01) (M := 3) (by rw [abs_le]; constructor <;> linarith)
    (by linarith)).sub hr hu hC (e := 3.01 * e + 9.1) (M := 4) (by rw [abs_le]; constructor <;> linarith) (by linarith)
  rwa [show 1 + x - y - z = 4 * a ^ 2 by rw [hx, hy, hz]; ring] at D

private theorem pick (r : Quat ℝ) (f : Quat ℝ → ℝ) (hf : f r.neg = -f r) : ∃ q, (q = r ∨ q = r.neg) ∧ 0 ≤ f q := by
  rcases le_total 0 (f r) with h | h
  · exact ⟨r, .inl rfl, h⟩
  · exact ⟨r.neg, .inr rfl, by rw [hf]; linarith⟩

/-- A matrix that is off by at most `δ = e u ≤ 1/50` from a rotation, entry by entry, gives a quaternion that is within
`3 δ + 12 u` of a unit quaternion of that rotation: the branch that is taken divides by a number that is not small,
also when the errors make it another branch than the exact one. -/
theorem C156_ofMat3 (hp : 12 ≤ p) {e : ℝ} (he : 0 ≤ e) (heu : e * 2 ^ (-(p : ℤ)) ≤ 1 / 50)
    (M : Mat3 (Fl ℝ (rne p))) (r : Quat ℝ) (hr1 : r.IsUnit) (hM : M.Near (e * 2 ^ (-(p : ℤ))) (Mat3.ofQuat r)) :
    ∃ q : Quat ℝ, (q = r ∨ q = r.neg) ∧ (Quat.ofMat3 M).Near ((3 * e + 12) * 2 ^ (-(p : ℤ))) q := by
  have hr := isRel_rne p (by omega)
  have hu := u12 hp
  have u0 : (0 : ℝ) < 2 ^ (-(p : ℤ)) := zpow2_pos _
  have E0 := Ent.of hr1 hM
  have E : ∀ q, (q = r ∨ q = r.neg) → Ent M e (2 ^ (-(p : ℤ))) q := by
    rintro q (rfl | rfl)
    · exact E0
    · exact E0.neg
  have O : Apx (2 ^ (-(p : ℤ))) (1 : Fl ℝ (rne p)) 1 0 1 := Apx.num (by simp)
  have sx := sq_nonneg r.x
  have sy := sq_nonneg r.y
  have sz := sq_nonneg r.z
  have sw := sq_nonneg r.w
  have unit := E0.unit
  -- the trace
  have T := (E0.xx.add hr hu E0.yy (e := 2.001 * e + 2) (M := 2) (by rw [abs_le]; constructor <;> nlinarith)
    (by linarith)).add hr hu E0.zz (e := 3.003 * e + 5.01) (M := 3) (by rw [abs_le]; constructor <;> nlinarith)
    (by linarith)
  have htr : M.trace = M.x.x + M.y.y + M.z.z := rfl
  rw [← htr] at T
  obtain ⟨t, et, ht, -⟩ := id T
  have ht' := abs_le.1 ht
  obtain ⟨vx, ex, hx, -⟩ := id E0.xx
  obtain ⟨vy, ey, hy, -⟩ := id E0.yy
  obtain ⟨vz, ez, hz, -⟩ := id E0.zz
  have hx' := abs_le.1 hx
  have hy' := abs_le.1 hy
  have hz' := abs_le.1 hz
  simp only [← sq] at ht' hx' hy' hz'
  have small : (3.003 * e + 5.01) * 2 ^ (-(p : ℤ)) ≤ 0.0613 := by nlinarith
  have sqs : ∀ q, (q = r ∨ q = r.neg) → q.x ^ 2 = r.x ^ 2 ∧ q.y ^ 2 = r.y ^ 2 ∧ q.z ^ 2 = r.z ^ 2 ∧ q.w ^ 2 = r.w ^ 2 := by
    rintro q (rfl | rfl) <;> simp [Quat.neg]
  unfold Quat.ofMat3 Quat.ofCols
  by_cases c1 : M.trace > 0
  · rw [if_pos c1]
    rw [et, gt_iff_lt, Fl.zero_def, Fl.num_lt] at c1
    obtain ⟨q, hq, h0⟩ := pick r (fun q => q.w) rfl
    obtain ⟨q1, q2, q3, q4⟩ := sqs q hq
    have Q := E q hq
    have D := O.add hr hu T (e := 3.01 * e + 9.1) (M := 4) (by rw [abs_le]; constructor <;> nlinarith) (by linarith)
    have ed : 1 + (1 - 2 * (r.y * r.y + r.z * r.z) + (1 - 2 * (r.x * r.x + r.z * r.z)) +
        (1 - 2 * (r.x * r.x + r.y * r.y))) = 4 * q.w ^ 2 := by rw [q4]; linear_combination (-4) * unit
    rw [ed] at D
    obtain ⟨f1, f2⟩ := finish hp he heu (by linarith) h0 (by linarith) D
    refine ⟨q, hq, ?_, ?_, ?_, f1⟩
    · exact (f2 _ _ _ _ _ Q.yz Q.zy (by linarith)).1 (by ring)
    · exact (f2 _ _ _ _ _ Q.zx Q.xz (by linarith)).1 (by ring)
    · exact (f2 _ _ _ _ _ Q.xy Q.yx (by linarith)).1 (by ring)
  rw [if_neg c1]
  rw [et, gt_iff_lt, Fl.zero_def, Fl.num_lt, not_lt] at c1
  by_cases c2 : M.x.x > M.y.y ∧ M.x.x > M.z.z
  · rw [if_pos c2]
    simp only [ex, ey, ez, gt_iff_lt, Fl.num_lt] at c2
    obtain ⟨q, hq, h0⟩ := pick r (fun q => q.x) rfl
    obtain ⟨q1, q2, q3, q4⟩ := sqs q hq
    have Q := E q hq
    have D := diff hp he (a := q.x) (b := q.y) (c := q.z) (by linarith) Q.xx Q.yy Q.zz (by ring) (by ring) (by ring)
    obtain ⟨f1, f2⟩ := finish hp he heu (by linarith) h0 (by linarith) D
    refine ⟨q, hq, f1, ?_, ?_, ?_⟩
    · exact (f2 _ _ _ _ _ Q.yx Q.xy (by linarith)).2 (by ring)
    · exact (f2 _ _ _ _ _ Q.zx Q.xz (by linarith)).2 (by ring)
    · exact (f2 _ _ _ _ _ Q.yz Q.zy (by linarith)).1 (by ring)
  rw [if_neg c2]
  simp only [ex, ey, ez, gt_iff_lt, Fl.num_lt, not_and_or, not_lt] at c2
  by_cases c3 : M.y.y > M.z.z
  · rw [if_pos c3]
    simp only [ey, ez, gt_iff_lt, Fl.num_lt] at c3
    have c4 : vx ≤ vy := by rcases c2 with h | h <;> linarith
    obtain ⟨q, hq, h0⟩ := pick r (fun q => q.y) rfl
    obtain ⟨q1, q2, q3, q4⟩ := sqs q hq
    have Q := E q hq
    have D := diff hp he (a := q.y) (b := q.x) (c := q.z) (by linarith) Q.yy Q.xx Q.zz (by ring) (by ring) (by ring)
    obtain ⟨f1, f2⟩ := finish hp he heu (by linarith) h0 (by linarith) D
    refine ⟨q, hq, ?_, f1, ?_, ?_⟩
    · exact (f2 _ _ _ _ _ Q.yx Q.xy (by linarith)).2 (by ring)
    · exact (f2 _ _ _ _ _ Q.zy Q.yz (by linarith)).2 (by ring)
    · exact (f2 _ _ _ _ _ Q.zx Q.xz (by linarith)).1 (by ring)
  rw [if_neg c3]
  simp only [ey, ez, gt_iff_lt, Fl.num_lt, not_lt] at c3
  have c4 : vx ≤ vz := by rcases c2 with h | h <;> linarith
  obtain ⟨q, hq, h0⟩ := pick r (fun q => q.z) rfl
  obtain ⟨q1, q2, q3, q4⟩ := sqs q hq
  have Q := E q hq
  have D := diff hp he (a := q.z) (b := q.x) (c := q.y) (by linarith) Q.zz Q.xx Q.yy (by ring) (by ring) (by ring)
  obtain ⟨f1, f2⟩ := finish hp he heu (by linarith) h0 (by linarith) D
  refine ⟨q, hq, ?_, ?_, f1, ?_⟩
  · exact (f2 _ _ _ _ _ Q.zx Q.xz (by linarith)).2 (by ring)
  · exact (f2 _ _ _ _ _ Q.zy Q.yz (by linarith)).2 (by ring)
  · exact (f2 _ _ _ _ _ Q.xy Q.yx (by linarith)).1 (by ring)

/-- Quaternion to matrix and back: a quaternion that is a unit quaternion up to eight units comes back, up to its sign,
within 260 units. -/
theorem C156_roundtrip (hp : 12 ≤ p) (q r : Quat ℝ) (hr1 : r.IsUnit) (hx : |q.x - r.x| ≤ 8 * 2 ^ (-(p : ℤ)))
    (hy : |q.y - r.y| ≤ 8 * 2 ^ (-(p : ℤ))) (hz : |q.z - r.z| ≤ 8 * 2 ^ (-(p : ℤ)))
    (hw : |q.w - r.w| ≤ 8 * 2 ^ (-(p : ℤ))) :
    ∃ s : Quat ℝ, (s = q ∨ s = q.neg) ∧
      (Quat.ofMat3 (Mat3.ofQuat (Quat.num q : Quat (Fl ℝ (rne p))))).Near (260 * 2 ^ (-(p : ℤ))) s := by
  have hu := u12 hp
  have M := (C153_matrix (isRel_rne p (by omega)) hu q r hr1 hx hy hz hw).1
  obtain ⟨t, ht, n1, n2, n3, n4⟩ := C156_ofMat3 hp (e := 80) (by norm_num) (by linarith) _ r hr1 M
  have comb : ∀ {a : Fl ℝ (rne p)} {y y' : ℝ}, a.Within ((3 * 80 + 12) * 2 ^ (-(p : ℤ))) y → |y' - y| ≤ 8 * 2 ^ (-(p : ℤ)) →
      a.Within (260 * 2 ^ (-(p : ℤ))) y' := by
    rintro a y y' ⟨w, rfl, hw⟩ hy
    refine ⟨w, rfl, ?_⟩
    have e1 := abs_sub (w - y) (y' - y)
    rw [sub_sub_sub_cancel_right] at e1
    linarith
  have ng : ∀ {a b : ℝ}, |a - b| ≤ 8 * 2 ^ (-(p : ℤ)) → |-a - -b| ≤ 8 * 2 ^ (-(p : ℤ)) := fun {a b} h => by
    rwa [neg_sub_neg, abs_sub_comm]
  rcases ht with rfl | rfl
  · exact ⟨q, .inl rfl, comb n1 hx, comb n2 hy, comb n3 hz, comb n4 hw⟩
  · exact ⟨q.neg, .inr rfl, comb n1 (ng hx), comb n2 (ng hy), comb n3 (ng hz), comb n4 (ng hw)⟩

private theorem entries_eq {A B : Mat3 ℝ} (h : A.toM = B.toM) : A.x = B.x ∧ A.y = B.y ∧ A.z = B.z := by
  have k := fun i j => congrFun (congrFun h i) j
  have k00 := k 0 0; have k01 := k 0 1; have k02 := k 0 2
  have k10 := k 1 0; have k11 := k 1 1; have k12 := k 1 2
  have k20 := k 2 0; have k21 := k 2 1; have k22 := k 2 2
  simp [Mat3.toM] at k00 k01 k02 k10 k11 k12 k20 k21 k22
  refine ⟨?_, ?_, ?_⟩ <;> ext <;> assumption

private theorem near_of {M : Mat3 (Fl ℝ (rne p))} {e : ℝ} {A B : Mat3 ℝ} (h : A.toM = B.toM) (hM : M.Near e A) :
    M.Near e B := by
  obtain ⟨h1, h2, h3⟩ := entries_eq h
  unfold Mat3.Near at hM ⊢
  rwa [h1, h2, h3] at hM

/-- Normalising a quaternion: every coordinate has a relative error of at most five units. -/
theorem C156_normalize {rnd : ℝ → ℝ} {u : ℝ} (hr : IsRel rnd u) (q : Quat ℝ) (hq : q ≠ ⟨0, 0, 0, 0⟩) :
    ∃ s : Quat ℝ, (Quat.num q : Quat (Fl ℝ rnd)).normalize = Quat.num s ∧
      (let n := √(q.x ^ 2 + q.y ^ 2 + q.z ^ 2 + q.w ^ 2)
       |s.x - q.x / n| ≤ gam u 5 * |q.x / n| ∧ |s.y - q.y / n| ≤ gam u 5 * |q.y / n| ∧
       |s.z - q.z / n| ≤ gam u 5 * |q.z / n| ∧ |s.w - q.w / n| ≤ gam u 5 * |q.w / n|) := by
  have m : ∀ a : ℝ, Rel u 1 (a * a) (.num a * .num a : Fl ℝ rnd) := fun a => Rel.mul hr (Rel.exact hr a) (Rel.exact hr a)
  have N := (((m q.x).add hr (m q.y) (mul_self_nonneg _) (mul_self_nonneg _) (k := 2)).add hr (m q.z)
    (add_nonneg (mul_self_nonneg _) (mul_self_nonneg _)) (mul_self_nonneg _) (k := 3)).add hr (m q.w)
    (add_nonneg (add_nonneg (mul_self_nonneg _) (mul_self_nonneg _)) (mul_self_nonneg _)) (mul_self_nonneg _) (k := 4)
  have pos : 0 < q.x * q.x + q.y * q.y + q.z * q.z + q.w * q.w := by
    rcases (add_nonneg (add_nonneg (add_nonneg (mul_self_nonneg q.x) (mul_self_nonneg q.y)) (mul_self_nonneg q.z))
      (mul_self_nonneg q.w)).lt_or_eq with h | h
    · exact h
    · refine absurd ?_ hq
      have a := mul_self_nonneg q.x; have b := mul_self_nonneg q.y
      have c := mul_self_nonneg q.z; have d := mul_self_nonneg q.w
      ext
      · exact mul_self_eq_zero.1 (by linarith)
      · exact mul_self_eq_zero.1 (by linarith)
      · exact mul_self_eq_zero.1 (by linarith)
      · exact mul_self_eq_zero.1 (by linarith)
  have L := N.sqrt hr pos.le (m := 2) (k := 3)
  have lpos := Real.sqrt_pos.2 pos
  have I := (Rel.exact hr (1 : ℝ) : Rel u 0 1 (.num 1 : Fl ℝ rnd)).div hr L lpos.ne' (k := 4)
  have P : ∀ a : ℝ, ∃ v, (.num a * (.num 1 / MathFns.sqrt (.num q.x * .num q.x + .num q.y * .num q.y + .num q.z * .num q.z +
      .num q.w * .num q.w)) : Fl ℝ rnd) = .num v ∧ |v - a / √(q.x ^ 2 + q.y ^ 2 + q.z ^ 2 + q.w ^ 2)| ≤
        gam u 5 * |a / √(q.x ^ 2 + q.y ^ 2 + q.z ^ 2 + q.w ^ 2)| := by
    intro a
    have := ((Rel.exact hr a).mul hr I (k := 5)).error hr
    simpa only [sq, mul_one_div] using this
  have h0 : (MathFns.sqrt (.num q.x * .num q.x + .num q.y * .num q.y + .num q.z * .num q.z + .num q.w * .num q.w) ==
      (0 : Fl ℝ rnd)) = false := by
    obtain ⟨θ, hθ, e⟩ := L
    rw [e, Fl.zero_def, Fl.num_beq]
    exact decide_eq_false (mul_pos lpos (hθ.pos hr.lt_one)).ne'
  obtain ⟨x, ex, kx⟩ := P q.x
  obtain ⟨y, ey, ky⟩ := P q.y
  obtain ⟨z, ez, kz⟩ := P q.z
  obtain ⟨w, ew, kw⟩ := P q.w
  refine ⟨⟨x, y, z, w⟩, ?_, kx, ky, kz, kw⟩
  simp only [Quat.normalize, Quat.num, h0, Bool.false_eq_true, if_false, Fl.one_def, ex, ey, ez, ew]

/-- normalising moves a nearly unit quaternion little -/
private theorem renorm {x y z w d : ℝ} {q : Quat ℝ} (hq : q.x ^ 2 + q.y ^ 2 + q.z ^ 2 + q.w ^ 2 = 1) (hd : d ≤ 0.063)
    (hx : |x - q.x| ≤ d) (hy : |y - q.y| ≤ d) (hz : |z - q.z| ≤ d) (hw : |w - q.w| ≤ d) :
    let n := √(x ^ 2 + y ^ 2 + z ^ 2 + w ^ 2)
    0 < n ∧ (x / n) ^ 2 + (y / n) ^ 2 + (z / n) ^ 2 + (w / n) ^ 2 = 1 ∧
    1 - (x / n * q.x + y / n * q.y + z / n * q.z + w / n * q.w) ^ 2 ≤ 5.24 * d ^ 2 := by
  intro n
  have d0 : 0 ≤ d := (abs_nonneg _).trans hx
  have sqd : ∀ {a : ℝ}, |a| ≤ d → a ^ 2 ≤ d ^ 2 := fun h => by rw [← sq_abs]; exact pow_le_pow_left₀ (abs_nonneg _) h 2
  set S := (x - q.x) ^ 2 + (y - q.y) ^ 2 + (z - q.z) ^ 2 + (w - q.w) ^ 2 with hS
  set c := q.x * (x - q.x) + q.y * (y - q.y) + q.z * (z - q.z) + q.w * (w - q.w) with hc
  have S0 : 0 ≤ S := by positivity
  have S4 : S ≤ (2 * d) ^ 2 := by
    have := sqd hx; have := sqd hy; have := sqd hz; have := sqd hw
    rw [hS]; linarith
  have cs : c ^ 2 ≤ S := by
    have : S - c ^ 2 = (q.x * (y - q.y) - q.y * (x - q.x)) ^ 2 + (q.x * (z - q.z) - q.z * (x - q.x)) ^ 2 +
        (q.x * (w - q.w) - q.w * (x - q.x)) ^ 2 + (q.y * (z - q.z) - q.z * (y - q.y)) ^ 2 +
        (q.y * (w - q.w) - q.w * (y - q.y)) ^ 2 + (q.z * (w - q.w) - q.w * (z - q.z)) ^ 2 := by
      rw [hS, hc]; linear_combination (-S) * hq
    have h : 0 ≤ S - c ^ 2 := by rw [this]; positivity
    linarith
  have tS : √S * √S = S := Real.mul_self_sqrt S0
  have t0 := Real.sqrt_nonneg S
  have t2 : √S ≤ 2 * d := (Real.sqrt_le_left (by linarith)).2 S4
  have ct : |c| ≤ √S := Real.abs_le_sqrt cs
  have ct' := abs_le.1 ct
  have nn : n ^ 2 = 1 + 2 * c + S := by
    rw [Real.sq_sqrt (by positivity), hS, hc]; linear_combination hq
  have n0 : 0 ≤ n := Real.sqrt_nonneg _
  have nl : 1 - 2 * d ≤ n := by nlinarith
  have npos : 0 < n := by linarith
  have n2 : n ^ 2 = x ^ 2 + y ^ 2 + z ^ 2 + w ^ 2 := Real.sq_sqrt (by positivity)
  refine ⟨npos, ?_, ?_⟩
  · simp only [div_pow]
    rw [← add_div, ← add_div, ← add_div, ← n2, div_self (by positivity)]
  · have e : 1 - (x / n * q.x + y / n * q.y + z / n * q.z + w / n * q.w) ^ 2 = (S - c ^ 2) / n ^ 2 := by
      rw [eq_div_iff (by positivity), sub_mul, one_mul, ← mul_pow]
      rw [show (x / n * q.x + y / n * q.y + z / n * q.z + w / n * q.w) * n = 1 + c by
        field_simp; rw [hc]; linear_combination hq]
      rw [nn]; ring
    rw [e, div_le_iff₀ (by positivity)]
    have h1 : (1 - 2 * 0.063) ^ 2 ≤ n ^ 2 := pow_le_pow_left₀ (by norm_num) (by linarith) 2
    have h2 := mul_le_mul_of_nonneg_left h1 (show 0 ≤ 5.24 * d ^ 2 by positivity)
    norm_num at h2 ⊢
    linarith [sq_nonneg c]

/-- how far two rotations are apart, by their quaternions -/
private theorem rot_dist (q r : Quat ℝ) (hq : q.IsUnit) (hr : r.IsUnit) :
    ∑ i, ∑ j, (r.rot i j - q.rot i j) ^ 2 = 8 * (1 - (r.x * q.x + r.y * q.y + r.z * q.z + r.w * q.w) ^ 2) := by
  unfold Quat.IsUnit at hq hr
  have h : ∑ i, ∑ j, (r.rot i j - q.rot i j) ^ 2 = 3 * (r.x * r.x + r.y * r.y + r.z * r.z + r.w * r.w) ^ 2 +
      3 * (q.x * q.x + q.y * q.y + q.z * q.z + q.w * q.w) ^ 2 -
      2 * (4 * (r.x * q.x + r.y * q.y + r.z * q.z + r.w * q.w) ^ 2 -
        (r.x * r.x + r.y * r.y + r.z * r.z + r.w * r.w) * (q.x * q.x + q.y * q.y + q.z * q.z + q.w * q.w)) := by
    simp [Quat.rot, Fin.sum_univ_three]
    ring
  rw [h, show r.x * r.x + r.y * r.y + r.z * r.z + r.w * r.w = 1 by linarith,
    show q.x * q.x + q.y * q.y + q.z * q.z + q.w * q.w = 1 by linarith]
  ring

private theorem rebuild (hp : 12 ≤ p) {x y z w d : ℝ} {q : Quat ℝ} (hq : q.IsUnit)
    (d1 : d ≤ 0.063) (nx : |x - q.x| ≤ d) (ny : |y - q.y| ≤ d) (nz : |z - q.z| ≤ d) (nw : |w - q.w| ≤ d) :
    let P := Mat3.ofQuat (Quat.normalize (Quat.num ⟨x, y, z, w⟩ : Quat (Fl ℝ (rne p))))
    ∃ F : Mat3 ℝ, IsRotation F.toM ∧ P.Near (80 * 2 ^ (-(p : ℤ))) F ∧
      ∑ i, ∑ j, (F.toM i j - (Mat3.ofQuat q).toM i j) ^ 2 ≤ (6.5 * d) ^ 2 ∧ (20 ≤ p → P.isOrthonormal = true) := by
  intro P
  have q1' : q.x ^ 2 + q.y ^ 2 + q.z ^ 2 + q.w ^ 2 = 1 := by unfold Quat.IsUnit at hq; linarith
  have hr := isRel_rne p (by omega)
  have hu := u12 hp
  have u0 : (0 : ℝ) < 2 ^ (-(p : ℤ)) := zpow2_pos _
  obtain ⟨npos, fu, fd⟩ := renorm q1' d1 nx ny nz nw
  have hne : (⟨x, y, z, w⟩ : Quat ℝ) ≠ ⟨0, 0, 0, 0⟩ := by
    intro h
    injection h with h1 h2 h3 h4
    rw [h1, h2, h3, h4] at npos
    norm_num at npos
  obtain ⟨s, es, sx, sy, sz, sw⟩ := C156_normalize hr ⟨x, y, z, w⟩ hne
  simp only at sx sy sz sw fd fu npos
  generalize √(x ^ 2 + y ^ 2 + z ^ 2 + w ^ 2) = n at *
  have g5 : gam (2 ^ (-(p : ℤ))) 5 ≤ 8 * 2 ^ (-(p : ℤ)) := by
    have h := gam_le hr.lt_one (n := 5) (by push_cast; linarith)
    push_cast at h
    refine h.trans ?_
    rw [div_le_iff₀ (by linarith)]
    nlinarith
  have bnd : ∀ {a : ℝ}, a ^ 2 ≤ 1 → |a| ≤ 1 := fun h => (sq_le_one_iff_abs_le_one _).1 h
  have b1 := bnd (a := x / n) (by linarith [sq_nonneg (y / n), sq_nonneg (z / n), sq_nonneg (w / n)])
  have b2 := bnd (a := y / n) (by linarith [sq_nonneg (x / n), sq_nonneg (z / n), sq_nonneg (w / n)])
  have b3 := bnd (a := z / n) (by linarith [sq_nonneg (x / n), sq_nonneg (y / n), sq_nonneg (w / n)])
  have b4 := bnd (a := w / n) (by linarith [sq_nonneg (x / n), sq_nonneg (y / n), sq_nonneg (z / n)])
  have up : ∀ {a b : ℝ}, |b| ≤ 1 → |a - b| ≤ gam (2 ^ (-(p : ℤ))) 5 * |b| → |a - b| ≤ 8 * 2 ^ (-(p : ℤ)) := by
    intro a b hb h
    have := mul_le_mul g5 hb (abs_nonneg _) (by positivity)
    linarith
  have f1 : (⟨x / n, y / n, z / n, w / n⟩ : Quat ℝ).IsUnit := by unfold Quat.IsUnit; linarith
  have res := C153_matrix hr hu s ⟨x / n, y / n, z / n, w / n⟩ f1 (up b1 sx) (up b2 sy) (up b3 sz) (up b4 sw)
  rw [← es] at res
  refine ⟨Mat3.ofQuat ⟨x / n, y / n, z / n, w / n⟩, ?_, res.1, ?_, fun hp20 => res.2 ?_⟩
  · rw [Quat.ofQuat_toM _ f1]; exact f1.rotation
  · rw [Quat.ofQuat_toM _ f1, Quat.ofQuat_toM _ hq, rot_dist _ _ hq f1]
    simp only
    linarith [sq_nonneg d]
  · rw [show (1 / 2 ^ 20 : ℝ) = 2 ^ (-20 : ℤ) by norm_num]
    exact zpow_le_zpow_right₀ one_le_two (by omega)

/-- Repairing a matrix that has drifted: if its entries are within `δ = e u ≤ 1/50` of those of a rotation,
`orthonormalise` gives a matrix that is within 80 units of a rotation `F`, however large the drift was; and `F` is no
further than `19.5 δ + 78 u` from the rotation it came from, in the Euclidean norm of the nine entries.  With 20 or more bits the result is marked as
orthonormal. -/
theorem C156_orthonormalise (hp : 12 ≤ p) {e : ℝ} (he : 0 ≤ e) (heu : e * 2 ^ (-(p : ℤ)) ≤ 1 / 50)
    (M : Mat3 (Fl ℝ (rne p))) (E : Mat3 ℝ) (hE : IsRotation E.toM) (hM : M.Near (e * 2 ^ (-(p : ℤ))) E) :
    ∃ F : Mat3 ℝ, IsRotation F.toM ∧ M.orthonormalise.Near (80 * 2 ^ (-(p : ℤ))) F ∧
      ∑ i, ∑ j, (F.toM i j - E.toM i j) ^ 2 ≤ ((19.5 * e + 78) * 2 ^ (-(p : ℤ))) ^ 2 ∧
      (20 ≤ p → M.orthonormalise.isOrthonormal = true) := by
  have hr := isRel_rne p (by omega)
  have hu := u12 hp
  have u0 : (0 : ℝ) < 2 ^ (-(p : ℤ)) := zpow2_pos _
  obtain ⟨r1, r2⟩ := C53_roundtrip.1 E hE
  obtain ⟨q, hq, ⟨x, ex, nx⟩, ⟨y, ey, ny⟩, ⟨z, ez, nz⟩, ⟨w, ew, nw⟩⟩ := C156_ofMat3 hp he heu M _ r1 (near_of r2.symm hM)
  have hqu : q.IsUnit ∧ (Mat3.ofQuat q).toM = E.toM := by
    rcases hq with rfl | rfl
    · exact ⟨r1, r2⟩
    · have h1 : (Quat.ofMat3 E).neg.IsUnit := by
        unfold Quat.IsUnit at r1 ⊢; simp only [Quat.neg]; linarith
      refine ⟨h1, ?_⟩
      rw [← r2, Quat.ofQuat_toM _ h1, Quat.ofQuat_toM _ r1]
      simp only [Quat.rot, Quat.neg, neg_mul_neg]
  obtain ⟨q1, q2⟩ := hqu
  have eQ : Quat.ofMat3 M = Quat.num ⟨x, y, z, w⟩ := by
    ext <;> simp only [Quat.num] <;> assumption
  have d1 : (3 * e + 12) * (2 : ℝ) ^ (-(p : ℤ)) ≤ 0.063 := by nlinarith
  have res := rebuild hp q1 d1 nx ny nz nw
  rw [← eQ, q2] at res
  obtain ⟨F, h1, h2, h3, h4⟩ := res
  refine ⟨F, h1, h2, h3.trans (le_of_eq (by ring)), h4⟩

/-- (1/2, 1/2, 1/2, 1/2) comes back, up to the sign, within 260 units of single precision. -/
example : ∃ s : Quat ℝ, (s = ⟨1 / 2, 1 / 2, 1 / 2, 1 / 2⟩ ∨ s = Quat.neg ⟨1 / 2, 1 / 2, 1 / 2, 1 / 2⟩) ∧
    (Quat.ofMat3 (Mat3.ofQuat (Quat.num ⟨1 / 2, 1 / 2, 1 / 2, 1 / 2⟩ : Quat (Fl ℝ (rne 24))))).Near
      (260 * 2 ^ (-(24 : ℕ) : ℤ)) s := by
  refine C156_roundtrip (p := 24) (by norm_num) ⟨1 / 2, 1 / 2, 1 / 2, 1 / 2⟩ ⟨1 / 2, 1 / 2, 1 / 2, 1 / 2⟩ ?_ ?_ ?_ ?_ ?_ <;>
    norm_num [Quat.IsUnit]

/-- A quarter turn around z of which two entries are off by about a thousandth is repaired, in single precision. -/
example : let M : Mat3 (Fl ℝ (rne 24)) :=
      ⟨⟨.num (1 / 1024), .num 1, .num 0⟩, ⟨.num (-1), .num 0, .num 0⟩, ⟨.num 0, .num (1 / 1024), .num 1⟩, Flags.start⟩
    M.orthonormalise.isOrthonormal = true ∧
      ∃ F : Mat3 ℝ, IsRotation F.toM ∧ M.orthonormalise.Near (80 * 2 ^ (-(24 : ℕ) : ℤ)) F := by
  intro M
  obtain ⟨F, h1, h2, -, h3⟩ := C156_orthonormalise (p := 24) (by norm_num) (e := 2 ^ 24 / 1000) (by positivity) (by norm_num)
    M ⟨⟨0, 1, 0⟩, ⟨-1, 0, 0⟩, ⟨0, 0, 1⟩, Flags.start⟩ (by
      constructor
      · ext i j; fin_cases i <;> fin_cases j <;> simp [Mat3.toM, Matrix.mul_apply, Fin.sum_univ_three]
      · simp [Mat3.toM, Matrix.det_fin_three]) (by
      simp only [Mat3.Near, M]
      refine ⟨⟨⟨_, rfl, ?_⟩, ⟨_, rfl, ?_⟩, ⟨_, rfl, ?_⟩⟩, ⟨⟨_, rfl, ?_⟩, ⟨_, rfl, ?_⟩, ⟨_, rfl, ?_⟩⟩,
        ⟨⟨_, rfl, ?_⟩, ⟨_, rfl, ?_⟩, ⟨_, rfl, ?_⟩⟩⟩ <;> norm_num)
  exact ⟨h3 (by norm_num), F, h1, h2⟩

end MathLib
