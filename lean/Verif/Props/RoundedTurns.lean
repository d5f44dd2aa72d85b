import Verif.Props.RoundedQuatMatrix
import Verif.Proof.MatNorm

/-! # Property C157: turning for ever

An orientation is kept in a matrix; at every step it is multiplied by a rotation, from the left or from the right, and
repaired with `orthonormalise`.  Matrix norms are Frobenius norms. -/

namespace MathLib
open scoped Matrix Matrix.Norms.Frobenius
variable {p : ℕ}

/-- every entry is a number within `e` of that of `X` -/
def Mat3.NearM {rnd : ℝ → ℝ} (M : Mat3 (Fl ℝ rnd)) (e : ℝ) (X : Matrix (Fin 3) (Fin 3) ℝ) : Prop :=
  ∀ i j, (M.toM i j).Within e (X i j)

/-- one step: the matrix that is multiplied, the side, and the rotation it stands for -/
structure Turn (p : ℕ) where
  left : Bool
  mat : Mat3 (Fl ℝ (rne p))
  rot : Matrix (Fin 3) (Fin 3) ℝ

namespace Turn

/-- the step of the program -/
noncomputable def apply (A : Mat3 (Fl ℝ (rne p))) (t : Turn p) : Mat3 (Fl ℝ (rne p)) :=
  (if t.left then t.mat.mul A else A.mul t.mat).orthonormalise

/-- the step that is meant -/
def exact (X : Matrix (Fin 3) (Fin 3) ℝ) (t : Turn p) : Matrix (Fin 3) (Fin 3) ℝ :=
  if t.left then t.rot * X else X * t.rot

/-- the matrix is the rotation up to 80 units, and marked as the identity only if `optimize` would mark it -/
def Ok (t : Turn p) : Prop :=
  IsRotation t.rot ∧ t.mat.NearM (80 * 2 ^ (-(p : ℤ))) t.rot ∧ (t.mat.isIdentity → t.mat.optimize.isIdentity)

/-- marked as the identity though it is not the identity -/
def Taken (A : Mat3 (Fl ℝ (rne p))) : Prop := A.isIdentity ∧ A.toM ≠ 1

open Classical in
/-- 1 if one of the factors is taken for the identity -/
noncomputable def skip (A B : Mat3 (Fl ℝ (rne p))) : ℕ := if Taken A ∨ Taken B then 1 else 0

/-- the number of steps at which one of the factors is taken for the identity -/
noncomputable def skipped : List (Turn p) → Mat3 (Fl ℝ (rne p)) → ℕ
  | [], _ => 0
  | t :: l, A => skip A t.mat + skipped l (apply A t)

open Classical in
private theorem skip_comm (A B : Mat3 (Fl ℝ (rne p))) : skip A B = skip B A :=
  if_congr or_comm rfl rfl

end Turn

private theorem near_iff {rnd : ℝ → ℝ} (M : Mat3 (Fl ℝ rnd)) (e : ℝ) (E : Mat3 ℝ) : M.Near e E ↔ M.NearM e E.toM := by
  simp only [Mat3.NearM, Mat3.Near, Mat3.toM, Fin.forall_fin_succ, Matrix.of_apply, Matrix.cons_val', Matrix.cons_val_zero,
    Matrix.cons_val_succ, Matrix.cons_val_fin_one, IsEmpty.forall_iff, and_true]
  tauto

/-- the matrix with given entries -/
private def ofM (X : Matrix (Fin 3) (Fin 3) ℝ) : Mat3 ℝ :=
  ⟨⟨X 0 0, X 1 0, X 2 0⟩, ⟨X 0 1, X 1 1, X 2 1⟩, ⟨X 0 2, X 1 2, X 2 2⟩, Flags.start⟩

private theorem ofM_toM (X : Matrix (Fin 3) (Fin 3) ℝ) : (ofM X).toM = X := by
  ext i j; fin_cases i <;> fin_cases j <;> rfl

private theorem frob_le {Y : Matrix (Fin 3) (Fin 3) ℝ} {c : ℝ} (hc : 0 ≤ c) (h : ∑ i, ∑ j, Y i j ^ 2 ≤ c ^ 2) : ‖Y‖ ≤ c := by
  rw [← frob_sq] at h
  exact abs_le_of_sq_le_sq h hc |> le_of_abs_le

private theorem frob_entries {Y : Matrix (Fin 3) (Fin 3) ℝ} {c : ℝ} (h : ∀ i j, |Y i j| ≤ c) : ‖Y‖ ≤ 3 * c := by
  have c0 : 0 ≤ c := (abs_nonneg _).trans (h 0 0)
  refine frob_le (by linarith) ?_
  calc ∑ i, ∑ j, Y i j ^ 2 ≤ ∑ _i : Fin 3, ∑ _j : Fin 3, c ^ 2 := by
        refine Finset.sum_le_sum fun i _ => Finset.sum_le_sum fun j _ => ?_
        rw [← sq_abs]
        exact pow_le_pow_left₀ (abs_nonneg _) (h i j) 2
    _ = (3 * c) ^ 2 := by simp; ring

private theorem entry_le_one {X : Matrix (Fin 3) (Fin 3) ℝ} (h : IsRotation X) (i j : Fin 3) : |X i j| ≤ 1 := by
  have e := congrFun (congrFun h.1 j) j
  simp only [Matrix.mul_apply, Matrix.transpose_apply, Matrix.one_apply_eq] at e
  rw [← sq_le_one_iff_abs_le_one, sq, ← e]
  exact Finset.single_le_sum (f := fun k => X k j * X k j) (fun k _ => mul_self_nonneg _) (Finset.mem_univ i)

private theorem norm_left {U : Matrix (Fin 3) (Fin 3) ℝ} (h : IsRotation U) (A : Matrix (Fin 3) (Fin 3) ℝ) : ‖U * A‖ = ‖A‖ := by
  have : ‖U * A‖ ^ 2 = ‖A‖ ^ 2 := by
    rw [frob_trace, frob_trace, Matrix.transpose_mul, Matrix.mul_assoc, ← Matrix.mul_assoc Uᵀ, h.1, Matrix.one_mul]
  exact (sq_eq_sq₀ (norm_nonneg _) (norm_nonneg _)).1 this

private theorem rot_transpose {U : Matrix (Fin 3) (Fin 3) ℝ} (h : IsRotation U) : IsRotation Uᵀ :=
  ⟨by rw [Matrix.transpose_transpose]; exact mul_eq_one_comm.1 h.1, by rw [Matrix.det_transpose]; exact h.2⟩

private theorem rot_mul {U V : Matrix (Fin 3) (Fin 3) ℝ} (h : IsRotation U) (h' : IsRotation V) : IsRotation (U * V) :=
  ⟨by rw [Matrix.transpose_mul, Matrix.mul_assoc, ← Matrix.mul_assoc Uᵀ, h.1, Matrix.one_mul, h'.1],
    by rw [Matrix.det_mul, h.2, h'.2, one_mul]⟩

private theorem norm_right {U : Matrix (Fin 3) (Fin 3) ℝ} (h : IsRotation U) (A : Matrix (Fin 3) (Fin 3) ℝ) : ‖A * U‖ = ‖A‖ := by
  rw [← Matrix.frobenius_norm_transpose, Matrix.transpose_mul, norm_left (rot_transpose h), Matrix.frobenius_norm_transpose]

private theorem u20 (hp : 20 ≤ p) : (2 : ℝ) ^ (-(p : ℤ)) ≤ 1 / 1048576 := by
  rw [show (1 / 1048576 : ℝ) = 2 ^ (-20 : ℤ) by norm_num]
  exact zpow_le_zpow_right₀ one_le_two (by omega)

/-- one entry of a product -/
private theorem cell {rnd : ℝ → ℝ} {u : ℝ} (hr : IsRel rnd u) (hu : u ≤ 1 / 1048576) {x y z x' y' z' : Fl ℝ rnd} {a b c a' b' c' : ℝ}
    (hx : x.Within (80 * u) a) (hy : y.Within (80 * u) b) (hz : z.Within (80 * u) c) (hx' : x'.Within (80 * u) a')
    (hy' : y'.Within (80 * u) b') (hz' : z'.Within (80 * u) c') (ha : |a| ≤ 1) (hb : |b| ≤ 1) (hc : |c| ≤ 1) (ha' : |a'| ≤ 1)
    (hb' : |b'| ≤ 1) (hc' : |c'| ≤ 1) :
    (x * x' + y * y' + z * z').Within (500 * u) (a * a' + b * b' + c * c') := by
  obtain ⟨x, rfl, ex⟩ := hx
  obtain ⟨y, rfl, ey⟩ := hy
  obtain ⟨z, rfl, ez⟩ := hz
  obtain ⟨x', rfl, ex'⟩ := hx'
  obtain ⟨y', rfl, ey'⟩ := hy'
  obtain ⟨z', rfl, ez'⟩ := hz'
  obtain ⟨-, v, e, h⟩ := abs_sum3 hr x x' y y' z z'
  refine ⟨v, e, ?_⟩
  have h0 := hr.nonneg
  have g3 : gam u 3 ≤ 3.01 * u := by
    have h := gam_le hr.lt_one (n := 3) (by push_cast; linarith)
    push_cast at h
    refine h.trans ?_
    rw [div_le_iff₀ (by linarith)]
    nlinarith
  have k : ∀ {t T w W : ℝ}, |t - T| ≤ 80 * u → |T| ≤ 1 → |w - W| ≤ 80 * u → |W| ≤ 1 →
      |t * w| ≤ 1.01 ∧ |t * w - T * W| ≤ 160.1 * u := by
    intro t T w W h1 h2 h3 h4
    have h5 : |t| ≤ 1.001 := by
      have := abs_sub_abs_le_abs_sub t T
      linarith
    have h6 : |w| ≤ 1.001 := by
      have := abs_sub_abs_le_abs_sub w W
      linarith
    constructor
    · rw [abs_mul]; nlinarith [abs_nonneg t, abs_nonneg w]
    · rw [show t * w - T * W = t * (w - W) + (t - T) * W by ring]
      refine (abs_add_le _ _).trans ?_
      rw [abs_mul, abs_mul]
      have k1 := mul_le_mul h5 h3 (abs_nonneg _) (by norm_num)
      have k2 := mul_le_mul h1 h4 (abs_nonneg _) (by linarith)
      linarith
  obtain ⟨a1, a2⟩ := k ex ha ex' ha'
  obtain ⟨b1, b2⟩ := k ey hb ey' hb'
  obtain ⟨c1, c2⟩ := k ez hc ez' hc'
  have t1 : gam u 3 * (|x * x'| + |y * y'| + |z * z'|) ≤ 3.01 * u * 3.03 :=
    mul_le_mul g3 (by linarith) (by positivity) (by positivity)
  have t2 : |v - (a * a' + b * b' + c * c')| ≤
      |v - (x * x' + y * y' + z * z')| + (|x * x' - a * a'| + |y * y' - b * b'| + |z * z' - c * c'|) := by
    rw [show v - (a * a' + b * b' + c * c') = (v - (x * x' + y * y' + z * z')) +
      ((x * x' - a * a') + (y * y' - b * b') + (z * z' - c * c')) by ring]
    exact (abs_add_le _ _).trans (add_le_add le_rfl (abs_add_three _ _ _))
  linarith

/-- C157: a product of two matrices that are rotations up to 80 units, neither of them marked as the identity -/
theorem C157_product (hp : 20 ≤ p) {A B : Mat3 (Fl ℝ (rne p))} {X Z : Matrix (Fin 3) (Fin 3) ℝ} (hX : IsRotation X)
    (hZ : IsRotation Z) (hA : A.NearM (80 * 2 ^ (-(p : ℤ))) X) (hB : B.NearM (80 * 2 ^ (-(p : ℤ))) Z)
    (fA : ¬A.isIdentity) (fB : ¬B.isIdentity) : (A.mul B).NearM (500 * 2 ^ (-(p : ℤ))) (X * Z) := by
  have hr := isRel_rne p (by omega)
  have hu := u20 hp
  have cell' : ∀ i j, (A.toM i 0 * B.toM 0 j + A.toM i 1 * B.toM 1 j + A.toM i 2 * B.toM 2 j).Within
      (500 * 2 ^ (-(p : ℤ))) ((X * Z) i j) := by
    intro i j
    rw [Matrix.mul_apply, Fin.sum_univ_three]
    exact cell hr hu (hA i 0) (hA i 1) (hA i 2) (hB 0 j) (hB 1 j) (hB 2 j) (entry_le_one hX _ _) (entry_le_one hX _ _)
      (entry_le_one hX _ _) (entry_le_one hZ _ _) (entry_le_one hZ _ _) (entry_le_one hZ _ _)
  intro i j
  have e : (A.mul B).toM i j = A.toM i 0 * B.toM 0 j + A.toM i 1 * B.toM 1 j + A.toM i 2 * B.toM 2 j := by
    rw [Mat3.mul, if_neg fA, if_neg fB]
    fin_cases i <;> fin_cases j <;> rfl
  rw [e]
  exact cell' i j

/-- `identityError` and its tolerance, up to rounding -/
private theorem ident (hp : 20 ≤ p) {A : Mat3 (Fl ℝ (rne p))} {V : Matrix (Fin 3) (Fin 3) ℝ} (eV : ∀ i j, A.toM i j = .num (V i j)) :
    ∃ v t, A.identityError = .num v ∧ (MatTol.default : MatTol (Fl ℝ (rne p))).identity = .num t ∧
      |v - ‖V - 1‖ ^ 2| ≤ 1 / 100000 * ‖V - 1‖ ^ 2 ∧ |t - 1 / 1000| ≤ 1 / 100000000 := by
  have hr := isRel_rne p (by omega)
  have hu := u20 hp
  have u0 : (0 : ℝ) < 2 ^ (-(p : ℤ)) := zpow2_pos _
  have m : ∀ a : ℝ, Rel (2 ^ (-(p : ℤ))) 1 (a * a) (.num a * .num a : Fl ℝ (rne p)) :=
    fun a => Rel.mul hr (Rel.exact hr a) (Rel.exact hr a)
  have m1 : ∀ a : ℝ, Rel (2 ^ (-(p : ℤ))) 3 ((a - 1) * (a - 1)) ((.num a - 1) * (.num a - 1) : Fl ℝ (rne p)) :=
    fun a => Rel.mul hr (Rel.sub hr a 1) (Rel.sub hr a 1)
  have s0 : ∀ a : ℝ, 0 ≤ a * a := mul_self_nonneg
  have E : Rel (2 ^ (-(p : ℤ))) 7 (((V 0 0 - 1) * (V 0 0 - 1) + V 1 0 * V 1 0 + V 2 0 * V 2 0) +
      (V 0 1 * V 0 1 + (V 1 1 - 1) * (V 1 1 - 1) + V 2 1 * V 2 1) +
      (V 0 2 * V 0 2 + V 1 2 * V 1 2 + (V 2 2 - 1) * (V 2 2 - 1))) A.identityError := by
    rw [Mat3.identityError, show A.x.x = .num (V 0 0) from eV 0 0, show A.x.y = .num (V 1 0) from eV 1 0,
      show A.x.z = .num (V 2 0) from eV 2 0, show A.y.x = .num (V 0 1) from eV 0 1,
      show A.y.y = .num (V 1 1) from eV 1 1, show A.y.z = .num (V 2 1) from eV 2 1,
      show A.z.x = .num (V 0 2) from eV 0 2, show A.z.y = .num (V 1 2) from eV 1 2,
      show A.z.z = .num (V 2 2) from eV 2 2]
    have a2 : ∀ {a b : ℝ} {x y : Fl ℝ (rne p)}, Rel (2 ^ (-(p : ℤ))) 3 (a * a) x → Rel (2 ^ (-(p : ℤ))) 3 (b * b) y →
        Rel (2 ^ (-(p : ℤ))) 4 (a * a + b * b) (x + y) := fun ha hb => ha.add hr hb (s0 _) (s0 _)
    have a3 : ∀ {a b c : ℝ} {x y z : Fl ℝ (rne p)}, Rel (2 ^ (-(p : ℤ))) 3 (a * a) x → Rel (2 ^ (-(p : ℤ))) 3 (b * b) y →
        Rel (2 ^ (-(p : ℤ))) 3 (c * c) z → Rel (2 ^ (-(p : ℤ))) 5 (a * a + b * b + c * c) (x + y + z) :=
      fun {a b c} _ _ _ ha hb hc => (a2 ha hb).add hr (hc.mono hr (show 3 ≤ 4 by norm_num)) (add_nonneg (s0 _) (s0 _)) (s0 c)
    have n : ∀ a : ℝ, Rel (2 ^ (-(p : ℤ))) 3 (a * a) (.num a * .num a : Fl ℝ (rne p)) := fun a => (m a).mono hr (by norm_num)
    have p3 : ∀ a b c : ℝ, 0 ≤ a * a + b * b + c * c := fun a b c => add_nonneg (add_nonneg (s0 _) (s0 _)) (s0 c)
    exact ((a3 (m1 _) (n _) (n _)).add hr (a3 (n _) (m1 _) (n _)) (p3 _ _ _) (p3 _ _ _) (k := 6)).add hr
      ((a3 (n _) (n _) (m1 _)).mono hr (show 5 ≤ 6 by norm_num)) (add_nonneg (p3 _ _ _) (p3 _ _ _)) (p3 _ _ _)
  set T := ((V 0 0 - 1) * (V 0 0 - 1) + V 1 0 * V 1 0 + V 2 0 * V 2 0) +
      (V 0 1 * V 0 1 + (V 1 1 - 1) * (V 1 1 - 1) + V 2 1 * V 2 1) +
      (V 0 2 * V 0 2 + V 1 2 * V 1 2 + (V 2 2 - 1) * (V 2 2 - 1)) with hT
  have T0 : 0 ≤ T := by
    have := s0 (V 0 0 - 1); have := s0 (V 1 0); have := s0 (V 2 0); have := s0 (V 0 1); have := s0 (V 1 1 - 1)
    have := s0 (V 2 1); have := s0 (V 0 2); have := s0 (V 1 2); have := s0 (V 2 2 - 1)
    linarith
  obtain ⟨v, ev, hv⟩ := E.error hr
  have D : Rel (2 ^ (-(p : ℤ))) 2 (1 / 1000 : ℝ) (MatTol.default : MatTol (Fl ℝ (rne p))).identity := by
    have h1000 : Rel (2 ^ (-(p : ℤ))) 1 (1000 : ℝ) (1000 : Fl ℝ (rne p)) := by
      obtain ⟨θ, h1, h2⟩ := hr.fac 1000
      exact ⟨θ, h1, by rw [← h2]; change Fl.num (rne p ((1000 : ℕ) : ℝ)) = _; norm_num⟩
    exact (Rel.exact hr 1).div hr h1000 (by norm_num)
  obtain ⟨t, et, ht⟩ := D.error hr
  have g : ∀ n : ℕ, n ≤ 7 → gam (2 ^ (-(p : ℤ))) n ≤ 1 / 100000 := by
    intro n hn
    have hn' : (n : ℝ) ≤ 7 := by exact_mod_cast hn
    have h7 : (n : ℝ) * 2 ^ (-(p : ℤ)) ≤ 7 / 1048576 := by
      have := mul_le_mul hn' hu u0.le (by norm_num)
      linarith
    refine (gam_le hr.lt_one (by linarith)).trans ?_
    rw [div_le_iff₀ (by linarith)]
    linarith
  have g7 := mul_le_mul_of_nonneg_right (g 7 le_rfl) (abs_nonneg T)
  have g2 := mul_le_mul_of_nonneg_right (g 2 (by norm_num)) (abs_nonneg (1 / 1000 : ℝ))
  have n2 : ‖V - 1‖ ^ 2 = T := by
    rw [frob_sq, hT]; simp [Fin.sum_univ_three, Matrix.sub_apply]; ring
  refine ⟨v, t, ev, et, ?_, ?_⟩
  · rw [n2]
    rw [abs_of_nonneg T0] at hv g7
    linarith
  · refine ht.trans (g2.trans ?_)
    rw [abs_of_pos (by norm_num)]; norm_num

/-- a matrix that `optimize` marks as the identity is near it -/
private theorem flagged (hp : 20 ≤ p) {A : Mat3 (Fl ℝ (rne p))} {X : Matrix (Fin 3) (Fin 3) ℝ}
    (hA : A.NearM (80 * 2 ^ (-(p : ℤ))) X) (h : A.optimize.isIdentity) : ‖X - 1‖ ≤ 0.0321 := by
  have hu := u20 hp
  choose V eV hV using hA
  obtain ⟨v, t, ev, et, hv, ht⟩ := ident hp (V := Matrix.of V) eV
  simp only [Mat3.isIdentity, Mat3.optimize, Mat3.optimizeTol, Bool.and_eq_true, decide_eq_true_eq] at h
  obtain ⟨-, h⟩ := h
  rw [ev, et, Fl.num_le] at h
  have hv' := abs_le.1 hv
  have ht' := abs_le.1 ht
  have k1 : ‖Matrix.of V - 1‖ ≤ 0.0317 := by
    refine abs_le_of_sq_le_sq ?_ (by norm_num) |> le_of_abs_le
    norm_num at ht' ⊢
    linarith
  have k2 : ‖X - Matrix.of V‖ ≤ 3 * (80 * 2 ^ (-(p : ℤ))) := by
    refine frob_entries fun i j => ?_
    rw [Matrix.sub_apply, abs_sub_comm]
    exact hV i j
  have := norm_sub_le_norm_sub_add_norm_sub X (Matrix.of V) 1
  linarith

private theorem turn_norm (b : Vec3 ℝ) (hb : b ≠ ⟨0, 0, 0⟩) (θ : ℝ) :
    ‖(Mat3.ofAxisAngle b θ).toM - 1‖ ^ 2 = 4 * (1 - Real.cos θ) := by
  obtain ⟨h, -, ht, -⟩ := C44_axis b hb θ 0 b
  rw [frob_trace, Matrix.transpose_sub, sub_mul, mul_sub, mul_sub, h.1, Matrix.transpose_one]
  simp only [Matrix.mul_one, Matrix.one_mul, Matrix.trace_sub, Matrix.trace_transpose, ht, Matrix.trace_one, Fintype.card_fin]
  push_cast; ring

/-- C157: which turns are taken for the identity in floating point: around any axis those with `4 (1 - cos θ) ≤ 0.0009`
(up to 1.21°), none with `4 (1 - cos θ) ≥ 0.0011` (from 1.35° on). -/
theorem C157_marked (hp : 20 ≤ p) (b : Vec3 ℝ) (hb : b ≠ ⟨0, 0, 0⟩) (θ : ℝ) :
    let M := Mat3.ofAxisAngle (Vec3.num b : Vec3 (Fl ℝ (rne p))) (.num θ)
    (4 * (1 - Real.cos θ) ≤ 0.0009 → M.isIdentity = true) ∧ (0.0011 ≤ 4 * (1 - Real.cos θ) → M.isIdentity = false) := by
  intro M
  have hr := isRel_rne p (by omega)
  have hu := u20 hp
  have hM := (near_iff _ _ _).1 (C153_entries hr (by linarith) b hb θ)
  have fl := (C153_flags hr (by rw [show (2 : ℝ) ^ 20 = 1048576 by norm_num]; exact hu) b hb θ).1
  choose V eV hV using hM
  obtain ⟨v, t, ev, et, hv, ht⟩ := ident hp (V := Matrix.of V) eV
  have hv' := abs_le.1 hv
  have ht' := abs_le.1 ht
  have k2 : ‖Matrix.of V - (Mat3.ofAxisAngle b θ).toM‖ ≤ 3 * (33 * 2 ^ (-(p : ℤ))) := frob_entries hV
  have k3 := norm_sub_le_norm_sub_add_norm_sub (Matrix.of V) (Mat3.ofAxisAngle b θ).toM 1
  have k4 := norm_sub_le_norm_sub_add_norm_sub (Mat3.ofAxisAngle b θ).toM (Matrix.of V) 1
  rw [norm_sub_rev (Mat3.ofAxisAngle b θ).toM (Matrix.of V)] at k4
  rw [← turn_norm b hb θ]
  have n0 := norm_nonneg (Matrix.of V - 1)
  have n1 := norm_nonneg ((Mat3.ofAxisAngle b θ).toM - 1)
  have e : M.isIdentity = decide (M.identityError ≤ (MatTol.default : MatTol (Fl ℝ (rne p))).identity) := by
    have : M.isIdentity = (M.isOrthonormal && decide (M.identityError ≤ (MatTol.default : MatTol (Fl ℝ (rne p))).identity)) := rfl
    rw [this, fl, Bool.true_and]
  rw [e, ev, et, decide_eq_true_eq, decide_eq_false_iff_not, Fl.num_le, not_le]
  constructor
  · intro h
    have h1 : ‖(Mat3.ofAxisAngle b θ).toM - 1‖ ≤ 0.03 :=
      abs_le_of_sq_le_sq (h.trans (by norm_num)) (by norm_num) |> le_of_abs_le
    have h2 : ‖Matrix.of V - 1‖ ≤ 0.0302 := by linarith
    have h3 := pow_le_pow_left₀ n0 h2 2
    norm_num at h3
    linarith
  · intro h
    have h1 : (0.0331 : ℝ) ≤ ‖(Mat3.ofAxisAngle b θ).toM - 1‖ := by
      by_contra hc
      have := pow_le_pow_left₀ n1 (not_le.1 hc).le 2
      norm_num at this h
      linarith
    have h2 : (0.0329 : ℝ) ≤ ‖Matrix.of V - 1‖ := by linarith
    have h3 := pow_le_pow_left₀ (by norm_num) h2 2
    norm_num at h3
    linarith

private theorem repair (hp : 20 ≤ p) {e : ℝ} (he : 0 ≤ e) (he' : e ≤ 500) {M : Mat3 (Fl ℝ (rne p))}
    {X : Matrix (Fin 3) (Fin 3) ℝ} (hX : IsRotation X) (hM : M.NearM (e * 2 ^ (-(p : ℤ))) X) :
    ∃ Y, IsRotation Y ∧ M.orthonormalise.NearM (80 * 2 ^ (-(p : ℤ))) Y ∧ M.orthonormalise.isOrthonormal = true ∧
      ‖Y - X‖ ≤ (19.5 * e + 78) * 2 ^ (-(p : ℤ)) := by
  have hu := u20 hp
  have u0 : (0 : ℝ) < 2 ^ (-(p : ℤ)) := zpow2_pos _
  obtain ⟨F, h1, h2, h3, h4⟩ := C156_orthonormalise (by omega) he (by nlinarith) M (ofM X)
    (by rwa [ofM_toM]) (by rwa [near_iff, ofM_toM])
  rw [ofM_toM] at h3
  exact ⟨F.toM, h1, (near_iff _ _ _).1 h2, h4 hp, frob_le (by positivity) h3⟩

private theorem exactly {A : Mat3 (Fl ℝ (rne p))} {X : Matrix (Fin 3) (Fin 3) ℝ} (hA : A.NearM (80 * 2 ^ (-(p : ℤ))) X)
    (h : A.toM = 1) : ‖X - 1‖ ≤ 240 * 2 ^ (-(p : ℤ)) := by
  have : ‖X - 1‖ ≤ 3 * (80 * 2 ^ (-(p : ℤ))) := frob_entries fun i j => by
    obtain ⟨v, ev, hv⟩ := hA i j
    rw [Matrix.sub_apply, abs_sub_comm]
    have e : v = (1 : Matrix (Fin 3) (Fin 3) ℝ) i j := by
      rw [h, Matrix.one_apply] at ev
      rw [Matrix.one_apply]
      split_ifs at ev ⊢ <;> injection ev with ev <;> exact ev.symm
    rwa [← e]
  linarith

private theorem cost (hp : 20 ≤ p) {A : Mat3 (Fl ℝ (rne p))} {X : Matrix (Fin 3) (Fin 3) ℝ} (B : Mat3 (Fl ℝ (rne p)))
    (hA : A.NearM (80 * 2 ^ (-(p : ℤ))) X) (fA : A.isIdentity → A.optimize.isIdentity) (h : A.isIdentity) :
    ‖X - 1‖ ≤ 240 * 2 ^ (-(p : ℤ)) + Turn.skip A B / 30 := by
  have u0 : (0 : ℝ) < 2 ^ (-(p : ℤ)) := zpow2_pos _
  by_cases e : A.toM = 1
  · have : (0 : ℝ) ≤ Turn.skip A B / 30 := by positivity
    linarith [exactly hA e]
  · have := flagged hp hA (fA h)
    rw [Turn.skip, if_pos (.inl ⟨h, e⟩)]
    push_cast
    linarith

private theorem mul_step (hp : 20 ≤ p) {A B : Mat3 (Fl ℝ (rne p))} {X Z : Matrix (Fin 3) (Fin 3) ℝ} (hX : IsRotation X)
    (hZ : IsRotation Z) (hA : A.NearM (80 * 2 ^ (-(p : ℤ))) X) (hB : B.NearM (80 * 2 ^ (-(p : ℤ))) Z)
    (fA : A.isIdentity → A.optimize.isIdentity) (fB : B.isIdentity → B.optimize.isIdentity) :
    ∃ Y, IsRotation Y ∧ (A.mul B).orthonormalise.NearM (80 * 2 ^ (-(p : ℤ))) Y ∧
      (A.mul B).orthonormalise.isOrthonormal = true ∧
      ‖Y - X * Z‖ ≤ 9900 * 2 ^ (-(p : ℤ)) + Turn.skip A B / 30 := by
  have u0 : (0 : ℝ) < 2 ^ (-(p : ℤ)) := zpow2_pos _
  by_cases iA : A.isIdentity
  · obtain ⟨Y, h1, h2, h3, h4⟩ := repair hp (by norm_num) (by norm_num) hZ hB
    rw [Mat3.mul, if_pos iA]
    refine ⟨Y, h1, h2, h3, ?_⟩
    have k : ‖Z - X * Z‖ ≤ 240 * 2 ^ (-(p : ℤ)) + Turn.skip A B / 30 := by
      rw [← norm_neg, show -(Z - X * Z) = (X - 1) * Z by rw [sub_mul, one_mul]; abel, norm_right hZ]
      exact cost hp B hA fA iA
    have := norm_sub_le_norm_sub_add_norm_sub Y Z (X * Z)
    linarith
  by_cases iB : B.isIdentity
  · obtain ⟨Y, h1, h2, h3, h4⟩ := repair hp (by norm_num) (by norm_num) hX hA
    rw [Mat3.mul, if_neg iA, if_pos iB]
    refine ⟨Y, h1, h2, h3, ?_⟩
    have k : ‖X - X * Z‖ ≤ 240 * 2 ^ (-(p : ℤ)) + Turn.skip B A / 30 := by
      rw [← norm_neg, show -(X - X * Z) = X * (Z - 1) by rw [mul_sub, mul_one]; abel, norm_left hX]
      exact cost hp A hB fB iB
    have := norm_sub_le_norm_sub_add_norm_sub Y X (X * Z)
    rw [Turn.skip_comm] at k
    linarith
  · obtain ⟨Y, h1, h2, h3, h4⟩ := repair hp (by norm_num) (by norm_num) (rot_mul hX hZ) (C157_product hp hX hZ hA hB iA iB)
    refine ⟨Y, h1, h2, h3, ?_⟩
    have : (0 : ℝ) ≤ Turn.skip A B / 30 := by positivity
    linarith

/-- C157: one step -/
theorem C157_step_partial (hp : 20 ≤ p) (t : Turn p) (ht : t.Ok) {A : Mat3 (Fl ℝ (rne p))} {X : Matrix (Fin 3) (Fin 3) ℝ}
    (hX : IsRotation X) (hA : A.NearM (80 * 2 ^ (-(p : ℤ))) X) (fA : A.isIdentity → A.optimize.isIdentity) :
    ∃ Y, IsRotation Y ∧ (t.apply A).NearM (80 * 2 ^ (-(p : ℤ))) Y ∧ (t.apply A).isOrthonormal = true ∧
      ‖Y - t.exact X‖ ≤ 9900 * 2 ^ (-(p : ℤ)) + Turn.skip A t.mat / 30 := by
  obtain ⟨h1, h2, h3⟩ := ht
  unfold Turn.apply Turn.exact
  cases t.left
  · simpa using mul_step hp hX h1 hA h2 fA h3
  · rw [Turn.skip_comm]
    simpa using mul_step hp h1 hX h2 hA h3 fA

/-- after a step the mark as the identity is what `optimize` computes -/
private theorem marked (t : Turn p) (A : Mat3 (Fl ℝ (rne p))) (h : (t.apply A).isIdentity) :
    (t.apply A).optimize.isIdentity := h

private theorem exact_rot (l : List (Turn p)) (hl : ∀ t ∈ l, t.Ok) (X Y : Matrix (Fin 3) (Fin 3) ℝ) :
    ‖l.foldl Turn.exact X - l.foldl Turn.exact Y‖ = ‖X - Y‖ := by
  induction l generalizing X Y with
  | nil => rfl
  | cons t l ih =>
    rw [List.foldl_cons, List.foldl_cons, ih fun s hs => hl s (List.mem_cons_of_mem _ hs)]
    have h := (hl t List.mem_cons_self).1
    unfold Turn.exact
    split_ifs
    · rw [← mul_sub, norm_left h]
    · rw [← sub_mul, norm_right h]

/-- C157: after any number of steps the matrix is a rotation up to 80 units, and marked so; that rotation differs from the
exact product by at most 9900 units per step, and 1/30 for every step at which a factor is taken for the identity and is not. -/
theorem C157_turns_partial (hp : 20 ≤ p) (l : List (Turn p)) (hl : ∀ t ∈ l, t.Ok) (A : Mat3 (Fl ℝ (rne p)))
    (X : Matrix (Fin 3) (Fin 3) ℝ) (hX : IsRotation X) (hA : A.NearM (80 * 2 ^ (-(p : ℤ))) X)
    (fA : A.isIdentity → A.optimize.isIdentity) :
    ∃ Y, IsRotation Y ∧ (l.foldl Turn.apply A).NearM (80 * 2 ^ (-(p : ℤ))) Y ∧
      (l ≠ [] → (l.foldl Turn.apply A).isOrthonormal = true) ∧
      ‖Y - l.foldl Turn.exact X‖ ≤ l.length * (9900 * 2 ^ (-(p : ℤ))) + Turn.skipped l A / 30 := by
  induction l generalizing A X with
  | nil => exact ⟨X, hX, hA, fun h => absurd rfl h, by simp [Turn.skipped]⟩
  | cons t l ih =>
    obtain ⟨Y, y1, y2, y3, y4⟩ := C157_step_partial hp t (hl t List.mem_cons_self) hX hA fA
    have hl' := fun s hs => hl s (List.mem_cons_of_mem _ hs)
    obtain ⟨Z, z1, z2, z3, z4⟩ := ih hl' (t.apply A) Y y1 y2 (marked t A)
    refine ⟨Z, z1, z2, fun _ => ?_, ?_⟩
    · rcases eq_or_ne l [] with rfl | h
      · exact y3
      · exact z3 h
    · have e := exact_rot l hl' Y (t.exact X)
      have := norm_sub_le_norm_sub_add_norm_sub Z (l.foldl Turn.exact Y) (l.foldl Turn.exact (t.exact X))
      rw [List.foldl_cons, List.length_cons, Turn.skipped]
      push_cast
      push_cast at y4
      rw [e] at this
      linarith

private theorem near_mono {M : Mat3 (Fl ℝ (rne p))} {X : Matrix (Fin 3) (Fin 3) ℝ} {d e : ℝ} (h : d ≤ e) (hM : M.NearM d X) :
    M.NearM e X := fun i j => let ⟨v, ev, hv⟩ := hM i j; ⟨v, ev, hv.trans h⟩

/-- the matrix of an axis and an angle is such a step -/
theorem Turn.ok_axis (hp : 20 ≤ p) (left : Bool) (b : Vec3 ℝ) (hb : b ≠ ⟨0, 0, 0⟩) (θ : ℝ) :
    (⟨left, Mat3.ofAxisAngle (Vec3.num b) (.num θ), (Mat3.ofAxisAngle b θ).toM⟩ : Turn p).Ok := by
  have hu := u20 hp
  have u0 : (0 : ℝ) < 2 ^ (-(p : ℤ)) := zpow2_pos _
  exact ⟨(C44_axis b hb θ 0 b).1, near_mono (by linarith)
    ((near_iff _ _ _).1 (C153_entries (isRel_rne p (by omega)) (by linarith) b hb θ)), id⟩

private theorem start : (Mat3.setIdentity : Mat3 (Fl ℝ (rne p))).NearM (80 * 2 ^ (-(p : ℤ))) 1 := by
  have u0 : (0 : ℝ) < 2 ^ (-(p : ℤ)) := zpow2_pos _
  intro i j
  refine ⟨(1 : Matrix (Fin 3) (Fin 3) ℝ) i j, ?_, by rw [sub_self, abs_zero]; positivity⟩
  fin_cases i <;> fin_cases j <;> rfl

private theorem start_marked (hp : 20 ≤ p) : (Mat3.setIdentity : Mat3 (Fl ℝ (rne p))).optimize.isIdentity := by
  have one : rne p (1 : ℝ) = 1 := rne_of_rep (by omega) (show Rep p (1 : ℝ) by simpa using Rep.zpow (K := ℝ) (p := p) 0)
  have z : (0 : Fl ℝ (rne p)) = .num 0 := rfl
  have o : (1 : Fl ℝ (rne p)) = .num 1 := rfl
  obtain ⟨v, t, -, et, -, ht⟩ := ident hp (A := Mat3.setIdentity) (V := 1) (fun i j => by
    fin_cases i <;> fin_cases j <;> rfl)
  have ht' := abs_le.1 ht
  have d : (MatTol.default : MatTol (Fl ℝ (rne p))) = ⟨.num t, .num t, .num t⟩ := by rw [← et]; rfl
  have t0 : 0 ≤ t := by linarith
  simp [Mat3.isIdentity, Mat3.optimize, Mat3.optimizeTol, d, Mat3.setIdentity, Mat3.normalError, Mat3.orthogonalError,
    Mat3.identityError, Vec3.oneX, Vec3.oneY, Vec3.oneZ, Vec3.dot, Vec3.lengthSqr, z, o, rne_zero, one, t0]

/-- C157: for ever a rotation up to 80 units, whatever the steps. -/
theorem C157_forever (hp : 20 ≤ p) (l : List (Turn p)) (hl : ∀ t ∈ l, t.Ok) (hn : l ≠ []) :
    (∃ Y, IsRotation Y ∧ (l.foldl Turn.apply Mat3.setIdentity).NearM (80 * 2 ^ (-(p : ℤ))) Y) ∧
      (l.foldl Turn.apply Mat3.setIdentity).isOrthonormal = true := by
  have id1 : IsRotation (1 : Matrix (Fin 3) (Fin 3) ℝ) := ⟨by simp, by simp⟩
  obtain ⟨Y, h1, h2, h3, -⟩ := C157_turns_partial hp l hl Mat3.setIdentity 1 id1 start (fun _ => start_marked hp)
  exact ⟨⟨Y, h1, h2⟩, h3 hn⟩

/-- C157: from the identity, by any axes and angles, for ever. -/
theorem C157_axes_partial (hp : 20 ≤ p) (l : List (Bool × Vec3 ℝ × ℝ)) (hl : ∀ t ∈ l, t.2.1 ≠ ⟨0, 0, 0⟩) :
    let turns : List (Turn p) := l.map fun t =>
      ⟨t.1, Mat3.ofAxisAngle (Vec3.num t.2.1) (.num t.2.2), (Mat3.ofAxisAngle t.2.1 t.2.2).toM⟩
    ∃ Y, IsRotation Y ∧ (turns.foldl Turn.apply Mat3.setIdentity).NearM (80 * 2 ^ (-(p : ℤ))) Y ∧
      (l ≠ [] → (turns.foldl Turn.apply Mat3.setIdentity).isOrthonormal = true) ∧
      ‖Y - turns.foldl Turn.exact 1‖ ≤ l.length * (9900 * 2 ^ (-(p : ℤ))) + Turn.skipped turns Mat3.setIdentity / 30 := by
  intro turns
  have ok : ∀ t ∈ turns, t.Ok := by
    intro t ht
    obtain ⟨s, hs, rfl⟩ := List.mem_map.1 ht
    exact Turn.ok_axis hp _ _ (hl s hs) _
  have id1 : IsRotation (1 : Matrix (Fin 3) (Fin 3) ℝ) := ⟨by simp, by simp⟩
  obtain ⟨Y, h1, h2, h3, h4⟩ := C157_turns_partial hp turns ok Mat3.setIdentity 1 id1 start (fun _ => start_marked hp)
  exact ⟨Y, h1, h2, fun h => h3 (by simpa [turns] using h), by simpa [turns] using h4⟩

/-- The full claim: with some constant the error is that many units per step, in every precision. -/
def C157_full : Prop := ∃ c : ℝ, ∀ p : ℕ, 20 ≤ p → ∀ (l : List (Turn p)), (∀ t ∈ l, t.Ok) →
  ∀ (A : Mat3 (Fl ℝ (rne p))) (X : Matrix (Fin 3) (Fin 3) ℝ), IsRotation X → A.NearM (80 * 2 ^ (-(p : ℤ))) X →
    (A.isIdentity → A.optimize.isIdentity) →
    ∃ Y, (l.foldl Turn.apply A).NearM (80 * 2 ^ (-(p : ℤ))) Y ∧
      ‖Y - l.foldl Turn.exact X‖ ≤ l.length * (c * 2 ^ (-(p : ℤ)))

/-- A turn by 1/64 (0.9°) after a turn by 1/64 around the same axis is not carried out, in any precision. -/
theorem C157_refuted : ¬ C157_full := by
  rintro ⟨c, hc⟩
  obtain ⟨k, hk⟩ := exists_nat_gt (1000 * (c + 3000))
  set p := k + 20 with hpk
  have hp : 20 ≤ p := by omega
  have hr := isRel_rne p (by omega)
  have hu := u20 hp
  have u0 : (0 : ℝ) < 2 ^ (-(p : ℤ)) := zpow2_pos _
  have cu : 1000 * (c + 3000) * 2 ^ (-(p : ℤ)) ≤ 1 := by
    have h1 : (k : ℝ) ≤ 2 ^ p := by
      have : k < 2 ^ p := lt_of_lt_of_le (Nat.lt_two_pow_self (n := k)) (Nat.pow_le_pow_right (by norm_num) (by omega))
      exact_mod_cast this.le
    rw [zpow_neg, zpow_natCast, ← div_eq_mul_inv, div_le_one (by positivity)]
    linarith
  let b : Vec3 ℝ := ⟨0, 0, 1⟩
  have hb : b ≠ ⟨0, 0, 0⟩ := by intro h; injection h with h1 h2 h3; exact one_ne_zero h3
  have c1 := abs_le.1 (Real.cos_bound (x := 1 / 64) (by rw [abs_of_pos (by norm_num)]; norm_num))
  rw [abs_of_pos (by norm_num)] at c1
  norm_num at c1
  set M := Mat3.ofAxisAngle (Vec3.num b : Vec3 (Fl ℝ (rne p))) (.num (1 / 64)) with hM
  have iM : M.isIdentity = true := (C157_marked hp b hb (1 / 64)).1 (by norm_num; linarith)
  set R := (Mat3.ofAxisAngle b (1 / 64)).toM with hR
  have rR : IsRotation R := (C44_axis b hb (1 / 64) 0 b).1
  have nM : M.NearM (80 * 2 ^ (-(p : ℤ))) R :=
    near_mono (by linarith) ((near_iff _ _ _).1 (C153_entries hr (by linarith) b hb (1 / 64)))
  have oM : M.isIdentity → M.optimize.isIdentity := id
  obtain ⟨Y, y1, y2⟩ := hc p hp [⟨false, M, R⟩] (by simpa using ⟨rR, nM, oM⟩) M R rR nM oM
  simp only [List.foldl_cons, List.foldl_nil, List.length_singleton, Turn.apply, Turn.exact, Bool.false_eq_true, if_false] at y1 y2
  rw [Mat3.mul, if_pos iM] at y1
  obtain ⟨Z, z1, z2, -, z4⟩ := repair hp (by norm_num) (by norm_num) rR nM
  have yz : ‖Y - Z‖ ≤ 3 * (160 * 2 ^ (-(p : ℤ))) := frob_entries fun i j => by
    obtain ⟨v, ev, hv⟩ := y1 i j
    obtain ⟨w, ew, hw⟩ := z2 i j
    rw [ev] at ew
    injection ew with ew
    subst ew
    rw [Matrix.sub_apply, show Y i j - Z i j = (v - Z i j) - (v - Y i j) by ring]
    have := abs_sub (v - Z i j) (v - Y i j)
    linarith
  have far : ‖R - R * R‖ = ‖R - 1‖ := by
    rw [show R - R * R = -(R * (R - 1)) by rw [mul_sub, mul_one]; abel, norm_neg, norm_left rR]
  have n2 := turn_norm b hb (1 / 64)
  rw [← hR] at n2
  have big : (1 : ℝ) / 100 ≤ ‖R - 1‖ := by
    by_contra h
    have := pow_le_pow_left₀ (norm_nonneg _) (not_le.1 h).le 2
    norm_num at this n2
    linarith
  have t1 := norm_sub_le_norm_sub_add_norm_sub R Z (R * R)
  have t2 := norm_sub_le_norm_sub_add_norm_sub Z Y (R * R)
  rw [norm_sub_rev R Z] at t1
  rw [norm_sub_rev Z Y] at t2
  push_cast at y2
  rw [one_mul] at y2
  have cu' : (c + 3000) * 2 ^ (-(p : ℤ)) ≤ 1 / 1000 := by linarith
  linarith

/-- Two quarter turns and one by 1 around three axes in single precision. -/
example : ∀ t ∈ ([(true, ⟨1, 0, 0⟩, Real.pi / 2), (false, ⟨0, 2, 0⟩, Real.pi / 2), (true, ⟨1, 1, 1⟩, 1)] :
    List (Bool × Vec3 ℝ × ℝ)), t.2.1 ≠ ⟨0, 0, 0⟩ := by
  simp

/-- A turn by 1 is not taken for the identity. -/
example : ¬ Turn.Taken (Mat3.ofAxisAngle (Vec3.num ⟨0, 0, 1⟩ : Vec3 (Fl ℝ (rne 24))) (.num 1)) := by
  rintro ⟨h, -⟩
  rw [(C157_marked (p := 24) (by norm_num) ⟨0, 0, 1⟩ (by simp) 1).2 (by linarith [Real.cos_one_le])] at h
  exact Bool.noConfusion h

end MathLib
