import Verif.Props.MatFlags
import Verif.Props.MatInverse

/-! # Property C118: entries written through the public columns

The columns `x`, `y`, `z` are public members (mat3.h:125-128) and `data()` (impl/mat3.h:1010-1019) hands out a pointer to
the entries, so a caller can change entries while the flags stay as they were.  `optimize()` recomputes them. -/

namespace MathLib
open scoped Matrix Matrix.Norms.Frobenius

/-- Full statement: after a column of a matrix with truthful flags is overwritten, a product is the product of the
entries up to the tolerance, and `invert` of a nonsingular matrix gives an inverse up to the tolerance. -/
def C118_full : Prop :=
  ∀ (m n : Mat3 ℝ) (u : Vec3 ℝ), m.Truthful 1 → n.Truthful 1 →
    let w : Mat3 ℝ := { m with x := u }
    ‖(w.mul n).toM - w.toM * n.toM‖ ≤ √(1 / 1000) * max ‖w.toM‖ ‖n.toM‖ ∧
    (w.toM.det ≠ 0 → ∃ r, w.invert = .ok r ∧ ‖r.toM * w.toM - 1‖ ≤ √(3 / 1000))

private theorem stale_mul (u : Vec3 ℝ) (n : Mat3 ℝ) :
    Mat3.mul { (Mat3.setIdentity : Mat3 ℝ) with x := u } n = n := rfl

private theorem stale_invert (u : Vec3 ℝ) :
    Mat3.invert { (Mat3.setIdentity : Mat3 ℝ) with x := u } =
      .ok (Mat3.transpose { (Mat3.setIdentity : Mat3 ℝ) with x := u }) := rfl

/-- False: after `m.setIdentity(); m.x = (2,0,0)` the product `m * n` is still `n`, and `m.invert()` leaves `m` itself,
which is not an inverse. -/
theorem C118_refuted : ¬ C118_full ∧
    (let m : Mat3 ℝ := { (Mat3.setIdentity : Mat3 ℝ) with x := ⟨2, 0, 0⟩ }
     m.toM.det = 2 ∧ (∀ n : Mat3 ℝ, m.mul n = n) ∧ ∃ r, m.invert = .ok r ∧ (r.toM * m.toM) 0 0 = 4) := by
  have hd : ({ (Mat3.setIdentity : Mat3 ℝ) with x := ⟨2, 0, 0⟩ } : Mat3 ℝ).toM.det = 2 := by
    simp [Matrix.det_fin_three, Mat3.toM, Mat3.setIdentity, Vec3.oneY, Vec3.oneZ]
  have h4 : ((Mat3.transpose { (Mat3.setIdentity : Mat3 ℝ) with x := ⟨2, 0, 0⟩ }).toM *
      ({ (Mat3.setIdentity : Mat3 ℝ) with x := ⟨2, 0, 0⟩ } : Mat3 ℝ).toM) 0 0 = 4 := by
    norm_num [Mat3.setIdentity, Mat3.transpose, Mat3.toM, Matrix.mul_apply, Fin.sum_univ_succ, Vec3.oneY, Vec3.oneZ]
  refine ⟨fun h => ?_, hd, stale_mul _, _, stale_invert _, h4⟩
  obtain ⟨r, hr, hb⟩ := (h Mat3.setIdentity Mat3.setIdentity ⟨2, 0, 0⟩ Mat3.truthful_setIdentity
    Mat3.truthful_setIdentity).2 (by rw [hd]; norm_num)
  obtain rfl := Except.ok.inj ((stale_invert _).symm.trans hr)
  have hn := Matrix.frobenius_norm_def ((Mat3.transpose { (Mat3.setIdentity : Mat3 ℝ) with x := ⟨2, 0, 0⟩ }).toM *
      ({ (Mat3.setIdentity : Mat3 ℝ) with x := ⟨2, 0, 0⟩ } : Mat3 ℝ).toM - 1)
  have e : (Mat3.transpose { (Mat3.setIdentity : Mat3 ℝ) with x := ⟨2, 0, 0⟩ }).toM *
      ({ (Mat3.setIdentity : Mat3 ℝ) with x := ⟨2, 0, 0⟩ } : Mat3 ℝ).toM - 1 = !![3, 0, 0; 0, 0, 0; 0, 0, 0] := by
    ext i j; fin_cases i <;> fin_cases j <;>
      norm_num [Mat3.setIdentity, Mat3.transpose, Mat3.toM, Matrix.mul_apply, Fin.sum_univ_succ, Vec3.oneY, Vec3.oneZ]
  rw [e] at hn hb
  have h3 : ‖(!![3, 0, 0; 0, 0, 0; 0, 0, 0] : Matrix (Fin 3) (Fin 3) ℝ)‖ = 3 := by
    rw [hn, ← Real.sqrt_eq_rpow]
    simp [Fin.sum_univ_succ]
  rw [h3, Real.le_sqrt (by norm_num) (by norm_num)] at hb
  norm_num at hb

/-- What holds: once `optimize()` is called after the writes, both are right for all entries and whatever flags the
matrices had; and the determinant, the copying inverse `inversed()` and the product with a vector never look at the
flags. -/
theorem C118_partial :
    (∀ (x y z : Vec3 ℝ) (f : Flags) (n : Mat3 ℝ),
      ‖((Mat3.mk x y z f).optimize.mul n.optimize).toM - (Mat3.mk x y z f).toM * n.toM‖ ≤
        √(1 / 1000) * max ‖(Mat3.mk x y z f).toM‖ ‖n.toM‖) ∧
    (∀ (x y z : Vec3 ℝ) (f : Flags), (Mat3.mk x y z f).toM.det ≠ 0 →
      ∃ r, (Mat3.mk x y z f).optimize.invert = .ok r ∧ ‖r.toM * (Mat3.mk x y z f).toM - 1‖ ≤ √(3 / 1000)) ∧
    (∀ (x y z : Vec3 ℝ) (f : Flags), (Mat3.mk x y z f).toM.det ≠ 0 →
      ∃ r, (Mat3.mk x y z f).inversed = .ok r ∧ r.toM * (Mat3.mk x y z f).toM = 1) ∧
    (∀ (x y z v : Vec3 ℝ) (f : Flags),
      ((Mat3.mk x y z f).mulVec v).toFn = (Mat3.mk x y z f).toM *ᵥ v.toFn) := by
  refine ⟨fun x y z f n => (C35_optimised MatTol.default).2.1 _ _, fun x y z f hd => ?_, fun x y z f hd => ?_,
    fun x y z v f => ?_⟩
  · set m := (Mat3.mk x y z f).optimize with hm
    have em : m.toM = (Mat3.mk x y z f).toM := rfl
    by_cases ho : m.isOrthonormal
    · have h1 := (Mat3.mk x y z f).truthful_optimize.2.2 ho
      have ht : m.transpose.toM = m.toMᵀ := by ext i j; fin_cases i <;> fin_cases j <;> rfl
      refine ⟨m.transpose, by simp [Mat3.invert, ho], ?_⟩
      rw [ht, ← em]; rw [← hm] at h1; linarith [pow_one (1 + √(3 / 1000 : ℝ))]
    · obtain ⟨r, hr, h1, -⟩ := (C40_mat3 m fun h => absurd h ho).2.1 (by rw [em]; exact hd)
      exact ⟨r, hr, by rw [← em, h1, sub_self, norm_zero]; positivity⟩
  · obtain ⟨r, hr, h1, -⟩ := (C40_mat3 (Mat3.mk x y z ⟨false, false, false, false, false⟩) fun h => by
      simp [Mat3.isOrthonormal] at h).1 hd
    exact ⟨r, hr, h1⟩
  · exact Mat3.toM_mulVec _ _

/-- The hypotheses are met by a matrix whose flags are wrong. -/
example : ∃ (x y z : Vec3 ℝ) (f : Flags), (Mat3.mk x y z f).isIdentity ∧ (Mat3.mk x y z f).toM.det ≠ 0 ∧
    (Mat3.mk x y z f).toM ≠ 1 := by
  refine ⟨⟨2, 0, 0⟩, ⟨0, 1, 0⟩, ⟨0, 0, 1⟩, ⟨true, true, true, false, false⟩, rfl, ?_, fun h => ?_⟩
  · simp [Matrix.det_fin_three, Mat3.toM]
  · have := congrFun (congrFun h 0) 0
    norm_num [Mat3.toM] at this

end MathLib
