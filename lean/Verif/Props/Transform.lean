import Verif.Proof.Memory
import Verif.Spec.MatSpec
import Mathlib.Tactic.LinearCombination
import Mathlib.Tactic.FinCases
import Mathlib.Data.Rat.Defs
import Mathlib.Tactic.NormNum

/-! # Properties C47, C48: transforming arrays of vectors, and transforming in place -/

namespace MathLib
open scoped Matrix

variable {K : Type} [CommRing K]

/-! ## C47

Each theorem covers the contiguous and the strided overload.  `v i j` is component `j` of source vector
`i`.  The destination stride has to be at least the size of a vector, otherwise the destination vectors
overlap each other. -/

theorem C47_mat2 (m : Mat2 K) (mem : Mem K) (hsz : 0 < mem.sz) (d s count : ℕ) (v : ℕ → ℕ → K) :
    (mem.Holds s (2 * mem.sz) count 2 v → mem.Writable d (2 * mem.sz) count 2 →
      Apart mem.sz d (2 * mem.sz) 2 s (2 * mem.sz) 2 count →
      ∃ mem', m.transformArr mem d s count = .ok mem' ∧ mem.Wrote mem' d (2 * mem.sz) count 2
        (fun i j => (m.toM *ᵥ ![v i 0, v i 1]) (Fin.ofNat 2 j))) ∧
    (∀ ds ss, 2 * mem.sz ≤ ds → mem.Holds s ss count 2 v → mem.Writable d ds count 2 →
      Apart mem.sz d ds 2 s ss 2 count →
      ∃ mem', m.transformStrided mem d s count ds ss = .ok mem' ∧ mem.Wrote mem' d ds count 2
        (fun i j => (m.toM *ᵥ ![v i 0, v i 1]) (Fin.ofNat 2 j))) := by
  have key : ∀ i < count, ∀ j < 2, m.row j (firstN 2 (v i)) =
      (m.toM *ᵥ ![v i 0, v i 1]) (Fin.ofNat 2 j) := by
    intro i _ j hj
    interval_cases j <;>
      simp [Mat2.row, Mat2.toM, firstN, Matrix.mulVec, dotProduct, Fin.sum_univ_succ, Fin.ofNat] <;> ring
  refine ⟨fun h1 h2 h3 => ?_, fun ds ss h0 h1 h2 h3 => ?_⟩
  · obtain ⟨m', e, h⟩ := Mem.assignArr_of hsz m.row h1 h2 h3
    exact ⟨m', e, h.congr key⟩
  · obtain ⟨m', e, h⟩ := Mem.assignStrided_of hsz m.row h1 h2 h3 h0
    exact ⟨m', e, h.congr key⟩

theorem C47_mat3 (m : Mat3 K) (mem : Mem K) (hsz : 0 < mem.sz) (d s count : ℕ) (v : ℕ → ℕ → K) :
    (mem.Holds s (3 * mem.sz) count 3 v → mem.Writable d (3 * mem.sz) count 3 →
      Apart mem.sz d (3 * mem.sz) 3 s (3 * mem.sz) 3 count →
      ∃ mem', m.transformArr mem d s count = .ok mem' ∧ mem.Wrote mem' d (3 * mem.sz) count 3
        (fun i j => (m.toM *ᵥ ![v i 0, v i 1, v i 2]) (Fin.ofNat 3 j))) ∧
    (∀ ds ss, 3 * mem.sz ≤ ds → mem.Holds s ss count 3 v → mem.Writable d ds count 3 →
      Apart mem.sz d ds 3 s ss 3 count →
      ∃ mem', m.transformStrided mem d s count ds ss = .ok mem' ∧ mem.Wrote mem' d ds count 3
        (fun i j => (m.toM *ᵥ ![v i 0, v i 1, v i 2]) (Fin.ofNat 3 j))) := by
  have key : ∀ i < count, ∀ j < 3, m.row j (firstN 3 (v i)) =
      (m.toM *ᵥ ![v i 0, v i 1, v i 2]) (Fin.ofNat 3 j) := by
    intro i _ j hj
    interval_cases j <;>
      simp [Mat3.row, Mat3.toM, firstN, Matrix.mulVec, dotProduct, Fin.sum_univ_succ, Fin.ofNat] <;> ring
  refine ⟨fun h1 h2 h3 => ?_, fun ds ss h0 h1 h2 h3 => ?_⟩
  · obtain ⟨m', e, h⟩ := Mem.assignArr_of hsz m.row h1 h2 h3
    exact ⟨m', e, h.congr key⟩
  · obtain ⟨m', e, h⟩ := Mem.assignStrided_of hsz m.row h1 h2 h3 h0
    exact ⟨m', e, h.congr key⟩

/-- Points: the homogeneous coordinate of the source is 1. -/
theorem C47_mat34 (m : Mat34 K) (mem : Mem K) (hsz : 0 < mem.sz) (d s count : ℕ) (v : ℕ → ℕ → K) :
    (mem.Holds s (3 * mem.sz) count 3 v → mem.Writable d (3 * mem.sz) count 3 →
      Apart mem.sz d (3 * mem.sz) 3 s (3 * mem.sz) 3 count →
      ∃ mem', m.transformArr mem d s count = .ok mem' ∧ mem.Wrote mem' d (3 * mem.sz) count 3
        (fun i j => (m.toM *ᵥ ![v i 0, v i 1, v i 2, 1]) (Fin.ofNat 4 j))) ∧
    (∀ ds ss, 3 * mem.sz ≤ ds → mem.Holds s ss count 3 v → mem.Writable d ds count 3 →
      Apart mem.sz d ds 3 s ss 3 count →
      ∃ mem', m.transformStrided mem d s count ds ss = .ok mem' ∧ mem.Wrote mem' d ds count 3
        (fun i j => (m.toM *ᵥ ![v i 0, v i 1, v i 2, 1]) (Fin.ofNat 4 j))) := by
  have key : ∀ i < count, ∀ j < 3, m.row j (firstN 3 (v i)) =
      (m.toM *ᵥ ![v i 0, v i 1, v i 2, 1]) (Fin.ofNat 4 j) := by
    intro i _ j hj
    interval_cases j <;>
      simp [Mat34.row, Mat34.toM, firstN, Matrix.mulVec, dotProduct, Fin.sum_univ_succ, Fin.ofNat] <;> ring
  refine ⟨fun h1 h2 h3 => ?_, fun ds ss h0 h1 h2 h3 => ?_⟩
  · obtain ⟨m', e, h⟩ := Mem.assignArr_of hsz m.row h1 h2 h3
    exact ⟨m', e, h.congr key⟩
  · obtain ⟨m', e, h⟩ := Mem.assignStrided_of hsz m.row h1 h2 h3 h0
    exact ⟨m', e, h.congr key⟩

/-- `Mat4` on `Vec3` arrays: points (`transform`) and directions (`transformVector`). -/
theorem C47_mat4_vec3 (m : Mat4 K) (mem : Mem K) (hsz : 0 < mem.sz) (d s count : ℕ) (v : ℕ → ℕ → K) :
    (mem.Holds s (3 * mem.sz) count 3 v → mem.Writable d (3 * mem.sz) count 3 →
      Apart mem.sz d (3 * mem.sz) 3 s (3 * mem.sz) 3 count →
      (∃ mem', m.transformArr3 mem d s count = .ok mem' ∧ mem.Wrote mem' d (3 * mem.sz) count 3
        (fun i j => (m.toM *ᵥ ![v i 0, v i 1, v i 2, 1]) (Fin.ofNat 4 j))) ∧
      (∃ mem', m.transformVectorArr3 mem d s count = .ok mem' ∧ mem.Wrote mem' d (3 * mem.sz) count 3
        (fun i j => (m.toM *ᵥ ![v i 0, v i 1, v i 2, 0]) (Fin.ofNat 4 j)))) ∧
    (∀ ds ss, 3 * mem.sz ≤ ds → mem.Holds s ss count 3 v → mem.Writable d ds count 3 →
      Apart mem.sz d ds 3 s ss 3 count →
      (∃ mem', m.transformStrided3 mem d s count ds ss = .ok mem' ∧ mem.Wrote mem' d ds count 3
        (fun i j => (m.toM *ᵥ ![v i 0, v i 1, v i 2, 1]) (Fin.ofNat 4 j))) ∧
      (∃ mem', m.transformVectorStrided3 mem d s count ds ss = .ok mem' ∧ mem.Wrote mem' d ds count 3
        (fun i j => (m.toM *ᵥ ![v i 0, v i 1, v i 2, 0]) (Fin.ofNat 4 j)))) := by
  have key : ∀ i < count, ∀ j < 3, m.row3 j (firstN 3 (v i)) =
      (m.toM *ᵥ ![v i 0, v i 1, v i 2, 1]) (Fin.ofNat 4 j) := by
    intro i _ j hj
    interval_cases j <;>
      simp [Mat4.row3, Mat4.toM, firstN, Matrix.mulVec, dotProduct, Fin.sum_univ_succ, Fin.ofNat] <;> ring
  have key' : ∀ i < count, ∀ j < 3, m.vrow j (firstN 3 (v i)) =
      (m.toM *ᵥ ![v i 0, v i 1, v i 2, 0]) (Fin.ofNat 4 j) := by
    intro i _ j hj
    interval_cases j <;>
      simp [Mat4.vrow, Mat4.toM, firstN, Matrix.mulVec, dotProduct, Fin.sum_univ_succ, Fin.ofNat] <;> ring
  refine ⟨fun h1 h2 h3 => ⟨?_, ?_⟩, fun ds ss h0 h1 h2 h3 => ⟨?_, ?_⟩⟩
  · obtain ⟨m', e, h⟩ := Mem.assignArr_of hsz m.row3 h1 h2 h3
    exact ⟨m', e, h.congr key⟩
  · obtain ⟨m', e, h⟩ := Mem.assignArr_of hsz m.vrow h1 h2 h3
    exact ⟨m', e, h.congr key'⟩
  · obtain ⟨m', e, h⟩ := Mem.assignStrided_of hsz m.row3 h1 h2 h3 h0
    exact ⟨m', e, h.congr key⟩
  · obtain ⟨m', e, h⟩ := Mem.assignStrided_of hsz m.vrow h1 h2 h3 h0
    exact ⟨m', e, h.congr key'⟩

/-- `Mat4` on `Vec4` arrays.  `transformVector` does not read the fourth source component. -/
theorem C47_mat4_vec4 (m : Mat4 K) (mem : Mem K) (hsz : 0 < mem.sz) (d s count : ℕ) (v : ℕ → ℕ → K) :
    (mem.Writable d (4 * mem.sz) count 4 →
      (mem.Holds s (4 * mem.sz) count 4 v → Apart mem.sz d (4 * mem.sz) 4 s (4 * mem.sz) 4 count →
        ∃ mem', m.transformArr4 mem d s count = .ok mem' ∧ mem.Wrote mem' d (4 * mem.sz) count 4
          (fun i j => (m.toM *ᵥ ![v i 0, v i 1, v i 2, v i 3]) (Fin.ofNat 4 j))) ∧
      (mem.Holds s (4 * mem.sz) count 3 v → Apart mem.sz d (4 * mem.sz) 4 s (4 * mem.sz) 3 count →
        ∃ mem', m.transformVectorArr4 mem d s count = .ok mem' ∧ mem.Wrote mem' d (4 * mem.sz) count 4
          (fun i j => (m.toM *ᵥ ![v i 0, v i 1, v i 2, 0]) (Fin.ofNat 4 j)))) ∧
    (∀ ds ss, 4 * mem.sz ≤ ds → mem.Writable d ds count 4 →
      (mem.Holds s ss count 4 v → Apart mem.sz d ds 4 s ss 4 count →
        ∃ mem', m.transformStrided4 mem d s count ds ss = .ok mem' ∧ mem.Wrote mem' d ds count 4
          (fun i j => (m.toM *ᵥ ![v i 0, v i 1, v i 2, v i 3]) (Fin.ofNat 4 j))) ∧
      (mem.Holds s ss count 3 v → Apart mem.sz d ds 4 s ss 3 count →
        ∃ mem', m.transformVectorStrided4 mem d s count ds ss = .ok mem' ∧ mem.Wrote mem' d ds count 4
          (fun i j => (m.toM *ᵥ ![v i 0, v i 1, v i 2, 0]) (Fin.ofNat 4 j)))) := by
  have key : ∀ i < count, ∀ j < 4, m.row4 j (firstN 4 (v i)) =
      (m.toM *ᵥ ![v i 0, v i 1, v i 2, v i 3]) (Fin.ofNat 4 j) := by
    intro i _ j hj
    interval_cases j <;>
      simp [Mat4.row4, Mat4.toM, firstN, Matrix.mulVec, dotProduct, Fin.sum_univ_succ, Fin.ofNat] <;> ring
  have key' : ∀ i < count, ∀ j < 4, m.vrow j (firstN 3 (v i)) =
      (m.toM *ᵥ ![v i 0, v i 1, v i 2, 0]) (Fin.ofNat 4 j) := by
    intro i _ j hj
    interval_cases j <;>
      simp [Mat4.vrow, Mat4.toM, firstN, Matrix.mulVec, dotProduct, Fin.sum_univ_succ, Fin.ofNat] <;> ring
  refine ⟨fun h1 => ⟨fun h2 h3 => ?_, fun h2 h3 => ?_⟩,
    fun ds ss h0 h1 => ⟨fun h2 h3 => ?_, fun h2 h3 => ?_⟩⟩
  · obtain ⟨m', e, h⟩ := Mem.assignArr_of hsz m.row4 h2 h1 h3
    exact ⟨m', e, h.congr key⟩
  · obtain ⟨m', e, h⟩ := Mem.assignArr_of hsz m.vrow h2 h1 h3
    exact ⟨m', e, h.congr key'⟩
  · obtain ⟨m', e, h⟩ := Mem.assignStrided_of hsz m.row4 h2 h1 h3 h0
    exact ⟨m', e, h.congr key⟩
  · obtain ⟨m', e, h⟩ := Mem.assignStrided_of hsz m.vrow h2 h1 h3 h0
    exact ⟨m', e, h.congr key'⟩

/-- A memory of 4-byte scalars with two source vectors at 0 and 16 (stride 16) and room for two
destination vectors at 100 (stride 12) meets the hypotheses for `Mat3`. -/
example : let mem : Mem ℚ := ⟨4, fun a => a % 4 = 0, fun a => some (a : ℚ)⟩
    0 < mem.sz ∧ mem.Holds 0 16 2 3 (fun i j => ((0 + i * 16 + j * 4 : ℕ) : ℚ)) ∧
    mem.Writable 100 12 2 3 ∧ Apart mem.sz 100 12 3 0 16 3 2 ∧ 3 * mem.sz ≤ 12 := by
  refine ⟨by norm_num, fun i hi j hj => ⟨?_, rfl⟩, fun i hi j hj => ?_, fun i hi i' hi' => ?_, le_refl _⟩
  · simp only [decide_eq_true_eq]; omega
  · simp only [decide_eq_true_eq]; omega
  · simp only; omega

/-! ## C48 -/

/-- Already for the quarter turn the second component is computed from the new first one. -/
theorem C48_refuted :
    ∃ (m : Mat3 ℚ) (mem mem' : Mem ℚ), mem.Holds 0 0 1 3 (fun _ j => ![1, 2, 3] (Fin.ofNat 3 j)) ∧
      mem.Writable 0 0 1 3 ∧ m.toM = !![0, -1, 0; 1, 0, 0; 0, 0, 1] ∧
      m.transformAt mem 0 0 = .ok mem' ∧ mem'.val 0 = some (-2) ∧ mem'.val 4 = some (-2) ∧
      (m.toM *ᵥ ![1, 2, 3]) 1 = 1 := by
  refine ⟨⟨⟨0, 1, 0⟩, ⟨-1, 0, 0⟩, ⟨0, 0, 1⟩, ⟨false, false, false, false, false⟩⟩,
    ⟨4, fun _ => true, fun a => if a = 0 then some 1 else if a = 4 then some 2 else if a = 8 then some 3 else none⟩,
    _, ?_, ?_, rfl, rfl, ?_, ?_, ?_⟩
  · intro i hi j hj
    obtain rfl : i = 0 := by omega
    interval_cases j <;> simp [Fin.ofNat]
  · intro i hi j hj; rfl
  · decide +kernel
  · decide +kernel
  · simp [Mat3.toM, Matrix.mulVec, dotProduct, Fin.sum_univ_succ]

/-- The exact outcome of `transform(v, v)`: later components are computed from earlier new ones, and
the result is `M v` exactly under the stated conditions; in particular for upper triangular matrices.
Missing: all other matrices (false, see `C48_refuted`). -/
theorem C48_mat2_partial (m : Mat2 K) (mem : Mem K) (hsz : 0 < mem.sz) (a : ℕ) (v : ℕ → K)
    (h1 : mem.Holds a 0 1 2 (fun _ => v)) (h2 : mem.Writable a 0 1 2) :
    ∃ mem' out, m.transformAt mem a a = .ok mem' ∧ mem.Wrote mem' a 0 1 2 (fun _ j => out (Fin.ofNat 2 j)) ∧
      (out = m.toM *ᵥ ![v 0, v 1] ↔ (out 0 - v 0) * m.x.y = 0) ∧
      (m.x.y = 0 → out = m.toM *ᵥ ![v 0, v 1]) := by
  obtain ⟨mem', e, h⟩ := Mem.assign_alias hsz le_rfl m.row h1 h2
  refine ⟨mem', fun j : Fin 2 => seqRows 2 m.row v 2 j, e, h.congr ?_, ?_, ?_⟩
  · intro i _ j hj; interval_cases j <;> rfl
  · constructor
    · intro h
      have := congrFun h 1
      simp [seqRows, Mat2.row, firstN, Mat2.toM, Matrix.mulVec, dotProduct, Fin.sum_univ_succ] at this ⊢
      linear_combination this
    · intro h
      ext j; fin_cases j
      · simp [seqRows, Mat2.row, firstN, Mat2.toM, Matrix.mulVec, dotProduct, Fin.sum_univ_succ]; ring
      · simp [seqRows, Mat2.row, firstN, Mat2.toM, Matrix.mulVec, dotProduct, Fin.sum_univ_succ] at h ⊢
        linear_combination h
  · intro h
    ext j; fin_cases j <;>
      simp [seqRows, Mat2.row, firstN, Mat2.toM, Matrix.mulVec, dotProduct, Fin.sum_univ_succ, h] <;> ring

theorem C48_mat3_partial (m : Mat3 K) (mem : Mem K) (hsz : 0 < mem.sz) (a : ℕ) (v : ℕ → K)
    (h1 : mem.Holds a 0 1 3 (fun _ => v)) (h2 : mem.Writable a 0 1 3) :
    ∃ (mem' : Mem K) (out : Fin 3 → K), m.transformAt mem a a = .ok mem' ∧ mem.Wrote mem' a 0 1 3 (fun _ j => out (Fin.ofNat 3 j)) ∧
      (out = m.toM *ᵥ ![v 0, v 1, v 2] ↔ (out 0 - v 0) * m.x.y = 0 ∧
        (out 0 - v 0) * m.x.z + (out 1 - v 1) * m.y.z = 0) ∧
      (m.x.y = 0 → m.x.z = 0 → m.y.z = 0 → out = m.toM *ᵥ ![v 0, v 1, v 2]) := by
  obtain ⟨mem', e, h⟩ := Mem.assign_alias hsz le_rfl m.row h1 h2
  have iff : (fun j : Fin 3 => seqRows 3 m.row v 3 j) = m.toM *ᵥ ![v 0, v 1, v 2] ↔
      (seqRows 3 m.row v 3 0 - v 0) * m.x.y = 0 ∧
        (seqRows 3 m.row v 3 0 - v 0) * m.x.z + (seqRows 3 m.row v 3 1 - v 1) * m.y.z = 0 := by
    constructor
    · intro h
      have k1 := congrFun h 1
      have k2 := congrFun h 2
      simp [seqRows, Mat3.row, firstN, Mat3.toM, Matrix.mulVec, dotProduct, Fin.sum_univ_succ] at k1 k2 ⊢
      exact ⟨by linear_combination k1, by linear_combination k2⟩
    · rintro ⟨k1, k2⟩
      ext j; fin_cases j <;>
        simp [seqRows, Mat3.row, firstN, Mat3.toM, Matrix.mulVec, dotProduct, Fin.sum_univ_succ] at k1 k2 ⊢
      · ring
      · linear_combination k1
      · linear_combination k2
  refine ⟨mem', fun j : Fin 3 => seqRows 3 m.row v 3 j, e, h.congr ?_, iff, fun e1 e2 e3 => iff.2 ?_⟩
  · intro i _ j hj; interval_cases j <;> rfl
  · rw [e1, e2, e3]; simp

theorem C48_mat34_partial (m : Mat34 K) (mem : Mem K) (hsz : 0 < mem.sz) (a : ℕ) (v : ℕ → K)
    (h1 : mem.Holds a 0 1 3 (fun _ => v)) (h2 : mem.Writable a 0 1 3) :
    ∃ (mem' : Mem K) (out : Fin 3 → K), m.transformAt mem a a = .ok mem' ∧ mem.Wrote mem' a 0 1 3 (fun _ j => out (Fin.ofNat 3 j)) ∧
      ((∀ j : Fin 3, out j = (m.toM *ᵥ ![v 0, v 1, v 2, 1]) j.castSucc) ↔ (out 0 - v 0) * m.rs.x.y = 0 ∧
        (out 0 - v 0) * m.rs.x.z + (out 1 - v 1) * m.rs.y.z = 0) ∧
      (m.rs.x.y = 0 → m.rs.x.z = 0 → m.rs.y.z = 0 →
        ∀ j : Fin 3, out j = (m.toM *ᵥ ![v 0, v 1, v 2, 1]) j.castSucc) := by
  obtain ⟨mem', e, h⟩ := Mem.assign_alias hsz le_rfl m.row h1 h2
  have iff : (∀ j : Fin 3, seqRows 3 m.row v 3 j = (m.toM *ᵥ ![v 0, v 1, v 2, 1]) j.castSucc) ↔
      (seqRows 3 m.row v 3 0 - v 0) * m.rs.x.y = 0 ∧
        (seqRows 3 m.row v 3 0 - v 0) * m.rs.x.z + (seqRows 3 m.row v 3 1 - v 1) * m.rs.y.z = 0 := by
    constructor
    · intro h
      have k1 := h 1
      have k2 := h 2
      simp [seqRows, Mat34.row, firstN, Mat34.toM, Matrix.mulVec, dotProduct, Fin.sum_univ_succ] at k1 k2 ⊢
      exact ⟨by linear_combination k1, by linear_combination k2⟩
    · rintro ⟨k1, k2⟩ j
      fin_cases j <;>
        simp [seqRows, Mat34.row, firstN, Mat34.toM, Matrix.mulVec, dotProduct, Fin.sum_univ_succ] at k1 k2 ⊢
      · ring
      · linear_combination k1
      · linear_combination k2
  refine ⟨mem', fun j : Fin 3 => seqRows 3 m.row v 3 j, e, h.congr ?_, iff, fun e1 e2 e3 => iff.2 ?_⟩
  · intro i _ j hj; interval_cases j <;> rfl
  · rw [e1, e2, e3]; simp

theorem C48_mat4_partial (m : Mat4 K) (mem : Mem K) (hsz : 0 < mem.sz) (a : ℕ) (v : ℕ → K)
    (h1 : mem.Holds a 0 1 4 (fun _ => v)) (h2 : mem.Writable a 0 1 4) :
    ∃ mem' out, m.transformAt4 mem a a = .ok mem' ∧ mem.Wrote mem' a 0 1 4 (fun _ j => out (Fin.ofNat 4 j)) ∧
      (out = m.toM *ᵥ ![v 0, v 1, v 2, v 3] ↔ (out 0 - v 0) * m.x.y = 0 ∧
        (out 0 - v 0) * m.x.z + (out 1 - v 1) * m.y.z = 0 ∧
        (out 0 - v 0) * m.x.w + (out 1 - v 1) * m.y.w + (out 2 - v 2) * m.z.w = 0) ∧
      (m.x.y = 0 → m.x.z = 0 → m.y.z = 0 → m.x.w = 0 → m.y.w = 0 → m.z.w = 0 →
        out = m.toM *ᵥ ![v 0, v 1, v 2, v 3]) := by
  obtain ⟨mem', e, h⟩ := Mem.assign_alias hsz le_rfl m.row4 h1 h2
  have iff : (fun j : Fin 4 => seqRows 4 m.row4 v 4 j) = m.toM *ᵥ ![v 0, v 1, v 2, v 3] ↔
      (seqRows 4 m.row4 v 4 0 - v 0) * m.x.y = 0 ∧
        (seqRows 4 m.row4 v 4 0 - v 0) * m.x.z + (seqRows 4 m.row4 v 4 1 - v 1) * m.y.z = 0 ∧
        (seqRows 4 m.row4 v 4 0 - v 0) * m.x.w + (seqRows 4 m.row4 v 4 1 - v 1) * m.y.w +
          (seqRows 4 m.row4 v 4 2 - v 2) * m.z.w = 0 := by
    constructor
    · intro h
      have k1 := congrFun h 1
      have k2 := congrFun h 2
      have k3 := congrFun h 3
      simp [seqRows, Mat4.row4, firstN, Mat4.toM, Matrix.mulVec, dotProduct, Fin.sum_univ_succ] at k1 k2 k3 ⊢
      exact ⟨by linear_combination k1, by linear_combination k2, by linear_combination k3⟩
    · rintro ⟨k1, k2, k3⟩
      ext j; fin_cases j <;>
        simp [seqRows, Mat4.row4, firstN, Mat4.toM, Matrix.mulVec, dotProduct, Fin.sum_univ_succ] at k1 k2 k3 ⊢
      · ring
      · linear_combination k1
      · linear_combination k2
      · linear_combination k3
  refine ⟨mem', fun j : Fin 4 => seqRows 4 m.row4 v 4 j, e, h.congr ?_, iff, fun e1 e2 e3 e4 e5 e6 => iff.2 ?_⟩
  · intro i _ j hj; interval_cases j <;> rfl
  · rw [e1, e2, e3, e4, e5, e6]; simp

/-- `Mat4::transform(Vec3&, ...)`, `transformVector(Vec3&, ...)` and `transformVector(Vec4&, ...)` in
place: the homogeneous coordinate is 1 for `transform` and 0 for `transformVector`. -/
theorem C48_mat4_vec3_partial (m : Mat4 K) (mem : Mem K) (hsz : 0 < mem.sz) (a : ℕ) (v : ℕ → K)
    (h1 : mem.Holds a 0 1 3 (fun _ => v)) (h2 : mem.Writable a 0 1 3) :
    (∃ (mem' : Mem K) (out : Fin 3 → K), m.transformAt3 mem a a = .ok mem' ∧ mem.Wrote mem' a 0 1 3 (fun _ j => out (Fin.ofNat 3 j)) ∧
      ((∀ j : Fin 3, out j = (m.toM *ᵥ ![v 0, v 1, v 2, 1]) j.castSucc) ↔ (out 0 - v 0) * m.x.y = 0 ∧
        (out 0 - v 0) * m.x.z + (out 1 - v 1) * m.y.z = 0) ∧
      (m.x.y = 0 → m.x.z = 0 → m.y.z = 0 →
        ∀ j : Fin 3, out j = (m.toM *ᵥ ![v 0, v 1, v 2, 1]) j.castSucc)) ∧
    (∃ (mem' : Mem K) (out : Fin 3 → K), m.transformVectorAt3 mem a a = .ok mem' ∧ mem.Wrote mem' a 0 1 3 (fun _ j => out (Fin.ofNat 3 j)) ∧
      ((∀ j : Fin 3, out j = (m.toM *ᵥ ![v 0, v 1, v 2, 0]) j.castSucc) ↔ (out 0 - v 0) * m.x.y = 0 ∧
        (out 0 - v 0) * m.x.z + (out 1 - v 1) * m.y.z = 0) ∧
      (m.x.y = 0 → m.x.z = 0 → m.y.z = 0 →
        ∀ j : Fin 3, out j = (m.toM *ᵥ ![v 0, v 1, v 2, 0]) j.castSucc)) := by
  constructor
  · obtain ⟨mem', e, h⟩ := Mem.assign_alias hsz le_rfl m.row3 h1 h2
    have iff : (∀ j : Fin 3, seqRows 3 m.row3 v 3 j = (m.toM *ᵥ ![v 0, v 1, v 2, 1]) j.castSucc) ↔
        (seqRows 3 m.row3 v 3 0 - v 0) * m.x.y = 0 ∧
          (seqRows 3 m.row3 v 3 0 - v 0) * m.x.z + (seqRows 3 m.row3 v 3 1 - v 1) * m.y.z = 0 := by
      constructor
      · intro h
        have k1 := h 1
        have k2 := h 2
        simp [seqRows, Mat4.row3, firstN, Mat4.toM, Matrix.mulVec, dotProduct, Fin.sum_univ_succ] at k1 k2 ⊢
        exact ⟨by linear_combination k1, by linear_combination k2⟩
      · rintro ⟨k1, k2⟩ j
        fin_cases j <;>
          simp [seqRows, Mat4.row3, firstN, Mat4.toM, Matrix.mulVec, dotProduct, Fin.sum_univ_succ] at k1 k2 ⊢
        · ring
        · linear_combination k1
        · linear_combination k2
    refine ⟨mem', fun j : Fin 3 => seqRows 3 m.row3 v 3 j, e, h.congr ?_, iff, fun e1 e2 e3 => iff.2 ?_⟩
    · intro i _ j hj; interval_cases j <;> rfl
    · rw [e1, e2, e3]; simp
  · obtain ⟨mem', e, h⟩ := Mem.assign_alias hsz le_rfl m.vrow h1 h2
    have iff : (∀ j : Fin 3, seqRows 3 m.vrow v 3 j = (m.toM *ᵥ ![v 0, v 1, v 2, 0]) j.castSucc) ↔
        (seqRows 3 m.vrow v 3 0 - v 0) * m.x.y = 0 ∧
          (seqRows 3 m.vrow v 3 0 - v 0) * m.x.z + (seqRows 3 m.vrow v 3 1 - v 1) * m.y.z = 0 := by
      constructor
      · intro h
        have k1 := h 1
        have k2 := h 2
        simp [seqRows, Mat4.vrow, firstN, Mat4.toM, Matrix.mulVec, dotProduct, Fin.sum_univ_succ] at k1 k2 ⊢
        exact ⟨by linear_combination k1, by linear_combination k2⟩
      · rintro ⟨k1, k2⟩ j
        fin_cases j <;>
          simp [seqRows, Mat4.vrow, firstN, Mat4.toM, Matrix.mulVec, dotProduct, Fin.sum_univ_succ] at k1 k2 ⊢
        · ring
        · linear_combination k1
        · linear_combination k2
    refine ⟨mem', fun j : Fin 3 => seqRows 3 m.vrow v 3 j, e, h.congr ?_, iff, fun e1 e2 e3 => iff.2 ?_⟩
    · intro i _ j hj; interval_cases j <;> rfl
    · rw [e1, e2, e3]; simp

theorem C48_mat4_vector4_partial (m : Mat4 K) (mem : Mem K) (hsz : 0 < mem.sz) (a : ℕ) (v : ℕ → K)
    (h1 : mem.Holds a 0 1 3 (fun _ => v)) (h2 : mem.Writable a 0 1 4) :
    ∃ (mem' : Mem K) (out : Fin 4 → K), m.transformVectorAt4 mem a a = .ok mem' ∧
      mem.Wrote mem' a 0 1 4 (fun _ j => out (Fin.ofNat 4 j)) ∧
      (out = m.toM *ᵥ ![v 0, v 1, v 2, 0] ↔ (out 0 - v 0) * m.x.y = 0 ∧
        (out 0 - v 0) * m.x.z + (out 1 - v 1) * m.y.z = 0 ∧
        (out 0 - v 0) * m.x.w + (out 1 - v 1) * m.y.w + (out 2 - v 2) * m.z.w = 0) ∧
      (m.x.y = 0 → m.x.z = 0 → m.y.z = 0 → m.x.w = 0 → m.y.w = 0 → m.z.w = 0 →
        out = m.toM *ᵥ ![v 0, v 1, v 2, 0]) := by
  obtain ⟨mem', e, h⟩ := Mem.assign_alias hsz (by omega) m.vrow h1 h2
  have iff : (fun j : Fin 4 => seqRows 3 m.vrow v 4 j) = m.toM *ᵥ ![v 0, v 1, v 2, 0] ↔
      (seqRows 3 m.vrow v 4 0 - v 0) * m.x.y = 0 ∧
        (seqRows 3 m.vrow v 4 0 - v 0) * m.x.z + (seqRows 3 m.vrow v 4 1 - v 1) * m.y.z = 0 ∧
        (seqRows 3 m.vrow v 4 0 - v 0) * m.x.w + (seqRows 3 m.vrow v 4 1 - v 1) * m.y.w +
          (seqRows 3 m.vrow v 4 2 - v 2) * m.z.w = 0 := by
    constructor
    · intro h
      have k1 := congrFun h 1
      have k2 := congrFun h 2
      have k3 := congrFun h 3
      simp [seqRows, Mat4.vrow, firstN, Mat4.toM, Matrix.mulVec, dotProduct, Fin.sum_univ_succ] at k1 k2 k3 ⊢
      exact ⟨by linear_combination k1, by linear_combination k2, by linear_combination k3⟩
    · rintro ⟨k1, k2, k3⟩
      ext j; fin_cases j <;>
        simp [seqRows, Mat4.vrow, firstN, Mat4.toM, Matrix.mulVec, dotProduct, Fin.sum_univ_succ] at k1 k2 k3 ⊢
      · ring
      · linear_combination k1
      · linear_combination k2
      · linear_combination k3
  refine ⟨mem', fun j : Fin 4 => seqRows 3 m.vrow v 4 j, e, h.congr ?_, iff, fun e1 e2 e3 e4 e5 e6 => iff.2 ?_⟩
  · intro i _ j hj; interval_cases j <;> rfl
  · rw [e1, e2, e3, e4, e5, e6]; simp

/-- a vector at address 8 meets the hypotheses -/
example : let mem : Mem ℚ := ⟨4, fun a => a < 100, fun a => some (a : ℚ)⟩
    0 < mem.sz ∧ mem.Holds 8 0 1 3 (fun _ j => ((8 + 0 * 0 + j * 4 : ℕ) : ℚ)) ∧ mem.Writable 8 0 1 3 := by
  refine ⟨by norm_num, fun i hi j hj => ⟨?_, ?_⟩, fun i hi j hj => ?_⟩
  · simp only [decide_eq_true_eq]; omega
  · obtain rfl : i = 0 := by omega
    rfl
  · simp only [decide_eq_true_eq]; omega

/-- also with four components -/
example : let mem : Mem ℚ := ⟨4, fun a => a < 100, fun a => some (a : ℚ)⟩
    mem.Holds 8 0 1 4 (fun _ j => ((8 + 0 * 0 + j * 4 : ℕ) : ℚ)) ∧ mem.Writable 8 0 1 4 := by
  refine ⟨fun i hi j hj => ⟨?_, ?_⟩, fun i hi j hj => ?_⟩
  · simp only [decide_eq_true_eq]; omega
  · obtain rfl : i = 0 := by omega
    rfl
  · simp only [decide_eq_true_eq]; omega

end MathLib
