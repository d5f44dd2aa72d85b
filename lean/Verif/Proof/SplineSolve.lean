import Verif.Proof.SplineLemmas
import Verif.Proof.TriSolve

/-! # The spline solvers -/

namespace MathLib
open TriDiagonal

theorem Res.ok_bind {α β : Type} (a : α) (f : α → Res β) : (Except.ok a >>= f) = f a := rfl

/-- a loop that assigns `g i` to cell `i` -/
theorem loop_fill {α : Type} {F : ℕ → Buf α → Res (Buf α)} (g : ℕ → α) {lo hi : ℕ} {b : Buf α} (hlh : lo ≤ hi)
    (hb : hi ≤ b.size) (hF : ∀ i b', lo ≤ i → i < hi → F i b' = b'.set i (g i)) :
    ∃ b', loop lo hi F b = .ok b' ∧ b'.size = b.size ∧
      ∀ i, b'.data i = if lo ≤ i ∧ i < hi then some (g i) else b.data i := by
  obtain ⟨b', e, h1, h2⟩ := loop_rule (f := F) (s := b)
    (fun j b' => b'.size = b.size ∧ ∀ i, b'.data i = if lo ≤ i ∧ i < j then some (g i) else b.data i) hlh
    ⟨rfl, fun i => by rw [if_neg (by omega)]⟩ (by
      rintro j b' h1 h2 ⟨h3, h4⟩
      refine ⟨⟨b'.size, Function.update b'.data j (some (g j))⟩, ?_, h3, ?_⟩
      · rw [hF j b' h1 h2, Buf.set_of (by omega)]
      · intro i
        by_cases hij : i = j
        · subst hij
          simp [h1]
        · simp only [Function.update_of_ne hij, h4]
          by_cases h : lo ≤ i ∧ i < j
          · rw [if_pos h, if_pos (by omega)]
          · rw [if_neg h, if_neg (by omega)])
  exact ⟨b', e, h1, h2⟩

theorem Buf.set_data {α : Type} {b : Buf α} {i : ℕ} (v : α) (hi : i < b.size) :
    ∃ b', b.set i v = .ok b' ∧ b'.size = b.size ∧ ∀ j, b'.data j = if j = i then some v else b.data j := by
  refine ⟨_, Buf.set_of hi, rfl, fun j => ?_⟩
  by_cases h : j = i
  · subst h; simp
  · simp [h]

/-- the loop that fills the three diagonals -/
theorem diag_loop {K : Type} (m : ℕ) (x y z : K) (a b c : Buf K)
    (ha : m ≤ a.size) (hb : m ≤ b.size) (hc : m ≤ c.size) :
    ∃ a' b' c', loop 0 m (fun i (s : Buf K × Buf K × Buf K) => (do
        let a ← s.1.set i x
        let b ← s.2.1.set i y
        let c ← s.2.2.set i z
        .ok (a, b, c) : Res (Buf K × Buf K × Buf K))) (a, b, c) = .ok (a', b', c') ∧
      a'.size = a.size ∧ b'.size = b.size ∧ c'.size = c.size ∧
      (∀ i < m, a'.data i = some x) ∧ (∀ i < m, b'.data i = some y) ∧ (∀ i < m, c'.data i = some z) := by
  obtain ⟨⟨a', b', c'⟩, e, h⟩ := loop_rule (f := fun i (s : Buf K × Buf K × Buf K) => (do
        let a ← s.1.set i x
        let b ← s.2.1.set i y
        let c ← s.2.2.set i z
        .ok (a, b, c) : Res (Buf K × Buf K × Buf K))) (lo := 0) (hi := m) (s := (a, b, c))
    (fun j s => s.1.size = a.size ∧ s.2.1.size = b.size ∧ s.2.2.size = c.size ∧
      (∀ i < j, s.1.data i = some x) ∧ (∀ i < j, s.2.1.data i = some y) ∧ (∀ i < j, s.2.2.data i = some z))
    (Nat.zero_le _) (by simp) (by
      rintro j ⟨a', b', c'⟩ - hj ⟨h1, h2, h3, h4, h5, h6⟩
      simp only at h1 h2 h3 h4 h5 h6
      refine ⟨(⟨a'.size, Function.update a'.data j (some x)⟩, ⟨b'.size, Function.update b'.data j (some y)⟩,
        ⟨c'.size, Function.update c'.data j (some z)⟩), ?_, h1, h2, h3, ?_, ?_, ?_⟩
      · simp only [Buf.set_of (show j < a'.size by omega), Buf.set_of (show j < b'.size by omega),
          Buf.set_of (show j < c'.size by omega), bind, Except.bind]
      all_goals
        intro i hi
        by_cases hij : i = j
        · subst hij; simp
        · simp only [Function.update_of_ne hij]
          first | exact h4 i (by omega) | exact h5 i (by omega) | exact h6 i (by omega))
  exact ⟨a', b', c', e, h⟩

namespace SplineSolver3

/-- the right-hand sides of the inner rows -/
theorem rhs_loop {m : ℕ} (k : ℕ → Vec3 ℝ) {p1 r : Buf (Vec3 ℝ)} (lo n : ℕ) (h1 : p1.Holds n k) (hlo : lo ≤ m) (hm : m < n)
    (hr : m ≤ r.size) :
    ∃ r', loop lo m (fun i (r : Buf (Vec3 ℝ)) => (do
        let ki ← p1.get i
        let kj ← p1.get (i + 1)
        r.set i (ki * (4 : ℝ) + kj * (2 : ℝ)) : Res (Buf (Vec3 ℝ)))) r = .ok r' ∧ r'.size = r.size ∧
      ∀ i, r'.data i = if lo ≤ i ∧ i < m then some (k i * (4 : ℝ) + k (i + 1) * (2 : ℝ)) else r.data i := by
  refine loop_fill _ hlo hr fun i b' _ hi => ?_
  simp only [h1.get (show i < n by omega), h1.get (show i + 1 < n by omega), bind, Except.bind]

theorem p3_loop {m : ℕ} (k q : ℕ → Vec3 ℝ) {p1 p2 p3 : Buf (Vec3 ℝ)} (n n' : ℕ) (h1 : p1.Holds n k) (h2 : p2.Holds n' q)
    (hm : m < n) (hm' : m < n') (h3 : m ≤ p3.size) :
    ∃ p3', loop 0 m (fun i (p3 : Buf (Vec3 ℝ)) => (do
        let k ← p1.get (i + 1)
        let q ← p2.get (i + 1)
        p3.set i (k * (2 : ℝ) - q) : Res (Buf (Vec3 ℝ)))) p3 = .ok p3' ∧ p3'.size = p3.size ∧
      ∀ i, p3'.data i = if 0 ≤ i ∧ i < m then some (k (i + 1) * (2 : ℝ) - q (i + 1)) else p3.data i := by
  refine loop_fill (fun i => k (i + 1) * (2 : ℝ) - q (i + 1)) (Nat.zero_le _) h3 fun i b' _ hi => ?_
  simp only [h1.get (show i + 1 < n by omega), h2.get (show i + 1 < n' by omega), bind, Except.bind]

def natA (N i : ℕ) : ℝ := if i = N - 2 then 2 else 1
def natB (N i : ℕ) : ℝ := if i = N - 1 then 7 else if i = 0 then 2 else 4
def natR (N : ℕ) (k : ℕ → Vec3 ℝ) (i : ℕ) : Vec3 ℝ :=
  if i = N - 1 then k (N - 1) * (8 : ℝ) + k N else if i = 0 then k 0 + k 1 * (2 : ℝ) else
    k i * (4 : ℝ) + k (i + 1) * (2 : ℝ)
/-- the third control points -/
noncomputable def natQ3 (N : ℕ) (k q : ℕ → Vec3 ℝ) (i : ℕ) : Vec3 ℝ :=
  if i = N - 1 then (k N + q (N - 1)) * (1 / 2 : ℝ) else k (i + 1) * (2 : ℝ) - q (i + 1)

theorem natural_spec (N : ℕ) (hN : 2 ≤ N) (k : ℕ → Vec3 ℝ) (p1 p2 p3 : Buf (Vec3 ℝ)) (h1 : p1.Holds (N + 1) k)
    (h2 : N ≤ p2.size) (h3 : N ≤ p3.size) :
    ∃ p2' p3' q, naturalBezierSpline (N + 1) p1 p2 p3 = .ok (true, p2', p3') ∧
      (∀ v : ℕ → Vec3 ℝ, (∀ i < N, row N (natA N) (natB N) (fun _ => 1) v i = natR N k i) ↔ ∀ i < N, v i = q i) ∧
      p2'.Holds N q ∧ (p2'.size = p2.size ∧ ∀ j, N ≤ j → p2'.data j = p2.data j) ∧
      p3'.Holds N (natQ3 N k q) ∧ (p3'.size = p3.size ∧ ∀ j, N ≤ j → p3'.data j = p3.data j) := by
  obtain ⟨a, b, c, e0, ha, hb, hc, da, db, dc⟩ := diag_loop (K := ℝ) (N - 1) 1 4 1 (Buf.alloc (N - 1)) (Buf.alloc N)
    (Buf.alloc (N - 1)) le_rfl (by simp [Buf.alloc]) le_rfl
  simp only [Buf.alloc] at ha hb hc
  obtain ⟨b1, eb1, hb1, db1⟩ := Buf.set_data (b := b) (i := 0) (2 : ℝ) (by omega)
  obtain ⟨a1, ea1, ha1, da1⟩ := Buf.set_data (b := a) (i := N - 2) (2 : ℝ) (by omega)
  obtain ⟨b2, eb2, hb2, db2⟩ := Buf.set_data (b := b1) (i := N - 1) (7 : ℝ) (by omega)
  obtain ⟨r, er, hr, dr⟩ := rhs_loop (m := N - 1) k (r := Buf.alloc N) 1 (N + 1) h1 (by omega) (by omega) (by simp [Buf.alloc])
  simp only [Buf.alloc] at hr
  obtain ⟨r1, er1, hr1, dr1⟩ := Buf.set_data (b := r) (i := 0) (k 0 + k 1 * (2 : ℝ)) (by omega)
  obtain ⟨r2, er2, hr2, dr2⟩ := Buf.set_data (b := r1) (i := N - 1) (k (N - 1) * (8 : ℝ) + k N) (by omega)
  have hA : a1.Holds (N - 1) (natA N) := by
    refine ⟨by omega, fun i hi => ?_⟩
    rw [da1, natA]
    split_ifs
    · rfl
    · exact da i hi
  have hB : b2.Holds N (natB N) := by
    refine ⟨by omega, fun i hi => ?_⟩
    rw [db2, db1, natB]
    split_ifs
    · rfl
    · rfl
    · exact db i (by omega)
  have hC : c.Holds (N - 1) (fun _ => (1 : ℝ)) := ⟨by omega, dc⟩
  have hR : r2.Holds N (natR N k) := by
    refine ⟨by omega, fun i hi => ?_⟩
    rw [dr2, dr1, dr, natR]
    split_ifs
    · rfl
    · rfl
    · rfl
    · omega
  have hp : ∀ j < N, piv (natA N) (natB N) (fun _ => 1) j ≠ 0 := fun j hj => (dominant_pivots N _ _ _ (by
    intro i hi
    simp only [natA, natB]
    split_ifs <;> first | omega | norm_num) j hj).1
  obtain ⟨p2', es, hp2, hs2, ht2⟩ := (vec3_spec N (by omega) _ _ _ _ a1 b2 c r2 p2 hA hB hC hR h2).1 hp
  set q := sol (natA N) (natB N) (fun _ => (1 : ℝ)) (natR N k) N with hq
  obtain ⟨p3', e3, hs3, d3⟩ := p3_loop (m := N - 1) k q (p3 := p3) (N + 1) N h1 hp2 (by omega) (by omega) (by omega)
  obtain ⟨p4', e4, hs4, d4⟩ := Buf.set_data (b := p3') (i := N - 1) ((k N + q (N - 1)) * (1 / 2 : ℝ)) (by omega)
  have ediv : (k N + q (N - 1)).div (2 : ℝ) = .ok ((k N + q (N - 1)) * (1 / 2 : ℝ)) := by
    simp only [Vec3.div]; norm_num; ext <;> simp <;> ring
  refine ⟨p2', p4', q, ?_, ?_, hp2, ⟨hs2, ht2⟩, ⟨by omega, fun i hi => ?_⟩, by omega, fun j hj => ?_⟩
  · have e1' : N + 1 - 1 = N := rfl
    simp only [naturalBezierSpline, if_pos (show N + 1 ≥ 2 by omega), if_neg (show ¬ N + 1 = 2 by omega), e1', e0, eb1, ea1,
      eb2, er, er1, er2, h1.get (show 0 < N + 1 by omega), h1.get (show 1 < N + 1 by omega),
      h1.get (show N - 1 < N + 1 by omega), h1.get (show N < N + 1 by omega), es, e3, e4,
      hp2.get (show N - 1 < N by omega), ediv, Res.ok_bind, Bool.not_true, Bool.false_eq_true, if_false]
  · intro v
    rw [rows_iff N _ _ _ _ v hp, reduced_iff]
  · rw [d4, d3, natQ3]
    split_ifs
    · rfl
    · rfl
    · omega
  · rw [d4, d3, if_neg (by omega), if_neg (by omega)]

theorem natural_two (k : ℕ → Vec3 ℝ) (p1 p2 p3 : Buf (Vec3 ℝ)) (h1 : p1.Holds 2 k)
    (h2 : 1 ≤ p2.size) (h3 : 1 ≤ p3.size) :
    ∃ p2' p3', naturalBezierSpline 2 p1 p2 p3 = .ok (true, p2', p3') ∧
      p2'.Holds 1 (fun _ => k 0 + (k 1 - k 0) * (1 / 3 : ℝ)) ∧ (p2'.size = p2.size ∧ ∀ j, 1 ≤ j → p2'.data j = p2.data j) ∧
      p3'.Holds 1 (fun _ => k 1 - (k 1 - k 0) * (1 / 3 : ℝ)) ∧ (p3'.size = p3.size ∧ ∀ j, 1 ≤ j → p3'.data j = p3.data j) := by
  have ediv : (k 1 - k 0).div (3 : ℝ) = .ok ((k 1 - k 0) * (1 / 3 : ℝ)) := by
    simp only [Vec3.div]; norm_num; ext <;> simp <;> ring
  obtain ⟨p2', e2, s2, d2⟩ := Buf.set_data (b := p2) (i := 0) (k 0 + (k 1 - k 0) * (1 / 3 : ℝ)) (by omega)
  obtain ⟨p3', e3, s3, d3⟩ := Buf.set_data (b := p3) (i := 0) (k 1 - (k 1 - k 0) * (1 / 3 : ℝ)) (by omega)
  refine ⟨p2', p3', ?_, ⟨by omega, fun i hi => ?_⟩, ⟨s2, fun j hj => ?_⟩, ⟨by omega, fun i hi => ?_⟩,
    s3, fun j hj => ?_⟩
  · simp only [naturalBezierSpline, if_pos (show 2 ≥ 2 by omega), h1.get (show 1 < 2 by omega),
      h1.get (show 0 < 2 by omega), ediv, e2, e3, Res.ok_bind, if_true]
  · rw [d2, if_pos (by omega)]
  · rw [d2, if_neg (by omega)]
  · rw [d3, if_pos (by omega)]
  · rw [d3, if_neg (by omega)]

/-- joints in coordinates -/
theorem join_iff' (s t : BezierSegment3 ℝ) (hst : s.P4 = t.P1) :
    s.JoinC2 t ↔ s.P3 = s.P4 * (2 : ℝ) - t.P2 ∧ s.P2 - s.P3 * (2 : ℝ) = t.P3 - t.P2 * (2 : ℝ) := by
  rw [BezierSegment3.JoinC2, BezierSegment3.deriv2_curve, BezierSegment3.deriv2_curve, BezierSegment3.deriv_curve,
    BezierSegment3.deriv_curve, ← BezierSegment3.toE_val, ← BezierSegment3.toE_val]
  have hst' := hst
  simp only [Vec3.ext_iff] at hst'
  obtain ⟨c1, c2, c3⟩ := hst'
  constructor
  · rintro ⟨-, h1, h2⟩
    have h1 := Vec3.toE_inj h1
    have h2 := Vec3.toE_inj h2
    simp only [Vec3.ext_iff, BezierSegment3.der, BezierSegment3.der2, Vec3.add_x, Vec3.add_y, Vec3.add_z,
      Vec3.mul_x, Vec3.mul_y, Vec3.mul_z, Vec3.sub_x, Vec3.sub_y, Vec3.sub_z] at h1 h2 ⊢
    obtain ⟨a1, a2, a3⟩ := h1
    obtain ⟨b1, b2, b3⟩ := h2
    exact ⟨⟨by linarith, by linarith, by linarith⟩, by linarith, by linarith, by linarith⟩
  · rintro ⟨h1, h2⟩
    simp only [Vec3.ext_iff, Vec3.mul_x, Vec3.mul_y, Vec3.mul_z, Vec3.sub_x, Vec3.sub_y, Vec3.sub_z] at h1 h2
    obtain ⟨a1, a2, a3⟩ := h1
    obtain ⟨b1, b2, b3⟩ := h2
    refine ⟨congrArg _ ?_, congrArg _ ?_, congrArg _ ?_⟩ <;> ext <;>
      simp only [BezierSegment3.val, BezierSegment3.der, BezierSegment3.der2, Vec3.add_x, Vec3.add_y, Vec3.add_z,
        Vec3.mul_x, Vec3.mul_y, Vec3.mul_z] <;> linarith

theorem join_iff (k q2 q3 : ℕ → Vec3 ℝ) (i : ℕ) :
    (splineSeg k q2 q3 i).JoinC2 (splineSeg k q2 q3 (i + 1)) ↔
      q3 i = k (i + 1) * (2 : ℝ) - q2 (i + 1) ∧
      q2 i - q3 i * (2 : ℝ) = q3 (i + 1) - q2 (i + 1) * (2 : ℝ) := join_iff' _ _ rfl

theorem start_iff (s : BezierSegment3 ℝ) :
    deriv (deriv s.curve) 0 = 0 ↔ s.P1 - s.P2 * (2 : ℝ) + s.P3 = Vec3.zero := by
  have e0 : (0 : EuclideanSpace ℝ (Fin 3)) = (Vec3.zero : Vec3 ℝ).toE := by
    ext i; fin_cases i <;> rfl
  rw [BezierSegment3.deriv2_curve, e0]
  constructor
  · intro h
    have h := Vec3.toE_inj h
    simp only [Vec3.ext_iff, BezierSegment3.der2, Vec3.add_x, Vec3.add_y, Vec3.add_z,
      Vec3.mul_x, Vec3.mul_y, Vec3.mul_z, Vec3.sub_x, Vec3.sub_y, Vec3.sub_z, Vec3.zero] at h ⊢
    obtain ⟨b1, b2, b3⟩ := h
    exact ⟨by linarith, by linarith, by linarith⟩
  · intro h
    simp only [Vec3.ext_iff, Vec3.add_x, Vec3.add_y, Vec3.add_z, Vec3.mul_x, Vec3.mul_y, Vec3.mul_z, Vec3.sub_x, Vec3.sub_y, Vec3.sub_z, Vec3.zero] at h
    obtain ⟨b1, b2, b3⟩ := h
    refine congrArg _ ?_
    ext <;> simp only [BezierSegment3.der2, Vec3.add_x, Vec3.add_y, Vec3.add_z,
        Vec3.mul_x, Vec3.mul_y, Vec3.mul_z, Vec3.zero] <;> linarith

theorem stop_iff (s : BezierSegment3 ℝ) :
    deriv (deriv s.curve) 1 = 0 ↔ s.P2 - s.P3 * (2 : ℝ) + s.P4 = Vec3.zero := by
  have e0 : (0 : EuclideanSpace ℝ (Fin 3)) = (Vec3.zero : Vec3 ℝ).toE := by
    ext i; fin_cases i <;> rfl
  rw [BezierSegment3.deriv2_curve, e0]
  constructor
  · intro h
    have h := Vec3.toE_inj h
    simp only [Vec3.ext_iff, BezierSegment3.der2, Vec3.add_x, Vec3.add_y, Vec3.add_z,
      Vec3.mul_x, Vec3.mul_y, Vec3.mul_z, Vec3.sub_x, Vec3.sub_y, Vec3.sub_z, Vec3.zero] at h ⊢
    obtain ⟨b1, b2, b3⟩ := h
    exact ⟨by linarith, by linarith, by linarith⟩
  · intro h
    simp only [Vec3.ext_iff, Vec3.add_x, Vec3.add_y, Vec3.add_z, Vec3.mul_x, Vec3.mul_y, Vec3.mul_z, Vec3.sub_x, Vec3.sub_y, Vec3.sub_z, Vec3.zero] at h
    obtain ⟨b1, b2, b3⟩ := h
    refine congrArg _ ?_
    ext <;> simp only [BezierSegment3.der2, Vec3.add_x, Vec3.add_y, Vec3.add_z,
        Vec3.mul_x, Vec3.mul_y, Vec3.mul_z, Vec3.zero] <;> linarith

/-- being a natural spline in terms of the linear system the code solves -/
theorem natural_iff (N : ℕ) (hN : 2 ≤ N) (k q2 q3 : ℕ → Vec3 ℝ) :
    IsNaturalSpline N (splineSeg k q2 q3) ↔
      (∀ i < N, row N (natA N) (natB N) (fun _ => 1) q2 i = natR N k i) ∧ ∀ i < N, q3 i = natQ3 N k q2 i := by
  rw [IsNaturalSpline, start_iff, stop_iff]
  simp only [join_iff]
  have hk : splineSeg k q2 q3 (N - 1) = ⟨k (N - 1), q2 (N - 1), q3 (N - 1), k N⟩ := by
    rw [splineSeg, Nat.sub_add_cancel (by omega)]
  rw [hk]
  simp only [splineSeg]
  constructor
  · rintro ⟨hj, h0, hl⟩
    have hq3 : ∀ i < N, q3 i = natQ3 N k q2 i := by
      intro i hi
      rw [natQ3]
      split_ifs with h
      · subst h
        simp only [Vec3.ext_iff, Vec3.add_x, Vec3.add_y, Vec3.add_z, Vec3.mul_x, Vec3.mul_y, Vec3.mul_z, Vec3.sub_x, Vec3.sub_y, Vec3.sub_z, Vec3.zero] at hl ⊢
        exact ⟨by linarith [hl.1], by linarith [hl.2.1], by linarith [hl.2.2]⟩
      · exact (hj i (by omega)).1
    refine ⟨fun i hi => ?_, hq3⟩
    simp only [row, natA, natB, natR]
    by_cases h0i : i = 0
    · subst h0i
      have a1 := (hj 0 (by omega)).1
      rw [if_neg (by omega), if_neg (by omega), if_pos rfl, if_pos (by omega), if_neg (by omega), if_pos rfl]
      simp only [Vec3.ext_iff, Vec3.add_x, Vec3.add_y, Vec3.add_z, Vec3.mul_x, Vec3.mul_y, Vec3.mul_z, Vec3.sub_x, Vec3.sub_y, Vec3.sub_z, Vec3.zero, Vec3.smul_x, Vec3.smul_y, Vec3.smul_z, Vec3.zero_x, Vec3.zero_y, Vec3.zero_z] at h0 a1 ⊢
      exact ⟨by linarith [h0.1, a1.1], by linarith [h0.2.1, a1.2.1], by linarith [h0.2.2, a1.2.2]⟩
    · obtain ⟨j, rfl⟩ : ∃ j, i = j + 1 := ⟨i - 1, by omega⟩
      obtain ⟨a1, a2⟩ := hj j hi
      by_cases hl' : j + 1 = N - 1
      · rw [if_pos (by omega), if_pos (by omega), if_pos hl', if_neg (by omega), if_pos hl']
        rw [← hl'] at hl ⊢
        simp only [Nat.add_sub_cancel, Vec3.ext_iff, Vec3.add_x, Vec3.add_y, Vec3.add_z, Vec3.mul_x, Vec3.mul_y, Vec3.mul_z, Vec3.sub_x, Vec3.sub_y, Vec3.sub_z, Vec3.zero, Vec3.smul_x, Vec3.smul_y, Vec3.smul_z, Vec3.zero_x, Vec3.zero_y, Vec3.zero_z] at hl a1 a2 ⊢
        exact ⟨by linarith [hl.1, a1.1, a2.1], by linarith [hl.2.1, a1.2.1, a2.2.1], by linarith [hl.2.2, a1.2.2, a2.2.2]⟩
      · have a3 := (hj (j + 1) (by omega)).1
        rw [if_pos (by omega), if_neg (by omega), if_neg hl', if_neg (by omega), if_pos (by omega), if_neg hl',
          if_neg (by omega)]
        simp only [Nat.add_sub_cancel, Vec3.ext_iff, Vec3.add_x, Vec3.add_y, Vec3.add_z, Vec3.mul_x, Vec3.mul_y, Vec3.mul_z, Vec3.sub_x, Vec3.sub_y, Vec3.sub_z, Vec3.smul_x, Vec3.smul_y, Vec3.smul_z] at a1 a2 a3 ⊢
        exact ⟨by linarith [a3.1, a1.1, a2.1], by linarith [a3.2.1, a1.2.1, a2.2.1], by linarith [a3.2.2, a1.2.2, a2.2.2]⟩
  · rintro ⟨hr, hq3⟩
    have hq : ∀ i, i + 1 < N → q3 i = k (i + 1) * (2 : ℝ) - q2 (i + 1) := by
      intro i hi
      rw [hq3 i (by omega), natQ3, if_neg (by omega)]
    have hqN : q3 (N - 1) = (k N + q2 (N - 1)) * (1 / 2 : ℝ) := by
      rw [hq3 _ (by omega), natQ3, if_pos rfl]
    refine ⟨fun i hi => ⟨hq i hi, ?_⟩, ?_, ?_⟩
    · have h := hr (i + 1) hi
      have b1 := hq i hi
      simp only [row, natA, natB, natR] at h
      by_cases hl' : i + 1 = N - 1
      · rw [if_pos (by omega), if_pos (by omega), if_pos hl', if_neg (by omega), if_pos hl'] at h
        rw [← hl'] at hqN h
        simp only [Nat.add_sub_cancel, Vec3.ext_iff, Vec3.add_x, Vec3.add_y, Vec3.add_z, Vec3.mul_x, Vec3.mul_y, Vec3.mul_z, Vec3.sub_x, Vec3.sub_y, Vec3.sub_z, Vec3.smul_x, Vec3.smul_y, Vec3.smul_z, Vec3.zero_x, Vec3.zero_y, Vec3.zero_z] at h b1 hqN ⊢
        exact ⟨by linarith [h.1, b1.1, hqN.1], by linarith [h.2.1, b1.2.1, hqN.2.1], by linarith [h.2.2, b1.2.2, hqN.2.2]⟩
      · have a3 := hq (i + 1) (by omega)
        rw [if_pos (by omega), if_neg (by omega), if_neg hl', if_neg (by omega), if_pos (by omega), if_neg hl',
          if_neg (by omega)] at h
        simp only [Nat.add_sub_cancel, Vec3.ext_iff, Vec3.add_x, Vec3.add_y, Vec3.add_z, Vec3.mul_x, Vec3.mul_y, Vec3.mul_z, Vec3.sub_x, Vec3.sub_y, Vec3.sub_z, Vec3.smul_x, Vec3.smul_y, Vec3.smul_z] at h b1 a3 ⊢
        exact ⟨by linarith [h.1, b1.1, a3.1], by linarith [h.2.1, b1.2.1, a3.2.1], by linarith [h.2.2, b1.2.2, a3.2.2]⟩
    · have h := hr 0 (by omega)
      have b1 := hq 0 (by omega)
      simp only [row, natA, natB, natR] at h
      rw [if_neg (by omega), if_neg (by omega), if_pos trivial, if_pos (by omega), if_neg (by omega), if_pos trivial] at h
      simp only [Vec3.ext_iff, Vec3.add_x, Vec3.add_y, Vec3.add_z, Vec3.mul_x, Vec3.mul_y, Vec3.mul_z, Vec3.sub_x, Vec3.sub_y, Vec3.sub_z, Vec3.zero, Vec3.smul_x, Vec3.smul_y, Vec3.smul_z, Vec3.zero_x, Vec3.zero_y, Vec3.zero_z] at h b1 ⊢
      exact ⟨by linarith [h.1, b1.1], by linarith [h.2.1, b1.2.1], by linarith [h.2.2, b1.2.2]⟩
    · simp only [Vec3.ext_iff, Vec3.add_x, Vec3.add_y, Vec3.add_z, Vec3.mul_x, Vec3.mul_y, Vec3.mul_z, Vec3.sub_x, Vec3.sub_y, Vec3.sub_z, Vec3.zero] at hqN ⊢
      exact ⟨by linarith [hqN.1], by linarith [hqN.2.1], by linarith [hqN.2.2]⟩

/-! ## Clamped -/

def clB (i : ℕ) : ℝ := if i = 0 then 1 else 4
def clC (i : ℕ) : ℝ := if i = 0 then 0 else 1
def clR (N : ℕ) (k : ℕ → Vec3 ℝ) (s e : Vec3 ℝ) (i : ℕ) : Vec3 ℝ :=
  if i = N - 1 then e + k (N - 1) * (4 : ℝ) else if i = 0 then s else k i * (4 : ℝ) + k (i + 1) * (2 : ℝ)
def clQ3 (N : ℕ) (k : ℕ → Vec3 ℝ) (e : Vec3 ℝ) (q : ℕ → Vec3 ℝ) (i : ℕ) : Vec3 ℝ :=
  if i = N - 1 then e else k (i + 1) * (2 : ℝ) - q (i + 1)

theorem clamped_spec (N : ℕ) (hN : 2 ≤ N) (k : ℕ → Vec3 ℝ) (s e : Vec3 ℝ) (p1 p2 p3 : Buf (Vec3 ℝ))
    (h1 : p1.Holds (N + 1) k) (h2 : N ≤ p2.size) (h3 : N ≤ p3.size) :
    ∃ p2' p3' q, bezierSpline (N + 1) p1 s e p2 p3 = .ok (true, p2', p3') ∧
      (∀ v : ℕ → Vec3 ℝ, (∀ i < N, row N (fun _ => 1) clB clC v i = clR N k s e i) ↔ ∀ i < N, v i = q i) ∧
      p2'.Holds N q ∧ (p2'.size = p2.size ∧ ∀ j, N ≤ j → p2'.data j = p2.data j) ∧
      p3'.Holds N (clQ3 N k e q) ∧ (p3'.size = p3.size ∧ ∀ j, N ≤ j → p3'.data j = p3.data j) := by
  obtain ⟨a, b, c, e0, ha, hb, hc, da, db, dc⟩ := diag_loop (K := ℝ) (N - 1) 1 4 1 (Buf.alloc (N - 1)) (Buf.alloc N)
    (Buf.alloc (N - 1)) le_rfl (by simp [Buf.alloc]) le_rfl
  simp only [Buf.alloc] at ha hb hc
  obtain ⟨b1, eb1, hb1, db1⟩ := Buf.set_data (b := b) (i := 0) (1 : ℝ) (by omega)
  obtain ⟨b2, eb2, hb2, db2⟩ := Buf.set_data (b := b1) (i := N - 1) (4 : ℝ) (by omega)
  obtain ⟨c1, ec1, hc1, dc1⟩ := Buf.set_data (b := c) (i := 0) (0 : ℝ) (by omega)
  obtain ⟨r, er, hr, dr⟩ := rhs_loop (m := N - 1) k (r := Buf.alloc N) 1 (N + 1) h1 (by omega) (by omega) (by simp [Buf.alloc])
  simp only [Buf.alloc] at hr
  obtain ⟨r1, er1, hr1, dr1⟩ := Buf.set_data (b := r) (i := 0) s (by omega)
  obtain ⟨r2, er2, hr2, dr2⟩ := Buf.set_data (b := r1) (i := N - 1) (e + k (N - 1) * (4 : ℝ)) (by omega)
  have hA : a.Holds (N - 1) (fun _ => (1 : ℝ)) := ⟨by omega, da⟩
  have hB : b2.Holds N clB := by
    refine ⟨by omega, fun i hi => ?_⟩
    rw [db2, db1, clB]
    split_ifs
    · omega
    · rfl
    · rfl
    · exact db i (by omega)
  have hC : c1.Holds (N - 1) clC := by
    refine ⟨by omega, fun i hi => ?_⟩
    rw [dc1, clC]
    split_ifs
    · rfl
    · exact dc i hi
  have hR : r2.Holds N (clR N k s e) := by
    refine ⟨by omega, fun i hi => ?_⟩
    rw [dr2, dr1, dr, clR]
    split_ifs
    · rfl
    · rfl
    · rfl
    · omega
  have hp : ∀ j < N, piv (fun _ => 1) clB clC j ≠ 0 := fun j hj => (dominant_pivots N _ _ _ (by
    intro i hi
    simp only [clB, clC]
    split_ifs <;> first | omega | norm_num) j hj).1
  obtain ⟨p2', es, hp2, hs2, ht2⟩ := (vec3_spec N (by omega) _ _ _ _ a b2 c1 r2 p2 hA hB hC hR h2).1 hp
  set q := sol (fun _ => (1 : ℝ)) clB clC (clR N k s e) N with hq
  obtain ⟨p3', e3, hs3, d3⟩ := p3_loop (m := N - 1) k q (p3 := p3) (N + 1) N h1 hp2 (by omega) (by omega) (by omega)
  obtain ⟨p4', e4, hs4, d4⟩ := Buf.set_data (b := p3') (i := N - 1) e (by omega)
  refine ⟨p2', p4', q, ?_, ?_, hp2, ⟨hs2, ht2⟩, ⟨by omega, fun i hi => ?_⟩, by omega, fun j hj => ?_⟩
  · have e1' : N + 1 - 1 = N := rfl
    simp only [bezierSpline, if_pos (show N + 1 ≥ 2 by omega), if_neg (show ¬ N + 1 = 2 by omega), e1', e0, eb1,
      eb2, ec1, er, er1, er2, h1.get (show N - 1 < N + 1 by omega), es, e3, e4, Res.ok_bind, Bool.not_true,
      Bool.false_eq_true, if_false]
  · intro v
    rw [rows_iff N _ _ _ _ v hp, reduced_iff]
  · rw [d4, d3, clQ3]
    split_ifs
    · rfl
    · rfl
    · omega
  · rw [d4, d3, if_neg (by omega), if_neg (by omega)]

theorem clamped_two (k : ℕ → Vec3 ℝ) (s e : Vec3 ℝ) (p1 p2 p3 : Buf (Vec3 ℝ)) (h1 : p1.Holds 2 k)
    (h2 : 1 ≤ p2.size) (h3 : 1 ≤ p3.size) :
    ∃ p2' p3', bezierSpline 2 p1 s e p2 p3 = .ok (true, p2', p3') ∧
      p2'.Holds 1 (fun _ => s) ∧ (p2'.size = p2.size ∧ ∀ j, 1 ≤ j → p2'.data j = p2.data j) ∧
      p3'.Holds 1 (fun _ => e) ∧ (p3'.size = p3.size ∧ ∀ j, 1 ≤ j → p3'.data j = p3.data j) := by
  have ediv : (k 1 - k 0).div (3 : ℝ) = .ok ((k 1 - k 0) * (1 / 3 : ℝ)) := by
    simp only [Vec3.div]; norm_num; ext <;> simp <;> ring
  obtain ⟨p2', e2, s2, d2⟩ := Buf.set_data (b := p2) (i := 0) s (by omega)
  obtain ⟨p3', e3, s3, d3⟩ := Buf.set_data (b := p3) (i := 0) e (by omega)
  refine ⟨p2', p3', ?_, ⟨by omega, fun i hi => ?_⟩, ⟨s2, fun j hj => ?_⟩, ⟨by omega, fun i hi => ?_⟩,
    s3, fun j hj => ?_⟩
  · simp only [bezierSpline, if_pos (show 2 ≥ 2 by omega), h1.get (show 1 < 2 by omega),
      h1.get (show 0 < 2 by omega), ediv, e2, e3, Res.ok_bind, if_true]
  · rw [d2, if_pos (by omega)]
  · rw [d2, if_neg (by omega)]
  · rw [d3, if_pos (by omega)]
  · rw [d3, if_neg (by omega)]

theorem clamped_iff (N : ℕ) (hN : 2 ≤ N) (k q2 q3 : ℕ → Vec3 ℝ) (s e : Vec3 ℝ) :
    ((∀ i, i + 1 < N → (splineSeg k q2 q3 i).JoinC2 (splineSeg k q2 q3 (i + 1))) ∧ q2 0 = s ∧ q3 (N - 1) = e) ↔
      (∀ i < N, row N (fun _ => 1) clB clC q2 i = clR N k s e i) ∧ ∀ i < N, q3 i = clQ3 N k e q2 i := by
  simp only [join_iff]
  constructor
  · rintro ⟨hj, h0, hl⟩
    have hq3 : ∀ i < N, q3 i = clQ3 N k e q2 i := by
      intro i hi
      rw [clQ3]
      split_ifs with h
      · rw [h, hl]
      · exact (hj i (by omega)).1
    refine ⟨fun i hi => ?_, hq3⟩
    simp only [row, clB, clC, clR]
    by_cases h0i : i = 0
    · subst h0i
      rw [if_neg (by omega), if_pos rfl, if_pos (by omega), if_pos rfl, if_neg (by omega), if_pos rfl, h0]
      simp
    · obtain ⟨j, rfl⟩ : ∃ j, i = j + 1 := ⟨i - 1, by omega⟩
      obtain ⟨a1, a2⟩ := hj j hi
      by_cases hl' : j + 1 = N - 1
      · rw [if_pos (by omega), if_neg (by omega), if_neg (by omega), if_pos hl']
        rw [← hl'] at hl ⊢
        rw [← hl]
        simp only [Nat.add_sub_cancel, Vec3.ext_iff, Vec3.add_x, Vec3.add_y, Vec3.add_z, Vec3.mul_x, Vec3.mul_y, Vec3.mul_z, Vec3.sub_x, Vec3.sub_y, Vec3.sub_z, Vec3.smul_x, Vec3.smul_y, Vec3.smul_z, Vec3.zero_x, Vec3.zero_y, Vec3.zero_z] at a1 a2 ⊢
        exact ⟨by linarith [a1.1, a2.1], by linarith [a1.2.1, a2.2.1], by linarith [a1.2.2, a2.2.2]⟩
      · have a3 := (hj (j + 1) (by omega)).1
        rw [if_pos (by omega), if_neg (by omega), if_pos (by omega), if_neg (by omega), if_neg hl',
          if_neg (by omega)]
        simp only [Nat.add_sub_cancel, Vec3.ext_iff, Vec3.add_x, Vec3.add_y, Vec3.add_z, Vec3.mul_x, Vec3.mul_y, Vec3.mul_z, Vec3.sub_x, Vec3.sub_y, Vec3.sub_z, Vec3.smul_x, Vec3.smul_y, Vec3.smul_z] at a1 a2 a3 ⊢
        exact ⟨by linarith [a3.1, a1.1, a2.1], by linarith [a3.2.1, a1.2.1, a2.2.1], by linarith [a3.2.2, a1.2.2, a2.2.2]⟩
  · rintro ⟨hr, hq3⟩
    have hq : ∀ i, i + 1 < N → q3 i = k (i + 1) * (2 : ℝ) - q2 (i + 1) := by
      intro i hi
      rw [hq3 i (by omega), clQ3, if_neg (by omega)]
    have hqN : q3 (N - 1) = e := by
      rw [hq3 _ (by omega), clQ3, if_pos rfl]
    refine ⟨fun i hi => ⟨hq i hi, ?_⟩, ?_, hqN⟩
    · have h := hr (i + 1) hi
      have b1 := hq i hi
      simp only [row, clB, clC, clR] at h
      by_cases hl' : i + 1 = N - 1
      · rw [if_pos (by omega), if_neg (by omega), if_neg (by omega), if_pos hl', ← hqN] at h
        rw [← hl'] at h
        simp only [Nat.add_sub_cancel, Vec3.ext_iff, Vec3.add_x, Vec3.add_y, Vec3.add_z, Vec3.mul_x, Vec3.mul_y, Vec3.mul_z, Vec3.sub_x, Vec3.sub_y, Vec3.sub_z, Vec3.smul_x, Vec3.smul_y, Vec3.smul_z, Vec3.zero_x, Vec3.zero_y, Vec3.zero_z] at h b1 ⊢
        exact ⟨by linarith [h.1, b1.1], by linarith [h.2.1, b1.2.1], by linarith [h.2.2, b1.2.2]⟩
      · have a3 := hq (i + 1) (by omega)
        rw [if_pos (by omega), if_neg (by omega), if_pos (by omega), if_neg (by omega), if_neg hl',
          if_neg (by omega)] at h
        simp only [Nat.add_sub_cancel, Vec3.ext_iff, Vec3.add_x, Vec3.add_y, Vec3.add_z, Vec3.mul_x, Vec3.mul_y, Vec3.mul_z, Vec3.sub_x, Vec3.sub_y, Vec3.sub_z, Vec3.smul_x, Vec3.smul_y, Vec3.smul_z] at h b1 a3 ⊢
        exact ⟨by linarith [h.1, b1.1, a3.1], by linarith [h.2.1, b1.2.1, a3.2.1], by linarith [h.2.2, b1.2.2, a3.2.2]⟩
    · have h := hr 0 (by omega)
      simp only [row, clB, clC, clR] at h
      rw [if_neg (by omega), if_pos trivial, if_pos (by omega), if_pos trivial, if_neg (by omega), if_pos trivial] at h
      simpa using h

end SplineSolver3
end MathLib
