import Verif.Proof.SplineSolve

/-! # What the open spline solvers do, whatever the arithmetic -/

namespace MathLib
namespace SplineSolver3
theorem rhs_run {R : Type} [NatCast R] [Add R] [Mul R] {m : ℕ} (k : ℕ → Vec3 R) {p1 r : Buf (Vec3 R)} (lo n : ℕ) (h1 : p1.Holds n k) (hlo : lo ≤ m) (hm : m < n)
    (hr : m ≤ r.size) :
    ∃ r', loop lo m (fun i (r : Buf (Vec3 R)) => (do
        let ki ← p1.get i
        let kj ← p1.get (i + 1)
        r.set i (ki * (4 : R) + kj * (2 : R)) : Res (Buf (Vec3 R)))) r = .ok r' ∧ r'.size = r.size ∧
      ∀ i, r'.data i = if lo ≤ i ∧ i < m then some (k i * (4 : R) + k (i + 1) * (2 : R)) else r.data i := by
  refine loop_fill _ hlo hr fun i b' _ hi => ?_
  simp only [h1.get (show i < n by omega), h1.get (show i + 1 < n by omega), bind, Except.bind]

theorem p3_run {R : Type} [NatCast R] [Sub R] [Mul R] {m : ℕ} (k q : ℕ → Vec3 R) {p1 p2 p3 : Buf (Vec3 R)} (n n' : ℕ) (h1 : p1.Holds n k) (h2 : p2.Holds n' q)
    (hm : m < n) (hm' : m < n') (h3 : m ≤ p3.size) :
    ∃ p3', loop 0 m (fun i (p3 : Buf (Vec3 R)) => (do
        let k ← p1.get (i + 1)
        let q ← p2.get (i + 1)
        p3.set i (k * (2 : R) - q) : Res (Buf (Vec3 R)))) p3 = .ok p3' ∧ p3'.size = p3.size ∧
      ∀ i, p3'.data i = if 0 ≤ i ∧ i < m then some (k (i + 1) * (2 : R) - q (i + 1)) else p3.data i := by
  refine loop_fill (fun i => k (i + 1) * (2 : R) - q (i + 1)) (Nat.zero_le _) h3 fun i b' _ hi => ?_
  simp only [h1.get (show i + 1 < n by omega), h2.get (show i + 1 < n' by omega), bind, Except.bind]

variable {R : Type} [Zero R] [One R] [NatCast R] [Add R] [Sub R] [Mul R] [Div R] [BEq R]

theorem natural_run (N : ℕ) (hN : 2 ≤ N) (k q : ℕ → Vec3 R) (p1 p2 p3 : Buf (Vec3 R)) (h1 : p1.Holds (N + 1) k)
    (h3 : N ≤ p3.size) (v : Vec3 R) (hv : (k N + q (N - 1)).div (2 : R) = .ok v)
    (hs : ∀ (A B C : Buf R) (Rb : Buf (Vec3 R)), (A.Holds (N - 1) fun i => if i = N - 2 then 2 else 1) →
      (B.Holds N fun i => if i = N - 1 then 7 else if i = 0 then 2 else 4) → (C.Holds (N - 1) fun _ => 1) →
      (Rb.Holds N fun i => if i = N - 1 then k (N - 1) * (8 : R) + k N else if i = 0 then k 0 + k 1 * (2 : R) else
        k i * (4 : R) + k (i + 1) * (2 : R)) →
      ∃ p2', TriDiagonal.solve3 A B C Rb p2 N = .ok (true, p2') ∧ p2'.Holds N q) :
    ∃ p2' p3', naturalBezierSpline (N + 1) p1 p2 p3 = .ok (true, p2', p3') ∧ p2'.Holds N q ∧
      p3'.Holds N (fun i => if i = N - 1 then v else k (i + 1) * (2 : R) - q (i + 1)) := by
  obtain ⟨a, b, c, e0, ha, hb, hc, da, db, dc⟩ := diag_loop (K := R) (N - 1) 1 4 1 (Buf.alloc (N - 1)) (Buf.alloc N)
    (Buf.alloc (N - 1)) le_rfl (by simp [Buf.alloc]) le_rfl
  simp only [Buf.alloc] at ha hb hc
  obtain ⟨b1, eb1, hb1, db1⟩ := Buf.set_data (b := b) (i := 0) (2 : R) (by omega)
  obtain ⟨a1, ea1, ha1, da1⟩ := Buf.set_data (b := a) (i := N - 2) (2 : R) (by omega)
  obtain ⟨b2, eb2, hb2, db2⟩ := Buf.set_data (b := b1) (i := N - 1) (7 : R) (by omega)
  obtain ⟨r, er, hr, dr⟩ := rhs_run (m := N - 1) k (r := Buf.alloc N) 1 (N + 1) h1 (by omega) (by omega) (by simp [Buf.alloc])
  simp only [Buf.alloc] at hr
  obtain ⟨r1, er1, hr1, dr1⟩ := Buf.set_data (b := r) (i := 0) (k 0 + k 1 * (2 : R)) (by omega)
  obtain ⟨r2, er2, hr2, dr2⟩ := Buf.set_data (b := r1) (i := N - 1) (k (N - 1) * (8 : R) + k N) (by omega)
  obtain ⟨p2', es, hp2⟩ := hs a1 b2 c r2
    ⟨by omega, fun i hi => by
      rw [da1]
      beta_reduce
      split_ifs
      · rfl
      · exact da i hi⟩
    ⟨by omega, fun i hi => by
      rw [db2, db1]
      beta_reduce
      split_ifs
      · rfl
      · rfl
      · exact db i (by omega)⟩
    ⟨by omega, dc⟩
    ⟨by omega, fun i hi => by
      rw [dr2, dr1, dr]
      beta_reduce
      split_ifs
      · rfl
      · rfl
      · rfl
      · omega⟩
  obtain ⟨p3', e3, hs3, d3⟩ := p3_run (m := N - 1) k q (p3 := p3) (N + 1) N h1 hp2 (by omega) (by omega) (by omega)
  obtain ⟨p4', e4, hs4, d4⟩ := Buf.set_data (b := p3') (i := N - 1) v (by omega)
  refine ⟨p2', p4', ?_, hp2, ⟨by omega, fun i hi => ?_⟩⟩
  · have e1' : N + 1 - 1 = N := rfl
    simp only [naturalBezierSpline, if_pos (show N + 1 ≥ 2 by omega), if_neg (show ¬ N + 1 = 2 by omega), e1', e0, eb1, ea1,
      eb2, er, er1, er2, h1.get (show 0 < N + 1 by omega), h1.get (show 1 < N + 1 by omega),
      h1.get (show N - 1 < N + 1 by omega), h1.get (show N < N + 1 by omega), es, e3, e4,
      hp2.get (show N - 1 < N by omega), hv, Res.ok_bind, Bool.not_true, Bool.false_eq_true, if_false]
  · rw [d4, d3]
    beta_reduce
    split_ifs
    · rfl
    · rfl
    · omega

theorem natural_run_two (k : ℕ → Vec3 R) (p1 p2 p3 : Buf (Vec3 R)) (h1 : p1.Holds 2 k)
    (h2 : 1 ≤ p2.size) (h3 : 1 ≤ p3.size) (t : Vec3 R) (ht : (k 1 - k 0).div (3 : R) = .ok t) :
    ∃ p2' p3', naturalBezierSpline 2 p1 p2 p3 = .ok (true, p2', p3') ∧
      p2'.Holds 1 (fun _ => k 0 + t) ∧ p3'.Holds 1 (fun _ => k 1 - t) := by
  obtain ⟨p2', e2, s2, d2⟩ := Buf.set_data (b := p2) (i := 0) (k 0 + t) (by omega)
  obtain ⟨p3', e3, s3, d3⟩ := Buf.set_data (b := p3) (i := 0) (k 1 - t) (by omega)
  refine ⟨p2', p3', ?_, ⟨by omega, fun i hi => ?_⟩, ⟨by omega, fun i hi => ?_⟩⟩
  · simp only [naturalBezierSpline, if_pos (show 2 ≥ 2 by omega), h1.get (show 1 < 2 by omega),
      h1.get (show 0 < 2 by omega), ht, e2, e3, Res.ok_bind, if_true]
  · rw [d2, if_pos (by omega)]
  · rw [d3, if_pos (by omega)]

theorem clamped_run (N : ℕ) (hN : 2 ≤ N) (k q : ℕ → Vec3 R) (s e : Vec3 R) (p1 p2 p3 : Buf (Vec3 R))
    (h1 : p1.Holds (N + 1) k) (h3 : N ≤ p3.size)
    (hs : ∀ (A B C : Buf R) (Rb : Buf (Vec3 R)), (A.Holds (N - 1) fun _ => 1) →
      (B.Holds N fun i => if i = 0 then 1 else 4) → (C.Holds (N - 1) fun i => if i = 0 then 0 else 1) →
      (Rb.Holds N fun i => if i = N - 1 then e + k (N - 1) * (4 : R) else if i = 0 then s else
        k i * (4 : R) + k (i + 1) * (2 : R)) →
      ∃ p2', TriDiagonal.solve3 A B C Rb p2 N = .ok (true, p2') ∧ p2'.Holds N q) :
    ∃ p2' p3', bezierSpline (N + 1) p1 s e p2 p3 = .ok (true, p2', p3') ∧ p2'.Holds N q ∧
      p3'.Holds N (fun i => if i = N - 1 then e else k (i + 1) * (2 : R) - q (i + 1)) := by
  obtain ⟨a, b, c, e0, ha, hb, hc, da, db, dc⟩ := diag_loop (K := R) (N - 1) 1 4 1 (Buf.alloc (N - 1)) (Buf.alloc N)
    (Buf.alloc (N - 1)) le_rfl (by simp [Buf.alloc]) le_rfl
  simp only [Buf.alloc] at ha hb hc
  obtain ⟨b1, eb1, hb1, db1⟩ := Buf.set_data (b := b) (i := 0) (1 : R) (by omega)
  obtain ⟨b2, eb2, hb2, db2⟩ := Buf.set_data (b := b1) (i := N - 1) (4 : R) (by omega)
  obtain ⟨c1, ec1, hc1, dc1⟩ := Buf.set_data (b := c) (i := 0) (0 : R) (by omega)
  obtain ⟨r, er, hr, dr⟩ := rhs_run (m := N - 1) k (r := Buf.alloc N) 1 (N + 1) h1 (by omega) (by omega) (by simp [Buf.alloc])
  simp only [Buf.alloc] at hr
  obtain ⟨r1, er1, hr1, dr1⟩ := Buf.set_data (b := r) (i := 0) s (by omega)
  obtain ⟨r2, er2, hr2, dr2⟩ := Buf.set_data (b := r1) (i := N - 1) (e + k (N - 1) * (4 : R)) (by omega)
  obtain ⟨p2', es, hp2⟩ := hs a b2 c1 r2 ⟨by omega, da⟩
    ⟨by omega, fun i hi => by
      rw [db2, db1]
      beta_reduce
      split_ifs
      · omega
      · rfl
      · rfl
      · exact db i (by omega)⟩
    ⟨by omega, fun i hi => by
      rw [dc1]
      beta_reduce
      split_ifs
      · rfl
      · exact dc i hi⟩
    ⟨by omega, fun i hi => by
      rw [dr2, dr1, dr]
      beta_reduce
      split_ifs
      · rfl
      · rfl
      · rfl
      · omega⟩
  obtain ⟨p3', e3, hs3, d3⟩ := p3_run (m := N - 1) k q (p3 := p3) (N + 1) N h1 hp2 (by omega) (by omega) (by omega)
  obtain ⟨p4', e4, hs4, d4⟩ := Buf.set_data (b := p3') (i := N - 1) e (by omega)
  refine ⟨p2', p4', ?_, hp2, ⟨by omega, fun i hi => ?_⟩⟩
  · have e1' : N + 1 - 1 = N := rfl
    simp only [bezierSpline, if_pos (show N + 1 ≥ 2 by omega), if_neg (show ¬ N + 1 = 2 by omega), e1', e0, eb1,
      eb2, ec1, er, er1, er2, h1.get (show N - 1 < N + 1 by omega), es, e3, e4, Res.ok_bind, Bool.not_true,
      Bool.false_eq_true, if_false]
  · rw [d4, d3]
    beta_reduce
    split_ifs
    · rfl
    · rfl
    · omega

theorem clamped_run_two (k : ℕ → Vec3 R) (s e : Vec3 R) (p1 p2 p3 : Buf (Vec3 R)) (h1 : p1.Holds 2 k)
    (h2 : 1 ≤ p2.size) (h3 : 1 ≤ p3.size) (t : Vec3 R) (ht : (k 1 - k 0).div (3 : R) = .ok t) :
    ∃ p2' p3', bezierSpline 2 p1 s e p2 p3 = .ok (true, p2', p3') ∧
      p2'.Holds 1 (fun _ => s) ∧ p3'.Holds 1 (fun _ => e) := by
  obtain ⟨p2', e2, s2, d2⟩ := Buf.set_data (b := p2) (i := 0) s (by omega)
  obtain ⟨p3', e3, s3, d3⟩ := Buf.set_data (b := p3) (i := 0) e (by omega)
  refine ⟨p2', p3', ?_, ⟨by omega, fun i hi => ?_⟩, ⟨by omega, fun i hi => ?_⟩⟩
  · simp only [bezierSpline, if_pos (show 2 ≥ 2 by omega), h1.get (show 1 < 2 by omega),
      h1.get (show 0 < 2 by omega), ht, e2, e3, Res.ok_bind, if_true]
  · rw [d2, if_pos (by omega)]
  · rw [d3, if_pos (by omega)]

end SplineSolver3
end MathLib
