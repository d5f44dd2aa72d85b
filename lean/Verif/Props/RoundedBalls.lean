import Verif.Props.IeeeCenter
import Verif.Props.Balls
import Verif.Props.RoundedVectors
import Verif.Proof.IeeeVec

/-! # Property C152: bounding balls in floating point

`set` computes the radius with the same operations as `contains` computes the distance, so rounding cannot push a
point out of the ball, not even when the squares overflow. -/

namespace MathLib
open Ieee

/-! ## Sphere -/

section
variable {R : Type} [Zero R] [One R] [NatCast R] [Add R] [Sub R] [Mul R] [Div R] [LT R] [DecidableLT R] [LE R] [DecidableLE R]
  [MathFns R]

/-- what the two loops of `set` keep true holds of the result -/
theorem Sphere.set_rule {mem : Mem R} {a : ℕ} {stride : ℤ} {count : ℕ} {q : ℕ → Vec3 R} (hc : 0 < count)
    (h : mem.PointsAt3 a stride count q) (Inv : ℕ → Vec3 R × Vec3 R → Prop) (h1 : Inv 1 (q 0, q 0))
    (hs : ∀ i r, i < count → Inv i r → Inv (i + 1) (boundStep3 r (q i))) (J : Vec3 R → ℕ → R → Prop)
    (j0 : ∀ c, J c 0 0) (js : ∀ b, Inv count b → ∀ i r, i < count → J ((b.1 + b.2) * (1 / 2 : R)) i r →
      J ((b.1 + b.2) * (1 / 2 : R)) (i + 1)
        (if (q i - (b.1 + b.2) * (1 / 2 : R)).lengthSqr > r then (q i - (b.1 + b.2) * (1 / 2 : R)).lengthSqr else r)) :
    ∃ (b : Vec3 R × Vec3 R) (r2 : R), Inv count b ∧ J ((b.1 + b.2) * (1 / 2 : R)) count r2 ∧
      (0 < stride → Sphere.setStrided mem a count stride = Sphere.mk' ((b.1 + b.2) * (1 / 2 : R)) (MathFns.sqrt r2)) ∧
      (stride = 3 * mem.sz → Sphere.set mem a count = Sphere.mk' ((b.1 + b.2) * (1 / 2 : R)) (MathFns.sqrt r2)) := by
  obtain ⟨⟨inf, sup⟩, e, hb⟩ := bounds3_rule hc h Inv h1 hs
  obtain ⟨⟨r2, u⟩, e2, h2, -⟩ := loop_rule (f := fun _ (x : R × ℤ) => do
        let v ← mem.vec3At x.2
        let r2 := (v - (inf + sup) * (1 / 2 : R)).lengthSqr
        .ok (if r2 > x.1 then r2 else x.1, x.2 + stride)) (lo := 0) (hi := count) (s := ((0 : R), (a : ℤ)))
    (fun i s => J ((inf + sup) * (1 / 2 : R)) i s.1 ∧ s.2 = a + i * stride) (Nat.zero_le _) ⟨j0 _, by simp⟩ (by
      rintro i ⟨r, u⟩ - hi ⟨hj, hu⟩
      simp only at hj hu
      refine ⟨_, by simp only [hu, h.read hi, bind, Except.bind]; rfl, js _ hb i r hi hj, ?_⟩
      simp only; push_cast; ring)
  refine ⟨(inf, sup), r2, hb, h2, fun h0 => ?_, fun h0 => ?_⟩
  · unfold Sphere.setStrided
    rw [if_neg (by simp; omega)]
    simp only [bind, Except.bind, Int.toNat_natCast] at e2 ⊢
    simp only [e, e2]
  · subst h0
    unfold Sphere.set
    simp only [bind, Except.bind, Int.toNat_natCast] at e2 ⊢
    simp only [e, e2]
end

/-! ## Circle -/

section
variable {R : Type} [Zero R] [One R] [NatCast R] [Add R] [Sub R] [Mul R] [Div R] [LT R] [DecidableLT R] [LE R] [DecidableLE R]
  [MathFns R]

/-- what the two loops of `set` keep true holds of the result -/
theorem Circle.set_rule {mem : Mem R} {a : ℕ} {stride : ℤ} {count : ℕ} {q : ℕ → Vec2 R} (hc : 0 < count)
    (h : mem.PointsAt2 a stride count q) (Inv : ℕ → Vec2 R × Vec2 R → Prop) (h1 : Inv 1 (q 0, q 0))
    (hs : ∀ i r, i < count → Inv i r → Inv (i + 1) (boundStep2 r (q i))) (J : Vec2 R → ℕ → R → Prop)
    (j0 : ∀ c, J c 0 0) (js : ∀ b, Inv count b → ∀ i r, i < count → J ((b.1 + b.2) * (1 / 2 : R)) i r →
      J ((b.1 + b.2) * (1 / 2 : R)) (i + 1)
        (if (q i - (b.1 + b.2) * (1 / 2 : R)).lengthSqr > r then (q i - (b.1 + b.2) * (1 / 2 : R)).lengthSqr else r)) :
    ∃ (b : Vec2 R × Vec2 R) (r2 : R), Inv count b ∧ J ((b.1 + b.2) * (1 / 2 : R)) count r2 ∧
      (0 < stride → Circle.setStrided mem a count stride = Circle.mk' ((b.1 + b.2) * (1 / 2 : R)) (MathFns.sqrt r2)) ∧
      (stride = 2 * mem.sz → Circle.set mem a count = Circle.mk' ((b.1 + b.2) * (1 / 2 : R)) (MathFns.sqrt r2)) := by
  obtain ⟨⟨inf, sup⟩, e, hb⟩ := bounds2_rule hc h Inv h1 hs
  obtain ⟨⟨r2, u⟩, e2, h2, -⟩ := loop_rule (f := fun _ (x : R × ℤ) => do
        let v ← mem.vec2At x.2
        let r2 := (v - (inf + sup) * (1 / 2 : R)).lengthSqr
        .ok (if r2 > x.1 then r2 else x.1, x.2 + stride)) (lo := 0) (hi := count) (s := ((0 : R), (a : ℤ)))
    (fun i s => J ((inf + sup) * (1 / 2 : R)) i s.1 ∧ s.2 = a + i * stride) (Nat.zero_le _) ⟨j0 _, by simp⟩ (by
      rintro i ⟨r, u⟩ - hi ⟨hj, hu⟩
      simp only at hj hu
      refine ⟨_, by simp only [hu, h.read hi, bind, Except.bind]; rfl, js _ hb i r hi hj, ?_⟩
      simp only; push_cast; ring)
  refine ⟨(inf, sup), r2, hb, h2, fun h0 => ?_, fun h0 => ?_⟩
  · unfold Circle.setStrided
    rw [if_neg (by simp; omega)]
    simp only [bind, Except.bind, Int.toNat_natCast] at e2 ⊢
    simp only [e, e2]
  · subst h0
    unfold Circle.set
    simp only [bind, Except.bind, Int.toNat_natCast] at e2 ⊢
    simp only [e, e2]
end

section
variable {p : ℕ} {emax : ℤ}

/-- not NaN: finite or infinite -/
private def Num (a : Ieee ℝ p emax) : Prop := (∃ t, a = inf t) ∨ ∃ x, a.fin? = some x

private theorem num_sub {a b : Ieee ℝ p emax} {x : ℝ} (ha : a.fin? = some x) (hb : Num b) : Num (a - b) := by
  rcases hb with ⟨t, rfl⟩ | ⟨y, hy⟩
  · left; rcases fin?_cases ha with ⟨s, rfl, -⟩ | rfl <;> exact ⟨_, rfl⟩
  · rcases sub_cases ha hy with ⟨t, h, -⟩ | ⟨h, -⟩
    · exact Or.inl ⟨t, h⟩
    · exact Or.inr ⟨_, h⟩

private theorem num_sq {a : Ieee ℝ p emax} (h : Num a) : NN (a * a) := by
  rcases h with ⟨t, rfl⟩ | ⟨x, h⟩
  · rw [inf_sq]; exact Or.inl rfl
  · exact sq_nn h

private theorem neg_sq (a : Ieee ℝ p emax) : -a * -a = a * a := by
  rcases a with _ | s | s | v
  · rfl
  · cases s <;> rfl
  · cases s <;> rfl
  · change Ieee.round (-v * -v) false = Ieee.round (v * v) false
    rw [neg_mul_neg]

private theorem round_swap (x : ℝ) (s t : Bool) :
    (Ieee.round (-x) s : Ieee ℝ p emax) * Ieee.round (-x) s = Ieee.round x t * Ieee.round x t := by
  simp only [Ieee.round, grid_neg, abs_neg, neg_eq_zero]
  split_ifs with h1 h2 h3
  · rw [inf_sq, inf_sq]
  · cases s <;> cases t <;> rfl
  · generalize decide (-x < 0) = a
    generalize decide (x < 0) = b
    cases a <;> cases b <;> rfl
  · exact neg_sq (num (grid p emax x))

/-- the square of a difference does not depend on the order -/
private theorem sq_swap {a b : Ieee ℝ p emax} {x : ℝ} (ha : a.fin? = some x) (hb : Num b) :
    (b - a) * (b - a) = (a - b) * (a - b) := by
  rcases hb with ⟨t, rfl⟩ | ⟨y, hy⟩
  · rcases fin?_cases ha with ⟨s, rfl, -⟩ | rfl
    · change inf t * inf t = inf (!t) * inf (!t); rw [inf_sq, inf_sq]
    · change inf t * inf t = inf (!t) * inf (!t); rw [inf_sq, inf_sq]
  · rcases fin?_cases ha with ⟨s, rfl, rfl⟩ | rfl <;> rcases fin?_cases hy with ⟨t, rfl, rfl⟩ | rfl
    · cases s <;> cases t <;> rfl
    · change Ieee.round y false * Ieee.round y false = Ieee.round (-y) false * Ieee.round (-y) false
      rw [round_swap y false false]
    · exact round_swap x false false
    · change Ieee.round (y + -x) false * Ieee.round (y + -x) false = Ieee.round (x + -y) false * Ieee.round (x + -y) false
      rw [show y + -x = -(x + -y) by ring]
      exact round_swap _ false false

private theorem round_le (hp : 1 ≤ p) {x y : ℝ} (h0 : 0 ≤ x) (h : x ≤ y) (s t : Bool) :
    (Ieee.round x s : Ieee ℝ p emax) ≤ Ieee.round y t := by
  rcases round_cases (p := p) (emax := emax) x s with ⟨w, e, h1, h2⟩ | ⟨h1, h2⟩
  · have gy := h1.trans_eq (abs_of_nonneg (grid_nonneg h0)) |>.trans (grid_mono (p := p) (emax := emax) hp h) |>.trans
      (le_abs_self _)
    have : (Ieee.round y t : Ieee ℝ p emax) = inf false := by
      simp only [Ieee.round, if_pos gy, decide_eq_false (not_lt.2 (h0.trans h))]
    rw [e, this, h2, decide_eq_false (not_lt.2 h0)]
    rfl
  · exact (le_round h1 h2 y t).2 (grid_mono hp h)

private theorem sqrt_fin {a : Ieee ℝ p emax} {x : ℝ} (ha : a.fin? = some x) (h0 : 0 ≤ x) :
    ∃ s, MathFns.sqrt a = Ieee.round (√x) s := by
  rcases fin?_cases ha with ⟨s, rfl, rfl⟩ | rfl
  · refine ⟨s, ?_⟩
    rw [Real.sqrt_zero]
    have : ¬ (2 : ℝ) ^ (emax + 1) ≤ 0 := not_le.2 (zpow2_pos _)
    simp only [Ieee.round, grid_zero, abs_zero, this, if_false, if_true]
    rfl
  · refine ⟨false, ?_⟩
    change (if x < 0 then nan else Ieee.round (√x) false) = _
    rw [if_neg (not_lt.2 h0)]

private theorem nn_le_inf {a : Ieee ℝ p emax} (h : NN a) : a ≤ inf false := by
  rcases h with rfl | ⟨x, hx, -⟩
  · rfl
  · rcases fin?_cases hx with ⟨s, rfl, -⟩ | rfl <;> rfl

private theorem sqrt_nn {a : Ieee ℝ p emax} (h : NN a) : NN (MathFns.sqrt a) := by
  rcases h with rfl | ⟨x, hx, h0⟩
  · exact Or.inl rfl
  · obtain ⟨s, e⟩ := sqrt_fin hx h0
    rw [e]; exact round_nn (Real.sqrt_nonneg _) _

private theorem sqrt_le (hp : 1 ≤ p) {a b : Ieee ℝ p emax} (ha : NN a) (hb : NN b) (h : a ≤ b) :
    MathFns.sqrt a ≤ MathFns.sqrt b := by
  rcases hb with rfl | ⟨y, hy, -⟩
  · exact nn_le_inf (sqrt_nn ha)
  rcases ha with rfl | ⟨x, hx, hx0⟩
  · exfalso
    rcases fin?_cases hy with ⟨s, rfl, -⟩ | rfl <;> exact Bool.false_ne_true h
  have hxy := (le_fin hx hy).1 h
  obtain ⟨s, e⟩ := sqrt_fin hx hx0
  obtain ⟨t, e'⟩ := sqrt_fin hy (hx0.trans hxy)
  rw [e, e']
  exact round_le hp (Real.sqrt_nonneg _) (Real.sqrt_le_sqrt hxy) _ _

private theorem nn_zero_le {a : Ieee ℝ p emax} (h : NN a) : a ≥ 0 := by
  rcases h with rfl | ⟨x, hx, h0⟩
  · rfl
  · exact (le_fin rfl hx).2 h0

private theorem num_mid (hp : 1 ≤ p) (he : 2 ≤ emax) {a b : Ieee ℝ p emax} {x y : ℝ} (ha : a.fin? = some x)
    (hb : b.fin? = some y) : Num ((a + b) * (1 / 2)) := by
  rcases add_cases ha hb with ⟨t, h, -⟩ | ⟨h, h'⟩
  · rw [h, half_eq hp he]; exact Or.inl ⟨_, rfl⟩
  · exact Or.inr ⟨_, half_cases hp he h h'⟩

private theorem le_of_nn {a b : Ieee ℝ p emax} (ha : NN a) (hb : NN b) (h : ¬ a > b) : a ≤ b := by
  have na : a ≠ nan := by rintro rfl; rcases ha with h | ⟨x, h, -⟩ <;> cases h
  have nb : b ≠ nan := by rintro rfl; rcases hb with h | ⟨x, h, -⟩ <;> cases h
  exact Ieee.le_of_not nb na h

private theorem nn_refl {a : Ieee ℝ p emax} (ha : NN a) : a ≤ a :=
  NotNaN.refl (by rintro rfl; rcases ha with h | ⟨x, h, -⟩ <;> cases h)

/-- a step of the search for the greatest square -/
private theorem max_step {f : ℕ → Ieee ℝ p emax} {i : ℕ} {r : Ieee ℝ p emax} (hf : NN (f i))
    (h : NN r ∧ ∀ j < i, f j ≤ r) :
    NN (if f i > r then f i else r) ∧ ∀ j < i + 1, f j ≤ if f i > r then f i else r := by
  split_ifs with hc
  · refine ⟨hf, fun j hj => ?_⟩
    rcases Nat.lt_succ_iff_lt_or_eq.1 hj with hj | rfl
    · exact Ieee.trans (h.2 j hj) (Ieee.le_of_lt' hc)
    · exact nn_refl hf
  · refine ⟨h.1, fun j hj => ?_⟩
    rcases Nat.lt_succ_iff_lt_or_eq.1 hj with hj | rfl
    · exact h.2 j hj
    · exact le_of_nn hf h.1 hc

/-- one of two finite numbers is finite -/
private theorem fin_ite {P : Prop} [Decidable P] {a b : Ieee ℝ p emax} (ha : ∃ x, a.fin? = some x)
    (hb : ∃ x, b.fin? = some x) : ∃ x, (if P then a else b).fin? = some x := by
  split_ifs
  · exact ha
  · exact hb

/-- all coordinates are finite -/
def Vec2.IsFin (v : Vec2 (Ieee ℝ p emax)) : Prop := (∃ x, v.x.fin? = some x) ∧ ∃ y, v.y.fin? = some y
def Vec3.IsFin (v : Vec3 (Ieee ℝ p emax)) : Prop :=
  (∃ x, v.x.fin? = some x) ∧ (∃ y, v.y.fin? = some y) ∧ ∃ z, v.z.fin? = some z

/-- Finite points, however large or small: both forms of `set` succeed and the ball contains every point. -/
theorem C152_sphere (hp : 1 ≤ p) (he : 2 ≤ emax) (mem : Mem (Ieee ℝ p emax)) (a count : ℕ) (stride : ℤ)
    (q : ℕ → Vec3 (Ieee ℝ p emax)) (hc : 0 < count) (h : mem.PointsAt3 a stride count q) (hq : ∀ i < count, (q i).IsFin) :
    ∃ s : Sphere (Ieee ℝ p emax), (0 < stride → Sphere.setStrided mem a count stride = .ok s) ∧
      (stride = 3 * mem.sz → Sphere.set mem a count = .ok s) ∧ ∀ i < count, s.contains (q i) = true := by
  have key : ∀ b : Vec3 (Ieee ℝ p emax) × Vec3 (Ieee ℝ p emax), b.1.IsFin ∧ b.2.IsFin → ∀ i < count,
      NN (q i - (b.1 + b.2) * (1 / 2 : Ieee ℝ p emax)).lengthSqr ∧
      distance3 (q i) ((b.1 + b.2) * (1 / 2 : Ieee ℝ p emax)) =
        MathFns.sqrt (q i - (b.1 + b.2) * (1 / 2 : Ieee ℝ p emax)).lengthSqr := by
    rintro ⟨b1, b2⟩ ⟨⟨⟨x1, h1⟩, ⟨y1, k1⟩, ⟨z1, l1⟩⟩, ⟨⟨x2, h2⟩, ⟨y2, k2⟩, ⟨z2, l2⟩⟩⟩ i hi
    obtain ⟨⟨x, hx⟩, ⟨y, hy⟩, ⟨z, hz⟩⟩ := hq i hi
    have nx := num_mid hp he h1 h2
    have ny := num_mid hp he k1 k2
    have nz := num_mid hp he l1 l2
    refine ⟨add_nn (add_nn (num_sq (num_sub hx nx)) (num_sq (num_sub hy ny))) (num_sq (num_sub hz nz)), ?_⟩
    change MathFns.sqrt (_ + _ + _) = MathFns.sqrt (_ + _ + _)
    exact congrArg MathFns.sqrt (congrArg₂ _ (congrArg₂ _ (sq_swap hx nx) (sq_swap hy ny)) (sq_swap hz nz))
  obtain ⟨b, r2, hb, hJ, e1, e2⟩ := Sphere.set_rule hc h (fun _ b => b.1.IsFin ∧ b.2.IsFin) ⟨hq 0 hc, hq 0 hc⟩
    (fun i r hi hr => by
      obtain ⟨⟨x1, y1, z1⟩, ⟨x2, y2, z2⟩⟩ := hr
      obtain ⟨x, y, z⟩ := hq i hi
      rw [boundStep3_if]
      exact ⟨⟨fin_ite x x1, fin_ite y y1, fin_ite z z1⟩, ⟨fin_ite x x2, fin_ite y y2, fin_ite z z2⟩⟩)
    (fun c i r => (∀ j < count, NN (q j - c).lengthSqr) → NN r ∧ ∀ j < i, (q j - c).lengthSqr ≤ r)
    (fun c _ => ⟨Or.inr ⟨0, rfl, le_rfl⟩, by simp⟩)
    (fun b hb i r hi hj hn => max_step (f := fun i => (q i - (b.1 + b.2) * (1 / 2 : Ieee ℝ p emax)).lengthSqr) (hn i hi) (hj hn))
  obtain ⟨hr, hle⟩ := hJ fun j hj => (key b hb j hj).1
  have hmk : Sphere.mk' ((b.1 + b.2) * (1 / 2 : Ieee ℝ p emax)) (MathFns.sqrt r2) = .ok ⟨_, MathFns.sqrt r2⟩ :=
    if_pos (nn_zero_le (sqrt_nn hr))
  refine ⟨⟨_, MathFns.sqrt r2⟩, fun h0 => (e1 h0).trans hmk, fun h0 => (e2 h0).trans hmk, fun i hi => decide_eq_true ?_⟩
  rw [(key b hb i hi).2]
  exact sqrt_le hp (key b hb i hi).1 hr (hle i hi)

/-- The same in the plane. -/
theorem C152_circle (hp : 1 ≤ p) (he : 2 ≤ emax) (mem : Mem (Ieee ℝ p emax)) (a count : ℕ) (stride : ℤ)
    (q : ℕ → Vec2 (Ieee ℝ p emax)) (hc : 0 < count) (h : mem.PointsAt2 a stride count q) (hq : ∀ i < count, (q i).IsFin) :
    ∃ s : Circle (Ieee ℝ p emax), (0 < stride → Circle.setStrided mem a count stride = .ok s) ∧
      (stride = 2 * mem.sz → Circle.set mem a count = .ok s) ∧ ∀ i < count, s.contains (q i) = true := by
  have key : ∀ b : Vec2 (Ieee ℝ p emax) × Vec2 (Ieee ℝ p emax), b.1.IsFin ∧ b.2.IsFin → ∀ i < count,
      NN (q i - (b.1 + b.2) * (1 / 2 : Ieee ℝ p emax)).lengthSqr ∧
      distance2 (q i) ((b.1 + b.2) * (1 / 2 : Ieee ℝ p emax)) =
        MathFns.sqrt (q i - (b.1 + b.2) * (1 / 2 : Ieee ℝ p emax)).lengthSqr := by
    rintro ⟨b1, b2⟩ ⟨⟨⟨x1, h1⟩, ⟨y1, k1⟩⟩, ⟨⟨x2, h2⟩, ⟨y2, k2⟩⟩⟩ i hi
    obtain ⟨⟨x, hx⟩, ⟨y, hy⟩⟩ := hq i hi
    have nx := num_mid hp he h1 h2
    have ny := num_mid hp he k1 k2
    refine ⟨add_nn (num_sq (num_sub hx nx)) (num_sq (num_sub hy ny)), ?_⟩
    change MathFns.sqrt (_ + _) = MathFns.sqrt (_ + _)
    exact congrArg MathFns.sqrt (congrArg₂ _ (sq_swap hx nx) (sq_swap hy ny))
  obtain ⟨b, r2, hb, hJ, e1, e2⟩ := Circle.set_rule hc h (fun _ b => b.1.IsFin ∧ b.2.IsFin) ⟨hq 0 hc, hq 0 hc⟩
    (fun i r hi hr => by
      obtain ⟨⟨x1, y1⟩, ⟨x2, y2⟩⟩ := hr
      obtain ⟨x, y⟩ := hq i hi
      rw [boundStep2_if]
      exact ⟨⟨fin_ite x x1, fin_ite y y1⟩, ⟨fin_ite x x2, fin_ite y y2⟩⟩)
    (fun c i r => (∀ j < count, NN (q j - c).lengthSqr) → NN r ∧ ∀ j < i, (q j - c).lengthSqr ≤ r)
    (fun c _ => ⟨Or.inr ⟨0, rfl, le_rfl⟩, by simp⟩)
    (fun b hb i r hi hj hn => max_step (f := fun i => (q i - (b.1 + b.2) * (1 / 2 : Ieee ℝ p emax)).lengthSqr) (hn i hi) (hj hn))
  obtain ⟨hr, hle⟩ := hJ fun j hj => (key b hb j hj).1
  have hmk : Circle.mk' ((b.1 + b.2) * (1 / 2 : Ieee ℝ p emax)) (MathFns.sqrt r2) = .ok ⟨_, MathFns.sqrt r2⟩ :=
    if_pos (nn_zero_le (sqrt_nn hr))
  refine ⟨⟨_, MathFns.sqrt r2⟩, fun h0 => (e1 h0).trans hmk, fun h0 => (e2 h0).trans hmk, fun i hi => decide_eq_true ?_⟩
  rw [(key b hb i hi).2]
  exact sqrt_le hp (key b hb i hi).1 hr (hle i hi)
end

/-! ## Accuracy -/

section
variable {rnd : ℝ → ℝ} {u : ℝ}

private theorem half_num (hr : IsRel rnd u) : ∃ h, (1 / 2 : Fl ℝ rnd) = .num h := by
  have : (2 : Fl ℝ rnd) = .num (rnd 2) := by change Fl.num (rnd ((2 : ℕ) : ℝ)) = _; norm_num
  have h2 : rnd 2 ≠ 0 := fun h => by
    have := hr.err 2
    rw [h] at this
    norm_num at this
    linarith [hr.lt_one]
  exact ⟨_, by rw [this]; change (Fl.num 1 : Fl ℝ rnd) / _ = _; rw [Fl.num_div, if_neg h2]⟩

private theorem sqrt_num (hr : IsRel rnd u) {x : ℝ} (h : 0 ≤ x) :
    ∃ r, MathFns.sqrt (.num x : Fl ℝ rnd) = .num r ∧ √x * (1 - u) ≤ r ∧ 0 ≤ r := by
  obtain ⟨θ, hθ, e⟩ := hr.fac (√x)
  refine ⟨rnd √x, ?_, ?_, ?_⟩
  · change (if x < 0 then _ else Fl.num (rnd √x)) = _
    rw [if_neg (not_lt.2 h)]
  · rw [e]
    refine mul_le_mul_of_nonneg_left ?_ (Real.sqrt_nonneg _)
    simpa using hθ.1
  · rw [e]; exact mul_nonneg (Real.sqrt_nonneg _) (hθ.pos hr.lt_one).le

/-- the radius from the greatest of the rounded squares -/
private theorem radius_of (hr : IsRel rnd u) {count : ℕ} (hc : 0 < count) {d : ℕ → ℝ} (hd : ∀ i, 0 ≤ d i) {m k : ℕ}
    (hm : m ≤ 2 * k) {f : ℕ → Fl ℝ rnd} (hf : ∀ i < count, Rel u m (d i * d i) (f i)) {ρ : ℝ} (h0 : 0 ≤ ρ)
    (hle : ∀ i < count, f i ≤ .num ρ) (hex : ρ = 0 ∨ ∃ i < count, f i = .num ρ) :
    ∃ r, MathFns.sqrt (.num ρ : Fl ℝ rnd) = .num r ∧ 0 ≤ r ∧ (∀ i < count, d i * (1 - u) ^ (k + 1) ≤ r) ∧
      ∃ i < count, r * (1 - u) ^ (k + 1) ≤ d i := by
  have g1 : 0 ≤ 1 - u := by linarith [hr.lt_one]
  obtain ⟨r, e, hr1, hr0⟩ := sqrt_num hr h0
  have low : ∀ i < count, d i * (1 - u) ^ k ≤ √ρ := fun i hi => by
    obtain ⟨θ, hθ, e⟩ := hf i hi
    have h1 := hle i hi
    rw [e, Fl.num_le] at h1
    refine Real.le_sqrt_of_sq_le (le_trans ?_ h1)
    have h2 : (1 - u) ^ (2 * k) ≤ θ := (pow_le_pow_of_le_one g1 (by linarith [hr.nonneg]) hm).trans hθ.1
    calc (d i * (1 - u) ^ k) ^ 2 = d i * d i * (1 - u) ^ (2 * k) := by rw [pow_mul']; ring
      _ ≤ _ := mul_le_mul_of_nonneg_left h2 (mul_self_nonneg _)
  refine ⟨r, e, hr0, fun i hi => ?_, ?_⟩
  · rw [pow_succ, ← mul_assoc]
    exact (mul_le_mul_of_nonneg_right (low i hi) g1).trans hr1
  · rcases hex with rfl | ⟨i, hi, hfi⟩
    · refine ⟨0, hc, ?_⟩
      obtain ⟨θ, -, e'⟩ := Rel.sqrt hr (Rel.exact hr 0) le_rfl (m := 0) (k := 1)
      rw [e, Real.sqrt_zero, zero_mul] at e'
      cases e'
      rw [zero_mul]
      exact hd 0
    · refine ⟨i, hi, ?_⟩
      have := hf i hi
      rw [hfi] at this
      obtain ⟨θ, hθ, e'⟩ := Rel.sqrt hr this (mul_self_nonneg _) hm (k := k + 1)
      rw [e, Real.sqrt_mul_self (hd i)] at e'
      cases e'
      rw [mul_assoc]
      exact mul_le_of_le_one_right (hd i) hθ.2

/-- the loop that takes the greatest square -/
private theorem max_num {f : ℕ → Fl ℝ rnd} {i : ℕ} {r : Fl ℝ rnd} (hi : ∃ v, f i = .num v)
    (h : ∃ ρ, r = .num ρ ∧ 0 ≤ ρ ∧ (∀ j < i, f j ≤ .num ρ) ∧ (ρ = 0 ∨ ∃ j < i, f j = .num ρ)) :
    ∃ ρ, (if f i > r then f i else r) = .num ρ ∧ 0 ≤ ρ ∧ (∀ j < i + 1, f j ≤ .num ρ) ∧
      (ρ = 0 ∨ ∃ j < i + 1, f j = .num ρ) := by
  obtain ⟨v, hv⟩ := hi
  obtain ⟨ρ, rfl, h0, h1, h2⟩ := h
  by_cases hc : ρ < v
  · refine ⟨v, ?_, h0.trans hc.le, fun j hj => ?_, .inr ⟨i, Nat.lt_succ_self i, hv⟩⟩
    · rw [hv, if_pos (show (Fl.num ρ : Fl ℝ rnd) < .num v from (Fl.num_lt _ _).2 hc)]
    · rcases Nat.lt_succ_iff_lt_or_eq.1 hj with hj | rfl
      · have := h1 j hj
        revert this
        cases f j with
        | nan => exact id
        | num w => exact fun h => (Fl.num_le _ _).2 (((Fl.num_le _ _).1 h).trans hc.le)
      · rw [hv]; exact (Fl.num_le _ _).2 le_rfl
  · refine ⟨ρ, ?_, h0, fun j hj => ?_, h2.imp_right fun ⟨j, hj, e⟩ => ⟨j, Nat.lt_succ_of_lt hj, e⟩⟩
    · rw [hv, if_neg (show ¬ (Fl.num ρ : Fl ℝ rnd) < .num v from fun h => hc ((Fl.num_lt _ _).1 h))]
    · rcases Nat.lt_succ_iff_lt_or_eq.1 hj with hj | rfl
      · exact h1 j hj
      · rw [hv]; exact (Fl.num_le _ _).2 (not_lt.1 hc)

private theorem num_ite {P : Prop} [Decidable P] {a b : Fl ℝ rnd} (ha : ∃ x, a = .num x) (hb : ∃ x, b = .num x) :
    ∃ x, (if P then a else b) = .num x := by split_ifs <;> assumption

/-- The ball of given numbers, with a relative error `u` in every operation: the distance of a point from the centre
that was returned exceeds the radius that was returned by at most four relative errors, and some point is that close
to the boundary. -/
theorem C152_sphere_error (hr : IsRel rnd u) (mem : Mem (Fl ℝ rnd)) (a count : ℕ) (stride : ℤ)
    (q : ℕ → Vec3 ℝ) (hc : 0 < count) (h : mem.PointsAt3 a stride count fun i => Vec3.num (q i)) :
    ∃ (c : Vec3 ℝ) (r : ℝ), (0 < stride → Sphere.setStrided mem a count stride = .ok ⟨Vec3.num c, .num r⟩) ∧
      (stride = 3 * mem.sz → Sphere.set mem a count = .ok ⟨Vec3.num c, .num r⟩) ∧
      (∀ i < count, dist (q i).toE c.toE * (1 - u) ^ 4 ≤ r) ∧
      ∃ i < count, r * (1 - u) ^ 4 ≤ dist (q i).toE c.toE := by
  obtain ⟨hf, hhf⟩ := half_num hr
  have cen : ∀ b : Vec3 (Fl ℝ rnd) × Vec3 (Fl ℝ rnd), (∃ v w, b = (Vec3.num v, Vec3.num w)) →
      ∃ c, (b.1 + b.2) * (1 / 2 : Fl ℝ rnd) = Vec3.num c := by
    rintro _ ⟨v, w, rfl⟩
    exact ⟨⟨rnd (rnd (v.x + w.x) * hf), rnd (rnd (v.y + w.y) * hf), rnd (rnd (v.z + w.z) * hf)⟩, by rw [hhf]; rfl⟩
  have rel : ∀ (c : Vec3 ℝ) i, Rel u 5 (dist (q i).toE c.toE * dist (q i).toE c.toE)
      ((Vec3.num (q i) : Vec3 (Fl ℝ rnd)) - Vec3.num c).lengthSqr := fun c i => by
    rw [← sq, ← Sphere.lengthSqr_sub]
    exact Rel.add hr (Rel.add hr (rel_dsq hr _ _) (rel_dsq hr _ _) (mul_self_nonneg _) (mul_self_nonneg _) (k := 4))
      (rel_dsq hr _ _) (add_nonneg (mul_self_nonneg _) (mul_self_nonneg _)) (mul_self_nonneg _)
  obtain ⟨b, r2, hb, hJ, e1, e2⟩ := Sphere.set_rule hc h (fun _ b => ∃ v w, b = (Vec3.num v, Vec3.num w))
    ⟨_, _, rfl⟩
    (fun i r hi hr => by
      obtain ⟨v, w, rfl⟩ := hr
      rw [boundStep3_if]
      obtain ⟨x, hx⟩ := num_ite (P := (.num (q i).x : Fl ℝ rnd) < .num v.x) ⟨(q i).x, rfl⟩ ⟨v.x, rfl⟩
      obtain ⟨y, hy⟩ := num_ite (P := (.num (q i).y : Fl ℝ rnd) < .num v.y) ⟨(q i).y, rfl⟩ ⟨v.y, rfl⟩
      obtain ⟨z, hz⟩ := num_ite (P := (.num (q i).z : Fl ℝ rnd) < .num v.z) ⟨(q i).z, rfl⟩ ⟨v.z, rfl⟩
      obtain ⟨x', hx'⟩ := num_ite (P := (.num w.x : Fl ℝ rnd) < .num (q i).x) ⟨(q i).x, rfl⟩ ⟨w.x, rfl⟩
      obtain ⟨y', hy'⟩ := num_ite (P := (.num w.y : Fl ℝ rnd) < .num (q i).y) ⟨(q i).y, rfl⟩ ⟨w.y, rfl⟩
      obtain ⟨z', hz'⟩ := num_ite (P := (.num w.z : Fl ℝ rnd) < .num (q i).z) ⟨(q i).z, rfl⟩ ⟨w.z, rfl⟩
      exact ⟨⟨x, y, z⟩, ⟨x', y', z'⟩, Prod.ext (Vec3.ext hx hy hz) (Vec3.ext hx' hy' hz')⟩)
    (fun c i r => ∀ c', c = Vec3.num c' → ∃ ρ, r = .num ρ ∧ 0 ≤ ρ ∧
      (∀ j < i, (Vec3.num (q j) - c).lengthSqr ≤ .num ρ) ∧ (ρ = 0 ∨ ∃ j < i, (Vec3.num (q j) - c).lengthSqr = .num ρ))
    (fun c c' _ => ⟨0, rfl, le_rfl, by simp, .inl rfl⟩)
    (fun b hb i r hi hj c' hc' => max_num (f := fun i => (Vec3.num (q i) - (b.1 + b.2) * (1 / 2 : Fl ℝ rnd)).lengthSqr)
      (by obtain ⟨θ, -, e⟩ := rel c' i; exact ⟨_, by rw [hc', e]⟩) (hj c' hc'))
  obtain ⟨c, hcn⟩ := cen b hb
  rw [hcn] at hJ e1 e2
  obtain ⟨ρ, rfl, h0, hle, hex⟩ := hJ c rfl
  obtain ⟨r, er, r0, k1, k2⟩ := radius_of hr hc (d := fun i => dist (q i).toE c.toE) (fun _ => dist_nonneg)
    (m := 5) (k := 3) (by norm_num) (fun i _ => rel c i) h0 hle hex
  have hmk : Sphere.mk' (Vec3.num c : Vec3 (Fl ℝ rnd)) (MathFns.sqrt (.num ρ)) = .ok ⟨Vec3.num c, .num r⟩ := by
    rw [er]; exact if_pos ((Fl.num_le _ _).2 r0)
  exact ⟨c, r, fun h => (e1 h).trans hmk, fun h => (e2 h).trans hmk, k1, k2⟩

/-- The same in the plane, with three relative errors. -/
theorem C152_circle_error (hr : IsRel rnd u) (mem : Mem (Fl ℝ rnd)) (a count : ℕ) (stride : ℤ)
    (q : ℕ → Vec2 ℝ) (hc : 0 < count) (h : mem.PointsAt2 a stride count fun i => Vec2.num (q i)) :
    ∃ (c : Vec2 ℝ) (r : ℝ), (0 < stride → Circle.setStrided mem a count stride = .ok ⟨Vec2.num c, .num r⟩) ∧
      (stride = 2 * mem.sz → Circle.set mem a count = .ok ⟨Vec2.num c, .num r⟩) ∧
      (∀ i < count, dist (q i).toE c.toE * (1 - u) ^ 3 ≤ r) ∧
      ∃ i < count, r * (1 - u) ^ 3 ≤ dist (q i).toE c.toE := by
  obtain ⟨hf, hhf⟩ := half_num hr
  have cen : ∀ b : Vec2 (Fl ℝ rnd) × Vec2 (Fl ℝ rnd), (∃ v w, b = (Vec2.num v, Vec2.num w)) →
      ∃ c, (b.1 + b.2) * (1 / 2 : Fl ℝ rnd) = Vec2.num c := by
    rintro _ ⟨v, w, rfl⟩
    exact ⟨⟨rnd (rnd (v.x + w.x) * hf), rnd (rnd (v.y + w.y) * hf)⟩, by rw [hhf]; rfl⟩
  have rel : ∀ (c : Vec2 ℝ) i, Rel u 4 (dist (q i).toE c.toE * dist (q i).toE c.toE)
      ((Vec2.num (q i) : Vec2 (Fl ℝ rnd)) - Vec2.num c).lengthSqr := fun c i => by
    rw [← sq, ← Circle.lengthSqr_sub]
    exact Rel.add hr (rel_dsq hr _ _) (rel_dsq hr _ _) (mul_self_nonneg _) (mul_self_nonneg _)
  obtain ⟨b, r2, hb, hJ, e1, e2⟩ := Circle.set_rule hc h (fun _ b => ∃ v w, b = (Vec2.num v, Vec2.num w))
    ⟨_, _, rfl⟩
    (fun i r hi hr => by
      obtain ⟨v, w, rfl⟩ := hr
      rw [boundStep2_if]
      obtain ⟨x, hx⟩ := num_ite (P := (.num (q i).x : Fl ℝ rnd) < .num v.x) ⟨(q i).x, rfl⟩ ⟨v.x, rfl⟩
      obtain ⟨y, hy⟩ := num_ite (P := (.num (q i).y : Fl ℝ rnd) < .num v.y) ⟨(q i).y, rfl⟩ ⟨v.y, rfl⟩
      obtain ⟨x', hx'⟩ := num_ite (P := (.num w.x : Fl ℝ rnd) < .num (q i).x) ⟨(q i).x, rfl⟩ ⟨w.x, rfl⟩
      obtain ⟨y', hy'⟩ := num_ite (P := (.num w.y : Fl ℝ rnd) < .num (q i).y) ⟨(q i).y, rfl⟩ ⟨w.y, rfl⟩
      exact ⟨⟨x, y⟩, ⟨x', y'⟩, Prod.ext (Vec2.ext hx hy) (Vec2.ext hx' hy')⟩)
    (fun c i r => ∀ c', c = Vec2.num c' → ∃ ρ, r = .num ρ ∧ 0 ≤ ρ ∧
      (∀ j < i, (Vec2.num (q j) - c).lengthSqr ≤ .num ρ) ∧ (ρ = 0 ∨ ∃ j < i, (Vec2.num (q j) - c).lengthSqr = .num ρ))
    (fun c c' _ => ⟨0, rfl, le_rfl, by simp, .inl rfl⟩)
    (fun b hb i r hi hj c' hc' => max_num (f := fun i => (Vec2.num (q i) - (b.1 + b.2) * (1 / 2 : Fl ℝ rnd)).lengthSqr)
      (by obtain ⟨θ, -, e⟩ := rel c' i; exact ⟨_, by rw [hc', e]⟩) (hj c' hc'))
  obtain ⟨c, hcn⟩ := cen b hb
  rw [hcn] at hJ e1 e2
  obtain ⟨ρ, rfl, h0, hle, hex⟩ := hJ c rfl
  obtain ⟨r, er, r0, k1, k2⟩ := radius_of hr hc (d := fun i => dist (q i).toE c.toE) (fun _ => dist_nonneg)
    (m := 4) (k := 2) (by norm_num) (fun i _ => rel c i) h0 hle hex
  have hmk : Circle.mk' (Vec2.num c : Vec2 (Fl ℝ rnd)) (MathFns.sqrt (.num ρ)) = .ok ⟨Vec2.num c, .num r⟩ := by
    rw [er]; exact if_pos ((Fl.num_le _ _).2 r0)
  exact ⟨c, r, fun h => (e1 h).trans hmk, fun h => (e2 h).trans hmk, k1, k2⟩
end

/-- non-vacuous: two points of the single format -/
example : ∃ (mem : Mem (Ieee ℝ 24 127)) (q : ℕ → Vec3 (Ieee ℝ 24 127)), mem.PointsAt3 0 12 2 q ∧
    (∀ i < 2, (q i).IsFin) ∧ q 0 ≠ q 1 :=
  ⟨⟨4, fun i => i < 24, fun i => if i = 12 then some 1 else some 0⟩, fun i => ⟨if i = 1 then 1 else 0, 0, 0⟩,
    by intro i hi
       have : i = 0 ∨ i = 1 := by omega
       rcases this with rfl | rfl
       · exact ⟨0, by simp, by simp, by simp, by simp⟩
       · exact ⟨12, by simp, by simp, by simp, by simp⟩,
    by intro i hi
       have : i = 0 ∨ i = 1 := by omega
       rcases this with rfl | rfl
       · exact ⟨⟨0, rfl⟩, ⟨0, rfl⟩, ⟨0, rfl⟩⟩
       · exact ⟨⟨1, rfl⟩, ⟨0, rfl⟩, ⟨0, rfl⟩⟩,
    fun h => by have := congrArg Vec3.x h; cases this⟩
example : ∃ (mem : Mem (Fl ℝ (rne 24))) (q : ℕ → Vec2 ℝ), (mem.PointsAt2 0 8 2 fun i => Vec2.num (q i)) ∧ q 0 ≠ q 1 :=
  ⟨⟨4, fun i => i < 16, fun i => if i = 8 then some (.num 2) else some (.num 0)⟩, fun i => ⟨if i = 1 then 2 else 0, 0⟩,
    by intro i hi
       have : i = 0 ∨ i = 1 := by omega
       rcases this with rfl | rfl
       · exact ⟨0, by simp, by simp [Vec2.num], by simp [Vec2.num]⟩
       · exact ⟨8, by simp, by simp [Vec2.num], by simp [Vec2.num]⟩,
    fun h => by have := congrArg Vec2.x h; norm_num at this⟩
example : IsRel (rne 24) (2 ^ (-(24 : ℤ))) := isRel_rne 24 (by norm_num)

end MathLib
