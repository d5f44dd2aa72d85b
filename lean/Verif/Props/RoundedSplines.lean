import Verif.Props.RoundedTri
import Verif.Proof.SplineRun
import Verif.Props.SplineSolvers

/-! # Property C141: the open spline solvers in floating point

The control points computed with rounding are close to those of the exact spline, however long the spline
is. -/

namespace MathLib
open TriDiagonal SplineSolver3

/-- a system of the splines, one coordinate: `k` bounds the data -/
theorem spline_error {p : ℕ} (hp : 12 ≤ p) (n : ℕ) (a b c r r' x y : ℕ → ℝ) (k : ℝ) (hk : 0 ≤ k)
    (hd : ∀ i < n, offdiag n a c i < |b i|)
    (hκ : ∀ i < n, offdiag n a c i + |b i| ≤ 3 * (|b i| - offdiag n a c i))
    (hx : SolvesNearby n a b c r' x (gam (2 ^ (-(p : ℤ))) 11))
    (hy : ∀ i < n, row n a b c y i = r i)
    (hr : ∀ i < n, |r i| ≤ k * (offdiag n a c i + |b i|))
    (hr' : ∀ i < n, |r' i - r i| ≤ 201 / 100 * 2 ^ (-(p : ℤ)) * k * (offdiag n a c i + |b i|)) :
    ∀ i < n, |x i - y i| ≤ 109 * 2 ^ (-(p : ℤ)) * k ∧ |y i| ≤ 3 * k := by
  have hu0 : (0 : ℝ) < 2 ^ (-(p : ℤ)) := by positivity
  have hu1 : (2 : ℝ) ^ (-(p : ℤ)) ≤ 1 / 4096 := by
    have : (2 : ℝ) ^ (-(p : ℤ)) ≤ 2 ^ (-(12 : ℤ)) := zpow_le_zpow_right₀ (by norm_num) (by omega)
    norm_num at this ⊢; exact this
  set u : ℝ := 2 ^ (-(p : ℤ)) with hu
  have hg0 : 0 ≤ gam u 11 := by
    have := one_le_inv₀ (Fac.gpos (show u < 1 by linarith) 11) |>.2 (Fac.gle hu0.le (by linarith) 11)
    unfold gam; linarith
  have hg : gam u 11 ≤ 1104 / 100 * u := by
    refine (gam_le (by linarith) (by norm_num; linarith)).trans ?_
    rw [div_le_iff₀ (by norm_num; linarith)]
    norm_num
    nlinarith
  have hyb : ∀ i < n, |y i| ≤ 3 * k := by
    intro i hi
    have := C140_error n a b c r (fun _ => 0) (fun _ => 0) y 0 k 3 0 hd hκ (fun i _ => by simp) le_rfl hk
      ⟨tridiag n a b c, fun i j => by simp, by ext i; simp [Matrix.mulVec, dotProduct]⟩ hy
      (fun i hi => by simpa using hr i hi) i hi
    simpa using this
  intro i0 hi0
  have : Nonempty (Fin n) := ⟨⟨i0, hi0⟩⟩
  obtain ⟨i, -, hmax⟩ := Finset.exists_max_image (Finset.univ : Finset (Fin n)) (fun i => |x i|) Finset.univ_nonempty
  have key := C140_error n a b c r r' x y (gam u 11) (201 / 100 * u * k) 3 |x i| hd hκ
    (fun j hj => hmax ⟨j, hj⟩ (Finset.mem_univ _)) hg0 (by positivity) hx hy hr'
  have k1 := key i i.2
  have k2 := hyb i i.2
  have k3 := abs_sub_abs_le_abs_sub (x i) (y i)
  have k4 : gam u 11 * |x i| ≤ 1104 / 100 * u * |x i| := mul_le_mul_of_nonneg_right hg (abs_nonneg _)
  have k5 : u * |x i| ≤ 1 / 4096 * |x i| := mul_le_mul_of_nonneg_right hu1 (abs_nonneg _)
  have k6 : u * k ≤ 1 / 4096 * k := mul_le_mul_of_nonneg_right hu1 hk
  have k7 : |x i| ≤ 31 / 10 * k := by linarith
  refine ⟨(key i0 hi0).trans ?_, hyb i0 hi0⟩
  have k8 : u * |x i| ≤ u * (31 / 10 * k) := mul_le_mul_of_nonneg_left k7 hu0.le
  have : 0 ≤ u * k := by positivity
  nlinarith


/-- no coordinate is larger than `k` -/
def Vec3.BoundedBy (v : Vec3 ℝ) (k : ℝ) : Prop := |v.x| ≤ k ∧ |v.y| ≤ k ∧ |v.z| ≤ k
/-- no coordinate differs by more than `d` -/
def Vec3.Near (v w : Vec3 ℝ) (d : ℝ) : Prop := |v.x - w.x| ≤ d ∧ |v.y - w.y| ≤ d ∧ |v.z - w.z| ≤ d

section arith
variable {u : ℝ} {rnd : ℝ → ℝ}

/-- a sum of two numbers with rounding -/
theorem rnd_comb (hr : IsRel rnd u) (hu : u ≤ 1 / 4096) {a b x y k s t : ℝ} (hs : 0 ≤ s) (ht : 0 ≤ t) (hk : 0 ≤ k)
    (hx : |x| ≤ k * s) (hy : |y| ≤ k * t) (ha : |a - x| ≤ u * |x|) (hb : |b - y| ≤ u * |y|) :
    |rnd (a + b) - (x + y)| ≤ 201 / 100 * u * k * (s + t) := by
  have h0 := hr.nonneg
  have a3 := hr.err (a + b)
  have c1 := mul_le_mul_of_nonneg_left hx h0
  have c2 := mul_le_mul_of_nonneg_left hy h0
  have d1 : |a + b| ≤ (1 + u) * (k * (s + t)) := by
    have e1 := abs_add_le a b
    have e2 := abs_sub_abs_le_abs_sub a x
    have e3 := abs_sub_abs_le_abs_sub b y
    linarith
  have d2 := mul_le_mul_of_nonneg_left d1 h0
  have e : rnd (a + b) - (x + y) = (rnd (a + b) - (a + b)) + ((a - x) + (b - y)) := by ring
  rw [e]
  have f1 := abs_add_le (rnd (a + b) - (a + b)) ((a - x) + (b - y))
  have f2 := abs_add_le (a - x) (b - y)
  have g : u * (u * (k * (s + t))) ≤ 1 / 4096 * (u * (k * (s + t))) :=
    mul_le_mul_of_nonneg_right hu (by positivity)
  have g' : 0 ≤ u * (k * (s + t)) := by positivity
  nlinarith

/-- the third control point of an inner segment -/
theorem rnd_third (hr : IsRel rnd u) (hu : u ≤ 1 / 4096) {x y y' k : ℝ} (hx : |x| ≤ k) (hy : |y| ≤ 3 * k)
    (h : |y' - y| ≤ 109 * u * k) : |rnd (rnd (x * 2) - y') - (x * 2 - y)| ≤ 128 * u * k := by
  have h0 := hr.nonneg
  have hk : 0 ≤ k := (abs_nonneg _).trans hx
  have a1 := hr.err (x * 2)
  have a3 := hr.err (rnd (x * 2) - y')
  have b1 : |x * 2| ≤ k * 2 := by rw [abs_mul, abs_of_nonneg (zero_le_two (α := ℝ))]; linarith
  have c1 := mul_le_mul_of_nonneg_left b1 h0
  have e1 := abs_sub_abs_le_abs_sub y' y
  have e2 := abs_sub_abs_le_abs_sub (rnd (x * 2)) (x * 2)
  have g' : 0 ≤ u * k := by positivity
  have g : u * (u * k) ≤ 1 / 4096 * (u * k) := mul_le_mul_of_nonneg_right hu g'
  have gk : u * k ≤ 1 / 4096 * k := mul_le_mul_of_nonneg_right hu hk
  have d1 : |rnd (x * 2) - y'| ≤ 6 * k := by
    have := abs_sub (rnd (x * 2)) y'
    linarith
  have d2 := mul_le_mul_of_nonneg_left d1 h0
  have e : rnd (rnd (x * 2) - y') - (x * 2 - y) =
      (rnd (rnd (x * 2) - y') - (rnd (x * 2) - y')) + ((rnd (x * 2) - x * 2) - (y' - y)) := by ring
  rw [e]
  have f1 := abs_add_le (rnd (rnd (x * 2) - y') - (rnd (x * 2) - y')) ((rnd (x * 2) - x * 2) - (y' - y))
  have f2 := abs_sub (rnd (x * 2) - x * 2) (y' - y)
  linarith

/-- the third control point of the last segment of a natural spline -/
theorem rnd_last (hr : IsRel rnd u) (hu : u ≤ 1 / 4096) {x y y' k : ℝ} (hx : |x| ≤ k) (hy : |y| ≤ 3 * k)
    (h : |y' - y| ≤ 109 * u * k) : |rnd (rnd (x + y') / 2) - (x + y) * (1 / 2)| ≤ 128 * u * k := by
  have h0 := hr.nonneg
  have hk : 0 ≤ k := (abs_nonneg _).trans hx
  have a1 := hr.err (x + y')
  have a3 := hr.err (rnd (x + y') / 2)
  have e1 := abs_sub_abs_le_abs_sub y' y
  have g' : 0 ≤ u * k := by positivity
  have gk : u * k ≤ 1 / 4096 * k := mul_le_mul_of_nonneg_right hu hk
  have b1 : |x + y'| ≤ 5 * k := by have := abs_add_le x y'; linarith
  have c1 := mul_le_mul_of_nonneg_left b1 h0
  have e2 := abs_sub_abs_le_abs_sub (rnd (x + y')) (x + y')
  have d1 : |rnd (x + y') / 2| ≤ 3 * k := by
    rw [abs_div, abs_of_nonneg (zero_le_two (α := ℝ))]; linarith
  have d2 := mul_le_mul_of_nonneg_left d1 h0
  have e : rnd (rnd (x + y') / 2) - (x + y) * (1 / 2) =
      (rnd (rnd (x + y') / 2) - rnd (x + y') / 2) + (((rnd (x + y') - (x + y')) + (y' - y)) / 2) := by ring
  rw [e]
  have f1 := abs_add_le (rnd (rnd (x + y') / 2) - rnd (x + y') / 2) (((rnd (x + y') - (x + y')) + (y' - y)) / 2)
  have f2 := abs_add_le (rnd (x + y') - (x + y')) (y' - y)
  rw [abs_div, abs_of_nonneg (zero_le_two (α := ℝ))] at f1
  linarith

/-- the control points of a single natural segment -/
theorem rnd_two (hr : IsRel rnd u) (hu : u ≤ 1 / 4096) {x y k : ℝ} (hx : |x| ≤ k) (hy : |y| ≤ k) :
    |rnd (x + rnd (rnd (y - x) / 3)) - (x + (y - x) * (1 / 3))| ≤ 128 * u * k ∧
    |rnd (y - rnd (rnd (y - x) / 3)) - (y - (y - x) * (1 / 3))| ≤ 128 * u * k := by
  have h0 := hr.nonneg
  have hk : 0 ≤ k := (abs_nonneg _).trans hx
  have g' : 0 ≤ u * k := by positivity
  have gk : u * k ≤ 1 / 4096 * k := mul_le_mul_of_nonneg_right hu hk
  have a1 := hr.err (y - x)
  have b1 : |y - x| ≤ 2 * k := by have := abs_sub y x; linarith
  have c1 := mul_le_mul_of_nonneg_left b1 h0
  have a2 := hr.err (rnd (y - x) / 3)
  have e1 := abs_sub_abs_le_abs_sub (rnd (y - x)) (y - x)
  have b2 : |rnd (y - x) / 3| ≤ k := by
    rw [abs_div, abs_of_nonneg (show (0 : ℝ) ≤ 3 by norm_num)]; linarith
  have c2 := mul_le_mul_of_nonneg_left b2 h0
  set t := rnd (rnd (y - x) / 3) with ht
  have ht' : |t - (y - x) * (1 / 3)| ≤ 2 * u * k := by
    have e : t - (y - x) * (1 / 3) = (t - rnd (y - x) / 3) + (rnd (y - x) - (y - x)) / 3 := by ring
    rw [e]
    have f1 := abs_add_le (t - rnd (y - x) / 3) ((rnd (y - x) - (y - x)) / 3)
    rw [abs_div, abs_of_nonneg (show (0 : ℝ) ≤ 3 by norm_num)] at f1
    linarith
  have ht2 : |t| ≤ 2 * k := by
    have := abs_sub_abs_le_abs_sub t (rnd (y - x) / 3)
    linarith
  have a4 := hr.err (x + t)
  have a5 := hr.err (y - t)
  have b4 : |x + t| ≤ 3 * k := by have := abs_add_le x t; linarith
  have b5 : |y - t| ≤ 3 * k := by have := abs_sub y t; linarith
  have c4 := mul_le_mul_of_nonneg_left b4 h0
  have c5 := mul_le_mul_of_nonneg_left b5 h0
  constructor
  · have e : rnd (x + t) - (x + (y - x) * (1 / 3)) = (rnd (x + t) - (x + t)) + (t - (y - x) * (1 / 3)) := by ring
    rw [e]
    have := abs_add_le (rnd (x + t) - (x + t)) (t - (y - x) * (1 / 3))
    linarith
  · have e : rnd (y - t) - (y - (y - x) * (1 / 3)) = (rnd (y - t) - (y - t)) - (t - (y - x) * (1 / 3)) := by ring
    rw [e]
    have := abs_sub (rnd (y - t) - (y - t)) (t - (y - x) * (1 / 3))
    linarith
end arith

/-! ## One coordinate -/

section coord
variable {p : ℕ}

theorem small_unit (hp : 12 ≤ p) : (2 : ℝ) ^ (-(p : ℤ)) ≤ 1 / 4096 := by
  have : (2 : ℝ) ^ (-(p : ℤ)) ≤ 2 ^ (-(12 : ℤ)) := zpow_le_zpow_right₀ (by norm_num) (by omega)
  norm_num at this ⊢; exact this

theorem strict_nearby (hp : 1 ≤ p) (n : ℕ) (a b c r : ℕ → ℝ) (ha : ∀ i, Rep p (a i)) (hc : ∀ i, Rep p (c i))
    (hd : ∀ i < n, offdiag n a c i < |b i|) :
    (∀ j < n, rpiv (rne p) a b c j ≠ 0) ∧
      SolvesNearby n a b c r (rsol (rne p) a b c r n) (gam (2 ^ (-(p : ℤ))) 11) := by
  have hz : ∀ j < n, rpiv (rne p) a b c j ≠ 0 :=
    rpiv_ne_zero n a b c (rne_mono p hp) (rne_neg p) (rne_of_rep hp (by simpa using Rep.zpow (K := ℝ) (p := p) 0))
      (fun x hx => by
        by_contra h0
        rcases lt_or_gt_of_ne h0 with h | h
        · have := rne_pos p hp (-x) (by linarith)
          rw [rne_neg, hx] at this; simp at this
        · have := rne_pos p hp x h
          rw [hx] at this; simp at this)
      (fun i => rne_of_rep hp (ha i)) (fun i => rne_of_rep hp (hc i)) hd
  exact ⟨hz, rsol_nearby hp n a b c ha hc r (fun i hi => (hd i hi).le) hz⟩

/-- right-hand sides of a natural spline, exact and as computed -/
def natE (N : ℕ) (k : ℕ → ℝ) (i : ℕ) : ℝ :=
  if i = N - 1 then k (N - 1) * 8 + k N else if i = 0 then k 0 + k 1 * 2 else k i * 4 + k (i + 1) * 2
def natF (rnd : ℝ → ℝ) (N : ℕ) (k : ℕ → ℝ) (i : ℕ) : ℝ :=
  if i = N - 1 then rnd (rnd (k (N - 1) * 8) + k N) else if i = 0 then rnd (k 0 + rnd (k 1 * 2)) else
    rnd (rnd (k i * 4) + rnd (k (i + 1) * 2))

theorem natural_coord (hp : 12 ≤ p) (N : ℕ) (hN : 2 ≤ N) (k y : ℕ → ℝ) (K : ℝ) (hk : ∀ i ≤ N, |k i| ≤ K)
    (hy : ∀ i < N, row N (natA N) (natB N) (fun _ => 1) y i = natE N k i) :
    (∀ j < N, rpiv (rne p) (natA N) (natB N) (fun _ => 1) j ≠ 0) ∧
    ∀ i < N, |rsol (rne p) (natA N) (natB N) (fun _ => 1) (natF (rne p) N k) N i - y i| ≤ 109 * 2 ^ (-(p : ℤ)) * K ∧
      |y i| ≤ 3 * K := by
  have hr := isRel_rne p (by omega : 1 ≤ p)
  have hu := small_unit hp
  have hK : 0 ≤ K := (abs_nonneg _).trans (hk 0 (by omega))
  have h1 : Rep p (1 : ℝ) := by simpa using Rep.zpow (K := ℝ) (p := p) 0
  have h2 : Rep p (2 : ℝ) := by simpa using Rep.zpow (K := ℝ) (p := p) 1
  have hd : ∀ i < N, offdiag N (natA N) (fun _ => 1) i < |natB N i| ∧
      offdiag N (natA N) (fun _ => 1) i + |natB N i| ≤ 3 * (|natB N i| - offdiag N (natA N) (fun _ => 1) i) := by
    intro i hi
    simp only [offdiag, natA, natB]
    split_ifs <;> first | omega | norm_num
  obtain ⟨hz, hx⟩ := strict_nearby (by omega : 1 ≤ p) N (natA N) (natB N) (fun _ => 1) (natF (rne p) N k)
    (fun i => by unfold natA; split_ifs <;> assumption) (fun _ => h1) (fun i hi => (hd i hi).1)
  refine ⟨hz, spline_error hp N _ _ _ (natE N k) (natF (rne p) N k) _ y K hK (fun i hi => (hd i hi).1)
    (fun i hi => (hd i hi).2) hx hy (fun i hi => ?_) (fun i hi => ?_)⟩
  all_goals
    simp only [offdiag, natA, natB, natE, natF]
    by_cases hl : i = N - 1
    · have b1 := hk (N - 1) (by omega)
      have b2 := hk N (by omega)
      have e : ((if 0 < i then |if i - 1 = N - 2 then (2 : ℝ) else 1| else 0) + (if i + 1 < N then |(1 : ℝ)| else 0) +
          |if i = N - 1 then (7 : ℝ) else if i = 0 then 2 else 4|) = 8 + 1 := by
        rw [if_pos (by omega), if_pos (by omega), if_neg (by omega), if_pos hl]; norm_num
      rw [e, if_pos hl]
      have b3 : |k (N - 1) * 8| ≤ K * 8 := by rw [abs_mul]; norm_num; linarith
      first
      | (have := abs_add_le (k (N - 1) * 8) (k N); linarith)
      | (rw [if_pos hl]
         exact rnd_comb hr hu (by norm_num) (by norm_num) hK b3 (by simpa using b2) (hr.err _)
          (by simp))
    · by_cases h0 : i = 0
      · have b1 := hk 0 (by omega)
        have b2 := hk 1 (by omega)
        have e : ((if 0 < i then |if i - 1 = N - 2 then (2 : ℝ) else 1| else 0) + (if i + 1 < N then |(1 : ℝ)| else 0) +
            |if i = N - 1 then (7 : ℝ) else if i = 0 then 2 else 4|) = 1 + 2 := by
          rw [if_neg (by omega), if_pos (by omega), if_neg hl, if_pos h0]; norm_num
        rw [e, if_neg hl, if_pos h0]
        have b3 : |k 1 * 2| ≤ K * 2 := by rw [abs_mul]; norm_num; linarith
        first
        | (have := abs_add_le (k 0) (k 1 * 2); linarith)
        | (rw [if_neg hl, if_pos h0]
           exact rnd_comb hr hu (by norm_num) (by norm_num) hK (by simpa using b1) b3
            (by simp) (hr.err _))
      · have b1 := hk i (by omega)
        have b2 := hk (i + 1) (by omega)
        have e : ((if 0 < i then |if i - 1 = N - 2 then (2 : ℝ) else 1| else 0) + (if i + 1 < N then |(1 : ℝ)| else 0) +
            |if i = N - 1 then (7 : ℝ) else if i = 0 then 2 else 4|) = 4 + 2 := by
          rw [if_pos (by omega), if_neg (by omega), if_pos (by omega), if_neg hl, if_neg h0]; norm_num
        rw [e, if_neg hl, if_neg h0]
        have b3 : |k i * 4| ≤ K * 4 := by rw [abs_mul]; norm_num; linarith
        have b4 : |k (i + 1) * 2| ≤ K * 2 := by rw [abs_mul]; norm_num; linarith
        first
        | (have := abs_add_le (k i * 4) (k (i + 1) * 2); linarith)
        | (rw [if_neg hl, if_neg h0]
           exact rnd_comb hr hu (by norm_num) (by norm_num) hK b3 b4 (hr.err _) (hr.err _))

/-- the same for a spline with given ends -/
def clE (N : ℕ) (k : ℕ → ℝ) (s e : ℝ) (i : ℕ) : ℝ :=
  if i = N - 1 then e + k (N - 1) * 4 else if i = 0 then s else k i * 4 + k (i + 1) * 2
def clF (rnd : ℝ → ℝ) (N : ℕ) (k : ℕ → ℝ) (s e : ℝ) (i : ℕ) : ℝ :=
  if i = N - 1 then rnd (e + rnd (k (N - 1) * 4)) else if i = 0 then s else rnd (rnd (k i * 4) + rnd (k (i + 1) * 2))

theorem clamped_coord (hp : 12 ≤ p) (N : ℕ) (hN : 2 ≤ N) (k y : ℕ → ℝ) (s e K : ℝ) (hk : ∀ i ≤ N, |k i| ≤ K)
    (hs : |s| ≤ K) (he : |e| ≤ K)
    (hy : ∀ i < N, row N (fun _ => 1) clB clC y i = clE N k s e i) :
    (∀ j < N, rpiv (rne p) (fun _ => 1) clB clC j ≠ 0) ∧
    ∀ i < N, |rsol (rne p) (fun _ => 1) clB clC (clF (rne p) N k s e) N i - y i| ≤ 109 * 2 ^ (-(p : ℤ)) * K ∧
      |y i| ≤ 3 * K := by
  have hr := isRel_rne p (by omega : 1 ≤ p)
  have hu := small_unit hp
  have hK : 0 ≤ K := (abs_nonneg _).trans (hk 0 (by omega))
  have h1 : Rep p (1 : ℝ) := by simpa using Rep.zpow (K := ℝ) (p := p) 0
  have h0 : Rep p (0 : ℝ) := by simpa using Rep.int (K := ℝ) (p := p) 0 (by positivity)
  have hd : ∀ i < N, offdiag N (fun _ => 1) clC i < |clB i| ∧
      offdiag N (fun _ => 1) clC i + |clB i| ≤ 3 * (|clB i| - offdiag N (fun _ => 1) clC i) := by
    intro i hi
    simp only [offdiag, clB, clC]
    split_ifs <;> first | omega | norm_num
  obtain ⟨hz, hx⟩ := strict_nearby (by omega : 1 ≤ p) N (fun _ => 1) clB clC (clF (rne p) N k s e)
    (fun _ => h1) (fun i => by unfold clC; split_ifs <;> assumption) (fun i hi => (hd i hi).1)
  refine ⟨hz, spline_error hp N _ _ _ (clE N k s e) (clF (rne p) N k s e) _ y K hK (fun i hi => (hd i hi).1)
    (fun i hi => (hd i hi).2) hx hy (fun i hi => ?_) (fun i hi => ?_)⟩
  all_goals
    simp only [offdiag, clB, clC, clE, clF]
    by_cases hl : i = N - 1
    · have b1 := hk (N - 1) (by omega)
      have ee : ((if 0 < i then |(1 : ℝ)| else 0) + (if i + 1 < N then |if i = 0 then (0 : ℝ) else 1| else 0) +
          |if i = 0 then (1 : ℝ) else 4|) = 1 + 4 := by
        rw [if_pos (by omega), if_neg (by omega), if_neg (by omega)]; norm_num
      rw [ee, if_pos hl]
      have b3 : |k (N - 1) * 4| ≤ K * 4 := by rw [abs_mul]; norm_num; linarith
      first
      | (have := abs_add_le e (k (N - 1) * 4); linarith)
      | (rw [if_pos hl]
         exact rnd_comb hr hu (by norm_num) (by norm_num) hK (by simpa using he) b3
          (by simp) (hr.err _))
    · by_cases h0 : i = 0
      · have ee : ((if 0 < i then |(1 : ℝ)| else 0) + (if i + 1 < N then |if i = 0 then (0 : ℝ) else 1| else 0) +
            |if i = 0 then (1 : ℝ) else 4|) = 1 := by
          rw [if_neg (by omega), if_pos (by omega), if_pos h0, if_pos h0]; norm_num
        rw [ee, if_neg hl, if_pos h0]
        first
        | linarith
        | (rw [if_neg hl, if_pos h0, sub_self, abs_zero]
           have := hr.nonneg
           positivity)
      · have b1 := hk i (by omega)
        have b2 := hk (i + 1) (by omega)
        have ee : ((if 0 < i then |(1 : ℝ)| else 0) + (if i + 1 < N then |if i = 0 then (0 : ℝ) else 1| else 0) +
            |if i = 0 then (1 : ℝ) else 4|) = 4 + 2 := by
          rw [if_pos (by omega), if_pos (by omega), if_neg h0, if_neg h0]; norm_num
        rw [ee, if_neg hl, if_neg h0]
        have b3 : |k i * 4| ≤ K * 4 := by rw [abs_mul]; norm_num; linarith
        have b4 : |k (i + 1) * 2| ≤ K * 2 := by rw [abs_mul]; norm_num; linarith
        first
        | (have := abs_add_le (k i * 4) (k (i + 1) * 2); linarith)
        | (rw [if_neg hl, if_neg h0]
           exact rnd_comb hr hu (by norm_num) (by norm_num) hK b3 b4 (hr.err _) (hr.err _))
end coord

/-! ## The theorems -/

section main
variable {p : ℕ}

theorem row_x (n : ℕ) (a b c : ℕ → ℝ) (v : ℕ → Vec3 ℝ) (i : ℕ) :
    (row n a b c v i).x = row n a b c (fun i => (v i).x) i := by
  simp only [row, Vec3.add_x, Vec3.smul_x, smul_eq_mul]
  split_ifs <;> simp <;> ring
theorem row_y (n : ℕ) (a b c : ℕ → ℝ) (v : ℕ → Vec3 ℝ) (i : ℕ) :
    (row n a b c v i).y = row n a b c (fun i => (v i).y) i := by
  simp only [row, Vec3.add_y, Vec3.smul_y, smul_eq_mul]
  split_ifs <;> simp <;> ring
theorem row_z (n : ℕ) (a b c : ℕ → ℝ) (v : ℕ → Vec3 ℝ) (i : ℕ) :
    (row n a b c v i).z = row n a b c (fun i => (v i).z) i := by
  simp only [row, Vec3.add_z, Vec3.smul_z, smul_eq_mul]
  split_ifs <;> simp <;> ring

theorem num_lit (hp : 12 ≤ p) (n : ℕ) [n.AtLeastTwo] (hn : n ≤ 8) :
    (OfNat.ofNat n : Fl ℝ (rne p)) = .num (OfNat.ofNat n) := by
  rw [Fl.ofNat_def, rne_of_rep (by omega)]
  · simp
  · have : (2 : ℤ) ^ 12 ≤ 2 ^ p := pow_le_pow_right₀ (by norm_num) hp
    have h := Rep.int (K := ℝ) (p := p) (OfNat.ofNat n : ℕ) (by
      rw [abs_of_nonneg (by positivity)]
      have : ((OfNat.ofNat n : ℕ) : ℤ) ≤ 8 := by exact_mod_cast hn
      linarith)
    simpa using h

theorem num_div (v : Vec3 ℝ) (x : ℝ) (hx : x ≠ 0) : (Vec3.num v : Vec3 (Fl ℝ (rne p))).div (.num x) =
    .ok (Vec3.num ⟨rne p (v.x / x), rne p (v.y / x), rne p (v.z / x)⟩) := by
  simp [Vec3.div, Vec3.num, Fl.zero_def, hx]

/-- C141: with rounding to `p ≥ 12` bits the solver succeeds for all knots, however many they are, and every
coordinate of every control point it returns is off by at most `128 * 2^-p` times the largest coordinate of
the knots: `2^-17` times that for `float`. -/
theorem C141_natural (hp : 12 ≤ p) (n : ℕ) (hn : 2 ≤ n) (k : ℕ → Vec3 ℝ) (K : ℝ) (hk : ∀ i < n, (k i).BoundedBy K)
    (p1 p2 p3 : Buf (Vec3 (Fl ℝ (rne p)))) (h1 : p1.Holds n fun i => (k i).num)
    (h2 : n - 1 ≤ p2.size) (h3 : n - 1 ≤ p3.size) :
    ∃ (p2' p3' : Buf (Vec3 (Fl ℝ (rne p)))) (q2 q3 v2 v3 : ℕ → Vec3 ℝ), naturalBezierSpline n p1 p2 p3 = .ok (true, p2', p3') ∧
      (p2'.Holds (n - 1) fun i => (q2 i).num) ∧ (p3'.Holds (n - 1) fun i => (q3 i).num) ∧
      IsNaturalSpline (n - 1) (splineSeg k v2 v3) ∧
      ∀ i < n - 1, (q2 i).Near (v2 i) (128 * 2 ^ (-(p : ℤ)) * K) ∧ (q3 i).Near (v3 i) (128 * 2 ^ (-(p : ℤ)) * K) := by
  have hr := isRel_rne p (by omega : 1 ≤ p)
  have hu := small_unit hp
  have hK : 0 ≤ K := (abs_nonneg _).trans (hk 0 (by omega)).1
  have hu0 := hr.nonneg
  obtain ⟨-, -, v2, v3, -, -, -, hv, -⟩ := C93_natural n hn k ⟨n, fun i => some (k i)⟩ ⟨n, fun _ => none⟩ ⟨n, fun _ => none⟩
    ⟨le_rfl, fun i _ => rfl⟩ (Nat.sub_le _ _) (Nat.sub_le _ _)
  rcases Nat.eq_or_lt_of_le hn with rfl | hn3
  · obtain ⟨e2, e3⟩ := (natural_one_iff _ _ _).1 hv
    have hdiv := num_div (p := p) ⟨rne p ((k 1).x - (k 0).x), rne p ((k 1).y - (k 0).y), rne p ((k 1).z - (k 0).z)⟩ 3 (by norm_num)
    obtain ⟨p2', p3', e, a1, a2⟩ := natural_run_two (fun i => (k i).num) p1 p2 p3 h1 h2 h3 _
      (by rw [show (3 : Fl ℝ (rne p)) = .num 3 from num_lit hp 3 (by norm_num)]; exact hdiv)
    obtain ⟨c1, c2, c3⟩ := hk 0 (by omega)
    obtain ⟨d1, d2, d3⟩ := hk 1 (by omega)
    set t : Vec3 ℝ := ⟨rne p (rne p ((k 1).x - (k 0).x) / 3), rne p (rne p ((k 1).y - (k 0).y) / 3),
      rne p (rne p ((k 1).z - (k 0).z) / 3)⟩ with ht
    refine ⟨p2', p3', fun _ => ⟨rne p ((k 0).x + t.x), rne p ((k 0).y + t.y), rne p ((k 0).z + t.z)⟩,
      fun _ => ⟨rne p ((k 1).x - t.x), rne p ((k 1).y - t.y), rne p ((k 1).z - t.z)⟩, v2, v3, e, a1, a2, hv, fun i hi => ?_⟩
    obtain rfl : i = 0 := by omega
    rw [e2, e3]
    exact ⟨⟨(rnd_two hr hu c1 d1).1, (rnd_two hr hu c2 d2).1, (rnd_two hr hu c3 d3).1⟩,
      ⟨(rnd_two hr hu c1 d1).2, (rnd_two hr hu c2 d2).2, (rnd_two hr hu c3 d3).2⟩⟩
  · obtain ⟨N, rfl⟩ : ∃ N, n = N + 1 := ⟨n - 1, by omega⟩
    rw [Nat.add_sub_cancel] at *
    have hN : 2 ≤ N := by omega
    obtain ⟨hrow, hq3⟩ := (natural_iff N hN k v2 v3).1 hv
    have cx := natural_coord hp N hN (fun i => (k i).x) (fun i => (v2 i).x) K (fun i hi => (hk i (by omega)).1)
      (fun i hi => by
        rw [← row_x, hrow i hi]; simp only [natR, natE]
        split_ifs <;> rfl)
    have cy := natural_coord hp N hN (fun i => (k i).y) (fun i => (v2 i).y) K (fun i hi => (hk i (by omega)).2.1)
      (fun i hi => by
        rw [← row_y, hrow i hi]; simp only [natR, natE]
        split_ifs <;> rfl)
    have cz := natural_coord hp N hN (fun i => (k i).z) (fun i => (v2 i).z) K (fun i hi => (hk i (by omega)).2.2)
      (fun i hi => by
        rw [← row_z, hrow i hi]; simp only [natR, natE]
        split_ifs <;> rfl)
    have l2 : (2 : Fl ℝ (rne p)) = .num 2 := num_lit hp 2 (by norm_num)
    have l4 : (4 : Fl ℝ (rne p)) = .num 4 := num_lit hp 4 (by norm_num)
    have l7 : (7 : Fl ℝ (rne p)) = .num 7 := num_lit hp 7 (by norm_num)
    have l8 : (8 : Fl ℝ (rne p)) = .num 8 := num_lit hp 8 (by norm_num)
    set q : ℕ → Vec3 ℝ := fun i => ⟨rsol (rne p) (natA N) (natB N) (fun _ => 1) (natF (rne p) N fun i => (k i).x) N i,
      rsol (rne p) (natA N) (natB N) (fun _ => 1) (natF (rne p) N fun i => (k i).y) N i,
      rsol (rne p) (natA N) (natB N) (fun _ => 1) (natF (rne p) N fun i => (k i).z) N i⟩ with hq
    obtain ⟨p2', p3', e, a1, a2⟩ := natural_run N hN (fun i => (k i).num) (fun i => (q i).num) p1 p2 p3 h1 h3 _
      (by rw [l2]; exact num_div ⟨rne p ((k N).x + (q (N - 1)).x), rne p ((k N).y + (q (N - 1)).y),
            rne p ((k N).z + (q (N - 1)).z)⟩ 2 (by norm_num))
      (fun A B C Rb hA hB hC hR => by
        obtain ⟨U', e1, e2, -⟩ := (solve3_num N (by omega) (natA N) (natB N) (fun _ => 1)
          (fun i => ⟨natF (rne p) N (fun i => (k i).x) i, natF (rne p) N (fun i => (k i).y) i,
            natF (rne p) N (fun i => (k i).z) i⟩) A B C Rb p2
          (by
            convert hA using 2 with i
            simp only [natA, l2, Fl.one_def]; split_ifs <;> rfl)
          (by
            convert hB using 2 with i
            simp only [natB, l2, l4, l7]; split_ifs <;> rfl) hC
          (by
            convert hR using 2 with i
            simp only [natF, l2, l4, l8]; split_ifs <;> rfl) h2).1 cx.1
        exact ⟨U', e1, e2⟩)
    refine ⟨p2', p3', q, fun i => if i = N - 1 then
        ⟨rne p (rne p ((k N).x + (q (N - 1)).x) / 2), rne p (rne p ((k N).y + (q (N - 1)).y) / 2),
          rne p (rne p ((k N).z + (q (N - 1)).z) / 2)⟩ else
        ⟨rne p (rne p ((k (i + 1)).x * 2) - (q (i + 1)).x), rne p (rne p ((k (i + 1)).y * 2) - (q (i + 1)).y),
          rne p (rne p ((k (i + 1)).z * 2) - (q (i + 1)).z)⟩, v2, v3, e, a1, ?_, hv, fun i hi => ⟨?_, ?_⟩⟩
    · convert a2 using 2 with i
      simp only [l2]; split_ifs <;> rfl
    · have hw : 109 * 2 ^ (-(p : ℤ)) * K ≤ 128 * 2 ^ (-(p : ℤ)) * K := by
        have : 0 ≤ (2 : ℝ) ^ (-(p : ℤ)) * K := by positivity
        linarith
      exact ⟨(cx.2 i hi).1.trans hw, (cy.2 i hi).1.trans hw, (cz.2 i hi).1.trans hw⟩
    · rw [hq3 i hi, natQ3]
      beta_reduce
      split_ifs with hl
      · obtain ⟨b1, b2, b3⟩ := hk N (by omega)
        exact ⟨rnd_last hr hu b1 (cx.2 _ (by omega)).2 (cx.2 _ (by omega)).1,
          rnd_last hr hu b2 (cy.2 _ (by omega)).2 (cy.2 _ (by omega)).1,
          rnd_last hr hu b3 (cz.2 _ (by omega)).2 (cz.2 _ (by omega)).1⟩
      · obtain ⟨b1, b2, b3⟩ := hk (i + 1) (by omega)
        exact ⟨rnd_third hr hu b1 (cx.2 _ (by omega)).2 (cx.2 _ (by omega)).1,
          rnd_third hr hu b2 (cy.2 _ (by omega)).2 (cy.2 _ (by omega)).1,
          rnd_third hr hu b3 (cz.2 _ (by omega)).2 (cz.2 _ (by omega)).1⟩

/-- C141: the same for a spline with given first and last inner control point; the last one is
returned as it is. -/
theorem C141_clamped (hp : 12 ≤ p) (n : ℕ) (hn : 2 ≤ n) (k : ℕ → Vec3 ℝ) (first last : Vec3 ℝ) (K : ℝ)
    (hk : ∀ i < n, (k i).BoundedBy K) (hf : first.BoundedBy K) (hl : last.BoundedBy K)
    (p1 p2 p3 : Buf (Vec3 (Fl ℝ (rne p)))) (h1 : p1.Holds n fun i => (k i).num)
    (h2 : n - 1 ≤ p2.size) (h3 : n - 1 ≤ p3.size) :
    ∃ (p2' p3' : Buf (Vec3 (Fl ℝ (rne p)))) (q2 q3 v2 v3 : ℕ → Vec3 ℝ), bezierSpline n p1 first.num last.num p2 p3 = .ok (true, p2', p3') ∧
      (p2'.Holds (n - 1) fun i => (q2 i).num) ∧ (p3'.Holds (n - 1) fun i => (q3 i).num) ∧
      IsClampedSpline (n - 1) first last (splineSeg k v2 v3) ∧ q3 (n - 2) = last ∧
      ∀ i < n - 1, (q2 i).Near (v2 i) (128 * 2 ^ (-(p : ℤ)) * K) ∧ (q3 i).Near (v3 i) (128 * 2 ^ (-(p : ℤ)) * K) := by
  have hr := isRel_rne p (by omega : 1 ≤ p)
  have hu := small_unit hp
  have hK : 0 ≤ K := (abs_nonneg _).trans (hk 0 (by omega)).1
  have hu0 := hr.nonneg
  have hself : ∀ v : Vec3 ℝ, v.Near v (128 * 2 ^ (-(p : ℤ)) * K) := fun v => by
    have : 0 ≤ 128 * 2 ^ (-(p : ℤ)) * K := by positivity
    simpa only [Vec3.Near, sub_self, abs_zero, and_self] using this
  obtain ⟨-, -, v2, v3, -, -, -, hv, -⟩ := C94_clamped n hn k first last ⟨n, fun i => some (k i)⟩ ⟨n, fun _ => none⟩
    ⟨n, fun _ => none⟩ ⟨le_rfl, fun i _ => rfl⟩ (Nat.sub_le _ _) (Nat.sub_le _ _)
  rcases Nat.eq_or_lt_of_le hn with rfl | hn3
  · obtain ⟨e2, e3⟩ := (clamped_one_iff _ _ _ _ _).1 hv
    have hdiv := num_div (p := p) ⟨rne p ((k 1).x - (k 0).x), rne p ((k 1).y - (k 0).y), rne p ((k 1).z - (k 0).z)⟩ 3 (by norm_num)
    obtain ⟨p2', p3', e, a1, a2⟩ := clamped_run_two (fun i => (k i).num) first.num last.num p1 p2 p3 h1 h2 h3 _
      (by rw [show (3 : Fl ℝ (rne p)) = .num 3 from num_lit hp 3 (by norm_num)]; exact hdiv)
    refine ⟨p2', p3', fun _ => first, fun _ => last, v2, v3, e, a1, a2, hv, rfl, fun i hi => ?_⟩
    obtain rfl : i = 0 := by omega
    rw [e2, e3]
    exact ⟨hself _, hself _⟩
  · obtain ⟨N, rfl⟩ : ∃ N, n = N + 1 := ⟨n - 1, by omega⟩
    rw [Nat.add_sub_cancel] at *
    have hN : 2 ≤ N := by omega
    obtain ⟨hrow, hq3⟩ := (clamped_iff N hN k v2 v3 first last).1 hv
    have cx := clamped_coord hp N hN (fun i => (k i).x) (fun i => (v2 i).x) first.x last.x K
      (fun i hi => (hk i (by omega)).1) hf.1 hl.1
      (fun i hi => by
        rw [← row_x, hrow i hi]; simp only [clR, clE]
        split_ifs <;> rfl)
    have cy := clamped_coord hp N hN (fun i => (k i).y) (fun i => (v2 i).y) first.y last.y K
      (fun i hi => (hk i (by omega)).2.1) hf.2.1 hl.2.1
      (fun i hi => by
        rw [← row_y, hrow i hi]; simp only [clR, clE]
        split_ifs <;> rfl)
    have cz := clamped_coord hp N hN (fun i => (k i).z) (fun i => (v2 i).z) first.z last.z K
      (fun i hi => (hk i (by omega)).2.2) hf.2.2 hl.2.2
      (fun i hi => by
        rw [← row_z, hrow i hi]; simp only [clR, clE]
        split_ifs <;> rfl)
    have l2 : (2 : Fl ℝ (rne p)) = .num 2 := num_lit hp 2 (by norm_num)
    have l4 : (4 : Fl ℝ (rne p)) = .num 4 := num_lit hp 4 (by norm_num)
    set q : ℕ → Vec3 ℝ := fun i => ⟨rsol (rne p) (fun _ => 1) clB clC (clF (rne p) N (fun i => (k i).x) first.x last.x) N i,
      rsol (rne p) (fun _ => 1) clB clC (clF (rne p) N (fun i => (k i).y) first.y last.y) N i,
      rsol (rne p) (fun _ => 1) clB clC (clF (rne p) N (fun i => (k i).z) first.z last.z) N i⟩ with hq
    obtain ⟨p2', p3', e, a1, a2⟩ := clamped_run N hN (fun i => (k i).num) (fun i => (q i).num) first.num last.num p1 p2 p3 h1 h3
      (fun A B C Rb hA hB hC hR => by
        obtain ⟨U', e1, e2, -⟩ := (solve3_num N (by omega) (fun _ => 1) clB clC
          (fun i => ⟨clF (rne p) N (fun i => (k i).x) first.x last.x i, clF (rne p) N (fun i => (k i).y) first.y last.y i,
            clF (rne p) N (fun i => (k i).z) first.z last.z i⟩) A B C Rb p2 hA
          (by
            convert hB using 2 with i
            simp only [clB, l4, Fl.one_def]; split_ifs <;> rfl)
          (by
            convert hC using 2 with i
            simp only [clC, Fl.one_def, Fl.zero_def]; split_ifs <;> rfl)
          (by
            convert hR using 2 with i
            simp only [clF, l2, l4]; split_ifs <;> rfl) h2).1 cx.1
        exact ⟨U', e1, e2⟩)
    refine ⟨p2', p3', q, fun i => if i = N - 1 then last else
        ⟨rne p (rne p ((k (i + 1)).x * 2) - (q (i + 1)).x), rne p (rne p ((k (i + 1)).y * 2) - (q (i + 1)).y),
          rne p (rne p ((k (i + 1)).z * 2) - (q (i + 1)).z)⟩, v2, v3, e, a1, ?_, hv, if_pos (by omega),
        fun i hi => ⟨?_, ?_⟩⟩
    · convert a2 using 2 with i
      simp only [l2]; split_ifs <;> rfl
    · have hw : 109 * 2 ^ (-(p : ℤ)) * K ≤ 128 * 2 ^ (-(p : ℤ)) * K := by
        have : 0 ≤ (2 : ℝ) ^ (-(p : ℤ)) * K := by positivity
        linarith
      exact ⟨(cx.2 i hi).1.trans hw, (cy.2 i hi).1.trans hw, (cz.2 i hi).1.trans hw⟩
    · rw [hq3 i hi, clQ3]
      beta_reduce
      split_ifs with hl
      · exact hself _
      · obtain ⟨b1, b2, b3⟩ := hk (i + 1) (by omega)
        exact ⟨rnd_third hr hu b1 (cx.2 _ (by omega)).2 (cx.2 _ (by omega)).1,
          rnd_third hr hu b2 (cy.2 _ (by omega)).2 (cy.2 _ (by omega)).1,
          rnd_third hr hu b3 (cz.2 _ (by omega)).2 (cz.2 _ (by omega)).1⟩
end main

/-- the curve: how far apart two segments with the same ends and near inner control points are -/
theorem C141_curve (s t : BezierSegment3 ℝ) (d : ℝ) (h1 : s.P1 = t.P1) (h4 : s.P4 = t.P4) (h2 : s.P2.Near t.P2 d)
    (h3 : s.P3.Near t.P3 d) (x : ℝ) (hx : 0 ≤ x ∧ x ≤ 1) (j : Fin 3) : |s.curve x j - t.curve x j| ≤ 3 / 4 * d := by
  have key : ∀ a b : ℝ, |a| ≤ d → |b| ≤ d → |3 * x * (1 - x) ^ 2 * a + 3 * x ^ 2 * (1 - x) * b| ≤ 3 / 4 * d := by
    intro a b ha hb
    have hd : 0 ≤ d := (abs_nonneg _).trans ha
    have w1 : 0 ≤ 3 * x * (1 - x) ^ 2 := by have := hx.1; positivity
    have w2 : 0 ≤ 3 * x ^ 2 * (1 - x) := mul_nonneg (by positivity) (by linarith [hx.2])
    refine (abs_add_le _ _).trans ?_
    rw [abs_mul _ a, abs_mul _ b, abs_of_nonneg w1, abs_of_nonneg w2]
    have e1 := mul_le_mul_of_nonneg_left ha w1
    have e2 := mul_le_mul_of_nonneg_left hb w2
    have e3 : 3 * x * (1 - x) ^ 2 + 3 * x ^ 2 * (1 - x) ≤ 3 / 4 := by nlinarith [sq_nonneg (x - 1 / 2)]
    have e4 := mul_le_mul_of_nonneg_right e3 hd
    linarith
  rw [BezierSegment3.curve_eq, BezierSegment3.curve_eq, h1, h4]
  obtain ⟨a1, a2, a3⟩ := h2
  obtain ⟨b1, b2, b3⟩ := h3
  fin_cases j
  · have := key _ _ a1 b1
    simp [Vec3.toE, Vec3.toFn]
    convert this using 2; ring
  · have := key _ _ a2 b2
    simp [Vec3.toE, Vec3.toFn]
    convert this using 2; ring
  · have := key _ _ a3 b3
    simp [Vec3.toE, Vec3.toFn]
    convert this using 2; ring

/-- a concrete case: three knots, `float` -/
example : ∀ i < 3, ((fun i => [(⟨0, 0, 0⟩ : Vec3 ℝ), ⟨1, 2, 0⟩, ⟨2, 0, -4⟩].getD i ⟨0, 0, 0⟩) i).BoundedBy 4 := by
  intro i hi
  interval_cases i <;> norm_num [Vec3.BoundedBy]

/-- the computed control points are not exact: they are `1/3` only up to rounding -/
example : (naturalBezierSpline 2 (Buf.ofList [(⟨0, 0, 0⟩ : Vec3 F32), ⟨1, 2, 0⟩]) (Buf.alloc 1) (Buf.alloc 1)).map
    (fun r => (r.1, r.2.1.toList)) = .ok (true, [some ⟨.num (11184811 / 33554432), .num (11184811 / 16777216), 0⟩]) := by
  decide +kernel

end MathLib
