import Verif.Proof.GaussJordan
import Verif.Proof.RelErr
import Mathlib.Algebra.BigOperators.Field
import Mathlib.Algebra.Order.BigOperators.Group.Finset

/-! # Gauss-Jordan elimination in floating point: helper lemmas -/

namespace MathLib
open GaussJordan

namespace GaussErr
open Finset

/-- the sum of the magnitudes off the diagonal in row `i` -/
def off (n : ℕ) (E : ℕ → ℕ → ℝ) (i : ℕ) : ℝ := ∑ j ∈ (range n).erase i, |E i j|

theorem off_nonneg (n : ℕ) (E : ℕ → ℕ → ℝ) (i : ℕ) : 0 ≤ off n E i := sum_nonneg fun _ _ => abs_nonneg _

theorem le_off {n : ℕ} {E : ℕ → ℕ → ℝ} {i j : ℕ} (hj : j < n) (hij : j ≠ i) : |E i j| ≤ off n E i :=
  single_le_sum (f := fun j => |E i j|) (fun _ _ => abs_nonneg _) (mem_erase.2 ⟨hij, mem_range.2 hj⟩)

/-- what is left over in row `i` when `x` is put into the equation -/
def resid (n : ℕ) (E : ℕ → ℕ → ℝ) (b x : ℕ → ℝ) (i : ℕ) : ℝ := b i - ∑ j ∈ range n, E i j * x j

/-- one turn of the main loop with pivot `p`, every entry computed with a relative error `ε` -/
structure Turn (n p : ℕ) (ε : ℝ) (E E' : ℕ → ℕ → ℝ) : Prop where
  pp : E' p p = 1
  pj : ∀ j < n, j ≠ p → |E' p j - E p j / E p p| ≤ ε * |E p j / E p p|
  ip : ∀ i < n, i ≠ p → E' i p = 0
  ij : ∀ i < n, i ≠ p → ∀ j < n, j ≠ p → |E' i j - (E i j - E' p j * E i p)| ≤ ε * (|E i j| + |E' p j * E i p|)

/-- the same turn on a column of the right-hand sides -/
structure TurnB (n p : ℕ) (ε : ℝ) (E : ℕ → ℕ → ℝ) (b b' : ℕ → ℝ) : Prop where
  pr : |b' p - b p / E p p| ≤ ε * |b p / E p p|
  or : ∀ i < n, i ≠ p → |b' i - (b i - b' p * E i p)| ≤ ε * (|b i| + |b' p * E i p|)

theorem sum_split {n p : ℕ} (hp : p < n) (f : ℕ → ℝ) :
    ∑ j ∈ range n, f j = f p + ∑ j ∈ (range n).erase p, f j :=
  (add_sum_erase _ f (mem_range.2 hp)).symm

theorem abs_row_le {n i : ℕ} (hi : i < n) {E : ℕ → ℕ → ℝ} {b x : ℕ → ℝ} {X : ℝ} (hx : ∀ j < n, |x j| ≤ X) :
    |b i| ≤ |resid n E b x i| + (|E i i| + off n E i) * X := by
  have h1 : |∑ j ∈ range n, E i j * x j| ≤ (|E i i| + off n E i) * X := by
    refine (abs_sum_le_sum_abs _ _).trans ?_
    rw [sum_split hi, add_mul, off, sum_mul]
    refine add_le_add ?_ (sum_le_sum fun j hj => ?_)
    · rw [abs_mul]; exact mul_le_mul_of_nonneg_left (hx i hi) (abs_nonneg _)
    · rw [abs_mul]; exact mul_le_mul_of_nonneg_left (hx j (mem_range.1 (mem_of_mem_erase hj))) (abs_nonneg _)
  have h2 : b i = resid n E b x i + ∑ j ∈ range n, E i j * x j := by rw [resid]; ring
  rw [h2]
  refine (abs_add_le _ _).trans ?_
  linarith

/-- row `p` after the turn -/
theorem off_p {n p : ℕ} {ε : ℝ} {E E' : ℕ → ℕ → ℝ} (h : Turn n p ε E E') :
    off n E' p ≤ (1 + ε) * off n E p / |E p p| := by
  rw [off, off, mul_sum, sum_div]
  refine sum_le_sum fun j hj => ?_
  have := h.pj j (mem_range.1 (mem_of_mem_erase hj)) (ne_of_mem_erase hj)
  have h2 : |E' p j| ≤ |E' p j - E p j / E p p| + |E p j / E p p| := by
    simpa using abs_add_le (E' p j - E p j / E p p) (E p j / E p p)
  rw [abs_div] at this h2
  rw [mul_div_assoc]
  linarith

theorem off_split {n i p : ℕ} (hp : p < n) (hip : i ≠ p) (f : ℕ → ℝ) :
    ∑ j ∈ (range n).erase i, f j = f p + ∑ j ∈ ((range n).erase i).erase p, f j :=
  (add_sum_erase _ f (mem_erase.2 ⟨hip.symm, mem_range.2 hp⟩)).symm

theorem off_split' {n i p : ℕ} (hi : i < n) (hip : i ≠ p) (f : ℕ → ℝ) :
    ∑ j ∈ (range n).erase p, f j = f i + ∑ j ∈ ((range n).erase i).erase p, f j := by
  rw [erase_right_comm]; exact off_split hi hip.symm f

/-- another row after the turn -/
theorem off_i {n i p : ℕ} (hi : i < n) (hp : p < n) (hip : i ≠ p) {ε : ℝ} (hε : 0 ≤ ε) {E E' : ℕ → ℕ → ℝ}
    (h : Turn n p ε E E') (ho : off n E' p ≤ 1) :
    (|E i i| - off n E i) + |E i p| * (1 - off n E' p) - ε * (|E i i| + off n E i) ≤ |E' i i| - off n E' i ∧
      |E' i i| + off n E' i ≤ (1 + ε) * (|E i i| + off n E i) := by
  have e1 : off n E i = |E i p| + ∑ j ∈ ((range n).erase i).erase p, |E i j| := off_split hp hip _
  have e2 : off n E' p = |E' p i| + ∑ j ∈ ((range n).erase i).erase p, |E' p j| := off_split' hi hip _
  have e3 : off n E' i = |E' i p| + ∑ j ∈ ((range n).erase i).erase p, |E' i j| := off_split hp hip _
  rw [h.ip i hi hip, abs_zero, zero_add] at e3
  have key : ∀ j < n, j ≠ p → |E' i j - E i j| ≤ |E' p j| * |E i p| + ε * (|E i j| + |E' p j| * |E i p|) := by
    intro j hj hjp
    have a := h.ij i hi hip j hj hjp
    have b : |E' i j - E i j| ≤ |E' i j - (E i j - E' p j * E i p)| + |E' p j * E i p| := by
      rw [← abs_neg (E' p j * E i p)]
      refine le_trans (le_of_eq ?_) (abs_add_le _ _)
      congr 1; ring
    rw [abs_mul] at a b
    linarith
  set t := ∑ j ∈ ((range n).erase i).erase p, |E i j|
  set w := ∑ j ∈ ((range n).erase i).erase p, |E' p j|
  have e4 : off n E' i ≤ (1 + ε) * (t + w * |E i p|) := by
    rw [e3]
    simp only [t, w]
    rw [sum_mul, ← sum_add_distrib, mul_sum]
    refine sum_le_sum fun j hj => ?_
    have hj' := mem_erase.1 hj
    have a := key j (mem_range.1 (mem_of_mem_erase hj'.2)) hj'.1
    have b : |E' i j| ≤ |E' i j - E i j| + |E i j| := by simpa using abs_add_le (E' i j - E i j) (E i j)
    linarith
  have kd := key i hi hip
  have b1 : |E i i| ≤ |E' i i - E i i| + |E' i i| := by
    have := abs_add_le (E i i - E' i i) (E' i i)
    rw [abs_sub_comm] at this
    simpa using this
  have b2 : |E' i i| ≤ |E' i i - E i i| + |E i i| := by simpa using abs_add_le (E' i i - E i i) (E i i)
  have hg := abs_nonneg (E' p i)
  have he := abs_nonneg (E i p)
  have hq : |E i p| * off n E' p ≤ |E i p| := mul_le_of_le_one_right he ho
  have hq' : ε * (|E i p| * off n E' p) ≤ ε * |E i p| := mul_le_mul_of_nonneg_left hq hε
  rw [e2] at hq hq' ⊢
  rw [e1]
  constructor <;> nlinarith

theorem num_p {d o o' ε c : ℝ} (hd : 0 < d) (ho : 0 ≤ o) (ho' : o' ≤ (1 + ε) * o / d) (hc : c * (d + o) ≤ d - o)
    (hc1 : c ≤ 1) (hε : 0 ≤ ε) (h2 : 2 * ε < c) :
    (d - o) - ε * (d + o) ≤ d * (1 - o') ∧ 0 < 1 - o' ∧ (c - 2 * ε) * (1 + o') ≤ 1 - o' := by
  have h1 : d * o' ≤ (1 + ε) * o := by rw [le_div_iff₀ hd] at ho'; linarith
  have a : (d - o) - ε * (d + o) ≤ d * (1 - o') := by nlinarith
  have hs : 0 < d + o := by linarith
  have b : 0 < d * (1 - o') := by nlinarith
  refine ⟨a, (mul_pos_iff_of_pos_left hd).1 b, ?_⟩
  have e1 : d * (1 + o') ≤ (1 + ε) * (d + o) := by nlinarith
  have e2 : (c - 2 * ε) * (d * (1 + o')) ≤ (c - 2 * ε) * ((1 + ε) * (d + o)) :=
    mul_le_mul_of_nonneg_left e1 (by linarith)
  have e3 : (c - 2 * ε) * ((1 + ε) * (d + o)) ≤ (c - ε) * (d + o) := by
    have : (c - 2 * ε) * (1 + ε) ≤ c - ε := by nlinarith
    calc _ = (c - 2 * ε) * (1 + ε) * (d + o) := by ring
      _ ≤ _ := mul_le_mul_of_nonneg_right this hs.le
  have e4 : d * ((c - 2 * ε) * (1 + o')) ≤ d * (1 - o') := by linarith
  exact le_of_mul_le_mul_left e4 hd

theorem num_i {s m s' m' e o' ε c : ℝ} (h1 : m + e * (1 - o') - ε * s ≤ m') (h2 : s' ≤ (1 + ε) * s) (he : 0 ≤ e)
    (ho : 0 < 1 - o') (hc : c * s ≤ m) (hs : 0 < s) (hc1 : c ≤ 1) (hε : 0 ≤ ε) (h3 : 2 * ε < c) :
    0 < m' ∧ (c - 2 * ε) * s' ≤ m' := by
  have := mul_nonneg he ho.le
  have a : (c - ε) * s ≤ m' := by linarith
  refine ⟨lt_of_lt_of_le (mul_pos (by linarith) hs) a, ?_⟩
  refine le_trans (mul_le_mul_of_nonneg_left h2 (by linarith)) (le_trans ?_ a)
  have : (c - 2 * ε) * (1 + ε) ≤ c - ε := by nlinarith
  calc _ = (c - 2 * ε) * (1 + ε) * s := by ring
    _ ≤ _ := mul_le_mul_of_nonneg_right this hs.le

/-- the matrix is dominated by its diagonal -/
def Dom (n : ℕ) (c : ℝ) (E : ℕ → ℕ → ℝ) : Prop :=
  ∀ i < n, 0 < |E i i| - off n E i ∧ c * (|E i i| + off n E i) ≤ |E i i| - off n E i

theorem Dom.turn {n p : ℕ} {c ε : ℝ} {E E' : ℕ → ℕ → ℝ} (hD : Dom n c E) (hp : p < n) (h : Turn n p ε E E')
    (hc1 : c ≤ 1) (hε : 0 ≤ ε) (h2 : 2 * ε < c) : Dom n (c - 2 * ε) E' := by
  have op := off_nonneg n E p
  have := (hD p hp).1
  obtain ⟨a, b, q⟩ := num_p (by linarith) op (off_p h) (hD p hp).2 hc1 hε h2
  intro i hi
  by_cases hip : i = p
  · subst hip
    rw [h.pp, abs_one]
    exact ⟨b, q⟩
  · obtain ⟨r1, r2⟩ := off_i hi hp hip hε h (by linarith)
    have oi := off_nonneg n E i
    have := (hD i hi).1
    exact num_i r1 r2 (abs_nonneg _) b (hD i hi).2 (by linarith) hc1 hε h2

theorem res_p {n p : ℕ} (hp : p < n) {ε X : ℝ} {E E' : ℕ → ℕ → ℝ} {b b' x : ℕ → ℝ}
    (h : Turn n p ε E E') (hb : TurnB n p ε E b b') (hx : ∀ j < n, |x j| ≤ X) (hd : E p p ≠ 0) :
    |E p p| * |resid n E' b' x p| ≤ |resid n E b x p| + ε * |b p| + ε * (off n E p * X) := by
  have e : E p p * resid n E' b' x p = resid n E b x p + E p p * (b' p - b p / E p p) -
      ∑ j ∈ (range n).erase p, E p p * (E' p j - E p j / E p p) * x j := by
    rw [resid, resid, sum_split hp, sum_split hp, h.pp]
    have : ∀ j, E p p * (E' p j - E p j / E p p) * x j = E p p * (E' p j * x j) - E p j * x j := by
      intro j; field_simp
    simp only [this]
    rw [sum_sub_distrib, ← mul_sum]
    field_simp
    ring
  rw [← abs_mul, e]
  have a1 : |E p p * (b' p - b p / E p p)| ≤ ε * |b p| := by
    rw [abs_mul]
    calc _ ≤ |E p p| * (ε * |b p / E p p|) := mul_le_mul_of_nonneg_left hb.pr (abs_nonneg _)
      _ = ε * |b p| := by rw [abs_div]; have := abs_pos.2 hd; field_simp
  have a2 : |∑ j ∈ (range n).erase p, E p p * (E' p j - E p j / E p p) * x j| ≤ ε * (off n E p * X) := by
    refine (abs_sum_le_sum_abs _ _).trans ?_
    rw [off, sum_mul, mul_sum]
    refine sum_le_sum fun j hj => ?_
    have hj' := mem_erase.1 hj
    rw [abs_mul, abs_mul]
    have hq : |E p p| * |E' p j - E p j / E p p| ≤ ε * |E p j| := by
      calc _ ≤ |E p p| * (ε * |E p j / E p p|) :=
            mul_le_mul_of_nonneg_left (h.pj j (mem_range.1 hj'.2) hj'.1) (abs_nonneg _)
        _ = ε * |E p j| := by rw [abs_div]; have := abs_pos.2 hd; field_simp
    calc _ ≤ ε * |E p j| * X := mul_le_mul hq (hx j (mem_range.1 hj'.2)) (abs_nonneg _)
          ((mul_nonneg (abs_nonneg _) (abs_nonneg _)).trans hq)
      _ = _ := by ring
  have t1 := abs_sub (resid n E b x p + E p p * (b' p - b p / E p p))
    (∑ j ∈ (range n).erase p, E p p * (E' p j - E p j / E p p) * x j)
  have t2 := abs_add_le (resid n E b x p) (E p p * (b' p - b p / E p p))
  linarith

theorem res_i {n p i : ℕ} (hp : p < n) (hi : i < n) (hip : i ≠ p) {ε X : ℝ} (hε : 0 ≤ ε) {E E' : ℕ → ℕ → ℝ}
    {b b' x : ℕ → ℝ}
    (h : Turn n p ε E E') (hb : TurnB n p ε E b b') (hx : ∀ j < n, |x j| ≤ X) (ho : off n E' p ≤ 1) :
    |resid n E' b' x i| ≤ |resid n E b x i| + |E i p| * |resid n E' b' x p| + ε * (|b i| + |b' p| * |E i p|) +
      ε * ((|E i i| + off n E i) * X) := by
  have hX : 0 ≤ X := (abs_nonneg _).trans (hx p hp)
  have e : resid n E' b' x i = resid n E b x i - E i p * resid n E' b' x p + (b' i - (b i - b' p * E i p)) -
      ∑ j ∈ (range n).erase p, (E' i j - (E i j - E' p j * E i p)) * x j := by
    rw [resid, resid, resid, sum_split hp, sum_split hp (fun j => E i j * x j),
      sum_split hp (fun j => E' p j * x j), h.pp, h.ip i hi hip]
    have : ∀ j, (E' i j - (E i j - E' p j * E i p)) * x j = E' i j * x j - E i j * x j + E i p * (E' p j * x j) := by
      intro j; ring
    simp only [this]
    rw [sum_add_distrib, sum_sub_distrib, ← mul_sum]
    ring
  rw [e]
  have a1 := hb.or i hi hip
  rw [abs_mul] at a1
  have a2 : |∑ j ∈ (range n).erase p, (E' i j - (E i j - E' p j * E i p)) * x j| ≤
      ε * ((|E i i| + off n E i) * X) := by
    refine (abs_sum_le_sum_abs _ _).trans ?_
    have s1 : ∀ j ∈ (range n).erase p, |(E' i j - (E i j - E' p j * E i p)) * x j| ≤
        ε * ((|E i j| + |E' p j| * |E i p|) * X) := by
      intro j hj
      have hj' := mem_erase.1 hj
      have q := h.ij i hi hip j (mem_range.1 hj'.2) hj'.1
      rw [abs_mul (E' p j)] at q
      rw [abs_mul]
      calc _ ≤ ε * (|E i j| + |E' p j| * |E i p|) * X :=
            mul_le_mul q (hx j (mem_range.1 hj'.2)) (abs_nonneg _) ((abs_nonneg _).trans q)
        _ = _ := by ring
    refine (sum_le_sum s1).trans ?_
    rw [← mul_sum, ← sum_mul, sum_add_distrib, ← sum_mul]
    refine mul_le_mul_of_nonneg_left (mul_le_mul_of_nonneg_right ?_ hX) hε
    have q1 : ∑ j ∈ (range n).erase p, |E i j| + |E i p| = |E i i| + off n E i := by
      have r1 := sum_split hp (fun j => |E i j|)
      have r2 := sum_split hi (fun j => |E i j|)
      rw [off]; linarith
    have q2 : (∑ j ∈ (range n).erase p, |E' p j|) * |E i p| ≤ |E i p| :=
      mul_le_of_le_one_left (abs_nonneg _) ho
    linarith
  have t1 := abs_sub (resid n E b x i - E i p * resid n E' b' x p + (b' i - (b i - b' p * E i p)))
    (∑ j ∈ (range n).erase p, (E' i j - (E i j - E' p j * E i p)) * x j)
  have t2 := abs_add_le (resid n E b x i - E i p * resid n E' b' x p) (b' i - (b i - b' p * E i p))
  have t3 := abs_sub (resid n E b x i) (E i p * resid n E' b' x p)
  rw [abs_mul] at t3
  linarith

theorem frac {η a X k : ℝ} (hη0 : 0 ≤ η) (hη1 : η ≤ 1 / 12) (ha : 0 ≤ a) (hX : 0 ≤ X) (hk : 0 ≤ k) :
    (1 + η) * a + k * η * X ≤ (1 - η) * ((1 + 11 / 5 * η) * a + 11 / 10 * k * η * X) := by
  have h1 : 0 ≤ η * (1 / 5 - 11 / 5 * η) * a := mul_nonneg (mul_nonneg hη0 (by linarith)) ha
  have h2 : 0 ≤ η * (1 / 10 - 11 / 10 * η) * (k * X) :=
    mul_nonneg (mul_nonneg hη0 (by linarith)) (mul_nonneg hk hX)
  linarith

theorem fin_bound {η α X : ℝ} (hη0 : 0 ≤ η) (hη1 : η ≤ 1 / 12) (hα : 0 ≤ α) (hX : 0 ≤ X) :
    (1 + 11 / 5 * η) * ((1 + 11 / 5 * η) * α + 11 / 5 * η * X) + 22 / 5 * η * X ≤ (1 + 5 * η) * α + 8 * η * X := by
  have q1 : 0 ≤ η * (3 / 5 - 121 / 25 * η) * α := mul_nonneg (mul_nonneg hη0 (by linarith)) hα
  have q2 : 0 ≤ η * (7 / 5 - 121 / 25 * η) * X := mul_nonneg (mul_nonneg hη0 (by linarith)) hX
  linarith

theorem conv {μ μ' Q Q' η r : ℝ} (h1 : r ≤ μ * Q) (h2 : Q ≤ (1 - η) * Q') (h3 : (1 - η) * μ ≤ μ') (hμ : 0 ≤ μ)
    (hQ : 0 ≤ Q') : r ≤ Q' * μ' := by
  calc r ≤ μ * Q := h1
    _ ≤ μ * ((1 - η) * Q') := mul_le_mul_of_nonneg_left h2 hμ
    _ = ((1 - η) * μ) * Q' := by ring
    _ ≤ μ' * Q' := mul_le_mul_of_nonneg_right h3 hQ
    _ = _ := mul_comm _ _

/-- the numbers of row `p` -/
theorem num_row_p {d o ε η α X r r' bp : ℝ} (hrp : r ≤ α * (d - o)) (bpb : bp ≤ r + (d + o) * X)
    (rp : r' ≤ r + ε * bp + ε * (o * X)) (esp : ε * (d + o) ≤ η * (d - o)) (hεη : ε ≤ η) (hε : 0 ≤ ε)
    (hX : 0 ≤ X) (hα : 0 ≤ α) (mp : 0 < d - o) (hd : 0 < d) : r' ≤ (d - o) * ((1 + η) * α + 2 * η * X) := by
  have q1 : ε * bp ≤ ε * (α * (d - o)) + ε * ((d + o) * X) := by
    rw [← mul_add]; exact mul_le_mul_of_nonneg_left (by linarith) hε
  have q2 : ε * (o * X) ≤ ε * ((d + o) * X) :=
    mul_le_mul_of_nonneg_left (mul_le_mul_of_nonneg_right (by linarith) hX) hε
  have q3 : ε * ((d + o) * X) ≤ η * (d - o) * X := by
    rw [← mul_assoc]; exact mul_le_mul_of_nonneg_right esp hX
  have q4 : ε * (α * (d - o)) ≤ η * (α * (d - o)) := mul_le_mul_of_nonneg_right hεη (mul_nonneg hα mp.le)
  linarith

/-- the numbers of another row -/
theorem num_row_i {μ s e ν α2 ε η X r r' ri bi bp : ℝ} (f1 : ri ≤ α2 * μ) (rowp : r ≤ α2 * ν)
    (bib : bi ≤ ri + s * X) (bpb : bp ≤ r + 2 * X) (r2 : r' ≤ ri + e * r + ε * (bi + bp * e) + ε * (s * X))
    (hee : e ≤ s) (he : 0 ≤ e) (esi : ε * s ≤ η * μ) (hεη : ε ≤ η) (hε : 0 ≤ ε) (hη0 : 0 ≤ η)
    (hX : 0 ≤ X) (hα : 0 ≤ α2) (mi : 0 < μ) (hν : 0 < ν) :
    r' ≤ (μ + e * ν) * ((1 + η) * α2 + 4 * η * X) := by
  have f2 : e * r ≤ α2 * (e * ν) := by
    calc _ ≤ e * (α2 * ν) := mul_le_mul_of_nonneg_left rowp he
      _ = _ := by ring
  have f3 : ε * bi ≤ ε * (α2 * μ) + ε * (s * X) := by
    rw [← mul_add]; exact mul_le_mul_of_nonneg_left (by linarith) hε
  have f4 : ε * (bp * e) ≤ ε * (α2 * (e * ν)) + 2 * (ε * (s * X)) := by
    have g2 : bp * e ≤ (α2 * ν + 2 * X) * e := mul_le_mul_of_nonneg_right (by linarith) he
    have g3 : e * X ≤ s * X := mul_le_mul_of_nonneg_right hee hX
    have : bp * e ≤ α2 * (e * ν) + 2 * (s * X) := by linarith
    have := mul_le_mul_of_nonneg_left this hε
    linarith
  have f5 : ε * (s * X) ≤ η * μ * X := by
    rw [← mul_assoc]; exact mul_le_mul_of_nonneg_right esi hX
  have f6 : 0 ≤ e * ν := mul_nonneg he hν.le
  have f7 : η * μ * X ≤ η * (μ + e * ν) * X :=
    mul_le_mul_of_nonneg_right (mul_le_mul_of_nonneg_left (by linarith) hη0) hX
  have f8 : ε * (α2 * μ) + ε * (α2 * (e * ν)) ≤ η * (α2 * (μ + e * ν)) := by
    rw [← mul_add, ← mul_add]
    exact mul_le_mul_of_nonneg_right hεη (mul_nonneg hα (by linarith))
  linarith

/-- the residuals stay small compared with the dominance -/
theorem resid_turn {n p : ℕ} {c ε η X α : ℝ} {E E' : ℕ → ℕ → ℝ} {b b' x : ℕ → ℝ} (hD : Dom n c E) (hp : p < n)
    (h : Turn n p ε E E') (hb : TurnB n p ε E b b') (hx : ∀ j < n, |x j| ≤ X)
    (hc1 : c ≤ 1) (hε : 0 ≤ ε) (hη : ε ≤ η * c) (hη1 : η ≤ 1 / 12) (hc0 : 0 < c) (hα : 0 ≤ α)
    (hr : ∀ i < n, |resid n E b x i| ≤ α * (|E i i| - off n E i)) :
    ∀ i < n, |resid n E' b' x i| ≤ ((1 + 5 * η) * α + 8 * η * X) * (|E' i i| - off n E' i) := by
  have hX : 0 ≤ X := (abs_nonneg _).trans (hx p hp)
  have hη0 : 0 ≤ η := by
    by_contra hh
    push Not at hh
    have := mul_neg_of_neg_of_pos hh hc0
    linarith
  have hεη : ε ≤ η := hη.trans (mul_le_of_le_one_right hη0 hc1)
  have h2 : 2 * ε < c := by nlinarith
  have op := off_nonneg n E p
  obtain ⟨mp, cp⟩ := hD p hp
  have hd : 0 < |E p p| := by linarith
  have hd0 : E p p ≠ 0 := abs_pos.1 hd
  obtain ⟨a1, a2, -⟩ := num_p hd op (off_p h) cp hc1 hε h2
  have oo := off_nonneg n E' p
  -- row p
  have es : ∀ i < n, ε * (|E i i| + off n E i) ≤ η * (|E i i| - off n E i) := by
    intro i hi
    have oi := off_nonneg n E i
    obtain ⟨mi, ci⟩ := hD i hi
    calc ε * (|E i i| + off n E i) ≤ η * c * (|E i i| + off n E i) :=
          mul_le_mul_of_nonneg_right hη (by linarith)
      _ = η * (c * (|E i i| + off n E i)) := by ring
      _ ≤ _ := mul_le_mul_of_nonneg_left ci hη0
  have bp := abs_row_le (E := E) (b := b) hp hx
  have rp := res_p hp h hb hx hd0
  have hrp := hr p hp
  have esp := es p hp
  set d := |E p p|
  set o := off n E p
  set o' := off n E' p
  have rowp : |resid n E' b' x p| ≤ ((1 + 11 / 5 * η) * α + 11 / 5 * η * X) * (1 - o') := by
    have e1 := num_row_p hrp bp rp esp hεη hε hX hα mp hd
    have e2 : (1 - η) * (d - o) ≤ d * (1 - o') := by linarith
    have e3 := frac hη0 hη1 hα hX (by norm_num : (0 : ℝ) ≤ 2)
    norm_num at e3
    have e4 := conv e1 e3 e2 mp.le (by positivity)
    refine le_of_mul_le_mul_left (e4.trans (le_of_eq ?_)) hd
    ring
  set α2 := (1 + 11 / 5 * η) * α + 11 / 5 * η * X with hα2
  have hα20 : 0 ≤ α2 := by positivity
  have hαα : α ≤ α2 := by
    have : 0 ≤ 11 / 5 * η * α := by positivity
    have : 0 ≤ 11 / 5 * η * X := by positivity
    rw [hα2]; linarith
  have bp' := abs_row_le (E := E') (b := b') hp hx
  rw [h.pp, abs_one] at bp'
  have hfin := fin_bound hη0 hη1 hα hX
  rw [← hα2] at hfin
  intro i hi
  by_cases hip : i = p
  · subst hip
    rw [h.pp, abs_one]
    refine rowp.trans (mul_le_mul_of_nonneg_right ?_ a2.le)
    have : 0 ≤ 11 / 5 * η * α2 := by positivity
    have : 0 ≤ 22 / 5 * η * X := by positivity
    linarith
  · have oi := off_nonneg n E i
    obtain ⟨mi, ci⟩ := hD i hi
    have r1 := (off_i hi hp hip hε h (by linarith)).1
    have r2 := res_i hp hi hip hε h hb hx (by linarith)
    have bi := abs_row_le (E := E) (b := b) hi hx
    have hri := hr i hi
    have esi := es i hi
    have hee : |E i p| ≤ |E i i| + off n E i := (le_off hp (Ne.symm hip)).trans (by linarith [abs_nonneg (E i i)])
    set e := |E i p|
    have he : 0 ≤ e := abs_nonneg _
    set s := |E i i| + off n E i
    set μ := |E i i| - off n E i
    set ν := 1 - o' with hν
    have hso : 1 + o' ≤ 2 := by linarith
    have f1 : |resid n E b x i| ≤ α2 * μ := hri.trans (mul_le_mul_of_nonneg_right hαα mi.le)
    have hb2 : |b' p| ≤ |resid n E' b' x p| + 2 * X := by
      have : (1 + o') * X ≤ 2 * X := mul_le_mul_of_nonneg_right hso hX
      linarith
    have f6 : 0 ≤ e * ν := mul_nonneg he a2.le
    have g1 := num_row_i f1 rowp bi hb2 r2 hee he esi hεη hε hη0 hX hα20 mi a2
    have g2 := frac hη0 hη1 hα20 hX (by norm_num : (0 : ℝ) ≤ 4)
    norm_num at g2
    have g3 : (1 - η) * (μ + e * ν) ≤ |E' i i| - off n E' i := by
      have := mul_nonneg hη0 f6
      linarith
    have hM : 0 ≤ |E' i i| - off n E' i :=
      le_trans (mul_nonneg (by linarith) (by linarith)) g3
    exact (conv g1 g2 g3 (by linarith) (by positivity)).trans (mul_le_mul_of_nonneg_right hfin hM)

end GaussErr

end MathLib
