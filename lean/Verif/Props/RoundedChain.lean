import Verif.Props.RoundedForward
import Verif.Proof.QuatLemmas
import Verif.Proof.Rne
import Mathlib.Analysis.Quaternion
import Mathlib.Tactic.NormNum.BigOperators

/-! # Property C145: chains of quaternion products in floating point

An orientation kept as a quaternion is multiplied by a small rotation every frame.  The claim is that the
product stays a unit quaternion up to rounding, however many factors there are. -/

namespace MathLib
open scoped Quaternion

/-! ## One product -/

variable {rnd : ℝ → ℝ} {u : ℝ}

private theorem sq_norm (q : Quat ℝ) : ‖q.toQ‖ ^ 2 = q.x ^ 2 + q.y ^ 2 + q.z ^ 2 + q.w ^ 2 := by
  rw [sq, ← Quaternion.normSq_eq_norm_mul_self, Quaternion.normSq_def']
  simp only [Quat.toQ_re, Quat.toQ_imI, Quat.toQ_imJ, Quat.toQ_imK]; ring

private theorem toQ_mul (p q : Quat ℝ) : (p.mul q).toQ = p.toQ * q.toQ := by
  ext <;> simp [Quat.mul] <;> ring

private theorem cs {a b c d e f g h A B : ℝ} (hA : 0 ≤ A) (hB : 0 ≤ B) (h1 : a ^ 2 + c ^ 2 + e ^ 2 + g ^ 2 = A ^ 2)
    (h2 : b ^ 2 + d ^ 2 + f ^ 2 + h ^ 2 = B ^ 2) : |a * b| + |c * d| + |e * f| + |g * h| ≤ A * B := by
  refine le_of_sq_le_sq ?_ (by positivity) |>.trans_eq rfl
  simp only [abs_mul]
  rw [mul_pow, ← h1, ← h2, ← sq_abs a, ← sq_abs b, ← sq_abs c, ← sq_abs d, ← sq_abs e, ← sq_abs f, ← sq_abs g,
    ← sq_abs h]
  nlinarith [sq_nonneg (|a| * |d| - |c| * |b|), sq_nonneg (|a| * |f| - |e| * |b|), sq_nonneg (|a| * |h| - |g| * |b|),
    sq_nonneg (|c| * |f| - |e| * |d|), sq_nonneg (|c| * |h| - |g| * |d|), sq_nonneg (|e| * |h| - |g| * |f|)]

private theorem gam_nonneg (hr : IsRel rnd u) (n : ℕ) : 0 ≤ gam u n := by
  have : 1 ≤ ((1 - u) ^ n)⁻¹ := (one_le_inv₀ (Fac.gpos hr.lt_one n)).2 (Fac.gle hr.nonneg hr.lt_one n)
  unfold gam; linarith

/-- C145: one product is off by at most `2 gam u 4` times the lengths of the factors. -/
theorem C145_product (hr : IsRel rnd u) (p q : Quat ℝ) :
    ∃ r : Quat ℝ, (Quat.num p : Quat (Fl ℝ rnd)).mul (Quat.num q) = Quat.num r ∧
      ‖r.toQ - p.toQ * q.toQ‖ ≤ 2 * gam u 4 * (‖p.toQ‖ * ‖q.toQ‖) := by
  obtain ⟨⟨x, ex, hx⟩, ⟨y, ey, hy⟩, ⟨z, ez, hz⟩, ⟨w, ew, hw⟩⟩ := C120_quat hr p q
  have hp := sq_norm p
  have hq := sq_norm q
  have np := norm_nonneg p.toQ
  have nq := norm_nonneg q.toQ
  have hg := gam_nonneg hr 4
  refine ⟨⟨x, y, z, w⟩, ?_, ?_⟩
  · change Quat.mk _ _ _ _ = Quat.mk _ _ _ _
    exact Quat.mk.injEq _ _ _ _ _ _ _ _ ▸ ⟨ex, ey, ez, ew⟩
  have b : ∀ {A v e : ℝ}, |v - e| ≤ gam u 4 * A → A ≤ ‖p.toQ‖ * ‖q.toQ‖ →
      (v - e) ^ 2 ≤ (gam u 4 * (‖p.toQ‖ * ‖q.toQ‖)) ^ 2 := fun h1 h2 =>
    sq_le_sq' (neg_le_of_abs_le (h1.trans (mul_le_mul_of_nonneg_left h2 hg)))
      (le_of_abs_le (h1.trans (mul_le_mul_of_nonneg_left h2 hg)))
  have bx := b hx (cs np nq (by linarith) (by linarith))
  have bY := b hy (cs np nq (by linarith) (by linarith))
  have bz := b hz (cs np nq (by linarith) (by linarith))
  have bw := b hw (cs np nq (by linarith) (by linarith))
  refine abs_le_of_sq_le_sq' ?_ (by positivity) |>.2
  have e : ‖(Quat.mk x y z w).toQ - p.toQ * q.toQ‖ ^ 2 =
      ‖(Quat.mk (x - (p.mul q).x) (y - (p.mul q).y) (z - (p.mul q).z) (w - (p.mul q).w)).toQ‖ ^ 2 := by
    rw [← toQ_mul]; congr 2
  rw [e, sq_norm]
  simp only [Quat.mul]
  nlinarith

/-! ## Chains -/

/-- C145: a chain of products, appended on the right, is off by at most `(1 + 2 gam u 4)^n - 1` times the
product of the lengths. -/
theorem C145_chain (hr : IsRel rnd u) (l : List (Quat ℝ)) (p : Quat ℝ) :
    ∃ r : Quat ℝ, l.foldl (fun a q => a.mul (Quat.num q)) (Quat.num p : Quat (Fl ℝ rnd)) = Quat.num r ∧
      ‖r.toQ - p.toQ * (l.map Quat.toQ).prod‖ ≤
        ((1 + 2 * gam u 4) ^ l.length - 1) * (‖p.toQ‖ * ‖(l.map Quat.toQ).prod‖) := by
  induction l generalizing p with
  | nil => exact ⟨p, rfl, by simp⟩
  | cons q l ih =>
    obtain ⟨r1, e1, h1⟩ := C145_product hr p q
    obtain ⟨r, e, h⟩ := ih r1
    refine ⟨r, by rw [List.foldl_cons, e1, e], ?_⟩
    simp only [List.map_cons, List.prod_cons, List.length_cons, norm_mul]
    set P := (l.map Quat.toQ).prod
    have hg := gam_nonneg hr 4
    set g := gam u 4
    have hG : 1 ≤ (1 + 2 * g) ^ l.length := one_le_pow₀ (by linarith)
    have hn : ‖r1.toQ‖ ≤ (1 + 2 * g) * (‖p.toQ‖ * ‖q.toQ‖) := by
      have := norm_add_le (r1.toQ - p.toQ * q.toQ) (p.toQ * q.toQ)
      rw [sub_add_cancel, norm_mul] at this
      linarith
    have t : ‖r.toQ - p.toQ * (q.toQ * P)‖ ≤ ‖r.toQ - r1.toQ * P‖ + ‖r1.toQ - p.toQ * q.toQ‖ * ‖P‖ := by
      rw [← norm_mul, sub_mul, mul_assoc]
      exact norm_sub_le_norm_sub_add_norm_sub _ _ _
    have hP := norm_nonneg P
    calc _ ≤ _ := t
      _ ≤ ((1 + 2 * g) ^ l.length - 1) * ((1 + 2 * g) * (‖p.toQ‖ * ‖q.toQ‖) * ‖P‖) +
          2 * g * (‖p.toQ‖ * ‖q.toQ‖) * ‖P‖ := by
        refine add_le_add (h.trans (mul_le_mul_of_nonneg_left (mul_le_mul_of_nonneg_right hn hP) (by linarith)))
          (mul_le_mul_of_nonneg_right h1 hP)
      _ = _ := by rw [pow_succ]; ring

/-- C145: the same for a chain built up on the left. -/
theorem C145_chain_left (hr : IsRel rnd u) (l : List (Quat ℝ)) (p : Quat ℝ) :
    ∃ r : Quat ℝ, l.foldr (fun q a => (Quat.num q).mul a) (Quat.num p : Quat (Fl ℝ rnd)) = Quat.num r ∧
      ‖r.toQ - (l.map Quat.toQ).prod * p.toQ‖ ≤
        ((1 + 2 * gam u 4) ^ l.length - 1) * (‖(l.map Quat.toQ).prod‖ * ‖p.toQ‖) := by
  induction l with
  | nil => exact ⟨p, rfl, by simp⟩
  | cons q l ih =>
    obtain ⟨r1, e1, h1⟩ := ih
    obtain ⟨r, e, h⟩ := C145_product hr q r1
    refine ⟨r, by rw [List.foldr_cons, e1, e], ?_⟩
    simp only [List.map_cons, List.prod_cons, List.length_cons, norm_mul]
    set P := (l.map Quat.toQ).prod
    have hg := gam_nonneg hr 4
    set g := gam u 4
    have hG : 1 ≤ (1 + 2 * g) ^ l.length := one_le_pow₀ (by linarith)
    have hn : ‖r1.toQ‖ ≤ (1 + 2 * g) ^ l.length * (‖P‖ * ‖p.toQ‖) := by
      have := norm_add_le (r1.toQ - P * p.toQ) (P * p.toQ)
      rw [sub_add_cancel, norm_mul] at this
      linarith
    have t : ‖r.toQ - q.toQ * P * p.toQ‖ ≤ ‖r.toQ - q.toQ * r1.toQ‖ + ‖q.toQ‖ * ‖r1.toQ - P * p.toQ‖ := by
      rw [← norm_mul, mul_sub, ← mul_assoc]
      exact norm_sub_le_norm_sub_add_norm_sub _ _ _
    have hq := norm_nonneg q.toQ
    calc _ ≤ _ := t
      _ ≤ 2 * g * (‖q.toQ‖ * ((1 + 2 * g) ^ l.length * (‖P‖ * ‖p.toQ‖))) +
          ‖q.toQ‖ * (((1 + 2 * g) ^ l.length - 1) * (‖P‖ * ‖p.toQ‖)) := by
        refine add_le_add (h.trans (mul_le_mul_of_nonneg_left (mul_le_mul_of_nonneg_left hn hq) (by linarith)))
          (mul_le_mul_of_nonneg_left h1 hq)
      _ = _ := by rw [pow_succ]; ring

private theorem pow_growth {x : ℝ} {n : ℕ} (hx : 0 ≤ x) (h : 8 * (n * x) ≤ 1) : (1 + x) ^ n - 1 ≤ 8 / 7 * (n * x) := by
  rcases Nat.eq_zero_or_pos n with rfl | hn
  · simp
  have hn1 : (1 : ℝ) ≤ n := by exact_mod_cast hn
  have hx1 : x ≤ 1 := by nlinarith
  have b := one_add_mul_le_pow (a := -x) (by linarith) n
  have m : (1 + x) ^ n * (1 + -x) ^ n ≤ 1 := by
    rw [← mul_pow]; exact pow_le_one₀ (by nlinarith) (by nlinarith)
  have p0 : 0 ≤ (1 + x) ^ n := by positivity
  have : (1 + x) ^ n * (1 + n * -x) ≤ 1 := (mul_le_mul_of_nonneg_left b p0).trans m
  have h0 : 0 ≤ (n : ℝ) * x := by positivity
  have p1 : 1 ≤ (1 + x) ^ n := one_le_pow₀ (by linarith)
  have e : (n : ℝ) * -x = -(n * x) := by ring
  rw [e] at this
  generalize (n : ℝ) * x = y at *
  nlinarith

private theorem prod_bounds {d : ℝ} (hd : 0 ≤ d) (hd1 : d ≤ 1) (l : List (Quat ℝ))
    (hl : ∀ q ∈ l, |‖q.toQ‖ - 1| ≤ d) :
    (1 - d) ^ l.length ≤ ‖(l.map Quat.toQ).prod‖ ∧ ‖(l.map Quat.toQ).prod‖ ≤ (1 + d) ^ l.length := by
  induction l with
  | nil => simp
  | cons q l ih =>
    obtain ⟨h1, h2⟩ := ih fun a ha => hl a (List.mem_cons_of_mem _ ha)
    obtain ⟨c1, c2⟩ := abs_le.1 (hl q List.mem_cons_self)
    simp only [List.map_cons, List.prod_cons, List.length_cons, norm_mul, pow_succ']
    exact ⟨mul_le_mul (by linarith) h1 (pow_nonneg (by linarith) _) (norm_nonneg _),
      mul_le_mul (by linarith) h2 (norm_nonneg _) (by linarith)⟩

private theorem two_le {d : ℝ} (hd : 0 ≤ d) (hd1 : d ≤ 1) (n : ℕ) : 2 ≤ (1 - d) ^ n + (1 + d) ^ n := by
  have h1 := one_add_mul_le_pow (a := -d) (by linarith) n
  have h2 := one_add_mul_le_pow (a := d) (by linarith) n
  rw [← sub_eq_add_neg] at h1
  linarith

/-- What holds: the product of `n` quaternions whose lengths are 1 to within four rounding units has, in
precision `p`, a length of 1 to within `16 n` rounding units, as long as `128 n ≤ 2^p`, and it is off by at
most `16 n` rounding units from the exact product.  Missing: a bound that does not grow with `n`, which is
false. -/
theorem C145_unit_partial (p : ℕ) (hp : 6 ≤ p) (l : List (Quat ℝ)) (hn : 128 * l.length ≤ 2 ^ p)
    (hl : ∀ q ∈ l, |‖q.toQ‖ - 1| ≤ 4 * (2 : ℝ) ^ (-(p : ℤ))) :
    ∃ r : Quat ℝ, l.foldl (fun a q => a.mul (Quat.num q)) (Quat.num Quat.identity : Quat (Fl ℝ (rne p))) = Quat.num r ∧
      ‖r.toQ - (l.map Quat.toQ).prod‖ ≤ 16 * l.length * (2 : ℝ) ^ (-(p : ℤ)) ∧
      |‖r.toQ‖ - 1| ≤ 16 * l.length * (2 : ℝ) ^ (-(p : ℤ)) := by
  have hr := isRel_rne p (by omega)
  have hu : (2 : ℝ) ^ (-(p : ℤ)) ≤ 1 / 64 := by
    calc (2 : ℝ) ^ (-(p : ℤ)) ≤ 2 ^ (-6 : ℤ) := zpow_le_zpow_right₀ one_le_two (by omega)
      _ = 1 / 64 := by norm_num
  have hnu : 128 * (l.length * (2 : ℝ) ^ (-(p : ℤ))) ≤ 1 := by
    have : ((128 * l.length : ℕ) : ℝ) ≤ ((2 ^ p : ℕ) : ℝ) := by exact_mod_cast hn
    push_cast at this
    have h2 : (2 : ℝ) ^ p * 2 ^ (-(p : ℤ)) = 1 := by rw [zpow_neg, zpow_natCast]; exact mul_inv_cancel₀ (by positivity)
    have h0 := hr.nonneg
    nlinarith
  obtain ⟨r, e, h⟩ := C145_chain hr l Quat.identity
  have h0 := hr.nonneg
  have hg : 2 * gam ((2 : ℝ) ^ (-(p : ℤ))) 4 ≤ 9 * (2 : ℝ) ^ (-(p : ℤ)) := by
    have := gam_le hr.lt_one (n := 4) (by push_cast; linarith)
    generalize (2 : ℝ) ^ (-(p : ℤ)) = U at *
    push_cast at this
    have h1 : 4 * U / (1 - 4 * U) ≤ 9 / 2 * U := by rw [div_le_iff₀ (by linarith)]; nlinarith
    linarith
  have hg0 := gam_nonneg hr 4
  generalize (2 : ℝ) ^ (-(p : ℤ)) = U at *
  obtain ⟨b1, b2⟩ := prod_bounds (d := 4 * U) (by linarith) (by linarith) l hl
  have one : ‖(Quat.identity : Quat ℝ).toQ‖ = 1 := by
    have : (Quat.identity : Quat ℝ).toQ = 1 := by ext <;> simp [Quat.identity]
    rw [this, norm_one]
  have onem : (Quat.identity : Quat ℝ).toQ * (l.map Quat.toQ).prod = (l.map Quat.toQ).prod := by
    have : (Quat.identity : Quat ℝ).toQ = 1 := by ext <;> simp [Quat.identity]
    rw [this, one_mul]
  rw [onem, one, one_mul] at h
  have g1 : (1 + 2 * gam U 4) ^ l.length ≤ (1 + 9 * U) ^ l.length :=
    pow_le_pow_left₀ (by linarith) (by linarith) _
  have g2 : (1 + 9 * U) ^ l.length * (1 + 4 * U) ^ l.length ≤ (1 + 14 * U) ^ l.length := by
    rw [← mul_pow]; exact pow_le_pow_left₀ (by positivity) (by nlinarith) _
  have g3 := pow_growth (x := 14 * U) (n := l.length) (by linarith) (by linarith)
  have g4 := two_le (d := 4 * U) (by linarith) (by linarith) l.length
  have g5 : 1 ≤ (1 + 4 * U) ^ l.length := one_le_pow₀ (by linarith)
  have g6 : 1 ≤ (1 + 9 * U) ^ l.length := one_le_pow₀ (by linarith)
  have nn := norm_nonneg (l.map Quat.toQ).prod
  have hd : ‖r.toQ - (l.map Quat.toQ).prod‖ ≤ (1 + 14 * U) ^ l.length - (1 + 4 * U) ^ l.length := by
    refine h.trans ?_
    calc _ ≤ ((1 + 9 * U) ^ l.length - 1) * (1 + 4 * U) ^ l.length :=
          mul_le_mul (by linarith) b2 nn (by linarith)
      _ ≤ _ := by linarith
  have tri := abs_le.1 (abs_norm_sub_norm_le r.toQ (l.map Quat.toQ).prod)
  have hL : (0 : ℝ) ≤ l.length * U := by positivity
  refine ⟨r, e, by linarith, ?_⟩
  rw [abs_le]
  constructor <;> linarith [tri.1, tri.2]

example : ∃ l : List (Quat ℝ), l.length = 1000 ∧ 128 * l.length ≤ 2 ^ 24 ∧
    (∀ q ∈ l, q = ⟨0, 0, 3 / 5, 4 / 5⟩) ∧ ∀ q ∈ l, |‖q.toQ‖ - 1| ≤ 4 * (2 : ℝ) ^ (-(24 : ℤ)) := by
  refine ⟨List.replicate 1000 ⟨0, 0, 3 / 5, 4 / 5⟩, List.length_replicate,
    by rw [List.length_replicate]; norm_num, fun q hq => (List.mem_replicate.1 hq).2,
    fun q hq => ?_⟩
  rw [(List.mem_replicate.1 hq).2]
  have h := sq_norm ⟨0, 0, 3 / 5, 4 / 5⟩
  have : ‖(Quat.mk (0 : ℝ) 0 (3 / 5) (4 / 5)).toQ‖ = 1 := by
    rw [← sq_eq_sq₀ (norm_nonneg _) zero_le_one, h]; norm_num
  rw [this]; norm_num

/-! ## No bound is independent of the number of factors -/

/-- The full claim, for `float`: the product of quaternions whose squared lengths are 1 to within `2^-21` has
a squared length of 1 to within `1/4`, however many there are. -/
def C145_full : Prop :=
  ∀ l : List (Quat ℚ), (∀ q ∈ l, Rep 24 q.x ∧ Rep 24 q.y ∧ Rep 24 q.z ∧ Rep 24 q.w ∧
      |q.x ^ 2 + q.y ^ 2 + q.z ^ 2 + q.w ^ 2 - 1| ≤ 1 / 2 ^ 21) →
    ∃ r : Quat ℚ, l.foldl (fun (a : Quat F32) q => a.mul ⟨.num q.x, .num q.y, .num q.z, .num q.w⟩)
        ⟨.num 0, .num 0, .num 0, .num 1⟩ = ⟨.num r.x, .num r.y, .num r.z, .num r.w⟩ ∧
      |r.x ^ 2 + r.y ^ 2 + r.z ^ 2 + r.w ^ 2 - 1| ≤ 1 / 4

private theorem log_one {x : ℚ} (h1 : 1 ≤ x) (h2 : x < 2) : Int.log 2 x = 0 := by
  have f : ⌊x⌋₊ = 1 := (Nat.floor_eq_iff (by linarith)).2 ⟨by simpa using h1, by push_cast; linarith⟩
  rw [Int.log_of_one_le_right 2 h1, f]; rfl

private theorem grow (k : ℕ) (hk : k < 2 ^ 22) :
    rne 24 ((1 + k / 2 ^ 23) * (1 + 1 / 2 ^ 23) : ℚ) = 1 + (k + 1 : ℕ) / 2 ^ 23 := by
  have hk' : (k : ℚ) + 1 ≤ 2 ^ 22 := by exact_mod_cast hk
  have k0 : (0 : ℚ) ≤ k := Nat.cast_nonneg k
  have e : ((1 + k / 2 ^ 23) * (1 + 1 / 2 ^ 23) : ℚ) = 1 + (k + 1) / 2 ^ 23 + k / 2 ^ 46 := by ring
  rw [e]
  set x : ℚ := 1 + (k + 1) / 2 ^ 23 + k / 2 ^ 46 with hx
  have h1 : 1 ≤ x := by rw [hx]; have : (0 : ℚ) ≤ (k + 1) / 2 ^ 23 + k / 2 ^ 46 := by positivity
                        linarith
  have h2 : x < 2 := by rw [hx]; norm_num at hk' ⊢; linarith
  rw [rne_pos_eq 24 x (by linarith), log_one h1 h2]
  have s : (2 : ℚ) ^ ((0 : ℤ) - ((24 : ℕ) - 1)) = 1 / 2 ^ 23 := by norm_num
  rw [s, rhe_eq_of_lt _ (2 ^ 23 + (k + 1))]
  · push_cast; ring
  · push_cast
    rw [abs_lt, hx]
    norm_num at hk' ⊢
    constructor <;> linarith

theorem C145_refuted : ¬C145_full := by
  intro h
  have hrep : ∀ n : ℤ, |n| ≤ 2 ^ 24 → Rep 24 (n : ℚ) := fun n hn => Rep.int n hn
  obtain ⟨r, e, hr⟩ := h (List.replicate (2 ^ 22) ⟨0, 0, 0, 1 + 1 / 2 ^ 23⟩) (by
    intro q hq
    rw [(List.mem_replicate.1 hq).2]
    refine ⟨Rep.zero _, Rep.zero _, Rep.zero _, ⟨2 ^ 23 + 1, -23, by norm_num, by norm_num⟩, by norm_num [abs_of_pos]⟩)
  have step : ∀ k : ℕ, k ≤ 2 ^ 22 → (List.replicate k (⟨0, 0, 0, 1 + 1 / 2 ^ 23⟩ : Quat ℚ)).foldl
      (fun (a : Quat F32) q => a.mul ⟨.num q.x, .num q.y, .num q.z, .num q.w⟩)
        ⟨.num 0, .num 0, .num 0, .num 1⟩ = ⟨.num 0, .num 0, .num 0, .num (1 + k / 2 ^ 23)⟩ := by
    intro k
    induction k with
    | zero => intro _; simp
    | succ k ih =>
      intro hk
      rw [List.replicate_succ', List.foldl_append, ih (by omega), List.foldl_cons, List.foldl_nil, Quat.mul]
      have z : rne 24 (0 : ℚ) = 0 := rne_zero 24
      have g := grow k (by omega)
      have g' : rne 24 (1 + (k + 1 : ℕ) / 2 ^ 23 : ℚ) = 1 + (k + 1 : ℕ) / 2 ^ 23 := by
        rw [← g]; exact rne_rne 24 (by norm_num) _
      simp only [Fl.num_mul, Fl.num_add, Fl.num_sub, zero_mul, mul_zero, z, add_zero, sub_zero, g, g']
  rw [step (2 ^ 22) le_rfl] at e
  injection e with e1 e2 e3 e4
  injection e1 with e1
  injection e2 with e2
  injection e3 with e3
  injection e4 with e4
  rw [← e1, ← e2, ← e3, ← e4] at hr
  norm_num [abs_of_pos] at hr

end MathLib
