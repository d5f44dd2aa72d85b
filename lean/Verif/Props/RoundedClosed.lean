import Verif.Proof.ClosedRun
import Verif.Props.RoundedGauss
import Verif.Props.RoundedSplines

/-! # Property C161: the closed spline solver in floating point -/

namespace MathLib
open GaussJordan SplineSolver3

namespace ClosedErr
open GaussErr

theorem circ_abs (n i j : ℕ) : |circ n i j| = circ n i j :=
  abs_of_nonneg (by simp only [circ]; split_ifs <;> norm_num)

theorem circ_diag (n i : ℕ) : circ n i i = 4 := by simp [circ]

theorem circ_off {n : ℕ} (hn : 3 ≤ n) {i : ℕ} (hi : i < n) : off n (circ n) i = 2 := by
  have h1 := circ_sum3 n hn i hi fun _ => 1
  rw [sum_split hi, circ_diag] at h1
  simp only [off, circ_abs]
  simp only [mul_one] at h1
  linarith

/-- the control points are at most three times as far out as the knots -/
theorem sol_bound {n : ℕ} (hn : 3 ≤ n) {x r : ℕ → ℝ} {K : ℝ} (hr : ∀ i < n, |r i| ≤ 6 * K)
    (h : ∀ i < n, ∑ j ∈ Finset.range n, circ n i j * x j = r i) : ∀ i < n, |x i| ≤ 3 * K := by
  obtain ⟨m, hm, hmax⟩ := Finset.exists_max_image (Finset.range n) (fun i => |x i|) ⟨0, Finset.mem_range.2 (by omega)⟩
  have hm' := Finset.mem_range.1 hm
  have e := h m hm'
  rw [circ_sum3 n hn m hm'] at e
  have h4 : nxt n m < n := by simp only [nxt]; split_ifs <;> omega
  have h5 : prv n m < n := by simp only [prv]; split_ifs <;> omega
  have a1 := hmax _ (Finset.mem_range.2 h4)
  have a2 := hmax _ (Finset.mem_range.2 h5)
  have b : |4 * x m| ≤ |r m| + |x (prv n m)| + |x (nxt n m)| := by
    have : 4 * x m = r m - x (prv n m) - x (nxt n m) := by linarith
    rw [this]
    exact (abs_sub _ _).trans (by linarith [abs_sub (r m) (x (prv n m))])
  rw [abs_mul, abs_of_pos (by norm_num : (0 : ℝ) < 4)] at b
  have := hr m hm'
  intro i hi
  have := hmax i (Finset.mem_range.2 hi)
  linarith

theorem third {rnd : ℝ → ℝ} {u N : ℝ} (hr : IsRel rnd u) (hu : u ≤ 1 / 4096) (hN : 3 ≤ N) (hNu : 450 * N * u ≤ 1)
    {x y y' k : ℝ} (hx : |x| ≤ k) (hy : |y| ≤ 3 * k)
    (h : |y' - y| ≤ 543 * N * u * k) : |rnd (rnd (x * 2) - y') - (x * 2 - y)| ≤ 550 * N * u * k := by
  have h0 := hr.nonneg
  have hk : 0 ≤ k := (abs_nonneg _).trans hx
  have a1 := hr.err (x * 2)
  have a3 := hr.err (rnd (x * 2) - y')
  have b1 : |x * 2| ≤ k * 2 := by rw [abs_mul, abs_of_nonneg (zero_le_two (α := ℝ))]; linarith
  have c1 := mul_le_mul_of_nonneg_left b1 h0
  have e1 := abs_sub_abs_le_abs_sub y' y
  have e2 := abs_sub_abs_le_abs_sub (rnd (x * 2)) (x * 2)
  have g' : 0 ≤ u * k := by positivity
  have gk : u * k ≤ 1 / 4096 * k := mul_le_mul_of_nonneg_right hu hk
  have gN : 450 * N * u * k ≤ 1 * k := mul_le_mul_of_nonneg_right hNu hk
  have gn : 3 * (u * k) ≤ N * (u * k) := mul_le_mul_of_nonneg_right hN g'
  have d1 : |rnd (x * 2) - y'| ≤ 7 * k := by
    have := abs_sub (rnd (x * 2)) y'
    linarith
  have d2 := mul_le_mul_of_nonneg_left d1 h0
  have e : rnd (rnd (x * 2) - y') - (x * 2 - y) =
      (rnd (rnd (x * 2) - y') - (rnd (x * 2) - y')) + ((rnd (x * 2) - x * 2) - (y' - y)) := by ring
  rw [e]
  have f1 := abs_add_le (rnd (rnd (x * 2) - y') - (rnd (x * 2) - y')) ((rnd (x * 2) - x * 2) - (y' - y))
  have f2 := abs_sub (rnd (x * 2) - x * 2) (y' - y)
  linarith

theorem last {rnd : ℝ → ℝ} {u N : ℝ} (hr : IsRel rnd u) (hu : u ≤ 1 / 4096) (hN : 3 ≤ N) (hNu : 450 * N * u ≤ 1)
    {x y y' z z' k : ℝ} (hx : |x| ≤ k) (hy : |y| ≤ 3 * k) (hz : |z| ≤ 3 * k)
    (h : |y' - y| ≤ 543 * N * u * k) (h' : |z' - z| ≤ 543 * N * u * k) :
    |rnd (rnd (y' + rnd (z' * 4)) - rnd (x * 4)) - (y + z * 4 - x * 4)| ≤ 2750 * N * u * k := by
  have h0 := hr.nonneg
  have hk : 0 ≤ k := (abs_nonneg _).trans hx
  have g' : 0 ≤ u * k := by positivity
  have gk : u * k ≤ 1 / 4096 * k := mul_le_mul_of_nonneg_right hu hk
  have gN : 450 * N * u * k ≤ 1 * k := mul_le_mul_of_nonneg_right hNu hk
  have gn : 3 * (u * k) ≤ N * (u * k) := mul_le_mul_of_nonneg_right hN g'
  have n4 : |(4 : ℝ)| = 4 := abs_of_pos (by norm_num)
  have y1 : |y'| ≤ 43 / 10 * k := by have := abs_sub_abs_le_abs_sub y' y; linarith
  have z1 : |z' * 4| ≤ 172 / 10 * k := by
    have := abs_sub_abs_le_abs_sub z' z
    rw [abs_mul, n4]; linarith
  have x1 : |x * 4| ≤ 4 * k := by rw [abs_mul, n4]; linarith
  have a1 := hr.err (z' * 4)
  have a2 := hr.err (x * 4)
  have a3 := hr.err (y' + rnd (z' * 4))
  have a4 := hr.err (rnd (y' + rnd (z' * 4)) - rnd (x * 4))
  have b1 := mul_le_mul_of_nonneg_left z1 h0
  have b2 := mul_le_mul_of_nonneg_left x1 h0
  have c1 := abs_sub_abs_le_abs_sub (rnd (z' * 4)) (z' * 4)
  have c2 := abs_sub_abs_le_abs_sub (rnd (x * 4)) (x * 4)
  have d1 : |y' + rnd (z' * 4)| ≤ 216 / 10 * k := by
    have := abs_add_le y' (rnd (z' * 4)); linarith
  have b3 := mul_le_mul_of_nonneg_left d1 h0
  have c3 := abs_sub_abs_le_abs_sub (rnd (y' + rnd (z' * 4))) (y' + rnd (z' * 4))
  have d2 : |rnd (y' + rnd (z' * 4)) - rnd (x * 4)| ≤ 26 * k := by
    have := abs_sub (rnd (y' + rnd (z' * 4))) (rnd (x * 4)); linarith
  have b4 := mul_le_mul_of_nonneg_left d2 h0
  have e : rnd (rnd (y' + rnd (z' * 4)) - rnd (x * 4)) - (y + z * 4 - x * 4) =
      (rnd (rnd (y' + rnd (z' * 4)) - rnd (x * 4)) - (rnd (y' + rnd (z' * 4)) - rnd (x * 4))) +
      ((rnd (y' + rnd (z' * 4)) - (y' + rnd (z' * 4))) + ((rnd (z' * 4) - z' * 4) +
      ((y' - y) + ((z' - z) * 4 - (rnd (x * 4) - x * 4))))) := by ring
  rw [e]
  have f1 := abs_add_le (rnd (rnd (y' + rnd (z' * 4)) - rnd (x * 4)) - (rnd (y' + rnd (z' * 4)) - rnd (x * 4)))
      ((rnd (y' + rnd (z' * 4)) - (y' + rnd (z' * 4))) + ((rnd (z' * 4) - z' * 4) +
      ((y' - y) + ((z' - z) * 4 - (rnd (x * 4) - x * 4)))))
  have f2 := abs_add_le (rnd (y' + rnd (z' * 4)) - (y' + rnd (z' * 4))) ((rnd (z' * 4) - z' * 4) +
      ((y' - y) + ((z' - z) * 4 - (rnd (x * 4) - x * 4))))
  have f3 := abs_add_le (rnd (z' * 4) - z' * 4) ((y' - y) + ((z' - z) * 4 - (rnd (x * 4) - x * 4)))
  have f4 := abs_add_le (y' - y) ((z' - z) * 4 - (rnd (x * 4) - x * 4))
  have f5 := abs_sub ((z' - z) * 4) (rnd (x * 4) - x * 4)
  rw [abs_mul, n4] at f5
  linarith

end ClosedErr
open GaussErr ClosedErr

variable {p : ℕ}

/-- C161: with rounding to `p ≥ 12` bits the closed spline solver succeeds for at least three knots and at most
`2^p / 450`; with `K` the largest coordinate of the knots, the control points it returns are off from those of the
smooth closed curve by at most `550 n` units of `2^-p K`, the very last one by at most `2750 n`.  `g` is `fabsf`
as in `C160_residual`. -/
theorem C161_closed (hp : 12 ≤ p) (g : ℝ → ℝ) (δ : ℝ) (hg : ∀ v, |g v - (|v|)| ≤ δ * |v|) (hδ : 6 * δ < 1)
    (n : ℕ) (hn : 3 ≤ n) (hnu : 450 * n * (2 : ℝ) ^ (-(p : ℤ)) ≤ 1) (k : ℕ → Vec3 ℝ) (K : ℝ)
    (hk : ∀ i < n, (k i).BoundedBy K)
    (p1 p2 p3 : Buf (Vec3 (Fl ℝ (rne p)))) (h1 : p1.Holds n fun i => (k i).num) (h2 : n ≤ p2.size) (h3 : n ≤ p3.size) :
    ∃ (p2' p3' : Buf (Vec3 (Fl ℝ (rne p)))) (q2 q3 v2 v3 : ℕ → Vec3 ℝ),
      closedBezierSpline (Fl.fabsf g) n p1 p2 p3 = .ok (true, p2', p3') ∧
      (p2'.Holds n fun i => (q2 i).num) ∧ (p3'.Holds n fun i => (q3 i).num) ∧
      IsClosedSpline n (closedSeg n k v2 v3) ∧
      ∀ i < n, (q2 i).Near (v2 i) (550 * n * 2 ^ (-(p : ℤ)) * K) ∧
        (q3 i).Near (v3 i) ((if i = n - 1 then 2750 else 550) * n * 2 ^ (-(p : ℤ)) * K) := by
  have hr := isRel_rne p (by omega : 1 ≤ p)
  have hu := small_unit hp
  have hK : 0 ≤ K := (abs_nonneg _).trans (hk 0 (by omega)).1
  have hu0 := hr.nonneg
  have hN : (3 : ℝ) ≤ n := by exact_mod_cast hn
  have hone : rne p (1 : ℝ) = 1 := rne_of_rep (by omega) (by simpa using Rep.zpow (K := ℝ) (p := p) 0)
  obtain ⟨-, -, v2, v3, -, -, -, hv, -⟩ := C95_closed_partial (fun x => |x|) (fun _ => abs_nonneg _)
    (fun x hx => by simpa using hx) n hn k ⟨n, fun i => some (k i)⟩ ⟨n, fun _ => none⟩ ⟨n, fun _ => none⟩
    ⟨le_rfl, fun i _ => rfl⟩ le_rfl le_rfl
  obtain ⟨hsys, hv3⟩ := (closed_iff n hn k v2 v3).1 hv
  have l2 : (2 : Fl ℝ (rne p)) = .num 2 := num_lit hp 2 (by norm_num)
  have l4 : (4 : Fl ℝ (rne p)) = .num 4 := num_lit hp 4 (by norm_num)
  have hnx : ∀ i < n, nxt n i < n := fun i hi => by simp only [nxt]; split_ifs <;> omega
  have hkc : ∀ i < n, ∀ c < 3, |comp (k i) c| ≤ K := by
    intro i hi c hc
    obtain ⟨b1, b2, b3⟩ := hk i hi
    interval_cases c <;> assumption
  have hcR : ∀ i, ∀ c < 3, comp (cloR n k i) c = comp (k i) c * 4 + comp (k (nxt n i)) c * 2 := by
    intro i c hc
    interval_cases c <;> rfl
  set u : ℝ := 2 ^ (-(p : ℤ))
  have hvb : ∀ c < 3, ∀ i < n, |comp (v2 i) c| ≤ 3 * K := by
    intro c hc
    refine sol_bound hn (r := fun i => comp (cloR n k i) c) (fun i hi => ?_) (fun i hi => hsys i hi c hc)
    rw [hcR i c hc]
    have a := hkc i hi c hc
    have b := hkc _ (hnx i hi) c hc
    have t := abs_add_le (comp (k i) c * 4) (comp (k (nxt n i)) c * 2)
    rw [abs_mul, abs_mul, abs_of_pos (by norm_num : (0 : ℝ) < 4), abs_of_pos (by norm_num : (0 : ℝ) < 2)] at t
    linarith
  -- the right-hand sides
  let rhs : ℕ → ℕ → ℝ := fun i c => rne p (rne p (comp (k i) c * 4) + rne p (comp (k (nxt n i)) c * 2))
  have hrhs : ∀ i < n, ∀ c < 3, |rhs i c - comp (cloR n k i) c| ≤ 603 / 100 * u * K * 2 := by
    intro i hi c hc
    rw [hcR i c hc]
    have a := hkc i hi c hc
    have b := hkc _ (hnx i hi) c hc
    have t := rnd_comb hr hu (a := rne p (comp (k i) c * 4)) (b := rne p (comp (k (nxt n i)) c * 2))
      (x := comp (k i) c * 4) (y := comp (k (nxt n i)) c * 2) (k := K) (s := 4) (t := 2) (by norm_num) (by norm_num) hK
      (by rw [abs_mul, abs_of_pos (by norm_num : (0 : ℝ) < 4)]; linarith)
      (by rw [abs_mul, abs_of_pos (by norm_num : (0 : ℝ) < 2)]; linarith) (hr.err _) (hr.err _)
    simp only [rhs]
    linarith
  have hNu3 : 3 * u ≤ n * u := mul_le_mul_of_nonneg_right hN hu0
  have hrun : ∀ (a r : Buf (Fl ℝ (rne p))), HoldsM a n n (circG (Fl ℝ (rne p)) n) →
      HoldsM r n 3 (fun i c => .num (rhs i c)) →
      ∃ (a' b' : Buf (Fl ℝ (rne p))) (B' : ℕ → ℕ → ℝ), solve (Fl.fabsf g) a n r 3 = .ok (some (a', b')) ∧
        HoldsM b' n 3 (fun i j => .num (B' i j)) ∧ ∀ c < 3, ∀ j < n, |B' j c - comp (v2 j) c| ≤ 543 * n * u * K := by
    intro a r ha hb
    obtain ⟨a', b', B', e, -, q1, q2⟩ := solve_num (n := n) (m := 3) (c0 := 1 / 3) (η := 18 * u)
      (x := fun c j => comp (v2 j) c) (X := fun _ => 3 * K) (α := fun _ => 603 / 100 * u * K) (A := circ n) (B := rhs)
      hr hone (Fl.fabsf g) (fun _ => rfl) hg (by linarith) (by norm_num) (by norm_num) (by linarith) (by linarith)
      (by linarith) (by linarith) hvb (fun _ _ => by positivity)
      (ha.congr fun i hi j hj => by
        simp only [circG, circ, l4, Fl.one_def, Fl.zero_def]
        split_ifs <;> rfl)
      hb
      (fun i hi => by
        rw [circ_off hn hi, circ_diag]
        norm_num)
      (fun c hc j hj => by
        rw [circ_off hn hj, circ_diag, resid, hsys j hj c hc]
        have := hrhs j hj c hc
        norm_num at this ⊢
        linarith)
    refine ⟨a', b', B', e, q1, fun c hc j hj => (q2 c hc j hj).trans ?_⟩
    have hNuK : 450 * n * u * (u * K) ≤ 1 * (u * K) := mul_le_mul_of_nonneg_right hnu (by positivity)
    have g0 : 0 ≤ u * K := by positivity
    have g3 : 3 * (u * K) ≤ n * (u * K) := mul_le_mul_of_nonneg_right hN (by positivity)
    linarith
  obtain ⟨p2', p3', qF, e, ⟨q, rfl, hq⟩, a1, a2⟩ := closed_run (Fl.fabsf g) n (by omega) (fun i => (k i).num) p1 p2 p3 h1 h2 h3
    (fun qF => ∃ q : ℕ → Vec3 ℝ, (qF = fun i => (q i).num) ∧
      ∀ c < 3, ∀ j < n, |comp (q j) c - comp (v2 j) c| ≤ 543 * n * u * K)
    (fun a r ha hb => by
      obtain ⟨a', b', B', e, q1, q2⟩ := hrun a r ha (hb.congr fun i hi c hc => by
        simp only [l2, l4, rhs]
        interval_cases c <;> rfl)
      refine ⟨a', b', fun i => .num ⟨B' i 0, B' i 1, B' i 2⟩, e, q1.congr fun i hi c hc => ?_,
        fun i => ⟨B' i 0, B' i 1, B' i 2⟩, rfl, fun c hc j hj => ?_⟩
      · interval_cases c <;> rfl
      · have := q2 c hc j hj
        interval_cases c <;> exact this)
  refine ⟨p2', p3', q, fun i => if i = n - 1 then
      ⟨rne p (rne p ((q (n - 2)).x + rne p ((q (n - 1)).x * 4)) - rne p ((k (n - 1)).x * 4)),
        rne p (rne p ((q (n - 2)).y + rne p ((q (n - 1)).y * 4)) - rne p ((k (n - 1)).y * 4)),
        rne p (rne p ((q (n - 2)).z + rne p ((q (n - 1)).z * 4)) - rne p ((k (n - 1)).z * 4))⟩ else
      ⟨rne p (rne p ((k (i + 1)).x * 2) - (q (i + 1)).x), rne p (rne p ((k (i + 1)).y * 2) - (q (i + 1)).y),
        rne p (rne p ((k (i + 1)).z * 2) - (q (i + 1)).z)⟩, v2, v3, e, a1, ?_, hv, fun i hi => ⟨?_, ?_⟩⟩
  · convert a2 using 2 with i
    simp only [l2, l4]; split_ifs <;> rfl
  · have hw : 543 * n * u * K ≤ 550 * n * u * K := by
      have : 0 ≤ n * u * K := by positivity
      linarith
    exact ⟨(hq 0 (by omega) i hi).trans hw, (hq 1 (by omega) i hi).trans hw, (hq 2 (by omega) i hi).trans hw⟩
  · rw [hv3 i hi]
    by_cases hl : i = n - 1
    · have hm : prv n i = n - 2 := by simp only [prv]; split_ifs <;> omega
      have s1 := (cloSys_iff n hn k v2).1 hsys i hi
      rw [hm, hl] at s1
      simp only [Vec3.ext_iff, Vec3.add_x, Vec3.add_y, Vec3.add_z, Vec3.mul_x, Vec3.mul_y, Vec3.mul_z] at s1
      obtain ⟨b1, b2, b3⟩ := hk (n - 1) (by omega)
      have t := fun c hc => hq c hc (n - 2) (by omega)
      have t' := fun c hc => hq c hc (n - 1) (by omega)
      have w := fun c hc => hvb c hc (n - 2) (by omega)
      have w' := fun c hc => hvb c hc (n - 1) (by omega)
      simp only [hl, if_true]
      refine ⟨?_, ?_, ?_⟩
      · have := last hr hu hN hnu b1 (w 0 (by omega)) (w' 0 (by omega)) (t 0 (by omega)) (t' 0 (by omega))
        convert this using 2
        simp only [Vec3.sub_x, Vec3.mul_x, comp]
        linarith [s1.1]
      · have := last hr hu hN hnu b2 (w 1 (by omega)) (w' 1 (by omega)) (t 1 (by omega)) (t' 1 (by omega))
        convert this using 2
        simp only [Vec3.sub_y, Vec3.mul_y, comp]
        linarith [s1.2.1]
      · have := last hr hu hN hnu b3 (w 2 (by omega)) (w' 2 (by omega)) (t 2 (by omega)) (t' 2 (by omega))
        convert this using 2
        simp only [Vec3.sub_z, Vec3.mul_z, comp]
        linarith [s1.2.2]
    · have hx : nxt n i = i + 1 := by simp only [nxt]; split_ifs <;> omega
      rw [hx]
      simp only [hl, if_false]
      obtain ⟨b1, b2, b3⟩ := hk (i + 1) (by omega)
      exact ⟨third hr hu hN hnu b1 (hvb 0 (by omega) _ (by omega)) (hq 0 (by omega) _ (by omega)),
        third hr hu hN hnu b2 (hvb 1 (by omega) _ (by omega)) (hq 1 (by omega) _ (by omega)),
        third hr hu hN hnu b3 (hvb 2 (by omega) _ (by omega)) (hq 2 (by omega) _ (by omega))⟩

/-- `float`: up to 37282 knots -/
theorem C161_float (n : ℕ) (hn : 3 ≤ n) (hnu : n ≤ 37282) (k : ℕ → Vec3 ℝ) (K : ℝ) (hk : ∀ i < n, (k i).BoundedBy K)
    (p1 p2 p3 : Buf (Vec3 (Fl ℝ (rne 24)))) (h1 : p1.Holds n fun i => (k i).num) (h2 : n ≤ p2.size) (h3 : n ≤ p3.size) :
    ∃ (p2' p3' : Buf (Vec3 (Fl ℝ (rne 24)))) (q2 q3 v2 v3 : ℕ → Vec3 ℝ),
      closedBezierSpline (Fl.fabsf abs) n p1 p2 p3 = .ok (true, p2', p3') ∧
      (p2'.Holds n fun i => (q2 i).num) ∧ (p3'.Holds n fun i => (q3 i).num) ∧
      IsClosedSpline n (closedSeg n k v2 v3) ∧
      ∀ i < n, (q2 i).Near (v2 i) (550 * n * 2 ^ (-24 : ℤ) * K) ∧
        (q3 i).Near (v3 i) ((if i = n - 1 then 2750 else 550) * n * 2 ^ (-24 : ℤ) * K) := by
  have : (n : ℝ) ≤ 37282 := by exact_mod_cast hnu
  exact C161_closed (p := 24) (by norm_num) abs 0 (fun v => by simp) (by norm_num) n hn (by norm_num; linarith) k K hk p1 p2 p3
    h1 h2 h3

/-- `double`, whose pivots are compared after conversion to `float` -/
theorem C161_double (n : ℕ) (hn : 3 ≤ n) (hnu : n ≤ 2 ^ 44) (k : ℕ → Vec3 ℝ) (K : ℝ) (hk : ∀ i < n, (k i).BoundedBy K)
    (p1 p2 p3 : Buf (Vec3 (Fl ℝ (rne 53)))) (h1 : p1.Holds n fun i => (k i).num) (h2 : n ≤ p2.size) (h3 : n ≤ p3.size) :
    ∃ (p2' p3' : Buf (Vec3 (Fl ℝ (rne 53)))) (q2 q3 v2 v3 : ℕ → Vec3 ℝ),
      closedBezierSpline (Fl.fabsf fun v => rne 24 |v|) n p1 p2 p3 = .ok (true, p2', p3') ∧
      (p2'.Holds n fun i => (q2 i).num) ∧ (p3'.Holds n fun i => (q3 i).num) ∧
      IsClosedSpline n (closedSeg n k v2 v3) ∧
      ∀ i < n, (q2 i).Near (v2 i) (550 * n * 2 ^ (-53 : ℤ) * K) ∧
        (q3 i).Near (v3 i) ((if i = n - 1 then 2750 else 550) * n * 2 ^ (-53 : ℤ) * K) := by
  have : (n : ℝ) ≤ 17592186044416 := by exact_mod_cast hnu
  exact C161_closed (p := 53) (by norm_num) (fun v => rne 24 |v|) (2 ^ (-24 : ℤ))
    (fun v => by simpa using (isRel_rne 24 (by norm_num)).err |v|) (by norm_num) n hn (by norm_num; linarith)
    k K hk p1 p2 p3 h1 h2 h3

/-- three knots -/
example : ∃ (p2' p3' : Buf (Vec3 (Fl ℝ (rne 24)))) (q2 q3 v2 v3 : ℕ → Vec3 ℝ),
    closedBezierSpline (Fl.fabsf abs) 3 ⟨3, fun i => some (Vec3.num (⟨i, 1, -i⟩ : Vec3 ℝ))⟩ (Buf.alloc 3) (Buf.alloc 3) =
      .ok (true, p2', p3') ∧
    (p2'.Holds 3 fun i => (q2 i).num) ∧ (p3'.Holds 3 fun i => (q3 i).num) ∧
    IsClosedSpline 3 (closedSeg 3 (fun i => ⟨i, 1, -i⟩) v2 v3) ∧
    ∀ i < 3, (q2 i).Near (v2 i) (550 * (3 : ℕ) * 2 ^ (-24 : ℤ) * 2) ∧
      (q3 i).Near (v3 i) ((if i = 2 then 2750 else 550) * (3 : ℕ) * 2 ^ (-24 : ℤ) * 2) :=
  C161_float 3 le_rfl (by norm_num) (fun i => ⟨i, 1, -i⟩) 2
    (fun i hi => by interval_cases i <;> norm_num [Vec3.BoundedBy]) _ _ _ ⟨le_rfl, fun i _ => rfl⟩ le_rfl le_rfl

/-- in `float`: thirds, up to rounding; the last control point is further off, being computed from two others -/
example : (closedBezierSpline (Fl.fabsf abs) 3 (Buf.ofList [(⟨0, 0, 0⟩ : Vec3 F32), ⟨1, 0, 0⟩, ⟨0, 0, 0⟩]) (Buf.alloc 3)
    (Buf.alloc 3)).map (fun r => (r.1, r.2.1.toList.map (Option.map Vec3.x), r.2.2.toList.map (Option.map Vec3.x))) =
    .ok (true, [some (.num (11184811 / 33554432)), some (.num 1), some (.num (-11184811 / 33554432))],
      [some (.num 1), some (.num (11184811 / 33554432)), some (.num (-2796203 / 8388608))]) := by
  decide +kernel

end MathLib
