import Verif.Proof.RneNearest
import Verif.Proof.PlaneFit
import Verif.Props.RoundedFwdDiff
import Verif.Props.Splines

/-! # Property C173: the length of a Bezier segment in floating point -/

namespace MathLib
open LineDist PlaneFit

private theorem nm_le {v : Vec3 ℝ} {c : ℝ} (hx : |v.x| ≤ c) (hy : |v.y| ≤ c) (hz : |v.z| ≤ c) : nm v ≤ 1.7321 * c := by
  have hc : 0 ≤ c := (abs_nonneg _).trans hx
  apply le_of_sq_le_sq _ (by positivity)
  rw [nm_sq]
  have f : ∀ {a : ℝ}, |a| ≤ c → a ^ 2 ≤ c ^ 2 := fun {a} h => by
    have := pow_le_pow_left₀ (abs_nonneg a) h 2
    rwa [sq_abs] at this
  have := f hx; have := f hy; have := f hz
  have := sq_nonneg c
  rw [mul_pow]
  linarith

section coord
variable {p : ℕ} (hp : 12 ≤ p) {d K y₁ y₂ y₃ y₄ : ℝ} (hd0 : 0 ≤ d) {n : ℕ} (hN : (n + 1) * d ≤ 1)
  (hNp : 16 * n ≤ 2 ^ p) (k₁ : |y₁| ≤ K) (k₂ : |y₂| ≤ K) (k₃ : |y₃| ≤ K) (k₄ : |y₄| ≤ K)
include hp hd0 hN hNp k₁ k₂ k₃ k₄

local notation "U" => (2 : ℝ) ^ (-(p : ℤ))
local notation "f" => bern y₁ y₂ y₃ y₄

/-- one coordinate of the steps -/
private theorem coord_step {dq ddq : ℕ → ℝ} {g : ℝ}
    (hdq : ∀ k, dq (k + 1) = rne p (dq k + ddq k)) (hddq : ∀ k, ddq (k + 1) = rne p (ddq k + g))
    (d0 : |dq 0 - (f d - f 0)| ≤ 110 * (K * d) * U) (e0 : |ddq 0 - (f (d + d) - f d - (f d - f 0))| ≤ 420 * (K * (d * d)) * U)
    (g0 : |g - ((y₄ - y₁) * (d * d * d * 6) + (y₃ - y₂) * (-(d * d * d) * 18))| ≤ 290 * (K * (d * d * d)) * U)
    (k : ℕ) (hk : k ≤ n) : |dq k - (f (k * d + d) - f (k * d))| ≤ (930 + 34 * n) * (K * d * U) := by
  have hr := isRel_rne p (by omega : 1 ≤ p)
  have hu := hr.nonneg
  have hK : 0 ≤ K := (abs_nonneg _).trans k₁
  have hn0 : (0 : ℝ) ≤ n := Nat.cast_nonneg n
  have hUn : 16 * (n : ℝ) * U ≤ 1 := by
    have : (16 * (n : ℝ)) ≤ 2 ^ p := by exact_mod_cast hNp
    rw [zpow_neg, zpow_natCast, ← div_eq_mul_inv, div_le_one (by positivity)]; exact this
  have hle : ∀ k < n, (k : ℝ) + 2 ≤ n + 1 := fun k hk => by
    have : (k : ℝ) + 1 ≤ n := by exact_mod_cast hk
    linarith
  have in1 : ∀ k < n, ((k : ℝ) + 2) * d ≤ 1 := fun k hk => (mul_le_mul_of_nonneg_right (hle k hk) hd0).trans hN
  have nd : (n : ℝ) * d ≤ 1 := by nlinarith
  -- the second differences
  have L2 := drift' hr (N := n) hUn (x' := ddq) (y' := fun _ => g)
    (x := fun k => f (k * d + d + d) - f (k * d + d) - (f (k * d + d) - f (k * d)))
    (y := fun _ => (y₄ - y₁) * (d * d * d * 6) + (y₃ - y₂) * (-(d * d * d) * 18))
    (e₀ := 420 * (K * (d * d)) * U) (ε := 290 * (K * (d * d * d)) * U) (X := 24 * K * (d * d))
    (fun k _ => by simp only [bern]; push_cast; ring) (fun k _ => hddq k)
    (by simpa using e0) (fun k _ => g0) (fun k hk => by
      have := bern_diff2 k₁ k₂ k₃ k₄ (t := (k + 2) * d) (d := d) (by positivity) (in1 k hk)
      push_cast
      convert this using 3 <;> ring_nf)
  -- the first differences
  have L1 := drift' hr (N := n) hUn (x' := dq) (y' := ddq)
    (x := fun k => f (k * d + d) - f (k * d))
    (y := fun k => f (k * d + d + d) - f (k * d + d) - (f (k * d + d) - f (k * d)))
    (e₀ := 110 * (K * d) * U) (ε := _) (X := 6 * K * d)
    (fun k _ => by push_cast; ring_nf) (fun k _ => hdq k)
    (by simpa using d0) (fun k hk => L2 k hk.le) (fun k hk => by
      have := bern_diff k₁ k₂ k₃ k₄ (t := (k + 1) * d) (s := (k + 2) * d) (by positivity)
        (mul_le_mul_of_nonneg_right (by linarith) hd0) (in1 k hk)
      push_cast
      convert this using 2 <;> ring_nf) k hk
  refine L1.trans ?_
  have w1 : 0 ≤ K * d * U := by positivity
  have w2 : 0 ≤ K * (d * d) * U := by positivity
  have r2 : n * (290 * (K * (d * d * d)) * U) ≤ 290 * (K * (d * d) * U) := by
    have := mul_le_mul_of_nonneg_right nd w2; nlinarith
  have b2 : 16 / 15 * (420 * (K * (d * d)) * U + n * (290 * (K * (d * d * d)) * U + U * (24 * K * (d * d)))) ≤
      16 / 15 * (710 + 24 * n) * (K * (d * d) * U) := by nlinarith
  have r1 : n * (16 / 15 * (710 + 24 * n) * (K * (d * d) * U)) ≤ 16 / 15 * (710 + 24 * n) * (K * d * U) := by
    have := mul_le_mul_of_nonneg_right nd (show 0 ≤ 16 / 15 * (710 + 24 * n) * (K * d * U) by positivity)
    nlinarith
  have b3 := mul_le_mul_of_nonneg_left b2 hn0
  have e3 : 16 / 15 * (110 * (K * d) * U + n * (16 / 15 * (420 * (K * (d * d)) * U + n * (290 * (K * (d * d * d)) * U +
      U * (24 * K * (d * d)))) + U * (6 * K * d))) = 16 / 15 * (110 * (K * d * U) +
      n * (16 / 15 * (420 * (K * (d * d)) * U + n * (290 * (K * (d * d * d)) * U + U * (24 * K * (d * d))))) +
      6 * (n * (K * d * U))) := by ring
  rw [e3]
  have w3 : 0 ≤ n * (K * d * U) := by positivity
  linarith

end coord

private theorem num_inj {rnd : ℝ → ℝ} {v w : Vec3 ℝ} (h : (Vec3.num v : Vec3 (Fl ℝ rnd)) = Vec3.num w) : v = w := by
  obtain ⟨a, b, c⟩ := Vec3.ext_iff.1 h
  exact Vec3.ext (Fl.num.inj a) (Fl.num.inj b) (Fl.num.inj c)

/-- the numbers of the forward differences -/
private theorem steps {p : ℕ} (hp : 12 ≤ p) (s : BezierSegment3 ℝ) {d K : ℝ} {n : ℕ} (hd0 : 0 ≤ d) (hN : (n + 1) * d ≤ 1)
    (hNp : 16 * (n + 1) ≤ 2 ^ p)
    (k1 : s.P1.BoundedBy K) (k2 : s.P2.BoundedBy K) (k3 : s.P3.BoundedBy K) (k4 : s.P4.BoundedBy K) :
    ∃ st : BezierSegment3FwdDiff ℝ,
      (.init s.P1.num s.P2.num s.P3.num s.P4.num (.num d) : BezierSegment3FwdDiff (Fl ℝ (rne p))) = st.num ∧
      (∀ k ≤ n, nm (((rndStep p)^[k] st).dP - (s.val (k * d + d) - s.val (k * d))) ≤
        1.7321 * ((930 + 34 * n) * (K * d * 2 ^ (-(p : ℤ))))) ∧
      ∀ k ≤ n + 1, nm (((rndStep p)^[k] st).P - s.val (k * d)) ≤ 1.7321 * ((1000 + 38 * k) * K * 2 ^ (-(p : ℤ))) := by
  have hK : 0 ≤ K := (abs_nonneg _).trans k1.1
  have hn0 : (0 : ℝ) ≤ n := Nat.cast_nonneg n
  have hd1 : d ≤ 1 := by nlinarith
  obtain ⟨⟨ax, ax1, ax2, -⟩, ⟨bx, bx1, bx2, -⟩, ⟨cx, cx1, cx2, -⟩⟩ := start_pos hp hd0 hd1 hK (apx_diff hp k4.1 k1.1)
    (apx_diff hp k3.1 k2.1) (apx_diff hp k2.1 k1.1)
  obtain ⟨⟨ay, ay1, ay2, -⟩, ⟨by', by1, by2, -⟩, ⟨cy, cy1, cy2, -⟩⟩ := start_pos hp hd0 hd1 hK (apx_diff hp k4.2.1 k1.2.1)
    (apx_diff hp k3.2.1 k2.2.1) (apx_diff hp k2.2.1 k1.2.1)
  obtain ⟨⟨az, az1, az2, -⟩, ⟨bz, bz1, bz2, -⟩, ⟨cz, cz1, cz2, -⟩⟩ := start_pos hp hd0 hd1 hK (apx_diff hp k4.2.2 k1.2.2)
    (apx_diff hp k3.2.2 k2.2.2) (apx_diff hp k2.2.2 k1.2.2)
  obtain ⟨⟨tx, tx1, tx2, -⟩, ⟨ux, ux1, ux2, -⟩, ⟨vx, vx1, vx2, -⟩⟩ := start_tan hp hd0 hd1 hK (apx_diff hp k4.1 k1.1)
    (apx_diff hp k3.1 k2.1) (apx_diff hp k2.1 k1.1)
  obtain ⟨⟨ty, ty1, ty2, -⟩, ⟨uy, uy1, uy2, -⟩, ⟨vy, vy1, vy2, -⟩⟩ := start_tan hp hd0 hd1 hK (apx_diff hp k4.2.1 k1.2.1)
    (apx_diff hp k3.2.1 k2.2.1) (apx_diff hp k2.2.1 k1.2.1)
  obtain ⟨⟨tz, tz1, tz2, -⟩, ⟨uz, uz1, uz2, -⟩, ⟨vz, vz1, vz2, -⟩⟩ := start_tan hp hd0 hd1 hK (apx_diff hp k4.2.2 k1.2.2)
    (apx_diff hp k3.2.2 k2.2.2) (apx_diff hp k2.2.2 k1.2.2)
  let st : BezierSegment3FwdDiff ℝ := ⟨s.P1, ⟨ax, ay, az⟩, ⟨bx, by', bz⟩, ⟨cx, cy, cz⟩, ⟨tx, ty, tz⟩, ⟨ux, uy, uz⟩, ⟨vx, vy, vz⟩⟩
  have e : (.init s.P1.num s.P2.num s.P3.num s.P4.num (.num d) : BezierSegment3FwdDiff (Fl ℝ (rne p))) = st.num := by
    refine BezierSegment3FwdDiff.mk.injEq .. ▸ ⟨rfl, Vec3.ext ax1 ay1 az1, Vec3.ext bx1 by1 bz1, Vec3.ext cx1 cy1 cz1,
      Vec3.ext tx1 ty1 tz1, Vec3.ext ux1 uy1 uz1, Vec3.ext vx1 vy1 vz1⟩
  refine ⟨st, e, fun k hk => nm_le ?_ ?_ ?_, fun k hk => ?_⟩
  · exact coord_step hp hd0 hN (by omega) k1.1 k2.1 k3.1 k4.1
      (dq := fun k => ((rndStep p)^[k] st).dP.x) (ddq := fun k => ((rndStep p)^[k] st).d2P.x) (g := cx)
      (fun k => by simp only [Function.iterate_succ_apply']; rfl)
      (fun k => by simp only [Function.iterate_succ_apply']; rw [show cx = ((rndStep p)^[k] st).d3P.x by rw [steps_d3P]]; rfl)
      (by rw [bern_s1]; exact ax2) (by rw [bern_s2]; exact bx2) cx2 k hk
  · exact coord_step hp hd0 hN (by omega) k1.2.1 k2.2.1 k3.2.1 k4.2.1
      (dq := fun k => ((rndStep p)^[k] st).dP.y) (ddq := fun k => ((rndStep p)^[k] st).d2P.y) (g := cy)
      (fun k => by simp only [Function.iterate_succ_apply']; rfl)
      (fun k => by simp only [Function.iterate_succ_apply']; rw [show cy = ((rndStep p)^[k] st).d3P.y by rw [steps_d3P]]; rfl)
      (by rw [bern_s1]; exact ay2) (by rw [bern_s2]; exact by2) cy2 k hk
  · exact coord_step hp hd0 hN (by omega) k1.2.2 k2.2.2 k3.2.2 k4.2.2
      (dq := fun k => ((rndStep p)^[k] st).dP.z) (ddq := fun k => ((rndStep p)^[k] st).d2P.z) (g := cz)
      (fun k => by simp only [Function.iterate_succ_apply']; rfl)
      (fun k => by simp only [Function.iterate_succ_apply']; rw [show cz = ((rndStep p)^[k] st).d3P.z by rw [steps_d3P]]; rfl)
      (by rw [bern_s1]; exact az2) (by rw [bern_s2]; exact bz2) cz2 k hk
  · have hkd : (k : ℝ) * d ≤ 1 := by
      refine le_trans (mul_le_mul_of_nonneg_right ?_ hd0) hN
      exact_mod_cast hk
    obtain ⟨w, w', h1, -, h2⟩ := C143_drift_partial hp s d K k hd0 hd1 hkd (by omega) k1 k2 k3 k4
    rw [e, steps_num] at h1
    have hw : ((rndStep p)^[k] st).P = w := num_inj h1
    rw [hw]
    rw [← s.toE_val] at h2
    exact nm_le (h2 0).1 (h2 1).1 (h2 2).1

/-- the speed along the curve is bounded -/
private theorem val_diff {s : BezierSegment3 ℝ} {K t r : ℝ} (k1 : s.P1.BoundedBy K) (k2 : s.P2.BoundedBy K) (k3 : s.P3.BoundedBy K)
    (k4 : s.P4.BoundedBy K) (h0 : 0 ≤ t) (h1 : t ≤ 1) (h2 : 0 ≤ r) (h3 : r ≤ 1) : nm (s.val r - s.val t) ≤ 10.393 * K * |r - t| := by
  have main : ∀ {t r : ℝ}, 0 ≤ t → t ≤ r → r ≤ 1 → nm (s.val r - s.val t) ≤ 10.393 * K * (r - t) := fun {t r} h0 h1 h2 => by
    have hK : 0 ≤ K := (abs_nonneg _).trans k1.1
    have := nm_le (v := s.val r - s.val t) (bern_diff k1.1 k2.1 k3.1 k4.1 h0 h1 h2)
      (bern_diff k1.2.1 k2.2.1 k3.2.1 k4.2.1 h0 h1 h2) (bern_diff k1.2.2 k2.2.2 k3.2.2 k4.2.2 h0 h1 h2)
    have := mul_nonneg hK (sub_nonneg.2 h1)
    linarith
  rcases le_total t r with h | h
  · rw [abs_of_nonneg (sub_nonneg.2 h)]; exact main h0 h h3
  · rw [nm_neg, abs_sub_comm, abs_of_nonneg (sub_nonneg.2 h)]; exact main h2 h h1

private theorem dist_nm (a b : Vec3 ℝ) : dist a.toE b.toE = nm (b - a) := by
  rw [← length3_dist]
  have : (b - a).length = √((b - a).x * (b - a).x + (b - a).y * (b - a).y + (b - a).z * (b - a).z) := rfl
  rw [this, nm]; congr 1; ring

/-- the sum `length` computes, from lengths `ℓ` -/
private noncomputable def acc (p : ℕ) (ℓ : ℕ → ℝ) : ℕ → ℝ
  | 0 => 0
  | k + 1 => rne p (acc p ℓ k + ℓ k)

/-- the loop of `length` in numbers -/
private theorem length_eq {p : ℕ} (s : BezierSegment3 ℝ) {M : ℕ} (hM : 0 < M) {d : ℝ}
    (hd : (1 / ((M : ℕ) : Fl ℝ (rne p)) : Fl ℝ (rne p)) = .num d) {st : BezierSegment3FwdDiff ℝ}
    (hst : (.init s.P1.num s.P2.num s.P3.num s.P4.num (.num d) : BezierSegment3FwdDiff (Fl ℝ (rne p))) = st.num) {ℓ : ℕ → ℝ}
    (hℓ : ∀ k < M - 1, (((rndStep p)^[k] st).dP.num : Vec3 (Fl ℝ (rne p))).length = .num (ℓ k)) :
    (s.num : BezierSegment3 (Fl ℝ (rne p))).length M =
      .ok (.num (acc p ℓ (M - 1)) + ((s.P4.num : Vec3 (Fl ℝ (rne p))) - ((rndStep p)^[M - 1] st).P.num).length) := by
  rw [BezierSegment3.length, if_pos (by omega)]
  have e' : ((M : ℤ) - 1).toNat = M - 1 := by omega
  have e'' : (M : ℤ).toNat = M := by simp
  have c0 : ∀ {σ : BezierSegment3 (Fl ℝ (rne p))} {δ : Fl ℝ (rne p)} {τ : BezierSegment3FwdDiff (Fl ℝ (rne p))},
      σ = s.num → δ = .num d → τ = st.num →
      (σ.P4 - σ.P1) * (δ * δ * δ) + (σ.P3 - σ.P2) * ((δ * δ - δ * δ * δ) * 3) + (σ.P2 - σ.P1) * ((δ - δ * δ) * 3) = τ.dP ∧
      (σ.P4 - σ.P1) * (δ * δ * δ * 6) + (σ.P3 - σ.P2) * ((δ * δ - δ * δ * δ * 3) * 6) + (σ.P2 - σ.P1) * (-(δ * δ) * 6) = τ.d2P ∧
      (σ.P4 - σ.P1) * (δ * δ * δ * 6) + (σ.P3 - σ.P2) * (-(δ * δ * δ) * 18) = τ.d3P ∧ s.P1 = st.P := by
    rintro _ _ _ rfl rfl rfl
    refine ⟨congrArg BezierSegment3FwdDiff.dP hst, congrArg BezierSegment3FwdDiff.d2P hst,
      congrArg BezierSegment3FwdDiff.d3P hst, num_inj (congrArg BezierSegment3FwdDiff.P hst)⟩
  obtain ⟨c1, c2, c3, c4⟩ := c0 rfl rfl rfl
  obtain ⟨fs, e, h1, h2, h3, h4⟩ := loop_rule (f := fun (_ : ℕ) (x : BezierSegment3.LenSt (Fl ℝ (rne p))) =>
      .ok ⟨x.P + x.dP, x.dP + x.d2P, x.d2P + (st.num : BezierSegment3FwdDiff (Fl ℝ (rne p))).d3P, x.result + x.dP.length⟩)
    (lo := 0) (hi := M - 1)
    (s := ⟨s.P1.num, (st.num : BezierSegment3FwdDiff (Fl ℝ (rne p))).dP, (st.num : BezierSegment3FwdDiff (Fl ℝ (rne p))).d2P, 0⟩)
    (fun i x => x.P = ((rndStep p)^[i] st).P.num ∧ x.dP = ((rndStep p)^[i] st).dP.num ∧ x.d2P = ((rndStep p)^[i] st).d2P.num ∧
      x.result = .num (acc p ℓ i))
    (Nat.zero_le _) ⟨by rw [c4]; rfl, rfl, rfl, by rw [Fl.zero_def]; rfl⟩ (by
      rintro i x - hi ⟨h1, h2, h3, h4⟩
      refine ⟨_, rfl, ?_, ?_, ?_, ?_⟩
      · simp only [Function.iterate_succ_apply', h1, h2]; rfl
      · simp only [Function.iterate_succ_apply', h3, h2]; rfl
      · simp only [Function.iterate_succ_apply', h3]
        rw [show (st.num : BezierSegment3FwdDiff (Fl ℝ (rne p))).d3P = (((rndStep p)^[i] st).d3P).num by rw [steps_d3P]; rfl]
        rfl
      · simp only [h4, h2, hℓ i hi]; rfl)
  simp only [e', e'', hd, c1, c2, c3]
  have e2 : loop 0 (M - 1) (fun (_ : ℕ) (x : BezierSegment3.LenSt (Fl ℝ (rne p))) =>
      .ok ⟨x.P + x.dP, x.dP + x.d2P, x.d2P + (st.num : BezierSegment3FwdDiff (Fl ℝ (rne p))).d3P, x.result + x.dP.length⟩)
      ⟨(s.num : BezierSegment3 (Fl ℝ (rne p))).P1, (st.num : BezierSegment3FwdDiff (Fl ℝ (rne p))).dP,
        (st.num : BezierSegment3FwdDiff (Fl ℝ (rne p))).d2P, 0⟩ = .ok fs := e
  simp only [e2, bind, Except.bind, h1, h4]
  rfl

private theorem length_num {rnd : ℝ → ℝ} {u : ℝ} (hr : IsRel rnd u) (hu : u ≤ 1 / 4096) (v : Vec3 ℝ) :
    ∃ l, (Vec3.num v : Vec3 (Fl ℝ rnd)).length = .num l ∧ |l - nm v| ≤ 3.02 * u * nm v := by
  obtain ⟨l, e, h⟩ := (Vec3.rel_length hr v).error hr
  have e2 : √(v.x * v.x + v.y * v.y + v.z * v.z) = nm v := by rw [nm]; congr 1; ring
  rw [e2, abs_of_nonneg (nm_nonneg v)] at h
  obtain ⟨g, -⟩ := BallLine.gam_small hr.nonneg hu 3 (by norm_num)
  norm_num at g
  have := hr.nonneg
  exact ⟨l, e, h.trans (mul_le_mul_of_nonneg_right (by linarith) (nm_nonneg v))⟩

/-- the errors of the single steps -/
private theorem chord_err {U K d n c l D : ℝ} (hU : 0 ≤ U) (hK : 0 ≤ K) (hd : 0 ≤ d) (hn : 0 ≤ n) (hU1 : U ≤ 1 / 4096)
    (hnU : 16 * n * U ≤ 1) {x : ℝ}
    (h1 : |D - x| ≤ 1.7321 * ((930 + 34 * n) * (K * d * U))) (h2 : |x - c| ≤ 20.786 * K * U) (h3 : x ≤ 10.393 * K * d)
    (hl : |l - D| ≤ 3.02 * U * D) : |l - c| ≤ (1656 + 59 * n) * (K * d * U) + 20.786 * K * U := by
  have w : 0 ≤ K * d := by positivity
  have w2 : 0 ≤ K * d * U := by positivity
  have a1 := mul_le_mul_of_nonneg_left hU1 w
  have a2 := mul_le_mul_of_nonneg_left hnU w
  have a3 : K * d * (16 * n * U) = 16 * (n * (K * d * U)) := by ring
  rw [a3] at a2
  have hD2 : D ≤ 14.6 * (K * d) := by
    have := (abs_le.1 h1).2
    nlinarith
  have a4 := mul_le_mul_of_nonneg_left hD2 (show 0 ≤ 3.02 * U by positivity)
  have t1 := abs_sub_le l D c
  have t2 := abs_sub_le D x c
  have a5 : 3.02 * U * (14.6 * (K * d)) = 3.02 * 14.6 * (K * d * U) := by ring
  rw [a5] at a4
  have w3 : 0 ≤ n * (K * d * U) := by positivity
  nlinarith

/-- the error of the sum and of the last step -/
private theorem total_err {U K m r l R C w P E : ℝ} (hU : 0 ≤ U) (hK : 0 ≤ K) (hm : 1 ≤ m) (hU1 : U ≤ 1 / 4096)
    (hmU : 16 * m * U ≤ 1) (hr : |r - R| ≤ (1767 + 97 * m) * (K * U)) (hR0 : 0 ≤ R) (hR : R ≤ 10.393 * K)
    (hC0 : 0 ≤ C) (hC : C ≤ 10.393 * K) (hP : |P - C| ≤ (1743 + 66 * m) * (K * U)) (hE : |E - P| ≤ U * P)
    (hl : |l - E| ≤ 3.02 * U * E) (hw : |w - (r + l)| ≤ |r + l| * U) : |w - (R + C)| ≤ (3700 + 165 * m) * (K * U) := by
  have w0 : 0 ≤ K * U := by positivity
  have w1 : 0 ≤ m * (K * U) := by positivity
  have a1 := mul_le_mul_of_nonneg_left hU1 hK
  have a2 := mul_le_mul_of_nonneg_left hmU hK
  have a3 : K * (16 * m * U) = 16 * (m * (K * U)) := by ring
  rw [a3] at a2
  have hP1 : P ≤ 15 * K := by
    have := (abs_le.1 hP).2
    nlinarith
  have b1 := mul_le_mul_of_nonneg_left hP1 hU
  have hE1 : E ≤ 15.1 * K := by
    have := (abs_le.1 hE).2
    nlinarith
  have b2 := mul_le_mul_of_nonneg_left hE1 hU
  have c1 : |l - C| ≤ (1804 + 66 * m) * (K * U) := by
    have t1 := abs_sub_le l E C
    have t2 := abs_sub_le E P C
    nlinarith
  have c2 : |r + l| ≤ 36 * K := by
    have t1 := abs_sub_le (r + l) (R + C) 0
    rw [sub_zero, sub_zero, abs_of_nonneg (show 0 ≤ R + C by linarith)] at t1
    have t2 : |r + l - (R + C)| ≤ |r - R| + |l - C| := by
      rw [show r + l - (R + C) = (r - R) + (l - C) by ring]; exact abs_add_le _ _
    nlinarith
  have c3 := mul_le_mul_of_nonneg_right c2 hU
  have t3 := abs_sub_le w (r + l) (R + C)
  have t2 : |r + l - (R + C)| ≤ |r - R| + |l - C| := by
    rw [show r + l - (R + C) = (r - R) + (l - C) by ring]; exact abs_add_le _ _
  nlinarith

/-- C173, what holds: with rounding to `p ≥ 12` bits and `M ≤ 2^p / 16` steps the length is off by at most
`(3700 + 165 M) 2^-p` times the largest coordinate of the control points from the one exact arithmetic would give, the length of
the polygon through the points at `i / M` (C91).  Missing: a bound that does not grow with the number of steps, which is false
(`C173_refuted`). -/
theorem C173_length_partial {p : ℕ} (hp : 12 ≤ p) (s : BezierSegment3 ℝ) (K : ℝ) (M : ℕ) (hM : 0 < M) (hMp : 16 * M ≤ 2 ^ p)
    (k1 : s.P1.BoundedBy K) (k2 : s.P2.BoundedBy K) (k3 : s.P3.BoundedBy K) (k4 : s.P4.BoundedBy K) :
    ∃ L w : ℝ, s.length M = .ok L ∧ (s.num : BezierSegment3 (Fl ℝ (rne p))).length M = .ok (.num w) ∧
      |w - L| ≤ (3700 + 165 * M) * K * 2 ^ (-(p : ℤ)) := by
  have hr := isRel_rne p (by omega : 1 ≤ p)
  have hU1 := small_unit hp
  have hU := hr.nonneg
  have hK : 0 ≤ K := (abs_nonneg _).trans k1.1
  set U := (2 : ℝ) ^ (-(p : ℤ)) with hUd
  have hM0 : (0 : ℝ) < M := by exact_mod_cast hM
  have hM1 : (1 : ℝ) ≤ M := by exact_mod_cast hM
  have hMU : 16 * (M : ℝ) * U ≤ 1 := by
    have : (16 * (M : ℝ)) ≤ 2 ^ p := by exact_mod_cast hMp
    rw [hUd, zpow_neg, zpow_natCast, ← div_eq_mul_inv, div_le_one (by positivity)]; exact this
  -- the step
  have hrM : rne p ((M : ℕ) : ℝ) = M := by
    have := rne_of_rep (p := p) (by omega) (Rep.int (K := ℝ) (p := p) (M : ℤ) (by
      rw [abs_of_nonneg (by positivity)]
      have : (16 * (M : ℤ)) ≤ 2 ^ p := by exact_mod_cast hMp
      linarith))
    simpa using this
  set d := rne p (1 / (M : ℝ)) with hdd
  have hd : (1 / ((M : ℕ) : Fl ℝ (rne p)) : Fl ℝ (rne p)) = .num d := by
    show (1 : Fl ℝ (rne p)) / (.num (rne p ((M : ℕ) : ℝ))) = _
    rw [hrM, Fl.one_def, Fl.num_div, if_neg hM0.ne']
  have hderr : |d - 1 / M| ≤ 1 / M * U := by
    have := hr.err (1 / (M : ℝ))
    rwa [abs_of_pos (show (0 : ℝ) < 1 / M by positivity), mul_comm] at this
  have hd0 : 0 ≤ d := by
    have h := (abs_le.1 hderr).1
    have : (0 : ℝ) < 1 / M := by positivity
    nlinarith
  have hMd : ∀ k : ℝ, 0 ≤ k → k ≤ M → |k * d - k / M| ≤ U := fun k h0 h1 => by
    rw [show k * d - k / M = k * (d - 1 / M) by ring, abs_mul, abs_of_nonneg h0]
    refine (mul_le_mul h1 hderr (abs_nonneg _) hM0.le).trans (le_of_eq ?_)
    field_simp
  have hlast : ((M : ℝ) - 1) * d ≤ 1 := by
    have h := (abs_le.1 (hMd (M - 1) (by linarith) (by linarith))).2
    have e : ((M : ℝ) - 1) / M = 1 - 1 / M := by field_simp
    rw [e] at h
    have : U ≤ 1 / M := by rw [le_div_iff₀ hM0]; nlinarith
    linarith
  obtain ⟨n, hn1, hn2, hn3, hn4⟩ : ∃ n : ℕ, M - 1 ≤ n + 1 ∧ n + 1 ≤ M ∧ (∀ k < M - 1, k ≤ n) ∧ ((n : ℝ) + 1) * d ≤ 1 := by
    rcases Nat.lt_or_ge M 2 with h | h
    · have : M = 1 := by omega
      refine ⟨0, by omega, by omega, by omega, ?_⟩
      have e : d = 1 := by
        rw [hdd, this]; norm_num
        simpa using rne_of_rep (p := p) (by omega) (Rep.int (K := ℝ) (p := p) 1 (by
          have : (1 : ℤ) ≤ 2 ^ p := one_le_pow₀ (by norm_num)
          simpa using this))
      rw [e]; norm_num
    · refine ⟨M - 2, by omega, by omega, by omega, ?_⟩
      rw [Nat.cast_sub h]; push_cast
      linarith
  have hnM : (n : ℝ) + 1 ≤ M := by exact_mod_cast hn2
  have hn0 : (0 : ℝ) ≤ n := Nat.cast_nonneg n
  obtain ⟨st, est, hdP, hP⟩ := steps hp s hd0 hn4 (by omega) k1 k2 k3 k4
  choose len elen hlen using fun v => length_num hr hU1 v
  have eq := length_eq s hM hd est (ℓ := fun k => len ((rndStep p)^[k] st).dP) (fun k _ => elen _)
  obtain ⟨E, eE, hE⟩ := diff_err hr ((rndStep p)^[M - 1] st).P s.P4
  rw [eE, elen, Fl.num_add] at eq
  refine ⟨_, _, C91_chords s M hM, eq, ?_⟩
  -- the exact chords
  set c : ℕ → ℝ := fun i => nm (s.val ((i + 1) / M) - s.val (i / M)) with hc
  have hsum : ∑ i ∈ Finset.range M, dist (s.curve (i / M)) (s.curve ((i + 1) / M)) = ∑ i ∈ Finset.range M, c i := by
    refine Finset.sum_congr rfl fun i _ => ?_
    rw [← s.toE_val, ← s.toE_val, dist_nm]
  have hcle : ∀ i < M, c i ≤ 10.393 * K * (1 / M) := fun i hi => by
    have h1 : ((i : ℝ) + 1) ≤ M := by exact_mod_cast hi
    have := val_diff k1 k2 k3 k4 (t := (i : ℝ) / M) (r := ((i : ℝ) + 1) / M) (by positivity) (by rw [div_le_one hM0]; linarith)
      (by positivity) (by rw [div_le_one hM0]; exact h1)
    rwa [show ((i : ℝ) + 1) / M - i / M = 1 / M by ring, abs_of_pos (by positivity)] at this
  have hc0 : ∀ i, 0 ≤ c i := fun i => nm_nonneg _
  have hpart : ∀ k ≤ M, ∑ i ∈ Finset.range k, c i ≤ 10.393 * K := fun k hk => by
    have := Finset.sum_le_sum (s := Finset.range k) (f := c) (g := fun _ => 10.393 * K * (1 / M))
      (fun i hi => hcle i ((Finset.mem_range.1 hi).trans_le hk))
    rw [Finset.sum_const, Finset.card_range, nsmul_eq_mul] at this
    refine this.trans ?_
    have hk' : (k : ℝ) ≤ M := by exact_mod_cast hk
    rw [show (k : ℝ) * (10.393 * K * (1 / M)) = 10.393 * K * (k / M) by ring]
    have : (k : ℝ) / M ≤ 1 := by rw [div_le_one hM0]; exact hk'
    have := mul_le_mul_of_nonneg_left this (show 0 ≤ 10.393 * K by positivity)
    linarith
  -- parameters
  have hpar : ∀ k ≤ M - 1, nm (s.val (k * d) - s.val (k / M)) ≤ 10.393 * K * U := fun k hk => by
    have hk1 : (k : ℝ) + 1 ≤ M := by
      have : k + 1 ≤ M := by omega
      exact_mod_cast this
    have hk0 : (0 : ℝ) ≤ k := Nat.cast_nonneg k
    refine (val_diff k1 k2 k3 k4 (by positivity) (by rw [div_le_one hM0]; linarith) (by positivity) ?_).trans ?_
    · exact (mul_le_mul_of_nonneg_right (by linarith) hd0).trans hlast
    · exact mul_le_mul_of_nonneg_left (hMd k hk0 (by linarith)) (by positivity)
  have hnU : 16 * (n : ℝ) * U ≤ 1 := by nlinarith
  have herr : ∀ k < M - 1, |len ((rndStep p)^[k] st).dP - c k| ≤ (1656 + 59 * n) * (K * d * U) + 20.786 * K * U := fun k hk => by
    have hkn := hn3 k hk
    have q1 := hpar k (by omega)
    have q2 := hpar (k + 1) (by omega)
    push_cast at q2
    rw [show ((k : ℝ) + 1) * d = k * d + d by ring] at q2
    refine chord_err hU hK hd0 hn0 hU1 hnU (D := nm ((rndStep p)^[k] st).dP) (x := nm (s.val (k * d + d) - s.val (k * d)))
      ((nm_near _ _).trans (hdP k hkn)) ?_ ?_ (hlen _)
    · refine (nm_near _ _).trans ?_
      have e : s.val (k * d + d) - s.val (k * d) - (s.val ((k + 1) / M) - s.val (k / M)) =
          (s.val (k * d + d) - s.val ((k + 1) / M)) + (s.val (k / M) - s.val (k * d)) := by ext <;> simp <;> ring
      rw [e]
      have := nm_add (s.val (k * d + d) - s.val ((k + 1) / M)) (s.val (k / M) - s.val (k * d))
      rw [nm_neg (s.val (k / M))] at this
      linarith
    · have hk1 : (k : ℝ) + 1 ≤ n + 1 := by
        have : (k : ℝ) ≤ n := by exact_mod_cast hkn
        linarith
      have hk0 : (0 : ℝ) ≤ k := Nat.cast_nonneg k
      have b : (k : ℝ) * d + d ≤ 1 := by
        rw [show (k : ℝ) * d + d = (k + 1) * d by ring]; exact (mul_le_mul_of_nonneg_right hk1 hd0).trans hn4
      have := val_diff k1 k2 k3 k4 (t := (k : ℝ) * d) (r := k * d + d) (by positivity) (by linarith) (by positivity) b
      rwa [show (k : ℝ) * d + d - k * d = d by ring, abs_of_nonneg hd0] at this
  -- the sum
  have hM' : ((M - 1 : ℕ) : ℝ) = M - 1 := by rw [Nat.cast_sub hM]; simp
  have hacc := drift' hr (N := M - 1) (by rw [hM']; nlinarith) (x' := acc p (fun k => len ((rndStep p)^[k] st).dP))
    (y' := fun k => len ((rndStep p)^[k] st).dP) (x := fun k => ∑ i ∈ Finset.range k, c i) (y := c) (e₀ := 0)
    (ε := (1656 + 59 * n) * (K * d * U) + 20.786 * K * U) (X := 10.393 * K)
    (fun k _ => Finset.sum_range_succ _ _) (fun k _ => rfl) (by simp [acc]) herr (fun k hk => by
      rw [abs_of_nonneg (Finset.sum_nonneg fun i _ => hc0 i)]; exact hpart _ (by omega)) (M - 1) le_rfl
  have hacc2 : |acc p (fun k => len ((rndStep p)^[k] st).dP) (M - 1) - ∑ i ∈ Finset.range (M - 1), c i| ≤
      (1767 + 97 * M) * (K * U) := by
    refine hacc.trans ?_
    rw [hM']
    have w0 : 0 ≤ K * U := by positivity
    have w1 := mul_le_mul_of_nonneg_right hlast (show 0 ≤ (1656 + 59 * n) * (K * U) by positivity)
    have w2 : 0 ≤ M * (K * U) := by positivity
    have w3 := mul_le_mul_of_nonneg_right hnM w0
    have e : 16 / 15 * (0 + ((M : ℝ) - 1) * ((1656 + 59 * n) * (K * d * U) + 20.786 * K * U + U * (10.393 * K))) =
      16 / 15 * (((M : ℝ) - 1) * d * ((1656 + 59 * n) * (K * U)) + 31.179 * (M * (K * U)) - 31.179 * (K * U)) := by ring
    rw [e]
    linarith
  rw [hsum]
  obtain ⟨N, rfl⟩ : ∃ N, M = N + 1 := ⟨M - 1, by omega⟩
  rw [Finset.sum_range_succ]
  rw [Nat.add_sub_cancel] at *
  have hfin := total_err (U := U) (K := K) (m := ((N + 1 : ℕ) : ℝ)) (C := c N) (P := nm (s.P4 - ((rndStep p)^[N] st).P)) (E := nm E)
    (w := rne p (acc p (fun k => len ((rndStep p)^[k] st).dP) N + len E)) hU hK hM1 hU1 hMU hacc2
    (Finset.sum_nonneg fun i _ => hc0 i) (hpart N (by omega)) (hc0 N)
    ((hcle N (by omega)).trans (by
      have : 1 / ((N + 1 : ℕ) : ℝ) ≤ 1 := by rw [div_le_one hM0]; exact hM1
      have := mul_le_mul_of_nonneg_left this (show 0 ≤ 10.393 * K by positivity)
      linarith)) ?_ ?_ (hlen E) ?_
  · rw [mul_assoc]; exact hfin
  · have e4 : s.val (((N : ℝ) + 1) / ((N + 1 : ℕ) : ℝ)) = s.P4 := by
      have : ((N : ℝ) + 1) / ((N + 1 : ℕ) : ℝ) = 1 := by push_cast; exact div_self (by positivity)
      rw [this]; ext <;> simp [BezierSegment3.val]
    rw [hc]
    simp only [e4]
    refine (nm_near _ _).trans ?_
    have e : s.P4 - ((rndStep p)^[N] st).P - (s.P4 - s.val (N / ((N + 1 : ℕ) : ℝ))) =
        (s.val (N * d) - ((rndStep p)^[N] st).P) + (s.val (N / ((N + 1 : ℕ) : ℝ)) - s.val (N * d)) := by ext <;> simp
    rw [e]
    have q1 := nm_add (s.val (N * d) - ((rndStep p)^[N] st).P) (s.val (N / ((N + 1 : ℕ) : ℝ)) - s.val (N * d))
    rw [nm_neg (s.val (N * d)), nm_neg (s.val (N / ((N + 1 : ℕ) : ℝ)))] at q1
    have q2 := hP N (by omega)
    have q3 := hpar N le_rfl
    have hN : (N : ℝ) ≤ ((N + 1 : ℕ) : ℝ) := by push_cast; linarith
    have w0 : 0 ≤ K * U := by positivity
    have := mul_le_mul_of_nonneg_right hN w0
    have w2 : 0 ≤ ((N + 1 : ℕ) : ℝ) * (K * U) := by positivity
    nlinarith
  · exact (nm_near _ _).trans hE
  · have := hr.err (acc p (fun k => len ((rndStep p)^[k] st).dP) N + len E)
    rwa [mul_comm] at this

/-- the claim of C173 -/
def C173_full : Prop :=
  ∀ (s : BezierSegment3 ℝ) (K : ℝ) (M : ℕ), (∀ v ∈ [s.P1, s.P2, s.P3, s.P4], v.BoundedBy K ∧ Rep 24 v.x ∧ Rep 24 v.y ∧ Rep 24 v.z) →
    0 < M → M < 2 ^ 31 →
    ∃ L w : ℝ, s.length M = .ok L ∧ (s.num : BezierSegment3 (Fl ℝ (rne 24))).length M = .ok (.num w) ∧ |w - L| ≤ K / 100

/-- the sum of many equal terms passes 1/4 -/
private theorem acc_ge {ℓ : ℕ → ℝ} (hℓ : ∀ k, ℓ k = 3 / 2 ^ 26) (q : rne 24 (1 / 4 : ℝ) = 1 / 4) (k : ℕ) :
    min (1 / 4) ((k : ℝ) * (3 / 2 ^ 27)) ≤ acc 24 ℓ k := by
  have hr := isRel_rne 24 (by norm_num : 1 ≤ 24)
  induction k with
  | zero => simp [acc]
  | succ k ih =>
    show _ ≤ rne 24 (acc 24 ℓ k + ℓ k)
    rw [hℓ]
    rcases le_or_gt (1 / 4) (acc 24 ℓ k) with h | h
    · refine (min_le_left _ _).trans ?_
      rw [← q]
      exact rne_mono 24 (by norm_num) (by linarith)
    · have h1 : (k : ℝ) * (3 / 2 ^ 27) ≤ acc 24 ℓ k := by
        rcases le_total (1 / 4) ((k : ℝ) * (3 / 2 ^ 27)) with h2 | h2
        · rw [min_eq_left h2] at ih; linarith
        · rwa [min_eq_right h2] at ih
      have h0 : (0 : ℝ) ≤ acc 24 ℓ k := le_trans (by positivity) h1
      refine (min_le_right _ _).trans ?_
      have h3 := (abs_le.1 (hr.err (acc 24 ℓ k + 3 / 2 ^ 26))).1
      rw [abs_of_nonneg (by positivity)] at h3
      have e : (2 : ℝ) ^ (-((24 : ℕ) : ℤ)) = 1 / 2 ^ 24 := by norm_num
      rw [e] at h3
      push_cast
      linarith

/-- The claim is false: in `float`, with `2^26` steps along the segment from 3 to 6, the point never leaves 3, but the lengths of the
steps are added all the same, and then the whole distance again. -/
theorem C173_refuted : ¬ C173_full := by
  intro h
  have v0 : rne 24 (-(3 / 2251799813685248) : ℝ) = -(3 / 2251799813685248) := rne_of_rep (by norm_num) ⟨-12582912, -73, by norm_num, by norm_num⟩
  have v1 : rne 24 (-(9 / 151115727451828646838272) : ℝ) = -(9 / 151115727451828646838272) := rne_of_rep (by norm_num) ⟨-9437184, -97, by norm_num, by norm_num⟩
  have v2 : rne 24 (0 : ℝ) = 0 := rne_of_rep (by norm_num) (Rep.zero _)
  have v3 : rne 24 (1 / 302231454903657293676544 : ℝ) = 1 / 302231454903657293676544 := rne_of_rep (by norm_num) ⟨8388608, -101, by norm_num, by norm_num⟩
  have v4 : rne 24 (3 / 302231454903657293676544 : ℝ) = 3 / 302231454903657293676544 := rne_of_rep (by norm_num) ⟨12582912, -100, by norm_num, by norm_num⟩
  have v5 : rne 24 (3 / 151115727451828646838272 : ℝ) = 3 / 151115727451828646838272 := rne_of_rep (by norm_num) ⟨12582912, -99, by norm_num, by norm_num⟩
  have v6 : rne 24 (9 / 151115727451828646838272 : ℝ) = 9 / 151115727451828646838272 := rne_of_rep (by norm_num) ⟨9437184, -97, by norm_num, by norm_num⟩
  have v7 : rne 24 (67108861 / 302231454903657293676544 : ℝ) = 16777215 / 75557863725914323419136 := by
    rw [rne_eq (-76) 16777215 (by norm_num) (by norm_num) (by rw [abs_lt]; norm_num)]; norm_num
  have v8 : rne 24 (67108863 / 302231454903657293676544 : ℝ) = 1 / 4503599627370496 := by
    rw [rne_eq (-76) 16777216 (by norm_num) (by norm_num) (by rw [abs_lt]; norm_num)]; norm_num
  have v9 : rne 24 (1 / 4503599627370496 : ℝ) = 1 / 4503599627370496 := rne_of_rep (by norm_num) ⟨8388608, -75, by norm_num, by norm_num⟩
  have v10 : rne 24 (3 / 4503599627370496 : ℝ) = 3 / 4503599627370496 := rne_of_rep (by norm_num) ⟨12582912, -74, by norm_num, by norm_num⟩
  have v11 : rne 24 (201326595 / 302231454903657293676544 : ℝ) = 3 / 4503599627370496 := by
    rw [rne_eq (-74) 12582912 (by norm_num) (by norm_num) (by rw [abs_lt]; norm_num)]; norm_num
  have v12 : rne 24 (12582911 / 9444732965739290427392 : ℝ) = 12582911 / 9444732965739290427392 := rne_of_rep (by norm_num) ⟨12582911, -73, by norm_num, by norm_num⟩
  have v13 : rne 24 (50331645 / 37778931862957161709568 : ℝ) = 12582911 / 9444732965739290427392 := by
    rw [rne_eq (-73) 12582911 (by norm_num) (by norm_num) (by rw [abs_lt]; norm_num)]; norm_num
  have v14 : rne 24 (201326585 / 151115727451828646838272 : ℝ) = 3 / 2251799813685248 := by
    rw [rne_eq (-73) 12582912 (by norm_num) (by norm_num) (by rw [abs_lt]; norm_num)]; norm_num
  have v15 : rne 24 (9 / 4503599627370496 : ℝ) = 9 / 4503599627370496 := rne_of_rep (by norm_num) ⟨9437184, -72, by norm_num, by norm_num⟩
  have v16 : rne 24 (67108863 / 4503599627370496 : ℝ) = 1 / 67108864 := by
    rw [rne_eq (-50) 16777216 (by norm_num) (by norm_num) (by rw [abs_lt]; norm_num)]; norm_num
  have v17 : rne 24 (1 / 67108864 : ℝ) = 1 / 67108864 := rne_of_rep (by norm_num) ⟨8388608, -49, by norm_num, by norm_num⟩
  have v18 : rne 24 (3 / 67108864 : ℝ) = 3 / 67108864 := rne_of_rep (by norm_num) ⟨12582912, -48, by norm_num, by norm_num⟩
  have v19 : rne 24 (201326595 / 4503599627370496 : ℝ) = 3 / 67108864 := by
    rw [rne_eq (-48) 12582912 (by norm_num) (by norm_num) (by rw [abs_lt]; norm_num)]; norm_num
  have v20 : rne 24 (1 / 4 : ℝ) = 1 / 4 := rne_of_rep (by norm_num) ⟨8388608, -25, by norm_num, by norm_num⟩
  have v21 : rne 24 (1 : ℝ) = 1 := rne_of_rep (by norm_num) ⟨8388608, -23, by norm_num, by norm_num⟩
  have v22 : rne 24 (3 : ℝ) = 3 := rne_of_rep (by norm_num) ⟨12582912, -22, by norm_num, by norm_num⟩
  have v23 : rne 24 (201326595 / 67108864 : ℝ) = 3 := by
    rw [rne_eq (-22) 12582912 (by norm_num) (by norm_num) (by rw [abs_lt]; norm_num)]; norm_num
  have v24 : rne 24 (13 / 4 : ℝ) = 13 / 4 := rne_of_rep (by norm_num) ⟨13631488, -22, by norm_num, by norm_num⟩
  have v25 : rne 24 (9 : ℝ) = 9 := rne_of_rep (by norm_num) ⟨9437184, -20, by norm_num, by norm_num⟩
  have v26 : rne 24 (67108864 : ℝ) = 67108864 := rne_of_rep (by norm_num) ⟨8388608, 3, by norm_num, by norm_num⟩
  have i : ∀ z : ℤ, |z| ≤ 4096 → rne 24 (z : ℝ) = z := fun z hz =>
    rne_of_rep (by omega) (Rep.int z (hz.trans (by norm_num)))
  have l3 : (3 : Fl ℝ (rne 24)) = .num 3 := (Fl.ofNat_def 3).trans (congrArg Fl.num (by simpa using i 3 (by norm_num)))
  have l6 : (6 : Fl ℝ (rne 24)) = .num 6 := (Fl.ofNat_def 6).trans (congrArg Fl.num (by simpa using i 6 (by norm_num)))
  have l18 : (18 : Fl ℝ (rne 24)) = .num 18 := (Fl.ofNat_def 18).trans (congrArg Fl.num (by simpa using i 18 (by norm_num)))
  let s : BezierSegment3 ℝ := ⟨⟨3, 0, 0⟩, ⟨4, 0, 0⟩, ⟨5, 0, 0⟩, ⟨6, 0, 0⟩⟩
  have r : ∀ z : ℤ, |z| ≤ 4096 → Rep 24 (z : ℝ) := fun z hz => Rep.int z (hz.trans (by norm_num))
  have r0 : Rep 24 (0 : ℝ) := Rep.zero _
  have r3 : Rep 24 (3 : ℝ) := by simpa using r 3 (by norm_num)
  have r4 : Rep 24 (4 : ℝ) := by simpa using r 4 (by norm_num)
  have r5 : Rep 24 (5 : ℝ) := by simpa using r 5 (by norm_num)
  have r6 : Rep 24 (6 : ℝ) := by simpa using r 6 (by norm_num)
  have k1 : s.P1.BoundedBy 6 := by norm_num [Vec3.BoundedBy, s]
  have k2 : s.P2.BoundedBy 6 := by norm_num [Vec3.BoundedBy, s]
  have k3 : s.P3.BoundedBy 6 := by norm_num [Vec3.BoundedBy, s]
  have k4 : s.P4.BoundedBy 6 := by norm_num [Vec3.BoundedBy, s]
  obtain ⟨L, w, eL, ew, hw⟩ := h s 6 (2 ^ 26) (by
    intro v hv
    simp only [List.mem_cons, List.not_mem_nil, or_false] at hv
    rcases hv with rfl | rfl | rfl | rfl
    · exact ⟨k1, r3, r0, r0⟩
    · exact ⟨k2, r4, r0, r0⟩
    · exact ⟨k3, r5, r0, r0⟩
    · exact ⟨k4, r6, r0, r0⟩) (by norm_num) (by norm_num)
  -- the exact length
  have hL : L ≤ 3 := by
    obtain ⟨L', e', -, h2⟩ := C91_bounds s (2 ^ 26) (by norm_num)
    have : L' = L := Except.ok.inj (e'.symm.trans eL)
    rw [← this]
    refine h2.trans (le_of_eq ?_)
    rw [dist_nm, dist_nm, dist_nm]
    norm_num [nm, s]
  -- the numbers
  obtain ⟨st, est, -, -⟩ := steps (p := 24) (by norm_num) s (d := 1 / 2 ^ 26) (K := 6) (n := 0) (by positivity) (by norm_num) (by norm_num)
    k1 k2 k3 k4
  have hd : (1 / ((2 ^ 26 : ℕ) : Fl ℝ (rne 24)) : Fl ℝ (rne 24)) = .num (1 / 2 ^ 26) := by
    rw [Fl.natCast_def, Fl.one_def, Fl.num_div]
    norm_num [v0, v1, v2, v3, v4, v5, v6, v7, v8, v9, v10, v11, v12, v13, v14, v15, v16, v17, v18, v19, v20, v21, v22, v23, v24, v25, v26]
  have eP : st.P = ⟨3, 0, 0⟩ := (num_inj (congrArg BezierSegment3FwdDiff.P est)).symm
  have key : ∀ {δ : Fl ℝ (rne 24)} {q₁ q₂ q₃ q₄ : Vec3 (Fl ℝ (rne 24))}, δ = .num (1 / 2 ^ 26) → q₁ = Vec3.num ⟨3, 0, 0⟩ → q₂ = Vec3.num ⟨4, 0, 0⟩ →
      q₃ = Vec3.num ⟨5, 0, 0⟩ → q₄ = Vec3.num ⟨6, 0, 0⟩ →
      (q₄ - q₁) * (δ * δ * δ) + (q₃ - q₂) * ((δ * δ - δ * δ * δ) * 3) + (q₂ - q₁) * ((δ - δ * δ) * 3) = Vec3.num ⟨3 / 2 ^ 26, 0, 0⟩ ∧
      (q₄ - q₁) * (δ * δ * δ * 6) + (q₃ - q₂) * ((δ * δ - δ * δ * δ * 3) * 6) + (q₂ - q₁) * (-(δ * δ) * 6) = Vec3.num ⟨0, 0, 0⟩ ∧
      (q₄ - q₁) * (δ * δ * δ * 6) + (q₃ - q₂) * (-(δ * δ * δ) * 18) = Vec3.num ⟨0, 0, 0⟩ := by
    rintro _ _ _ _ _ rfl rfl rfl rfl rfl
    refine ⟨Vec3.ext ?_ ?_ ?_, Vec3.ext ?_ ?_ ?_, Vec3.ext ?_ ?_ ?_⟩
    all_goals
      simp only [Vec3.num, Vec3.add_x, Vec3.add_y, Vec3.add_z, Vec3.sub_x, Vec3.sub_y, Vec3.sub_z, Vec3.mul_x, Vec3.mul_y,
        Vec3.mul_z, l3, l6, l18, Fl.num_add, Fl.num_mul, Fl.num_sub, Fl.num_neg]
      norm_num [v0, v1, v2, v3, v4, v5, v6, v7, v8, v9, v10, v11, v12, v13, v14, v15, v16, v17, v18, v19, v20, v21, v22, v23, v24, v25, v26]
  obtain ⟨c1, c2, c3⟩ := key rfl rfl rfl rfl rfl
  have edP : st.dP = ⟨3 / 2 ^ 26, 0, 0⟩ := num_inj ((congrArg BezierSegment3FwdDiff.dP est).symm.trans c1)
  have ed2P : st.d2P = ⟨0, 0, 0⟩ := num_inj ((congrArg BezierSegment3FwdDiff.d2P est).symm.trans c2)
  have ed3P : st.d3P = ⟨0, 0, 0⟩ := num_inj ((congrArg BezierSegment3FwdDiff.d3P est).symm.trans c3)
  -- one never leaves the first point
  have fix : ∀ k, ((rndStep 24)^[k] st).P = ⟨3, 0, 0⟩ ∧ ((rndStep 24)^[k] st).dP = ⟨3 / 2 ^ 26, 0, 0⟩ ∧
      ((rndStep 24)^[k] st).d2P = ⟨0, 0, 0⟩ := by
    intro k
    induction k with
    | zero => exact ⟨eP, edP, ed2P⟩
    | succ k ih =>
      obtain ⟨i1, i2, i3⟩ := ih
      have i4 : ((rndStep 24)^[k] st).d3P = ⟨0, 0, 0⟩ := by rw [steps_d3P, ed3P]
      rw [Function.iterate_succ_apply']
      simp only [rndStep, rndSum, i1, i2, i3, i4]
      norm_num [v0, v1, v2, v3, v4, v5, v6, v7, v8, v9, v10, v11, v12, v13, v14, v15, v16, v17, v18, v19, v20, v21, v22, v23, v24, v25, v26]
  have s9 : √(9 / 4503599627370496 : ℝ) = 3 / 67108864 := by
    rw [show (9 / 4503599627370496 : ℝ) = (3 / 67108864) ^ 2 by norm_num, Real.sqrt_sq (by norm_num)]
  have s3 : √(9 : ℝ) = 3 := by rw [show (9 : ℝ) = 3 ^ 2 by norm_num, Real.sqrt_sq (by norm_num)]
  have len : ∀ k < 2 ^ 26 - 1, (((rndStep 24)^[k] st).dP.num : Vec3 (Fl ℝ (rne 24))).length = .num ((fun _ => 3 / 2 ^ 26 : ℕ → ℝ) k) := by
    intro k _
    rw [(fix k).2.1]
    have e1 : rne 24 ((3 / 2 ^ 26) * (3 / 2 ^ 26) : ℝ) = 9 / 4503599627370496 := by norm_num [v0, v1, v2, v3, v4, v5, v6, v7, v8, v9, v10, v11, v12, v13, v14, v15, v16, v17, v18, v19, v20, v21, v22, v23, v24, v25, v26]
    have e2 : rne 24 (0 * 0 : ℝ) = 0 := by norm_num [v0, v1, v2, v3, v4, v5, v6, v7, v8, v9, v10, v11, v12, v13, v14, v15, v16, v17, v18, v19, v20, v21, v22, v23, v24, v25, v26]
    have e3 : rne 24 (9 / 4503599627370496 + 0 : ℝ) = 9 / 4503599627370496 := by norm_num [v0, v1, v2, v3, v4, v5, v6, v7, v8, v9, v10, v11, v12, v13, v14, v15, v16, v17, v18, v19, v20, v21, v22, v23, v24, v25, v26]
    simp only [Vec3.length, Vec3.num, Fl.num_mul, Fl.num_add, e1, e2, e3]
    show (if (9 / 4503599627370496 : ℝ) < 0 then Fl.nan else .num (rne 24 (√(9 / 4503599627370496)))) = _
    rw [if_neg (by norm_num), s9]
    norm_num [v0, v1, v2, v3, v4, v5, v6, v7, v8, v9, v10, v11, v12, v13, v14, v15, v16, v17, v18, v19, v20, v21, v22, v23, v24, v25, v26]
  have eq := length_eq s (M := 2 ^ 26) (by norm_num) hd est len
  have elast : ((s.P4.num : Vec3 (Fl ℝ (rne 24))) - ((rndStep 24)^[2 ^ 26 - 1] st).P.num).length = .num 3 := by
    rw [(fix _).1]
    have e1 : rne 24 (6 - 3 : ℝ) = 3 := by norm_num [v0, v1, v2, v3, v4, v5, v6, v7, v8, v9, v10, v11, v12, v13, v14, v15, v16, v17, v18, v19, v20, v21, v22, v23, v24, v25, v26]
    have e2 : rne 24 (0 - 0 : ℝ) = 0 := by norm_num [v0, v1, v2, v3, v4, v5, v6, v7, v8, v9, v10, v11, v12, v13, v14, v15, v16, v17, v18, v19, v20, v21, v22, v23, v24, v25, v26]
    have e3 : rne 24 (3 * 3 : ℝ) = 9 := by norm_num [v0, v1, v2, v3, v4, v5, v6, v7, v8, v9, v10, v11, v12, v13, v14, v15, v16, v17, v18, v19, v20, v21, v22, v23, v24, v25, v26]
    have e4 : rne 24 (0 * 0 : ℝ) = 0 := by norm_num [v0, v1, v2, v3, v4, v5, v6, v7, v8, v9, v10, v11, v12, v13, v14, v15, v16, v17, v18, v19, v20, v21, v22, v23, v24, v25, v26]
    have e5 : rne 24 (9 + 0 : ℝ) = 9 := by norm_num [v0, v1, v2, v3, v4, v5, v6, v7, v8, v9, v10, v11, v12, v13, v14, v15, v16, v17, v18, v19, v20, v21, v22, v23, v24, v25, v26]
    simp only [Vec3.length, Vec3.num, s, Vec3.sub_x, Vec3.sub_y, Vec3.sub_z, Fl.num_sub, Fl.num_mul, Fl.num_add, e1, e2, e3, e4, e5]
    show (if (9 : ℝ) < 0 then Fl.nan else .num (rne 24 (√9))) = _
    rw [if_neg (by norm_num), s3]
    norm_num [v0, v1, v2, v3, v4, v5, v6, v7, v8, v9, v10, v11, v12, v13, v14, v15, v16, v17, v18, v19, v20, v21, v22, v23, v24, v25, v26]
  rw [elast, Fl.num_add] at eq
  have hwe : w = rne 24 (acc 24 (fun _ => 3 / 2 ^ 26) (2 ^ 26 - 1) + 3) := Fl.num.inj (Except.ok.inj (ew.symm.trans eq))
  have q4 : rne 24 (1 / 4 : ℝ) = 1 / 4 := by norm_num [v0, v1, v2, v3, v4, v5, v6, v7, v8, v9, v10, v11, v12, v13, v14, v15, v16, v17, v18, v19, v20, v21, v22, v23, v24, v25, v26]
  have hacc := acc_ge (ℓ := fun _ => 3 / 2 ^ 26) (fun _ => rfl) q4 (2 ^ 26 - 1)
  rw [min_eq_left (by norm_num)] at hacc
  have hw2 : 13 / 4 ≤ w := by
    have q : rne 24 (13 / 4 : ℝ) = 13 / 4 := by norm_num [v0, v1, v2, v3, v4, v5, v6, v7, v8, v9, v10, v11, v12, v13, v14, v15, v16, v17, v18, v19, v20, v21, v22, v23, v24, v25, v26]
    rw [hwe, ← q]
    exact rne_mono 24 (by norm_num) (by linarith)
  have := (abs_le.1 hw).2
  linarith

/-- a concrete case: ten steps in `float` -/
example : 16 * 10 ≤ 2 ^ 24 ∧ (⟨1, -2, 3⟩ : Vec3 ℝ).BoundedBy 3 := by norm_num [Vec3.BoundedBy]

end MathLib
