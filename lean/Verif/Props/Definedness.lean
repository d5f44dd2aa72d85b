import Verif.Spec.Finite
import Verif.Proof.Rne
import Mathlib.Tactic.NormNum
import Mathlib.Analysis.Real.Pi.Bounds

/-! # Property C104: finite inputs give finite results -/

namespace MathLib

variable {rnd : ℝ → ℝ}

/-! ## The rounding functions in question -/

theorem isAccurate_id : IsAccurate id := by
  refine ⟨⟨monotone_id, rfl⟩, ?_, ?_, ?_, ?_⟩ <;> simp

theorem isAccurate_rne (p : ℕ) (hp : 3 ≤ p) : IsAccurate (rne p) := by
  have hp1 : 1 ≤ p := by omega
  refine ⟨⟨rne_mono p hp1, rne_zero p⟩, rne_neg p, rne_pos p hp1, fun n hn => ?_, ?_⟩
  · refine rne_of_rep hp1 (Rep.nat n (hn.trans ?_))
    calc 8 = 2 ^ 3 := by norm_num
      _ ≤ 2 ^ p := Nat.pow_le_pow_right (by norm_num) hp
  · have := rne_of_rep hp1 (Rep.zpow (K := ℝ) (p := p) (-1))
    simpa using this

/-! ## Closure of finiteness -/

namespace Fl

@[simp] theorem fin_num (a : ℝ) : (num a : Fl ℝ rnd).Fin := ⟨a, rfl⟩
@[simp] theorem fin_zero : (0 : Fl ℝ rnd).Fin := ⟨0, rfl⟩
@[simp] theorem fin_one : (1 : Fl ℝ rnd).Fin := ⟨1, rfl⟩
@[simp] theorem fin_ofNat (n : ℕ) [n.AtLeastTwo] : (no_index (OfNat.ofNat n) : Fl ℝ rnd).Fin := ⟨_, rfl⟩
@[simp] theorem not_fin_nan : ¬ (nan : Fl ℝ rnd).Fin := by rintro ⟨v, h⟩; cases h
@[simp] theorem fin_add (a b : Fl ℝ rnd) : (a + b).Fin ↔ a.Fin ∧ b.Fin := by
  cases a <;> cases b <;>
    simp only [num_add, fin_num, not_fin_nan, true_and, and_true, and_false, false_and, iff_false] <;>
    exact not_fin_nan
@[simp] theorem fin_sub (a b : Fl ℝ rnd) : (a - b).Fin ↔ a.Fin ∧ b.Fin := by
  cases a <;> cases b <;>
    simp only [num_sub, fin_num, not_fin_nan, true_and, and_true, and_false, false_and, iff_false] <;>
    exact not_fin_nan
@[simp] theorem fin_mul (a b : Fl ℝ rnd) : (a * b).Fin ↔ a.Fin ∧ b.Fin := by
  cases a <;> cases b <;>
    simp only [num_mul, fin_num, not_fin_nan, true_and, and_true, and_false, false_and, iff_false] <;>
    exact not_fin_nan
@[simp] theorem fin_neg (a : Fl ℝ rnd) : (-a).Fin ↔ a.Fin := by
  cases a
  · exact iff_of_false not_fin_nan not_fin_nan
  · simp
@[simp] theorem fin_div (a b : Fl ℝ rnd) : (a / b).Fin ↔ a.Fin ∧ b.Fin ∧ (b == 0) = false := by
  cases a <;> cases b <;> simp only [num_div, fin_num, not_fin_nan, true_and, and_true, and_false,
    false_and, iff_false, zero_def, num_beq]
  any_goals exact not_fin_nan
  split_ifs with h <;> simp [h]
@[simp] theorem fin_sqrt (a : Fl ℝ rnd) : (MathFns.sqrt a).Fin ↔ a.Fin ∧ ¬ a < 0 := by
  cases a
  · exact iff_of_false not_fin_nan (fun h => not_fin_nan h.1)
  · simp only [fl_sqrt, zero_def, num_lt, fin_num, true_and]
    split_ifs with h <;> simp [h]
@[simp] theorem fin_sin (a : Fl ℝ rnd) : (MathFns.sin a).Fin ↔ a.Fin := by
  cases a
  · exact iff_of_false not_fin_nan not_fin_nan
  · simp
@[simp] theorem fin_cos (a : Fl ℝ rnd) : (MathFns.cos a).Fin ↔ a.Fin := by
  cases a
  · exact iff_of_false not_fin_nan not_fin_nan
  · simp
@[simp] theorem fin_pi : (MathFns.pi : Fl ℝ rnd).Fin := ⟨_, rfl⟩

theorem Fin.ite {c : Prop} [Decidable c] {a b : Fl ℝ rnd} (ha : a.Fin) (hb : b.Fin) :
    (if c then a else b).Fin := by split_ifs <;> assumption

/-- the clamped value is in `[-1,1]` -/
theorem clamp_num (s : ℝ) : ∃ v, -1 ≤ v ∧ v ≤ 1 ∧ (s ≤ 1 → -1 ≤ s → v = s) ∧
    asin' (num s : Fl ℝ rnd) = num (rnd (Real.arcsin v)) ∧
    acos' (num s : Fl ℝ rnd) = num (rnd (Real.arccos v)) := by
  have h1 : (1 : Fl ℝ rnd) = .num 1 := rfl
  have hm1 : (-1 : Fl ℝ rnd) = .num (-1) := rfl
  have e2 : ¬ ((-1 : ℝ) < -1 ∨ (1 : ℝ) < -1) := by norm_num
  have e3 : ¬ ((1 : ℝ) < -1) := by norm_num
  by_cases c1 : 1 < s
  · refine ⟨1, by norm_num, le_rfl, fun h => absurd c1 (not_lt.2 h), ?_, ?_⟩
    · simp only [asin', h1, gt_iff_lt, num_lt, c1, if_true, num_neg, e3, if_false, fl_asin, lt_irrefl, or_self]
    · simp only [acos', h1, gt_iff_lt, num_lt, c1, if_true, num_neg, e3, if_false, fl_acos, lt_irrefl, or_self]
  · by_cases c2 : s < -1
    · refine ⟨-1, le_rfl, by norm_num, fun _ h => absurd c2 (not_lt.2 h), ?_, ?_⟩
      · simp only [asin', h1, gt_iff_lt, num_lt, c1, if_false, num_neg, c2, if_true, fl_asin, e2]
      · simp only [acos', h1, gt_iff_lt, num_lt, c1, if_false, num_neg, c2, if_true, fl_acos, e2]
    · refine ⟨s, not_lt.1 c2, not_lt.1 c1, fun _ _ => rfl, ?_, ?_⟩
      · simp only [asin', h1, gt_iff_lt, num_lt, c1, if_false, num_neg, c2, fl_asin, or_self]
      · simp only [acos', h1, gt_iff_lt, num_lt, c1, if_false, num_neg, c2, fl_acos, or_self]

theorem fin_asin' {a : Fl ℝ rnd} (h : a.Fin) : (asin' a).Fin := by
  obtain ⟨s, rfl⟩ := h
  obtain ⟨v, -, -, -, e, -⟩ := clamp_num (rnd := rnd) s
  exact ⟨_, e⟩

theorem fin_acos' {a : Fl ℝ rnd} (h : a.Fin) : (acos' a).Fin := by
  obtain ⟨s, rfl⟩ := h
  obtain ⟨v, -, -, -, -, e⟩ := clamp_num (rnd := rnd) s
  exact ⟨_, e⟩

/-- a finite number that is not negative -/
def Nonneg (a : Fl ℝ rnd) : Prop := ∃ v, 0 ≤ v ∧ a = num v

theorem Nonneg.fin {a : Fl ℝ rnd} (h : a.Nonneg) : a.Fin := by obtain ⟨v, -, e⟩ := h; exact ⟨v, e⟩
theorem Nonneg.not_neg {a : Fl ℝ rnd} (h : a.Nonneg) : ¬ a < 0 := by
  obtain ⟨v, hv, rfl⟩ := h; rw [zero_def, num_lt]; exact not_lt.2 hv
theorem IsRounding.nonneg (hr : IsRounding rnd) {x : ℝ} (h : 0 ≤ x) : 0 ≤ rnd x := by
  have := hr.mono h; rwa [hr.zero] at this
theorem Nonneg.add (hr : IsRounding rnd) {a b : Fl ℝ rnd} (ha : a.Nonneg) (hb : b.Nonneg) :
    (a + b).Nonneg := by
  obtain ⟨v, hv, rfl⟩ := ha; obtain ⟨w, hw, rfl⟩ := hb
  exact ⟨_, IsRounding.nonneg hr (add_nonneg hv hw), rfl⟩
theorem nonneg_sq (hr : IsRounding rnd) {a : Fl ℝ rnd} (ha : a.Fin) : (a * a).Nonneg := by
  obtain ⟨v, rfl⟩ := ha
  exact ⟨_, IsRounding.nonneg hr (mul_self_nonneg v), rfl⟩
theorem Nonneg.sqrt (hr : IsRounding rnd) {a : Fl ℝ rnd} (ha : a.Nonneg) : (MathFns.sqrt a).Nonneg := by
  obtain ⟨v, hv, rfl⟩ := ha
  refine ⟨rnd (√v), IsRounding.nonneg hr (Real.sqrt_nonneg v), ?_⟩
  rw [fl_sqrt, if_neg (not_lt.2 hv)]

end Fl

open Fl

/-! ## Normalisation, lengths and distances -/

theorem Vec2.length_nonneg (hr : IsRounding rnd) (v : Vec2 (Fl ℝ rnd)) (h : v.Fin) : v.length.Nonneg :=
  ((nonneg_sq hr h.1).add hr (nonneg_sq hr h.2)).sqrt hr

theorem Vec3.length_nonneg (hr : IsRounding rnd) (v : Vec3 (Fl ℝ rnd)) (h : v.Fin) : v.length.Nonneg :=
  (((nonneg_sq hr h.1).add hr (nonneg_sq hr h.2.1)).add hr (nonneg_sq hr h.2.2)).sqrt hr

theorem Vec4.length_nonneg (hr : IsRounding rnd) (v : Vec4 (Fl ℝ rnd)) (h : v.Fin) : v.length.Nonneg :=
  ((((nonneg_sq hr h.1).add hr (nonneg_sq hr h.2.1)).add hr (nonneg_sq hr h.2.2.1)).add hr
    (nonneg_sq hr h.2.2.2)).sqrt hr

/-- Lengths, distances between points and both normalisations, in 2 and 3 dimensions, and of
quaternions: finite for finite arguments, whatever the rounding. -/
theorem C104_normalize (hr : IsRounding rnd) (u : Vec2 (Fl ℝ rnd)) (v : Vec3 (Fl ℝ rnd))
    (w : Vec4 (Fl ℝ rnd)) (q : Quat (Fl ℝ rnd)) (k : Fl ℝ rnd) (hu : u.Fin) (hv : v.Fin) (hw : w.Fin)
    (hq : q.Fin) (hk : k.Fin) :
    u.length.Fin ∧ (u.normalize k).1.Fin ∧ (u.normalize k).2.Fin ∧ (u.normalized k).Fin ∧
    v.length.Fin ∧ (v.normalize k).1.Fin ∧ (v.normalize k).2.Fin ∧ (v.normalized k).Fin ∧
    w.length.Fin ∧ q.normalize.Fin ∧
    (∀ u' : Vec2 (Fl ℝ rnd), u'.Fin → (distance2 u u').Fin) ∧
    (∀ v' : Vec3 (Fl ℝ rnd), v'.Fin → (distance3 v v').Fin) := by
  have h2 := (Vec2.length_nonneg hr u hu).fin
  have h3 := (Vec3.length_nonneg hr v hv).fin
  have h4 := (Vec4.length_nonneg hr w hw).fin
  have hq' : (MathFns.sqrt (q.x * q.x + q.y * q.y + q.z * q.z + q.w * q.w)).Fin :=
    (Vec4.length_nonneg hr ⟨q.x, q.y, q.z, q.w⟩ hq).fin
  refine ⟨h2, ?_, ?_, ?_, h3, ?_, ?_, ?_, h4, ?_, fun u' hu' => ?_, fun v' hv' => ?_⟩
  · unfold Vec2.normalize
    simp only
    split_ifs with h
    · simp [Vec2.Fin]
    · simp only [Bool.not_eq_true] at h
      simp [Vec2.Fin, hu.1, hu.2, hk, h2, h]
  · unfold Vec2.normalize
    simp only
    split_ifs with h <;> exact h2
  · unfold Vec2.normalized
    simp only
    split_ifs with h
    · simp [Vec2.Fin]
    · simp only [Bool.not_eq_true] at h
      simp [Vec2.Fin, hu.1, hu.2, hk, h2, h]
  · unfold Vec3.normalize
    simp only
    split_ifs with h
    · simp [Vec3.Fin]
    · simp only [Bool.not_eq_true] at h
      simp [Vec3.Fin, hv.1, hv.2.1, hv.2.2, hk, h3, h]
  · unfold Vec3.normalize
    simp only
    split_ifs with h <;> exact h3
  · unfold Vec3.normalized
    simp only
    split_ifs with h
    · simp [Vec3.Fin, Vec3.zero]
    · simp only [Bool.not_eq_true] at h
      simp [Vec3.Fin, hv.1, hv.2.1, hv.2.2, hk, h3, h]
  · unfold Quat.normalize
    simp only
    split_ifs with h
    · simp [Quat.Fin, Quat.identity]
    · simp only [Bool.not_eq_true] at h
      simp only [Quat.Fin, fin_mul, fin_div, fin_one, hq.1, hq.2.1, hq.2.2.1, hq.2.2.2, hq', h, and_self]
  · exact (Vec2.length_nonneg hr ⟨u'.x - u.x, u'.y - u.y⟩
      ⟨by simp [hu.1, hu'.1], by simp [hu.2, hu'.2]⟩).fin
  · exact (Vec3.length_nonneg hr ⟨v'.x - v.x, v'.y - v.y, v'.z - v.z⟩
      ⟨by simp [hv.1, hv'.1], by simp [hv.2.1, hv'.2.1], by simp [hv.2.2, hv'.2.2]⟩).fin

theorem fin_abs' {a : Fl ℝ rnd} (h : a.Fin) : (abs' a).Fin := by
  unfold abs'; exact Fin.ite (by simpa using h) h

theorem Vec3.fin_sub {a b : Vec3 (Fl ℝ rnd)} (ha : a.Fin) (hb : b.Fin) : (a - b).Fin :=
  ⟨(Fl.fin_sub _ _).2 ⟨ha.1, hb.1⟩, (Fl.fin_sub _ _).2 ⟨ha.2.1, hb.2.1⟩,
    (Fl.fin_sub _ _).2 ⟨ha.2.2, hb.2.2⟩⟩

theorem Vec2.fin_sub {a b : Vec2 (Fl ℝ rnd)} (ha : a.Fin) (hb : b.Fin) : (a - b).Fin :=
  ⟨(Fl.fin_sub _ _).2 ⟨ha.1, hb.1⟩, (Fl.fin_sub _ _).2 ⟨ha.2, hb.2⟩⟩

theorem Vec3.fin_cross {a b : Vec3 (Fl ℝ rnd)} (ha : a.Fin) (hb : b.Fin) : (a.cross b).Fin := by
  obtain ⟨a1, a2, a3⟩ := ha; obtain ⟨b1, b2, b3⟩ := hb
  simp [Vec3.Fin, Vec3.cross, a1, a2, a3, b1, b2, b3]

theorem Vec3.fin_dot {a b : Vec3 (Fl ℝ rnd)} (ha : a.Fin) (hb : b.Fin) : (a.dot b).Fin := by
  obtain ⟨a1, a2, a3⟩ := ha; obtain ⟨b1, b2, b3⟩ := hb
  simp [Vec3.dot, a1, a2, a3, b1, b2, b3]

theorem Vec2.fin_normalize (hr : IsRounding rnd) {v : Vec2 (Fl ℝ rnd)} (h : v.Fin) :
    (v.normalize 1).1.Fin ∧ (v.normalized 1).Fin := by
  obtain ⟨-, h1, -, h2, -⟩ := C104_normalize hr v ⟨0, 0, 0⟩ ⟨0, 0, 0, 0⟩ ⟨0, 0, 0, 0⟩ 1 h
    (by simp [Vec3.Fin]) (by simp [Vec4.Fin]) (by simp [Quat.Fin]) (by simp)
  exact ⟨h1, h2⟩

theorem Vec3.fin_normalize (hr : IsRounding rnd) {v : Vec3 (Fl ℝ rnd)} (h : v.Fin) {k : Fl ℝ rnd}
    (hk : k.Fin) : (v.normalize k).1.Fin ∧ (v.normalized k).Fin := by
  obtain ⟨-, -, -, -, -, h1, -, h2, -⟩ := C104_normalize hr ⟨0, 0⟩ v ⟨0, 0, 0, 0⟩ ⟨0, 0, 0, 0⟩ k
    (by simp [Vec2.Fin]) h (by simp [Vec4.Fin]) (by simp [Quat.Fin]) hk
  exact ⟨h1, h2⟩

theorem Quat.fin_normalize (hr : IsRounding rnd) {q : Quat (Fl ℝ rnd)} (h : q.Fin) : q.normalize.Fin := by
  obtain ⟨-, -, -, -, -, -, -, -, -, h1, -⟩ := C104_normalize hr ⟨0, 0⟩ ⟨0, 0, 0⟩ ⟨0, 0, 0, 0⟩ q 1
    (by simp [Vec2.Fin]) (by simp [Vec3.Fin]) (by simp [Vec4.Fin]) h (by simp)
  exact h1

theorem fin_distance2 (hr : IsRounding rnd) {a b : Vec2 (Fl ℝ rnd)} (ha : a.Fin) (hb : b.Fin) :
    (distance2 a b).Fin := by
  obtain ⟨-, -, -, -, -, -, -, -, -, -, h1, -⟩ := C104_normalize hr a ⟨0, 0, 0⟩ ⟨0, 0, 0, 0⟩
    ⟨0, 0, 0, 0⟩ 1 ha (by simp [Vec3.Fin]) (by simp [Vec4.Fin]) (by simp [Quat.Fin]) (by simp)
  exact h1 b hb

theorem fin_distance3 (hr : IsRounding rnd) {a b : Vec3 (Fl ℝ rnd)} (ha : a.Fin) (hb : b.Fin) :
    (distance3 a b).Fin := by
  obtain ⟨-, -, -, -, -, -, -, -, -, -, -, h1⟩ := C104_normalize hr ⟨0, 0⟩ a ⟨0, 0, 0, 0⟩
    ⟨0, 0, 0, 0⟩ 1 (by simp [Vec2.Fin]) ha (by simp [Vec4.Fin]) (by simp [Quat.Fin]) (by simp)
  exact h1 b hb

/-- Distances to lines and rays, degenerate ones included, and the construction of rays. -/
theorem C104_distance (hr : IsRounding rnd) (a b p : Vec2 (Fl ℝ rnd)) (a' b' p' : Vec3 (Fl ℝ rnd))
    (ha : a.Fin) (hb : b.Fin) (hp : p.Fin) (ha' : a'.Fin) (hb' : b'.Fin) (hp' : p'.Fin) :
    ((⟨a, b⟩ : Line2 (Fl ℝ rnd)).distance p).Fin ∧ ((⟨a, b⟩ : Ray2 (Fl ℝ rnd)).distance p).Fin ∧
    ((⟨a', b'⟩ : Line3 (Fl ℝ rnd)).distance p').Fin ∧ ((⟨a', b'⟩ : Ray3 (Fl ℝ rnd)).distance p').Fin ∧
    (Ray2.from a b).direction.Fin ∧ (Ray3.from a' b').direction.Fin := by
  have key : ∀ d : Vec3 (Fl ℝ rnd), d.Fin →
      (if ((d.cross ((p' - a').cross d)).normalize 1).2 == 0 then distance3 a' p'
        else abs' (((d.cross ((p' - a').cross d)).normalize 1).1.dot (p' - a'))).Fin := by
    intro d hd
    have h1 := Vec3.fin_sub hp' ha'
    have h2 := Vec3.fin_normalize hr (Vec3.fin_cross hd (Vec3.fin_cross h1 hd)) fin_one
    exact Fin.ite (fin_distance3 hr ha' hp') (fin_abs' (Vec3.fin_dot h2.1 h1))
  refine ⟨?_, ?_, key _ (Vec3.fin_sub hb' ha'), key _ hb', (Vec2.fin_normalize hr hb).2,
    (Vec3.fin_normalize hr hb' fin_one).2⟩
  · unfold Line2.distance
    have h := (Vec2.fin_normalize hr (Vec2.fin_sub hb ha)).1
    change (if ((b - a).normalize 1).2 == 0 then distance2 a p else
      abs' (-((b - a).normalize 1).1.y * (p.x - a.x) + ((b - a).normalize 1).1.x * (p.y - a.y))).Fin
    refine Fin.ite (fin_distance2 hr ha hp) (fin_abs' ?_)
    simp only [Fl.fin_add, Fl.fin_mul, Fl.fin_sub, Fl.fin_neg, h.1, h.2, hp.1, hp.2, ha.1, ha.2, and_self]
  · refine fin_abs' ?_
    simp [hb.1, hb.2, hp.1, hp.2, ha.1, ha.2]

/-! ## Inverses -/

theorem res_fin_div3 {v : Vec3 (Fl ℝ rnd)} {k : Fl ℝ rnd} (hv : v.Fin) (hk : k.Fin)
    (h : (k == 0) = false) : ∃ r, v.div k = .ok r ∧ r.Fin := by
  refine ⟨⟨v.x / k, v.y / k, v.z / k⟩, by simp [Vec3.div, h], ?_⟩
  simp [Vec3.Fin, hv.1, hv.2.1, hv.2.2, hk, h]

theorem res_fin_div2 {v : Vec2 (Fl ℝ rnd)} {k : Fl ℝ rnd} (hv : v.Fin) (hk : k.Fin)
    (h : (k == 0) = false) : ∃ r, v.div k = .ok r ∧ r.Fin := by
  refine ⟨⟨v.x / k, v.y / k⟩, by simp [Vec2.div, h], ?_⟩
  simp [Vec2.Fin, hv.1, hv.2, hk, h]

theorem Mat2.fin_sdiv {m : Mat2 (Fl ℝ rnd)} {k : Fl ℝ rnd} (hm : m.Fin) (hk : k.Fin) :
    ∃ r, m.sdiv k = .ok r ∧ r.Fin := by
  unfold Mat2.sdiv
  by_cases h : (k == 0) = true
  · exact ⟨_, if_pos h, by simp [Mat2.Fin, Vec2.Fin, Mat2.zero, Mat2.ofScalar]⟩
  · rw [if_neg h]
    rw [Bool.not_eq_true] at h
    by_cases h1 : (k == 1) = true
    · exact ⟨_, if_pos h1, hm⟩
    · rw [if_neg h1]
      obtain ⟨x, ex, hx⟩ := res_fin_div2 hm.1 hk h
      obtain ⟨y, ey, hy⟩ := res_fin_div2 hm.2 hk h
      rw [ex, ey]
      exact ⟨_, rfl, hx, hy⟩

theorem Mat3.fin_zero : (Mat3.zero : Mat3 (Fl ℝ rnd)).Fin := by
  simp [Mat3.Fin, Vec3.Fin, Mat3.zero, Mat3.ofScalar]

theorem Mat3.fin_sdiv {m : Mat3 (Fl ℝ rnd)} {k : Fl ℝ rnd} (hm : m.Fin) (hk : k.Fin) :
    ∃ r, m.sdiv k = .ok r ∧ r.Fin := by
  unfold Mat3.sdiv
  by_cases h : (k == 0) = true
  · exact ⟨_, if_pos h, Mat3.fin_zero⟩
  · rw [if_neg h]
    rw [Bool.not_eq_true] at h
    by_cases h1 : (k == 1) = true
    · exact ⟨_, if_pos h1, hm⟩
    · rw [if_neg h1]
      obtain ⟨x, ex, hx⟩ := res_fin_div3 hm.1 hk h
      obtain ⟨y, ey, hy⟩ := res_fin_div3 hm.2.1 hk h
      obtain ⟨z, ez, hz⟩ := res_fin_div3 hm.2.2 hk h
      rw [ex, ey, ez]
      exact ⟨_, rfl, hx, hy, hz⟩

theorem Mat4.fin_zero : (Mat4.zero : Mat4 (Fl ℝ rnd)).Fin := by
  simp [Mat4.Fin, Vec4.Fin, Mat4.zero, Mat4.ofCols, Mat4.optimize, Mat4.optimizeTol]

theorem Mat4.fin_adj {m : Mat4 (Fl ℝ rnd)} (hm : m.Fin) : m.adj.Fin ∧ (m.adjDet m.adj).Fin := by
  obtain ⟨⟨a1, a2, a3, a4⟩, ⟨b1, b2, b3, b4⟩, ⟨c1, c2, c3, c4⟩, ⟨d1, d2, d3, d4⟩⟩ := hm
  have h : m.adj.Fin := by
    simp only [Mat4.adj, Mat4.Fin, Vec4.Fin, Fl.fin_add, Fl.fin_sub, Fl.fin_mul, Fl.fin_neg, a1, a2, a3,
      a4, b1, b2, b3, b4, c1, c2, c3, c4, d1, d2, d3, d4, and_self]
  refine ⟨h, ?_⟩
  simp only [Mat4.adjDet, Fl.fin_add, Fl.fin_mul, a1, a2, a3, a4, h.1.1, h.2.1.1, h.2.2.1.1, h.2.2.2.1,
    and_self]

/-- Every inverse is defined for every finite matrix, singular ones included: no assertion fires and
nothing is divided by zero. -/
theorem C104_inverse (m2 : Mat2 (Fl ℝ rnd)) (m3 : Mat3 (Fl ℝ rnd)) (m34 : Mat34 (Fl ℝ rnd))
    (m4 : Mat4 (Fl ℝ rnd)) (h2 : m2.Fin) (h3 : m3.Fin) (h34 : m34.Fin) (h4 : m4.Fin) :
    (∃ r, m2.inversed = .ok r ∧ r.Fin) ∧ (∃ r, m3.inversed = .ok r ∧ r.Fin) ∧
    (∃ r, m3.invert = .ok r ∧ r.Fin) ∧ (∃ r, m34.invert = .ok r ∧ r.Fin) ∧
    m4.invert.Fin ∧ (∃ r, m4.inversed = .ok r ∧ r.Fin) := by
  have i3 : ∀ m3 : Mat3 (Fl ℝ rnd), m3.Fin →
      ∃ r, (if m3.determinant == 0 then .ok Mat3.zero else m3.adjoint.sdiv m3.determinant) = .ok r ∧
        r.Fin := by
    intro m3 h3
    obtain ⟨⟨a1, a2, a3⟩, ⟨b1, b2, b3⟩, ⟨c1, c2, c3⟩⟩ := h3
    split_ifs with h
    · exact ⟨_, rfl, Mat3.fin_zero⟩
    · refine Mat3.fin_sdiv ?_ ?_
      · simp [Mat3.adjoint, Mat3.ofCols, Mat3.optimize, Mat3.optimizeTol, Mat3.Fin, Vec3.Fin, a1, a2, a3,
          b1, b2, b3, c1, c2, c3]
      · simp [Mat3.determinant, a1, a2, a3, b1, b2, b3, c1, c2, c3]
  have tr : ∀ m3 : Mat3 (Fl ℝ rnd), m3.Fin → m3.transpose.Fin := by
    intro m3 h3
    obtain ⟨⟨a1, a2, a3⟩, ⟨b1, b2, b3⟩, ⟨c1, c2, c3⟩⟩ := h3
    exact ⟨⟨a1, b1, c1⟩, ⟨a2, b2, c2⟩, ⟨a3, b3, c3⟩⟩
  have j3 : ∀ m3 : Mat3 (Fl ℝ rnd), m3.Fin → ∃ r, m3.invert = .ok r ∧ r.Fin := by
    intro m3 h3
    unfold Mat3.invert
    split_ifs with h
    · exact ⟨_, rfl, tr m3 h3⟩
    · exact i3 m3 h3
  refine ⟨?_, i3 m3 h3, j3 m3 h3, ?_, ?_, ?_⟩
  · obtain ⟨⟨a1, a2⟩, ⟨b1, b2⟩⟩ := h2
    unfold Mat2.inversed
    simp only
    split_ifs with h
    · exact ⟨_, rfl, by simp [Mat2.Fin, Vec2.Fin, Mat2.zero, Mat2.ofScalar]⟩
    · refine Mat2.fin_sdiv ?_ ?_
      · simp [Mat2.adjoint, Mat2.ofCols, Mat2.optimize, Mat2.optimizeTol, Mat2.Fin, Vec2.Fin, a1, a2,
          b1, b2]
      · simp [Mat2.determinant, a1, a2, b1, b2]
  · obtain ⟨hrs, t1, t2, t3⟩ := h34
    unfold Mat34.invert
    split_ifs with h h'
    · exact ⟨_, rfl, hrs, t1, t2, t3⟩
    · refine ⟨_, rfl, tr _ hrs, ?_⟩
      obtain ⟨⟨a1, a2, a3⟩, ⟨b1, b2, b3⟩, ⟨c1, c2, c3⟩⟩ := hrs
      have n1 : (-m34.t).x.Fin := (fin_neg _).2 t1
      have n2 : (-m34.t).y.Fin := (fin_neg _).2 t2
      have n3 : (-m34.t).z.Fin := (fin_neg _).2 t3
      simp [Mat3.vecMul, Vec3.Fin, a1, a2, a3, b1, b2, b3, c1, c2, c3, n1, n2, n3]
    · obtain ⟨r, er, hr⟩ := j3 _ hrs
      rw [er]
      refine ⟨_, rfl, hr, ?_⟩
      obtain ⟨⟨a1, a2, a3⟩, ⟨b1, b2, b3⟩, ⟨c1, c2, c3⟩⟩ := hr
      refine ⟨(fin_neg _).2 ?_, (fin_neg _).2 ?_, (fin_neg _).2 ?_⟩ <;>
        simp [Mat3.mulVec, a1, a2, a3, b1, b2, b3, c1, c2, c3, t1, t2, t3]
  · unfold Mat4.invert
    split_ifs with h
    · obtain ⟨⟨a1, a2, a3, a4⟩, ⟨b1, b2, b3, b4⟩, ⟨c1, c2, c3, c4⟩, ⟨d1, d2, d3, d4⟩⟩ := h4
      simp [Mat4.Fin, Vec4.Fin, a1, a2, a3, a4, b1, b2, b3, b4, c1, c2, c3, c4, d1, d2, d3, d4]
    · obtain ⟨ha, hd⟩ := Mat4.fin_adj h4
      simp only
      split_ifs with h0
      · exact Mat4.fin_zero
      · unfold Mat4.sdiv
        rw [if_neg h0]
        split_ifs with h1
        · exact ha
        · rw [Bool.not_eq_true] at h0
          have hi : (1 / m4.adjDet m4.adj : Fl ℝ rnd).Fin := by simp [hd, h0]
          obtain ⟨⟨a1, a2, a3, a4⟩, ⟨b1, b2, b3, b4⟩, ⟨c1, c2, c3, c4⟩, ⟨d1, d2, d3, d4⟩⟩ := ha
          refine ⟨⟨?_, ?_, ?_, ?_⟩, ⟨?_, ?_, ?_, ?_⟩, ⟨?_, ?_, ?_, ?_⟩, ⟨?_, ?_, ?_, ?_⟩⟩ <;>
            exact (Fl.fin_mul _ _).2 ⟨by assumption, hi⟩
  · unfold Mat4.inversed
    split_ifs with h
    · obtain ⟨⟨a1, a2, a3, a4⟩, ⟨b1, b2, b3, b4⟩, ⟨c1, c2, c3, c4⟩, ⟨d1, d2, d3, d4⟩⟩ := h4
      refine ⟨_, rfl, ?_⟩
      simp [Mat4.Fin, Vec4.Fin, a1, a2, a3, b1, b2, b3, c1, c2, c3, d1, d2, d3]
    · obtain ⟨ha, hd⟩ := Mat4.fin_adj h4
      simp only
      split_ifs with h0
      · exact ⟨_, rfl, Mat4.fin_zero⟩
      · unfold Mat4.sdivAssign
        rw [if_neg h0]
        split_ifs with h1
        · exact ⟨_, rfl, ha⟩
        · rw [Bool.not_eq_true] at h0
          have hi : (1 / m4.adjDet m4.adj : Fl ℝ rnd).Fin := by simp [hd, h0]
          obtain ⟨⟨a1, a2, a3, a4⟩, ⟨b1, b2, b3, b4⟩, ⟨c1, c2, c3, c4⟩, ⟨d1, d2, d3, d4⟩⟩ := ha
          refine ⟨_, rfl, ?_⟩
          refine ⟨⟨?_, ?_, ?_, ?_⟩, ⟨?_, ?_, ?_, ?_⟩, ⟨?_, ?_, ?_, ?_⟩, ⟨?_, ?_, ?_, ?_⟩⟩ <;>
            exact (Fl.fin_mul _ _).2 ⟨by assumption, hi⟩

/-! ## Quaternion construction and interpolation -/

namespace IsAccurate
variable (hr : IsAccurate rnd)
include hr

theorem ne_zero {x : ℝ} (h : x ≠ 0) : rnd x ≠ 0 := by
  rcases lt_or_gt_of_ne h with h | h
  · have := hr.pos (-x) (by linarith)
    rw [hr.odd] at this
    linarith
  · exact (hr.pos x h).ne'

theorem one : rnd 1 = 1 := by have := hr.small 1 (by norm_num); simpa using this
theorem two : rnd 2 = 2 := by have := hr.small 2 (by norm_num); simpa using this
theorem four : rnd 4 = 4 := by have := hr.small 4 (by norm_num); simpa using this

theorem half_lit : (1 / 2 : Fl ℝ rnd) = .num (1 / 2) := by
  have e1 : (1 : Fl ℝ rnd) = .num 1 := rfl
  have e2 : (2 : Fl ℝ rnd) = .num (rnd (2 : ℕ)) := rfl
  have : rnd ((2 : ℕ) : ℝ) = 2 := hr.small 2 (by norm_num)
  rw [e1, e2, this, num_div, if_neg (by norm_num), hr.half]

/-- a literal such as `0.95` written as a quotient `m / n` of positive numbers, `m ≤ n` -/
theorem frac (m n : ℕ) [m.AtLeastTwo] [n.AtLeastTwo] (h : m ≤ n) :
    ∃ c : ℝ, 0 < c ∧ c ≤ 1 ∧
      (OfNat.ofNat m / OfNat.ofNat n : Fl ℝ rnd) = .num c := by
  have hm : (0 : ℝ) < (OfNat.ofNat m : ℕ) := by
    have := Nat.AtLeastTwo.prop (n := m); change (0 : ℝ) < (m : ℕ); exact_mod_cast (by omega : 0 < m)
  have hn : (0 : ℝ) < (OfNat.ofNat n : ℕ) := by
    have := Nat.AtLeastTwo.prop (n := n); change (0 : ℝ) < (n : ℕ); exact_mod_cast (by omega : 0 < n)
  have h1 := hr.pos _ hm
  have h2 := hr.pos _ hn
  have h3 : rnd (OfNat.ofNat m : ℕ) ≤ rnd (OfNat.ofNat n : ℕ) := hr.mono (by exact_mod_cast h)
  refine ⟨rnd (rnd (OfNat.ofNat m : ℕ) / rnd (OfNat.ofNat n : ℕ)), hr.pos _ (div_pos h1 h2), ?_, ?_⟩
  · have := hr.mono ((div_le_one h2).2 h3)
    rwa [hr.one] at this
  · rw [ofNat_def, ofNat_def, num_div, if_neg h2.ne']

theorem beq_zero_pos {x : ℝ} (h : 0 < x) : ((Fl.num (rnd x) : Fl ℝ rnd) == 0) = false := by
  have := (hr.pos x h).ne'
  simp [Fl.zero_def, this]

end IsAccurate

theorem Quat.fin_ofAxisAngle (hr : IsAccurate rnd) {axis : Vec3 (Fl ℝ rnd)} {angle : Fl ℝ rnd}
    (h : axis.Fin) (ha : angle.Fin) : (Quat.ofAxisAngle axis angle).Fin := by
  have hl := (Vec3.length_nonneg hr.toIsRounding axis h).fin
  obtain ⟨a1, a2, a3⟩ := h
  unfold Quat.ofAxisAngle
  simp only [hr.half_lit]
  split_ifs with h0
  · simp [Quat.Fin, Quat.identity]
  · rw [Bool.not_eq_true] at h0
    simp [Quat.Fin, a1, a2, a3, ha, hl, h0]

theorem Fl.sqrt_fin_of_nonneg (hr : IsRounding rnd) {a : Fl ℝ rnd} (h : a.Nonneg) :
    (MathFns.sqrt a).Fin := (h.sqrt hr).fin

/-- A quaternion is defined for every axis and angle, for every pair of vectors, for every
representable 3×3 block; also the conversion back to axis and angle (its assertion is the precondition
`-1 ≤ w ≤ 1`), `log` and `exp`. -/
theorem C104_quaternion (hr : IsAccurate rnd) :
    (∀ (axis : Vec3 (Fl ℝ rnd)) (angle : Fl ℝ rnd), axis.Fin → angle.Fin →
      (Quat.ofAxisAngle axis angle).Fin) ∧
    (∀ u v : Vec3 (Fl ℝ rnd), u.Fin → v.Fin → (Quat.ofVecs u v).Fin) ∧
    (∀ (x y z : Vec3 ℝ), rnd x.x = x.x → rnd y.y = y.y → rnd z.z = z.z →
      let up (v : Vec3 ℝ) : Vec3 (Fl ℝ rnd) := ⟨.num v.x, .num v.y, .num v.z⟩
      (Quat.ofCols (up x) (up y) (up z) ((up x).x + (up y).y + (up z).z)).Fin) ∧
    (∀ x y z w : Fl ℝ rnd, ∀ n, x.Fin → y.Fin → z.Fin → w.Fin → (Quat.mk' x y z w n).Fin) ∧
    (∀ q : Quat (Fl ℝ rnd), q.Fin → q.log.Fin ∧ q.exp.Fin ∧
      (q.w ≥ -1 ∧ q.w ≤ 1 → ∃ a, q.toAxisAngle = .ok a ∧ a.1.Fin ∧ a.2.Fin)) := by
  have hr' := hr.toIsRounding
  refine ⟨fun axis angle h ha => Quat.fin_ofAxisAngle hr h ha, ?_, ?_, ?_, ?_⟩
  · intro u v hu hv
    have h1 := (Vec3.fin_normalize hr' hu fin_one).2
    have h2 := (Vec3.fin_normalize hr' hv fin_one).2
    have h3 := (Vec3.fin_normalize hr' (Vec3.fin_cross h1 h2) fin_one).2
    obtain ⟨c, hc⟩ := Vec3.fin_dot h1 h2
    obtain ⟨b, hb0, hb1, hb⟩ := hr.frac 99999 100000 (by norm_num)
    unfold Quat.ofVecs
    simp only [hc, hb, gt_iff_lt, Fl.num_lt, Fl.num_neg, hr.half_lit]
    have e1 : (1 : Fl ℝ rnd) = .num 1 := rfl
    split_ifs with c1 c2
    · simp [Quat.Fin]
    · simp [Quat.Fin]
    · have k1 : 0 ≤ rnd (1 / 2 * rnd (1 - c)) :=
        IsRounding.nonneg hr' (mul_nonneg (by norm_num) (IsRounding.nonneg hr' (by linarith)))
      have k2 : 0 ≤ rnd (1 / 2 * rnd (1 + c)) :=
        IsRounding.nonneg hr' (mul_nonneg (by norm_num) (IsRounding.nonneg hr' (by linarith)))
      simp only [e1, Fl.num_sub, Fl.num_add, Fl.num_mul, Fl.fl_sqrt, if_neg (not_lt.2 k1),
        if_neg (not_lt.2 k2)]
      exact ⟨(Fl.fin_mul _ _).2 ⟨h3.1, fin_num _⟩, (Fl.fin_mul _ _).2 ⟨h3.2.1, fin_num _⟩,
        (Fl.fin_mul _ _).2 ⟨h3.2.2, fin_num _⟩, fin_num _⟩
  · intro x y z hx hy hz up
    have e1 : (1 : Fl ℝ rnd) = .num 1 := rfl
    have e2 : (2 : Fl ℝ rnd) = .num 2 := by rw [Fl.ofNat_def]; norm_num [hr.two]
    have e4 : (4 : Fl ℝ rnd) = .num 4 := by rw [Fl.ofNat_def]; norm_num [hr.four]
    -- the root of a positive number, doubled, is finite and not zero
    have key : ∀ s : ℝ, 0 < s → (MathFns.sqrt (.num s : Fl ℝ rnd) * 2).Fin ∧
        (MathFns.sqrt (.num s : Fl ℝ rnd) * 2 == 0) = false := by
      intro s hs
      have hp : 0 < rnd (√s) * 2 := mul_pos (hr.pos _ (Real.sqrt_pos.2 hs)) two_pos
      rw [Fl.fl_sqrt, if_neg (not_lt.2 hs.le), e2, Fl.num_mul]
      exact ⟨fin_num _, hr.beq_zero_pos hp⟩
    have key4 : ((4 : Fl ℝ rnd) == 0) = false := by rw [e4]; simp [Fl.zero_def]
    have le_rnd : ∀ {a b : ℝ}, rnd a = a → a ≤ b → a ≤ rnd b := fun ha hab => by
      have := hr.mono hab; rwa [ha] at this
    have up1 : ∀ {a : ℝ}, rnd a = a → a ≤ rnd (1 + a) := fun ha => le_rnd ha (by linarith)
    have ge0 : ∀ {a : ℝ}, 0 ≤ a → 0 ≤ rnd a := fun h => IsRounding.nonneg hr' h
    unfold Quat.ofCols
    simp only [up, e1, Fl.zero_def, Fl.num_add, Fl.num_sub, gt_iff_lt, Fl.num_lt]
    obtain ⟨a1, a2, a3⟩ := x
    obtain ⟨b1, b2, b3⟩ := y
    obtain ⟨c1, c2, c3⟩ := z
    simp only at hx hy hz ⊢
    by_cases hT : 0 < rnd (rnd (a1 + b2) + c3)
    · rw [if_pos hT]
      obtain ⟨k1, k2⟩ := key (rnd (1 + rnd (rnd (a1 + b2) + c3))) (hr.pos _ (by linarith))
      simp only [Quat.Fin, Fl.fin_div, fin_num, k1, k2, key4, fin_ofNat, and_self]
    rw [if_neg hT]
    -- the rounded trace is not positive
    have hT' : rnd (a1 + b2) ≤ -c3 := by
      by_contra h
      exact hT (hr.pos _ (by linarith))
    by_cases h2 : b2 < a1 ∧ c3 < a1
    · rw [if_pos h2]
      have hpos : 0 < rnd (rnd (rnd (1 + a1) - b2) - c3) := by
        refine hr.pos _ (sub_pos.2 ?_)
        have hA := up1 hx
        rcases lt_or_ge b2 0 with hb | hb
        · exact lt_of_lt_of_le h2.2 (le_rnd hx (by linarith))
        · have h3 := hr.pos (a1 + b2) (by linarith [h2.1])
          have h4 := ge0 (a := rnd (1 + a1) - b2) (by linarith [h2.1])
          linarith
      obtain ⟨k1, k2⟩ := key _ hpos
      simp only [Quat.Fin, Fl.fin_div, fin_num, k1, k2, key4, fin_ofNat, and_self]
    rw [if_neg h2]
    by_cases h3 : c3 < b2
    · rw [if_pos h3]
      have hba : a1 ≤ b2 := by
        by_contra h
        exact h2 ⟨by linarith, by linarith⟩
      have hpos : 0 < rnd (rnd (rnd (1 + b2) - a1) - c3) := by
        refine hr.pos _ (sub_pos.2 ?_)
        have hA := up1 hy
        rcases lt_or_ge a1 0 with ha | ha
        · exact lt_of_lt_of_le h3 (le_rnd hy (by linarith))
        · have h4 := ge0 (a := rnd (1 + b2) - a1) (by linarith)
          have h5 : c3 < 0 := by
            rcases (add_nonneg ha (ha.trans hba)).eq_or_lt with h | h
            · linarith
            · linarith [hr.pos _ h]
          linarith
      obtain ⟨k1, k2⟩ := key _ hpos
      simp only [Quat.Fin, Fl.fin_div, fin_num, k1, k2, key4, fin_ofNat, and_self]
    · rw [if_neg h3]
      have hbc : b2 ≤ c3 := not_lt.1 h3
      have hac : a1 ≤ c3 := by
        by_contra h
        exact h2 ⟨by linarith, by linarith⟩
      have hpos : 0 < rnd (rnd (rnd (1 + c3) - a1) - b2) := by
        refine hr.pos _ (sub_pos.2 ?_)
        have hA := up1 hz
        have h4 := ge0 (a := rnd (1 + c3) - a1) (by linarith)
        rcases lt_or_ge b2 0 with hb | hb
        · linarith
        rcases lt_or_ge a1 0 with ha | ha
        · rcases hb.eq_or_lt with hb | hb
          · rw [← hb]; exact hr.pos _ (by linarith)
          · have h5 : a1 + b2 < 0 := by
              by_contra h
              linarith [ge0 (not_lt.1 h)]
            have h6 : rnd (-a1) = -a1 := by rw [hr.odd, hx]
            have h7 := le_rnd h6 (b := rnd (1 + c3) - a1) (by linarith)
            linarith
        · have h5 : a1 + b2 = 0 := by
            rcases (add_nonneg ha hb).eq_or_lt with h | h
            · exact h.symm
            · linarith [hr.pos _ h]
          have h6 : a1 = 0 := by linarith
          have h7 : b2 = 0 := by linarith
          have h8 := hr.pos (1 + c3) (by linarith)
          rw [h7, h6]
          exact hr.pos _ (by linarith)
      obtain ⟨k1, k2⟩ := key _ hpos
      simp only [Quat.Fin, Fl.fin_div, fin_num, k1, k2, key4, fin_ofNat, and_self]
  · intro x y z w n hx hy hz hw
    unfold Quat.mk'
    split_ifs
    · exact Quat.fin_normalize hr' ⟨hx, hy, hz, hw⟩
    · exact ⟨hx, hy, hz, hw⟩
  · rintro ⟨x, y, z, w⟩ ⟨hx, hy, hz, hw⟩
    simp only at hx hy hz hw
    refine ⟨?_, ?_, ?_⟩
    · unfold Quat.log
      have ha := fin_acos' hw
      simp only
      split_ifs with h
      · have h0 : (MathFns.sin (acos' w) == 0) = false := by
          obtain ⟨a, ha⟩ := ha
          rw [ha, Fl.zero_def] at h ⊢
          rw [Fl.fl_sin] at h ⊢
          simp only [gt_iff_lt, Fl.num_lt] at h
          simp [h.ne']
        simp [Quat.Fin, hx, hy, hz, ha, h0]
      · simp [Quat.Fin]
    · unfold Quat.exp
      have hn := Vec3.length_nonneg hr' ⟨x, y, z⟩ ⟨hx, hy, hz⟩
      have hn' : (MathFns.sqrt (x * x + y * y + z * z)).Fin := hn.fin
      simp only
      generalize MathFns.sqrt (x * x + y * y + z * z) = n at hn'
      split_ifs with h
      · have h0 : (n == 0) = false := by
          obtain ⟨a, rfl⟩ := hn'
          rw [Fl.zero_def] at h ⊢
          simp only [gt_iff_lt, Fl.num_lt] at h
          simp [h.ne']
        simp [Quat.Fin, hx, hy, hz, hn', h0]
      · simp [Quat.Fin, hn']
    · intro hb
      unfold Quat.toAxisAngle
      rw [if_pos hb]
      simp only
      split_ifs with h
      · refine ⟨_, rfl, ?_, ?_⟩
        · obtain ⟨w, rfl⟩ := hw
          have h2 := h.2
          have e1 : (1 : Fl ℝ rnd) = .num 1 := rfl
          simp only [e1, Fl.zero_def, Fl.num_mul, Fl.num_sub, gt_iff_lt, Fl.num_lt] at h2
          have hs : (MathFns.sqrt (1 - .num w * .num w : Fl ℝ rnd)).Fin ∧
              (MathFns.sqrt (1 - .num w * .num w : Fl ℝ rnd) == 0) = false := by
            simp only [e1, Fl.num_mul, Fl.num_sub, Fl.fl_sqrt, if_neg (not_lt.2 h2.le)]
            exact ⟨fin_num _, hr.beq_zero_pos (Real.sqrt_pos.2 h2)⟩
          refine (Vec3.fin_normalize hr' ?_ fin_one).1
          simp only [Vec3.Fin, Fl.fin_mul, Fl.fin_div, hx, hy, hz, hs.1, hs.2, fin_one, and_self]
        · simp [fin_acos' hw]
      · exact ⟨_, rfl, by simp [Vec3.Fin, Vec3.oneX], by simp⟩

/-- Interpolation of finite quaternions, unit or not, and of finite vectors: the only assertions are
the documented ranges of the weight and of the maximal angle. -/
theorem C104_slerp (hr : IsAccurate rnd) (p q : Quat (Fl ℝ rnd)) (u v : Vec3 (Fl ℝ rnd)) (t : ℝ)
    (hp : p.Fin) (hq : q.Fin) (hu : u.Fin) (hv : v.Fin) :
    (0 ≤ t → t ≤ 1 → (∃ r, p.lerp q (.num t) = .ok r ∧ r.Fin) ∧
      ∃ r, p.slerp q (.num t) = .ok r ∧ r.Fin) ∧
    (∃ r, u.slerp v (.num t) = .ok r ∧ r.Fin) ∧
    (0 ≤ t → ∃ r, u.slerpMaxAngle v (.num t) = .ok r ∧ r.Fin) := by
  have hr' := hr.toIsRounding
  have e1 : (1 : Fl ℝ rnd) = .num 1 := rfl
  have e0 : (0 : Fl ℝ rnd) = .num 0 := rfl
  have hl : ∀ a b : Quat (Fl ℝ rnd), a.Fin → b.Fin → 0 ≤ t → t ≤ 1 →
      ∃ r, a.lerp b (.num t) = .ok r ∧ r.Fin := by
    rintro a b ⟨a1, a2, a3, a4⟩ ⟨b1, b2, b3, b4⟩ h0 h1
    unfold Quat.lerp
    have hb : (Fl.num t : Fl ℝ rnd) ≥ 0 ∧ (Fl.num t : Fl ℝ rnd) ≤ 1 := by
      simp only [e0, e1, ge_iff_le, Fl.num_le]; exact ⟨h0, h1⟩
    rw [if_pos hb]
    refine ⟨_, rfl, Quat.fin_normalize hr' ?_⟩
    simp [Quat.Fin, a1, a2, a3, a4, b1, b2, b3, b4]
  -- rotation by a finite quaternion
  have rot : ∀ (q : Quat (Fl ℝ rnd)) (w : Vec3 (Fl ℝ rnd)), q.Fin → w.Fin → (q.rotated w).Fin := by
    rintro q w ⟨q1, q2, q3, q4⟩ ⟨w1, w2, w3⟩
    simp [Quat.rotated, Mat3.mulVec, Vec3.Fin, Mat3.ofQuat, Mat3.optimize, Mat3.optimizeTol, q1, q2, q3, q4, w1, w2, w3]
  have okb : ∀ {α β : Type} (a : α) (f : α → Res β), (Except.ok a >>= f) = f a := fun _ _ => rfl
  have hlu := Vec3.length_nonneg hr' u hu
  have hlv := Vec3.length_nonneg hr' v hv
  -- the product of two lengths that are not zero is not zero
  have hprod : (u.length == 0) = false → (v.length == 0) = false →
      ∃ n, (u.cross v).div (u.length * v.length) = .ok n ∧ n.Fin := by
    intro h1 h2
    refine res_fin_div3 (Vec3.fin_cross hu hv) ((Fl.fin_mul _ _).2 ⟨hlu.fin, hlv.fin⟩) ?_
    obtain ⟨a, ha, ea⟩ := hlu
    obtain ⟨b, hb, eb⟩ := hlv
    rw [ea] at h1; rw [eb] at h2
    simp only [e0, Fl.num_beq, decide_eq_false_iff_not] at h1 h2
    rw [ea, eb, Fl.num_mul]
    exact hr.beq_zero_pos (mul_pos (lt_of_le_of_ne ha (Ne.symm h1)) (lt_of_le_of_ne hb (Ne.symm h2)))
  refine ⟨fun h0 h1 => ⟨hl p q hp hq h0 h1, ?_⟩, ?_, fun h0 => ?_⟩
  · have hb : (Fl.num t : Fl ℝ rnd) ≥ 0 ∧ (Fl.num t : Fl ℝ rnd) ≤ 1 := by
      simp only [e0, e1, ge_iff_le, Fl.num_le]; exact ⟨h0, h1⟩
    unfold Quat.slerp
    rw [if_pos hb]
    obtain ⟨c, hc0, hc1, hc⟩ := hr.frac 95 100 (by norm_num)
    obtain ⟨d, hd⟩ : (p.dot q).Fin := by
      obtain ⟨a1, a2, a3, a4⟩ := hp; obtain ⟨b1, b2, b3, b4⟩ := hq
      simp [Quat.dot, a1, a2, a3, a4, b1, b2, b3, b4]
    have arc : ∀ (b : Quat (Fl ℝ rnd)) (d : ℝ), b.Fin → 0 ≤ d → d < c →
        (p.slerpArc b (.num d) (.num t)).Fin := by
      rintro b d ⟨b1, b2, b3, b4⟩ hd0 hd1
      obtain ⟨a1, a2, a3, a4⟩ := hp
      obtain ⟨w, -, -, hw, -, he⟩ := Fl.clamp_num (rnd := rnd) d
      rw [hw (by linarith) (by linarith)] at he
      have hang : 0 < rnd (Real.arccos d) ∧ rnd (Real.arccos d) < Real.pi := by
        refine ⟨hr.pos _ (Real.arccos_pos.2 (by linarith)), ?_⟩
        have h2 : Real.arccos d ≤ 2 := by
          have := Real.arccos_le_pi_div_two.2 hd0
          linarith [Real.pi_lt_d2]
        have := hr.mono h2
        rw [hr.two] at this
        linarith [Real.pi_gt_three]
      have hs := hr.beq_zero_pos (Real.sin_pos_of_pos_of_lt_pi hang.1 hang.2)
      unfold Quat.slerpArc
      rw [he]
      simp only [Quat.Fin, Fl.fin_mul, Fl.fin_add, Fl.fin_sub, Fl.fin_div, Fl.fin_sin, fin_num, fin_one,
        a1, a2, a3, a4, b1, b2, b3, b4, and_self, true_and, Fl.fl_sin, hs]
    have hqn : (⟨-q.x, -q.y, -q.z, -q.w⟩ : Quat (Fl ℝ rnd)).Fin := by
      obtain ⟨b1, b2, b3, b4⟩ := hq
      simp [Quat.Fin, b1, b2, b3, b4]
    simp only [hd, e0, hc, Fl.num_lt, Fl.num_neg]
    by_cases hneg : d < 0
    · simp only [if_pos hneg, Fl.num_lt]
      split_ifs with h95
      · exact ⟨_, rfl, arc _ _ hqn (by linarith) h95⟩
      · exact hl p _ hp hqn h0 h1
    · simp only [if_neg hneg, Fl.num_lt]
      split_ifs with h95
      · exact ⟨_, rfl, arc _ _ hq (by linarith) h95⟩
      · exact hl p _ hp hq h0 h1
  · have hlin : (⟨u.x + (v.x - u.x) * .num t, u.y + (v.y - u.y) * .num t, u.z + (v.z - u.z) * .num t⟩ :
        Vec3 (Fl ℝ rnd)).Fin := by
      simp [Vec3.Fin, hu.1, hu.2.1, hu.2.2, hv.1, hv.2.1, hv.2.2]
    unfold Vec3.slerp
    simp only
    split_ifs with h1 h2 h3
    · exact ⟨_, rfl, hu⟩
    · exact ⟨_, rfl, hv⟩
    · exact ⟨_, rfl, hlin⟩
    · simp only [Bool.or_eq_true, not_or, Bool.not_eq_true] at h3
      obtain ⟨n, en, hn⟩ := hprod h3.1 h3.2
      rw [en]
      rw [okb]
      split_ifs with h4
      · exact ⟨_, rfl, hlin⟩
      · refine ⟨_, rfl, (Vec3.fin_normalize hr' (rot _ _ ?_ hu) ?_).1⟩
        · refine Quat.fin_ofAxisAngle hr hn ?_
          rw [Fl.fin_mul]
          exact ⟨fin_asin' (Vec3.fin_dot hn (Vec3.fin_normalize hr' hn fin_one).2), fin_num _⟩
        · simp [hlu.fin, hlv.fin]
  · have hb : (Fl.num t : Fl ℝ rnd) ≥ 0 := by simp only [e0, ge_iff_le, Fl.num_le]; exact h0
    unfold Vec3.slerpMaxAngle
    rw [if_pos hb]
    simp only
    split_ifs with h1 h2 h3
    · exact ⟨_, rfl, hu⟩
    · exact ⟨_, rfl, hv⟩
    · exact ⟨_, rfl, hu⟩
    · simp only [Bool.not_eq_true] at h2 h3
      obtain ⟨n, en, hn⟩ := hprod h2 h3
      rw [en]
      rw [okb]
      have hang := fin_asin' (Vec3.fin_dot hn (Vec3.fin_normalize hr' hn fin_one).2)
      generalize asin' (n.dot (n.normalized 1)) = angle at hang
      by_cases h4 : (angle == 0) = true
      · exact ⟨_, if_pos h4, hv⟩
      · rw [if_neg h4]
        rw [Bool.not_eq_true] at h4
        have hact : (if angle ≥ 0 then (if angle > .num t then .num t else angle)
            else (if angle < -.num t then -.num t else angle) : Fl ℝ rnd).Fin := by
          refine Fin.ite (Fin.ite (fin_num _) hang) (Fin.ite ?_ hang)
          simp
        refine ⟨_, rfl, (Vec3.fin_normalize hr' (rot _ _ (Quat.fin_ofAxisAngle hr hn hact) hu) ?_).1⟩
        rw [Fl.fin_add, Fl.fin_mul, Fl.fin_sub, Fl.fin_div]
        exact ⟨hlu.fin, ⟨hlv.fin, hlu.fin⟩, hact, hang, h4⟩

/-! ## Interpolation ratios -/

/-- Every interpolation mode at every representable parameter, in every precision. -/
theorem C104_interpolationRatio (p : ℕ) (hp : 3 ≤ p) (t : ℝ) (ht : Rep p t) (mode : InterpolationMode) :
    (interpolationRatio (.num t : Fl ℝ (rne p)) mode).Fin := by
  have hp1 : 1 ≤ p := by omega
  have hr := isAccurate_rne p hp
  have hr' := hr.toIsRounding
  have e1 : (1 : Fl ℝ (rne p)) = .num 1 := rfl
  have e0 : (0 : Fl ℝ (rne p)) = .num 0 := rfl
  have lit : ∀ (n : ℕ) [n.AtLeastTwo], n ≤ 8 → (OfNat.ofNat n : Fl ℝ (rne p)) = .num n :=
    fun n _ h => by rw [Fl.ofNat_def]; exact congrArg _ (hr.small n h)
  have nz : ∀ (n : ℕ) [n.AtLeastTwo], ((OfNat.ofNat n : Fl ℝ (rne p)) == 0) = false := by
    intro n hn
    rw [Fl.ofNat_def]
    have : 0 < n := by have := hn.prop; omega
    exact hr.beq_zero_pos (by exact_mod_cast this)
  have hpow : ∀ a : Fl ℝ (rne p), a.Fin → (MathFns.pow 2 a).Fin := by
    rintro a ⟨a, rfl⟩
    rw [lit 2 (by norm_num), Fl.fl_pow, if_neg (by norm_num)]
    exact fin_num _
  unfold interpolationRatio
  simp only [e0, e1, Fl.num_le, ge_iff_le]
  split_ifs with h0 h1
  · exact fin_num _
  · exact fin_num _
  push Not at h0 h1
  have rle : ∀ {a b : ℝ}, rne p b = b → a ≤ b → rne p a ≤ b := fun hb hab => by
    have := hr.mono hab; rwa [hb] at this
  have rge : ∀ {a b : ℝ}, rne p b = b → b ≤ a → b ≤ rne p a := fun hb hab => by
    have := hr.mono hab; rwa [hb] at this
  have m1 : rne p (-1 : ℝ) = -1 := by rw [rne_neg, hr.one]
  cases mode
  case CircularIn =>
    simp only [interpolationSwitch, e1, Fl.num_mul, Fl.num_sub, Fl.fin_sub, fin_num, true_and]
    rw [Fl.fl_sqrt, if_neg]
    · exact fin_num _
    · refine not_lt.2 (IsRounding.nonneg hr' (sub_nonneg.2 (rle hr.one ?_)))
      nlinarith
  case CircularOut =>
    simp only [interpolationSwitch, e1, Fl.num_mul, Fl.num_sub]
    rw [Fl.fl_sqrt, if_neg]
    · exact fin_num _
    · refine not_lt.2 (IsRounding.nonneg hr' (sub_nonneg.2 (rle hr.one ?_)))
      have h3 : rne p (t - 1) ≤ 0 := rle hr.zero (by linarith)
      have h4 : -1 ≤ rne p (t - 1) := rge m1 (by linarith)
      nlinarith
  case CircularInOut =>
    simp only [interpolationSwitch, hr.half_lit, Fl.num_lt]
    rw [lit 4 (by norm_num), lit 8 (by norm_num), e1]
    push_cast
    split_ifs with h2
    · simp only [Fl.num_mul, Fl.num_sub, Fl.fin_mul, fin_num, true_and]
      rw [Fl.fl_sqrt, if_neg]
      · exact ⟨_, rfl⟩
      · refine not_lt.2 (IsRounding.nonneg hr' (sub_nonneg.2 (rle hr.one ?_)))
        have h3 : rne p (4 * t) ≤ 2 := rle hr.two (by linarith)
        have h4 : 0 ≤ rne p (4 * t) := IsRounding.nonneg hr' (by linarith)
        nlinarith
    · push Not at h2
      simp only [Fl.num_mul, Fl.num_sub, Fl.fin_mul, Fl.fin_add, fin_num, true_and, and_true]
      rw [Fl.fl_sqrt, if_neg]
      · exact fin_num _
      · refine not_lt.2 (IsRounding.nonneg hr' (sub_nonneg.2 (rge hr.four ?_)))
        have hm3 : rne p (-3 : ℝ) = -3 := by
          rw [rne_neg]; have := hr.small 3 (by norm_num); norm_num at this ⊢; exact this
        have h4t : rne p (4 * t) = 4 * t := by
          have h := ht.mul_zpow 2
          refine rne_of_rep hp1 ?_
          have e : 4 * t = t * (2 : ℝ) ^ (2 : ℤ) := by norm_num; ring
          rw [e]; exact h
        suffices h : rne p (rne p (rne p (4 * t) - 8) * t) ≤ -3 by linarith
        rw [h4t]
        refine rle hm3 ?_
        obtain ⟨u, hu⟩ : ∃ u : ℝ, u = (2 : ℝ) ^ (-(p : ℤ)) := ⟨_, rfl⟩
        have hu0 : 0 < u := hu ▸ zpow2_pos _
        have hu8 : u ≤ 1 / 8 := by
          rw [hu, show (1 / 8 : ℝ) = 2 ^ (-3 : ℤ) by norm_num]
          exact zpow_le_zpow_right₀ one_le_two (by omega)
        rcases h2.eq_or_lt with h2 | h2
        · have h6 : rne p (4 * t - 8) = -6 := by
            rw [← h2, show (4 * (1 / 2) - 8 : ℝ) = -6 by norm_num, rne_neg]
            have := hr.small 6 (by norm_num)
            norm_num at this ⊢; exact this
          rw [h6, ← h2]; norm_num
        · have hstep : u ≤ t - 1 / 2 := by
            obtain ⟨n, hn⟩ := ht.multiple hp1 (-1) (by
              rw [abs_of_pos h0]; norm_num; linarith)
            have e : (-1 - ((p : ℤ) - 1)) = -(p : ℤ) := by ring
            rw [e, ← hu] at hn
            have eh : (1 / 2 : ℝ) = (2 ^ (p - 1) : ℤ) * u := by
              rw [hu]; push_cast
              rw [← zpow_natCast, ← zpow_add₀ two_ne_zero]
              rw [show ((p - 1 : ℕ) : ℤ) + -(p : ℤ) = -1 by omega]
              norm_num
            have hlt' : ((2 ^ (p - 1) : ℤ) : ℝ) < n := by
              rw [eh, hn] at h2
              exact lt_of_mul_lt_mul_right h2 hu0.le
            have hle : (2 ^ (p - 1) : ℤ) + 1 ≤ n := by
              have : (2 ^ (p - 1) : ℤ) < n := by exact_mod_cast hlt'
              omega
            have hle' : (((2 ^ (p - 1) : ℤ) : ℝ) + 1) * u ≤ n * u :=
              mul_le_mul_of_nonneg_right (by exact_mod_cast hle) hu0.le
            rw [hn, eh]
            linarith
          have herr : rne p (4 * t - 8) ≤ 4 * t - 8 + 4 * u := by
            have hne : 4 * t - 8 ≠ 0 := by linarith
            have h := rne_err p (4 * t - 8) hne
            have hl : Int.log 2 |4 * t - 8| = 2 := by
              have hlo : (2 : ℝ) ^ (2 : ℤ) ≤ |4 * t - 8| := by
                rw [abs_of_neg (by linarith)]; norm_num; linarith
              have hhi : |4 * t - 8| < (2 : ℝ) ^ (3 : ℤ) := by
                rw [abs_of_neg (by linarith)]; norm_num; linarith
              obtain ⟨g0, g1⟩ := log_bounds |4 * t - 8| (abs_pos.2 hne)
              have k1 : Int.log 2 |4 * t - 8| < 3 := (zpow_lt_zpow_iff_right₀ one_lt_two).1 (g0.trans_lt hhi)
              have k2 : 2 < Int.log 2 |4 * t - 8| + 1 :=
                (zpow_lt_zpow_iff_right₀ one_lt_two).1 (hlo.trans_lt g1)
              omega
            rw [hl, sub_eq_add_neg (2 : ℤ), zpow_add₀ two_ne_zero, ← hu, abs_le] at h
            norm_num at h
            linarith [h.1]
          have hmul := mul_le_mul_of_nonneg_right herr h0.le
          refine hmul.trans ?_
          rcases le_total t (3 / 4) with h34 | h34
          · nlinarith
          · nlinarith
  all_goals
    simp only [interpolationSwitch]
    try split_ifs
  all_goals
    simp [piOver2, POW_2_M10, INV_POW, nz 2, nz 2147483648, nz 8388608, hpow]

/-! ## Functions outside the list that do divide by zero -/

/-- `operator/` divides by `w² - x² - y² - z²` of the normalised conjugate instead of by the squared
norm: for a quarter turn about the x axis the divisor is zero, whatever the rounding. -/
theorem C104_quat_div_undefined (hr : IsAccurate rnd) (p : Quat (Fl ℝ rnd)) :
    ¬ (p.div ⟨.num 1, .num 0, .num 0, .num 1⟩).Fin := by
  have e1 : (1 : Fl ℝ rnd) = .num 1 := rfl
  have e0 : (0 : Fl ℝ rnd) = .num 0 := rfl
  have hn : (√(2 : ℝ)) ≠ 0 := by norm_num
  have h2 : rnd (1 + 1) = 2 := by rw [show (1 + 1 : ℝ) = 2 by norm_num, hr.two]
  have hnn := hr.ne_zero hn
  have hm : Quat.mk' (-.num 1 : Fl ℝ rnd) (-.num 0) (-.num 0) (.num 1) true =
      ⟨.num (-rnd (rnd (1 / rnd (√2)))), .num 0, .num 0, .num (rnd (rnd (1 / rnd (√2))))⟩ := by
    simp only [Quat.mk', if_true, Quat.normalize, Fl.num_neg, Fl.num_mul, Fl.num_add, neg_zero, mul_zero,
      hr.zero, add_zero, mul_one, neg_mul_neg, hr.one, h2, hr.two, Fl.fl_sqrt,
      if_neg (by norm_num : ¬ (2 : ℝ) < 0), e0, e1, Fl.num_beq, hnn, decide_false, Bool.false_eq_true, if_false,
      Fl.num_div, zero_mul, one_mul, neg_one_mul, hr.odd]
  have hs : ∀ a : ℝ, (Fl.num a * .num a - .num (-a) * .num (-a) - .num 0 * .num 0 - .num 0 * .num 0 :
      Fl ℝ rnd) = .num 0 := by
    intro a
    simp only [Fl.num_mul, Fl.num_sub, neg_mul_neg, sub_self, mul_zero, hr.zero]
  rintro ⟨h, -⟩
  simp only [Quat.div, hm, hs, e1, Fl.num_div, if_true, Fl.fin_mul] at h
  exact not_fin_nan h.2

/-- `clerpMaxAngle` divides by the angle between the arguments, so its `ratio` output is undefined when
they are equal; `Vec2::clerpMaxAngle` of two equal vectors is then undefined. -/
theorem C104_clerp_undefined (a m : ℝ) (hm : 0 ≤ m) :
    (clerpMaxAngleRatio (.num a : XR) (.num a) (.num m)).2 = .nan ∧
    (0 < m → Vec2.clerpMaxAngle (⟨.num 1, .num 0⟩ : Vec2 XR) ⟨.num 1, .num 0⟩ (.num m) =
      .ok ⟨.nan, .nan⟩) := by
  have e1 : (1 : XR) = .num 1 := rfl
  have e0 : (0 : XR) = .num 0 := rfl
  have hd : ∀ a : ℝ, clerpDelta (.num a : XR) (.num a) = .num 0 := by
    intro a
    have e2 : (2 : XR) = .num 2 := rfl
    have hf : fmodR Real.pi (Real.pi * 2) = Real.pi := by
      have hp := Real.pi_pos
      have : Real.pi / (Real.pi * 2) = 1 / 2 := by field_simp
      unfold fmodR truncR
      rw [this, if_pos (by norm_num), show ⌊(1 / 2 : ℝ)⌋ = 0 by norm_num]
      simp
    have h0 : Real.pi * 2 ≠ 0 := mul_ne_zero Real.pi_ne_zero two_ne_zero
    simp only [clerpDelta, piTimes2, e2, Fl.fl_pi, Fl.num_sub, Fl.num_add, Fl.num_mul, Fl.fl_fmod, id,
      sub_self, zero_add, if_neg h0, hf]
  have hr : ∀ a : ℝ, clerpMaxAngleRatio (.num a : XR) (.num a) (.num m) = (.num a, .nan) := by
    intro a
    simp [clerpMaxAngleRatio, hd, e0, not_lt.2 hm]
  refine ⟨by rw [hr], fun h0 => ?_⟩
  unfold Vec2.clerpMaxAngle
  have ha : Vec2.angle (⟨.num 1, .num 0⟩ : Vec2 XR) = .num 0 := by
    have : Complex.arg ⟨1, 0⟩ = 0 := Complex.arg_one
    simp [Vec2.angle, this]
  have hb : (Fl.num m : XR) ≥ 0 := by simp [e0, hm]
  have hc : ¬ ((Fl.num m : XR) == 0) = true := by simp [e0, h0.ne']
  have hl : Vec2.length (⟨.num 1, .num 0⟩ : Vec2 XR) = .num 1 := by simp [Vec2.length]
  rw [if_neg (not_not.2 hb), if_neg hc]
  simp only [ha, hr, hl]
  rfl

/-! ## The hypotheses are met -/

example : IsAccurate (rne 24) := isAccurate_rne 24 (by norm_num)
example : IsAccurate id := isAccurate_id
example : (⟨.num 1, .num (-3 / 4), 0⟩ : Vec3 (Fl ℝ (rne 24))).Fin ∧
    (⟨.num 1, 0, 0, .num 2⟩ : Quat (Fl ℝ (rne 24))).Fin ∧ Rep 24 (3 / 4 : ℝ) := by
  refine ⟨by simp [Vec3.Fin], by simp [Quat.Fin], ⟨3, -2, by norm_num, by norm_num⟩⟩
/-- a matrix with an entry that is not finite -/
example : ¬ (⟨⟨.nan, 0⟩, ⟨0, 1⟩, Flags.start⟩ : Mat2 XR).Fin := by simp [Mat2.Fin, Vec2.Fin]
/-- the predicate does notice an invalid operation -/
example : ¬ (MathFns.sqrt (-1 : XR)).Fin ∧ ¬ ((1 : XR) / 0).Fin ∧ ¬ (MathFns.acos (2 : XR)).Fin := by
  have e1 : (1 : XR) = .num 1 := rfl
  have e0 : (0 : XR) = .num 0 := rfl
  have e2 : (2 : XR) = .num 2 := rfl
  refine ⟨?_, ?_, ?_⟩
  · rw [e1, Fl.num_neg, Fl.fl_sqrt, if_pos (by norm_num)]; exact not_fin_nan
  · rw [e1, e0, Fl.num_div, if_pos rfl]; exact not_fin_nan
  · rw [e2, Fl.fl_acos, if_pos (by norm_num)]; exact not_fin_nan

end MathLib
