import Verif.Props.RoundedInverse
import Verif.Props.RoundedPredicates

/-! # Property C164: points computed on planes in floating point -/

namespace MathLib
variable {rnd : ℝ → ℝ} {u : ℝ}

/-- planes, segments and rays whose components are numbers -/
def Plane.num (p : Plane ℝ) : Plane (Fl ℝ rnd) := ⟨Vec3.num p.normal, .num p.d⟩
def Line3.num (l : Line3 ℝ) : Line3 (Fl ℝ rnd) := ⟨Vec3.num l.start, Vec3.num l.end⟩
def Ray3.num (r : Ray3 ℝ) : Ray3 (Fl ℝ rnd) := ⟨Vec3.num r.start, Vec3.num r.direction⟩

/-- the signed distance, of a plane with a unit normal -/
def Plane.value (p : Plane ℝ) (q : Vec3 ℝ) : ℝ := q.x * p.normal.x + q.y * p.normal.y + q.z * p.normal.z - p.d

/-- the size of the terms of the distance -/
def Plane.size (p : Plane ℝ) (q : Vec3 ℝ) : ℝ := |q.x * p.normal.x| + |q.y * p.normal.y| + |q.z * p.normal.z| + |p.d|

theorem Plane.size_nonneg (p : Plane ℝ) (q : Vec3 ℝ) : 0 ≤ p.size q := by unfold Plane.size; positivity

namespace PlaneErr

theorem gam_small (h0 : 0 ≤ u) (hu : u ≤ 1 / 4096) (n : ℕ) (hn : n ≤ 9) : gam u n ≤ 1.003 * n * u ∧ 0 ≤ gam u n := by
  have h1 : u < 1 := by linarith
  have hn' : (n : ℝ) ≤ 9 := by exact_mod_cast hn
  have hnu : (n : ℝ) * u ≤ 9 / 4096 := by nlinarith
  have hnu0 : 0 ≤ (n : ℝ) * u := by positivity
  constructor
  · refine (gam_le h1 (by linarith)).trans ?_
    rw [div_le_iff₀ (by linarith)]
    nlinarith
  · have : 1 ≤ ((1 - u) ^ n)⁻¹ := (one_le_inv₀ (Fac.gpos h1 n)).2 (Fac.gle h0 h1 n)
    unfold gam; linarith

theorem value_err (hr : IsRel rnd u) (p : Plane ℝ) (q : Vec3 ℝ) :
    AbsErr u 4 (p.size q) (p.value q) ((Vec3.num q : Vec3 (Fl ℝ rnd)).dot (Vec3.num p.normal) - .num p.d) :=
  AbsErr.sub hr (abs_sum3 hr _ _ _ _ _ _) (AbsErr.exact hr p.d)

/-- the parameter of a hit -/
theorem param (hr : IsRel rnd u) (hu : u ≤ 1 / 4096) {s e s' e' S : ℝ} (hs : |s| ≤ S) (hs' : |s' - s| ≤ gam u 5 * S)
    (he' : |e' - e| ≤ gam u 5 * S) (opp : s' * e' ≤ 0) (hne : s' ≠ e') :
    ∃ t : ℝ, (.num s' / (.num s' - .num e') : Fl ℝ rnd) = .num t ∧ 0 ≤ t ∧ t ≤ 1.001 ∧
      |s + t * (e - s)| ≤ 7.2 * u * S := by
  have h0 := hr.nonneg
  have hS : 0 ≤ S := (abs_nonneg _).trans hs
  have hd : s' - e' ≠ 0 := sub_ne_zero.2 hne
  obtain ⟨θ, hθ, eθ⟩ := hr.fac (s' - e')
  have hw : rnd (s' - e') ≠ 0 := by rw [eθ]; exact mul_ne_zero hd (hθ.pos hr.lt_one).ne'
  obtain ⟨φ, hφ, eφ⟩ := hr.fac (s' / rnd (s' - e'))
  have hψ : Fac u 2 (φ / θ) := by rw [div_eq_mul_inv]; exact Fac.mul hr.lt_one hφ (Fac.inv hr.lt_one hθ)
  obtain ⟨g5, g5'⟩ := gam_small h0 hu 5 (by norm_num)
  obtain ⟨g2, g2'⟩ := gam_small h0 hu 2 (by norm_num)
  have hψ1 := hψ.abs_sub_one hr.lt_one
  have hψ2 : |φ / θ - 1| ≤ 2.006 * u := by norm_num at g2; linarith
  set ψ := φ / θ with hψd
  have ht : rnd (s' / rnd (s' - e')) = s' / (s' - e') * ψ := by
    rw [eφ, eθ, hψd]
    have := (hθ.pos hr.lt_one).ne'
    field_simp
  have h01 : 0 ≤ s' / (s' - e') ∧ s' / (s' - e') ≤ 1 := by
    rcases lt_or_gt_of_ne hd with h | h
    · constructor
      · apply div_nonneg_of_nonpos _ h.le
        by_contra hc; push Not at hc; nlinarith
      · rw [div_le_one_of_neg h]
        by_contra hc; push Not at hc; nlinarith
    · constructor
      · apply div_nonneg _ h.le
        by_contra hc; push Not at hc; nlinarith
      · rw [div_le_one h]
        by_contra hc; push Not at hc; nlinarith
  set t0 := s' / (s' - e') with ht0
  obtain ⟨p1, p2⟩ := abs_le.1 hψ2
  have t1 : t0 * ψ ≤ 1.001 := by nlinarith
  have t0' : 0 ≤ t0 * ψ := mul_nonneg h01.1 (by linarith)
  refine ⟨t0 * ψ, ?_, t0', t1, ?_⟩
  · rw [Fl.num_sub, Fl.num_div, if_neg hw, ht]
  · have k : s + t0 * ψ * (e - s) = (s - s') * (1 - t0 * ψ) + (e - e') * (t0 * ψ) + s' * (1 - ψ) := by
      have : t0 * (e' - s') = -s' := by rw [ht0]; field_simp; ring
      linear_combination ψ * this
    have hS' : |s'| ≤ 1.01 * S := by
      have a : |s'| ≤ |s' - s| + |s| := by
        calc |s'| = |s' - s + s| := by ring_nf
          _ ≤ _ := abs_add_le _ _
      have b : gam u 5 * S ≤ 0.002 * S := mul_le_mul_of_nonneg_right (by norm_num at g5; linarith) hS
      linarith
    have hG : gam u 5 * S ≤ 5.015 * u * S := mul_le_mul_of_nonneg_right (by norm_num at g5; linarith) hS
    have uS : 0 ≤ u * S := mul_nonneg h0 hS
    have q1 : |(s - s') * (1 - t0 * ψ)| + |(e - e') * (t0 * ψ)| ≤ 5.015 * u * S * 1.002 := by
      rw [abs_mul, abs_mul, abs_sub_comm s, abs_sub_comm e, abs_of_nonneg t0']
      have c1 : |1 - t0 * ψ| + t0 * ψ ≤ 1.002 := by
        rcases abs_cases (1 - t0 * ψ) with ⟨h, -⟩ | ⟨h, -⟩ <;> linarith
      calc |s' - s| * |1 - t0 * ψ| + |e' - e| * (t0 * ψ)
          ≤ 5.015 * u * S * |1 - t0 * ψ| + 5.015 * u * S * (t0 * ψ) := by
            gcongr <;> linarith
        _ = 5.015 * u * S * (|1 - t0 * ψ| + t0 * ψ) := by ring
        _ ≤ _ := by gcongr
    have q2 : |s' * (1 - ψ)| ≤ 1.01 * S * (2.006 * u) := by
      rw [abs_mul, abs_sub_comm 1]
      gcongr
    rw [k]
    have r1 := abs_add_le ((s - s') * (1 - t0 * ψ) + (e - e') * (t0 * ψ)) (s' * (1 - ψ))
    have r2 := abs_add_le ((s - s') * (1 - t0 * ψ)) ((e - e') * (t0 * ψ))
    linarith

/-- the point at a parameter -/
theorem lerp_err (hr : IsRel rnd u) (a b t : ℝ) : AbsErr u 3 (|a| + (|b| + |a|) * |t|) (a + (b - a) * t)
    (.num a + (.num b - .num a) * .num t : Fl ℝ rnd) :=
  AbsErr.add hr (AbsErr.exact hr a) (AbsErr.mul (k := 2) hr (AbsErr.sub (k := 1) hr (AbsErr.exact hr b) (AbsErr.exact hr a))
    (AbsErr.exact hr t))

/-- moving a point a little moves its distance a little -/
theorem value_near (p : Plane ℝ) {x q : Vec3 ℝ} {v e1 e2 e3 : ℝ} (hv : |p.value x| ≤ v) (h1 : |q.x - x.x| ≤ e1)
    (h2 : |q.y - x.y| ≤ e2) (h3 : |q.z - x.z| ≤ e3) :
    |p.value q| ≤ v + (e1 * |p.normal.x| + e2 * |p.normal.y| + e3 * |p.normal.z|) := by
  have k : p.value q = p.value x + (q.x - x.x) * p.normal.x + (q.y - x.y) * p.normal.y + (q.z - x.z) * p.normal.z := by
    unfold Plane.value; ring
  have m : ∀ {d e n : ℝ}, |d| ≤ e → |d * n| ≤ e * |n| := fun h => by
    rw [abs_mul]; exact mul_le_mul_of_nonneg_right h (abs_nonneg _)
  rw [k]
  have a1 := abs_add_le (p.value x + (q.x - x.x) * p.normal.x + (q.y - x.y) * p.normal.y) ((q.z - x.z) * p.normal.z)
  have a2 := abs_add_le (p.value x + (q.x - x.x) * p.normal.x) ((q.y - x.y) * p.normal.y)
  have a3 := abs_add_le (p.value x) ((q.x - x.x) * p.normal.x)
  have b1 := m (n := p.normal.x) h1
  have b2 := m (n := p.normal.y) h2
  have b3 := m (n := p.normal.z) h3
  linarith

end PlaneErr

open PlaneErr

/-- `q` is the point of the segment at `t`, up to three roundings -/
def Line3.NearAt (u : ℝ) (l : Line3 ℝ) (t : ℝ) (q : Vec3 ℝ) : Prop :=
  |q.x - (l.start.x + (l.end.x - l.start.x) * t)| ≤ 6.1 * u * (|l.start.x| + |l.end.x|) ∧
  |q.y - (l.start.y + (l.end.y - l.start.y) * t)| ≤ 6.1 * u * (|l.start.y| + |l.end.y|) ∧
  |q.z - (l.start.z + (l.end.z - l.start.z) * t)| ≤ 6.1 * u * (|l.start.z| + |l.end.z|)

/-- what is reported about a segment: a point of the segment and of the plane, up to rounding -/
private theorem seg (hr : IsRel rnd u) (hu : u ≤ 1 / 4096) (p : Plane ℝ) (l : Line3 ℝ) (r s' e' : ℝ)
    (hs' : |s' - (p.value l.start - r)| ≤ gam u 5 * (p.size l.start + |r|))
    (he' : |e' - (p.value l.end - r)| ≤ gam u 5 * (p.size l.end + |r|)) (opp : s' * e' ≤ 0) (hne : s' ≠ e') :
    ∃ (t : ℝ) (q : Vec3 ℝ), (.num s' / (.num s' - .num e') : Fl ℝ rnd) = .num t ∧
      (Line3.num l : Line3 (Fl ℝ rnd)).pointAt (.num t) = Vec3.num q ∧ 0 ≤ t ∧ t ≤ 1.001 ∧ l.NearAt u t q ∧
      |p.value q - r| ≤ 14 * u * (p.size l.start + p.size l.end + |r|) := by
  have h0 := hr.nonneg
  have hsz : |p.value l.start| ≤ p.size l.start := (value_err hr p l.start).1
  have n1 := p.size_nonneg l.start
  have n2 := p.size_nonneg l.end
  obtain ⟨g5, g5'⟩ := gam_small h0 hu 5 (by norm_num)
  obtain ⟨g3, g3'⟩ := gam_small h0 hu 3 (by norm_num)
  obtain ⟨t, et, t0, t1, ht⟩ := param hr hu (s := p.value l.start - r) (e := p.value l.end - r)
    (S := p.size l.start + p.size l.end + |r|)
    ((abs_sub _ _).trans (by linarith)) (hs'.trans (mul_le_mul_of_nonneg_left (by linarith) g5'))
    (he'.trans (mul_le_mul_of_nonneg_left (by linarith) g5')) opp hne
  have c : ∀ a b : ℝ, ∃ v : ℝ, (.num a + (.num b - .num a) * .num t : Fl ℝ rnd) = .num v ∧
      |v - (a + (b - a) * t)| ≤ 6.1 * u * (|a| + |b|) := by
    intro a b
    obtain ⟨-, v, ev, hv⟩ := lerp_err hr a b t
    refine ⟨v, ev, hv.trans ?_⟩
    have w : |a| + (|b| + |a|) * |t| ≤ 2.001 * (|a| + |b|) := by
      rw [abs_of_nonneg t0]
      nlinarith [abs_nonneg a, abs_nonneg b]
    have w0 : 0 ≤ |a| + |b| := by positivity
    norm_num at g3
    calc gam u 3 * (|a| + (|b| + |a|) * |t|) ≤ gam u 3 * (2.001 * (|a| + |b|)) := mul_le_mul_of_nonneg_left w g3'
      _ ≤ 3.009 * u * (2.001 * (|a| + |b|)) := mul_le_mul_of_nonneg_right (by linarith) (by positivity)
      _ ≤ _ := by nlinarith [mul_nonneg h0 w0]
  obtain ⟨x, ex, hx⟩ := c l.start.x l.end.x
  obtain ⟨y, ey, hy⟩ := c l.start.y l.end.y
  obtain ⟨z, ez, hz⟩ := c l.start.z l.end.z
  refine ⟨t, ⟨x, y, z⟩, et, ?_, t0, t1, ⟨hx, hy, hz⟩, ?_⟩
  · rw [Vec3.num, ← ex, ← ey, ← ez]; rfl
  · have hv := value_near ⟨p.normal, p.d + r⟩ (x := ⟨l.start.x + (l.end.x - l.start.x) * t,
      l.start.y + (l.end.y - l.start.y) * t, l.start.z + (l.end.z - l.start.z) * t⟩) (q := ⟨x, y, z⟩)
      (v := 7.2 * u * (p.size l.start + p.size l.end + |r|)) (by
        refine le_trans (le_of_eq ?_) ht
        congr 1; simp only [Plane.value]; ring) hx hy hz
    have e1 : Plane.value ⟨p.normal, p.d + r⟩ ⟨x, y, z⟩ = p.value ⟨x, y, z⟩ - r := by simp only [Plane.value]; ring
    rw [e1] at hv
    refine hv.trans ?_
    simp only [Plane.size, abs_mul] at n1 n2 ⊢
    have m := mul_nonneg h0 (abs_nonneg p.d)
    have m1 := mul_nonneg h0 (mul_nonneg (abs_nonneg l.start.x) (abs_nonneg p.normal.x))
    have m2 := mul_nonneg h0 (mul_nonneg (abs_nonneg l.start.y) (abs_nonneg p.normal.y))
    have m3 := mul_nonneg h0 (mul_nonneg (abs_nonneg l.start.z) (abs_nonneg p.normal.z))
    have m4 := mul_nonneg h0 (mul_nonneg (abs_nonneg l.end.x) (abs_nonneg p.normal.x))
    have m5 := mul_nonneg h0 (mul_nonneg (abs_nonneg l.end.y) (abs_nonneg p.normal.y))
    have m6 := mul_nonneg h0 (mul_nonneg (abs_nonneg l.end.z) (abs_nonneg p.normal.z))
    have m7 := mul_nonneg h0 (abs_nonneg r)
    linarith

private theorem g45 (hr : IsRel rnd u) (S : ℝ) (hS : 0 ≤ S) : gam u 4 * S ≤ gam u 5 * (S + |(0 : ℝ)|) := by
  rw [abs_zero, add_zero]
  refine mul_le_mul_of_nonneg_right ?_ hS
  unfold gam
  have h1 := Fac.gpos hr.lt_one 5
  have h2 : (1 - u) ^ 5 ≤ (1 - u) ^ 4 :=
    pow_le_pow_of_le_one (by linarith [hr.lt_one]) (by linarith [hr.nonneg]) (by norm_num)
  have := inv_anti₀ h1 h2
  linarith

/-- C164: the segment tests.  Whatever is reported is a point of the segment and of the plane, up to rounding, however small the
angle between them; a hit is reported if the start is in front and the end behind by more than the error of the distance,
and not if the start is behind or the end in front by more than it. -/
theorem C164_hitsLine (hr : IsRel rnd u) (hu : u ≤ 1 / 4096) (p : Plane ℝ) (l : Line3 ℝ) :
    (∀ h, (Plane.num p : Plane (Fl ℝ rnd)).hitsLine (Line3.num l) = some h → ∃ (t : ℝ) (q : Vec3 ℝ), h = (Vec3.num q, .num t) ∧
      0 ≤ t ∧ t ≤ 1.001 ∧ l.NearAt u t q ∧ |p.value q| ≤ 14 * u * (p.size l.start + p.size l.end)) ∧
    (gam u 4 * p.size l.start ≤ p.value l.start → p.value l.end < -(gam u 4 * p.size l.end) →
      ∃ h, (Plane.num p : Plane (Fl ℝ rnd)).hitsLine (Line3.num l) = some h) ∧
    (p.value l.start < -(gam u 4 * p.size l.start) ∨ gam u 4 * p.size l.end ≤ p.value l.end →
      (Plane.num p : Plane (Fl ℝ rnd)).hitsLine (Line3.num l) = none) := by
  obtain ⟨-, s', es, hs⟩ := value_err hr p l.start
  obtain ⟨-, e', ee, he⟩ := value_err hr p l.end
  have g := g45 hr
  have e1 : (Plane.num p : Plane (Fl ℝ rnd)).hitsLine (Line3.num l) =
      if s' < 0 then none else if 0 ≤ e' then none else
        some ((Line3.num l : Line3 (Fl ℝ rnd)).pointAt (.num s' / (.num s' - .num e')), .num s' / (.num s' - .num e')) := by
    have es' : (Line3.num l : Line3 (Fl ℝ rnd)).start.dot (Plane.num p : Plane (Fl ℝ rnd)).normal -
      (Plane.num p : Plane (Fl ℝ rnd)).d = .num s' := es
    have ee' : (Line3.num l : Line3 (Fl ℝ rnd)).end.dot (Plane.num p : Plane (Fl ℝ rnd)).normal -
      (Plane.num p : Plane (Fl ℝ rnd)).d = .num e' := ee
    simp only [Plane.hitsLine, es', ee', Fl.zero_def, Fl.num_lt, ge_iff_le, Fl.num_le]
  obtain ⟨s1, s2⟩ := abs_le.1 hs
  obtain ⟨e1', e2'⟩ := abs_le.1 he
  rw [e1]
  refine ⟨?_, ?_, ?_⟩
  · intro h hh
    split_ifs at hh with h1 h2
    push Not at h1 h2
    obtain ⟨t, q, et, eq, t0, t1, hq, hp⟩ := seg hr hu p l 0 s' e'
      (by rw [sub_zero]; exact hs.trans (g _ (p.size_nonneg _))) (by rw [sub_zero]; exact he.trans (g _ (p.size_nonneg _)))
      (mul_nonpos_of_nonneg_of_nonpos h1 h2.le) (by linarith)
    rw [et, eq] at hh
    refine ⟨t, q, (Option.some.inj hh).symm, t0, t1, hq, ?_⟩
    simpa using hp
  · intro h1 h2
    rw [if_neg (by push Not; linarith), if_neg (by push Not; linarith)]
    exact ⟨_, rfl⟩
  · rintro (h | h)
    · rw [if_pos (by linarith)]
    · split_ifs with h1 h2
      · rfl
      · rfl
      · exact absurd (by linarith) h2

/-- C164: the test of a ball moving along a segment, the same for the plane moved by the radius. -/
theorem C164_hitsLineRadius (hr : IsRel rnd u) (hu : u ≤ 1 / 4096) (p : Plane ℝ) (l : Line3 ℝ) (r : ℝ) :
    (∀ h, (Plane.num p : Plane (Fl ℝ rnd)).hitsLineRadius (Line3.num l) (.num r) = some h →
      ∃ (t : ℝ) (q : Vec3 ℝ), h = (Vec3.num q, .num t) ∧ 0 ≤ t ∧ t ≤ 1.001 ∧ l.NearAt u t q ∧
        |p.value q - r| ≤ 14 * u * (p.size l.start + p.size l.end + |r|)) ∧
    (gam u 5 * (p.size l.start + |r|) ≤ p.value l.start - r → p.value l.end - r < -(gam u 5 * (p.size l.end + |r|)) →
      ∃ h, (Plane.num p : Plane (Fl ℝ rnd)).hitsLineRadius (Line3.num l) (.num r) = some h) ∧
    (p.value l.start - r < -(gam u 5 * (p.size l.start + |r|)) ∨ gam u 5 * (p.size l.end + |r|) ≤ p.value l.end - r →
      (Plane.num p : Plane (Fl ℝ rnd)).hitsLineRadius (Line3.num l) (.num r) = none) := by
  obtain ⟨-, s', es, hs⟩ := AbsErr.sub (k := 5) hr (value_err hr p l.start) (AbsErr.exact hr r)
  obtain ⟨-, e', ee, he⟩ := AbsErr.sub (k := 5) hr (value_err hr p l.end) (AbsErr.exact hr r)
  have e1 : (Plane.num p : Plane (Fl ℝ rnd)).hitsLineRadius (Line3.num l) (.num r) =
      if s' < 0 then none else if 0 ≤ e' then none else
        some ((Line3.num l : Line3 (Fl ℝ rnd)).pointAt (.num s' / (.num s' - .num e')), .num s' / (.num s' - .num e')) := by
    have es' : (Line3.num l : Line3 (Fl ℝ rnd)).start.dot (Plane.num p : Plane (Fl ℝ rnd)).normal -
      (Plane.num p : Plane (Fl ℝ rnd)).d - .num r = .num s' := es
    have ee' : (Line3.num l : Line3 (Fl ℝ rnd)).end.dot (Plane.num p : Plane (Fl ℝ rnd)).normal -
      (Plane.num p : Plane (Fl ℝ rnd)).d - .num r = .num e' := ee
    simp only [Plane.hitsLineRadius, es', ee', Fl.zero_def, Fl.num_lt, ge_iff_le, Fl.num_le]
  obtain ⟨s1, s2⟩ := abs_le.1 hs
  obtain ⟨e1', e2'⟩ := abs_le.1 he
  rw [e1]
  refine ⟨?_, ?_, ?_⟩
  · intro h hh
    split_ifs at hh with h1 h2
    push Not at h1 h2
    obtain ⟨t, q, et, eq, t0, t1, hq, hp⟩ := seg hr hu p l r s' e' hs he
      (mul_nonpos_of_nonneg_of_nonpos h1 h2.le) (by linarith)
    rw [et, eq] at hh
    exact ⟨t, q, (Option.some.inj hh).symm, t0, t1, hq, hp⟩
  · intro h1 h2
    rw [if_neg (by push Not; linarith), if_neg (by push Not; linarith)]
    exact ⟨_, rfl⟩
  · rintro (h | h)
    · rw [if_pos (by linarith)]
    · split_ifs with h1 h2
      · rfl
      · rfl
      · exact absurd (by linarith) h2

/-- C164: the two-sided test: a point is reported if the ends are on different sides by more than the error of the distance,
none if they are on the same side by more than it. -/
theorem C164_intersectsLine (hr : IsRel rnd u) (hu : u ≤ 1 / 4096) (p : Plane ℝ) (l : Line3 ℝ) :
    (∀ h, (Plane.num p : Plane (Fl ℝ rnd)).intersectsLine (Line3.num l) = some h →
      ∃ (t : ℝ) (q : Vec3 ℝ), h = (Vec3.num q, .num t) ∧
      0 ≤ t ∧ t ≤ 1.001 ∧ l.NearAt u t q ∧ |p.value q| ≤ 14 * u * (p.size l.start + p.size l.end)) ∧
    ((gam u 4 * p.size l.start < p.value l.start ∧ p.value l.end < -(gam u 4 * p.size l.end)) ∨
      (p.value l.start < -(gam u 4 * p.size l.start) ∧ gam u 4 * p.size l.end < p.value l.end) →
      ∃ h, (Plane.num p : Plane (Fl ℝ rnd)).intersectsLine (Line3.num l) = some h) ∧
    ((gam u 4 * p.size l.start < p.value l.start ∧ gam u 4 * p.size l.end < p.value l.end) ∨
      (p.value l.start < -(gam u 4 * p.size l.start) ∧ p.value l.end < -(gam u 4 * p.size l.end)) →
      (Plane.num p : Plane (Fl ℝ rnd)).intersectsLine (Line3.num l) = none) := by
  obtain ⟨-, s', es, hs⟩ := value_err hr p l.start
  obtain ⟨-, e', ee, he⟩ := value_err hr p l.end
  have g := g45 hr
  have e1 : (Plane.num p : Plane (Fl ℝ rnd)).intersectsLine (Line3.num l) =
      if s' = e' then none else if s' < 0 ∧ e' < 0 then none else if 0 < s' ∧ 0 < e' then none else
        some ((Line3.num l : Line3 (Fl ℝ rnd)).pointAt (.num s' / (.num s' - .num e')), .num s' / (.num s' - .num e')) := by
    have es' : (Line3.num l : Line3 (Fl ℝ rnd)).start.dot (Plane.num p : Plane (Fl ℝ rnd)).normal -
      (Plane.num p : Plane (Fl ℝ rnd)).d = .num s' := es
    have ee' : (Line3.num l : Line3 (Fl ℝ rnd)).end.dot (Plane.num p : Plane (Fl ℝ rnd)).normal -
      (Plane.num p : Plane (Fl ℝ rnd)).d = .num e' := ee
    simp only [Plane.intersectsLine, es', ee', Fl.zero_def, Fl.num_lt, gt_iff_lt, Fl.num_beq, decide_eq_true_eq]
  obtain ⟨s1, s2⟩ := abs_le.1 hs
  obtain ⟨e1', e2'⟩ := abs_le.1 he
  rw [e1]
  refine ⟨?_, ?_, ?_⟩
  · intro h hh
    split_ifs at hh with h1 h2 h3
    have opp : s' * e' ≤ 0 := by
      rw [not_and_or, not_lt, not_lt] at h2 h3
      by_contra hc
      push Not at hc
      rcases pos_and_pos_or_neg_and_neg_of_mul_pos hc with ⟨a, b⟩ | ⟨a, b⟩
      · rcases h3 with h | h <;> linarith
      · rcases h2 with h | h <;> linarith
    obtain ⟨t, q, et, eq, t0, t1, hq, hp⟩ := seg hr hu p l 0 s' e'
      (by rw [sub_zero]; exact hs.trans (g _ (p.size_nonneg _))) (by rw [sub_zero]; exact he.trans (g _ (p.size_nonneg _)))
      opp h1
    rw [et, eq] at hh
    refine ⟨t, q, (Option.some.inj hh).symm, t0, t1, hq, ?_⟩
    simpa using hp
  · rintro (⟨h1, h2⟩ | ⟨h1, h2⟩)
    · rw [if_neg (by intro h; linarith), if_neg (by rintro ⟨h, -⟩; linarith), if_neg (by rintro ⟨-, h⟩; linarith)]
      exact ⟨_, rfl⟩
    · rw [if_neg (by intro h; linarith), if_neg (by rintro ⟨-, h⟩; linarith), if_neg (by rintro ⟨h, -⟩; linarith)]
      exact ⟨_, rfl⟩
  · rintro (⟨h1, h2⟩ | ⟨h1, h2⟩)
    · split_ifs with a b c
      · rfl
      · rfl
      · rfl
      · exact absurd ⟨by linarith, by linarith⟩ c
    · split_ifs with a b c
      · rfl
      · rfl
      · rfl
      · exact absurd ⟨by linarith, by linarith⟩ b

private theorem range {p : ℕ} (hp : 1 ≤ p) {s e t : ℝ} (hs : rne p s = s) (opp : s * e ≤ 0)
    (ht : (.num s / (.num s - .num e) : Fl ℝ (rne p)) = .num t) : 0 ≤ t ∧ t ≤ 1 := by
  have one : rne p (1 : ℝ) = 1 := rne_of_rep hp (by simpa using Rep.zpow (K := ℝ) (p := p) 0)
  have zero : rne p (0 : ℝ) = 0 := by simp [rne]
  have mono := rne_mono (K := ℝ) p hp
  rw [Fl.num_sub, Fl.num_div] at ht
  have key : 0 ≤ s / rne p (s - e) ∧ s / rne p (s - e) ≤ 1 := by
    rcases lt_trichotomy s 0 with h | h | h
    · have he : 0 ≤ e := by by_contra hc; push Not at hc; nlinarith
      have hw : rne p (s - e) ≤ s := (mono (by linarith)).trans_eq hs
      exact ⟨div_nonneg_of_nonpos h.le (by linarith), (div_le_one_of_neg (by linarith)).2 hw⟩
    · rw [h, zero_div]; exact ⟨le_rfl, zero_le_one⟩
    · have he : e ≤ 0 := by by_contra hc; push Not at hc; nlinarith
      have hw : s ≤ rne p (s - e) := hs.symm.trans_le (mono (by linarith))
      exact ⟨div_nonneg h.le (by linarith), (div_le_one (by linarith)).2 hw⟩
  split_ifs at ht with h0
  rw [← Fl.num.inj ht]
  exact ⟨zero.symm.trans_le (mono key.1), (mono key.2).trans_eq one⟩

/-- C164: the parameter reported about a segment is in the interval from 0 to 1, without any error. -/
theorem C164_parameter {P : ℕ} (hp : 1 ≤ P) (p : Plane ℝ) (l : Line3 ℝ) (h : Vec3 (Fl ℝ (rne P)) × Fl ℝ (rne P)) (t : ℝ)
    (ht : h.2 = .num t)
    (hh : (Plane.num p : Plane (Fl ℝ (rne P))).hitsLine (Line3.num l) = some h ∨
      (Plane.num p : Plane (Fl ℝ (rne P))).intersectsLine (Line3.num l) = some h ∨
      ∃ r, (Plane.num p : Plane (Fl ℝ (rne P))).hitsLineRadius (Line3.num l) (.num r) = some h) : 0 ≤ t ∧ t ≤ 1 := by
  have ex : ∀ (q : Vec3 ℝ), ∃ s : ℝ, rne P s = s ∧
      (Vec3.num q : Vec3 (Fl ℝ (rne P))).dot (Plane.num p : Plane (Fl ℝ (rne P))).normal -
      (Plane.num p : Plane (Fl ℝ (rne P))).d = .num s := fun q => ⟨_, rne_rne P hp _, rfl⟩
  have ex' : ∀ a b : ℝ, ∃ s : ℝ, rne P s = s ∧ (.num a - .num b : Fl ℝ (rne P)) = .num s :=
    fun a b => ⟨_, rne_rne P hp _, rfl⟩
  obtain ⟨s, hs, es⟩ := ex l.start
  obtain ⟨e, he, ee⟩ := ex l.end
  have es' : (Line3.num l : Line3 (Fl ℝ (rne P))).start.dot (Plane.num p : Plane (Fl ℝ (rne P))).normal -
      (Plane.num p : Plane (Fl ℝ (rne P))).d = .num s := es
  have ee' : (Line3.num l : Line3 (Fl ℝ (rne P))).end.dot (Plane.num p : Plane (Fl ℝ (rne P))).normal -
      (Plane.num p : Plane (Fl ℝ (rne P))).d = .num e := ee
  rcases hh with hh | hh | ⟨r, hh⟩
  · simp only [Plane.hitsLine, es', ee', Fl.zero_def, Fl.num_lt, ge_iff_le, Fl.num_le] at hh
    split_ifs at hh with h1 h2
    push Not at h1 h2
    rw [← Option.some.inj hh] at ht
    exact range hp hs (mul_nonpos_of_nonneg_of_nonpos h1 h2.le) ht
  · simp only [Plane.intersectsLine, es', ee', Fl.zero_def, Fl.num_lt, gt_iff_lt, Fl.num_beq, decide_eq_true_eq] at hh
    split_ifs at hh with h1 h2 h3
    rw [← Option.some.inj hh] at ht
    refine range hp hs ?_ ht
    by_contra hc
    push Not at hc
    rcases pos_and_pos_or_neg_and_neg_of_mul_pos hc with a | a
    · exact h3 a
    · exact h2 a
  · obtain ⟨s2, hs2, es2⟩ := ex' s r
    obtain ⟨e2, he2, ee2⟩ := ex' e r
    simp only [Plane.hitsLineRadius, es', ee', es2, ee2, Fl.zero_def, Fl.num_lt, ge_iff_le, Fl.num_le] at hh
    split_ifs at hh with h1 h2
    push Not at h1 h2
    rw [← Option.some.inj hh] at ht
    exact range hp hs2 (mul_nonpos_of_nonneg_of_nonpos h1 h2.le) ht

/-- the point of a ray -/
private theorem ray (hr : IsRel rnd u) (hu : u ≤ 1 / 4096) (p : Plane ℝ) (r : Ray3 ℝ) {s' f' D : ℝ}
    (hs : |s' - p.value r.start| ≤ gam u 4 * p.size r.start)
    (hf : |f' - (p.normal.x * r.direction.x + p.normal.y * r.direction.y + p.normal.z * r.direction.z)| ≤
      gam u 3 * (|p.normal.x * r.direction.x| + |p.normal.y * r.direction.y| + |p.normal.z * r.direction.z|))
    (hf0 : f' ≠ 0) (hD : D = rnd (-s' / f')) (hD0 : 0 ≤ D) :
    ∃ q : Vec3 ℝ, (Ray3.num r : Ray3 (Fl ℝ rnd)).pointAt (.num D) = Vec3.num q ∧
      (|q.x - (r.start.x + r.direction.x * D)| ≤ 2.1 * u * (|r.start.x| + |r.direction.x| * D) ∧
       |q.y - (r.start.y + r.direction.y * D)| ≤ 2.1 * u * (|r.start.y| + |r.direction.y| * D) ∧
       |q.z - (r.start.z + r.direction.z * D)| ≤ 2.1 * u * (|r.start.z| + |r.direction.z| * D)) ∧
      |p.value q| ≤ 8 * u * (p.size r.start +
        (|p.normal.x * r.direction.x| + |p.normal.y * r.direction.y| + |p.normal.z * r.direction.z|) * D) := by
  have h0 := hr.nonneg
  obtain ⟨g4, g4'⟩ := gam_small h0 hu 4 (by norm_num)
  obtain ⟨g3, g3'⟩ := gam_small h0 hu 3 (by norm_num)
  obtain ⟨g2, g2'⟩ := gam_small h0 hu 2 (by norm_num)
  norm_num at g4 g3 g2
  have c : ∀ a b : ℝ, ∃ v : ℝ, (.num a + .num b * .num D : Fl ℝ rnd) = .num v ∧
      |v - (a + b * D)| ≤ 2.1 * u * (|a| + |b| * D) := by
    intro a b
    obtain ⟨-, v, ev, hv⟩ := AbsErr.add (k := 2) hr (AbsErr.exact hr a)
      (AbsErr.mul (k := 1) hr (AbsErr.exact hr b) (AbsErr.exact hr D))
    rw [abs_of_nonneg hD0] at hv
    exact ⟨v, ev, hv.trans (mul_le_mul_of_nonneg_right (by linarith) (by positivity))⟩
  obtain ⟨x, ex, hx⟩ := c r.start.x r.direction.x
  obtain ⟨y, ey, hy⟩ := c r.start.y r.direction.y
  obtain ⟨z, ez, hz⟩ := c r.start.z r.direction.z
  refine ⟨⟨x, y, z⟩, ?_, ⟨hx, hy, hz⟩, ?_⟩
  · rw [Vec3.num, ← ex, ← ey, ← ez]; rfl
  · set f := p.normal.x * r.direction.x + p.normal.y * r.direction.y + p.normal.z * r.direction.z with hfd
    set F := |p.normal.x * r.direction.x| + |p.normal.y * r.direction.y| + |p.normal.z * r.direction.z| with hFd
    have hF : 0 ≤ F := by rw [hFd]; positivity
    have hS := p.size_nonneg r.start
    have hsz : |p.value r.start| ≤ p.size r.start := (value_err hr p r.start).1
    have e0 := hr.err (-s' / f')
    rw [← hD] at e0
    have e1 : |s' + D * f'| ≤ u * |s'| := by
      have k : s' + D * f' = (D - -s' / f') * f' := by field_simp; ring
      rw [k, abs_mul]
      calc |D - -s' / f'| * |f'| ≤ u * |-s' / f'| * |f'| := mul_le_mul_of_nonneg_right e0 (abs_nonneg _)
        _ = u * |s'| := by rw [abs_div, abs_neg]; field_simp
    have hS' : |s'| ≤ 1.01 * p.size r.start := by
      have a : |s'| ≤ |s' - p.value r.start| + |p.value r.start| := by
        calc |s'| = |s' - p.value r.start + p.value r.start| := by ring_nf
          _ ≤ _ := abs_add_le _ _
      have b : gam u 4 * p.size r.start ≤ 0.002 * p.size r.start := mul_le_mul_of_nonneg_right (by linarith) hS
      linarith
    have v0 : |p.value r.start + D * f| ≤ 5.1 * u * p.size r.start + 3.1 * u * (F * D) := by
      have k : p.value r.start + D * f = (s' + D * f') - (s' - p.value r.start) - D * (f' - f) := by ring
      have a1 := abs_sub ((s' + D * f') - (s' - p.value r.start)) (D * (f' - f))
      have a2 := abs_sub (s' + D * f') (s' - p.value r.start)
      have a3 : |D * (f' - f)| ≤ D * (3.009 * u * F) := by
        rw [abs_mul, abs_of_nonneg hD0]
        exact mul_le_mul_of_nonneg_left (hf.trans (mul_le_mul_of_nonneg_right (by linarith) hF)) hD0
      have a4 : gam u 4 * p.size r.start ≤ 4.012 * u * p.size r.start := mul_le_mul_of_nonneg_right (by linarith) hS
      have a5 := mul_le_mul_of_nonneg_left hS' h0
      have a6 := mul_nonneg h0 hS
      have a7 := mul_nonneg h0 (mul_nonneg hF hD0)
      rw [k]
      linarith
    have hv := value_near p (x := ⟨r.start.x + r.direction.x * D, r.start.y + r.direction.y * D,
      r.start.z + r.direction.z * D⟩) (q := ⟨x, y, z⟩) (v := 5.1 * u * p.size r.start + 3.1 * u * (F * D)) (by
        refine le_trans (le_of_eq ?_) v0
        congr 1; simp only [Plane.value, hfd]; ring) hx hy hz
    refine hv.trans ?_
    have k1 : 2.1 * u * (|r.start.x| + |r.direction.x| * D) * |p.normal.x| + 2.1 * u * (|r.start.y| + |r.direction.y| * D) *
        |p.normal.y| + 2.1 * u * (|r.start.z| + |r.direction.z| * D) * |p.normal.z| =
        2.1 * u * (p.size r.start - |p.d|) + 2.1 * u * (F * D) := by
      simp only [Plane.size, hFd, abs_mul]; ring
    rw [k1]
    have a6 := mul_nonneg h0 hS
    have a7 := mul_nonneg h0 (mul_nonneg hF hD0)
    have a8 := mul_nonneg h0 (abs_nonneg p.d)
    linarith

/-- C164: the ray tests.  The point reported is the point of the ray at the distance reported, and a point of the plane, up to
rounding relative to the terms of the distance and the way along the ray.  `hits` reports a point if the start is in front
of the plane and the direction leads back by more than the errors, and none if one is not by more than the error. -/
theorem C164_ray (hr : IsRel rnd u) (hu : u ≤ 1 / 4096) (p : Plane ℝ) (r : Ray3 ℝ) :
    let f := p.normal.x * r.direction.x + p.normal.y * r.direction.y + p.normal.z * r.direction.z
    let F := |p.normal.x * r.direction.x| + |p.normal.y * r.direction.y| + |p.normal.z * r.direction.z|
    (∀ h, (Plane.num p : Plane (Fl ℝ rnd)).hitsRay (Ray3.num r) = some h ∨
        (Plane.num p : Plane (Fl ℝ rnd)).intersectsRay (Ray3.num r) = some h →
      ∃ (D : ℝ) (q : Vec3 ℝ), h = (Vec3.num q, .num D) ∧ 0 ≤ D ∧
        (|q.x - (r.start.x + r.direction.x * D)| ≤ 2.1 * u * (|r.start.x| + |r.direction.x| * D) ∧
         |q.y - (r.start.y + r.direction.y * D)| ≤ 2.1 * u * (|r.start.y| + |r.direction.y| * D) ∧
         |q.z - (r.start.z + r.direction.z * D)| ≤ 2.1 * u * (|r.start.z| + |r.direction.z| * D)) ∧
        |p.value q| ≤ 8 * u * (p.size r.start + F * D)) ∧
    (gam u 4 * p.size r.start ≤ p.value r.start → f < -(gam u 3 * F) →
      ∃ h, (Plane.num p : Plane (Fl ℝ rnd)).hitsRay (Ray3.num r) = some h) ∧
    (p.value r.start < -(gam u 4 * p.size r.start) ∨ gam u 3 * F ≤ f →
      (Plane.num p : Plane (Fl ℝ rnd)).hitsRay (Ray3.num r) = none) := by
  intro f F
  obtain ⟨-, s', es, hs⟩ := value_err hr p r.start
  obtain ⟨-, f', ef, hf⟩ := abs_sum3 hr p.normal.x r.direction.x p.normal.y r.direction.y p.normal.z r.direction.z
  have es' : (Ray3.num r : Ray3 (Fl ℝ rnd)).start.dot (Plane.num p : Plane (Fl ℝ rnd)).normal -
      (Plane.num p : Plane (Fl ℝ rnd)).d = .num s' := es
  have ef' : (Plane.num p : Plane (Fl ℝ rnd)).normal.dot (Ray3.num r : Ray3 (Fl ℝ rnd)).direction = .num f' := ef
  have sgn : ∀ x : ℝ, (rnd x < 0 ↔ x < 0) := by
    intro x
    obtain ⟨θ, hθ, e⟩ := hr.fac x
    have := Fac.pos hr.lt_one hθ
    rw [e]
    exact ⟨fun h => by by_contra hc; push Not at hc; nlinarith, fun h => mul_neg_of_neg_of_pos h this⟩
  have e1 : (Plane.num p : Plane (Fl ℝ rnd)).hitsRay (Ray3.num r) =
      if 0 ≤ f' then none else if rnd (-s' / f') < 0 then none else
        some ((Ray3.num r : Ray3 (Fl ℝ rnd)).pointAt (.num (rnd (-s' / f'))), .num (rnd (-s' / f'))) := by
    simp only [Plane.hitsRay, es', ef', Fl.zero_def, ge_iff_le, Fl.num_le]
    by_cases a : 0 ≤ f'
    · rw [if_pos a, if_pos a]
    · rw [if_neg a, if_neg a, Fl.num_neg, Fl.num_div, if_neg (by linarith [not_le.1 a] : ¬ f' = 0)]
      simp only [Fl.num_lt]
  have e2 : (Plane.num p : Plane (Fl ℝ rnd)).intersectsRay (Ray3.num r) =
      if f' = 0 then none else if rnd (-s' / f') < 0 then none else
        some ((Ray3.num r : Ray3 (Fl ℝ rnd)).pointAt (.num (rnd (-s' / f'))), .num (rnd (-s' / f'))) := by
    simp only [Plane.intersectsRay, es', ef', Fl.zero_def, Fl.num_beq, decide_eq_true_eq]
    by_cases a : f' = 0
    · rw [if_pos a, if_pos a]
    · rw [if_neg a, if_neg a, Fl.num_neg, Fl.num_div, if_neg a]
      simp only [Fl.num_lt]
  obtain ⟨s1, s2⟩ := abs_le.1 hs
  obtain ⟨f1, f2⟩ := abs_le.1 hf
  refine ⟨?_, ?_, ?_⟩
  · intro h hh
    have : f' ≠ 0 ∧ 0 ≤ rnd (-s' / f') ∧
        ((Ray3.num r : Ray3 (Fl ℝ rnd)).pointAt (.num (rnd (-s' / f'))), .num (rnd (-s' / f'))) = h := by
      rcases hh with hh | hh
      · rw [e1] at hh
        split_ifs at hh with a b
        exact ⟨by linarith [not_le.1 a], not_lt.1 b, Option.some.inj hh⟩
      · rw [e2] at hh
        split_ifs at hh with a b
        exact ⟨a, not_lt.1 b, Option.some.inj hh⟩
    obtain ⟨a, b, rfl⟩ := this
    obtain ⟨q, eq, h1, h2⟩ := ray hr hu p r hs hf a rfl b
    exact ⟨_, q, by rw [eq], b, h1, h2⟩
  · intro h1 h2
    have a : f' < 0 := by linarith
    have b : 0 ≤ s' := by linarith
    rw [e1, if_neg (not_le.2 a), if_neg]
    · exact ⟨_, rfl⟩
    · rw [sgn, not_lt]; exact div_nonneg_of_nonpos (by linarith) a.le
  · intro h
    rw [e1]
    split_ifs with a b
    · rfl
    · rfl
    · rcases h with h | h
      · exact absurd ((sgn _).2 (div_neg_of_pos_of_neg (by linarith) (not_le.1 a))) b
      · exact absurd (by linarith) a

/-- C164: the projection of a point is the exact one up to six roundings, and a point of the plane up to rounding, if the normal has
unit length up to rounding. -/
theorem C164_project (hr : IsRel rnd u) (hu : u ≤ 1 / 4096) (p : Plane ℝ)
    (hn : |p.normal.x ^ 2 + p.normal.y ^ 2 + p.normal.z ^ 2 - 1| ≤ 16 * u) (x : Vec3 ℝ) :
    ∃ (q : Vec3 ℝ) (t : ℝ), (Plane.num p : Plane (Fl ℝ rnd)).project (Vec3.num x) = (Vec3.num q, .num t) ∧
      |t - p.value x| ≤ 4.1 * u * p.size x ∧
      |q.x - (x.x - p.normal.x * p.value x)| ≤ 6.1 * u * (|x.x| + |p.normal.x| * p.size x) ∧
      |q.y - (x.y - p.normal.y * p.value x)| ≤ 6.1 * u * (|x.y| + |p.normal.y| * p.size x) ∧
      |q.z - (x.z - p.normal.z * p.value x)| ≤ 6.1 * u * (|x.z| + |p.normal.z| * p.size x) ∧
      |p.value q| ≤ 29 * u * p.size x := by
  have h0 := hr.nonneg
  have hv := value_err hr p x
  have hT := p.size_nonneg x
  obtain ⟨g4, g4'⟩ := gam_small h0 hu 4 (by norm_num)
  obtain ⟨g6, g6'⟩ := gam_small h0 hu 6 (by norm_num)
  norm_num at g4 g6
  obtain ⟨hsz, t, et, ht⟩ := id hv
  have c : ∀ a b : ℝ, ∃ v : ℝ, (.num a - .num b * .num t : Fl ℝ rnd) = .num v ∧
      |v - (a - b * p.value x)| ≤ 6.02 * u * (|a| + |b| * p.size x) := by
    intro a b
    obtain ⟨-, v, ev, hv⟩ := AbsErr.sub (k := 6) hr (AbsErr.exact hr a) (AbsErr.mul (k := 5) hr (AbsErr.exact hr b) hv)
    rw [et] at ev
    exact ⟨v, ev, hv.trans (mul_le_mul_of_nonneg_right (by linarith) (by positivity))⟩
  obtain ⟨a, ea, ha⟩ := c x.x p.normal.x
  obtain ⟨b, eb, hb⟩ := c x.y p.normal.y
  obtain ⟨d, ed, hd⟩ := c x.z p.normal.z
  have m : ∀ y n : ℝ, 6.02 * u * (|y| + |n| * p.size x) ≤ 6.1 * u * (|y| + |n| * p.size x) := by
    intro y n
    have : 0 ≤ |y| + |n| * p.size x := by positivity
    exact mul_le_mul_of_nonneg_right (by linarith) this
  refine ⟨⟨a, b, d⟩, t, ?_, ht.trans (mul_le_mul_of_nonneg_right (by linarith) hT), ha.trans (m _ _), hb.trans (m _ _),
    hd.trans (m _ _), ?_⟩
  · have et' : (Vec3.num x : Vec3 (Fl ℝ rnd)).dot (Plane.num p : Plane (Fl ℝ rnd)).normal -
      (Plane.num p : Plane (Fl ℝ rnd)).d = .num t := et
    simp only [Plane.project, et']
    have e : (Vec3.num ⟨a, b, d⟩ : Vec3 (Fl ℝ rnd)) = ⟨.num a, .num b, .num d⟩ := rfl
    rw [e, ← ea, ← eb, ← ed]; rfl
  · set N := p.normal.x ^ 2 + p.normal.y ^ 2 + p.normal.z ^ 2 with hN
    have v0 : |Plane.value p ⟨x.x - p.normal.x * p.value x, x.y - p.normal.y * p.value x, x.z - p.normal.z * p.value x⟩| ≤
        16 * u * p.size x := by
      have k : Plane.value p ⟨x.x - p.normal.x * p.value x, x.y - p.normal.y * p.value x, x.z - p.normal.z * p.value x⟩ =
          -(N - 1) * p.value x := by
        have : ∀ v : ℝ, Plane.value p ⟨x.x - p.normal.x * v, x.y - p.normal.y * v, x.z - p.normal.z * v⟩ = p.value x - N * v := by
          intro v; simp only [Plane.value, hN]; ring
        rw [this]; ring
      rw [k, abs_mul, abs_neg]
      exact mul_le_mul hn hsz (abs_nonneg _) (by linarith)
    refine (value_near p v0 ha hb hd).trans ?_
    have k : 6.02 * u * (|x.x| + |p.normal.x| * p.size x) * |p.normal.x| + 6.02 * u * (|x.y| + |p.normal.y| * p.size x) *
        |p.normal.y| + 6.02 * u * (|x.z| + |p.normal.z| * p.size x) * |p.normal.z| =
        6.02 * (u * (p.size x - |p.d|)) + 6.02 * (u * p.size x) * N := by
      have : p.size x - |p.d| = |x.x| * |p.normal.x| + |x.y| * |p.normal.y| + |x.z| * |p.normal.z| := by
        simp only [Plane.size, abs_mul]; ring
      rw [this, hN, ← sq_abs p.normal.x, ← sq_abs p.normal.y, ← sq_abs p.normal.z]; ring
    rw [k]
    have hN1 : N ≤ 1.01 := by linarith [(abs_le.1 hn).2]
    have a6 := mul_nonneg h0 hT
    have a8 := mul_nonneg h0 (abs_nonneg p.d)
    have := mul_le_mul_of_nonneg_left hN1 (by positivity : 0 ≤ 6.02 * (u * p.size x))
    linarith

/-- C164: the plane through a point has a normal of unit length and contains the point, up to rounding. -/
theorem C164_fromPoint (hr : IsRel rnd u) (hu : u ≤ 1 / 4096) (x n : Vec3 ℝ) (hn : n ≠ ⟨0, 0, 0⟩) :
    ∃ p : Plane ℝ, Plane.fromPoint (Vec3.num x : Vec3 (Fl ℝ rnd)) (Vec3.num n) = Plane.num p ∧
      |p.normal.x ^ 2 + p.normal.y ^ 2 + p.normal.z ^ 2 - 1| ≤ 11 * u ∧
      (let l := √(n.x ^ 2 + n.y ^ 2 + n.z ^ 2)
       |p.normal.x - n.x / l| ≤ 5.1 * u * |n.x / l| ∧ |p.normal.y - n.y / l| ≤ 5.1 * u * |n.y / l| ∧
       |p.normal.z - n.z / l| ≤ 5.1 * u * |n.z / l|) ∧
      |p.value x| ≤ 3.1 * u * (|p.normal.x * x.x| + |p.normal.y * x.y| + |p.normal.z * x.z|) := by
  have h0 := hr.nonneg
  obtain ⟨w, ew, -, hw, l1, l2⟩ := C119_normalized3 hr n hn 1
  obtain ⟨-, d, ed, hd⟩ := abs_sum3 hr w.x x.x w.y x.y w.z x.z
  obtain ⟨g3, g3'⟩ := gam_small h0 hu 3 (by norm_num)
  obtain ⟨g5, g5'⟩ := gam_small h0 hu 5 (by norm_num)
  norm_num at g3 g5
  refine ⟨⟨w, d⟩, ?_, ?_, ?_, ?_⟩
  · have ew' : (Vec3.num n : Vec3 (Fl ℝ rnd)).normalized 1 = Vec3.num w := ew
    simp only [Plane.fromPoint, ew']
    rw [Plane.num, ← ed]; rfl
  · have hs : 0 ≤ w.x ^ 2 + w.y ^ 2 + w.z ^ 2 := by positivity
    rw [abs_one, mul_one] at l1
    rw [abs_one] at l2
    have q0 : 0 < (1 - u) ^ 5 := Fac.gpos hr.lt_one 5
    have q1 : 1 / (1 - u) ^ 5 ≤ 1 + 5.015 * u := by
      have : gam u 5 = ((1 - u) ^ 5)⁻¹ - 1 := rfl
      rw [one_div]; linarith
    have q2 : 1 - 5 * u ≤ (1 - u) ^ 5 := by
      have := one_add_mul_le_pow (a := -u) (by linarith) 5
      calc 1 - 5 * u = 1 + ((5 : ℕ) : ℝ) * -u := by push_cast; ring
        _ ≤ (1 + -u) ^ 5 := this
        _ = _ := by ring
    have sq := Real.sq_sqrt hs
    set L := √(w.x ^ 2 + w.y ^ 2 + w.z ^ 2)
    have L0 : 0 ≤ L := Real.sqrt_nonneg _
    rw [← sq, abs_le]
    constructor <;> nlinarith
  · simp only [mul_one_div] at hw
    obtain ⟨h1, h2, h3⟩ := hw
    exact ⟨h1.trans (mul_le_mul_of_nonneg_right (by linarith) (abs_nonneg _)),
      h2.trans (mul_le_mul_of_nonneg_right (by linarith) (abs_nonneg _)),
      h3.trans (mul_le_mul_of_nonneg_right (by linarith) (abs_nonneg _))⟩
  · have k : Plane.value ⟨w, d⟩ x = -(d - (w.x * x.x + w.y * x.y + w.z * x.z)) := by unfold Plane.value; ring
    rw [k, abs_neg]
    exact hd.trans (mul_le_mul_of_nonneg_right (by linarith) (by positivity))

namespace PlaneErr

/-- the literal `1 / 10000` -/
theorem epsilon (hr : IsRel rnd u) (hu : u ≤ 1 / 16777216) :
    ∃ E : ℝ, (1 / 10000 : Fl ℝ rnd) = .num E ∧ 0.0000999 ≤ E ∧ E ≤ 0.0001001 := by
  obtain ⟨g2, g2'⟩ := gam_small hr.nonneg (by linarith) 2 (by norm_num)
  norm_num at g2
  obtain ⟨θ, hθ, e1⟩ := hr.fac 10000
  have t0 := Fac.pos hr.lt_one hθ
  obtain ⟨φ, hφ, e2⟩ := hr.fac (1 / rnd 10000)
  have hψ := Fac.abs_sub_one hr.lt_one (Fac.mul hr.lt_one hφ (Fac.inv hr.lt_one hθ) : Fac u (1 + 1) _)
  refine ⟨rnd (1 / rnd 10000), ?_, ?_⟩
  · rw [Fl.ofNat_def, Fl.one_def, Fl.num_div, if_neg]
    · norm_num
    · have : (((OfNat.ofNat 10000 : ℕ) : ℝ)) = 10000 := by norm_num
      rw [this, e1]; exact mul_ne_zero (by norm_num) t0.ne'
  · have e3 : rnd (1 / rnd 10000) = 1 / 10000 * (φ * θ⁻¹) := by rw [e2, e1]; field_simp
    rw [e3]
    obtain ⟨q1, q2⟩ := abs_le.1 hψ
    constructor <;> linarith

theorem abs_num (w : ℝ) : abs' (.num w : Fl ℝ rnd) = .num |w| := by
  rw [abs', Fl.zero_def]
  by_cases h : w < 0
  · rw [if_pos (by rw [Fl.num_lt]; exact h), Fl.num_neg, abs_of_neg h]
  · rw [if_neg (by rw [Fl.num_lt]; exact h), abs_of_nonneg (not_lt.1 h)]

/-- products of components of vectors not longer than about 1 -/
theorem am {x1 y1 z1 x2 y2 z2 : ℝ} (h1 : x1 ^ 2 + y1 ^ 2 + z1 ^ 2 ≤ 1.001) (h2 : x2 ^ 2 + y2 ^ 2 + z2 ^ 2 ≤ 1.001) :
    |y1 * z2| + |z1 * y2| ≤ 1.001 ∧ |z1 * x2| + |x1 * z2| ≤ 1.001 ∧ |x1 * y2| + |y1 * x2| ≤ 1.001 := by
  have k : ∀ s t : ℝ, |s * t| ≤ (s ^ 2 + t ^ 2) / 2 := by
    intro s t
    rw [abs_mul]
    nlinarith [sq_nonneg (|s| - |t|), sq_abs s, sq_abs t]
  have q1 := sq_nonneg x1
  have q2 := sq_nonneg y1
  have q3 := sq_nonneg z1
  have q4 := sq_nonneg x2
  have q5 := sq_nonneg y2
  have q6 := sq_nonneg z2
  refine ⟨?_, ?_, ?_⟩
  · linarith [k y1 z2, k z1 y2]
  · linarith [k z1 x2, k x1 z2]
  · linarith [k x1 y2, k y1 x2]

theorem taxi {x y z : ℝ} (h : x ^ 2 + y ^ 2 + z ^ 2 ≤ 1.001) : |x| + |y| + |z| ≤ 2 := by
  have s1 := sq_abs x
  have s2 := sq_abs y
  have s3 := sq_abs z
  nlinarith [sq_nonneg (|x| - 2 / 3), sq_nonneg (|y| - 2 / 3), sq_nonneg (|z| - 2 / 3)]

/-- a coordinate of the common point -/
theorem coord (hr : IsRel rnd u) (hu : u ≤ 1 / 16777216) {D w : ℝ} (hD : 0.000099 < |D|) (hD2 : |D| ≤ 2.002) (hw0 : w ≠ 0)
    (hwD : |w - D| ≤ 10.1 * u) (d e f : ℝ) {x y z : ℝ} {v1 v2 v3 : Fl ℝ rnd} (h1 : AbsErr u 2 1.001 x v1)
    (h2 : AbsErr u 2 1.001 y v2) (h3 : AbsErr u 2 1.001 z v3) :
    ∃ r : ℝ, (v1 * .num d + v2 * .num e + v3 * .num f) / .num w = .num r ∧
      |r - (x * d + y * e + z * f) / D| ≤ 24 * u * (|d| + |e| + |f|) / |D| ^ 2 := by
  have h0 := hr.nonneg
  obtain ⟨g6, g6'⟩ := gam_small h0 (by linarith) 6 (by norm_num)
  norm_num at g6
  have hDp : 0 < |D| := by linarith
  have hD0 : D ≠ 0 := abs_pos.1 hDp
  set S := |d| + |e| + |f| with hS
  have hS0 : 0 ≤ S := by rw [hS]; positivity
  have t := fun {x : ℝ} {v : Fl ℝ rnd} (h : AbsErr u 2 1.001 x v) (n : ℝ) => AbsErr.mul (k := 3) hr h (AbsErr.exact hr n)
  obtain ⟨hx, v, ev, hv⟩ := (AbsErr.add (k := 5) hr (AbsErr.add (k := 4) hr (t h1 d) (t h2 e)) (t h3 f)).mono hr le_rfl
    (show _ ≤ 1.001 * S by rw [hS]; linarith)
  obtain ⟨θ, hθ, eθ⟩ := hr.fac (v / w)
  have hκ : |w - D| ≤ 10.1 * u / |D| * |D| := by rw [div_mul_cancel₀ _ hDp.ne']; exact hwD
  have hκ1 : 10.1 * u / |D| ≤ 0.01 := by rw [div_le_iff₀ hDp]; linarith
  obtain ⟨-, h⟩ := quot_fac hr hx hv hκ hD0 (by linarith) hθ
  refine ⟨rnd (v / w), by rw [ev, Fl.num_div, if_neg hw0], ?_⟩
  rw [eθ, div_mul_eq_mul_div]
  refine h.trans ?_
  set κ := 10.1 * u / |D| with hκd
  have hκ0 : 0 ≤ κ := by rw [hκd]; positivity
  have k1 : (1 + gam u (5 + 1)) / (1 - κ) - 1 ≤ 23.5 * u / |D| := by
    have e1 : (1 + gam u (5 + 1)) / (1 - κ) - 1 = (gam u 6 + κ) / (1 - κ) := by
      have : 1 - κ ≠ 0 := by linarith
      field_simp; ring
    have k2 : u ≤ 2.002 * (u / |D|) := by
      rw [← mul_div_assoc, le_div_iff₀ hDp]; nlinarith
    have k3 : κ = 10.1 * (u / |D|) := by rw [hκd]; ring
    have k5 : 23.5 * u / |D| = 23.5 * (u / |D|) := by ring
    have k6 : 0 ≤ u / |D| := by positivity
    have k7 := mul_le_mul_of_nonneg_left hκ1 k6
    rw [e1, div_le_iff₀ (by linarith), k5]
    linarith
  calc ((1 + gam u (5 + 1)) / (1 - κ) - 1) * (1.001 * S / |D|) ≤ 23.5 * u / |D| * (1.001 * S / |D|) :=
        mul_le_mul_of_nonneg_right k1 (by positivity)
    _ = 23.5235 * (u * S) / |D| ^ 2 := by ring
    _ ≤ 24 * u * S / |D| ^ 2 := by
      refine div_le_div_of_nonneg_right ?_ (by positivity)
      linarith [mul_nonneg h0 hS0]

end PlaneErr

/-- C164: where three planes meet, with normals not longer than about 1.  The determinant is compared with 1/10000 up to
rounding; whenever a point is reported the planes have exactly one common point, and it is near. -/
theorem C164_threePlanes (hr : IsRel rnd u) (hu : u ≤ 1 / 16777216) (a b c : Plane ℝ)
    (hn : ∀ p ∈ [a, b, c], p.normal.x ^ 2 + p.normal.y ^ 2 + p.normal.z ^ 2 ≤ 1.001) :
    let D := (a.normal.y * b.normal.z - a.normal.z * b.normal.y) * c.normal.x +
      (a.normal.z * b.normal.x - a.normal.x * b.normal.z) * c.normal.y +
      (a.normal.x * b.normal.y - a.normal.y * b.normal.x) * c.normal.z
    ∃ (f : Bool) (q : Vec3 ℝ),
      (Plane.num a : Plane (Fl ℝ rnd)).intersectAtSinglePoint (Plane.num b) (Plane.num c) = .ok (f, Vec3.num q) ∧
      (0.000101 ≤ |D| → f = true) ∧ (|D| ≤ 0.000099 → f = false) ∧
      (f = true → ∃ P : Vec3 ℝ, (∀ x : Vec3 ℝ, (a.value x = 0 ∧ b.value x = 0 ∧ c.value x = 0) ↔ x = P) ∧
        ∀ e, e = 24 * u * (|a.d| + |b.d| + |c.d|) / |D| ^ 2 → |q.x - P.x| ≤ e ∧ |q.y - P.y| ≤ e ∧ |q.z - P.z| ≤ e) := by
  intro D
  have h0 := hr.nonneg
  have hu' : u ≤ 1 / 4096 := by linarith
  obtain ⟨g5, g5'⟩ := gam_small h0 hu' 5 (by norm_num)
  obtain ⟨g6, g6'⟩ := gam_small h0 hu' 6 (by norm_num)
  obtain ⟨g2, g2'⟩ := gam_small h0 hu' 2 (by norm_num)
  norm_num at g5 g6 g2
  have ha := hn a (by simp)
  have hb := hn b (by simp)
  have hc := hn c (by simp)
  -- the cross products
  have pr2 : ∀ x y z w : ℝ, AbsErr u 2 (|x * y| + |z * w|) (x * y - z * w) (.num x * .num y - .num z * .num w : Fl ℝ rnd) :=
    fun x y z w => abs_diff2 hr x y z w
  have ab := am ha hb
  have bc := am hb hc
  have ca := am hc ha
  have c2 := taxi hc
  have m1 : ∀ {n : ℕ} {A B x : ℝ} {v : Fl ℝ rnd}, AbsErr u n A x v → A ≤ B → AbsErr u n B x v :=
    fun h hA => h.mono hr le_rfl hA
  have abx := m1 (pr2 a.normal.y b.normal.z a.normal.z b.normal.y) ab.1
  have aby := m1 (pr2 a.normal.z b.normal.x a.normal.x b.normal.z) ab.2.1
  have abz := m1 (pr2 a.normal.x b.normal.y a.normal.y b.normal.x) ab.2.2
  have bcx := m1 (pr2 b.normal.y c.normal.z b.normal.z c.normal.y) bc.1
  have bcy := m1 (pr2 b.normal.z c.normal.x b.normal.x c.normal.z) bc.2.1
  have bcz := m1 (pr2 b.normal.x c.normal.y b.normal.y c.normal.x) bc.2.2
  have cax := m1 (pr2 c.normal.y a.normal.z c.normal.z a.normal.y) ca.1
  have cay := m1 (pr2 c.normal.z a.normal.x c.normal.x a.normal.z) ca.2.1
  have caz := m1 (pr2 c.normal.x a.normal.y c.normal.y a.normal.x) ca.2.2
  -- the determinant
  obtain ⟨hD2, w, ew, hw⟩ : AbsErr u 5 2.002 D (((Plane.num a : Plane (Fl ℝ rnd)).normal.cross (Plane.num b).normal).dot
      (Plane.num c).normal) := by
    have x := fun {A x : ℝ} {v : Fl ℝ rnd} (h : AbsErr u 2 A x v) (n : ℝ) => AbsErr.mul (k := 3) hr h (AbsErr.exact hr n)
    have := AbsErr.add (k := 5) hr (AbsErr.add (k := 4) hr (x abx c.normal.x) (x aby c.normal.y)) (x abz c.normal.z)
    exact m1 this (by linarith)
  -- the bound of the test
  obtain ⟨E, eE, hE1, hE2⟩ := epsilon hr hu
  have eA := abs_num (rnd := rnd) w
  have hwD : |w - D| ≤ 10.1 * u := hw.trans (by nlinarith)
  have d1 : |D| ≤ |w| + 10.1 * u := by
    have := abs_sub_abs_le_abs_sub D w
    rw [abs_sub_comm] at this; linarith
  have d2 : |w| ≤ |D| + 10.1 * u := by
    have := abs_sub_abs_le_abs_sub w D
    linarith
  simp only [Plane.intersectAtSinglePoint, ew, eA, eE, Fl.num_lt]
  by_cases hlt : |w| < E
  · refine ⟨false, ⟨0, 0, 0⟩, by rw [if_pos hlt]; rfl, fun h => ?_, fun _ => rfl, fun h => absurd h (by simp)⟩
    linarith
  · rw [if_neg hlt]
    push Not at hlt
    have hDl : 0.000099 < |D| := by linarith
    have hD0 : D ≠ 0 := abs_pos.1 (by linarith)
    have hw0 : w ≠ 0 := abs_pos.1 (by linarith)
    have num := @coord _ _ hr hu D w hDl hD2 hw0 hwD a.d b.d c.d
    obtain ⟨x, ex, hx⟩ := num bcx cax abx
    obtain ⟨y, ey, hy⟩ := num bcy cay aby
    obtain ⟨z, ez, hz⟩ := num bcz caz abz
    refine ⟨true, ⟨x, y, z⟩, ?_, fun _ => rfl, fun h => by linarith, fun _ => ⟨⟨_, _, _⟩, ?_, fun e he => ⟨hx.trans_eq he.symm, hy.trans_eq he.symm, hz.trans_eq he.symm⟩⟩⟩
    · have hz0 : (Fl.num w == (0 : Fl ℝ rnd)) = false := by rw [Fl.zero_def, Fl.num_beq]; simpa using hw0
      have e : (Vec3.num ⟨x, y, z⟩ : Vec3 (Fl ℝ rnd)) = ⟨.num x, .num y, .num z⟩ := rfl
      simp only [Vec3.div, hz0, Bool.false_eq_true, if_false]
      rw [e, ← ex, ← ey, ← ez]; rfl
    · intro X
      constructor
      · rintro ⟨v1, v2, v3⟩
        simp only [Plane.value] at v1 v2 v3
        ext
        · simp only
          rw [eq_div_iff hD0]
          linear_combination (b.normal.y * c.normal.z - b.normal.z * c.normal.y) * v1 +
            (c.normal.y * a.normal.z - c.normal.z * a.normal.y) * v2 + (a.normal.y * b.normal.z - a.normal.z * b.normal.y) * v3
        · simp only
          rw [eq_div_iff hD0]
          linear_combination (b.normal.z * c.normal.x - b.normal.x * c.normal.z) * v1 +
            (c.normal.z * a.normal.x - c.normal.x * a.normal.z) * v2 + (a.normal.z * b.normal.x - a.normal.x * b.normal.z) * v3
        · simp only
          rw [eq_div_iff hD0]
          linear_combination (b.normal.x * c.normal.y - b.normal.y * c.normal.x) * v1 +
            (c.normal.x * a.normal.y - c.normal.y * a.normal.x) * v2 + (a.normal.x * b.normal.y - a.normal.y * b.normal.x) * v3
      · rintro rfl
        simp only [Plane.value]
        refine ⟨?_, ?_, ?_⟩ <;>
        · rw [div_mul_eq_mul_div, div_mul_eq_mul_div, div_mul_eq_mul_div, ← add_div, ← add_div, sub_eq_zero, div_eq_iff hD0]
          ring

/-- a plane and a segment that crosses it at a small angle, in `float` -/
example : ∃ h, (Plane.num ⟨⟨0, 0, 1⟩, 1⟩ : Plane (Fl ℝ (rne 24))).hitsLine (Line3.num ⟨⟨0, 0, 1 + 1 / 1024⟩, ⟨8, 0, 1 - 1 / 1024⟩⟩) = some h := by
  have g := (gam_small (u := 2 ^ (-(24 : ℕ) : ℤ)) (by positivity) (by norm_num) 4 (by norm_num)).1
  norm_num at g
  refine (C164_hitsLine (isRel_rne 24 (by norm_num)) (by norm_num) ⟨⟨0, 0, 1⟩, 1⟩
    ⟨⟨0, 0, 1 + 1 / 1024⟩, ⟨8, 0, 1 - 1 / 1024⟩⟩).2.1 ?_ ?_
  · norm_num [Plane.size, Plane.value]; linarith
  · norm_num [Plane.size, Plane.value]; linarith

example : ∃ h, (Plane.num ⟨⟨0, 0, 1⟩, 1⟩ : Plane (Fl ℝ (rne 24))).hitsLineRadius (Line3.num ⟨⟨0, 0, 3⟩, ⟨8, 0, -1⟩⟩) (.num 1) = some h := by
  have g := (gam_small (u := 2 ^ (-(24 : ℕ) : ℤ)) (by positivity) (by norm_num) 5 (by norm_num)).1
  norm_num at g
  refine (C164_hitsLineRadius (isRel_rne 24 (by norm_num)) (by norm_num) ⟨⟨0, 0, 1⟩, 1⟩
    ⟨⟨0, 0, 3⟩, ⟨8, 0, -1⟩⟩ 1).2.1 ?_ ?_
  · norm_num [Plane.size, Plane.value]; linarith
  · norm_num [Plane.size, Plane.value]; linarith

example : ∃ h, (Plane.num ⟨⟨0, 0, 1⟩, 1⟩ : Plane (Fl ℝ (rne 24))).intersectsLine (Line3.num ⟨⟨0, 0, -1⟩, ⟨8, 0, 3⟩⟩) = some h := by
  have g := (gam_small (u := 2 ^ (-(24 : ℕ) : ℤ)) (by positivity) (by norm_num) 4 (by norm_num)).1
  norm_num at g
  refine (C164_intersectsLine (isRel_rne 24 (by norm_num)) (by norm_num) ⟨⟨0, 0, 1⟩, 1⟩
    ⟨⟨0, 0, -1⟩, ⟨8, 0, 3⟩⟩).2.1 (.inr ⟨?_, ?_⟩)
  · norm_num [Plane.size, Plane.value]; linarith
  · norm_num [Plane.size, Plane.value]; linarith

example : ∃ h, (Plane.num ⟨⟨0, 0, 1⟩, 1⟩ : Plane (Fl ℝ (rne 24))).hitsRay (Ray3.num ⟨⟨0, 5, 3⟩, ⟨3 / 5, 0, -(4 / 5)⟩⟩) = some h := by
  have g := (gam_small (u := 2 ^ (-(24 : ℕ) : ℤ)) (by positivity) (by norm_num) 4 (by norm_num)).1
  have g' := (gam_small (u := 2 ^ (-(24 : ℕ) : ℤ)) (by positivity) (by norm_num) 3 (by norm_num)).1
  norm_num at g g'
  refine (C164_ray (isRel_rne 24 (by norm_num)) (by norm_num) ⟨⟨0, 0, 1⟩, 1⟩ ⟨⟨0, 5, 3⟩, ⟨3 / 5, 0, -(4 / 5)⟩⟩).2.1 ?_ ?_
  · norm_num [Plane.size, Plane.value]; linarith
  · norm_num [Plane.size, Plane.value]; linarith

/-- planes with a computed normal meet the hypothesis of `C164_project` -/
example : ∃ p : Plane ℝ, Plane.fromPoint (Vec3.num ⟨1, 2, 3⟩ : Vec3 (Fl ℝ (rne 24))) (Vec3.num ⟨1, 1, 1⟩) = Plane.num p ∧
    |p.normal.x ^ 2 + p.normal.y ^ 2 + p.normal.z ^ 2 - 1| ≤ 16 * 2 ^ (-(24 : ℕ) : ℤ) := by
  obtain ⟨p, h1, h2, -⟩ := C164_fromPoint (isRel_rne 24 (by norm_num)) (by norm_num) ⟨1, 2, 3⟩ ⟨1, 1, 1⟩ (by simp)
  refine ⟨p, h1, h2.trans ?_⟩
  norm_num

/-- three planes at small angles, with a determinant of 1/5 -/
example : ∀ p ∈ [(⟨⟨0, 0, 1⟩, 1⟩ : Plane ℝ), ⟨⟨0, 3 / 5, 4 / 5⟩, 2⟩, ⟨⟨1 / 3, 2 / 3, 2 / 3⟩, -3⟩],
    p.normal.x ^ 2 + p.normal.y ^ 2 + p.normal.z ^ 2 ≤ 1.001 := by
  simp; norm_num

end MathLib
