import Verif.Proof.RelErr
import Verif.Props.Rounding

/-! # Property C177: moving, converting and parametrising boxes in floating point -/

namespace MathLib

section Move
variable {K : Type} [Field K] [LinearOrder K] [IsStrictOrderedRing K] {rnd : K → K}

private theorem le_add (hm : Monotone rnd) {a b : Fl K rnd} (h : a ≤ b) (t : K) :
    a + .num t ≤ b + .num t ∧ a - .num t ≤ b - .num t := by
  cases a with
  | nan => exact absurd h (by simp)
  | num a =>
    cases b with
    | nan => exact absurd h (by simp)
    | num b =>
      have h' := (Fl.num_le a b).1 h
      rw [Fl.num_add, Fl.num_add, Fl.num_sub, Fl.num_sub, Fl.num_le, Fl.num_le]
      exact ⟨hm (by linarith), hm (by linarith)⟩

private theorem lt_of_add (hm : Monotone rnd) {a b : Fl K rnd} (t : K) :
    (a + .num t < b + .num t → a < b) ∧ (a - .num t < b - .num t → a < b) := by
  cases a with
  | nan => exact ⟨fun h => absurd h (Fl.nan_lt _), fun h => absurd h (Fl.nan_lt _)⟩
  | num a =>
    cases b with
    | nan => exact ⟨fun h => absurd h (by rw [Fl.num_add]; exact Fl.lt_nan _), fun h => absurd h (by rw [Fl.num_sub]; exact Fl.lt_nan _)⟩
    | num b =>
      rw [Fl.num_add, Fl.num_add, Fl.num_sub, Fl.num_sub, Fl.num_lt, Fl.num_lt, Fl.num_lt]
      exact ⟨fun h => by have := hm.reflect_lt h; linarith, fun h => by have := hm.reflect_lt h; linarith⟩

/-- C177 for corner boxes in the plane, whatever the rounding, as long as it keeps the order: moving a box and a point (or box) by the same
amount keeps them inside and touching. -/
theorem C177_move2 (hm : Monotone rnd) (b o : AABB2 (Fl K rnd)) (p : Vec2 (Fl K rnd)) (t : Vec2 K) :
    (b.contains p = true → (b.translate (Vec2.num t)).contains (p + Vec2.num t) = true ∧
      (b.translateNeg (Vec2.num t)).contains (p - Vec2.num t) = true) ∧
    (b.containsBox o = true → (b.translate (Vec2.num t)).containsBox (o.translate (Vec2.num t)) = true ∧
      (b.translateNeg (Vec2.num t)).containsBox (o.translateNeg (Vec2.num t)) = true) ∧
    (b.intersects o = true → (b.translate (Vec2.num t)).intersects (o.translate (Vec2.num t)) = true ∧
      (b.translateNeg (Vec2.num t)).intersects (o.translateNeg (Vec2.num t)) = true) := by
  refine ⟨fun h => ?_, fun h => ?_, fun h => ?_⟩
  · have key : ∀ (b : AABB2 (Fl K rnd)) (p : Vec2 (Fl K rnd)), b.contains p = true ↔
        (b.inf.x ≤ p.x ∧ p.x ≤ b.sup.x) ∧ (b.inf.y ≤ p.y ∧ p.y ≤ b.sup.y) := by
      intro b p
      simp [AABB2.contains, and_assoc]
    rw [key] at h
    obtain ⟨⟨h1, h2⟩, h3, h4⟩ := h
    rw [key, key]
    simp only [AABB2.translate, AABB2.translateNeg, Vec2.add_x, Vec2.add_y,
      Vec2.sub_x, Vec2.sub_y, Vec2.num]
    exact ⟨⟨⟨(le_add hm h1 _).1, (le_add hm h2 _).1⟩, (le_add hm h3 _).1, (le_add hm h4 _).1⟩,
      ⟨(le_add hm h1 _).2, (le_add hm h2 _).2⟩, (le_add hm h3 _).2, (le_add hm h4 _).2⟩
  · have key : ∀ (b : AABB2 (Fl K rnd)) (o : AABB2 (Fl K rnd)), b.containsBox o = true ↔
        (b.inf.x ≤ o.inf.x ∧ o.sup.x ≤ b.sup.x) ∧ (b.inf.y ≤ o.inf.y ∧ o.sup.y ≤ b.sup.y) := by
      intro b o
      simp [AABB2.containsBox, and_assoc]
    rw [key] at h
    obtain ⟨⟨h1, h2⟩, h3, h4⟩ := h
    rw [key, key]
    simp only [AABB2.translate, AABB2.translateNeg, Vec2.add_x,
      Vec2.add_y, Vec2.sub_x, Vec2.sub_y, Vec2.num]
    exact ⟨⟨⟨(le_add hm h1 _).1, (le_add hm h2 _).1⟩, (le_add hm h3 _).1, (le_add hm h4 _).1⟩,
      ⟨(le_add hm h1 _).2, (le_add hm h2 _).2⟩, (le_add hm h3 _).2, (le_add hm h4 _).2⟩
  · have key : ∀ a b : AABB2 (Fl K rnd), a.intersects b = true ↔
        (¬ (a.sup.x < b.inf.x) ∧ ¬ (b.sup.x < a.inf.x)) ∧ ¬ (a.sup.y < b.inf.y) ∧ ¬ (b.sup.y < a.inf.y) := by
      intro a b
      simp only [AABB2.intersects, gt_iff_lt]
      split_ifs <;> simp_all <;> tauto
    rw [key] at h
    rw [key, key]
    obtain ⟨⟨h1, h2⟩, h3, h4⟩ := h
    simp only [AABB2.translate, AABB2.translateNeg, Vec2.add_x, Vec2.add_y, Vec2.sub_x, Vec2.sub_y, Vec2.num]
    exact ⟨⟨⟨fun k => h1 ((lt_of_add hm _).1 k), fun k => h2 ((lt_of_add hm _).1 k)⟩, fun k => h3 ((lt_of_add hm _).1 k),
      fun k => h4 ((lt_of_add hm _).1 k)⟩, ⟨fun k => h1 ((lt_of_add hm _).2 k), fun k => h2 ((lt_of_add hm _).2 k)⟩,
      fun k => h3 ((lt_of_add hm _).2 k), fun k => h4 ((lt_of_add hm _).2 k)⟩

/-- C177 for corner boxes in space, whatever the rounding, as long as it keeps the order. -/
theorem C177_move3 (hm : Monotone rnd) (b o : AABB3 (Fl K rnd)) (p : Vec3 (Fl K rnd)) (t : Vec3 K) :
    (b.contains p = true → (b.translate (Vec3.num t)).contains (p + Vec3.num t) = true ∧
      (b.translateNeg (Vec3.num t)).contains (p - Vec3.num t) = true) ∧
    (b.containsBox o = true → (b.translate (Vec3.num t)).containsBox (o.translate (Vec3.num t)) = true ∧
      (b.translateNeg (Vec3.num t)).containsBox (o.translateNeg (Vec3.num t)) = true) ∧
    (b.intersects o = true → (b.translate (Vec3.num t)).intersects (o.translate (Vec3.num t)) = true ∧
      (b.translateNeg (Vec3.num t)).intersects (o.translateNeg (Vec3.num t)) = true) := by
  refine ⟨fun h => ?_, fun h => ?_, fun h => ?_⟩
  · have key : ∀ (b : AABB3 (Fl K rnd)) (p : Vec3 (Fl K rnd)), b.contains p = true ↔
        ((b.inf.x ≤ p.x ∧ p.x ≤ b.sup.x) ∧ (b.inf.y ≤ p.y ∧ p.y ≤ b.sup.y)) ∧ (b.inf.z ≤ p.z ∧ p.z ≤ b.sup.z) := by
      intro b p
      simp [AABB3.contains, and_assoc]
    rw [key] at h
    obtain ⟨⟨⟨h1, h2⟩, h3, h4⟩, h5, h6⟩ := h
    rw [key, key]
    simp only [AABB3.translate, AABB3.translateNeg, Vec3.add_x, Vec3.add_y,
      Vec3.add_z, Vec3.sub_x, Vec3.sub_y, Vec3.sub_z, Vec3.num]
    exact ⟨⟨⟨⟨(le_add hm h1 _).1, (le_add hm h2 _).1⟩, (le_add hm h3 _).1, (le_add hm h4 _).1⟩, (le_add hm h5 _).1, (le_add hm h6 _).1⟩,
      ⟨⟨(le_add hm h1 _).2, (le_add hm h2 _).2⟩, (le_add hm h3 _).2, (le_add hm h4 _).2⟩, (le_add hm h5 _).2, (le_add hm h6 _).2⟩
  · have key : ∀ (b : AABB3 (Fl K rnd)) (o : AABB3 (Fl K rnd)), b.containsBox o = true ↔
        ((b.inf.x ≤ o.inf.x ∧ o.sup.x ≤ b.sup.x) ∧ (b.inf.y ≤ o.inf.y ∧ o.sup.y ≤ b.sup.y)) ∧ (b.inf.z ≤ o.inf.z ∧ o.sup.z ≤ b.sup.z) := by
      intro b o
      simp [AABB3.containsBox, and_assoc]
    rw [key] at h
    obtain ⟨⟨⟨h1, h2⟩, h3, h4⟩, h5, h6⟩ := h
    rw [key, key]
    simp only [AABB3.translate, AABB3.translateNeg, Vec3.add_x,
      Vec3.add_y, Vec3.add_z, Vec3.sub_x, Vec3.sub_y, Vec3.sub_z, Vec3.num]
    exact ⟨⟨⟨⟨(le_add hm h1 _).1, (le_add hm h2 _).1⟩, (le_add hm h3 _).1, (le_add hm h4 _).1⟩, (le_add hm h5 _).1, (le_add hm h6 _).1⟩,
      ⟨⟨(le_add hm h1 _).2, (le_add hm h2 _).2⟩, (le_add hm h3 _).2, (le_add hm h4 _).2⟩, (le_add hm h5 _).2, (le_add hm h6 _).2⟩
  · have key : ∀ a b : AABB3 (Fl K rnd), a.intersects b = true ↔
        (¬ (a.sup.x < b.inf.x) ∧ ¬ (b.sup.x < a.inf.x)) ∧ (¬ (a.sup.y < b.inf.y) ∧ ¬ (b.sup.y < a.inf.y)) ∧
        ¬ (a.sup.z < b.inf.z) ∧ ¬ (b.sup.z < a.inf.z) := by
      intro a b
      simp only [AABB3.intersects, gt_iff_lt]
      split_ifs <;> simp_all <;> tauto
    rw [key] at h
    rw [key, key]
    obtain ⟨⟨h1, h2⟩, ⟨h3, h4⟩, h5, h6⟩ := h
    simp only [AABB3.translate, AABB3.translateNeg, Vec3.add_x, Vec3.add_y, Vec3.add_z, Vec3.sub_x, Vec3.sub_y, Vec3.sub_z, Vec3.num]
    exact ⟨⟨⟨fun k => h1 ((lt_of_add hm _).1 k), fun k => h2 ((lt_of_add hm _).1 k)⟩, ⟨fun k => h3 ((lt_of_add hm _).1 k),
      fun k => h4 ((lt_of_add hm _).1 k)⟩, fun k => h5 ((lt_of_add hm _).1 k), fun k => h6 ((lt_of_add hm _).1 k)⟩,
      ⟨fun k => h1 ((lt_of_add hm _).2 k), fun k => h2 ((lt_of_add hm _).2 k)⟩,
      ⟨fun k => h3 ((lt_of_add hm _).2 k), fun k => h4 ((lt_of_add hm _).2 k)⟩, fun k => h5 ((lt_of_add hm _).2 k),
      fun k => h6 ((lt_of_add hm _).2 k)⟩

/-- C177: a corner box made from a centred one contains and touches the same, whatever the arithmetic. -/
theorem C177_corners {R : Type} [Add R] [Sub R] [LT R] [LE R] [DecidableLT R] [DecidableLE R] (c d : CAABB2 R) (q : Vec2 R)
    (c' d' : CAABB3 R) (q' : Vec3 R) :
    ((AABB2.ofCBox c).contains q = c.contains q ∧ (AABB2.ofCBox c).containsBox (AABB2.ofCBox d) = c.containsBox d ∧
      (AABB2.ofCBox c).intersects (AABB2.ofCBox d) = c.intersects d) ∧
    ((AABB3.ofCBox c').contains q' = c'.contains q' ∧ (AABB3.ofCBox c').containsBox (AABB3.ofCBox d') = c'.containsBox d' ∧
      (AABB3.ofCBox c').intersects (AABB3.ofCBox d') = c'.intersects d') :=
  ⟨⟨rfl, rfl, rfl⟩, rfl, rfl, rfl⟩

end Move

section Rne
variable {K : Type} [Field K] [LinearOrder K] [IsStrictOrderedRing K] [FloorRing K] {p : ℕ}

private theorem cpt (hp : 1 ≤ p) {c e t : K} (he : Rep p e) (e0 : 0 ≤ e) (t0 : -1 ≤ t) (t1 : t ≤ 1) :
    rne p (c - e) ≤ rne p (c + rne p (e * t)) ∧ rne p (c + rne p (e * t)) ≤ rne p (c + e) := by
  have h1 := rne_mono p hp (show -e ≤ e * t by nlinarith)
  have h2 := rne_mono p hp (show e * t ≤ e by nlinarith)
  rw [rne_neg, rne_of_rep hp he] at h1
  rw [rne_of_rep hp he] at h2
  exact ⟨rne_mono p hp (by linarith), rne_mono p hp (by linarith)⟩

/-- C177: a centred box contains every point `pointAt` computes for parameters in `[-1,1]`. -/
theorem C177_centred (hp : 1 ≤ p) (c e t : Vec2 K) (c' e' t' : Vec3 K) :
    ((Rep p e.x ∧ Rep p e.y) → (0 ≤ e.x ∧ 0 ≤ e.y) → (|t.x| ≤ 1 ∧ |t.y| ≤ 1) →
      (⟨Vec2.num c, Vec2.num e⟩ : CAABB2 (Fl K (rne p))).contains
        ((⟨Vec2.num c, Vec2.num e⟩ : CAABB2 (Fl K (rne p))).pointAt (Vec2.num t)) = true) ∧
    ((Rep p e'.x ∧ Rep p e'.y ∧ Rep p e'.z) → (0 ≤ e'.x ∧ 0 ≤ e'.y ∧ 0 ≤ e'.z) → (|t'.x| ≤ 1 ∧ |t'.y| ≤ 1 ∧ |t'.z| ≤ 1) →
      (⟨Vec3.num c', Vec3.num e'⟩ : CAABB3 (Fl K (rne p))).contains
        ((⟨Vec3.num c', Vec3.num e'⟩ : CAABB3 (Fl K (rne p))).pointAt (Vec3.num t')) = true) := by
  constructor
  · rintro ⟨r1, r2⟩ ⟨n1, n2⟩ ⟨a1, a2⟩
    rw [abs_le] at a1 a2
    simp only [CAABB2.contains, CAABB2.pointAt, Vec2.num, Fl.num_mul, Fl.num_add, Fl.num_sub, Bool.and_eq_true, decide_eq_true_eq,
      ge_iff_le, Fl.num_le]
    exact ⟨cpt hp r1 n1 a1.1 a1.2, cpt hp r2 n2 a2.1 a2.2⟩
  · rintro ⟨r1, r2, r3⟩ ⟨n1, n2, n3⟩ ⟨a1, a2, a3⟩
    rw [abs_le] at a1 a2 a3
    simp only [CAABB3.contains, CAABB3.pointAt, Vec3.num, Fl.num_mul, Fl.num_add, Fl.num_sub, Bool.and_eq_true, decide_eq_true_eq,
      ge_iff_le, Fl.num_le]
    exact ⟨⟨cpt hp r1 n1 a1.1 a1.2, cpt hp r2 n2 a2.1 a2.2⟩, cpt hp r3 n3 a3.1 a3.2⟩

private theorem ppt (hp : 1 ≤ p) {lo hi t m : K} (hl : Rep p lo) (h : lo ≤ hi) (h1 : |lo| ≤ m) (h2 : |hi| ≤ m) (t0 : 0 ≤ t) (t1 : t ≤ 1) :
    lo ≤ rne p (lo + rne p (rne p (hi - lo) * t)) ∧
    |rne p (lo + rne p (rne p (hi - lo) * t)) - (lo + (hi - lo) * t)| ≤ m * (2 : K) ^ (-(p : ℤ)) * (5 + 8 * (2 : K) ^ (-(p : ℤ))) := by
  have u0 := zpow2_pos (K := K) (-(p : ℤ))
  have u1 : (2 : K) ^ (-(p : ℤ)) ≤ 1 := by
    have : (2 : K) ^ (-(p : ℤ)) ≤ 2 ^ (0 : ℤ) := zpow_le_zpow_right₀ one_le_two (by omega)
    simpa using this
  have e1 := rne_rel p (hi - lo)
  have e2 := rne_rel p (rne p (hi - lo) * t)
  have e3 := rne_rel p (lo + rne p (rne p (hi - lo) * t))
  have m0 : 0 ≤ m := (abs_nonneg _).trans h1
  have d0 : 0 ≤ rne p (hi - lo) := by
    have := rne_mono p hp (show 0 ≤ hi - lo by linarith); rwa [rne_zero] at this
  have w0 : 0 ≤ rne p (rne p (hi - lo) * t) := by
    have := rne_mono p hp (show 0 ≤ rne p (hi - lo) * t from mul_nonneg d0 t0); rwa [rne_zero] at this
  constructor
  · have := rne_mono p hp (show lo ≤ lo + rne p (rne p (hi - lo) * t) by linarith)
    rwa [rne_of_rep hp hl] at this
  generalize rne p (lo + rne p (rne p (hi - lo) * t)) = W at *
  generalize rne p (rne p (hi - lo) * t) = D' at *
  generalize rne p (hi - lo) = D at *
  generalize (2 : K) ^ (-(p : ℤ)) = u at *
  rw [abs_le] at h1 h2
  have a1 : |hi - lo| ≤ 2 * m := by rw [abs_le]; constructor <;> linarith
  have f1 := e1.trans (mul_le_mul_of_nonneg_right a1 u0.le)
  have g1 := abs_le.1 f1
  have dt : D * t ≤ 2 * m + 2 * m * u := (mul_le_of_le_one_right d0 t1).trans (by rw [abs_le] at a1; linarith)
  have a2 : |D * t| ≤ 2 * m + 2 * m * u := by rw [abs_of_nonneg (mul_nonneg d0 t0)]; exact dt
  have g2 := abs_le.1 (e2.trans (mul_le_mul_of_nonneg_right a2 u0.le))
  have et : |D * t - (hi - lo) * t| ≤ 2 * m * u := by
    rw [← sub_mul, abs_mul, abs_of_nonneg t0, abs_sub_comm]
    exact (mul_le_of_le_one_right (abs_nonneg _) t1).trans f1
  have g3 := abs_le.1 et
  have conv : |lo + (hi - lo) * t| ≤ m := by
    have p1 := mul_nonneg (show 0 ≤ hi - lo by linarith) t0
    have p2 := mul_le_of_le_one_right (show 0 ≤ hi - lo by linarith) t1
    rw [abs_le]; constructor <;> linarith
  have g4 := abs_le.1 conv
  have mu0 : 0 ≤ m * u := mul_nonneg m0 u0.le
  have muu : 0 ≤ m * u * u := mul_nonneg mu0 u0.le
  have muuu : m * u * u * u ≤ m * u * u := mul_le_of_le_one_right muu u1
  have a3 : |lo + D'| ≤ m + 4 * (m * u) + 2 * (m * u * u) := by
    rw [abs_le]; constructor <;> linarith
  have g5 := abs_le.1 (e3.trans (mul_le_mul_of_nonneg_right a3 u0.le))
  rw [abs_le]; constructor <;> linarith

private theorem mvt {c e t x m : K} (h1 : |c| ≤ m) (h2 : |e| ≤ m) (h3 : |t| ≤ m)
    (hx : rne p (c - e) ≤ x) (hx' : x ≤ rne p (c + e)) :
    rne p (rne p (c + t) - e) ≤ rne p (x + t) + m * (2 : K) ^ (-(p : ℤ)) * (10 + 4 * (2 : K) ^ (-(p : ℤ))) ∧
    rne p (x + t) ≤ rne p (rne p (c + t) + e) + m * (2 : K) ^ (-(p : ℤ)) * (10 + 4 * (2 : K) ^ (-(p : ℤ))) := by
  have u0 := zpow2_pos (K := K) (-(p : ℤ))
  have m0 : 0 ≤ m := (abs_nonneg _).trans h1
  have e1 := rne_rel p (c - e)
  have e2 := rne_rel p (c + e)
  have e3 := rne_rel p (c + t)
  have e4 := rne_rel p (x + t)
  have e5 := rne_rel p (rne p (c + t) - e)
  have e6 := rne_rel p (rne p (c + t) + e)
  generalize rne p (rne p (c + t) - e) = A at *
  generalize rne p (rne p (c + t) + e) = B at *
  generalize rne p (c + t) = C at *
  generalize rne p (c - e) = L at *
  generalize rne p (c + e) = H at *
  generalize rne p (x + t) = X at *
  generalize (2 : K) ^ (-(p : ℤ)) = u at *
  rw [abs_le] at h1 h2 h3
  have b1 : |c - e| ≤ 2 * m := by rw [abs_le]; constructor <;> linarith
  have b2 : |c + e| ≤ 2 * m := by rw [abs_le]; constructor <;> linarith
  have b3 : |c + t| ≤ 2 * m := by rw [abs_le]; constructor <;> linarith
  have g1 := abs_le.1 (e1.trans (mul_le_mul_of_nonneg_right b1 u0.le))
  have g2 := abs_le.1 (e2.trans (mul_le_mul_of_nonneg_right b2 u0.le))
  have g3 := abs_le.1 (e3.trans (mul_le_mul_of_nonneg_right b3 u0.le))
  have b4 : |x + t| ≤ 3 * m + 2 * m * u := by rw [abs_le]; constructor <;> linarith
  have b5 : |C - e| ≤ 3 * m + 2 * m * u := by rw [abs_le]; constructor <;> linarith
  have b6 : |C + e| ≤ 3 * m + 2 * m * u := by rw [abs_le]; constructor <;> linarith
  have g4 := abs_le.1 (e4.trans (mul_le_mul_of_nonneg_right b4 u0.le))
  have g5 := abs_le.1 (e5.trans (mul_le_mul_of_nonneg_right b5 u0.le))
  have g6 := abs_le.1 (e6.trans (mul_le_mul_of_nonneg_right b6 u0.le))
  constructor <;> linarith

/-- C177, what holds of the claim that the corner box contains what `pointAt` computes for parameters in `[0,1]`, in space: the lower corner
bounds the point exactly, and the point is within `m u (5 + 8 u)` of the exact one, which is in the box.  Missing: the upper corner need not
bound the point (`C177_refuted`). -/
theorem C177_point3_partial (hp : 1 ≤ p) (lo hi t : Vec3 K) (m : K) (hm : |lo.x| ≤ m ∧ |lo.y| ≤ m ∧ |lo.z| ≤ m ∧ |hi.x| ≤ m ∧ |hi.y| ≤ m ∧ |hi.z| ≤ m)
    (hr : Rep p lo.x ∧ Rep p lo.y ∧ Rep p lo.z) (hb : lo.x ≤ hi.x ∧ lo.y ≤ hi.y ∧ lo.z ≤ hi.z)
    (ht : (0 ≤ t.x ∧ t.x ≤ 1) ∧ (0 ≤ t.y ∧ t.y ≤ 1) ∧ 0 ≤ t.z ∧ t.z ≤ 1) :
    ∃ w : Vec3 K, (⟨Vec3.num lo, Vec3.num hi⟩ : AABB3 (Fl K (rne p))).pointAt (Vec3.num t) = Vec3.num w ∧
      (lo.x ≤ w.x ∧ lo.y ≤ w.y ∧ lo.z ≤ w.z) ∧
      |w.x - (lo.x + (hi.x - lo.x) * t.x)| ≤ m * (2 : K) ^ (-(p : ℤ)) * (5 + 8 * (2 : K) ^ (-(p : ℤ))) ∧
      |w.y - (lo.y + (hi.y - lo.y) * t.y)| ≤ m * (2 : K) ^ (-(p : ℤ)) * (5 + 8 * (2 : K) ^ (-(p : ℤ))) ∧
      |w.z - (lo.z + (hi.z - lo.z) * t.z)| ≤ m * (2 : K) ^ (-(p : ℤ)) * (5 + 8 * (2 : K) ^ (-(p : ℤ))) := by
  obtain ⟨m1, m2, m3, m4, m5, m6⟩ := hm
  have x := ppt hp hr.1 hb.1 m1 m4 ht.1.1 ht.1.2
  have y := ppt hp hr.2.1 hb.2.1 m2 m5 ht.2.1.1 ht.2.1.2
  have z := ppt hp hr.2.2 hb.2.2 m3 m6 ht.2.2.1 ht.2.2.2
  refine ⟨⟨rne p (lo.x + rne p (rne p (hi.x - lo.x) * t.x)), rne p (lo.y + rne p (rne p (hi.y - lo.y) * t.y)),
    rne p (lo.z + rne p (rne p (hi.z - lo.z) * t.z))⟩, ?_, ⟨x.1, y.1, z.1⟩, x.2, y.2, z.2⟩
  simp only [AABB3.pointAt, Vec3.num, Fl.num_mul, Fl.num_add, Fl.num_sub]

/-- C177, `pointAt` of corner boxes in the plane; see `C177_point3_partial`. -/
theorem C177_point2_partial (hp : 1 ≤ p) (lo hi t : Vec2 K) (m : K) (hm : |lo.x| ≤ m ∧ |lo.y| ≤ m ∧ |hi.x| ≤ m ∧ |hi.y| ≤ m)
    (hr : Rep p lo.x ∧ Rep p lo.y) (hb : lo.x ≤ hi.x ∧ lo.y ≤ hi.y) (ht : (0 ≤ t.x ∧ t.x ≤ 1) ∧ 0 ≤ t.y ∧ t.y ≤ 1) :
    ∃ w : Vec2 K, (⟨Vec2.num lo, Vec2.num hi⟩ : AABB2 (Fl K (rne p))).pointAt (Vec2.num t) = Vec2.num w ∧
      (lo.x ≤ w.x ∧ lo.y ≤ w.y) ∧
      |w.x - (lo.x + (hi.x - lo.x) * t.x)| ≤ m * (2 : K) ^ (-(p : ℤ)) * (5 + 8 * (2 : K) ^ (-(p : ℤ))) ∧
      |w.y - (lo.y + (hi.y - lo.y) * t.y)| ≤ m * (2 : K) ^ (-(p : ℤ)) * (5 + 8 * (2 : K) ^ (-(p : ℤ))) := by
  obtain ⟨m1, m2, m4, m5⟩ := hm
  have x := ppt hp hr.1 hb.1 m1 m4 ht.1.1 ht.1.2
  have y := ppt hp hr.2 hb.2 m2 m5 ht.2.1 ht.2.2
  refine ⟨⟨rne p (lo.x + rne p (rne p (hi.x - lo.x) * t.x)), rne p (lo.y + rne p (rne p (hi.y - lo.y) * t.y))⟩, ?_, ⟨x.1, y.1⟩, x.2, y.2⟩
  simp only [AABB2.pointAt, Vec2.num, Fl.num_mul, Fl.num_add, Fl.num_sub]

/-- C177, what holds of the claim that converting a corner box to a centred one keeps what it contains, in space: the corners of the centred
box are within `m u (3 + 2 u)` of those of the corner box, and are exactly those where sums and differences of the bounds are representable.
Missing: the centred box need not contain the corners (`C177_refuted`). -/
theorem C177_convert3_partial (hp : 1 ≤ p) (lo hi : Vec3 K) (m : K) (hm : |lo.x| ≤ m ∧ |lo.y| ≤ m ∧ |lo.z| ≤ m ∧ |hi.x| ≤ m ∧ |hi.y| ≤ m ∧ |hi.z| ≤ m) :
    (∃ lo' hi' : Vec3 K, AABB3.ofCBox (CAABB3.ofBox (⟨Vec3.num lo, Vec3.num hi⟩ : AABB3 (Fl K (rne p)))) = ⟨Vec3.num lo', Vec3.num hi'⟩ ∧
      ∀ q ∈ [(lo.x, lo'.x), (lo.y, lo'.y), (lo.z, lo'.z), (hi.x, hi'.x), (hi.y, hi'.y), (hi.z, hi'.z)],
        |q.2 - q.1| ≤ m * (2 : K) ^ (-(p : ℤ)) * (3 + 2 * (2 : K) ^ (-(p : ℤ)))) ∧
    ((∀ q ∈ [(lo.x, hi.x), (lo.y, hi.y), (lo.z, hi.z)], Rep p q.1 ∧ Rep p q.2 ∧ Rep p (q.1 + q.2) ∧ Rep p (q.2 - q.1)) →
      AABB3.ofCBox (CAABB3.ofBox (⟨Vec3.num lo, Vec3.num hi⟩ : AABB3 (Fl K (rne p)))) = ⟨Vec3.num lo, Vec3.num hi⟩) := by
  obtain ⟨m1, m2, m3, m4, m5, m6⟩ := hm
  have x := grow_error p hp _ _ m m1 m4
  have y := grow_error p hp _ _ m m2 m5
  have z := grow_error p hp _ _ m m3 m6
  have key : AABB3.ofCBox (CAABB3.ofBox (⟨Vec3.num lo, Vec3.num hi⟩ : AABB3 (Fl K (rne p)))) =
      ⟨Vec3.num ⟨rne p (rne p (rne p (lo.x + hi.x) * (1 / 2)) - rne p (rne p (hi.x - lo.x) * (1 / 2))),
        rne p (rne p (rne p (lo.y + hi.y) * (1 / 2)) - rne p (rne p (hi.y - lo.y) * (1 / 2))),
        rne p (rne p (rne p (lo.z + hi.z) * (1 / 2)) - rne p (rne p (hi.z - lo.z) * (1 / 2)))⟩, Vec3.num ⟨rne p (rne p (rne p (lo.x + hi.x) * (1 / 2)) + rne p (rne p (hi.x - lo.x) * (1 / 2))),
        rne p (rne p (rne p (lo.y + hi.y) * (1 / 2)) + rne p (rne p (hi.y - lo.y) * (1 / 2))),
        rne p (rne p (rne p (lo.z + hi.z) * (1 / 2)) + rne p (rne p (hi.z - lo.z) * (1 / 2)))⟩⟩ := by
    simp only [AABB3.ofCBox, CAABB3.ofBox, half_lit p hp]
    rfl
  rw [key]
  refine ⟨⟨_, _, rfl, ?_⟩, fun h => ?_⟩
  · simp only [List.mem_cons, List.not_mem_nil, or_false, forall_eq_or_imp, forall_eq]
    exact ⟨x.1, y.1, z.1, x.2, y.2, z.2⟩
  · simp only [List.mem_cons, List.not_mem_nil, or_false, forall_eq_or_imp, forall_eq] at h
    obtain ⟨⟨a1, a2, a3, a4⟩, ⟨b1, b2, b3, b4⟩, c1, c2, c3, c4⟩ := h
    have x := grow_exact p hp _ _ a1 a2 a3 a4
    have y := grow_exact p hp _ _ b1 b2 b3 b4
    have z := grow_exact p hp _ _ c1 c2 c3 c4
    rw [x.1, x.2, y.1, y.2, z.1, z.2]

/-- C177, converting a corner box to a centred one in the plane; see `C177_convert3_partial`. -/
theorem C177_convert2_partial (hp : 1 ≤ p) (lo hi : Vec2 K) (m : K) (hm : |lo.x| ≤ m ∧ |lo.y| ≤ m ∧ |hi.x| ≤ m ∧ |hi.y| ≤ m) :
    (∃ lo' hi' : Vec2 K, AABB2.ofCBox (CAABB2.ofBox (⟨Vec2.num lo, Vec2.num hi⟩ : AABB2 (Fl K (rne p)))) = ⟨Vec2.num lo', Vec2.num hi'⟩ ∧
      ∀ q ∈ [(lo.x, lo'.x), (lo.y, lo'.y), (hi.x, hi'.x), (hi.y, hi'.y)],
        |q.2 - q.1| ≤ m * (2 : K) ^ (-(p : ℤ)) * (3 + 2 * (2 : K) ^ (-(p : ℤ)))) ∧
    ((∀ q ∈ [(lo.x, hi.x), (lo.y, hi.y)], Rep p q.1 ∧ Rep p q.2 ∧ Rep p (q.1 + q.2) ∧ Rep p (q.2 - q.1)) →
      AABB2.ofCBox (CAABB2.ofBox (⟨Vec2.num lo, Vec2.num hi⟩ : AABB2 (Fl K (rne p)))) = ⟨Vec2.num lo, Vec2.num hi⟩) := by
  obtain ⟨m1, m2, m4, m5⟩ := hm
  have x := grow_error p hp _ _ m m1 m4
  have y := grow_error p hp _ _ m m2 m5
  have key : AABB2.ofCBox (CAABB2.ofBox (⟨Vec2.num lo, Vec2.num hi⟩ : AABB2 (Fl K (rne p)))) =
      ⟨Vec2.num ⟨rne p (rne p (rne p (lo.x + hi.x) * (1 / 2)) - rne p (rne p (hi.x - lo.x) * (1 / 2))),
        rne p (rne p (rne p (lo.y + hi.y) * (1 / 2)) - rne p (rne p (hi.y - lo.y) * (1 / 2)))⟩, Vec2.num ⟨rne p (rne p (rne p (lo.x + hi.x) * (1 / 2)) + rne p (rne p (hi.x - lo.x) * (1 / 2))),
        rne p (rne p (rne p (lo.y + hi.y) * (1 / 2)) + rne p (rne p (hi.y - lo.y) * (1 / 2)))⟩⟩ := by
    simp only [AABB2.ofCBox, CAABB2.ofBox, CAABB2.inf, CAABB2.sup, half_lit p hp]
    rfl
  rw [key]
  refine ⟨⟨_, _, rfl, ?_⟩, fun h => ?_⟩
  · simp only [List.mem_cons, List.not_mem_nil, or_false, forall_eq_or_imp, forall_eq]
    exact ⟨x.1, y.1, x.2, y.2⟩
  · simp only [List.mem_cons, List.not_mem_nil, or_false, forall_eq_or_imp, forall_eq] at h
    obtain ⟨⟨a1, a2, a3, a4⟩, b1, b2, b3, b4⟩ := h
    have x := grow_exact p hp _ _ a1 a2 a3 a4
    have y := grow_exact p hp _ _ b1 b2 b3 b4
    rw [x.1, x.2, y.1, y.2]

/-- C177, what holds of the claim that moving a centred box and a point in it keeps the point in the box: it is outside by at most
`m u (10 + 4 u)` in each coordinate.  Missing: it need not be in the box (`C177_refuted`). -/
theorem C177_cmove_partial (c e t x : Vec3 K) (m : K)
    (hm : ∀ k ∈ [c.x, c.y, c.z, e.x, e.y, e.z, t.x, t.y, t.z], |k| ≤ m)
    (hx : (⟨Vec3.num c, Vec3.num e⟩ : CAABB3 (Fl K (rne p))).contains (Vec3.num x) = true) :
    ∃ lo hi w : Vec3 K, AABB3.ofCBox ((⟨Vec3.num c, Vec3.num e⟩ : CAABB3 (Fl K (rne p))).translate (Vec3.num t)) = ⟨Vec3.num lo, Vec3.num hi⟩ ∧
      (Vec3.num x + Vec3.num t : Vec3 (Fl K (rne p))) = Vec3.num w ∧
      ∀ q ∈ [(lo.x, w.x, hi.x), (lo.y, w.y, hi.y), (lo.z, w.z, hi.z)],
        q.1 ≤ q.2.1 + m * (2 : K) ^ (-(p : ℤ)) * (10 + 4 * (2 : K) ^ (-(p : ℤ))) ∧
        q.2.1 ≤ q.2.2 + m * (2 : K) ^ (-(p : ℤ)) * (10 + 4 * (2 : K) ^ (-(p : ℤ))) := by
  simp only [List.mem_cons, List.not_mem_nil, or_false, forall_eq_or_imp, forall_eq] at hm ⊢
  obtain ⟨c1, c2, c3, e1, e2, e3, t1, t2, t3⟩ := hm
  simp only [CAABB3.contains, Vec3.num, Fl.num_add, Fl.num_sub, Bool.and_eq_true, decide_eq_true_eq, ge_iff_le, Fl.num_le] at hx
  obtain ⟨⟨⟨x1, x2⟩, x3, x4⟩, x5, x6⟩ := hx
  refine ⟨⟨rne p (rne p (c.x + t.x) - e.x), rne p (rne p (c.y + t.y) - e.y), rne p (rne p (c.z + t.z) - e.z)⟩, ⟨rne p (rne p (c.x + t.x) + e.x), rne p (rne p (c.y + t.y) + e.y), rne p (rne p (c.z + t.z) + e.z)⟩,
    ⟨rne p (x.x + t.x), rne p (x.y + t.y), rne p (x.z + t.z)⟩, ?_, rfl, mvt c1 e1 t1 x1 x2, mvt c2 e2 t2 x3 x4, mvt c3 e3 t3 x5 x6⟩
  rfl

end Rne

/-- C177 is false for `float`: `pointAt (1,1)` of the box from `(-1,0)` to `(3 * 2^-25, 0)` is outside it; the centred box made from the box
from `(1,0)` to `(1 + 2^-23, 0)` does not contain the second corner; and the centred box at `(1,0)` with extents `(2^-24 + 2^-40, 0)`
contains `(1 + 2^-23, 0)`, but not after both have been moved by `(-1,0)`.  Likewise in space. -/
theorem C177_refuted :
    ((⟨Vec2.num ⟨-1, 0⟩, Vec2.num ⟨3 / 2 ^ 25, 0⟩⟩ : AABB2 F32).contains
      ((⟨Vec2.num ⟨-1, 0⟩, Vec2.num ⟨3 / 2 ^ 25, 0⟩⟩ : AABB2 F32).pointAt (Vec2.num ⟨1, 1⟩)) = false ∧
    (CAABB2.ofBox (⟨Vec2.num ⟨1, 0⟩, Vec2.num ⟨1 + 1 / 2 ^ 23, 0⟩⟩ : AABB2 F32)).contains (Vec2.num ⟨1 + 1 / 2 ^ 23, 0⟩) = false ∧
    (⟨Vec2.num ⟨1, 0⟩, Vec2.num ⟨1 / 2 ^ 24 + 1 / 2 ^ 40, 0⟩⟩ : CAABB2 F32).contains (Vec2.num ⟨1 + 1 / 2 ^ 23, 0⟩) = true ∧
    ((⟨Vec2.num ⟨1, 0⟩, Vec2.num ⟨1 / 2 ^ 24 + 1 / 2 ^ 40, 0⟩⟩ : CAABB2 F32).translate (Vec2.num ⟨-1, 0⟩)).contains
      (Vec2.num ⟨1 + 1 / 2 ^ 23, 0⟩ + Vec2.num ⟨-1, 0⟩) = false) ∧
    ((⟨Vec3.num ⟨-1, 0, 0⟩, Vec3.num ⟨3 / 2 ^ 25, 0, 0⟩⟩ : AABB3 F32).contains
      ((⟨Vec3.num ⟨-1, 0, 0⟩, Vec3.num ⟨3 / 2 ^ 25, 0, 0⟩⟩ : AABB3 F32).pointAt (Vec3.num ⟨1, 1, 1⟩)) = false ∧
    (CAABB3.ofBox (⟨Vec3.num ⟨1, 0, 0⟩, Vec3.num ⟨1 + 1 / 2 ^ 23, 0, 0⟩⟩ : AABB3 F32)).contains (Vec3.num ⟨1 + 1 / 2 ^ 23, 0, 0⟩) = false ∧
    (⟨Vec3.num ⟨1, 0, 0⟩, Vec3.num ⟨1 / 2 ^ 24 + 1 / 2 ^ 40, 0, 0⟩⟩ : CAABB3 F32).contains (Vec3.num ⟨1 + 1 / 2 ^ 23, 0, 0⟩) = true ∧
    ((⟨Vec3.num ⟨1, 0, 0⟩, Vec3.num ⟨1 / 2 ^ 24 + 1 / 2 ^ 40, 0, 0⟩⟩ : CAABB3 F32).translate (Vec3.num ⟨-1, 0, 0⟩)).contains
      (Vec3.num ⟨1 + 1 / 2 ^ 23, 0, 0⟩ + Vec3.num ⟨-1, 0, 0⟩) = false) := by
  decide +kernel


/-- the unit cube moved by a rounded vector, and a point in it -/
example : ((⟨Vec3.num ⟨0, 0, 0⟩, Vec3.num ⟨1, 1, 1⟩⟩ : AABB3 F32).translate (Vec3.num ⟨1 / 3, 1 / 7, 2⟩)).contains
    (Vec3.num ⟨1 / 2, 1, 0⟩ + Vec3.num ⟨1 / 3, 1 / 7, 2⟩) = true :=
  ((C177_move3 (rne_mono 24 (by norm_num)) ⟨Vec3.num ⟨0, 0, 0⟩, Vec3.num ⟨1, 1, 1⟩⟩ ⟨Vec3.num ⟨0, 0, 0⟩, Vec3.num ⟨1, 1, 1⟩⟩
    (Vec3.num ⟨1 / 2, 1, 0⟩) ⟨1 / 3, 1 / 7, 2⟩).1 (by decide +kernel)).1

/-- two touching squares, moved -/
example : ((⟨Vec2.num ⟨0, 0⟩, Vec2.num ⟨1, 1⟩⟩ : AABB2 F32).translate (Vec2.num ⟨1 / 3, 1 / 7⟩)).intersects
    ((⟨Vec2.num ⟨1, 0⟩, Vec2.num ⟨2, 1⟩⟩ : AABB2 F32).translate (Vec2.num ⟨1 / 3, 1 / 7⟩)) = true :=
  ((C177_move2 (rne_mono 24 (by norm_num)) ⟨Vec2.num ⟨0, 0⟩, Vec2.num ⟨1, 1⟩⟩ ⟨Vec2.num ⟨1, 0⟩, Vec2.num ⟨2, 1⟩⟩
    (Vec2.num ⟨1 / 2, 1⟩) ⟨1 / 3, 1 / 7⟩).2.2 (by decide +kernel)).1

/-- a centred box and parameters on its border meet the hypotheses of `C177_centred` -/
example : (⟨Vec2.num ⟨1 / 3, 5⟩, Vec2.num ⟨2, 3⟩⟩ : CAABB2 F32).contains
    ((⟨Vec2.num ⟨1 / 3, 5⟩, Vec2.num ⟨2, 3⟩⟩ : CAABB2 F32).pointAt (Vec2.num ⟨-1, 1 / 7⟩)) = true :=
  (C177_centred (by norm_num) ⟨1 / 3, 5⟩ ⟨2, 3⟩ ⟨-1, 1 / 7⟩ ⟨0, 0, 0⟩ ⟨0, 0, 0⟩ ⟨0, 0, 0⟩).1
    ⟨Rep.nat 2 (by norm_num), Rep.nat 3 (by norm_num)⟩ ⟨by norm_num, by norm_num⟩ ⟨by norm_num, by rw [abs_le]; norm_num⟩

/-- the box from (-1,-1,-1) to (1,2,3) with `m = 3` -/
example : ∃ w : Vec3 ℚ, (⟨Vec3.num ⟨-1, -1, -1⟩, Vec3.num ⟨1, 2, 3⟩⟩ : AABB3 F32).pointAt (Vec3.num ⟨1 / 3, 1 / 7, 1⟩) = Vec3.num w ∧
    (-1 ≤ w.x ∧ -1 ≤ w.y ∧ -1 ≤ w.z) := by
  have r : Rep 24 (-1 : ℚ) := by simpa using (Rep.nat (K := ℚ) (p := 24) 1 (by norm_num)).neg
  obtain ⟨w, h, h', -⟩ := C177_point3_partial (K := ℚ) (p := 24) (by norm_num) ⟨-1, -1, -1⟩ ⟨1, 2, 3⟩ ⟨1 / 3, 1 / 7, 1⟩ 3
    (by norm_num [abs_le]) ⟨r, r, r⟩ (by norm_num) (by norm_num)
  exact ⟨w, h, h'⟩

/-- the square from (-1,-1) to (1,2) with `m = 2` -/
example : ∃ w : Vec2 ℚ, (⟨Vec2.num ⟨-1, -1⟩, Vec2.num ⟨1, 2⟩⟩ : AABB2 F32).pointAt (Vec2.num ⟨1 / 3, 1 / 7⟩) = Vec2.num w ∧
    (-1 ≤ w.x ∧ -1 ≤ w.y) := by
  have r : Rep 24 (-1 : ℚ) := by simpa using (Rep.nat (K := ℚ) (p := 24) 1 (by norm_num)).neg
  obtain ⟨w, h, h', -⟩ := C177_point2_partial (K := ℚ) (p := 24) (by norm_num) ⟨-1, -1⟩ ⟨1, 2⟩ ⟨1 / 3, 1 / 7⟩ 2
    (by norm_num [abs_le]) ⟨r, r⟩ (by norm_num) (by norm_num)
  exact ⟨w, h, h'⟩

/-- the box from (1,1,1) to (3,2,4) is converted exactly -/
example : AABB3.ofCBox (CAABB3.ofBox (⟨Vec3.num ⟨1, 1, 1⟩, Vec3.num ⟨3, 2, 4⟩⟩ : AABB3 F32)) = ⟨Vec3.num ⟨1, 1, 1⟩, Vec3.num ⟨3, 2, 4⟩⟩ := by
  refine (C177_convert3_partial (K := ℚ) (p := 24) (by norm_num) ⟨1, 1, 1⟩ ⟨3, 2, 4⟩ 4 (by norm_num [abs_le])).2 ?_
  have n : ∀ n : ℕ, n ≤ 2 ^ 24 → Rep 24 (n : ℚ) := fun n h => Rep.nat n h
  simp only [List.mem_cons, List.not_mem_nil, or_false, forall_eq_or_imp, forall_eq]
  norm_num
  have n1 := n 1 (by norm_num)
  have n2 := n 2 (by norm_num)
  have n3 := n 3 (by norm_num)
  have n4 := n 4 (by norm_num)
  have n5 := n 5 (by norm_num)
  norm_num at n1 n2 n3 n4 n5
  simp only [n1, n2, n3, n4, n5, and_self]

/-- the square from (1,1) to (3,2) meets the hypotheses of `C177_convert2_partial` -/
example : ∃ lo' hi' : Vec2 ℚ, AABB2.ofCBox (CAABB2.ofBox (⟨Vec2.num ⟨1, 1⟩, Vec2.num ⟨3, 2⟩⟩ : AABB2 F32)) = ⟨Vec2.num lo', Vec2.num hi'⟩ := by
  obtain ⟨lo, hi, h, -⟩ := (C177_convert2_partial (K := ℚ) (p := 24) (by norm_num) ⟨1, 1⟩ ⟨3, 2⟩ 3 (by norm_num [abs_le])).1
  exact ⟨lo, hi, h⟩

/-- the box of `C177_refuted` meets the hypotheses of `C177_cmove_partial` -/
example : ∃ lo hi w : Vec3 ℚ, AABB3.ofCBox ((⟨Vec3.num ⟨1, 0, 0⟩, Vec3.num ⟨1 / 2 ^ 24 + 1 / 2 ^ 40, 0, 0⟩⟩ : CAABB3 F32).translate
      (Vec3.num ⟨-1, 0, 0⟩)) = ⟨Vec3.num lo, Vec3.num hi⟩ ∧
    w.x ≤ hi.x + 1 * (2 : ℚ) ^ (-(24 : ℤ)) * (10 + 4 * (2 : ℚ) ^ (-(24 : ℤ))) := by
  obtain ⟨lo, hi, w, h, -, h'⟩ := C177_cmove_partial (K := ℚ) (p := 24) ⟨1, 0, 0⟩ ⟨1 / 2 ^ 24 + 1 / 2 ^ 40, 0, 0⟩ ⟨-1, 0, 0⟩
    ⟨1 + 1 / 2 ^ 23, 0, 0⟩ 1 (by
      simp only [List.mem_cons, List.not_mem_nil, or_false, forall_eq_or_imp, forall_eq]
      norm_num [abs_le]) (by decide +kernel)
  exact ⟨lo, hi, w, h, (h' (lo.x, w.x, hi.x) (by simp)).2⟩

end MathLib
