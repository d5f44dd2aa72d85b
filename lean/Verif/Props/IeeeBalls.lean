import Verif.Proof.IeeeVec
import Verif.Props.RoundedPredicates

/-! # Property C125: ball and triangle tests with overflow and underflow -/

namespace MathLib
open Ieee

variable {p : ℕ} {emax : ℤ}

/-- The property: the tests are right for points and balls far from touching: at a distance of at most half, or of more
than twice, the radius or the sum of the radii. -/
def C125_full (p : ℕ) (emax : ℤ) : Prop :=
  ∀ (s o : Sphere (Ieee ℝ p emax)) (c d : Vec3 ℝ) (r t : ℝ), s.center.Is c → o.center.Is d →
    s.radius.fin? = some r → o.radius.fin? = some t → 0 ≤ r → 0 ≤ t →
    let l := √((c.x - d.x) ^ 2 + (c.y - d.y) ^ 2 + (c.z - d.z) ^ 2)
    (l ≤ r / 2 → s.contains o.center = true) ∧ (2 * r < l → s.contains o.center = false) ∧
    (l ≤ (r + t) / 2 → s.intersects o = true) ∧ (2 * (r + t) < l → s.intersects o = false)

private theorem inf_le_fin {a : Ieee ℝ p emax} {x : ℝ} (h : a.fin? = some x) : ¬ (inf false : Ieee ℝ p emax) ≤ a := by
  change ¬ leB (inf false) a = true
  rcases fin?_cases h with ⟨s, rfl, -⟩ | rfl <;> simp [leB]

private theorem not_nn_lt_zero {a : Ieee ℝ p emax} (h : NN a) : ¬ a < zero false := by
  change ¬ ltB a (zero false) = true
  rcases h with rfl | ⟨x, h, h0⟩
  · simp [ltB]
  · rcases fin?_cases h with ⟨s, rfl, -⟩ | rfl <;> simp [ltB, h0]

/-- C125: when the square of a difference of coordinates overflows, no point is inside, whatever the radius, and balls
whose radii are so large intersect, whatever the distance. -/
theorem C125_overflow (hp : 1 ≤ p) (he : 0 ≤ emax) (s o : Sphere (Ieee ℝ p emax)) (c d : Vec3 ℝ) (r t : ℝ)
    (hs : s.center.Is c) (ho : o.center.Is d) (hr : s.radius.fin? = some r) (ht : o.radius.fin? = some t) (j : ℤ)
    (hj : emax + 1 ≤ 2 * j) (h : (2 : ℝ) ^ j ≤ |c.x - d.x| ∨ (2 : ℝ) ^ j ≤ |c.y - d.y| ∨ (2 : ℝ) ^ j ≤ |c.z - d.z|) :
    s.contains o.center = false ∧ (2 ^ j ≤ r + t → s.intersects o = true) := by
  obtain ⟨sx, sy, sz⟩ := hs
  obtain ⟨ox, oy, oz⟩ := ho
  constructor
  · have hd : distance3 o.center s.center = inf false := by
      have : (s.center.x - o.center.x) * (s.center.x - o.center.x) + (s.center.y - o.center.y) *
          (s.center.y - o.center.y) + (s.center.z - o.center.z) * (s.center.z - o.center.z) = inf false := by
        rcases h with h | h | h
        · rw [sq_sub_big hp he sx ox hj h, inf_add (sq_sub_nn sy oy), inf_add (sq_sub_nn sz oz)]
        · rw [sq_sub_big hp he sy oy hj h, add_inf (sq_sub_nn sx ox), inf_add (sq_sub_nn sz oz)]
        · rw [sq_sub_big hp he sz oz hj h, add_inf (add_nn (sq_sub_nn sx ox) (sq_sub_nn sy oy))]
      simp only [distance3, this]; rfl
    rw [Sphere.contains, hd, decide_eq_false (inf_le_fin hr)]
  · intro hb
    have := sq_add_big hp he hr ht hj (hb.trans (le_abs_self _))
    simp only [Sphere.intersects, this]
    rw [if_neg]
    change ¬ ltB _ _ = true
    cases Vec3.lengthSqr (s.center - o.center) <;> simp [ltB]

example : ((127 : ℤ) + 1 ≤ 2 * 64) ∧ (2 : ℝ) ^ (64 : ℤ) ≤ |(0 : ℝ) - 2 ^ (100 : ℤ)| ∧
    (2 : ℝ) ^ (64 : ℤ) ≤ 2 ^ (64 : ℤ) + 0 := by norm_num

/-- C125: when all squares of differences underflow, every ball of radius at least 0 contains the point, and all balls
intersect. -/
theorem C125_underflow (hp : 1 ≤ p) (s o : Sphere (Ieee ℝ p emax)) (c d : Vec3 ℝ) (r t : ℝ)
    (hs : s.center.Is c) (ho : o.center.Is d) (hr : s.radius.fin? = some r) (ht : o.radius.fin? = some t) (j : ℤ)
    (hj0 : 2 - emax - p ≤ j) (hj1 : j ≤ emax) (hj : 2 * j + 2 ≤ 1 - emax - p) (hx : |c.x - d.x| ≤ (2 : ℝ) ^ j)
    (hy : |c.y - d.y| ≤ (2 : ℝ) ^ j) (hz : |c.z - d.z| ≤ (2 : ℝ) ^ j) :
    (0 ≤ r → s.contains o.center = true) ∧ s.intersects o = true := by
  obtain ⟨sx, sy, sz⟩ := hs
  obtain ⟨ox, oy, oz⟩ := ho
  have kx := sq_sub_tiny hp sx ox hj0 (by omega) hj hx
  have ky := sq_sub_tiny hp sy oy hj0 (by omega) hj hy
  have kz := sq_sub_tiny hp sz oz hj0 (by omega) hj hz
  constructor
  · intro h0
    have hd : distance3 o.center s.center = zero false := by
      simp only [distance3, kx, ky, kz]; rfl
    rw [Sphere.contains, hd, decide_eq_true]
    exact (le_fin rfl hr).2 h0
  · have hd : Vec3.lengthSqr (s.center - o.center) = zero false := by
      have e : Vec3.lengthSqr (s.center - o.center) = (s.center.x - o.center.x) * (s.center.x - o.center.x) +
        (s.center.y - o.center.y) * (s.center.y - o.center.y) +
        (s.center.z - o.center.z) * (s.center.z - o.center.z) := rfl
      rw [e, kx, ky, kz]; rfl
    simp only [Sphere.intersects, hd]
    rw [if_neg (not_nn_lt_zero (sq_add_nn hr ht))]

example : ((2 : ℤ) - 127 - (24 : ℕ) ≤ -76 ∧ (-76 : ℤ) ≤ 127 ∧ (2 : ℤ) * -76 + 2 ≤ 1 - 127 - (24 : ℕ)) ∧
    |(0 : ℝ) - 2 ^ (-76 : ℤ)| ≤ 2 ^ (-76 : ℤ) := by norm_num

private theorem sqrt_one_coord (x : ℝ) (hx : 0 ≤ x) : √((0 - x) ^ 2 + (0 - 0) ^ 2 + (0 - 0) ^ 2) = x := by
  rw [show (0 - x) ^ 2 + (0 - 0) ^ 2 + (0 - 0) ^ 2 = x ^ 2 by ring]
  exact Real.sqrt_sq hx

/-- False in every format: a point well inside a large ball is not found in it, a point outside a tiny ball is, and
large or tiny balls far apart intersect. -/
theorem C125_refuted (hp : 1 ≤ p) (he : p + 8 ≤ emax) :
    (∃ (s : Sphere (Ieee ℝ p emax)) (r : ℝ) (x : ℝ), s.center.Is ⟨0, 0, 0⟩ ∧ s.radius.fin? = some r ∧
      0 ≤ x ∧ x ≤ r / 2 ∧ s.contains ⟨num x, 0, 0⟩ = false) ∧
    (∃ (s : Sphere (Ieee ℝ p emax)) (r : ℝ) (x : ℝ), s.center.Is ⟨0, 0, 0⟩ ∧ s.radius.fin? = some r ∧
      0 ≤ r ∧ 2 * r < x ∧ s.contains ⟨num x, 0, 0⟩ = true) ∧
    (∃ (s : Sphere (Ieee ℝ p emax)) (r t x : ℝ), s.center.Is ⟨0, 0, 0⟩ ∧ s.radius.fin? = some r ∧ 0 ≤ r ∧ 0 ≤ t ∧
      2 * (r + t) < x ∧ s.intersects ⟨⟨num x, 0, 0⟩, num t⟩ = true) ∧
    ¬ C125_full p emax := by
  obtain ⟨j, hj⟩ : ∃ j : ℤ, j = (emax + 2) / 2 := ⟨_, rfl⟩
  have pj := zpow2_pos (K := ℝ) j
  have dbl : ∀ i : ℤ, (2 : ℝ) ^ (i + 1) = 2 * 2 ^ i := fun i => by rw [zpow_add₀ two_ne_zero, zpow_one]; ring
  have I0 : (⟨0, 0, 0⟩ : Vec3 (Ieee ℝ p emax)).Is ⟨0, 0, 0⟩ := ⟨rfl, rfl, rfl⟩
  have Ix : ∀ x : ℝ, (⟨num x, 0, 0⟩ : Vec3 (Ieee ℝ p emax)).Is ⟨x, 0, 0⟩ := fun x => ⟨rfl, rfl, rfl⟩
  have A : (Sphere.mk ⟨0, 0, 0⟩ (num (2 ^ (j + 1))) : Sphere (Ieee ℝ p emax)).contains ⟨num (2 ^ j), 0, 0⟩ = false :=
    (C125_overflow hp (by omega) ⟨⟨0, 0, 0⟩, num (2 ^ (j + 1))⟩ ⟨⟨num (2 ^ j), 0, 0⟩, 0⟩ _ _ _ _ I0 (Ix _) rfl rfl
      j (by omega) (Or.inl (by rw [zero_sub, abs_neg, abs_of_pos pj]))).1
  obtain ⟨i, hi⟩ : ∃ i : ℤ, i = -((emax + p + 2) / 2) - 1 := ⟨_, rfl⟩
  have pi := zpow2_pos (K := ℝ) i
  have B : (Sphere.mk ⟨0, 0, 0⟩ (0 : Ieee ℝ p emax)).contains ⟨num (2 ^ i), 0, 0⟩ = true :=
    (C125_underflow hp ⟨⟨0, 0, 0⟩, (0 : Ieee ℝ p emax)⟩ ⟨⟨num (2 ^ i), 0, 0⟩, 0⟩ _ _ _ _ I0 (Ix _) rfl rfl
      i (by omega) (by omega) (by omega) (by rw [zero_sub, abs_neg, abs_of_pos pi]) (by simp [pi.le])
      (by simp [pi.le])).1 le_rfl
  have C : (Sphere.mk ⟨0, 0, 0⟩ (num (2 ^ j)) : Sphere (Ieee ℝ p emax)).intersects
      ⟨⟨num (2 ^ (j + 3)), 0, 0⟩, num (2 ^ j)⟩ = true :=
    (C125_overflow hp (by omega) ⟨⟨0, 0, 0⟩, num (2 ^ j)⟩ ⟨⟨num (2 ^ (j + 3)), 0, 0⟩, num (2 ^ j)⟩ _ _ _ _ I0 (Ix _)
      rfl rfl j (by omega) (Or.inl (by
        rw [zero_sub, abs_neg, abs_of_pos (zpow2_pos _)]
        exact zpow_le_zpow_right₀ one_le_two (by omega)))).2 (by linarith)
  refine ⟨⟨_, _, _, I0, rfl, pj.le, ?_, A⟩, ⟨_, _, _, I0, rfl, le_rfl, ?_, B⟩,
    ⟨_, _, _, _, I0, rfl, pj.le, pj.le, ?_, C⟩, fun h => ?_⟩
  · rw [dbl]; linarith
  · simpa using pi
  · rw [show j + 3 = j + 1 + 1 + 1 by ring, dbl, dbl, dbl]; linarith
  · have := (h ⟨⟨0, 0, 0⟩, num (2 ^ (j + 1))⟩ ⟨⟨num (2 ^ j), 0, 0⟩, 0⟩ _ _ _ _ I0 (Ix _) rfl rfl
      (zpow2_pos _).le le_rfl).1 (by
        rw [sqrt_one_coord _ pj.le, dbl]; linarith)
    rw [A] at this; exact Bool.false_ne_true this

/-- Coordinates on the grid. -/
private theorem gr_of {g h : ℤ} {a : Ieee ℝ p emax} {x : ℝ} (ha : a.fin? = some x) (hx : OnGrid g h x) :
    Gr g h a (.num x) := ⟨x, ha, rfl, hx⟩

private theorem sq3 (hp : 1 ≤ p) {g h : ℤ} (hg : 1 - emax ≤ 2 * g) (hh : 2 * h + 5 ≤ emax) (he : 0 ≤ emax)
    {a b : Vec3 (Ieee ℝ p emax)} {x y : Vec3 ℝ} (ha : a.Is x) (hb : b.Is y) (hx : x.OnGrid g h) (hy : y.OnGrid g h) :
    BetNN (g + g) (2 * h + 4) ((a.x - b.x) * (a.x - b.x) + (a.y - b.y) * (a.y - b.y) + (a.z - b.z) * (a.z - b.z))
      ((.num x.x - .num y.x) * (.num x.x - .num y.x) + (.num x.y - .num y.y) * (.num x.y - .num y.y) +
        (.num x.z - .num y.z) * (.num x.z - .num y.z) : Fl ℝ (rne p)) := by
  obtain ⟨ax, ay, az⟩ := ha
  obtain ⟨bx, bY, bz⟩ := hb
  obtain ⟨xx, xy, xz⟩ := hx
  obtain ⟨yx, yy, yz⟩ := hy
  have d : ∀ {a b : Ieee ℝ p emax} {x y : ℝ}, a.fin? = some x → b.fin? = some y → OnGrid g h x → OnGrid g h y →
      BetNN (g + g) (h + 1 + (h + 1)) ((a - b) * (a - b)) ((.num x - .num y) * (.num x - .num y) : Fl ℝ (rne p)) := by
    intro a b x y ha hb hx hy
    exact Bet.sq hp (Gr.sub hp (gr_of ha hx) (gr_of hb hy) (by omega) (by omega)).bet (by omega) (by omega)
  have s1 := BetNN.add hp (d ax bx xx yx) (d ay bY xy yy) (by omega) (by omega)
  have s2 := BetNN.add hp s1 ((d az bz xz yz).mono le_rfl (by omega)) (by omega) (by omega)
  exact s2.mono le_rfl (by omega)

private theorem betNN_lt_gr {l h g k : ℤ} {a a' : Ieee ℝ p emax} {b b' : Fl ℝ (rne p)} (H : BetNN l h a b)
    (H' : Gr g k a' b') : (a' < a ↔ b' < b) ∧ (a ≤ a' ↔ b ≤ b') := by
  obtain ⟨v, h1, rfl, -⟩ := H
  obtain ⟨w, k1, rfl, -⟩ := H'
  exact ⟨by rw [lt_fin k1 h1, Fl.num_lt], by rw [le_fin h1 k1, Fl.num_le]⟩

/-- What holds: when the coordinates and radii are multiples of `2^g` of size at most `2^h`, where `2^(2g)` and
`2^(2h+5)` are within the range of the format, the tests are right but for a few rounding errors at the border.
Missing: larger and smaller numbers, for which it is false. -/
theorem C125_partial (hp : 1 ≤ p) {g h : ℤ} (hg : 1 - emax ≤ 2 * g) (hh : 2 * h + 5 ≤ emax) (he : 0 ≤ emax)
    (s o : Sphere (Ieee ℝ p emax)) (c d : Vec3 ℝ) (r t : ℝ) (hs : s.center.Is c) (ho : o.center.Is d)
    (hr : s.radius.fin? = some r) (ht : o.radius.fin? = some t) (r0 : 0 ≤ r) (t0 : 0 ≤ t) (gc : c.OnGrid g h)
    (gd : d.OnGrid g h) (gr : OnGrid g h r) (gt : OnGrid g h t) :
    let u : ℝ := 2 ^ (-(p : ℤ))
    let l := √((c.x - d.x) ^ 2 + (c.y - d.y) ^ 2 + (c.z - d.z) ^ 2)
    (l ≤ r * (1 - u) ^ 4 → s.contains o.center = true) ∧ (r < l * (1 - u) ^ 4 → s.contains o.center = false) ∧
    (l ≤ (r + t) * (1 - u) ^ 4 → s.intersects o = true) ∧ (r + t < l * (1 - u) ^ 4 → s.intersects o = false) := by
  intro u l
  have hrel := isRel_rne p hp
  have h1 := (C121_contains hrel ⟨0, 0⟩ r ⟨0, 0⟩ c d r0).2.2
  have h2 := C121_intersects hrel c d r t (by linarith) ⟨0, 0⟩ ⟨0, 0⟩
  have q := sq3 hp hg hh he hs ho gc gd
  have gd' := BetNN.sqrt hp (l := g) (h := h + 2) (q.mono (by omega) (by omega)) (by omega) (by omega)
  have e1 : s.contains o.center =
      (Sphere.mk (Vec3.num c) (.num r) : Sphere (Fl ℝ (rne p))).contains (Vec3.num d) := by
    simp only [Sphere.contains, decide_eq_decide]
    exact (betNN_lt_gr gd' (gr_of hr gr)).2
  have e2 : s.intersects o =
      (Sphere.mk (Vec3.num c) (.num r) : Sphere (Fl ℝ (rne p))).intersects ⟨Vec3.num d, .num t⟩ := by
    have m := Gr.add hp (gr_of hr gr) (gr_of ht gt) (by omega) (by omega)
    have m2 := Gr.mul hp m m (by omega) (by omega)
    have key := (betNN_lt_gr q m2).1
    have e : ∀ {P Q : Prop} [Decidable P] [Decidable Q], (P ↔ Q) →
        (if P then false else true) = (if Q then false else true) := fun {P Q} _ _ h => by simp only [h]
    exact e key
  rw [e1, e2]
  exact ⟨h1.1, h1.2, h2.1, h2.2.1⟩

/-- For `float`: `g = -63`, `h = 61`; so all `float` coordinates between `2^-40` and `2^61` will do. -/
example : (1 : ℤ) - 127 ≤ 2 * -63 ∧ (2 : ℤ) * 61 + 5 ≤ 127 ∧ OnGrid (-63) 61 (3 / 4 : ℝ) ∧
    ∀ x : ℝ, Rep 24 x → (2 : ℝ) ^ (-40 : ℤ) ≤ |x| → |x| ≤ 2 ^ (40 : ℤ) → OnGrid (-63) 61 x := by
  refine ⟨by norm_num, by norm_num, ⟨⟨3 * 2 ^ 61, by norm_num⟩, by rw [abs_of_pos] <;> norm_num⟩, fun x hx h1 h2 => ?_⟩
  exact (OnGrid.of_rep (k := 40) (by norm_num) hx (Or.inr ⟨h1, h2⟩)).mono (by norm_num) (by norm_num)

/-! ## Triangles -/

/-- The property for triangles: vertices are inside, points far outside are not (the point is outside with a margin of
the size of the triangle). -/
def C125_triangle_full (p : ℕ) (emax : ℤ) : Prop :=
  ∀ (t : Tri2 (Ieee ℝ p emax)) (a b c : Vec2 ℝ), t.a.Is a → t.b.Is b → t.c.Is c →
    Vec2.crossProduct a b c ≠ 0 → t.contains t.a = true ∧
    ∀ (v : Vec2 (Ieee ℝ p emax)) (q : Vec2 ℝ), v.Is q → (∀ w ∈ [a, b, c], q.x < w.x - |b.x - a.x| - |c.x - a.x|) →
      t.contains v = false

private theorem mul_tiny (hp : 1 ≤ p) {a b : Ieee ℝ p emax} {x y : ℝ} (ha : a.fin? = some x) (hb : b.fin? = some y)
    (h : |x * y| < (2 : ℝ) ^ (1 - emax - p)) : (a * b).fin? = some 0 := by
  change (mul a b).fin? = _
  rcases fin?_cases ha with ⟨s, rfl, rfl⟩ | rfl <;> rcases fin?_cases hb with ⟨t, rfl, rfl⟩ | rfl
  · rfl
  · rfl
  · rfl
  · change (Ieee.round (x * y) false).fin? = _
    by_cases h0 : x * y = 0
    · rw [h0]; simp [Ieee.round, grid_zero, not_le.2 (zpow2_pos (K := ℝ) (emax + 1)), fin?]
    · rw [round_tiny h0 h hp]; rfl

private theorem mul_big (hp : 1 ≤ p) (he : 0 ≤ emax) {a b : Ieee ℝ p emax} {x y : ℝ} (ha : a.fin? = some x)
    (hb : b.fin? = some y) (h : (2 : ℝ) ^ (emax + 1) ≤ x * y) : a * b = inf false := by
  have hpos := (zpow2_pos (K := ℝ) (emax + 1)).trans_le h
  change mul a b = _
  rcases fin?_cases ha with ⟨s, rfl, rfl⟩ | rfl <;> rcases fin?_cases hb with ⟨t, rfl, rfl⟩ | rfl
  · simp at hpos
  · simp at hpos
  · simp at hpos
  · change Ieee.round (x * y) false = _
    rw [round_big hp he (h.trans (le_abs_self _)), decide_eq_false (not_lt.2 hpos.le)]

private theorem sub_le (hp : 1 ≤ p) {a b : Ieee ℝ p emax} {x y : ℝ} (ha : a.fin? = some x) (hb : b.fin? = some y)
    {j : ℤ} (hj0 : 2 - emax - p ≤ j) (hj1 : j < emax + 1) (h : |x - y| ≤ 2 ^ j) :
    ∃ z, (a - b).fin? = some z ∧ |z| ≤ 2 ^ j := by
  have hg : |grid p emax (x - y)| ≤ 2 ^ j := by
    rw [abs_grid, ← grid_zpow (p := p) (emax := emax) hp hj0]
    exact grid_mono hp h
  rcases sub_cases ha hb with ⟨t, -, h2, -⟩ | ⟨h1, -⟩
  · exact absurd (h2.trans hg) (not_le.2 (zpow_lt_zpow_right₀ one_lt_two hj1))
  · exact ⟨_, h1, hg⟩

private theorem cross_tiny (hp : 1 ≤ p) {a b c : Vec2 (Ieee ℝ p emax)} {x y z : Vec2 ℝ} (ha : a.Is x) (hb : b.Is y)
    (hc : c.Is z) {j : ℤ} (hj0 : 1 - emax - p ≤ j) (hj1 : j < emax) (hj : 2 * j + 2 < 1 - emax - p)
    (hs : ∀ w ∈ [x, y, z], |w.x| ≤ (2 : ℝ) ^ j ∧ |w.y| ≤ (2 : ℝ) ^ j) :
    (Vec2.crossProduct a b c).fin? = some 0 := by
  simp only [List.mem_cons, List.not_mem_nil, or_false, forall_eq_or_imp, forall_eq] at hs
  obtain ⟨⟨x1, x2⟩, ⟨y1, y2⟩, z1, z2⟩ := hs
  have dbl : (2 : ℝ) ^ (j + 1) = 2 ^ j + 2 ^ j := by rw [zpow_add₀ two_ne_zero, zpow_one]; ring
  have d : ∀ {a b : Ieee ℝ p emax} {u v : ℝ}, a.fin? = some u → b.fin? = some v → |u| ≤ 2 ^ j → |v| ≤ 2 ^ j →
      ∃ z, (a - b).fin? = some z ∧ |z| ≤ 2 ^ (j + 1) := fun {a b u v} h1 h2 h3 h4 =>
    sub_le hp h1 h2 (by omega) (by omega) ((abs_sub _ _).trans (by rw [dbl]; linarith))
  have m : ∀ {a b : Ieee ℝ p emax} {u v : ℝ}, a.fin? = some u → b.fin? = some v → |u| ≤ 2 ^ (j + 1) →
      |v| ≤ 2 ^ (j + 1) → (a * b).fin? = some 0 := fun {a b u v} h1 h2 h3 h4 => by
    refine mul_tiny hp h1 h2 ?_
    rw [abs_mul]
    calc |u| * |v| ≤ 2 ^ (j + 1) * 2 ^ (j + 1) := mul_le_mul h3 h4 (abs_nonneg _) (zpow2_pos _).le
      _ = 2 ^ (j + 1 + (j + 1)) := (zpow_add₀ two_ne_zero _ _).symm
      _ < _ := zpow_lt_zpow_right₀ one_lt_two (by omega)
  obtain ⟨_, e1, f1⟩ := d hb.1 ha.1 y1 x1
  obtain ⟨_, e2, f2⟩ := d hc.2 ha.2 z2 x2
  obtain ⟨_, e3, f3⟩ := d hc.1 ha.1 z1 x1
  obtain ⟨_, e4, f4⟩ := d hb.2 ha.2 y2 x2
  have := agr_sub hp (m e1 e2 f1 f2) (m e3 e4 f3 f4) (Or.inl (sub_self 0))
  rw [sub_self, rne_zero] at this
  exact this

/-- C125: triangles and points so small that the products of differences underflow: every point is inside. -/
theorem C125_triangle_underflow (hp : 1 ≤ p) (t : Tri2 (Ieee ℝ p emax)) (v : Vec2 (Ieee ℝ p emax)) (a b c q : Vec2 ℝ)
    (ha : t.a.Is a) (hb : t.b.Is b) (hc : t.c.Is c) (hv : v.Is q) (j : ℤ) (hj0 : 1 - emax - p ≤ j) (hj1 : j < emax)
    (hj : 2 * j + 2 < 1 - emax - p) (hs : ∀ w ∈ [a, b, c, q], |w.x| ≤ (2 : ℝ) ^ j ∧ |w.y| ≤ (2 : ℝ) ^ j) :
    t.contains v = true := by
  simp only [List.mem_cons, List.not_mem_nil, or_false, forall_eq_or_imp, forall_eq] at hs
  obtain ⟨h1, h2, h3, h4⟩ := hs
  have k1 := cross_tiny hp ha hb hv hj0 hj1 hj (by simp [h1, h2, h4])
  have k2 := cross_tiny hp hb hc hv hj0 hj1 hj (by simp [h2, h3, h4])
  have k3 := cross_tiny hp hc ha hv hj0 hj1 hj (by simp [h3, h1, h4])
  have z : (0 : Ieee ℝ p emax).fin? = some 0 := rfl
  simp only [Tri2.contains, ge_iff_le, decide_eq_true ((le_fin z k1).2 le_rfl), decide_eq_true ((le_fin z k2).2 le_rfl),
    decide_eq_true ((le_fin z k3).2 le_rfl), Bool.and_true, Bool.true_or]

example : (1 : ℤ) - 127 - (24 : ℕ) ≤ -78 ∧ (-78 : ℤ) < 127 ∧ (2 : ℤ) * -78 + 2 < 1 - 127 - (24 : ℕ) := by norm_num

/-- False in every format: a vertex of a large triangle is rejected, because an undefined difference of two infinities
is neither positive nor negative, and a point far from a tiny triangle is accepted. -/
theorem C125_triangle_refuted (hp : 1 ≤ p) (he : p + 8 ≤ emax) :
    (∃ (t : Tri2 (Ieee ℝ p emax)) (a b c : Vec2 ℝ), t.a.Is a ∧ t.b.Is b ∧ t.c.Is c ∧
      Vec2.crossProduct a b c ≠ 0 ∧ t.contains t.a = false) ∧
    (∃ (t : Tri2 (Ieee ℝ p emax)) (v : Vec2 (Ieee ℝ p emax)) (a b c q : Vec2 ℝ), t.a.Is a ∧ t.b.Is b ∧ t.c.Is c ∧
      v.Is q ∧ Vec2.crossProduct a b c ≠ 0 ∧ (∀ w ∈ [a, b, c], q.x < w.x - |b.x - a.x| - |c.x - a.x|) ∧
      t.contains v = true) ∧
    ¬ C125_triangle_full p emax := by
  obtain ⟨j, hj⟩ : ∃ j : ℤ, j = (emax + 2) / 2 := ⟨_, rfl⟩
  have pj := zpow2_pos (K := ℝ) j
  have dbl : ∀ i : ℤ, (2 : ℝ) ^ (i + 1) = 2 * 2 ^ i := fun i => by rw [zpow_add₀ two_ne_zero, zpow_one]; ring
  have A : ∃ (t : Tri2 (Ieee ℝ p emax)) (a b c : Vec2 ℝ), t.a.Is a ∧ t.b.Is b ∧ t.c.Is c ∧
      Vec2.crossProduct a b c ≠ 0 ∧ t.contains t.a = false := by
    refine ⟨⟨⟨0, 0⟩, ⟨num (2 ^ j), num (2 ^ j)⟩, ⟨num (-2 ^ j), 0⟩⟩, ⟨0, 0⟩, ⟨2 ^ j, 2 ^ j⟩, ⟨-2 ^ j, 0⟩, ⟨rfl, rfl⟩,
      ⟨rfl, rfl⟩, ⟨rfl, rfl⟩, ?_, ?_⟩
    · simp only [Vec2.crossProduct]
      have : 0 < (2 : ℝ) ^ j * 2 ^ j := mul_pos pj pj
      intro h; nlinarith
    · have z : (0 : Ieee ℝ p emax).fin? = some 0 := rfl
      have n1 : (num (2 ^ j) : Ieee ℝ p emax).fin? = some (2 ^ j) := rfl
      have n2 : (num (-2 ^ j) : Ieee ℝ p emax).fin? = some (-2 ^ j) := rfl
      have rn : ∀ i : ℤ, rne p (-(2 : ℝ) ^ i) = -2 ^ i := fun i => by rw [rne_neg, rne_zpow hp]
      have S : ∀ i : ℤ, 1 - emax ≤ i → i ≤ emax → Safe emax (-(2 : ℝ) ^ i) := fun i h1 h2 => by
        right; rw [abs_neg, abs_of_pos (zpow2_pos _)]
        exact ⟨zpow_le_zpow_right₀ one_le_two h1, zpow_le_zpow_right₀ one_le_two h2⟩
      have e1 : -(2 : ℝ) ^ j - 2 ^ j = -2 ^ (j + 1) := by rw [dbl]; ring
      have e2 : 0 - (2 : ℝ) ^ j = -2 ^ j := zero_sub _
      have d1 := agr_sub hp n2 n1 (by rw [e1]; exact S _ (by omega) (by omega))
      have d2 := agr_sub hp z n1 (by rw [e2]; exact S _ (by omega) (by omega))
      rw [e1, rn] at d1
      rw [e2, rn] at d2
      have m1 := mul_big hp (by omega) d1 d2 (by
        rw [neg_mul_neg, ← zpow_add₀ two_ne_zero]; exact zpow_le_zpow_right₀ one_le_two (by omega))
      have m2 := mul_big hp (by omega) d2 d2 (by
        rw [neg_mul_neg, ← zpow_add₀ two_ne_zero]; exact zpow_le_zpow_right₀ one_le_two (by omega))
      have hn : Vec2.crossProduct (⟨num (2 ^ j), num (2 ^ j)⟩ : Vec2 (Ieee ℝ p emax)) ⟨num (-2 ^ j), 0⟩ ⟨0, 0⟩ = nan := by
        simp only [Vec2.crossProduct, m1, m2]; rfl
      have f1 : ∀ x : Ieee ℝ p emax, ¬ nan ≤ x := fun x => by
        change ¬ leB nan x = true; simp [leB]
      have f2 : ∀ x : Ieee ℝ p emax, ¬ x ≤ nan := fun x => by
        change ¬ leB x nan = true; cases x <;> simp [leB]
      simp only [Tri2.contains, hn, ge_iff_le, decide_eq_false (f1 _), decide_eq_false (f2 _), Bool.and_false,
        Bool.false_and, Bool.or_false]
  refine ⟨A, ?_, fun h => ?_⟩
  · obtain ⟨i, hi⟩ : ∃ i : ℤ, i = -((emax + p + 4) / 2) - 4 := ⟨_, rfl⟩
    have pi := zpow2_pos (K := ℝ) i
    have e3 : (2 : ℝ) ^ (i + 3) = 8 * 2 ^ i := by
      rw [show i + 3 = i + 1 + 1 + 1 by ring, dbl, dbl, dbl]; ring
    have e3' := zpow2_pos (K := ℝ) (i + 3)
    have H := C125_triangle_underflow hp (⟨⟨0, 0⟩, ⟨num (2 ^ i), 0⟩, ⟨0, num (2 ^ i)⟩⟩ : Tri2 (Ieee ℝ p emax))
      ⟨num (-2 ^ (i + 3)), 0⟩ ⟨0, 0⟩ ⟨2 ^ i, 0⟩ ⟨0, 2 ^ i⟩ ⟨-2 ^ (i + 3), 0⟩ ⟨rfl, rfl⟩ ⟨rfl, rfl⟩ ⟨rfl, rfl⟩ ⟨rfl, rfl⟩
      (i + 3) (by omega) (by omega) (by omega) (by
        have : |(2 : ℝ) ^ i| ≤ 2 ^ (i + 3) := by rw [abs_of_pos pi, e3]; linarith
        have h2 : |-(2 : ℝ) ^ (i + 3)| ≤ 2 ^ (i + 3) := by rw [abs_neg, abs_of_pos e3']
        simp only [List.mem_cons, List.not_mem_nil, or_false, forall_eq_or_imp, forall_eq, abs_zero]
        exact ⟨⟨e3'.le, e3'.le⟩, ⟨this, e3'.le⟩, ⟨e3'.le, this⟩, h2, e3'.le⟩)
    refine ⟨_, _, ⟨0, 0⟩, ⟨2 ^ i, 0⟩, ⟨0, 2 ^ i⟩, ⟨-2 ^ (i + 3), 0⟩, ⟨rfl, rfl⟩, ⟨rfl, rfl⟩, ⟨rfl, rfl⟩, ⟨rfl, rfl⟩,
      ?_, ?_, H⟩
    · simp only [Vec2.crossProduct]
      have : 0 < (2 : ℝ) ^ i * 2 ^ i := mul_pos pi pi
      intro h; nlinarith
    · simp only [List.mem_cons, List.not_mem_nil, or_false, forall_eq_or_imp, forall_eq, sub_zero, abs_of_pos pi,
        abs_zero, e3]
      refine ⟨by linarith, by linarith, by linarith⟩
  · obtain ⟨t, a, b, c, ha, hb, hc, h0, h1⟩ := A
    have := (h t a b c ha hb hc h0).1
    rw [h1] at this; exact Bool.false_ne_true this

/-- What holds: the answer is the one of rounding alone when the coordinates are multiples of `2^g` of size at most
`2^h`, where `2^(2g)` and `2^(2h+3)` are within the range of the format; so vertices are inside, no point of the triangle
is rejected if the differences of coordinates are exact (`h + 1 ≤ g + p`), and the answer is right for all points if
the products are exact as well (`2 h + 3 ≤ 2 g + p`), as for integers up to `2^10` in `float`.
Missing: larger and smaller numbers (false). -/
theorem C125_triangle_partial (hp : 1 ≤ p) {g h : ℤ} (hg : 1 - emax ≤ 2 * g) (hh : 2 * h + 3 ≤ emax) (he : 0 ≤ emax)
    (hgh : g ≤ h) (t : Tri2 (Ieee ℝ p emax)) (v : Vec2 (Ieee ℝ p emax)) (a b c q : Vec2 ℝ) (ha : t.a.Is a) (hb : t.b.Is b)
    (hc : t.c.Is c) (hv : v.Is q) (ga : a.OnGrid g h) (gb : b.OnGrid g h) (gc : c.OnGrid g h) (gq : q.OnGrid g h) :
    (t.contains t.a = true ∧ t.contains t.b = true ∧ t.contains t.c = true) ∧
    (h + 1 ≤ g + p → InHull a b c q → t.contains v = true) ∧
    (2 * h + 3 ≤ 2 * g + p → t.contains v = (Tri2.mk a b c : Tri2 ℝ).contains q) := by
  have cr : ∀ {a b c : Vec2 (Ieee ℝ p emax)} {x y z : Vec2 ℝ}, a.Is x → b.Is y → c.Is z → x.OnGrid g h →
      y.OnGrid g h → z.OnGrid g h → Gr (g + g) (2 * h + 3) (Vec2.crossProduct a b c)
        (Vec2.crossProduct (Vec2.num x : Vec2 (Fl ℝ (rne p))) (Vec2.num y) (Vec2.num z)) := by
    intro a b c x y z ha hb hc gx gy gz
    have d : ∀ {a b : Ieee ℝ p emax} {u v : ℝ}, a.fin? = some u → b.fin? = some v → OnGrid g h u → OnGrid g h v →
        Gr g (h + 1) (a - b) (.num u - .num v : Fl ℝ (rne p)) := fun h1 h2 h3 h4 =>
      Gr.sub hp (gr_of h1 h3) (gr_of h2 h4) (by omega) (by omega)
    have m1 := Gr.mul hp (d hb.1 ha.1 gy.1 gx.1) (d hc.2 ha.2 gz.2 gx.2) (by omega) (by omega)
    have m2 := Gr.mul hp (d hc.1 ha.1 gz.1 gx.1) (d hb.2 ha.2 gy.2 gx.2) (by omega) (by omega)
    exact (Gr.sub hp m1 m2 (by omega) (by omega)).mono le_rfl (by omega)
  have agree : ∀ {v : Vec2 (Ieee ℝ p emax)} {q : Vec2 ℝ}, v.Is q → q.OnGrid g h → t.contains v =
      (Tri2.mk (Vec2.num a) (Vec2.num b) (Vec2.num c) : Tri2 (Fl ℝ (rne p))).contains (Vec2.num q) := by
    intro v q hv gq
    have z : Gr (g + g) (2 * h + 3) (0 : Ieee ℝ p emax) (0 : Fl ℝ (rne p)) := Gr.zero
    have c1 := cr ha hb hv ga gb gq
    have c2 := cr hb hc hv gb gc gq
    have c3 := cr hc ha hv gc ga gq
    simp only [Tri2.contains, ge_iff_le, z.le c1, z.le c2, z.le c3, c1.le z, c2.le z, c3.le z]
  have hm : Monotone (rne p : ℝ → ℝ) := rne_mono p hp
  have P := fun q => C121_triangle_partial hm (rne_zero p) a b c q
  have ex : ∀ {g h : ℤ} {x : ℝ}, h ≤ g + p → OnGrid g h x → rne p x = x := by
    rintro g h x hgh ⟨⟨m, hm⟩, hb⟩
    exact rne_of_rep hp (Rep.of_multiple m g hm (hb.trans (zpow_le_zpow_right₀ one_le_two (by omega))))
  have exd : ∀ {x y : ℝ}, h + 1 ≤ g + p → OnGrid g h x → OnGrid g h y → rne p (x - y) = x - y := by
    intro x y h1 h2 h3
    have := h2.add h3.neg
    rw [← sub_eq_add_neg] at this
    exact ex h1 this
  refine ⟨⟨?_, ?_, ?_⟩, fun h1 hq => ?_, fun h1 => ?_⟩
  · rw [agree ha ga]; exact (P a).2 a (by simp)
  · rw [agree hb gb]; exact (P a).2 b (by simp)
  · rw [agree hc gc]; exact (P a).2 c (by simp)
  · rw [agree hv gq]
    refine (P q).1 ?_ hq
    simp only [List.mem_cons, List.not_mem_nil, or_false, forall_eq_or_imp, forall_eq]
    exact ⟨⟨exd h1 gb.1 ga.1, exd h1 gb.2 ga.2⟩, ⟨exd h1 gc.1 gb.1, exd h1 gc.2 gb.2⟩, ⟨exd h1 ga.1 gc.1, exd h1 ga.2 gc.2⟩,
      ⟨exd h1 gq.1 ga.1, exd h1 gq.2 ga.2⟩, ⟨exd h1 gq.1 gb.1, exd h1 gq.2 gb.2⟩, exd h1 gq.1 gc.1, exd h1 gq.2 gc.2⟩
  · rw [agree hv gq]
    have crx : ∀ {x y z : Vec2 ℝ}, x.OnGrid g h → y.OnGrid g h → z.OnGrid g h →
        Vec2.crossProduct (Vec2.num x : Vec2 (Fl ℝ (rne p))) (Vec2.num y) (Vec2.num z) =
          .num (Vec2.crossProduct x y z) := by
      intro x y z gx gy gz
      have og : ∀ {x y : ℝ}, OnGrid g h x → OnGrid g h y → OnGrid g (h + 1) (x - y) := fun h2 h3 => by
        have := h2.add h3.neg
        rwa [← sub_eq_add_neg] at this
      have m1 := (og gy.1 gx.1).mul (og gz.2 gx.2)
      have m2 := (og gz.1 gx.1).mul (og gy.2 gx.2)
      have m3 := m1.add m2.neg
      rw [← sub_eq_add_neg] at m3
      simp only [Vec2.crossProduct, Vec2.num, Fl.num_sub, Fl.num_mul]
      rw [exd (by omega) gy.1 gx.1, exd (by omega) gz.2 gx.2, exd (by omega) gz.1 gx.1, exd (by omega) gy.2 gx.2,
        ex (by omega) m1, ex (by omega) m2, ex (by omega) m3]
    simp only [Tri2.contains, crx ga gb gq, crx gb gc gq, crx gc ga gq, Fl.zero_def, ge_iff_le, Fl.num_le]

example : (1 : ℤ) - 127 ≤ 2 * 0 ∧ (2 : ℤ) * 10 + 3 ≤ 127 ∧ (2 : ℤ) * 10 + 3 ≤ 2 * 0 + (24 : ℕ) ∧
    (⟨1024, -7⟩ : Vec2 ℝ).OnGrid 0 10 :=
  ⟨by norm_num, by norm_num, by norm_num, ⟨⟨1024, by norm_num⟩, by norm_num⟩, ⟨-7, by norm_num⟩, by norm_num⟩

end MathLib
