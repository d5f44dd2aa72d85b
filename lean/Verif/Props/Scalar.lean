import Verif.Model.Functions
import Verif.Spec.RealInst
import Verif.Spec.FloatReal
import Mathlib.Tactic.Linarith
import Mathlib.Tactic.Ring
import Mathlib.Tactic.FieldSimp
import Mathlib.Tactic.NormNum
import Mathlib.Tactic.IntervalCases

/-! # Properties C01-C07: scalar helpers -/

namespace MathLib

/-! ## C01 clamping, min, max, abs -/

/-- `clippedBetween(value,a,b)` with `a ≤ b` is in `[a,b]`, leaves values already in range alone,
and otherwise returns the nearer bound. -/
theorem C01_clip {R : Type} [LinearOrder R] (value a b : R) (hab : a ≤ b) :
    clippedBetween value a b ∈ Set.Icc a b ∧
    (value ∈ Set.Icc a b → clippedBetween value a b = value) ∧
    (value < a → clippedBetween value a b = a) ∧
    (b < value → clippedBetween value a b = b) := by
  unfold clippedBetween
  refine ⟨?_, ?_, ?_, ?_⟩
  · split_ifs with h1 h2
    · exact ⟨hab, le_rfl⟩
    · exact ⟨le_rfl, hab⟩
    · exact ⟨not_lt.1 h2, not_lt.1 h1⟩
  · rintro ⟨h1, h2⟩
    rw [if_neg (not_lt.2 h2), if_neg (not_lt.2 h1)]
  · intro h
    rw [if_neg (not_lt.2 (h.le.trans hab)), if_pos h]
  · intro h
    rw [if_pos h]

/-- `clippedBetween` is monotone in the value. -/
theorem C01_clip_monotone {R : Type} [LinearOrder R] (a b : R) (hab : a ≤ b) :
    Monotone (fun value => clippedBetween value a b) := by
  intro v w hvw
  simp only [clippedBetween]
  split_ifs <;> order

example : clippedBetween (5 : ℤ) 0 3 = 3 ∧ (0 : ℤ) ≤ 3 := by decide

/-- `min`/`max` return one of their arguments, below (above) both. -/
theorem C01_min_max {R : Type} [LinearOrder R] (a b : R) :
    IsLeast {a, b} (min' a b) ∧ IsGreatest {a, b} (max' a b) := by
  unfold min' max'
  refine ⟨⟨?_, ?_⟩, ⟨?_, ?_⟩⟩
  · split_ifs <;> simp
  · rintro c (rfl | rfl) <;> split_ifs <;> order
  · split_ifs <;> simp
  · rintro c (rfl | rfl) <;> split_ifs <;> order

/-- `abs` is the absolute value. -/
theorem C01_abs {R : Type} [AddCommGroup R] [LinearOrder R] [IsOrderedAddMonoid R] (v : R) :
    0 ≤ abs' v ∧ (abs' v = v ∨ abs' v = -v) := by
  unfold abs'
  split_ifs with h
  · exact ⟨(neg_pos.2 h).le, Or.inr rfl⟩
  · exact ⟨not_lt.1 h, Or.inl rfl⟩

/-- With an IEEE NaN value, `clippedBetween` returns NaN; with a number and numeric bounds it
never returns NaN (and the number is in range). -/
theorem C01_clip_nan {K : Type} [LinearOrder K] (rnd : K → K) :
    (∀ a b : Fl K rnd, clippedBetween .nan a b = .nan) ∧
    (∀ v a b : K, a ≤ b → ∃ w : K, clippedBetween (.num v : Fl K rnd) (.num a) (.num b) = .num w ∧
      w ∈ Set.Icc a b) := by
  constructor
  · intro a b
    simp [clippedBetween]
  · intro v a b hab
    refine ⟨clippedBetween v a b, ?_, (C01_clip v a b hab).1⟩
    unfold clippedBetween
    simp only [gt_iff_lt, Fl.num_lt]
    split_ifs <;> rfl

/-- `min`/`max` with a NaN: the second argument is returned, so a NaN first argument is
ignored and a NaN second argument is propagated (they are not symmetric on NaN). -/
theorem C01_min_max_nan {K : Type} [LinearOrder K] (rnd : K → K) (a : Fl K rnd) :
    min' .nan a = a ∧ min' a .nan = .nan ∧ max' .nan a = a ∧ max' a .nan = .nan := by
  simp [min', max']

/-! ## C02 coordinate cycling -/

theorem C02_next2D (n : ℕ) (c : Coord) (hc : c = .X ∨ c = .Y) :
    (next2D^[n] c = c ↔ 2 ∣ n) ∧ (next2D^[n] c = .X ∨ next2D^[n] c = .Y) := by
  have key : ∀ n, next2D^[2 * n] c = c := by
    intro n
    induction n with
    | zero => rfl
    | succ k ih =>
      rw [show 2 * (k + 1) = 2 * k + 2 by ring, Function.iterate_add_apply]
      have : next2D^[2] c = c := by rcases hc with rfl | rfl <;> rfl
      rw [this, ih]
  obtain ⟨k, rfl | rfl⟩ := Nat.even_or_odd' n
  · rw [key]; exact ⟨by simp, hc⟩
  · rw [Function.iterate_succ_apply', key]
    constructor
    · constructor
      · intro h; exfalso; rcases hc with rfl | rfl <;> simp [next2D] at h
      · intro h; omega
    · rcases hc with rfl | rfl <;> simp [next2D]

theorem C02_next3D (n : ℕ) (c : Coord) (hc : c = .X ∨ c = .Y ∨ c = .Z) :
    (next3D^[n] c = c ↔ 3 ∣ n) ∧
    (next3D^[n] c = .X ∨ next3D^[n] c = .Y ∨ next3D^[n] c = .Z) := by
  have key : ∀ n, next3D^[3 * n] c = c := by
    intro n
    induction n with
    | zero => rfl
    | succ k ih =>
      rw [show 3 * (k + 1) = 3 * k + 3 by ring, Function.iterate_add_apply]
      have : next3D^[3] c = c := by rcases hc with rfl | rfl | rfl <;> rfl
      rw [this, ih]
  have h3 : n = 3 * (n / 3) + n % 3 := by omega
  have hlt : n % 3 < 3 := Nat.mod_lt _ (by norm_num)
  have hval : next3D^[n] c = next3D^[n % 3] c := by
    conv_lhs => rw [h3, Nat.add_comm, Function.iterate_add_apply, key]
  rw [hval, Nat.dvd_iff_mod_eq_zero]
  generalize n % 3 = m at hlt
  interval_cases m <;> rcases hc with rfl | rfl | rfl <;> decide

/-- Any other coordinate goes to `Undefined`, for ever. -/
theorem C02_undefined (n : ℕ) (c : Coord) :
    ((c ≠ .X ∧ c ≠ .Y) → next2D^[n + 1] c = .Undefined) ∧
    ((c ≠ .X ∧ c ≠ .Y ∧ c ≠ .Z) → next3D^[n + 1] c = .Undefined) := by
  constructor
  · intro h
    induction n with
    | zero => cases c <;> simp_all [next2D]
    | succ k ih => rw [Function.iterate_succ_apply', ih]; rfl
  · intro h
    induction n with
    | zero => cases c <;> simp_all [next3D]
    | succ k ih => rw [Function.iterate_succ_apply', ih]; rfl

example : next3D^[5] .Y = .X := rfl

/-! ## C03 floating modulo -/

theorem truncR_bounds (q : ℝ) : (0 ≤ q → (truncR q : ℝ) ≤ q ∧ q < truncR q + 1) ∧
    (q < 0 → q ≤ truncR q ∧ (truncR q : ℝ) < q + 1) := by
  constructor
  · intro h
    rw [truncR, if_pos h]
    exact ⟨Int.floor_le q, Int.lt_floor_add_one q⟩
  · intro h
    rw [truncR, if_neg (not_le.2 h)]
    exact ⟨Int.le_ceil q, Int.ceil_lt_add_one q⟩

/-- C `fmod` for a positive divisor: same sign as the dividend, magnitude below the divisor,
congruent. -/
theorem fmodR_spec (x y : ℝ) (hy : 0 < y) :
    (0 ≤ x → 0 ≤ fmodR x y ∧ fmodR x y < y) ∧ (x < 0 → -y < fmodR x y ∧ fmodR x y ≤ 0) ∧
    ∃ k : ℤ, fmodR x y = x - k * y := by
  refine ⟨fun hx => ?_, fun hx => ?_, ⟨_, rfl⟩⟩
  · have := (truncR_bounds (x / y)).1 (div_nonneg hx hy.le)
    have e : x / y * y = x := div_mul_cancel₀ x hy.ne'
    unfold fmodR
    constructor
    · nlinarith [mul_le_mul_of_nonneg_right this.1 hy.le]
    · nlinarith [mul_lt_mul_of_pos_right this.2 hy]
  · have := (truncR_bounds (x / y)).2 (div_neg_of_neg_of_pos hx hy)
    have e : x / y * y = x := div_mul_cancel₀ x hy.ne'
    unfold fmodR
    constructor
    · nlinarith [mul_lt_mul_of_pos_right this.2 hy]
    · nlinarith [mul_le_mul_of_nonneg_right this.1 hy.le]

theorem residue_unique (x y a r r' : ℝ) (hy : 0 < y)
    (h1 : a ≤ r ∧ r < a + y) (h1' : a ≤ r' ∧ r' < a + y)
    (h2 : ∃ k : ℤ, r = x - k * y) (h2' : ∃ k : ℤ, r' = x - k * y) : r = r' := by
  obtain ⟨k, hk⟩ := h2
  obtain ⟨k', hk'⟩ := h2'
  have e : r - r' = ((k' - k : ℤ) : ℝ) * y := by push_cast; rw [hk, hk']; ring
  have hlt : |((k' - k : ℤ) : ℝ)| < 1 := by
    have : |((k' - k : ℤ) : ℝ) * y| < 1 * y := by
      rw [← e, abs_lt]; constructor <;> linarith [h1.1, h1.2, h1'.1, h1'.2]
    rw [abs_mul, abs_of_pos hy] at this
    exact lt_of_mul_lt_mul_right this hy.le
  have : k' - k = 0 := by
    have : |k' - k| < 1 := by exact_mod_cast hlt
    exact Int.abs_lt_one_iff.1 this
  rw [this] at e
  simp at e
  linarith

/-- `fmodPositive(x,y)`, `y > 0`: the unique number of `[0,y)` congruent to `x` modulo `y`. -/
theorem C03_fmodPositive (x y : ℝ) (hy : 0 < y) :
    ∃ r, fmodPositive x y = .ok r ∧ (0 ≤ r ∧ r < y) ∧ (∃ k : ℤ, r = x - k * y) ∧
      ∀ r', (0 ≤ r' ∧ r' < y) → (∃ k : ℤ, r' = x - k * y) → r' = r := by
  obtain ⟨hpos, hneg, k, hk⟩ := fmodR_spec x y hy
  have main : ∃ r, fmodPositive x y = .ok r ∧ (0 ≤ r ∧ r < y) ∧ (∃ k : ℤ, r = x - k * y) := by
    simp only [fmodPositive, gt_iff_lt, hy, if_true, real_fmod, ge_iff_le]
    refine ⟨_, rfl, ?_, ?_⟩
    · split_ifs with h
      · rcases le_or_gt 0 x with hx | hx
        · exact hpos hx
        · exact ⟨h, by linarith [(hneg hx).2]⟩
      · rcases le_or_gt 0 x with hx | hx
        · exact absurd (hpos hx).1 h
        · exact ⟨by linarith [(hneg hx).1], by linarith⟩
    · split_ifs with h
      · exact ⟨k, hk⟩
      · exact ⟨k - 1, by rw [hk]; push_cast; ring⟩
  obtain ⟨r, h1, h2, h3⟩ := main
  exact ⟨r, h1, h2, h3, fun r' h2' h3' =>
    residue_unique x y 0 r' r hy (by simpa using h2') (by simpa using h2) h3' h3⟩

/-- `fmodCentered(x,y)`, `y > 0`: the unique number of `[-y/2,y/2)` congruent to `x` modulo `y`. -/
theorem C03_fmodCentered (x y : ℝ) (hy : 0 < y) :
    ∃ r, fmodCentered x y = .ok r ∧ (-(y / 2) ≤ r ∧ r < y / 2) ∧ (∃ k : ℤ, r = x - k * y) ∧
      ∀ r', (-(y / 2) ≤ r' ∧ r' < y / 2) → (∃ k : ℤ, r' = x - k * y) → r' = r := by
  obtain ⟨r, h1, h2, ⟨k, h3⟩, -⟩ := C03_fmodPositive (x + y * (1 / 2)) y hy
  refine ⟨r - y * (1 / 2), ?_, ⟨by linarith [h2.1], by linarith [h2.2]⟩, ⟨k, by rw [h3]; ring⟩, ?_⟩
  · simp only [fmodCentered, h1]; rfl
  · intro r' h2' h3'
    exact residue_unique x y (-(y / 2)) _ _ hy ⟨h2'.1, by linarith [h2'.2]⟩
      ⟨by linarith [h2.1], by linarith [h2.2]⟩ h3' ⟨k, by rw [h3]; ring⟩

/-- Outside `y > 0` (resp. `y ≠ 0` for `fmod`) the assertion fires. -/
theorem C03_assert (x y : ℝ) :
    (y ≤ 0 → fmodPositive x y = .error .assertion ∧ fmodCentered x y = .error .assertion) ∧
    (fmod' x y = .error .assertion ↔ y = 0) := by
  constructor
  · intro h
    have : ¬ (0 < y) := not_lt.2 h
    simp [fmodPositive, fmodCentered, this, bind, Except.bind]
  · by_cases h : y = 0 <;> simp [fmod', h]

example : ∃ r, fmodPositive (-1 : ℝ) 3 = .ok r ∧ r = 2 := by
  obtain ⟨r, h, h1, h2, h3⟩ := C03_fmodPositive (-1) 3 (by norm_num)
  exact ⟨r, h, (h3 2 (by norm_num) ⟨-1, by norm_num⟩).symm⟩

/-! ## C04 clamped asin / acos -/

/-- `asin`: an angle of `[-pi/2,pi/2]`, inverse of `sin` on `[-1,1]`, saturating outside. -/
theorem C04_asin (s : ℝ) :
    (-(Real.pi / 2) ≤ asin' s ∧ asin' s ≤ Real.pi / 2) ∧
    (-1 ≤ s → s ≤ 1 → Real.sin (asin' s) = s) ∧
    (1 ≤ s → asin' s = Real.pi / 2) ∧ (s ≤ -1 → asin' s = -(Real.pi / 2)) := by
  unfold asin'
  simp only [real_asin]
  refine ⟨⟨Real.neg_pi_div_two_le_arcsin _, Real.arcsin_le_pi_div_two _⟩, ?_, ?_, ?_⟩
  · intro h1 h2
    rw [if_neg (not_lt.2 h2), if_neg (not_lt.2 h1)]
    exact Real.sin_arcsin h1 h2
  · intro h
    rcases eq_or_lt_of_le h with rfl | h
    · norm_num
    · rw [if_pos h]; norm_num
  · intro h
    have h1 : ¬ (1 < s) := by linarith
    rw [if_neg h1]
    rcases eq_or_lt_of_le h with rfl | h
    · simp
    · rw [if_pos h]; simp

/-- `acos`: an angle of `[0,pi]`, inverse of `cos` on `[-1,1]`, saturating outside. -/
theorem C04_acos (c : ℝ) :
    (0 ≤ acos' c ∧ acos' c ≤ Real.pi) ∧
    (-1 ≤ c → c ≤ 1 → Real.cos (acos' c) = c) ∧
    (1 ≤ c → acos' c = 0) ∧ (c ≤ -1 → acos' c = Real.pi) := by
  unfold acos'
  simp only [real_acos]
  refine ⟨⟨Real.arccos_nonneg _, Real.arccos_le_pi _⟩, ?_, ?_, ?_⟩
  · intro h1 h2
    rw [if_neg (not_lt.2 h2), if_neg (not_lt.2 h1)]
    exact Real.cos_arccos h1 h2
  · intro h
    rcases eq_or_lt_of_le h with rfl | h
    · norm_num
    · rw [if_pos h]; norm_num
  · intro h
    have h1 : ¬ (1 < c) := by linarith
    rw [if_neg h1]
    rcases eq_or_lt_of_le h with rfl | h
    · simp
    · rw [if_pos h]; simp

/-- The argument handed to the C functions is always in their domain: with domain errors made
explicit, the result is a number for every finite argument. -/
theorem C04_defined (s : ℝ) :
    (∃ a, asin' (.num s : XR) = .num a) ∧ (∃ a, acos' (.num s : XR) = .num a) := by
  have h1 : (1 : XR) = .num 1 := rfl
  have hm1 : (-1 : XR) = .num (-1) := rfl
  have lt1 : ∀ a b : ℝ, ((.num a : XR) > .num b) = (b < a) := fun a b => by
    rw [gt_iff_lt, Fl.num_lt]
  have lt2 : ∀ a b : ℝ, ((.num a : XR) < .num b) = (a < b) := fun a b => by rw [Fl.num_lt]
  constructor
  · simp only [asin', h1, lt1]
    by_cases c1 : 1 < s
    · simp only [if_pos c1]; norm_num
    · by_cases c2 : s < -1
      · norm_num [if_neg c1, c2]
      · simp only [if_neg c1]; simp [c1, c2]
  · simp only [acos', h1, lt1]
    by_cases c1 : 1 < s
    · simp only [if_pos c1]; norm_num
    · by_cases c2 : s < -1
      · norm_num [if_neg c1, c2]
      · simp only [if_neg c1]; simp [c1, c2]

/-! ## C05 degrees and radians -/

theorem C05_degree_radian (x y : ℝ) :
    radianToDegree (degreeToRadian x) = x ∧ degreeToRadian (radianToDegree x) = x ∧
    degreeToRadian (180 : ℝ) = Real.pi ∧ radianToDegree Real.pi = (180 : ℝ) ∧
    degreeToRadian (x + y) = degreeToRadian x + degreeToRadian y := by
  have := Real.pi_ne_zero
  simp only [radianToDegree, degreeToRadian, real_pi]
  refine ⟨?_, ?_, ?_, ?_, ?_⟩ <;> field_simp

/-! ## C06 integer random helpers -/

/-- `rand(n)` for `n > 0`: always in `[0,n)`, every value occurs, and `n = 0` is undefined. -/
theorem C06_rand (n : ℤ) (randMax : ℤ) :
    (0 < n → ∀ r, 0 ≤ r → r ≤ randMax → ∃ v, randInt r n = .ok v ∧ 0 ≤ v ∧ v < n) ∧
    (∀ v, 0 ≤ v → v < n → v ≤ randMax → ∃ r, 0 ≤ r ∧ r ≤ randMax ∧ randInt r n = .ok v) ∧
    (∀ r, randInt r 0 = .error .divByZero) := by
  refine ⟨?_, ?_, ?_⟩
  · intro hn r h0 _
    refine ⟨r.tmod n, by simp [randInt, intRem, hn.ne'], Int.tmod_nonneg _ h0,
      Int.tmod_lt_of_pos _ hn⟩
  · intro v h0 h1 h2
    have hn : n ≠ 0 := by omega
    exact ⟨v, h0, h2, by simp [randInt, intRem, hn, Int.tmod_eq_of_lt h0 h1]⟩
  · intro r; simp [randInt, intRem]

/-- `randBetween(from,to)` for ints `from < to` whose difference fits an `int`. -/
theorem C06_randBetween (f t randMax : ℤ) (hft : f < t) (hf : intMin ≤ f) (ht : t ≤ intMax)
    (hd : t - f ≤ intMax) :
    (∀ r, 0 ≤ r → r ≤ randMax → ∃ v, randBetweenInt r f t = .ok v ∧ f ≤ v ∧ v < t) ∧
    (∀ v, f ≤ v → v < t → v - f ≤ randMax →
      ∃ r, 0 ≤ r ∧ r ≤ randMax ∧ randBetweenInt r f t = .ok v) := by
  have hd' : mkInt (t - f) = .ok (t - f) := by
    unfold mkInt; rw [if_pos]; constructor <;> (simp only [intMin, intMax] at *; omega)
  have hne : t - f ≠ 0 := by omega
  constructor
  · intro r h0 _
    have h1 := Int.tmod_nonneg (t - f) h0
    have h2 := Int.tmod_lt_of_pos r (show 0 < t - f by omega)
    refine ⟨f + r.tmod (t - f), ?_, by omega, by omega⟩
    simp only [randBetweenInt, hd', intRem, if_neg hne, bind, Except.bind]
    unfold mkInt; rw [if_pos]; constructor <;> omega
  · intro v h0 h1 h2
    refine ⟨v - f, by omega, h2, ?_⟩
    simp only [randBetweenInt, hd', intRem, if_neg hne, bind, Except.bind,
      Int.tmod_eq_of_lt (show 0 ≤ v - f by omega) (show v - f < t - f by omega)]
    unfold mkInt; rw [if_pos] <;> [skip; constructor] <;> (try omega)
    congr 1; omega

/-- `randAmplitude(n)` for `n > 0` with `2n` an `int`: always in `[-n,n)`, every value occurs. -/
theorem C06_randAmplitude (n randMax : ℤ) (hn : 0 < n) (h2n : 2 * n ≤ intMax) :
    (∀ r, 0 ≤ r → r ≤ randMax → ∃ v, randAmplitudeInt r n = .ok v ∧ -n ≤ v ∧ v < n) ∧
    (∀ v, -n ≤ v → v < n → v + n ≤ randMax →
      ∃ r, 0 ≤ r ∧ r ≤ randMax ∧ randAmplitudeInt r n = .ok v) := by
  have hd' : mkInt (2 * n) = .ok (2 * n) := by
    unfold mkInt; rw [if_pos]; constructor <;> (simp only [intMin, intMax] at *; omega)
  have hne : 2 * n ≠ 0 := by omega
  constructor
  · intro r h0 _
    have h1 := Int.tmod_nonneg (2 * n) h0
    have h2 := Int.tmod_lt_of_pos r (show 0 < 2 * n by omega)
    refine ⟨r.tmod (2 * n) - n, ?_, by omega, by omega⟩
    simp only [randAmplitudeInt, hd', intRem, if_neg hne, bind, Except.bind]
    unfold mkInt; rw [if_pos]; simp only [intMin, intMax] at *; constructor <;> omega
  · intro v h0 h1 h2
    refine ⟨v + n, by omega, h2, ?_⟩
    simp only [randAmplitudeInt, hd', intRem, if_neg hne, bind, Except.bind,
      Int.tmod_eq_of_lt (show 0 ≤ v + n by omega) (show v + n < 2 * n by omega)]
    unfold mkInt; rw [if_pos] <;> [skip; constructor] <;> (simp only [intMin, intMax] at *; try omega)
    congr 1; omega

/-- `randAmplitude(from,to)` for `0 ≤ from < to`: in `[from,to)` or in `[-to,-from)`, every value
of both ranges occurs. -/
theorem C06_randAmplitude2 (f t randMax : ℤ) (hf : 0 ≤ f) (hft : f < t) (ht : t ≤ intMax)
    (hd : 2 * (t - f) ≤ intMax) :
    (∀ r, 0 ≤ r → r ≤ randMax →
      ∃ v, randAmplitudeInt2 r f t = .ok v ∧ ((f ≤ v ∧ v < t) ∨ (-t ≤ v ∧ v < -f))) ∧
    (∀ v, ((f ≤ v ∧ v < t) ∨ (-t ≤ v ∧ v < -f)) → 2 * (t - f) ≤ randMax →
      ∃ r, 0 ≤ r ∧ r ≤ randMax ∧ randAmplitudeInt2 r f t = .ok v) := by
  have i1 : mkInt (t - f) = .ok (t - f) := by
    unfold mkInt; rw [if_pos]; constructor <;> (simp only [intMin, intMax] at *; omega)
  have i2 : mkInt (2 * (t - f)) = .ok (2 * (t - f)) := by
    unfold mkInt; rw [if_pos]; constructor <;> (simp only [intMin, intMax] at *; omega)
  have i3 : mkInt (-f) = .ok (-f) := by
    unfold mkInt; rw [if_pos]; constructor <;> (simp only [intMin, intMax] at *; omega)
  have hne : 2 * (t - f) ≠ 0 := by omega
  have key : ∀ m, 0 ≤ m → m < 2 * (t - f) → ∀ r, r.tmod (2 * (t - f)) = m →
      randAmplitudeInt2 r f t = .ok (if m - (t - f) ≥ 0 then f + (m - (t - f))
        else -f + (m - (t - f))) := by
    intro m h0 h1 r hr
    have i4 : mkInt (m - (t - f)) = .ok (m - (t - f)) := by
      unfold mkInt; rw [if_pos]; constructor <;> (simp only [intMin, intMax] at *; omega)
    simp only [randAmplitudeInt2, i1, i2, i3, i4, intRem, if_neg hne, bind, Except.bind, hr]
    split_ifs with h <;> unfold mkInt <;> rw [if_pos] <;>
      (simp only [intMin, intMax] at *; constructor <;> omega)
  constructor
  · intro r h0 _
    have h1 := Int.tmod_nonneg (2 * (t - f)) h0
    have h2 := Int.tmod_lt_of_pos r (show 0 < 2 * (t - f) by omega)
    refine ⟨_, key _ h1 h2 r rfl, ?_⟩
    split_ifs <;> omega
  · intro v hv hm
    rcases hv with hv | hv
    · refine ⟨v - f + (t - f), by omega, by omega, ?_⟩
      rw [key (v - f + (t - f)) (by omega) (by omega) _ (Int.tmod_eq_of_lt (by omega) (by omega)),
        if_pos (by omega)]
      congr 1; omega
    · refine ⟨v + f + (t - f), by omega, by omega, ?_⟩
      rw [key (v + f + (t - f)) (by omega) (by omega) _ (Int.tmod_eq_of_lt (by omega) (by omega)),
        if_neg (by omega)]
      congr 1; omega

example : randBetweenInt 17 (-3) 4 = .ok 0 := rfl
example : randAmplitudeInt2 7 2 5 = .ok (-4) := rfl

/-- Called with its bounds the wrong way round, `randBetween` leaves the interval:
`randBetween(10,5)` can return 14. -/
theorem C06_randBetween_reversed : randBetweenInt 4 10 5 = .ok 14 := rfl

/-! ## C07 real random helpers -/

/-- Ranges of the real helpers for every draw `r` in `[0,m]`, `m = RAND_MAX > 0`. -/
theorem C07_ranges (m r : ℝ) (hm : 0 < m) (h0 : 0 ≤ r) (h1 : r ≤ m) (a b : ℝ) :
    (0 ≤ a → 0 ≤ randReal m r a ∧ randReal m r a ≤ a) ∧
    (a ≤ b → a ≤ randBetweenReal m r a b ∧ randBetweenReal m r a b ≤ b) ∧
    (0 ≤ a → -a ≤ randAmplitudeReal m r a ∧ randAmplitudeReal m r a ≤ a) := by
  have hq0 : 0 ≤ r / m := div_nonneg h0 hm.le
  have hq1 : r / m ≤ 1 := (div_le_one hm).2 h1
  refine ⟨fun ha => ?_, fun hab => ?_, fun ha => ?_⟩
  · have e : randReal m r a = r / m * a := by simp only [randReal]; ring
    rw [e]; constructor <;> nlinarith
  · have e : randBetweenReal m r a b = a + r / m * (b - a) := by simp only [randBetweenReal]; ring
    rw [e]; constructor <;> nlinarith
  · have e : randAmplitudeReal m r a = (2 * (r / m) - 1) * a := by
      simp only [randAmplitudeReal]; ring
    rw [e]; constructor <;> nlinarith

/-- Both ends of every range are attained, by the draws `0` and `RAND_MAX`. -/
theorem C07_ends (m : ℝ) (hm : 0 < m) (a b : ℝ) :
    randReal m 0 a = 0 ∧ randReal m m a = a ∧
    randBetweenReal m 0 a b = a ∧ randBetweenReal m m a b = b ∧
    randAmplitudeReal m 0 a = -a ∧ randAmplitudeReal m m a = a := by
  have := hm.ne'
  simp only [randReal, randBetweenReal, randAmplitudeReal]
  refine ⟨by ring, by field_simp, by ring, by field_simp; ring, by ring, by field_simp; ring⟩

/-- What remains true of `randAmplitude(from,to)`: its magnitude is in `[from,to]` ... -/
theorem C07_randAmplitude2_partial (m r : ℝ) (hm : 0 < m) (h0 : 0 ≤ r) (h1 : r ≤ m) (a b : ℝ)
    (ha : 0 ≤ a) (hab : a ≤ b) :
    a ≤ |randAmplitudeReal2 m r a b| ∧ |randAmplitudeReal2 m r a b| ≤ b := by
  have h := (C07_ranges m r hm h0 h1 a b).2.1 hab
  have e : randAmplitudeReal2 m r a b = randBetweenReal m r a b := by
    simp [randAmplitudeReal2, randBetweenReal, h0]
  rw [e, abs_of_nonneg (ha.trans h.1)]
  exact h

/-- ... but "either sign" is false: with `::rand()` non-negative the result is never negative
(the negative branch of functions.h:112 is dead code). -/
theorem C07_randAmplitude2_refuted (m r : ℝ) (hm : 0 < m) (h0 : 0 ≤ r) (h1 : r ≤ m) (a b : ℝ)
    (ha : 0 ≤ a) (hab : a ≤ b) : ¬ (randAmplitudeReal2 m r a b < 0) := by
  have h := (C07_ranges m r hm h0 h1 a b).2.1 hab
  have e : randAmplitudeReal2 m r a b = randBetweenReal m r a b := by
    simp [randAmplitudeReal2, randBetweenReal, h0]
  rw [e]; linarith [h.1]

example : (0 : ℝ) < 32767 ∧ (0 : ℝ) ≤ 5 ∧ (5 : ℝ) ≤ 32767 := by norm_num

end MathLib
