import Verif.Spec.Ieee
import Verif.Proof.Rne

/-! # Where IEEE arithmetic agrees with rounding alone -/

namespace MathLib
namespace Ieee

section
variable {K : Type} [Field K] [LinearOrder K] [IsStrictOrderedRing K] [FloorRing K] {p : ℕ} {emax : ℤ}

/-- Exact results for which the format is neither too small nor too large. -/
def Safe (emax : ℤ) (x : K) : Prop := x = 0 ∨ ((2 : K) ^ (1 - emax) ≤ |x| ∧ |x| ≤ (2 : K) ^ emax)

omit [IsStrictOrderedRing K] in
theorem grid_zero : grid p emax (0 : K) = 0 := by simp [grid]

theorem grid_eq_rne {x : K} (h : (2 : K) ^ (1 - emax) ≤ |x|) : grid p emax x = rne p x := by
  have hx : x ≠ 0 := fun h0 => by
    rw [h0, abs_zero] at h; exact absurd (zpow2_pos (K := K) (1 - emax)) (not_lt.2 h)
  have hl : 1 - emax ≤ Int.log 2 |x| := by
    have := Int.log_mono_right (b := 2) (zpow2_pos (K := K) (1 - emax)) h
    have e := Int.log_zpow (R := K) (b := 2) (by norm_num) (1 - emax)
    push_cast at e
    rwa [e] at this
  simp only [grid, rne, hx, if_false, max_eq_left hl]

theorem abs_rne (p : ℕ) (x : K) : |rne p x| = rne p |x| := by
  rcases le_total 0 x with h | h
  · rw [abs_of_nonneg h]
    rcases h.eq_or_lt with h | h
    · rw [← h, rne_zero, abs_zero]
    · by_cases hp : 1 ≤ p
      · exact abs_of_pos (rne_pos p hp x h)
      · rw [abs_of_nonneg]
        rw [rne_pos_eq p x h]
        refine mul_nonneg ?_ (zpow2_pos _).le
        have := rhe_mono (show (0 : K) ≤ x / 2 ^ (Int.log 2 x - (p - 1)) from
          div_nonneg h.le (zpow2_pos _).le)
        have h0 := rhe_int (K := K) 0
        push_cast at h0
        rw [h0] at this
        exact_mod_cast this
  · rw [abs_of_nonpos h, rne_neg]
    rcases h.eq_or_lt with h | h
    · rw [h, rne_zero, abs_zero, neg_zero]
    · have hx : 0 < -x := by linarith
      have : 0 ≤ rne p (-x) := by
        rw [rne_pos_eq p _ hx]
        refine mul_nonneg ?_ (zpow2_pos _).le
        have := rhe_mono (show (0 : K) ≤ -x / 2 ^ (Int.log 2 (-x) - (p - 1)) from
          div_nonneg hx.le (zpow2_pos _).le)
        have h0 := rhe_int (K := K) 0
        push_cast at h0
        rw [h0] at this
        exact_mod_cast this
      rw [rne_neg] at this
      exact abs_of_nonpos (by linarith)

theorem rne_zpow (hp : 1 ≤ p) (e : ℤ) : rne p ((2 : K) ^ e) = 2 ^ e := rne_of_rep hp (Rep.zpow e)

/-- Powers of two bound the rounded result as they bound the exact one. -/
theorem rne_le_zpow (hp : 1 ≤ p) {x : K} {e : ℤ} (h : |x| ≤ 2 ^ e) : |rne p x| ≤ 2 ^ e := by
  rw [abs_rne, ← rne_zpow hp e]; exact rne_mono p hp h

theorem zpow_le_rne (hp : 1 ≤ p) {x : K} {e : ℤ} (h : 2 ^ e ≤ |x|) : 2 ^ e ≤ |rne p x| := by
  rw [abs_rne, ← rne_zpow hp e]; exact rne_mono p hp h

theorem rne_ne_zero (hp : 1 ≤ p) {x : K} (h : x ≠ 0) : rne p x ≠ 0 := by
  intro h0
  have := rne_pos p hp |x| (abs_pos.2 h)
  rw [← abs_rne, h0, abs_zero] at this
  exact lt_irrefl _ this

/-- A safe result is rounded as if the exponent were unbounded. -/
theorem round_safe (hp : 1 ≤ p) {x : K} (h : Safe emax x) (s : Bool) :
    (round x s : Ieee K p emax).fin? = some (rne p x) := by
  have hpow : ¬ (2 : K) ^ (emax + 1) ≤ 2 ^ emax := by
    rw [not_le]; exact zpow_lt_zpow_right₀ one_lt_two (by omega)
  rcases h with rfl | ⟨h1, h2⟩
  · simp [round, grid_zero, fin?, rne_zero, not_le.2 (zpow2_pos (K := K) (emax + 1))]
  · have hx : x ≠ 0 := fun h0 => by
      rw [h0, abs_zero] at h1; exact absurd (zpow2_pos (K := K) (1 - emax)) (not_lt.2 h1)
    have h3 : ¬ (2 : K) ^ (emax + 1) ≤ |rne p x| := fun h => hpow (h.trans (rne_le_zpow hp h2))
    simp only [round, grid_eq_rne h1, h3, if_false, rne_ne_zero hp hx, fin?]

/-- A result of at least `2 ^ (emax + 1)` becomes an infinity. -/
theorem round_big (hp : 1 ≤ p) {x : K} (he : 0 ≤ emax) (h : (2 : K) ^ (emax + 1) ≤ |x|) (s : Bool) :
    (round x s : Ieee K p emax) = inf (decide (x < 0)) := by
  have h1 : (2 : K) ^ (1 - emax) ≤ |x| := le_trans (zpow_le_zpow_right₀ one_le_two (by omega)) h
  simp only [round, grid_eq_rne h1, zpow_le_rne hp h, if_true]

/-- A result below half the smallest positive number becomes a zero. -/
theorem round_tiny {x : K} (h0 : x ≠ 0) (h : |x| < (2 : K) ^ (1 - emax - p)) (hp : 1 ≤ p) (s : Bool) :
    (round x s : Ieee K p emax) = zero (decide (x < 0)) := by
  have hax : 0 < |x| := abs_pos.2 h0
  have hlt : |x| < (2 : K) ^ (1 - emax) :=
    h.trans_le (zpow_le_zpow_right₀ one_le_two (by omega))
  have hl : Int.log 2 |x| ≤ 1 - emax := by
    have := Int.log_mono_right (b := 2) hax hlt.le
    have e := Int.log_zpow (R := K) (b := 2) (by norm_num) (1 - emax)
    push_cast at e
    rwa [e] at this
  have hg : grid p emax x = 0 := by
    simp only [grid, h0, if_false, max_eq_right hl]
    have hr : roundHalfEven (x / (2 : K) ^ (1 - emax - ((p : ℤ) - 1))) = 0 := by
      apply rhe_eq_of_lt
      push_cast
      rw [sub_zero, abs_div, abs_of_pos (zpow2_pos (K := K) _), div_lt_iff₀ (zpow2_pos _)]
      refine h.trans_eq ?_
      rw [show 1 - emax - ((p : ℤ) - 1) = (1 - emax - p) + 1 by ring, zpow_add₀ two_ne_zero, zpow_one]
      ring
    rw [hr]; simp
  simp [round, hg, h0, not_le.2 (zpow2_pos (K := K) (emax + 1))]

omit [LinearOrder K] [IsStrictOrderedRing K] [FloorRing K] in
theorem fin?_cases {a : Ieee K p emax} {v : K} (h : a.fin? = some v) :
    (∃ s, a = zero s ∧ v = 0) ∨ a = num v := by
  cases a <;> simp_all [fin?]

theorem agr_add (hp : 1 ≤ p) {a b : Ieee K p emax} {v w : K} (ha : a.fin? = some v) (hb : b.fin? = some w)
    (h : Safe emax (v + w)) : (a + b).fin? = some (rne p (v + w)) := by
  change (add a b).fin? = _
  rcases fin?_cases ha with ⟨s, rfl, rfl⟩ | rfl <;> rcases fin?_cases hb with ⟨t, rfl, rfl⟩ | rfl
  · simp [add, fin?, rne_zero]
  · rw [zero_add] at h ⊢; exact round_safe hp h _
  · rw [add_zero] at h ⊢; exact round_safe hp h _
  · exact round_safe hp h _

omit [LinearOrder K] [IsStrictOrderedRing K] [FloorRing K] in
theorem fin?_neg {a : Ieee K p emax} {v : K} (ha : a.fin? = some v) : (-a).fin? = some (-v) := by
  change (neg a).fin? = _
  rcases fin?_cases ha with ⟨s, rfl, rfl⟩ | rfl <;> simp [neg, fin?]

theorem agr_sub (hp : 1 ≤ p) {a b : Ieee K p emax} {v w : K} (ha : a.fin? = some v) (hb : b.fin? = some w)
    (h : Safe emax (v - w)) : (a - b).fin? = some (rne p (v - w)) := by
  rw [sub_eq_add_neg] at h ⊢
  exact agr_add hp ha (fin?_neg hb) h

theorem agr_mul (hp : 1 ≤ p) {a b : Ieee K p emax} {v w : K} (ha : a.fin? = some v) (hb : b.fin? = some w)
    (h : Safe emax (v * w)) : (a * b).fin? = some (rne p (v * w)) := by
  change (mul a b).fin? = _
  rcases fin?_cases ha with ⟨s, rfl, rfl⟩ | rfl <;> rcases fin?_cases hb with ⟨t, rfl, rfl⟩ | rfl
  · simp [mul, fin?, rne_zero]
  · simp [mul, fin?, rne_zero]
  · simp [mul, fin?, rne_zero]
  · exact round_safe hp h _

theorem agr_div (hp : 1 ≤ p) {a b : Ieee K p emax} {v w : K} (ha : a.fin? = some v) (hb : b.fin? = some w)
    (hw : w ≠ 0) (h : Safe emax (v / w)) : (a / b).fin? = some (rne p (v / w)) := by
  change (div a b).fin? = _
  rcases fin?_cases hb with ⟨t, rfl, rfl⟩ | rfl
  · exact absurd rfl hw
  rcases fin?_cases ha with ⟨s, rfl, rfl⟩ | rfl
  · simp [div, fin?, rne_zero]
  · exact round_safe hp h _

omit [IsStrictOrderedRing K] [FloorRing K] in
theorem beq_zero {a : Ieee K p emax} {v : K} (ha : a.fin? = some v) : (a == 0) = decide (v = 0) := by
  change eqB a (zero false) = _
  rcases fin?_cases ha with ⟨s, rfl, rfl⟩ | rfl <;> simp [eqB]

omit [IsStrictOrderedRing K] [FloorRing K] in
theorem lt_fin {a b : Ieee K p emax} {v w : K} (ha : a.fin? = some v) (hb : b.fin? = some w) :
    a < b ↔ v < w := by
  change ltB a b = true ↔ _
  rcases fin?_cases ha with ⟨s, rfl, rfl⟩ | rfl <;> rcases fin?_cases hb with ⟨t, rfl, rfl⟩ | rfl <;>
    simp [ltB]

omit [IsStrictOrderedRing K] [FloorRing K] in
theorem le_fin {a b : Ieee K p emax} {v w : K} (ha : a.fin? = some v) (hb : b.fin? = some w) :
    a ≤ b ↔ v ≤ w := by
  change leB a b = true ↔ _
  rcases fin?_cases ha with ⟨s, rfl, rfl⟩ | rfl <;> rcases fin?_cases hb with ⟨t, rfl, rfl⟩ | rfl <;>
    simp [leB]

omit [LinearOrder K] [IsStrictOrderedRing K] [FloorRing K] in
theorem fin?_zero : (0 : Ieee K p emax).fin? = some 0 := rfl
omit [LinearOrder K] [IsStrictOrderedRing K] [FloorRing K] in
theorem fin?_one : (1 : Ieee K p emax).fin? = some 1 := rfl


/-! ## Numbers on a grid: sums and products -/

theorem rne_multiple {x : K} {m g : ℤ} (h : x = m * (2 : K) ^ g) :
    ∃ n : ℤ, rne p x = n * (2 : K) ^ g := by
  by_cases hx : x = 0
  · exact ⟨0, by rw [hx, rne_zero]; simp⟩
  obtain ⟨e, he⟩ : ∃ e, e = Int.log 2 |x| - ((p : ℤ) - 1) := ⟨_, rfl⟩
  have hr : rne p x = roundHalfEven (x / (2 : K) ^ e) * (2 : K) ^ e := by rw [he]; simp [rne, hx]
  rcases le_total e g with h' | h'
  · refine ⟨m, ?_⟩
    have : x / (2 : K) ^ e = ((m * 2 ^ (g - e).toNat : ℤ) : K) := by
      rw [h]
      push_cast
      rw [← zpow_natCast (2 : K), Int.toNat_of_nonneg (by omega), zpow_sub₀ two_ne_zero]
      field_simp
    rw [hr, this, rhe_int, ← this, div_mul_cancel₀ _ (zpow2_pos (K := K) e).ne', h]
  · refine ⟨roundHalfEven (x / (2 : K) ^ e) * 2 ^ (e - g).toNat, ?_⟩
    rw [hr]
    push_cast
    rw [← zpow_natCast (2 : K), Int.toNat_of_nonneg (by omega), mul_assoc, ← zpow_add₀ two_ne_zero,
      sub_add_cancel]

theorem OnGrid.safe {g h : ℤ} {v : K} (hv : OnGrid g h v) (hg : 1 - emax ≤ g) (hh : h ≤ emax) :
    Safe emax v := by
  obtain ⟨⟨m, rfl⟩, h2⟩ := hv
  by_cases hm : m = 0
  · left; simp [hm]
  right
  refine ⟨?_, h2.trans (zpow_le_zpow_right₀ one_le_two hh)⟩
  rw [abs_mul, abs_of_pos (zpow2_pos (K := K) g)]
  have h1 : (1 : K) ≤ |(m : K)| := by exact_mod_cast Int.one_le_abs hm
  calc (2 : K) ^ (1 - emax) ≤ 2 ^ g := zpow_le_zpow_right₀ one_le_two hg
    _ ≤ |(m : K)| * 2 ^ g := le_mul_of_one_le_left (zpow2_pos g).le h1

theorem OnGrid.rne {g h : ℤ} {v : K} (hp : 1 ≤ p) (hv : OnGrid g h v) : OnGrid g h (rne p v) := by
  obtain ⟨⟨m, hm⟩, h2⟩ := hv
  exact ⟨rne_multiple hm, rne_le_zpow hp h2⟩

omit [LinearOrder K] [IsStrictOrderedRing K] [FloorRing K] in
theorem mult_le [CharZero K] {g g' : ℤ} (h : g' ≤ g) {m : ℤ} : ∃ n : ℤ, (m : K) * (2 : K) ^ g = n * (2 : K) ^ g' := by
  refine ⟨m * 2 ^ (g - g').toNat, ?_⟩
  push_cast
  rw [← zpow_natCast (2 : K), Int.toNat_of_nonneg (by omega), mul_assoc, ← zpow_add₀ two_ne_zero,
    sub_add_cancel]

theorem OnGrid.mono {g h g' h' : ℤ} {v : K} (hv : OnGrid g h v) (hg : g' ≤ g) (hh : h ≤ h') :
    OnGrid g' h' v := by
  obtain ⟨⟨m, rfl⟩, h2⟩ := hv
  exact ⟨mult_le hg, h2.trans (zpow_le_zpow_right₀ one_le_two hh)⟩

omit [IsStrictOrderedRing K] [FloorRing K] in
theorem OnGrid.neg {g h : ℤ} {v : K} (hv : OnGrid g h v) : OnGrid g h (-v) := by
  obtain ⟨⟨m, rfl⟩, h2⟩ := hv
  exact ⟨⟨-m, by push_cast; ring⟩, by rwa [abs_neg]⟩

theorem OnGrid.add {g h : ℤ} {v w : K} (hv : OnGrid g h v) (hw : OnGrid g h w) :
    OnGrid g (h + 1) (v + w) := by
  obtain ⟨⟨m, hm⟩, h2⟩ := hv
  obtain ⟨⟨n, hn⟩, h3⟩ := hw
  refine ⟨⟨m + n, by rw [hm, hn]; push_cast; ring⟩, (abs_add_le _ _).trans ?_⟩
  rw [zpow_add₀ two_ne_zero, zpow_one]; linarith

theorem OnGrid.mul {g h g' h' : ℤ} {v w : K} (hv : OnGrid g h v) (hw : OnGrid g' h' w) :
    OnGrid (g + g') (h + h') (v * w) := by
  obtain ⟨⟨m, hm⟩, h2⟩ := hv
  obtain ⟨⟨n, hn⟩, h3⟩ := hw
  refine ⟨⟨m * n, by rw [hm, hn, zpow_add₀ two_ne_zero]; push_cast; ring⟩, ?_⟩
  rw [abs_mul, zpow_add₀ two_ne_zero]
  exact mul_le_mul h2 h3 (abs_nonneg _) (zpow2_pos _).le

/-- Numbers with `p` bits of size between `2 ^ (-k)` and `2 ^ k` are on the grid of `2 ^ (-k - p + 1)`. -/
theorem OnGrid.of_rep (hp : 1 ≤ p) {v : K} {k : ℤ} (hr : Rep p v)
    (h : v = 0 ∨ ((2 : K) ^ (-k) ≤ |v| ∧ |v| ≤ 2 ^ k)) : OnGrid (-k - p + 1) k v := by
  rcases h with rfl | ⟨h1, h2⟩
  · exact ⟨⟨0, by simp⟩, by rw [abs_zero]; exact (zpow2_pos k).le⟩
  · obtain ⟨m, hm⟩ := hr.multiple hp (-k) h1
    exact ⟨⟨m, by rw [hm]; congr 2; ring⟩, h2⟩

/-- The IEEE value and the rounded number are the same number, on the grid. -/
def Gr (g h : ℤ) (a : Ieee K p emax) (b : Fl K (rne p)) : Prop :=
  ∃ v, a.fin? = some v ∧ b = .num v ∧ OnGrid g h v

variable {g h g' h' : ℤ} {a a' : Ieee K p emax} {b b' : Fl K (rne p)}

theorem Gr.mono (H : Gr g h a b) (hg : g' ≤ g) (hh : h ≤ h') : Gr g' h' a b := by
  obtain ⟨v, h1, h2, h3⟩ := H; exact ⟨v, h1, h2, h3.mono hg hh⟩

omit [IsStrictOrderedRing K] in
theorem Gr.neg (H : Gr g h a b) : Gr g h (-a) (-b) := by
  obtain ⟨v, h1, rfl, h3⟩ := H; exact ⟨-v, fin?_neg h1, rfl, h3.neg⟩

theorem Gr.add (hp : 1 ≤ p) (H : Gr g h a b) (H' : Gr g h a' b') (hg : 1 - emax ≤ g) (hh : h + 1 ≤ emax) :
    Gr g (h + 1) (a + a') (b + b') := by
  obtain ⟨v, h1, rfl, h3⟩ := H
  obtain ⟨w, k1, rfl, k3⟩ := H'
  have := h3.add k3
  exact ⟨_, agr_add hp h1 k1 (this.safe hg hh), rfl, this.rne hp⟩

theorem Gr.sub (hp : 1 ≤ p) (H : Gr g h a b) (H' : Gr g h a' b') (hg : 1 - emax ≤ g) (hh : h + 1 ≤ emax) :
    Gr g (h + 1) (a - a') (b - b') := by
  obtain ⟨v, h1, rfl, h3⟩ := H
  obtain ⟨w, k1, rfl, k3⟩ := H'
  have := h3.add k3.neg
  rw [← sub_eq_add_neg] at this
  exact ⟨_, agr_sub hp h1 k1 (this.safe hg hh), rfl, this.rne hp⟩

theorem Gr.mul (hp : 1 ≤ p) (H : Gr g h a b) (H' : Gr g' h' a' b') (hg : 1 - emax ≤ g + g')
    (hh : h + h' ≤ emax) : Gr (g + g') (h + h') (a * a') (b * b') := by
  obtain ⟨v, h1, rfl, h3⟩ := H
  obtain ⟨w, k1, rfl, k3⟩ := H'
  have := h3.mul k3
  exact ⟨_, agr_mul hp h1 k1 (this.safe hg hh), rfl, this.rne hp⟩

omit [IsStrictOrderedRing K] in
theorem Gr.lt (H : Gr g h a b) (H' : Gr g' h' a' b') : a < a' ↔ b < b' := by
  obtain ⟨v, h1, rfl, h3⟩ := H
  obtain ⟨w, k1, rfl, k3⟩ := H'
  rw [lt_fin h1 k1, Fl.num_lt]

omit [IsStrictOrderedRing K] in
theorem Gr.le (H : Gr g h a b) (H' : Gr g' h' a' b') : a ≤ a' ↔ b ≤ b' := by
  obtain ⟨v, h1, rfl, h3⟩ := H
  obtain ⟨w, k1, rfl, k3⟩ := H'
  rw [le_fin h1 k1, Fl.num_le]

theorem Gr.zero : Gr g h (0 : Ieee K p emax) 0 :=
  ⟨0, rfl, rfl, ⟨0, by simp⟩, by rw [abs_zero]; exact (zpow2_pos h).le⟩

omit [IsStrictOrderedRing K] in
theorem Gr.beq_zero (H : Gr g h a b) : (a == 0) = (b == 0) := by
  obtain ⟨v, h1, rfl, h3⟩ := H
  rw [Ieee.beq_zero h1, Fl.zero_def, Fl.num_beq]

/-! ## Numbers between two powers of two: quotients and roots -/

/-- The IEEE value and the rounded number are the same number, zero or of size between `2 ^ l` and `2 ^ h`. -/
def Bet (l h : ℤ) (a : Ieee K p emax) (b : Fl K (rne p)) : Prop :=
  ∃ v, a.fin? = some v ∧ b = .num v ∧ (v = 0 ∨ ((2 : K) ^ l ≤ |v| ∧ |v| ≤ 2 ^ h))

/-- The same, of positive numbers. -/
def BetPos (l h : ℤ) (a : Ieee K p emax) (b : Fl K (rne p)) : Prop :=
  ∃ v, a.fin? = some v ∧ b = .num v ∧ (2 : K) ^ l ≤ v ∧ v ≤ 2 ^ h

theorem bet_safe {l h : ℤ} {v : K} (hv : v = 0 ∨ ((2 : K) ^ l ≤ |v| ∧ |v| ≤ 2 ^ h)) (hl : 1 - emax ≤ l)
    (hh : h ≤ emax) : Safe emax v := by
  rcases hv with hv | ⟨h1, h2⟩
  · exact Or.inl hv
  · exact Or.inr ⟨(zpow_le_zpow_right₀ one_le_two hl).trans h1, h2.trans (zpow_le_zpow_right₀ one_le_two hh)⟩

theorem bet_rne (hp : 1 ≤ p) {l h : ℤ} {v : K} (hv : v = 0 ∨ ((2 : K) ^ l ≤ |v| ∧ |v| ≤ 2 ^ h)) :
    rne p v = 0 ∨ ((2 : K) ^ l ≤ |rne p v| ∧ |rne p v| ≤ 2 ^ h) := by
  rcases hv with rfl | ⟨h1, h2⟩
  · exact Or.inl (rne_zero p)
  · exact Or.inr ⟨zpow_le_rne hp h1, rne_le_zpow hp h2⟩

variable {l l' : ℤ}

theorem Bet.mono (H : Bet l h a b) (hl : l' ≤ l) (hh : h ≤ h') : Bet l' h' a b := by
  obtain ⟨v, h1, h2, h3⟩ := H
  exact ⟨v, h1, h2, h3.imp_right fun h => ⟨(zpow_le_zpow_right₀ one_le_two hl).trans h.1,
    h.2.trans (zpow_le_zpow_right₀ one_le_two hh)⟩⟩

theorem BetPos.bet (H : BetPos l h a b) : Bet l h a b := by
  obtain ⟨v, h1, h2, h3, h4⟩ := H
  have : 0 < v := (zpow2_pos l).trans_le h3
  exact ⟨v, h1, h2, Or.inr (by rw [abs_of_pos this]; exact ⟨h3, h4⟩)⟩

theorem BetPos.ne_zero (H : BetPos l h a b) : (a == 0) = false := by
  obtain ⟨v, h1, h2, h3, h4⟩ := H
  have : 0 < v := (zpow2_pos l).trans_le h3
  rw [Ieee.beq_zero h1, decide_eq_false this.ne']

theorem BetPos.fl_ne_zero (H : BetPos l h a b) : (b == 0) = false := by
  obtain ⟨v, h1, rfl, h3, h4⟩ := H
  have : 0 < v := (zpow2_pos l).trans_le h3
  rw [Fl.zero_def, Fl.num_beq, decide_eq_false this.ne']

theorem Bet.mul (hp : 1 ≤ p) (H : Bet l h a b) (H' : Bet l' h' a' b') (hl : 1 - emax ≤ l + l')
    (hh : h + h' ≤ emax) : Bet (l + l') (h + h') (a * a') (b * b') := by
  obtain ⟨v, h1, rfl, h3⟩ := H
  obtain ⟨w, k1, rfl, k3⟩ := H'
  have : v * w = 0 ∨ ((2 : K) ^ (l + l') ≤ |v * w| ∧ |v * w| ≤ 2 ^ (h + h')) := by
    rcases h3 with rfl | ⟨h3, h4⟩
    · left; simp
    rcases k3 with rfl | ⟨k3, k4⟩
    · left; simp
    right
    rw [abs_mul, zpow_add₀ two_ne_zero, zpow_add₀ two_ne_zero]
    exact ⟨mul_le_mul h3 k3 (zpow2_pos _).le (abs_nonneg _), mul_le_mul h4 k4 (abs_nonneg _) (zpow2_pos _).le⟩
  exact ⟨_, agr_mul hp h1 k1 (bet_safe this hl hh), rfl, bet_rne hp this⟩

theorem Bet.div (hp : 1 ≤ p) (H : Bet l h a b) (H' : BetPos l' h' a' b') (hl : 1 - emax ≤ l - h')
    (hh : h - l' ≤ emax) : Bet (l - h') (h - l') (a / a') (b / b') := by
  obtain ⟨v, h1, rfl, h3⟩ := H
  obtain ⟨w, k1, rfl, k3, k4⟩ := H'
  have hw : 0 < w := (zpow2_pos l').trans_le k3
  have : v / w = 0 ∨ ((2 : K) ^ (l - h') ≤ |v / w| ∧ |v / w| ≤ 2 ^ (h - l')) := by
    rcases h3 with rfl | ⟨h3, h4⟩
    · left; simp
    right
    rw [abs_div, abs_of_pos hw, zpow_sub₀ two_ne_zero, zpow_sub₀ two_ne_zero]
    exact ⟨div_le_div₀ (abs_nonneg _) h3 hw k4, div_le_div₀ (zpow2_pos _).le h4 (zpow2_pos _) k3⟩
  refine ⟨_, agr_div hp h1 k1 hw.ne' (bet_safe this hl hh), ?_, bet_rne hp this⟩
  rw [Fl.num_div, if_neg hw.ne']

/-- the divisor of either sign, but not zero -/
theorem Bet.div' (hp : 1 ≤ p) (H : Bet l h a b) (H' : Bet l' h' a' b') (h0 : (b' == 0) = false)
    (hl : 1 - emax ≤ l - h') (hh : h - l' ≤ emax) : Bet (l - h') (h - l') (a / a') (b / b') := by
  obtain ⟨v, h1, rfl, h3⟩ := H
  obtain ⟨w, k1, rfl, k3⟩ := H'
  have hw : w ≠ 0 := by rw [Fl.zero_def, Fl.num_beq] at h0; simpa using h0
  obtain ⟨k3, k4⟩ := k3.resolve_left hw
  have : v / w = 0 ∨ ((2 : K) ^ (l - h') ≤ |v / w| ∧ |v / w| ≤ 2 ^ (h - l')) := by
    rcases h3 with rfl | ⟨h3, h4⟩
    · left; simp
    right
    rw [abs_div, zpow_sub₀ two_ne_zero, zpow_sub₀ two_ne_zero]
    exact ⟨div_le_div₀ (abs_nonneg _) h3 (abs_pos.2 hw) k4, div_le_div₀ (zpow2_pos _).le h4 (zpow2_pos _) k3⟩
  refine ⟨_, agr_div hp h1 k1 hw (bet_safe this hl hh), ?_, bet_rne hp this⟩
  rw [Fl.num_div, if_neg hw]

theorem BetPos.div (hp : 1 ≤ p) (H : BetPos l h a b) (H' : BetPos l' h' a' b') (hl : 1 - emax ≤ l - h')
    (hh : h - l' ≤ emax) : BetPos (l - h') (h - l') (a / a') (b / b') := by
  obtain ⟨v, h1, h2, h3, h4⟩ := H
  obtain ⟨w, k1, k2, k3, k4⟩ := H'
  have hv : 0 < v := (zpow2_pos l).trans_le h3
  have hw : 0 < w := (zpow2_pos l').trans_le k3
  obtain ⟨r, r1, r2, r3⟩ := Bet.div hp (BetPos.bet ⟨v, h1, h2, h3, h4⟩) ⟨w, k1, k2, k3, k4⟩ hl hh
  subst h2; subst k2
  rw [Fl.num_div, if_neg hw.ne'] at r2
  have hr : r = MathLib.rne p (v / w) := by simpa using r2.symm
  have : 0 < r := by rw [hr]; exact rne_pos p hp _ (div_pos hv hw)
  refine ⟨r, r1, by rw [Fl.num_div, if_neg hw.ne', hr], ?_⟩
  rcases r3 with r3 | r3
  · exact absurd r3 this.ne'
  · rwa [abs_of_pos this] at r3

theorem Gr.bet (H : Gr g h a b) : Bet g h a b := by
  obtain ⟨v, h1, h2, ⟨m, hm⟩, h3⟩ := H
  refine ⟨v, h1, h2, ?_⟩
  by_cases hm0 : m = 0
  · left; rw [hm, hm0]; simp
  right
  refine ⟨?_, h3⟩
  rw [hm, abs_mul, abs_of_pos (zpow2_pos (K := K) g)]
  exact le_mul_of_one_le_left (zpow2_pos g).le (by exact_mod_cast Int.one_le_abs hm0)

/-- Sums of non-negative numbers. -/
def BetNN (l h : ℤ) (a : Ieee K p emax) (b : Fl K (rne p)) : Prop :=
  ∃ v, a.fin? = some v ∧ b = .num v ∧ (v = 0 ∨ ((2 : K) ^ l ≤ v ∧ v ≤ 2 ^ h))

theorem BetNN.mono (H : BetNN l h a b) (hl : l' ≤ l) (hh : h ≤ h') : BetNN l' h' a b := by
  obtain ⟨v, h1, h2, h3⟩ := H
  exact ⟨v, h1, h2, h3.imp_right fun h => ⟨(zpow_le_zpow_right₀ one_le_two hl).trans h.1,
    h.2.trans (zpow_le_zpow_right₀ one_le_two hh)⟩⟩

theorem Bet.sq (hp : 1 ≤ p) (H : Bet l h a b) (hl : 1 - emax ≤ l + l) (hh : h + h ≤ emax) :
    BetNN (l + l) (h + h) (a * a) (b * b) := by
  obtain ⟨r, r1, r2, r3⟩ := Bet.mul hp H H hl hh
  obtain ⟨v, h1, rfl, h3⟩ := H
  refine ⟨r, r1, r2, r3.imp_right fun h => ?_⟩
  have hr : r = MathLib.rne p (v * v) := by simpa using r2.symm
  have : 0 ≤ r := by
    rw [hr, ← rne_zero p]; exact rne_mono p hp (mul_self_nonneg v)
  rwa [abs_of_nonneg this] at h

theorem BetNN.add (hp : 1 ≤ p) (H : BetNN l h a b) (H' : BetNN l h a' b') (hl : 1 - emax ≤ l)
    (hh : h + 1 ≤ emax) : BetNN l (h + 1) (a + a') (b + b') := by
  obtain ⟨v, h1, rfl, h3⟩ := H
  obtain ⟨w, k1, rfl, k3⟩ := H'
  have hl0 := zpow2_pos (K := K) l
  have hh0 := zpow2_pos (K := K) h
  have e : (2 : K) ^ (h + 1) = 2 ^ h * 2 := by rw [zpow_add₀ two_ne_zero, zpow_one]
  have nn : 0 ≤ v + w := by
    rcases h3 with rfl | h3 <;> rcases k3 with rfl | k3 <;> linarith
  have : v + w = 0 ∨ ((2 : K) ^ l ≤ |v + w| ∧ |v + w| ≤ 2 ^ (h + 1)) := by
    rw [abs_of_nonneg nn, e]
    rcases h3 with rfl | h3 <;> rcases k3 with rfl | k3
    · left; simp
    · right; constructor <;> linarith
    · right; constructor <;> linarith
    · right; constructor <;> linarith
  refine ⟨_, agr_add hp h1 k1 (bet_safe this hl hh), rfl, (bet_rne hp this).imp_right fun h => ?_⟩
  have : 0 ≤ MathLib.rne p (v + w) := by
    rw [← rne_zero p]; exact rne_mono p hp nn
  rwa [abs_of_nonneg this] at h

end

theorem agr_sqrt {p : ℕ} {emax : ℤ} (hp : 1 ≤ p) {a : Ieee ℝ p emax} {v : ℝ} (ha : a.fin? = some v)
    (hv : 0 ≤ v) (h : Safe emax (√v)) : (MathFns.sqrt a).fin? = some (rne p (√v)) := by
  rcases fin?_cases ha with ⟨s, rfl, rfl⟩ | rfl
  · simp [MathFns.sqrt, fin?, rne_zero]
  · simp only [MathFns.sqrt, if_neg (not_lt.2 hv)]
    exact round_safe hp h _

theorem BetNN.sqrt {p : ℕ} {emax : ℤ} (hp : 1 ≤ p) {a : Ieee ℝ p emax} {b : Fl ℝ (rne p)} {l h : ℤ}
    (H : BetNN (l + l) (h + h) a b) (hl : 1 - emax ≤ l) (hh : h ≤ emax) :
    BetNN l h (MathFns.sqrt a) (MathFns.sqrt b) := by
  obtain ⟨v, h1, rfl, h3⟩ := H
  have e : ∀ k : ℤ, √((2 : ℝ) ^ (k + k)) = 2 ^ k := fun k => by
    rw [zpow_add₀ two_ne_zero]; exact Real.sqrt_mul_self (zpow2_pos k).le
  have nn : 0 ≤ v := by
    rcases h3 with rfl | h3
    · exact le_rfl
    · exact (zpow2_pos _).le.trans h3.1
  have : √v = 0 ∨ ((2 : ℝ) ^ l ≤ |√v| ∧ |√v| ≤ 2 ^ h) := by
    rw [abs_of_nonneg (Real.sqrt_nonneg v)]
    rcases h3 with rfl | h3
    · left; simp
    · right; rw [← e l, ← e h]; exact ⟨Real.sqrt_le_sqrt h3.1, Real.sqrt_le_sqrt h3.2⟩
  refine ⟨_, agr_sqrt hp h1 nn (bet_safe this hl hh), by rw [Fl.fl_sqrt, if_neg (not_lt.2 nn)],
    (bet_rne hp this).imp_right fun h => ?_⟩
  have : 0 ≤ rne p √v := by
    rw [← rne_zero p]; exact rne_mono p hp (Real.sqrt_nonneg v)
  rwa [abs_of_nonneg this] at h

end Ieee
end MathLib
