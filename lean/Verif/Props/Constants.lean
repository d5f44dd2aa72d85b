import Verif.Model.Constants
import Verif.Spec.IeeeValid
import Verif.Proof.RneNearest
import Verif.Proof.IeeeMono
import Mathlib.Analysis.Real.Pi.Bounds

/-! # Properties C137, C138: the constants -/

namespace MathLib
open Ieee

/-- a literal of type `double` -/
def lit64 (q : ℚ) : Ieee ℚ 53 1023 := Ieee.round q false
/-- the conversion from `double` to `float` -/
def toFloat : Ieee ℚ 53 1023 → Ieee ℚ 24 127
  | .nan => .nan
  | .inf s => .inf s
  | .zero s => .zero s
  | .num v => Ieee.round v false

/-- `a` is a finite number, and none of its format is nearer to `x` -/
def Nearest {p : ℕ} {emax : ℤ} (a : Ieee ℚ p emax) (x : ℝ) : Prop :=
  ∃ v, a.fin? = some v ∧ a.Valid ∧
    ∀ b : Ieee ℚ p emax, b.Valid → ∀ w, b.fin? = some w → |(v : ℝ) - x| ≤ |(w : ℝ) - x|

/-- The claim: the constants are π and its parts as near as `float` and `double` can be. -/
def C137_full : Prop :=
  Nearest (Constants.PI lit64 toFloat : Ieee ℚ 24 127) (Real.pi) ∧
  Nearest (Constants.PI_TIMES_2 lit64 toFloat widen : Ieee ℚ 24 127) (Real.pi * 2) ∧
  Nearest (Constants.PI_OVER_2 lit64 toFloat widen : Ieee ℚ 24 127) (Real.pi / 2) ∧
  Nearest (Constants.PI_OVER_4 lit64 toFloat widen : Ieee ℚ 24 127) (Real.pi / 4) ∧
  Nearest (Constants.PI_OVER_8 lit64 toFloat widen : Ieee ℚ 24 127) (Real.pi / 8) ∧
  Nearest (Constants.PI_OVER_16 lit64 toFloat widen : Ieee ℚ 24 127) (Real.pi / 16) ∧
  Nearest (Constants.PI_OVER_3 lit64 toFloat widen : Ieee ℚ 24 127) (Real.pi / 3) ∧
  Nearest (Constants.PI_OVER_6 lit64 toFloat widen : Ieee ℚ 24 127) (Real.pi / 6) ∧
  Nearest (Constants.PI lit64 id : Ieee ℚ 53 1023) (Real.pi) ∧
  Nearest (Constants.PI_TIMES_2 lit64 id id : Ieee ℚ 53 1023) (Real.pi * 2) ∧
  Nearest (Constants.PI_OVER_2 lit64 id id : Ieee ℚ 53 1023) (Real.pi / 2) ∧
  Nearest (Constants.PI_OVER_4 lit64 id id : Ieee ℚ 53 1023) (Real.pi / 4) ∧
  Nearest (Constants.PI_OVER_8 lit64 id id : Ieee ℚ 53 1023) (Real.pi / 8) ∧
  Nearest (Constants.PI_OVER_16 lit64 id id : Ieee ℚ 53 1023) (Real.pi / 16) ∧
  Nearest (Constants.PI_OVER_3 lit64 id id : Ieee ℚ 53 1023) (Real.pi / 3) ∧
  Nearest (Constants.PI_OVER_6 lit64 id id : Ieee ℚ 53 1023) (Real.pi / 6)

/-- a rational number that differs from a real number by less than half a unit in the last place -/
theorem nearest_of {p : ℕ} {emax : ℤ} (hp : 1 ≤ p) {a : Ieee ℚ p emax} {x : ℝ} (e n : ℤ) (ha : a.Valid)
    (hv : a.fin? = some ((n : ℚ) * 2 ^ e)) (h1 : (2 : ℝ) ^ (e + (p - 1)) ≤ x) (h2 : x < 2 ^ (e + p))
    (h : |x - n * 2 ^ e| < 2 ^ e / 2) : Nearest a x := by
  refine ⟨_, hv, ha, fun b hb w hw => ?_⟩
  have hx : 0 < x := (zpow2_pos _).trans_le h1
  obtain ⟨m, k, hm, hk⟩ := onFormat_rep hp (hb.fin hw).1
  have hr : Rep p (w : ℝ) := ⟨m, k, hm, by rw [hk]; push_cast; rfl⟩
  have := rne_nearest hp hx hr
  rw [rne_eq e n h1 h2 h] at this
  push_cast
  exact this

theorem valid_lit (q : ℚ) : (lit64 q).Valid := valid_round (by norm_num) _ _
theorem valid_toFloat (a : Ieee ℚ 53 1023) (h : a.Valid) : (toFloat a).Valid := by
  cases a <;> first | trivial | exact valid_round (by norm_num) _ _
theorem valid_mul {p : ℕ} {emax : ℤ} (hp : 1 ≤ p) (a b : Ieee ℚ p emax) : (a * b).Valid := by
  change (Ieee.mul a b).Valid
  cases a <;> cases b <;> first | trivial | exact valid_round hp _ _
theorem valid_div {p : ℕ} {emax : ℤ} (hp : 1 ≤ p) (a b : Ieee ℚ p emax) : (a / b).Valid := by
  change (Ieee.div a b).Valid
  cases a <;> cases b <;> first | trivial | exact valid_round hp _ _

theorem pi_f_val : (Constants.PI lit64 toFloat : Ieee ℚ 24 127).fin? = some (((13176795 : ℤ) : ℚ) * 2 ^ (-22 : ℤ)) := by decide +kernel
theorem pi_f_near : Nearest (Constants.PI lit64 toFloat : Ieee ℚ 24 127) (Real.pi) := by
  refine nearest_of (by norm_num) (-22) 13176795 (valid_toFloat _ (valid_lit _)) pi_f_val ?_ ?_ ?_
  · have := Real.pi_gt_d20; norm_num; linarith
  · have := Real.pi_lt_d20; norm_num; linarith
  · have := Real.pi_gt_d20; have := Real.pi_lt_d20
    rw [abs_lt]; norm_num; constructor <;> linarith
theorem pi_times_2_f_val : (Constants.PI_TIMES_2 lit64 toFloat widen : Ieee ℚ 24 127).fin? = some (((13176795 : ℤ) : ℚ) * 2 ^ (-21 : ℤ)) := by decide +kernel
theorem pi_times_2_f_near : Nearest (Constants.PI_TIMES_2 lit64 toFloat widen : Ieee ℚ 24 127) (Real.pi * 2) := by
  refine nearest_of (by norm_num) (-21) 13176795 (valid_toFloat _ (valid_mul (by norm_num) _ _)) pi_times_2_f_val ?_ ?_ ?_
  · have := Real.pi_gt_d20; norm_num; linarith
  · have := Real.pi_lt_d20; norm_num; linarith
  · have := Real.pi_gt_d20; have := Real.pi_lt_d20
    rw [abs_lt]; norm_num; constructor <;> linarith
theorem pi_over_2_f_val : (Constants.PI_OVER_2 lit64 toFloat widen : Ieee ℚ 24 127).fin? = some (((13176795 : ℤ) : ℚ) * 2 ^ (-23 : ℤ)) := by decide +kernel
theorem pi_over_2_f_near : Nearest (Constants.PI_OVER_2 lit64 toFloat widen : Ieee ℚ 24 127) (Real.pi / 2) := by
  refine nearest_of (by norm_num) (-23) 13176795 (valid_toFloat _ (valid_mul (by norm_num) _ _)) pi_over_2_f_val ?_ ?_ ?_
  · have := Real.pi_gt_d20; norm_num; linarith
  · have := Real.pi_lt_d20; norm_num; linarith
  · have := Real.pi_gt_d20; have := Real.pi_lt_d20
    rw [abs_lt]; norm_num; constructor <;> linarith
theorem pi_over_4_f_val : (Constants.PI_OVER_4 lit64 toFloat widen : Ieee ℚ 24 127).fin? = some (((13176795 : ℤ) : ℚ) * 2 ^ (-24 : ℤ)) := by decide +kernel
theorem pi_over_4_f_near : Nearest (Constants.PI_OVER_4 lit64 toFloat widen : Ieee ℚ 24 127) (Real.pi / 4) := by
  refine nearest_of (by norm_num) (-24) 13176795 (valid_toFloat _ (valid_mul (by norm_num) _ _)) pi_over_4_f_val ?_ ?_ ?_
  · have := Real.pi_gt_d20; norm_num; linarith
  · have := Real.pi_lt_d20; norm_num; linarith
  · have := Real.pi_gt_d20; have := Real.pi_lt_d20
    rw [abs_lt]; norm_num; constructor <;> linarith
theorem pi_over_8_f_val : (Constants.PI_OVER_8 lit64 toFloat widen : Ieee ℚ 24 127).fin? = some (((13176795 : ℤ) : ℚ) * 2 ^ (-25 : ℤ)) := by decide +kernel
theorem pi_over_8_f_near : Nearest (Constants.PI_OVER_8 lit64 toFloat widen : Ieee ℚ 24 127) (Real.pi / 8) := by
  refine nearest_of (by norm_num) (-25) 13176795 (valid_toFloat _ (valid_mul (by norm_num) _ _)) pi_over_8_f_val ?_ ?_ ?_
  · have := Real.pi_gt_d20; norm_num; linarith
  · have := Real.pi_lt_d20; norm_num; linarith
  · have := Real.pi_gt_d20; have := Real.pi_lt_d20
    rw [abs_lt]; norm_num; constructor <;> linarith
theorem pi_over_16_f_val : (Constants.PI_OVER_16 lit64 toFloat widen : Ieee ℚ 24 127).fin? = some (((13176795 : ℤ) : ℚ) * 2 ^ (-26 : ℤ)) := by decide +kernel
theorem pi_over_16_f_near : Nearest (Constants.PI_OVER_16 lit64 toFloat widen : Ieee ℚ 24 127) (Real.pi / 16) := by
  refine nearest_of (by norm_num) (-26) 13176795 (valid_toFloat _ (valid_mul (by norm_num) _ _)) pi_over_16_f_val ?_ ?_ ?_
  · have := Real.pi_gt_d20; norm_num; linarith
  · have := Real.pi_lt_d20; norm_num; linarith
  · have := Real.pi_gt_d20; have := Real.pi_lt_d20
    rw [abs_lt]; norm_num; constructor <;> linarith
theorem pi_over_3_f_val : (Constants.PI_OVER_3 lit64 toFloat widen : Ieee ℚ 24 127).fin? = some (((8784530 : ℤ) : ℚ) * 2 ^ (-23 : ℤ)) := by decide +kernel
theorem pi_over_3_f_near : Nearest (Constants.PI_OVER_3 lit64 toFloat widen : Ieee ℚ 24 127) (Real.pi / 3) := by
  refine nearest_of (by norm_num) (-23) 8784530 (valid_toFloat _ (valid_div (by norm_num) _ _)) pi_over_3_f_val ?_ ?_ ?_
  · have := Real.pi_gt_d20; norm_num; linarith
  · have := Real.pi_lt_d20; norm_num; linarith
  · have := Real.pi_gt_d20; have := Real.pi_lt_d20
    rw [abs_lt]; norm_num; constructor <;> linarith
theorem pi_over_6_f_val : (Constants.PI_OVER_6 lit64 toFloat widen : Ieee ℚ 24 127).fin? = some (((8784530 : ℤ) : ℚ) * 2 ^ (-24 : ℤ)) := by decide +kernel
theorem pi_over_6_f_near : Nearest (Constants.PI_OVER_6 lit64 toFloat widen : Ieee ℚ 24 127) (Real.pi / 6) := by
  refine nearest_of (by norm_num) (-24) 8784530 (valid_toFloat _ (valid_div (by norm_num) _ _)) pi_over_6_f_val ?_ ?_ ?_
  · have := Real.pi_gt_d20; norm_num; linarith
  · have := Real.pi_lt_d20; norm_num; linarith
  · have := Real.pi_gt_d20; have := Real.pi_lt_d20
    rw [abs_lt]; norm_num; constructor <;> linarith
theorem pi_d_val : (Constants.PI lit64 id : Ieee ℚ 53 1023).fin? = some (((7074237752028440 : ℤ) : ℚ) * 2 ^ (-51 : ℤ)) := by decide +kernel
theorem pi_d_near : Nearest (Constants.PI lit64 id : Ieee ℚ 53 1023) (Real.pi) := by
  refine nearest_of (by norm_num) (-51) 7074237752028440 (valid_lit _) pi_d_val ?_ ?_ ?_
  · have := Real.pi_gt_d20; norm_num; linarith
  · have := Real.pi_lt_d20; norm_num; linarith
  · have := Real.pi_gt_d20; have := Real.pi_lt_d20
    rw [abs_lt]; norm_num; constructor <;> linarith
theorem pi_times_2_d_val : (Constants.PI_TIMES_2 lit64 id id : Ieee ℚ 53 1023).fin? = some (((7074237752028440 : ℤ) : ℚ) * 2 ^ (-50 : ℤ)) := by decide +kernel
theorem pi_times_2_d_near : Nearest (Constants.PI_TIMES_2 lit64 id id : Ieee ℚ 53 1023) (Real.pi * 2) := by
  refine nearest_of (by norm_num) (-50) 7074237752028440 (valid_mul (by norm_num) _ _) pi_times_2_d_val ?_ ?_ ?_
  · have := Real.pi_gt_d20; norm_num; linarith
  · have := Real.pi_lt_d20; norm_num; linarith
  · have := Real.pi_gt_d20; have := Real.pi_lt_d20
    rw [abs_lt]; norm_num; constructor <;> linarith
theorem pi_over_2_d_val : (Constants.PI_OVER_2 lit64 id id : Ieee ℚ 53 1023).fin? = some (((7074237752028440 : ℤ) : ℚ) * 2 ^ (-52 : ℤ)) := by decide +kernel
theorem pi_over_2_d_near : Nearest (Constants.PI_OVER_2 lit64 id id : Ieee ℚ 53 1023) (Real.pi / 2) := by
  refine nearest_of (by norm_num) (-52) 7074237752028440 (valid_mul (by norm_num) _ _) pi_over_2_d_val ?_ ?_ ?_
  · have := Real.pi_gt_d20; norm_num; linarith
  · have := Real.pi_lt_d20; norm_num; linarith
  · have := Real.pi_gt_d20; have := Real.pi_lt_d20
    rw [abs_lt]; norm_num; constructor <;> linarith
theorem pi_over_4_d_val : (Constants.PI_OVER_4 lit64 id id : Ieee ℚ 53 1023).fin? = some (((7074237752028440 : ℤ) : ℚ) * 2 ^ (-53 : ℤ)) := by decide +kernel
theorem pi_over_4_d_near : Nearest (Constants.PI_OVER_4 lit64 id id : Ieee ℚ 53 1023) (Real.pi / 4) := by
  refine nearest_of (by norm_num) (-53) 7074237752028440 (valid_mul (by norm_num) _ _) pi_over_4_d_val ?_ ?_ ?_
  · have := Real.pi_gt_d20; norm_num; linarith
  · have := Real.pi_lt_d20; norm_num; linarith
  · have := Real.pi_gt_d20; have := Real.pi_lt_d20
    rw [abs_lt]; norm_num; constructor <;> linarith
theorem pi_over_8_d_val : (Constants.PI_OVER_8 lit64 id id : Ieee ℚ 53 1023).fin? = some (((7074237752028440 : ℤ) : ℚ) * 2 ^ (-54 : ℤ)) := by decide +kernel
theorem pi_over_8_d_near : Nearest (Constants.PI_OVER_8 lit64 id id : Ieee ℚ 53 1023) (Real.pi / 8) := by
  refine nearest_of (by norm_num) (-54) 7074237752028440 (valid_mul (by norm_num) _ _) pi_over_8_d_val ?_ ?_ ?_
  · have := Real.pi_gt_d20; norm_num; linarith
  · have := Real.pi_lt_d20; norm_num; linarith
  · have := Real.pi_gt_d20; have := Real.pi_lt_d20
    rw [abs_lt]; norm_num; constructor <;> linarith
theorem pi_over_16_d_val : (Constants.PI_OVER_16 lit64 id id : Ieee ℚ 53 1023).fin? = some (((7074237752028440 : ℤ) : ℚ) * 2 ^ (-55 : ℤ)) := by decide +kernel
theorem pi_over_16_d_near : Nearest (Constants.PI_OVER_16 lit64 id id : Ieee ℚ 53 1023) (Real.pi / 16) := by
  refine nearest_of (by norm_num) (-55) 7074237752028440 (valid_mul (by norm_num) _ _) pi_over_16_d_val ?_ ?_ ?_
  · have := Real.pi_gt_d20; norm_num; linarith
  · have := Real.pi_lt_d20; norm_num; linarith
  · have := Real.pi_gt_d20; have := Real.pi_lt_d20
    rw [abs_lt]; norm_num; constructor <;> linarith
theorem pi_over_3_d_val : (Constants.PI_OVER_3 lit64 id id : Ieee ℚ 53 1023).fin? = some (((4716158501352293 : ℤ) : ℚ) * 2 ^ (-52 : ℤ)) := by decide +kernel
theorem pi_over_6_d_val : (Constants.PI_OVER_6 lit64 id id : Ieee ℚ 53 1023).fin? = some (((4716158501352293 : ℤ) : ℚ) * 2 ^ (-53 : ℤ)) := by decide +kernel

/-- All of them are, except that in `double` the third and the sixth of π are off by less than one unit in the
last place.  Missing: these two, which are not nearest. -/
theorem C137_nearest_partial :
    (Nearest (Constants.PI lit64 toFloat : Ieee ℚ 24 127) (Real.pi) ∧
    Nearest (Constants.PI_TIMES_2 lit64 toFloat widen : Ieee ℚ 24 127) (Real.pi * 2) ∧
    Nearest (Constants.PI_OVER_2 lit64 toFloat widen : Ieee ℚ 24 127) (Real.pi / 2) ∧
    Nearest (Constants.PI_OVER_4 lit64 toFloat widen : Ieee ℚ 24 127) (Real.pi / 4) ∧
    Nearest (Constants.PI_OVER_8 lit64 toFloat widen : Ieee ℚ 24 127) (Real.pi / 8) ∧
    Nearest (Constants.PI_OVER_16 lit64 toFloat widen : Ieee ℚ 24 127) (Real.pi / 16) ∧
    Nearest (Constants.PI_OVER_3 lit64 toFloat widen : Ieee ℚ 24 127) (Real.pi / 3) ∧
    Nearest (Constants.PI_OVER_6 lit64 toFloat widen : Ieee ℚ 24 127) (Real.pi / 6) ∧
    Nearest (Constants.PI lit64 id : Ieee ℚ 53 1023) (Real.pi) ∧
    Nearest (Constants.PI_TIMES_2 lit64 id id : Ieee ℚ 53 1023) (Real.pi * 2) ∧
    Nearest (Constants.PI_OVER_2 lit64 id id : Ieee ℚ 53 1023) (Real.pi / 2) ∧
    Nearest (Constants.PI_OVER_4 lit64 id id : Ieee ℚ 53 1023) (Real.pi / 4) ∧
    Nearest (Constants.PI_OVER_8 lit64 id id : Ieee ℚ 53 1023) (Real.pi / 8) ∧
    Nearest (Constants.PI_OVER_16 lit64 id id : Ieee ℚ 53 1023) (Real.pi / 16)) ∧
    (∃ v, (Constants.PI_OVER_3 lit64 id id : Ieee ℚ 53 1023).fin? = some v ∧ |(v : ℝ) - Real.pi / 3| < 2 ^ (-52 : ℤ)) ∧
    (∃ v, (Constants.PI_OVER_6 lit64 id id : Ieee ℚ 53 1023).fin? = some v ∧ |(v : ℝ) - Real.pi / 6| < 2 ^ (-53 : ℤ)) := by
  refine ⟨⟨pi_f_near, pi_times_2_f_near, pi_over_2_f_near, pi_over_4_f_near, pi_over_8_f_near, pi_over_16_f_near, pi_over_3_f_near, pi_over_6_f_near, pi_d_near, pi_times_2_d_near, pi_over_2_d_near, pi_over_4_d_near, pi_over_8_d_near, pi_over_16_d_near⟩, ⟨_, pi_over_3_d_val, ?_⟩, ⟨_, pi_over_6_d_val, ?_⟩⟩
  all_goals
    have := Real.pi_gt_d20; have := Real.pi_lt_d20
    rw [abs_lt]; norm_num; constructor <;> linarith

/-- The next greater `double` is nearer to π / 3. -/
theorem C137_refuted : ¬ C137_full := fun h => by
  have h3 : Nearest (Constants.PI_OVER_3 lit64 id id : Ieee ℚ 53 1023) (Real.pi / 3) := by
    obtain ⟨-, -, -, -, -, -, -, -, -, -, -, -, -, -, h, -⟩ := h; exact h
  obtain ⟨v, hv, -, hb⟩ := h3
  rw [pi_over_3_d_val] at hv
  have hw : (num (((4716158501352294 : ℤ) : ℚ) * 2 ^ (-52 : ℤ)) : Ieee ℚ 53 1023).Valid :=
    ⟨by norm_num, by unfold OnFormat; decide +kernel, by decide +kernel⟩
  have := hb _ hw _ rfl
  obtain rfl := Option.some.inj hv
  have h1 := Real.pi_gt_d20; have h2 := Real.pi_lt_d20
  rw [abs_of_nonpos (by norm_num; linarith), abs_of_nonneg (by norm_num; linarith)] at this
  norm_num at this
  linarith

/-! ## C138 -/

section
variable {K : Type} [Field K] [LinearOrder K] [IsStrictOrderedRing K] [FloorRing K] {p : ℕ} {emax : ℤ}

/-- `std::numeric_limits<Real>::min()`, the least positive normal number -/
def limitMin : Ieee K p emax := .num (2 ^ (1 - emax))
/-- `std::numeric_limits<Real>::max()`, the greatest finite number -/
def limitMax : Ieee K p emax := .num ((2 - 2 ^ (1 - (p : ℤ))) * 2 ^ emax)

/-- The claim: no finite number is above `MAX_VALUE`, none below `MAX_NEG_VALUE`, no positive one below `MIN_VALUE`. -/
def C138_full : Prop := ∀ a : Ieee ℚ 24 127, a.Valid → ∀ v, a.fin? = some v →
  a ≤ Constants.MAX_VALUE limitMax ∧ Constants.MAX_NEG_VALUE limitMax ≤ a ∧ (a > 0 → Constants.MIN_VALUE limitMin ≤ a)

theorem onFormat_le (hp : 1 ≤ p) {v : K} (h : OnFormat p emax v) (hv : |v| < 2 ^ (emax + 1)) :
    |v| ≤ (2 - 2 ^ (1 - (p : ℤ))) * 2 ^ emax := by
  have hr := onFormat_rep hp h
  rcases lt_or_ge |v| ((2 : K) ^ emax) with h1 | h1
  · have : (2 : K) ^ (1 - (p : ℤ)) ≤ 1 := by
      rw [← zpow_zero (2 : K)]; exact zpow_le_zpow_right₀ one_le_two (by omega)
    have := zpow2_pos (K := K) emax
    nlinarith
  · obtain ⟨n, hn⟩ := hr.multiple hp _ h1
    have e1 : (2 : K) ^ (emax + 1) = 2 ^ (p : ℤ) * 2 ^ (emax - (p - 1)) := by
      rw [← zpow_add₀ two_ne_zero]; congr 1; omega
    have e2 : (2 - 2 ^ (1 - (p : ℤ)) : K) * 2 ^ emax = (2 ^ (p : ℤ) - 1) * 2 ^ (emax - ((p : ℤ) - 1)) := by
      rw [sub_mul, sub_mul, one_mul, ← zpow_add₀ two_ne_zero, ← zpow_add₀ two_ne_zero, mul_comm, ← zpow_add_one₀ two_ne_zero]
      congr 2 <;> ring
    have hpos := zpow2_pos (K := K) (emax - ((p : ℤ) - 1))
    rw [hn, abs_mul, abs_of_pos hpos, e1] at hv
    have := lt_of_mul_lt_mul_right hv hpos.le
    rw [hn, abs_mul, abs_of_pos hpos, e2]
    refine mul_le_mul_of_nonneg_right ?_ hpos.le
    rw [zpow_natCast] at this ⊢
    have h2 : |n| < 2 ^ p := by exact_mod_cast this
    have h3 : |n| ≤ 2 ^ p - 1 := by omega
    exact_mod_cast h3

omit [LinearOrder K] [IsStrictOrderedRing K] [FloorRing K] in
theorem max_eq [CharZero K] (p : ℕ) (emax : ℤ) : (2 - 2 ^ (1 - (p : ℤ)) : K) * 2 ^ emax = (2 ^ (p : ℤ) - 1) * 2 ^ (emax - ((p : ℤ) - 1)) := by
  rw [sub_mul, sub_mul, one_mul, ← zpow_add₀ two_ne_zero, ← zpow_add₀ two_ne_zero, mul_comm, ← zpow_add_one₀ two_ne_zero]
  congr 2 <;> ring

theorem max_valid (hp : 1 ≤ p) (he : 1 ≤ emax) : (Constants.MAX_VALUE limitMax : Ieee K p emax).Valid := by
  have hpos := zpow2_pos (K := K) emax
  have h1 : (2 : K) ^ (1 - (p : ℤ)) ≤ 1 := by
    rw [← zpow_zero (2 : K)]; exact zpow_le_zpow_right₀ one_le_two (by omega)
  have h2 : (2 : K) ^ emax ≤ (2 - 2 ^ (1 - (p : ℤ))) * 2 ^ emax := by nlinarith
  have h3 : (2 - 2 ^ (1 - (p : ℤ))) * 2 ^ emax < (2 : K) ^ (emax + 1) := by
    rw [zpow_add_one₀ two_ne_zero]
    have := zpow2_pos (K := K) (1 - (p : ℤ))
    nlinarith
  have h0 : 0 < (2 - 2 ^ (1 - (p : ℤ)) : K) * 2 ^ emax := hpos.trans_le h2
  refine ⟨h0.ne', ?_, by rwa [abs_of_pos h0]⟩
  unfold OnFormat
  rw [grid_eq_rne]
  · refine rne_of_rep hp ⟨2 ^ p - 1, emax - (p - 1), ?_, ?_⟩
    · have : (1 : ℤ) ≤ 2 ^ p := one_le_pow₀ (by norm_num)
      rw [abs_of_nonneg (by omega)]; omega
    · rw [max_eq]; push_cast; rw [zpow_natCast]
  · rw [abs_of_pos h0]
    exact le_trans (zpow_le_zpow_right₀ one_le_two (by omega)) h2

/-- The greatest and the least number are as claimed and are numbers of the format; `MIN_VALUE` is the least
positive number of full precision: the positive numbers below it are those with fewer than `p` bits. -/
theorem C138_limits_partial (hp : 1 ≤ p) (he : 1 ≤ emax) :
    (Constants.MAX_VALUE limitMax : Ieee K p emax).Valid ∧ (Constants.MAX_NEG_VALUE limitMax : Ieee K p emax).Valid ∧
    (Constants.MIN_VALUE limitMin : Ieee K p emax).Valid ∧ (0 : Ieee K p emax) < Constants.MIN_VALUE limitMin ∧
    ∀ a : Ieee K p emax, a.Valid → ∀ v, a.fin? = some v →
      a ≤ Constants.MAX_VALUE limitMax ∧ Constants.MAX_NEG_VALUE limitMax ≤ a ∧
      (0 < a → (a < Constants.MIN_VALUE limitMin ↔
        ∃ m : ℕ, 0 < m ∧ m < 2 ^ (p - 1) ∧ v = m * 2 ^ (2 - emax - p))) := by
  have hmax := max_valid (K := K) hp he
  have hz : (0 : Ieee K p emax).fin? = some 0 := rfl
  have hmin : (Constants.MIN_VALUE limitMin : Ieee K p emax).fin? = some (2 ^ (1 - emax)) := rfl
  have hM : (Constants.MAX_VALUE limitMax : Ieee K p emax).fin? = some ((2 - 2 ^ (1 - (p : ℤ))) * 2 ^ emax) := rfl
  have hN : (Constants.MAX_NEG_VALUE limitMax : Ieee K p emax).fin? = some (-((2 - 2 ^ (1 - (p : ℤ))) * 2 ^ emax)) := rfl
  refine ⟨hmax, ⟨neg_ne_zero.2 hmax.1, ?_, by rw [abs_neg]; exact hmax.2.2⟩, ⟨(zpow2_pos _).ne', ?_, ?_⟩, ?_, fun a ha v hv => ?_⟩
  · have := hmax.2.1
    unfold OnFormat at this ⊢
    rw [grid_neg, this]
  · exact grid_zpow hp (by omega)
  · rw [abs_of_pos (zpow2_pos _)]; exact zpow_lt_zpow_right₀ one_lt_two (by omega)
  · rw [lt_fin hz hmin]; exact zpow2_pos _
  · obtain ⟨h1, h2⟩ := ha.fin hv
    have h3 := abs_le.1 (onFormat_le hp h1 h2)
    rw [le_fin hv hM, le_fin hN hv, lt_fin hz hv, lt_fin hv hmin]
    refine ⟨h3.2, h3.1, fun h0 => ⟨fun h => ?_, ?_⟩⟩
    · obtain ⟨n, hn⟩ := grid_multiple (p := p) (emax := emax) hp v
      have e1 : 1 - emax - ((p : ℤ) - 1) = 2 - emax - p := by ring
      rw [h1, e1] at hn
      have hpos := zpow2_pos (K := K) (2 - emax - p)
      have h4 : 0 < n := by
        rw [hn] at h0; exact_mod_cast (pos_iff_pos_of_mul_pos h0).2 hpos
      have h5 : n < 2 ^ (p - 1) := by
        have e2 : (2 : K) ^ (1 - emax) = 2 ^ (p - 1) * 2 ^ (2 - emax - (p : ℤ)) := by
          rw [← zpow_natCast (2 : K), ← zpow_add₀ two_ne_zero]; congr 1; omega
        rw [hn, e2] at h
        exact_mod_cast lt_of_mul_lt_mul_right h hpos.le
      lift n to ℕ using h4.le
      exact ⟨n, by exact_mod_cast h4, by exact_mod_cast h5, by exact_mod_cast hn⟩
    · rintro ⟨m, -, hm, rfl⟩
      have e2 : (2 : K) ^ (1 - emax) = 2 ^ (p - 1) * 2 ^ (2 - emax - (p : ℤ)) := by
        rw [← zpow_natCast (2 : K), ← zpow_add₀ two_ne_zero]; congr 1; omega
      rw [e2]
      refine mul_lt_mul_of_pos_right ?_ (zpow2_pos _)
      exact_mod_cast hm

/-- what the hypotheses are about -/
example : ∃ a : Ieee ℚ 24 127, a.Valid ∧ 0 < a ∧ a < Constants.MIN_VALUE limitMin :=
  ⟨num (2 ^ (-149 : ℤ)), ⟨by norm_num, by unfold OnFormat; decide +kernel, by norm_num⟩, by decide +kernel, by
    unfold Constants.MIN_VALUE limitMin; decide +kernel⟩

theorem C138_refuted : ¬ C138_full := fun h => by
  have hv : (num (2 ^ (-149 : ℤ)) : Ieee ℚ 24 127).Valid := ⟨by norm_num, by unfold OnFormat; decide +kernel, by norm_num⟩
  have := (h _ hv _ rfl).2.2 (by decide +kernel)
  revert this
  unfold Constants.MIN_VALUE limitMin
  decide +kernel
end
end MathLib
