import Verif.Model.Matchers
import Verif.Spec.NumberLists
import Verif.Proof.IeeeMono

/-! # Property C133: the matchers of the test library -/

namespace MathLib
open Matches

/-- the numbers of the two objects are related one by one -/
def Agree {R T : Type} (comps : T → List R) (P : R → R → Prop) (a b : T) : Prop :=
  List.Forall₂ P (comps a) (comps b)

/-- Every matcher compares all the numbers of the two objects, each with its counterpart, and nothing
else.  `P` says when two numbers match. -/
theorem C133_objects {R D : Type} [Add D] [LE D] [DecidableLE D] (conv : R → D) (ε : D) (P : R → R → Prop)
    (hP : ∀ a b, scalar conv a b ε = true ↔ P a b) :
    (∀ a b : Vec2 R, vec2 conv a b ε = true ↔ Agree Vec2.comps P a b) ∧
    (∀ a b : Vec3 R, vec3 conv a b ε = true ↔ Agree Vec3.comps P a b) ∧
    (∀ a b : Vec4 R, vec4 conv a b ε = true ↔ Agree Vec4.comps P a b) ∧
    (∀ a b : Mat2 R, mat2 conv a b ε = true ↔ Agree Mat2.comps P a b) ∧
    (∀ a b : Mat3 R, mat3 conv a b ε = true ↔ Agree Mat3.comps P a b) ∧
    (∀ a b : Mat4 R, mat4 conv a b ε = true ↔ Agree Mat4.comps P a b) ∧
    (∀ a b : Mat34 R, mat34 conv a b ε = true ↔ Agree Mat34.comps P a b) ∧
    (∀ a b : Quat R, quat conv a b ε = true ↔ Agree Quat.comps P a b) ∧
    (∀ a b : AABB2 R, aabb2 conv a b ε = true ↔ Agree AABB2.comps P a b) ∧
    (∀ a b : CAABB2 R, caabb2 conv a b ε = true ↔ Agree CAABB2.comps P a b) ∧
    (∀ a b : AABB3 R, aabb3 conv a b ε = true ↔ Agree AABB3.comps P a b) ∧
    (∀ a b : CAABB3 R, caabb3 conv a b ε = true ↔ Agree CAABB3.comps P a b) ∧
    (∀ a b : ColorRGB R, colorRGB conv a b ε = true ↔ Agree ColorRGB.comps P a b) ∧
    (∀ a b : ColorRGBA R, colorRGBA conv a b ε = true ↔ Agree ColorRGBA.comps P a b) ∧
    (∀ a b : ColorHSV R, colorHSV conv a b ε = true ↔ Agree ColorHSV.comps P a b) ∧
    (∀ a b : Line2 R, line2 conv a b ε = true ↔ Agree Line2.comps P a b) ∧
    (∀ a b : Line3 R, line3 conv a b ε = true ↔ Agree Line3.comps P a b) ∧
    (∀ a b : Ray2 R, ray2 conv a b ε = true ↔ Agree Ray2.comps P a b) ∧
    (∀ a b : Ray3 R, ray3 conv a b ε = true ↔ Agree Ray3.comps P a b) ∧
    (∀ a b : Plane R, plane conv a b ε = true ↔ Agree Plane.comps P a b) ∧
    (∀ a b : Circle R, circle conv a b ε = true ↔ Agree Circle.comps P a b) ∧
    (∀ a b : Sphere R, sphere conv a b ε = true ↔ Agree Sphere.comps P a b) ∧
    (∀ a b : Frustum R, frustum conv a b ε = true ↔ Agree Frustum.comps P a b) := by
  refine ⟨?_, ?_, ?_, ?_, ?_, ?_, ?_, ?_, ?_, ?_, ?_, ?_, ?_, ?_, ?_, ?_, ?_, ?_, ?_, ?_, ?_, ?_, ?_⟩ <;> intro a b <;>
    simp only [Agree, Vec2.comps, vec2, Vec3.comps, vec3, Vec4.comps, vec4, Mat2.comps, mat2, Mat3.comps, mat3, Mat4.comps, mat4, Mat34.comps, mat34, Quat.comps, quat, AABB2.comps, aabb2, CAABB2.comps, caabb2, AABB3.comps, aabb3, CAABB3.comps, caabb3, ColorRGB.comps, colorRGB, ColorRGBA.comps, colorRGBA, ColorHSV.comps, colorHSV, Line2.comps, line2, Line3.comps, line3, Ray2.comps, ray2, Ray3.comps, ray3, Plane.comps, plane, Circle.comps, circle, Sphere.comps, sphere, Frustum.comps, frustum,
      Bool.and_eq_true, hP, List.forall₂_cons, List.forall₂_nil_left_iff, and_true, and_assoc]

/-- In exact arithmetic each matcher accepts exactly the objects all of whose numbers differ from the
target's by at most the margin. -/
theorem C133_exact {K : Type} [Field K] [LinearOrder K] [IsStrictOrderedRing K] (ε : K) :
    (∀ a b : K, scalar id a b ε = true ↔ |a - b| ≤ ε) ∧
    (∀ a b : Vec2 K, vec2 id a b ε = true ↔ Agree Vec2.comps (fun x y => |x - y| ≤ ε) a b) ∧
    (∀ a b : Vec3 K, vec3 id a b ε = true ↔ Agree Vec3.comps (fun x y => |x - y| ≤ ε) a b) ∧
    (∀ a b : Vec4 K, vec4 id a b ε = true ↔ Agree Vec4.comps (fun x y => |x - y| ≤ ε) a b) ∧
    (∀ a b : Mat2 K, mat2 id a b ε = true ↔ Agree Mat2.comps (fun x y => |x - y| ≤ ε) a b) ∧
    (∀ a b : Mat3 K, mat3 id a b ε = true ↔ Agree Mat3.comps (fun x y => |x - y| ≤ ε) a b) ∧
    (∀ a b : Mat4 K, mat4 id a b ε = true ↔ Agree Mat4.comps (fun x y => |x - y| ≤ ε) a b) ∧
    (∀ a b : Mat34 K, mat34 id a b ε = true ↔ Agree Mat34.comps (fun x y => |x - y| ≤ ε) a b) ∧
    (∀ a b : Quat K, quat id a b ε = true ↔ Agree Quat.comps (fun x y => |x - y| ≤ ε) a b) ∧
    (∀ a b : AABB2 K, aabb2 id a b ε = true ↔ Agree AABB2.comps (fun x y => |x - y| ≤ ε) a b) ∧
    (∀ a b : CAABB2 K, caabb2 id a b ε = true ↔ Agree CAABB2.comps (fun x y => |x - y| ≤ ε) a b) ∧
    (∀ a b : AABB3 K, aabb3 id a b ε = true ↔ Agree AABB3.comps (fun x y => |x - y| ≤ ε) a b) ∧
    (∀ a b : CAABB3 K, caabb3 id a b ε = true ↔ Agree CAABB3.comps (fun x y => |x - y| ≤ ε) a b) ∧
    (∀ a b : ColorRGB K, colorRGB id a b ε = true ↔ Agree ColorRGB.comps (fun x y => |x - y| ≤ ε) a b) ∧
    (∀ a b : ColorRGBA K, colorRGBA id a b ε = true ↔ Agree ColorRGBA.comps (fun x y => |x - y| ≤ ε) a b) ∧
    (∀ a b : ColorHSV K, colorHSV id a b ε = true ↔ Agree ColorHSV.comps (fun x y => |x - y| ≤ ε) a b) ∧
    (∀ a b : Line2 K, line2 id a b ε = true ↔ Agree Line2.comps (fun x y => |x - y| ≤ ε) a b) ∧
    (∀ a b : Line3 K, line3 id a b ε = true ↔ Agree Line3.comps (fun x y => |x - y| ≤ ε) a b) ∧
    (∀ a b : Ray2 K, ray2 id a b ε = true ↔ Agree Ray2.comps (fun x y => |x - y| ≤ ε) a b) ∧
    (∀ a b : Ray3 K, ray3 id a b ε = true ↔ Agree Ray3.comps (fun x y => |x - y| ≤ ε) a b) ∧
    (∀ a b : Plane K, plane id a b ε = true ↔ Agree Plane.comps (fun x y => |x - y| ≤ ε) a b) ∧
    (∀ a b : Circle K, circle id a b ε = true ↔ Agree Circle.comps (fun x y => |x - y| ≤ ε) a b) ∧
    (∀ a b : Sphere K, sphere id a b ε = true ↔ Agree Sphere.comps (fun x y => |x - y| ≤ ε) a b) ∧
    (∀ a b : Frustum K, frustum id a b ε = true ↔ Agree Frustum.comps (fun x y => |x - y| ≤ ε) a b) := by
  have h : ∀ a b : K, scalar id a b ε = true ↔ |a - b| ≤ ε := by
    intro a b
    simp only [scalar, id, Bool.and_eq_true, decide_eq_true_eq, abs_le]
    constructor <;> rintro ⟨h1, h2⟩ <;> constructor <;> linarith
  exact ⟨h, C133_objects id ε _ h⟩

/-- Two matrices match although their flags differ and one entry is off by a little. -/
example : mat2 id (⟨⟨1, 0⟩, ⟨0, 1⟩, ⟨true, true, true, false, false⟩⟩ : Mat2 ℚ)
    ⟨⟨1, 0⟩, ⟨0, 1 + 1 / 2000⟩, ⟨false, false, false, false, true⟩⟩ (1 / 1000) = true ∧
    mat2 id (⟨⟨1, 0⟩, ⟨0, 1⟩, ⟨true, true, true, false, false⟩⟩ : Mat2 ℚ)
    ⟨⟨1, 0⟩, ⟨0, 1 + 1 / 500⟩, ⟨true, true, true, false, false⟩⟩ (1 / 1000) = false := by
  decide +kernel

section
open Ieee
variable {K : Type} [Field K] [LinearOrder K] [IsStrictOrderedRing K] [FloorRing K] {p : ℕ} {emax : ℤ}

/-- What the comparison of two IEEE numbers with a margin should do: accept finite numbers within the
margin, reject finite numbers that are farther apart than the margin and one rounding error, never accept a
NaN; under a finite margin an infinity matches only itself, except that +∞ matches a number so large that
adding the margin overflows; and the infinite margin accepts all but NaN and -∞. -/
def MarginSpec (accepted : Bool) (m t ε : Ieee K p emax) : Prop :=
  (∀ v w e : K, m.fin? = some v → t.fin? = some w → ε.fin? = some e →
    (|v - w| ≤ e → accepted = true) ∧
    (accepted = true → |v - w| ≤ e + (max |v| |w| + e) * 2 ^ (-(p : ℤ)))) ∧
  (m = .nan ∨ t = .nan → accepted = false) ∧
  (∀ s e, ε.fin? = some e → m = .inf s ∨ t = .inf s → (accepted = true ↔
    m = t ∨ (m = .inf false ∧ t + ε = .inf false) ∨ (t = .inf false ∧ m + ε = .inf false))) ∧
  (∀ s v e, ε.fin? = some e → (m = .inf s ∧ t.fin? = some v) ∨ (m.fin? = some v ∧ t = .inf s) →
    v + e ≤ 2 ^ emax → accepted = false) ∧
  (ε = .inf false → (accepted = true ↔ m ≠ .nan ∧ t ≠ .nan ∧ m ≠ .inf true ∧ t ≠ .inf true))

omit [IsStrictOrderedRing K] [FloorRing K] in
theorem leB_inf (x : Ieee K p emax) : leB (.inf false) x = true ↔ x = .inf false := by
  cases x <;> simp [leB]

theorem add_eq_inf {a b : Ieee K p emax} {v w : K} (ha : a.fin? = some v) (hb : b.fin? = some w)
    (h : a + b = .inf false) : 2 ^ (emax + 1) ≤ grid p emax (v + w) := by
  have key : ∀ x s, (Ieee.round x s : Ieee K p emax) = .inf false → 2 ^ (emax + 1) ≤ grid p emax x := by
    intro x s h
    simp only [Ieee.round] at h
    split_ifs at h with h1 h2
    simp only [inf.injEq, decide_eq_false_iff_not, not_lt] at h
    rwa [abs_of_nonneg (grid_nonneg h)] at h1
  change add a b = _ at h
  rcases fin?_cases ha with ⟨s, rfl, rfl⟩ | rfl <;> rcases fin?_cases hb with ⟨s', rfl, rfl⟩ | rfl
  · simp [add] at h
  · rw [zero_add]; exact key _ _ h
  · rw [add_zero]; exact key _ _ h
  · exact key _ _ h

theorem marginSpec (hp : 1 ≤ p) (hM : 1 ≤ emax) (m t ε : Ieee K p emax) (hm : m.Valid) (ht : t.Valid) (hε : ε.Valid)
    (h0 : 0 ≤ ε) : MarginSpec (scalar id m t ε) m t ε := by
  have H : ∀ s e, ε.fin? = some e → m = .inf s ∨ t = .inf s → (scalar id m t ε = true ↔
      m = t ∨ (m = .inf false ∧ t + ε = .inf false) ∨ (t = .inf false ∧ m + ε = .inf false)) := by
    intro s e he h
    simp only [scalar, id, Bool.and_eq_true, decide_eq_true_eq]
    change leB t (add m ε) = true ∧ leB m (add t ε) = true ↔ m = t ∨ (m = .inf false ∧ add t ε = .inf false) ∨
      (t = .inf false ∧ add m ε = .inf false)
    rcases fin?_cases he with ⟨z, rfl, rfl⟩ | rfl <;> rcases h with rfl | rfl <;> cases s
    · cases t <;> (try simp [add, leB_inf]) <;> (try simp [leB])
    · cases t <;> (try simp [add]) <;> (try simp [leB])
    · cases m <;> (try simp [add, leB_inf]) <;> (try simp [leB])
    · cases m <;> (try simp [add]) <;> (try simp [leB])
    · cases t <;> (try simp [add, leB_inf]) <;> (try simp [leB])
    · cases t <;> (try simp [add]) <;> (try simp [leB])
    · cases m <;> (try simp [add, leB_inf]) <;> (try simp [leB])
    · cases m <;> (try simp [add]) <;> (try simp [leB])
  refine ⟨?_, ?_, H, ?_, ?_⟩
  · intro v w e hv hw he
    have hm' := hm.fin hv
    have ht' := ht.fin hw
    have he' := hε.fin he
    have e0 : 0 ≤ e := (le_fin fin?_zero he).1 h0
    simp only [scalar, id, ge_iff_le, Bool.and_eq_true, decide_eq_true_eq, le_add hv he hw ht'.2,
      le_add hw he hv hm'.2]
    constructor
    · intro h
      rw [abs_le] at h
      have a := grid_mono (p := p) (emax := emax) hp (show w ≤ v + e by linarith)
      have b := grid_mono (p := p) (emax := emax) hp (show v ≤ w + e by linarith)
      rw [ht'.1] at a
      rw [hm'.1] at b
      exact ⟨a, b⟩
    · rintro ⟨h1, h2⟩
      have a := abs_le.1 (grid_add_rel hp hm'.1 he'.1)
      have b := abs_le.1 (grid_add_rel hp ht'.1 he'.1)
      have u0 : (0 : K) ≤ 2 ^ (-(p : ℤ)) := (zpow2_pos _).le
      have c1 : |v + e| * 2 ^ (-(p : ℤ)) ≤ (max |v| |w| + e) * 2 ^ (-(p : ℤ)) := by
        refine mul_le_mul_of_nonneg_right ((abs_add_le v e).trans ?_) u0
        rw [abs_of_nonneg e0]; gcongr; exact le_max_left _ _
      have c2 : |w + e| * 2 ^ (-(p : ℤ)) ≤ (max |v| |w| + e) * 2 ^ (-(p : ℤ)) := by
        refine mul_le_mul_of_nonneg_right ((abs_add_le w e).trans ?_) u0
        rw [abs_of_nonneg e0]; gcongr; exact le_max_right _ _
      rw [abs_le]
      constructor <;> linarith [a.1, a.2, b.1, b.2]
  · rintro (rfl | rfl)
    · simp only [scalar, id, Bool.and_eq_false_iff, decide_eq_false_iff_not]
      right
      change ¬ leB _ _ = true
      cases (t + ε) <;> simp [leB]
    · simp only [scalar, id, Bool.and_eq_false_iff, decide_eq_false_iff_not]
      left
      change ¬ leB _ _ = true
      cases (m + ε) <;> simp [leB]
  · intro s v e he h hv
    have key : ∀ a : Ieee K p emax, a.fin? = some v → a + ε ≠ .inf false := by
      intro a ha h
      have h1 := add_eq_inf ha he h
      have h2 := grid_mono (p := p) (emax := emax) hp hv
      rw [grid_zpow hp (by omega)] at h2
      exact absurd (zpow_lt_zpow_right₀ (one_lt_two (α := K)) (show emax < emax + 1 by omega))
        (not_lt.2 (h1.trans h2))
    rw [← Bool.not_eq_true]
    rcases h with ⟨rfl, h⟩ | ⟨h, rfl⟩
    · rw [H s e he (.inl rfl)]
      rintro (rfl | ⟨-, h'⟩ | ⟨rfl, -⟩)
      · simp [fin?] at h
      · exact key _ h h'
      · simp [fin?] at h
    · rw [H s e he (.inr rfl)]
      rintro (rfl | ⟨rfl, -⟩ | ⟨-, h'⟩)
      · simp [fin?] at h
      · simp [fin?] at h
      · exact key _ h h'
  · rintro rfl
    simp only [scalar, id, Bool.and_eq_true, decide_eq_true_eq]
    change leB t (add m _) = true ∧ leB m (add t _) = true ↔ _
    rcases m with _ | (_ | _) | _ | _ <;> rcases t with _ | (_ | _) | _ | _ <;> simp [leB, add]

/-- `double`, or any other IEEE format: the comparison of two scalars meets the specification. -/
theorem C133_double (hp : 1 ≤ p) (hM : 1 ≤ emax) (m t ε : Ieee K p emax) (hm : m.Valid) (ht : t.Valid)
    (hε : ε.Valid) (h0 : ε ≥ 0) : MarginSpec (scalar id m t ε) m t ε :=
  marginSpec hp hM m t ε hm ht hε h0

/-- `float`: the numbers are converted to `double` first, and nothing is lost. -/
theorem C133_float (m t : B32) (ε : B64) (hm : m.Valid) (ht : t.Valid) (hε : ε.Valid) (h0 : ε ≥ 0) :
    (widen m : B64).fin? = m.fin? ∧ (widen t : B64).fin? = t.fin? ∧
    MarginSpec (scalar widen m t ε) (widen m) (widen t) ε :=
  ⟨fin?_widen m, fin?_widen t, marginSpec (by norm_num) (by norm_num) _ _ _
    (valid_widen (by norm_num) (by norm_num) (by norm_num) hm)
    (valid_widen (by norm_num) (by norm_num) (by norm_num) ht) hε h0⟩

omit [IsStrictOrderedRing K] in
/-- The constructor rejects exactly the margins that are negative or NaN; minus zero is accepted. -/
theorem C133_margin {T : Type} (check : T → T → Ieee K p emax → Bool) (target matchee : T) (ε : Ieee K p emax) :
    (withinAbs check target ε matchee = none ↔ ε = .nan ∨ ε = .inf true ∨ ∃ v, ε = .num v ∧ v < 0) ∧
    (∀ s, withinAbs check target (.zero s) matchee = some (check matchee target (.zero s))) := by
  constructor
  · simp only [withinAbs, ge_iff_le, ite_eq_right_iff, reduceCtorEq, imp_false]
    change ¬ leB (.zero false) ε = true ↔ _
    rcases ε with _ | (_ | _) | _ | _ <;> simp [leB]
  · intro s; rfl

/-- Numbers that the theorems are about: a value of `float` and of `double` at each end of the range.  The bound
for rounding is not idle: `1 - 2^-53` matches `1` with the margin `2^-54`. -/
example : (Ieee.num 1 : B64).Valid ∧ (Ieee.num (2 ^ (-149 : ℤ)) : B32).Valid ∧ (Ieee.num (2 ^ (127 : ℤ)) : B32).Valid ∧
    (Ieee.num (2 ^ (-54 : ℤ)) : B64).Valid ∧ (Ieee.inf true : B64).Valid := by
  have key : ∀ (p : ℕ) (emax e : ℤ), 1 ≤ p → 1 - emax ≤ e → e ≤ emax →
      (Ieee.num (2 ^ e) : Ieee ℝ p emax).Valid := by
    intro p emax e hp h1 h2
    refine ⟨(zpow2_pos e).ne', grid_zpow hp (by omega), ?_⟩
    rw [abs_of_pos (zpow2_pos e)]
    exact zpow_lt_zpow_right₀ one_lt_two (by omega)
  refine ⟨?_, ⟨by positivity, ?_, ?_⟩, key _ _ _ (by norm_num) (by norm_num) (by norm_num),
    key _ _ _ (by norm_num) (by norm_num) (by norm_num), trivial⟩
  · have := key 53 1023 0 (by norm_num) (by norm_num) (by norm_num)
    rwa [zpow_zero] at this
  · rw [OnFormat, grid_low]
    · have := fix_int (K := ℝ) (-149) 1
      norm_num at this ⊢
      exact this
    · rw [abs_of_pos (zpow2_pos _)]
      exact zpow_le_zpow_right₀ one_le_two (by norm_num)
  · rw [abs_of_pos (zpow2_pos _)]
    exact zpow_lt_zpow_right₀ one_lt_two (by norm_num)

example : scalar id (.num (1 - 2 ^ (-53 : ℤ)) : Ieee ℚ 53 1023) (.num 1) (.num (2 ^ (-54 : ℤ))) = true := by
  decide +kernel
end

end MathLib
