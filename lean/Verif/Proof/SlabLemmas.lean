import Verif.Proof.BoxLemmas
import Verif.Proof.VecLemmas
import Mathlib.Algebra.Order.Field.Basic
import Mathlib.Order.Interval.Set.Basic
import Mathlib.Tactic.FieldSimp
import Mathlib.Tactic.Linarith

/-! # One slab of a box against a ray -/

namespace MathLib
variable {K : Type} [Field K] [LinearOrder K] [IsStrictOrderedRing K]

omit [Field K] [IsStrictOrderedRing K] in
theorem stdMax_eq (a b : K) : stdMax a b = max a b := by
  unfold stdMax; split_ifs with h
  · exact (max_eq_right h.le).symm
  · exact (max_eq_left (not_lt.1 h)).symm
omit [Field K] [IsStrictOrderedRing K] in
theorem stdMin_eq (a b : K) : stdMin a b = min a b := by
  unfold stdMin; split_ifs with h
  · exact (min_eq_right h.le).symm
  · exact (min_eq_left (not_lt.1 h)).symm

/-- parameters at which a moving coordinate is in the slab -/
def slab (lo hi s d : K) : Set K := {t | lo ≤ s + d * t ∧ s + d * t ≤ hi}

/-- the start is not past the face met first -/
def NearSide (lo hi s d : K) : Prop := (0 < d → s ≤ lo) ∧ (d < 0 → hi ≤ s)

/-- the two parameters computed by the code bound the slab -/
theorem slab_ends {lo hi s d : K} (h : lo ≤ hi) (hd : d ≠ 0) :
    let a := (lo - s) * (1 / d)
    let b := (hi - s) * (1 / d)
    let q := if a > b then (b, a) else (a, b)
    q.1 ≤ q.2 ∧ slab lo hi s d = Set.Icc q.1 q.2 ∧ (0 ≤ q.1 ↔ NearSide lo hi s d) := by
  intro a b q
  have ha : a = (lo - s) / d := by simp only [a]; ring
  have hb : b = (hi - s) / d := by simp only [b]; ring
  rcases lt_or_gt_of_ne hd with hneg | hpos
  · have hba : b ≤ a := by rw [ha, hb]; exact div_le_div_of_nonpos_of_le hneg.le (by linarith)
    have hq : q = (b, a) := by
      simp only [q]
      split_ifs with hlt
      · rfl
      · have : a = b := le_antisymm (not_lt.1 hlt) hba
        rw [this]
    rw [hq]
    refine ⟨hba, ?_, ?_⟩
    · ext t
      simp only [slab, Set.mem_ofPred_eq, Set.mem_Icc, ha, hb]
      rw [div_le_iff_of_neg hneg, le_div_iff_of_neg hneg]
      constructor <;> rintro ⟨h1, h2⟩ <;> constructor <;> linarith
    · simp only [NearSide, hb]
      rw [le_div_iff_of_neg hneg]
      constructor
      · intro h1; exact ⟨fun h2 => absurd h2 (by linarith), fun _ => by linarith⟩
      · intro h1; have := h1.2 hneg; linarith
  · have hab : a ≤ b := by rw [ha, hb]; exact div_le_div_of_nonneg_right (by linarith) hpos.le
    have hq : q = (a, b) := by
      simp only [q]
      rw [if_neg (not_lt.2 hab)]
    rw [hq]
    refine ⟨hab, ?_, ?_⟩
    · ext t
      simp only [slab, Set.mem_ofPred_eq, Set.mem_Icc, ha, hb]
      rw [div_le_iff₀ hpos, le_div_iff₀ hpos]
      constructor <;> rintro ⟨h1, h2⟩ <;> constructor <;> linarith
    · simp only [NearSide, ha]
      rw [le_div_iff₀ hpos]
      constructor
      · intro h1; exact ⟨fun _ => by linarith, fun h2 => absurd h2 (by linarith)⟩
      · intro h1; have := h1.1 hpos; linarith

omit [IsStrictOrderedRing K] in
theorem slab_zero {lo hi s : K} : slab lo hi s 0 = if s < lo ∨ s > hi then ∅ else Set.univ := by
  ext t
  split_ifs with h
  · simp only [slab, zero_mul, add_zero, Set.mem_ofPred_eq, Set.mem_empty_iff_false, iff_false, not_and_or, not_le]
    exact h
  · simp only [not_or, not_lt, gt_iff_lt] at h
    simp [slab, h]

/-- `r` is the answer "`S` is empty" or "`S` is this interval" -/
def Clips (S : Set K) (r : Option (K × K)) : Prop :=
  match r with
  | none => S = ∅
  | some (a, b) => a ≤ b ∧ S = Set.Icc a b

theorem Clips.slabClip {lo hi s d : K} (h : lo ≤ hi) {S : Set K} {r : Option (K × K)} (hr : Clips S r) :
    Clips (S ∩ slab lo hi s d) (r >>= slabClip lo hi s d) := by
  match r, hr with
  | none, hr =>
    show S ∩ _ = ∅
    rw [show S = ∅ from hr, Set.empty_inter]
  | some (a, b), ⟨hab, hS⟩ =>
    show Clips _ (MathLib.slabClip lo hi s d (a, b))
    subst hS
    unfold MathLib.slabClip
    by_cases hd : d = 0
    · subst hd
      rw [slab_zero]
      simp only [beq_self_eq_true, if_true]
      split_ifs with hs
      · simp [Clips]
      · simp [Clips, hab]
    · obtain ⟨h1, h2, -⟩ := slab_ends (s := s) h hd
      simp only [beq_iff_eq, hd, if_false]
      rw [h2]
      generalize (if (lo - s) * (1 / d) > (hi - s) * (1 / d) then
        ((hi - s) * (1 / d), (lo - s) * (1 / d)) else ((lo - s) * (1 / d), (hi - s) * (1 / d))) = q at h1 ⊢
      rw [Set.Icc_inter_Icc]
      simp only [stdMax_eq, stdMin_eq]
      split_ifs with hlt
      · exact Set.Icc_eq_empty (not_le.2 hlt)
      · exact ⟨not_lt.1 hlt, rfl⟩

omit [IsStrictOrderedRing K] in
theorem Clips.segment {S : Set K} {r : Option (K × K)} (hr : Clips S r) (h0 : ∀ t ∈ S, 0 ≤ t) :
    Clips (S ∩ {t | t ≤ 1}) (r >>= segmentClip) := by
  match r, hr with
  | none, hr =>
    show S ∩ _ = ∅
    rw [show S = ∅ from hr, Set.empty_inter]
  | some (a, b), ⟨hab, hS⟩ =>
    show Clips _ (segmentClip (a, b))
    subst hS
    have ha : 0 ≤ a := h0 a ⟨le_rfl, hab⟩
    have hb : 0 ≤ b := ha.trans hab
    unfold segmentClip
    simp only [not_lt.2 ha, false_and, if_false]
    split_ifs with h1 h2
    · ext t
      simp only [Set.mem_inter_iff, Set.mem_Icc, Set.mem_ofPred_eq, Set.mem_empty_iff_false, iff_false, not_and, not_le]
      intro h; exact h1.1.trans_le h.1
    · have ha1 : a ≤ 1 := by by_contra h; exact h1 ⟨not_le.1 h, h2⟩
      refine ⟨ha1, ?_⟩
      ext t
      simp only [Set.mem_inter_iff, Set.mem_Icc, Set.mem_ofPred_eq]
      constructor
      · rintro ⟨⟨h3, -⟩, h4⟩; exact ⟨h3, h4⟩
      · rintro ⟨h3, h4⟩; exact ⟨⟨h3, h4.trans h2.le⟩, h4⟩
    · refine ⟨hab, ?_⟩
      ext t
      simp only [Set.mem_inter_iff, Set.mem_Icc, Set.mem_ofPred_eq, and_iff_left_iff_imp]
      intro h; exact h.2.trans (not_lt.1 h2)

omit [Field K] [IsStrictOrderedRing K] in
theorem Clips.spec {S : Set K} {r : Option (K × K)} (hr : Clips S r) :
    (r.isSome ↔ S.Nonempty) ∧ ∀ a b, r = some (a, b) → S = Set.Icc a b := by
  match r, hr with
  | none, hr => simp [show S = ∅ from hr]
  | some (a, b), ⟨hab, hS⟩ =>
    subst hS
    refine ⟨by simp [hab], fun c d h => ?_⟩
    simp only [Option.some.injEq, Prod.mk.injEq] at h
    rw [h.1, h.2]

/-- `S` is what the ray sees of the slabs so far; `N` tells that all of them were entered from outside. -/
def Enters (S : Set K) (N : Prop) (r : Option K) : Prop :=
  match r with
  | none => N → S = ∅
  | some t => N ∧ 0 ≤ t ∧ ∃ U : Set K, (∀ u ∈ U, ∀ v, v ≤ u → v ∈ U) ∧ S = Set.Ici t ∩ U

theorem Enters.slabHit {lo hi s d : K} (h : lo ≤ hi) {S : Set K} {N : Prop} {r : Option K} (hr : Enters S N r) :
    Enters (S ∩ slab lo hi s d) (N ∧ NearSide lo hi s d) (r >>= slabHit lo hi s d) := by
  match r, hr with
  | none, hr =>
    show _ → S ∩ _ = ∅
    intro hN
    rw [show S = ∅ from hr hN.1, Set.empty_inter]
  | some t, ⟨hN, ht, U, hU, hS⟩ =>
    show Enters _ _ (MathLib.slabHit lo hi s d t)
    subst hS
    unfold MathLib.slabHit
    by_cases hd : d = 0
    · subst hd
      rw [slab_zero]
      simp only [beq_self_eq_true, if_true]
      split_ifs with hs
      · simp [Enters]
      · exact ⟨⟨hN, by simp [NearSide]⟩, ht, U, hU, by simp⟩
    · obtain ⟨h1, h2, h3⟩ := slab_ends (s := s) h hd
      simp only [beq_iff_eq, hd, if_false]
      rw [h2]
      generalize (if (lo - s) * (1 / d) > (hi - s) * (1 / d) then
        ((hi - s) * (1 / d), (lo - s) * (1 / d)) else ((lo - s) * (1 / d), (hi - s) * (1 / d))) = q at h1 h3 ⊢
      simp only [stdMax_eq]
      split_ifs with hlt
      · intro hn
        exact absurd (h3.2 hn.2) (not_le.2 hlt)
      · refine ⟨⟨hN, h3.1 (not_lt.1 hlt)⟩, le_max_of_le_left ht, U ∩ Set.Iic q.2, ?_, ?_⟩
        · rintro u ⟨hu1, hu2⟩ v hv
          exact ⟨hU u hu1 v hv, le_trans hv hu2⟩
        · ext v
          simp only [Set.mem_inter_iff, Set.mem_Ici, Set.mem_Icc, Set.mem_Iic, max_le_iff]
          tauto

omit [IsStrictOrderedRing K] in
theorem Enters.spec {S : Set K} {N : Prop} {r : Option K} (hr : Enters S N r) :
    (∀ t, r = some t → N ∧ 0 ≤ t ∧ (S.Nonempty → IsLeast S t)) ∧ (S.Nonempty → (r.isSome ↔ N)) := by
  match r, hr with
  | none, hr =>
    refine ⟨by simp, fun hS => ?_⟩
    simp only [Option.isSome_none, Bool.false_eq_true, false_iff]
    intro hN
    rw [show S = ∅ from hr hN] at hS
    exact Set.not_nonempty_empty hS
  | some t, ⟨hN, ht, U, hU, hS⟩ =>
    subst hS
    refine ⟨fun u hu => ?_, fun _ => by simp [hN]⟩
    obtain rfl := Option.some.inj hu
    refine ⟨hN, ht, ?_⟩
    rintro ⟨v, hv1, hv2⟩
    exact ⟨⟨le_rfl, hU v hv2 t hv1⟩, fun w hw => hw.1⟩

end MathLib
