import Verif.Spec.LayoutSpec
import Mathlib.Tactic.Ring

/-! # Consecutive cells in an object image -/

namespace MathLib

theorem alignUp_of_dvd {n a : Nat} (h : a ∣ n) : alignUp n a = n := by
  obtain ⟨k, rfl⟩ := h
  rcases Nat.eq_zero_or_pos a with rfl | ha
  · simp [alignUp]
  · unfold alignUp
    rw [Nat.mul_add_div ha, Nat.div_eq_of_lt (by omega)]
    ring

theorem dvd_alignUp (n a : Nat) : a ∣ alignUp n a := ⟨_, by unfold alignUp; exact Nat.mul_comm _ _⟩

theorem le_alignUp {n a : Nat} (h : 0 < a) : n ≤ alignUp n a := by
  unfold alignUp
  have := Nat.div_add_mod (n + (a - 1)) a
  have hm := Nat.mod_lt (n + (a - 1)) h
  rw [Nat.mul_comm] at this
  omega

variable {R : Type}

/-- the scalars `l` one after another from the offset `b` on -/
def scal (s : Nat) : Nat → List R → List (Nat × Cell R)
  | _, [] => []
  | b, r :: l => (b, .real r) :: scal s (b + s) l

theorem lookup_scal {s : Nat} (hs : 0 < s) (l : List R) : ∀ (b i : Nat) (rest : List (Nat × Cell R))
    (h : i < l.length), (scal s b l ++ rest).lookup (b + i * s) = some (.real l[i]) := by
  induction l with
  | nil => intro b i rest h; simp at h
  | cons r l ih =>
    intro b i rest h
    cases i with
    | zero => simp [scal]
    | succ i =>
      have hne : (b + (i + 1) * s == b) = false := by
        have : 0 < (i + 1) * s := Nat.mul_pos (Nat.succ_pos _) hs
        simpa using by omega
      have e : b + (i + 1) * s = (b + s) + i * s := by ring
      rw [scal, List.cons_append, List.lookup_cons, hne]
      simp only
      rw [e, ih (b + s) i rest (by simpa using h)]
      rfl

theorem scal_set {s : Nat} (hs : 0 < s) (v : R) (l : List R) : ∀ (b i : Nat) (_ : i < l.length),
    (scal s b l).map (fun c => if c.1 = b + i * s then (c.1, .real v) else c) =
      scal s b (l.set i v) := by
  have far : ∀ (l : List R) (b p : Nat), p < b →
      (scal s b l).map (fun c => if c.1 = p then (c.1, Cell.real v) else c) = scal s b l := by
    intro l
    induction l with
    | nil => intros; rfl
    | cons r l ih =>
      intro b p hp
      rw [scal, List.map_cons, ih (b + s) p (by omega), if_neg (by simp only; omega)]
  induction l with
  | nil => intro b i h; simp at h
  | cons r l ih =>
    intro b i h
    cases i with
    | zero =>
      rw [scal, List.map_cons, List.set_cons_zero, scal]
      simp only [Nat.zero_mul, Nat.add_zero, if_true]
      rw [far l (b + s) b (by omega)]
    | succ i =>
      have e : b + (i + 1) * s = (b + s) + i * s := by ring
      rw [scal, List.map_cons, List.set_cons_succ, scal, e, ih (b + s) i (by simpa using h)]
      rw [if_neg (by simp only; omega)]

/-- reading and writing a run of scalars in an image -/
theorem run_of_cells {abi : Abi} (hs : 0 < abi.size) {im : Img R} {b : Nat} {l : List R}
    {pre post : List (Nat × Cell R)} (hc : im.cells = pre ++ (scal abi.size b l ++ post))
    (hpre : ∀ c ∈ pre, c.1 < b) (hpost : ∀ c ∈ post, b + l.length * abi.size ≤ c.1) :
    (∀ i (h : i < l.length), im.read (b + i * abi.size) = .ok l[i]) ∧
    ∀ i (_ : i < l.length) v, im.write (b + i * abi.size) v =
      .ok { im with cells := pre ++ (scal abi.size b (l.set i v) ++ post) } := by
  have look : ∀ i (h : i < l.length), im.cells.lookup (b + i * abi.size) = some (.real l[i]) := by
    intro i h
    rw [hc]
    have : ∀ pre : List (Nat × Cell R), (∀ c ∈ pre, c.1 < b) →
        (pre ++ (scal abi.size b l ++ post)).lookup (b + i * abi.size) = some (.real l[i]) := by
      intro pre
      induction pre with
      | nil => intro _; exact lookup_scal hs l b i post h
      | cons c pre ih =>
        intro hp
        have h1 := hp c (by simp)
        have hne : (b + i * abi.size == c.1) = false := by simpa using by omega
        obtain ⟨c1, c2⟩ := c
        rw [List.cons_append, List.lookup_cons, hne]
        exact ih fun d hd => hp d (by simp [hd])
    exact this pre hpre
  refine ⟨fun i h => by rw [Img.read, look i h], fun i h v => ?_⟩
  rw [Img.write, look i h]
  simp only [hc, List.map_append]
  rw [scal_set hs v l b i h]
  have idm : ∀ q : List (Nat × Cell R), (∀ c ∈ q, c.1 ≠ b + i * abi.size) →
      q.map (fun c => if c.1 = b + i * abi.size then (c.1, Cell.real v) else c) = q := by
    intro q hq
    conv_rhs => rw [← List.map_id q]
    apply List.map_congr_left
    intro c hcq
    rw [if_neg (hq c hcq)]; rfl
  have hi : i * abi.size < l.length * abi.size := Nat.mul_lt_mul_of_pos_right h hs
  rw [idm pre fun c hcq => by have := hpre c hcq; omega,
    idm post fun c hcq => by have := hpost c hcq; omega]

/-- the shape every class here has -/
theorem dataArray_of {abi : Abi} (hs : 0 < abi.size) {C K : Type} {img : C → Img R} {data : C → Nat}
    {comps : C → List R} {kept : C → K} (sz al b : Nat) (pre post : K → List (Nat × Cell R))
    (hdata : ∀ c, data c = b)
    (himg : ∀ c, img c = ⟨sz, al, pre (kept c) ++ (scal abi.size b (comps c) ++ post (kept c))⟩)
    (hsz : ∀ c, b + (comps c).length * abi.size ≤ sz)
    (hpre : ∀ k, ∀ d ∈ pre k, d.1 < b)
    (hpost : ∀ c, ∀ d ∈ post (kept c), b + (comps c).length * abi.size ≤ d.1)
    (hset : ∀ c i v, i < (comps c).length → ∃ c', comps c' = (comps c).set i v ∧ kept c' = kept c) :
    DataArray abi img data comps kept := by
  intro c
  have hc : (img c).cells = pre (kept c) ++ (scal abi.size b (comps c) ++ post (kept c)) := by
    rw [himg c]
  obtain ⟨hr, hw⟩ := run_of_cells hs hc (hpre _) (hpost c)
  rw [hdata c]
  refine ⟨⟨by rw [himg c]; exact hsz c, hr⟩, fun i hi v => ?_⟩
  obtain ⟨c', h1, h2⟩ := hset c i v hi
  refine ⟨c', ?_, h1, h2⟩
  rw [hw i hi v, himg c', h1, h2, himg c]

theorem vec2_img_eq {abi : Abi} (va : abi.Valid) (v : Vec2 R) :
    v.img abi = ⟨2 * abi.size, abi.align, scal abi.size 0 [v.x, v.y]⟩ := by
  have h1 : max 1 abi.align = abi.align := max_eq_right va.align_pos
  have d1 := va.align_dvd
  have d2 := alignUp_of_dvd (Nat.dvd_add d1 d1)
  simp [Vec2.img, Img.ofMembers, Img.members, Img.place, Img.real, scal, alignUp_of_dvd, d1, d2, h1, two_mul]

theorem vec3_img_eq {abi : Abi} (va : abi.Valid) (v : Vec3 R) :
    v.img abi = ⟨3 * abi.size, abi.align, scal abi.size 0 [v.x, v.y, v.z]⟩ := by
  have h1 : max 1 abi.align = abi.align := max_eq_right va.align_pos
  have d1 := va.align_dvd
  have d2 := alignUp_of_dvd (Nat.dvd_add d1 d1)
  have d3 := alignUp_of_dvd (Nat.dvd_add (Nat.dvd_add d1 d1) d1)
  simp [Vec3.img, Img.ofMembers, Img.members, Img.place, Img.real, scal, alignUp_of_dvd, d1, d2, d3, h1]
  omega

theorem vec4_img_eq {abi : Abi} (va : abi.Valid) (v : Vec4 R) :
    v.img abi = ⟨4 * abi.size, abi.align, scal abi.size 0 [v.x, v.y, v.z, v.w]⟩ := by
  have h1 : max 1 abi.align = abi.align := max_eq_right va.align_pos
  have d1 := va.align_dvd
  have d2 := alignUp_of_dvd (Nat.dvd_add d1 d1)
  have d3 := alignUp_of_dvd (Nat.dvd_add (Nat.dvd_add d1 d1) d1)
  have d4 := alignUp_of_dvd (Nat.dvd_add (Nat.dvd_add (Nat.dvd_add d1 d1) d1) d1)
  simp [Vec4.img, Img.ofMembers, Img.members, Img.place, Img.real, scal, alignUp_of_dvd, d1, d2, d3, d4, h1]
  omega

theorem alignUp_zero (a : Nat) : alignUp 0 a = 0 := alignUp_of_dvd (Nat.dvd_zero a)

theorem mat3_img_eq {abi : Abi} (va : abi.Valid) (m : Mat3 R) :
    m.img abi = ⟨alignUp (alignUp abi.wsize abi.align + 9 * abi.size) (max abi.walign abi.align),
      max abi.walign abi.align, [(0, .word m.flags)] ++ (scal abi.size (alignUp abi.wsize abi.align)
        [m.x.x, m.x.y, m.x.z, m.y.x, m.y.y, m.y.z, m.z.x, m.z.y, m.z.z] ++ [])⟩ := by
  have h1 : max 1 abi.walign = abi.walign := max_eq_right va.walign_pos
  have hd := dvd_alignUp abi.wsize abi.align
  have h3 : abi.align ∣ 3 * abi.size := Dvd.dvd.mul_left va.align_dvd _
  simp only [Mat3.img, Img.ofMembers, Img.members, Img.place, Img.word, vec3_img_eq va, scal,
    List.foldl_cons, List.foldl_nil, h1, alignUp_zero, List.map_cons, List.map_nil, List.nil_append,
    List.cons_append, Nat.zero_add, Nat.add_zero, max_assoc, max_self,
    alignUp_of_dvd (Nat.dvd_add hd h3), alignUp_of_dvd (Nat.dvd_add (Nat.dvd_add hd h3) h3)]
  generalize alignUp abi.wsize abi.align = B
  have e : B + 3 * abi.size + 3 * abi.size + 3 * abi.size = B + 9 * abi.size := by omega
  rw [e]
  simp
  omega

theorem mat2_img_eq {abi : Abi} (va : abi.Valid) (m : Mat2 R) :
    m.img abi = ⟨alignUp (alignUp (4 * abi.size) abi.walign + abi.wsize) (max abi.align abi.walign),
      max abi.align abi.walign, scal abi.size 0 [m.x.x, m.x.y, m.y.x, m.y.y] ++
        [(alignUp (4 * abi.size) abi.walign, .word m.flags)]⟩ := by
  have h1 : max 1 abi.align = abi.align := max_eq_right va.align_pos
  have h2 : abi.align ∣ 2 * abi.size := Dvd.dvd.mul_left va.align_dvd _
  have e : 2 * abi.size + 2 * abi.size = 4 * abi.size := by omega
  simp only [Mat2.img, Img.ofMembers, Img.members, Img.place, Img.word, vec2_img_eq va, scal,
    List.foldl_cons, List.foldl_nil, h1, alignUp_zero, List.map_cons, List.map_nil, List.nil_append,
    List.cons_append, Nat.zero_add, Nat.add_zero, max_self, alignUp_of_dvd h2, e]
  simp
  omega

theorem mat4_img_eq {abi : Abi} (va : abi.Valid) (m : Mat4 R) :
    m.img abi = ⟨alignUp (alignUp abi.wsize abi.align + 16 * abi.size) (max abi.walign abi.align),
      max abi.walign abi.align, [(0, .word m.flags)] ++ (scal abi.size (alignUp abi.wsize abi.align)
        [m.x.x, m.x.y, m.x.z, m.x.w, m.y.x, m.y.y, m.y.z, m.y.w, m.z.x, m.z.y, m.z.z, m.z.w,
          m.t.x, m.t.y, m.t.z, m.t.w] ++ [])⟩ := by
  have h1 : max 1 abi.walign = abi.walign := max_eq_right va.walign_pos
  have hd := dvd_alignUp abi.wsize abi.align
  have h4 : abi.align ∣ 4 * abi.size := Dvd.dvd.mul_left va.align_dvd _
  simp only [Mat4.img, Img.ofMembers, Img.members, Img.place, Img.word, vec4_img_eq va, scal,
    List.foldl_cons, List.foldl_nil, h1, alignUp_zero, List.map_cons, List.map_nil, List.nil_append,
    List.cons_append, Nat.zero_add, Nat.add_zero, max_assoc, max_self,
    alignUp_of_dvd (Nat.dvd_add hd h4), alignUp_of_dvd (Nat.dvd_add (Nat.dvd_add hd h4) h4),
    alignUp_of_dvd (Nat.dvd_add (Nat.dvd_add (Nat.dvd_add hd h4) h4) h4)]
  generalize alignUp abi.wsize abi.align = B
  have e : B + 4 * abi.size + 4 * abi.size + 4 * abi.size + 4 * abi.size = B + 16 * abi.size := by omega
  rw [e]
  simp
  omega

/-- with a scalar at least as strictly aligned as the flags there is no padding after a `Mat3` -/
theorem mat34_img_eq {abi : Abi} (va : abi.Valid) (hw : abi.walign ∣ abi.align) (m : Mat34 R) :
    m.img abi = ⟨alignUp abi.wsize abi.align + 12 * abi.size,
      abi.align, [(0, .word m.rs.flags)] ++ (scal abi.size (alignUp abi.wsize abi.align)
        [m.rs.x.x, m.rs.x.y, m.rs.x.z, m.rs.y.x, m.rs.y.y, m.rs.y.z, m.rs.z.x, m.rs.z.y, m.rs.z.z,
          m.t.x, m.t.y, m.t.z] ++ [])⟩ := by
  have h0 : max abi.walign abi.align = abi.align := max_eq_right (Nat.le_of_dvd va.align_pos hw)
  have h1 : max 1 abi.align = abi.align := max_eq_right va.align_pos
  have hd := dvd_alignUp abi.wsize abi.align
  have h9 : abi.align ∣ 9 * abi.size := Dvd.dvd.mul_left va.align_dvd _
  have h3 : abi.align ∣ 3 * abi.size := Dvd.dvd.mul_left va.align_dvd _
  simp only [Mat34.img, Img.ofMembers, Img.members, Img.place, mat3_img_eq va, vec3_img_eq va, scal,
    List.foldl_cons, List.foldl_nil, h0, h1, alignUp_zero, List.map_cons, List.map_nil, List.nil_append,
    List.cons_append, Nat.zero_add, Nat.add_zero, max_self,
    alignUp_of_dvd (Nat.dvd_add hd h9), alignUp_of_dvd (Nat.dvd_add (Nat.dvd_add hd h9) h3)]
  generalize alignUp abi.wsize abi.align = B
  simp
  omega

end MathLib
