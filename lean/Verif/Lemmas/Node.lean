import Verif.Lemmas.Sphere

/-! The bounding sphere of an element and the order of its four nodes (used by C100). -/

namespace XRD.Spec
open XRD V3

/-- the longest side of the element is unique, and its other two nodes are not equally far from the middle of that side -/
def NoTies (t : Q4 V3) : Prop :=
  ∃ p q r s : V3, t.toList.Perm [p, q, r, s] ∧
    V3.dist p r < V3.dist p q ∧ V3.dist p s < V3.dist p q ∧ V3.dist q r < V3.dist p q ∧ V3.dist q s < V3.dist p q ∧
    V3.dist r s < V3.dist p q ∧ V3.dist r ((1 / 2 : ℝ) • (p + q)) ≠ V3.dist s ((1 / 2 : ℝ) • (p + q))
end XRD.Spec

namespace XRD
open V3 M3 Spec
open Classical

theorem perm2 {α : Type} {c d x y : α} (h : [c, d].Perm [x, y]) : (c = x ∧ d = y) ∨ (c = y ∧ d = x) := by
  have hc : c ∈ [x, y] := h.mem_iff.mp List.mem_cons_self
  simp only [List.mem_cons, List.not_mem_nil, or_false] at hc
  rcases hc with rfl | rfl
  · have := h.cons_inv
    simp at this
    exact .inl ⟨rfl, this⟩
  · have := (h.trans (List.Perm.swap _ _ _)).cons_inv
    simp at this
    exact .inr ⟨rfl, this⟩

theorem perm3 {α : Type} {b c d x y z : α} (h : [b, c, d].Perm [x, y, z]) :
    (b = x ∧ [c, d].Perm [y, z]) ∨ (b = y ∧ [c, d].Perm [x, z]) ∨ (b = z ∧ [c, d].Perm [x, y]) := by
  have hb : b ∈ [x, y, z] := h.mem_iff.mp List.mem_cons_self
  simp only [List.mem_cons, List.not_mem_nil, or_false] at hb
  rcases hb with rfl | rfl | rfl
  · exact .inl ⟨rfl, h.cons_inv⟩
  · exact .inr (.inl ⟨rfl, (h.trans (List.Perm.swap _ _ _)).cons_inv⟩)
  · refine .inr (.inr ⟨rfl, (h.trans ?_).cons_inv⟩)
    exact (List.Perm.cons x (List.Perm.swap b y [])).trans (List.Perm.swap b x [y])

theorem perm4 {α : Type} {a b c d x y z w : α} (h : [a, b, c, d].Perm [x, y, z, w]) :
    (a = x ∧ [b, c, d].Perm [y, z, w]) ∨ (a = y ∧ [b, c, d].Perm [x, z, w]) ∨ (a = z ∧ [b, c, d].Perm [x, y, w]) ∨
      (a = w ∧ [b, c, d].Perm [x, y, z]) := by
  have ha : a ∈ [x, y, z, w] := h.mem_iff.mp List.mem_cons_self
  simp only [List.mem_cons, List.not_mem_nil, or_false] at ha
  rcases ha with rfl | rfl | rfl | rfl
  · exact .inl ⟨rfl, h.cons_inv⟩
  · exact .inr (.inl ⟨rfl, (h.trans (List.Perm.swap _ _ _)).cons_inv⟩)
  · refine .inr (.inr (.inl ⟨rfl, (h.trans ?_).cons_inv⟩))
    exact (List.Perm.cons x (List.Perm.swap a y [w])).trans (List.Perm.swap a x [y, w])
  · refine .inr (.inr (.inr ⟨rfl, (h.trans ?_).cons_inv⟩))
    exact (List.Perm.cons x (List.Perm.cons y (List.Perm.swap a z []))).trans
      ((List.Perm.cons x (List.Perm.swap a y [z])).trans (List.Perm.swap a x [y, z]))

/-- the sphere chosen for a longest side `p q` and the other nodes `r`, `s` of the element with the nodes `L` and circumsphere `z` -/
noncomputable def labelled (L : List V3) (z : V3 × ℝ) (p q r s : V3) : V3 × ℝ :=
  let s1 := sphere2 p q
  let s2 := sphere3 p q (if norm (r - s1.1) < norm (s - s1.1) then s else r)
  if norm (r - s1.1) ≤ s1.2 ∧ norm (s - s1.1) ≤ s1.2 then s1
  else if ∀ x ∈ L, norm (x - s2.1) ≤ s2.2 then s2
  else z

theorem argmax_pair (u v : ℝ) : argmax [u, v] = 0 ↔ ¬ u < v := by
  unfold argmax
  simp only [List.length_cons, List.length_nil, List.range_succ, List.range_zero, List.nil_append, List.foldl_cons, List.foldl_append,
    List.foldl_nil, List.getD_cons_zero, lt_irrefl, if_false, zero_add, List.getD_cons_succ]
  split_ifs with h <;> simp [h]

/-- the nodes of the longest side, then the other two -/
def split (t : Tet) : ℕ → V3 × V3 × V3 × V3
  | 0 => (t.a, t.b, t.c, t.d)
  | 1 => (t.a, t.c, t.b, t.d)
  | 2 => (t.a, t.d, t.b, t.c)
  | 3 => (t.b, t.c, t.a, t.d)
  | 4 => (t.b, t.d, t.a, t.c)
  | _ => (t.c, t.d, t.a, t.b)

theorem sphereOf_split (t : Tet) :
    sphereOf t = labelled t.toList (sphere4 t) (split t (argmax (sidesOf t))).1 (split t (argmax (sidesOf t))).2.1
      (split t (argmax (sidesOf t))).2.2.1 (split t (argmax (sidesOf t))).2.2.2 := by
  have hk := (argmax_spec (sidesOf t) 0 (by simp [sidesOf])).1
  have hl : (sidesOf t).length = 6 := rfl
  rw [hl] at hk
  unfold sphereOf labelled
  set k := argmax (sidesOf t)
  clear_value k
  interval_cases k <;>
  · simp only [pairTable, List.getD_cons_zero, List.getD_cons_succ, split]
    simp only [List.filter, ne_eq, Q4.get, Q4.toList, List.mem_cons, List.not_mem_nil, or_false, forall_eq_or_imp, forall_eq, sub_nonpos]
    norm_num
    simp only [argmax_pair, not_lt, Q4.get, ite_not]
    congr 1
    simp only [← not_lt, ite_not]

theorem split_perm (t : Tet) (k : ℕ) : t.toList.Perm [(split t k).1, (split t k).2.1, (split t k).2.2.1, (split t k).2.2.2] := by
  have sw : ∀ (x y : V3) (l : List V3), (x :: y :: l).Perm (y :: x :: l) := fun x y l => List.Perm.swap y x l
  unfold split Q4.toList
  split
  · exact List.Perm.refl _
  · exact (sw _ _ _).cons _
  · exact ((sw t.c t.d []).cons t.b |>.trans (sw t.b t.d [t.c])).cons t.a
  · exact (sw _ _ _).trans ((sw _ _ _).cons _)
  · exact (sw t.a t.b [t.c, t.d]).trans (((sw t.c t.d []).cons t.a |>.trans (sw t.a t.d [t.c])).cons t.b)
  · exact (List.perm_append_comm (l₁ := [t.a, t.b]) (l₂ := [t.c, t.d]))

theorem split_longest (t : Tet) :
    let w := split t (argmax (sidesOf t))
    V3.dist w.1 w.2.2.1 ≤ V3.dist w.1 w.2.1 ∧ V3.dist w.1 w.2.2.2 ≤ V3.dist w.1 w.2.1 ∧ V3.dist w.2.1 w.2.2.1 ≤ V3.dist w.1 w.2.1 ∧
      V3.dist w.2.1 w.2.2.2 ≤ V3.dist w.1 w.2.1 ∧ V3.dist w.2.2.1 w.2.2.2 ≤ V3.dist w.1 w.2.1 := by
  have hl : (sidesOf t).length = 6 := rfl
  have hk := (argmax_spec (sidesOf t) 0 (by rw [hl]; omega)).1
  rw [hl] at hk
  have h0 := (argmax_spec (sidesOf t) 0 (by rw [hl]; omega)).2
  have h1 := (argmax_spec (sidesOf t) 1 (by rw [hl]; omega)).2
  have h2 := (argmax_spec (sidesOf t) 2 (by rw [hl]; omega)).2
  have h3 := (argmax_spec (sidesOf t) 3 (by rw [hl]; omega)).2
  have h4 := (argmax_spec (sidesOf t) 4 (by rw [hl]; omega)).2
  have h5 := (argmax_spec (sidesOf t) 5 (by rw [hl]; omega)).2
  generalize argmax (sidesOf t) = k at hk h0 h1 h2 h3 h4 h5
  have sym : ∀ u v : V3, V3.dist u v = V3.dist v u := fun u v => V3.norm_sub_comm u v
  simp only [sidesOf, List.getD_cons_zero, List.getD_cons_succ] at h0 h1 h2 h3 h4 h5
  interval_cases k <;> simp only [List.getD_cons_zero, List.getD_cons_succ] at h0 h1 h2 h3 h4 h5 <;> simp only [split] <;>
    refine ⟨?_, ?_, ?_, ?_, ?_⟩ <;>
    first
    | assumption
    | (rw [sym]; assumption)
    | (rw [sym _ (Q4.a t)]; assumption)
    | (rw [sym _ t.b, sym _ t.a]; assumption)
    | (linarith [sym t.a t.b, sym t.a t.c, sym t.a t.d, sym t.b t.c, sym t.b t.d, sym t.c t.d])

theorem sphere2_comm (p q : V3) : sphere2 p q = sphere2 q p := by
  have e : (1 / 2 : ℝ) • (p + q) = (1 / 2 : ℝ) • (q + p) := by rw [add_comm]
  refine Prod.ext e ?_
  show norm ((1 / 2 : ℝ) • (p + q) - p) * slack = norm ((1 / 2 : ℝ) • (q + p) - q) * slack
  congr 1
  rw [norm_eq_iff]
  simp [nsq, V3.dot]; ring

theorem sphere3_comm {p q r : V3} (h1 : V3.dist p r ≤ V3.dist p q) (h2 : V3.dist q r ≤ V3.dist p q) (h : cross (q - p) (r - p) ≠ 0)
    (hfar : V3.dist p q / 2 < norm (r - (1 / 2 : ℝ) • (p + q))) : sphere3 p q r = sphere3 q p r := by
  have hn : nsq (cross (q - p) (r - p)) ≠ 0 := fun e => h (nsq_eq_zero.mp e)
  have e : cross (p - q) (r - q) = -cross (q - p) (r - p) := by
    ext <;> simp [cross] <;> ring
  have hn' : nsq (cross (p - q) (r - q)) = nsq (cross (q - p) (r - p)) := by rw [e]; simp [nsq, V3.dot]
  have hc : (sphere3 p q r).1 = (sphere3 q p r).1 := by
    unfold sphere3
    simp only [V3.norm_sq]
    rw [hn']
    have key : ∀ x y z w : V3, nsq (cross (q - p) (r - p)) • x + y = nsq (cross (q - p) (r - p)) • z + w →
        x + (1 / (2 * nsq (cross (q - p) (r - p)))) • ((2 : ℝ) • y) = z + (1 / (2 * nsq (cross (q - p) (r - p)))) • ((2 : ℝ) • w) := by
      intro x y z w h
      have hx := congrArg V3.x h
      have hy := congrArg V3.y h
      have hz := congrArg V3.z h
      simp only [V3.add_x, V3.add_y, V3.add_z, V3.smul_x, V3.smul_y, V3.smul_z] at hx hy hz
      ext <;> simp only [V3.add_x, V3.add_y, V3.add_z, V3.smul_x, V3.smul_y, V3.smul_z] <;> field_simp <;> linarith
    have := key p ((1 / 2 : ℝ) • (nsq (r - p) • cross (cross (q - p) (r - p)) (q - p) + nsq (q - p) • cross (cross (r - p) (q - p)) (r - p)))
      q ((1 / 2 : ℝ) • (nsq (r - q) • cross (cross (p - q) (r - q)) (p - q) + nsq (p - q) • cross (cross (r - q) (p - q)) (r - q))) (by
        ext <;> simp [nsq, V3.dot, cross] <;> ring)
    have two : ∀ v : V3, (2 : ℝ) • ((1 / 2 : ℝ) • v) = v := by intro v; ext <;> simp
    rw [two, two] at this
    exact this
  have sym : V3.dist q p = V3.dist p q := V3.norm_sub_comm q p
  have hfar' : V3.dist q p / 2 < norm (r - (1 / 2 : ℝ) • (q + p)) := by rw [sym, add_comm q p]; exact hfar
  obtain ⟨_, _, _, -, -, -, -, -, R, e1, hR, a1, a2, -⟩ := sphere3_weights h1 h2 hfar
  obtain ⟨_, _, _, -, -, -, -, -, R', e2, hR', b1, b2, -⟩ := sphere3_weights (p := q) (q := p) (s := r) (by rw [sym]; exact h2) (by rw [sym]; exact h1) hfar'
  refine Prod.ext hc ?_
  rw [e1, e2]
  rw [← hc] at b2
  have : R ^ 2 = R' ^ 2 := by rw [← a1, b2]
  rw [(sq_eq_sq₀ hR hR').mp this]


theorem sphere2_radius (p q : V3) : (sphere2 p q).2 = V3.dist p q / 2 * slack := by
  show norm ((1 / 2 : ℝ) • (p + q) - p) * slack = norm (p - q) / 2 * slack
  congr 1
  have e : (1 / 2 : ℝ) • (p + q) - p = (1 / 2 : ℝ) • (q - p) := by ext <;> simp <;> ring
  rw [e, V3.norm_smul, V3.norm_sub_comm q p, abs_of_pos (by norm_num)]
  ring

theorem labelled_swap_others {L : List V3} {z : V3 × ℝ} {p q r s : V3}
    (h : V3.dist r ((1 / 2 : ℝ) • (p + q)) ≠ V3.dist s ((1 / 2 : ℝ) • (p + q))) : labelled L z p q s r = labelled L z p q r s := by
  have e : (if norm (s - (sphere2 p q).1) < norm (r - (sphere2 p q).1) then r else s) =
      if norm (r - (sphere2 p q).1) < norm (s - (sphere2 p q).1) then s else r := by
    have h' : norm (r - (sphere2 p q).1) ≠ norm (s - (sphere2 p q).1) := h
    by_cases h1 : norm (r - (sphere2 p q).1) < norm (s - (sphere2 p q).1)
    · rw [if_pos h1, if_neg (not_lt.mpr h1.le)]
    · rw [if_neg h1, if_pos (lt_of_le_of_ne (not_lt.mp h1) (Ne.symm h'))]
  unfold labelled
  dsimp only
  rw [e]
  exact if_congr and_comm rfl rfl

theorem labelled_swap_side {L : List V3} {z : V3 × ℝ} {p q r s : V3} (hr : cross (q - p) (r - p) ≠ 0) (hs : cross (q - p) (s - p) ≠ 0)
    (h1 : V3.dist p r ≤ V3.dist p q) (h2 : V3.dist q r ≤ V3.dist p q) (h3 : V3.dist p s ≤ V3.dist p q) (h4 : V3.dist q s ≤ V3.dist p q) :
    labelled L z q p r s = labelled L z p q r s := by
  unfold labelled
  dsimp only
  rw [sphere2_comm q p]
  by_cases hin : norm (r - (sphere2 p q).1) ≤ (sphere2 p q).2 ∧ norm (s - (sphere2 p q).1) ≤ (sphere2 p q).2
  · rw [if_pos hin, if_pos hin]
  · rw [if_neg hin, if_neg hin]
    have hpos : V3.dist p q / 2 ≤ (sphere2 p q).2 := by
      rw [sphere2_radius]; exact le_slack (by have := norm_nonneg (p - q); unfold V3.dist; linarith)
    have hor : ∀ third, (third = if norm (r - (sphere2 p q).1) < norm (s - (sphere2 p q).1) then s else r) →
        sphere3 q p third = sphere3 p q third := by
      intro third ht
      have hfar : (sphere2 p q).2 < norm (third - (sphere2 p q).1) := by
        by_contra hc
        apply hin
        rw [not_lt] at hc
        split_ifs at ht with hlt <;> subst ht
        · exact ⟨hlt.le.trans hc, hc⟩
        · exact ⟨hc, (not_lt.mp hlt).trans hc⟩
      have hfar : V3.dist p q / 2 < norm (third - (1 / 2 : ℝ) • (p + q)) := lt_of_le_of_lt hpos hfar
      split_ifs at ht with hlt <;> subst ht
      · exact (sphere3_comm h3 h4 hs hfar).symm
      · exact (sphere3_comm h1 h2 hr hfar).symm
    rw [hor _ rfl]

theorem labelled_perm {L L' : List V3} (h : L.Perm L') {z : V3 × ℝ} {p q r s : V3} : labelled L z p q r s = labelled L' z p q r s := by
  unfold labelled
  simp only [h.mem_iff]

theorem volume_perm {t t' : Tet} (h : t'.toList.Perm t.toList) : |signedVolume t'| = |signedVolume t| := by
  obtain ⟨a, b, c, d⟩ := t
  obtain ⟨a', b', c', d'⟩ := t'
  replace h : [a', b', c', d'].Perm [a, b, c, d] := h
  have key : ∀ x y : ℝ, (x = y ∨ x = -y) → |x| = |y| := fun x y h => abs_eq_abs.mpr h
  apply key
  rcases perm4 h with ⟨rfl, g⟩ | ⟨rfl, g⟩ | ⟨rfl, g⟩ | ⟨rfl, g⟩ <;> clear h <;>
  rcases perm3 g with ⟨rfl, f⟩ | ⟨rfl, f⟩ | ⟨rfl, f⟩ <;> clear g <;>
  rcases perm2 f with ⟨rfl, rfl⟩ | ⟨rfl, rfl⟩ <;>
  simp only [signedVolume, cross, V3.dot, V3.sub_x, V3.sub_y, V3.sub_z] <;>
  first
  | (left; trivial)
  | (left; ring1)
  | (right; ring1)

theorem sphere4_perm {t t' : Tet} (ht : signedVolume t ≠ 0) (h : t'.toList.Perm t.toList) : sphere4 t' = sphere4 t := by
  have ht' : signedVolume t' ≠ 0 := by
    intro h0
    have := volume_perm h
    rw [h0, abs_zero] at this
    exact ht (abs_eq_zero.mp this.symm)
  have hall : ∀ x ∈ t.toList, nsq (x - (sphere4 t).1) = nsq (t.a - (sphere4 t).1) := by
    obtain ⟨h1, h2, h3⟩ := (sphere4_spec ht _).mp rfl
    simp only [Q4.toList, List.mem_cons, List.not_mem_nil, or_false, forall_eq_or_imp, forall_eq]
    exact ⟨trivial, h1, h2, h3⟩
  have hall' : ∀ x ∈ t'.toList, nsq (x - (sphere4 t).1) = nsq (t.a - (sphere4 t).1) := fun x hx => hall x (h.mem_iff.mp hx)
  simp only [Q4.toList, List.mem_cons, List.not_mem_nil, or_false, forall_eq_or_imp, forall_eq] at hall'
  obtain ⟨h0, h1, h2, h3⟩ := hall'
  have hc : (sphere4 t').1 = (sphere4 t).1 := (sphere4_spec ht' _).mpr ⟨by rw [h1, h0], by rw [h2, h0], by rw [h3, h0]⟩
  refine Prod.ext hc ?_
  show norm (t'.a - (sphere4 t').1) * slack = norm (t.a - (sphere4 t).1) * slack
  rw [hc, norm_eq_iff.mpr h0]

theorem cross_of_volume {p q r s : V3} (h : signedVolume ⟨p, q, r, s⟩ ≠ 0) : cross (q - p) (r - p) ≠ 0 ∧ cross (q - p) (s - p) ≠ 0 := by
  constructor
  · intro e
    apply h
    unfold signedVolume
    dsimp only
    rw [e]; simp [V3.dot]
  · intro e
    apply h
    have : signedVolume ⟨p, q, r, s⟩ = -((1 / 6) * (cross (q - p) (s - p)).dot (r - p)) := by
      simp only [signedVolume, cross, V3.dot, V3.sub_x, V3.sub_y, V3.sub_z]; ring
    rw [this, e]; simp [V3.dot]

/-- with a unique longest side the sphere is determined by the nodes -/
theorem sphereOf_labelled {t : Tet} {p q r s : V3} (ht : signedVolume t ≠ 0) (hp : t.toList.Perm [p, q, r, s])
    (h1 : V3.dist p r < V3.dist p q) (h2 : V3.dist p s < V3.dist p q) (h3 : V3.dist q r < V3.dist p q) (h4 : V3.dist q s < V3.dist p q)
    (h5 : V3.dist r s < V3.dist p q) (h6 : V3.dist r ((1 / 2 : ℝ) • (p + q)) ≠ V3.dist s ((1 / 2 : ℝ) • (p + q))) :
    sphereOf t = labelled [p, q, r, s] (sphere4 ⟨p, q, r, s⟩) p q r s := by
  have hz : sphere4 t = sphere4 ⟨p, q, r, s⟩ := (sphere4_perm (t' := ⟨p, q, r, s⟩) ht hp.symm).symm
  have hv : signedVolume ⟨p, q, r, s⟩ ≠ 0 := by
    intro h0
    have := volume_perm (t := ⟨p, q, r, s⟩) (t' := t) hp
    rw [h0, abs_zero] at this
    exact ht (abs_eq_zero.mp this)
  obtain ⟨c1, c2⟩ := cross_of_volume hv
  have hsw : labelled [p, q, r, s] (sphere4 ⟨p, q, r, s⟩) q p r s = labelled [p, q, r, s] (sphere4 ⟨p, q, r, s⟩) p q r s :=
    labelled_swap_side c1 c2 h1.le h3.le h2.le h4.le
  have hso : labelled [p, q, r, s] (sphere4 ⟨p, q, r, s⟩) p q s r = labelled [p, q, r, s] (sphere4 ⟨p, q, r, s⟩) p q r s :=
    labelled_swap_others h6
  have hso' : labelled [p, q, r, s] (sphere4 ⟨p, q, r, s⟩) q p s r = labelled [p, q, r, s] (sphere4 ⟨p, q, r, s⟩) q p r s :=
    labelled_swap_others (by rw [add_comm q p]; exact h6)
  have sym : ∀ u v : V3, V3.dist u v = V3.dist v u := fun u v => V3.norm_sub_comm u v
  rw [sphereOf_split, hz, labelled_perm hp]
  have hw := (split_perm t (argmax (sidesOf t))).symm.trans hp
  have hm := split_longest t
  dsimp only at hm
  generalize split t (argmax (sidesOf t)) = w at hw hm
  obtain ⟨a, b, c, d⟩ := w
  dsimp only at hw hm ⊢
  obtain ⟨m1, m2, m3, m4, m5⟩ := hm
  rcases perm4 hw with ⟨rfl, g⟩ | ⟨rfl, g⟩ | ⟨rfl, g⟩ | ⟨rfl, g⟩ <;> clear hw <;>
  rcases perm3 g with ⟨rfl, f⟩ | ⟨rfl, f⟩ | ⟨rfl, f⟩ <;> clear g <;>
  rcases perm2 f with ⟨rfl, rfl⟩ | ⟨rfl, rfl⟩ <;>
  first
  | rfl
  | exact hso
  | exact hsw
  | exact hso'.trans hsw
  | (exfalso; linarith [sym a b, sym a c, sym a d, sym b c, sym b d, sym c d])

/-- the bounding sphere of an element without ties does not depend on the order of its nodes -/
theorem sphereOf_perm {t t' : Tet} (ht : signedVolume t ≠ 0) (hn : NoTies t) (h : t'.toList.Perm t.toList) : sphereOf t' = sphereOf t := by
  obtain ⟨p, q, r, s, hp, h1, h2, h3, h4, h5, h6⟩ := hn
  have ht' : signedVolume t' ≠ 0 := by
    intro h0
    have := volume_perm h
    rw [h0, abs_zero] at this
    exact ht (abs_eq_zero.mp this.symm)
  rw [sphereOf_labelled ht hp h1 h2 h3 h4 h5 h6, sphereOf_labelled ht' (h.trans hp) h1 h2 h3 h4 h5 h6]

theorem mean4_perm {t t' : Tet} (h : t'.toList.Perm t.toList) : mean4 t' = mean4 t := by
  have := h.sum_eq
  simp only [Q4.toList, List.sum_cons, List.sum_nil, add_zero] at this
  unfold mean4
  congr 1
  rw [add_assoc, add_assoc, this, add_assoc, add_assoc]

end XRD
