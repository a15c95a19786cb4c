import Verif.Props.Order
import Verif.Props.Inside
import Verif.Lemmas.Node

/-! Property C100: the order of the four nodes of an element. -/

namespace XRD.Spec
open XRD

/-- the same four nodes, listed in some order -/
def SameNodes (e e' : Q4 ℕ) : Prop := e'.toList.Perm e.toList

end XRD.Spec

namespace XRD
open V3 M3 Fl Spec
open scoped Classical

theorem tetVolume_abs (t : Tet) : tetVolume t = |signedVolume t| := by
  have e : (M3.tr ⟨t.b - t.a, t.c - t.a, t.d - t.a⟩).det = 6 * signedVolume t := by
    simp only [signedVolume, M3.tr, M3.det, cross, V3.dot, V3.sub_x, V3.sub_y, V3.sub_z]; ring
  unfold tetVolume
  rw [e, abs_mul, abs_of_pos (by norm_num : (0 : ℝ) < 6)]
  ring

theorem same_nodes_points (coord : List V3) {e e' : Q4 ℕ} (h : SameNodes e e') :
    (e'.map fun i => coord.getD i 0).toList.Perm (e.map fun i => coord.getD i 0).toList := List.Perm.map (fun i => coord.getD i 0) h

theorem map_rel {α β : Type} {R : α → α → Prop} {l l' : List α} (h : List.Forall₂ R l l') (f : α → β) (hf : ∀ a ∈ l, ∀ b, R a b → f b = f a) :
    l'.map f = l.map f := by
  induction h with
  | nil => rfl
  | cons h1 _ ih =>
    rw [List.map_cons, List.map_cons, hf _ List.mem_cons_self _ h1, ih fun a ha => hf a (List.mem_cons_of_mem _ ha)]

/-- C100: list the four nodes of each element in another order.  The mesh can be built from the one list exactly if it can from the
other.  If in every element the longest side is unique and the two other nodes are not equally far from its middle, the polycrystal can
be built from the one exactly if it can from the other, and after any history of motions `diffract` succeeds for the one exactly if it
does for the other and reports exactly the same dictionary.  Missing: elements with ties, for which it is false
(`C100_tied_sides_fails`). -/
theorem C100_node_order_partial (x : Xfab) (coord : List V3) (enod enod' : List (Q4 ℕ)) (h : List.Forall₂ SameNodes enod enod') :
    ((∃ mesh, TetraMesh.new coord enod = .ok mesh) ↔ ∃ mesh', TetraMesh.new coord enod' = .ok mesh') ∧
    ((∀ t ∈ elements coord enod, NoTies t) →
      ∀ mesh mesh', TetraMesh.new coord enod = .ok mesh → TetraMesh.new coord enod' = .ok mesh' →
      ∀ (o s : MatArg) (ph : PhasesArg) (map : Option (List ℝ)),
      ((∃ p, Polycrystal.new x mesh o s ph map = .ok p) ↔ ∃ q, Polycrystal.new x mesh' o s ph map = .ok q) ∧
      ∀ p q, Polycrystal.new x mesh o s ph map = .ok p → Polycrystal.new x mesh' o s ph map = .ok q →
        ∀ (hist : List (Motion × ℝ)) (x2 : Xfab) (b : Beam) (m : Motion) (lo hi : ℝ) (det : Option Detector),
          ((∃ r, (p.transforms hist).diffract x2 b m lo hi det = .ok r) ↔ ∃ r, (q.transforms hist).diffract x2 b m lo hi det = .ok r) ∧
          ∀ d d' p1 q1, (p.transforms hist).diffract x2 b m lo hi det = .ok (d, p1) →
            (q.transforms hist).diffract x2 b m lo hi det = .ok (d', q1) → d' = d) := by
  have hel : List.Forall₂ (fun t t' : Tet => t'.toList.Perm t.toList) (elements coord enod) (elements coord enod') :=
    forall₂_map_both (R := SameNodes) (S := fun t t' : Tet => t'.toList.Perm t.toList) (fun _ _ h => same_nodes_points coord h) h
  have hvol : (elements coord enod').map (fun t => |signedVolume t|) = (elements coord enod).map fun t => |signedVolume t| :=
    map_rel hel _ fun _ _ _ h => volume_perm h
  refine ⟨?_, ?_⟩
  · have h1 : (∀ e ∈ enod, ∀ i ∈ e.toList, i < coord.length) ↔ ∀ e ∈ enod', ∀ i ∈ e.toList, i < coord.length := by
      clear hel hvol
      induction h with
      | nil => simp
      | cons h1 _ ih => simp only [List.forall_mem_cons, ih, h1.mem_iff]
    have h2 : (∀ t ∈ elements coord enod, signedVolume t ≠ 0) ↔ ∀ t ∈ elements coord enod', signedVolume t ≠ 0 := by
      have key : ∀ l : List Tet, (∀ t ∈ l, signedVolume t ≠ 0) ↔ ∀ v ∈ l.map (fun t => |signedVolume t|), v ≠ 0 := by
        intro l
        simp [List.mem_map, abs_eq_zero]
      rw [key, key, hvol]
    unfold TetraMesh.new
    simp only [h1, h2]
    split_ifs <;> simp
  · intro hn mesh mesh' hmesh hmesh' o s ph map
    obtain ⟨rfl, -, hv⟩ := TetraMesh.new_ok hmesh
    obtain ⟨rfl, -, -⟩ := TetraMesh.new_ok hmesh'
    refine same_dict x (List.Perm.refl _) h.length_eq.symm ?_ ?_ ?_ o s ph map
    · simp only [show (tetVolume : Tet → ℝ) = fun t => |signedVolume t| from funext tetVolume_abs]; exact hvol
    · exact map_rel hel _ fun t ht t' h => by rw [sphereOf_perm (hv t ht) (hn t ht) h]
    · exact map_rel hel _ fun _ _ _ h => mean4_perm h

/-! ### an element with two longest sides -/

/-- the nodes -/
def tiedCoord : List V3 := [⟨0, 0, 0⟩, ⟨1, 0, 0⟩, ⟨-1, 1, 0⟩, ⟨1, 2, 1⟩]
/-- listed so that the side from node 0 to node 3 is found first -/
def tied1 : Tet := ⟨⟨0, 0, 0⟩, ⟨1, 2, 1⟩, ⟨1, 0, 0⟩, ⟨-1, 1, 0⟩⟩
/-- listed so that the side from node 2 to node 3 is found first -/
def tied2 : Tet := ⟨⟨-1, 1, 0⟩, ⟨1, 2, 1⟩, ⟨1, 0, 0⟩, ⟨0, 0, 0⟩⟩

theorem dist_le_of_nsq {a b c d : V3} (h : nsq (a - b) ≤ nsq (c - d)) : V3.dist a b ≤ V3.dist c d := by
  unfold V3.dist V3.norm; exact Real.sqrt_le_sqrt h

theorem norm_le_mul {a b : V3} {k : ℝ} (hk : 0 ≤ k) : norm a ≤ norm b * k ↔ nsq a ≤ nsq b * k ^ 2 := by
  rw [← abs_of_nonneg (norm_nonneg a), ← abs_of_nonneg (mul_nonneg (norm_nonneg b) hk), ← sq_le_sq, mul_pow, V3.norm_sq, V3.norm_sq]

theorem tied1_side : argmax (sidesOf tied1) = 0 := by
  apply argmax_zero
  intro i
  simp only [sidesOf, List.getD_cons_zero]
  match i with
  | 0 => exact le_refl _
  | 1 => exact dist_le_of_nsq (by norm_num [tied1, nsq, V3.dot])
  | 2 => exact dist_le_of_nsq (by norm_num [tied1, nsq, V3.dot])
  | 3 => exact dist_le_of_nsq (by norm_num [tied1, nsq, V3.dot])
  | 4 => exact dist_le_of_nsq (by norm_num [tied1, nsq, V3.dot])
  | 5 => exact dist_le_of_nsq (by norm_num [tied1, nsq, V3.dot])
  | k + 6 => simp only [List.getD_cons_succ, List.getD_nil]; exact (norm_nonneg (tied1.b - tied1.a) : 0 ≤ V3.dist tied1.b tied1.a)

theorem tied2_side : argmax (sidesOf tied2) = 0 := by
  apply argmax_zero
  intro i
  simp only [sidesOf, List.getD_cons_zero]
  match i with
  | 0 => exact le_refl _
  | 1 => exact dist_le_of_nsq (by norm_num [tied2, nsq, V3.dot])
  | 2 => exact dist_le_of_nsq (by norm_num [tied2, nsq, V3.dot])
  | 3 => exact dist_le_of_nsq (by norm_num [tied2, nsq, V3.dot])
  | 4 => exact dist_le_of_nsq (by norm_num [tied2, nsq, V3.dot])
  | 5 => exact dist_le_of_nsq (by norm_num [tied2, nsq, V3.dot])
  | k + 6 => simp only [List.getD_cons_succ, List.getD_nil]; exact (norm_nonneg (tied2.b - tied2.a) : 0 ≤ V3.dist tied2.b tied2.a)

theorem lt_of_nsq_lt {a b : V3} (h : nsq a < nsq b) : norm a < norm b := by
  unfold V3.norm; exact Real.sqrt_lt_sqrt (nsq_nonneg a) h

theorem tied1_volume : signedVolume tied1 ≠ 0 := by norm_num [signedVolume, tied1, cross, V3.dot]
theorem tied2_volume : signedVolume tied2 ≠ 0 := by norm_num [signedVolume, tied2, cross, V3.dot]

theorem tied1_sphere : (sphereOf tied1).1 = ⟨1/2, 3/2, -1/2⟩ := by
  have h4 : (sphere4 tied1).1 = ⟨1/2, 3/2, -1/2⟩ := by
    rw [sphere4_spec tied1_volume]
    norm_num [tied1, nsq, V3.dot]
  rw [sphereOf_split, tied1_side]
  unfold labelled
  simp only [split]
  have hm : (sphere2 tied1.a tied1.b).1 = ⟨1/2, 1, 1/2⟩ := by
    show (1 / 2 : ℝ) • (tied1.a + tied1.b) = _
    ext <;> norm_num [tied1]
  have hr : (sphere2 tied1.a tied1.b).2 = norm (⟨1/2, 1, 1/2⟩ - tied1.a) * slack := by
    show norm ((1 / 2 : ℝ) • (tied1.a + tied1.b) - tied1.a) * slack = _
    rw [show (1 / 2 : ℝ) • (tied1.a + tied1.b) = ⟨1/2, 1, 1/2⟩ from hm]
  rw [hm, hr, if_pos (lt_of_nsq_lt (by norm_num [tied1, nsq, V3.dot]))]
  have h3 : sphere3 tied1.a tied1.b tied1.d = (⟨2/11, 13/11, 5/11⟩, norm (⟨2/11, 13/11, 5/11⟩ : V3) * slack) := by
    have e : (1 / (2 * nsq (cross (tied1.b - tied1.a) (tied1.d - tied1.a)))) •
        (nsq (tied1.d - tied1.a) • cross (cross (tied1.b - tied1.a) (tied1.d - tied1.a)) (tied1.b - tied1.a) +
          nsq (tied1.b - tied1.a) • cross (cross (tied1.d - tied1.a) (tied1.b - tied1.a)) (tied1.d - tied1.a)) = ⟨2/11, 13/11, 5/11⟩ := by
      ext <;> norm_num [tied1, cross, nsq, V3.dot]
    unfold sphere3
    simp only [V3.norm_sq]
    rw [e]
    refine Prod.ext ?_ rfl
    ext <;> norm_num [tied1]
  rw [h3, if_neg, if_neg]
  · exact h4
  · intro h
    have h := h tied1.c (by simp [Q4.toList])
    dsimp only at h
    rw [norm_le_mul (by unfold slack; norm_num)] at h
    norm_num [tied1, nsq, V3.dot, slack] at h
  · rintro ⟨-, h⟩
    rw [norm_le_mul (by unfold slack; norm_num)] at h
    norm_num [tied1, nsq, V3.dot, slack] at h

theorem tied2_sphere : (sphereOf tied2).1 = ⟨2/7, 15/14, 5/14⟩ := by
  rw [sphereOf_split, tied2_side]
  unfold labelled
  simp only [split]
  have hm : (sphere2 tied2.a tied2.b).1 = ⟨0, 3/2, 1/2⟩ := by
    show (1 / 2 : ℝ) • (tied2.a + tied2.b) = _
    ext <;> norm_num [tied2]
  have hr : (sphere2 tied2.a tied2.b).2 = norm (⟨0, 3/2, 1/2⟩ - tied2.a) * slack := by
    show norm ((1 / 2 : ℝ) • (tied2.a + tied2.b) - tied2.a) * slack = _
    rw [show (1 / 2 : ℝ) • (tied2.a + tied2.b) = ⟨0, 3/2, 1/2⟩ from hm]
  have hnot : ¬ norm (tied2.c - ⟨0, 3/2, 1/2⟩) < norm (tied2.d - ⟨0, 3/2, 1/2⟩) :=
    not_lt.mpr (lt_of_nsq_lt (by norm_num [tied2, nsq, V3.dot])).le
  rw [hm, hr, if_neg hnot]
  have h3 : sphere3 tied2.a tied2.b tied2.c = (⟨2/7, 15/14, 5/14⟩, norm (⟨9/7, 1/14, 5/14⟩ : V3) * slack) := by
    have e : (1 / (2 * nsq (cross (tied2.b - tied2.a) (tied2.c - tied2.a)))) •
        (nsq (tied2.c - tied2.a) • cross (cross (tied2.b - tied2.a) (tied2.c - tied2.a)) (tied2.b - tied2.a) +
          nsq (tied2.b - tied2.a) • cross (cross (tied2.c - tied2.a) (tied2.b - tied2.a)) (tied2.c - tied2.a)) = ⟨9/7, 1/14, 5/14⟩ := by
      ext <;> norm_num [tied2, cross, nsq, V3.dot]
    unfold sphere3
    simp only [V3.norm_sq]
    rw [e]
    refine Prod.ext ?_ rfl
    ext <;> norm_num [tied2]
  rw [h3, if_neg, if_pos]
  · intro x hx
    dsimp only
    rw [norm_le_mul (by unfold slack; norm_num)]
    simp only [Q4.toList, List.mem_cons, List.not_mem_nil, or_false] at hx
    rcases hx with rfl | rfl | rfl | rfl <;> norm_num [tied2, nsq, V3.dot, slack]
  · rintro ⟨h, -⟩
    rw [norm_le_mul (by unfold slack; norm_num)] at h
    norm_num [tied2, nsq, V3.dot, slack] at h

/-- the element in the first order -/
noncomputable def tiedMesh1 : TetraMesh := TetraMesh.ofData tiedCoord [⟨0, 3, 1, 2⟩]
/-- the element in the second order -/
noncomputable def tiedMesh2 : TetraMesh := TetraMesh.ofData tiedCoord [⟨2, 3, 1, 0⟩]

theorem tiedMesh1_new : TetraMesh.new tiedCoord [⟨0, 3, 1, 2⟩] = .ok tiedMesh1 := by
  unfold TetraMesh.new
  rw [if_pos, if_pos]
  · rfl
  · intro t ht
    have : t = tied1 := List.mem_singleton.mp ht
    rw [this]; exact tied1_volume
  · decide

theorem tiedMesh2_new : TetraMesh.new tiedCoord [⟨2, 3, 1, 0⟩] = .ok tiedMesh2 := by
  unfold TetraMesh.new
  rw [if_pos, if_pos]
  · rfl
  · intro t ht
    have : t = tied2 := List.mem_singleton.mp ht
    rw [this]; exact tied2_volume
  · decide

/-- height of the source of the peaks of the crystal of the scene on such a mesh -/
theorem onMesh_height {mesh : TetraMesh} {sc : V3} (hs : mesh.espherecentroids = [sc]) {t : ℝ} {v : ℝ} {w : Fl}
    (h : Has peakColumns (row24 { onMesh mesh with phases := [setPhase] }.crystal demoBeam demoZ 0 0 ⟨1, 0, 0⟩ 1 t ++ [fin v]) "Source_z" w) :
    w = fin sc.z := by
  obtain ⟨i, h1, h2⟩ := h
  have hi : i = 18 := by
    have hi' : i < 25 := by
      by_contra hc
      rw [List.getElem?_eq_none (by show 25 ≤ i; omega)] at h1
      cases h1
    interval_cases i <;> first | rfl | (exfalso; revert h1; decide)
  subst hi
  have hcr : (Polycrystal.crystal { onMesh mesh with phases := [setPhase] }).sphereCentroids = [sc] := hs
  simp [row24, hcr, demoZ_z] at h2
  exact h2.symm

theorem tied_nodes : SameNodes ⟨0, 3, 1, 2⟩ ⟨2, 3, 1, 0⟩ := by show List.Perm [2, 3, 1, 0] [0, 3, 1, 2]; decide

/-- C100 is false of elements with two longest sides: one element, its nodes listed in two orders; both samples can be built and both
show peaks, but every peak of the one comes from another height than every peak of the other. -/
theorem C100_tied_sides_fails : ∃ (x : Xfab) (coord : List V3) (e e' : Q4 ℕ) (mesh mesh' : TetraMesh) (ph : Phase) (p q : Polycrystal)
    (b : Beam) (m : Motion) (d d' : PeaksDict) (p1 q1 : Polycrystal), SameNodes e e' ∧
    TetraMesh.new coord [e] = .ok mesh ∧ TetraMesh.new coord [e'] = .ok mesh' ∧
    Polycrystal.new x mesh (.one 1) (.one 0) (.one ph) (some [0]) = .ok p ∧
    Polycrystal.new x mesh' (.one 1) (.one 0) (.one ph) (some [0]) = .ok q ∧
    p.diffract x b m 0 (Real.pi / 2) none = .ok (d, p1) ∧ q.diffract x b m 0 (Real.pi / 2) none = .ok (d', q1) ∧
    d.peaks ≠ [] ∧ d'.peaks ≠ [] ∧
    ∀ row ∈ d.peaks, ∀ row' ∈ d'.peaks, ∀ v, Has d.columns row "Source_z" v → ¬ Has d'.columns row' "Source_z" v := by
  have s1 : tiedMesh1.espherecentroids = [⟨1/2, 3/2, -1/2⟩] := by
    show [(sphereOf tied1).1] = _; rw [tied1_sphere]
  have s2 : tiedMesh2.espherecentroids = [⟨2/7, 15/14, 5/14⟩] := by
    show [(sphereOf tied2).1] = _; rw [tied2_sphere]
  obtain ⟨d, hd, hcol, t, -, hpk⟩ := onMesh_diffract tiedMesh1 _ s1 (by norm_num [nsq, V3.dot]) _ rfl
  obtain ⟨d', hd', hcol', t', -, hpk'⟩ := onMesh_diffract tiedMesh2 _ s2 (by norm_num [nsq, V3.dot]) _ rfl
  refine ⟨sceneX, tiedCoord, ⟨0, 3, 1, 2⟩, ⟨2, 3, 1, 0⟩, _, _, scenePhase, _, _, demoBeam, demoZ, d, d', _, _, tied_nodes, tiedMesh1_new,
    tiedMesh2_new, onMesh_new _ rfl, onMesh_new _ rfl, hd, hd', by rw [hpk]; simp, by rw [hpk']; simp, ?_⟩
  intro row hrow row' hrow' v hv hv'
  rw [hcol] at hv
  rw [hcol'] at hv'
  rw [hpk] at hrow
  rw [hpk'] at hrow'
  have e1 : v = fin (-1/2) := by
    simp only [List.mem_cons, List.not_mem_nil, or_false] at hrow
    rcases hrow with rfl | rfl <;> exact onMesh_height s1 hv
  have e2 : v = fin (5/14) := by
    simp only [List.mem_cons, List.not_mem_nil, or_false] at hrow'
    rcases hrow' with rfl | rfl <;> exact onMesh_height s2 hv'
  rw [e1] at e2
  simp only [Fl.fin.injEq] at e2
  norm_num at e2

/-- C100 is not vacuous: an element without ties, two orders of its nodes -/
example : NoTies ⟨⟨0, 0, 0⟩, ⟨4, 0, 0⟩, ⟨1, 1, 0⟩, ⟨1, 0, 2⟩⟩ ∧ SameNodes ⟨0, 1, 2, 3⟩ ⟨3, 1, 0, 2⟩ ∧
    ∃ mesh, TetraMesh.new [⟨0, 0, 0⟩, ⟨4, 0, 0⟩, ⟨1, 1, 0⟩, ⟨1, 0, 2⟩] [⟨0, 1, 2, 3⟩] = .ok mesh := by
  refine ⟨⟨⟨0, 0, 0⟩, ⟨4, 0, 0⟩, ⟨1, 1, 0⟩, ⟨1, 0, 2⟩, List.Perm.refl _, ?_, ?_, ?_, ?_, ?_, ?_⟩, by show List.Perm [3, 1, 0, 2] [0, 1, 2, 3]; decide, ?_⟩
  · exact lt_of_nsq_lt (by norm_num [nsq, V3.dot])
  · exact lt_of_nsq_lt (by norm_num [nsq, V3.dot])
  · exact lt_of_nsq_lt (by norm_num [nsq, V3.dot])
  · exact lt_of_nsq_lt (by norm_num [nsq, V3.dot])
  · exact lt_of_nsq_lt (by norm_num [nsq, V3.dot])
  · exact (lt_of_nsq_lt (by norm_num [nsq, V3.dot])).ne
  · unfold TetraMesh.new
    rw [if_pos, if_pos]
    · exact ⟨_, rfl⟩
    · intro t ht
      simp [elements, Q4.map] at ht
      subst ht
      norm_num [signedVolume, cross, V3.dot]
    · decide

end XRD
