import Verif.Props.SubSample
import Verif.Lemmas.PermRel

/-! Property C99: the order in which the elements of the mesh are listed does not matter. -/

namespace XRD.Spec
open XRD

/-- `L'` lists the entries of `L` in another order: entry `k` of `L'` is entry `js[k]` of `L` -/
def Reordered {α : Type} (js : List ℕ) (L L' : List α) : Prop := js.Perm (List.range L.length) ∧ Picked js L L'

/-- an orientation or strain argument for the reordered elements -/
inductive ReorderedMat (js : List ℕ) : MatArg → MatArg → Prop
  | one (U : M3) : ReorderedMat js (.one U) (.one U)
  | many {L L' : List M3} (h : Reordered js L L') : ReorderedMat js (.many L) (.many L')

end XRD.Spec

namespace XRD
open V3 M3 Fl Spec
open scoped Classical

theorem Spec.Reordered.perm {α : Type} {js : List ℕ} {L L' : List α} (h : Reordered js L L') : L'.Perm L := by
  have h1 : (L'.map some).Perm (L.map some) := by
    rw [h.2]
    refine (h.1.map _).trans (List.Perm.of_eq ?_)
    apply List.ext_getElem
    · simp
    · intro n h1 h2
      have : n < L.length := by simpa using h2
      simp [this]
  exact (List.map_perm_map_iff (Option.some_injective _)).mp h1

/-- the order that undoes `js` -/
def undo (js : List ℕ) : List ℕ := (List.range js.length).map fun j => js.idxOf j

theorem undo_perm {js : List ℕ} {n : ℕ} (h : js.Perm (List.range n)) : (undo js).Perm (List.range n) := by
  have hn : js.length = n := by rw [h.length_eq]; simp
  have hnd : js.Nodup := h.nodup_iff.mpr List.nodup_range
  have hmem : ∀ j, j < n → j ∈ js := fun j hj => h.mem_iff.mpr (List.mem_range.mpr hj)
  unfold undo
  rw [hn, List.perm_ext_iff_of_nodup]
  · intro a
    simp only [List.mem_map, List.mem_range]
    constructor
    · rintro ⟨j, hj, rfl⟩; rw [← hn]; exact List.idxOf_lt_length_iff.mpr (hmem j hj)
    · intro ha
      refine ⟨js[a]'(by omega), ?_, ?_⟩
      · exact List.mem_range.mp (h.mem_iff.mp (List.getElem_mem _))
      · exact hnd.idxOf_getElem a (by omega)
  · refine List.Nodup.map_on ?_ List.nodup_range
    intro a ha b hb hab
    rw [List.mem_range] at ha hb
    exact (List.idxOf_inj (hmem a ha)).mp hab
  · exact List.nodup_range

theorem Spec.Reordered.undo {α : Type} {js : List ℕ} {L L' : List α} (h : Reordered js L L') : Reordered (undo js) L' L := by
  have hl : L'.length = L.length := h.perm.length_eq
  have hn : js.length = L.length := by rw [h.1.length_eq]; simp
  refine ⟨by rw [hl]; exact undo_perm h.1, ?_⟩
  unfold Picked XRD.undo
  apply List.ext_getElem
  · simp [hn]
  · intro j h1 h2
    have hj : j < L.length := by simpa using h1
    have hm : j ∈ js := h.1.mem_iff.mpr (List.mem_range.mpr hj)
    have hi : js.idxOf j < js.length := List.idxOf_lt_length_iff.mpr hm
    have hk : js[js.idxOf j]? = some j := by
      rw [List.getElem?_eq_getElem hi, List.getElem_idxOf]
    obtain ⟨a, h3, h4⟩ := h.2.get hk
    simp only [List.getElem_map, List.getElem_range]
    rw [h4, ← h3, List.getElem?_eq_getElem hj]

theorem Spec.ReorderedMat.picked {js : List ℕ} {o o' : MatArg} (h : ReorderedMat js o o') : PickedMat js o o' := by
  cases h with
  | one U => exact .one U
  | many h => exact .many h.2

theorem Spec.ReorderedMat.undo {js : List ℕ} {o o' : MatArg} (h : ReorderedMat js o o') : ReorderedMat (undo js) o' o := by
  cases h with
  | one U => exact .one U
  | many h => exact .many h.undo

theorem rel_undo {js : List ℕ} {m m' : Option (List ℝ)} (h : Option.Rel (Reordered js) m m') : Option.Rel (Reordered (undo js)) m' m := by
  cases h with
  | none => exact .none
  | some h => exact .some h.undo

theorem rel_picked {js : List ℕ} {m m' : Option (List ℝ)} (h : Option.Rel (Reordered js) m m') : Option.Rel (Picked js) m m' := by
  cases h with
  | none => exact .none
  | some h => exact .some h.2

theorem meanV_perm {l l' : List V3} (h : l.Perm l') : meanV l = meanV l' := by
  unfold meanV; rw [h.length_eq, h.sum_eq]

theorem mesh_elements {coord : List V3} {enod enod' : List (Q4 ℕ)} {js : List ℕ} (h : Picked js enod enod') {mesh : TetraMesh}
    (hm : TetraMesh.new coord enod = .ok mesh) : ∃ mesh', TetraMesh.new coord enod' = .ok mesh' := by
  have hsub : ∀ a ∈ enod', a ∈ enod := by
    intro a ha
    obtain ⟨k, hk⟩ := List.mem_iff_getElem?.mp ha
    have hlt : k < js.length := by rw [← h.length]; exact (List.getElem?_eq_some_iff.mp hk).1
    obtain ⟨b, h1, h2⟩ := h.get (List.getElem?_eq_getElem hlt)
    rw [hk] at h2
    obtain rfl := Option.some.inj h2
    exact List.mem_of_getElem? h1
  unfold TetraMesh.new at hm ⊢
  split_ifs at hm with c1 c2
  rw [if_pos fun e h => c1 e (hsub e h), if_pos]
  · exact ⟨_, rfl⟩
  · intro t ht
    apply c2
    unfold elements at ht ⊢
    obtain ⟨e, h, rfl⟩ := List.mem_map.mp ht
    exact List.mem_map.mpr ⟨e, hsub e h, rfl⟩

/-- grains of a phase in the reordered sample -/
theorem reordered_grains {js : List ℕ} {pm pm' : List ℝ} (h : Picked js pm pm') {n : ℕ} (hj : js.Perm (List.range n)) (i : ℕ)
    (hlt : ∀ e ∈ grainIndices pm i, e < n) :
    (grainIndices pm i).Perm ((grainIndices pm' i).map fun k => js.getD k 0) := by
  have hnd : js.Nodup := hj.nodup_iff.mpr List.nodup_range
  rw [List.perm_ext_iff_of_nodup]
  · intro e
    rw [mem_grainIndices, List.mem_map]
    constructor
    · intro h1
      have h2 : e ∈ js := hj.mem_iff.mpr (List.mem_range.mpr (hlt e (mem_grainIndices.mpr h1)))
      obtain ⟨k, hk⟩ := List.mem_iff_getElem?.mp h2
      obtain ⟨a, h3, h4⟩ := h.get hk
      refine ⟨k, mem_grainIndices.mpr ?_, by rw [List.getD_eq_getElem?_getD, hk]; rfl⟩
      rw [h4, ← h3, h1]
    · rintro ⟨k, hk, rfl⟩
      rw [mem_grainIndices] at hk
      have hlt : k < js.length := by rw [← h.length]; exact (List.getElem?_eq_some_iff.mp hk).1
      have hk2 : js[k]? = some js[k] := List.getElem?_eq_getElem hlt
      obtain ⟨a, h3, h4⟩ := h.get hk2
      rw [List.getD_eq_getElem?_getD, hk2]
      dsimp only [Option.getD_some]
      rw [h3, ← h4, hk]
  · exact List.nodup_range.filter _
  · refine List.Nodup.map_on ?_ (List.nodup_range.filter _)
    intro a ha b hb hab
    replace ha := mem_grainIndices.mp ha
    replace hb := mem_grainIndices.mp hb
    have ha' : a < js.length := by rw [← h.length]; exact (List.getElem?_eq_some_iff.mp ha).1
    have hb' : b < js.length := by rw [← h.length]; exact (List.getElem?_eq_some_iff.mp hb).1
    rw [List.getD_eq_getElem?_getD, List.getD_eq_getElem?_getD, List.getElem?_eq_getElem ha', List.getElem?_eq_getElem hb'] at hab
    exact (hnd.getElem_inj_iff).mp hab

/-- `r` is the row of the first crystal for the row `r'` of the reordered one -/
def MixedRow (js : List ℕ) (r r' : List ℝ) : Prop := r = renum js r' ∧ r'.length = 10 ∧ ∃ k j : ℕ, colD r' 0 = (k : ℝ) ∧ js[k]? = some j

theorem order_rows {js : List ℕ} {c c' : Crystal} (h : PartCrystal js c c') {n : ℕ} (hj : js.Perm (List.range n))
    (hlt : ∀ i < c.phases.length, ∀ e ∈ grainIndices c.phaseMap i, e < n) (b : Beam) (m : Motion) :
    PermRel (MixedRow js) (allPhaseRows c b m) (allPhaseRows c' b m) := by
  have hshape : ∀ r ∈ allPhaseRows c' b m, MixedRow js (renum js r) r := fun r hr => ⟨rfl, sub_rows_shape h hr⟩
  have hperm : (allPhaseRows c b m).Perm ((allPhaseRows c' b m).map (renum js)) := by
    unfold allPhaseRows
    rw [h.phases, List.map_flatMap]
    apply List.Perm.flatMap_left
    intro i hi
    rw [List.mem_range] at hi
    cases hp : c.phases[i]? with
    | none => exact List.Perm.refl _
    | some ph =>
      dsimp only
      rw [phaseRows_elems, phaseRows_elems, List.map_append]
      have key : ∀ pick : Fl × Fl → Fl, ((grainIndices c.phaseMap i).flatMap (elemRows pick c b m i ph)).Perm
          (((grainIndices c'.phaseMap i).flatMap (elemRows pick c' b m i ph)).map (renum js)) := by
        intro pick
        refine ((reordered_grains h.map hj i (hlt i hi)).flatMap_right _).trans (List.Perm.of_eq ?_)
        rw [List.flatMap_map, List.map_flatMap]
        apply List.flatMap_congr
        intro k hk
        rw [mem_grainIndices] at hk
        have hlt : k < js.length := by rw [← h.map.length]; exact (List.getElem?_eq_some_iff.mp hk).1
        have hk2 : js[k]? = some js[k] := List.getElem?_eq_getElem hlt
        rw [List.getD_eq_getElem?_getD, hk2]
        exact sub_elemRows h pick i ph hk2
      exact (key _).append (key _)
  refine PermRel.of_perm hperm ?_
  rw [List.forall₂_map_left_iff, List.forall₂_same]
  exact hshape

theorem order_kept {js : List ℕ} {c c' : Crystal} (h : PartCrystal js c c') {n : ℕ} (hj : js.Perm (List.range n))
    (hlt : ∀ i < c.phases.length, ∀ e ∈ grainIndices c.phaseMap i, e < n) (b : Beam) (m : Motion) :
    PermRel (PartRow js) (keptRows c b m) (keptRows c' b m) := by
  refine ((order_rows h hj hlt b m).map ?_).filter ?_
  · rintro r r' ⟨rfl, hl, k, j, h0, hk⟩
    obtain ⟨e1, e2, e3⟩ := sub_extendRow h (b := b) (m := m) hl h0 hk
    exact ⟨k, j, hk, e1, e2, e3⟩
  · rintro r r' ⟨k, j, -, rfl, -⟩
    exact illuminated_set0 b r' _

/-- the mass point of the mesh does not depend on the order, through all motions -/
theorem order_centroid {p q : Polycrystal} (h : q.meshLab.centroid = p.meshLab.centroid) (hist : List (Motion × ℝ)) :
    (q.transforms hist).meshLab.centroid = (p.transforms hist).meshLab.centroid := by
  induction hist generalizing p q with
  | nil => exact h
  | cons a hist ih =>
    refine ih (p := p.transform a.1 a.2) (q := q.transform a.1 a.2) ?_
    show a.1.call1 q.meshLab.centroid a.2 = a.1.call1 p.meshLab.centroid a.2
    rw [h]

theorem order_facts {p : Polycrystal} (hist : List (Motion × ℝ)) :
    (p.transforms hist).phases = p.phases ∧ (p.transforms hist).phaseMap = p.phaseMap ∧ (p.transforms hist).mapKind = p.mapKind := by
  induction hist generalizing p with
  | nil => exact ⟨rfl, rfl, rfl⟩
  | cons a hist ih => exact ih (p := p.transform a.1 a.2)

/-- C99: list the elements of the mesh in another order, together with their orientations, strains and phase numbers.  The mesh can be
built from the one list exactly if it can from the other, likewise the polycrystal; and after any history of motions, for every beam,
scan, Bragg limits and detector, `diffract` succeeds for the one exactly if it does for the other and reports the same peaks, up to their
order, the running numbers and the numbers of the elements, which are those of the new order. -/
theorem C99_element_order (x : Xfab) (coord : List V3) (enod enod' : List (Q4 ℕ)) (js : List ℕ) (he : Reordered js enod enod')
    (o o' s s' : MatArg) (ho : ReorderedMat js o o') (hs : ReorderedMat js s s') (ph : PhasesArg) (map map' : Option (List ℝ))
    (hm : Option.Rel (Reordered js) map map') :
    ((∃ mesh, TetraMesh.new coord enod = .ok mesh) ↔ ∃ mesh', TetraMesh.new coord enod' = .ok mesh') ∧
    ∀ mesh mesh', TetraMesh.new coord enod = .ok mesh → TetraMesh.new coord enod' = .ok mesh' →
      ((∃ p, Polycrystal.new x mesh o s ph map = .ok p) ↔ ∃ q, Polycrystal.new x mesh' o' s' ph map' = .ok q) ∧
      ∀ p q, Polycrystal.new x mesh o s ph map = .ok p → Polycrystal.new x mesh' o' s' ph map' = .ok q →
        ∀ (hist : List (Motion × ℝ)) (x2 : Xfab) (b : Beam) (m : Motion) (lo hi : ℝ) (det : Option Detector),
          ((∃ r, (p.transforms hist).diffract x2 b m lo hi det = .ok r) ↔ ∃ r, (q.transforms hist).diffract x2 b m lo hi det = .ok r) ∧
          ∀ d d' p1 q1, (p.transforms hist).diffract x2 b m lo hi det = .ok (d, p1) →
            (q.transforms hist).diffract x2 b m lo hi det = .ok (d', q1) →
            d'.columns = d.columns ∧ ∃ l, List.Forall₂ (SameEventPart d.columns js) d.peaks l ∧ l.Perm d'.peaks := by
  refine ⟨⟨fun ⟨_, h⟩ => mesh_elements he.2 h, fun ⟨_, h⟩ => mesh_elements he.undo.2 h⟩, ?_⟩
  intro mesh mesh' hmesh hmesh'
  refine ⟨⟨?_, ?_⟩, ?_⟩
  · rintro ⟨p, hp⟩
    obtain ⟨mesh2, q, h1, h2, -⟩ := sub_new he.2 hmesh ho.picked hs.picked (rel_picked hm) hp
    rw [hmesh'] at h1
    obtain rfl := Except.ok.inj h1
    exact ⟨q, h2⟩
  · rintro ⟨q, hq⟩
    obtain ⟨mesh2, p, h1, h2, -⟩ := sub_new he.undo.2 hmesh' ho.undo.picked hs.undo.picked (rel_picked (rel_undo hm)) hq
    rw [hmesh] at h1
    obtain rfl := Except.ok.inj h1
    exact ⟨p, h2⟩
  intro p q hp hq hist x2 b m lo hi det
  obtain ⟨mesh2, q2, h1, h2, h3⟩ := sub_new he.2 hmesh ho.picked hs.picked (rel_picked hm) hp
  rw [hmesh'] at h1
  obtain rfl := Except.ok.inj h1
  rw [hq] at h2
  obtain rfl := Except.ok.inj h2
  have hsub := h3.transforms hist
  -- the centroid
  have hcen : q.meshLab.centroid = p.meshLab.centroid := by
    obtain ⟨-, -, -, -, -, -, -, -, -, rfl⟩ := Polycrystal.new_ok hp
    obtain ⟨-, -, -, -, -, -, -, -, -, rfl⟩ := Polycrystal.new_ok hq
    dsimp only
    obtain ⟨rfl, -, -⟩ := TetraMesh.new_ok hmesh
    obtain ⟨rfl, -, -⟩ := TetraMesh.new_ok hmesh'
    exact meanV_perm ((he.perm.map _).map _)
  have hcen := order_centroid hcen hist
  have hn : ∀ i < p.phases.length, ∀ e ∈ grainIndices p.phaseMap i, e < enod.length := by
    obtain ⟨U, S, kind, pm, eB, -, -, -, heB, rfl⟩ := Polycrystal.new_ok hp
    obtain ⟨rfl, -, -⟩ := TetraMesh.new_ok hmesh
    intro i hi e hei
    by_contra hge
    unfold instantiateEB at heB
    rw [if_pos ⟨i, hi, e, hei, not_lt.mp hge⟩] at heB
    cases heB
  obtain ⟨f1, f2, f3⟩ := order_facts (p := p) hist
  rw [← f1, ← f2] at hn
  generalize p.transforms hist = P at hsub hcen hn
  generalize q.transforms hist = Q at hsub hcen
  have hlim : Q.limits b lo hi det = P.limits b lo hi det := by
    cases det with
    | none => rfl
    | some D =>
      unfold Polycrystal.limits Polycrystal.braggBounds Polycrystal.sourcePoint
      dsimp only
      rw [hsub.coord, hcen]
  have hcr := fun lo hi => hsub.crystal x2 b.wavelength lo hi
  have hnlt : ∀ lo hi, ∀ i < (P.setupPhases x2 b.wavelength lo hi).crystal.phases.length,
      ∀ e ∈ grainIndices (P.setupPhases x2 b.wavelength lo hi).crystal.phaseMap i, e < enod.length := by
    intro lo hi i hi' e he
    refine hn i ?_ e he
    have : (P.setupPhases x2 b.wavelength lo hi).crystal.phases.length = P.phases.length := by
      show (P.phases.map _).length = _
      simp
    omega
  have hkind : ∀ lo hi, (Q.setupPhases x2 b.wavelength lo hi).crystal.mapKind = (P.setupPhases x2 b.wavelength lo hi).crystal.mapKind :=
    fun _ _ => hsub.kind
  have hph : ∀ lo hi, (Q.setupPhases x2 b.wavelength lo hi).crystal.phases = (P.setupPhases x2 b.wavelength lo hi).crystal.phases :=
    fun lo hi => (hcr lo hi).phases
  refine ⟨?_, ?_⟩
  · unfold Polycrystal.diffract
    rw [hlim]
    cases P.limits b lo hi det with
    | error e => simp
    | ok lh =>
      simp only
      unfold diffractCore computePeaks
      dsimp only
      rw [hkind, hph, (order_rows (hcr lh.1 lh.2) he.1 (hnlt _ _) b m).length]
      split_ifs <;> simp
  · intro d d' p1 q1 hd hd'
    obtain ⟨lo1, hi1, hb, rfl, hc⟩ := Polycrystal.diffract_ok hd
    obtain ⟨lo2, hi2, hb', rfl, hc'⟩ := Polycrystal.diffract_ok hd'
    rw [hlim, hb] at hb'
    have hb' := Except.ok.inj hb'
    simp only [Prod.mk.injEq] at hb'
    obtain ⟨rfl, rfl⟩ := hb'
    have hcols := diffract_columns hc
    refine ⟨by rw [hcols, diffract_columns hc'], ?_⟩
    rw [hcols]
    unfold diffractCore at hc hc'
    split at hc
    · cases hc
    rename_i rows hrows
    split at hc'
    · cases hc'
    rename_i rows' hrows'
    obtain rfl := Except.ok.inj hc
    obtain rfl := Except.ok.inj hc'
    obtain rfl := computePeaks_ok hrows
    obtain rfl := computePeaks_ok hrows'
    exact (order_kept (hcr lo1 hi1) he.1 (hnlt _ _) b m).numbered fun a b v w h => sub_row h v w


/-! ### numbering of the nodes -/

/-- Specification: the same elements with the nodes listed in another order: node `k` of the new list is node `ns[k]` of the old -/
structure Spec.Renumbered (ns : List ℕ) (coord coord' : List V3) (enod enod' : List (Q4 ℕ)) : Prop where
  nodes : Reordered ns coord coord'
  valid : ∀ e ∈ enod', ∀ i ∈ e.toList, i < coord'.length
  elements : enod = enod'.map fun e => e.map fun k => ns.getD k 0

theorem renumbered_elements {ns : List ℕ} {coord coord' : List V3} {enod enod' : List (Q4 ℕ)} (h : Renumbered ns coord coord' enod enod') :
    elements coord' enod' = elements coord enod := by
  have hl : ns.length = coord'.length := by rw [h.nodes.1.length_eq, h.nodes.perm.length_eq]; simp
  rw [h.elements]
  unfold XRD.elements
  rw [List.map_map]
  apply List.map_congr_left
  intro e he
  have key : ∀ k ∈ e.toList, coord'.getD k 0 = coord.getD (ns.getD k 0) 0 := by
    intro k hk
    have hlt : k < ns.length := by rw [hl]; exact h.valid e he k hk
    have h2 : ns[k]? = some ns[k] := List.getElem?_eq_getElem hlt
    rw [h.nodes.2.getD h2, List.getD_eq_getElem?_getD (l := ns), h2]
    rfl
  simp only [Q4.toList, List.mem_cons, List.not_mem_nil, or_false, forall_eq_or_imp, forall_eq] at key
  obtain ⟨h1, h2, h3, h4⟩ := key
  simp only [Q4.map, Function.comp]
  rw [h1, h2, h3, h4]

/-- `q` is `p` with other node numbers, as far as diffraction can tell -/
structure NodePoly (p q : Polycrystal) : Prop where
  crystal : q.crystal = p.crystal
  phases : q.phases = p.phases
  coord : q.meshLab.coord.Perm p.meshLab.coord
  centroid : q.meshLab.centroid = p.meshLab.centroid

theorem NodePoly.transform {p q : Polycrystal} (h : NodePoly p q) (m : Motion) (t : ℝ) : NodePoly (p.transform m t) (q.transform m t) where
  crystal := by
    have := h.crystal
    unfold Polycrystal.crystal at this ⊢
    simp only [Crystal.mk.injEq] at this
    obtain ⟨h1, h2, h3, h4, h5, h6, h7⟩ := this
    unfold Polycrystal.transform TetraMesh.update
    simp only [Crystal.mk.injEq]
    refine ⟨?_, ?_, ?_, ?_, ?_, ?_, ?_⟩ <;> first | assumption | skip
    all_goals simp only [h1, h2, h3, h4, h5, h6, h7]
  phases := h.phases
  coord := h.coord.map _
  centroid := by show m.call1 _ t = m.call1 _ t; rw [h.centroid]

theorem NodePoly.transforms (hist : List (Motion × ℝ)) : ∀ {p q : Polycrystal}, NodePoly p q → NodePoly (p.transforms hist) (q.transforms hist) := by
  induction hist with
  | nil => intro p q h; exact h
  | cons mt hist ih => intro p q h; exact ih (h.transform mt.1 mt.2)

/-- two meshes with the same derived data give the same diffraction -/
theorem same_dict (x : Xfab) {coord coord' : List V3} {enod enod' : List (Q4 ℕ)} (hco : coord'.Perm coord) (hel : enod'.length = enod.length)
    (hv : (elements coord' enod').map tetVolume = (elements coord enod).map tetVolume)
    (hsp : (elements coord' enod').map (fun t => (sphereOf t).1) = (elements coord enod).map (fun t => (sphereOf t).1))
    (hme : (elements coord' enod').map mean4 = (elements coord enod).map mean4) (o s : MatArg) (ph : PhasesArg) (map : Option (List ℝ)) :
    ((∃ p, Polycrystal.new x (TetraMesh.ofData coord enod) o s ph map = .ok p) ↔
      ∃ q, Polycrystal.new x (TetraMesh.ofData coord' enod') o s ph map = .ok q) ∧
    ∀ p q, Polycrystal.new x (TetraMesh.ofData coord enod) o s ph map = .ok p →
      Polycrystal.new x (TetraMesh.ofData coord' enod') o s ph map = .ok q →
      ∀ (hist : List (Motion × ℝ)) (x2 : Xfab) (b : Beam) (m : Motion) (lo hi : ℝ) (det : Option Detector),
        ((∃ r, (p.transforms hist).diffract x2 b m lo hi det = .ok r) ↔ ∃ r, (q.transforms hist).diffract x2 b m lo hi det = .ok r) ∧
        ∀ d d' p1 q1, (p.transforms hist).diffract x2 b m lo hi det = .ok (d, p1) →
          (q.transforms hist).diffract x2 b m lo hi det = .ok (d', q1) → d' = d := by
  have hlen : (TetraMesh.ofData coord' enod').enod.length = (TetraMesh.ofData coord enod).enod.length := by
    exact hel
  have hvol : (elements (TetraMesh.ofData coord' enod').coord (TetraMesh.ofData coord' enod').enod).map tetVolume =
      (elements (TetraMesh.ofData coord enod).coord (TetraMesh.ofData coord enod).enod).map tetVolume := hv
  have hnew : ∀ p, Polycrystal.new x (TetraMesh.ofData coord enod) o s ph map = .ok p →
      Polycrystal.new x (TetraMesh.ofData coord' enod') o s ph map = .ok { p with
        meshLab := TetraMesh.ofData coord' enod', meshSample := TetraMesh.ofData coord' enod' } := by
    intro p hp
    obtain ⟨U, S, kind, pm, eB, hU, hS, hk, heB, rfl⟩ := Polycrystal.new_ok hp
    unfold Polycrystal.new
    dsimp only
    rw [hlen, hU, hS, hk]
    dsimp only
    rw [heB]
    dsimp only
    rw [hvol]
  have hnew' : ∀ q, Polycrystal.new x (TetraMesh.ofData coord' enod') o s ph map = .ok q →
      ∃ p, Polycrystal.new x (TetraMesh.ofData coord enod) o s ph map = .ok p := by
    intro q hq
    obtain ⟨U, S, kind, pm, eB, hU, hS, hk, heB, rfl⟩ := Polycrystal.new_ok hq
    rw [hlen] at hU hS hk heB
    unfold Polycrystal.new
    dsimp only
    rw [hU, hS, hk]
    dsimp only
    rw [heB]
    exact ⟨_, rfl⟩
  refine ⟨⟨fun ⟨p, hp⟩ => ⟨_, hnew p hp⟩, fun ⟨q, hq⟩ => hnew' q hq⟩, ?_⟩
  intro p q hp hq hist x2 b m lo hi det
  rw [hnew p hp] at hq
  have hq := (Except.ok.inj hq).symm
  have hnode : NodePoly p q := by
    obtain ⟨U, S, kind, pm, eB, hU, hS, hk, heB, rfl⟩ := Polycrystal.new_ok hp
    subst hq
    refine ⟨?_, rfl, hco, ?_⟩
    · unfold Polycrystal.crystal
      simp only [Crystal.mk.injEq, true_and, and_true]
      exact hsp
    · show meanV ((elements coord' enod').map _) = meanV ((elements coord enod).map _)
      rw [hme]
  have hnode := hnode.transforms hist
  generalize p.transforms hist = P at hnode
  generalize q.transforms hist = Q at hnode
  have hlim : Q.limits b lo hi det = P.limits b lo hi det := by
    cases det with
    | none => rfl
    | some D =>
      have hf := hnode.coord.filter (fun q => decide (b.contains q))
      unfold Polycrystal.limits Polycrystal.braggBounds Polycrystal.sourcePoint
      dsimp only
      rw [hnode.centroid, meanV_perm hf]
      have : ((Q.meshLab.coord.filter fun q => decide (b.contains q)) ≠ []) ↔ ((P.meshLab.coord.filter fun q => decide (b.contains q)) ≠ []) := by
        rw [not_iff_not]
        constructor
        · intro e; rw [e] at hf; exact hf.nil_eq.symm
        · intro e; rw [e] at hf; exact hf.eq_nil
      simp only [this]
  have hcr : ∀ lo hi, (Q.setupPhases x2 b.wavelength lo hi).crystal = (P.setupPhases x2 b.wavelength lo hi).crystal := by
    intro lo hi
    have := hnode.crystal
    unfold Polycrystal.setupPhases
    unfold Polycrystal.crystal at this ⊢
    simp only [Crystal.mk.injEq] at this ⊢
    obtain ⟨h1, h2, h3, h4, h5, h6, h7⟩ := this
    refine ⟨?_, ?_, ?_, ?_, ?_, ?_, ?_⟩ <;> first | assumption | skip
    all_goals rw [hnode.phases]
  refine ⟨?_, ?_⟩
  · unfold Polycrystal.diffract
    rw [hlim]
    cases P.limits b lo hi det with
    | error e => simp
    | ok lh =>
      simp only
      rw [hcr]
      cases diffractCore (P.setupPhases x2 b.wavelength lh.1 lh.2).crystal b m <;> simp
  · intro d d' p1 q1 hd hd'
    obtain ⟨lo1, hi1, hb, rfl, hc⟩ := Polycrystal.diffract_ok hd
    obtain ⟨lo2, hi2, hb', rfl, hc'⟩ := Polycrystal.diffract_ok hd'
    rw [hlim, hb] at hb'
    have hb' := Except.ok.inj hb'
    simp only [Prod.mk.injEq] at hb'
    obtain ⟨rfl, rfl⟩ := hb'
    rw [hcr, hc] at hc'
    exact (Except.ok.inj hc').symm

/-- C99: number the nodes of the mesh in another way.  The mesh can be built with the one numbering exactly if it can with the other,
likewise the polycrystal; and after any history of motions `diffract` succeeds for the one exactly if it does for the other and reports
exactly the same dictionary. -/
theorem C99_node_numbers (x : Xfab) (coord coord' : List V3) (enod enod' : List (Q4 ℕ)) (ns : List ℕ) (h : Renumbered ns coord coord' enod enod') :
    ((∃ mesh, TetraMesh.new coord enod = .ok mesh) ↔ ∃ mesh', TetraMesh.new coord' enod' = .ok mesh') ∧
    ∀ mesh mesh', TetraMesh.new coord enod = .ok mesh → TetraMesh.new coord' enod' = .ok mesh' →
      ∀ (o s : MatArg) (ph : PhasesArg) (map : Option (List ℝ)),
      ((∃ p, Polycrystal.new x mesh o s ph map = .ok p) ↔ ∃ q, Polycrystal.new x mesh' o s ph map = .ok q) ∧
      ∀ p q, Polycrystal.new x mesh o s ph map = .ok p → Polycrystal.new x mesh' o s ph map = .ok q →
        ∀ (hist : List (Motion × ℝ)) (x2 : Xfab) (b : Beam) (m : Motion) (lo hi : ℝ) (det : Option Detector),
          ((∃ r, (p.transforms hist).diffract x2 b m lo hi det = .ok r) ↔ ∃ r, (q.transforms hist).diffract x2 b m lo hi det = .ok r) ∧
          ∀ d d' p1 q1, (p.transforms hist).diffract x2 b m lo hi det = .ok (d, p1) →
            (q.transforms hist).diffract x2 b m lo hi det = .ok (d', q1) → d' = d := by
  have hel := renumbered_elements h
  have hvalid : ∀ e ∈ enod, ∀ i ∈ e.toList, i < coord.length := by
    intro e he i hi
    rw [h.elements, List.mem_map] at he
    obtain ⟨e', he', rfl⟩ := he
    have : ∃ k ∈ e'.toList, i = ns.getD k 0 := by
      simp only [Q4.toList, Q4.map, List.mem_cons, List.not_mem_nil, or_false] at hi ⊢
      rcases hi with rfl | rfl | rfl | rfl
      · exact ⟨_, .inl rfl, rfl⟩
      · exact ⟨_, .inr (.inl rfl), rfl⟩
      · exact ⟨_, .inr (.inr (.inl rfl)), rfl⟩
      · exact ⟨_, .inr (.inr (.inr rfl)), rfl⟩
    obtain ⟨k, hk, rfl⟩ := this
    have hl : ns.length = coord'.length := by rw [h.nodes.1.length_eq, h.nodes.perm.length_eq]; simp
    have hlt : k < ns.length := by rw [hl]; exact h.valid e' he' k hk
    rw [List.getD_eq_getElem?_getD, List.getElem?_eq_getElem hlt]
    exact List.mem_range.mp (h.nodes.1.mem_iff.mp (List.getElem_mem hlt))
  refine ⟨?_, ?_⟩
  · unfold TetraMesh.new
    rw [if_pos hvalid, if_pos h.valid, hel]
    split_ifs <;> simp
  intro mesh mesh' hmesh hmesh' o s ph map
  obtain ⟨rfl, -, -⟩ := TetraMesh.new_ok hmesh
  obtain ⟨rfl, -, -⟩ := TetraMesh.new_ok hmesh'
  exact same_dict x h.nodes.perm (by rw [h.elements, List.length_map]) (by rw [hel]) (by rw [hel]) (by rw [hel]) o s ph map

/-- C99 is not vacuous: two elements on the four nodes of the scene, exchanged, and the nodes numbered backwards; both meshes exist and
the peaks of the first two-element crystal were shown beside C74. -/
example : Reordered [1, 0] ([⟨0, 1, 2, 3⟩, ⟨0, 1, 3, 2⟩] : List (Q4 ℕ)) [⟨0, 1, 3, 2⟩, ⟨0, 1, 2, 3⟩] ∧
    Option.Rel (Reordered [1, 0]) (some [(0 : ℝ), 1]) (some [1, 0]) ∧
    Renumbered [3, 2, 1, 0] sceneCoord sceneCoord.reverse [⟨0, 1, 2, 3⟩] [⟨3, 2, 1, 0⟩] ∧
    ∃ mesh, TetraMesh.new sceneCoord [⟨0, 1, 2, 3⟩] = .ok mesh := by
  refine ⟨⟨by decide, rfl⟩, .some ⟨by decide, rfl⟩, ⟨⟨?_, rfl⟩, ?_, rfl⟩, _, sceneMesh_new⟩
  · show List.Perm [3, 2, 1, 0] (List.range 4)
    decide
  · intro e he i hi
    show i < 4
    simp only [List.mem_singleton] at he
    subst he
    simp only [Q4.toList, List.mem_cons, List.not_mem_nil, or_false] at hi
    omega

end XRD
