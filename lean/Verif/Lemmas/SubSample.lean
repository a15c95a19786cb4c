import Verif.Props.Split

/-! Lemmas for property C74: the peaks of a part of the sample. -/

namespace XRD.Spec
/-- `L'` lists the entries of `L` at the positions `js`, in that order -/
def Picked {α : Type} (js : List ℕ) (L L' : List α) : Prop := L'.map some = js.map fun j => L[j]?
end XRD.Spec

namespace XRD
open V3 M3 Fl Spec
open scoped Classical

theorem Spec.Picked.length {α : Type} {js : List ℕ} {L L' : List α} (h : Picked js L L') : L'.length = js.length := by
  have := congrArg List.length h; simpa using this

theorem Spec.Picked.get {α : Type} {js : List ℕ} {L L' : List α} (h : Picked js L L') {k j : ℕ} (hk : js[k]? = some j) :
    ∃ a, L[j]? = some a ∧ L'[k]? = some a := by
  have := congrArg (fun l => l[k]?) h
  simp only [List.getElem?_map, hk, Option.map_some] at this
  cases h' : L'[k]? with
  | none => rw [h'] at this; cases this
  | some a =>
    rw [h'] at this
    exact ⟨a, (Option.some.inj this).symm, rfl⟩

theorem Spec.Picked.getD {α : Type} {js : List ℕ} {L L' : List α} (h : Picked js L L') {k j : ℕ} (hk : js[k]? = some j) (d : α) :
    L'.getD k d = L.getD j d := by
  obtain ⟨a, h1, h2⟩ := h.get hk
  rw [List.getD_eq_getElem?_getD, List.getD_eq_getElem?_getD, h1, h2]

theorem Spec.Picked.map {α β : Type} {js : List ℕ} {L L' : List α} (h : Picked js L L') (f : α → β) : Picked js (L.map f) (L'.map f) := by
  unfold Picked at *
  have := congrArg (List.map (Option.map f)) h
  simp only [List.map_map] at this ⊢
  rw [show (fun j => (L.map f)[j]?) = (Option.map f) ∘ fun j => L[j]? by funext j; simp]
  rw [← this]
  rfl

theorem Spec.Picked.replicate {α : Type} {js : List ℕ} {n : ℕ} (h : ∀ j ∈ js, j < n) (a : α) :
    Picked js (List.replicate n a) (List.replicate js.length a) := by
  unfold Picked
  rw [List.map_replicate]
  symm
  rw [List.eq_replicate_iff]
  refine ⟨by simp, ?_⟩
  intro b hb
  obtain ⟨j, hj, rfl⟩ := List.mem_map.mp hb
  rw [List.getElem?_replicate, if_pos (h j hj)]

/-- two strictly increasing lists with the same members are equal -/
theorem eq_of_increasing {l l' : List ℕ} (h : l.Pairwise (· < ·)) (h' : l'.Pairwise (· < ·)) (hm : ∀ a, a ∈ l ↔ a ∈ l') : l = l' := by
  have hp : l.Perm l' := (List.perm_ext_iff_of_nodup (h.imp fun h => Nat.ne_of_lt h) (h'.imp fun h => Nat.ne_of_lt h)).mpr hm
  exact hp.eq_of_pairwise (fun a b _ _ h1 h2 => absurd h1 (Nat.lt_asymm h2)) h h'

section
variable {js : List ℕ} (hjs : js.Pairwise (· < ·))
include hjs

theorem picked_grains {pm pm' : List ℝ} (h : Picked js pm pm') (i : ℕ) :
    (grainIndices pm i).filter (fun e => decide (e ∈ js)) = (grainIndices pm' i).map fun k => js.getD k 0 := by
  have hget : ∀ k, k < js.length → js.getD k 0 = js[k]! := by
    intro k hk; simp [List.getD_eq_getElem?_getD, List.getElem?_eq_getElem hk]
  apply eq_of_increasing
  · exact (List.pairwise_lt_range.filter _).filter _
  · rw [List.pairwise_map]
    have h1 : (grainIndices pm' i).Pairwise (· < ·) := List.pairwise_lt_range.filter _
    refine h1.imp_of_mem ?_
    intro a b ha hb hab
    have hb' : b < js.length := by
      rw [mem_grainIndices] at hb
      rw [← h.length]
      exact (List.getElem?_eq_some_iff.mp hb).1
    have ha' : a < js.length := hab.trans hb'
    rw [List.getD_eq_getElem?_getD, List.getD_eq_getElem?_getD, List.getElem?_eq_getElem ha', List.getElem?_eq_getElem hb']
    exact List.pairwise_iff_getElem.mp hjs a b ha' hb' hab
  · intro e
    rw [List.mem_filter, mem_grainIndices, List.mem_map, decide_eq_true_iff]
    constructor
    · rintro ⟨h1, h2⟩
      obtain ⟨k, hk⟩ := List.mem_iff_getElem?.mp h2
      obtain ⟨a, h3, h4⟩ := h.get hk
      refine ⟨k, mem_grainIndices.mpr ?_, by rw [List.getD_eq_getElem?_getD, hk]; rfl⟩
      rw [h4, ← h3, h1]
    · rintro ⟨k, hk, rfl⟩
      rw [mem_grainIndices] at hk
      have hlt : k < js.length := by rw [← h.length]; exact (List.getElem?_eq_some_iff.mp hk).1
      have hk2 : js[k]? = some js[k] := List.getElem?_eq_getElem hlt
      obtain ⟨a, h3, h4⟩ := h.get hk2
      rw [List.getD_eq_getElem?_getD, hk2]
      dsimp only [Option.getD_some]
      refine ⟨?_, List.getElem_mem hlt⟩
      rw [h3, ← h4, hk]

end

/-! ### rows of one element -/

/-- the rows of one branch for one element -/
noncomputable def elemRows (pick : Fl × Fl → Fl) (c : Crystal) (b : Beam) (m : Motion) (i : ℕ) (ph : Phase) (e : ℕ) : List (List ℝ) :=
  (List.range (activePlanes ph).1.length).filterMap fun p =>
    let G := getG (c.orientation.getD e 0) (c.eB.getD e 0) (((activePlanes ph).1.map HKL.toV).getD p 0)
    (keepTime (laueTime (pick (laueRoots (rho0Factor b.waveVector m.axis) (rho1Factor b.waveVector m.axis)
      (rho2Factor b.waveVector m.axis) G)) m.angle)).map fun t =>
      [(e : ℝ), (i : ℝ), (((activePlanes ph).1.map HKL.toV).getD p 0).x, (((activePlanes ph).1.map HKL.toV).getD p 0).y,
        (((activePlanes ph).1.map HKL.toV).getD p 0).z, (activePlanes ph).2.getD p 0, t, G.x, G.y, G.z]

theorem range_flatMap_getD {α β : Type} (l : List α) (d : α) (F : α → List β) :
    (List.range l.length).flatMap (fun g => F (l.getD g d)) = l.flatMap F := by
  have : (List.range l.length).map (fun g => l.getD g d) = l := by
    apply List.ext_getElem
    · simp
    · intro n h1 h2
      simp [List.getD_eq_getElem?_getD, List.getElem?_eq_getElem h2]
  conv_rhs => rw [← this, List.flatMap_map]

theorem branch_elems (pick : Fl × Fl → Fl) (c : Crystal) (b : Beam) (m : Motion) (i : ℕ) (ph : Phase) (gr : List ℕ) :
    (laueBranch pick (gr.map fun e => (activePlanes ph).1.map fun p => getG (c.orientation.getD e 0) (c.eB.getD e 0) p.toV)
      (rho0Factor b.waveVector m.axis) (rho1Factor b.waveVector m.axis) (rho2Factor b.waveVector m.axis) m.angle).map (fun s =>
        [((gr.getD s.grain 0 : ℕ) : ℝ), (i : ℝ), (((activePlanes ph).1.map HKL.toV).getD s.plane 0).x,
          (((activePlanes ph).1.map HKL.toV).getD s.plane 0).y, (((activePlanes ph).1.map HKL.toV).getD s.plane 0).z,
          (activePlanes ph).2.getD s.plane 0, s.time, s.G.x, s.G.y, s.G.z])
      = gr.flatMap (elemRows pick c b m i ph) := by
  rw [← range_flatMap_getD gr 0]
  unfold laueBranch
  rw [List.map_flatMap, List.length_map]
  apply List.flatMap_congr
  intro g hg
  rw [List.mem_range] at hg
  have hG : (gr.map fun e => (activePlanes ph).1.map fun p => getG (c.orientation.getD e 0) (c.eB.getD e 0) p.toV).getD g [] =
      (activePlanes ph).1.map fun p => getG (c.orientation.getD (gr.getD g 0) 0) (c.eB.getD (gr.getD g 0) 0) p.toV := by
    simp [List.getD_eq_getElem?_getD, List.getElem?_eq_getElem hg]
  rw [hG]
  unfold elemRows
  rw [List.map_filterMap, List.length_map]
  apply List.filterMap_congr
  intro p hp
  rw [List.mem_range] at hp
  have hv : ((activePlanes ph).1.map fun p => getG (c.orientation.getD (gr.getD g 0) 0) (c.eB.getD (gr.getD g 0) 0) p.toV).getD p 0 =
      getG (c.orientation.getD (gr.getD g 0) 0) (c.eB.getD (gr.getD g 0) 0) (((activePlanes ph).1.map HKL.toV).getD p 0) := by
    simp [List.getD_eq_getElem?_getD, List.getElem?_eq_getElem hp]
  dsimp only
  rw [hv, Option.map_map]
  rfl

theorem phaseRows_elems (c : Crystal) (b : Beam) (m : Motion) (i : ℕ) (ph : Phase) :
    phaseRows c b m i ph = (grainIndices c.phaseMap i).flatMap (elemRows Prod.fst c b m i ph) ++
      (grainIndices c.phaseMap i).flatMap (elemRows Prod.snd c b m i ph) := by
  unfold phaseRows laueSolutions
  dsimp only
  rw [List.map_append, branch_elems, branch_elems]

/-! ### the part -/

/-- the elements of `c'` are the elements `js` of `c`, in that order -/
structure PartCrystal (js : List ℕ) (c c' : Crystal) : Prop where
  phases : c'.phases = c.phases
  map : Picked js c.phaseMap c'.phaseMap
  orientation : ∀ k j, js[k]? = some j → c'.orientation.getD k 0 = c.orientation.getD j 0
  eB : ∀ k j, js[k]? = some j → c'.eB.getD k 0 = c.eB.getD j 0
  spheres : ∀ k j, js[k]? = some j → c'.sphereCentroids.getD k 0 = c.sphereCentroids.getD j 0
  volumes : ∀ k j, js[k]? = some j → c'.volumes.getD k 0 = c.volumes.getD j 0

/-- `c'` is the part of `c` made of the elements `js`, listed in the order of `c` -/
structure SubCrystal (js : List ℕ) (c c' : Crystal) : Prop extends PartCrystal js c c' where
  inc : js.Pairwise (· < ·)

/-- a row of the part with the element number it has in the whole -/
noncomputable def renum (js : List ℕ) (r : List ℝ) : List ℝ := r.set 0 (js.getD ⌊colD r 0⌋.toNat 0 : ℕ)

/-- the row belongs to an element of the part -/
def inPart (js : List ℕ) (r : List ℝ) : Prop := ∃ j ∈ js, colD r 0 = (j : ℝ)

theorem elemRows_col0 {pick : Fl × Fl → Fl} {c : Crystal} {b : Beam} {m : Motion} {i : ℕ} {ph : Phase} {e : ℕ} {r : List ℝ}
    (h : r ∈ elemRows pick c b m i ph e) : colD r 0 = (e : ℝ) := by
  unfold elemRows at h
  rw [List.mem_filterMap] at h
  obtain ⟨p, -, h⟩ := h
  rw [Option.map_eq_some_iff] at h
  obtain ⟨t, -, rfl⟩ := h
  rfl

section
variable {js : List ℕ} {c c' : Crystal} (h : PartCrystal js c c') {b : Beam} {m : Motion}
include h

theorem sub_elemRows (pick : Fl × Fl → Fl) (i : ℕ) (ph : Phase) {k j : ℕ} (hk : js[k]? = some j) :
    elemRows pick c b m i ph j = (elemRows pick c' b m i ph k).map (renum js) := by
  unfold elemRows
  rw [List.map_filterMap]
  apply List.filterMap_congr
  intro p _
  rw [h.orientation k j hk, h.eB k j hk, Option.map_map]
  dsimp only
  congr 1
  funext t
  simp [renum, colD, List.getD_eq_getElem?_getD, hk]

end

section
variable {js : List ℕ} {c c' : Crystal} (h : SubCrystal js c c') {b : Beam} {m : Motion}
include h

theorem sub_flatMap (pick : Fl × Fl → Fl) (i : ℕ) (ph : Phase) :
    ((grainIndices c.phaseMap i).flatMap (elemRows pick c b m i ph)).filter (fun r => decide (inPart js r)) =
      ((grainIndices c'.phaseMap i).flatMap (elemRows pick c' b m i ph)).map (renum js) := by
  have h1 : ((grainIndices c.phaseMap i).flatMap (elemRows pick c b m i ph)).filter (fun r => decide (inPart js r)) =
      ((grainIndices c.phaseMap i).filter (fun e => decide (e ∈ js))).flatMap (elemRows pick c b m i ph) := by
    generalize grainIndices c.phaseMap i = gr
    induction gr with
    | nil => rfl
    | cons e gr ih =>
      rw [List.flatMap_cons, List.filter_append, ih, List.filter_cons]
      have hall : ∀ r ∈ elemRows pick c b m i ph e, inPart js r ↔ e ∈ js := by
        intro r hr
        unfold inPart
        rw [elemRows_col0 hr]
        constructor
        · rintro ⟨j, hj, hje⟩; rw [Nat.cast_inj] at hje; rw [hje]; exact hj
        · intro he; exact ⟨e, he, rfl⟩
      by_cases he : e ∈ js
      · rw [if_pos (by simpa using he), List.flatMap_cons]
        congr 1
        rw [List.filter_eq_self]
        intro r hr; simpa using (hall r hr).mpr he
      · rw [if_neg (by simpa using he)]
        have : (elemRows pick c b m i ph e).filter (fun r => decide (inPart js r)) = [] := by
          rw [List.filter_eq_nil_iff]
          intro r hr; simpa using fun hh => he ((hall r hr).mp hh)
        rw [this, List.nil_append]
  rw [h1, picked_grains h.inc h.map, List.flatMap_map, List.map_flatMap]
  apply List.flatMap_congr
  intro k hk
  rw [mem_grainIndices] at hk
  have hlt : k < js.length := by rw [← h.map.length]; exact (List.getElem?_eq_some_iff.mp hk).1
  have hk2 : js[k]? = some js[k] := List.getElem?_eq_getElem hlt
  rw [List.getD_eq_getElem?_getD, hk2]
  exact sub_elemRows h.toPartCrystal pick i ph hk2

theorem sub_allPhaseRows :
    (allPhaseRows c b m).filter (fun r => decide (inPart js r)) = (allPhaseRows c' b m).map (renum js) := by
  unfold allPhaseRows
  rw [h.phases, List.filter_flatMap, List.map_flatMap]
  apply List.flatMap_congr
  intro i _
  cases c.phases[i]? with
  | none => rfl
  | some ph =>
    dsimp only
    rw [phaseRows_elems, phaseRows_elems, List.filter_append, List.map_append, sub_flatMap h, sub_flatMap h]

end

section
variable {js : List ℕ} {c c' : Crystal} (h : PartCrystal js c c') {b : Beam} {m : Motion}
include h

theorem sub_rows_shape {r : List ℝ} (hr : r ∈ allPhaseRows c' b m) :
    r.length = 10 ∧ ∃ k j : ℕ, colD r 0 = (k : ℝ) ∧ js[k]? = some j := by
  unfold allPhaseRows at hr
  rw [List.mem_flatMap] at hr
  obtain ⟨i, -, hr⟩ := hr
  cases hp : c'.phases[i]? with
  | none => rw [hp] at hr; cases hr
  | some ph =>
    rw [hp] at hr
    dsimp only at hr
    rw [phaseRows_elems, List.mem_append] at hr
    have key : ∀ pick : Fl × Fl → Fl, r ∈ (grainIndices c'.phaseMap i).flatMap (elemRows pick c' b m i ph) →
        r.length = 10 ∧ ∃ k j : ℕ, colD r 0 = (k : ℝ) ∧ js[k]? = some j := by
      intro pick hr
      rw [List.mem_flatMap] at hr
      obtain ⟨k, hk, hr⟩ := hr
      rw [mem_grainIndices] at hk
      have hlt : k < js.length := by rw [← h.map.length]; exact (List.getElem?_eq_some_iff.mp hk).1
      refine ⟨?_, k, js[k], elemRows_col0 hr, List.getElem?_eq_getElem hlt⟩
      unfold elemRows at hr
      rw [List.mem_filterMap] at hr
      obtain ⟨p, -, hr⟩ := hr
      rw [Option.map_eq_some_iff] at hr
      obtain ⟨t, -, rfl⟩ := hr
      rfl
    exact hr.elim (key _) (key _)

/-- the 24-column row of the whole for a row of the part -/
theorem sub_extendRow {r : List ℝ} (hr : r.length = 10) {k j : ℕ} (h0 : colD r 0 = (k : ℝ)) (hk : js[k]? = some j) :
    extendRow c b m (renum js r) = (extendRow c' b m r).set 0 (fin j) ∧ (extendRow c' b m r).length = 24 ∧
      (extendRow c' b m r)[0]? = some (fin k) := by
  match r, hr with
  | [a0, a1, a2, a3, a4, a5, a6, a7, a8, a9], _ =>
    have e0 : a0 = (k : ℝ) := h0
    subst e0
    have hj : js.getD k 0 = j := by rw [List.getD_eq_getElem?_getD, hk]; rfl
    refine ⟨?_, rfl, rfl⟩
    have hs := h.spheres k j hk
    have hv := h.volumes k j hk
    rw [List.getD_eq_getElem?_getD, List.getD_eq_getElem?_getD] at hs hv
    unfold extendRow renum colD
    simp [hk, hs, hv]

end

/-- `r` is the row `r'` of the part with its element number in the whole -/
def PartRow (js : List ℕ) (r r' : List Fl) : Prop :=
  ∃ k j : ℕ, js[k]? = some j ∧ r = r'.set 0 (fin j) ∧ r'.length = 24 ∧ r'[0]? = some (fin k)

theorem illuminated_set0 (b : Beam) (row : List Fl) (v : Fl) : illuminated b (row.set 0 v) = illuminated b row := by
  unfold illuminated sourceOf
  simp [List.getElem?_set]

/-- the row belongs to an element of the part -/
def inPart24 (js : List ℕ) (r : List Fl) : Prop := ∃ j ∈ js, r[0]? = some (fin (j : ℝ))

theorem sub_kept {js : List ℕ} {c c' : Crystal} (h : SubCrystal js c c') (b : Beam) (m : Motion) :
    List.Forall₂ (PartRow js)
      ((((allPhaseRows c b m).map (extendRow c b m)).filter (illuminated b)).filter fun r => decide (inPart24 js r))
      (((allPhaseRows c' b m).map (extendRow c' b m)).filter (illuminated b)) := by
  have h1 : (((allPhaseRows c b m).map (extendRow c b m)).filter (illuminated b)).filter (fun r => decide (inPart24 js r)) =
      (((allPhaseRows c' b m).map (renum js)).map (extendRow c b m)).filter (illuminated b) := by
    rw [← sub_allPhaseRows h, List.filter_filter, List.filter_map, List.filter_map, List.filter_filter]
    congr 1
    apply List.filter_congr
    intro r hr
    have e : (extendRow c b m r)[0]? = some (fin (colD r 0)) := by
      have hl : r.length = 10 := allPhaseRows_length hr
      match r, hl with
      | [a0, a1, a2, a3, a4, a5, a6, a7, a8, a9], _ => rfl
    simp only [Function.comp, Bool.and_comm]
    congr 1
    rw [decide_eq_decide]
    unfold inPart24 inPart
    rw [e]
    simp
  rw [h1]
  have hall : ∀ r ∈ allPhaseRows c' b m, PartRow js (extendRow c b m (renum js r)) (extendRow c' b m r) := by
    intro r hr
    obtain ⟨hl, k, j, h0, hk⟩ := sub_rows_shape h.toPartCrystal hr
    obtain ⟨e1, e2, e3⟩ := sub_extendRow h.toPartCrystal (b := b) (m := m) hl h0 hk
    exact ⟨k, j, hk, e1, e2, e3⟩
  revert hall
  generalize allPhaseRows c' b m = L
  intro hall
  induction L with
  | nil => exact List.Forall₂.nil
  | cons r L ih =>
    have hr := hall r List.mem_cons_self
    have ih := ih fun r' hr' => hall r' (List.mem_cons_of_mem _ hr')
    simp only [List.map_cons, List.filter_cons]
    have hi : illuminated b (extendRow c b m (renum js r)) = illuminated b (extendRow c' b m r) := by
      obtain ⟨k, j, -, e, -⟩ := hr
      rw [e, illuminated_set0]
    rw [hi]
    split_ifs
    · exact List.Forall₂.cons hr ih
    · exact ih

/-- numbering the rows of a list and of a sub-list -/
theorem numbered_forall₂ {R0 R : List Fl → List Fl → Prop} {P Q : List Fl → Bool} : ∀ {K K' : List (List Fl)} (f g : ℕ → Fl),
    (∀ r ∈ K, ∀ v, Q (r ++ [v]) = P r) → (∀ r ∈ K, ∀ r', R0 r r' → ∀ v v', R (r ++ [v]) (r' ++ [v'])) →
    List.Forall₂ R0 (K.filter P) K' →
    List.Forall₂ R ((K.mapIdx fun i row => row ++ [f i]).filter Q) (K'.mapIdx fun i row => row ++ [g i]) := by
  intro K
  induction K with
  | nil => intro K' f g _ _ h; cases h; exact List.Forall₂.nil
  | cons r K ih =>
    intro K' f g hQ hR h
    rw [List.filter_cons] at h
    rw [List.mapIdx_cons, List.filter_cons, hQ r List.mem_cons_self]
    have ihQ := fun r' hr' => hQ r' (List.mem_cons_of_mem _ hr')
    have ihR := fun r' hr' => hR r' (List.mem_cons_of_mem _ hr')
    split_ifs at h ⊢ with hP
    · cases h with
      | cons h1 h2 =>
        rw [List.mapIdx_cons]
        exact List.Forall₂.cons (hR r List.mem_cons_self _ h1 _ _) (ih (fun i => f (i + 1)) (fun i => g (i + 1)) ihQ ihR h2)
    · exact ih (fun i => f (i + 1)) g ihQ ihR h

end XRD
