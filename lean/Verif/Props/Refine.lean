import Verif.Props.SubSample
import Verif.SpecImage

/-! Property C107: a finer mesh of the same sample scatters the same power. -/

namespace XRD.Spec
open XRD V3

/-- volume of the tetrahedron with vertices `a b c d` -/
noncomputable def volumeOf (a b c d : V3) : ℝ := |dot (cross (b - a) (c - a)) (d - a)| / 6

/-- volume of the element with nodes `e` -/
noncomputable def elementVolume (coord : List V3) (e : Q4 ℕ) : ℝ :=
  volumeOf (coord.getD e.a 0) (coord.getD e.b 0) (coord.getD e.c 0) (coord.getD e.d 0)

/-- The second mesh divides every element of the first: element `k` of the second is a piece of element `par[k]` of the first, and
the pieces of every element add up to it. -/
structure Divides (coord : List V3) (enod : List (Q4 ℕ)) (coord' : List V3) (enod' : List (Q4 ℕ)) (par : List ℕ) : Prop where
  length : par.length = enod'.length
  range : ∀ j ∈ par, j < enod.length
  volumes : ∀ (e : ℕ) E, enod[e]? = some E →
    (((enod'.zip par).filter fun kp => kp.2 = e).map fun kp => elementVolume coord' kp.1).sum = elementVolume coord E

/-- the columns that depend on which piece of a crystal scatters -/
def pieceColumns : List String := ["grain_index", "Source_x", "Source_y", "Source_z", "volumes", "scherrer_fwhm", "peak_index"]

/-- the rows describe the same reflection at the same time, with the same angles and factors -/
def SameReflection (cols : List String) (r r' : List Fl) : Prop :=
  ∀ name, name ∉ pieceColumns → ∀ v, Has cols r' name v ↔ Has cols r name v
end XRD.Spec

namespace XRD
open V3 M3 Fl Spec
open scoped Classical

/-- the elements of `c'` have the orientation, lattice and phase of the elements `par` of `c` -/
structure RefCrystal (par : List ℕ) (c c' : Crystal) : Prop where
  phases : c'.phases = c.phases
  map : Picked par c.phaseMap c'.phaseMap
  orientation : ∀ k j, par[k]? = some j → c'.orientation.getD k 0 = c.orientation.getD j 0
  eB : ∀ k j, par[k]? = some j → c'.eB.getD k 0 = c.eB.getD j 0

theorem elementVolume_eq (coord : List V3) (e : Q4 ℕ) : elementVolume coord e = tetVolume (e.map fun i => coord.getD i 0) := by
  rw [tetVolume_eq]
  unfold elementVolume volumeOf signedVolume Q4.map
  dsimp only
  rw [abs_mul, abs_of_pos (by norm_num : (0 : ℝ) < 1 / 6)]
  ring

section
variable {par : List ℕ} {c c' : Crystal} (h : RefCrystal par c c') {b : Beam} {m : Motion}
include h

theorem ref_elemRows (pick : Fl × Fl → Fl) (i : ℕ) (ph : Phase) {k j : ℕ} (hk : par[k]? = some j) :
    elemRows pick c b m i ph j = (elemRows pick c' b m i ph k).map (renum par) := by
  unfold elemRows
  rw [List.map_filterMap]
  apply List.filterMap_congr
  intro p _
  rw [h.orientation k j hk, h.eB k j hk, Option.map_map]
  dsimp only
  congr 1
  funext t
  simp [renum, colD, List.getD_eq_getElem?_getD, hk]

end

theorem elemRows_facts {pick : Fl × Fl → Fl} {c : Crystal} {b : Beam} {m : Motion} {i : ℕ} {ph : Phase} {e : ℕ} {r : List ℝ}
    (h : r ∈ elemRows pick c b m i ph e) : r.length = 10 ∧ colD r 0 = (e : ℝ) ∧ 0 ≤ colD r 6 ∧ colD r 6 ≤ 1 := by
  unfold elemRows at h
  rw [List.mem_filterMap] at h
  obtain ⟨p, -, h⟩ := h
  rw [Option.map_eq_some_iff] at h
  obtain ⟨t, ht, rfl⟩ := h
  rw [keepTime_eq] at ht
  exact ⟨rfl, rfl, ht.2.1, ht.2.2⟩

/-- a row and the row of another piece -/
theorem ref_row (c c' : Crystal) (b : Beam) (m : Motion) (par : List ℕ) {r : List ℝ} (hr : r.length = 10) (v v' : Fl) :
    SameReflection peakColumns (extendRow c b m (renum par r) ++ [v]) (extendRow c' b m r ++ [v']) := by
  match r, hr with
  | [a0, a1, a2, a3, a4, a5, a6, a7, a8, a9], _ =>
    intro name hn w
    have key : ∀ i : ℕ, peakColumns[i]? = some name →
        (extendRow c' b m [a0, a1, a2, a3, a4, a5, a6, a7, a8, a9] ++ [v'])[i]? =
          (extendRow c b m (renum par [a0, a1, a2, a3, a4, a5, a6, a7, a8, a9]) ++ [v])[i]? := by
      intro i hi
      have hi' : i < 25 := by
        by_contra hc
        rw [List.getElem?_eq_none (by show 25 ≤ i; omega)] at hi
        cases hi
      interval_cases i <;> first | rfl | (exfalso; apply hn; obtain rfl := Option.some.inj hi; decide)
    constructor
    · rintro ⟨i, h1, h2⟩; exact ⟨i, h1, by rw [← key i h1]; exact h2⟩
    · rintro ⟨i, h1, h2⟩; exact ⟨i, h1, by rw [key i h1]; exact h2⟩

/-- the same row with another running number -/
theorem ref_number (r : List Fl) (hr : r.length = 24) (v v' : Fl) : SameReflection peakColumns (r ++ [v]) (r ++ [v']) := by
  intro name hn w
  have key : ∀ i : ℕ, peakColumns[i]? = some name → (r ++ [v'])[i]? = (r ++ [v])[i]? := by
    intro i hi
    have n24 : i ≠ 24 := by rintro rfl; apply hn; obtain rfl := Option.some.inj hi; decide
    have hi' : i < 25 := by
      by_contra hc
      rw [List.getElem?_eq_none (by show 25 ≤ i; omega)] at hi
      cases hi
    rw [List.getElem?_append_left (by omega), List.getElem?_append_left (by omega)]
  constructor
  · rintro ⟨i, h1, h2⟩; exact ⟨i, h1, by rw [← key i h1]; exact h2⟩
  · rintro ⟨i, h1, h2⟩; exact ⟨i, h1, by rw [key i h1]; exact h2⟩

theorem val_volume (c : Crystal) (b : Beam) (m : Motion) {r : List ℝ} (hr : r.length = 10) (v : Fl) :
    val peakColumns (extendRow c b m r ++ [v]) "volumes" = c.volumes.getD ⌊colD r 0⌋.toNat 0 := by
  match r, hr with
  | [a0, a1, a2, a3, a4, a5, a6, a7, a8, a9], _ =>
    have e : peakColumns.idxOf "volumes" = 21 := by decide
    unfold val
    rw [e]
    rfl

theorem illuminated_row (c : Crystal) (b : Beam) (m : Motion) {r : List ℝ} (hr : r.length = 10) :
    (illuminated b (extendRow c b m r) = true) ↔ b.contains (m.call1 (c.sphereCentroids.getD ⌊colD r 0⌋.toNat 0) (colD r 6)) := by
  match r, hr with
  | [a0, a1, a2, a3, a4, a5, a6, a7, a8, a9], _ =>
    unfold illuminated
    have e : sourceOf (extendRow c b m [a0, a1, a2, a3, a4, a5, a6, a7, a8, a9]) =
      some (m.call1 (c.sphereCentroids.getD ⌊colD [a0, a1, a2, a3, a4, a5, a6, a7, a8, a9] 0⌋.toNat 0)
        (colD [a0, a1, a2, a3, a4, a5, a6, a7, a8, a9] 6)) := rfl
    rw [e]
    simp

/-- weight of a row, zero if it is not lit -/
noncomputable def litWeight (w : List Fl → ℝ) (c : Crystal) (b : Beam) (m : Motion) (r : List ℝ) : ℝ :=
  if illuminated b (extendRow c b m r) = true then w (extendRow c b m r ++ [fin 0]) else 0

theorem sum_numbered (w : List Fl → ℝ) (g : ℕ → Fl) : ∀ (K : List (List Fl)) (f : ℕ → Fl),
    (∀ r ∈ K, ∀ v v', w (r ++ [v]) = w (r ++ [v'])) →
    ((K.mapIdx fun i row => row ++ [f i]).map w).sum = (K.map fun r => w (r ++ [fin 0])).sum := by
  intro K
  induction K with
  | nil => intro f _; rfl
  | cons r K ih =>
    intro f h
    rw [List.mapIdx_cons, List.map_cons, List.map_cons, List.sum_cons, List.sum_cons, h r List.mem_cons_self (f 0) (fin 0)]
    congr 1
    exact ih (fun i => f (i + 1)) fun r' hr' => h r' (List.mem_cons_of_mem _ hr')

theorem sum_filter_ite {α : Type} (p : α → Bool) (f : α → ℝ) (L : List α) :
    ((L.filter p).map f).sum = (L.map fun a => if p a = true then f a else 0).sum := by
  induction L with
  | nil => rfl
  | cons a L ih =>
    rw [List.filter_cons, List.map_cons, List.sum_cons, ← ih]
    split_ifs <;> simp

/-- the weighted total of a table -/
theorem ref_total {w : List Fl → ℝ} (hw : ∀ r r', SameReflection peakColumns r r' → w r = w r') {c : Crystal} {b : Beam} {m : Motion}
    {d : PeaksDict} (hd : diffractCore c b m = .ok d) :
    (d.peaks.map fun r => w r * val peakColumns r "volumes").sum =
      ((allPhaseRows c b m).map fun r => litWeight w c b m r * c.volumes.getD ⌊colD r 0⌋.toNat 0).sum := by
  unfold diffractCore at hd
  split at hd
  · cases hd
  rename_i rows hrows
  obtain rfl := Except.ok.inj hd
  obtain rfl := computePeaks_ok hrows
  have hl : ∀ r ∈ allPhaseRows c b m, r.length = 10 := fun r hr => allPhaseRows_length hr
  rw [sum_numbered (fun r => w r * val peakColumns r "volumes") fun i => fin (i : ℝ)]
  · rw [sum_filter_ite, List.map_map]
    congr 1
    apply List.map_congr_left
    intro r hr
    unfold litWeight
    simp only [Function.comp]
    rw [val_volume c b m (hl r hr)]
    split_ifs
    · rfl
    · rw [zero_mul]
  · intro r hr v v'
    obtain ⟨q, hq, rfl⟩ := List.mem_map.mp (List.mem_filter.mp hr).1
    beta_reduce
    rw [val_volume c b m (hl q hq), val_volume c b m (hl q hq), hw _ _ (ref_number _ (extendRow_timed c b m (hl q hq)).1 v v')]

/-- the weight of one element -/
noncomputable def elemWeight (w : List Fl → ℝ) (pick : Fl × Fl → Fl) (c : Crystal) (b : Beam) (m : Motion) (i : ℕ) (ph : Phase) (e : ℕ) : ℝ :=
  ((elemRows pick c b m i ph e).map (litWeight w c b m)).sum

theorem branch_total (w : List Fl → ℝ) (pick : Fl × Fl → Fl) (c : Crystal) (b : Beam) (m : Motion) (i : ℕ) (ph : Phase) :
    (((grainIndices c.phaseMap i).flatMap (elemRows pick c b m i ph)).map
      fun r => litWeight w c b m r * c.volumes.getD ⌊colD r 0⌋.toNat 0).sum =
    ((grainIndices c.phaseMap i).map fun e => elemWeight w pick c b m i ph e * c.volumes.getD e 0).sum := by
  generalize grainIndices c.phaseMap i = gr
  induction gr with
  | nil => rfl
  | cons e gr ih =>
    rw [List.flatMap_cons, List.map_append, List.sum_append, ih, List.map_cons, List.sum_cons]
    congr 1
    unfold elemWeight
    rw [← List.sum_map_mul_right]
    congr 1
    apply List.map_congr_left
    intro r hr
    rw [(elemRows_facts hr).2.1]
    simp

section
variable {par : List ℕ} {c c' : Crystal} (h : RefCrystal par c c') {b : Beam} {m : Motion}
include h

theorem ref_weight {w : List Fl → ℝ} (hw : ∀ r r', SameReflection peakColumns r r' → w r = w r')
    (hlit : ∀ k j : ℕ, par[k]? = some j → ∀ t : ℝ, 0 ≤ t → t ≤ 1 →
      (b.contains (m.call1 (c'.sphereCentroids.getD k 0) t) ↔ b.contains (m.call1 (c.sphereCentroids.getD j 0) t)))
    (pick : Fl × Fl → Fl) (i : ℕ) (ph : Phase) {k j : ℕ} (hk : par[k]? = some j) :
    elemWeight w pick c' b m i ph k = elemWeight w pick c b m i ph j := by
  unfold elemWeight
  rw [ref_elemRows h pick i ph hk, List.map_map]
  congr 1
  apply List.map_congr_left
  intro r hr
  obtain ⟨hl, h0, t0, t1⟩ := elemRows_facts hr
  have hl' : (renum par r).length = 10 := by unfold renum; rw [List.length_set]; exact hl
  have e0 : colD (renum par r) 0 = (j : ℝ) := by
    match r, hl with
    | [a0, a1, a2, a3, a4, a5, a6, a7, a8, a9], _ =>
      have : a0 = (k : ℝ) := h0
      subst this
      unfold renum colD
      simp [hk]
  have e6 : colD (renum par r) 6 = colD r 6 := by
    match r, hl with
    | [a0, a1, a2, a3, a4, a5, a6, a7, a8, a9], _ => rfl
  simp only [Function.comp, litWeight]
  have hi : (illuminated b (extendRow c' b m r) = true) ↔ (illuminated b (extendRow c b m (renum par r)) = true) := by
    rw [illuminated_row c' b m hl, illuminated_row c b m hl', e0, e6, h0]
    simpa using hlit k j hk (colD r 6) t0 t1
  by_cases hh : illuminated b (extendRow c' b m r) = true
  · rw [if_pos hh, if_pos (hi.mp hh)]
    exact (hw _ _ (ref_row c c' b m par hl _ _)).symm
  · rw [if_neg hh, if_neg fun h2 => hh (hi.mpr h2)]

/-- regrouping the pieces by the element they belong to -/
theorem ref_regroup (i : ℕ) (S S' : ℕ → ℝ) (hS : ∀ k j : ℕ, par[k]? = some j → S' k = S j) (V V' : ℕ → ℝ)
    (hV : ∀ e ∈ grainIndices c.phaseMap i, ((((List.range par.length).zip par).filter fun kp => kp.2 = e).map fun kp => V' kp.1).sum = V e) :
    ((grainIndices c'.phaseMap i).map fun k => S' k * V' k).sum = ((grainIndices c.phaseMap i).map fun e => S e * V e).sum := by
  have hlen : c'.phaseMap.length = par.length := h.map.length
  have hnd : (grainIndices c.phaseMap i).Nodup := List.Nodup.filter _ List.nodup_range
  -- left: a sum over all pieces with an indicator
  have hL : ((grainIndices c'.phaseMap i).map fun k => S' k * V' k).sum =
      (((List.range par.length).zip par).map fun kp => if kp.2 ∈ grainIndices c.phaseMap i then S kp.2 * V' kp.1 else 0).sum := by
    have hz : (List.range par.length).zip par = (List.range par.length).map fun k => (k, par.getD k 0) := by
      apply List.ext_getElem
      · simp
      · intro n h1 h2
        simp at h2
        simp [h2]
    rw [hz, List.map_map]
    unfold grainIndices
    rw [sum_filter_ite, hlen]
    congr 1
    apply List.map_congr_left
    intro k hk
    rw [List.mem_range] at hk
    have hk2 : par[k]? = some par[k] := List.getElem?_eq_getElem hk
    have hgd : par.getD k 0 = par[k] := by rw [List.getD_eq_getElem?_getD, hk2]; rfl
    obtain ⟨a, h3, h4⟩ := h.map.get hk2
    have hlt : par[k] < c.phaseMap.length := (List.getElem?_eq_some_iff.mp h3).1
    simp only [Function.comp, hgd, List.mem_filter, List.mem_range, decide_eq_true_eq]
    rw [List.getD_eq_getElem?_getD, List.getD_eq_getElem?_getD, h3, h4, hS k _ hk2]
    simp [hlt]
  rw [hL]
  -- right: a double sum
  have hR : ((grainIndices c.phaseMap i).map fun e => S e * V e).sum =
      ((grainIndices c.phaseMap i).map fun e => (((List.range par.length).zip par).map fun kp => if kp.2 = e then S kp.2 * V' kp.1 else 0).sum).sum := by
    congr 1
    apply List.map_congr_left
    intro e he
    rw [← hV e he, ← List.sum_map_mul_left, sum_filter_ite]
    congr 1
    apply List.map_congr_left
    intro kp _
    by_cases hh : kp.2 = e
    · simp [hh]
    · simp [hh]
  rw [hR]
  generalize (List.range par.length).zip par = Z
  induction Z with
  | nil => simp
  | cons kp Z ih =>
    rw [List.map_cons, List.sum_cons, ih]
    have hsplit : ((grainIndices c.phaseMap i).map fun e => ((kp :: Z).map fun kp => if kp.2 = e then S kp.2 * V' kp.1 else 0).sum).sum =
        ((grainIndices c.phaseMap i).map fun e => if kp.2 = e then S kp.2 * V' kp.1 else 0).sum +
        ((grainIndices c.phaseMap i).map fun e => (Z.map fun kp => if kp.2 = e then S kp.2 * V' kp.1 else 0).sum).sum := by
      rw [← List.sum_map_add]
      simp only [List.map_cons, List.sum_cons]
    rw [hsplit]
    congr 1
    revert hnd
    generalize grainIndices c.phaseMap i = gr
    intro hnd
    induction gr with
    | nil => simp
    | cons e gr ihg =>
      rw [List.nodup_cons] at hnd
      rw [List.map_cons, List.sum_cons, ← ihg hnd.2]
      by_cases h1 : kp.2 = e
      · rw [if_pos h1, if_pos (by rw [h1]; exact List.mem_cons_self), if_neg (by rw [h1]; exact hnd.1), add_zero]
      · rw [if_neg h1, zero_add]
        by_cases h2 : kp.2 ∈ gr
        · rw [if_pos h2, if_pos (List.mem_cons_of_mem _ h2)]
        · rw [if_neg h2, if_neg (by rw [List.mem_cons]; rintro (h3 | h3) <;> contradiction)]

end

/-- the weighted total of all rows -/
theorem ref_allPhases {par : List ℕ} {c c' : Crystal} (h : RefCrystal par c c') {b : Beam} {m : Motion}
    {w : List Fl → ℝ} (hw : ∀ r r', SameReflection peakColumns r r' → w r = w r')
    (hlit : ∀ k j : ℕ, par[k]? = some j → ∀ t : ℝ, 0 ≤ t → t ≤ 1 →
      (b.contains (m.call1 (c'.sphereCentroids.getD k 0) t) ↔ b.contains (m.call1 (c.sphereCentroids.getD j 0) t)))
    (hV : ∀ i < c.phases.length, ∀ e ∈ grainIndices c.phaseMap i,
      ((((List.range par.length).zip par).filter fun kp => kp.2 = e).map fun kp => c'.volumes.getD kp.1 0).sum = c.volumes.getD e 0) :
    ((allPhaseRows c' b m).map fun r => litWeight w c' b m r * c'.volumes.getD ⌊colD r 0⌋.toNat 0).sum =
      ((allPhaseRows c b m).map fun r => litWeight w c b m r * c.volumes.getD ⌊colD r 0⌋.toNat 0).sum := by
  unfold allPhaseRows
  rw [h.phases]
  have key : ∀ L : List ℕ, (∀ i ∈ L, i < c.phases.length) →
      ((L.flatMap fun i => match c.phases[i]? with | some ph => phaseRows c' b m i ph | none => []).map
        fun r => litWeight w c' b m r * c'.volumes.getD ⌊colD r 0⌋.toNat 0).sum =
      ((L.flatMap fun i => match c.phases[i]? with | some ph => phaseRows c b m i ph | none => []).map
        fun r => litWeight w c b m r * c.volumes.getD ⌊colD r 0⌋.toNat 0).sum := by
    intro L
    induction L with
    | nil => intro _; rfl
    | cons i L ih =>
      intro hL
      have hi := hL i List.mem_cons_self
      rw [List.flatMap_cons, List.flatMap_cons, List.map_append, List.map_append, List.sum_append, List.sum_append,
        ih fun j hj => hL j (List.mem_cons_of_mem _ hj)]
      congr 1
      rw [List.getElem?_eq_getElem hi]
      dsimp only
      rw [phaseRows_elems, phaseRows_elems, List.map_append, List.map_append, List.sum_append, List.sum_append]
      rw [branch_total w, branch_total w, branch_total w, branch_total w]
      rw [ref_regroup h i _ _ (fun k j hk => ref_weight h hw hlit Prod.fst i _ hk) _ _ (hV i hi),
        ref_regroup h i _ _ (fun k j hk => ref_weight h hw hlit Prod.snd i _ hk) _ _ (hV i hi)]
  exact key _ fun i hi => List.mem_range.mp hi

/-- the elements of `q` are pieces of the elements `par` of `p`, as far as diffraction can tell -/
structure RefPoly (par : List ℕ) (p q : Polycrystal) : Prop where
  phases : q.phases = p.phases
  map : Picked par p.phaseMap q.phaseMap
  orientation : Picked par p.orientationLab q.orientationLab
  eB : Picked par p.eB q.eB
  volumes : ∀ i < p.phases.length, ∀ e ∈ grainIndices p.phaseMap i,
      ((((List.range par.length).zip par).filter fun kp => kp.2 = e).map fun kp => q.meshVolumes.getD kp.1 0).sum = p.meshVolumes.getD e 0

theorem RefPoly.transform {par : List ℕ} {p q : Polycrystal} (h : RefPoly par p q) (m : Motion) (t : ℝ) :
    RefPoly par (p.transform m t) (q.transform m t) where
  phases := h.phases
  map := h.map
  orientation := h.orientation.map _
  eB := h.eB
  volumes := h.volumes

theorem RefPoly.transforms {par : List ℕ} (hist : List (Motion × ℝ)) : ∀ {p q : Polycrystal}, RefPoly par p q →
    RefPoly par (p.transforms hist) (q.transforms hist) := by
  induction hist with
  | nil => intro p q h; exact h
  | cons mt hist ih => intro p q h; exact ih (h.transform mt.1 mt.2)

theorem zip_volumes (coord' : List V3) (enod' : List (Q4 ℕ)) (par : List ℕ) (hl : par.length = enod'.length) (e : ℕ) :
    ((((List.range par.length).zip par).filter fun kp => kp.2 = e).map
      fun kp => (((elements coord' enod').map tetVolume).getD kp.1 0)).sum =
    (((enod'.zip par).filter fun kp => kp.2 = e).map fun kp => elementVolume coord' kp.1).sum := by
  have hz : enod'.zip par = ((List.range par.length).zip par).map fun kp => (enod'.getD kp.1 ⟨0, 0, 0, 0⟩, kp.2) := by
    apply List.ext_getElem
    · simp [hl]
    · intro n h1 h2
      have hn : n < enod'.length := by simp at h1; omega
      simp [hn]
  rw [hz, List.filter_map, List.map_map]
  congr 1
  have hmem : ∀ kp ∈ (List.range par.length).zip par, kp.1 < enod'.length := by
    intro kp hkp
    have := (List.of_mem_zip hkp).1
    rw [List.mem_range] at this
    omega
  apply List.map_congr_left
  intro kp hkp
  have hk := hmem kp (List.mem_filter.mp hkp).1
  simp only [Function.comp, elementVolume_eq]
  unfold elements
  simp [List.getElem?_eq_getElem hk]

/-- the constructors applied to the finer mesh -/
theorem ref_new {x : Xfab} {coord coord' : List V3} {enod enod' : List (Q4 ℕ)} {par : List ℕ} (hdiv : Divides coord enod coord' enod' par)
    {mesh mesh' : TetraMesh} (hmesh : TetraMesh.new coord enod = .ok mesh) (hmesh' : TetraMesh.new coord' enod' = .ok mesh')
    {o o' s s' : MatArg} (ho : PickedMat par o o') (hs : PickedMat par s s')
    {ph : PhasesArg} {map map' : Option (List ℝ)} (hm : Option.Rel (Picked par) map map') {p : Polycrystal}
    (hp : Polycrystal.new x mesh o s ph map = .ok p) :
    ∃ q, Polycrystal.new x mesh' o' s' ph map' = .ok q ∧ RefPoly par p q := by
  have hin := hdiv.range
  unfold TetraMesh.new at hmesh hmesh'
  split_ifs at hmesh hmesh' with c1 c2 c3 c4
  obtain rfl := Except.ok.inj hmesh
  obtain rfl := Except.ok.inj hmesh'
  obtain ⟨U, S, kind, pm, eB, hU, hS, hk, heB, rfl⟩ := Polycrystal.new_ok hp
  have hn : (TetraMesh.ofData coord enod).enod.length = enod.length := rfl
  rw [hn] at hU hS hk heB
  obtain ⟨U', hU', pU⟩ := picked_mat hin ho hU
  obtain ⟨S', hS', pS⟩ := picked_mat hin hs hS
  have hmap : ∃ pm', instantiatePhase ph.toList map' par.length = .ok (kind, pm') ∧ Picked par pm pm' := by
    unfold instantiatePhase at hk ⊢
    cases hm with
    | none =>
      dsimp only at hk ⊢
      split_ifs at hk ⊢ with hc
      have := Except.ok.inj hk
      simp only [Prod.mk.injEq] at this
      obtain ⟨rfl, rfl⟩ := this
      exact ⟨_, rfl, Picked.replicate hin 0⟩
    | some h =>
      have := Except.ok.inj hk
      simp only [Prod.mk.injEq] at this
      obtain ⟨rfl, rfl⟩ := this
      exact ⟨_, rfl, h⟩
  obtain ⟨pm', hpm', pM⟩ := hmap
  obtain ⟨eB', heB', pB⟩ := picked_eB hin pU pS pM heB
  have hrange : ∀ i < ph.toList.length, ∀ e ∈ grainIndices pm i, e < enod.length := by
    unfold instantiateEB at heB
    split_ifs at heB with hc
    intro i hi e he
    by_contra hge
    exact hc ⟨i, hi, e, he, by omega⟩
  refine ⟨{ meshLab := TetraMesh.ofData coord' enod', meshSample := TetraMesh.ofData coord' enod', orientationLab := U',
            orientationSample := U', strainLab := S', strainSample := S', phases := ph.toList, mapKind := kind, phaseMap := pm',
            eB := eB', meshVolumes := (elements coord' enod').map tetVolume }, ?_, ?_⟩
  · have hl : (TetraMesh.ofData coord' enod').enod.length = par.length := hdiv.length.symm
    unfold Polycrystal.new
    dsimp only
    rw [hl, hU', hS', hpm']
    dsimp only
    rw [heB']
    rfl
  · refine ⟨rfl, pM, pU, pB, ?_⟩
    intro i hi e he
    have hlt := hrange i hi e he
    show (((((List.range par.length).zip par).filter fun kp => kp.2 = e).map
      fun kp => (((elements coord' enod').map tetVolume).getD kp.1 0)).sum = ((elements coord enod).map tetVolume).getD e 0)
    rw [zip_volumes coord' enod' par hdiv.length e, hdiv.volumes e enod[e] (List.getElem?_eq_getElem hlt), elementVolume_eq]
    unfold elements
    simp [List.getElem?_eq_getElem hlt]

/-- C107: dividing the elements of a sample into smaller ones, every piece with the orientation, strain and phase of the element it came
from, gives a sample that can be built whenever the original can; moved by the same history of motions and scanned with the same beam,
motion and Bragg limits, the finer sample scatters the same total power into every reflection: for every weight `w` of a peak computed
from the reflection, its time, direction, angles and factors (any columns but those that tell the pieces apart), the sum of `w` times
the scattering volume over all peaks is the same — provided that at every moment of the scan each piece is lit (its bounding-sphere
centre is in the beam) exactly when its element is. -/
theorem C107_refined_mesh (x : Xfab) (coord coord' : List V3) (enod enod' : List (Q4 ℕ)) (par : List ℕ)
    (hdiv : Divides coord enod coord' enod' par) (mesh mesh' : TetraMesh) (hmesh : TetraMesh.new coord enod = .ok mesh)
    (hmesh' : TetraMesh.new coord' enod' = .ok mesh') (o o' s s' : MatArg) (ho : PickedMat par o o') (hs : PickedMat par s s')
    (ph : PhasesArg) (map map' : Option (List ℝ)) (hm : Option.Rel (Picked par) map map') (p : Polycrystal)
    (hp : Polycrystal.new x mesh o s ph map = .ok p) :
    ∃ q, Polycrystal.new x mesh' o' s' ph map' = .ok q ∧
    ∀ (hist : List (Motion × ℝ)) (x2 : Xfab) (b : Beam) (m : Motion) (lo hi : ℝ),
      (∀ k j : ℕ, par[k]? = some j → ∀ t : ℝ, 0 ≤ t → t ≤ 1 →
        (b.contains (m.call1 ((q.transforms hist).meshLab.espherecentroids.getD k 0) t) ↔
          b.contains (m.call1 ((p.transforms hist).meshLab.espherecentroids.getD j 0) t))) →
      ∀ d d' p1 q1, (p.transforms hist).diffract x2 b m lo hi none = .ok (d, p1) →
        (q.transforms hist).diffract x2 b m lo hi none = .ok (d', q1) →
        d'.columns = d.columns ∧
        ∀ w : List Fl → ℝ, (∀ r r', SameReflection d.columns r r' → w r = w r') →
          (d'.peaks.map fun r => w r * val d.columns r "volumes").sum = (d.peaks.map fun r => w r * val d.columns r "volumes").sum := by
  obtain ⟨q, h2, h3⟩ := ref_new hdiv hmesh hmesh' ho hs hm hp
  refine ⟨q, h2, ?_⟩
  intro hist x2 b m lo hi hlit d d' p1 q1 hd hd'
  have hsub := h3.transforms hist
  obtain ⟨lo1, hi1, hb, rfl, hc⟩ := Polycrystal.diffract_ok hd
  obtain ⟨lo2, hi2, hb', rfl, hc'⟩ := Polycrystal.diffract_ok hd'
  have hlim : (q.transforms hist).limits b lo hi none = (p.transforms hist).limits b lo hi none := rfl
  rw [hlim, hb] at hb'
  have hb' := Except.ok.inj hb'
  simp only [Prod.mk.injEq] at hb'
  obtain ⟨rfl, rfl⟩ := hb'
  refine ⟨by rw [diffract_columns hc, diffract_columns hc'], ?_⟩
  rw [diffract_columns hc]
  intro w hw
  rw [ref_total hw hc, ref_total hw hc']
  refine ref_allPhases ⟨?_, hsub.map, fun _ _ hk => hsub.orientation.getD hk 0, fun _ _ hk => hsub.eB.getD hk 0⟩ hw hlit ?_
  · show (q.transforms hist).phases.map _ = (p.transforms hist).phases.map _
    rw [hsub.phases]
  · intro i hi e he
    exact hsub.volumes i (by
      have : ((p.transforms hist).setupPhases x2 b.wavelength lo1 hi1).crystal.phases.length = (p.transforms hist).phases.length :=
        List.length_map _
      rw [← this]; exact hi) e he

/-- C107: cutting a tetrahedron through one of its edges, at any point of the edge, divides its volume. -/
theorem C107_bisect (a b c d : V3) (s : ℝ) (h0 : 0 ≤ s) (h1 : s ≤ 1) :
    volumeOf a (a + s • (b - a)) c d + volumeOf (a + s • (b - a)) b c d = volumeOf a b c d := by
  have e1 : dot (cross ((a + s • (b - a)) - a) (c - a)) (d - a) = s * dot (cross (b - a) (c - a)) (d - a) := by
    simp [V3.dot, cross]; ring
  have e2 : dot (cross (b - (a + s • (b - a))) (c - (a + s • (b - a)))) (d - (a + s • (b - a))) =
      (1 - s) * dot (cross (b - a) (c - a)) (d - a) := by
    simp [V3.dot, cross]; ring
  unfold volumeOf
  rw [e1, e2, abs_mul, abs_mul, abs_of_nonneg h0, abs_of_nonneg (by linarith : 0 ≤ 1 - s)]
  ring

theorem val_same {r r' : List Fl} (h : SameReflection peakColumns r r') {name : String} (hn : name ∉ pieceColumns)
    (hmem : name ∈ peakColumns) : val peakColumns r' name = val peakColumns r name := by
  have hi : peakColumns[peakColumns.idxOf name]? = some name := by
    rw [List.getElem?_eq_getElem (List.idxOf_lt_length_of_mem hmem), List.getElem_idxOf]
  have hnd : peakColumns.Nodup := by decide
  have hiff : ∀ (q : List Fl) v, Has peakColumns q name v ↔ q[peakColumns.idxOf name]? = some v := by
    intro q v
    constructor
    · rintro ⟨i, h1, h2⟩
      obtain ⟨hlt, h1⟩ := List.getElem?_eq_some_iff.mp h1
      have : peakColumns.idxOf name = i := by rw [← h1, hnd.idxOf_getElem]
      rw [this]; exact h2
    · intro h2; exact ⟨_, hi, h2⟩
  have he : r'[peakColumns.idxOf name]? = r[peakColumns.idxOf name]? := by
    apply Option.ext
    intro v
    have := h name hn v
    rw [hiff, hiff] at this
    exact this
  unfold val
  rw [he]

/-- C107 for the power scattered into one family of reflections: structure factor times Lorentz and polarization factors times volume,
summed over the peaks of the phase and Miller indices given. -/
theorem C107_scattered_power (x : Xfab) (coord coord' : List V3) (enod enod' : List (Q4 ℕ)) (par : List ℕ)
    (hdiv : Divides coord enod coord' enod' par) (mesh mesh' : TetraMesh) (hmesh : TetraMesh.new coord enod = .ok mesh)
    (hmesh' : TetraMesh.new coord' enod' = .ok mesh') (o o' s s' : MatArg) (ho : PickedMat par o o') (hs : PickedMat par s s')
    (ph : PhasesArg) (map map' : Option (List ℝ)) (hm : Option.Rel (Picked par) map map') (p q : Polycrystal)
    (hp : Polycrystal.new x mesh o s ph map = .ok p) (hq : Polycrystal.new x mesh' o' s' ph map' = .ok q)
    (hist : List (Motion × ℝ)) (x2 : Xfab) (b : Beam) (m : Motion) (lo hi : ℝ)
    (hlit : ∀ k j : ℕ, par[k]? = some j → ∀ t : ℝ, 0 ≤ t → t ≤ 1 →
      (b.contains (m.call1 ((q.transforms hist).meshLab.espherecentroids.getD k 0) t) ↔
        b.contains (m.call1 ((p.transforms hist).meshLab.espherecentroids.getD j 0) t)))
    (d d' : PeaksDict) (p1 q1 : Polycrystal) (hd : (p.transforms hist).diffract x2 b m lo hi none = .ok (d, p1))
    (hd' : (q.transforms hist).diffract x2 b m lo hi none = .ok (d', q1)) (i h k l : ℝ) :
    ((d'.peaks.filter fun r => decide (val d.columns r "phase_number" = i ∧ val d.columns r "h" = h ∧ val d.columns r "k" = k ∧
        val d.columns r "l" = l)).map fun r => val d.columns r "structure_factors" * val d.columns r "lorentz_factors" *
        val d.columns r "polarization_factors" * val d.columns r "volumes").sum =
    ((d.peaks.filter fun r => decide (val d.columns r "phase_number" = i ∧ val d.columns r "h" = h ∧ val d.columns r "k" = k ∧
        val d.columns r "l" = l)).map fun r => val d.columns r "structure_factors" * val d.columns r "lorentz_factors" *
        val d.columns r "polarization_factors" * val d.columns r "volumes").sum := by
  obtain ⟨q', hq', main⟩ := C107_refined_mesh x coord coord' enod enod' par hdiv mesh mesh' hmesh hmesh' o o' s s' ho hs ph map map' hm p hp
  rw [hq] at hq'
  obtain rfl := Except.ok.inj hq'
  obtain ⟨hcols, main⟩ := main hist x2 b m lo hi hlit d d' p1 q1 hd hd'
  have hpc : d.columns = peakColumns := by
    obtain ⟨lo1, hi1, -, -, hc⟩ := Polycrystal.diffract_ok hd
    exact diffract_columns hc
  rw [hpc] at main ⊢
  have := main (fun r => if (val peakColumns r "phase_number" = i ∧ val peakColumns r "h" = h ∧ val peakColumns r "k" = k ∧
        val peakColumns r "l" = l) then val peakColumns r "structure_factors" * val peakColumns r "lorentz_factors" *
        val peakColumns r "polarization_factors" else 0) (by
    intro r r' hrr
    beta_reduce
    rw [val_same hrr (name := "phase_number") (by decide) (by decide), val_same hrr (name := "h") (by decide) (by decide),
      val_same hrr (name := "k") (by decide) (by decide), val_same hrr (name := "l") (by decide) (by decide),
      val_same hrr (name := "structure_factors") (by decide) (by decide),
      val_same hrr (name := "lorentz_factors") (by decide) (by decide),
      val_same hrr (name := "polarization_factors") (by decide) (by decide)])
  rw [sum_filter_ite, sum_filter_ite]
  simpa only [decide_eq_true_eq, ite_mul, zero_mul] using this

/-! ### an example -/

/-- the nodes of the scene and the middle of its first edge -/
noncomputable def halvesCoord : List V3 := [⟨0, 0, 0⟩, ⟨1, 0, 0⟩, ⟨0, 2, 0⟩, ⟨0, 0, 3⟩, ⟨1/2, 0, 0⟩]

/-- the element of the scene cut into two -/
noncomputable def halvesMesh : TetraMesh := TetraMesh.ofData halvesCoord [⟨0, 4, 2, 3⟩, ⟨4, 1, 2, 3⟩]

theorem halvesMesh_new : TetraMesh.new halvesCoord [⟨0, 4, 2, 3⟩, ⟨4, 1, 2, 3⟩] = .ok halvesMesh := by
  unfold TetraMesh.new
  rw [if_pos, if_pos]
  · rfl
  · intro t ht
    simp [elements, Q4.map, halvesCoord] at ht
    rcases ht with rfl | rfl <;> norm_num [signedVolume, cross, V3.dot]
  · intro e he
    simp only [List.mem_cons, List.not_mem_nil, or_false] at he
    rcases he with rfl | rfl <;> simp [Q4.toList, halvesCoord]

theorem halves_divides : Divides sceneCoord [⟨0, 1, 2, 3⟩] halvesCoord [⟨0, 4, 2, 3⟩, ⟨4, 1, 2, 3⟩] [0, 0] where
  length := rfl
  range := by simp
  volumes := by
    intro e E hE
    have he : e = 0 := by
      by_contra hne
      rw [List.getElem?_eq_none (by simp; omega)] at hE
      cases hE
    subst he
    obtain rfl := Option.some.inj hE
    have := C107_bisect ⟨0, 0, 0⟩ ⟨1, 0, 0⟩ ⟨0, 2, 0⟩ ⟨0, 0, 3⟩ (1/2) (by norm_num) (by norm_num)
    have e1 : (⟨0, 0, 0⟩ : V3) + (1/2 : ℝ) • ((⟨1, 0, 0⟩ : V3) - ⟨0, 0, 0⟩) = ⟨1/2, 0, 0⟩ := by ext <;> simp
    rw [e1] at this
    simpa [elementVolume, sceneCoord, halvesCoord] using this

theorem halves_sphere : ∀ k < 2, nsq (halvesMesh.espherecentroids.getD k 0) < 100 := by
  have key : ∀ a : ℝ × ℝ, a = (0, 1/2) ∨ a = (1/2, 1) →
      nsq (sphereOf ⟨⟨a.1, 0, 0⟩, ⟨a.2, 0, 0⟩, ⟨0, 2, 0⟩, ⟨0, 0, 3⟩⟩).1 < 100 := by
    intro a ha
    set t : Tet := ⟨⟨a.1, 0, 0⟩, ⟨a.2, 0, 0⟩, ⟨0, 2, 0⟩, ⟨0, 0, 3⟩⟩ with ht
    have h3 : nsq (sphere4 t).1 < 100 := by
      rcases ha with rfl | rfl <;>
      · simp only [sphere4, ht, norm_sq]
        norm_num [nsq, V3.dot, M3.inv, mulVec, M3.det, V3.cross]
    have hij : ∀ k : ℕ, pairTable.getD k (0, 1) ∈ pairTable := by
      intro k
      by_cases hk : k < 6
      · interval_cases k <;> decide
      · rw [List.getD_eq_default _ _ (by simp [pairTable]; omega)]; decide
    have main : ∀ ij ∈ pairTable, ∀ b : Bool,
        nsq (sphere2 (t.get ij.1) (t.get ij.2)).1 < 100 ∧
        nsq (sphere3 (t.get ij.1) (t.get ij.2) (if b then t.get (([0, 1, 2, 3].filter fun k => k ≠ ij.1 ∧ k ≠ ij.2).getD 0 0)
          else t.get (([0, 1, 2, 3].filter fun k => k ≠ ij.1 ∧ k ≠ ij.2).getD 1 0))).1 < 100 := by
      intro ij hij b
      simp only [pairTable, List.mem_cons, List.not_mem_nil, or_false] at hij
      rcases ha with rfl | rfl <;> rcases hij with rfl | rfl | rfl | rfl | rfl | rfl <;> cases b <;>
        simp [sphere2, sphere3, ht, Q4.get, norm_sq, nsq, V3.dot, V3.cross] <;> norm_num
    have hm := main _ (hij (argmax (sidesOf t)))
    unfold sphereOf
    dsimp only
    split_ifs with h1 h2 h4
    all_goals first | exact (hm true).1 | exact h3 | skip
    · simpa using (hm true).2
    · simpa using (hm false).2
  intro k hk
  interval_cases k
  · exact key (0, 1/2) (Or.inl rfl)
  · exact key (1/2, 1) (Or.inr rfl)

/-- the crystal made of the halves -/
noncomputable def halvesPoly (B : M3) : Polycrystal :=
  { meshLab := halvesMesh, meshSample := halvesMesh, orientationLab := [1, 1], orientationSample := [1, 1], strainLab := [0, 0],
    strainSample := [0, 0], phases := [scenePhase], mapKind := .torch, phaseMap := [0, 0], eB := [B, B],
    meshVolumes := (elements halvesMesh.coord halvesMesh.enod).map tetVolume }

theorem halvesPoly_new (B : M3) :
    Polycrystal.new (xOf B) halvesMesh (.one 1) (.one 0) (.one scenePhase) (some [0, 0]) = .ok (halvesPoly B) := by
  have h := twinPoly_new B
  obtain ⟨U, S, kind, pm, eB, hU, hS, hk, heB, heq⟩ := Polycrystal.new_ok h
  have hl : halvesMesh.enod.length = twinMesh.enod.length := rfl
  have e1 := congrArg Polycrystal.orientationLab heq
  have e2 := congrArg Polycrystal.strainLab heq
  have e3 := congrArg Polycrystal.mapKind heq
  have e4 := congrArg Polycrystal.phaseMap heq
  have e5 := congrArg Polycrystal.eB heq
  dsimp only at e1 e2 e3 e4 e5
  subst e1 e2 e3 e4 e5
  unfold Polycrystal.new
  dsimp only
  rw [hl, hU, hS, hk]
  dsimp only
  rw [heB]
  rfl

/-- C107 is not vacuous: the element of the scene and its two halves; both crystals can be built and report peaks, and the halves are lit
exactly when the element is. -/
example : ∃ (d d' : PeaksDict) (p1 q1 : Polycrystal),
    Divides sceneCoord [⟨0, 1, 2, 3⟩] halvesCoord [⟨0, 4, 2, 3⟩, ⟨4, 1, 2, 3⟩] [0, 0] ∧
    PickedMat [0, 0] (.one 1) (.one 1) ∧ Option.Rel (Picked [0, 0]) (some [(0 : ℝ)]) (some [0, 0]) ∧
    Polycrystal.new (xOf plainB) halvesMesh (.one 1) (.one 0) (.one scenePhase) (some [0, 0]) = .ok (halvesPoly plainB) ∧
    (∀ k j : ℕ, ([0, 0] : List ℕ)[k]? = some j → ∀ t : ℝ, 0 ≤ t → t ≤ 1 →
      (demoBeam.contains (demoZ.call1 ((halvesPoly plainB).meshLab.espherecentroids.getD k 0) t) ↔
        demoBeam.contains (demoZ.call1 ((polyOf plainB).meshLab.espherecentroids.getD j 0) t))) ∧
    (polyOf plainB).diffract (duoX plainB) demoBeam demoZ 0 (Real.pi / 2) none = .ok (d, p1) ∧
    (halvesPoly plainB).diffract (duoX plainB) demoBeam demoZ 0 (Real.pi / 2) none = .ok (d', q1) ∧
    d.peaks ≠ [] ∧ d'.peaks ≠ [] := by
  have h1 : norm (plainB.mulVec ⟨1, 0, 0⟩) ≤ 2 := norm_le_two (by norm_num [plainB, mulVec, nsq, V3.dot])
  have h2 : norm (plainB.mulVec ⟨0, 1, 0⟩) ≤ 2 := norm_le_two (by norm_num [plainB, mulVec, nsq, V3.dot])
  have e1 : getG 1 plainB ⟨1, 0, 0⟩ = ⟨-3/5, 4/5, 1⟩ := by
    ext <;> simp [getG, plainB, mulVec, vecMul, V3.dot]
  have e2 : getG 1 plainB ⟨0, 1, 0⟩ = ⟨-3/5, 4/5, -1⟩ := by
    ext <;> simp [getG, plainB, mulVec, vecMul, V3.dot]
  have q1 : nsq (⟨-3/5, 4/5, 1⟩ : V3) = 2 := by norm_num [nsq, V3.dot]
  have q2 : nsq (⟨-3/5, 4/5, -1⟩ : V3) = 2 := by norm_num [nsq, V3.dot]
  have k1 : Found demoBeam demoZ (getG 1 plainB ⟨1, 0, 0⟩) (2 * Real.arctan (1/2) / (Real.pi / 2)) :=
    whole_found (by norm_num) (by norm_num) (by rw [e1, q1]; norm_num) (by rw [e1, q1]; norm_num)
  have k2 : Found demoBeam demoZ (getG 1 plainB ⟨0, 1, 0⟩) (2 * Real.arctan (1/2) / (Real.pi / 2)) :=
    whole_found (by norm_num) (by norm_num) (by rw [e2, q2]; norm_num) (by rw [e2, q2]; norm_num)
  obtain ⟨d, hd, idx, hrow⟩ := duo_found 1 plainB (sceneMesh.espherecentroids.getD 0 0) scene_sphere
    ((polyOf plainB).meshVolumes.getD 0 0) demoZ norm_ez rfl rfl k1 k2
  set c := ((halvesPoly plainB).setupPhases (duoX plainB) demoBeam.wavelength 0 (Real.pi / 2)).crystal with hc
  have hphs : c.phases = [duoPhase] := by
    rw [hc]; simp only [Polycrystal.setupPhases, Polycrystal.crystal, halvesPoly, List.map, duo_setup h1 h2]
  have hcons : ∀ ph ∈ c.phases, ph.Consistent := by
    intro ph h; rw [hphs, List.mem_singleton] at h; subst h; intro sf h; cases h
  have r1 : ∀ e, e < 2 → Reflection c e 0 duoPhase 0 ⟨1, 0, 0⟩ 1 := by
    intro e he
    refine ⟨?_, by rw [hphs]; rfl, rfl, rfl⟩
    show ([0, 0] : List ℝ)[e]? = _
    interval_cases e <;> simp
  have hG : ∀ e, e < 2 → c.G0 e ⟨1, 0, 0⟩ = getG 1 plainB ⟨1, 0, 0⟩ := by
    intro e he
    have ee : HKL.toV ⟨1, 0, 0⟩ = ⟨1, 0, 0⟩ := by simp [HKL.toV]
    show getG (([1, 1] : List M3).getD e 0) (([plainB, plainB] : List M3).getD e 0) _ = _
    rw [ee]
    interval_cases e <;> rfl
  have m1 : ∀ e, e < 2 → row10 c e 0 ⟨1, 0, 0⟩ 1 (2 * Real.arctan (1/2) / (Real.pi / 2)) ∈ allPhaseRows c demoBeam demoZ := by
    intro e he
    exact (mem_allPhaseRows hcons).mpr ⟨_, _, _, _, _, _, _, r1 e he, by rw [hG e he]; exact k1, rfl⟩
  have hlen : (allPhaseRows c demoBeam demoZ).length ≠ 1 := by
    intro hl
    obtain ⟨r, hr⟩ := List.length_eq_one_iff.mp hl
    have a0 := m1 0 (by omega)
    have a1 := m1 1 (by omega)
    rw [hr, List.mem_singleton] at a0 a1
    have := a0.trans a1.symm
    simp [row10] at this
  have hok : ∃ d, diffractCore c demoBeam demoZ = .ok d := by
    unfold diffractCore computePeaks
    rw [if_neg (by intro h; cases h.1)]
    dsimp only
    rw [if_neg hlen]
    exact ⟨_, rfl⟩
  obtain ⟨d', hd'⟩ := hok
  obtain ⟨idx2, hrow'⟩ := mem_diffract_of hcons hd' (r1 1 (by omega)) (by rw [hG 1 (by omega)]; exact k1) (by
    apply demoBeam_contains
    rw [call1_nsq norm_ez rfl rfl]
    exact halves_sphere 1 (by omega))
  refine ⟨d, d', _, _, halves_divides, PickedMat.one 1, Option.Rel.some rfl, halvesPoly_new plainB, ?_,
    duo_core_first _ (duo_moved h1 h2 none) hd, duo_core_first _ rfl hd', ?_, ?_⟩
  · intro k j hk t _ _
    have hk2 : k < 2 := by
      by_contra hge
      rw [List.getElem?_eq_none (by simp; omega)] at hk
      cases hk
    have hj : j = 0 := by
      interval_cases k
      · exact (Option.some.inj hk).symm
      · exact (Option.some.inj hk).symm
    subst hj
    refine iff_of_true (demoBeam_contains ?_) (demoBeam_contains ?_)
    · rw [call1_nsq norm_ez rfl rfl]; exact halves_sphere k hk2
    · rw [call1_nsq norm_ez rfl rfl]; exact scene_sphere
  · intro h; rw [h] at hrow; cases hrow
  · intro h; rw [h] at hrow'; cases hrow'

end XRD
