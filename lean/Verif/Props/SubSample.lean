import Verif.Lemmas.SubSample
import Verif.Props.SplitFails

/-! Property C74: the peaks of a part of the sample. -/

namespace XRD.Spec
open XRD V3

/-- an orientation or strain argument for the part: the common matrix, or the entries of the elements of the part -/
inductive PickedMat (js : List ℕ) : MatArg → MatArg → Prop
  | one (U : M3) : PickedMat js (.one U) (.one U)
  | many {L L' : List M3} (h : Picked js L L') : PickedMat js (.many L) (.many L')

/-- the row belongs to one of the elements `js` -/
def OfElements (cols : List String) (js : List ℕ) (row : List Fl) : Prop := ∃ j ∈ js, Has cols row "grain_index" (.fin (j : ℝ))

/-- `row'` describes for the part (whose element `k` is element `js[k]` of the whole) the event `row` of the whole: element numbers
correspond, every other column except the running number is identical. -/
def SameEventPart (cols : List String) (js : List ℕ) (row row' : List Fl) : Prop :=
  (∃ k j : ℕ, js[k]? = some j ∧ Has cols row "grain_index" (.fin (j : ℝ)) ∧ Has cols row' "grain_index" (.fin (k : ℝ))) ∧
  ∀ name, name ≠ "grain_index" → name ≠ "peak_index" → ∀ v, Has cols row' name v ↔ Has cols row name v
end XRD.Spec

namespace XRD
open V3 M3 Fl Spec
open scoped Classical

/-- the elements of `q` are the elements `js` of `p`, in that order, as far as diffraction can tell -/
structure PartPoly (js : List ℕ) (p q : Polycrystal) : Prop where
  phases : q.phases = p.phases
  kind : q.mapKind = p.mapKind
  map : Picked js p.phaseMap q.phaseMap
  orientation : Picked js p.orientationLab q.orientationLab
  eB : Picked js p.eB q.eB
  coord : q.meshLab.coord = p.meshLab.coord
  spheres : Picked js p.meshLab.espherecentroids q.meshLab.espherecentroids
  volumes : Picked js p.meshVolumes q.meshVolumes

theorem PartPoly.transform {js : List ℕ} {p q : Polycrystal} (h : PartPoly js p q) (m : Motion) (t : ℝ) :
    PartPoly js (p.transform m t) (q.transform m t) where
  phases := h.phases
  kind := h.kind
  map := h.map
  orientation := h.orientation.map _
  eB := h.eB
  coord := by show q.meshLab.coord.map _ = p.meshLab.coord.map _; rw [h.coord]
  spheres := h.spheres.map _
  volumes := h.volumes

theorem PartPoly.transforms {js : List ℕ} (hist : List (Motion × ℝ)) : ∀ {p q : Polycrystal}, PartPoly js p q →
    PartPoly js (p.transforms hist) (q.transforms hist) := by
  induction hist with
  | nil => intro p q h; exact h
  | cons mt hist ih => intro p q h; exact ih (h.transform mt.1 mt.2)

theorem PartPoly.crystal {js : List ℕ} {p q : Polycrystal} (h : PartPoly js p q) (x : Xfab) (wl lo hi : ℝ) :
    PartCrystal js (p.setupPhases x wl lo hi).crystal (q.setupPhases x wl lo hi).crystal where
  phases := by show q.phases.map _ = p.phases.map _; rw [h.phases]
  map := h.map
  orientation := fun _ _ hk => h.orientation.getD hk 0
  eB := fun _ _ hk => h.eB.getD hk 0
  spheres := fun _ _ hk => h.spheres.getD hk 0
  volumes := fun _ _ hk => h.volumes.getD hk 0

theorem picked_mat {js : List ℕ} {n : ℕ} (hjs : ∀ j ∈ js, j < n) {o o' : MatArg} (ho : PickedMat js o o') {U : List M3}
    (hU : instantiateMat o n = .ok U) : ∃ U', instantiateMat o' js.length = .ok U' ∧ Picked js U U' := by
  cases ho with
  | one m =>
    obtain rfl := Except.ok.inj hU
    exact ⟨_, rfl, Picked.replicate hjs m⟩
  | @many L L' h =>
    unfold instantiateMat at hU
    dsimp only at hU
    split_ifs at hU with hl
    obtain rfl := Except.ok.inj hU
    exact ⟨L', by unfold instantiateMat; dsimp only; rw [if_pos h.length], h⟩

theorem eB_value {x : Xfab} {n : ℕ} {U S : List M3} {phs : List Phase} {pm : List ℝ} {eB : List M3}
    (h : instantiateEB x n U S phs pm = .ok eB) :
    eB.length = n ∧
    (∀ e < n, (∀ i < phs.length, pm[e]? ≠ some (i : ℝ)) → eB[e]? = some 0) ∧
    (∀ (i : ℕ) ph, phs[i]? = some ph → ∀ e < n, pm[e]? = some (i : ℝ) →
      ∃ B, bOfStrain ((U.getD e 0).tr * (S.getD e 0 * U.getD e 0)) (x.formB ph.unitCell) = .ok B ∧ eB[e]? = some B) := by
  unfold instantiateEB at h
  split_ifs at h with hc
  obtain ⟨h1, h2, h3⟩ := eBLoop_spec phs _ eB 0 h
  rw [List.length_replicate] at h1 h3
  refine ⟨h1, ?_, ?_⟩
  · intro e he hn
    rw [h2 e (fun j hj hm => hn j hj (by rw [Nat.zero_add] at hm; exact mem_grainIndices.mp hm))]
    rw [List.getElem?_replicate, if_pos he]
  · intro i ph hph e he hm
    exact h3 i ph hph e (by rw [Nat.zero_add]; exact mem_grainIndices.mpr hm) he

theorem picked_eB {x : Xfab} {js : List ℕ} {n : ℕ} (hjs : ∀ j ∈ js, j < n) {U S U' S' : List M3} {phs : List Phase} {pm pm' : List ℝ}
    {eB : List M3} (hU : Picked js U U') (hS : Picked js S S') (hm : Picked js pm pm') (h : instantiateEB x n U S phs pm = .ok eB) :
    ∃ eB', instantiateEB x js.length U' S' phs pm' = .ok eB' ∧ Picked js eB eB' := by
  have hex : ∃ eB', instantiateEB x js.length U' S' phs pm' = .ok eB' := by
    have h0 := h
    unfold instantiateEB at h0 ⊢
    split_ifs at h0 with hc
    rw [if_neg]
    · rw [eBLoop_ok]
      intro i ph hph
      obtain ⟨bs, hbs⟩ := (eBLoop_ok phs _ 0).mp ⟨_, h0⟩ i ph hph
      rw [Nat.zero_add] at hbs ⊢
      have hcorr : ∀ k ∈ grainIndices pm' i, ∃ j ∈ grainIndices pm i, S'.getD k 0 = S.getD j 0 ∧ U'.getD k 0 = U.getD j 0 := by
        intro k hk
        rw [mem_grainIndices] at hk
        have hlt : k < js.length := by rw [← hm.length]; exact (List.getElem?_eq_some_iff.mp hk).1
        have hk2 : js[k]? = some js[k] := List.getElem?_eq_getElem hlt
        obtain ⟨a, h3, h4⟩ := hm.get hk2
        exact ⟨js[k], mem_grainIndices.mpr (by rw [h3, ← h4, hk]), hS.getD hk2 0, hU.getD hk2 0⟩
      unfold labStrainToB epsilonToBBatch at hbs ⊢
      split_ifs at hbs with hneg
      have hall : ∀ e ∈ (grainIndices pm i), ∃ B, bOfStrain ((U.getD e 0).tr * (S.getD e 0 * U.getD e 0)) (x.formB ph.unitCell) = .ok B := by
        intro e he
        obtain ⟨hl, hget⟩ := batch_ok hbs
        obtain ⟨r, hr, rfl⟩ := List.mem_iff_getElem.mp he
        have h1 : r < (((grainIndices pm i).map fun e => (S.getD e 0, U.getD e 0)).map fun p => p.2.tr * (p.1 * p.2)).length := by
          simpa using hr
        have := hget r h1 (by rw [hl]; exact h1)
        exact ⟨_, by simpa using this⟩
      rw [if_neg]
      · apply batch_of_all
        intro a ha
        simp only [List.map_map, List.mem_map, Function.comp] at ha
        obtain ⟨k, hk, rfl⟩ := ha
        obtain ⟨j, hj, e1, e2⟩ := hcorr k hk
        rw [e1, e2]
        exact hall j hj
      · rintro ⟨a, ha, hna⟩
        simp only [List.map_map, List.mem_map, Function.comp] at ha
        obtain ⟨k, hk, rfl⟩ := ha
        obtain ⟨j, hj, e1, e2⟩ := hcorr k hk
        rw [e1, e2] at hna
        exact hneg ⟨_, by simp only [List.map_map, List.mem_map, Function.comp]; exact ⟨j, hj, rfl⟩, hna⟩
    · rintro ⟨i, hi, k, hk, hle⟩
      rw [mem_grainIndices] at hk
      have : k < js.length := by rw [← hm.length]; exact (List.getElem?_eq_some_iff.mp hk).1
      omega
  obtain ⟨eB', h'⟩ := hex
  refine ⟨eB', h', ?_⟩
  obtain ⟨a1, a2, a3⟩ := eB_value h
  obtain ⟨b1, b2, b3⟩ := eB_value h'
  unfold Picked
  apply List.ext_getElem?
  intro k
  rw [List.getElem?_map, List.getElem?_map]
  by_cases hk : k < js.length
  · have hk2 : js[k]? = some js[k] := List.getElem?_eq_getElem hk
    obtain ⟨v, h3, h4⟩ := hm.get hk2
    have hj := hjs js[k] (List.getElem_mem hk)
    rw [hk2]
    simp only [Option.map_some]
    by_cases hph : ∃ i < phs.length, v = (i : ℝ)
    · obtain ⟨i, hi, rfl⟩ := hph
      obtain ⟨B, hB, hB1⟩ := a3 i phs[i] (List.getElem?_eq_getElem hi) js[k] hj h3
      obtain ⟨B', hB', hB1'⟩ := b3 i phs[i] (List.getElem?_eq_getElem hi) k hk h4
      rw [hU.getD hk2, hS.getD hk2, hB] at hB'
      obtain rfl := Except.ok.inj hB'
      rw [hB1, hB1']
      rfl
    · push Not at hph
      rw [a2 js[k] hj (fun i hi hh => hph i hi (by rw [h3] at hh; exact Option.some.inj hh)),
        b2 k hk (fun i hi hh => hph i hi (by rw [h4] at hh; exact Option.some.inj hh))]
      rfl
  · rw [List.getElem?_eq_none (by omega), List.getElem?_eq_none (l := js) (by omega)]
    rfl

/-- the constructors applied to a part -/
theorem sub_new {x : Xfab} {coord : List V3} {enod enod' : List (Q4 ℕ)} {js : List ℕ} (he : Picked js enod enod')
    {mesh : TetraMesh} (hmesh : TetraMesh.new coord enod = .ok mesh) {o o' s s' : MatArg} (ho : PickedMat js o o') (hs : PickedMat js s s')
    {ph : PhasesArg} {map map' : Option (List ℝ)} (hm : Option.Rel (Picked js) map map') {p : Polycrystal}
    (hp : Polycrystal.new x mesh o s ph map = .ok p) :
    ∃ mesh' q, TetraMesh.new coord enod' = .ok mesh' ∧ Polycrystal.new x mesh' o' s' ph map' = .ok q ∧ PartPoly js p q := by
  have hin : ∀ j ∈ js, j < enod.length := by
    intro j hj
    obtain ⟨k, hk⟩ := List.mem_iff_getElem?.mp hj
    obtain ⟨a, h1, -⟩ := he.get hk
    exact (List.getElem?_eq_some_iff.mp h1).1
  have hsub : ∀ a ∈ enod', a ∈ enod := by
    intro a ha
    obtain ⟨k, hk⟩ := List.mem_iff_getElem?.mp ha
    have hlt : k < js.length := by rw [← he.length]; exact (List.getElem?_eq_some_iff.mp hk).1
    obtain ⟨b, h1, h2⟩ := he.get (List.getElem?_eq_getElem hlt)
    rw [hk] at h2
    obtain rfl := Option.some.inj h2
    exact List.mem_of_getElem? h1
  unfold TetraMesh.new at hmesh
  split_ifs at hmesh with c1 c2
  obtain rfl := Except.ok.inj hmesh
  have hmesh' : TetraMesh.new coord enod' = .ok (TetraMesh.ofData coord enod') := by
    unfold TetraMesh.new
    rw [if_pos fun e h => c1 e (hsub e h), if_pos]
    intro t ht
    apply c2
    unfold elements at ht ⊢
    obtain ⟨e, h, rfl⟩ := List.mem_map.mp ht
    exact List.mem_map.mpr ⟨e, hsub e h, rfl⟩
  obtain ⟨U, S, kind, pm, eB, hU, hS, hk, heB, rfl⟩ := Polycrystal.new_ok hp
  have hn : (TetraMesh.ofData coord enod).enod.length = enod.length := rfl
  rw [hn] at hU hS hk heB
  obtain ⟨U', hU', pU⟩ := picked_mat hin ho hU
  obtain ⟨S', hS', pS⟩ := picked_mat hin hs hS
  have hmap : ∃ pm', instantiatePhase ph.toList map' js.length = .ok (kind, pm') ∧ Picked js pm pm' := by
    unfold instantiatePhase at hk ⊢
    cases hm with
    | none =>
      dsimp only at hk ⊢
      split_ifs at hk ⊢ with hc
      have := Except.ok.inj hk
      simp only [Prod.mk.injEq] at this
      obtain ⟨rfl, rfl⟩ := this
      exact ⟨_, rfl, Picked.replicate hin 0⟩
    | some h =>
      have := Except.ok.inj hk
      simp only [Prod.mk.injEq] at this
      obtain ⟨rfl, rfl⟩ := this
      exact ⟨_, rfl, h⟩
  obtain ⟨pm', hpm', pM⟩ := hmap
  obtain ⟨eB', heB', pB⟩ := picked_eB hin pU pS pM heB
  refine ⟨_, { meshLab := TetraMesh.ofData coord enod', meshSample := TetraMesh.ofData coord enod', orientationLab := U',
               orientationSample := U', strainLab := S', strainSample := S', phases := ph.toList, mapKind := kind, phaseMap := pm',
               eB := eB', meshVolumes := (elements coord enod').map tetVolume }, hmesh', ?_, ?_⟩
  · have hl : (TetraMesh.ofData coord enod').enod.length = js.length := he.length
    unfold Polycrystal.new
    dsimp only
    rw [hl, hU', hS', hpm']
    dsimp only
    rw [heB']
    rfl
  · exact ⟨rfl, rfl, pM, pU, pB, rfl, (he.map _).map _, (he.map _).map _⟩

theorem sub_row {js : List ℕ} {r r' : List Fl} (h : PartRow js r r') (v v' : Fl) :
    SameEventPart peakColumns js (r ++ [v]) (r' ++ [v']) := by
  obtain ⟨k, j, hk, rfl, hl, h0⟩ := h
  refine ⟨⟨k, j, hk, ⟨0, rfl, ?_⟩, ⟨0, rfl, ?_⟩⟩, ?_⟩
  · rw [List.getElem?_append_left (by rw [List.length_set]; omega), List.getElem?_set, if_pos rfl, if_pos (by omega)]
  · rw [List.getElem?_append_left (by omega)]; exact h0
  · intro name n0 n24 w
    have key : ∀ i : ℕ, peakColumns[i]? = some name → (r' ++ [v'])[i]? = (r'.set 0 (fin j) ++ [v])[i]? := by
      intro i hi
      have n24 : i ≠ 24 := fun e => n24 ((has_peakColumns hi).2.mpr e)
      have n0 : i ≠ 0 := by rintro rfl; exact n0 (Option.some.inj hi).symm
      have hi' : i < 25 := by
        by_contra hc
        rw [List.getElem?_eq_none (by show 25 ≤ i; omega)] at hi
        cases hi
      rw [List.getElem?_append_left (by omega), List.getElem?_append_left (by rw [List.length_set]; omega), List.getElem?_set,
        if_neg (fun e => n0 e.symm)]
    constructor
    · rintro ⟨i, h1, h2⟩; exact ⟨i, h1, by rw [← key i h1]; exact h2⟩
    · rintro ⟨i, h1, h2⟩; exact ⟨i, h1, by rw [key i h1]; exact h2⟩

theorem sub_core {js : List ℕ} {c c' : Crystal} (h : SubCrystal js c c') {b : Beam} {m : Motion} {d d' : PeaksDict}
    (hd : diffractCore c b m = .ok d) (hd' : diffractCore c' b m = .ok d') :
    List.Forall₂ (SameEventPart peakColumns js) (d.peaks.filter fun row => decide (OfElements peakColumns js row)) d'.peaks := by
  unfold diffractCore at hd hd'
  split at hd
  · cases hd
  rename_i rows hrows
  split at hd'
  · cases hd'
  rename_i rows' hrows'
  obtain rfl := Except.ok.inj hd
  obtain rfl := Except.ok.inj hd'
  obtain rfl := computePeaks_ok hrows
  obtain rfl := computePeaks_ok hrows'
  refine numbered_forall₂ _ _ ?_ (fun r _ r' hr v v' => sub_row hr v v') (sub_kept h b m)
  intro r hr v
  obtain ⟨q, hq, rfl⟩ := List.mem_map.mp (List.mem_filter.mp hr).1
  obtain ⟨hl, -⟩ := extendRow_timed c b m (allPhaseRows_length hq)
  rw [decide_eq_decide]
  unfold OfElements inPart24
  constructor
  · rintro ⟨j, hj, i, h1, h2⟩
    have : i = 0 := by
      have hi' : i < 25 := by
        by_contra hc
        rw [List.getElem?_eq_none (by show 25 ≤ i; omega)] at h1
        cases h1
      interval_cases i <;> first | rfl | (exfalso; revert h1; decide)
    subst this
    rw [List.getElem?_append_left (by omega)] at h2
    exact ⟨j, hj, h2⟩
  · rintro ⟨j, hj, h2⟩
    exact ⟨j, hj, 0, rfl, by rw [List.getElem?_append_left (by omega)]; exact h2⟩

/-- C74: a sample made of some of the elements (any increasing list `js` of element numbers, the nodes kept) with the orientations,
strains and phase numbers of those elements can be built whenever the whole sample can; moved by the same history of motions and
scanned with the same beam, motion and Bragg limits, it reports exactly the peaks the whole sample reports for those elements, in the
same order and with the same values in every column but the element number and the running number.  If the limits come from a
detector, some node has to be in the beam. -/
theorem C74_part_of_sample (x : Xfab) (coord : List V3) (enod enod' : List (Q4 ℕ)) (js : List ℕ) (hjs : js.Pairwise (· < ·))
    (he : Picked js enod enod') (mesh : TetraMesh) (hmesh : TetraMesh.new coord enod = .ok mesh) (o o' s s' : MatArg)
    (ho : PickedMat js o o') (hs : PickedMat js s s') (ph : PhasesArg) (map map' : Option (List ℝ))
    (hm : Option.Rel (Picked js) map map') (p : Polycrystal) (hp : Polycrystal.new x mesh o s ph map = .ok p) :
    ∃ mesh' q, TetraMesh.new coord enod' = .ok mesh' ∧ Polycrystal.new x mesh' o' s' ph map' = .ok q ∧
    ∀ (hist : List (Motion × ℝ)) (x2 : Xfab) (b : Beam) (m : Motion) (lo hi : ℝ) (det : Option Detector),
      (det = none ∨ ∃ n ∈ (p.transforms hist).meshLab.coord, b.contains n) →
      ∀ d d' p1 q1, (p.transforms hist).diffract x2 b m lo hi det = .ok (d, p1) →
        (q.transforms hist).diffract x2 b m lo hi det = .ok (d', q1) →
        d'.columns = d.columns ∧
        List.Forall₂ (SameEventPart d.columns js) (d.peaks.filter fun row => decide (OfElements d.columns js row)) d'.peaks := by
  obtain ⟨mesh', q, h1, h2, h3⟩ := sub_new he hmesh ho hs hm hp
  refine ⟨mesh', q, h1, h2, ?_⟩
  intro hist x2 b m lo hi det hdet d d' p1 q1 hd hd'
  have hsub := h3.transforms hist
  obtain ⟨lo1, hi1, hb, rfl, hc⟩ := Polycrystal.diffract_ok hd
  obtain ⟨lo2, hi2, hb', rfl, hc'⟩ := Polycrystal.diffract_ok hd'
  have hlim : (q.transforms hist).limits b lo hi det = (p.transforms hist).limits b lo hi det := by
    cases det with
    | none => rfl
    | some D =>
      obtain ⟨n, hn, hbn⟩ := hdet.resolve_left (by simp)
      have hne : ((p.transforms hist).meshLab.coord.filter fun q => decide (b.contains q)) ≠ [] := by
        intro h
        rw [List.filter_eq_nil_iff] at h
        exact h n hn (by simpa using hbn)
      unfold Polycrystal.limits Polycrystal.braggBounds Polycrystal.sourcePoint
      dsimp only
      rw [hsub.coord, if_pos hne, if_pos hne]
  rw [hlim, hb] at hb'
  have hb' := Except.ok.inj hb'
  simp only [Prod.mk.injEq] at hb'
  obtain ⟨rfl, rfl⟩ := hb'
  refine ⟨by rw [diffract_columns hc, diffract_columns hc'], ?_⟩
  rw [diffract_columns hc]
  exact sub_core ⟨hsub.crystal x2 b.wavelength lo1 hi1, hjs⟩ hc hc'


/-! ### an example -/

/-- two elements on the nodes of the scene -/
noncomputable def twinMesh : TetraMesh := TetraMesh.ofData sceneCoord [⟨0, 1, 2, 3⟩, ⟨0, 1, 2, 3⟩]

theorem twinMesh_new : TetraMesh.new sceneCoord [⟨0, 1, 2, 3⟩, ⟨0, 1, 2, 3⟩] = .ok twinMesh := by
  unfold TetraMesh.new
  rw [if_pos, if_pos]
  · rfl
  · intro t ht
    simp [elements, Q4.map, sceneCoord] at ht
    subst ht
    simp [signedVolume, cross, V3.dot]
  · decide

/-- the crystal made of them -/
noncomputable def twinPoly (B : M3) : Polycrystal :=
  { meshLab := twinMesh, meshSample := twinMesh, orientationLab := [1, 1], orientationSample := [1, 1], strainLab := [0, 0],
    strainSample := [0, 0], phases := [scenePhase], mapKind := .torch, phaseMap := [0, 0], eB := [B, B],
    meshVolumes := (elements twinMesh.coord twinMesh.enod).map tetVolume }

theorem twinPoly_new (B : M3) :
    Polycrystal.new (xOf B) twinMesh (.one 1) (.one 0) (.one scenePhase) (some [0, 0]) = .ok (twinPoly B) := by
  have hg : grainIndices [0, 0] 0 = [0, 1] := by simp [grainIndices, List.range_succ]
  have hl : twinMesh.enod.length = 2 := rfl
  have h1 : (1 : M3).tr * (0 * 1) = 0 := by rw [tr_one, one_mul', mul_one']
  have hlab : labStrainToB [((0 : M3), (1 : M3)), ((0 : M3), (1 : M3))] B = .ok [B, B] := by
    unfold labStrainToB epsilonToBBatch
    rw [if_neg]
    · simp only [List.map, h1, batch, bOfStrain_zero]
    · rintro ⟨e, he, hn⟩
      simp only [List.map, h1, List.mem_cons, List.not_mem_nil, or_false, or_self] at he
      subst he
      exact feasible_no_neg zero_feasible.1 zero_feasible.2 hn
  have heB : instantiateEB (xOf B) 2 [1, 1] [0, 0] [scenePhase] [0, 0] = .ok [B, B] := by
    unfold instantiateEB
    rw [if_neg]
    · unfold eBLoop eBStep
      dsimp only
      simp only [hg, List.map, List.getD_cons_zero, List.getD_cons_succ, xOf, hlab]
      rfl
    · rintro ⟨i, hi, e, he, hle⟩
      simp only [List.length_singleton, Nat.lt_one_iff] at hi
      subst hi
      rw [hg] at he
      simp at he
      omega
  unfold Polycrystal.new
  dsimp only
  rw [hl]
  have hr : ∀ a : M3, List.replicate 2 a = [a, a] := fun _ => rfl
  simp only [instantiateMat, instantiatePhase, PhasesArg.toList, hr, heB]
  rfl

/-- C74 is not vacuous: a crystal of two elements and the part made of the second; both report peaks. -/
example : ∃ (d d' : PeaksDict) (p1 q1 : Polycrystal),
    Picked [1] ([⟨0, 1, 2, 3⟩, ⟨0, 1, 2, 3⟩] : List (Q4 ℕ)) [⟨0, 1, 2, 3⟩] ∧ Option.Rel (Picked [1]) (some [0, 0]) (some [(0 : ℝ)]) ∧
    (twinPoly plainB).diffract (duoX plainB) demoBeam demoZ 0 (Real.pi / 2) none = .ok (d, p1) ∧
    (polyOf plainB).diffract (duoX plainB) demoBeam demoZ 0 (Real.pi / 2) none = .ok (d', q1) ∧
    (∃ row ∈ d.peaks, OfElements d.columns [1] row) ∧ d'.peaks ≠ [] := by
  have h1 : norm (plainB.mulVec ⟨1, 0, 0⟩) ≤ 2 := norm_le_two (by norm_num [plainB, mulVec, nsq, V3.dot])
  have h2 : norm (plainB.mulVec ⟨0, 1, 0⟩) ≤ 2 := norm_le_two (by norm_num [plainB, mulVec, nsq, V3.dot])
  have e1 : getG 1 plainB ⟨1, 0, 0⟩ = ⟨-3/5, 4/5, 1⟩ := by
    ext <;> simp [getG, plainB, mulVec, vecMul, V3.dot]
  have e2 : getG 1 plainB ⟨0, 1, 0⟩ = ⟨-3/5, 4/5, -1⟩ := by
    ext <;> simp [getG, plainB, mulVec, vecMul, V3.dot]
  have q1 : nsq (⟨-3/5, 4/5, 1⟩ : V3) = 2 := by norm_num [nsq, V3.dot]
  have q2 : nsq (⟨-3/5, 4/5, -1⟩ : V3) = 2 := by norm_num [nsq, V3.dot]
  have k1 : Found demoBeam demoZ (getG 1 plainB ⟨1, 0, 0⟩) (2 * Real.arctan (1/2) / (Real.pi / 2)) :=
    whole_found (by norm_num) (by norm_num) (by rw [e1, q1]; norm_num) (by rw [e1, q1]; norm_num)
  have k2 : Found demoBeam demoZ (getG 1 plainB ⟨0, 1, 0⟩) (2 * Real.arctan (1/2) / (Real.pi / 2)) :=
    whole_found (by norm_num) (by norm_num) (by rw [e2, q2]; norm_num) (by rw [e2, q2]; norm_num)
  obtain ⟨d', hd', idx, hrow'⟩ := duo_found 1 plainB (sceneMesh.espherecentroids.getD 0 0) scene_sphere
    ((polyOf plainB).meshVolumes.getD 0 0) demoZ norm_ez rfl rfl k1 k2
  -- the whole
  set c := ((twinPoly plainB).setupPhases (duoX plainB) demoBeam.wavelength 0 (Real.pi / 2)).crystal with hc
  have hphs : c.phases = [duoPhase] := by
    rw [hc]; simp only [Polycrystal.setupPhases, Polycrystal.crystal, twinPoly, List.map, duo_setup h1 h2]
  have hcons : ∀ ph ∈ c.phases, ph.Consistent := by
    intro ph h; rw [hphs, List.mem_singleton] at h; subst h; intro sf h; cases h
  have r1 : ∀ e, e < 2 → Reflection c e 0 duoPhase 0 ⟨1, 0, 0⟩ 1 := by
    intro e he
    refine ⟨?_, by rw [hphs]; rfl, rfl, rfl⟩
    show ([0, 0] : List ℝ)[e]? = _
    interval_cases e <;> simp
  have hG : ∀ e, e < 2 → c.G0 e ⟨1, 0, 0⟩ = getG 1 plainB ⟨1, 0, 0⟩ := by
    intro e he
    have ee : HKL.toV ⟨1, 0, 0⟩ = ⟨1, 0, 0⟩ := by simp [HKL.toV]
    show getG (([1, 1] : List M3).getD e 0) (([plainB, plainB] : List M3).getD e 0) _ = _
    rw [ee]
    interval_cases e <;> rfl
  have m1 : ∀ e, e < 2 → row10 c e 0 ⟨1, 0, 0⟩ 1 (2 * Real.arctan (1/2) / (Real.pi / 2)) ∈ allPhaseRows c demoBeam demoZ := by
    intro e he
    exact (mem_allPhaseRows hcons).mpr ⟨_, _, _, _, _, _, _, r1 e he, by rw [hG e he]; exact k1, rfl⟩
  have hlen : (allPhaseRows c demoBeam demoZ).length ≠ 1 := by
    intro hl
    obtain ⟨r, hr⟩ := List.length_eq_one_iff.mp hl
    have a0 := m1 0 (by omega)
    have a1 := m1 1 (by omega)
    rw [hr, List.mem_singleton] at a0 a1
    have := a0.trans a1.symm
    simp [row10] at this
  have hok : ∃ d, diffractCore c demoBeam demoZ = .ok d := by
    unfold diffractCore computePeaks
    rw [if_neg (by intro h; cases h.1)]
    dsimp only
    rw [if_neg hlen]
    exact ⟨_, rfl⟩
  obtain ⟨d, hd⟩ := hok
  obtain ⟨idx2, hrow⟩ := mem_diffract_of hcons hd (r1 1 (by omega)) (by rw [hG 1 (by omega)]; exact k1) (by
    apply demoBeam_contains
    rw [call1_nsq norm_ez rfl rfl]
    exact scene_sphere)
  refine ⟨d, d', _, _, rfl, Option.Rel.some rfl, duo_core_first _ rfl hd, duo_core_first _ (duo_moved h1 h2 none) hd', ⟨_, hrow, 1, by simp, ?_⟩, ?_⟩
  · rw [diffract_columns hd]; exact ⟨0, rfl, by simp [row24]⟩
  · intro h; rw [h] at hrow'; cases hrow'

end XRD
