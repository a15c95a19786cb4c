import Verif.Lemmas.Scale2
import Verif.Props.Covariance
import Verif.Props.Shift

/-! Property C82: changing the unit of length of the laboratory. -/

namespace XRD.Spec
open XRD V3
/-- names of the columns of `diffract` that depend on the unit of length -/
def lengthColumns : List String := ["Source_x", "Source_y", "Source_z", "volumes", "scherrer_fwhm"]
/-- `row'` describes the event of `row` with lengths `L` times larger: the source point is multiplied by `L`, the volume by `L³`, the
angular width is divided by `L`, everything else is identical. -/
def EventScaled (cols : List String) (L : ℝ) (row row' : List Fl) : Prop :=
  row'.length = row.length ∧
  (∀ name, name ∉ lengthColumns ∧ name ≠ "zd" ∧ name ≠ "yd" → ∀ v, Has cols row' name v ↔ Has cols row name v) ∧
  (∃ s, HasV cols row "Source_x" "Source_y" "Source_z" s ∧ HasV cols row' "Source_x" "Source_y" "Source_z" (L • s)) ∧
  (∃ v, Has cols row "volumes" (.fin v) ∧ Has cols row' "volumes" (.fin (L ^ 3 * v))) ∧
  (∀ w, Has cols row "scherrer_fwhm" (.fin w) → Has cols row' "scherrer_fwhm" (.fin (w / L)))
/-- Beam and motion built twice, the second time with all lengths multiplied by `L`; and the half-spaces Qhull finds for the scaled
vertices describe the scaled beam. -/
structure ScaledSetup (L : ℝ) (b b' : Beam) (m m' : Motion) : Prop where
  beam : ∃ (q q' : Qhull) (vs : List V3) (dir : V3) (wl : ℝ) (pol : V3), Beam.new q vs dir wl pol = .ok b ∧
    Beam.new q' (vs.map fun v => L • v) dir wl pol = .ok b'
  lit : ∀ p : V3, b'.contains (L • p) ↔ b.contains p
  motion : ∃ (a : V3) (w : ℝ) (T o : V3), Motion.new a w T o = .ok m ∧ Motion.new a w (L • T) (L • o) = .ok m'
/-- the pixel size argument multiplied by `L` -/
noncomputable def scaledSize (L : ℝ) : PixArg ℝ → PixArg ℝ
  | .absent => .absent
  | .both v => .both (L * v)
  | .pair z y => .pair (L * z) (L * y)
/-- A detector built twice, the second time with all lengths multiplied by `L` (the PSF width is in pixels). -/
def ScaledDetector (L : ℝ) (D D' : Detector) : Prop :=
  ∃ (c0 c1 c2 : V3) (np : PixArg ℤ) (ps : PixArg ℝ) (sg th : ℝ) (mr : ℤ) (l p s : Bool),
    Detector.new c0 c1 c2 np ps sg th mr l p s = .ok D ∧
    Detector.new (L • c0) (L • c1) (L • c2) np (scaledSize L ps) sg th mr l p s = .ok D'
/-- A polycrystal built twice on meshes built with all lengths multiplied by `L`, and transformed by the same motions, with
translations and origins multiplied by `L`. -/
def ScaledPoly (L : ℝ) (p p' : Polycrystal) : Prop :=
  ∃ (x : Xfab) (coord : List V3) (enod : List (Q4 ℕ)) (mesh mesh' : TetraMesh) (o s : MatArg) (ph : PhasesArg) (map : Option (List ℝ))
    (p0 p0' : Polycrystal) (hist : List (Motion × ℝ)),
    TetraMesh.new coord enod = .ok mesh ∧ TetraMesh.new (coord.map fun v => L • v) enod = .ok mesh' ∧
    Polycrystal.new x mesh o s ph map = .ok p0 ∧ Polycrystal.new x mesh' o s ph map = .ok p0' ∧
    p = hist.foldl (fun q mt => q.transform mt.1 mt.2) p0 ∧
    p' = (hist.map fun mt => (⟨mt.1.axis, mt.1.angle, L • mt.1.translation, L • mt.1.origin⟩, mt.2)).foldl
      (fun q mt => q.transform mt.1 mt.2) p0'
end XRD.Spec

namespace XRD
open V3 M3 Fl Spec
open scoped Classical

section
variable {L : ℝ} {b b' : Beam} {m m' : Motion}

/-- C82: a mesh can be built in one unit of length exactly when it can be built in the other (with the same error otherwise), and then
its centres and radii are multiplied by the factor, its volumes by the third power, and its normals are the same. -/
theorem C82_mesh (hL : 0 < L) (coord : List V3) (enod : List (Q4 ℕ)) :
    (∀ e, TetraMesh.new (coord.map fun v => L • v) enod = .error e ↔ TetraMesh.new coord enod = .error e) ∧
    ∀ mesh, TetraMesh.new coord enod = .ok mesh → ∃ mesh', TetraMesh.new (coord.map fun v => L • v) enod = .ok mesh' ∧
      mesh'.coord = mesh.coord.map (fun v => L • v) ∧ mesh'.enod = mesh.enod ∧ mesh'.enormals = mesh.enormals ∧
      mesh'.ecentroids = mesh.ecentroids.map (fun v => L • v) ∧ mesh'.espherecentroids = mesh.espherecentroids.map (fun v => L • v) ∧
      mesh'.eradius = mesh.eradius.map (fun r => L * r) ∧ mesh'.evolumes = mesh.evolumes.map (fun r => L ^ 3 * r) ∧
      mesh'.centroid = L • mesh.centroid := by
  have key := sc_mesh_new hL coord enod
  refine ⟨fun e => ?_, fun mesh hm => ?_⟩
  · rw [key]
    cases TetraMesh.new coord enod with
    | error e' => exact Iff.rfl
    | ok r => constructor <;> (intro hh; cases hh)
  · rw [hm] at key
    exact ⟨_, key, rfl, rfl, rfl, rfl, rfl, rfl, rfl, rfl⟩

theorem ScaledPoly.eq (hL : 0 < L) {p p' : Polycrystal} (h : ScaledPoly L p p') : p' = p.scaled L ∧ ∀ v ∈ p.meshVolumes, 0 ≤ v := by
  obtain ⟨x, coord, enod, mesh, mesh', o, s, ph, map, p0, p0', hist, h1, h2, h3, h4, rfl, rfl⟩ := h
  have k1 := sc_mesh_new hL coord enod
  rw [h1, h2] at k1
  obtain rfl : mesh' = mesh.scaled L := Except.ok.inj k1
  have k2 := sc_poly_new hL x mesh o s ph map
  rw [h3, h4] at k2
  obtain rfl : p0' = p0.scaled L := Except.ok.inj k2
  have hv : ∀ v ∈ p0.meshVolumes, 0 ≤ v := by
    obtain ⟨U, S, kind, pm, eB, -, -, -, -, rfl⟩ := Polycrystal.new_ok h3
    intro v hv
    obtain ⟨t, -, rfl⟩ := List.mem_map.mp hv
    unfold tetVolume
    positivity
  clear h3 h4 k1 k2 h1 h2
  induction hist generalizing p0 with
  | nil => exact ⟨rfl, hv⟩
  | cons mt hist ih =>
    rw [List.map_cons, List.foldl_cons, List.foldl_cons]
    have e : (p0.scaled L).transform ⟨mt.1.axis, mt.1.angle, L • mt.1.translation, L • mt.1.origin⟩ mt.2 = (p0.transform mt.1 mt.2).scaled L :=
      sc_transform p0 mt.1 mt.2
    dsimp only
    rw [e]
    exact ih _ hv

theorem ScaledDetector.eq (hL : 0 < L) {D D' : Detector} (h : ScaledDetector L D D') : D' = D.scaled L := by
  obtain ⟨c0, c1, c2, np, ps, sg, th, mr, l, p, s, h1, h2⟩ := h
  have e : scaledSize L ps = ps.scaled L := by cases ps <;> rfl
  rw [e] at h2
  have := sc_detector_new hL c0 c1 c2 np ps sg th mr l p s
  rw [h1, h2] at this
  exact Except.ok.inj this

theorem ScaledSetup.motion_eq (h : ScaledSetup L b b' m m') : m' = m.scaled L := by
  obtain ⟨a, w, T, o, h1, h2⟩ := h.motion
  unfold Motion.new at h1 h2
  split_ifs at h1 h2
  obtain rfl := Except.ok.inj h1
  exact (Except.ok.inj h2).symm

theorem ScaledSetup.beam_eq (h : ScaledSetup L b b' m m') : b.Scaled b' L := by
  obtain ⟨q, q', vs, dir, wl, pol, h1, h2⟩ := h.beam
  unfold Beam.new at h1 h2
  dsimp only at h1 h2
  split_ifs at h1 h2
  obtain rfl := Except.ok.inj h1
  obtain rfl := Except.ok.inj h2
  exact ⟨rfl, rfl, rfl, h.lit⟩

theorem sc_sourcePoint (hb : b.Scaled b' L) (p : Polycrystal) : (p.scaled L).sourcePoint b' = L • p.sourcePoint b := by
  have e : (p.scaled L).meshLab.coord.filter (fun q => decide (b'.contains q))
      = (p.meshLab.coord.filter fun q => decide (b.contains q)).map fun q => L • q := by
    show (p.meshLab.coord.map fun q => L • q).filter _ = _
    rw [List.filter_map]
    congr 1
    apply List.filter_congr
    intro q _
    simp only [Function.comp, hb.contains]
  unfold Polycrystal.sourcePoint
  dsimp only
  rw [e]
  by_cases hn : (p.meshLab.coord.filter fun q => decide (b.contains q)) = []
  · rw [hn]; simp only [List.map_nil, ne_eq, not_true_eq_false, if_false]; rfl
  · have hn' : (p.meshLab.coord.filter fun q => decide (b.contains q)).map (fun q => L • q) ≠ [] := by simpa using hn
    rw [if_pos hn', if_pos hn]
    exact sc_meanV L _

theorem sc_limits (hL : 0 < L) (hb : b.Scaled b' L) (p : Polycrystal) (lo hi : ℝ) {det det' : Option Detector}
    (hdet : Option.Rel (ScaledDetector L) det det') : (p.scaled L).limits b' lo hi det' = p.limits b lo hi det := by
  cases hdet with
  | none => rfl
  | some hD =>
    obtain rfl := ScaledDetector.eq hL hD
    unfold Polycrystal.limits Polycrystal.braggBounds
    dsimp only
    rw [sc_sourcePoint hb, hb.wave, sc_wrappingCone hL]

theorem sc_diffract (hL : 0 < L) (h : ScaledSetup L b b' m m') {p p' : Polycrystal} (hp : ScaledPoly L p p') (x : Xfab) (lo hi : ℝ)
    {det det' : Option Detector} (hdet : Option.Rel (ScaledDetector L) det det') :
    p'.diffract x b' m' lo hi det' = (p.diffract x b m lo hi det).map fun r => (r.1.scaled L b', r.2.scaled L) := by
  obtain ⟨rfl, hv⟩ := ScaledPoly.eq hL hp
  have hb := ScaledSetup.beam_eq h
  unfold Polycrystal.diffract
  rw [sc_limits hL hb p lo hi hdet]
  cases p.limits b lo hi det with
  | error e => rfl
  | ok r =>
    obtain ⟨lo', hi'⟩ := r
    dsimp only
    have hc : (p.setupPhases x b.wavelength lo' hi').crystal.Scaled ((p.scaled L).setupPhases x b'.wavelength lo' hi').crystal L := by
      refine ⟨rfl, rfl, ?_, rfl, rfl, rfl, rfl, hv⟩
      rw [hb.wavelength]; rfl
    rw [ScaledSetup.motion_eq h, sc_diffractCore hL hc hb, hb.wavelength]
    cases diffractCore (p.setupPhases x b.wavelength lo' hi').crystal b m with
    | error e => rfl
    | ok d => rfl

/-- shape of the rows of `diffract` -/
theorem core_shape {c : Crystal} {d : PeaksDict} (h : diffractCore c b m = .ok d) : d.columns = peakColumns ∧
    ∀ row ∈ d.peaks, row.length = 25 ∧ (∃ s, vecAt row 16 = some s) ∧ ∃ v, row[21]? = some (fin v) := by
  refine ⟨diffract_columns h, ?_⟩
  unfold diffractCore at h
  cases hp : computePeaks c b m with
  | error e => rw [hp] at h; cases h
  | ok rows =>
    rw [hp] at h
    obtain rfl := Except.ok.inj h
    obtain rfl := computePeaks_ok hp
    intro row hrow
    simp only [List.mem_mapIdx] at hrow
    obtain ⟨idx, hidx, rfl⟩ := hrow
    have hm := List.getElem_mem hidx
    obtain ⟨r, hr, hre⟩ := List.mem_map.mp (List.mem_filter.mp hm).1
    rw [← hre]
    have hl := allPhaseRows_len hr
    match r, hl with
    | [a0, a1, a2, a3, a4, a5, a6, a7, a8, a9], _ =>
      refine ⟨?_, ⟨_, rfl⟩, _, rfl⟩
      simp [extendRow]

theorem eventScaled_row (hL : 0 < L) (rest : List String)
    (hrest : ∀ i s, rest[i]? = some s → s ∉ lengthColumns ∧ ((s = "zd" ∨ s = "yd") ∨ (i ≠ 0 ∧ i ≠ 1)))
    {row : List Fl} (hs : ∃ s, vecAt row 16 = some s) (hv : ∃ v, row[21]? = some (fin v)) :
    EventScaled (peakColumns ++ rest) L row (scaleRow L row) := by
  obtain ⟨s, hs⟩ := hs
  obtain ⟨v, hv⟩ := hv
  have hV : ∀ (r : List Fl) (v : V3), vecAt r 16 = some v → HasV (peakColumns ++ rest) r "Source_x" "Source_y" "Source_z" v := by
    intro r v h
    unfold vecAt at h
    split at h
    · rename_i h1 h2 h3
      obtain rfl := Option.some.inj h
      exact ⟨⟨16, rfl, h1⟩, ⟨17, rfl, h2⟩, ⟨18, rfl, h3⟩⟩
    · cases h
  refine ⟨scaleRow_length L row, ?_, ⟨s, hV _ _ hs, hV _ _ (sc_vecAt16 hs)⟩, ⟨v, ⟨21, rfl, hv⟩, 21, rfl, ?_⟩, ?_⟩
  · rintro name ⟨hn, hz, hy⟩ u
    have key : ∀ i : ℕ, (peakColumns ++ rest)[i]? = some name → (scaleRow L row)[i]? = row[i]? := by
      intro i hi
      rw [scaleRow_get]
      have hne : i ≠ 16 ∧ i ≠ 17 ∧ i ≠ 18 ∧ i ≠ 21 ∧ i ≠ 23 ∧ i ≠ 25 ∧ i ≠ 26 := by
        refine ⟨?_, ?_, ?_, ?_, ?_, ?_, ?_⟩
        iterate 5
          rintro rfl
          apply hn
          obtain rfl := Option.some.inj hi
          decide
        · rintro rfl
          rw [List.getElem?_append_right (by decide)] at hi
          obtain ⟨-, h2⟩ := hrest _ _ hi
          simp only [show peakColumns.length = 25 from rfl] at h2
          rcases h2 with (h2 | h2) | h2
          · exact hz h2
          · exact hy h2
          · exact h2.1 rfl
        · rintro rfl
          rw [List.getElem?_append_right (by decide)] at hi
          obtain ⟨-, h2⟩ := hrest _ _ hi
          simp only [show peakColumns.length = 25 from rfl] at h2
          rcases h2 with (h2 | h2) | h2
          · exact hz h2
          · exact hy h2
          · exact h2.2 rfl
      cases row[i]? <;> simp [scaleAt, hne]
    constructor
    · rintro ⟨i, h1, h2⟩; exact ⟨i, h1, by rw [← key i h1]; exact h2⟩
    · rintro ⟨i, h1, h2⟩; exact ⟨i, h1, by rw [key i h1]; exact h2⟩
  · rw [scaleRow_get, hv]; simp [scaleAt]
  · rintro w ⟨i, h1, h2⟩
    have hi : i = 23 := by
      by_cases hlt : i < peakColumns.length
      · rw [List.getElem?_append_left hlt] at h1
        have hnd : peakColumns.Nodup := by decide
        obtain ⟨b0, e0⟩ := List.getElem?_eq_some_iff.mp h1
        exact (hnd.getElem_inj_iff (hj := by decide)).mp (by rw [e0]; rfl)
      · rw [List.getElem?_append_right (by omega)] at h1
        obtain ⟨h3, -⟩ := hrest _ _ h1
        exact absurd (by decide) h3
    subst hi
    refine ⟨23, rfl, ?_⟩
    rw [scaleRow_get, h2]
    simp [scaleAt, Fl.div_fin_ne hL.ne']

/-- C82: the peaks in another unit of length.  If all lengths of the setup (mesh, beam vertices, translations, origins, detector
corners and pixel sizes) are multiplied by `L`, the call fails or succeeds as before, and reports the same peaks in the same order: only
the source points are multiplied by `L`, the volumes by `L³`, and the Scherrer widths divided by `L`. -/
theorem C82_peaks (hL : 0 < L) (x : Xfab) (p p' : Polycrystal) (hp : ScaledPoly L p p') (h : ScaledSetup L b b' m m') (lo hi : ℝ)
    (det det' : Option Detector) (hdet : Option.Rel (ScaledDetector L) det det') :
    (∀ e, p'.diffract x b' m' lo hi det' = .error e ↔ p.diffract x b m lo hi det = .error e) ∧
    ∀ d p1, p.diffract x b m lo hi det = .ok (d, p1) → ∃ d' p1', p'.diffract x b' m' lo hi det' = .ok (d', p1') ∧
      d'.columns = d.columns ∧ List.Forall₂ (EventScaled d.columns L) d.peaks d'.peaks := by
  have key := sc_diffract hL h hp x lo hi hdet
  refine ⟨fun e => ?_, ?_⟩
  · rw [key]
    cases p.diffract x b m lo hi det with
    | error e' => exact Iff.rfl
    | ok r => constructor <;> (intro hh; cases hh)
  · intro d p1 hd
    rw [hd] at key
    refine ⟨_, _, key, rfl, ?_⟩
    obtain ⟨_, _, -, -, hcore⟩ := Polycrystal.diffract_ok hd
    obtain ⟨hc, hr⟩ := core_shape hcore
    show List.Forall₂ _ d.peaks (d.peaks.map (scaleRow L))
    rw [List.forall₂_map_right_iff, List.forall₂_same, hc]
    intro row hrow
    have := eventScaled_row hL [] (by simp) (hr row hrow).2.1 (hr row hrow).2.2
    rwa [List.append_nil] at this

/-- C82: the hits in another unit of length: same hits in the same order, with their detector coordinates multiplied by `L` and thus
in the same pixels, at the same incidence angle, in the same frame and with the same intensity factor. -/
theorem C82_hits (hL : 0 < L) (x : Xfab) (p p' : Polycrystal) (hp : ScaledPoly L p p') (h : ScaledSetup L b b' m m') (lo hi : ℝ)
    (det det' : Option Detector) (hdet : Option.Rel (ScaledDetector L) det det') (d d' : PeaksDict) (p1 p1' : Polycrystal)
    (hd : p.diffract x b m lo hi det = .ok (d, p1)) (hd' : p'.diffract x b' m' lo hi det' = .ok (d', p1')) (D D' : Detector)
    (hD : ScaledDetector L D D') (n : ℤ) :
    (D'.peaksIntersection d' n).columns = (D.peaksIntersection d n).columns ∧
    List.Forall₂ (fun r r' => EventScaled (D.peaksIntersection d n).columns L r r' ∧
        ∃ z y, Has (D.peaksIntersection d n).columns r "zd" (fin z) ∧ Has (D.peaksIntersection d n).columns r "yd" (fin y) ∧
          Has (D.peaksIntersection d n).columns r' "zd" (fin (L * z)) ∧ Has (D.peaksIntersection d n).columns r' "yd" (fin (L * y)) ∧
          L * z / D'.pz = z / D.pz ∧ L * y / D'.py = y / D.py)
      (D.peaksIntersection d n).peaks (D'.peaksIntersection d' n).peaks := by
  have key := sc_diffract hL h hp x lo hi hdet
  rw [hd, hd'] at key
  have e1 : d' = d.scaled L b' := congrArg Prod.fst (Except.ok.inj key)
  subst e1
  obtain rfl := ScaledDetector.eq hL hD
  obtain ⟨_, _, -, -, hcore⟩ := Polycrystal.diffract_ok hd
  obtain ⟨hc, hr⟩ := core_shape hcore
  have hlen : ∀ r ∈ d.peaks, r.length = 25 := fun r hr' => (hr r hr').1
  rw [sc_peaksIntersection hL D d b' n fun row hrow => ⟨(hr row hrow).1, (hr row hrow).2.1⟩]
  refine ⟨rfl, ?_⟩
  show List.Forall₂ _ _ ((D.peaksIntersection d n).peaks.map (scaleRow L))
  rw [List.forall₂_map_right_iff, List.forall₂_same]
  have hcols : (D.peaksIntersection d n).columns = peakColumns ++ ["zd", "yd", "incident_angle", "frame", "intensity_factors"] := by
    show d.columns ++ _ = _; rw [hc]
  intro row hrow
  rw [hcols]
  rw [peaksIntersection_rows D d n hlen] at hrow
  obtain ⟨q, hq, rfl⟩ := List.mem_map.mp hrow
  obtain ⟨hq, hk⟩ := List.mem_filter.mp hq
  obtain ⟨hl, ⟨s, hs⟩, v, hv⟩ := hr q hq
  simp only [decide_eq_true_eq] at hk
  have h30 : row30 D n q = q ++ (D.rowIntersect q ++ [Detector.rowFrame n q, D.rowIntensity q]) := by unfold row30; simp
  have hlt : ∀ i < 25, (row30 D n q)[i]? = q[i]? := by
    intro i hi
    rw [h30, List.getElem?_append_left (by omega)]
  refine ⟨eventScaled_row hL _ ?_ ⟨s, ?_⟩ ⟨v, ?_⟩, ?_⟩
  · intro i s h
    match i with
    | 0 => obtain rfl := Option.some.inj h; simp [lengthColumns]
    | 1 => obtain rfl := Option.some.inj h; simp [lengthColumns]
    | 2 => obtain rfl := Option.some.inj h; simp [lengthColumns]
    | 3 => obtain rfl := Option.some.inj h; simp [lengthColumns]
    | 4 => obtain rfl := Option.some.inj h; simp [lengthColumns]
    | i + 5 => simp at h
  · unfold vecAt at hs ⊢
    rw [hlt 16 (by norm_num), hlt (16 + 1) (by norm_num), hlt (16 + 2) (by norm_num)]; exact hs
  · rw [hlt 21 (by norm_num)]; exact hv
  · obtain ⟨f1, f2⟩ := contains_finite hk.1
    obtain ⟨z, hz⟩ := isFinite_iff.mp f1
    obtain ⟨y, hy⟩ := isFinite_iff.mp f2
    have h3 := rowInter_len D q
    have g25 : (row30 D n q)[25]? = some (fin z) := by
      rw [h30, List.getElem?_append_right (by omega), hl, List.getElem?_append_left (by omega), ← hz]
      rw [List.getD_eq_getElem?_getD]
      have : 0 < (D.rowIntersect q).length := by omega
      simp [List.getElem?_eq_getElem this]
    have g26 : (row30 D n q)[26]? = some (fin y) := by
      rw [h30, List.getElem?_append_right (by omega), hl, List.getElem?_append_left (by omega), ← hy]
      rw [List.getD_eq_getElem?_getD]
      have : 1 < (D.rowIntersect q).length := by omega
      simp [List.getElem?_eq_getElem this]
    refine ⟨z, y, ⟨25, rfl, g25⟩, ⟨26, rfl, g26⟩, ⟨25, rfl, ?_⟩, ⟨26, rfl, ?_⟩, mul_div_mul_left _ _ hL.ne', mul_div_mul_left _ _ hL.ne'⟩
    · rw [scaleRow_get, g25]; simp [scaleAt]
    · rw [scaleRow_get, g26]; simp [scaleAt]


theorem window_nodup (r : ℕ) : (Detector.window r).Nodup := by
  unfold Detector.window
  rw [List.nodup_flatMap]
  refine ⟨fun a _ => ?_, ?_⟩
  · refine List.Nodup.map ?_ List.nodup_range
    intro x y h
    simpa using h
  · refine List.Pairwise.imp ?_ List.nodup_range
    intro a a' hne o h1 h2
    obtain ⟨_, -, rfl⟩ := List.mem_map.mp h1
    obtain ⟨_, -, h⟩ := List.mem_map.mp h2
    simp at h
    exact hne h.1.symm

/-- a sum in which at most one entry differs -/
theorem sum_le_of_one {α : Type} [DecidableEq α] {l : List α} (hl : l.Nodup) (a : α) {g g' : α → ℝ} {c : ℝ} (hc : 0 ≤ c)
    (h : ∀ o ∈ l, o ≠ a → g' o ≤ g o) (ha : g' a ≤ g a + c) : (l.map g').sum ≤ (l.map g).sum + c := by
  induction l with
  | nil => simpa using hc
  | cons o l ih =>
    obtain ⟨h1, h2⟩ := List.nodup_cons.mp hl
    simp only [List.map_cons, List.sum_cons]
    by_cases e : o = a
    · subst e
      have : (l.map g').sum ≤ (l.map g).sum := List.sum_le_sum fun q hq => h q (List.mem_cons_of_mem _ hq) fun e => h1 (e ▸ hq)
      linarith
    · have := ih h2 fun q hq => h q (List.mem_cons_of_mem _ hq)
      have := h o List.mem_cons_self e
      linarith

/-- one row, rendered in two units -/
theorem micro_row_scaled (hL : 1 ≤ L) {D : Detector} {r : List Fl} {k : ℤ} {n f i j : ℕ} (hk : rcol r 28 = k) (h0 : 0 ≤ k) (h1 : k < n)
    (hi : i < D.nz) (hj : j < D.ny) (hI : 0 ≤ rcol r 29 * rcol r 21) :
    L ^ 3 * stackOf n D.nz D.ny (D.microDeposits r) f i j ≤
        stackOf n (D.scaled L).nz (D.scaled L).ny ((D.scaled L).microDeposits (scaleRow L r)) f i j ∧
      stackOf n (D.scaled L).nz (D.scaled L).ny ((D.scaled L).microDeposits (scaleRow L r)) f i j ≤
        L ^ 3 * (stackOf n D.nz D.ny (D.microDeposits r) f i j + 1 / 10 ^ 6) := by
  have hL0 : 0 < L := by linarith
  have hL3 : 1 ≤ L ^ 3 := one_le_pow₀ hL
  have nz : (D.scaled L).nz = D.nz := by
    unfold Detector.nz Detector.scaled; dsimp only; rw [mul_div_mul_left _ _ hL0.ne']
  have ny : (D.scaled L).ny = D.ny := by
    unfold Detector.ny Detector.scaled; dsimp only; rw [mul_div_mul_left _ _ hL0.ne']
  have col : ∀ c, c ≠ 16 → c ≠ 17 → c ≠ 18 → c ≠ 21 → c ≠ 23 → c ≠ 25 → c ≠ 26 → rcol (scaleRow L r) c = rcol r c := by
    intro c g1 g2 g3 g4 g5 g6 g7
    unfold rcol
    rw [scaleRow_get]
    cases r[c]? <;> simp [scaleAt, *]
  have col25 : rcol (scaleRow L r) 25 = L * rcol r 25 := by
    unfold rcol; rw [scaleRow_get]
    cases r[25]? with
    | none => simp
    | some v => cases v <;> simp [scaleAt, fl_scale_pinf, fl_scale_ninf, hL0]
  have col26 : rcol (scaleRow L r) 26 = L * rcol r 26 := by
    unfold rcol; rw [scaleRow_get]
    cases r[26]? with
    | none => simp
    | some v => cases v <;> simp [scaleAt, fl_scale_pinf, fl_scale_ninf, hL0]
  have col21 : rcol (scaleRow L r) 21 = L ^ 3 * rcol r 21 := by
    unfold rcol; rw [scaleRow_get]
    cases r[21]? with
    | none => simp
    | some v => cases v <;> simp [scaleAt, fl_scale_pinf, fl_scale_ninf, hL0]
  have hW : ∀ a b o, (D.scaled L).microW a b o = D.microW a b o := fun _ _ _ => rfl
  have hR : (D.scaled L).microRadius = D.microRadius := rfl
  have e25 : L * rcol r 25 / (D.scaled L).pz = rcol r 25 / D.pz := mul_div_mul_left _ _ hL0.ne'
  have e26 : L * rcol r 26 / (D.scaled L).py = rcol r 26 / D.py := mul_div_mul_left _ _ hL0.ne'
  have hk' : rcol (scaleRow L r) 28 = k := by rw [col 28] <;> first | exact hk | norm_num
  rw [stackOf_microDeposits hk h0 h1 hi hj, stackOf_microDeposits hk' h0 h1 (nz ▸ hi) (ny ▸ hj)]
  rw [col25, col26, col21, col 29 (by norm_num) (by norm_num) (by norm_num) (by norm_num) (by norm_num) (by norm_num) (by norm_num), e25, e26, hR]
  have hS : (((Detector.window D.microRadius).map ((D.scaled L).microW (rcol r 25 / D.pz) (rcol r 26 / D.py))).sum)
      = ((Detector.window D.microRadius).map (D.microW (rcol r 25 / D.pz) (rcol r 26 / D.py))).sum := rfl
  rw [hS]
  have hS0 := window_sum_nonneg D (rcol r 25 / D.pz) (rcol r 26 / D.py) D.microRadius
  generalize ((Detector.window D.microRadius).map (D.microW (rcol r 25 / D.pz) (rcol r 26 / D.py))).sum = S at hS0 ⊢
  simp only [hW]
  have hv : ∀ o, 0 ≤ D.microW (rcol r 25 / D.pz) (rcol r 26 / D.py) o / (S + 1 / 10 ^ 12) * (rcol r 29 * rcol r 21) := by
    intro o
    have := (microW_pos D (rcol r 25 / D.pz) (rcol r 26 / D.py) o).le
    exact mul_nonneg (div_nonneg this (by positivity)) hI
  have hv' : ∀ o, D.microW (rcol r 25 / D.pz) (rcol r 26 / D.py) o / (S + 1 / 10 ^ 12) * (rcol r 29 * (L ^ 3 * rcol r 21))
      = L ^ 3 * (D.microW (rcol r 25 / D.pz) (rcol r 26 / D.py) o / (S + 1 / 10 ^ 12) * (rcol r 29 * rcol r 21)) := by
    intro o; ring
  simp only [hv']
  generalize hg : (fun o => D.microW (rcol r 25 / D.pz) (rcol r 26 / D.py) o / (S + 1 / 10 ^ 12) * (rcol r 29 * rcol r 21)) = g at hv
  simp only [congrFun hg] at hv ⊢
  have hmul : ∀ (l : List (ℤ × ℤ)) (u : ℤ × ℤ → ℝ), L ^ 3 * (l.map u).sum = (l.map fun o => L ^ 3 * u o).sum :=
    fun l u => (List.sum_map_mul_left l u (L ^ 3)).symm
  constructor
  · rw [hmul]
    apply List.sum_le_sum
    intro o _
    have := hv o
    split_ifs with c1 c2 c2
    · exact le_rfl
    · exact absurd ⟨c1.1, c1.2.1, c1.2.2.1, by nlinarith [c1.2.2.2]⟩ c2
    · nlinarith
    · simp
  · rw [mul_add, hmul]
    refine sum_le_of_one (window_nodup _) ((i : ℤ) - roundEven (rcol r 25 / D.pz), (j : ℤ) - roundEven (rcol r 26 / D.py)) (by positivity) ?_ ?_
    · intro o _ hne
      rw [if_neg, if_neg]
      · simp
      · rintro ⟨-, g1, g2, -⟩; apply hne; ext <;> dsimp only <;> omega
      · rintro ⟨-, g1, g2, -⟩; apply hne; ext <;> dsimp only <;> omega
    · have := hv ((i : ℤ) - roundEven (rcol r 25 / D.pz), (j : ℤ) - roundEven (rcol r 26 / D.py))
      split_ifs with c1 c2 c2
      · have : (0 : ℝ) ≤ L ^ 3 * (1 / 10 ^ 6) := by positivity
        linarith
      · rw [not_and, not_and, not_and] at c2
        have := c2 c1.1 c1.2.1 c1.2.2.1
        rw [not_lt] at this
        rw [MulZeroClass.mul_zero, zero_add]
        exact mul_le_mul_of_nonneg_left this (by positivity)
      · have : (0 : ℝ) ≤ L ^ 3 * (1 / 10 ^ 6) := by positivity
        nlinarith
      · have : (0 : ℝ) ≤ L ^ 3 * (1 / 10 ^ 6) := by positivity
        simpa using this

theorem core_volumes {c : Crystal} {d : PeaksDict} (h : diffractCore c b m = .ok d) (hv : ∀ v ∈ c.volumes, 0 ≤ v) :
    ∀ row ∈ d.peaks, 0 ≤ rcol row 21 := by
  unfold diffractCore at h
  cases hp : computePeaks c b m with
  | error e => rw [hp] at h; cases h
  | ok rows =>
    rw [hp] at h
    obtain rfl := Except.ok.inj h
    obtain rfl := computePeaks_ok hp
    intro row hrow
    simp only [List.mem_mapIdx] at hrow
    obtain ⟨idx, hidx, rfl⟩ := hrow
    have hm := List.getElem_mem hidx
    obtain ⟨r, hr, hre⟩ := List.mem_map.mp (List.mem_filter.mp hm).1
    rw [← hre]
    have hl := allPhaseRows_len hr
    match r, hl with
    | [a0, a1, a2, a3, a4, a5, a6, a7, a8, a9], _ =>
      show 0 ≤ c.volumes.getD _ 0
      have key : ∀ i, 0 ≤ c.volumes.getD i 0 := by
        intro i
        rw [List.getD_eq_getElem?_getD]
        cases hg : c.volumes[i]? with
        | none => simp
        | some v => exact hv v (List.mem_of_getElem? hg)
      exact key _

/-- C82 (partial): the images in another unit of length.  With lengths `L ≥ 1` times larger, every pixel of the `micro` images of the
same diffraction is `L³` times as bright, up to `L³ · 10⁻⁶` per hit.
Missing: equality; false because contributions below the fixed threshold `10⁻⁶` are dropped, see `C82_micro_fails`. -/
theorem C82_micro_partial (hL : 1 ≤ L) (x : Xfab) (p p' : Polycrystal) (hp : ScaledPoly L p p') (h : ScaledSetup L b b' m m') (lo hi : ℝ)
    (det det' : Option Detector) (hdet : Option.Rel (ScaledDetector L) det det') (d d' : PeaksDict) (p1 p1' : Polycrystal)
    (hd : p.diffract x b m lo hi det = .ok (d, p1)) (hd' : p'.diffract x b' m' lo hi det' = .ok (d', p1')) (D D' : Detector)
    (hD : ScaledDetector L D D') (env env' : RenderEnv) (mesh mesh' : TetraMesh) (frames : ℤ) (ml ml' : Option ℝ) (mi mi' : ℝ) :
    ∃ t t' out out', D.render env d mesh frames .micro ml mi = .ok (some t, out) ∧
      D'.render env' d' mesh' frames .micro ml' mi' = .ok (some t', out') ∧ D'.nz = D.nz ∧ D'.ny = D.ny ∧
      out'.peaks.length = out.peaks.length ∧
      ∀ f i j : ℕ, i < D.nz → j < D.ny → L ^ 3 * t f i j ≤ t' f i j ∧ t' f i j ≤ L ^ 3 * (t f i j + out.peaks.length * (1 / 10 ^ 6)) := by
  have hL0 : 0 < L := by linarith
  have key := sc_diffract hL0 h hp x lo hi hdet
  rw [hd, hd'] at key
  have e1 : d' = d.scaled L b' := congrArg Prod.fst (Except.ok.inj key)
  subst e1
  obtain rfl := ScaledDetector.eq hL0 hD
  obtain ⟨_, _, -, hp1, hcore⟩ := Polycrystal.diffract_ok hd
  have hvols : ∀ v ∈ p1.crystal.volumes, 0 ≤ v := by rw [hp1]; exact (ScaledPoly.eq hL0 hp).2
  obtain ⟨hc, hr⟩ := core_shape hcore
  have hlen : ∀ r ∈ d.peaks, r.length = 25 := fun r hr' => (hr r hr').1
  have hlen' : ∀ r ∈ (d.scaled L b').peaks, r.length = 25 := by
    intro r hr'
    obtain ⟨q, hq, rfl⟩ := List.mem_map.mp hr'
    rw [scaleRow_length]; exact hlen q hq
  refine ⟨_, _, _, _, render_micro_ok hlen, render_micro_ok hlen', ?_, ?_, ?_, ?_⟩
  · unfold Detector.nz Detector.scaled; dsimp only; rw [mul_div_mul_left _ _ hL0.ne']
  · unfold Detector.ny Detector.scaled; dsimp only; rw [mul_div_mul_left _ _ hL0.ne']
  · rw [sc_peaksIntersection hL0 D d b' _ fun row hrow => ⟨(hr row hrow).1, (hr row hrow).2.1⟩]
    exact List.length_map _
  · intro f i j hi hj
    rw [sc_peaksIntersection hL0 D d b' _ fun row hrow => ⟨(hr row hrow).1, (hr row hrow).2.1⟩]
    show _ ≤ stackOf _ _ _ (((D.peaksIntersection d (max frames 1)).peaks.map (scaleRow L)).flatMap _) f i j ∧
      stackOf _ _ _ (((D.peaksIntersection d (max frames 1)).peaks.map (scaleRow L)).flatMap _) f i j ≤ _
    have hrows := hitRows (D := D) (d := d) (n := max frames 1) (by omega) hlen
    have hvol : ∀ r ∈ (D.peaksIntersection d (max frames 1)).peaks, 0 ≤ rcol r 21 := by
      intro r hr'
      obtain ⟨q, hq, -, -, -, e⟩ := hrows r hr'
      rw [e]
      exact core_volumes hcore hvols q hq
    generalize (D.peaksIntersection d (max frames 1)).peaks = l at hrows hvol ⊢
    rw [stackOf_flatMap, stackOf_flatMap, List.map_map]
    induction l with
    | nil => simp
    | cons r l ih =>
      obtain ⟨q, hq, -, ⟨k, hk, h0, h1⟩, hI, -⟩ := hrows r List.mem_cons_self
      obtain ⟨g1, g2⟩ := ih (fun r hr' => hrows r (List.mem_cons_of_mem _ hr')) fun r hr' => hvol r (List.mem_cons_of_mem _ hr')
      obtain ⟨g3, g4⟩ := micro_row_scaled (n := (max frames 1).toNat) (f := f) hL hk h0 (by omega) hi hj
        (mul_nonneg hI.le (hvol r List.mem_cons_self))
      simp only [List.map_cons, List.sum_cons, List.length_cons, Function.comp] at g1 g2 ⊢
      push_cast
      constructor
      · linarith
      · linarith


/-- C82: the threshold of the micro renderer is absolute: hits whose intensity factor times volume is at most `10⁻⁶` leave no trace at
all in the image, however many there are. -/
theorem C82_micro_dark (D : Detector) (env : RenderEnv) (d : PeaksDict) (mesh : TetraMesh) (frames : ℤ) (ml : Option ℝ) (mi : ℝ)
    (hlen : ∀ r ∈ d.peaks, r.length = 25)
    (hdark : ∀ r ∈ (D.peaksIntersection d (max frames 1)).peaks,
      0 ≤ val hitColumns r "intensity_factors" * val hitColumns r "volumes" ∧
      val hitColumns r "intensity_factors" * val hitColumns r "volumes" ≤ 1 / 10 ^ 6) :
    ∃ out, D.render env d mesh frames .micro ml mi = .ok (some fun _ _ _ => 0, out) := by
  refine ⟨D.peaksIntersection d (max frames 1), ?_⟩
  rw [render_micro_ok hlen]
  have : (D.peaksIntersection d (max frames 1)).peaks.flatMap D.microDeposits = [] := by
    rw [List.flatMap_eq_nil_iff]
    intro r hr
    obtain ⟨h0, h1⟩ := hdark r hr
    rw [rcol_eq r "intensity_factors" (j := 29) rfl, rcol_eq r "volumes" (j := 21) rfl] at h0 h1
    rw [List.eq_nil_iff_forall_not_mem]
    intro e he
    unfold Detector.microDeposits at he
    simp only [List.mem_filter, List.mem_map, decide_eq_true_eq] at he
    obtain ⟨⟨o, ho, rfl⟩, -, -, -, -, hv⟩ := he
    dsimp only at hv
    have hle : D.microW (rcol r 25 / D.pz) (rcol r 26 / D.py) o ≤
        ((Detector.window D.microRadius).map (D.microW (rcol r 25 / D.pz) (rcol r 26 / D.py))).sum :=
      List.single_le_sum (fun v hv => by obtain ⟨o, -, rfl⟩ := List.mem_map.mp hv; exact (microW_pos _ _ _ o).le) _ (List.mem_map_of_mem ho)
    have h01 : D.microW (rcol r 25 / D.pz) (rcol r 26 / D.py) o /
        (((Detector.window D.microRadius).map (D.microW (rcol r 25 / D.pz) (rcol r 26 / D.py))).sum + 1 / 10 ^ 12) ≤ 1 := by
      have := (microW_pos D (rcol r 25 / D.pz) (rcol r 26 / D.py) o)
      have hS := window_sum_nonneg D (rcol r 25 / D.pz) (rcol r 26 / D.py) D.microRadius
      rw [div_le_one (by positivity)]
      have : (0:ℝ) < 1 / 10 ^ 12 := by norm_num
      linarith
    nlinarith
  rw [this, stackOf_nil]

/-- C82, limit: for every experiment there is a unit of length so large that, with all lengths expressed in it, the `micro` image of
the very same experiment is completely black, whatever it was before. -/
theorem C82_micro_fails (x : Xfab) (p : Polycrystal) (lo hi : ℝ) (det : Option Detector) (d : PeaksDict) (p1 : Polycrystal)
    (hd : p.diffract x b m lo hi det = .ok (d, p1)) (D : Detector) (frames : ℤ) : ∃ L₀ > 0, ∀ L, 0 < L → L ≤ L₀ →
      ∀ b' m' p' det' d' p1' D' env' mesh' ml' mi', ScaledPoly L p p' → ScaledSetup L b b' m m' → Option.Rel (ScaledDetector L) det det' →
        p'.diffract x b' m' lo hi det' = .ok (d', p1') → ScaledDetector L D D' →
        ∃ out', D'.render env' d' mesh' frames .micro ml' mi' = .ok (some fun _ _ _ => 0, out') := by
  obtain ⟨M, hM⟩ : ∃ M : ℝ, ∀ r ∈ (D.peaksIntersection d (max frames 1)).peaks, rcol r 29 * rcol r 21 ≤ M := by
    generalize (D.peaksIntersection d (max frames 1)).peaks = l
    induction l with
    | nil => exact ⟨0, by simp⟩
    | cons r l ih =>
      obtain ⟨M, h⟩ := ih
      refine ⟨max M (rcol r 29 * rcol r 21), fun q hq => ?_⟩
      rcases List.mem_cons.mp hq with rfl | hq
      · exact le_max_right _ _
      · exact (h q hq).trans (le_max_left _ _)
  have hM0 : 0 < |M| + 1 := by positivity
  refine ⟨min 1 (1 / 10 ^ 6 / (|M| + 1)), lt_min one_pos (by positivity), ?_⟩
  intro L hL hLe b' m' p' det' d' p1' D' env' mesh' ml' mi' hp h hdet hd' hD
  have key := sc_diffract hL h hp x lo hi hdet
  rw [hd, hd'] at key
  have e1 : d' = d.scaled L b' := congrArg Prod.fst (Except.ok.inj key)
  subst e1
  obtain rfl := ScaledDetector.eq hL hD
  obtain ⟨_, _, -, hp1, hcore⟩ := Polycrystal.diffract_ok hd
  have hvols : ∀ v ∈ p1.crystal.volumes, 0 ≤ v := by rw [hp1]; exact (ScaledPoly.eq hL hp).2
  obtain ⟨hc, hr⟩ := core_shape hcore
  have hlen : ∀ r ∈ d.peaks, r.length = 25 := fun r hr' => (hr r hr').1
  have hlen' : ∀ r ∈ (d.scaled L b').peaks, r.length = 25 := by
    intro r hr'
    obtain ⟨q, hq, rfl⟩ := List.mem_map.mp hr'
    rw [scaleRow_length]; exact hlen q hq
  refine C82_micro_dark _ env' _ mesh' frames ml' mi' hlen' ?_
  rw [sc_peaksIntersection hL D d b' _ fun row hrow => ⟨(hr row hrow).1, (hr row hrow).2.1⟩]
  intro r hr'
  obtain ⟨q, hq, rfl⟩ := List.mem_map.mp hr'
  rw [rcol_eq _ "intensity_factors" (j := 29) rfl, rcol_eq _ "volumes" (j := 21) rfl]
  have col29 : rcol (scaleRow L q) 29 = rcol q 29 := by
    unfold rcol; rw [scaleRow_get]
    cases q[29]? <;> simp [scaleAt]
  have col21 : rcol (scaleRow L q) 21 = L ^ 3 * rcol q 21 := by
    unfold rcol; rw [scaleRow_get]
    cases q[21]? with
    | none => simp
    | some v => cases v <;> simp [scaleAt, fl_scale_pinf, fl_scale_ninf, hL]
  obtain ⟨q0, hq0, -, -, hI, e⟩ := hitRows (D := D) (d := d) (n := max frames 1) (by omega) hlen q hq
  have hv := core_volumes hcore hvols q0 hq0
  rw [← e] at hv
  rw [col29, col21]
  have hpow := mul_nonneg hI.le hv
  refine ⟨by positivity, ?_⟩
  have h1 : L ≤ 1 := hLe.trans (min_le_left _ _)
  have h2 : L ≤ 1 / 10 ^ 6 / (|M| + 1) := hLe.trans (min_le_right _ _)
  rw [le_div_iff₀ hM0] at h2
  have h3 : L ^ 3 ≤ L := by
    have : L ^ 2 ≤ 1 := pow_le_one₀ hL.le h1
    nlinarith
  calc rcol q 29 * (L ^ 3 * rcol q 21) = L ^ 3 * (rcol q 29 * rcol q 21) := by ring
    _ ≤ L * (rcol q 29 * rcol q 21) := mul_le_mul_of_nonneg_right h3 hpow
    _ ≤ L * (|M| + 1) := mul_le_mul_of_nonneg_left (by linarith [hM q hq, le_abs_self M]) hL.le
    _ ≤ _ := h2


/-- the scene in another unit of length -/
theorem scene_scaled (hL : 0 < L) : ∃ b' m' p', ScaledSetup L demoBeam b' demoZ m' ∧ ScaledPoly L scenePoly p' := by
  refine ⟨⟨⟨1, 0, 0⟩, 2 * Real.pi, cubeVertices.map fun v => L • v, meanV (cubeVertices.map fun v => L • v), cubeFacets.map fun h => ⟨h.n, L * h.d⟩, ⟨0, 0, 1⟩⟩, ⟨⟨0, 0, 1⟩, Real.pi / 2, L • 0, L • 0⟩, scenePoly.scaled L,
    ⟨⟨_, ⟨List.length, fun _ => cubeFacets.map fun h => ⟨h.n, L * h.d⟩⟩, _, _, _, _, demoBeam_new, ?_⟩, ?_, ⟨_, _, _, _, demoZ_new, ?_⟩⟩, ?_⟩
  · have h := demoBeam_new
    unfold Beam.new at h ⊢
    dsimp only at h ⊢
    rw [if_neg (by positivity)] at h ⊢
    rw [if_neg (by simp)] at h ⊢
    split_ifs at h ⊢ with h1 h2
    have e := Except.ok.inj h
    have e1 := congrArg Beam.waveVector e
    have e2 := congrArg Beam.polarization e
    dsimp only [demoBeam] at e1 e2
    rw [e1, e2]
  · intro q
    unfold Beam.contains
    simp only [List.mem_map, forall_exists_index, and_imp, forall_apply_eq_imp_iff₂]
    refine forall₂_congr fun h _ => ?_
    have : h.n.dot (L • q) + L * h.d = L * (h.n.dot q + h.d) := by simp [V3.dot]; ring
    rw [this]
    constructor <;> intro h' <;> nlinarith
  · unfold Motion.new
    have h := demoZ_new
    unfold Motion.new at h
    split_ifs at h ⊢
    rfl
  · refine ⟨sceneX, sceneCoord, _, sceneMesh, sceneMesh.scaled L, _, _, _, _, scenePoly, _, [], sceneMesh_new, ?_, scenePoly_new, ?_, rfl, rfl⟩
    · rw [sc_mesh_new hL, sceneMesh_new]; rfl
    · rw [sc_poly_new hL, scenePoly_new]; rfl

/-- non-vacuity: the scene diffracts in every unit of length, with the same number of peaks, and there are peaks -/
example (hL : 0 < L) : ∃ b' m' p' d p1 d' p1', ScaledSetup L demoBeam b' demoZ m' ∧ ScaledPoly L scenePoly p' ∧
    scenePoly.diffract sceneX demoBeam demoZ 0 (Real.pi / 2) none = .ok (d, p1) ∧
    p'.diffract sceneX b' m' 0 (Real.pi / 2) none = .ok (d', p1') ∧ d.peaks ≠ [] ∧ d'.peaks ≠ [] := by
  obtain ⟨b', m', p', h, hp⟩ := scene_scaled hL
  have hs : Real.sqrt 2 / 2 ≤ 1 := by
    have : Real.sqrt 2 ≤ 2 := by rw [Real.sqrt_le_left (by norm_num)]; norm_num
    linarith
  obtain ⟨d, p1, hd, -, row, hrow, -⟩ := scene_diffract none 0 (Real.pi / 2) 0 (Real.pi / 2) rfl (by rw [Real.sin_zero]; positivity)
    (by rw [Real.sin_pi_div_two]; exact hs)
  obtain ⟨d', p1', hd', -, hf⟩ := (C82_peaks hL sceneX scenePoly p' hp h 0 (Real.pi / 2) none none Option.Rel.none).2 d p1 hd
  have hne : d.peaks ≠ [] := List.ne_nil_of_mem hrow
  refine ⟨b', m', p', d, p1, d', p1', h, hp, hd, hd', hne, ?_⟩
  intro e
  apply hne
  rw [e] at hf
  exact List.forall₂_nil_right_iff.mp hf

end
end XRD
