import Verif.Lemmas.Turn2
import Verif.Props.Polycrystal
import Verif.Props.Rerender
import Verif.Props.NanoFails

/-! Property C72: the same experiment described in another laboratory frame. -/

namespace XRD.Spec
open XRD V3

/-- names of the columns that hold vectors or points -/
def spatialColumns : List String :=
  ["G0_x", "G0_y", "G0_z", "Gx", "Gy", "Gz", "K_out_x", "K_out_y", "K_out_z", "Source_x", "Source_y", "Source_z"]

/-- `row'` describes in the moved frame the event that `row` describes: the two diffraction vectors and the scattered wave vector
are turned, the source point is moved, everything else is identical. -/
def EventMoved (cols : List String) (turn move : V3 → V3) (row row' : List Fl) : Prop :=
  row'.length = row.length ∧
  (∀ name, name ∉ spatialColumns → ∀ v, Has cols row' name v ↔ Has cols row name v) ∧
  ∃ g0 g k s,
    HasV cols row "G0_x" "G0_y" "G0_z" g0 ∧ HasV cols row' "G0_x" "G0_y" "G0_z" (turn g0) ∧
    HasV cols row "Gx" "Gy" "Gz" g ∧ HasV cols row' "Gx" "Gy" "Gz" (turn g) ∧
    HasV cols row "K_out_x" "K_out_y" "K_out_z" k ∧ HasV cols row' "K_out_x" "K_out_y" "K_out_z" (turn k) ∧
    HasV cols row "Source_x" "Source_y" "Source_z" s ∧ HasV cols row' "Source_x" "Source_y" "Source_z" (move s)
end XRD.Spec

namespace XRD
open V3 M3 Fl Spec
open scoped Classical

/-- A polycrystal as a program can have it: built by the constructor on a mesh built by the mesh constructor, then transformed any
number of times. -/
def Built (p : Polycrystal) : Prop :=
  ∃ (x : Xfab) (coord : List V3) (enod : List (Q4 ℕ)) (mesh : TetraMesh) (o s : MatArg) (ph : PhasesArg) (map : Option (List ℝ))
    (p0 : Polycrystal) (hist : List (Motion × ℝ)),
    TetraMesh.new coord enod = .ok mesh ∧ Polycrystal.new x mesh o s ph map = .ok p0 ∧ (∀ mt ∈ hist, norm mt.1.axis = 1) ∧
    p = p0.transforms hist

/-- Beam and motion built twice: once with the given arguments, once with the points moved and the vectors turned by the rigid map
`M(·, τ)`; and the half-spaces Qhull finds for the moved vertices describe the moved beam. -/
structure MovedSetup (M : Motion) (τ : ℝ) (b b' : Beam) (m m' : Motion) : Prop where
  beam : ∃ (q q' : Qhull) (vs : List V3) (dir : V3) (wl : ℝ) (pol : V3), Beam.new q vs dir wl pol = .ok b ∧
    Beam.new q' (vs.map fun v => M.call1 v τ) (M.rotate1 dir τ) wl (M.rotate1 pol τ) = .ok b'
  lit : ∀ p, b'.contains (M.call1 p τ) ↔ b.contains p
  motion : ∃ (a : V3) (w : ℝ) (T o : V3), Motion.new a w T o = .ok m ∧
    Motion.new (M.rotate1 a τ) w (M.rotate1 T τ) (M.call1 o τ) = .ok m'

/-- A detector built twice, the second time with moved corners. -/
def MovedDetector (M : Motion) (τ : ℝ) (D D' : Detector) : Prop :=
  ∃ (c0 c1 c2 : V3) (np : PixArg ℤ) (ps : PixArg ℝ) (sg th : ℝ) (mr : ℤ) (l p s : Bool),
    Detector.new c0 c1 c2 np ps sg th mr l p s = .ok D ∧
    Detector.new (M.call1 c0 τ) (M.call1 c1 τ) (M.call1 c2 τ) np ps sg th mr l p s = .ok D'

section
variable {M : Motion} {τ : ℝ} {b b' : Beam} {m m' : Motion}

theorem MovedDetector.eq (hM : norm M.axis = 1) {D D' : Detector} (h : MovedDetector M τ D D') :
    D' = D.turned (rotMat M.axis (M.angle * τ)) fun p => M.call1 p τ := by
  obtain ⟨c0, c1, c2, np, ps, sg, th, mr, l, p, s, h1, h2⟩ := h
  have := turn_detector_new (call1_affRot M hM τ) c0 c1 c2 np ps sg th mr l p s
  rw [h1, h2] at this
  exact Except.ok.inj this

theorem MovedSetup.motion_eq (h : MovedSetup M τ b b' m m') : m' = m.turned (rotMat M.axis (M.angle * τ)) fun p => M.call1 p τ := by
  obtain ⟨a, w, T, o, h1, h2⟩ := h.motion
  unfold Motion.new at h1 h2
  split_ifs at h1 h2
  obtain rfl := Except.ok.inj h1
  exact (Except.ok.inj h2).symm

theorem MovedSetup.beam_eq (hM : norm M.axis = 1) (h : MovedSetup M τ b b' m m') :
    b.Turned b' (rotMat M.axis (M.angle * τ)) (fun p => M.call1 p τ) ∧ b.waveVector ≠ 0 := by
  have hQ := (call1_affRot M hM τ).1
  obtain ⟨q, q', vs, dir, wl, pol, h1, h2⟩ := h.beam
  unfold Beam.new at h1 h2
  dsimp only at h1 h2
  split_ifs at h1 h2 with a1 a2 a3 a4 b1 b2 b3
  obtain rfl := Except.ok.inj h1
  obtain rfl := Except.ok.inj h2
  push Not at a3
  refine ⟨⟨?_, rfl, ?_, h.lit⟩, ?_⟩
  · show _ = _
    simp only [Motion.rotate1, turn_norm hQ, mulVec_smul]
  · simp only [Motion.rotate1, turn_norm hQ, mulVec_smul]
  · intro e
    have hn : dir.norm ≠ 0 := fun e => a3.1 (V3.norm_eq_zero.mp e)
    have hc : 2 * Real.pi / wl * (1 / dir.norm) ≠ 0 := by
      have := Real.pi_pos
      exact mul_ne_zero (div_ne_zero (by positivity) a1) (one_div_ne_zero hn)
    have hz : ∀ r : ℝ, 2 * Real.pi / wl * (1 / dir.norm * r) = 0 → r = 0 := by
      intro r hr
      rw [← mul_assoc] at hr
      exact (mul_eq_zero.mp hr).resolve_left hc
    apply a3.1
    ext
    · exact hz _ (congrArg V3.x e)
    · exact hz _ (congrArg V3.y e)
    · exact hz _ (congrArg V3.z e)

theorem built_facts {p : Polycrystal} (h : Built p) :
    (∀ i < p.phases.length, ∀ e ∈ grainIndices p.phaseMap i, e < p.meshLab.enod.length) ∧
    p.meshLab.espherecentroids.length = p.meshLab.enod.length ∧
    (∀ e ∈ p.meshLab.enod, ∀ i ∈ e.toList, i < p.meshLab.coord.length) := by
  obtain ⟨x, coord, enod, mesh, o, s, ph, map, p0, hist, hmesh, hp, hu, rfl⟩ := h
  obtain ⟨f, R, -, h1, h2, -, h4, -, -, -, -, -, -, -, h12, h13, -⟩ := p0.transforms_state hist hu
  rw [h1, h2, h4, h12, h13]
  obtain ⟨U, S, kind, pm, eB, -, -, -, heB, rfl⟩ := Polycrystal.new_ok hp
  dsimp only
  unfold TetraMesh.new at hmesh
  split_ifs at hmesh with a1 a2
  obtain rfl := Except.ok.inj hmesh
  refine ⟨?_, ?_, ?_⟩
  · unfold instantiateEB at heB
    split_ifs at heB with hc
    push Not at hc
    exact hc
  · simp [TetraMesh.ofData, elements]
  · intro e he i hi
    rw [List.length_map]
    exact a1 e he i hi

theorem turn_sourcePoint (hM : norm M.axis = 1) (hb : ∀ p, b'.contains (M.call1 p τ) ↔ b.contains p) (p : Polycrystal) :
    (p.transform M τ).sourcePoint b' = M.call1 (p.sourcePoint b) τ := by
  have h := call1_affRot M hM τ
  have e : (p.transform M τ).meshLab.coord.filter (fun q => decide (b'.contains q))
      = (p.meshLab.coord.filter fun q => decide (b.contains q)).map fun q => M.call1 q τ := by
    show (p.meshLab.coord.map fun q => M.call1 q τ).filter _ = _
    rw [List.filter_map]
    congr 1
    apply List.filter_congr
    intro q _
    simp only [Function.comp, hb]
  unfold Polycrystal.sourcePoint
  dsimp only
  rw [e]
  by_cases hn : (p.meshLab.coord.filter fun q => decide (b.contains q)) = []
  · rw [hn]; simp only [List.map_nil, ne_eq, not_true_eq_false, if_false]; rfl
  · have hn' : (p.meshLab.coord.filter fun q => decide (b.contains q)).map (fun q => M.call1 q τ) ≠ [] := by simpa using hn
    rw [if_pos hn', if_pos hn]
    exact (h.meanV hn).symm

theorem turn_limits (hM : norm M.axis = 1) (h : MovedSetup M τ b b' m m') (p : Polycrystal) (lo hi : ℝ) {det det' : Option Detector}
    (hdet : Option.Rel (MovedDetector M τ) det det') : (p.transform M τ).limits b' lo hi det' = p.limits b lo hi det := by
  cases hdet with
  | none => rfl
  | some hD =>
    obtain rfl := MovedDetector.eq hM hD
    unfold Polycrystal.limits Polycrystal.braggBounds
    dsimp only
    rw [turn_sourcePoint hM h.lit, (h.beam_eq hM).1.wave, turn_wrappingCone (call1_affRot M hM τ)]

theorem turn_diffract (hM : norm M.axis = 1) (h : MovedSetup M τ b b' m m') {p : Polycrystal} (hp : Built p) (x : Xfab) (lo hi : ℝ)
    {det det' : Option Detector} (hdet : Option.Rel (MovedDetector M τ) det det') :
    (p.transform M τ).diffract x b' m' lo hi det' = (p.diffract x b m lo hi det).map fun r =>
      (r.1.turned (rotMat M.axis (M.angle * τ)) (fun q => M.call1 q τ) b', r.2.transform M τ) := by
  obtain ⟨f1, f2, -⟩ := built_facts hp
  obtain ⟨hb, hk⟩ := h.beam_eq hM
  unfold Polycrystal.diffract
  rw [turn_limits hM h p lo hi hdet]
  cases p.limits b lo hi det with
  | error e => rfl
  | ok r =>
    obtain ⟨lo', hi'⟩ := r
    dsimp only
    have hc : (p.setupPhases x b.wavelength lo' hi').crystal.Turned ((p.transform M τ).setupPhases x b'.wavelength lo' hi').crystal
        (rotMat M.axis (M.angle * τ)) (fun q => M.call1 q τ) := by
      refine ⟨rfl, rfl, ?_, rfl, rfl, rfl, rfl, ?_⟩
      · rw [hb.wavelength]; rfl
      · intro i hi e he
        simp only [Polycrystal.crystal, Polycrystal.setupPhases, List.length_map] at hi he ⊢
        rw [f2]
        exact f1 i hi e he
    rw [h.motion_eq, turn_diffractCore (call1_affRot M hM τ) hc hb hk, hb.wavelength]
    cases diffractCore (p.setupPhases x b.wavelength lo' hi').crystal b m with
    | error e => rfl
    | ok d => rfl

theorem core_rows {c : Crystal} {d : PeaksDict}
    (hc : ∀ i < c.phases.length, ∀ e ∈ grainIndices c.phaseMap i, e < c.sphereCentroids.length) (h : diffractCore c b m = .ok d) :
    ∀ row ∈ d.peaks, VecRow row ∧ row.length = 25 ∧ ∃ e : ℕ, row[0]? = some (fin e) ∧ e < c.sphereCentroids.length := by
  unfold diffractCore at h
  cases hp : computePeaks c b m with
  | error e => rw [hp] at h; cases h
  | ok rows =>
    rw [hp] at h
    obtain rfl := Except.ok.inj h
    obtain rfl := computePeaks_ok hp
    intro row hrow
    simp only [List.mem_mapIdx] at hrow
    obtain ⟨idx, hidx, rfl⟩ := hrow
    have hm := List.getElem_mem hidx
    obtain ⟨r, hr, hre⟩ := List.mem_map.mp (List.mem_filter.mp hm).1
    rw [← hre]
    obtain ⟨e, p1, p2, p3, p4, p5, t, x, y, z, rfl, he⟩ := allPhaseRows_shape hc hr
    refine ⟨⟨_, _, _, _, rfl, rfl, rfl, rfl⟩, ?_, e, ?_, he⟩
    · simp [extendRow]
    · simp [extendRow]

theorem diffract_rows {p : Polycrystal} (hp : Built p) {x : Xfab} {lo hi : ℝ} {det : Option Detector} {d : PeaksDict} {p1 : Polycrystal}
    (h : p.diffract x b m lo hi det = .ok (d, p1)) :
    d.columns = peakColumns ∧ d.beam = b ∧ d.motion = m ∧ p1.meshLab = p.meshLab ∧
    ∀ row ∈ d.peaks, VecRow row ∧ row.length = 25 ∧ ∃ e : ℕ, row[0]? = some (fin e) ∧ e < p.meshLab.enod.length := by
  obtain ⟨f1, f2, -⟩ := built_facts hp
  obtain ⟨lo', hi', -, rfl, hd⟩ := Polycrystal.diffract_ok h
  have hb : d.beam = b ∧ d.motion = m := by
    unfold diffractCore at hd
    split at hd
    · cases hd
    · obtain rfl := Except.ok.inj hd; exact ⟨rfl, rfl⟩
  refine ⟨diffract_columns hd, hb.1, hb.2, rfl, ?_⟩
  have := core_rows (c := (p.setupPhases x b.wavelength lo' hi').crystal) (by
    intro i hi e he
    simp only [Polycrystal.crystal, Polycrystal.setupPhases, List.length_map] at hi he ⊢
    rw [f2]
    exact f1 i hi e he) hd
  rw [← f2]
  exact this

theorem eventMoved_turn {Q : M3} {f : V3 → V3} (rest : List String) {row : List Fl} (h : VecRow row) :
    EventMoved (peakColumns ++ rest) Q.mulVec f row (turnRow Q f row) := by
  obtain ⟨a, g, k, s, h7, h10, h13, h16⟩ := h
  obtain ⟨t7, t10, t13, t16, tl, -⟩ := turn_vecAt (Q := Q) (f := f) h7 h10 h13 h16
  have hv : ∀ (r : List Fl) (i : ℕ) (v : V3), vecAt r i = some v → r[i]? = some (fin v.x) ∧ r[i + 1]? = some (fin v.y) ∧ r[i + 2]? = some (fin v.z) := by
    intro r i v h
    unfold vecAt at h
    split at h
    · rename_i h1 h2 h3
      obtain rfl := Option.some.inj h
      exact ⟨h1, h2, h3⟩
    · cases h
  have hV : ∀ (r : List Fl) (i : ℕ) (v : V3) (a b c : String), vecAt r i = some v → (peakColumns ++ rest)[i]? = some a →
      (peakColumns ++ rest)[i + 1]? = some b → (peakColumns ++ rest)[i + 2]? = some c → HasV (peakColumns ++ rest) r a b c v := by
    intro r i v a b c h ha hb hc
    obtain ⟨h1, h2, h3⟩ := hv r i v h
    exact ⟨⟨i, ha, h1⟩, ⟨i + 1, hb, h2⟩, ⟨i + 2, hc, h3⟩⟩
  refine ⟨tl, ?_, a, g, k, s, hV _ _ _ _ _ _ h7 rfl rfl rfl, hV _ _ _ _ _ _ t7 rfl rfl rfl, hV _ _ _ _ _ _ h10 rfl rfl rfl,
    hV _ _ _ _ _ _ t10 rfl rfl rfl, hV _ _ _ _ _ _ h13 rfl rfl rfl, hV _ _ _ _ _ _ t13 rfl rfl rfl, hV _ _ _ _ _ _ h16 rfl rfl rfl,
    hV _ _ _ _ _ _ t16 rfl rfl rfl⟩
  intro name hn v
  have key : ∀ i : ℕ, (peakColumns ++ rest)[i]? = some name → (turnRow Q f row)[i]? = row[i]? := by
    intro i hi
    apply turn_scal
    by_contra hc
    push Not at hc
    apply hn
    obtain ⟨h1, h2⟩ := hc
    rw [List.getElem?_append_left (by show i < 25; omega)] at hi
    interval_cases i <;> (obtain rfl := Option.some.inj hi; decide)
  constructor
  · rintro ⟨i, h1, h2⟩; exact ⟨i, h1, by rw [← key i h1]; exact h2⟩
  · rintro ⟨i, h1, h2⟩; exact ⟨i, h1, by rw [key i h1]; exact h2⟩

theorem forall₂_turn {Q : M3} {f : V3 → V3} (cols rest : List String) (hcols : cols = peakColumns ++ rest) {rows : List (List Fl)}
    (h : ∀ row ∈ rows, VecRow row) : List.Forall₂ (EventMoved cols Q.mulVec f) rows (rows.map (turnRow Q f)) := by
  subst hcols
  induction rows with
  | nil => exact .nil
  | cons r rows ih => exact .cons (eventMoved_turn rest (h r List.mem_cons_self)) (ih fun q hq => h q (List.mem_cons_of_mem _ hq))

theorem vecRow_append {row l : List Fl} (h : VecRow row) : VecRow (row ++ l) := by
  obtain ⟨a, g, k, s, h7, h10, h13, h16⟩ := h
  have hv : ∀ i v, vecAt row i = some v → vecAt (row ++ l) i = some v := by
    intro i v hv
    have hlt : i + 2 < row.length := by
      unfold vecAt at hv
      split at hv
      · rename_i h1 h2 h3; exact (List.getElem?_eq_some_iff.mp h3).1
      · cases hv
    unfold vecAt at hv ⊢
    rwa [List.getElem?_append_left (by omega), List.getElem?_append_left (by omega), List.getElem?_append_left (by omega)]
  exact ⟨a, g, k, s, hv _ _ h7, hv _ _ h10, hv _ _ h13, hv _ _ h16⟩

/-- what the hits of a diffraction look like -/
theorem hit_rows {p : Polycrystal} (hp : Built p) {x : Xfab} {lo hi : ℝ} {det : Option Detector} {d : PeaksDict} {p1 : Polycrystal}
    (h : p.diffract x b m lo hi det = .ok (d, p1)) (D : Detector) (n : ℤ) :
    ∀ row ∈ (D.peaksIntersection d n).peaks, MacroRow D p.meshLab row := by
  obtain ⟨-, -, -, -, hr⟩ := diffract_rows hp h
  intro row hrow
  rw [peaksIntersection_rows D d n fun r hr' => (hr r hr').2.1] at hrow
  obtain ⟨q, hq, rfl⟩ := List.mem_map.mp hrow
  obtain ⟨hq, hcont⟩ := List.mem_filter.mp hq
  obtain ⟨hv, hl, e, h0, he⟩ := hr q hq
  simp only [decide_eq_true_eq] at hcont
  have hap : row30 D n q = q ++ (D.rowIntersect q ++ [Detector.rowFrame n q, D.rowIntensity q]) := by
    unfold row30; simp
  obtain ⟨a, g, k, s, h7, h10, h13, h16⟩ := hv
  refine ⟨?_, ?_, ?_⟩
  · rw [hap]; exact vecRow_append ⟨a, g, k, s, h7, h10, h13, h16⟩
  · intro k' hk' hd
    have hkk : k' = k := by
      have : vecAt (row30 D n q) 13 = some k := by
        rw [hap]
        unfold vecAt at h13 ⊢
        rwa [List.getElem?_append_left (by omega), List.getElem?_append_left (by omega), List.getElem?_append_left (by omega)]
      rw [this] at hk'; exact (Option.some.inj hk').symm
    subst hkk
    have hri : D.rowIntersect q = [(D.intersect k' s).1, (D.intersect k' s).2.1, (D.intersect k' s).2.2] := by
      unfold Detector.rowIntersect; rw [h13, h16]
    rw [hri] at hcont
    exact parallel_not_contained D hd _ hcont.1
  · have : rcol (row30 D n q) 0 = e := by
      rw [hap]; unfold rcol; rw [List.getElem?_append_left (by omega), h0]
    rw [this, Int.floor_natCast, Int.toNat_natCast]; exact he

/-! ### C72 -/

/-- C72: describing the whole experiment (crystal, beam, motion and, if it limits the Bragg angles, detector) in another right-handed
frame gives the same error or the same peaks, row by row: identical indices, times, factors, volumes and angles, turned diffraction
and wave vectors, moved source points; and the crystal afterwards is the moved crystal. -/
theorem C72_peaks_in_another_frame (x : Xfab) (p : Polycrystal) (hp : Built p) (M : Motion) (hM : norm M.axis = 1) (τ : ℝ) (b b' : Beam)
    (m m' : Motion) (h : MovedSetup M τ b b' m m') (lo hi : ℝ) (det det' : Option Detector)
    (hdet : Option.Rel (MovedDetector M τ) det det') :
    (∀ e, (p.transform M τ).diffract x b' m' lo hi det' = .error e ↔ p.diffract x b m lo hi det = .error e) ∧
    ∀ d p1, p.diffract x b m lo hi det = .ok (d, p1) →
      ∃ d', (p.transform M τ).diffract x b' m' lo hi det' = .ok (d', p1.transform M τ) ∧ d'.columns = d.columns ∧
        List.Forall₂ (EventMoved d.columns (fun v => M.rotate1 v τ) fun q => M.call1 q τ) d.peaks d'.peaks := by
  have key := turn_diffract hM h hp x lo hi hdet
  refine ⟨fun e => ?_, ?_⟩
  · rw [key]
    cases p.diffract x b m lo hi det with
    | error e' => exact Iff.rfl
    | ok r => constructor <;> (intro hh; cases hh)
  · intro d p1 hd
    rw [hd] at key
    refine ⟨_, key, rfl, ?_⟩
    obtain ⟨hc, -, -, -, hr⟩ := diffract_rows hp hd
    exact forall₂_turn d.columns [] (by rw [hc, List.append_nil]) fun row hrow => (hr row hrow).1

/-- C72: the detector sees the same hits in both frames (same coordinates on the detector, incidence angle, frame number and
intensity), and the `micro` image is the same, pixel by pixel. -/
theorem C72_hits_and_micro_image_in_another_frame (x : Xfab) (p : Polycrystal) (hp : Built p) (M : Motion) (hM : norm M.axis = 1) (τ : ℝ)
    (b b' : Beam) (m m' : Motion) (h : MovedSetup M τ b b' m m') (lo hi : ℝ) (det det' : Option Detector)
    (hdet : Option.Rel (MovedDetector M τ) det det') (d d' : PeaksDict) (p1 p1' : Polycrystal)
    (hd : p.diffract x b m lo hi det = .ok (d, p1)) (hd' : (p.transform M τ).diffract x b' m' lo hi det' = .ok (d', p1'))
    (D D' : Detector) (hD : MovedDetector M τ D D') :
    (∀ n : ℤ, (D'.peaksIntersection d' n).columns = (D.peaksIntersection d n).columns ∧
      List.Forall₂ (EventMoved (D.peaksIntersection d n).columns (fun v => M.rotate1 v τ) fun q => M.call1 q τ)
        (D.peaksIntersection d n).peaks (D'.peaksIntersection d' n).peaks) ∧
    ∀ (env env' : RenderEnv) (frames : ℤ) (ml : Option ℝ) (mi : ℝ),
      (D'.render env' d' p1'.meshLab frames .micro ml mi).map Prod.fst = (D.render env d p1.meshLab frames .micro ml mi).map Prod.fst := by
  have key := turn_diffract hM h hp x lo hi hdet
  rw [hd, hd'] at key
  have key := Except.ok.inj key
  simp only [Prod.mk.injEq] at key
  obtain ⟨rfl, rfl⟩ := key
  obtain rfl := hD.eq hM
  obtain ⟨hc, -, -, -, hr⟩ := diffract_rows hp hd
  have hint := fun n => turn_peaksIntersection (call1_affRot M hM τ) D d b' n fun row hrow => ⟨(hr row hrow).1, (hr row hrow).2.1⟩
  refine ⟨fun n => ?_, ?_⟩
  · rw [hint n]
    refine ⟨rfl, ?_⟩
    exact forall₂_turn _ ["zd", "yd", "incident_angle", "frame", "intensity_factors"]
      (by show d.columns ++ _ = _; rw [hc]) fun row hrow => (hit_rows hp hd D n row hrow).1
  · intro env env' frames ml mi
    unfold Detector.render
    dsimp only
    rw [hint]
    show Except.map _ (Except.map _ ((D.turned _ _).renderMicro env'.freeGb ((D.peaksIntersection d _).peaks.map _) _)) = _
    rw [turn_renderMicro, renderMicro_eq, renderMicro_eq]
    split_ifs <;> rfl

/-- C72, proved part for the other renderers: the image of `macro` (given the moved polyhedra and sample points) is the same in both
frames, and so are those of `nano` and `auto` if the move keeps the distance of the first detector corner from the laboratory origin,
for example a rotation about the origin.  Missing: other moves, for which the `nano` image changes (`C72_nano_image_fails`). -/
theorem C72_all_images_in_another_frame_partial (x : Xfab) (p : Polycrystal) (hp : Built p) (M : Motion) (hM : norm M.axis = 1) (τ : ℝ)
    (b b' : Beam) (m m' : Motion) (h : MovedSetup M τ b b' m m') (lo hi : ℝ) (det det' : Option Detector)
    (hdet : Option.Rel (MovedDetector M τ) det det') (d d' : PeaksDict) (p1 p1' : Polycrystal)
    (hd : p.diffract x b m lo hi det = .ok (d, p1)) (hd' : (p.transform M τ).diffract x b' m' lo hi det' = .ok (d', p1'))
    (D D' : Detector) (hD : MovedDetector M τ D D')
    (env env' : RenderEnv) (henv : env.Turned env' b b' (rotMat M.axis (M.angle * τ)) fun q => M.call1 q τ)
    (frames : ℤ) (method : Detector.Method) (ml : Option ℝ) (mi : ℝ)
    (hnano : method = .nano ∨ method = .auto → (M.call1 D.c0 τ).norm = D.c0.norm) :
    (D'.render env' d' p1'.meshLab frames method ml mi).map Prod.fst = (D.render env d p1.meshLab frames method ml mi).map Prod.fst := by
  have hf := call1_affRot M hM τ
  have key := turn_diffract hM h hp x lo hi hdet
  rw [hd, hd'] at key
  have key := Except.ok.inj key
  simp only [Prod.mk.injEq] at key
  obtain ⟨rfl, rfl⟩ := key
  obtain rfl := hD.eq hM
  obtain ⟨hc, hbeam, hmot, hmesh, hr⟩ := diffract_rows hp hd
  obtain ⟨-, -, hwf⟩ := built_facts hp
  rw [← hmesh] at hwf
  have hint := fun n => turn_peaksIntersection hf D d b' n fun row hrow => ⟨(hr row hrow).1, (hr row hrow).2.1⟩
  have hrows := hit_rows hp hd D
  rw [← hmesh] at hrows
  have hmacro : ∀ rows : List (List Fl), (∀ row ∈ rows, MacroRow D p1.meshLab row) → ∀ n : ℕ,
      (D.turned (rotMat M.axis (M.angle * τ)) fun q => M.call1 q τ).renderMacro env' b' (p1.transform M τ).meshLab
        (m.turned (rotMat M.axis (M.angle * τ)) fun q => M.call1 q τ) (rows.map (turnRow (rotMat M.axis (M.angle * τ)) fun q => M.call1 q τ)) n
      = D.renderMacro env b p1.meshLab m rows n :=
    fun rows hrows n => turn_renderMacro (mesh := p1.meshLab) (mesh' := (p1.transform M τ).meshLab) hf D henv m rfl rfl hwf hrows n
  unfold Detector.render
  dsimp only
  rw [hint]
  generalize hn : (if frames < 1 then 1 else frames) = n
  have hb' : (d.turned (rotMat M.axis (M.angle * τ)) (fun q => M.call1 q τ) b').beam = b' := rfl
  have hm' : (d.turned (rotMat M.axis (M.angle * τ)) (fun q => M.call1 q τ) b').motion =
    m.turned (rotMat M.axis (M.angle * τ)) fun q => M.call1 q τ := by rw [← hmot]; rfl
  have hpk : ((D.peaksIntersection d n).turned (rotMat M.axis (M.angle * τ)) (fun q => M.call1 q τ) b').peaks
    = (D.peaksIntersection d n).peaks.map (turnRow (rotMat M.axis (M.angle * τ)) fun q => M.call1 q τ) := rfl
  rw [hb', hm', hpk, hbeam, hmot, henv.free]
  have henv' : ∀ rows n, (D.turned (rotMat M.axis (M.angle * τ)) fun q => M.call1 q τ).renderNano env' rows n
      = (D.turned (rotMat M.axis (M.angle * τ)) fun q => M.call1 q τ).renderNano env rows n := by
    intro rows n
    unfold Detector.renderNano
    rw [henv.j1, henv.sort, henv.free]
  cases method with
  | «macro» =>
    dsimp only
    rw [hmacro _ (hrows n)]
    cases D.renderMacro env b p1.meshLab m (D.peaksIntersection d n).peaks n.toNat <;> rfl
  | micro =>
    dsimp only
    rw [turn_renderMicro]
    cases D.renderMicro env.freeGb (D.peaksIntersection d n).peaks n.toNat <;> rfl
  | nano =>
    dsimp only
    rw [henv', turn_renderNano D (hnano (Or.inl rfl))]
    cases D.renderNano env (D.peaksIntersection d n).peaks n.toNat <;> rfl
  | auto =>
    have hc0 := hnano (Or.inr rfl)
    have hfil : ∀ P : ℝ → Bool, ((D.peaksIntersection d n).peaks.map (turnRow (rotMat M.axis (M.angle * τ)) fun q => M.call1 q τ)).filter
        (fun r => P (rcol r 21)) = ((D.peaksIntersection d n).peaks.filter fun r => P (rcol r 21)).map
          (turnRow (rotMat M.axis (M.angle * τ)) fun q => M.call1 q τ) := by
      intro P
      rw [List.filter_map]
      congr 1
      apply List.filter_congr
      intro r _
      have : rcol (turnRow (rotMat M.axis (M.angle * τ)) (fun q => M.call1 q τ) r) 21 = rcol r 21 := by
        unfold rcol; rw [turn_scal r 21 (by omega)]
      simp only [Function.comp, this]
    dsimp only
    have hl : ml.getD (min (D.turned (rotMat M.axis (M.angle * τ)) fun q => M.call1 q τ).py
        (D.turned (rotMat M.axis (M.angle * τ)) fun q => M.call1 q τ).pz ^ 3) = ml.getD (min D.py D.pz ^ 3) := rfl
    rw [hl]
    generalize ml.getD (min D.py D.pz ^ 3) = L
    rw [hfil (fun v => decide (v ≥ L)), hfil (fun v => decide (v < mi)), hfil (fun v => decide (¬ v ≥ L ∧ ¬ v < mi)),
      hmacro _ fun row hrow => hrows n row (List.mem_filter.mp hrow).1, turn_renderMicro, henv', turn_renderNano D hc0]
    cases D.renderMacro env b p1.meshLab m ((D.peaksIntersection d n).peaks.filter fun r => decide (rcol r 21 ≥ L)) n.toNat with
    | error e => rfl
    | ok ma =>
      dsimp only
      cases D.renderMicro env.freeGb ((D.peaksIntersection d n).peaks.filter fun r => decide (¬ rcol r 21 ≥ L ∧ ¬ rcol r 21 < mi)) n.toNat with
      | error e => rfl
      | ok mi' =>
        dsimp only
        cases D.renderNano env ((D.peaksIntersection d n).peaks.filter fun r => decide (rcol r 21 < mi)) n.toNat <;> rfl
  | other => rfl

/-- C72 is false of the `nano` images: the renderer takes the distance from the laboratory origin to the first detector corner for
the distance from sample to detector.  Two peaks that make the renderer raise RuntimeError are rendered without error once the
experiment (detector and source points) is turned and shifted so that this corner is half as far from the origin. -/
theorem C72_nano_image_fails (j1 : ℝ → ℝ) (hj : BesselFacts j1) (s : List ℝ → List ℕ) (hs : IsArgsort s)
    (hull : Beam → List V3 → Option Hull) (sample : Hull → ℕ → List V3) (mesh : TetraMesh) (ml : Option ℝ) (mi : ℝ) :
    ∃ (M : Motion) (D D' : Detector) (d d' : PeaksDict), Motion.new ⟨0, 0, 1⟩ (Real.pi / 2) ⟨-50, -50, 50⟩ = .ok M ∧ MovedDetector M 1 D D' ∧
      d'.columns = d.columns ∧ List.Forall₂ (EventMoved d.columns (fun v => M.rotate1 v 1) fun q => M.call1 q 1) d.peaks d'.peaks ∧
      D.render ⟨j1, s, 1, hull, sample⟩ d mesh 1 .nano ml mi = .error .runtimeError ∧
      ∃ t out, D'.render ⟨j1, s, 1, hull, sample⟩ d' (mesh.update M 1) 1 .nano ml mi = .ok (some t, out) := by
  set M : Motion := ⟨⟨0, 0, 1⟩, Real.pi / 2, ⟨-50, -50, 50⟩, 0⟩ with hMd
  have hax : norm M.axis = 1 := norm_ez
  have hMn : Motion.new ⟨0, 0, 1⟩ (Real.pi / 2) ⟨-50, -50, 50⟩ = .ok M := by
    have hp := Real.pi_pos
    unfold Motion.new
    rw [if_pos ⟨by linarith, by linarith⟩, if_pos]
    unfold axisAccepted allclose
    rw [norm_ez]; norm_num
  have hf := call1_affRot M hax 1
  have hD : MovedDetector M 1 nanoDet (nanoDet.turned (rotMat M.axis (M.angle * 1)) fun q => M.call1 q 1) := by
    refine ⟨⟨100, -100, -100⟩, ⟨100, 100, -100⟩, ⟨100, -100, 100⟩, .absent, .both 1, 1, 1 / 10 ^ 13, 13, true, true, true, nanoDet_new, ?_⟩
    rw [turn_detector_new hf, nanoDet_new]; rfl
  have hv : ∀ g y z t vol fw, VecRow (imgRow g y z t vol fw) := fun g y z t vol fw => ⟨_, _, _, _, rfl, rfl, rfl, rfl⟩
  have hrows : ∀ row ∈ (imgDict [evenRow, dotRow]).peaks, VecRow row ∧ row.length = 25 := by
    intro row hr
    simp only [imgDict, List.mem_cons, List.not_mem_nil, or_false] at hr
    rcases hr with rfl | rfl <;> exact ⟨hv _ _ _ _ _ _, rfl⟩
  refine ⟨M, nanoDet, _, imgDict [evenRow, dotRow], (imgDict [evenRow, dotRow]).turned (rotMat M.axis (M.angle * 1)) (fun q => M.call1 q 1) demoBeam,
    hMn, hD, rfl, forall₂_turn _ [] (List.append_nil _).symm fun row hr => (hrows row hr).1, torch_cat_error j1 hj s hs hull sample mesh ml mi, ?_⟩
  have hc0 : (M.call1 nanoDet.c0 1).norm = nanoDet.c0.norm / 2 := by
    have e : M.call1 nanoDet.c0 1 = ⟨50, 50, -50⟩ := by
      show M.call1 ⟨100, -100, -100⟩ 1 = _
      unfold Motion.call1
      dsimp only
      rw [rotMat_mulVec]
      simp only [hMd, mul_one, Real.cos_pi_div_two, Real.sin_pi_div_two]
      ext <;> simp [V3.cross, V3.dot, nsq] <;> norm_num
    rw [e]
    show _ = norm (⟨100, -100, -100⟩ : V3) / 2
    unfold V3.norm
    rw [show nsq (⟨100, -100, -100⟩ : V3) = 2 ^ 2 * nsq ⟨50, 50, -50⟩ by simp [nsq, V3.dot]; norm_num,
      Real.sqrt_mul (by norm_num), Real.sqrt_sq (by norm_num)]
    ring
  apply C67_nano_succeeds_partial _ (by exact nanoDet_sigma) (by exact nanoDet_max) _ (by exact hs) _ rfl
  left
  intro r hr
  have hcol : ((nanoDet.turned (rotMat M.axis (M.angle * 1)) fun q => M.call1 q 1).peaksIntersection
    ((imgDict [evenRow, dotRow]).turned (rotMat M.axis (M.angle * 1)) (fun q => M.call1 q 1) demoBeam) (max 1 1)).columns = hitColumns := rfl
  rw [hcol, ← firstZero_eq]
  rw [turn_peaksIntersection hf _ _ _ _ hrows] at hr
  obtain ⟨q, hq, rfl⟩ := List.mem_map.mp hr
  have hz : (nanoDet.turned (rotMat M.axis (M.angle * 1)) fun q => M.call1 q 1).firstZero
      (turnRow (rotMat M.axis (M.angle * 1)) (fun q => M.call1 q 1) q) = nanoDet.firstZero q / 2 := by
    have c23 : rcol (turnRow (rotMat M.axis (M.angle * 1)) (fun q => M.call1 q 1) q) 23 = rcol q 23 := by
      unfold rcol; rw [turn_scal q 23 (by omega)]
    have c27 : rcol (turnRow (rotMat M.axis (M.angle * 1)) (fun q => M.call1 q 1) q) 27 = rcol q 27 := by
      unfold rcol; rw [turn_scal q 27 (by omega)]
    unfold Detector.firstZero
    rw [c23, c27]
    show _ * ((M.call1 nanoDet.c0 1).norm / _) / nanoDet.pz * _ = _
    rw [hc0]
    ring
  rw [hz]
  have hp : (nanoDet.peaksIntersection (imgDict [evenRow, dotRow]) (max 1 1)).peaks = [evenHit, dotHit] := by
    rw [show max (1:ℤ) 1 = 1 from rfl, even_hits [dotRow] (by intro r hr; rw [List.mem_singleton] at hr; subst hr; rfl)]
    unfold dotRow nanoDet
    rw [imgDict_kept 1 1 _ 1 1 (-40) (-40) (1/2) 1 (widthFor (1/10)) (by norm_num [abs_le]) (by norm_num [abs_le]) _ (by simp)]
    rfl
  rw [hp] at hq
  simp only [List.mem_cons, List.not_mem_nil, or_false] at hq
  rcases hq with rfl | rfl
  · rw [show nanoDet.firstZero evenHit = 36 / 17 from nanoDet_firstZero _ _ _ _ _ _ _]; norm_num
  · rw [show nanoDet.firstZero dotHit = 1 / 10 from nanoDet_firstZero _ _ _ _ _ _ _]; norm_num

/-! ### every experiment has a counterpart in every frame -/

/-- The hypotheses of C72 can always be met: for every beam and motion built by the constructors and every rigid map there are moved
counterparts (with a Qhull that reports the moved facets), and for every detector a moved detector. -/
theorem moved_setup_exists {q : Qhull} {vs : List V3} {dir : V3} {wl : ℝ} {pol : V3} (hb : Beam.new q vs dir wl pol = .ok b)
    {a : V3} {w : ℝ} {T o : V3} (hm : Motion.new a w T o = .ok m) (M : Motion) (hM : norm M.axis = 1) (τ : ℝ) :
    (∃ b' m', MovedSetup M τ b b' m m') ∧
    ∀ (c0 c1 c2 : V3) (np : PixArg ℤ) (ps : PixArg ℝ) (sg th : ℝ) (mr : ℤ) (l p s : Bool) (D : Detector),
      Detector.new c0 c1 c2 np ps sg th mr l p s = .ok D → ∃ D', MovedDetector M τ D D' := by
  have hf := call1_affRot M hM τ
  have hQ := hf.1
  constructor
  · have hb' := hb
    have hm' := hm
    unfold Beam.new at hb'
    dsimp only at hb'
    split_ifs at hb' with a1 a2 a3 a4
    obtain rfl := Except.ok.inj hb'
    unfold Motion.new at hm'
    split_ifs at hm' with w1 w2
    obtain rfl := Except.ok.inj hm'
    push Not at a2 a3
    refine ⟨⟨(rotMat M.axis (M.angle * τ)).mulVec ((2 * Real.pi / wl) • ((1 / dir.norm) • dir)), wl, vs.map fun v => M.call1 v τ,
        meanV (vs.map fun v => M.call1 v τ), (q.equations vs).map fun e => ⟨(rotMat M.axis (M.angle * τ)).mulVec e.n,
          e.d - ((rotMat M.axis (M.angle * τ)).mulVec e.n).dot (M.call1 0 τ)⟩, (rotMat M.axis (M.angle * τ)).mulVec ((1 / pol.norm) • pol)⟩,
        ⟨M.rotate1 a τ, w, M.rotate1 T τ, M.call1 o τ⟩, ⟨q, ⟨List.length, fun _ => (q.equations vs).map fun e => ⟨(rotMat M.axis (M.angle * τ)).mulVec e.n,
          e.d - ((rotMat M.axis (M.angle * τ)).mulVec e.n).dot (M.call1 0 τ)⟩⟩, vs, dir, wl, pol, hb, ?_⟩, ?_, a, w, T, o, hm, ?_⟩
    · unfold Beam.new
      dsimp only
      rw [if_neg a1, if_neg (by simp)]
      simp only [Motion.rotate1, turn_norm hQ, ← mulVec_smul, turn_dot hQ, turn_eq_zero hQ]
      rw [if_neg (by push Not; exact a3), if_pos a4]
    · intro p
      unfold Beam.contains
      dsimp only
      constructor
      · intro h e he
        have := h _ (List.mem_map.mpr ⟨e, he, rfl⟩)
        dsimp only at this
        rw [aff_dot hf e.n p] at this
        linarith
      · intro h e he
        obtain ⟨e0, h0, rfl⟩ := List.mem_map.mp he
        have := h e0 h0
        dsimp only
        rw [aff_dot hf e0.n p]
        linarith
    · unfold Motion.new
      rw [if_pos w1, if_pos]
      unfold axisAccepted at w2 ⊢
      simp only [Motion.rotate1, turn_norm hQ]
      exact w2
  · intro c0 c1 c2 np ps sg th mr l p s D hD
    refine ⟨D.turned (rotMat M.axis (M.angle * τ)) fun q => M.call1 q τ, c0, c1, c2, np, ps, sg, th, mr, l, p, s, hD, ?_⟩
    rw [turn_detector_new hf, hD]
    rfl

theorem tr_mulVec {Q : M3} (h : IsRot Q) (v : V3) : Q.tr.mulVec (Q.mulVec v) = v := by rw [← mulVec_mul, h.1, one_mulVec]
theorem tr_mulVec' {Q : M3} (h : IsRot Q) (v : V3) : Q.mulVec (Q.tr.mulVec v) = v := by rw [← mulVec_mul, h.2.1, one_mulVec]

/-- The hypotheses on the external inputs of the renderers can be met whenever Qhull returns unit normals. -/
theorem moved_env_exists (hM : norm M.axis = 1) (env : RenderEnv)
    (hu : ∀ vs H, env.hull b vs = some H → ∀ e ∈ H.equations, nsq e.n = 1) (b' : Beam) :
    ∃ env', env.Turned env' b b' (rotMat M.axis (M.angle * τ)) fun q => M.call1 q τ := by
  have hf := call1_affRot M hM τ
  obtain ⟨hQ, s, hs⟩ := hf
  generalize rotMat M.axis (M.angle * τ) = Q at hQ hs
  generalize hfd : (fun q => M.call1 q τ) = f
  have hs : ∀ p, f p = Q.mulVec p + s := by rw [← hfd]; exact hs
  set g : V3 → V3 := fun p => Q.tr.mulVec (p - s) with hg
  have hgf : ∀ p, g (f p) = p := by
    intro p
    simp only [hg, hs]
    rw [show Q.mulVec p + s - s = Q.mulVec p by ext <;> simp, tr_mulVec hQ]
  have hgfl : ∀ l : List V3, (l.map f).map g = l := by
    intro l
    rw [List.map_map]
    conv_rhs => rw [← List.map_id l]
    exact List.map_congr_left fun p _ => hgf p
  set back : Hull → Hull := fun H => ⟨H.points.map g, H.equations.map fun e => ⟨Q.tr.mulVec e.n, e.d + e.n.dot (f 0)⟩, H.volume⟩ with hback
  have hbt : ∀ H : Hull, back (H.turned Q f) = H := by
    intro H
    simp only [hback, Hull.turned, hgfl, List.map_map]
    have : (H.equations.map ((fun e : HalfSpace => (⟨Q.tr.mulVec e.n, e.d + e.n.dot (f 0)⟩ : HalfSpace)) ∘
        fun e : HalfSpace => ⟨Q.mulVec e.n, e.d - (Q.mulVec e.n).dot (f 0)⟩)) = H.equations := by
      conv_rhs => rw [← List.map_id H.equations]
      apply List.map_congr_left
      intro e _
      simp only [Function.comp, tr_mulVec hQ, sub_add_cancel, id]
    rw [this]
  refine ⟨⟨env.j1, env.argsortDesc, env.freeGb, fun _ vs => (env.hull b (vs.map g)).map fun H => H.turned Q f,
    fun H k => (env.sample (back H) k).map f⟩, rfl, rfl, rfl, ?_, hu, ?_⟩
  · intro vs
    dsimp only
    rw [hgfl]
  · intro vs H _ k
    dsimp only
    rw [hbt]

end

/-- C72 is not vacuous: the scene's crystal, beam and motion, turned about `z` and shifted, diffract in both frames, and there are
peaks to compare. -/
example : ∃ (b' : Beam) (m' : Motion) (d d' : PeaksDict) (p1 p1' : Polycrystal), Built scenePoly ∧
    MovedSetup ⟨⟨0, 0, 1⟩, 1, ⟨1, 2, 3⟩, ⟨4, 5, 6⟩⟩ 1 demoBeam b' demoZ m' ∧
    scenePoly.diffract sceneX demoBeam demoZ 0 (Real.pi / 2) none = .ok (d, p1) ∧
    (scenePoly.transform ⟨⟨0, 0, 1⟩, 1, ⟨1, 2, 3⟩, ⟨4, 5, 6⟩⟩ 1).diffract sceneX b' m' 0 (Real.pi / 2) none = .ok (d', p1') ∧
    d.peaks ≠ [] ∧ d'.peaks ≠ [] := by
  have hb : Built scenePoly := ⟨sceneX, _, _, sceneMesh, .one 1, .one 0, .one scenePhase, some [0], scenePoly, [], sceneMesh_new, scenePoly_new,
    by simp, rfl⟩
  obtain ⟨⟨b', m', hset⟩, -⟩ := moved_setup_exists demoBeam_new demoZ_new ⟨⟨0, 0, 1⟩, 1, ⟨1, 2, 3⟩, ⟨4, 5, 6⟩⟩ norm_ez 1
  have h2 : Real.sqrt 2 / 2 ≤ 1 := by
    have : Real.sqrt 2 ≤ 2 := by rw [Real.sqrt_le_left (by norm_num)]; norm_num
    linarith
  obtain ⟨d, p1, hd, -, row, hrow, -⟩ := scene_diffract none 0 (Real.pi / 2) 0 (Real.pi / 2) rfl (by rw [Real.sin_zero]; positivity)
    (by rw [Real.sin_pi_div_two]; exact h2)
  obtain ⟨d', hd', -, hrows⟩ := (C72_peaks_in_another_frame sceneX scenePoly hb _ norm_ez 1 _ _ _ _ hset 0 (Real.pi / 2) none none .none).2 d p1 hd
  refine ⟨b', m', d, d', p1, _, hb, hset, hd, hd', List.ne_nil_of_mem hrow, ?_⟩
  intro e
  rw [e] at hrows
  have := hrows.length_eq
  exact List.ne_nil_of_mem hrow (List.length_eq_zero_iff.mp (by simpa using this))

end XRD
