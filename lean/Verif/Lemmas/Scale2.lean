import Verif.Lemmas.Scale
import Verif.Lemmas.Turn2

/-! Lemmas for C82, second part: peak rows, detector hits. -/

namespace XRD
open V3 M3 Fl
open scoped Classical

/-! ### extended numbers times a positive factor -/
section fl
variable {L : ℝ} (hL : 0 < L)
include hL

theorem infSign_scale (a : ℝ) : infSign (L * a) = infSign a := by
  unfold infSign
  simp only [mul_pos_iff_of_pos_left hL, mul_neg_iff, hL, not_lt.mpr hL.le, true_and, false_and, or_false]

theorem fl_scale_pinf : fin L * pinf = pinf := by show infSign L = _; unfold infSign; rw [if_pos hL]
theorem fl_scale_ninf : fin L * ninf = ninf := by
  show infSign (-L) = _; unfold infSign; rw [if_neg (by linarith), if_pos (by linarith)]

theorem fl_scale_add (a b : Fl) : fin L * (a + b) = fin L * a + fin L * b := by
  cases a <;> cases b <;>
    simp only [add_fin, mul_fin, _root_.mul_add, fl_scale_pinf hL, fl_scale_ninf hL, add_nan, nan_add, mul_nan, nan_mul] <;>
    first
    | exact fl_scale_pinf hL
    | exact fl_scale_ninf hL
    | rfl

theorem fl_scale_neg (a : Fl) : fin L * (-a) = -(fin L * a) := by
  cases a with
  | fin r => simp
  | pinf => rw [fl_scale_pinf hL]; exact fl_scale_ninf hL
  | ninf => rw [fl_scale_ninf hL]; exact fl_scale_pinf hL
  | nan => rfl

theorem fl_scale_sub (a b : Fl) : fin L * (a - b) = fin L * a - fin L * b := by
  show fin L * (a + -b) = fin L * a + -(fin L * b)
  rw [fl_scale_add hL, fl_scale_neg hL]

theorem fl_scale_mulr (a : Fl) (c : ℝ) : (fin L * a) * fin c = fin L * (a * fin c) := by
  cases a with
  | fin r => simp only [mul_fin, _root_.mul_assoc]
  | pinf =>
    rw [fl_scale_pinf hL]
    show infSign c = fin L * infSign c
    unfold infSign
    split_ifs
    · exact (fl_scale_pinf hL).symm
    · exact (fl_scale_ninf hL).symm
    · rfl
  | ninf =>
    rw [fl_scale_ninf hL]
    show infSign (-c) = fin L * infSign (-c)
    unfold infSign
    split_ifs
    · exact (fl_scale_pinf hL).symm
    · exact (fl_scale_ninf hL).symm
    · rfl
  | nan => simp

theorem fl_scale_mull (a : Fl) (c : ℝ) : fin c * (fin L * a) = fin L * (fin c * a) := by
  cases a with
  | fin r => simp only [mul_fin, ← _root_.mul_assoc, _root_.mul_comm c L]
  | pinf =>
    rw [fl_scale_pinf hL]
    show infSign c = fin L * infSign c
    unfold infSign
    split_ifs
    · exact (fl_scale_pinf hL).symm
    · exact (fl_scale_ninf hL).symm
    · rfl
  | ninf =>
    rw [fl_scale_ninf hL]
    show infSign (-c) = fin L * infSign (-c)
    unfold infSign
    split_ifs
    · exact (fl_scale_pinf hL).symm
    · exact (fl_scale_ninf hL).symm
    · rfl
  | nan => simp

theorem fl_scale_div (a b : ℝ) : fin (L * a) / fin b = fin L * (fin a / fin b) := by
  rw [div_fin, div_fin]
  split_ifs with h
  · rw [infSign_scale hL]
    unfold infSign
    split_ifs
    · exact (fl_scale_pinf hL).symm
    · exact (fl_scale_ninf hL).symm
    · rfl
  · rw [mul_fin, mul_div_assoc]

theorem fl_div_scale (a b : ℝ) : fin (L * a) / fin (L * b) = fin a / fin b := by
  rw [div_fin, div_fin]
  by_cases h : b = 0
  · rw [if_pos h, if_pos (by rw [h, MulZeroClass.mul_zero]), infSign_scale hL]
  · rw [if_neg h, if_neg (mul_ne_zero hL.ne' h), mul_div_mul_left _ _ hL.ne']

theorem fl_lt_scale (a : Fl) : Fl.Lt (fin L * a) (fin 0) ↔ Fl.Lt a (fin 0) := by
  cases a with
  | fin r => simp only [mul_fin, lt_fin]; constructor <;> intro h <;> nlinarith
  | pinf => rw [fl_scale_pinf hL]
  | ninf => rw [fl_scale_ninf hL]
  | nan => simp

theorem fl_le_scale0 (a : Fl) : Fl.Le (fin 0) (fin L * a) ↔ Fl.Le (fin 0) a := by
  cases a with
  | fin r => simp only [mul_fin, le_fin]; exact mul_nonneg_iff_of_pos_left hL
  | pinf => rw [fl_scale_pinf hL]
  | ninf => rw [fl_scale_ninf hL]
  | nan => simp

theorem fl_le_scale (a : Fl) (c : ℝ) : Fl.Le (fin L * a) (fin (L * c)) ↔ Fl.Le a (fin c) := by
  cases a with
  | fin r => simp only [mul_fin, le_fin]; exact mul_le_mul_iff_right₀ hL
  | pinf => rw [fl_scale_pinf hL]; exact Iff.rfl
  | ninf => rw [fl_scale_ninf hL]; exact Iff.rfl
  | nan => simp
end fl

/-! ### rows -/

/-- what happens to column `i` of a peak row -/
noncomputable def scaleAt (L : ℝ) (i : ℕ) (v : Fl) : Fl :=
  if i = 16 ∨ i = 17 ∨ i = 18 ∨ i = 25 ∨ i = 26 then fin L * v
  else if i = 21 then fin (L ^ 3) * v
  else if i = 23 then v / fin L
  else v

/-- a peak row with lengths multiplied by `L` -/
noncomputable def scaleRow (L : ℝ) (row : List Fl) : List Fl := row.mapIdx (scaleAt L)

theorem scaleRow_get (L : ℝ) (row : List Fl) (i : ℕ) : (scaleRow L row)[i]? = row[i]?.map (scaleAt L i) := List.getElem?_mapIdx
theorem scaleRow_length (L : ℝ) (row : List Fl) : (scaleRow L row).length = row.length := List.length_mapIdx
theorem scaleRow_append (L : ℝ) (row l : List Fl) :
    scaleRow L (row ++ l) = scaleRow L row ++ l.mapIdx fun i => scaleAt L (i + row.length) := List.mapIdx_append

theorem sc_scherrer {L : ℝ} (hL : 0 < L) {V : ℝ} (hV : 0 ≤ V) (tt wl : ℝ) : scherrer (L ^ 3 * V) tt wl = scherrer V tt wl / fin L := by
  unfold scherrer
  dsimp only
  have e : 2 * (3 * (L ^ 3 * V) / (4 * Real.pi)) ^ ((1 : ℝ) / 3) * 10000 * Real.cos (tt / 2)
      = L * (2 * (3 * V / (4 * Real.pi)) ^ ((1 : ℝ) / 3) * 10000 * Real.cos (tt / 2)) := by
    have h1 : 3 * (L ^ 3 * V) / (4 * Real.pi) = L ^ 3 * (3 * V / (4 * Real.pi)) := by ring
    have hp := Real.pi_pos
    rw [h1, Real.mul_rpow (by positivity) (by positivity)]
    have h2 : (L ^ 3 : ℝ) ^ ((1 : ℝ) / 3) = L := by
      rw [← Real.rpow_natCast, ← Real.rpow_mul hL.le]; norm_num
    rw [h2]; ring
  rw [e]
  generalize 2 * (3 * V / (4 * Real.pi)) ^ ((1 : ℝ) / 3) * 10000 * Real.cos (tt / 2) = z
  by_cases hz : z = 0
  · rw [hz, MulZeroClass.mul_zero, div_fin, if_pos rfl]
    unfold infSign
    split_ifs
    · show pinf = if L < 0 then ninf else pinf
      rw [if_neg (by linarith)]
    · show ninf = if L < 0 then pinf else ninf
      rw [if_neg (by linarith)]
    · rfl
  · rw [div_fin_ne (mul_ne_zero hL.ne' hz), div_fin_ne hz, div_fin_ne hL.ne', div_div, _root_.mul_comm z L]

/-- The crystal of the scaled experiment. -/
structure Crystal.Scaled (c c' : Crystal) (L : ℝ) : Prop where
  kind : c'.mapKind = c.mapKind
  map : c'.phaseMap = c.phaseMap
  phases : c'.phases = c.phases
  eB : c'.eB = c.eB
  orientation : c'.orientation = c.orientation
  volumes : c'.volumes = c.volumes.map (L ^ 3 * ·)
  spheres : c'.sphereCentroids = c.sphereCentroids.map (L • ·)
  nonneg : ∀ v ∈ c.volumes, 0 ≤ v

/-- The beam of the scaled experiment. -/
structure Beam.Scaled (b b' : Beam) (L : ℝ) : Prop where
  wave : b'.waveVector = b.waveVector
  wavelength : b'.wavelength = b.wavelength
  pol : b'.polarization = b.polarization
  contains : ∀ p, b'.contains (L • p) ↔ b.contains p

section tables
variable {L : ℝ} {c c' : Crystal} {b b' : Beam} {m : Motion}

theorem sc_allPhaseRows (hc : c.Scaled c' L) (hb : b.Scaled b' L) : allPhaseRows c' b' (m.scaled L) = allPhaseRows c b m := by
  unfold allPhaseRows phaseRows
  rw [hc.phases, hc.map, hc.eB, hc.orientation, hb.wave]
  rfl

theorem allPhaseRows_len {r : List ℝ} (hr : r ∈ allPhaseRows c b m) : r.length = 10 := by
  unfold allPhaseRows at hr
  obtain ⟨i, -, hr⟩ := List.mem_flatMap.mp hr
  split at hr
  · unfold phaseRows at hr
    dsimp only at hr
    obtain ⟨s, -, rfl⟩ := List.mem_map.mp hr
    rfl
  · cases hr

theorem sc_extendRow (hL : 0 < L) (hc : c.Scaled c' L) (hb : b.Scaled b' L) {r : List ℝ} (hl : r.length = 10) :
    extendRow c' b' (m.scaled L) r = scaleRow L (extendRow c b m r) := by
  match r, hl with
  | [a0, a1, a2, a3, a4, a5, a6, a7, a8, a9], _ =>
    have hv : ∀ e, c'.volumes.getD e 0 = L ^ 3 * c.volumes.getD e 0 := by
      intro e
      rw [hc.volumes, List.getD_eq_getElem?_getD, List.getD_eq_getElem?_getD, List.getElem?_map]
      cases c.volumes[e]? <;> simp
    have h0 : ∀ e, 0 ≤ c.volumes.getD e 0 := by
      intro e
      rw [List.getD_eq_getElem?_getD]
      cases he : c.volumes[e]? with
      | none => exact le_rfl
      | some v => exact hc.nonneg v (List.mem_of_getElem? he)
    unfold extendRow
    dsimp only
    rw [hc.spheres, hb.wave, hb.pol, hb.wavelength]
    simp only [sc_getD, hv, sc_call1, sc_rotate1, show (m.scaled L).axis = m.axis from rfl]
    simp only [scaleRow, scaleAt, List.map_cons, List.map_nil, List.cons_append, List.nil_append, List.mapIdx_cons, List.mapIdx_nil]
    norm_num
    generalize twoTheta _ _ = tt
    cases tt with
    | fin x => exact sc_scherrer hL (h0 _) x _
    | pinf => rfl
    | ninf => rfl
    | nan => rfl

theorem sc_illuminated (hb : b.Scaled b' L) (row : List Fl) (hs : ∃ s, sourceOf row = some s) :
    illuminated b' (scaleRow L row) = illuminated b row := by
  obtain ⟨s, hs⟩ := hs
  have hs' : sourceOf (scaleRow L row) = some (L • s) := by
    unfold sourceOf at hs ⊢
    rw [scaleRow_get, scaleRow_get, scaleRow_get]
    split at hs
    · rename_i h1 h2 h3
      obtain rfl := Option.some.inj hs
      rw [h1, h2, h3]
      simp [scaleAt]
      rfl
    · cases hs
  unfold illuminated
  rw [hs, hs']
  simp only [hb.contains s]

/-- the dictionary of the scaled experiment -/
noncomputable def PeaksDict.scaled (d : PeaksDict) (L : ℝ) (b' : Beam) : PeaksDict :=
  { d with peaks := d.peaks.map (scaleRow L), motion := d.motion.scaled L, beam := b' }

theorem sc_diffractCore (hL : 0 < L) (hc : c.Scaled c' L) (hb : b.Scaled b' L) :
    diffractCore c' b' (m.scaled L) = (diffractCore c b m).map fun d => d.scaled L b' := by
  have hcp : computePeaks c' b' (m.scaled L) = (computePeaks c b m).map (List.map (scaleRow L)) := by
    unfold computePeaks
    rw [hc.kind, hc.phases]
    split_ifs with h1
    · rfl
    · dsimp only
      rw [sc_allPhaseRows hc hb]
      split_ifs with h2
      · rfl
      · show Except.ok _ = Except.ok _
        rw [List.map_map]
        congr 1
        apply List.map_congr_left
        intro r hr
        exact sc_extendRow hL hc hb (allPhaseRows_len hr)
  unfold diffractCore
  rw [hcp]
  cases hp : computePeaks c b m with
  | error e => rfl
  | ok rows =>
    obtain rfl := computePeaks_ok hp
    show Except.ok _ = Except.ok _
    congr 1
    unfold PeaksDict.scaled
    dsimp only
    have hrow : ∀ row ∈ (allPhaseRows c b m).map (extendRow c b m), (∃ s, sourceOf row = some s) ∧ row.length = 24 := by
      intro row hr
      obtain ⟨r, hr', rfl⟩ := List.mem_map.mp hr
      obtain ⟨-, -, -, s, -, -, -, -, hs, hl⟩ := extendRow_vecs (c := c) (b := b) (m := m) (allPhaseRows_len hr')
      exact ⟨⟨s, hs⟩, hl⟩
    generalize (allPhaseRows c b m).map (extendRow c b m) = rows at hrow
    have e1 : (rows.map (scaleRow L)).filter (illuminated b') = (rows.filter (illuminated b)).map (scaleRow L) := by
      rw [List.filter_map]
      congr 1
      apply List.filter_congr
      intro row hr
      exact sc_illuminated hb row (hrow row hr).1
    have hlen : ∀ row ∈ rows.filter (illuminated b), row.length = 24 := fun row hr => (hrow row (List.mem_filter.mp hr).1).2
    have e2 : ((rows.filter (illuminated b)).map (scaleRow L)).mapIdx (fun i row => row ++ [fin (i : ℝ)])
        = ((rows.filter (illuminated b)).mapIdx fun i row => row ++ [fin (i : ℝ)]).map (scaleRow L) := by
      apply List.ext_getElem?
      intro j
      rw [List.getElem?_mapIdx, List.getElem?_map, List.getElem?_map, List.getElem?_mapIdx]
      cases hj : (rows.filter (illuminated b))[j]? with
      | none => rfl
      | some row =>
        simp only [Option.map_some]
        rw [scaleRow_append, hlen row (List.mem_of_getElem? hj)]
        simp [scaleAt]
    rw [e1, e2, hb.wave, hb.wavelength]
    rfl
end tables

/-! ### detector -/
section det
variable {L : ℝ}

/-- the detector with all lengths multiplied by `L` -/
noncomputable def Detector.scaled (D : Detector) (L : ℝ) : Detector :=
  { D with c0 := L • D.c0, c1 := L • D.c1, c2 := L • D.c2, zmax := L * D.zmax, ymax := L * D.ymax, pz := L * D.pz, py := L * D.py }

/-- the pixel size argument multiplied by `L` -/
noncomputable def PixArg.scaled (L : ℝ) : PixArg ℝ → PixArg ℝ
  | .absent => .absent
  | .both v => .both (L * v)
  | .pair z y => .pair (L * z) (L * y)

theorem sc_pixelSizes (L zmax ymax : ℝ) (np : PixArg ℤ) (ps : PixArg ℝ) :
    pixelSizes (L * zmax) (L * ymax) np (ps.scaled L) = (pixelSizes zmax ymax np ps).map fun p => (L * p.1, L * p.2) := by
  cases np <;> cases ps <;> simp [pixelSizes, PixArg.scaled, Except.map, mul_div_assoc]

theorem sc_detector_new (hL : 0 < L) (c0 c1 c2 : V3) (np : PixArg ℤ) (ps : PixArg ℝ) (sg th : ℝ) (mr : ℤ) (l p s : Bool) :
    Detector.new (L • c0) (L • c1) (L • c2) np (ps.scaled L) sg th mr l p s =
      (Detector.new c0 c1 c2 np ps sg th mr l p s).map fun D => D.scaled L := by
  have hu : ∀ v : V3, (1 / (L * v.norm)) • L • v = (1 / v.norm) • v := by
    intro v
    by_cases hn : v.norm = 0
    · rw [V3.norm_eq_zero.mp hn]; ext <;> simp
    · have := hL.ne'
      ext <;> simp <;> field_simp
  unfold Detector.new
  simp only [sc_sub, sc_norm hL, sc_pixelSizes, hu]
  cases pixelSizes (c2 - c0).norm (c1 - c0).norm np ps with
  | error e => rfl
  | ok pp =>
    obtain ⟨pz, py⟩ := pp
    show (if _ then _ else if L * pz ≤ 0 ∨ L * py ≤ 0 then _ else _) = _
    have e : ∀ x : ℝ, L * x ≤ 0 ↔ x ≤ 0 := fun x => by
      constructor <;> intro h <;> nlinarith
    simp only [e]
    split_ifs <;> rfl

theorem sc_cornerAngle (hL : 0 < L) (k src c : V3) : Detector.cornerAngle k (L • src) (L • c) = Detector.cornerAngle k src c := by
  unfold Detector.cornerAngle
  simp only [sc_sub, sc_norm hL, V3.smul_x, V3.smul_y, V3.smul_z, fl_div_scale hL]

theorem sc_wrappingCone (hL : 0 < L) (D : Detector) (k src : V3) : (D.scaled L).wrappingCone k (L • src) = D.wrappingCone k src := by
  unfold Detector.wrappingCone Detector.scaled
  simp only [sc_sub, sc_add, sc_cornerAngle hL]

theorem sc_intersect (hL : 0 < L) (D : Detector) (ray src : V3) : (D.scaled L).intersect ray (L • src) =
    (fin L * (D.intersect ray src).1, fin L * (D.intersect ray src).2.1, (D.intersect ray src).2.2) := by
  have ha : ∀ (s : Fl) (x r : ℝ), Detector.alongRay (L * x) r (fin L * s) = fin L * Detector.alongRay x r s := by
    intro s x r
    unfold Detector.alongRay
    simp only [fl_lt_scale hL]
    split_ifs
    · rfl
    · rw [fl_scale_add hL, fl_scale_mull hL, mul_fin]
  have hp : ∀ (x y z : Fl) (c e : V3), Detector.project (fin L * x) (fin L * y) (fin L * z) (L • c) e = fin L * Detector.project x y z c e := by
    intro x y z c e
    unfold Detector.project
    simp only [V3.smul_x, V3.smul_y, V3.smul_z, ← mul_fin, ← fl_scale_sub hL, fl_scale_mulr hL, ← fl_scale_add hL]
  unfold Detector.intersect
  simp only [show (D.scaled L).c0 = L • D.c0 from rfl, show (D.scaled L).normal = D.normal from rfl, show (D.scaled L).zdhat = D.zdhat from rfl,
    show (D.scaled L).ydhat = D.ydhat from rfl, sc_sub, sc_dot, fl_scale_div hL, V3.smul_x, V3.smul_y, V3.smul_z, ha, hp]

theorem sc_contains (hL : 0 < L) (D : Detector) (z y : Fl) : (D.scaled L).contains (fin L * z) (fin L * y) ↔ D.contains z y := by
  unfold Detector.contains
  simp only [show (D.scaled L).zmax = L * D.zmax from rfl, show (D.scaled L).ymax = L * D.ymax from rfl, fl_le_scale hL, fl_le_scale0 hL]

theorem sc_vecAt13 (row : List Fl) : vecAt (scaleRow L row) 13 = vecAt row 13 := by
  unfold vecAt
  simp only [scaleRow_get]
  have e : ∀ o : Option Fl, o.map (scaleAt L 13) = o := by intro o; cases o <;> simp [scaleAt]
  have e1 : ∀ o : Option Fl, o.map (scaleAt L (13 + 1)) = o := by intro o; cases o <;> simp [scaleAt]
  have e2 : ∀ o : Option Fl, o.map (scaleAt L (13 + 2)) = o := by intro o; cases o <;> simp [scaleAt]
  rw [e, e1, e2]

theorem sc_vecAt16 {row : List Fl} {s : V3} (h : vecAt row 16 = some s) : vecAt (scaleRow L row) 16 = some (L • s) := by
  unfold vecAt at h ⊢
  simp only [scaleRow_get]
  split at h
  · rename_i h1 h2 h3
    obtain rfl := Option.some.inj h
    rw [h1, h2, h3]
    simp [scaleAt]
    rfl
  · cases h

theorem sc_rowIntersect (hL : 0 < L) (D : Detector) {row : List Fl} {s : V3} (h : vecAt row 16 = some s) :
    (D.scaled L).rowIntersect (scaleRow L row) = (D.rowIntersect row).mapIdx fun i => scaleAt L (i + 25) := by
  unfold Detector.rowIntersect
  rw [sc_vecAt13, sc_vecAt16 h, h]
  cases vecAt row 13 with
  | none => simp [scaleAt]
  | some k => simp [scaleAt, sc_intersect hL]

theorem scaleRow_getD (row : List Fl) {i : ℕ} (h : i ∉ ([16, 17, 18, 21, 23, 25, 26] : List ℕ)) : (scaleRow L row).getD i nan = row.getD i nan := by
  rw [List.getD_eq_getElem?_getD, List.getD_eq_getElem?_getD, scaleRow_get]
  simp only [List.mem_cons, List.not_mem_nil, or_false, not_or] at h
  cases row[i]? <;> simp [scaleAt, h]

theorem sc_rowFrame (n : ℤ) (row : List Fl) : Detector.rowFrame n (scaleRow L row) = Detector.rowFrame n row := by
  unfold Detector.rowFrame; rw [scaleRow_getD row (by decide)]

theorem sc_rowIntensity (D : Detector) (row : List Fl) : (D.scaled L).rowIntensity (scaleRow L row) = D.rowIntensity row := by
  unfold Detector.rowIntensity
  simp only [scaleRow_getD row (show 5 ∉ ([16, 17, 18, 21, 23, 25, 26] : List ℕ) by decide),
    scaleRow_getD row (show 20 ∉ ([16, 17, 18, 21, 23, 25, 26] : List ℕ) by decide),
    scaleRow_getD row (show 19 ∉ ([16, 17, 18, 21, 23, 25, 26] : List ℕ) by decide)]
  rfl

theorem rowInter_len (D : Detector) (row : List Fl) : (D.rowIntersect row).length = 3 := by
  unfold Detector.rowIntersect; split <;> rfl

theorem sc_peaksIntersection (hL : 0 < L) (D : Detector) (d : PeaksDict) (b' : Beam) (n : ℤ)
    (hrow : ∀ row ∈ d.peaks, row.length = 25 ∧ ∃ s, vecAt row 16 = some s) :
    (D.scaled L).peaksIntersection (d.scaled L b') n = (D.peaksIntersection d n).scaled L b' := by
  have e1 : (d.peaks.map (scaleRow L)).map (fun row => row ++ (D.scaled L).rowIntersect row)
      = (d.peaks.map fun row => row ++ D.rowIntersect row).map (scaleRow L) := by
    rw [List.map_map, List.map_map]
    apply List.map_congr_left
    intro row hr
    obtain ⟨hl, s, hs⟩ := hrow row hr
    simp only [Function.comp]
    rw [sc_rowIntersect hL D hs, scaleRow_append, hl]
  have hlen1 : ∀ row ∈ d.peaks.map (fun row => row ++ D.rowIntersect row), row.length = 28 := by
    intro row hr
    obtain ⟨r, hr', rfl⟩ := List.mem_map.mp hr
    rw [List.length_append, (hrow r hr').1, rowInter_len]
  unfold Detector.peaksIntersection PeaksDict.scaled
  dsimp only
  rw [e1]
  generalize d.peaks.map (fun row => row ++ D.rowIntersect row) = rows at hlen1
  have g : ∀ row : List Fl, row.length = 28 → ∀ i, i = 25 ∨ i = 26 → (scaleRow L row).getD i nan = fin L * row.getD i nan := by
    intro row hl i hi
    rw [List.getD_eq_getElem?_getD, List.getD_eq_getElem?_getD, scaleRow_get]
    have hlt : i < row.length := by omega
    rw [List.getElem?_eq_getElem hlt]
    rcases hi with rfl | rfl <;> simp [scaleAt]
  have e2 : (rows.map (scaleRow L)).filter (fun row => decide ((D.scaled L).contains (row.getD 25 nan) (row.getD 26 nan)))
      = (rows.filter fun row => decide (D.contains (row.getD 25 nan) (row.getD 26 nan))).map (scaleRow L) := by
    rw [List.filter_map]
    congr 1
    apply List.filter_congr
    intro row hr
    simp only [Function.comp]
    rw [g row (hlen1 row hr) 25 (by simp), g row (hlen1 row hr) 26 (by simp)]
    exact decide_eq_decide.2 (sc_contains hL D _ _)
  rw [e2]
  have hlen2 : ∀ row ∈ rows.filter (fun row => decide (D.contains (row.getD 25 nan) (row.getD 26 nan))), row.length = 28 :=
    fun row hr => hlen1 row (List.mem_filter.mp hr).1
  generalize rows.filter (fun row => decide (D.contains (row.getD 25 nan) (row.getD 26 nan))) = rows2 at hlen2
  have e3 : (rows2.map (scaleRow L)).map (fun row => row ++ [Detector.rowFrame n row])
      = (rows2.map fun row => row ++ [Detector.rowFrame n row]).map (scaleRow L) := by
    rw [List.map_map, List.map_map]
    apply List.map_congr_left
    intro row hr
    simp only [Function.comp]
    rw [scaleRow_append, hlen2 row hr, sc_rowFrame]
    simp [scaleAt]
  rw [e3]
  have hlen3 : ∀ row ∈ rows2.map (fun row => row ++ [Detector.rowFrame n row]), row.length = 29 := by
    intro row hr
    obtain ⟨r, hr', rfl⟩ := List.mem_map.mp hr
    rw [List.length_append, hlen2 r hr']; rfl
  generalize rows2.map (fun row => row ++ [Detector.rowFrame n row]) = rows3 at hlen3
  have e4 : (rows3.map (scaleRow L)).map (fun row => row ++ [(D.scaled L).rowIntensity row])
      = (rows3.map fun row => row ++ [D.rowIntensity row]).map (scaleRow L) := by
    rw [List.map_map, List.map_map]
    apply List.map_congr_left
    intro row hr
    simp only [Function.comp]
    rw [scaleRow_append, hlen3 row hr, sc_rowIntensity]
    simp [scaleAt]
  rw [e4, List.filter_map]
  congr 2
  apply List.filter_congr
  intro row hr
  simp only [Function.comp]
  rw [scaleRow_getD row (by decide)]
end det

end XRD
