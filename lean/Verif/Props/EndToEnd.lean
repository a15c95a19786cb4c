import Verif.Props.Exact
import Verif.Props.Scattering
import Verif.Props.Peaks2
import Verif.Props.SplitFails
import Verif.Props.BeamSize

/-! The properties of the peaks table stated for the public call `Polycrystal.diffract` on a crystal with an arbitrary history, instead of
for the inner computation: nothing is assumed about the state of the crystal except that a program produced it. -/

namespace XRD
open V3 M3 Fl Spec
open scoped Classical

/-- The states of one polycrystal a program can reach: constructed from phases that were just constructed, then moved and diffracted (with
or without success) any number of times in any order. -/
inductive Program (x : Xfab) : Polycrystal → Prop
  | new {coord : List V3} {enod : List (Q4 ℕ)} {mesh : TetraMesh} {o s : MatArg} {ph : PhasesArg} {map : Option (List ℝ)} {p : Polycrystal}
      (hm : TetraMesh.new coord enod = .ok mesh) (hf : ∀ f ∈ ph.toList, ∃ cell sg cif, f = Phase.new cell sg cif)
      (hp : Polycrystal.new x mesh o s ph map = .ok p) : Program x p
  | transform {p : Polycrystal} (hp : Program x p) (a T o : V3) (w : ℝ) (m : Motion) (hm : Motion.new a w T o = .ok m)
      (ha : norm a = 1) (t : ℝ) : Program x (p.transform m t)
  | diffract {p : Polycrystal} (hp : Program x p) (b : Beam) (m : Motion) (lo hi : ℝ) (det : Option Detector) (d : PeaksDict)
      (p' : Polycrystal) (h : p.diffract x b m lo hi det = .ok (d, p')) : Program x p'
  | failed {p : Polycrystal} (hp : Program x p) (b : Beam) (m : Motion) (lo hi lo' hi' : ℝ) (det : Option Detector) (e : PyErr)
      (h : p.diffract x b m lo hi det = .error e) (hl : p.limits b lo hi det = .ok (lo', hi')) :
      Program x (p.setupPhases x b.wavelength lo' hi')

/-- `hkl` is plane number `n` of those the crystallography library lists for the phase between the Bragg limits, with the weight the
intensity gets: 1 without a structure file, else the squared modulus of the structure factor, which must exceed 1e-6. -/
def ListedPlane (x : Xfab) (ph : Phase) (wavelength lo hi : ℝ) (n : ℕ) (hkl : HKL) (wt : ℝ) : Prop :=
  (x.genhkl ph.unitCell (Real.sin lo / wavelength) (Real.sin hi / wavelength) ph.sgname)[n]? = some hkl ∧
  match ph.cif with
  | none => wt = 1
  | some f => ∃ F : ℝ × ℝ, (x.sfBatch (x.genhkl ph.unitCell (Real.sin lo / wavelength) (Real.sin hi / wavelength) ph.sgname)
      ph.unitCell ph.sgname f)[n]? = some F ∧ wt = F.1 ^ 2 + F.2 ^ 2 ∧ wt > 1 / 10 ^ 6

theorem setupPhases_fresh {x : Xfab} {p : Polycrystal} (h : ∀ ph ∈ p.phases, ph.Fresh) (wl lo hi : ℝ) :
    ∀ ph ∈ (p.setupPhases x wl lo hi).phases, ph.Fresh := by
  intro ph hp
  simp only [Polycrystal.setupPhases, List.mem_map] at hp
  obtain ⟨q, hq, rfl⟩ := hp
  exact Phase.setup_fresh (h q hq) _ _ _

theorem program_fresh {x : Xfab} {p : Polycrystal} (hp : Program x p) : ∀ ph ∈ p.phases, ph.Fresh := by
  induction hp with
  | new hm hf hp =>
    obtain ⟨U, S, kind, pm, eB, hU, hS, hph, heB, rfl⟩ := Polycrystal.new_ok hp
    intro f h
    obtain ⟨cell, sg, cif, rfl⟩ := hf f h
    intro _; rfl
  | transform hp a T o w m hm ha t ih => exact ih
  | diffract hp b m lo hi det d p' h ih =>
    obtain ⟨lo', hi', -, rfl, -⟩ := Polycrystal.diffract_ok h
    exact setupPhases_fresh ih _ _ _
  | failed hp b m lo hi lo' hi' det e h hl ih => exact setupPhases_fresh ih _ _ _

theorem program_consistent {x : Xfab} (hx : ∀ h cell sg cif, (x.sfBatch h cell sg cif).length = h.length) {p : Polycrystal}
    (hp : Program x p) (wl lo hi : ℝ) : ∀ ph ∈ (p.setupPhases x wl lo hi).crystal.phases, ph.Consistent := by
  intro ph h
  simp only [Polycrystal.setupPhases, Polycrystal.crystal, List.mem_map] at h
  obtain ⟨q, hq, rfl⟩ := h
  exact Phase.setup_consistent hx (program_fresh hp q hq) _ _ _

theorem listed_iff {x : Xfab} {ph : Phase} (hf : ph.Fresh) {wl lo hi : ℝ} {n : ℕ} {hkl : HKL} {wt : ℝ} :
    UsablePlane (ph.setup x wl lo hi) n hkl wt ↔ ListedPlane x ph wl lo hi n hkl wt := by
  obtain ⟨cell, sg, cif, mi, sf⟩ := ph
  cases cif with
  | none =>
    have : sf = none := hf rfl
    subst this
    simp [UsablePlane, ListedPlane, Phase.setup]
  | some f => simp [UsablePlane, ListedPlane, Phase.setup]

/-- the diffraction vector of plane `hkl` of element `e` in the present state: `U B hkl` with the element's own matrices -/
def Polycrystal.vectorOf (p : Polycrystal) (e : ℕ) (hkl : HKL) : V3 :=
  (p.orientationLab.getD e 0).mulVec ((p.eB.getD e 0).mulVec ⟨hkl.h, hkl.k, hkl.l⟩)

theorem vectorOf_eq (x : Xfab) (p : Polycrystal) (wl lo hi : ℝ) (e : ℕ) (hkl : HKL) :
    p.vectorOf e hkl = (p.setupPhases x wl lo hi).crystal.G0 e hkl := by
  unfold Polycrystal.vectorOf Crystal.G0 getG; rw [mulVec_mul]; rfl

theorem call1_move {a T o : V3} {w t : ℝ} (ha : nsq a = 1) (q : V3) : move a w T o t q = (⟨a, w, T, o⟩ : Motion).call1 q t := by
  simp only [Motion.call1, Spec.move, rotMat_eq_spec ha, mul_comm w t]
  ext <;> simp <;> ring

/-- A diffraction event in the textbook sense, for a crystal in state `p` scanned by the motion with axis `a`, angle `w`, translation `T` and
origin `o`: element `e` belongs to phase `i`, `hkl` is a plane listed for that phase with weight `wt`, and at the time `t` of the scan the
element's diffraction vector scatters elastically while the centre of its bounding sphere is strictly inside the beam. -/
structure Event (x : Xfab) (p : Polycrystal) (b : Beam) (a : V3) (w : ℝ) (T o : V3) (lo hi : ℝ) (e i : ℕ) (hkl : HKL) (wt t : ℝ) : Prop where
  phase : p.phaseMap[e]? = some (i : ℝ)
  plane : ∃ ph n, p.phases[i]? = some ph ∧ ListedPlane x ph b.wavelength lo hi n hkl wt
  time : 0 ≤ t ∧ t ≤ 1
  elastic : Elastic b.waveVector (rotate a (t * w) (p.vectorOf e hkl))
  lit : InBeam b (move a w T o t (p.meshLab.espherecentroids.getD e 0))

theorem event_iff {x : Xfab} {p : Polycrystal} (hp : Program x p) {b : Beam} {a T o : V3} {w : ℝ} (ha : nsq a = 1) (hw : 0 < w)
    (hw1 : w < Real.pi) {lo hi : ℝ} {e i : ℕ} {hkl : HKL} {wt t : ℝ} :
    (Event x p b a w T o lo hi e i hkl wt t ∧ ¬ Elastic b.waveVector (rotate a Real.pi (p.vectorOf e hkl))) ↔
    (∃ ph n, Reflection (p.setupPhases x b.wavelength lo hi).crystal e i ph n hkl wt) ∧
      Found b ⟨a, w, T, o⟩ ((p.setupPhases x b.wavelength lo hi).crystal.G0 e hkl) t ∧
      b.contains ((⟨a, w, T, o⟩ : Motion).call1 ((p.setupPhases x b.wavelength lo hi).crystal.sphereCentroids.getD e 0) t) := by
  have hG : (p.setupPhases x b.wavelength lo hi).crystal.G0 e hkl = p.vectorOf e hkl := (vectorOf_eq ..).symm
  have hrot : ∀ G : V3, (⟨a, w, T, o⟩ : Motion).rotate1 G t = rotate a (t * w) G := by
    intro G; unfold Motion.rotate1; rw [rotMat_eq_spec ha, mul_comm]
  have hmove : ∀ q : V3, (⟨a, w, T, o⟩ : Motion).call1 q t = move a w T o t q := by
    intro q; exact (call1_move ha q).symm
  rw [hG, hmove]
  constructor
  · rintro ⟨⟨h1, ⟨ph, n, h2, h3⟩, h4, h5, h6⟩, hne⟩
    refine ⟨⟨ph.setup x b.wavelength lo hi, n, h1, ?_, ?_⟩, ?_, h6⟩
    · show (p.phases.map fun ph => ph.setup x b.wavelength lo hi)[i]? = _
      rw [List.getElem?_map, h2]; rfl
    · exact (listed_iff (program_fresh hp ph (List.mem_of_getElem? h2))).mpr h3
    · exact found_of_elastic ha hw hw1 h4.1 h4.2 hne (by rw [hrot]; exact h5)
  · rintro ⟨⟨ph, n, h1, h2, h3⟩, hf, hill⟩
    have h2' : (p.phases.map fun ph => ph.setup x b.wavelength lo hi)[i]? = some ph := h2
    rw [List.getElem?_map, Option.map_eq_some_iff] at h2'
    obtain ⟨q, hq, rfl⟩ := h2'
    obtain ⟨k1, k2⟩ := elastic_of_found ha hw hf
    rw [hrot] at k1
    refine ⟨⟨h1, ⟨q, n, hq, (listed_iff (program_fresh hp q (List.mem_of_getElem? hq))).mp h3⟩, k2, k1, hill⟩, ?_⟩
    exact fun h => not_found_of_half (m := ⟨a, w, T, o⟩) ha h hf

/-- **C01, C42** End to end: whatever a program did with the crystal before, each row of the table `diffract` returns is an event in the
textbook sense (`Event`) of the crystal in its present state within the Bragg limits in use, and the row's columns are those of the event:
element, phase, plane, weight, time, `G0 = U B hkl`, `G` and `K_out`, the position of the element's centre at that time and its volume. -/
theorem C01_diffract (x : Xfab) (hx : ∀ h cell sg cif, (x.sfBatch h cell sg cif).length = h.length) (p : Polycrystal) (hp : Program x p)
    (b : Beam) (a T o : V3) (w : ℝ) (m : Motion) (hm : Motion.new a w T o = .ok m) (ha : norm a = 1) (lo hi : ℝ) (det : Option Detector)
    (d : PeaksDict) (p' : Polycrystal) (hd : p.diffract x b m lo hi det = .ok (d, p')) (row : List Fl) (hrow : row ∈ d.peaks) :
    ∃ lo' hi', p.limits b lo hi det = .ok (lo', hi') ∧
    ∃ (e i : ℕ) (hkl : HKL) (wt t : ℝ) (G0 : V3),
      Event x p b a w T o lo' hi' e i hkl wt t ∧
      G0 = (p.orientationLab.getD e 0).mulVec ((p.eB.getD e 0).mulVec ⟨hkl.h, hkl.k, hkl.l⟩) ∧
      Elastic b.waveVector (rotate a (t * w) G0) ∧
      Has d.columns row "grain_index" (fin e) ∧ Has d.columns row "phase_number" (fin i) ∧
      HasV d.columns row "h" "k" "l" ⟨hkl.h, hkl.k, hkl.l⟩ ∧ Has d.columns row "structure_factors" (fin wt) ∧
      Has d.columns row "diffraction_times" (fin t) ∧ HasV d.columns row "G0_x" "G0_y" "G0_z" G0 ∧
      HasV d.columns row "Gx" "Gy" "Gz" (rotate a (t * w) G0) ∧
      HasV d.columns row "K_out_x" "K_out_y" "K_out_z" (b.waveVector + rotate a (t * w) G0) ∧
      HasV d.columns row "Source_x" "Source_y" "Source_z" (move a w T o t (p.meshLab.espherecentroids.getD e 0)) ∧
      Has d.columns row "volumes" (fin (p.meshVolumes.getD e 0)) := by
  obtain ⟨lo', hi', hl, rfl, hc⟩ := Polycrystal.diffract_ok hd
  refine ⟨lo', hi', hl, ?_⟩
  have hcons := program_consistent hx hp b.wavelength lo' hi'
  obtain ⟨e, i, ph, n, hkl, wt, t, idx, hr, hf, hill, rfl⟩ := mem_diffract hcons hc hrow
  obtain ⟨rfl, hw0, hw1, -⟩ := Motion.new_ok hm
  have ha' := norm_eq_one.mp ha
  obtain ⟨hev, -⟩ := (event_iff hp ha' hw0 hw1).mpr ⟨⟨ph, n, hr⟩, hf, hill⟩
  rw [diffract_columns hc]
  have hrot : ∀ G : V3, rotate a (t * w) G = (⟨a, w, T, o⟩ : Motion).rotate1 G t := by
    intro G; unfold Motion.rotate1; rw [rotMat_eq_spec ha', mul_comm]
  have hmove : ∀ q : V3, move a w T o t q = (⟨a, w, T, o⟩ : Motion).call1 q t := by
    intro q; rw [call1_move ha']
  refine ⟨e, i, hkl, wt, t, _, hev, rfl, hev.elastic, ⟨0, rfl, rfl⟩, ⟨1, rfl, rfl⟩, ⟨⟨2, rfl, rfl⟩, ⟨3, rfl, rfl⟩, ⟨4, rfl, rfl⟩⟩,
    ⟨5, rfl, rfl⟩, ⟨6, rfl, rfl⟩, ?_, ?_, ?_, ?_, ⟨21, rfl, rfl⟩⟩
  all_goals first | rw [show (p.orientationLab.getD e 0).mulVec ((p.eB.getD e 0).mulVec ⟨hkl.h, hkl.k, hkl.l⟩) = _ from
    vectorOf_eq x p b.wavelength lo' hi' e hkl] | skip
  · exact ⟨⟨7, rfl, rfl⟩, ⟨8, rfl, rfl⟩, ⟨9, rfl, rfl⟩⟩
  · rw [hrot]; exact ⟨⟨10, rfl, rfl⟩, ⟨11, rfl, rfl⟩, ⟨12, rfl, rfl⟩⟩
  · rw [hrot, add_comm]; exact ⟨⟨13, rfl, rfl⟩, ⟨14, rfl, rfl⟩, ⟨15, rfl, rfl⟩⟩
  · rw [hmove]; exact ⟨⟨16, rfl, rfl⟩, ⟨17, rfl, rfl⟩, ⟨18, rfl, rfl⟩⟩

/-- **C02**, end to end and exact: the table `diffract` returns lists exactly the textbook events of the crystal in its present state, except
that events whose diffraction vector would also scatter elastically after exactly half a turn about the axis are missing. -/
theorem C02_diffract_exactly (x : Xfab) (hx : ∀ h cell sg cif, (x.sfBatch h cell sg cif).length = h.length) (p : Polycrystal)
    (hp : Program x p) (b : Beam) (a T o : V3) (w : ℝ) (m : Motion) (hm : Motion.new a w T o = .ok m) (ha : norm a = 1) (lo hi : ℝ)
    (det : Option Detector) (d : PeaksDict) (p' : Polycrystal) (hd : p.diffract x b m lo hi det = .ok (d, p')) :
    ∃ lo' hi', p.limits b lo hi det = .ok (lo', hi') ∧ ∀ (e i : ℕ) (hkl : HKL) (wt t : ℝ),
      (∃ row ∈ d.peaks, Has d.columns row "grain_index" (fin e) ∧ Has d.columns row "phase_number" (fin i) ∧
        HasV d.columns row "h" "k" "l" ⟨hkl.h, hkl.k, hkl.l⟩ ∧ Has d.columns row "structure_factors" (fin wt) ∧
        Has d.columns row "diffraction_times" (fin t)) ↔
      Event x p b a w T o lo' hi' e i hkl wt t ∧
        ¬ Elastic b.waveVector (rotate a Real.pi ((p.orientationLab.getD e 0).mulVec ((p.eB.getD e 0).mulVec ⟨hkl.h, hkl.k, hkl.l⟩))) := by
  obtain ⟨lo', hi', hl, rfl, hc⟩ := Polycrystal.diffract_ok hd
  refine ⟨lo', hi', hl, fun e i hkl wt t => ?_⟩
  have hcons := program_consistent hx hp b.wavelength lo' hi'
  obtain ⟨rfl, hw0, hw1, -⟩ := Motion.new_ok hm
  have ha' := norm_eq_one.mp ha
  have key := event_iff (x := x) hp (b := b) (T := T) (o := o) ha' hw0 hw1 (lo := lo') (hi := hi') (e := e) (i := i) (hkl := hkl) (wt := wt) (t := t)
  rw [show ((p.orientationLab.getD e 0).mulVec ((p.eB.getD e 0).mulVec ⟨hkl.h, hkl.k, hkl.l⟩)) = p.vectorOf e hkl from rfl, key,
    diffract_columns hc]
  constructor
  · rintro ⟨row, hrow, h1, h2, ⟨g1, g2, g3⟩, h4, h5⟩
    obtain ⟨e', i', ph, n, hkl', wt', t', idx, hr, hf, hill, rfl⟩ := mem_diffract hcons hc hrow
    have k0 := (has_iff 0 rfl).mp h1
    have k1 := (has_iff 1 rfl).mp h2
    have k2 := (has_iff 2 rfl).mp g1
    have k3 := (has_iff 3 rfl).mp g2
    have k4 := (has_iff 4 rfl).mp g3
    have k5 := (has_iff 5 rfl).mp h4
    have k6 := (has_iff 6 rfl).mp h5
    simp [row24, HKL.toV] at k0 k1 k2 k3 k4 k5 k6
    obtain ⟨h, k, l⟩ := hkl
    obtain ⟨h', k', l'⟩ := hkl'
    simp only at k2 k3 k4
    subst k0 k1 k2 k3 k4 k5 k6
    exact ⟨⟨ph, n, hr⟩, hf, hill⟩
  · rintro ⟨⟨ph, n, hr⟩, hf, hill⟩
    obtain ⟨idx, hrow⟩ := mem_diffract_of hcons hc hr hf hill
    exact ⟨_, hrow, ⟨0, rfl, rfl⟩, ⟨1, rfl, rfl⟩, ⟨⟨2, rfl, rfl⟩, ⟨3, rfl, rfl⟩, ⟨4, rfl, rfl⟩⟩, ⟨5, rfl, rfl⟩, ⟨6, rfl, rfl⟩⟩

/-- **C03, C04, C16, C17** End to end: for every row of the returned table the time is in the scan, `sin(2θ/2)` is `|G0| λ / 4π` with `2θ` in
`[0, π]`, the polarization factor is `1 - (K̂·P)²` and in `[0,1]`, and the Lorentz factor is NaN (exact back-scattering), infinite, or the
textbook value, which is at least 1. -/
theorem C04_diffract (x : Xfab) (hx : ∀ h cell sg cif, (x.sfBatch h cell sg cif).length = h.length) (p : Polycrystal) (hp : Program x p)
    (q : Qhull) (vs : List V3) (dir pol : V3) (wl : ℝ) (b : Beam) (hb : Beam.new q vs dir wl pol = .ok b) (hwl : 0 < wl) (a T o : V3) (w : ℝ)
    (m : Motion) (hm : Motion.new a w T o = .ok m) (ha : norm a = 1) (lo hi : ℝ) (det : Option Detector) (d : PeaksDict) (p' : Polycrystal)
    (hd : p.diffract x b m lo hi det = .ok (d, p')) (row : List Fl) (hrow : row ∈ d.peaks) :
    (∃ t, Has d.columns row "diffraction_times" (fin t) ∧ 0 ≤ t ∧ t ≤ 1) ∧
    (∃ (tt : ℝ) (G0 : V3), Has d.columns row "2theta" (fin tt) ∧ HasV d.columns row "G0_x" "G0_y" "G0_z" G0 ∧
      0 ≤ tt ∧ tt ≤ Real.pi ∧ Real.sin (tt / 2) = norm G0 * wl / (4 * Real.pi)) ∧
    (∃ (P : ℝ) (K : V3), Has d.columns row "polarization_factors" (fin P) ∧ HasV d.columns row "K_out_x" "K_out_y" "K_out_z" K ∧
      0 ≤ P ∧ P ≤ 1 ∧ P = 1 - (dot K ((1 / norm pol) • pol) / norm K) ^ 2) ∧
    (∃ (L : Fl) (K : V3), Has d.columns row "lorentz_factors" L ∧ HasV d.columns row "K_out_x" "K_out_y" "K_out_z" K ∧
      ((L = nan ∧ K = -b.waveVector) ∨ L = pinf ∨ ∃ r : ℝ, L = fin r ∧ 1 ≤ r ∧
        r = 1 / (Real.sin (angle b.waveVector K) * |Real.sin (angle a (perp b.waveVector K))|))) := by
  obtain ⟨lo', hi', hl, rfl, hc⟩ := Polycrystal.diffract_ok hd
  have hcons := program_consistent hx hp b.wavelength lo' hi'
  exact ⟨C03_times_in_unit_interval _ b a T o w m d hm hcons hc row hrow,
    C04_two_theta_obeys_bragg q vs dir pol wl b hb hwl _ a T o w m d hm ha hcons hc row hrow,
    C16_peaks_polarization_range q vs dir pol wl b hb hwl _ a T o w m d hm ha hcons hc row hrow,
    C17_peaks_lorentz q vs dir pol wl b hb hwl _ a T o w m d hm ha hcons hc row hrow⟩

/-- **C03**, end to end and exact: when the library lists no plane of a phase twice, a row of the returned table has a copy (same element,
phase, plane and time) if and only if the diffraction vector is turning tangentially to the Ewald sphere at that time. -/
theorem C03_diffract_twice_iff (x : Xfab) (hx : ∀ h cell sg cif, (x.sfBatch h cell sg cif).length = h.length) (p : Polycrystal)
    (hp : Program x p) (hnd : ∀ cell s1 s2 sg, (x.genhkl cell s1 s2 sg).Nodup) (b : Beam) (a T o : V3) (w : ℝ) (m : Motion)
    (hm : Motion.new a w T o = .ok m) (ha : norm a = 1) (lo hi : ℝ) (det : Option Detector) (d : PeaksDict) (p' : Polycrystal)
    (hd : p.diffract x b m lo hi det = .ok (d, p')) (i : ℕ) (r : List Fl) (hi' : d.peaks[i]? = some r) (G : V3)
    (hG : HasV d.columns r "Gx" "Gy" "Gz" G) :
    (∃ j r', j ≠ i ∧ d.peaks[j]? = some r' ∧ (∀ name ∈ ["grain_index", "phase_number", "h", "k", "l", "diffraction_times"],
      ∀ v, Has d.columns r name v ↔ Has d.columns r' name v)) ↔
    dot b.waveVector (cross a G) = 0 := by
  obtain ⟨lo', hi'', hl, rfl, hc⟩ := Polycrystal.diffract_ok hd
  refine C03_reported_twice_iff _ b a T o w m d hm ha (program_consistent hx hp b.wavelength lo' hi'') ?_ hc i r hi' G hG
  intro ph h
  simp only [Polycrystal.setupPhases, Polycrystal.crystal, List.mem_map] at h
  obtain ⟨f, -, rfl⟩ := h
  unfold Phase.setup
  dsimp only
  split <;> exact hnd _ _ _ _

/-- the crystal of the scene is a program state, also after it was diffracted and moved -/
theorem program_scene : Program sceneX scenePoly :=
  .new sceneMesh_new (by
    intro f hf
    simp only [PhasesArg.toList, List.mem_singleton] at hf
    subst hf; exact ⟨_, _, _, rfl⟩) (polyOf_new sceneB)

example : ∃ (p : Polycrystal) (d : PeaksDict) (p' : Polycrystal), Program sceneX p ∧ p.phases ≠ scenePoly.phases ∧
    p.diffract sceneX demoBeam demoZ 0 (Real.pi / 2) none = .ok (d, p') ∧ d.peaks ≠ [] := by
  have hs : ∃ d p', scenePoly.diffract sceneX demoBeam demoZ 0 (Real.pi / 2) none = .ok (d, p') ∧ d.peaks ≠ [] := by
    obtain ⟨d, p', h, -, row, hr, -⟩ := scene_diffract none 0 (Real.pi / 2) 0 (Real.pi / 2) rfl (by simp; positivity) (by
      rw [Real.sin_pi_div_two]
      have := Real.sqrt_le_sqrt (show (2:ℝ) ≤ 4 by norm_num)
      rw [show (4:ℝ) = 2 ^ 2 by norm_num, Real.sqrt_sq (by norm_num)] at this
      linarith)
    exact ⟨d, p', h, List.ne_nil_of_mem hr⟩
  obtain ⟨d, p', h, hne⟩ := hs
  have hsame : p'.setupPhases sceneX demoBeam.wavelength 0 (Real.pi / 2) = p' ∧ p'.phases ≠ scenePoly.phases := by
    obtain ⟨lo', hi', hl, rfl, -⟩ := Polycrystal.diffract_ok h
    obtain ⟨rfl, rfl⟩ := Prod.mk.inj (Except.ok.inj hl)
    constructor
    · unfold Polycrystal.setupPhases
      simp only [List.map_map, Polycrystal.mk.injEq, true_and, and_true]
      refine List.map_congr_left fun f hf => ?_
      exact Phase.setup_setup (program_fresh program_scene f hf) _ _ _ _ _ _
    · intro hq
      have h1 : [scenePhase.setup sceneX demoBeam.wavelength 0 (Real.pi / 2)] = [scenePhase] := hq
      rw [scene_setup 0 (Real.pi / 2) (by simp; positivity) (by
        rw [Real.sin_pi_div_two]
        have := Real.sqrt_le_sqrt (show (2:ℝ) ≤ 4 by norm_num)
        rw [show (4:ℝ) = 2 ^ 2 by norm_num, Real.sqrt_sq (by norm_num)] at this
        linarith)] at h1
      simp [scenePhase, Phase.new] at h1
  refine ⟨p', d, p', .diffract program_scene _ _ _ _ _ _ _ h, hsame.2, ?_, hne⟩
  obtain ⟨lo', hi', hl, hp', hc⟩ := Polycrystal.diffract_ok h
  unfold Polycrystal.diffract
  simp only [Polycrystal.limits]
  rw [hsame.1, hc]

end XRD
