import Verif.Props.Backward
import Verif.Props.SymmetryFails
import Verif.Props.StructureFactor

/-! Property C104: Friedel pairs. -/

namespace XRD.Spec
open XRD V3

/-- the opposite plane -/
def HKL.opposite (h : HKL) : HKL := ⟨-h.h, -h.k, -h.l⟩
/-- the half turn about the line through `c` along the unit vector `a` -/
noncomputable def halfTurn (a c v : V3) : V3 := c + (2 * dot a (v - c)) • a - (v - c)
/-- the reflection in the plane through the origin perpendicular to the unit vector `a` -/
noncomputable def mirrored (a v : V3) : V3 := v - (2 * dot a v) • a
/-- Friedel's law for a phase: with every reflection it sets up it sets up the opposite one, with the same intensity. -/
def FriedelLaw (x : Xfab) (ph : Phase) : Prop :=
  ∀ wavelength lo hi : ℝ, ((reflections (ph.setup x wavelength lo hi)).map fun r => (HKL.opposite r.1, r.2)).Perm
    (reflections (ph.setup x wavelength lo hi))
/-- `row` and `row2` are a Friedel pair of a scan about the axis `a`: opposite planes of the same element at the same time, scattering
vectors and diffracted rays mirror images in the plane perpendicular to the axis, source points half a turn about `c` apart; all other
columns but the running number agree, the polarisation factor if the polarisation is along or perpendicular to the axis. -/
structure FriedelPair (cols : List String) (a c pol : V3) (row row2 : List Fl) : Prop where
  plane : ∃ h : HKL, HasV cols row "h" "k" "l" h.toV ∧ HasV cols row2 "h" "k" "l" (HKL.opposite h).toV
  sample : ∃ v, HasV cols row "G0_x" "G0_y" "G0_z" v ∧ HasV cols row2 "G0_x" "G0_y" "G0_z" (mirrored a v)
  scattering : ∃ v, HasV cols row "Gx" "Gy" "Gz" v ∧ HasV cols row2 "Gx" "Gy" "Gz" (mirrored a v)
  ray : ∃ v, HasV cols row "K_out_x" "K_out_y" "K_out_z" v ∧ HasV cols row2 "K_out_x" "K_out_y" "K_out_z" (mirrored a v)
  source : ∃ v, HasV cols row "Source_x" "Source_y" "Source_z" v ∧ HasV cols row2 "Source_x" "Source_y" "Source_z" (halfTurn a c v)
  polarization : dot pol a = 0 ∨ cross pol a = 0 → ∀ v, Has cols row2 "polarization_factors" v ↔ Has cols row "polarization_factors" v
  rest : ∀ name ∈ ["grain_index", "phase_number", "structure_factors", "diffraction_times", "lorentz_factors", "volumes", "2theta",
    "scherrer_fwhm"], ∀ v, Has cols row2 name v ↔ Has cols row name v
end XRD.Spec

namespace XRD
open V3 M3 Fl Spec
open scoped Classical

section
variable {a : V3}

theorem mirrored_nsq (ha : nsq a = 1) (v : V3) : nsq (mirrored a v) = nsq v := by
  have e : nsq (mirrored a v) = nsq v - 4 * (dot a v) ^ 2 + 4 * (dot a v) ^ 2 * nsq a := by
    simp only [mirrored, nsq, V3.dot, V3.sub_x, V3.sub_y, V3.sub_z, V3.smul_x, V3.smul_y, V3.smul_z]; ring
  rw [e, ha]; ring

theorem mirrored_norm (ha : nsq a = 1) (v : V3) : norm (mirrored a v) = norm v := by
  unfold V3.norm; rw [mirrored_nsq ha]

theorem dot_mirrored (u v : V3) : dot u (mirrored a v) = dot u v - 2 * dot a v * dot u a := by
  simp only [mirrored, V3.dot, V3.sub_x, V3.sub_y, V3.sub_z, V3.smul_x, V3.smul_y, V3.smul_z]; ring

theorem mirrored_involutive (ha : nsq a = 1) (v : V3) : mirrored a (mirrored a v) = v := by
  have e : dot a (mirrored a v) = - dot a v := by rw [dot_mirrored, show dot a a = 1 from ha]; ring
  unfold mirrored at *
  rw [e]
  ext <;> simp

/-- the half turn of vectors, from two quarter turns -/
theorem quarter_twice (ha : nsq a = 1) (v : V3) :
    (rotMat a (Real.pi / 2 * 1)).mulVec ((rotMat a (Real.pi / 2 * 1)).mulVec v) = -mirrored a v := by
  rw [← mulVec_mul, rotMat_mul ha, show Real.pi / 2 * 1 + Real.pi / 2 * 1 = Real.pi by ring, rotMat_mulVec, ha]
  ext <;> simp [mirrored] <;> ring

theorem rotMat_mirrored (ha : nsq a = 1) (θ : ℝ) (v : V3) : (rotMat a θ).mulVec (mirrored a v) = mirrored a ((rotMat a θ).mulVec v) := by
  rw [rotMat_mulVec, rotMat_mulVec, ha]
  have h' : a.x * a.x + a.y * a.y + a.z * a.z = 1 := ha
  have d1 : dot a (mirrored a v) = - dot a v := by rw [dot_mirrored, show dot a a = 1 from ha]; ring
  have d2 : dot a (v + Real.sin θ • cross a v + (1 - Real.cos θ) • (dot a v • a - (1:ℝ) • v)) = dot a v := by
    have : dot a (v + Real.sin θ • cross a v + (1 - Real.cos θ) • (dot a v • a - (1:ℝ) • v)) =
        dot a v + (1 - Real.cos θ) * dot a v * (nsq a - 1) := by
      simp only [nsq, V3.dot, V3.cross, V3.add_x, V3.add_y, V3.add_z, V3.sub_x, V3.sub_y, V3.sub_z, V3.smul_x, V3.smul_y, V3.smul_z]; ring
    rw [this, ha]; ring
  rw [d1]
  conv_rhs => unfold mirrored
  rw [d2]
  unfold mirrored
  generalize dot a v = s
  ext <;> simp [V3.cross] <;> ring

theorem halfTurn_call (ha : nsq a = 1) (w : ℝ) (T o v : V3) (t : ℝ) :
    (⟨a, w, T, o⟩ : Motion).call1 (halfTurn a o v) t = halfTurn a (o + t • T) ((⟨a, w, T, o⟩ : Motion).call1 v t) := by
  have e1 : halfTurn a o v - o = -mirrored a (v - o) := by
    unfold halfTurn mirrored; ext <;> simp <;> ring
  have e2 : ∀ q : V3, halfTurn a (o + t • T) q = -mirrored a (q - (o + t • T)) + (o + t • T) := by
    intro q; unfold halfTurn mirrored; ext <;> simp <;> ring
  rw [e2]
  unfold Motion.call1
  dsimp only
  have e3 : (rotMat a (w * t)).mulVec (v - o) + o + t • T - (o + t • T) = (rotMat a (w * t)).mulVec (v - o) := by
    ext <;> simp
  rw [e1, e3, ← rotMat_mirrored ha]
  ext <;> simp [mulVec, V3.dot] <;> ring

theorem halfTurn_involutive (ha : nsq a = 1) (c v : V3) : halfTurn a c (halfTurn a c v) = v := by
  have e2 : ∀ q : V3, halfTurn a c q = -mirrored a (q - c) + c := by
    intro q; unfold halfTurn mirrored; ext <;> simp <;> ring
  have e3 : -mirrored a (v - c) + c - c = mirrored a (-(v - c)) := by
    unfold mirrored; ext <;> simp [V3.dot] <;> ring
  rw [e2, e2 v, e3, mirrored_involutive ha]
  ext <;> simp

/-- the half-angle equation does not see the component along an axis perpendicular to the beam -/
theorem laueRoots_mirrored (ha : nsq a = 1) {k : V3} (hk : dot a k = 0) (G : V3) :
    laueRoots (rho0Factor k a) (rho1Factor k a) (rho2Factor k a) (mirrored a G) =
      laueRoots (rho0Factor k a) (rho1Factor k a) (rho2Factor k a) G := by
  have h0 : dot (rho0Factor k a) a = 0 := by
    simp [rho0Factor, crossMat2, crossMat, vecMul, V3.dot]; ring
  have h1 : dot (rho1Factor k a) a = 0 := by
    simp [rho1Factor, crossMat, vecMul, V3.dot]; ring
  have h2 : dot (rho2Factor k a) a = 0 := by
    rw [← hk]
    simp [rho2Factor, crossMat2, crossMat, vecMul, V3.dot]; ring
  unfold laueRoots
  dsimp only
  rw [dot_mirrored, dot_mirrored, dot_mirrored, h0, h1, h2, mirrored_nsq ha]
  simp

theorem twoTheta_mirrored (ha : nsq a = 1) {k : V3} (h0 : k ≠ 0) (hk : dot a k = 0) (K : V3) : twoTheta k (mirrored a K) = twoTheta k K := by
  rw [twoTheta_eq h0, twoTheta_eq h0, dot_mirrored, V3.dot_comm k a, hk, mirrored_norm ha]
  have : mirrored a K = 0 ↔ K = 0 := by
    rw [← V3.norm_eq_zero, ← V3.norm_eq_zero, mirrored_norm ha]
  simp only [this]
  simp

theorem lorentz_mirrored (ha : nsq a = 1) {k : V3} (h0 : k ≠ 0) (hk : dot a k = 0) (K : V3) : lorentz k (mirrored a K) a = lorentz k K a := by
  rw [← lorentz_neg h0 K a, lorentz_eq h0, lorentz_eq h0]
  have e1 : dot k (mirrored a K) = dot k K := by rw [dot_mirrored, V3.dot_comm k a, hk]; ring
  have e2 : mirrored a K - (dot k K / k.norm ^ 2) • k = mirrored a (K - (dot k K / k.norm ^ 2) • k) := by
    have : dot a (K - (dot k K / k.norm ^ 2) • k) = dot a K := by
      have : dot a (K - (dot k K / k.norm ^ 2) • k) = dot a K - (dot k K / k.norm ^ 2) * dot a k := by
        simp only [V3.dot, V3.sub_x, V3.sub_y, V3.sub_z, V3.smul_x, V3.smul_y, V3.smul_z]; ring
      rw [this, hk]; ring
    unfold mirrored
    rw [this]
    ext <;> simp <;> ring
  have e3 : ∀ o : V3, dot a (mirrored a o) = dot (-a) o := by
    intro o
    rw [dot_mirrored, show dot a a = 1 from ha]
    simp only [V3.dot, V3.neg_x, V3.neg_y, V3.neg_z]; ring
  dsimp only
  rw [e1, e2, e3, mirrored_norm ha]

theorem polarization_eq' (K pol : V3) (hK : K ≠ 0) : polarization K pol = fin (1 - (dot K pol / norm K) ^ 2) := by
  have hn : norm K ≠ 0 := fun h => hK (V3.norm_eq_zero.mp h)
  unfold polarization
  dsimp only
  simp only [div_fin_ne hn, mul_fin, add_fin, sub_fin]
  congr 1
  simp only [V3.dot]
  field_simp

theorem polarization_mirrored (ha : nsq a = 1) {K pol : V3} (hp : dot pol a = 0 ∨ cross pol a = 0) : polarization (mirrored a K) pol = polarization K pol := by
  by_cases hK : K = 0
  · subst hK
    have : mirrored a 0 = 0 := by unfold mirrored; ext <;> simp [V3.dot]
    rw [this]
  have hK' : mirrored a K ≠ 0 := by
    intro h; apply hK; rw [← V3.norm_eq_zero, ← mirrored_norm ha, h]; exact V3.norm_eq_zero.mpr rfl
  rw [polarization_eq' _ _ hK, polarization_eq' _ _ hK', mirrored_norm ha, V3.dot_comm (mirrored a K), V3.dot_comm K, dot_mirrored]
  congr 2
  rcases hp with h | h
  · rw [h]; ring_nf
  · have hx : pol.y * a.z - pol.z * a.y = 0 := congrArg V3.x h
    have hy : pol.z * a.x - pol.x * a.z = 0 := congrArg V3.y h
    have hz : pol.x * a.y - pol.y * a.x = 0 := congrArg V3.z h
    have h' : a.x * a.x + a.y * a.y + a.z * a.z = 1 := ha
    have e : dot a K * dot pol a = dot pol K := by
      simp only [V3.dot]
      linear_combination (pol.x * K.x + pol.y * K.y + pol.z * K.z) * h' + (a.y * K.z - a.z * K.y) * hx + (a.z * K.x - a.x * K.z) * hy + (a.x * K.y - a.y * K.x) * hz
    have e' : dot pol K - 2 * dot a K * dot pol a = - dot pol K := by linarith
    rw [e', neg_div, neg_sq]

/-! ### the rows -/

/-- the crystal after half a turn about the line through `o` along `a` -/
structure HalfTurned (a o : V3) (c c' : Crystal) : Prop where
  kind : c'.mapKind = c.mapKind
  map : c'.phaseMap = c.phaseMap
  phases : c'.phases = c.phases
  volumes : c'.volumes = c.volumes
  sphere : ∀ i < c.phases.length, ∀ e ∈ grainIndices c.phaseMap i, c'.sphereCentroids.getD e 0 = halfTurn a o (c.sphereCentroids.getD e 0)
  planes : ∀ (i : ℕ) (ph : Phase), c.phases[i]? = some ph → ((reflections ph).map fun r => (HKL.opposite r.1, r.2)).Perm (reflections ph)
  G : ∀ e v, getG (c'.orientation.getD e 0) (c'.eB.getD e 0) v = -mirrored a (getG (c.orientation.getD e 0) (c.eB.getD e 0) v)

/-- relation of ten-column rows -/
def Friedel10 (a o : V3) (c c' : Crystal) (r r' : List ℝ) : Prop :=
  ∃ (e i : ℕ) (h : HKL) (w t : ℝ) (G : V3), c'.sphereCentroids.getD e 0 = halfTurn a o (c.sphereCentroids.getD e 0) ∧
    r = [(e : ℝ), (i : ℝ), h.toV.x, h.toV.y, h.toV.z, w, t, G.x, G.y, G.z] ∧
    r' = [(e : ℝ), (i : ℝ), (HKL.opposite h).toV.x, (HKL.opposite h).toV.y, (HKL.opposite h).toV.z, w, t, (mirrored a G).x, (mirrored a G).y, (mirrored a G).z]

theorem getG_opposite (U B : M3) (h : HKL) : getG U B (HKL.opposite h).toV = -getG U B h.toV := by
  unfold getG
  ext <;> simp [HKL.toV, HKL.opposite, mulVec, V3.dot] <;> ring

theorem opposite_opposite (h : HKL) : HKL.opposite (HKL.opposite h) = h := by
  cases h; simp [HKL.opposite]

variable {o : V3} {c c' : Crystal}

theorem friedel_elemRows (ha : nsq a = 1) (hc : HalfTurned a o c c') (pick : Fl × Fl → Fl) {b : Beam} (hk : dot a b.waveVector = 0)
    (w : ℝ) (T : V3) {i : ℕ} {ph : Phase}
    (hph : c.phases[i]? = some ph) {e : ℕ} (he : e ∈ grainIndices c.phaseMap i) :
    PermRel (Friedel10 a o c c') (elemRows pick c b ⟨a, w, T, o⟩ i ph e) (elemRows pick c' b ⟨a, w, T, o⟩ i ph e) := by
  rw [elemRows_planes, elemRows_planes]
  have hperm : (((reflections ph).filter fun r => decide (r.2 > 1 / 10 ^ 6)).map fun r => (HKL.opposite r.1, r.2)).Perm
      ((reflections ph).filter fun r => decide (r.2 > 1 / 10 ^ 6)) := by
    have := (hc.planes i ph hph).filter fun r => decide (r.2 > 1 / 10 ^ 6)
    rwa [List.filter_map] at this
  have hs := hc.sphere i (List.getElem?_eq_some_iff.mp hph).1 e he
  generalize ((reflections ph).filter fun r => decide (r.2 > 1 / 10 ^ 6)) = L at hperm
  refine PermRel.of_perm (hperm.filterMap _).symm ?_
  rw [List.filterMap_map]
  clear hperm
  induction L with
  | nil => exact List.Forall₂.nil
  | cons r L ih =>
    rw [List.filterMap_cons, List.filterMap_cons]
    have hG : getG (c'.orientation.getD e 0) (c'.eB.getD e 0) r.1.toV =
        mirrored a (getG (c.orientation.getD e 0) (c.eB.getD e 0) (HKL.opposite r.1).toV) := by
      rw [hc.G, getG_opposite]
      unfold mirrored
      ext <;> simp [V3.dot] <;> ring
    simp only [Function.comp_apply, planeRow]
    rw [hG, laueRoots_mirrored ha hk]
    cases keepTime (laueTime (pick (laueRoots (rho0Factor b.waveVector a) (rho1Factor b.waveVector a)
      (rho2Factor b.waveVector a) (getG (c.orientation.getD e 0) (c.eB.getD e 0) (HKL.opposite r.1).toV))) w) with
    | none => exact ih
    | some t => exact List.Forall₂.cons ⟨e, i, HKL.opposite r.1, r.2, t, _, hs, rfl, by rw [opposite_opposite]⟩ ih

theorem friedel_rows (ha : nsq a = 1) (hc : HalfTurned a o c c') {b : Beam} (hk : dot a b.waveVector = 0) (w : ℝ) (T : V3) :
    PermRel (Friedel10 a o c c') (allPhaseRows c b ⟨a, w, T, o⟩) (allPhaseRows c' b ⟨a, w, T, o⟩) := by
  unfold allPhaseRows
  rw [hc.phases]
  apply PermRel.flatMap
  intro i _
  cases hp : c.phases[i]? with
  | none => exact ⟨[], List.Forall₂.nil, List.Perm.refl _⟩
  | some ph =>
    dsimp only
    rw [phaseRows_elems, phaseRows_elems, hc.map]
    exact (PermRel.flatMap fun e he => friedel_elemRows ha hc _ hk w T hp he).append (PermRel.flatMap fun e he => friedel_elemRows ha hc _ hk w T hp he)

/-- relation of the 24-column rows, with the source points and the time -/
def Friedel24 (a o T pol : V3) (r r' : List Fl) : Prop :=
  ∃ (s : V3) (t : ℝ), sourceOf r = some s ∧ sourceOf r' = some (halfTurn a (o + t • T) s) ∧ r[6]? = some (fin t) ∧ r'[6]? = some (fin t) ∧
    ∀ v v', FriedelPair peakColumns a (o + t • T) pol (r ++ [v]) (r' ++ [v'])

theorem friedel_extend (ha : nsq a = 1) (hc : HalfTurned a o c c') {b : Beam} (h0 : b.waveVector ≠ 0) (hk : dot a b.waveVector = 0) (w : ℝ) (T : V3)
    {r r' : List ℝ} (h : Friedel10 a o c c' r r') :
    Friedel24 a o T b.polarization (extendRow c b ⟨a, w, T, o⟩ r) (extendRow c' b ⟨a, w, T, o⟩ r') := by
  obtain ⟨e, i, h, f, t, G, hs, rfl, rfl⟩ := h
  set m : Motion := ⟨a, w, T, o⟩ with hm
  set s := m.call1 (c.sphereCentroids.getD e 0) t with hsd
  have hs' : m.call1 (c'.sphereCentroids.getD e 0) t = halfTurn a (o + t • T) s := by rw [hs, hm, halfTurn_call ha]
  have hR : m.rotate1 (mirrored a G) t = mirrored a (m.rotate1 G t) := rotMat_mirrored ha _ G
  have hK : mirrored a (m.rotate1 G t) + b.waveVector = mirrored a (m.rotate1 G t + b.waveVector) := by
    have : dot a (m.rotate1 G t + b.waveVector) = dot a (m.rotate1 G t) := by
      have : dot a (m.rotate1 G t + b.waveVector) = dot a (m.rotate1 G t) + dot a b.waveVector := by
        simp only [V3.dot, V3.add_x, V3.add_y, V3.add_z]; ring
      rw [this, hk, add_zero]
    unfold mirrored
    rw [this]
    ext <;> simp <;> ring
  have e1 : extendRow c b m [(e : ℝ), (i : ℝ), h.toV.x, h.toV.y, h.toV.z, f, t, G.x, G.y, G.z] =
      [fin (e : ℝ), fin (i : ℝ), fin h.toV.x, fin h.toV.y, fin h.toV.z, fin f, fin t, fin G.x, fin G.y, fin G.z,
        fin (m.rotate1 G t).x, fin (m.rotate1 G t).y, fin (m.rotate1 G t).z,
        fin (m.rotate1 G t + b.waveVector).x, fin (m.rotate1 G t + b.waveVector).y, fin (m.rotate1 G t + b.waveVector).z,
        fin s.x, fin s.y, fin s.z, lorentz b.waveVector (m.rotate1 G t + b.waveVector) a,
        polarization (m.rotate1 G t + b.waveVector) b.polarization, fin (c.volumes.getD e 0),
        twoTheta b.waveVector (m.rotate1 G t + b.waveVector),
        match twoTheta b.waveVector (m.rotate1 G t + b.waveVector) with | fin x => scherrer (c.volumes.getD e 0) x b.wavelength | _ => nan] := by
    simp [extendRow, colD, hsd, hm]
    rfl
  have e2 : extendRow c' b m [(e : ℝ), (i : ℝ), (HKL.opposite h).toV.x, (HKL.opposite h).toV.y, (HKL.opposite h).toV.z, f, t, (mirrored a G).x, (mirrored a G).y, (mirrored a G).z] =
      [fin (e : ℝ), fin (i : ℝ), fin (HKL.opposite h).toV.x, fin (HKL.opposite h).toV.y, fin (HKL.opposite h).toV.z, fin f, fin t,
        fin (mirrored a G).x, fin (mirrored a G).y, fin (mirrored a G).z,
        fin (mirrored a (m.rotate1 G t)).x, fin (mirrored a (m.rotate1 G t)).y, fin (mirrored a (m.rotate1 G t)).z,
        fin (mirrored a (m.rotate1 G t + b.waveVector)).x, fin (mirrored a (m.rotate1 G t + b.waveVector)).y, fin (mirrored a (m.rotate1 G t + b.waveVector)).z,
        fin (halfTurn a (o + t • T) s).x, fin (halfTurn a (o + t • T) s).y, fin (halfTurn a (o + t • T) s).z,
        lorentz b.waveVector (m.rotate1 G t + b.waveVector) a,
        polarization (mirrored a (m.rotate1 G t + b.waveVector)) b.polarization, fin (c.volumes.getD e 0),
        twoTheta b.waveVector (m.rotate1 G t + b.waveVector),
        match twoTheta b.waveVector (m.rotate1 G t + b.waveVector) with | fin x => scherrer (c.volumes.getD e 0) x b.wavelength | _ => nan] := by
    have x1 : (extendRow c' b m [(e : ℝ), (i : ℝ), (HKL.opposite h).toV.x, (HKL.opposite h).toV.y, (HKL.opposite h).toV.z, f, t, (mirrored a G).x, (mirrored a G).y, (mirrored a G).z]) =
      [fin (e : ℝ), fin (i : ℝ), fin (HKL.opposite h).toV.x, fin (HKL.opposite h).toV.y, fin (HKL.opposite h).toV.z, fin f, fin t,
        fin (mirrored a G).x, fin (mirrored a G).y, fin (mirrored a G).z,
        fin (m.rotate1 (mirrored a G) t).x, fin (m.rotate1 (mirrored a G) t).y, fin (m.rotate1 (mirrored a G) t).z,
        fin (m.rotate1 (mirrored a G) t + b.waveVector).x, fin (m.rotate1 (mirrored a G) t + b.waveVector).y, fin (m.rotate1 (mirrored a G) t + b.waveVector).z,
        fin (m.call1 (c'.sphereCentroids.getD e 0) t).x, fin (m.call1 (c'.sphereCentroids.getD e 0) t).y, fin (m.call1 (c'.sphereCentroids.getD e 0) t).z,
        lorentz b.waveVector (m.rotate1 (mirrored a G) t + b.waveVector) m.axis,
        polarization (m.rotate1 (mirrored a G) t + b.waveVector) b.polarization, fin (c'.volumes.getD e 0),
        twoTheta b.waveVector (m.rotate1 (mirrored a G) t + b.waveVector),
        match twoTheta b.waveVector (m.rotate1 (mirrored a G) t + b.waveVector) with | fin x => scherrer (c'.volumes.getD e 0) x b.wavelength | _ => nan] := by
      simp [extendRow, colD]
      rfl
    rw [x1, hR, hK, hs', hc.volumes, twoTheta_mirrored ha h0 hk]
    show [_, _, _, _, _, _, _, _, _, _, _, _, _, _, _, _, _, _, _, lorentz b.waveVector (mirrored a (m.rotate1 G t + b.waveVector)) a, _, _, _, _] = _
    rw [lorentz_mirrored ha h0 hk]
  rw [e1, e2]
  refine ⟨s, t, rfl, rfl, rfl, rfl, fun v v' => ⟨⟨h, ⟨⟨2, rfl, rfl⟩, ⟨3, rfl, rfl⟩, ⟨4, rfl, rfl⟩⟩, ⟨⟨2, rfl, rfl⟩, ⟨3, rfl, rfl⟩, ⟨4, rfl, rfl⟩⟩⟩,
    ⟨G, ⟨⟨7, rfl, rfl⟩, ⟨8, rfl, rfl⟩, ⟨9, rfl, rfl⟩⟩, ⟨⟨7, rfl, rfl⟩, ⟨8, rfl, rfl⟩, ⟨9, rfl, rfl⟩⟩⟩,
    ⟨_, ⟨⟨10, rfl, rfl⟩, ⟨11, rfl, rfl⟩, ⟨12, rfl, rfl⟩⟩, ⟨⟨10, rfl, rfl⟩, ⟨11, rfl, rfl⟩, ⟨12, rfl, rfl⟩⟩⟩,
    ⟨_, ⟨⟨13, rfl, rfl⟩, ⟨14, rfl, rfl⟩, ⟨15, rfl, rfl⟩⟩, ⟨⟨13, rfl, rfl⟩, ⟨14, rfl, rfl⟩, ⟨15, rfl, rfl⟩⟩⟩,
    ⟨_, ⟨⟨16, rfl, rfl⟩, ⟨17, rfl, rfl⟩, ⟨18, rfl, rfl⟩⟩, ⟨⟨16, rfl, rfl⟩, ⟨17, rfl, rfl⟩, ⟨18, rfl, rfl⟩⟩⟩, ?_, ?_⟩⟩
  · intro hp u
    rw [polarization_mirrored ha hp, has_iff 20 rfl, has_iff 20 rfl]
    rfl
  · intro name hn u
    fin_cases hn
    · rw [has_iff 0 rfl, has_iff 0 rfl]; rfl
    · rw [has_iff 1 rfl, has_iff 1 rfl]; rfl
    · rw [has_iff 5 rfl, has_iff 5 rfl]; rfl
    · rw [has_iff 6 rfl, has_iff 6 rfl]; rfl
    · rw [has_iff 19 rfl, has_iff 19 rfl]; rfl
    · rw [has_iff 21 rfl, has_iff 21 rfl]; rfl
    · rw [has_iff 22 rfl, has_iff 22 rfl]; rfl
    · rw [has_iff 23 rfl, has_iff 23 rfl]; rfl

end

/-- two quarter turns of the sample -/
theorem halfTurned_transform {a o : V3} (ha : nsq a = 1) {x : Xfab} {p : Polycrystal} (hp : Built p) (hph : ∀ ph ∈ p.phases, FriedelLaw x ph)
    (wl lo hi : ℝ) :
    HalfTurned a o (p.setupPhases x wl lo hi).crystal
      (((p.transform ⟨a, Real.pi / 2, 0, o⟩ 1).transform ⟨a, Real.pi / 2, 0, o⟩ 1).setupPhases x wl lo hi).crystal := by
  obtain ⟨f1, f2, -⟩ := built_facts hp
  refine ⟨rfl, rfl, rfl, rfl, ?_, ?_, ?_⟩
  · intro i hi' e he
    have hlt : e < p.meshLab.espherecentroids.length := by
      rw [f2]
      refine f1 i ?_ e he
      simpa [Polycrystal.setupPhases, Polycrystal.crystal] using hi'
    show ((p.meshLab.espherecentroids.map fun q => (⟨a, Real.pi / 2, 0, o⟩ : Motion).call1 q 1).map
      fun q => (⟨a, Real.pi / 2, 0, o⟩ : Motion).call1 q 1).getD e 0 = halfTurn a o (p.meshLab.espherecentroids.getD e 0)
    rw [List.map_map, List.getD_eq_getElem?_getD, List.getD_eq_getElem?_getD, List.getElem?_map, List.getElem?_eq_getElem hlt]
    simp only [Option.map_some, Option.getD_some, Function.comp_apply]
    generalize p.meshLab.espherecentroids[e] = q
    unfold Motion.call1
    dsimp only
    have e1 : (rotMat a (Real.pi / 2 * 1)).mulVec (q - o) + o + (1 : ℝ) • (0 : V3) - o = (rotMat a (Real.pi / 2 * 1)).mulVec (q - o) := by
      ext <;> simp
    rw [e1, quarter_twice ha]
    unfold mirrored halfTurn
    ext <;> simp <;> ring
  · intro i ph h
    change (p.phases.map fun ph => ph.setup x wl lo hi)[i]? = some ph at h
    rw [List.getElem?_map, Option.map_eq_some_iff] at h
    obtain ⟨ph0, h1, rfl⟩ := h
    exact hph ph0 (List.mem_of_getElem? h1) wl lo hi
  · intro e v
    show getG (((p.orientationLab.map fun U => rotMat a (Real.pi / 2 * 1) * U).map fun U => rotMat a (Real.pi / 2 * 1) * U).getD e 0)
      (p.eB.getD e 0) v = -mirrored a (getG (p.orientationLab.getD e 0) (p.eB.getD e 0) v)
    generalize p.eB.getD e 0 = B
    rw [List.map_map, List.getD_eq_getElem?_getD, List.getD_eq_getElem?_getD, List.getElem?_map]
    cases p.orientationLab[e]? with
    | none =>
      simp only [Option.map_none, Option.getD_none]
      have : ∀ B : M3, getG 0 B v = 0 := by intro B; unfold getG; ext <;> simp [mulVec, vecMul, V3.dot]
      rw [this]
      unfold mirrored
      ext <;> simp [V3.dot]
    | some U =>
      simp only [Option.map_some, Option.getD_some, Function.comp_apply]
      rw [turn_getG, turn_getG, quarter_twice ha]

theorem core_eq_all (c : Crystal) (b : Beam) (m : Motion) :
    diffractCore c b m = if c.mapKind = .numpy ∧ c.phases ≠ [] then .error .typeError else
      if (allPhaseRows c b m).length = 1 then .error .indexError else
      .ok ⟨(keptRows c b m).mapIdx fun i row => row ++ [fin (i : ℝ)], peakColumns, b.waveVector, b.wavelength, m.axis, m, b⟩ := by
  unfold diffractCore computePeaks
  by_cases h0 : c.mapKind = .numpy ∧ c.phases ≠ []
  · rw [if_pos h0, if_pos h0]
  · rw [if_neg h0, if_neg h0]
    by_cases h1 : (allPhaseRows c b m).length = 1
    · simp only [h1, if_true]
    · simp only [h1, if_false]; rfl

theorem PermRel.left {α β : Type} {R : α → β → Prop} {A : List α} {B : List β} (h : PermRel R A B) : ∀ x ∈ A, ∃ y ∈ B, R x y := by
  obtain ⟨l, h1, h2⟩ := h
  intro x hx
  obtain ⟨n, hn, rfl⟩ := List.getElem_of_mem hx
  have hl : n < l.length := h1.length_eq ▸ hn
  exact ⟨l[n], h2.mem_iff.mp (List.getElem_mem hl), List.forall₂_iff_get.mp h1 |>.2 n hn hl⟩

theorem PermRel.right {α β : Type} {R : α → β → Prop} {A : List α} {B : List β} (h : PermRel R A B) : ∀ y ∈ B, ∃ x ∈ A, R x y := by
  obtain ⟨l, h1, h2⟩ := h
  intro y hy
  obtain ⟨n, hn, rfl⟩ := List.getElem_of_mem (h2.mem_iff.mpr hy)
  have hl : n < A.length := h1.length_eq ▸ hn
  exact ⟨A[n], List.getElem_mem hl, List.forall₂_iff_get.mp h1 |>.2 n hl hn⟩

theorem mem_numbered {L : List (List Fl)} {row : List Fl} (h : row ∈ L.mapIdx fun i row => row ++ [fin (i : ℝ)]) : ∃ r ∈ L, ∃ v, row = r ++ [v] := by
  rw [List.mem_mapIdx] at h
  obtain ⟨n, hn, rfl⟩ := h
  exact ⟨_, List.getElem_mem hn, _, rfl⟩

theorem mem_numbered_of {L : List (List Fl)} {r : List Fl} (h : r ∈ L) : ∃ v, r ++ [v] ∈ L.mapIdx fun i row => row ++ [fin (i : ℝ)] := by
  obtain ⟨n, hn, rfl⟩ := List.getElem_of_mem h
  exact ⟨fin n, by rw [List.mem_mapIdx]; exact ⟨n, hn, rfl⟩⟩

theorem sourceOf_hasV {r : List Fl} {v : Fl} {s s' : V3} (h : sourceOf r = some s) (h' : HasV peakColumns (r ++ [v]) "Source_x" "Source_y" "Source_z" s') : s' = s := by
  obtain ⟨a1, a2, a3⟩ := h'
  rw [has_iff 16 rfl] at a1
  rw [has_iff 17 rfl] at a2
  rw [has_iff 18 rfl] at a3
  unfold sourceOf at h
  have hl : ∀ (j : ℕ) (u : Fl), r[j]? = some u → (r ++ [v])[j]? = some u := by
    intro j u hj
    rw [List.getElem?_append_left (List.getElem?_eq_some_iff.mp hj).1]; exact hj
  split at h
  · rename_i x y z h1 h2 h3
    obtain rfl := Option.some.inj h
    rw [hl _ _ h1] at a1; rw [hl _ _ h2] at a2; rw [hl _ _ h3] at a3
    simp only [Option.some.injEq, Fl.fin.injEq] at a1 a2 a3
    ext
    · exact a1.symm
    · exact a2.symm
    · exact a3.symm
  · cases h

theorem time_has {r : List Fl} {v : Fl} {t t' : ℝ} (h : r[6]? = some (fin t)) (h' : Has peakColumns (r ++ [v]) "diffraction_times" (.fin t')) : t' = t := by
  rw [has_iff 6 rfl, List.getElem?_append_left (List.getElem?_eq_some_iff.mp h).1, h] at h'
  simp only [Option.some.injEq, Fl.fin.injEq] at h'
  exact h'.symm

theorem illuminated_of {b : Beam} {r : List Fl} {s : V3} (h : sourceOf r = some s) : illuminated b r = decide (b.contains s) := by
  unfold illuminated; rw [h]

/-- C104: Friedel pairs.  Let the rotation axis be perpendicular to the beam, and let the phases obey Friedel's law (with every plane
the opposite plane is set up, with the same intensity).  Scan the sample; then turn it by half a turn about the rotation axis (two
quarter turns) and scan it again.  Then `diffract` succeeds for the one exactly if it does for the other; every peak of the one scan
whose element is illuminated also after the half turn has its Friedel mate in the other: the opposite plane of the same element at the
same time, with scattering vector and diffracted ray mirrored in the plane perpendicular to the axis and with the same intensity columns;
and if the half turn maps the beam to itself the tables are in one-to-one correspondence by Friedel pairs. -/
theorem C104_friedel_pairs (x : Xfab) (p : Polycrystal) (hp : Built p) (hph : ∀ ph ∈ p.phases, FriedelLaw x ph)
    (b : Beam) (hk : b.waveVector ≠ 0) (a T o : V3) (ha : norm a = 1) (hperp : dot a b.waveVector = 0) (w : ℝ) (m q : Motion)
    (hm : Motion.new a w T o = .ok m) (hq : Motion.new a (Real.pi / 2) 0 o = .ok q) (lo hi : ℝ) :
    ((∃ r, p.diffract x b m lo hi none = .ok r) ↔ ∃ r, ((p.transform q 1).transform q 1).diffract x b m lo hi none = .ok r) ∧
    ∀ d d2 p1 p2, p.diffract x b m lo hi none = .ok (d, p1) → ((p.transform q 1).transform q 1).diffract x b m lo hi none = .ok (d2, p2) →
      d2.columns = d.columns ∧
      (∀ row ∈ d.peaks, ∀ s t, HasV d.columns row "Source_x" "Source_y" "Source_z" s → Has d.columns row "diffraction_times" (.fin t) →
        b.contains (halfTurn a (o + t • T) s) → ∃ row2 ∈ d2.peaks, FriedelPair d.columns a (o + t • T) b.polarization row row2) ∧
      (∀ row2 ∈ d2.peaks, ∀ s t, HasV d.columns row2 "Source_x" "Source_y" "Source_z" s → Has d.columns row2 "diffraction_times" (.fin t) →
        b.contains (halfTurn a (o + t • T) s) → ∃ row ∈ d.peaks, FriedelPair d.columns a (o + t • T) b.polarization row row2) ∧
      ((∀ (t : ℝ) (s : V3), b.contains (halfTurn a (o + t • T) s) ↔ b.contains s) →
        ∃ l, List.Forall₂ (fun row row2 => ∃ t, Has d.columns row "diffraction_times" (.fin t) ∧
          FriedelPair d.columns a (o + t • T) b.polarization row row2) d.peaks l ∧ l.Perm d2.peaks) := by
  obtain ⟨rfl, -⟩ := Motion.new_ok hm
  obtain ⟨rfl, -⟩ := Motion.new_ok hq
  have hn : nsq a = 1 := by rw [← V3.norm_sq, ha]; norm_num
  have hc := halfTurned_transform (o := o) hn hp hph b.wavelength lo hi
  set P2 := (p.transform ⟨a, Real.pi / 2, 0, o⟩ 1).transform ⟨a, Real.pi / 2, 0, o⟩ 1 with hP2
  have hrows := friedel_rows hn hc hperp w T
  have hrows24 := hrows.map fun r r' h => friedel_extend hn hc hk hperp w T h
  have k0 : ((P2.setupPhases x b.wavelength lo hi).crystal.mapKind = .numpy ∧ (P2.setupPhases x b.wavelength lo hi).crystal.phases ≠ []) ↔
    ((p.setupPhases x b.wavelength lo hi).crystal.mapKind = .numpy ∧ (p.setupPhases x b.wavelength lo hi).crystal.phases ≠ []) := by
    rw [hc.kind, hc.phases]
  refine ⟨?_, ?_⟩
  · unfold Polycrystal.diffract
    dsimp only [Polycrystal.limits]
    rw [core_eq_all, core_eq_all, hrows.length]
    simp only [k0]
    split_ifs <;> simp
  · intro d d2 p1 p2 hd hd2
    obtain ⟨lo1, hi1, hb, rfl, hc1⟩ := Polycrystal.diffract_ok hd
    obtain ⟨lo2, hi2, hb', rfl, hc2⟩ := Polycrystal.diffract_ok hd2
    have hb := Except.ok.inj hb
    have hb' := Except.ok.inj hb'
    simp only [Prod.mk.injEq] at hb hb'
    obtain ⟨rfl, rfl⟩ := hb
    obtain ⟨rfl, rfl⟩ := hb'
    have hcols := diffract_columns hc1
    refine ⟨by rw [hcols, diffract_columns hc2], ?_⟩
    rw [hcols]
    rw [core_eq_all] at hc1 hc2
    split_ifs at hc1 hc2
    obtain rfl := Except.ok.inj hc1
    obtain rfl := Except.ok.inj hc2
    refine ⟨?_, ?_, ?_⟩
    · intro row hrow s t hs ht hcon
      obtain ⟨r, hr, v, rfl⟩ := mem_numbered hrow
      unfold keptRows at hr
      rw [List.mem_filter] at hr
      obtain ⟨r', hr', s0, t0, h1, h2, h3, h4, hpair⟩ := hrows24.left r hr.1
      obtain rfl := sourceOf_hasV h1 hs
      obtain rfl := time_has h3 ht
      obtain ⟨v', hv'⟩ := mem_numbered_of (L := keptRows (P2.setupPhases x b.wavelength lo hi).crystal b ⟨a, w, T, o⟩) (r := r') (by
        unfold keptRows
        rw [List.mem_filter]
        exact ⟨hr', by rw [illuminated_of h2]; exact decide_eq_true hcon⟩)
      exact ⟨_, hv', hpair _ _⟩
    · intro row hrow s t hs ht hcon
      obtain ⟨r', hr', v, rfl⟩ := mem_numbered hrow
      unfold keptRows at hr'
      rw [List.mem_filter] at hr'
      obtain ⟨r, hr, s0, t0, h1, h2, h3, h4, hpair⟩ := hrows24.right r' hr'.1
      obtain rfl := sourceOf_hasV h2 hs
      obtain rfl := time_has h4 ht
      rw [halfTurn_involutive hn] at hcon
      obtain ⟨v', hv'⟩ := mem_numbered_of (L := keptRows (p.setupPhases x b.wavelength lo hi).crystal b ⟨a, w, T, o⟩) (r := r) (by
        unfold keptRows
        rw [List.mem_filter]
        exact ⟨hr, by rw [illuminated_of h1]; exact decide_eq_true hcon⟩)
      exact ⟨_, hv', hpair _ _⟩
    · intro hsym
      have hkept := hrows24.filter (p := illuminated b) (q := illuminated b) fun r r' h => by
        obtain ⟨s0, t0, h1, h2, -⟩ := h
        rw [illuminated_of h1, illuminated_of h2]
        exact decide_eq_decide.2 (hsym t0 s0).symm
      refine hkept.numbered fun r r' v v' h => ?_
      obtain ⟨s0, t0, h1, h2, h3, h4, hpair⟩ := h
      refine ⟨t0, ?_, hpair _ _⟩
      rw [has_iff 6 rfl, List.getElem?_append_left (List.getElem?_eq_some_iff.mp h3).1, h3]

/-- C104, the law of the phases: if the reflection generator lists with every plane the opposite plane, and the structure factors are
those the code computes from a cif file whose atoms have no anomalous dispersion (or there is no cif file), a newly built phase obeys
Friedel's law. -/
theorem C104_law_of_code (x : Xfab) (ph : Phase) (hfresh : ph.Fresh)
    (hgen : ∀ lo hi : ℝ, ((x.genhkl ph.unitCell lo hi ph.sgname).map HKL.opposite).Perm (x.genhkl ph.unitCell lo hi ph.sgname))
    (hsf : ∀ c, ph.cif = some c → Spec.ValidCell ph.unitCell ∧ ∃ (lib : CrystalLib) (ops : List SymOp) (atoms : List Atom),
      (∀ a ∈ atoms, ∀ d, lib.dispersion a.atomtype = some d → d.2 = 0) ∧
      ∀ h : List HKL, structureFactors lib ops atoms ph.unitCell (h.map HKL.toV) = .ok (x.sfBatch h ph.unitCell ph.sgname c)) :
    FriedelLaw x ph := by
  intro wl lo hi
  have hp := hgen (Real.sin lo / wl) (Real.sin hi / wl)
  have key : ∃ ρ : HKL → ℝ, (∀ h, ρ (HKL.opposite h) = ρ h) ∧ reflections (ph.setup x wl lo hi) =
      (x.genhkl ph.unitCell (Real.sin lo / wl) (Real.sin hi / wl) ph.sgname).map fun h => (h, ρ h) := by
    unfold Phase.setup
    cases hc : ph.cif with
    | none =>
      refine ⟨fun _ => 1, fun _ => rfl, ?_⟩
      have := hfresh hc
      unfold reflections
      simp only [this]
    | some c =>
      obtain ⟨hv, lib, ops, atoms, hd, hF⟩ := hsf c hc
      set L := x.genhkl ph.unitCell (Real.sin lo / wl) (Real.sin hi / wl) ph.sgname with hL
      have hF' := hF L
      have hff : ∀ a ∈ atoms, lib.formfactor a.atomtype ≠ none := by
        intro a ha hn
        rw [C53_unknown_atom lib ops atoms _ _ a ha hn] at hF'
        exact absurd hF' (by simp)
      have hne : atoms ≠ [] := by
        rintro rfl; simp [structureFactors] at hF'
      rw [structureFactors_eq lib ops atoms _ _ hv hne hff] at hF'
      have hF'' := (Except.ok.inj hF').symm
      refine ⟨fun h => (Spec.structureFactor lib ops atoms ph.unitCell h.toV).re ^ 2 + (Spec.structureFactor lib ops atoms ph.unitCell h.toV).im ^ 2, ?_, ?_⟩
      · intro h
        have : (HKL.opposite h).toV = -h.toV := by ext <;> simp [HKL.opposite, HKL.toV]
        beta_reduce
        rw [this, structureFactor_neg lib ops atoms ph.unitCell h.toV hd]
        simp
      · unfold reflections
        simp only
        rw [hF'', List.map_map, List.map_map]
        generalize L = M
        clear hF' hF'' hF hp
        induction M with
        | nil => rfl
        | cons a M ih => simp only [List.map_cons, List.zip_cons_cons, ih]; rfl
  obtain ⟨ρ, hρ, e⟩ := key
  rw [e, List.map_map]
  have : ((fun r : HKL × ℝ => (HKL.opposite r.1, r.2)) ∘ fun h => (h, ρ h)) = (fun h => (h, ρ h)) ∘ HKL.opposite := by
    funext h; simp [hρ]
  rw [this, ← List.map_map]
  exact hp.map _

/-- C104_law_of_code is not vacuous: a phase with a cif file, two atoms of which one vibrates anisotropically, in P2₁. -/
example : ∃ (x : Xfab) (ph : Phase), ph.cif = some "cif" ∧ FriedelLaw x ph := by
  let lib : CrystalLib := { oneTypeLib with dispersion := fun _ => none }
  let atoms : List Atom := [⟨"Si", ⟨0, 1 / 7, 0⟩, 1, 2, .uiso 1⟩, ⟨"Si", ⟨1 / 3, 0, 0⟩, 1, 2, .uani 1 1 1 0 0 0⟩]
  let x : Xfab :=
    { formB := fun _ => cubicB 2
      genhkl := fun _ _ _ _ => cubicPlanes
      sfBatch := fun h c _ _ => (h.map HKL.toV).map fun h =>
        ((Spec.structureFactor lib screwOps atoms c h).re, (Spec.structureFactor lib screwOps atoms c h).im) }
  refine ⟨x, Phase.new [4, 5, 6, 90, 90, 90] "P21" (some "cif"), rfl, C104_law_of_code _ _ (by intro h; cases h) ?_ ?_⟩
  · intro lo hi
    show (cubicPlanes.map HKL.opposite).Perm cubicPlanes
    decide
  · intro c _
    refine ⟨orthoCell_valid, lib, screwOps, atoms, by simp [lib], fun h => ?_⟩
    exact C53_formula _ _ _ _ _ orthoCell_valid (by simp [atoms]) (by simp [atoms, lib, oneTypeLib])

/-- the cubic crystal obeys Friedel's law -/
theorem cubic_friedel (b : ℝ) : FriedelLaw (cubicX b) scenePhase := by
  intro wl lo hi
  have hperm : (cubicPlanes.map HKL.opposite).Perm cubicPlanes := by decide
  have hsetup : reflections (scenePhase.setup (cubicX b) wl lo hi) =
      ((cubicX b).genhkl scenePhase.unitCell (Real.sin lo / wl) (Real.sin hi / wl) scenePhase.sgname).map fun h => (h, (1 : ℝ)) := rfl
  rw [hsetup, List.map_map]
  have : ((cubicX b).genhkl scenePhase.unitCell (Real.sin lo / wl) (Real.sin hi / wl) scenePhase.sgname).map
      ((fun r : HKL × ℝ => (HKL.opposite r.1, r.2)) ∘ fun h => (h, 1)) =
      (((cubicX b).genhkl scenePhase.unitCell (Real.sin lo / wl) (Real.sin hi / wl) scenePhase.sgname).map HKL.opposite).map fun h => (h, (1 : ℝ)) := by
    rw [List.map_map]; rfl
  rw [this]
  refine List.Perm.map _ ?_
  show ((if _ then cubicPlanes else [] : List HKL).map HKL.opposite).Perm (if _ then cubicPlanes else [])
  split_ifs
  · exact hperm
  · exact List.Perm.refl _

/-- the beam of the scenes is symmetric -/
theorem demoBeam_halfTurn (s : V3) : demoBeam.contains (halfTurn ⟨0, 0, 1⟩ 0 s) ↔ demoBeam.contains s := by
  have e : halfTurn ⟨0, 0, 1⟩ 0 s = ⟨-s.x, -s.y, s.z⟩ := by
    unfold halfTurn; ext <;> simp [V3.dot]; ring
  rw [e]
  unfold Beam.contains demoBeam cubeFacets
  simp only [List.forall_mem_cons, List.forall_mem_nil, V3.dot]
  constructor <;> (intro h; simp at h ⊢; grind)

/-- C104 is not vacuous: a cubic crystal with its plane (0,1,0) in the backscattering position; after the half turn about the rotation
axis the scan reports the opposite plane (0,-1,0) at the same time. -/
example : ∃ (p : Polycrystal) (d d2 : PeaksDict) (p1 p2 : Polycrystal), Built p ∧ (∀ ph ∈ p.phases, FriedelLaw (cubicX 2) ph) ∧
    dot ⟨0, 0, 1⟩ demoBeam.waveVector = 0 ∧ p.diffract (cubicX 2) demoBeam demoZ 0 (Real.pi / 2) none = .ok (d, p1) ∧
    ((p.transform demoZ 1).transform demoZ 1).diffract (cubicX 2) demoBeam demoZ 0 (Real.pi / 2) none = .ok (d2, p2) ∧
    ∃ row ∈ d.peaks, ∃ row2 ∈ d2.peaks, HasV d.columns row "h" "k" "l" ⟨0, 1, 0⟩ ∧ HasV d2.columns row2 "h" "k" "l" ⟨0, -1, 0⟩ := by
  set U : M3 := ⟨⟨4/5, -3/5, 0⟩, ⟨3/5, 4/5, 0⟩, ⟨0, 0, 1⟩⟩ with hU
  have hL : cholesky (strainC (U.tr * (0 * U))) = .ok 1 := by
    have e : strainC (U.tr * (0 * U)) = 1 := by ext <;> simp [strainC, vecMul, tr]
    rw [e]
    apply cholesky_unique <;> first | simp | skip
    ext <;> simp [vecMul, tr, symL]
  have hp := strainedPoly_new (cubicX 2) U 0 1 rfl hL
  have hB : (1 : M3).tr.inv * (cubicX 2).formB scenePhase.unitCell = cubicB 2 := by
    have : (1 : M3).tr.inv = 1 := by
      apply M3.inv_unique
      · rw [tr_one, det_one]; norm_num
      · rw [tr_one, mul_one']
    rw [this, one_mul']; rfl
  rw [hB] at hp
  set P := strainedPoly U 0 (cubicB 2) with hP
  have hbuilt : Built P := ⟨cubicX 2, _, _, sceneMesh, _, _, _, _, P, [], sceneMesh_new, hp, by simp, rfl⟩
  have hlaw : ∀ ph ∈ P.phases, FriedelLaw (cubicX 2) ph := by
    intro ph hph
    have : ph ∈ [scenePhase] := hph
    rw [List.mem_singleton] at this
    subst this
    exact cubic_friedel 2
  have hperp : dot ⟨0, 0, 1⟩ demoBeam.waveVector = 0 := by simp [V3.dot, demoBeam]
  obtain ⟨d, p1, hd, row, hrow, hh, -⟩ := strained_reports (U := U) (ε := 0) (B := cubicB 2) (b := 2) (by norm_num)
    (by ext <;> norm_num [getG, cubicB, U, mulVec, vecMul, V3.dot])
  obtain ⟨hok, hall⟩ := C104_friedel_pairs (cubicX 2) P hbuilt hlaw demoBeam (by intro h; have := congrArg V3.x h; simp [demoBeam] at this) ⟨0, 0, 1⟩ 0 0
    norm_ez hperp _ demoZ demoZ demoZ_new demoZ_new 0 (Real.pi / 2)
  obtain ⟨⟨d2, p2⟩, hd2⟩ := hok.mp ⟨_, hd⟩
  obtain ⟨hc, -, -, h4⟩ := hall d d2 p1 p2 hd hd2
  obtain ⟨l, hl, hperm⟩ := h4 (fun t s => by
    have : (0 : V3) + t • (0 : V3) = 0 := by ext <;> simp
    rw [this]; exact demoBeam_halfTurn s)
  obtain ⟨row2, h2, hrel⟩ := PermRel.left ⟨l, hl, hperm⟩ row hrow
  obtain ⟨t, -, hpair⟩ := hrel
  refine ⟨P, d, d2, p1, p2, hbuilt, hlaw, hperp, hd, hd2, row, hrow, row2, h2, hh, ?_⟩
  obtain ⟨h, q1, q2⟩ := hpair.plane
  have hcol : d.columns = peakColumns := by
    obtain ⟨lo, hi, -, -, hcc⟩ := Polycrystal.diffract_ok hd
    exact diffract_columns hcc
  rw [hc, hcol]
  rw [hcol] at q1 q2 hh
  have e : h.toV = ⟨0, 1, 0⟩ := by
    obtain ⟨a1, a2, a3⟩ := q1
    obtain ⟨b1, b2, b3⟩ := hh
    rw [has_iff 2 rfl] at a1 b1
    rw [has_iff 3 rfl] at a2 b2
    rw [has_iff 4 rfl] at a3 b3
    rw [a1] at b1; rw [a2] at b2; rw [a3] at b3
    simp only [Option.some.injEq, Fl.fin.injEq] at b1 b2 b3
    ext
    · exact b1
    · exact b2
    · exact b3
  have e' : (HKL.opposite h).toV = ⟨0, -1, 0⟩ := by
    have x1 := congrArg V3.x e
    have x2 := congrArg V3.y e
    have x3 := congrArg V3.z e
    simp only [HKL.toV] at x1 x2 x3
    ext <;> simp [HKL.toV, HKL.opposite, x1, x2, x3]
  rw [← e']
  exact q2

end XRD
