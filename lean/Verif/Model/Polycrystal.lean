import Verif.Model.Mesh
import Verif.Model.Strain
import Verif.Model.Detector

/-! Model of `/repo/xrd_simulator/polycrystal.py`: construction, transformation and the full `diffract` call. -/

namespace XRD
open V3 M3 Fl
open Classical

/-- An orientation or strain argument by shape: `(3,3)`, `(N,3,3)`, or any other shape. -/
inductive MatArg where
  | one (m : M3)
  | many (ms : List M3)
  | other

/-- `_instantiate_orientation` / `_instantiate_strain` (polycrystal.py:544-597): both accept `(3,3)` and
`(number_of_elements,3,3)` only. -/
def instantiateMat (arg : MatArg) (n : ℕ) : Except PyErr (List M3) :=
  match arg with
  | .one m => .ok (List.replicate n m)
  | .many ms => if ms.length = n then .ok ms else .error .valueError
  | .other => .error .valueError

/-- `phases` argument: one `Phase` or a list of them -/
inductive PhasesArg where
  | one (p : Phase)
  | many (ps : List Phase)

/-- the list of phases (polycrystal.py:621-622) -/
def PhasesArg.toList : PhasesArg → List Phase
  | .one p => [p]
  | .many ps => ps

/-- `_instantiate_phase` (polycrystal.py:599-630): map entries as stored, and the kind of array they are stored in.  The
length of a given map is not checked there. -/
def instantiatePhase (phases : List Phase) (map : Option (List ℝ)) (n : ℕ) : Except PyErr (ArrKind × List ℝ) :=
  match map with
  | none => if phases.length > 1 then .error .valueError else .ok (.numpy, List.replicate n 0)
  | some l => .ok (.torch, l)

/-- Attributes of a `Polycrystal` (polycrystal.py:85-111). -/
structure Polycrystal where
  meshLab : TetraMesh
  meshSample : TetraMesh
  orientationLab : List M3
  orientationSample : List M3
  strainLab : List M3
  strainSample : List M3
  phases : List Phase
  mapKind : ArrKind
  phaseMap : List ℝ
  eB : List M3
  meshVolumes : List ℝ

/-- `_eB[grain_indices] = values` (polycrystal.py:671-674); one value broadcasts (the `squeeze` at utils.py:281). -/
def scatter (acc : List M3) (idx : List ℕ) (vals : List M3) : List M3 :=
  (idx.zip vals).foldl (fun a iv => a.set iv.1 iv.2) acc

/-- one pass of the loop over phases in `_instantiate_eB` (polycrystal.py:667-674) -/
noncomputable def eBStep (x : Xfab) (orientation strain : List M3) (phaseMap : List ℝ) (acc : List M3) (i : ℕ)
    (ph : Phase) : Except PyErr (List M3) :=
  let g := grainIndices phaseMap i
  match labStrainToB (g.map fun e => (strain.getD e 0, orientation.getD e 0)) (x.formB ph.unitCell) with
  | .error e => .error e
  | .ok bs => .ok (scatter acc g bs)

/-- the loop of `_instantiate_eB` over `enumerate(phases)` -/
noncomputable def eBLoop (x : Xfab) (orientation strain : List M3) (phaseMap : List ℝ) :
    List M3 → ℕ → List Phase → Except PyErr (List M3)
  | acc, _, [] => .ok acc
  | acc, i, ph :: ps => match eBStep x orientation strain phaseMap acc i ph with
    | .error e => .error e
    | .ok acc' => eBLoop x orientation strain phaseMap acc' (i + 1) ps

/-- `_instantiate_eB` (polycrystal.py:632-676).  A phase-map entry beyond the elements is an `IndexError`. -/
noncomputable def instantiateEB (x : Xfab) (n : ℕ) (orientation strain : List M3) (phases : List Phase)
    (phaseMap : List ℝ) : Except PyErr (List M3) :=
  if ∃ i < phases.length, ∃ e ∈ grainIndices phaseMap i, n ≤ e then .error .indexError
  else eBLoop x orientation strain phaseMap (List.replicate n 0) 0 phases

/-- `Polycrystal.__init__` (polycrystal.py:76-111).  `mesh_lab` and `mesh_sample` are deep copies. -/
noncomputable def Polycrystal.new (x : Xfab) (mesh : TetraMesh) (orientation strain : MatArg) (phases : PhasesArg)
    (map : Option (List ℝ)) : Except PyErr Polycrystal :=
  let n := mesh.enod.length
  match instantiateMat orientation n with
  | .error e => .error e
  | .ok U =>
    match instantiateMat strain n with
    | .error e => .error e
    | .ok S =>
      match instantiatePhase phases.toList map n with
      | .error e => .error e
      | .ok (kind, pm) =>
        match instantiateEB x n U S phases.toList pm with
        | .error e => .error e
        | .ok eB =>
          .ok { meshLab := mesh, meshSample := mesh, orientationLab := U, orientationSample := U,
                strainLab := S, strainSample := S, phases := phases.toList, mapKind := kind, phaseMap := pm,
                eB := eB, meshVolumes := (elements mesh.coord mesh.enod).map tetVolume }

namespace Polycrystal

/-- what `_compute_peaks` reads (polycrystal.py:270-273, 366) -/
def crystal (p : Polycrystal) : Crystal :=
  { mapKind := p.mapKind, phaseMap := p.phaseMap, phases := p.phases, orientation := p.orientationLab, eB := p.eB,
    sphereCentroids := p.meshLab.espherecentroids, volumes := p.meshVolumes }

/-- `transform` (polycrystal.py:404-433) -/
noncomputable def transform (p : Polycrystal) (m : Motion) (time : ℝ) : Polycrystal :=
  let R := rotMat m.axis (m.angle * time)
  { p with meshLab := p.meshLab.update m time
           orientationLab := p.orientationLab.map fun U => R * U
           strainLab := p.strainLab.map fun s => R * s * R.tr }

/-- source point of `_get_bragg_angle_bounds` (polycrystal.py:707-714) -/
noncomputable def sourcePoint (p : Polycrystal) (b : Beam) : V3 :=
  let inside := p.meshLab.coord.filter fun q => b.contains q
  if inside ≠ [] then meanV inside else p.meshLab.centroid

/-- `_get_bragg_angle_bounds` (polycrystal.py:678-730): the user's maximum is replaced by the wrapping cone. -/
noncomputable def braggBounds (p : Polycrystal) (d : Detector) (b : Beam) (minB _maxB : ℝ) : Except PyErr (ℝ × ℝ) :=
  match d.wrappingCone b.waveVector (p.sourcePoint b) with
  | fin c => if 0 ≤ minB then (if minB < c then .ok (minB, c) else .error .assertion) else .error .assertion
  | _ => .error .assertion

/-- the Bragg angle limits used by `diffract` (polycrystal.py:155-158) -/
noncomputable def limits (p : Polycrystal) (b : Beam) (minB maxB : ℝ) : Option Detector → Except PyErr (ℝ × ℝ)
  | none => .ok (minB, maxB)
  | some d => p.braggBounds d b minB maxB

/-- the polycrystal after `phase._setup_diffracting_planes` for all its phases (polycrystal.py:160-163) -/
noncomputable def setupPhases (x : Xfab) (p : Polycrystal) (wavelength lo hi : ℝ) : Polycrystal :=
  { p with phases := p.phases.map fun ph => ph.setup x wavelength lo hi }

/-- `diffract` (polycrystal.py:113-232): the returned dictionary and the polycrystal with its phases set up. -/
noncomputable def diffract (x : Xfab) (p : Polycrystal) (b : Beam) (m : Motion) (minB maxB : ℝ) (det : Option Detector) :
    Except PyErr (PeaksDict × Polycrystal) :=
  match p.limits b minB maxB det with
  | .error e => .error e
  | .ok (lo, hi) =>
    match diffractCore (p.setupPhases x b.wavelength lo hi).crystal b m with
    | .error e => .error e
    | .ok d => .ok (d, p.setupPhases x b.wavelength lo hi)

end Polycrystal
end XRD
