import Verif.Model.Beam
import Verif.Model.Laue
import Verif.Model.Scattering

/-! Model of `/repo/xrd_simulator/phase.py` and of the peak computation of `/repo/xrd_simulator/polycrystal.py`. -/

namespace XRD
open V3 M3 Fl
open Classical

/-- Miller indices `(h, k, l)`. -/
structure HKL where
  h : ℤ
  k : ℤ
  l : ℤ
  deriving DecidableEq

/-- Miller indices as a float vector (`ensure_torch(phase.miller_indices)`, polycrystal.py:290). -/
def HKL.toV (m : HKL) : V3 := ⟨m.h, m.k, m.l⟩

/-- Attributes of a `Phase` (phase.py:68-73).  `structureFactors` holds (real, imaginary) pairs. -/
structure Phase where
  unitCell : List ℝ
  sgname : String
  cif : Option String
  miller : List HKL
  structureFactors : Option (List (ℝ × ℝ))

/-- `Phase.__init__` (phase.py:68-73); `None` Miller indices are an empty list in the model. -/
def Phase.new (cell : List ℝ) (sg : String) (cif : Option String) : Phase := ⟨cell, sg, cif, [], none⟩

/-- External crystallography: `xfab.tools.genhkl_all`, `xfab.tools.form_b_mat` and
`compute_structure_factors_batch`; parameters of the model. -/
structure Xfab where
  genhkl : List ℝ → ℝ → ℝ → String → List HKL
  formB : List ℝ → M3
  sfBatch : List HKL → List ℝ → String → String → List (ℝ × ℝ)

/-- `Phase._setup_diffracting_planes` (phase.py:75-128). -/
noncomputable def Phase.setup (x : Xfab) (ph : Phase) (wavelength minB maxB : ℝ) : Phase :=
  let mi := x.genhkl ph.unitCell (Real.sin minB / wavelength) (Real.sin maxB / wavelength) ph.sgname
  match ph.cif with
  | none => { ph with miller := mi }
  | some c => { ph with miller := mi, structureFactors := some (x.sfBatch mi ph.unitCell ph.sgname c) }

/-- Container kind of the stored `element_phase_map`: the constructor stores a numpy array when no map was given
(polycrystal.py:627) and a torch tensor otherwise (polycrystal.py:629). -/
inductive ArrKind where | numpy | torch
  deriving DecidableEq

/-- The parts of a `Polycrystal` the diffraction computation reads. -/
structure Crystal where
  mapKind : ArrKind
  phaseMap : List ℝ
  phases : List Phase
  orientation : List M3
  eB : List M3
  sphereCentroids : List V3
  volumes : List ℝ

/-- `torch.where(element_phase_map == i)[0]` (polycrystal.py:289). -/
noncomputable def grainIndices (phaseMap : List ℝ) (i : ℕ) : List ℕ :=
  (List.range phaseMap.length).filter fun e => phaseMap.getD e 0 = (i : ℝ)

/-- Planes of a phase that take part, with their squared structure factor modulus (polycrystal.py:290-300).
`miller` and `structureFactors` are filtered by the same boolean mask. -/
noncomputable def activePlanes (ph : Phase) : List HKL × List ℝ :=
  match ph.structureFactors with
  | some sf =>
      let f := sf.map fun c => c.1 ^ 2 + c.2 ^ 2
      let mask := f.map fun v => decide (v > 1 / 10 ^ 6)
      (((ph.miller.zip mask).filter (·.2)).map (·.1), ((f.zip mask).filter (·.2)).map (·.1))
  | none => (ph.miller, ph.miller.map fun _ => 1)

/-- `rho_0_factor` (polycrystal.py:275). -/
def rho0Factor (k axis : V3) : V3 := vecMul (-k) (crossMat2 axis)
/-- `rho_1_factor` (polycrystal.py:276). -/
def rho1Factor (k axis : V3) : V3 := vecMul k (crossMat axis)
/-- `rho_2_factor` (polycrystal.py:277-279). -/
def rho2Factor (k axis : V3) : V3 := vecMul k (1 + crossMat2 axis)

/-- The ten-column rows of one phase (polycrystal.py:286-346). -/
noncomputable def phaseRows (c : Crystal) (b : Beam) (m : Motion) (i : ℕ) (ph : Phase) : List (List ℝ) :=
  let grains := grainIndices c.phaseMap i
  let planes := (activePlanes ph).1
  let sf := (activePlanes ph).2
  let G0 := grains.map fun e => planes.map fun p => getG (c.orientation.getD e 0) (c.eB.getD e 0) p.toV
  let sols := laueSolutions G0 (rho0Factor b.waveVector m.axis) (rho1Factor b.waveVector m.axis)
    (rho2Factor b.waveVector m.axis) m.angle
  sols.map fun s =>
    let hkl := ((planes.map HKL.toV).getD s.plane 0)
    [((grains.getD s.grain 0 : ℕ) : ℝ), (i : ℝ), hkl.x, hkl.y, hkl.z, sf.getD s.plane 0, s.time,
      s.G.x, s.G.y, s.G.z]

/-- Rows of all phases, concatenated (polycrystal.py:281, 286, 346). -/
noncomputable def allPhaseRows (c : Crystal) (b : Beam) (m : Motion) : List (List ℝ) :=
  (List.range c.phases.length).flatMap fun i =>
    match c.phases[i]? with
    | some ph => phaseRows c b m i ph
    | none => []

/-- column `j` of a ten-column row -/
def colD (r : List ℝ) (j : ℕ) : ℝ := r.getD j 0

/-- Extension of a ten-column row to 24 columns (polycrystal.py:348-386).  `peaks[:, 0].int()` truncates. -/
noncomputable def extendRow (c : Crystal) (b : Beam) (m : Motion) (r : List ℝ) : List Fl :=
  let t := colD r 6
  let G0 : V3 := ⟨colD r 7, colD r 8, colD r 9⟩
  let G := m.rotate1 G0 t
  let K := G + b.waveVector
  let e := ⌊colD r 0⌋.toNat
  let src := m.call1 (c.sphereCentroids.getD e 0) t
  let vol := c.volumes.getD e 0
  let tt := twoTheta b.waveVector K
  let fw := match tt with | fin x => scherrer vol x b.wavelength | _ => nan
  r.map fin ++ [fin G.x, fin G.y, fin G.z, fin K.x, fin K.y, fin K.z, fin src.x, fin src.y, fin src.z,
    lorentz b.waveVector K m.axis, polarization K b.polarization, fin vol, tt, fw]

/-- `_compute_peaks` (polycrystal.py:234-402).
* `torch.where` of a numpy comparison (line 289) is a `TypeError` as soon as there is a phase.
* `_lorentz` ends with `.squeeze()` (scattering_factors.py:67): for exactly one peak its result is 0-dimensional and
  `.unsqueeze(1)` (line 379) is an `IndexError`. -/
noncomputable def computePeaks (c : Crystal) (b : Beam) (m : Motion) : Except PyErr (List (List Fl)) :=
  if c.mapKind = .numpy ∧ c.phases ≠ [] then .error .typeError
  else
    let rows := allPhaseRows c b m
    if rows.length = 1 then .error .indexError
    else .ok (rows.map (extendRow c b m))

/-- `column_names` (polycrystal.py:190-216). -/
def peakColumns : List String :=
  ["grain_index", "phase_number", "h", "k", "l", "structure_factors", "diffraction_times",
   "G0_x", "G0_y", "G0_z", "Gx", "Gy", "Gz", "K_out_x", "K_out_y", "K_out_z",
   "Source_x", "Source_y", "Source_z", "lorentz_factors", "polarization_factors", "volumes",
   "2theta", "scherrer_fwhm", "peak_index"]

/-- The dictionary returned by `diffract` (polycrystal.py:219-230).  `mesh_lab` is a reference to a mutable object and is
modelled separately (see `Model/World.lean`). -/
structure PeaksDict where
  peaks : List (List Fl)
  columns : List String
  incident : V3
  wavelength : ℝ
  rotationAxis : V3
  motion : Motion
  beam : Beam

/-- `peaks[:, 16:19]` read as a point; `none` if an entry is missing or not finite. -/
def sourceOf (row : List Fl) : Option V3 :=
  match row[16]?, row[17]?, row[18]? with
  | some (fin x), some (fin y), some (fin z) => some ⟨x, y, z⟩
  | _, _, _ => none

/-- `beam._contains(peaks[:, 16:19].T)` for one row (polycrystal.py:168-169). -/
noncomputable def illuminated (b : Beam) (row : List Fl) : Bool :=
  match sourceOf row with
  | some p => decide (b.contains p)
  | none => false

/-- The part of `diffract` after the diffracting planes were set up (polycrystal.py:165-232). -/
noncomputable def diffractCore (c : Crystal) (b : Beam) (m : Motion) : Except PyErr PeaksDict :=
  match computePeaks c b m with
  | .error e => .error e
  | .ok peaks =>
    let kept := peaks.filter (illuminated b)
    let numbered := kept.mapIdx fun i row => row ++ [fin (i : ℝ)]
    .ok ⟨numbered, peakColumns, b.waveVector, b.wavelength, m.axis, m, b⟩

end XRD
