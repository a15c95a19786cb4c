import Verif.Model.Polycrystal
import Mathlib.Analysis.SpecialFunctions.Pow.Real

/-! Model of `/repo/xrd_simulator/templates.py` and of `_alpha_to_quarternion` (utils.py:220-241). -/

namespace XRD
open V3 M3 Fl
open Classical

/-! ### `s3dxrd` -/

/-- `PARAMETER_KEYS` (templates.py:20-33). -/
def parameterKeys : List String :=
  ["detector_distance", "number_of_detector_pixels_z", "number_of_detector_pixels_y", "detector_center_pixel_z",
   "detector_center_pixel_y", "pixel_side_length_z", "pixel_side_length_y", "wavelength", "beam_side_length_z",
   "beam_side_length_y", "rotation_step", "rotation_axis"]

/-- A value in the parameters dictionary: a number, or an axis. -/
inductive ParamVal where
  | num (r : ℝ)
  | axis (v : V3)

/-- The parameters dictionary, as its list of items. -/
abbrev Params := List (String × ParamVal)

/-- An exception with the message composed by `s3dxrd` itself (`none` for exceptions coming from below). -/
abbrev S3Err := PyErr × Option String

/-- `parameters[key]` read as a number (templates.py:349-373, 400-411).  Simplification: an axis where a number is
expected is a `TypeError`. -/
def numParam (p : Params) (key : String) : Except S3Err ℝ :=
  match p.lookup key with
  | some (.num r) => .ok r
  | some (.axis _) => .error (.typeError, none)
  | none => .error (.keyError, none)

/-- `parameters[key]` read as an axis (templates.py:336). -/
def axisParam (p : Params) (key : String) : Except S3Err V3 :=
  match p.lookup key with
  | some (.axis v) => .ok v
  | some (.num _) => .error (.typeError, none)
  | none => .error (.keyError, none)

/-- lift an exception of a constructor -/
def liftErr {α : Type} : Except PyErr α → Except S3Err α
  | .ok a => .ok a
  | .error e => .error (e, none)

/-- `_get_detector_from_params` (templates.py:399-421), with the default arguments of `Detector` (detector.py:124-137). -/
noncomputable def detectorFromParams (p : Params) : Except S3Err Detector := do
  let pz ← numParam p "pixel_side_length_z"
  let py ← numParam p "pixel_side_length_y"
  let dist ← numParam p "detector_distance"
  let ny ← numParam p "number_of_detector_pixels_y"
  let nz ← numParam p "number_of_detector_pixels_z"
  let cz ← numParam p "detector_center_pixel_z"
  let cy ← numParam p "detector_center_pixel_y"
  let d0 : V3 := ⟨dist, -cy * py, -cz * pz⟩
  let d1 : V3 := ⟨dist, (ny - cy) * py, -cz * pz⟩
  let d2 : V3 := ⟨dist, -cy * py, (nz - cz) * pz⟩
  liftErr (Detector.new d0 d1 d2 .absent (.pair pz py) 1 (1 / 50) 2 true true true)

/-- `_get_beam_from_params` (templates.py:356-379). -/
noncomputable def beamFromParams (q : Qhull) (p : Params) : Except S3Err Beam := do
  let bz ← numParam p "beam_side_length_z"
  let by' ← numParam p "beam_side_length_y"
  let dz := bz / 2
  let dy := by' / 2
  let dist ← numParam p "detector_distance"
  let vertices : List V3 :=
    [⟨-dist, -dy, -dz⟩, ⟨-dist, dy, -dz⟩, ⟨-dist, -dy, dz⟩, ⟨-dist, dy, dz⟩,
     ⟨dist, -dy, -dz⟩, ⟨dist, dy, -dz⟩, ⟨dist, -dy, dz⟩, ⟨dist, dy, dz⟩]
  let wl ← numParam p "wavelength"
  liftErr (Beam.new q vertices ⟨1, 0, 0⟩ wl ⟨0, 1, 0⟩)

/-- `_get_motion_from_params` (templates.py:334-337). -/
noncomputable def motionFromParams (p : Params) : Except S3Err Motion := do
  let axis ← axisParam p "rotation_axis"
  let step ← numParam p "rotation_step"
  liftErr (Motion.new axis step ⟨0, 0, 0⟩)

/-- `s3dxrd` (templates.py:36-93). -/
noncomputable def s3dxrd (q : Qhull) (p : Params) : Except S3Err (Beam × Detector × Motion) :=
  match parameterKeys.find? fun key => (p.lookup key).isNone with
  | some key => .error (.valueError, some ("No keyword " ++ key ++ " found in the input parameters dictionary"))
  | none => do
    let detector ← detectorFromParams p
    let beam ← beamFromParams q p
    let motion ← motionFromParams p
    .ok (beam, detector, motion)

/-! ### `_sample_ODF` -/

/-- A quaternion, scalar last (the convention of `scipy.spatial.transform.Rotation`). -/
@[ext] structure Quat where
  x : ℝ
  y : ℝ
  z : ℝ
  w : ℝ

/-- `_alpha_to_quarternion` for one triple of angles (utils.py:233-241). -/
noncomputable def alphaToQuat (a1 a2 a3 : ℝ) : Quat :=
  ⟨Real.cos a1, Real.sin a1 * Real.sin a2 * Real.cos a3, Real.sin a1 * Real.sin a2 * Real.sin a3,
   Real.sin a1 * Real.cos a2⟩

/-- `np.arange(start, stop, step)`: `ceil((stop - start)/step)` values, none if that is negative. -/
noncomputable def arange (start stop step : ℝ) : List ℝ :=
  (List.range ⌈(stop - start) / step⌉₊).map fun i : ℕ => start + i * step

/-- the offset `1e-8` (templates.py:451-457) -/
noncomputable def odfEps : ℝ := 1 / 10 ^ 8

/-- number of bins per quarter turn, `int(np.pi / (dalpha * 2.0))` with `dalpha = maximum_sampling_bin_seperation / 2.0`
(templates.py:447-448) -/
noncomputable def odfBins (sep : ℝ) : ℤ := Detector.pyInt (Real.pi / (sep / 2 * 2))

/-- `dalpha` (templates.py:448) -/
noncomputable def odfStep (sep : ℝ) : ℝ := Real.pi / 2 / (odfBins sep : ℝ)

/-- `alpha_1`, `alpha_2`, `alpha_3` (templates.py:449-457) for the upper limits `π/2`, `π`, `2π` -/
noncomputable def odfAxis (d top : ℝ) : List ℝ := arange (0 + d / 2 + odfEps) (top - d / 2 - odfEps + d) d

/-- the bin centres `A1, A2, A3`: `meshgrid(..., indexing="ij")` and `flatten` (templates.py:459-460) -/
noncomputable def odfGrid (d : ℝ) : List (ℝ × ℝ × ℝ) :=
  (odfAxis d (Real.pi / 2)).flatMap fun a1 => (odfAxis d Real.pi).flatMap fun a2 =>
    (odfAxis d (2 * Real.pi)).map fun a3 => (a1, a2, a3)

/-- `volume_element` of one bin (templates.py:468-474) -/
noncomputable def binVolume (d : ℝ) (A : ℝ × ℝ × ℝ) : ℝ :=
  let da := d / 2
  let a := (1 / 2) * (A.1 + da - Real.sin (A.1 + da) * Real.cos (A.1 + da)) -
    (1 / 2) * (A.1 - da - Real.sin (A.1 - da) * Real.cos (A.1 - da))
  let b := -Real.cos (A.2.1 + da) + Real.cos (A.2.1 - da)
  let c := (A.2.2 + da) - (A.2.2 - da)
  a * b * c

/-- `Rotation.from_quat(q).as_matrix()`: normalisation and the matrix formula of scipy. -/
noncomputable def quatToMatrix (q : Quat) : M3 :=
  let n := Real.sqrt (q.x ^ 2 + q.y ^ 2 + q.z ^ 2 + q.w ^ 2)
  let x := q.x / n
  let y := q.y / n
  let z := q.z / n
  let w := q.w / n
  ⟨⟨x * x - y * y - z * z + w * w, 2 * (x * y - z * w), 2 * (x * z + y * w)⟩,
   ⟨2 * (x * y + z * w), -(x * x) + y * y - z * z + w * w, 2 * (y * z - x * w)⟩,
   ⟨2 * (x * z - y * w), 2 * (y * z + x * w), -(x * x) - y * y + z * z + w * w⟩⟩

/-- The random numbers used for one orientation (templates.py:487-490): the drawn index and three values of
`np.random.rand()`. -/
structure Draw where
  index : ℕ
  u1 : ℝ
  u2 : ℝ
  u3 : ℝ

/-- One pass of the loop over coordinates (templates.py:478-492).  The density is applied to each quaternion of the batch.
`np.random.choice` rejects negative probabilities and a sum other than 1 (`ValueError`); what it returns is the parameter `dr`. -/
noncomputable def sampleOne (odf : V3 → Quat → ℝ) (d : ℝ) (x : V3) (dr : Draw) : Except PyErr M3 :=
  let grid := odfGrid d
  let p := grid.map fun A => binVolume d A * odf x (alphaToQuat A.1 A.2.1 A.2.2)
  if |p.sum - 1| < 5 / 100 then
    let p' := p.map fun v => v / p.sum
    if (∃ v ∈ p', v < 0) ∨ p'.sum ≠ 1 then .error .valueError
    else
      match grid[dr.index]? with
      | none => .error .indexError
      | some A =>
        let a1 := A.1 + d * (dr.u1 - 1 / 2)
        let a2 := A.2.1 + d * (dr.u2 - 1 / 2)
        let a3 := A.2.2 + d * (dr.u3 - 1 / 2)
        .ok (quatToMatrix (alphaToQuat a1 a2 a3))
  else .error .assertion

/-- `_sample_ODF` (templates.py:424-494); `draws n` are the random numbers of the `n`-th coordinate. -/
noncomputable def sampleODF (odf : V3 → Quat → ℝ) (sep : ℝ) (coords : List V3) (draws : ℕ → Draw) : Except PyErr (List M3) :=
  if sep = 0 ∨ odfBins sep = 0 then .error .zeroDivision
  else
    let d := odfStep sep
    if |((odfGrid d).map (binVolume d)).sum - Real.pi ^ 2| < 1 / 10 ^ 5 then
      (coords.zipIdx).mapM fun xi => sampleOne odf d xi.1 (draws xi.2)
    else .error .assertion

/-! ### the cylinder of `polycrystal_from_odf` -/

/-- `max_cell_circumradius` with its fudge factor (templates.py:169-181) -/
noncomputable def maxCircumradius (count height radius : ℝ) : ℝ :=
  (42 / 10) * (3 * (Real.pi * radius ^ 2 * height / count) / (Real.pi * 4)) ^ ((1 : ℝ) / 3)

/-- number of points on a circle (templates.py:187) -/
noncomputable def circlePoints (radius circum : ℝ) : ℕ := (max 8 (Detector.pyInt (2 * Real.pi * radius / circum))).toNat

/-- the points handed to the mesher (templates.py:188-199); `np.linspace(0, 2π, n, endpoint=False)` -/
noncomputable def cylinderPoints (R dz : ℝ) (n : ℕ) : List V3 :=
  let angle : ℕ → ℝ := fun i => i * (2 * Real.pi / n)
  (List.range n).map (fun i : ℕ => ⟨R * Real.cos (angle i), R * Real.sin (angle i), -dz⟩) ++
  (List.range n).map (fun i : ℕ => ⟨R * Real.cos (angle i), R * Real.sin (angle i), dz⟩) ++ [⟨0, 0, -dz⟩, ⟨0, 0, dz⟩]

/-- the facets handed to the mesher (templates.py:205-231) -/
def cylinderFacets (n : ℕ) : List (List ℕ) :=
  (List.range n).map (fun i => [2 * n, i, (i + 1) % n]) ++
  (List.range n).map (fun i => [2 * n + 1, n + (i + 1) % n, n + i]) ++
  (List.range n).flatMap (fun i => [[i, (i + 1) % n, n + i], [(i + 1) % n, n + (i + 1) % n, n + i]])

/-- The tetrahedral mesher (`meshpy.tet.build`), a parameter: points, facets and maximal volume to points and elements. -/
abbrev Mesher := List V3 → List (List ℕ) → ℝ → List V3 × List (Q4 ℕ)

/-- `polycrystal_from_odf` (templates.py:96-262).  A negative volume per crystal has a complex cube root, of which `int` raises a
`TypeError` (templates.py:176, 187); a zero one divides by zero there. -/
noncomputable def polycrystalFromOdf (xf : Xfab) (mesher : Mesher) (odf : V3 → Quat → ℝ) (count height radius : ℝ)
    (cell : List ℝ) (sg : String) (cif : Option String) (sep : ℝ) (strain : V3 → M3) (draws : ℕ → Draw) :
    Except PyErr Polycrystal :=
  if count = 0 then .error .zeroDivision
  else if Real.pi * radius ^ 2 * height / count < 0 then .error .typeError
  else if Real.pi * radius ^ 2 * height / count = 0 then .error .zeroDivision
  else
    let circ := maxCircumradius count height radius
    let n := circlePoints radius circ
    let out := mesher (cylinderPoints radius (height / 2) n) (cylinderFacets n) (circ ^ 3 / 6)
    match TetraMesh.new out.1 out.2 with
    | .error e => .error e
    | .ok mesh =>
      match sampleODF odf sep mesh.ecentroids draws with
      | .error e => .error e
      | .ok U =>
        Polycrystal.new xf mesh (.many U) (.many (mesh.ecentroids.map strain)) (.many [Phase.new cell sg cif])
          (some (List.replicate mesh.enod.length 0))

/-! ### `get_uniform_powder_sample` -/

/-- the four points appended per grain (templates.py:305-308) -/
noncomputable def powderPoints (r : ℝ) : List V3 :=
  [⟨r / Real.sqrt 3, r / Real.sqrt 3, -r / Real.sqrt 3⟩, ⟨r / Real.sqrt 3, -r / Real.sqrt 3, -r / Real.sqrt 3⟩,
   ⟨-r / Real.sqrt 2, 0, -r / Real.sqrt 2⟩, ⟨0, 0, r⟩]

/-- the loop (templates.py:304-310): state `(coord, enod, node_number)`; the node number advances by 3, not 4 -/
noncomputable def powderLoop (r : ℝ) : ℕ → List V3 × List (Q4 ℕ) × ℕ
  | 0 => ([], [], 0)
  | n + 1 =>
    let s := powderLoop r n
    (s.1 ++ powderPoints r, s.2.1 ++ [⟨s.2.2, s.2.2 + 1, s.2.2 + 2, s.2.2 + 3⟩], s.2.2 + 3)

/-- `get_uniform_powder_sample` (templates.py:265-325); `rots n` is the `n`-th matrix of `Rotation.random`. -/
noncomputable def uniformPowder (xf : Xfab) (r : ℝ) (grains : ℕ) (cell : List ℝ) (sg : String) (strain : MatArg)
    (cif : Option String) (rots : ℕ → M3) : Except PyErr Polycrystal :=
  let s := powderLoop r grains
  match TetraMesh.new s.1 s.2.1 with
  | .error e => .error e
  | .ok mesh =>
    Polycrystal.new xf mesh (.many ((List.range mesh.enod.length).map rots)) strain (.many [Phase.new cell sg cif])
      (some (List.replicate mesh.enod.length 0))

end XRD
