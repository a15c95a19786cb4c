import Verif.Model.Persist
import Mathlib.Analysis.SpecialFunctions.Trigonometric.Inverse

/-! Model of the visualisation output: `_get_misorientations` (utils.py:361-388), the element data of `Polycrystal.save`
(polycrystal.py:463-494) and `TetraMesh.save` with its element data (mesh.py:272-301). -/

namespace XRD
open V3 M3
open Classical

/-- External functions used by the export: `scipy.spatial.transform.Rotation.mean(..).as_matrix()` and `xfab.tools.u_to_euler`. -/
structure RotLib where
  mean : List M3 → M3
  euler : M3 → ℝ × ℝ × ℝ

/-- `Rotation.magnitude` of the rotation with matrix `R`: the angle in `[0, π]` whose cosine is `(trace - 1) / 2`.
Simplification: `Rotation.from_matrix` leaves rotation matrices alone; it orthogonalises other matrices, which is not modelled. -/
noncomputable def magnitude (R : M3) : ℝ := Real.arccos ((R.trace - 1) / 2)

/-- `_get_misorientations` (utils.py:361-388) -/
noncomputable def misorientations (lib : RotLib) (Us : List M3) : List ℝ :=
  let mean := lib.mean Us
  Us.map fun U => magnitude (U * mean.tr)

/-- A Python value used as element data: a number or a sequence (list, numpy array or tensor). -/
inductive PyData where
  | num (x : ℝ)
  | list (l : List PyData)

/-- a sequence of numbers -/
def PyData.nums (l : List ℝ) : PyData := .list (l.map .num)

/-- `list(v)`: a `TypeError` for something that cannot be iterated -/
def PyData.asList : PyData → Option (List PyData)
  | .num _ => none
  | .list l => some l

/-- an `element_data` dictionary, in insertion order -/
abbrev ElementData := List (String × PyData)

/-- the loop that wraps the values, in place (mesh.py:288-293): the dictionary afterwards, and the error if it was interrupted -/
def wrapData : ElementData → ElementData × Option PyErr
  | [] => ([], none)
  | (k, v) :: rest => match v.asList with
    | none => ((k, v) :: rest, some .typeError)
    | some l => ((k, .list [.list l]) :: (wrapData rest).1, (wrapData rest).2)

/-- what a `.xdmf` file shows -/
structure Visual where
  coord : List V3
  enod : List (Q4 ℕ)
  data : ElementData

/-- the consistency check of `meshio.Mesh.__init__`: one block of cells, so one block of data, with one entry per cell -/
def blockOk (n : ℕ) (v : PyData) : Prop := ∃ l, v = .list [.list l] ∧ l.length = n

/-- `TetraMesh.save` (mesh.py:272-301): the caller's dictionary afterwards, and what was written or the error raised.
Simplification: limitations of the XDMF format itself (shapes of the entries) are not modelled. -/
noncomputable def TetraMesh.saveData (mesh : TetraMesh) (data : ElementData) : ElementData × Except PyErr Visual :=
  let w := wrapData data
  match w.2 with
  | some e => (w.1, .error e)
  | none => if ∀ kv ∈ w.1, blockOk mesh.enod.length kv.2 then (w.1, .ok ⟨mesh.coord, mesh.enod, w.1⟩) else (w.1, .error .valueError)

/-- `np.degrees` -/
noncomputable def degrees (x : ℝ) : ℝ := x * 180 / Real.pi

/-- `element_data` in `Polycrystal.save` (polycrystal.py:464-493) -/
noncomputable def Polycrystal.elementData (lib : RotLib) (p : Polycrystal) : ElementData :=
  let U := p.orientationSample
  [("Strain Tensor Component xx", .nums (p.strainSample.map fun s => s.r0.x)),
   ("Strain Tensor Component yy", .nums (p.strainSample.map fun s => s.r1.y)),
   ("Strain Tensor Component zz", .nums (p.strainSample.map fun s => s.r2.z)),
   ("Strain Tensor Component xy", .nums (p.strainSample.map fun s => s.r0.y)),
   ("Strain Tensor Component xz", .nums (p.strainSample.map fun s => s.r0.z)),
   ("Strain Tensor Component yz", .nums (p.strainSample.map fun s => s.r1.z)),
   ("Bunge Euler Angle phi_1 [degrees]", .nums ((U.zip (misorientations lib U)).map fun um => degrees (lib.euler um.1).1)),
   ("Bunge Euler Angle Phi [degrees]", .nums ((U.zip (misorientations lib U)).map fun um => degrees (lib.euler um.1).2.1)),
   ("Bunge Euler Angle phi_2 [degrees]", .nums ((U.zip (misorientations lib U)).map fun um => degrees (lib.euler um.1).2.2)),
   ("Misorientation from mean orientation [degrees]", .nums ((U.zip (misorientations lib U)).map fun um => degrees um.2)),
   ("Material Phase Index", .nums p.phaseMap)]

/-- the visualisation part of `Polycrystal.save` (polycrystal.py:463-494).  Precondition of the model: the orientations are rotations
(`u_to_euler` and `Rotation.from_matrix` accept them). -/
noncomputable def Polycrystal.visual (lib : RotLib) (p : Polycrystal) : Except PyErr Visual :=
  (p.meshSample.saveData (p.elementData lib)).2

/-- `Polycrystal.save` (polycrystal.py:435-494) with its possible failure: the file system afterwards, and the error raised. -/
noncomputable def Polycrystal.saveChecked (io : MeshIO) (lib : RotLib) (p : Polycrystal) (path : Path) (asXdmf : Bool) (fs : FS) :
    FS × Option PyErr :=
  let fs1 := fs.write (polySavePaths path).1 (.polycrystal p)
  if asXdmf then
    match p.visual lib with
    | .error e => (fs1, some e)
    | .ok _ => (TetraMesh.save io (.visual p.meshSample p.strainSample p.orientationSample p.phaseMap) (polySavePaths path).2 fs1, none)
  else (fs1, none)

end XRD
