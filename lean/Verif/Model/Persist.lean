import Verif.Model.Polycrystal

/-! Model of the `save` and `load` methods (motion.py:218-262, beam.py:195-256, detector.py:180-226, polycrystal.py:435-542,
mesh.py:272-301).  Serialisation itself (`dill`) is taken to be faithful: a file holds the object that was dumped into it. -/

namespace XRD
open Classical

/-- a Python string used as a path -/
abbrev Path := List Char

/-- what a saved beam file contains (beam.py:206-212) -/
structure BeamData where
  waveVector : V3
  vertices : List V3
  polarization : V3
  halfspaces : List HalfSpace
  wavelength : ℝ

/-- contents of a file -/
inductive File where
  | motion (m : Motion)
  | beam (d : BeamData)
  | detector (d : Detector)
  | polycrystal (p : Polycrystal)
  /-- a visualisation mesh with its element data (polycrystal.py:463-494): mesh, strains, orientations (as Euler angles and
  misorientations in the real file), phase indices -/
  | visual (mesh : TetraMesh) (strain orientation : List M3) (map : List ℝ)
  | other

/-- the file system.  Simplification: every `open(path, "wb")` succeeds. -/
abbrev FS := Path → Option File

/-- `open(path, "wb")` and dump -/
noncomputable def FS.write (fs : FS) (p : Path) (f : File) : FS := Function.update fs p (some f)

/-- `meshio.write_points_cells` on an `.xdmf` path: meshio also writes the arrays into an `.h5` file.  Parameter: which. -/
structure MeshIO where
  companion : Path → Path
  companion_ext : ∀ p, ".h5".toList <:+ companion p

/-- `if not path.endswith(ext): path = path + ext` (motion.py:228-229, beam.py:203-204, detector.py:188-189, mesh.py:283-286) -/
noncomputable def savePath (ext : String) (path : Path) : Path := if ¬ ext.toList <:+ path then path ++ ext.toList else path

/-- `RigidBodyMotion.save` (motion.py:218-231) -/
noncomputable def Motion.save (m : Motion) (path : Path) (fs : FS) : FS := fs.write (savePath ".motion" path) (.motion m)

/-- `RigidBodyMotion.load` (motion.py:233-262).  A pickle of something else is modelled as an error. -/
noncomputable def Motion.load (path : Path) (fs : FS) : Except PyErr Motion :=
  if ¬ ".motion".toList <:+ path then .error .valueError
  else match fs path with
    | some (.motion m) => .ok m
    | some _ => .error .typeError
    | none => .error .osError

/-- `set_beam_vertices` (beam.py:87-109) -/
noncomputable def Beam.setVertices (q : Qhull) (b : Beam) (vertices : List V3) : Except PyErr Beam :=
  if q.extremeCount vertices ≠ vertices.length then .error .assertion
  else .ok { b with vertices := vertices, centroid := meanV vertices, halfspaces := q.equations vertices }

/-- `Beam.save` (beam.py:195-217) -/
noncomputable def Beam.save (b : Beam) (path : Path) (fs : FS) : FS :=
  fs.write (savePath ".beam" path) (.beam ⟨b.waveVector, b.vertices, b.polarization, b.halfspaces, b.wavelength⟩)

/-- `Beam.load` (beam.py:219-256): the constructor is called again, with the wave vector as direction. -/
noncomputable def Beam.load (q : Qhull) (path : Path) (fs : FS) : Except PyErr Beam :=
  if ¬ ".beam".toList <:+ path then .error .valueError
  else match fs path with
    | some (.beam d) =>
      match Beam.new q d.vertices d.waveVector d.wavelength d.polarization with
      | .error e => .error e
      | .ok b => .ok { b with halfspaces := d.halfspaces }
    | some _ => .error .typeError
    | none => .error .osError

/-- `Detector.save` (detector.py:180-191) -/
noncomputable def Detector.save (d : Detector) (path : Path) (fs : FS) : FS := fs.write (savePath ".det" path) (.detector d)

/-- `Detector.load` (detector.py:193-226); the conversions to torch keep the values -/
noncomputable def Detector.load (path : Path) (fs : FS) : Except PyErr Detector :=
  if ¬ ".det".toList <:+ path then .error .valueError
  else match fs path with
    | some (.detector d) => .ok d
    | some _ => .error .typeError
    | none => .error .osError

/-- `path.split(".")[0]` -/
def beforeDot (path : Path) : Path := path.takeWhile (· ≠ '.')

/-- the two paths of `Polycrystal.save` (polycrystal.py:456-461) -/
noncomputable def polySavePaths (path : Path) : Path × Path :=
  if ¬ ".pc".toList <:+ path then (path ++ ".pc".toList, path ++ ".xdmf".toList)
  else (path, beforeDot path ++ ".xdmf".toList)

/-- `TetraMesh.save` (mesh.py:272-301) -/
noncomputable def TetraMesh.save (io : MeshIO) (f : File) (file : Path) (fs : FS) : FS :=
  let p := savePath ".xdmf" file
  (fs.write p f).write (io.companion p) .other

/-- `Polycrystal.save` (polycrystal.py:435-494) -/
noncomputable def Polycrystal.save (io : MeshIO) (p : Polycrystal) (path : Path) (asXdmf : Bool) (fs : FS) : FS :=
  let fs := fs.write (polySavePaths path).1 (.polycrystal p)
  if asXdmf then
    TetraMesh.save io (.visual p.meshSample p.strainSample p.orientationSample p.phaseMap) (polySavePaths path).2 fs
  else fs

/-- `Polycrystal.load` (polycrystal.py:496-542): the phase map comes back as a torch tensor. -/
noncomputable def Polycrystal.load (path : Path) (fs : FS) : Except PyErr Polycrystal :=
  if ¬ ".pc".toList <:+ path then .error .valueError
  else match fs path with
    | some (.polycrystal p) => .ok { p with mapKind := .torch }
    | some _ => .error .typeError
    | none => .error .osError

/-- one save -/
inductive SaveOp where
  | motion (m : Motion) (path : Path)
  | beam (b : Beam) (path : Path)
  | detector (d : Detector) (path : Path)
  | polycrystal (p : Polycrystal) (path : Path) (asXdmf : Bool)

/-- run one save -/
noncomputable def SaveOp.run (io : MeshIO) (fs : FS) : SaveOp → FS
  | .motion m path => m.save path fs
  | .beam b path => b.save path fs
  | .detector d path => d.save path fs
  | .polycrystal p path x => p.save io path x fs

end XRD
