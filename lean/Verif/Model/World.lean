import Verif.Model.Polycrystal

/-! Object identity: phases are mutable objects that polycrystals share by reference, and the dictionary returned by `diffract`
refers to the polycrystal's own mesh object. -/

namespace XRD
open V3 M3 Fl
open Classical

/-- A polycrystal object: its attributes and, for each entry of `self.phases`, the phase object it refers to
(polycrystal.py:96-98; the list holds references, phases are not copied). -/
structure PolyObj where
  body : Polycrystal
  refs : List ℕ

/-- All phase objects and all polycrystal objects of a program. -/
structure World where
  phase : ℕ → Phase
  crystal : ℕ → PolyObj

namespace World

/-- the polycrystal `i` with its phases looked up -/
def view (w : World) (i : ℕ) : Polycrystal := { (w.crystal i).body with phases := (w.crystal i).refs.map w.phase }

/-- `for phase in self.phases: phase._setup_diffracting_planes(...)` (polycrystal.py:160-163): in-place, one after the other,
also when an object occurs twice in the list -/
noncomputable def setup (x : Xfab) (st : ℕ → Phase) (wavelength lo hi : ℝ) : List ℕ → (ℕ → Phase)
  | [] => st
  | r :: rs => setup x (Function.update st r ((st r).setup x wavelength lo hi)) wavelength lo hi rs

/-- arguments of a `diffract` call -/
structure DiffractArgs where
  beam : Beam
  motion : Motion
  minB : ℝ
  maxB : ℝ
  det : Option Detector

/-- `diffract` on polycrystal object `i` (polycrystal.py:113-232): the outcome and the new state.  If computing the limits
fails nothing has changed; if the peak computation fails the phases have been set up already. -/
noncomputable def diffract (x : Xfab) (w : World) (i : ℕ) (a : DiffractArgs) : Except PyErr PeaksDict × World :=
  match (w.view i).limits a.beam a.minB a.maxB a.det with
  | .error e => (.error e, w)
  | .ok (lo, hi) =>
    let w' : World := { w with phase := setup x w.phase a.beam.wavelength lo hi (w.crystal i).refs }
    (diffractCore (w'.view i).crystal a.beam a.motion, w')

/-- `transform` on polycrystal object `i` (polycrystal.py:404-433) -/
noncomputable def transform (w : World) (i : ℕ) (m : Motion) (t : ℝ) : World :=
  { w with crystal := Function.update w.crystal i { w.crystal i with body := (w.crystal i).body.transform m t } }

/-- one user action -/
inductive Op where
  | diffract (i : ℕ) (a : DiffractArgs)
  | transform (i : ℕ) (m : Motion) (t : ℝ)

/-- state after an action -/
noncomputable def step (x : Xfab) (w : World) : Op → World
  | .diffract i a => (w.diffract x i a).2
  | .transform i m t => w.transform i m t

/-- state after a history -/
noncomputable def run (x : Xfab) (w : World) (h : List Op) : World := h.foldl (step x) w

/-- the entry `peaks_dict["mesh_lab"]` of a dictionary returned by object `i`, read in state `w`: a reference to the mesh
object of the polycrystal (polycrystal.py:226), which `transform` updates in place (polycrystal.py:418, mesh.py:248-270) -/
def meshOf (w : World) (i : ℕ) : TetraMesh := (w.crystal i).body.meshLab

end World
end XRD
