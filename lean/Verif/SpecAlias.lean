import Verif.Model.Alias

/-! Specification of C75: what may happen to a script's arrays, its mesh and its polycrystal, (a) with the memory model
and (b) with plain values, where no two things ever share anything. -/

namespace XRD
namespace Spec

/-- One step of a script. -/
inductive Act where
  /-- the caller overwrites one of its own arrays in place -/
  | edit (l : ℕ) (c : Cell)
  /-- `polycrystal.transform(motion, time)` -/
  | transform (m : Motion) (t : ℝ)
  /-- `polycrystal.mesh_lab.translate(v)` -/
  | moveLab (v : V3)
  /-- `polycrystal.mesh_sample.translate(v)` -/
  | moveSample (v : V3)
  /-- `mesh.translate(v)` on the mesh the polycrystal was built from -/
  | moveGiven (v : V3)
  /-- `mesh.update(motion, time)` on the mesh the polycrystal was built from -/
  | updateGiven (m : Motion) (t : ℝ)

/-- the objects of a script in memory -/
structure World where
  heap : Heap
  mesh : MeshObj
  poly : PolyMem

/-- the same as plain values: the contents of the caller's arrays, the mesh, the polycrystal -/
structure Values where
  arrays : ℕ → Cell
  mesh : TetraMesh
  poly : Polycrystal

/-- a step in memory -/
noncomputable def World.run (cpu : Bool) (w : World) : Act → World
  | .edit l c => { w with heap := w.heap.write l c }
  | .transform m t => let r := w.poly.transform w.heap m t; { w with heap := r.2, poly := r.1 }
  | .moveLab v => let r := w.poly.meshLab.translate cpu w.heap v; { w with heap := r.2, poly := { w.poly with meshLab := r.1 } }
  | .moveSample v =>
    let r := w.poly.meshSample.translate cpu w.heap v; { w with heap := r.2, poly := { w.poly with meshSample := r.1 } }
  | .moveGiven v => let r := w.mesh.translate cpu w.heap v; { w with heap := r.2, mesh := r.1 }
  | .updateGiven m t => let r := w.mesh.update w.heap m t; { w with heap := r.2, mesh := r.1 }

/-- the same step on plain values: each step changes the one thing it names -/
noncomputable def Values.run (s : Values) : Act → Values
  | .edit l c => { s with arrays := fun k => if k = l then c else s.arrays k }
  | .transform m t => { s with poly := s.poly.transform m t }
  | .moveLab v => { s with poly := { s.poly with meshLab := s.poly.meshLab.translate v } }
  | .moveSample v => { s with poly := { s.poly with meshSample := s.poly.meshSample.translate v } }
  | .moveGiven v => { s with mesh := s.mesh.translate v }
  | .updateGiven m t => { s with mesh := s.mesh.update m t }

/-- `l` is the address of an array that `ensure_torch` does not copy: a float64 numpy array (default device CPU) or a
float64 tensor already on the default device. -/
def KeptBy (cpu : Bool) (a : Arg) (l : ℕ) : Prop :=
  (a = .numpy l true ∧ cpu = true) ∨ a = .tensor l true true

/-- the orientation or strain argument is kept: it is of shape `(N,3,3)` and `ensure_torch` does not copy it -/
def MatKeptBy (cpu : Bool) (a : MatRef) (l : ℕ) : Prop := ∃ b, a = .many b ∧ KeptBy cpu b l

/-- an argument that is an array refers to memory in use -/
def ArgIn (a : Arg) (n : ℕ) : Prop :=
  match a with
  | .numpy l _ => l < n
  | .tensor l _ _ => l < n
  | .python _ => True

/-- the same for an orientation or strain argument -/
def MatIn (a : MatRef) (n : ℕ) : Prop :=
  match a with
  | .one b => ArgIn b n
  | .many b => ArgIn b n
  | .other => True

end Spec
end XRD

namespace XRD
namespace Spec
/-- One step of a script that holds one mesh. -/
inductive MeshAct where
  /-- the caller overwrites one of its own arrays in place -/
  | edit (l : ℕ) (c : Cell)
  /-- `mesh.translate(v)` -/
  | translate (v : V3)
  /-- `mesh.update(motion, time)` (also what `mesh.rotate` does) -/
  | update (m : Motion) (t : ℝ)

/-- the step in memory -/
noncomputable def MeshAct.run (cpu : Bool) (s : MeshObj × Heap) : MeshAct → MeshObj × Heap
  | .edit l c => (s.1, s.2.write l c)
  | .translate v => s.1.translate cpu s.2 v
  | .update m t => s.1.update s.2 m t

/-- the step as seen by a mesh that shares nothing -/
noncomputable def MeshAct.onMesh (T : TetraMesh) : MeshAct → TetraMesh
  | .edit _ _ => T
  | .translate v => T.translate v
  | .update m t => T.update m t

/-- the step as seen by the caller's arrays: only the caller's own edits change them -/
def MeshAct.onArrays (f : ℕ → Cell) : MeshAct → ℕ → Cell
  | .edit l c => fun k => if k = l then c else f k
  | _ => f

/-- the memory after a sequence of edits by the caller -/
def edited (h : Heap) (edits : List (ℕ × Cell)) : Heap := edits.foldl (fun g e => g.write e.1 e.2) h
end Spec
end XRD
