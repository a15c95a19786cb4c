import Verif.Model.Polycrystal

/-! Array memory: which arrays the objects of the package share with the caller (`ensure_torch` / `ensure_numpy`,
`/repo/xrd_simulator/utils.py:541-628`) and which library calls write into an array in place.  The other model files treat
arrays as values; here an object holds references to array storage and `view` reads the value-level object of the other
files out of the memory. -/

namespace XRD
open V3 M3
open Classical

/-- The contents of one array: `(n,3)` points (a single vector is one point), `(n,3,3)` matrices, scalars, or the
`(n,4)` half-space rows. -/
inductive Cell where
  | points (l : List V3)
  | mats (l : List M3)
  | reals (l : List ℝ)
  | planes (l : List HalfSpace)

namespace Cell
/-- the array read as points -/
def pts : Cell → List V3
  | points l => l
  | _ => []
/-- the array read as one vector -/
def vec (c : Cell) : V3 := c.pts.headD 0
/-- the array read as matrices -/
def ms : Cell → List M3
  | mats l => l
  | _ => []
/-- the array read as scalars -/
def rs : Cell → List ℝ
  | reals l => l
  | _ => []
/-- the array read as one scalar -/
def real (c : Cell) : ℝ := c.rs.headD 0
/-- the array read as half-space rows -/
def pls : Cell → List HalfSpace
  | planes l => l
  | _ => []
end Cell

/-- Array storage: addresses below `next` are in use. -/
structure Heap where
  next : ℕ
  cell : ℕ → Cell

namespace Heap
/-- a fresh array -/
def alloc (h : Heap) (c : Cell) : ℕ × Heap := (h.next, ⟨h.next + 1, Function.update h.cell h.next c⟩)
/-- an in-place write (`a += b`, `a[:] = b`) -/
def write (h : Heap) (l : ℕ) (c : Cell) : Heap := ⟨h.next, Function.update h.cell l c⟩
end Heap

/-- An argument as the caller holds it: a numpy array or a tensor stored at an address, with "its dtype is float64" and,
for a tensor, "it lives on the default device"; or a Python list, tuple or number. -/
inductive Arg where
  | numpy (l : ℕ) (f64 : Bool)
  | tensor (l : ℕ) (f64 onDevice : Bool)
  | python (c : Cell)

namespace Arg
/-- the contents at the time of the call -/
def value (h : Heap) : Arg → Cell
  | numpy l _ => h.cell l
  | tensor l _ _ => h.cell l
  | python c => c

/-- the address of the caller's array, if it is one -/
def addr : Arg → Option ℕ
  | numpy l _ => some l
  | tensor l _ _ => some l
  | python _ => none

/-- `ensure_torch(data)` with the default dtype float64 (utils.py:576-590); `cpu`: the default device is the CPU.
`torch.from_numpy` shares memory and `.to` returns its argument when dtype and device already match. -/
def ensureTorch (cpu : Bool) (h : Heap) : Arg → ℕ × Heap
  | numpy l f64 => if f64 && cpu then (l, h) else h.alloc (h.cell l)
  | tensor l f64 dev => if f64 && dev then (l, h) else h.alloc (h.cell l)
  | python c => h.alloc c

/-- the address that `ensure_torch` shares with the caller, if any (see the `if`s above) -/
def shared (cpu : Bool) : Arg → Option ℕ
  | numpy l f64 => if f64 && cpu then some l else none
  | tensor l f64 dev => if f64 && dev then some l else none
  | python _ => none

/-- `ensure_numpy(data)` (utils.py:593-628): `astype` and `np.array` copy. -/
def ensureNumpy (h : Heap) (a : Arg) : ℕ × Heap := h.alloc (a.value h)
end Arg

/-! ### RigidBodyMotion -/

/-- A `RigidBodyMotion` in memory (motion.py:72-76).  `rotAxis` is the axis inside `rotator.K`, `rotator.K2`, computed
once at construction (motion.py:289-291); the four other attributes are tensors. -/
structure MotionObj where
  rotAxis : V3
  axis : ℕ
  angle : ℕ
  translation : ℕ
  origin : ℕ

namespace MotionObj
/-- `RigidBodyMotion.__init__` (motion.py:66-76).  The default origin is a module-level tensor: pass it as a `tensor`
argument. -/
noncomputable def new (cpu : Bool) (h : Heap) (axis angle translation origin : Arg) : Except PyErr (MotionObj × Heap) :=
  let w := (angle.value h).real
  if w < Real.pi ∧ w > 0 then
    if axisAccepted (axis.value h).vec then
      let r := axis.ensureTorch cpu h
      let a := angle.ensureTorch cpu r.2
      let t := translation.ensureTorch cpu a.2
      let o := origin.ensureTorch cpu t.2
      .ok (⟨(axis.value h).vec, r.1, a.1, t.1, o.1⟩, o.2)
    else .error .assertion
  else .error .assertion

/-- the motion that `__call__`, `rotate` and the diffraction code compute with (motion.py:103-141, 166-168, 304-341) -/
def view (h : Heap) (m : MotionObj) : Motion :=
  ⟨m.rotAxis, (h.cell m.angle).real, (h.cell m.translation).vec, (h.cell m.origin).vec⟩

/-- `inverse` (motion.py:201-217): negated clones, and the same angle tensor. -/
noncomputable def inverse (cpu : Bool) (h : Heap) (m : MotionObj) : Except PyErr (MotionObj × Heap) :=
  let r := h.alloc (.points [-(h.cell m.axis).vec])
  let t := r.2.alloc (.points [-(h.cell m.translation).vec])
  let o := t.2.alloc (h.cell m.origin)
  MotionObj.new cpu o.2 (.tensor r.1 true true) (.tensor m.angle true true) (.tensor t.1 true true) (.tensor o.1 true true)
end MotionObj

/-! ### Detector -/

/-- A `Detector` in memory (detector.py:138-178): the three corners are tensors obtained by `ensure_torch`; every other
attribute is computed at construction, and kept here by value in `rest`.  Simplification: the pixel size is a number. -/
structure DetObj where
  c0 : ℕ
  c1 : ℕ
  c2 : ℕ
  rest : Detector

namespace DetObj
/-- `Detector.__init__` (detector.py:124-178) -/
noncomputable def new (cpu : Bool) (h : Heap) (c0 c1 c2 : Arg) (nPixels : PixArg ℤ) (pixelSize : PixArg ℝ)
    (sigma threshold : ℝ) (maxRadius : ℤ) (useL useP useS : Bool) : Except PyErr (DetObj × Heap) :=
  let a := c0.ensureTorch cpu h
  let b := c1.ensureTorch cpu a.2
  let c := c2.ensureTorch cpu b.2
  match Detector.new (c.2.cell a.1).vec (c.2.cell b.1).vec (c.2.cell c.1).vec nPixels pixelSize sigma threshold maxRadius
    useL useP useS with
  | .error e => .error e
  | .ok D => .ok (⟨a.1, b.1, c.1, D⟩, c.2)

/-- the detector that the methods compute with -/
def view (h : Heap) (d : DetObj) : Detector :=
  { d.rest with c0 := (h.cell d.c0).vec, c1 := (h.cell d.c1).vec, c2 := (h.cell d.c2).vec }
end DetObj

/-! ### Beam -/

/-- A `Beam` in memory (beam.py:74-109). -/
structure BeamObj where
  waveVector : ℕ
  wavelength : ℝ
  vertices : ℕ
  centroid : ℕ
  halfspaces : ℕ
  polarization : ℕ

namespace BeamObj
/-- `set_beam_vertices` (beam.py:87-109): a clone of the vertices and two computed arrays, or the assertion. -/
noncomputable def setVertices (q : Qhull) (h : Heap) (l : ℕ) : Except PyErr ((ℕ × ℕ × ℕ) × Heap) :=
  let vs := (h.cell l).pts
  if q.extremeCount vs ≠ vs.length then .error .assertion
  else
    let v := h.alloc (h.cell l)
    let c := v.2.alloc (.points [meanV vs])
    let s := c.2.alloc (.planes (q.equations vs))
    .ok ((v.1, c.1, s.1), s.2)

/-- `Beam.__init__` (beam.py:67-85), with the conventions of `Beam.new` for degenerate directions. -/
noncomputable def new (cpu : Bool) (q : Qhull) (h : Heap) (vertices direction : Arg) (wavelength : ℝ) (pol : Arg) :
    Except PyErr (BeamObj × Heap) :=
  if wavelength = 0 then .error .zeroDivision
  else
    let d := direction.ensureTorch cpu h
    let dir := (d.2.cell d.1).vec
    let w := d.2.alloc (.points [(2 * Real.pi / wavelength) • ((1 / dir.norm) • dir)])
    let v := vertices.ensureTorch cpu w.2
    match setVertices q v.2 v.1 with
    | .error e => .error e
    | .ok (r, h3) =>
      let p := pol.ensureTorch cpu h3
      let pv := (p.2.cell p.1).vec
      let u := p.2.alloc (.points [(1 / pv.norm) • pv])
      if dir = 0 ∨ pv = 0 then .error .assertion
      else if allclose (dot (u.2.cell u.1).vec (u.2.cell w.1).vec) 0 then
        .ok (⟨w.1, wavelength, r.1, r.2.1, r.2.2, u.1⟩, u.2)
      else .error .assertion

/-- the beam as a value -/
def view (h : Heap) (b : BeamObj) : Beam :=
  ⟨(h.cell b.waveVector).vec, b.wavelength, (h.cell b.vertices).pts, (h.cell b.centroid).vec, (h.cell b.halfspaces).pls,
    (h.cell b.polarization).vec⟩
end BeamObj

/-! ### TetraMesh -/

/-- A `TetraMesh` in memory (mesh.py:71-84): the five arrays that some call writes in place or that may be shared.  The
element table, normals, radii and volumes are computed at construction and never written in place; they are values. -/
structure MeshObj where
  points : ℕ
  coord : ℕ
  ecentroids : ℕ
  espherecentroids : ℕ
  centroid : ℕ
  enod : List (Q4 ℕ)
  enormals : List (Q4 V3)
  eradius : List ℝ
  evolumes : List ℝ

namespace MeshObj
/-- the mesh as a value -/
def view (h : Heap) (m : MeshObj) : TetraMesh :=
  { points := (h.cell m.points).pts, coord := (h.cell m.coord).pts, enod := m.enod, enormals := m.enormals
    ecentroids := (h.cell m.ecentroids).pts, eradius := m.eradius, espherecentroids := (h.cell m.espherecentroids).pts
    evolumes := m.evolumes, centroid := (h.cell m.centroid).vec }

/-- `generate_mesh_from_vertices` with `_build_tetramesh` (mesh.py:86-106, 320-360, 562-612): `meshio.Mesh` keeps the
caller's array, `coord` is `ensure_torch` of it, `_mesh.points` is `ensure_numpy` of `coord`, and finally `coord` is
`ensure_torch` of `_mesh.points`.  The derived arrays are computed, hence fresh. -/
noncomputable def new (cpu : Bool) (h : Heap) (coord : Arg) (enod : List (Q4 ℕ)) : Except PyErr (MeshObj × Heap) :=
  let c := coord.ensureTorch cpu h
  let p := (Arg.tensor c.1 true true).ensureNumpy c.2
  let c' := (Arg.numpy p.1 true).ensureTorch cpu p.2
  match TetraMesh.new (c'.2.cell c'.1).pts enod with
  | .error e => .error e
  | .ok T =>
    let e := c'.2.alloc (.points T.ecentroids)
    let s := e.2.alloc (.points T.espherecentroids)
    let g := s.2.alloc (.points [T.centroid])
    .ok (⟨p.1, c'.1, e.1, s.1, g.1, T.enod, T.enormals, T.eradius, T.evolumes⟩, g.2)

/-- `translate` (mesh.py:217-233): four in-place additions and one rebinding. -/
def translate (cpu : Bool) (h : Heap) (m : MeshObj) (v : V3) : MeshObj × Heap :=
  let h1 := h.write m.points (.points ((h.cell m.points).pts.map (· + v)))
  let c := (Arg.numpy m.points true).ensureTorch cpu h1
  let h2 := c.2.write m.ecentroids (.points ((c.2.cell m.ecentroids).pts.map (· + v)))
  let h3 := h2.write m.espherecentroids (.points ((h2.cell m.espherecentroids).pts.map (· + v)))
  let h4 := h3.write m.centroid (.points [(h3.cell m.centroid).vec + v])
  ({ m with coord := c.1 }, h4)

/-- `update` (mesh.py:248-270): every attribute is bound to a freshly computed tensor. -/
noncomputable def update (h : Heap) (m : MeshObj) (b : Motion) (time : ℝ) : MeshObj × Heap :=
  let c := h.alloc (.points ((h.cell m.coord).pts.map fun p => b.call1 p time))
  let e := c.2.alloc (.points ((h.cell m.ecentroids).pts.map fun p => b.call1 p time))
  let s := e.2.alloc (.points ((h.cell m.espherecentroids).pts.map fun p => b.call1 p time))
  let g := s.2.alloc (.points [b.call1 (h.cell m.centroid).vec time])
  ({ m with coord := c.1, ecentroids := e.1, espherecentroids := s.1, centroid := g.1
            enormals := m.enormals.map fun q => q.map fun n => b.rotate1 n time }, g.2)

/-- `copy.deepcopy(mesh)` (polycrystal.py:108-109): each array is copied (the sharing between the numpy array
`_mesh.points` and the tensor `coord` is not kept, they are different Python objects). -/
def deepcopy (h : Heap) (m : MeshObj) : MeshObj × Heap :=
  let p := h.alloc (h.cell m.points)
  let c := p.2.alloc (h.cell m.coord)
  let e := c.2.alloc (h.cell m.ecentroids)
  let s := e.2.alloc (h.cell m.espherecentroids)
  let g := s.2.alloc (h.cell m.centroid)
  ({ m with points := p.1, coord := c.1, ecentroids := e.1, espherecentroids := s.1, centroid := g.1 }, g.2)
end MeshObj

/-! ### Polycrystal -/

/-- an orientation or strain argument: shape `(3,3)`, `(N,3,3)` or another shape -/
inductive MatRef where
  | one (a : Arg)
  | many (a : Arg)
  | other

namespace MatRef
/-- the argument as a value -/
def value (h : Heap) : MatRef → MatArg
  | one a => .one ((a.value h).ms.headD 0)
  | many a => .many (a.value h).ms
  | other => .other

/-- `ensure_torch` and then `_instantiate_orientation` / `_instantiate_strain` (polycrystal.py:85-86, 544-597): a `(3,3)`
array is repeated into a new one, an `(N,3,3)` array is kept. -/
def instantiate (cpu : Bool) (h : Heap) (n : ℕ) : MatRef → Except PyErr (ℕ × Heap)
  | one a =>
    let r := a.ensureTorch cpu h
    .ok (r.2.alloc (.mats (List.replicate n ((r.2.cell r.1).ms.headD 0))))
  | many a =>
    let r := a.ensureTorch cpu h
    if (r.2.cell r.1).ms.length = n then .ok r else .error .valueError
  | other => .error .valueError

/-- the address shared with the caller, if any -/
def shared (cpu : Bool) : MatRef → Option ℕ
  | many a => a.shared cpu
  | _ => none
end MatRef

/-- A `Polycrystal` in memory (polycrystal.py:85-111).  `_eB`, `mesh_volumes` are computed and never written in place:
values.  The phases are objects; they are values here (their sharing is C63's subject). -/
structure PolyMem where
  meshLab : MeshObj
  meshSample : MeshObj
  orientationLab : ℕ
  orientationSample : ℕ
  strainLab : ℕ
  strainSample : ℕ
  phases : List Phase
  mapKind : ArrKind
  phaseMap : ℕ
  eB : List M3
  meshVolumes : List ℝ

namespace PolyMem
/-- the polycrystal as a value -/
def view (h : Heap) (p : PolyMem) : Polycrystal :=
  { meshLab := p.meshLab.view h, meshSample := p.meshSample.view h
    orientationLab := (h.cell p.orientationLab).ms, orientationSample := (h.cell p.orientationSample).ms
    strainLab := (h.cell p.strainLab).ms, strainSample := (h.cell p.strainSample).ms
    phases := p.phases, mapKind := p.mapKind, phaseMap := (h.cell p.phaseMap).rs, eB := p.eB
    meshVolumes := p.meshVolumes }

/-- `_instantiate_phase` (polycrystal.py:599-630) -/
def phaseMapRef (cpu : Bool) (h : Heap) (phases : List Phase) (map : Option Arg) (n : ℕ) :
    Except PyErr (ArrKind × ℕ × Heap) :=
  match map with
  | none => if phases.length > 1 then .error .valueError else .ok (.numpy, h.alloc (.reals (List.replicate n 0)))
  | some a => .ok (.torch, a.ensureTorch cpu h)

/-- `Polycrystal.__init__` (polycrystal.py:76-111) -/
noncomputable def new (x : Xfab) (cpu : Bool) (h : Heap) (mesh : MeshObj) (orientation strain : MatRef)
    (phases : PhasesArg) (map : Option Arg) : Except PyErr (PolyMem × Heap) :=
  let n := mesh.enod.length
  let vols := (elements (h.cell mesh.coord).pts mesh.enod).map tetVolume
  match orientation.instantiate cpu h n with
  | .error e => .error e
  | .ok U =>
    match strain.instantiate cpu U.2 n with
    | .error e => .error e
    | .ok S =>
      match phaseMapRef cpu S.2 phases.toList map n with
      | .error e => .error e
      | .ok (kind, pm, h3) =>
        match instantiateEB x n (h3.cell U.1).ms (h3.cell S.1).ms phases.toList (h3.cell pm).rs with
        | .error e => .error e
        | .ok eB =>
          let lab := mesh.deepcopy h3
          let sam := mesh.deepcopy lab.2
          let ss := sam.2.alloc (sam.2.cell S.1)
          let os := ss.2.alloc (ss.2.cell U.1)
          .ok (⟨lab.1, sam.1, U.1, os.1, S.1, ss.1, phases.toList, kind, pm, eB, vols⟩, os.2)

/-- `transform` (polycrystal.py:404-433): the mesh is updated, orientation and strain are bound to new tensors. -/
noncomputable def transform (h : Heap) (p : PolyMem) (m : Motion) (time : ℝ) : PolyMem × Heap :=
  let R := rotMat m.axis (m.angle * time)
  let l := p.meshLab.update h m time
  let o := l.2.alloc (.mats ((l.2.cell p.orientationLab).ms.map fun U => R * U))
  let s := o.2.alloc (.mats ((o.2.cell p.strainLab).ms.map fun e => R * e * R.tr))
  ({ p with meshLab := l.1, orientationLab := o.1, strainLab := s.1 }, s.2)
end PolyMem
end XRD
