import Verif.Model.Beam

/-! Model of `/repo/xrd_simulator/mesh.py` and of the tetrahedron helpers of `/repo/xrd_simulator/utils.py`. -/

namespace XRD
open V3 M3
open Classical

/-- Four entries, one per vertex or face of a tetrahedron (an axis of length 4). -/
@[ext] structure Q4 (α : Type) where
  a : α
  b : α
  c : α
  d : α

namespace Q4
/-- entrywise map -/
def map {α β : Type} (f : α → β) (q : Q4 α) : Q4 β := ⟨f q.a, f q.b, f q.c, f q.d⟩
/-- entry with index `i` (indices come from the fixed tables of the code, all below 4) -/
def get {α : Type} (q : Q4 α) : ℕ → α
  | 0 => q.a | 1 => q.b | 2 => q.c | _ => q.d
/-- entries in order -/
def toList {α : Type} (q : Q4 α) : List α := [q.a, q.b, q.c, q.d]
end Q4

/-- A tetrahedron given by its four vertices, a slice of `coord[enod]`. -/
abbrev Tet := Q4 V3

/-- mean of three points -/
noncomputable def mean3 (p q r : V3) : V3 := (1 / 3 : ℝ) • (p + q + r)
/-- mean of the four entries (`torch.mean(..., dim=1)`) -/
noncomputable def mean4 (q : Q4 V3) : V3 := (1 / 4 : ℝ) • (q.a + q.b + q.c + q.d)

/-- The vertex triples of the faces in the order of the table in `_compute_mesh_faces` (mesh.py:385-387). -/
def facesOf {α : Type} (q : Q4 α) : Q4 (α × α × α) :=
  ⟨(q.a, q.b, q.c), (q.a, q.b, q.d), (q.a, q.c, q.d), (q.b, q.c, q.d)⟩

/-- outward unit normal of one face, given the centre of the element (mesh.py:408-418).  For a degenerate face the code
produces NaN and this model 0. -/
noncomputable def faceNormal (centroid : V3) (f : V3 × V3 × V3) : V3 :=
  let n := cross (f.2.1 - f.1) (f.2.2 - f.1)
  let toFace := mean3 f.1 f.2.1 f.2.2 - centroid
  let s : ℝ := if toFace.dot n ≥ 0 then 1 else -1
  s • ((1 / n.norm) • n)

/-- `_compute_mesh_normals` for one element (mesh.py:407-419): the element centre is the mean of the face centres. -/
noncomputable def normalsOf (t : Tet) : Q4 V3 :=
  let faces := facesOf t
  let centres := faces.map fun f => mean3 f.1 f.2.1 f.2.2
  faces.map (faceNormal (mean4 centres))

/-- `_compute_mesh_volumes` for one element (mesh.py:454-459): signed. -/
noncomputable def signedVolume (t : Tet) : ℝ := (1 / 6) * (cross (t.b - t.a) (t.c - t.a)).dot (t.d - t.a)

/-- `_compute_tetrahedra_volumes` for one element (utils.py:797-806): the difference vectors are the columns. -/
noncomputable def tetVolume (t : Tet) : ℝ := |(M3.tr ⟨t.b - t.a, t.c - t.a, t.d - t.a⟩).det| / 6

/-- the factor `1.0001` of utils.py:449, 487, 538 -/
noncomputable def slack : ℝ := 10001 / 10000

/-- `_circumsphere_of_segments` (utils.py:447-449): centre and inflated radius. -/
noncomputable def sphere2 (p q : V3) : V3 × ℝ :=
  let c := (1 / 2 : ℝ) • (p + q)
  (c, norm (c - p) * slack)

/-- `_circumsphere_of_triangles` (utils.py:469-487). -/
noncomputable def sphere3 (p q r : V3) : V3 × ℝ :=
  let ab := q - p
  let ac := r - p
  let n := cross ab ac
  let n' := cross ac ab
  let u := (1 / (2 * n.norm ^ 2)) • ((ac.norm ^ 2) • cross n ab + (ab.norm ^ 2) • cross n' ac)
  (p + u, u.norm * slack)

/-- `_circumsphere_of_tetrahedrons` (utils.py:508-538). -/
noncomputable def sphere4 (t : Tet) : V3 × ℝ :=
  let A : M3 := ⟨t.b - t.a, t.c - t.a, t.d - t.a⟩
  let B : V3 := (1 / 2 : ℝ) • ⟨t.b.norm ^ 2 - t.a.norm ^ 2, t.c.norm ^ 2 - t.a.norm ^ 2, t.d.norm ^ 2 - t.a.norm ^ 2⟩
  let c := A.inv.mulVec B
  (c, norm (t.a - c) * slack)

/-- `_compute_sides` for one element (utils.py:409-425): distances 01, 02, 03, 12, 13, 23. -/
noncomputable def sidesOf (t : Tet) : List ℝ :=
  [V3.dist t.b t.a, V3.dist t.c t.a, V3.dist t.d t.a, V3.dist t.c t.b, V3.dist t.d t.b, V3.dist t.d t.c]

/-- `torch.argmax`: index of the (first) largest entry. -/
noncomputable def argmax (l : List ℝ) : ℕ :=
  (List.range l.length).foldl (fun best i => if l.getD best 0 < l.getD i 0 then i else best) 0

/-- the table `pairs` (mesh.py:492-496) -/
def pairTable : List (ℕ × ℕ) := [(0, 1), (0, 2), (0, 3), (1, 2), (1, 3), (2, 3)]

/-- `_compute_mesh_spheres` for one element (mesh.py:486-562): centre and radius.  Precondition of the model: a
non-degenerate element (otherwise NaN and a singular matrix appear in the code). -/
noncomputable def sphereOf (t : Tet) : V3 × ℝ :=
  let ij := pairTable.getD (argmax (sidesOf t)) (0, 1)
  let others := [0, 1, 2, 3].filter fun k => k ≠ ij.1 ∧ k ≠ ij.2
  let o1 := t.get (others.getD 0 0)
  let o2 := t.get (others.getD 1 0)
  let s1 := sphere2 (t.get ij.1) (t.get ij.2)
  let d1 := norm (o1 - s1.1)
  let d2 := norm (o2 - s1.1)
  let third := if argmax [d1, d2] = 0 then o1 else o2
  let s2 := sphere3 (t.get ij.1) (t.get ij.2) third
  let s3 := sphere4 t
  if d1 - s1.2 ≤ 0 ∧ d2 - s1.2 ≤ 0 then s1
  else if norm (t.a - s2.1) - s2.2 ≤ 0 ∧ norm (t.b - s2.1) - s2.2 ≤ 0 ∧ norm (t.c - s2.1) - s2.2 ≤ 0 ∧
      norm (t.d - s2.1) - s2.2 ≤ 0 then s2
  else s3

/-- Attributes of a `TetraMesh` (mesh.py:71-83); `points` is `_mesh.points`.  `dof` and `efaces` are never changed after
construction and are determined by `coord` and `enod`. -/
@[ext] structure TetraMesh where
  points : List V3
  coord : List V3
  enod : List (Q4 ℕ)
  enormals : List (Q4 V3)
  ecentroids : List V3
  eradius : List ℝ
  espherecentroids : List V3
  evolumes : List ℝ
  centroid : V3

/-- `coord[enod]` (mesh.py:407, 436, 454, 489) -/
def elements (coord : List V3) (enod : List (Q4 ℕ)) : List Tet := enod.map fun e => e.map fun i => coord.getD i 0

/-- all derived quantities (`_build_tetramesh`, `_expand_mesh_data`, mesh.py:320-360, 583-612) -/
noncomputable def TetraMesh.ofData (coord : List V3) (enod : List (Q4 ℕ)) : TetraMesh :=
  let ts := elements coord enod
  { points := coord, coord := coord, enod := enod
    enormals := ts.map normalsOf
    ecentroids := ts.map mean4
    eradius := ts.map fun t => (sphereOf t).2
    espherecentroids := ts.map fun t => (sphereOf t).1
    evolumes := ts.map signedVolume
    centroid := meanV (ts.map mean4) }

/-- `generate_mesh_from_vertices` (mesh.py:85-106) and `load` (mesh.py:303-318) once meshio has delivered points and
cells.  An index outside the points is an `IndexError`.  Simplifications: negative indices, which torch would wrap around,
do not exist in the model; elements of zero volume, for which the code stores NaN or fails in `torch.linalg.inv`, are a
`RuntimeError`. -/
noncomputable def TetraMesh.new (coord : List V3) (enod : List (Q4 ℕ)) : Except PyErr TetraMesh :=
  if ∀ e ∈ enod, ∀ i ∈ e.toList, i < coord.length then
    if ∀ t ∈ elements coord enod, signedVolume t ≠ 0 then .ok (TetraMesh.ofData coord enod)
    else .error .runtimeError
  else .error .indexError

namespace TetraMesh

/-- `translate` (mesh.py:217-233): the coordinates are taken from `_mesh.points`. -/
def translate (m : TetraMesh) (v : V3) : TetraMesh :=
  let pts := m.points.map (· + v)
  { m with points := pts, coord := pts
           ecentroids := m.ecentroids.map (· + v)
           espherecentroids := m.espherecentroids.map (· + v)
           centroid := m.centroid + v }

/-- `update` (mesh.py:248-270).  The two reshapes of the normals keep the order, so the rotation acts on each normal; the
calls with scalar time are `Motion.call2 _ (.scalar t)`, written here per point. -/
noncomputable def update (m : TetraMesh) (b : Motion) (time : ℝ) : TetraMesh :=
  { m with coord := m.coord.map fun p => b.call1 p time
           enormals := m.enormals.map fun q => q.map fun n => b.rotate1 n time
           ecentroids := m.ecentroids.map fun p => b.call1 p time
           espherecentroids := m.espherecentroids.map fun p => b.call1 p time
           centroid := b.call1 m.centroid time }

/-- `rotate` (mesh.py:235-246). -/
noncomputable def rotate (m : TetraMesh) (axis : V3) (angle : ℝ) : Except PyErr TetraMesh :=
  match Motion.new axis angle 0 with
  | .error e => .error e
  | .ok b => .ok (m.update b 1)

end TetraMesh
end XRD
