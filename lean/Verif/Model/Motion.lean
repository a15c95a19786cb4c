import Verif.Base.Vec
import Verif.Base.Fl

/-! Model of `/repo/xrd_simulator/motion.py`. -/

namespace XRD
open V3 M3

/-- `torch.allclose(a, b)` on scalars with default tolerances `rtol=1e-5, atol=1e-8`
(used in motion.py:285-287, beam.py:81). -/
def allclose (a b : ℝ) : Prop := |a - b| ≤ 1 / 10 ^ 8 + 1 / 10 ^ 5 * |b|

/-- Attributes of a `RigidBodyMotion` (motion.py:72-76).  `rotator` is determined by `axis` and is recomputed. -/
@[ext] structure Motion where
  axis : V3
  angle : ℝ
  translation : V3
  origin : V3

/-- `_RodriguezRotator.K` (motion.py:289-290). -/
def crossMat (r : V3) : M3 := ⟨⟨0, -r.z, r.y⟩, ⟨r.z, 0, -r.x⟩, ⟨-r.y, r.x, 0⟩⟩

/-- `_RodriguezRotator.K2` (motion.py:291). -/
def crossMat2 (r : V3) : M3 := crossMat r * crossMat r

/-- `_RodriguezRotator.get_rotation_matrix` for one angle (motion.py:304-341). -/
noncomputable def rotMat (axis : V3) (θ : ℝ) : M3 :=
  1 + Real.sin θ • crossMat axis + (1 - Real.cos θ) • crossMat2 axis

/-- `_RodriguezRotator.__init__` acceptance test (motion.py:285-287). -/
def axisAccepted (axis : V3) : Prop := allclose axis.norm 1

open Classical in
/-- `RigidBodyMotion.__init__` (motion.py:66-76). -/
noncomputable def Motion.new (axis : V3) (angle : ℝ) (translation : V3) (origin : V3 := 0) : Except PyErr Motion :=
  if angle < Real.pi ∧ angle > 0 then
    if axisAccepted axis then .ok ⟨axis, angle, translation, origin⟩ else .error .assertion
  else .error .assertion

namespace Motion

/-- The `time` argument after `ensure_torch`: 0-dimensional or 1-dimensional. -/
inductive Time where
  | scalar (t : ℝ)
  | vec (ts : List ℝ)

/-- `__call__` on a single point of shape `(3,)` with scalar time (motion.py:103-111). -/
noncomputable def call1 (m : Motion) (v : V3) (t : ℝ) : V3 :=
  let centered := v - m.origin
  let rotated := (rotMat m.axis (m.angle * t)).mulVec centered + m.origin
  rotated + t • m.translation

/-- `_RodriguezRotator.__call__` on an `(N,3)` array with a vector of angles (motion.py:372-375):
`torch.bmm` demands equal batch sizes. -/
noncomputable def rotatorBatch (axis : V3) (vs : List V3) (angles : List ℝ) : Except PyErr (List V3) :=
  if angles.length = vs.length then
    .ok (List.zipWith (fun θ v => (rotMat axis θ).mulVec v) angles vs)
  else .error .runtimeError

/-- `__call__` on an `(N,3)` array (motion.py:113-124).  For scalar time the same matrix acts on every row
(`torch.squeeze` at motion.py:371 only drops a length-one batch axis which the broadcast `+ origin` restores). -/
noncomputable def call2 (m : Motion) (vs : List V3) : Time → Except PyErr (List V3)
  | .scalar t =>
      .ok ((((vs.map (· - m.origin)).map (rotMat m.axis (m.angle * t)).mulVec).map (· + m.origin)).map
        (· + t • m.translation))
  | .vec ts => do
      let rot ← rotatorBatch m.axis (vs.map (· - m.origin)) (ts.map (m.angle * ·))
      .ok (List.zipWith (fun v t => v + t • m.translation) (rot.map (· + m.origin)) ts)

/-- `torch.tile(time, (M, 1)).T.reshape(-1)` (motion.py:134): `tile` has entry `[m, n] = time[n]`, its transpose has
shape `(N, M)` and is read row-major, so flat position `i` is entry `[i % M, i / M]` of the tiled array. -/
def tileTReshape (ts : List ℝ) (M : ℕ) : List ℝ :=
  let tiled : ℕ → ℕ → ℝ := fun _m n => ts.getD n 0
  (List.range (ts.length * M)).map fun i => tiled (i % M) (i / M)

/-- `x.reshape(N, M, 3)` of a flat list of points (motion.py:135), row-major. -/
def reshapeNM (flat : List V3) (N M : ℕ) : List (List V3) :=
  (List.range N).map fun n => (List.range M).map fun m => flat.getD (n * M + m) 0

/-- `__call__` on an `(N,M,3)` array with one time per first index (motion.py:126-141). -/
noncomputable def call3 (m : Motion) (vs : List (List V3)) (M : ℕ) (ts : List ℝ) : Except PyErr (List (List V3)) := do
  let centered := vs.map (·.map (· - m.origin))
  let flat ← rotatorBatch m.axis centered.flatten ((tileTReshape ts M).map (m.angle * ·))
  let rot := (reshapeNM flat vs.length M).map (·.map (· + m.origin))
  .ok (List.zipWith (fun row t => row.map (· + t • m.translation)) rot ts)

/-- `rotate` on one vector (motion.py:143-168). -/
noncomputable def rotate1 (m : Motion) (v : V3) (t : ℝ) : V3 := (rotMat m.axis (m.angle * t)).mulVec v

/-- `rotate` on an `(N,3)` array with per-row times (motion.py:143-168, used at polycrystal.py:349). -/
noncomputable def rotateBatch (m : Motion) (vs : List V3) (ts : List ℝ) : Except PyErr (List V3) :=
  rotatorBatch m.axis vs (ts.map (m.angle * ·))

/-- `inverse` (motion.py:201-217); the constructor call re-runs the assertions. -/
noncomputable def inverse (m : Motion) : Except PyErr Motion :=
  Motion.new (-m.axis) m.angle (-m.translation) m.origin

end Motion
end XRD

namespace XRD
/-- A one- or two-dimensional tensor, entries in row-major order. -/
inductive Tens where
  | d1 (v : List ℝ)
  | d2 (rows : List (List ℝ))

/-- `RigidBodyMotion.translate` (motion.py:170-199).  For more than one dimension the translation has shape `(3,1)`
(motion.py:195) and broadcasting against `(R,C)` needs `R = 3` or `R = 1`; for one dimension `(3,)` against `(n,)`
needs `n = 3` or `n = 1`. -/
noncomputable def Motion.translate (m : Motion) (vectors : Tens) (time : ℝ) : Except PyErr Tens :=
  open Classical in
  if time ≤ 1 ∧ time ≥ 0 then
    let T := [m.translation.x * time, m.translation.y * time, m.translation.z * time]
    match vectors with
    | .d2 rows =>
        if rows.length = 3 then .ok (.d2 (List.zipWith (fun row ti => row.map (· + ti)) rows T))
        else if rows.length = 1 then .ok (.d2 (T.map fun ti => (rows.headD []).map (· + ti)))
        else .error .runtimeError
    | .d1 v =>
        if v.length = 3 then .ok (.d1 (List.zipWith (· + ·) v T))
        else if v.length = 1 then .ok (.d1 (T.map fun ti => v.headD 0 + ti))
        else .error .runtimeError
  else .error .assertion
end XRD
