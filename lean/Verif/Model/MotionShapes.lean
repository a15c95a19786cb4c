import Verif.Model.Motion

/-! Model of `/repo/xrd_simulator/motion.py`: `__call__` and `rotate` on arrays of any one- or two-dimensional shape, with torch's
broadcasting, `matmul`, `bmm` and `squeeze`. -/

namespace XRD
open V3 M3

/-- A tensor of shape `(n,)` or `(N, C)`.  The number of columns is kept because there may be no row. -/
inductive Arr where
  | d1 (v : List ℝ)
  | d2 (C : ℕ) (rows : List (List ℝ))

/-- the rows of an array broadcast against an `(N,3)` array (a one-dimensional one has one row) -/
def Arr.rowList : Arr → List (List ℝ)
  | .d1 v => [v]
  | .d2 _ rows => rows

/-- a row of three numbers as a vector -/
def rowV (r : List ℝ) : V3 := ⟨r.getD 0 0, r.getD 1 0, r.getD 2 0⟩

/-- a vector as a row -/
def vRow (v : V3) : List ℝ := [v.x, v.y, v.z]

/-- A row of length `n` broadcast against length three: itself if `n = 3`, three copies if `n = 1`. -/
def broadRow (r : List ℝ) : List ℝ := if r.length = 1 then List.replicate 3 (r.getD 0 0) else r

/-- `vectors - origin` for a row (motion.py:106, 116): the origin has shape `(3,)` or `(1,3)`. -/
def subOrigin (o : V3) (r : List ℝ) : List ℝ := vRow (rowV (broadRow r) - o)

/-- `_RodriguezRotator.__call__` (motion.py:343-375) with a 0-dimensional angle: `matmul` of a `(3,3)` matrix with `(N,C,1)` needs `C = 3`;
`squeeze` (motion.py:371) also drops the first axis if `N = 1`. -/
noncomputable def rotatorScalar (axis : V3) (C : ℕ) (rows : List (List ℝ)) (θ : ℝ) : Except PyErr Arr :=
  if C = 3 then
    let out := rows.map fun r => vRow ((rotMat axis θ).mulVec (rowV r))
    match out with
    | [r] => .ok (.d1 r)
    | _ => .ok (.d2 3 out)
  else .error .runtimeError

/-- `_RodriguezRotator.__call__` (motion.py:343-375) with a vector of angles: `bmm` of `(n,3,3)` with `(N,C,1)` needs `n = N` and `C = 3`;
`squeeze(-1)` drops the last axis only. -/
noncomputable def rotatorVec (axis : V3) (C : ℕ) (rows : List (List ℝ)) (θs : List ℝ) : Except PyErr Arr :=
  if θs.length = rows.length ∧ C = 3 then
    .ok (.d2 3 (List.zipWith (fun θ r => vRow ((rotMat axis θ).mulVec (rowV r))) θs rows))
  else .error .runtimeError

namespace Motion

/-- the rotator on an array with the `time` argument of the motion (motion.py:107, 117, 167, 362-375); a one-dimensional array becomes one
row (motion.py:365-366). -/
noncomputable def rotator (m : Motion) (a : Arr) (time : Time) : Except PyErr Arr :=
  let CR : ℕ × List (List ℝ) := match a with | .d1 v => (v.length, [v]) | .d2 C rows => (C, rows)
  match time with
  | .scalar t => rotatorScalar m.axis CR.1 CR.2 (m.angle * t)
  | .vec ts => rotatorVec m.axis CR.1 CR.2 (ts.map (m.angle * ·))

/-- `rotate` (motion.py:143-168) -/
noncomputable def rotateArr (m : Motion) (a : Arr) (time : Time) : Except PyErr Arr := m.rotator a time

/-- `+ origin` and `+ translation * time` (motion.py:110-111, 120-124) for one row -/
noncomputable def finishRow (m : Motion) (r : List ℝ) (t : ℝ) : List ℝ := vRow (rowV r + m.origin + t • m.translation)

/-- `__call__` on arrays of one or two dimensions (motion.py:78-124).  One dimension: `vectors - origin` needs length 3 or 1; the result of
the rotator is `(3,)` or `(1,3)` and the final `squeeze` (motion.py:111) makes it `(3,)`.  Two dimensions: `vectors - origin` needs 3 or 1
columns; adding the `(1,3)` origin restores the first axis that `squeeze` dropped for one row.  A vector of times has as many entries as
there are rows, or the rotator has failed. -/
noncomputable def callArr (m : Motion) (a : Arr) (time : Time) : Except PyErr Arr :=
  match a with
  | .d1 v =>
    if v.length = 3 ∨ v.length = 1 then
      match m.rotator (.d1 (subOrigin m.origin v)) time with
      | .error e => .error e
      | .ok rot =>
        let t := match time with | .scalar t => t | .vec ts => ts.headD 0
        .ok (.d1 (m.finishRow (rot.rowList.headD []) t))
    else .error .runtimeError
  | .d2 C rows =>
    if C = 3 ∨ C = 1 then
      match m.rotator (.d2 3 (rows.map (subOrigin m.origin))) time with
      | .error e => .error e
      | .ok rot =>
        match time with
        | .scalar t => .ok (.d2 3 (rot.rowList.map fun r => m.finishRow r t))
        | .vec ts => .ok (.d2 3 (List.zipWith m.finishRow rot.rowList ts))
    else .error .runtimeError

end Motion
end XRD
