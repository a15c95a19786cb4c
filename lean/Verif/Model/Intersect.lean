import Verif.Model.Render

/-! Model of `/repo/xrd_simulator/beam.py`, part 3: `Beam._intersect` and `Beam._find_feasible_point`.

Parameters of the model: qhull (`ConvexHull`, `HalfspaceIntersection`) and the linear program solver.  Arithmetic is exact. -/

namespace XRD
open V3 M3
open scoped Classical

/-- Answer of a successful `linprog` (beam.py:275-286): the point `res.x` and `res.slack`. -/
structure LpAnswer where
  x : V3
  slack : List ℝ

/-- scipy, as used by `Beam._intersect`: `ConvexHull(points)` and `HalfspaceIntersection(halfspaces, point).intersections`
may raise `QhullError`, a `RuntimeError`; `linprog` with zero cost yields `none` if it does not succeed. -/
structure Scipy where
  convexHull : List V3 → Except PyErr Hull
  halfspaceIntersection : List HalfSpace → V3 → Except PyErr (List V3)
  linprog : List HalfSpace → Option LpAnswer

/-- `np.round(x, decimals=6)` (beam.py:168) -/
noncomputable def round6 (x : ℝ) : ℝ := (roundEven (x * 10 ^ 6) : ℝ) / 10 ^ 6

/-- one rounded facet equation (beam.py:168) -/
noncomputable def HalfSpace.round6 (h : HalfSpace) : HalfSpace := ⟨⟨XRD.round6 h.n.x, XRD.round6 h.n.y, XRD.round6 h.n.z⟩, XRD.round6 h.d⟩

/-- lexicographic order of the rows, as used by `np.unique(axis=0)` -/
def HalfSpace.lexLe (a b : HalfSpace) : Prop :=
  a.n.x < b.n.x ∨ (a.n.x = b.n.x ∧ (a.n.y < b.n.y ∨ (a.n.y = b.n.y ∧ (a.n.z < b.n.z ∨ (a.n.z = b.n.z ∧ a.d ≤ b.d)))))

/-- `np.unique(rows, axis=0)` (beam.py:168): sorted without repetitions -/
noncomputable def uniqueRows (l : List HalfSpace) : List HalfSpace :=
  l.dedup.mergeSort fun a b => decide (HalfSpace.lexLe a b)

/-- `np.linalg.solve` of a 3 × 3 system (beam.py:290-292); a singular matrix raises `LinAlgError`, a `ValueError` -/
noncomputable def solve3 (A : M3) (y : V3) : Except PyErr V3 :=
  if A.det = 0 then .error .valueError else .ok (A.inv.mulVec y)

/-- `A.T.dot(A)` (beam.py:291) -/
noncomputable def gram (rows : List HalfSpace) : M3 :=
  (rows.map fun h => (⟨h.n.x • h.n, h.n.y • h.n, h.n.z • h.n⟩ : M3)).foldr (· + ·) 0

/-- `A.T.dot(-np.ones(...) * 1e-5)` (beam.py:291) -/
noncomputable def gramRhs (rows : List HalfSpace) : V3 :=
  (rows.map fun h => (-1 * (1 / 10 ^ 5) : ℝ) • h.n).sum

/-- the rows whose slack is exactly zero (beam.py:288-289) -/
noncomputable def activeRows (hs : List HalfSpace) (slack : List ℝ) : List HalfSpace :=
  (hs.zip slack).filterMap fun p => if p.2 = 0 then some p.1 else none

/-- `Beam._find_feasible_point` (beam.py:258-302) -/
noncomputable def findFeasible (S : Scipy) (hs : List HalfSpace) : Except PyErr (Option V3) :=
  match S.linprog hs with
  | none => .ok none
  | some r =>
    let check := fun t : V3 => if ∀ h ∈ hs, h.n.dot t + h.d < -(1 / 10 ^ 8) then some t else none
    if ∃ s ∈ r.slack, s = 0 then
      match solve3 (gram (activeRows hs r.slack)) (gramRhs (activeRows hs r.slack)) with
      | .error e => .error e
      | .ok dx => .ok (check (r.x + dx))
    else .ok (check r.x)

/-- half-spaces of the polyhedron, rounded and made unique, above those of the beam (beam.py:167-169) -/
noncomputable def Beam.combined (b : Beam) (H : Hull) : List HalfSpace :=
  uniqueRows (H.equations.map HalfSpace.round6) ++ b.halfspaces

/-- The interior point of `_intersect` (beam.py:174-188) -/
noncomputable def Beam.interiorPoint (S : Scipy) (b : Beam) (H : Hull) (vs : List V3) : Except PyErr (Option V3) :=
  let c := meanV vs
  if b.contains c then .ok (some c)
  else match (vs.map fun v => c + (99 / 100 : ℝ) • (v - c)).find? fun t => decide (b.contains t) with
    | some t => .ok (some t)
    | none => findFeasible S (b.combined H)

/-- `Beam._intersect` (beam.py:141-196) -/
noncomputable def Beam.intersect (S : Scipy) (b : Beam) (vs : List V3) : Except PyErr (Option Hull) :=
  if ∀ v ∈ vs, b.contains v then
    match S.convexHull vs with
    | .error e => .error e
    | .ok H => .ok (some H)
  else match S.convexHull vs with
    | .error e => .error e
    | .ok H => match b.interiorPoint S H vs with
      | .error e => .error e
      | .ok none => .ok none
      | .ok (some p) => match S.halfspaceIntersection (b.combined H) p with
        | .error e => .error e
        | .ok pts => match S.convexHull pts with
          | .error e => .error e
          | .ok H' => .ok (some H')

end XRD
