import Verif.Model.Intersect

/-! Model of `_sample_convex_hull_3d` of `/repo/xrd_simulator/utils.py`.  The random generator is a parameter: the indices returned by
`rng.choice` and the values returned by `rng.exponential`. -/

namespace XRD
open V3 M3
open scoped Classical

/-- the tetrahedra spanned by the mean point and the facets (utils.py:142-147) -/
noncomputable def hullTets (points : List V3) (simplices : List (ℕ × ℕ × ℕ)) : List (V3 × V3 × V3 × V3) :=
  simplices.map fun t => (meanV points, points.getD t.1 0, points.getD t.2.1 0, points.getD t.2.2 0)

/-- their volumes (utils.py:148-154) -/
noncomputable def hullVols (points : List V3) (simplices : List (ℕ × ℕ × ℕ)) : List ℝ :=
  (hullTets points simplices).map fun t => |dot (t.2.1 - t.1) (cross (t.2.2.1 - t.1) (t.2.2.2 - t.1))| / 6

/-- the probabilities given to `rng.choice` (utils.py:157) -/
noncomputable def hullProbs (points : List V3) (simplices : List (ℕ × ℕ × ℕ)) : List ℝ :=
  (hullVols points simplices).map fun v => v / (hullVols points simplices).sum

/-- `_sample_convex_hull_3d` (utils.py:127-165): `idx` is the result of `rng.choice`, `w` that of `rng.exponential` -/
noncomputable def sampleHull (points : List V3) (simplices : List (ℕ × ℕ × ℕ)) (idx : List ℕ) (w : List (ℝ × ℝ × ℝ × ℝ)) : List V3 :=
  (idx.zip w).map fun p =>
    let t := (hullTets points simplices).getD p.1 (0, 0, 0, 0)
    let total := p.2.1 + p.2.2.1 + p.2.2.2.1 + p.2.2.2.2
    (p.2.1 / total) • t.1 + (p.2.2.1 / total) • t.2.1 + (p.2.2.2.1 / total) • t.2.2.1 + (p.2.2.2.2 / total) • t.2.2.2

end XRD
