import Verif.Model.Intersect

/-! Model of `/repo/xrd_simulator/beam.py`, part 4: how `set_beam_vertices` turns the vertices into half-spaces. -/

namespace XRD
open V3 M3

/-- `set_beam_vertices` (beam.py:95-109): the number of extreme points of `ConvexHull(vertices)` (beam.py:95-96), and the facet
equations of `ConvexHull(vertices, qhull_options="QJ")` rounded to six decimals, sorted, without repetitions (beam.py:102-109).
Simplification: `count` and `hull` are what scipy answers, in exact arithmetic; the joggling of the input that "QJ" allows qhull is
covered only in so far as `hull vs` may be any hull, not necessarily that of `vs`. -/
noncomputable def beamQhull (count : List V3 → ℕ) (hull : List V3 → Hull) : Qhull :=
  ⟨count, fun vs => uniqueRows ((hull vs).equations.map HalfSpace.round6)⟩

end XRD
