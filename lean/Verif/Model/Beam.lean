import Verif.Model.Motion

/-! Model of `/repo/xrd_simulator/beam.py`, part 1: construction and containment. -/

namespace XRD
open V3 M3
open Classical

/-- One half-space equation `n·x + d <= 0` (a row of `Beam.halfspaces`, beam.py:61-64). -/
structure HalfSpace where
  n : V3
  d : ℝ

/-- Qhull, as used by the beam: the number of extreme points among the given points (beam.py:95-98) and the rounded,
deduplicated facet equations (beam.py:102-109).  Parameters of the model. -/
structure Qhull where
  extremeCount : List V3 → ℕ
  equations : List V3 → List HalfSpace

/-- Attributes of a `Beam`. -/
structure Beam where
  waveVector : V3
  wavelength : ℝ
  vertices : List V3
  centroid : V3
  halfspaces : List HalfSpace
  polarization : V3

/-- mean of a list of points (`torch.mean(x, axis=0)`) -/
noncomputable def meanV (l : List V3) : V3 := (1 / (l.length : ℝ)) • l.sum

/-- `Beam.__init__` with `set_beam_vertices` (beam.py:67-109).  A zero direction or polarization gives NaN components
and the final `allclose` assertion fails on NaN, hence `assertion`; `wavelength = 0` is a Python division by zero. -/
noncomputable def Beam.new (q : Qhull) (vertices : List V3) (direction : V3) (wavelength : ℝ) (pol : V3) :
    Except PyErr Beam :=
  if wavelength = 0 then .error .zeroDivision
  else
    if q.extremeCount vertices ≠ vertices.length then .error .assertion
    else
      let wave := (2 * Real.pi / wavelength) • ((1 / direction.norm) • direction)
      let p := (1 / pol.norm) • pol
      if direction = 0 ∨ pol = 0 then .error .assertion
      else if allclose (dot p wave) 0 then
        .ok ⟨wave, wavelength, vertices, meanV vertices, q.equations vertices, p⟩
      else .error .assertion

/-- `Beam._contains` for one point (beam.py:111-139): strictly inside every half-space. -/
def Beam.contains (b : Beam) (p : V3) : Prop := ∀ h ∈ b.halfspaces, h.n.dot p + h.d < 0

end XRD
