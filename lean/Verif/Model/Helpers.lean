import Verif.Model.Render

/-! Model of the deprecated single-ray helpers of `/repo/xrd_simulator/detector.py` (section 7 of that file) and of the
deprecated Bragg angle helpers of `/repo/xrd_simulator/laue.py`. -/

namespace XRD
open V3 M3 Fl
open Classical

/-- `torch.arcsin`: NaN outside `[-1,1]` -/
noncomputable def Fl.arcsin : Fl → Fl
  | fin a => if -1 ≤ a ∧ a ≤ 1 then fin (Real.arcsin a) else nan
  | _ => nan

/-- `_get_bragg_angle` for one vector (laue.py:165-185) -/
noncomputable def braggAngle (G : V3) (wavelength : ℝ) : Fl := Fl.arcsin (fin (G.norm * wavelength / (4 * Real.pi)))

/-- `_get_sin_theta_and_norm_G` for one vector (laue.py:188-212) -/
noncomputable def sinThetaAndNorm (G : V3) (wavelength : ℝ) : ℝ × ℝ := (G.norm * wavelength / (4 * Real.pi), G.norm)

namespace Detector

/-- `_ray_detector_intersection` (detector.py:1766-1803) -/
noncomputable def rayPoint (D : Detector) (origin direction : V3) : Option V3 :=
  let denom := direction.dot D.normal
  if |denom| < 1 / 10 ^ 10 then none
  else
    let t := (D.c0 - origin).dot D.normal / denom
    if t < 0 then none else some (origin + t • direction)

/-- `_world_to_pixel_coords` (detector.py:1805-1847) -/
noncomputable def worldToPixel (D : Detector) (p : V3) : Option (ℝ × ℝ) :=
  let z := (p - D.c0).dot D.zdhat / D.pz
  let y := (p - D.c0).dot D.ydhat / D.py
  if z < 0 ∨ (D.nz : ℝ) ≤ z ∨ y < 0 ∨ (D.ny : ℝ) ≤ y then none else some (z, y)

/-- the shape rule of `torch.matmul` for a matrix and a vector or two matrices -/
def matmulShape : List ℕ → List ℕ → Except PyErr (List ℕ)
  | [n, m], [k] => if m = k then .ok [n] else .error .runtimeError
  | [n, m], [k, l] => if m = k then .ok [n, l] else .error .runtimeError
  | _, _ => .error .runtimeError

/-- `_compute_pixel_path_length` (detector.py:1849-1902).  `qhull` is `scipy.spatial.ConvexHull` on the points of the hull,
`none` when it raises (detector.py:1875-1878).  The direction is given a leading axis of length one (detector.py:1889), and
`torch.matmul(plane_normals, line_direction)` (utils.py:194) is applied to shapes `(n_faces, 3)` and `(1, 3)`. -/
noncomputable def pixelPathLength (qhull : List V3 → Option (List HalfSpace)) (points : List V3) (p u : V3) : Except PyErr ℝ :=
  match qhull points with
  | none => .ok 0
  | some eqs => match matmulShape [eqs.length, 3] [1, 3] with
    | .error e => .error e
    | .ok _ => .ok (clipLength eqs p u)

end Detector
end XRD
