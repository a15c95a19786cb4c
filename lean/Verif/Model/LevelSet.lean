import Verif.Model.Mesh
import Verif.Model.Detector

/-! Model of `TetraMesh.generate_mesh_from_levelset` (mesh.py:108-215).  Marching cubes (skimage) and the tetrahedral mesher (meshpy) are
parameters. -/

namespace XRD
open V3
open Classical

/-- values on the grid: `volume[i, j, k]` -/
abbrev Volume := ℕ → ℕ → ℕ → ℝ

/-- `skimage.measure.marching_cubes(volume, level=0.0, spacing=..)`: vertices and triangles, or the exception raised.  Arguments: the number
of grid points per axis, the values, the spacing. -/
abbrev MarchingCubes := ℕ → Volume → V3 → Except PyErr (List V3 × List (ℕ × ℕ × ℕ))

/-- `meshpy.tet.build(mesh_info, max_volume=..)`: points and tetrahedra, or the exception raised.  Arguments: the surface and the volume. -/
abbrev TetBuild := List V3 → List (ℕ × ℕ × ℕ) → ℝ → Except PyErr (List V3 × List (Q4 ℕ))

/-- number of grid points per axis (mesh.py:144) -/
noncomputable def gridCount (R r : ℝ) : ℕ := (max (Detector.pyInt (2 * R / (r * (1 / 2)))) 20).toNat

/-- `np.linspace(-R, R, n)[i]` (mesh.py:145-147) -/
noncomputable def gridAxis (R : ℝ) (n i : ℕ) : ℝ := -R + i * (2 * R / ((n : ℝ) - 1))

/-- the point of the grid with indices `i j k` (mesh.py:148-151, `indexing='ij'`) -/
noncomputable def gridPoint (R : ℝ) (n i j k : ℕ) : V3 := ⟨gridAxis R n i, gridAxis R n j, gridAxis R n k⟩

/-- `volume` (mesh.py:152-153) -/
noncomputable def sampleVolume (f : V3 → ℝ) (R : ℝ) (n : ℕ) : Volume := fun i j k => f (gridPoint R n i j k)

/-- extraction of the surface (mesh.py:155-180): `ValueError` and `RuntimeError` become `ValueError`; the vertices are moved to world
coordinates -/
noncomputable def surfaceOf (mc : MarchingCubes) (f : V3 → ℝ) (R : ℝ) (n : ℕ) : Except PyErr (List V3 × List (ℕ × ℕ × ℕ)) :=
  let h := gridAxis R n 1 - gridAxis R n 0
  match mc n (sampleVolume f R n) ⟨h, h, h⟩ with
  | .error .valueError => .error .valueError
  | .error .runtimeError => .error .valueError
  | .error e => .error e
  | .ok (verts, faces) =>
    if verts.length = 0 ∨ faces.length = 0 then .error .valueError
    else .ok (verts.map (· + gridPoint R n 0 0 0), faces)

/-- `generate_mesh_from_levelset` (mesh.py:108-215).  Simplification: `max_cell_circumradius == 0` is a `ZeroDivisionError` (for numpy
numbers it would be an `OverflowError` of `int(inf)`). -/
noncomputable def meshFromLevelset (mc : MarchingCubes) (build : TetBuild) (f : V3 → ℝ) (R r : ℝ) : Except PyErr TetraMesh :=
  if r = 0 then .error .zeroDivision
  else
    match surfaceOf mc f R (gridCount R r) with
    | .error e => .error e
    | .ok (verts, faces) =>
      match build verts faces (r ^ 3 / 6) with
      | .error _ => .error .valueError
      | .ok (points, elements) =>
        if points.length = 0 ∨ elements.length = 0 then .error .valueError
        else TetraMesh.new points elements

end XRD
