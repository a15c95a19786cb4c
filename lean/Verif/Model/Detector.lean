import Verif.Model.Peaks

/-! Model of the geometry and peak preprocessing parts of `/repo/xrd_simulator/detector.py`. -/

namespace XRD
open V3 M3 Fl
open Classical

/-- A constructor argument that may be absent, one value for both axes, or a pair `(z, y)`. -/
inductive PixArg (α : Type) where
  | absent
  | both (v : α)
  | pair (z y : α)

/-- Attributes of a `Detector` (detector.py:138-178).  `maxRadius` is `_max_gaussian_kernel_radius`. -/
structure Detector where
  c0 : V3
  c1 : V3
  c2 : V3
  zmax : ℝ
  ymax : ℝ
  pz : ℝ
  py : ℝ
  zdhat : V3
  ydhat : V3
  normal : V3
  sigma : ℝ
  threshold : ℝ
  maxRadius : ℤ
  useLorentz : Bool
  usePolarization : Bool
  useStructureFactor : Bool

/-- Pixel sizes chosen from the two optional arguments (detector.py:145-163). -/
noncomputable def pixelSizes (zmax ymax : ℝ) : PixArg ℤ → PixArg ℝ → Except PyErr (ℝ × ℝ)
  | .absent, .absent => .error .valueError
  | .absent, .both p => .ok (p, p)
  | .absent, .pair z y => .ok (z, y)
  | .both n, .absent => .ok (zmax / n, ymax / n)
  | .pair nz ny, .absent => .ok (zmax / nz, ymax / ny)
  | _, _ => .error .valueError

/-- `Detector.__init__` (detector.py:124-178).  Simplifications: coinciding or collinear corners, for which the code stores
NaN axes, and `n_pixels` of zero, for which it builds an empty detector, are errors in the model; a step that is not
positive is the `RuntimeError` of `torch.arange` (detector.py:416-417). -/
noncomputable def Detector.new (c0 c1 c2 : V3) (nPixels : PixArg ℤ) (pixelSize : PixArg ℝ) (sigma threshold : ℝ)
    (maxRadius : ℤ) (useL useP useS : Bool) : Except PyErr Detector :=
  let zmax := (c2 - c0).norm
  let ymax := (c1 - c0).norm
  match pixelSizes zmax ymax nPixels pixelSize with
  | .error e => .error e
  | .ok (pz, py) =>
    let zdhat := (1 / zmax) • (c2 - c0)
    let ydhat := (1 / ymax) • (c1 - c0)
    let n := cross zdhat ydhat
    if n = 0 then .error .runtimeError
    else if pz ≤ 0 ∨ py ≤ 0 then .error .runtimeError
    else .ok ⟨c0, c1, c2, zmax, ymax, pz, py, zdhat, ydhat, (1 / n.norm) • n, sigma, threshold, maxRadius, useL, useP, useS⟩

namespace Detector

/-- `pixel_coordinates.shape[0]`: the length of `torch.arange(0, zmax, pixel_size_z)` (detector.py:416). -/
noncomputable def nz (D : Detector) : ℕ := ⌈D.zmax / D.pz⌉₊
/-- `pixel_coordinates.shape[1]` (detector.py:417). -/
noncomputable def ny (D : Detector) : ℕ := ⌈D.ymax / D.py⌉₊

/-- `pixel_coordinates[i, j]` (detector.py:418-429). -/
noncomputable def pixelCoordinate (D : Detector) (i j : ℕ) : V3 :=
  D.c0 + ((i : ℝ) * D.pz) • D.zdhat + ((j : ℝ) * D.py) • D.ydhat

/-- `contains` (detector.py:382-398). -/
def contains (D : Detector) (zd yd : Fl) : Prop :=
  Fl.Le (fin 0) zd ∧ Fl.Le zd (fin D.zmax) ∧ Fl.Le (fin 0) yd ∧ Fl.Le yd (fin D.ymax)

/-- one coordinate of `source_point + ray_direction * s`, NaN when `s < 0` (detector.py:457-458) -/
noncomputable def alongRay (src ray : ℝ) (s : Fl) : Fl :=
  if Fl.Lt s (fin 0) then nan else fin src + fin ray * s

/-- `matmul(p - c0, e)` (detector.py:459-460) -/
noncomputable def project (px py pz : Fl) (c0 e : V3) : Fl :=
  (px - fin c0.x) * fin e.x + (py - fin c0.y) * fin e.y + (pz - fin c0.z) * fin e.z

/-- `_get_intersection` for one ray (detector.py:453-468): `(zd, yd, incident angle in degrees)`. -/
noncomputable def intersect (D : Detector) (ray src : V3) : Fl × Fl × Fl :=
  let s : Fl := fin ((D.c0 - src).dot D.normal) / fin (ray.dot D.normal)
  let ix := alongRay src.x ray.x s
  let iy := alongRay src.y ray.y s
  let iz := alongRay src.z ray.z s
  let nn : Fl := fin D.normal.norm
  let rn : Fl := fin ray.norm
  let c : Fl := (fin ray.x / rn) * (-(fin D.normal.x / nn)) + (fin ray.y / rn) * (-(fin D.normal.y / nn))
    + (fin ray.z / rn) * (-(fin D.normal.z / nn))
  (project ix iy iz D.c0 D.zdhat, project ix iy iz D.c0 D.ydhat, Fl.arccos c * fin (180 / Real.pi))

/-- opening angle of one corner seen from `src` (detector.py:501-507) -/
noncomputable def cornerAngle (k src c : V3) : Fl :=
  let g := c - src
  let n : Fl := fin g.norm
  let kh := (1 / k.norm) • k
  Fl.arccos ((fin g.x / n) * fin kh.x + (fin g.y / n) * fin kh.y + (fin g.z / n) * fin kh.z)

/-- `torch.max` of two entries: NaN wins -/
noncomputable def flMax (a b : Fl) : Fl :=
  match a, b with
  | nan, _ => nan
  | _, nan => nan
  | a, b => if Fl.Lt a b then b else a

/-- `_get_wrapping_cone` (detector.py:470-508), for a nonzero wave vector. -/
noncomputable def wrappingCone (D : Detector) (k src : V3) : Fl :=
  let c3 := D.c2 + (D.c1 - D.c0)
  (flMax (flMax (flMax (cornerAngle k src D.c0) (cornerAngle k src D.c1)) (cornerAngle k src D.c2)) (cornerAngle k src c3)) / fin 2

/-- Python `int(x)` on a float: truncation towards zero. -/
noncomputable def pyInt (x : ℝ) : ℤ := if 0 ≤ x then ⌊x⌋ else ⌈x⌉

/-- `_detector_coordinate_to_pixel_index` (detector.py:510-529). -/
noncomputable def pixelIndex (D : Detector) (zd yd : ℝ) : ℤ × ℤ := (pyInt (zd / D.pz), pyInt (yd / D.py))

/-- the finite entries of a list (model of `x[~isnan(x)]`; infinities do not occur for finite scattering directions
that are not parallel to the detector plane) -/
def finites : List Fl → List ℝ
  | [] => []
  | fin r :: l => r :: finites l
  | _ :: l => finites l

/-- minimum of a nonempty list -/
noncomputable def minL (a : ℝ) (l : List ℝ) : ℝ := l.foldl min a
/-- maximum of a nonempty list -/
noncomputable def maxL (a : ℝ) (l : List ℝ) : ℝ := l.foldl max a

/-- `_get_projected_bounding_box` (detector.py:531-593) for the vertices of a hull and a scattering direction:
`(min_row, max_row, min_col, max_col)`. -/
noncomputable def boundingBox (D : Detector) (vertices : List V3) (k : V3) : Option (ℤ × ℤ × ℤ × ℤ) :=
  let proj := vertices.map fun v => D.intersect k v
  match finites (proj.map (·.1)), finites (proj.map (·.2.1)) with
  | z :: zs, y :: ys =>
    let minz := max (minL z zs) 0
    let maxz := min (maxL z zs) D.zmax
    let miny := max (minL y ys) 0
    let maxy := min (maxL y ys) D.ymax
    if minz > maxz ∨ miny > maxy then none
    else
      let lo := D.pixelIndex minz miny
      let hi := D.pixelIndex maxz maxy
      some (lo.1, min (hi.1 + 1) (pyInt (D.zmax / D.pz)), lo.2, min (hi.2 + 1) (pyInt (D.ymax / D.py)))
  | _, _ => none

end Detector

/-- `torch.linspace(0, 1, n + 1)` has entries `i / n`; `torch.bucketize(t, bins)` counts the entries below `t`;
then minus one and clamped to `[0, n-1]`; all zero for `frames_to_render <= 1` (detector.py:684-692). -/
noncomputable def frameOf (n : ℤ) (t : ℝ) : ℤ :=
  if n ≤ 1 then 0
  else
    let bins := (List.range (n.toNat + 1)).map fun i : ℕ => (i : ℝ) / (n : ℝ)
    let idx : ℤ := (bins.filter fun b => b < t).length
    max 0 (min (idx - 1) (n - 1))

/-- three columns read as a finite vector -/
def vecAt (row : List Fl) (i : ℕ) : Option V3 :=
  match row[i]?, row[i + 1]?, row[i + 2]? with
  | some (fin x), some (fin y), some (fin z) => some ⟨x, y, z⟩
  | _, _, _ => none

namespace Detector

/-- intersection columns of one peak row (detector.py:673): direction `[:, 13:16]`, source `[:, 16:19]`.  A row with a
non-finite direction or source, which `diffract` never produces, gets NaN. -/
noncomputable def rowIntersect (D : Detector) (row : List Fl) : List Fl :=
  match vecAt row 13, vecAt row 16 with
  | some k, some s => let h := D.intersect k s; [h.1, h.2.1, h.2.2]
  | _, _ => [nan, nan, nan]

/-- `frame` entry of a row (detector.py:681-692) -/
noncomputable def rowFrame (n : ℤ) (row : List Fl) : Fl :=
  match row.getD 6 nan with
  | fin t => fin (frameOf n t)
  | ninf => fin 0
  | _ => fin (if n ≤ 1 then (0 : ℤ) else n - 1)

/-- `intensity_factors` of a row (detector.py:699-705) -/
noncomputable def rowIntensity (D : Detector) (row : List Fl) : Fl :=
  let i0 := fin 1
  let i1 := if D.useStructureFactor then i0 * row.getD 5 nan else i0
  let i2 := if D.usePolarization then i1 * row.getD 20 nan else i1
  if D.useLorentz then i2 * row.getD 19 nan else i2

/-- `peaks_detector_intersection` (detector.py:599-754); its warning is `Detector.skipWarning` in `Model/Warn.lean`. -/
noncomputable def peaksIntersection (D : Detector) (d : PeaksDict) (n : ℤ) : PeaksDict :=
  let rows := d.peaks.map fun row => row ++ D.rowIntersect row
  let rows := rows.filter fun row => D.contains (row.getD 25 nan) (row.getD 26 nan)
  let rows := rows.map fun row => row ++ [rowFrame n row]
  let rows := rows.map fun row => row ++ [D.rowIntensity row]
  let rows := rows.filter fun row => Fl.IsFinite (row.getD 29 nan) ∧ Fl.Lt (fin 0) (row.getD 29 nan)
  { d with peaks := rows, columns := d.columns ++ ["zd", "yd", "incident_angle", "frame", "intensity_factors"] }

end Detector
end XRD
