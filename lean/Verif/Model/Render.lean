import Verif.Model.Image
import Verif.Model.Mesh

/-! Model of the rendering methods of `/repo/xrd_simulator/detector.py`. -/

namespace XRD
open V3 M3 Fl
open Classical

/-- column `j` of a peak row as a real number.  Precondition of the model: the columns read by a renderer are finite; the
intersection guarantees this for `zd`, `yd`, `frame` and `intensity_factors`. -/
def rcol (row : List Fl) (j : ℕ) : ℝ :=
  match row[j]? with
  | some (fin x) => x
  | _ => 0

/-- what the renderers use of a `scipy.spatial.ConvexHull` -/
structure Hull where
  points : List V3
  equations : List HalfSpace
  volume : ℝ

/-- External inputs of a rendering: the Bessel function `scipy.special.j1`, `torch.argsort(descending=True)`, the reported free
memory (utils.py:731-769), `Beam._intersect` (beam.py:141-193, qhull) and `_sample_convex_hull_3d` (utils.py:127-165, random). -/
structure RenderEnv where
  j1 : ℝ → ℝ
  argsortDesc : List ℝ → List ℕ
  freeGb : ℝ
  hull : Beam → List V3 → Option Hull
  sample : Hull → ℕ → List V3

namespace Detector

/-! ### micro -/

/-- `sigma` (detector.py:862): `(0.7**2 + gaussian_sigma**2) ** 0.5` -/
noncomputable def microSigma (D : Detector) : ℝ := Real.sqrt ((7 / 10) ^ 2 + D.sigma ^ 2)
/-- `radius` (detector.py:863) -/
noncomputable def microRadius (D : Detector) : ℕ := max 3 (⌊3 * D.microSigma⌋₊ + 1)
/-- the flattened offset grid (detector.py:866-873) -/
def window (r : ℕ) : List (ℤ × ℤ) :=
  (List.range (2 * r + 1)).flatMap fun a : ℕ => (List.range (2 * r + 1)).map fun b : ℕ => ((a : ℤ) - r, (b : ℤ) - r)

/-- unnormalised weight of offset `o` for a peak at pixel position `(pz, py)` (detector.py:903-917) -/
noncomputable def microW (D : Detector) (pz py : ℝ) (o : ℤ × ℤ) : ℝ :=
  Real.exp (-((((roundEven pz + o.1 : ℤ) : ℝ) - pz) ^ 2 + (((roundEven py + o.2 : ℤ) : ℝ) - py) ^ 2) / (2 * D.microSigma ^ 2))

/-- the deposits of one peak (detector.py:840-939) -/
noncomputable def microDeposits (D : Detector) (row : List Fl) : List Deposit :=
  let pz := rcol row 25 / D.pz
  let py := rcol row 26 / D.py
  let total := ((window D.microRadius).map (D.microW pz py)).sum
  ((window D.microRadius).map fun o =>
    (⟨pyInt (rcol row 28), roundEven pz + o.1, roundEven py + o.2,
      D.microW pz py o / (total + 1 / 10 ^ 12) * (rcol row 29 * rcol row 21)⟩ : Deposit)).filter fun d =>
    0 ≤ d.z ∧ d.z < D.nz ∧ 0 ≤ d.y ∧ d.y < D.ny ∧ d.v > 1 / 10 ^ 6

/-- number of peaks per batch (detector.py:877-889) -/
noncomputable def microBatchSize (freeGb : ℝ) : ℕ :=
  let target := if freeGb > 0 then freeGb * (1 / 2) else 0
  let b := ⌊target / 500⌋₊
  if b > 0 then max 10000 (min b 200000) else 50000

/-- one batch (detector.py:903-939) -/
noncomputable def microBatch (D : Detector) (n : ℕ) (t : Stack) (rows : List (List Fl)) : Except PyErr Stack :=
  let ds := rows.flatMap D.microDeposits
  if ds = [] then .ok t else indexPut n D.nz D.ny t ds

/-- the loop over batches (detector.py:894-939) -/
noncomputable def microLoop (D : Detector) (n : ℕ) : Stack → List (List (List Fl)) → Except PyErr Stack
  | t, [] => .ok t
  | t, b :: bs => match D.microBatch n t b with
    | .error e => .error e
    | .ok t' => microLoop D n t' bs

/-- `_render_gauss_peaks` (detector.py:761-944) -/
noncomputable def renderMicro (D : Detector) (freeGb : ℝ) (peaks : List (List Fl)) (n : ℕ) : Except PyErr Stack :=
  D.microLoop n (fun _ _ _ => 0) (chunks (microBatchSize freeGb) peaks)

/-! ### nano -/

/-- `first_zero_pixels` of a peak (detector.py:1209-1220) -/
noncomputable def firstZero (D : Detector) (row : List Fl) : ℝ :=
  rcol row 23 * (D.c0.norm / Real.cos (rcol row 27 * Real.pi / 180)) / D.pz * (11861 / 10000)

/-- `memory_per_peak` (detector.py:976-996, 1089-1092) -/
noncomputable def airyMemory (D : Detector) (row : List Fl) : ℝ :=
  (2 * (⌈max (4 * D.firstZero row) (3 * D.sigma)⌉ : ℝ) + 1) ^ 2 * 8 * 4 * 3

/-- the loop that enlarges the sampling radius (detector.py:1234-1240) -/
noncomputable def airyRadiusLoop (D : Detector) : ℕ → ℝ → ℝ
  | 0, r => r
  | fuel + 1, r =>
    if r ≤ 128 then
      if gaussTail D.sigma r < D.threshold / 2 then r else airyRadiusLoop D fuel (r * 2)
    else r

/-- sampling radius of a batch (detector.py:1223-1246).  The radius starts at 8 or more and doubles, so the loop condition is
false after five doublings. -/
noncomputable def airyRadius (D : Detector) (zeros : List ℝ) : ℝ :=
  let r0 := max (4 * (match zeros with | [] => 0 | z :: zs => maxL z zs)) 8
  let r := airyRadiusLoop D 5 r0
  if r > 128 then 128 else r

/-- `airy_profile` (detector.py:1258-1301) -/
noncomputable def airyProfile (j1 : ℝ → ℝ) (sigma firstZero r : ℝ) : ℝ :=
  let x := if r = 0 then 1 / 10 ^ 10 else (38317 / 10000) * r / firstZero
  let airy := if |x| < 1 / 10 ^ 8 then 1 else (2 * j1 x / x) ^ 2
  if firstZero < sigma then airy * Real.exp (-(r ^ 2) / (2 * sigma ^ 2)) else airy

/-- `torch.arange(-radius, radius + 1)`: number of entries, and entry `i` (detector.py:1248) -/
noncomputable def axisLen (radius : ℝ) : ℕ := ⌈2 * radius + 1⌉₊
noncomputable def axisAt (radius : ℝ) (i : ℕ) : ℝ := -radius + i

/-- kernel of one peak before cropping (detector.py:1306-1317) -/
noncomputable def airyKernel (D : Detector) (j1 : ℝ → ℝ) (radius fz : ℝ) : Kernel :=
  if fz < 1 / 2 then D.gaussKernel.normalise
  else Kernel.normalise ⟨axisLen radius, fun i j =>
    airyProfile j1 D.sigma fz (Real.sqrt (axisAt radius i ^ 2 + axisAt radius j ^ 2))⟩

/-- `_airy_kernel_batch` (detector.py:1168-1345): crop every kernel, pad to the largest nominal size, concatenate; different
sizes cannot be concatenated. -/
noncomputable def airyKernels (D : Detector) (j1 : ℝ → ℝ) (zeros : List ℝ) : Except PyErr (List Kernel) :=
  let radius := D.airyRadius zeros
  let ks := zeros.map fun fz => D.airyKernel j1 radius fz
  let sized : List (Kernel × ℕ) := ks.map fun k => (k.crop D.threshold, 2 * cropSearch k D.threshold 1 (k.size / 2) + 1)
  let maxSize : ℕ := sized.foldl (fun m k => max m k.2) 0
  let padded : List Kernel := sized.map fun k : Kernel × ℕ => if k.1.size < maxSize then k.1.pad ((maxSize - k.1.size) / 2) else k.1
  if ∃ k ∈ padded, ∃ k' ∈ padded, k.size ≠ k'.size then .error .runtimeError else .ok padded

/-- the number of peaks of the next batch (detector.py:1121-1124) -/
noncomputable def nanoBatchSize (D : Detector) (available : ℝ) (rows : List (List Fl)) : ℕ :=
  max 1 ((List.range rows.length).filter fun i : ℕ => ((rows.take (i + 1)).map D.airyMemory).sum ≤ available).length

/-- the batches of the `while` loop (detector.py:1119-1161) -/
noncomputable def nanoBatches (D : Detector) (available : ℝ) : List (List Fl) → List (List (List Fl))
  | [] => []
  | r :: rs => (r :: rs).take (D.nanoBatchSize available (r :: rs)) ::
      nanoBatches D available ((r :: rs).drop (D.nanoBatchSize available (r :: rs)))
termination_by l => l.length
decreasing_by
  simp only [List.length_drop, List.length_cons]
  have : 1 ≤ D.nanoBatchSize available (r :: rs) := le_max_left _ _
  omega

/-- scaled kernel -/
noncomputable def scaleKernel (k : Kernel) (c : ℝ) : Kernel := ⟨k.size, fun i j => k.val i j * c⟩

/-- one batch (detector.py:1126-1151): kernels of all its peaks, deposited frame by frame -/
noncomputable def nanoBatch (D : Detector) (j1 : ℝ → ℝ) (n : ℕ) (t : Stack) (rows : List (List Fl)) : Except PyErr Stack :=
  match D.airyKernels j1 (rows.map D.firstZero) with
  | .error e => .error e
  | .ok ks => .ok fun f => if f < n then depositKernels D.nz D.ny (t f)
      (((rows.zip ks).filter fun rk => rcol rk.1 28 = (f : ℝ)).map fun rk =>
        (scaleKernel rk.2 (rcol rk.1 29 * rcol rk.1 21), rcol rk.1 25 / D.pz, rcol rk.1 26 / D.py)) else t f

/-- all batches -/
noncomputable def nanoLoop (D : Detector) (j1 : ℝ → ℝ) (n : ℕ) : Stack → List (List (List Fl)) → Except PyErr Stack
  | t, [] => .ok t
  | t, b :: bs => match D.nanoBatch j1 n t b with
    | .error e => .error e
    | .ok t' => nanoLoop D j1 n t' bs

/-- `_render_airy_peaks` (detector.py:998-1166) -/
noncomputable def renderNano (D : Detector) (env : RenderEnv) (peaks : List (List Fl)) (n : ℕ) : Except PyErr Stack :=
  if peaks = [] then .ok fun _ _ _ => 0
  else
    match D.nanoLoop env.j1 n (fun _ _ _ => 0) (D.nanoBatches (env.freeGb * 1024 ^ 3) ((env.argsortDesc (peaks.map D.airyMemory)).map fun i => peaks.getD i [])) with
    | .error e => .error e
    | .ok t => .ok fun f => if f < n then conv2d D.nz D.ny D.gaussKernel (t f) else t f

/-! ### macro -/

/-- parameters at which the line `p + t u` meets the planes in `eqs` (utils.py:201-207) -/
noncomputable def planeTimes (eqs : List HalfSpace) (p u : V3) : List ℝ :=
  eqs.map fun e => (e.n.dot ((-e.d) • e.n) - p.dot e.n) / e.n.dot u

/-- `_clip_line_with_convex_polyhedron` for one line (utils.py:168-217) -/
noncomputable def clipLength (eqs : List HalfSpace) (p u : V3) : ℝ :=
  match planeTimes (eqs.filter fun e => e.n.dot u < 0) p u, planeTimes (eqs.filter fun e => e.n.dot u > 0) p u with
  | a :: as, b :: bs => if minL b bs > maxL a as + 1 / 10 ^ 12 then minL b bs - maxL a as else 0
  | _, _ => 0

/-- row and column in the box, and clip length, of one sampled ray (detector.py:1645-1658); an index of a ray that misses the
detector plane is the conversion of NaN to an integer, which is out of bounds -/
noncomputable def sampleEntry (D : Detector) (hull : Hull) (u : V3) (r0 : ℤ) (nr : ℕ) (q0 : ℤ) (nq : ℕ) (p : V3) : Option ℕ × Option ℕ × ℝ :=
  match (D.intersect u p).1, (D.intersect u p).2.1 with
  | fin zd, fin yd => (wrapIdx (pyInt (zd / D.pz) - r0) nr, wrapIdx (pyInt (yd / D.py) - q0) nq, clipLength hull.equations p u)
  | _, _ => (none, none, 0)

/-- `_project_convex_hull` (detector.py:1589-1685) for the box `(r0, r1, q0, q1)`.  `none`: the normalisation divides by a zero
sum and the result is NaN. -/
noncomputable def projectHull (D : Detector) (env : RenderEnv) (hull : Hull) (k : V3) (box : ℤ × ℤ × ℤ × ℤ) :
    Except PyErr (Option Frame) :=
  let nr := (box.2.1 - box.1).toNat
  let nq := (box.2.2.2 - box.2.2.1).toNat
  let u := (1 / k.norm) • k
  if nr * nq = 1 then .ok (some fun i j => if i = 0 ∧ j = 0 then hull.volume else 0)
  else if nr * nq ≤ 4 then
    let pts := env.sample hull (7 * (nr * nq))
    let entries : List (Option ℕ × Option ℕ × ℝ) := pts.map fun p => D.sampleEntry hull u box.1 nr box.2.2.1 nq p
    if ∃ e ∈ entries, e.1 = none ∨ e.2.1 = none then .error .indexError
    else
      let acc : Frame := fun i j => ((entries.filter fun e => e.1 = some i ∧ e.2.1 = some j).map fun e => e.2.2).sum
      let total := ∑ i ∈ Finset.range nr, ∑ j ∈ Finset.range nq, acc i j
      if total = 0 ∧ nr * nq ≠ 0 then .ok none else .ok (some fun i j => acc i j / total * hull.volume)
  else
    let acc : Frame := fun i j => if i < nr ∧ j < nq then
      clipLength hull.equations (D.pixelCoordinate (box.1.toNat + i) (box.2.2.1.toNat + j)) u else 0
    let total := ∑ i ∈ Finset.range nr, ∑ j ∈ Finset.range nq, acc i j
    if total = 0 then .ok none else .ok (some fun i j => acc i j / total * hull.volume)

/-- vertices of the peak's element, moved to its diffraction time (detector.py:1521-1526) -/
noncomputable def movedVertices (mesh : TetraMesh) (m : Motion) (row : List Fl) : List V3 :=
  ((mesh.enod.getD ⌊rcol row 0⌋.toNat ⟨0, 0, 0, 0⟩).toList.map fun i => mesh.coord.getD i 0).map fun p => m.call1 p (rcol row 6)

/-- one peak of the inner loop (detector.py:1554-1583) -/
noncomputable def macroPeak (D : Detector) (env : RenderEnv) (b : Beam) (mesh : TetraMesh) (m : Motion) (row : List Fl)
    (t : Option Frame) : Except PyErr (Option Frame) :=
  match env.hull b (movedVertices mesh m row) with
  | none => .ok t
  | some hull =>
    let k : V3 := ⟨rcol row 13, rcol row 14, rcol row 15⟩
    match D.boundingBox hull.points k with
    | none => .ok t
    | some box =>
      match D.projectHull env hull k box with
      | .error e => .error e
      | .ok none => .ok none
      | .ok (some pr) =>
        match t with
        | none => .ok none
        | some t => .ok (some fun i j =>
          if box.1 ≤ i ∧ i < box.2.1 ∧ box.2.2.1 ≤ j ∧ j < box.2.2.2 then
            t i j + rcol row 29 * (pr (i - box.1.toNat) (j - box.2.2.1.toNat) * D.pz * D.py)
          else t i j)

/-- the peaks of one frame (detector.py:1534-1583) -/
noncomputable def macroPeaks (D : Detector) (env : RenderEnv) (b : Beam) (mesh : TetraMesh) (m : Motion) :
    Option Frame → List (List Fl) → Except PyErr (Option Frame)
  | t, [] => .ok t
  | t, r :: rs => match D.macroPeak env b mesh m r t with
    | .error e => .error e
    | .ok t' => macroPeaks D env b mesh m t' rs

/-- the frames, in the order of the loop (detector.py:1531-1587); frames without peaks stay zero -/
noncomputable def macroFrames (D : Detector) (env : RenderEnv) (b : Beam) (mesh : TetraMesh) (m : Motion)
    (peaks : List (List Fl)) : List ℕ → Except PyErr (List (Option Frame))
  | [] => .ok []
  | f :: fs => match D.macroPeaks env b mesh m (some fun _ _ => 0) (peaks.filter fun r => rcol r 28 = (f : ℝ)) with
    | .error e => .error e
    | .ok t => match macroFrames D env b mesh m peaks fs with
      | .error e => .error e
      | .ok ts => .ok (t.map (conv2d D.nz D.ny D.gaussKernel) :: ts)

/-- `_render_projected_volumes` (detector.py:1431-1587), all frames of `range(frames_to_render)`; `none`: a frame contains
NaN. -/
noncomputable def renderMacro (D : Detector) (env : RenderEnv) (b : Beam) (mesh : TetraMesh) (m : Motion)
    (peaks : List (List Fl)) (n : ℕ) : Except PyErr (Option Stack) :=
  match D.macroFrames env b mesh m peaks (List.range n) with
  | .error e => .error e
  | .ok ts => if none ∈ ts then .ok none else .ok (some fun f => ((ts[f]?).join).getD fun _ _ => 0)

/-! ### render -/

/-- `method` argument -/
inductive Method where | macro | micro | nano | auto | other
  deriving DecidableEq

/-- `render` (detector.py:232-380): frames (`none`: NaN) and the intersected dictionary.  `mesh` is the mesh object the dictionary
refers to, as it is when `render` runs. -/
noncomputable def render (D : Detector) (env : RenderEnv) (d : PeaksDict) (mesh : TetraMesh) (frames : ℤ) (method : Method)
    (macroLimit : Option ℝ) (microLimit : ℝ) : Except PyErr (Option Stack × PeaksDict) :=
  let n := if frames < 1 then 1 else frames
  let out := D.peaksIntersection d n
  let peaks := out.peaks
  match method with
  | .macro => (D.renderMacro env d.beam mesh d.motion peaks n.toNat).map fun t => (t, out)
  | .micro => (D.renderMicro env.freeGb peaks n.toNat).map fun t => (some t, out)
  | .nano => (D.renderNano env peaks n.toNat).map fun t => (some t, out)
  | .auto =>
    let lim := macroLimit.getD ((min D.py D.pz) ^ 3)
    let large := peaks.filter fun r => rcol r 21 ≥ lim
    let small := peaks.filter fun r => rcol r 21 < microLimit
    let medium := peaks.filter fun r => ¬ (rcol r 21 ≥ lim) ∧ ¬ (rcol r 21 < microLimit)
    match D.renderMacro env d.beam mesh d.motion large n.toNat with
    | .error e => .error e
    | .ok ma =>
      match D.renderMicro env.freeGb medium n.toNat with
      | .error e => .error e
      | .ok mi =>
        match D.renderNano env small n.toNat with
        | .error e => .error e
        | .ok na => .ok (ma.map fun ma => fun f i j => 0 + na f i j + ma f i j + mi f i j, out)
  | .other => .error .valueError

end Detector
end XRD
