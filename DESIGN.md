# DESIGN — a Lean 4 model of xrd_simulator and proofs about it

## 1. Layout

| Path | Content |
|---|---|
| `lean/Verif/Base/*.lean` | mathematical vocabulary: 3-vectors, 3x3 matrices, the extended number type `Fl`, list helpers |
| `lean/Verif/Spec.lean` | the *specification side*: short definitions written from the English properties (classical Rodrigues rotation, elastic scattering, "inside a polyhedron", ...), never mentioning model code |
| `lean/Verif/Model/*.lean` | the *model*: one file per Python module (or part of one), every definition cites the lines of `/repo` it models and states its simplifications |
| `lean/Verif/Lemmas/*.lean` | helper lemmas |
| `lean/Verif/Props/*.lean` | the property theorems (names start with `Cxx_`) and, beside each, `example`s showing that a concrete non-trivial case meets the hypotheses |
| `properties.jsonl`, `MANIFEST.json`, `seeded/LOG.jsonl` | property list, status, mutation log |

A property that the code violates is reported as `partial`: the theorem `Cxx_..._partial` proves the part that
holds, with the excluded inputs named in an explicit hypothesis, and `Cxx_..._fails` proves the negation of the
full property with a concrete witness in the model (both are cited in MANIFEST).

## 2. How the code is modelled

* **Numbers.** torch/numpy float64 values are modelled by exact reals. Where the code relies on IEEE *special
  values* (NaN masking in the Laue solver, `isfinite` filters, division by zero in the ray-plane intersection, the
  infinite Lorentz factor) the type `Fl = fin r | +inf | -inf | nan` is used, with IEEE rules for special values,
  exact real arithmetic otherwise, and no signed zero (`x/0` is `+inf` for x>0, `-inf` for x<0, `nan` for 0/0).
  Rounding, overflow, float32 casts in `_render_gauss_peaks` and `render_dtype` casts are **not** modelled.
* **Tensors.** A batch dimension is a `List` (or a function of an index); broadcasting is spelled out. Peak tables
  are lists of rows, a row is a list of columns and the model uses the code's literal column numbers.
* **Exceptions** are values (`Except PyErr α`), with the exception class where the code documents it.
* **Mutation.** Methods that mutate become functions returning the new state; where aliasing matters (the mesh object
  referenced from a peaks dictionary, phases shared by polycrystals) an explicit heap of objects is used.
* **External libraries** (Qhull, HiGHS `linprog`, TetGen, marching cubes, xfab `genhkl_all`/`form_b_mat`, dill, meshio,
  `scipy.special.j1`, random generators, free-memory queries) are parameters of the model. A theorem either holds for
  every behaviour of the parameter or states the assumption about it as a hypothesis.

## 3. Trusted base

* Lean 4.33 kernel; Mathlib definitions of real numbers, sqrt, sin, cos, arctan, arccos, exp, floor, ceil, finite sums.
* Axioms: `propext`, `Classical.choice`, `Quot.sound` only (how this is checked: section 6). No axiom is declared in this
  project, nothing is left unproved, and neither `native_decide` nor `bv_decide` is used.
* My reading of the Python source and of the torch/numpy semantics it relies on (listed per definition in comments).
* The exact scope of the model: section 5.

## 4. Plan per property

| Id | Property | Modelled | Proof idea |
|---|---|---|---|
| C01 | Reported peaks satisfy the Laue condition | Laue solver over Fl, Rodrigues matrix, K_out | algebra: half-angle substitution + rho identity; end-to-end over computed peak rows |
| C02 | No diffraction event is missed | same solver | completeness by tan half-angle for rho2≠rho0 (_partial); counterexample with rho2=rho0 |
| C03 | Diffraction times are in [0,1] and no event is reported twice | same solver | range from the filter; uniqueness for nonzero discriminant (_partial); counterexample with a double root |
| C04 | The 2theta column obeys Bragg's law | 2theta column, Beam wave vector | algebra on elastic scattering, sqrt/arccos |
| C05 | A rigid body motion is rigid | RigidBodyMotion.__call__ and accepted axes (allclose) | isometry for exactly unit axis (_partial); counterexample with an accepted non-unit axis |
| C06 | A motion rotates about its origin then translates, uniformly in time | same | matrix = classical vector Rodrigues formula; R(a)R(b)=R(a+b) |
| C07 | The inverse motion undoes the motion | inverse() | characterisation: undoes iff R T = T (_partial); counterexample |
| C08 | Batched motion calls agree with per-point calls | three shape branches as list functions incl. tile/reshape index arithmetic | list induction |
| C09 | RigidBodyMotion.translate shifts every point by time*translation | translate with broadcasting shapes | per-shape (_partial), counterexample (3,3) |
| C10 | Polycrystal.transform keeps crystal-frame physics invariant | Polycrystal state, transform | invariant over all lists of transforms |
| C11 | Mesh derived geometry stays consistent with node coordinates | Mesh state with shadow copy _mesh.points, ops translate/update/rotate | invariant for histories where no translate follows an update (_partial); counterexample history |
| C12 | Transforming the sample rotates its diffraction vectors | transform + _get_G | matrix algebra |
| C13 | Element bounding spheres contain their element | _compute_mesh_spheres branch by branch | case analysis; circumcentre algebra |
| C14 | Element face normals are outward unit normals | faces, normals | algebra; sign analysis |
| C15 | Element volumes are true volumes | two volume functions | determinant algebra |
| C16 | Polarization factor is in [0,1] | _polarization | Cauchy-Schwarz |
| C17 | Lorentz factor is 1/(sin 2theta |sin eta|), at least 1, or infinite | _lorentz over Fl | case analysis, trig identities |
| C18 | Scherrer broadening is positive and shrinks with grain size | _scherrer | monotonicity of rpow, cos |
| C19 | Strain to B-matrix conversion round-trips | explicit 3x3 Cholesky, inverse | algebra |
| C20 | Exactly the feasible strains are accepted | eigenvalue test abstracted by its specification, Cholesky pivots | Sylvester-type argument; exception class for n<3 batches is IndexError (counterexample) |
| C21 | Detector hit coordinates locate the physical hit point | _get_intersection, contains over Fl | geometry; special-value case analysis |
| C22 | peaks_detector_intersection keeps exactly the valid hits | peaks_detector_intersection | list filter/map characterisation |
| C23 | Frame assignment is the equal-width time bin | linspace+bucketize+clamp | count of bin edges; floor/ceil arithmetic |
| C24 | Auto rendering uses exactly one method per peak | masks of render('auto') | case analysis given macro>=micro limit (_partial); counterexample |
| C25 | Micro rendering never creates intensity | _render_gauss_peaks | sums over offsets |
| C26 | Micro rendering is independent of batch size and peak order | batch loop over start indices | list chunking induction |
| C27 | Frame images sum to the integrated image | deposition functions + PSF linearity | finite sum exchange |
| C28 | The point spread kernel is normalised and symmetric | _generate_gaussian_kernel | loop termination by fuel-free recursion; sums |
| C29 | Point spread convolution never creates intensity | conv2d with zero padding | sum exchange |
| C30 | Nano rendering deposits every peak exactly once whatever the free memory | batching while-loop | termination + permutation; kernel radius depends on the batch: counterexample for memory independence |
| C31 | Sub-pixel deposition conserves kernel intensity | _deposit_kernels_batch | bilinear weights |
| C32 | Kernel cropping keeps the smallest sufficient window | binary search | loop invariant |
| C33 | Nano kernels are centred | sampling grid arange(-radius, radius+1) | integer radius (_partial); counterexample |
| C34 | Macro bounding box is on the detector and covers the projection | _get_projected_bounding_box | floor/clamp arithmetic |
| C35 | Macro rendering deposits intensity*volume | _project_convex_hull + scaling | sum normalisation; pixel-area factor counterexample |
| C36 | Clipped ray length is the chord length | _clip_line_with_convex_polyhedron | interval = max/min of halfspace params (_partial when a face is parallel); counterexample |
| C37 | The wrapping cone contains the detector | _get_wrapping_cone | convexity of a cone of half-angle <= pi/2 (_partial); counterexample back-reflection |
| C38 | Bragg angle limits given by the user are respected | diffract/_get_bragg_angle_bounds | logic; counterexample with detector |
| C39 | diffract keeps exactly the illuminated peaks and numbers them | diffract filter and numbering | list lemmas |
| C40 | diffract does not depend on previous diffract calls | heap of phases, histories of diffract | induction on histories |
| C41 | A peaks dictionary is a snapshot | heap of meshes, references in dict | non-interference for micro/nano; counterexample for macro |
| C42 | Every element diffracts with its own phase | _compute_peaks assembly | membership characterisation of list comprehension |
| C43 | Every constructed polycrystal can be diffracted | array-kind tag (numpy/torch) of the phase map | case analysis; counterexample |
| C44 | Saved objects load back equal | path logic + file system as a map, dill as identity | string suffix lemmas; reals for Beam renormalisation |
| C45 | The visualisation file is saved beside the polycrystal | path.split('.')[0] | _partial when no other dot; counterexample './a.pc' |
| C46 | Device selection is total, validated and sticky | configure_device state machine | induction on histories |
| C47 | s3dxrd builds the documented geometry | templates geometry | algebra |
| C48 | ODF sampling discretises orientation space correctly | _sample_ODF grids and volumes | telescoping sums, arange length arithmetic, numeric bounds |
| C49 | Uniform powder grains are congruent and inside the sample | get_uniform_powder_sample indices | mod 4 arithmetic |
| C50 | The cylinder surface handed to the mesher is watertight | facet list | edge counting |
| C51 | Proximity intervals cover all proximity samples | interval merging loop | loop invariant; counterexample [T,T,T,F] |
| C52 | Candidate sphere sampling is fine enough and conservative | sampling number, mask | floor bounds; half-space geometry |
| C53 | Structure factors obey the crystallographic symmetries | structure factor sums | complex conjugation, periodicity, list sums |
| C54 | Strain vector and tensor forms are inverse | two conversions | direct |
| C55 | The diffractogram accounts for all intensity | _diffractogram | sum over bins; counterexample when the last bin is lit |
| C56 | Detector pixel grid matches the requested pixels | constructor and pixel grid | ceil arithmetic |
| C57 | Beam intersection uses a strictly interior point | _intersect decision logic, _find_feasible_point | case analysis over solver answers |
| C58 | Progress reporting cannot abort a rendering | message lengths | decimal digit counts |
| C59 | Instantiation broadcasts shapes or rejects them | shape checks | case analysis |
| C60 | Any number of reflections can be diffracted | `torch.squeeze` of a (1,3) table in `Polycrystal._compute_peaks` | characterisation of success for n ≠ 1 (_partial); one-reflection counterexample |
| C61 | Strained lattice vectors have the length the strain tensor says | `_epsilon_to_b`, `_lab_strain_to_B_matrix` | matrix algebra gives the exact length law for the Cholesky factor; counterexample to the lab-frame claim |
| C62 | Rendering again with the same peaks gives the same image | peaks dictionary with its 'columns' list as a mutable object | idempotence of the filter; counterexample for the mutated columns list |
| C63 | A phase's reflections are exactly those between the Bragg limits | `Phase` heap, `_setup_diffracting_planes`, `_set_structure_factors`, `genhkl_all` as parameter | induction on histories of diffract |
| C64 | Macro rendering produces finite pixels | `_project_convex_hull` over Fl (0/0) | case analysis on the deposited sum; counterexample |
| C65 | Macro rendering never fails on a hit | bounding box slicing, rays, accumulate with Python index semantics | index arithmetic (_partial); counterexample at the border |
| C66 | Nano rendering never creates intensity | whole nano path incl. batching, cropping and bilinear deposition | sums; kernels are non-negative and normalised |
| C67 | Nano rendering always returns an image | first-zero radius, `torch.cat([])`, `arange` with non-finite radius | characterisation of the raising cases (_partial) + counterexamples |
| C68 | polycrystal_from_odf gives every element its own orientation and strain | whole function with mesher, random draws, ODF callable as parameters | chain over the construction; quaternion algebra |
| C69 | Symmetry-equivalent reflections scatter equally | structure factor sums over the operator list | permutation of a finite sum over a group of operators mod lattice |
| C70 | The beam intersection is the common region | `_intersect` with a *faithful* Qhull as hypothesis | half-space duality |
| C71 | Random samples of a hull lie in the hull | `_sample_convex_hull_3d`, random numbers as parameters | convex combinations |
| C72 | The data do not depend on the choice of laboratory frame | the entire pipeline (polycrystal, beam, motion, detector, peaks, images) | simulation relation between the two runs |
| C73 | A scan can be taken in two halves | `diffract` on [0,1] against `diffract`, `transform`, `diffract` | time-halving bijection between the events |
| C74 | A sub-sample gives the corresponding sub-table of peaks | `diffract` on restricted meshes | list filtering through the pipeline |
| C75 | Objects own their data | heap of arrays with `ensure_torch` aliasing | histories of caller writes; counterexamples for motion and detector |
| C76 | The single-ray helpers agree with the batched code | `_ray_detector_intersection`, `_world_to_pixel_coords`, `_compute_pixel_path_length`, `_get_bragg_angle` | case analysis |
| C77 | Bounding spheres are the smallest | `_compute_mesh_spheres` with its three candidate spheres | optimality from convex weights at the touching vertices; unbounded family of flat elements |
| C78 | Peaks of a smaller beam | `diffract` for two beams of the same direction | filter of the same computed table |
| C79 | An element inside the beam contributes | `diffract`, bounding sphere centres | convexity of the beam; flat counterexample |
| C80 | Moving the detector by whole pixels shifts the image | `render(method="micro")` on a moved detector | rounding commutes with integer shifts off the ties; per-row windows agree; tie counterexample |
| C81 | A scan run backwards sees the same events | `transform`, `inverse`, `diffract` | the reversed motion at s undoes the motion to 1-s; Lorentz factor even in the axis; degenerate counterexample |
| C82 | Change of the unit of length of the laboratory | `TetraMesh`, `Polycrystal.new/transform/diffract`, `Detector` (intersection, micro) | every model function commutes with scaling; window offsets distinct for the image bound; black-image theorem for the absolute threshold |
| C83 | Misorientation is the smallest rotation angle from the mean orientation | `misorientations` (`RotLib.mean` a parameter) | Euler's rotation theorem; trace bounds; least squares of a constant list |
| C84 | The visualisation file shows the sample as constructed | `Polycrystal.elementData/visual/saveChecked` | induction over the history; file system after the interrupted save |
| C85 | Saving a mesh with element data | `TetraMesh.saveData` incl. the caller's dictionary | structural induction on the dictionary; counterexamples for the dictionary |
| C86 | Meshes generated from a level set | `meshFromLevelset` (marching cubes and TetGen as parameters with specifications) | intermediate value theorem in a crossed grid cell; spacing at most 5/9 of the radius; convexity of the cube; a crude marching cubes shows the specification can be met |
| C87 | The beam is the convex hull of its vertices, to six decimals | `beamQhull` (rounding and deduplication explicit, the convex hull a parameter with the specification `IsHull`/`Facets`) | a supporting plane through three non-collinear corners is a side; rounding error per half-space; explicit box hulls as witnesses |
| C88 | Only the directions of the beam and of its polarisation matter | `Beam.new`, `diffract`, `render` | normalisation removes the length; the polarisation factor is even; induction over peaks and frames of the macro renderer |
| C89 | A beam is accepted exactly if its polarisation is orthogonal to its direction | `Beam.new`, `allclose` | exact acceptance condition; witnesses at very long and very short wavelengths |
| C90 | The deprecated geometry helpers are right on their domain | `circumCentroid` (Gram matrix, solve), `containedByIntervals` | Gram determinant vanishes iff the differences are dependent; orthogonality for minimality; rank for five points |
| C91 | The verbosity switch touches only the xfab loggers and restores them | `setXfabLogging`, `verboseBlock` | fold over the logger names; witness with logging enabled before |
| C92 | Rendering with fewer frames sums frames | `render`, `frameOf` | every renderer is a sum of per-peak images that do not depend on the frame count; floor of a scaled time |
| C93 | Images superpose | `render` | each renderer is a sum over hits; with small rings every kernel is independent of its batch; witness with two ring sizes |
| C94 | Brightness scales with the structure factors | `render`, `rowIntensity` | each renderer is linear in the intensity column; witness below the threshold of `micro` |
| C95 | The image depends only on the columns it should | `render`, `peaksIntersection` | every renderer commutes with a map that keeps the columns read; two tables agreeing on these have the same image under the map that blanks all others |
| C96 | The order and the number of the listed phases do not matter | `Polycrystal.new`, `diffract` | the per-phase blocks of rows are permuted by the relabelling; the loop over phases writing the lattice matrices gives the same array in any order because the element sets are disjoint |
| C97 | The memory report is faithful | `returnDeviceMemory`, `printMemoryReport` (`Model/Memory.lean`) | the sort is a stable descending merge sort; the list is a prefix of it; the CPU total counts only what is listed, so the claim about the total is false in general (`C97_cpu_total_fails`) with exact extent `C97_cpu_total_iff` |
| C98 | Symmetry-equivalent orientations give the same peaks | `Polycrystal.new`, `diffract` | the symmetry permutes the reflections of the phase; for strains that are multiples of the unit tensor the lattice matrix of the rotated element is the old one times the permutation, so the rows are permuted; false for a shear in the lab (`C98_sheared_fails`): the strain is given in the lab but converted through the Cholesky factor of the crystal's tensor, whose triangular shape picks one of the equivalent lattices |
| C99 | The order of the elements and the numbering of the nodes do not matter | `TetraMesh.new`, `Polycrystal.new`, `diffract` | the elements of a phase are permuted, so the blocks of rows are permuted; the centre of the mesh and the mean of the illuminated nodes are sums; every derived quantity of an element depends on the coordinates of its nodes only |
| C100 | The order of the four nodes of an element does not matter | `sphereOf`, `TetraMesh.new`, `diffract` | volume, centre and circumsphere are symmetric in the nodes; the choice of the longest side and of the third node is unique without ties; with two equally long longest sides the code takes the first one listed and the bounding sphere (the source of the peaks) depends on the order (`C100_tied_sides_fails`) |
| C101 | The unit of the crystal lengths does not matter | `Phase`, `Polycrystal.new`, `diffract`, `peaksIntersection`, `render` | relation between the two runs (`Polycrystal.Re`, `Crystal.Re`), homogeneity of each column; external lattice functions assumed unit free (`UnitFree`); phases with a CIF are excluded because form factors are tabulated per Ångström; the polarisation test compares a wavelength-dependent number with a fixed tolerance (`C101_beam_iff`, `C101_beam_fails`) |
| C102 | Nano batches stay within the free memory | `nanoBatches`, `airyMemory`, `airyKernels`, `renderNano` | greedy batches by induction on the rows; costs are positive, so the count of affordable prefixes is the longest one; that the kernels fit is false because all are padded to the largest (`C102_padding_fails`) |
| C103 | polycrystal_from_odf gives about the requested number of crystals | `maxCircumradius`, `cylinderPoints`, `cylinderFacets`, `polycrystalFromOdf` | cone volumes of the surface summed exactly (`C50_volume`), concavity of the sine, pigeonhole on volumes; the mesher's guarantee is a hypothesis (`Fills`) |
| C104 | Friedel pairs | `Polycrystal.diffract`, `Polycrystal.transform`, `laueSolutions`, `structureFactors` | the half turn and the inversion of the plane together mirror the scattering vector; with the axis perpendicular to the beam the Laue equation is unchanged; `PermRel` over the rows; phases by `C53` conjugate structure factors |
| C105 | A larger detector records the same image on the old pixels | `Detector.new`, `peaksIntersection`, `renderMicro`, `renderMacro` | the intersection only uses the first corner and the axes; pixel-wise sums over the peak rows; bounding boxes inside both detectors agree; `_fails` witness for macro: the centre of an element misses the smaller detector |
| C106 | The warning about discarded hits is right | `Detector.skipWarning` (`Model/Warn.lean`) | the three classes (infinite, non-positive, NaN) partition the complement of the filter; the attribution to the Lorentz factor holds when the other enabled factors are positive and finite (`_partial`), and fails when polarization 0 meets an infinite Lorentz factor (`_fails`) |
| C107 | Refining the mesh does not change the scattered power | the mesh constructor, `Polycrystal.new`, `diffract` | the rows of a piece are those of its element except for the columns that name the piece; sums over pieces are regrouped by parent element and the volumes of the pieces add up (`Spec.Divides`); `C107_bisect` shows that edge bisection is such a division |
| C108 | Motions move points given in any documented array shape | `Motion.callArr`, `Motion.rotateArr` (`Model/MotionShapes.lean`) | case analysis on shapes; rows `(N,3)` and single points are proved for every `N`, columns `(3,N)` fail (`_fails`) with the exact extent (`_partial`) |
| C109 | Peaks show the strain of their element exactly | `bOfStrain`, `Polycrystal.transform`, `Polycrystal.diffract` | invariant over programs: the stored lattice matrix is that of the present strain in the crystal frame; then `|B₀h|² = |Bh|² + 2 Bh·ε Bh` from the Cholesky factor and C04 |
| C110 | Hits lie on Debye-Scherrer rings | `Detector.peaksIntersection`, `Detector.intersect`, `Polycrystal.diffract` | C21 (a hit is on the ray) with the elastic length of `K` and the angle column; for an orthogonal detector the distance along the beam is constant on it |
| C111 | Where the elements are matters only for source points and illumination | `Polycrystal.new`, `transform`, `diffract` | the Laue rows are a function of orientations, lattices and phases alone; rows of the two runs compared column by column |
| C112 | The order in which qhull lists facets does not matter for clipping | `Beam.intersect`, `Beam.combined`, `uniqueRows` | a list sorted strictly by a total order is determined by its members; case analysis of `_intersect` |
| C113 | A plane of an element is reported at most twice | `laueSolutions`, `phaseRows`, `diffractCore` | counting through the flatMaps: each branch contributes one row per element and plane, element lists have no repetition |
| C114 | Converting between numpy and torch keeps values and shares memory only in place | `Heap`, `Arg.ensureTorch`, `Arg.ensureNumpy` | case analysis of the argument in the heap model |
| C115 | Unstrained samples give sharp powder rings | Model/Polycrystal, Model/Strain, Model/Detector | C109 with zero strain inverted through arcsin; C110 for the radius |
| C116 | Naming the detector's sides the other way round only transposes the data | Detector.new, peaksIntersection, render (all methods) | The detector with exchanged sides is computed explicitly; hits, deposits, bounding boxes, projections, kernels and convolution commute with transposition. False of nano images with resolvable rings: the normal points the other way, the angle of incidence becomes 180 - a, its cosine and hence the first dark ring change sign and the kernel degenerates (counterexample). |
| C117 | The Bragg range can be taken in parts | diffract, the phase set-up and the row computation as functions of the Bragg limits, the reflection generator as an oracle that splits ranges | the reflections of the whole range are a permutation of those of the parts; carried through elements, phases, row extension and the illumination filter |
| C118 | The first frames of a scan are those of its first part | frame numbering, detector rendering (micro, macro), diffraction | the rows of the first part are those of the whole scan up to its end with the clock rescaled (C73); the frame number of a rescaled time is the same; the deposits agree row by row |
| C119 | What every pixel of a micro image is | micro rendering (all of it, with batching and index_put accumulation) | the deposits of a peak are a sum over the window; exactly one offset of the window meets a given pixel; induction over the hits |
| C120 | The point spread of a macro image | macro rendering, kernel generation and convolution | kernel as function of the offset with normalisation from C28; reindexing of the cross-correlation as a sum over source pixels; the kernel of radius 0 is the identity |
| C121 | Progress reports tell the truth | the progress calls of the three renderers (as C58) | multiples of the batch size below n; induction over the nano batches |
| C122 | What a rendering prints | renderOutput: the text written to standard output by a rendering that completes | append of well-printed pieces; only the last fraction is one (C121) |
| C123 | How far the light of a peak reaches | Airy kernels, cropping, padding, bilinear deposition and convolution (Model/Render.lean, Model/Image.lean) | bounds on the size of every kernel of every batch; the support of a deposited kernel and of a convolution |

Where a property is false of the code as stated, the partial theorem proves it under an added hypothesis and a `_fails` theorem exhibits
an input on which the claim breaks. `Props/Exact*.lean` closes the gap between the two where possible: an `_iff` theorem says for exactly
which inputs the claim holds (C02: every event except those that also satisfy the Laue condition after half a turn; C03: repeated rows
are exactly the tangential events; C05: rigid exactly for unit axes; C73, C81: exact condition for the two scans to share an event). C09, C15, C20, C24, C29, C33, C36, C38, C44, C45, C51, C55, C60 and C61 are treated the same
way.

`Props/EndToEnd.lean` restates C01–C04, C16 and C17 with nothing but public calls: `Program x p` holds of the polycrystals a
program can own after the constructor and any sequence of `transform` and `diffract` calls, including `diffract` calls that
raised; the theorems then speak of the rows of the table returned by the next `diffract` and, conversely, of the events that
must be in it.

## 5. What is modelled and what is not

Line ranges are cited at every definition under `lean/Verif/Model`. Per Python file:

| File | Modelled | Not modelled |
|---|---|---|
| `beam.py` | `__init__`, `set_beam_vertices`, `_contains`, `_intersect`, `_find_feasible_point`, `save`, `load`, `_get_candidate_spheres`, `_get_proximity_intervals` | numerics of Qhull (`ConvexHull`, `HalfspaceIntersection`) and `linprog`: parameters. `np.unique` row order |
| `cuda.py` | `configure_device` (state machine), `get_selected_device` | printed messages, import-time failure of torch |
| `detector.py` | `__init__`, `save`, `load`, `render` with `micro`/`nano`/`macro`/`auto`, `contains`, pixel coordinates, `_get_intersection`, `_get_wrapping_cone`, index conversion, bounding box, `peaks_detector_intersection`, Gauss/Airy/projection renderers incl. batching, kernels, deposition, PSF, deprecated single-ray helpers (C76) | float32/`render_dtype` casts; true values of `scipy.special.j1` (a parameter with named hypotheses); warnings other than the one of `peaks_detector_intersection` (Model/Warn.lean) |
| `laue.py` | `_get_G`, the tangent half-angle solver, deprecated helpers (C76) | rounding |
| `mesh.py` | constructor from vertices, `generate_mesh_from_levelset`, `translate`, `rotate`, `update`, `save` (path logic, element data, the caller's dictionary), `load`, faces, normals, centroids, volumes, spheres, expansion | marching cubes and TetGen numerics (parameters `MarchingCubes`, `TetBuild`, specified in `Props/LevelSet.lean`), the encoding of the xdmf file |
| `motion.py` | everything incl. all shape branches of `__call__`, `rotate`, `translate`, `inverse`, `save`, `load` | device transfers |
| `phase.py` | constructor state, `_setup_diffracting_planes`, `_set_structure_factors` | xfab's reflection generator (parameter) |
| `polycrystal.py` | constructor incl. the four `_instantiate_*`, `diffract`, `_compute_peaks`, `transform`, `save`, `load`, Bragg bounds | exception texts |
| `scattering_factors.py` | all | rounding |
| `structure_factors.py` | all: `_sintl_batch`, form factors, `_uij_to_betaij`, batch structure factors | CIF parsing and xfab's atom table (`atomlib`): parameters |
| `templates.py` | `s3dxrd`, `polycrystal_from_odf`, `get_uniform_powder_sample`, parameter-to-object functions, `_sample_ODF` | random generators (parameter), TetGen (parameter) |
| `utils.py` | `_print_progress`, `_sample_convex_hull_3d`, `_clip_line_with_convex_polyhedron`, `_alpha_to_quarternion`, strain conversions, circumspheres, tetra volumes, `return_device_memory`, `print_memory_report` (Model/Memory.lean), `_diffractogram`, `_get_misorientations` (scipy's mean rotation a parameter), `ensure_torch` aliasing (C75), `_get_circumscribed_sphere_centroid`, `_contained_by_intervals`, `_set_xfab_logging`, `_verbose_manager` | `_tensor_name`, `_cif_open` |

Standing simplifications, beyond exact reals:
* `Fl` has no signed zero; a comparison with NaN is false as in IEEE.
* A NaN in a frame of the macro image is modelled as `none` for the stack, since later sums spread it.
* `env.hull` (the beam-element intersection used by the macro renderer) is total in `RenderEnv`; that `_intersect` may raise is modelled in `Model/Intersect.lean`.
* `str.lower`/suffix logic is ASCII; the file system is a map from path to contents; `dill` round-trips what it is given.
* The mesh object, the phase objects and the peaks dictionary's column list are the only heap objects with identity, except in C75 where the caller's arrays are.
* External components appear as the structures `Xfab`, `Qhull`, `Scipy`, `RenderEnv`, `MeshIO`, `Mesher`, `Draws`, `CrystalLib`, `RotLib`; every theorem quantifies over them and names what it assumes.

## 6. Axioms and mechanical checks

`vcheck` rebuilds the last commit from a clean copy, replays every module in the kernel and reports the axioms. All
theorems in MANIFEST depend on a subset of `propext`, `Classical.choice`, `Quot.sound` (Mathlib's reals need all
three). To repeat by hand: `import Verif` and `#print axioms XRD.<theorem>`.

## 7. Mutation testing

`seeded/LOG.jsonl` records wrong programs: each entry edits one definition of the model in a scratch copy as a realistic
bug would, rebuilds everything that depends on it, and lists the theorems that then fail. Entries where nothing failed
led to the tightening named in the entry.
