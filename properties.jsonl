{"id": "C01", "title": "Reported peaks satisfy the Laue condition", "statement": "For every peak returned by Polycrystal.diffract, the rotated diffraction vector G and the incident wave vector k satisfy |k + G| = |k| (elastic scattering), where G is G0 rotated about the motion axis by diffraction_time * rotation_angle and K_out = k + G.", "quantifier": "all wave vectors, unit rotation axes, rotation angles in (0, pi), diffraction vectors G0 (motions built with a unit rotation axis, as the constructor assertion and the documentation require)", "why_tests_cant": "the domain is a continuum of real inputs; a test samples finitely many points", "anchors": ["xrd_simulator/laue.py:_find_solutions_to_tangens_half_angle_equation", "xrd_simulator/polycrystal.py:Polycrystal._compute_peaks"]}
{"id": "C02", "title": "No diffraction event is missed", "statement": "Every time t in [0,1] at which an element's rotated diffraction vector satisfies the Laue condition is reported as a peak for that element and plane.", "quantifier": "all wave vectors, unit axes, rotation angles in (0, pi), G0 and t in [0,1] (motions built with a unit rotation axis, as the constructor assertion and the documentation require)", "why_tests_cant": "the domain is a continuum of real inputs; a test samples finitely many points; the failing inputs (rho_2 = rho_0) form a measure-zero set random tests never hit", "anchors": ["xrd_simulator/laue.py:_find_solutions_to_tangens_half_angle_equation"]}
{"id": "C03", "title": "Diffraction times are in [0,1] and no event is reported twice", "statement": "Every reported diffraction time lies in [0,1], and for one element and plane two reported peaks have different times.", "quantifier": "all inputs of the Laue solver (motions built with a unit rotation axis, as the constructor assertion and the documentation require)", "why_tests_cant": "the domain is a continuum of real inputs; a test samples finitely many points", "anchors": ["xrd_simulator/laue.py:_find_solutions_to_tangens_half_angle_equation"]}
{"id": "C04", "title": "The 2theta column obeys Bragg's law", "statement": "For every peak, sin(2theta/2) = |G0| * wavelength / (4*pi), with 2theta in [0, pi].", "quantifier": "all peaks and wavelengths (motions built with a unit rotation axis, as the constructor assertion and the documentation require)", "why_tests_cant": "the domain is a continuum of real inputs; a test samples finitely many points", "anchors": ["xrd_simulator/polycrystal.py:Polycrystal._compute_peaks", "xrd_simulator/beam.py:Beam.__init__", "xrd_simulator/laue.py:_get_bragg_angle"]}
{"id": "C05", "title": "A rigid body motion is rigid", "statement": "For every accepted RigidBodyMotion and every time, calling the motion preserves all pairwise distances and handedness.", "quantifier": "all accepted axes, angles, translations, origins, times and point pairs", "why_tests_cant": "the domain is a continuum of real inputs; a test samples finitely many points", "anchors": ["xrd_simulator/motion.py:RigidBodyMotion.__call__", "xrd_simulator/motion.py:_RodriguezRotator"]}
{"id": "C06", "title": "A motion rotates about its origin then translates, uniformly in time", "statement": "Motion at time 0 is the identity; at time t it is rotation by t*rotation_angle about the axis through the origin followed by t*translation; points of the axis through the origin are only translated; rotation matrices of two angles multiply to that of the sum.", "quantifier": "all motions, times, points", "why_tests_cant": "the domain is a continuum of real inputs; a test samples finitely many points", "anchors": ["xrd_simulator/motion.py:RigidBodyMotion.__call__", "xrd_simulator/motion.py:_RodriguezRotator.get_rotation_matrix"]}
{"id": "C07", "title": "The inverse motion undoes the motion", "statement": "motion.inverse() applied at time t to the result of motion at time t returns every point to where it was.", "quantifier": "all motions, times, points", "why_tests_cant": "the domain is a continuum of real inputs; a test samples finitely many points", "anchors": ["xrd_simulator/motion.py:RigidBodyMotion.inverse"]}
{"id": "C08", "title": "Batched motion calls agree with per-point calls", "statement": "Calling a motion on an (N,3) array with scalar or per-row times, or an (N,M,3) array with per-row times, transforms every point exactly as a single-point call with its own time would.", "quantifier": "all N, M, points and times", "why_tests_cant": "it quantifies over all array sizes", "anchors": ["xrd_simulator/motion.py:RigidBodyMotion.__call__"]}
{"id": "C09", "title": "RigidBodyMotion.translate shifts every point by time*translation", "statement": "For each documented input shape ((3,), (3,N), (N,3)) each point is shifted by time*translation.", "quantifier": "all shapes and sizes N", "why_tests_cant": "it quantifies over all array sizes", "anchors": ["xrd_simulator/motion.py:RigidBodyMotion.translate"]}
{"id": "C10", "title": "Polycrystal.transform keeps crystal-frame physics invariant", "statement": "After any sequence of transforms, per-element volumes, bounding radii, crystal-frame strain U^T e U and strain invariants are unchanged, orientation matrices remain rotations, and the sample-frame mesh, orientation and strain never change.", "quantifier": "all transform histories (motions built with a unit rotation axis)", "why_tests_cant": "it quantifies over unbounded call histories", "anchors": ["xrd_simulator/polycrystal.py:Polycrystal.transform", "xrd_simulator/mesh.py:TetraMesh.update"]}
{"id": "C11", "title": "Mesh derived geometry stays consistent with node coordinates", "statement": "After any sequence of TetraMesh.translate / rotate / update calls, element centroids, the global centroid, bounding sphere centres and face normals are those of the current node coordinates.", "quantifier": "all call histories (motions built with a unit rotation axis)", "why_tests_cant": "it quantifies over unbounded call histories", "anchors": ["xrd_simulator/mesh.py:TetraMesh.translate", "xrd_simulator/mesh.py:TetraMesh.update", "xrd_simulator/mesh.py:TetraMesh.rotate"]}
{"id": "C12", "title": "Transforming the sample rotates its diffraction vectors", "statement": "After transform(motion, t) the diffraction vector of each element and Miller index is the previous one rotated by the motion's rotation at t.", "quantifier": "all elements, hkl, motions, times (motions built with a unit rotation axis)", "why_tests_cant": "the domain is a continuum of real inputs; a test samples finitely many points", "anchors": ["xrd_simulator/polycrystal.py:Polycrystal.transform", "xrd_simulator/laue.py:_get_G"]}
{"id": "C13", "title": "Element bounding spheres contain their element", "statement": "For every non-degenerate tetrahedron, all four vertices lie within eradius of espherecentroid.", "quantifier": "all non-degenerate tetrahedra", "why_tests_cant": "the domain is a continuum of real inputs; a test samples finitely many points", "anchors": ["xrd_simulator/mesh.py:TetraMesh._compute_mesh_spheres", "xrd_simulator/utils.py:_circumsphere_of_segments", "xrd_simulator/utils.py:_circumsphere_of_triangles", "xrd_simulator/utils.py:_circumsphere_of_tetrahedrons"]}
{"id": "C14", "title": "Element face normals are outward unit normals", "statement": "For every non-degenerate tetrahedron each enormal has length one, is perpendicular to its face and points away from the opposite vertex.", "quantifier": "all non-degenerate tetrahedra and faces", "why_tests_cant": "the domain is a continuum of real inputs; a test samples finitely many points", "anchors": ["xrd_simulator/mesh.py:TetraMesh._compute_mesh_normals", "xrd_simulator/mesh.py:TetraMesh._compute_mesh_faces"]}
{"id": "C15", "title": "Element volumes are true volumes", "statement": "The volumes column is non-negative, zero exactly for coplanar vertices, independent of vertex order and invariant under rigid motions; the mesh evolumes agree with it.", "quantifier": "all tetrahedra, vertex permutations, motions", "why_tests_cant": "the domain is a continuum of real inputs; a test samples finitely many points", "anchors": ["xrd_simulator/utils.py:_compute_tetrahedra_volumes", "xrd_simulator/mesh.py:TetraMesh._compute_mesh_volumes"]}
{"id": "C16", "title": "Polarization factor is in [0,1]", "statement": "For a unit polarization vector and nonzero outgoing wave vector the polarization factor lies in [0,1], is 1 exactly when they are orthogonal and 0 exactly when parallel.", "quantifier": "all vectors", "why_tests_cant": "the domain is a continuum of real inputs; a test samples finitely many points", "anchors": ["xrd_simulator/scattering_factors.py:_polarization"]}
{"id": "C17", "title": "Lorentz factor is 1/(sin 2theta |sin eta|), at least 1, or infinite", "statement": "For every elastic peak the Lorentz factor is either +inf (within 0.5 degrees of the excluded geometries), NaN (exact back-scattering), or a finite value >= 1 equal to the textbook |k|^2/|axis-component formula|.", "quantifier": "all elastic k_in, k_out and unit axes", "why_tests_cant": "the domain is a continuum of real inputs; a test samples finitely many points", "anchors": ["xrd_simulator/scattering_factors.py:_lorentz"]}
{"id": "C18", "title": "Scherrer broadening is positive and shrinks with grain size", "statement": "For positive volume and wavelength and 2theta in [0,pi), scherrer_fwhm is positive, strictly decreasing in volume, halves when volume is multiplied by 8, and increases with 2theta.", "quantifier": "all volumes, angles, wavelengths", "why_tests_cant": "the domain is a continuum of real inputs; a test samples finitely many points", "anchors": ["xrd_simulator/scattering_factors.py:_scherrer"]}
{"id": "C19", "title": "Strain to B-matrix conversion round-trips", "statement": "For every feasible symmetric crystal strain and invertible B0, _b_to_epsilon(_epsilon_to_b(strain,B0),B0) returns the strain's six components, and B stays upper triangular if B0 is.", "quantifier": "all feasible strains and invertible B0", "why_tests_cant": "the domain is a continuum of real inputs; a test samples finitely many points", "anchors": ["xrd_simulator/utils.py:_epsilon_to_b", "xrd_simulator/utils.py:_b_to_epsilon", "xrd_simulator/utils.py:_strain_as_vector"]}
{"id": "C20", "title": "Exactly the feasible strains are accepted", "statement": "_epsilon_to_b succeeds exactly when I + 2*strain is positive definite, and an infeasible strain passed to Polycrystal raises ValueError.", "quantifier": "all symmetric strain tensors and element counts", "why_tests_cant": "the domain is a continuum of real inputs; a test samples finitely many points", "anchors": ["xrd_simulator/utils.py:_epsilon_to_b", "xrd_simulator/utils.py:_lab_strain_to_B_matrix"]}
{"id": "C21", "title": "Detector hit coordinates locate the physical hit point", "statement": "For a ray towards an orthogonal-axis detector, the point det_corner_0 + zd*zdhat + yd*ydhat lies on the ray at a non-negative parameter; rays pointing away or parallel are never reported as hits.", "quantifier": "all detectors, rays, source points", "why_tests_cant": "the domain is a continuum of real inputs; a test samples finitely many points", "anchors": ["xrd_simulator/detector.py:Detector.peaks_detector_intersection", "xrd_simulator/detector.py:Detector.contains"]}
{"id": "C22", "title": "peaks_detector_intersection keeps exactly the valid hits", "statement": "The result rows are, in order, exactly the input rows whose ray hits the detector rectangle and whose intensity factor is finite and positive, extended by five columns; column names stay aligned; the input dictionary is not modified.", "quantifier": "all peak tables and detectors", "why_tests_cant": "unbounded tables and NaN/inf combinations", "anchors": ["xrd_simulator/detector.py:Detector.peaks_detector_intersection"]}
{"id": "C23", "title": "Frame assignment is the equal-width time bin", "statement": "For every n >= 1 and time t in [0,1] the frame f satisfies 0 <= f < n and f/n <= t <= (f+1)/n, and frames are non-decreasing in time.", "quantifier": "all n and t", "why_tests_cant": "the domain is a continuum of real inputs; a test samples finitely many points", "anchors": ["xrd_simulator/detector.py:Detector.peaks_detector_intersection", "xrd_simulator/detector.py:Detector.render"]}
{"id": "C24", "title": "Auto rendering uses exactly one method per peak", "statement": "With method='auto' every peak is rendered by exactly one of macro, micro, nano.", "quantifier": "all volumes and limits", "why_tests_cant": "limits and volumes range over a continuum", "anchors": ["xrd_simulator/detector.py:Detector.render"]}
{"id": "C25", "title": "Micro rendering never creates intensity", "statement": "The sum of all pixels added by one peak is at most its intensity*volume, every pixel value is non-negative, and only pixels within the kernel radius of the hit in the peak's own frame change.", "quantifier": "all peaks, detectors, sigmas", "why_tests_cant": "the domain is a continuum of real inputs; a test samples finitely many points", "anchors": ["xrd_simulator/detector.py:Detector._render_gauss_peaks"]}
{"id": "C26", "title": "Micro rendering is independent of batch size and peak order", "statement": "The image is the sum of single-peak images: independent of the memory-derived batch size, additive over peak lists and invariant under permutation.", "quantifier": "all batch sizes, peak lists and permutations", "why_tests_cant": "batch size depends on free memory at run time", "anchors": ["xrd_simulator/detector.py:Detector._render_gauss_peaks"]}
{"id": "C27", "title": "Frame images sum to the integrated image", "statement": "For each method the sum over frames of an n-frame rendering equals the single-frame rendering of the same peaks.", "quantifier": "all n and peak lists", "why_tests_cant": "unbounded n and peak lists", "anchors": ["xrd_simulator/detector.py:Detector.render", "xrd_simulator/detector.py:Detector._render_gauss_peaks", "xrd_simulator/detector.py:Detector._render_projected_volumes", "xrd_simulator/detector.py:Detector._render_airy_peaks"]}
{"id": "C28", "title": "The point spread kernel is normalised and symmetric", "statement": "The Gaussian kernel has odd side 2r+1 with r at most the configured maximum, positive entries summing to one, and is symmetric under reflection and transposition; the search for r terminates.", "quantifier": "all sigma > 0, thresholds, maximum radii", "why_tests_cant": "the domain is a continuum of real inputs; a test samples finitely many points", "anchors": ["xrd_simulator/detector.py:Detector._generate_gaussian_kernel"]}
{"id": "C29", "title": "Point spread convolution never creates intensity", "statement": "Convolving a non-negative frame keeps its shape and non-negativity and does not increase its total, and keeps the total exactly when every lit pixel is at least the kernel radius away from the border.", "quantifier": "all frames and normalised kernels", "why_tests_cant": "the domain is a continuum of real inputs; a test samples finitely many points", "anchors": ["xrd_simulator/detector.py:Detector._conv2d_gaussian_kernel"]}
{"id": "C30", "title": "Nano rendering deposits every peak exactly once whatever the free memory", "statement": "For every reported amount of free memory the batching loop terminates and processes each peak exactly once, so the image does not depend on free memory.", "quantifier": "all peak lists and memory reports", "why_tests_cant": "free memory is a run-time quantity", "anchors": ["xrd_simulator/detector.py:Detector._render_airy_peaks", "xrd_simulator/detector.py:Detector._airy_kernel_batch"]}
{"id": "C31", "title": "Sub-pixel deposition conserves kernel intensity", "statement": "Depositing kernels adds at most the kernel total to the frame, and exactly the total when all four neighbours of all samples are on the detector; each sample's intensity-weighted position is preserved.", "quantifier": "all kernels and positions", "why_tests_cant": "the domain is a continuum of real inputs; a test samples finitely many points", "anchors": ["xrd_simulator/detector.py:Detector._deposit_kernels_batch"]}
{"id": "C32", "title": "Kernel cropping keeps the smallest sufficient window", "statement": "Cropping an Airy kernel selects the smallest half-width whose window holds at least 1-threshold of the intensity, or the full half-width.", "quantifier": "all non-negative kernels and thresholds", "why_tests_cant": "all kernel sizes", "anchors": ["xrd_simulator/detector.py:Detector._airy_kernel_batch"]}
{"id": "C33", "title": "Nano kernels are centred", "statement": "The centre sample of the Airy sampling grid is at distance zero so that a kernel is deposited centred on the hit position.", "quantifier": "all kernel radii", "why_tests_cant": "the domain is a continuum of real inputs; a test samples finitely many points", "anchors": ["xrd_simulator/detector.py:Detector._airy_kernel_batch"]}
{"id": "C34", "title": "Macro bounding box is on the detector and covers the projection", "statement": "The pixel box of a projected hull is inside the frame and every projected vertex that falls on the detector's whole pixels falls in the box.", "quantifier": "all projected vertex sets and detectors", "why_tests_cant": "the domain is a continuum of real inputs; a test samples finitely many points", "anchors": ["xrd_simulator/detector.py:Detector._get_projected_bounding_box", "xrd_simulator/detector.py:Detector._detector_coordinate_to_pixel_index"]}
{"id": "C35", "title": "Macro rendering deposits intensity*volume", "statement": "The total a peak adds to the frame before the point spread is intensity*illuminated volume, as for the micro and nano methods.", "quantifier": "all peaks and hulls", "why_tests_cant": "the domain is a continuum of real inputs; a test samples finitely many points", "anchors": ["xrd_simulator/detector.py:Detector._project_convex_hull", "xrd_simulator/detector.py:Detector._render_projected_volumes"]}
{"id": "C36", "title": "Clipped ray length is the chord length", "statement": "For a unit direction the clip length of a line against a convex polyhedron is the length of the part of the line inside the polyhedron.", "quantifier": "all lines and polyhedra", "why_tests_cant": "the domain is a continuum of real inputs; a test samples finitely many points", "anchors": ["xrd_simulator/utils.py:_clip_line_with_convex_polyhedron"]}
{"id": "C37", "title": "The wrapping cone contains the detector", "statement": "Every ray from the source point to a point of the detector makes an angle at most twice the wrapping-cone bound with the wave vector.", "quantifier": "all detectors, sources, wave vectors", "why_tests_cant": "the domain is a continuum of real inputs; a test samples finitely many points", "anchors": ["xrd_simulator/detector.py:Detector._get_wrapping_cone"]}
{"id": "C38", "title": "Bragg angle limits given by the user are respected", "statement": "diffract only uses planes with Bragg angle in [min_bragg_angle, max_bragg_angle], also when a detector is passed.", "quantifier": "all calls of diffract", "why_tests_cant": "the domain is a continuum of real inputs; a test samples finitely many points", "anchors": ["xrd_simulator/polycrystal.py:Polycrystal.diffract", "xrd_simulator/polycrystal.py:Polycrystal._get_bragg_angle_bounds", "xrd_simulator/phase.py:Phase._setup_diffracting_planes"]}
{"id": "C39", "title": "diffract keeps exactly the illuminated peaks and numbers them", "statement": "The peaks returned are, in order, exactly those computed peaks whose source point is strictly inside every beam half-space; peak_index is 0..n-1 and the 25 column names align with the columns.", "quantifier": "all beams and peak tables", "why_tests_cant": "unbounded tables", "anchors": ["xrd_simulator/polycrystal.py:Polycrystal.diffract", "xrd_simulator/beam.py:Beam._contains"]}
{"id": "C40", "title": "diffract does not depend on previous diffract calls", "statement": "The result of a diffract call is a function of the polycrystal geometry, beam, motion and limits only, whatever diffract calls were made before, also when phases are shared between polycrystals.", "quantifier": "all histories of diffract calls", "why_tests_cant": "it quantifies over unbounded call histories", "anchors": ["xrd_simulator/polycrystal.py:Polycrystal.diffract", "xrd_simulator/phase.py:Phase._setup_diffracting_planes"]}
{"id": "C41", "title": "A peaks dictionary is a snapshot", "statement": "Rendering a peaks dictionary gives the same image whether or not the polycrystal was transformed after diffract returned.", "quantifier": "all histories of transform calls between diffract and render", "why_tests_cant": "it quantifies over unbounded call histories and aliasing", "anchors": ["xrd_simulator/polycrystal.py:Polycrystal.diffract", "xrd_simulator/polycrystal.py:Polycrystal.transform", "xrd_simulator/detector.py:Detector._render_projected_volumes"]}
{"id": "C42", "title": "Every element diffracts with its own phase", "statement": "Each peak's grain_index is an element whose phase map entry is the peak's phase_number, its hkl and structure factor come from that phase at the same plane, and its G0 is U*B*hkl of that element; every element of every listed phase takes part.", "quantifier": "all phase maps, phases, elements", "why_tests_cant": "unbounded numbers of elements and phases", "anchors": ["xrd_simulator/polycrystal.py:Polycrystal._compute_peaks", "xrd_simulator/polycrystal.py:Polycrystal._instantiate_phase"]}
{"id": "C43", "title": "Every constructed polycrystal can be diffracted", "statement": "If the Polycrystal constructor succeeds, diffract does not fail because of the stored phase map.", "quantifier": "all accepted constructor arguments, before and after save/load", "why_tests_cant": "combination of argument shapes with later calls", "anchors": ["xrd_simulator/polycrystal.py:Polycrystal._instantiate_phase", "xrd_simulator/polycrystal.py:Polycrystal._compute_peaks", "xrd_simulator/polycrystal.py:Polycrystal.load"]}
{"id": "C44", "title": "Saved objects load back equal", "statement": "For every path, save then load of the resulting file returns an equal motion, beam, detector or polycrystal, load rejects paths without the extension, and saving to one path leaves other files untouched.", "quantifier": "all paths and objects", "why_tests_cant": "all path strings and file-system contents", "anchors": ["xrd_simulator/motion.py:RigidBodyMotion.save", "xrd_simulator/motion.py:RigidBodyMotion.load", "xrd_simulator/beam.py:Beam.save", "xrd_simulator/beam.py:Beam.load", "xrd_simulator/detector.py:Detector.save", "xrd_simulator/detector.py:Detector.load", "xrd_simulator/polycrystal.py:Polycrystal.save", "xrd_simulator/polycrystal.py:Polycrystal.load"]}
{"id": "C45", "title": "The visualisation file is saved beside the polycrystal", "statement": "Polycrystal.save(path) writes the .xdmf next to the .pc file under the same stem.", "quantifier": "all path strings", "why_tests_cant": "all path strings", "anchors": ["xrd_simulator/polycrystal.py:Polycrystal.save"]}
{"id": "C46", "title": "Device selection is total, validated and sticky", "statement": "For every history of configure_device calls the selected device is cpu or cuda, is cuda only if CUDA was available, equals the value returned by the last successful call and the torch default; invalid names raise ValueError and change nothing.", "quantifier": "all call histories and device strings", "why_tests_cant": "it quantifies over unbounded call histories", "anchors": ["xrd_simulator/cuda.py:configure_device", "xrd_simulator/cuda.py:get_selected_device"]}
{"id": "C47", "title": "s3dxrd builds the documented geometry", "statement": "For all positive parameters the beam centre line hits the detector at the requested centre pixel, the detector has the requested number of pixels and extent, the detector normal is anti-parallel to the beam; a missing key raises ValueError naming it.", "quantifier": "all parameter dictionaries", "why_tests_cant": "the domain is a continuum of real inputs; a test samples finitely many points", "anchors": ["xrd_simulator/templates.py:s3dxrd", "xrd_simulator/templates.py:_get_detector_from_params", "xrd_simulator/templates.py:_get_beam_from_params"]}
{"id": "C48", "title": "ODF sampling discretises orientation space correctly", "statement": "For every bin separation in (0, pi] the bins have a width not above the separation and their volumes sum to pi^2 within 1e-5 (the internal assertion never fires); above 4e-8 rad the bins number N, 2N, 4N along the three angles and all have positive volume, so every nonnegative density normalised within 5% is sampled without error; every returned matrix is a proper rotation, that of a unit quaternion within half a bin of the drawn bin.", "quantifier": "all bin separations in (0, pi] and random draws", "why_tests_cant": "the domain is a continuum of real inputs; a test samples finitely many points", "anchors": ["xrd_simulator/templates.py:_sample_ODF", "xrd_simulator/utils.py:_alpha_to_quarternion"]}
{"id": "C49", "title": "Uniform powder grains are congruent and inside the sample", "statement": "For every grain count, all element node indices are valid, every grain has the same four vertex positions (as a set), all within the bounding radius and with nonzero volume.", "quantifier": "all grain counts and radii", "why_tests_cant": "all sizes", "anchors": ["xrd_simulator/templates.py:get_uniform_powder_sample"]}
{"id": "C50", "title": "The cylinder surface handed to the mesher is watertight", "statement": "For every n >= 3 every edge of the generated cylinder facets belongs to exactly two facets and all indices are valid.", "quantifier": "all n", "why_tests_cant": "all sizes", "anchors": ["xrd_simulator/templates.py:polycrystal_from_odf"]}
{"id": "C51", "title": "Proximity intervals cover all proximity samples", "statement": "Every sample time at which a sphere may touch the beam is contained in one of the sphere's returned intervals, and intervals are within [0,1].", "quantifier": "all candidate masks", "why_tests_cant": "all mask lengths and patterns", "anchors": ["xrd_simulator/beam.py:Beam._get_proximity_intervals"]}
{"id": "C52", "title": "Candidate sphere sampling is fine enough and conservative", "statement": "Sample times are at most such that a sphere moves half the smallest radius and at most one degree between samples; a sphere touching the beam at a sampled time is never masked out.", "quantifier": "all motions and spheres", "why_tests_cant": "the domain is a continuum of real inputs; a test samples finitely many points", "anchors": ["xrd_simulator/beam.py:Beam._get_candidate_spheres"]}
{"id": "C53", "title": "Structure factors obey the crystallographic symmetries", "statement": "Without dispersion F(-h) is the complex conjugate of F(h); shifting atoms by lattice vectors leaves F unchanged; the batched result equals the per-reflection sum over atoms and symmetry operations; F is additive over atoms and independent of their order.", "quantifier": "all atom lists, symmetry operations, hkl", "why_tests_cant": "the domain is a continuum of real inputs; a test samples finitely many points", "anchors": ["xrd_simulator/structure_factors.py:compute_structure_factors_batch", "xrd_simulator/structure_factors.py:_sintl_batch", "xrd_simulator/structure_factors.py:_form_factors_batch"]}
{"id": "C54", "title": "Strain vector and tensor forms are inverse", "statement": "_strain_as_vector and _strain_as_tensor are mutually inverse on symmetric tensors / six-vectors.", "quantifier": "all strains", "why_tests_cant": "the domain is a continuum of real inputs; a test samples finitely many points", "anchors": ["xrd_simulator/utils.py:_strain_as_vector", "xrd_simulator/utils.py:_strain_as_tensor"]}
{"id": "C55", "title": "The diffractogram accounts for all intensity", "statement": "The returned histogram sums to the total of the diffraction pattern.", "quantifier": "all patterns and centres", "why_tests_cant": "all pattern sizes", "anchors": ["xrd_simulator/utils.py:_diffractogram"]}
{"id": "C56", "title": "Detector pixel grid matches the requested pixels", "statement": "Given n_pixels=(n_z,n_y) the frames have shape n_z by n_y and pixel (i,j) is at det_corner_0 + i*pz*zdhat + j*py*ydhat; specifying both or neither of n_pixels and pixel_size raises ValueError.", "quantifier": "all corners and pixel counts", "why_tests_cant": "the domain is a continuum of real inputs; a test samples finitely many points", "anchors": ["xrd_simulator/detector.py:Detector.__init__", "xrd_simulator/detector.py:Detector._get_pixel_coordinates"]}
{"id": "C57", "title": "Beam intersection uses a strictly interior point", "statement": "Whenever the beam-polyhedron intersection is computed, the interior point handed to the half-space intersection is strictly inside the beam and inside the polyhedron; a polyhedron entirely inside the beam is returned unchanged.", "quantifier": "all beams, polyhedra and LP solver answers", "why_tests_cant": "depends on solver output and geometry", "anchors": ["xrd_simulator/beam.py:Beam._intersect", "xrd_simulator/beam.py:Beam._find_feasible_point"]}
{"id": "C58", "title": "Progress reporting cannot abort a rendering", "statement": "With verbose output, the progress messages of all methods stay within the 55 character limit for all realistic peak counts, and the bar is always 40 characters wide.", "quantifier": "all peak counts below 10^15 and batches", "why_tests_cant": "all counts", "anchors": ["xrd_simulator/utils.py:_print_progress", "xrd_simulator/detector.py:Detector._render_gauss_peaks", "xrd_simulator/detector.py:Detector._render_projected_volumes", "xrd_simulator/detector.py:Detector._render_airy_peaks"]}
{"id": "C59", "title": "Instantiation broadcasts shapes or rejects them", "statement": "Orientation and strain of shape (3,3) are repeated for every element, shape (N,3,3) is used as is, any other shape raises ValueError; several phases without a phase map raise ValueError.", "quantifier": "all shapes and element counts", "why_tests_cant": "all shapes", "anchors": ["xrd_simulator/polycrystal.py:Polycrystal._instantiate_orientation", "xrd_simulator/polycrystal.py:Polycrystal._instantiate_strain", "xrd_simulator/polycrystal.py:Polycrystal._instantiate_phase"]}
{"id": "C60", "title": "Any number of reflections can be diffracted", "statement": "Polycrystal.diffract returns its peaks dictionary whatever the number of reflections found, in particular for exactly one.", "quantifier": "all crystals, beams and motions, hence all reflection counts 0,1,2,...", "why_tests_cant": "The failing count depends on geometry; a unit test fixes one scene and thus one count.", "anchors": ["xrd_simulator/polycrystal.py: Polycrystal._compute_peaks, diffract", "xrd_simulator/scattering_factors.py: _lorentz"]}
{"id": "C61", "title": "Strained lattice vectors have the length the strain tensor says", "statement": "For every feasible strain the real-space lattice vectors of the strained B matrix have squared length |a|^2 + 2 a.(strain a).", "quantifier": "all feasible symmetric strain tensors and invertible unstrained B matrices", "why_tests_cant": "Unit tests check one or two strain tensors, mostly diagonal; the error appears only with shear.", "anchors": ["xrd_simulator/utils.py: _epsilon_to_b, lab_strain_to_B_matrix"]}
{"id": "C62", "title": "Rendering again with the same peaks gives the same image", "statement": "Passing the dictionary returned by diffract to the detector twice gives the same intersected peaks, and intersecting an already intersected dictionary selects the same hits.", "quantifier": "all peaks dictionaries and detectors", "why_tests_cant": "Depends on arbitrary histories of intersect calls on one dictionary.", "anchors": ["xrd_simulator/detector.py: peaks_detector_intersection"]}
{"id": "C63", "title": "A phase's reflections are exactly those between the Bragg limits", "statement": "After diffract each phase holds, per reflection generated for its own unit cell and space group, one Miller index and one structure factor row, and constructor-built phases never make a later diffract mix stale and new reflections.", "quantifier": "all phases, unit cells, wavelengths, limits and histories of set-ups", "why_tests_cant": "Phases are mutable and shared; histories are unbounded.", "anchors": ["xrd_simulator/phase.py: Phase.setup_diffracting_planes", "xrd_simulator/polycrystal.py: Polycrystal.diffract"]}
{"id": "C64", "title": "Macro rendering produces finite pixels", "statement": "Macro rendering of a peaks dictionary returned by diffract never puts NaN into an image.", "quantifier": "all peaks, elements, beams and detectors", "why_tests_cant": "the domain is a continuum of real inputs; a test samples finitely many points", "anchors": ["xrd_simulator/detector.py:Detector._project_convex_hull"]}
{"id": "C65", "title": "Macro rendering never fails on a hit", "statement": "Macro rendering of peaks that hit the detector never raises, and every sampled ray adds only to the pixel it hits.", "quantifier": "all hulls, all random samples inside the hull, all detectors", "why_tests_cant": "the sampled points are random: no finite set of runs covers every draw", "anchors": ["xrd_simulator/detector.py:Detector._project_convex_hull", "xrd_simulator/utils.py:_sample_convex_hull_3d"]}
{"id": "C66", "title": "Nano rendering never creates intensity", "statement": "Every pixel of a nano rendering is non-negative, each frame holds at most the sum of intensity times volume of its own hits, and the whole stack at most that of all hits.", "quantifier": "all peaks tables, detectors, frame numbers and amounts of free memory", "why_tests_cant": "the domain is a continuum of real inputs; a test samples finitely many points", "anchors": ["xrd_simulator/detector.py:Detector._render_airy_peaks", "xrd_simulator/detector.py:Detector._airy_kernel_batch"]}
{"id": "C67", "title": "Nano rendering always returns an image", "statement": "Nano rendering of a peaks dictionary returned by diffract returns an image (it does not raise).", "quantifier": "all peaks tables, detectors and amounts of free memory", "why_tests_cant": "whether kernels of different size meet in one batch depends on the free memory of the machine and on the widths of all peaks", "anchors": ["xrd_simulator/detector.py:Detector._airy_kernel_batch"]}
{"id": "C68", "title": "polycrystal_from_odf gives every element its own orientation and the strain at its centroid", "statement": "Whatever mesh the mesher returns and whatever is drawn, a returned sample has the mesher's mesh for the cylinder of the given height and radius, one proper rotation per element, the strain field evaluated at the mean of the element's four corners, and the given phase everywhere.", "quantifier": "all densities, strain fields, sample sizes, meshes and random draws", "why_tests_cant": "random draws and arbitrary meshes: no finite set of runs covers them", "anchors": ["xrd_simulator/templates.py:polycrystal_from_odf", "xrd_simulator/templates.py:_sample_ODF"]}
{"id": "C69", "title": "Symmetry-equivalent reflections scatter equally and forbidden ones not at all", "statement": "For a set of space group operations closed under composition modulo lattice vectors and a cell whose metric they preserve, a reflection h and its equivalent hR get structure factors of equal modulus, and a reflection mapped to itself by an operation whose translation shifts its phase by a fraction of a turn gets structure factor zero, whatever the atoms.", "quantifier": "all cells, operations closed under composition, integer reflections, atom lists with any displacement parameters and dispersion", "why_tests_cant": "ranges over every crystal structure; a test checks a few tabulated crystals", "anchors": ["xrd_simulator/structure_factors.py:compute_structure_factors_batch"]}
{"id": "C70", "title": "The beam intersection is the common region", "statement": "The hull that Beam._intersect returns describes exactly the points lying both in the polyhedron and in the beam, for a faithful qhull and facets representable with six decimals.", "quantifier": "all beams, polyhedra and solver answers", "why_tests_cant": "ranges over a continuum of geometries and over solver answers", "anchors": ["xrd_simulator/beam.py:Beam._intersect"]}
{"id": "C71", "title": "Random samples of a hull lie in the hull", "statement": "The points _sample_convex_hull_3d draws lie in the convex hull of the polyhedron, strictly inside whenever the weight of the centre is positive; there are as many as asked for, and the simplices are chosen with non-negative probabilities that add up to one, equal ones for a tetrahedron.", "quantifier": "all polyhedra and all values of the random draws", "why_tests_cant": "the points are random: no finite number of draws covers every outcome", "anchors": ["xrd_simulator/utils.py:_sample_convex_hull_3d"]}
{"id": "C72", "title": "The data do not depend on the choice of laboratory frame", "statement": "Describing the same experiment in another right-handed coordinate frame (transforming the polycrystal, and building beam, motion and detector with turned vectors and moved points) gives the same error or the same peaks row by row, with turned diffraction and wave vectors and moved source points, the same hits on the detector, and the same images.", "quantifier": "all rigid changes of frame, all crystals with any transform history, beams, motions, detectors, Bragg limits, frame counts and renderers", "why_tests_cant": "It compares two runs for every rigid map and every experiment; a test compares one pair with floating point tolerances and cannot see that a renderer uses a quantity tied to the laboratory origin.", "anchors": ["xrd_simulator/polycrystal.py:Polycrystal.diffract", "xrd_simulator/polycrystal.py:Polycrystal.transform", "xrd_simulator/detector.py:Detector.render", "xrd_simulator/detector.py:Detector._airy_kernel_batch", "xrd_simulator/beam.py:Beam", "xrd_simulator/motion.py:RigidBodyMotion"]}
{"id": "C73", "title": "A scan can be taken in two parts", "statement": "Scanning with the first fraction of a motion (angle and translation scaled) reports exactly the peaks of the whole scan up to that time, in order, with rescaled times and all other columns identical; transforming the crystal to the end of the first part and scanning the remaining part reports exactly the later peaks, with the same values in all columns but time, sample-frame vector and running number.", "quantifier": "all crystals with any transform history, beams, motions, split points, Bragg limits", "why_tests_cant": "It relates three runs for every split of every scan; the failing reflections (those whose Laue equation degenerates half a turn after the start of one of the scans) are a measure-zero set a random test never hits.", "anchors": ["xrd_simulator/polycrystal.py:Polycrystal.diffract", "xrd_simulator/polycrystal.py:Polycrystal.transform", "xrd_simulator/laue.py:_find_solutions_to_tangens_half_angle_equation", "xrd_simulator/motion.py:RigidBodyMotion"]}
{"id": "C74", "title": "Peaks of a part of the sample", "statement": "A sample made of some of the elements of another sample (keeping the nodes and the orientations, strains and phases of those elements) can be built whenever the whole sample can, and after the same motions and scanned in the same way reports exactly the peaks the whole sample reports for those elements, in the same order and with the same values in every column but the element number and the running number: elements do not influence each other.", "quantifier": "all samples, all subsets of elements, all transform histories, beams, motions, Bragg limits", "why_tests_cant": "It relates two runs for every subset of every sample; an index slip between phases, elements and planes shows only for particular interleavings of phases.", "anchors": ["xrd_simulator/polycrystal.py:Polycrystal.__init__", "xrd_simulator/polycrystal.py:Polycrystal.diffract", "xrd_simulator/polycrystal.py:Polycrystal._compute_peaks", "xrd_simulator/polycrystal.py:Polycrystal._instantiate_eB", "xrd_simulator/laue.py:_find_solutions_to_tangens_half_angle_equation"]}
{"id": "C75", "title": "Objects own their data", "statement": "After a motion, detector, beam, mesh or polycrystal has been built from the caller's arrays, what the caller later writes into those arrays does not change the object, and what the library later does to the object (transform, translate, update) changes neither the caller's arrays nor the other objects: every object behaves as if all arguments had been copied. (False for float64 arrays that are passed on without a copy: the axis, translation and origin of a motion, the corners of a detector, the orientation, strain and phase map of a polycrystal.)", "quantifier": "all constructions, all argument kinds (numpy array, tensor, list; any dtype and device), all later histories of caller writes and library calls", "why_tests_cant": "aliasing shows only under particular dtype/device combinations followed by particular histories of in-place writes; a test runs a handful of histories on one device", "anchors": ["xrd_simulator/utils.py:ensure_torch", "xrd_simulator/utils.py:ensure_numpy", "xrd_simulator/motion.py:RigidBodyMotion.__init__", "xrd_simulator/motion.py:RigidBodyMotion.inverse", "xrd_simulator/detector.py:Detector.__init__", "xrd_simulator/beam.py:Beam.__init__", "xrd_simulator/mesh.py:TetraMesh.generate_mesh_from_vertices", "xrd_simulator/mesh.py:TetraMesh.translate", "xrd_simulator/polycrystal.py:Polycrystal.__init__", "xrd_simulator/polycrystal.py:Polycrystal.transform"]}
{"id": "C76", "title": "The single-ray helpers agree with the batched code", "statement": "`_ray_detector_intersection` returns exactly the point where the forward ray meets the detector plane (None when there is none or the ray is within 1e-10 of parallel), `_world_to_pixel_coords` gives the pixel the renderer would use and None off the frame, both consistent with `get_intersection`; `_get_bragg_angle` of a peak's G0 is half its recorded 2theta; `_compute_pixel_path_length` returns the length of the ray inside the hull. (The last one is false: every call raises.)", "quantifier": "all detectors, rays, hulls, peaks tables", "why_tests_cant": "agreement of two independent implementations must hold for every ray, including grazing rays and hits on the last pixel", "anchors": ["xrd_simulator/detector.py:Detector._ray_detector_intersection", "xrd_simulator/detector.py:Detector._world_to_pixel_coords", "xrd_simulator/detector.py:Detector._compute_pixel_path_length", "xrd_simulator/laue.py:_get_bragg_angle", "xrd_simulator/laue.py:_get_sin_theta_and_norm_G"]}
{"id": "C77", "title": "Bounding spheres are the smallest", "statement": "The bounding sphere the mesh stores for an element is, up to the factor 1.0001, the smallest ball that contains the element. (False for flat elements: the ratio to the smallest radius is unbounded.)", "quantifier": "all meshes, all elements", "why_tests_cant": "an optimality statement over all balls for all tetrahedra; the code's case distinction depends on which edges are longest", "anchors": ["xrd_simulator/mesh.py:TetraMesh", "xrd_simulator/mesh.py:TetraMesh._compute_mesh_spheres", "xrd_simulator/utils.py:_circumsphere_of_segments", "xrd_simulator/utils.py:_circumsphere_of_triangles", "xrd_simulator/utils.py:_circumsphere_of_tetrahedrons"]}
{"id": "C78", "title": "Peaks of a smaller beam", "statement": "With a smaller beam of the same direction, wavelength and polarization diffract reports exactly those rows of the larger beam's table, in order, whose source point lies inside the smaller beam; two beams with disjoint insides report together exactly the larger beam's peaks with source points in one of them.", "quantifier": "all crystals with any history, all pairs of beams, motions, Bragg limits", "why_tests_cant": "it relates two or three runs for every pair of nested beams", "anchors": ["xrd_simulator/polycrystal.py:Polycrystal.diffract", "xrd_simulator/beam.py:Beam.contains", "xrd_simulator/polycrystal.py:Polycrystal._compute_peaks"]}
{"id": "C79", "title": "An element inside the beam contributes", "statement": "A reflection of an element whose vertices are all strictly inside the beam at the diffraction time is in the peaks table. (False for elements that do not contain the centre of their bounding sphere, since illumination is decided at that centre.)", "quantifier": "all crystals with any history, beams, motions, elements, reflections", "why_tests_cant": "the failing elements are flat ones near the edge of the beam; the claim ranges over all element shapes and positions", "anchors": ["xrd_simulator/polycrystal.py:Polycrystal.diffract", "xrd_simulator/beam.py:Beam.contains", "xrd_simulator/mesh.py:TetraMesh._compute_mesh_spheres", "xrd_simulator/mesh.py:TetraMesh"]}
{"id": "C80", "title": "Moving the detector by whole pixels in its own plane shifts the image", "statement": "Moving all three corners of the detector by whole numbers of pixels along its own axes, with everything else unchanged, moves the micro-rendered image by the same numbers of pixels: away from the edges each pixel has the value of the corresponding pixel before the move. (False when a hit is exactly halfway between two pixels and the move is by an odd number of pixels, since rounding is to the nearest even pixel.)", "quantifier": "all detectors with perpendicular edges, peak tables, frame counts, whole-pixel moves, pixels away from the edges of both detectors", "why_tests_cant": "an equality of whole images for every move and every peak position; the exception is a measure-zero set of positions", "anchors": ["xrd_simulator/detector.py:Detector._render_gauss_peaks", "xrd_simulator/detector.py:Detector.peaks_detector_intersection", "xrd_simulator/detector.py:Detector.peaks_detector_intersection"]}
{"id": "C81", "title": "A scan run backwards sees the same events", "statement": "Moving the crystal by a whole motion and scanning it with the reversed motion (the one returned by inverse() when there is no translation or the translation is along the rotation axis) gives the peaks of the forward scan at mirrored times 1 - t, with G0 turned with the crystal and all other columns unchanged. (False for reflections whose half-angle equation degenerates for one of the two scans.)", "quantifier": "all crystals with any history, beams, motions, reflections", "why_tests_cant": "relates two runs of the solver for every crystal and motion; the exceptional reflections form a set of measure zero", "anchors": ["xrd_simulator/polycrystal.py:Polycrystal.diffract", "xrd_simulator/polycrystal.py:Polycrystal.transform", "xrd_simulator/motion.py:RigidBodyMotion.inverse", "xrd_simulator/laue.py:_find_solutions_to_tangens_half_angle_equation", "xrd_simulator/scattering_factors.py:_lorentz"]}
{"id": "C82", "title": "Change of the unit of length of the laboratory", "statement": "If every laboratory length (mesh nodes, beam vertices, translations, origins, detector corners, pixel sizes) is multiplied by one positive factor L while the crystallography (unit cells, wavelength, angles, orientations, strains) is left alone, every constructor and diffract() fail or succeed as before; the mesh has the same normals, L times the radii and centres and L^3 times the volumes; diffract() reports the same peaks in the same order, at the same times, with the source points times L, the volumes times L^3 and the Scherrer widths divided by L; the detector reports the same hits in the same pixels, frames and with the same intensity factors; and the micro images are L^3 times as bright. (The last part holds only up to 1e-6 per hit: the renderer drops contributions below an absolute threshold, so in a large enough unit every image is black.)", "quantifier": "all factors, meshes, crystals with any history, beams, motions, detectors, limits and frame counts", "why_tests_cant": "relates two runs over the whole pipeline for every geometry and every scale factor", "anchors": ["xrd_simulator/mesh.py:TetraMesh", "xrd_simulator/polycrystal.py:Polycrystal.diffract", "xrd_simulator/detector.py:Detector._peaks_detector_intersection", "xrd_simulator/detector.py:Detector._render_gauss_peaks", "xrd_simulator/utils.py:_get_bounding_ball"]}
{"id": "C83", "title": "Misorientation is the smallest rotation angle from the mean orientation", "statement": "The misorientation reported for an element is the smallest angle of any rotation that takes the mean orientation into the orientation of the element: some rotation by that angle does, none by a smaller angle does. It lies in [0, pi], is zero exactly for elements with the mean orientation, is zero everywhere in a single crystal, and does not change when the whole sample is turned.", "quantifier": "all lists of orientations (rotation matrices), all turns of the sample, and every mean-rotation routine that returns the least-squares mean", "why_tests_cant": "minimality over all rotations, for every pair of orientations, is an optimisation statement no sample of cases settles", "anchors": ["xrd_simulator/utils.py:_get_misorientations", "xrd_simulator/polycrystal.py:Polycrystal.save"]}
{"id": "C84", "title": "The visualisation file shows the sample as constructed", "statement": "After any history of transformations, saving a polycrystal with its visualisation writes the nodes and elements of the mesh it was constructed from and per element the six strain components, the three Euler angles, the misorientation and the phase index it was constructed with, each under its own name and nothing else under that name. The save is refused (ValueError) exactly when the phase map has another length than the mesh has elements; a refused save has still written a complete .pc file that loads back as the saved object, and has touched no other file. (The constructor does not check the length of the phase map, so such a polycrystal can be built.)", "quantifier": "all constructor arguments, histories of transformations, paths and file systems", "why_tests_cant": "ranges over all samples and histories, and over the point at which the save is interrupted", "anchors": ["xrd_simulator/polycrystal.py:Polycrystal.save", "xrd_simulator/polycrystal.py:Polycrystal._instantiate_phase", "xrd_simulator/mesh.py:TetraMesh.save"]}
{"id": "C85", "title": "Saving a mesh with element data", "statement": "TetraMesh.save with element data having one entry per element writes exactly the nodes, elements and that data; an entry with another number of values is refused with ValueError. The caller's dictionary is left as it was. (The last part is false: save replaces every value of the caller's dictionary by a list holding it, so a second identical call raises ValueError unless the mesh has one element; and an interrupted save leaves the dictionary half changed.)", "quantifier": "all meshes and all element data dictionaries", "why_tests_cant": "a statement about the state of a caller's object after every call, including failed ones", "anchors": ["xrd_simulator/mesh.py:TetraMesh.save"]}
{"id": "C86", "title": "Meshes generated from a level set", "statement": "TetraMesh.generate_mesh_from_levelset returns, for every continuous level set, a mesh whose whole outer surface is nearer than max_cell_circumradius to the zero set of the level set, whose nodes lie in the cube of half side bounding_radius and whose element volumes are at most max_cell_circumradius^3/6. A body containing a ball of diameter max_cell_circumradius in that cube is found; a body containing no sample point is refused with ValueError. (Three things the documentation suggests are false: max_cell_circumradius does not bound element radii, bounding_radius does not bound the distance of nodes from the origin, and a level set that crosses zero within the bounding radius can be refused: a ball at the origin of radius up to sqrt(3)/19 of the bounding radius is missed.)", "quantifier": "all level set functions continuous along lines, all radii, and every marching-cubes and tetrahedralisation routine meeting a stated specification", "why_tests_cant": "a distance bound over every surface point for every continuous level set", "anchors": ["xrd_simulator/mesh.py:TetraMesh.generate_mesh_from_levelset"]}
{"id": "C87", "title": "The beam is the convex hull of its vertices, to six decimals", "statement": "A beam whose vertices are the corners of a box contains exactly the points strictly between the box's limits rounded to six decimals. For a beam of any shape, a point with a ball of radius a millionth of |x|+|y|+|z|+1 around it inside the hull of the vertices is contained, and a contained point can be moved into the hull by a correspondingly small step. (The claim without the tolerance, that a beam contains exactly the interior of the hull of its vertices whatever the unit of length, is false: the half-spaces are rounded to six decimals, so a cubic beam of one micrometre given in metres contains no point and never produces a peak, and a small beam can contain points outside its vertices.)", "quantifier": "all vertex lists, directions, wavelengths, polarizations, points, samples and motions; all correct convex hull computations", "why_tests_cant": "a statement about every point of space and every polyhedron; the failures sit at a length scale that tests in micrometres do not visit", "anchors": ["xrd_simulator/beam.py:Beam.set_beam_vertices", "xrd_simulator/beam.py:Beam._contains"]}
{"id": "C88", "title": "Only the directions of the beam and of its polarisation matter", "statement": "Multiplying the propagation vector or the polarisation vector of Beam(...) by a positive number gives exactly the same beam or the same error. Reversing the polarisation vector is accepted in the same cases and, for every polycrystal, motion, Bragg range and detector, diffract raises the same error or returns exactly the same peak table, and every rendering of it is the same image.", "quantifier": "all vertices, vectors, wavelengths, samples, motions, detectors and rendering methods", "why_tests_cant": "an invariance over all inputs of the whole pipeline", "anchors": ["xrd_simulator/beam.py:Beam.__init__", "xrd_simulator/polycrystal.py:Polycrystal.diffract", "xrd_simulator/scattering_factors.py:_polarization"]}
{"id": "C89", "title": "A beam is accepted exactly if its polarisation is orthogonal to its direction", "statement": "Beam(...) accepts its vectors exactly if they are orthogonal up to a fixed tolerance on their angle. (Partial: it is accepted exactly if wavelength, direction and polarisation are not zero, all vertices are extreme and |cos angle| <= 1e-8 |wavelength| / 2 pi. The tolerance thus depends on the unit of the wavelength: for every fixed tolerance some accepted beam violates it, even one polarised along its direction, and some beam within it is rejected; the same vectors are accepted with the wavelength in Angstrom and rejected with it in metres.)", "quantifier": "all vertices, vectors, wavelengths and tolerances", "why_tests_cant": "an equivalence over all vectors and wavelengths; tests use one wavelength", "anchors": ["xrd_simulator/beam.py:Beam.__init__"]}
{"id": "C90", "title": "The deprecated geometry helpers are right on their domain", "statement": "_get_circumscribed_sphere_centroid succeeds exactly for a non-empty affinely independent list of points (hence never for five or more) and then returns the point of their affine hull equidistant to all of them, which is the nearest equidistant point; for the corners of a tetrahedron of non-zero volume it is the centre the mesh code computes. _contained_by_intervals answers membership in the union of the closed intervals.", "quantifier": "all lists of points of any length, all lists of intervals", "why_tests_cant": "correctness and the exact domain over all point sets", "anchors": ["xrd_simulator/utils.py:_get_circumscribed_sphere_centroid", "xrd_simulator/utils.py:_contained_by_intervals", "xrd_simulator/utils.py:_circumsphere_of_tetrahedrons"]}
{"id": "C91", "title": "The verbosity switch touches only the xfab loggers and restores them", "statement": "A with-block of the verbosity manager enables the eight xfab loggers inside, touches no other logger, and restores them afterwards, whatever its body does. (The last part is false: a verbose block leaves all xfab loggers disabled; it restores them exactly if they were all disabled before.)", "quantifier": "all logger states, all bodies including raising ones", "why_tests_cant": "a statement about global state after every body", "anchors": ["xrd_simulator/utils.py:_set_xfab_logging", "xrd_simulator/utils.py:_verbose_manager"]}
{"id": "C92", "title": "Rendering with fewer frames sums frames", "statement": "Rendering with k*n frames and summing groups of k consecutive frames gives the rendering with n frames, by every method; one rendering raises, or contains NaN, exactly if the other does.", "quantifier": "all tables, detectors, methods, frame counts n and factors k", "why_tests_cant": "for every table, frame count and factor, including times on a frame boundary", "anchors": ["xrd_simulator/detector.py:Detector.render", "xrd_simulator/detector.py:Detector.peaks_detector_intersection"]}
{"id": "C93", "title": "Images superpose", "statement": "The image of a table of peaks is the sum of the images of its parts, in any order, by every method, and a table without peaks renders black. (False for nano in general: peaks with different ring sizes share one batch, and two tables that render separately can fail together; it holds while every first dark ring is within two pixels.)", "quantifier": "all splittings of all tables, all methods and detectors", "why_tests_cant": "linearity over every splitting of every table", "anchors": ["xrd_simulator/detector.py:Detector.render", "xrd_simulator/detector.py:Detector._render_airy_peaks", "xrd_simulator/detector.py:Detector._airy_kernel_batch"]}
{"id": "C94", "title": "Brightness scales with the structure factors", "statement": "Multiplying all structure factors by a positive number multiplies every pixel by it, and changes nothing if structure factors are switched off. (False for micro: contributions below a fixed threshold are dropped, so a dim sample renders black.)", "quantifier": "all tables, positive factors, methods and detectors", "why_tests_cant": "linearity for every table and factor, including very dim peaks", "anchors": ["xrd_simulator/detector.py:Detector.render", "xrd_simulator/detector.py:Detector._render_gauss_peaks", "xrd_simulator/detector.py:Detector.peaks_detector_intersection"]}
{"id": "C95", "title": "The image depends only on the columns it should", "statement": "Two tables of peaks with the same beam and motion that agree, row by row, on grain index, diffraction time, scattered wave vector, source position, volume, Scherrer width and on the intensity factors that are switched on render to the same image, by every method, whatever their other columns (Miller indices, phase, G vectors, 2theta, peak index, switched-off factors) hold.", "quantifier": "all pairs of tables, all methods and detectors", "why_tests_cant": "non-interference over all pairs of tables", "anchors": ["xrd_simulator/detector.py:Detector.render", "xrd_simulator/detector.py:Detector.peaks_detector_intersection"]}
{"id": "C96", "title": "The order and the number of the listed phases do not matter", "statement": "Describe the same sample with its phases listed in another order, or with further phases no element uses, and renumber the elements accordingly: the one description is accepted exactly if the other is, and after any history of motions diffract succeeds for the one exactly if it does for the other and reports the same peaks, up to the order of the rows, the phase number and the running number; if the phases keep their relative order (for instance when unused phases are added) the rows come in the same order with the same running numbers.", "quantifier": "all phase lists, relabellings, meshes, orientations, strains, histories, beams, scans and Bragg limits", "why_tests_cant": "relational property of pairs of runs over all samples and relabellings", "anchors": ["xrd_simulator/polycrystal.py:Polycrystal._compute_peaks", "xrd_simulator/polycrystal.py:Polycrystal._instantiate_eB", "xrd_simulator/polycrystal.py:Polycrystal.__init__"]}
{"id": "C97", "title": "The memory report is faithful", "statement": "return_device_memory returns the total and the free memory of the selected device as the system states them (zero where it does not answer), and print_memory_report returns the same; it lists the largest of the tracked tensors on the devices asked for, largest first, as many as the limit allows, and its CPU total counts every tracked tensor in main memory; with a GPU selected and included its heading shows that GPU's memory as the driver states it.", "quantifier": "all sets of tracked objects, limits, device selections and answers of psutil and the CUDA driver", "why_tests_cant": "ranges over every set of live objects and every state of the machine", "anchors": ["xrd_simulator/utils.py:print_memory_report", "xrd_simulator/utils.py:return_device_memory"]}
{"id": "C98", "title": "Symmetry-equivalent orientations give the same peaks", "statement": "Replace the orientation of every element by one that differs by a rotation of the crystal's symmetry group: after any history of motions diffract reports the same peaks, up to the order of the rows, the names of the Miller indices and the running number, for every strain of the sample.", "quantifier": "all crystals with a rotational symmetry, meshes, orientations, strains, histories, beams, scans and Bragg limits", "why_tests_cant": "relational property of pairs of runs over all samples and symmetry groups", "anchors": ["xrd_simulator/polycrystal.py:Polycrystal._instantiate_eB", "xrd_simulator/utils.py:_epsilon_to_b", "xrd_simulator/utils.py:_lab_strain_to_B_matrix", "xrd_simulator/polycrystal.py:Polycrystal._compute_peaks"]}
{"id": "C99", "title": "The order of the elements and the numbering of the nodes do not matter", "statement": "List the elements of the mesh in another order (with their orientations, strains and phase numbers), or number the nodes in another way: the one description is accepted exactly if the other is, and after any history of motions diffract succeeds for the one exactly if it does for the other and reports the same peaks, up to the order of the rows, the running number and the element numbers, which are those of the new order.", "quantifier": "all meshes, permutations of elements and nodes, orientations, strains, phases, histories, beams, scans, Bragg limits and detectors", "why_tests_cant": "relational property of pairs of runs over all meshes and permutations", "anchors": ["xrd_simulator/polycrystal.py:Polycrystal.__init__", "xrd_simulator/polycrystal.py:Polycrystal.diffract", "xrd_simulator/mesh.py:TetraMesh._build_tetramesh", "xrd_simulator/polycrystal.py:Polycrystal._get_bragg_angle_bounds"]}
{"id": "C100", "title": "The order of the four nodes of an element does not matter", "statement": "List the four nodes of each element in another order: the mesh and the polycrystal can be built from the one exactly if from the other, and after any history of motions diffract reports exactly the same peaks.", "quantifier": "all meshes, orders of the nodes within the elements, samples, histories, beams and scans", "why_tests_cant": "relational property of pairs of runs over all meshes; fails only for special shapes of elements", "anchors": ["xrd_simulator/mesh.py:TetraMesh._compute_mesh_spheres", "xrd_simulator/utils.py:_circumsphere_of_triangles", "xrd_simulator/utils.py:_compute_sides", "xrd_simulator/polycrystal.py:Polycrystal._compute_peaks"]}
{"id": "C101", "title": "The unit of the crystal lengths does not matter", "statement": "Give the unit cell edges of every phase (without CIF file) and the wavelength in another unit of length: the sample can be built and diffract succeeds exactly as before, the same peaks are reported in the same order (scattering and wave vectors divided by the factor, Scherrer widths multiplied by it, all else equal), the same hits fall on the same places of the detector, and the micro and macro images are identical. Likewise the test of whether a beam's polarisation is perpendicular to it does not depend on the unit.", "quantifier": "all samples, phases without CIF, unit factors, histories, beams, scans, Bragg limits, detectors and frame counts", "why_tests_cant": "relational property of pairs of runs over all samples and all factors", "anchors": ["xrd_simulator/beam.py:Beam.__init__", "xrd_simulator/phase.py:Phase.setup_diffracting_planes", "xrd_simulator/polycrystal.py:Polycrystal.diffract", "xrd_simulator/utils.py:_epsilon_to_b"]}
{"id": "C102", "title": "Nano batches stay within the free memory", "statement": "A nano rendering divides the hits into batches that hold every hit exactly once; every batch of more than one peak has reserved bytes (3 x 4 x 8 bytes per entry of a kernel reaching four first zeros and three point-spread widths) within the free memory reported at the start and is as long as that budget allows; all kernels of a batch have one size, and the kernels of a batch fit in that memory.", "quantifier": "all tables of peaks, detectors, amounts of free memory and sort orders", "why_tests_cant": "depends on the machine's free memory at the moment of the call", "anchors": ["xrd_simulator/detector.py:Detector._render_airy_peaks", "xrd_simulator/detector.py:Detector._estimate_airy_kernel_memory", "xrd_simulator/detector.py:Detector._airy_kernel_batch"]}
{"id": "C103", "title": "polycrystal_from_odf gives about the requested number of crystals", "statement": "With a mesher that fills the given surface with elements not larger than asked, the sample returned by polycrystal_from_odf fills the prism over a regular polygon of at least 8 corners inscribed in the circle of the given radius, no element is larger than 2.95 times the requested volume per crystal, and there are at least three tenths of the requested number of crystals.", "quantifier": "all cylinders, numbers of crystals, densities and meshers with that guarantee", "why_tests_cant": "all sizes and meshers", "anchors": ["xrd_simulator/templates.py:polycrystal_from_odf"]}
{"id": "C104", "title": "Friedel pairs", "statement": "If the rotation axis is perpendicular to the beam and the phases obey Friedel's law, then scanning the sample and scanning it again after half a turn about the rotation axis (Polycrystal.transform) give Friedel pairs: every peak whose element is illuminated in both positions has a mate from the opposite plane (-h,-k,-l) of the same element at the same time, with scattering vector and diffracted ray mirrored in the plane perpendicular to the axis and with the same time, Lorentz factor, structure factor, volume and two-theta. Phases whose reflection list is closed under inversion and whose atoms have no anomalous dispersion do obey Friedel's law.", "quantifier": "all samples, beams perpendicular to the axis, motions (with translation) and Bragg limits", "why_tests_cant": "all crystals, orientations and scans", "anchors": ["xrd_simulator/polycrystal.py:Polycrystal.diffract", "xrd_simulator/polycrystal.py:Polycrystal.transform", "xrd_simulator/laue.py:_find_solutions_to_tangens_half_angle_equation", "xrd_simulator/structure_factors.py:compute_structure_factors_batch"]}
{"id": "C105", "title": "A larger detector records the same image on the old pixels", "statement": "Building the detector with the same first corner, axes directions, pixel_size and settings but longer (or shorter) sides does not change the hits that lie on both detectors, nor the micro image at any pixel farther from the moved edges than the reach of one peak; the macro image on the smaller detector is the corresponding part of the image on the larger one.", "quantifier": "all detectors, factors for the two sides, peak tables and frame counts", "why_tests_cant": "all detector sizes and all peaks", "anchors": ["xrd_simulator/detector.py:Detector.__init__", "xrd_simulator/detector.py:Detector.peaks_detector_intersection", "xrd_simulator/detector.py:Detector._render_gauss_peaks", "xrd_simulator/detector.py:Detector._render_projected_volumes"]}
{"id": "C106", "title": "The warning about discarded hits is right", "statement": "Intersecting a table of peaks with the detector issues a warning exactly if messages are switched on and at least one peak that hits the detector is left out of the result; the warning states how many were left out, the numbers given per reason are positive, add up to that total, name each reason at most once, and each number is the number of hits whose intensity is infinite, non-positive or not a number; the hits counted under 'infinite Lorentz factor' are the hits whose Lorentz factor is infinite.", "quantifier": "all detectors and settings, peak tables, frame counts, verbose on or off", "why_tests_cant": "all tables of peaks, with every combination of degenerate factors", "anchors": ["xrd_simulator/detector.py:Detector.peaks_detector_intersection"]}
{"id": "C107", "title": "Refining the mesh does not change the scattered power", "statement": "If every element of the mesh is divided into smaller tetrahedra that carry the orientation, strain and phase of the element they come from, the finer sample can be built whenever the original can, and a scan of it (same history of motions, beam, motion and Bragg limits) scatters the same total power into every reflection: the sum over the peaks of structure factor x Lorentz factor x polarization factor x volume, or of any other weight computed from columns that do not tell the pieces apart, times the volume, is the same, provided each piece is in the beam exactly when its element is. Cutting a tetrahedron at any point of an edge is such a division.", "quantifier": "all meshes, divisions into any number of pieces, orientations, strains, phases, histories, beams, motions and Bragg limits", "why_tests_cant": "all meshes and all divisions", "anchors": ["xrd_simulator/mesh.py:TetraMesh", "xrd_simulator/polycrystal.py:Polycrystal.__init__", "xrd_simulator/polycrystal.py:Polycrystal.diffract"]}
{"id": "C108", "title": "Motions move points given in any documented array shape", "statement": "Calling a motion, or its rotate method, on an array of points moves every point of the array as a single-point call would and returns an array of the same shape, for the documented shapes (3,), (N,3) and (3,N) and for scalar or per-point times. (False: points given as columns (3,N) raise unless N is 1 or 3, for N=3 they are silently read as rows, one column comes back as a (3,3) array, and rotate drops the first axis of a single row.)", "quantifier": "all N, points, times and motions", "why_tests_cant": "all array sizes", "anchors": ["xrd_simulator/motion.py:RigidBodyMotion.__call__", "xrd_simulator/motion.py:RigidBodyMotion.rotate", "xrd_simulator/motion.py:_RodriguezRotator.__call__"]}
{"id": "C109", "title": "Peaks show the strain of their element exactly", "statement": "For every peak of a crystal whose orientations are rotations and strains symmetric, whatever was done with the crystal before, the interplanar distance Bragg's law gives for the 2theta column equals the distance of the plane hkl in the unstrained cell of the phase times sqrt(1 + 2 n.e.n), e the present strain of the element and n the direction of the G0 columns. So the strain along n is ((d/d0)^2-1)/2, tension always lowers the angle, and the linear reading (d-d0)/d0 never exceeds the strain.", "quantifier": "all cells, planes, orientations, feasible symmetric strains, histories of moves and diffractions, beams, motions and peaks", "why_tests_cant": "ranges over all strains, orientations and histories", "anchors": ["xrd_simulator/utils.py:_lab_strain_to_B_matrix", "xrd_simulator/utils.py:_epsilon_to_b", "xrd_simulator/polycrystal.py:Polycrystal.transform", "xrd_simulator/polycrystal.py:Polycrystal.diffract"]}
{"id": "C110", "title": "Hits lie on Debye-Scherrer rings", "statement": "Every peak that the detector places on a detector lies on the Debye-Scherrer cone of its own 2theta: seen from the peak's source point, the hit is at |P-S| cos(2theta) along the beam and |P-S| sin(2theta) off the beam axis; on a detector whose sides are orthogonal to the beam it is exactly on the circle of radius L tan(2theta) around the beam through the source point, L being the source-to-detector distance.", "quantifier": "every crystal a program can reach, every beam, rigid motion, limits, detector with orthogonal sides, frame count, and every hit", "why_tests_cant": "A test can place one spot; that the radius law holds at every geometry, offset source point and rotation time is a statement over all reals.", "anchors": ["xrd_simulator/detector.py:Detector.peaks_detector_intersection", "xrd_simulator/detector.py:Detector.peaks_detector_intersection", "xrd_simulator/polycrystal.py:Polycrystal.diffract", "xrd_simulator/scattering_factors.py"]}
{"id": "C111", "title": "Where the elements are matters only for source points and illumination", "statement": "Two crystals with the same orientations, lattices and phases element by element - built from the same arguments on any two meshes with the same number of elements and turned alike - diffract alike: diffract raises for one exactly when it raises for the other, the same exception, and every peak of the first appears for the second with the same entry in every column except those of place and size (source point, volume, Scherrer width, running number), at the second crystal's own source point, provided that point is in the beam. The translation of the scan and the centre of its rotation do not matter otherwise.", "quantifier": "every pair of crystals a program can reach with the same grains, every beam, rotation axis and angle, translations, centres of rotation and limits, and every peak", "why_tests_cant": "Meshes, positions and translations range over a continuum, and the claim relates two runs.", "anchors": ["xrd_simulator/polycrystal.py:Polycrystal.diffract", "xrd_simulator/polycrystal.py:Polycrystal.__init__", "xrd_simulator/polycrystal.py:_compute_peaks", "xrd_simulator/motion.py:RigidBodyMotion"]}
{"id": "C112", "title": "The order in which qhull lists facets does not matter for clipping", "statement": "When an element is clipped to the beam, the half-spaces handed to qhull are the element's facet equations rounded to six decimals, each once and in dictionary order, followed by those of the beam; so two scipy versions that differ only in the order or repetition of the facets ConvexHull reports clip every element alike: same exception, no overlap for both, or the same points, volume and facets.", "quantifier": "all beams, polyhedra, and pairs of scipy implementations agreeing up to order and repetition of facets", "why_tests_cant": "The order and the triangulation of coplanar facets vary with qhull's version and are not under the test's control.", "anchors": ["xrd_simulator/beam.py:Beam._intersect", "xrd_simulator/beam.py:Beam._find_feasible_point"]}
{"id": "C113", "title": "A plane of an element is reported at most twice", "statement": "Whatever the crystal, beam, motion and limits, diffract lists a lattice plane of an element at most twice for each time the plane is listed in the phase; so the number of peaks is at most twice the sum over the phases of the number of elements times the number of planes, a bound that is attained.", "quantifier": "all crystals in any state, beams, motions, limits, elements and planes", "why_tests_cant": "A bound over all geometries; a test sees only particular counts.", "anchors": ["xrd_simulator/laue.py:_find_solutions_to_tangens_half_angle_equation", "xrd_simulator/polycrystal.py:_compute_peaks", "xrd_simulator/polycrystal.py:Polycrystal.diffract"]}
{"id": "C114", "title": "Converting between numpy and torch keeps values and shares memory only in place", "statement": "ensure_numpy returns a new array with the values of its argument, whatever its kind, and nothing written into the result later reaches an array that existed before. ensure_torch returns a tensor with the values of its argument; writing into it reaches a caller's array exactly when the argument already was a double precision array (or tensor) in the memory of the default device, and then only the argument itself. Neither changes an existing array, converting there and back gives a fresh copy, and converting twice gives the same tensor.", "quantifier": "all arguments (numpy arrays, tensors, lists, numbers; any dtype, device), all heaps, all later writes", "why_tests_cant": "Sharing shows only through later writes, over all combinations of kind, dtype and device.", "anchors": ["xrd_simulator/utils.py:ensure_numpy", "xrd_simulator/utils.py:ensure_torch"]}
{"id": "C115", "title": "Unstrained samples give sharp powder rings", "statement": "A peak of an element without strain has exactly the 2theta Bragg's law gives for its plane of the phase's unit cell, 2 arcsin(wavelength / 2 d_hkl). It does not depend on the element's orientation or place, the motion, the time, the beam direction or anything done with the crystal before, so peaks of one plane from any two crystals have the same 2theta; on a detector orthogonal to the beam the hits lie on a circle of radius L tan(2theta) around the beam axis through the source. A strained element's peak is on the ring exactly when the strain along its diffraction vector is zero.", "quantifier": "all programs, crystals, orientations, beams, motions, limits, detectors, peaks", "why_tests_cant": "Sharpness compares every pair of peaks of every pair of programs.", "anchors": ["xrd_simulator/polycrystal.py:Polycrystal.diffract", "xrd_simulator/utils.py:_epsilon_to_b", "xrd_simulator/detector.py:Detector.peaks_detector_intersection"]}
{"id": "C116", "title": "Naming the detector's sides the other way round only transposes the data", "statement": "Let a second detector be built from the same arguments with the corners det_corner_1 and det_corner_2 exchanged (and with them the two entries of the pixel numbers or pixel sizes). It can be built whenever the first can, it records the same hits in the same order with zd and yd exchanged, and every image render returns for it is the transposed image of the first detector; where one rendering fails the other fails with the same exception.", "quantifier": "every detector that can be built, every table of peaks, mesh, number of frames, limits and rendering method", "why_tests_cant": "The relation is between two runs over unbounded tables and every geometry; a test sees one pair of images, and usually of one rendering method.", "anchors": ["xrd_simulator/detector.py:Detector.__init__", "xrd_simulator/detector.py:Detector.render", "xrd_simulator/detector.py:Detector.peaks_detector_intersection"]}
{"id": "C117", "title": "The Bragg range can be taken in parts", "statement": "Computing the peaks with Bragg angles from lo to mid and then, with the same sample, from mid to hi gives together exactly the rows of the computation from lo to hi (up to order and running number), which then succeeds too; narrower Bragg limits, and naming a detector, only drop peaks.", "quantifier": "every polycrystal state a program can reach, beam, motion, limits 0 <= lo <= mid <= hi <= pi/2, detector, and every reflection generator that lists a range part by part", "why_tests_cant": "a test samples a few ranges of one crystal; the claim is about all crystals, histories and ranges", "anchors": ["xrd_simulator/polycrystal.py:Polycrystal.diffract", "xrd_simulator/phase.py:Phase._setup_diffracting_planes"]}
{"id": "C118", "title": "The first frames of a scan are those of its first part", "statement": "Scanning a crystal over the first k n-ths of a motion and rendering k frames gives exactly the first k of the n frames that rendering the whole scan gives, pixel by pixel, for the exact (micro) rendering always and for the projected (macro) rendering whenever both renderings succeed, for the point-spread (nano) rendering when the first dark rings of all hits are within two pixels, and for the automatic rendering when that holds of the hits below the micro limit and both renderings succeed.", "quantifier": "every polycrystal, beam, motion, k between 1 and n, Bragg limits, detector, environment, mesh and pixel", "why_tests_cant": "a test samples a scan and one split; the claim is about all crystals, motions, frame counts and splits, boundary times included", "anchors": ["xrd_simulator/polycrystal.py:Polycrystal.diffract", "xrd_simulator/detector.py:Detector.render", "xrd_simulator/detector.py:Detector.peaks_detector_intersection"]}
{"id": "C119", "title": "What every pixel of a micro image is", "statement": "Rendering a peaks dictionary with the micro method never fails; the value of the pixel (i, j) of frame f is the sum, over the hits recorded for that frame, of intensity times illuminated volume times the height at (i, j) of a bell with variance gaussian_sigma^2 + 0.49 pixels^2 around the point of arrival (in pixels), divided by the sum of its heights over the square it reaches (three standard deviations, at least three pixels) plus 10^-12; contributions of up to a millionth are dropped.", "quantifier": "every detector, peaks dictionary, number of frames, reported free memory and pixel", "why_tests_cant": "a test compares a few images; the claim is about all dictionaries, batch sizes and pixels", "anchors": ["xrd_simulator/detector.py:Detector._render_gauss_peaks", "xrd_simulator/detector.py:Detector.render"]}
{"id": "C120", "title": "The point spread of a macro image", "statement": "A macro image is the image the same detector would record without point spread (largest kernel radius 0), each of its pixels spread over the pixels around it by a bell of standard deviation gaussian_sigma pixels with sum 1, cut off at the edge of the detector and at its reach: the first radius at which the bell is below half the kernel threshold, at most the largest kernel radius. One rendering fails, or contains NaN, exactly if the other does, and both record the same hits.", "quantifier": "every detector with gaussian_sigma > 0 and a non-negative largest kernel radius, every dictionary, mesh, number of frames, hull and sampler", "why_tests_cant": "a test convolves a few images; the claim is about every image, size and pixel, edges included", "anchors": ["xrd_simulator/detector.py:Detector._conv2d_gaussian_kernel", "xrd_simulator/detector.py:Detector._generate_gaussian_kernel", "xrd_simulator/detector.py:Detector._render_projected_volumes"]}
{"id": "C121", "title": "Progress reports tell the truth", "statement": "With verbose output and at least one peak, the reported fractions are positive, strictly increasing and end at one; micro numbers its batches k/total, macro its peaks k/n with fraction k/n, nano its batches with their sizes and the fraction of peaks in this and the earlier batches.", "quantifier": "all peak tables, all amounts of free memory", "why_tests_cant": "all peak counts and batch splits; a test runs one batch", "anchors": ["xrd_simulator/detector.py:Detector._render_gauss_peaks", "xrd_simulator/detector.py:Detector._render_airy_peaks", "xrd_simulator/detector.py:Detector._render_projected_volumes"]}
{"id": "C122", "title": "What a rendering prints", "statement": "A rendering with verbose=False, or without a verbose argument on a dictionary that says so, prints nothing; otherwise printing never fails, the output is complete lines and empty exactly if nothing hits the detector; micro and macro draw one bar on one line and end it when done.", "quantifier": "all peak tables, methods, limits, verbosity settings and number formats", "why_tests_cant": "all peak counts and batch splits", "anchors": ["xrd_simulator/detector.py:Detector.render", "xrd_simulator/detector.py:Detector._airy_kernel_batch", "xrd_simulator/utils.py:_print_progress"]}
{"id": "C123", "title": "How far the light of a peak reaches", "statement": "In a nano image a pixel of a frame is exactly zero if every hit of that frame arrives farther from it, in rows or in columns, than max(128, max_kernel_radius) + 1 + max_kernel_radius pixels, however broad the peaks are. In a micro image it is zero if every hit of the frame arrives farther than max(3, 3 sqrt(0.49 + gaussian_sigma^2) + 1) + 1/2 pixels away, whatever the largest kernel radius. In an automatic image a pixel beyond the reach of the small and the middle grains, each by the method that renders it, shows exactly what the macro image of the large grains shows. In a macro image a pixel is zero if it is more than the largest kernel radius outside the pixel rectangle around the projection of the illuminated part of the element of every hit of the frame.", "quantifier": "every detector with positive gaussian_sigma and non-negative largest kernel radius, every peaks dictionary of the columns diffract writes, every amount of free memory, frame count and pixel for which the rendering succeeds", "why_tests_cant": "The sampling radius, the cropped sizes and the batches depend on all peaks together and on free memory; a test sees a few tables.", "anchors": ["xrd_simulator/detector.py:Detector._airy_kernel_batch", "xrd_simulator/detector.py:Detector._render_airy_peaks", "xrd_simulator/detector.py:Detector._deposit_kernels_batch", "xrd_simulator/detector.py:Detector._render_gauss_peaks", "xrd_simulator/detector.py:Detector._render_projected_volumes"]}
