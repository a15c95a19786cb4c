{
 "claims": [
  {
   "property": "C01",
   "status": "proved",
   "theorems": [
    "XRD.C01_diffract",
    "XRD.C01_peaks_satisfy_laue",
    "XRD.C01_peaks_nearly_elastic"
   ],
   "note": "Proved in full. [C01_diffract] **C01, C42** End to end: whatever a program did with the crystal before, each row of the table `diffract` returns is an event in the textbook sense (`Event`) of the crystal in its present state within the Bragg limits in use, and the row's columns are those of the event: element, phase, plane, weight, time, `G0 = U B hkl`, `G` and `K_out`, the position of the element's centre at that time and its volume. [C01_peaks_satisfy_laue] C01: every reported peak satisfies the Laue condition; its `G` columns are `G0` rotated by `t * angle` about the motion axis and its `K_out` columns are `k + G`. [C01_peaks_nearly_elastic] C01 for every accepted motion (axis of length `1 \u00b1 1e-5`): the energy mismatch `|K_out|\u00b2 - |k|\u00b2` of a reported peak is at most `1e-4 |G0|\u00b2`."
  },
  {
   "property": "C02",
   "status": "partial",
   "theorems": [
    "XRD.C02_diffract_exactly",
    "XRD.C02_reported_iff",
    "XRD.C02_no_event_missed_partial",
    "XRD.C02_no_event_missed_fails"
   ],
   "note": "False of the code as stated, with a proved counterexample: [C02_no_event_missed_fails] C02 fails as stated: an event at a time inside `(0,1)`, inside the beam, that `diffract` does not report (the quadratic of the half-angle substitution degenerates when the plane also diffracts after half a turn). Proved part: [C02_no_event_missed_partial] C02 (all planes except those that would also diffract after exactly half a turn): whenever the rotated diffraction vector of an element and a usable plane of its phase satisfies the Laue condition at a time `t` in `[0,1]` and the source point is inside the beam at that time, `diffract` reports a peak with that element, phase, plane and time. Also proved in full: C02_diffract_exactly, C02_reported_iff."
  },
  {
   "property": "C03",
   "status": "partial",
   "theorems": [
    "XRD.C03_diffract_twice_iff",
    "XRD.C03_reported_twice_iff",
    "XRD.C03_times_in_unit_interval",
    "XRD.C03_no_event_twice_fails",
    "XRD.C03_no_event_twice_partial",
    "XRD.C03_duplicates_have_no_finite_lorentz"
   ],
   "note": "False of the code as stated, with a proved counterexample: [C03_no_event_twice_fails] C03 fails as stated: a reciprocal vector that touches the Ewald sphere is reported twice at the same time. Proved part: [C03_no_event_twice_partial] C03 (partial): two reported peaks of one element and plane have different times, unless the diffraction vector touches the Ewald sphere at that time (its component along the beam of the velocity `axis \u00d7 G` vanishes). Missing for the full property: such grazing events are reported twice, see `C03_no_event_twice_fails`. Assumes that no phase lists a plane twice. Also proved in full: C03_diffract_twice_iff, C03_reported_twice_iff, C03_times_in_unit_interval, C03_duplicates_have_no_finite_lorentz."
  },
  {
   "property": "C04",
   "status": "proved",
   "theorems": [
    "XRD.C04_diffract",
    "XRD.C04_two_theta_obeys_bragg"
   ],
   "note": "Proved in full. [C04_diffract] **C03, C04, C16, C17** End to end: for every row of the returned table the time is in the scan, `sin(2\u03b8/2)` is `|G0| \u03bb / 4\u03c0` with `2\u03b8` in `[0, \u03c0]`, the polarization factor is `1 - (K\u0302\u00b7P)\u00b2` and in `[0,1]`, and the Lorentz factor is NaN (exact back-scattering), infinite, or the textbook value, which is at least 1. [C04_two_theta_obeys_bragg] C04: the `2theta` column obeys Bragg's law `sin(2\u03b8/2) = |G0| \u03bb / (4\u03c0)` with `2\u03b8 \u2208 [0, \u03c0]`."
  },
  {
   "property": "C05",
   "status": "partial",
   "theorems": [
    "XRD.C05_rigid_iff",
    "XRD.C05_motion_is_rigid_partial",
    "XRD.C05_motion_is_nearly_rigid",
    "XRD.C05_motion_is_rigid_fails"
   ],
   "note": "False of the code as stated, with a proved counterexample: [C05_motion_is_rigid_fails] C05 fails as stated: an accepted axis of length `1 + 1e-6` gives a motion that is not rigid. Proved part: [C05_motion_is_rigid_partial] C05 (exactly unit axis): a motion preserves all distances and handedness, at every time. Also proved in full: C05_rigid_iff, C05_motion_is_nearly_rigid."
  },
  {
   "property": "C06",
   "status": "proved",
   "theorems": [
    "XRD.C06_identity_at_time_zero",
    "XRD.C06_motion_is_rotation_then_translation",
    "XRD.C06_axis_points_only_translated",
    "XRD.C06_rotations_compose",
    "XRD.C06_right_handed"
   ],
   "note": "Proved in full. [C06_identity_at_time_zero] C06: at time 0 a motion is the identity (any axis). [C06_motion_is_rotation_then_translation] C06: a motion with unit axis is the textbook \"rotate by `t*angle` about the axis through the origin, then translate by `t*T`\". [C06_axis_points_only_translated] C06: points of the axis through the origin are only translated (any accepted axis). [C06_rotations_compose] C06: rotating twice about a unit axis is rotating by the sum of the angles. [C06_right_handed] the rotation is right handed: a quarter turn about z takes x to y"
  },
  {
   "property": "C07",
   "status": "partial",
   "theorems": [
    "XRD.C07_inverse_exists",
    "XRD.C07_inverse_undoes_motion_partial",
    "XRD.C07_inverse_undoes_motion_fails"
   ],
   "note": "False of the code as stated, with a proved counterexample: [C07_inverse_undoes_motion_fails] C07 fails as stated: rotating about z while translating along x is not undone by `inverse()`. Proved part: [C07_inverse_undoes_motion_partial] C07 (characterisation): for a unit axis and a time in `(0,1]` the inverse undoes the motion for all points exactly when the translation is parallel to the rotation axis. Also proved in full: C07_inverse_exists."
  },
  {
   "property": "C08",
   "status": "proved",
   "theorems": [
    "XRD.C08_batch_scalar_time",
    "XRD.C08_batch_per_row_times",
    "XRD.C08_batch_length_mismatch",
    "XRD.C08_rotate_rows",
    "XRD.C08_rotate_length_mismatch",
    "XRD.C08_batch_blocks"
   ],
   "note": "Proved in full. [C08_batch_scalar_time] C08, shape `(N,3)` with scalar time: every row is moved as a single point. [C08_batch_per_row_times] C08, shape `(N,3)` with per-row times. [C08_batch_length_mismatch] a per-row time vector of the wrong length is an error, not a silent broadcast [C08_rotate_rows] C08 for `rotate` (directions, no translation) with per-row times: every row is rotated by the motion's angle times its own time. [C08_rotate_length_mismatch] `rotate` with a time vector of the wrong length is an error [C08_batch_blocks] C08, shape `(N,M,3)` with one time per block: every point of block `n` is moved with `times[n]`."
  },
  {
   "property": "C09",
   "status": "partial",
   "theorems": [
    "XRD.C09_rows_iff",
    "XRD.C09_translate_columns_partial",
    "XRD.C09_translate_rows_raises",
    "XRD.C09_translate_time_checked",
    "XRD.C09_translate_rows_fails"
   ],
   "note": "False of the code as stated, with a proved counterexample: [C09_translate_rows_fails] C09 fails as stated: three points given in the documented `(N,3)` shape are silently shifted by wrong vectors (row `i` gets `t*T_i` added to all three of its coordinates). Proved part: [C09_translate_columns_partial] C09 for the shapes `(3,)` and `(3,N)`: the point is, respectively every column is, shifted by `time*translation`. Also proved in full: C09_rows_iff, C09_translate_rows_raises, C09_translate_time_checked."
  },
  {
   "property": "C10",
   "status": "proved",
   "theorems": [
    "XRD.C10_transform_invariants"
   ],
   "note": "Proved in full. [C10_transform_invariants] C10: after any sequence of transforms there is one rigid map `f`, with rotation part `R`, carrying the whole sample: nodes and sphere centres move by `f`; orientations become `R U` (and stay rotations), strains `R \u03b5 R\u1d40`; crystal-frame strain, trace and determinant of the strain, element volumes (stored and true) and bounding radii do not change, and neither do the sample-frame mesh, orientation and strain."
  },
  {
   "property": "C11",
   "status": "partial",
   "theorems": [
    "XRD.C11_consistent_iff",
    "XRD.C11_derived_geometry_follows_documented_positions",
    "XRD.C11_mesh_consistency_partial",
    "XRD.C11_mesh_consistency_fails"
   ],
   "note": "False of the code as stated, with a proved counterexample: [C11_mesh_consistency_fails] C11 is false in general: after `update` and then `translate` the node coordinates are the un-moved ones while the centroids have moved, so the mesh is not the mesh of its own coordinates. Proved part: [C11_mesh_consistency_partial] C11 (partial): after any history in which no `translate` follows an `update` or `rotate`, the node coordinates are the documented ones and the whole mesh equals one freshly built from its current coordinates. Missing: `translate` after `update` or `rotate`, for which the claim is false (`C11_mesh_consistency_fails`). Also proved in full: C11_consistent_iff, C11_derived_geometry_follows_documented_positions."
  },
  {
   "property": "C12",
   "status": "proved",
   "theorems": [
    "XRD.C12_transform_rotates_diffraction_vectors"
   ],
   "note": "Proved in full. [C12_transform_rotates_diffraction_vectors] C12: if a peak of the transformed crystal and a peak of the original crystal (from any two diffraction calls, with any beams, motions and limits) belong to the same element and Miller indices, the first one's `G0` is the second one's rotated by `t\u00b7angle` about the motion's axis."
  },
  {
   "property": "C13",
   "status": "proved",
   "theorems": [
    "XRD.C13_bounding_spheres"
   ],
   "note": "Proved in full. [C13_bounding_spheres] C13: in every mesh that can be built, every vertex of every element is within `eradius` of `espherecentroids`."
  },
  {
   "property": "C14",
   "status": "proved",
   "theorems": [
    "XRD.C14_outward_unit_normals"
   ],
   "note": "Proved in full. [C14_outward_unit_normals] C14: in every mesh that can be built the four `enormals` of element `i` are the outward unit normals of its faces `(0,1,2)`, `(0,1,3)`, `(0,2,3)`, `(1,2,3)`."
  },
  {
   "property": "C15",
   "status": "partial",
   "theorems": [
    "XRD.C15_evolumes_iff",
    "XRD.C15_volume_nonneg_zero_iff_coplanar",
    "XRD.C15_volume_is_third_base_times_height",
    "XRD.C15_volume_order_independent",
    "XRD.C15_volume_rigid_invariant",
    "XRD.C15_evolumes_partial",
    "XRD.C15_evolumes_fails"
   ],
   "note": "False of the code as stated, with a proved counterexample: [C15_evolumes_fails] C15 is false of the mesh attribute `evolumes`: an element listed with the other orientation gets a negative `evolumes` entry. Proved part: [C15_evolumes_partial] C15 (partial): the mesh attribute `evolumes` agrees with the volumes up to sign. Missing: `evolumes` itself is signed, see `C15_evolumes_fails`. Also proved in full: C15_evolumes_iff, C15_volume_nonneg_zero_iff_coplanar, C15_volume_is_third_base_times_height, C15_volume_order_independent, C15_volume_rigid_invariant."
  },
  {
   "property": "C16",
   "status": "proved",
   "theorems": [
    "XRD.C16_polarization_range",
    "XRD.C16_peaks_polarization_range"
   ],
   "note": "Proved in full. [C16_polarization_range] C16: for a unit polarization vector and a nonzero outgoing wave vector the factor is in `[0,1]`, one exactly for orthogonal and zero exactly for parallel vectors. [C16_peaks_polarization_range] C16 on the peaks table: for a constructed beam every reported polarization factor is in `[0,1]`."
  },
  {
   "property": "C17",
   "status": "proved",
   "theorems": [
    "XRD.C17_lorentz",
    "XRD.C17_peaks_lorentz"
   ],
   "note": "Proved in full. [C17_lorentz] C17: the Lorentz factor of an elastic reflection `k \u2192 k'` for a unit rotation axis `a`. With `2\u03b8` the scattering angle and `\u03b7` the angle between the axis and the component of `k'` orthogonal to `k`: NaN for exact back-scattering; `+inf` when `\u03b8 < 0.5\u00b0` or `\u03b7` is within `0.5\u00b0` of `0` or `180\u00b0`; otherwise `1 / (sin 2\u03b8 |sin \u03b7|) \u2265 1`, which for an axis orthogonal to the beam is the textbook `|k|\u00b2 / |k\u00b7(a \u00d7 k')|`. [C17_peaks_lorentz] C17 on the peaks table: the reported Lorentz factor is NaN, `+inf`, or at least one."
  },
  {
   "property": "C18",
   "status": "proved",
   "theorems": [
    "XRD.C18_scherrer"
   ],
   "note": "Proved in full. [C18_scherrer] C18: positive volume and wavelength, `0 \u2264 2\u03b8 < \u03c0`: the broadening is finite and positive, equals `0.9 \u03bb / (D cos \u03b8)` with `D` the diameter (in \u00c5ngstr\u00f6m, volume in \u03bcm\u00b3) of the ball of that volume, strictly decreases with the volume, halves when the volume is multiplied by eight, and strictly increases with `2\u03b8`."
  },
  {
   "property": "C19",
   "status": "proved",
   "theorems": [
    "XRD.C19_strain_round_trip",
    "XRD.C19_lattice_round_trip"
   ],
   "note": "Proved in full. [C19_strain_round_trip] C19: a feasible symmetric strain is accepted, converted to a lattice matrix and recovered from it exactly; an upper triangular reference gives an upper triangular lattice matrix. [C19_lattice_round_trip] C19, the other direction: an upper triangular lattice matrix with positive diagonal is recovered from its strain."
  },
  {
   "property": "C20",
   "status": "partial",
   "theorems": [
    "XRD.C20_which_error",
    "XRD.C20_constructor_accepts_iff_feasible",
    "XRD.C20_accepted_iff_feasible",
    "XRD.C20_infeasible_raises_valueError_partial",
    "XRD.C20_batch_accepted_iff_feasible",
    "XRD.C20_infeasible_raises_valueError_fails"
   ],
   "note": "False of the code as stated, with a proved counterexample: [C20_infeasible_raises_valueError_fails] C20 is false in general: an infeasible strain on a single element raises `IndexError`, and a strain of exactly `-1/2` raises the `RuntimeError` of the factorisation. Proved part: [C20_infeasible_raises_valueError_partial] C20 (partial): for three or more elements of a phase, a strain that inverts some direction raises `ValueError`. Missing: fewer than three elements, and strains with a zero but no negative eigenvalue of `I + 2\u00b7strain`, see `C20_infeasible_raises_valueError_fails`. Also proved in full: C20_which_error, C20_constructor_accepts_iff_feasible, C20_accepted_iff_feasible, C20_batch_accepted_iff_feasible."
  },
  {
   "property": "C21",
   "status": "proved",
   "theorems": [
    "XRD.C21_hit_is_on_ray",
    "XRD.C21_every_hit_is_found",
    "XRD.C21_no_hit_parallel_or_away",
    "XRD.C21_incident_angle"
   ],
   "note": "Proved in full. [C21_hit_is_on_ray] C21: on an orthogonal-axis detector a ray whose hit coordinates are within bounds meets, at a non-negative ray parameter, the point `det_corner_0 + zd*zdhat + yd*ydhat` (written with the corners: `zdhat`, `ydhat` are the unit vectors along the sides). [C21_every_hit_is_found] C21, converse: if the ray crosses the detector rectangle, the reported coordinates are those of the crossing point. [C21_no_hit_parallel_or_away] C21: rays parallel to the detector plane, or pointing away from it, are never reported as hits (any detector). [C21_incident_angle] C21: the third output is the angle between the ray and the reversed detector normal, in degrees."
  },
  {
   "property": "C22",
   "status": "proved",
   "theorems": [
    "XRD.C22_intersection_keeps_valid_hits",
    "XRD.C22_appended_columns"
   ],
   "note": "Proved in full. [C22_intersection_keeps_valid_hits] C22: the rows kept are, in order, exactly the input rows whose ray hits the detector rectangle and whose intensity factor (product of the enabled factors) is finite and positive; five columns are appended; every row is as long as the list of names; the other entries of the dictionary are carried over. [C22_appended_columns] C22: the values in the five appended columns: the hit coordinates and incident angle of the row's own ray, the frame of its own time, and its intensity factor."
  },
  {
   "property": "C23",
   "status": "proved",
   "theorems": [
    "XRD.C23_frame_is_time_bin"
   ],
   "note": "Proved in full. [C23_frame_is_time_bin] C23: for every number of frames `n \u2265 1` and time `t \u2208 [0,1]` the frame index is an integer in `[0, n)` whose equal-width bin contains `t` (a time on a bin boundary goes to the earlier frame), and frames do not decrease in time."
  },
  {
   "property": "C24",
   "status": "partial",
   "theorems": [
    "XRD.C24_auto_one_method_per_peak_partial",
    "XRD.C24_groups",
    "XRD.C24_rendered_twice_fails"
   ],
   "note": "False of the code as stated, with a proved counterexample: [C24_rendered_twice_fails] C24 fails with the default limits on a detector with pixels of side 1/20: the macro limit `(1/20)\u00b3` is below the micro limit `0.1\u00b3`, and a peak with a volume between them is rendered twice, by `macro` and by `nano`. Proved part: [C24_auto_one_method_per_peak_partial] C24, when the micro limit does not exceed the macro limit: the rows split into three groups by volume, each row belongs to exactly one, and the automatic image is the sum of the `macro`, `micro` and `nano` images of the three groups. Missing: a micro limit above the macro limit, for which the claim is false (`C24_rendered_twice_fails`). Also proved in full: C24_groups."
  },
  {
   "property": "C25",
   "status": "proved",
   "theorems": [
    "XRD.C25_micro_never_creates_intensity",
    "XRD.C25_micro_keeps_interior_intensity"
   ],
   "note": "Proved in full. [C25_micro_never_creates_intensity] C25: rendering with the micro method never fails, gives non-negative pixels, deposits in total at most the sum of intensity times volume of the peaks that hit the detector, and a pixel is lit only if it lies in the frame of some peak within the kernel radius of that peak's hit. [C25_micro_keeps_interior_intensity] C25: peaks that hit the detector at least one kernel radius inside the border keep their power up to a relative `3e-12` and the cut-off of `1e-6` per kernel pixel."
  },
  {
   "property": "C26",
   "status": "proved",
   "theorems": [
    "XRD.C26_micro_order_and_batch_independent",
    "XRD.C26_micro_additive"
   ],
   "note": "Proved in full. [C26_micro_order_and_batch_independent] C26: the image does not depend on the reported free memory, on the order of the peaks, on the mesh or on the limits. [C26_micro_additive] C26: the image of a list of peaks is the sum of the images of its parts."
  },
  {
   "property": "C27",
   "status": "proved",
   "theorems": [
    "XRD.C27_macro_frames_sum",
    "XRD.C27_auto_frames_sum",
    "XRD.C27_micro_frames_sum",
    "XRD.C27_nano_frames_sum"
   ],
   "note": "Proved in full. [C27_macro_frames_sum] C27, macro: adding up the frames gives the integrated image; one rendering raises, or contains NaN, exactly if the other does. The sampled points of a hull are taken to be the same in both renderings. [C27_auto_frames_sum] C27, auto [C27_micro_frames_sum] C27, micro: adding up the frames gives the integrated image. [C27_nano_frames_sum] C27, nano: adding up the frames gives the integrated image (and one rendering fails exactly if the other does)."
  },
  {
   "property": "C28",
   "status": "proved",
   "theorems": [
    "XRD.C28_point_spread_kernel"
   ],
   "note": "Proved in full. [C28_point_spread_kernel] C28: for a positive width and a non-negative maximum the point spread kernel has side `2r+1`, `r` at most the maximum and otherwise the first radius from 1 on whose Gaussian value is below half the threshold; its entries are positive, sum to one and are symmetric under transposition and both reflections. The search stops (its exit condition holds)."
  },
  {
   "property": "C29",
   "status": "proved",
   "theorems": [
    "XRD.C29_convolution",
    "XRD.C29_detector_point_spread",
    "XRD.C29_total_kept_iff",
    "XRD.C29_detector_total_kept_iff"
   ],
   "note": "Proved in full. [C29_convolution] C29: convolution with any non-negative normalised kernel of odd side: the image keeps its shape, each pixel receives from each lit pixel the kernel value at their distance, non-negative images stay non-negative, the total does not increase, and is kept when every lit pixel is at least the kernel radius away from the border. [C29_detector_point_spread] the detector's own kernel meets the hypotheses: applying its point spread never increases the total [C29_total_kept_iff] **C29**, exact: for a normalised kernel with only positive weights the total of a non-negative frame is kept if and only if every lit pixel is at least the kernel radius away from the border. [C29_detector_total_kept_iff] **C29** The detector's own point spread, exact: with the radius its kernel has (at most the configured maximum), the total of a non-negative frame is kept if and only if every lit pixel is at least that radius away from the border."
  },
  {
   "property": "C30",
   "status": "partial",
   "theorems": [
    "XRD.C30_every_peak_exactly_once",
    "XRD.C30_memory_and_order_independent_partial",
    "XRD.C30_depends_on_memory_fails"
   ],
   "note": "False of the code as stated, with a proved counterexample: [C30_depends_on_memory_fails] C30 is false in general: two peaks with first dark rings at 3 and 2 pixels on a detector with threshold `1e-13`. With 1 GB of free memory they share a batch (sampling radius 12) and pixel (157, 140) is lit; without free memory they are rendered in two batches (radii 12 and 8) and the same pixel is exactly zero. Proved part: [C30_memory_and_order_independent_partial] C30, restricted to peaks whose first dark ring is within two pixels: the rendering succeeds and does not depend on the reported free memory, on the sorting of equal keys or on the order of the peaks. Missing: larger rings, for which the claim is false (`C30_depends_on_memory_fails`). Also proved in full: C30_every_peak_exactly_once."
  },
  {
   "property": "C31",
   "status": "proved",
   "theorems": [
    "XRD.C31_deposit_never_creates",
    "XRD.C31_deposit_conserves",
    "XRD.C31_centre_of_mass"
   ],
   "note": "Proved in full. [C31_deposit_never_creates] C31: depositing non-negative kernels changes pixels upwards only and adds in total at most the kernels' sums. [C31_deposit_conserves] C31: kernels that fit inside the frame are deposited completely, and every sample keeps its (sub-pixel) position in the intensity-weighted mean: the first moments of the added image are those of the samples. [C31_centre_of_mass] C31: in particular a kernel of odd side that is symmetric under reflection is deposited with its centre of mass exactly at the requested sub-pixel position."
  },
  {
   "property": "C32",
   "status": "proved",
   "theorems": [
    "XRD.C32_smallest_sufficient_window"
   ],
   "note": "Proved in full. [C32_smallest_sufficient_window] C32: a non-negative kernel is cropped to the smallest centred window (half-width at least 1) that holds at least `1 - threshold`, or to its full half-width if no smaller window does; the crop contains exactly the samples of that window."
  },
  {
   "property": "C33",
   "status": "partial",
   "theorems": [
    "XRD.C33_grid_centre_iff",
    "XRD.C33_batch_radius",
    "XRD.C33_nano_centred_on_hits_partial",
    "XRD.C33_even_grid_fails"
   ],
   "note": "False of the code as stated, with a proved counterexample: [C33_even_grid_fails] C33 is false in general: a single peak that hits exactly the corner of pixel (140, 140) and whose first dark ring is at 36/17 pixels. Its kernel is sampled on an even grid (radius 144/17, 18 samples) but deposited as if it were centred on a sample: the image has light 17 rows above the hit and none at all 17 rows below it. Proved part: [C33_nano_centred_on_hits_partial] C33, restricted to peaks whose first dark ring is within two pixels and that are away from the border: each peak contributes a mass between `(1 - threshold) I V` and `I V` whose centre of mass is exactly the hit position. Missing: larger rings, for which the claim is false (`C33_even_grid_fails`). Also proved in full: C33_grid_centre_iff, C33_batch_radius."
  },
  {
   "property": "C34",
   "status": "proved",
   "theorems": [
    "XRD.C34_bounding_box",
    "XRD.C34_no_box_no_vertex"
   ],
   "note": "Proved in full. [C34_bounding_box] C34: the box is inside the frame, and every projected vertex on the detector's whole pixels has its pixel in the box. [C34_no_box_no_vertex] C34: no box is returned only if no projected vertex falls on the detector."
  },
  {
   "property": "C35",
   "status": "partial",
   "theorems": [
    "XRD.C35_total_iff",
    "XRD.C35_pixel_area_fails",
    "XRD.C35_macro_total_partial",
    "XRD.C35_macro_total_full_elements_partial"
   ],
   "note": "False of the code as stated, with a proved counterexample: [C35_pixel_area_fails] C35 fails: on a detector with pixels of side 1/2 an element well inside the beam, projecting on the middle of the detector, is rendered with a quarter of `intensity \u00d7 volume`. Proved part: [C35_macro_total_partial] C35, up to the area of a pixel: when the illuminated parts of all hits project well inside the detector, each frame contains the sum over its peaks of `intensity \u00d7 illuminated volume`, multiplied by the area of a pixel. Missing: the factor should not be there, see `C35_pixel_area_fails`. [C35_macro_total_full_elements_partial] The same in terms of the table: elements entirely inside the beam, whose volume is recorded in the table. Also proved in full: C35_total_iff."
  },
  {
   "property": "C36",
   "status": "partial",
   "theorems": [
    "XRD.C36_clip_length_partial",
    "XRD.C36_through_inner_point",
    "XRD.C36_parallel_face_fails",
    "XRD.C36_clip_value",
    "XRD.C36_clip_right_iff"
   ],
   "note": "False of the code as stated, with a proved counterexample: [C36_parallel_face_fails] C36 fails for a line outside a face plane parallel to it: the line misses the polyhedron and is clipped to length 19/10. Proved part: [C36_clip_length_partial] C36, for lines that are on the inner side of every face plane parallel to them, in particular for every line that meets the polyhedron and for every direction that is parallel to no face: the clip length is the length of the chord, a chord of at most `10\u207b\u00b9\u00b2` counting as none. Missing: a line outside a face plane parallel to it (`C36_parallel_face_fails`). Also proved in full: C36_through_inner_point, C36_clip_value, C36_clip_right_iff."
  },
  {
   "property": "C37",
   "status": "partial",
   "theorems": [
    "XRD.C37_wrapping_cone_partial",
    "XRD.C37_wrapping_cone_fails"
   ],
   "note": "False of the code as stated, with a proved counterexample: [C37_wrapping_cone_fails] C37 fails as stated: for a detector behind the sample the centre is seen at `180\u00b0`, outside the cone of the corners. Proved part: [C37_wrapping_cone_partial] C37 (partial): when the wrapping cone bound is at most `45\u00b0` (every detector corner is seen within `90\u00b0` of the wave vector), every point of the detector is seen within twice the bound. Missing for the full property: larger cones, for which it is false, see `C37_wrapping_cone_fails`."
  },
  {
   "property": "C38",
   "status": "partial",
   "theorems": [
    "XRD.C38_limits_used",
    "XRD.C38_maximum_without_influence",
    "XRD.C38_bragg_limits_partial",
    "XRD.C38_user_maximum_ignored_fails",
    "XRD.C38_limits_of_strained",
    "XRD.C38_strained_below_fails"
   ],
   "note": "False of the code as stated, with a proved counterexample: [C38_user_maximum_ignored_fails] C38 is false when a detector is passed: with `max_bragg_angle` 10 degrees a peak at 45 degrees is returned. [C38_strained_below_fails] **C38 fails** for strained crystals even without a detector: a crystal strained by one per cent returns a peak below the user's lower Bragg limit. Proved part: [C38_bragg_limits_partial] C38, proved part: without a detector, every peak of an unstrained crystal (after any history of transforms) has its Bragg angle between the user's limits; with a detector the lower limit is respected, and the upper one is the detector's wrapping cone. Missing: the user's upper limit is dropped when a detector is passed (`C38_user_maximum_ignored_fails`), and a strained element's Bragg angle may leave the limits, which are applied to the unstrained lattice. Also proved in full: C38_limits_used, C38_maximum_without_influence, C38_limits_of_strained."
  },
  {
   "property": "C39",
   "status": "proved",
   "theorems": [
    "XRD.C39_diffract_filters_and_numbers"
   ],
   "note": "Proved in full. [C39_diffract_filters_and_numbers] C39: `diffract` returns, in order, exactly the computed peaks whose source point is strictly inside every beam half-space; `peak_index` counts 0,1,2,...; rows are as long as the list of (distinct) column names."
  },
  {
   "property": "C40",
   "status": "proved",
   "theorems": [
    "XRD.C40_diffract_history_independent",
    "XRD.C40_object_level_agrees"
   ],
   "note": "Proved in full. [C40_diffract_history_independent] C40: the outcome of a `diffract` call (dictionary or exception) after any history of `diffract` and `transform` calls on any polycrystals, sharing phases in any way, is the outcome after only the transforms of that polycrystal. [C40_object_level_agrees] The value-level `diffract` used in the other theorems is the object-level one."
  },
  {
   "property": "C41",
   "status": "partial",
   "theorems": [
    "XRD.C41_micro_nano_partial",
    "XRD.C41_auto_partial",
    "XRD.C41_untouched_partial",
    "XRD.C41_macro_follows_transform_fails"
   ],
   "note": "False of the code as stated, with a proved counterexample: [C41_macro_follows_transform_fails] C41 fails: `transform` after `diffract` changes the macro image of the dictionary that `diffract` returned; here from a nonempty image to an empty one. Proved part: [C41_micro_nano_partial] C41 (partial): with `micro` and `nano`, the image of a dictionary does not depend on what happens after `diffract` returned. Missing: `macro` and `auto`, see `C41_macro_follows_transform_fails`. [C41_auto_partial] C41 (partial): with `auto`, if no element is as large as the macro limit. [C41_untouched_partial] C41 (partial): with any method, as long as the same polycrystal is not transformed."
  },
  {
   "property": "C42",
   "status": "proved",
   "theorems": [
    "XRD.C42_peaks_use_own_phase",
    "XRD.C42_source_and_volume"
   ],
   "note": "Proved in full. [C42_peaks_use_own_phase] C42: each peak's element belongs to the peak's phase, its Miller indices and weight are those of one plane of that phase (weight 1 without structure factors, else the squared modulus, above `1e-6`), and its `G0` is `U B hkl` of that element. [C42_source_and_volume] the other per-element columns: source point and volume are those of the peak's own element"
  },
  {
   "property": "C43",
   "status": "partial",
   "theorems": [
    "XRD.C43_map_usable_iff",
    "XRD.C43_default_map_cannot_diffract_fails",
    "XRD.C43_given_map_partial"
   ],
   "note": "False of the code as stated, with a proved counterexample: [C43_default_map_cannot_diffract_fails] C43 is false: a polycrystal constructed without a phase map (the documented default for one phase) can never be diffracted; every call that passes the angle limits raises `TypeError`. Proved part: [C43_given_map_partial] C43 (partial): with a phase map given to the constructor, `diffract` (without detector) never fails because of the map; it fails only in the single-reflection case of C60. Also proved in full: C43_map_usable_iff."
  },
  {
   "property": "C44",
   "status": "partial",
   "theorems": [
    "XRD.C44_polycrystal_iff",
    "XRD.C44_other_files_untouched",
    "XRD.C44_motion",
    "XRD.C44_detector",
    "XRD.C44_beam",
    "XRD.C44_polycrystal_partial",
    "XRD.C44_load_rejects",
    "XRD.C44_default_map_fails"
   ],
   "note": "False of the code as stated, with a proved counterexample: [C44_default_map_fails] C44 fails: a polycrystal constructed with the default phase map does not load back equal: the original cannot be diffracted (`TypeError`), the loaded one can. Proved part: [C44_polycrystal_partial] C44 (partial): the same for a polycrystal that was given its phase map; missing: polycrystals with the default map. Also proved in full: C44_polycrystal_iff, C44_other_files_untouched, C44_motion, C44_detector, C44_beam, C44_load_rejects."
  },
  {
   "property": "C45",
   "status": "partial",
   "theorems": [
    "XRD.C45_beside_iff",
    "XRD.C45_beside_partial",
    "XRD.C45_dotted_path_fails",
    "XRD.C45_overwrites_fails"
   ],
   "note": "False of the code as stated, with a proved counterexample: [C45_dotted_path_fails] C45 fails for every other path: if the path ends in `.pc` and its stem contains a dot (`./sample.pc`, `run.1.pc`, `/data.v2/sample.pc`), nothing is written beside the `.pc` file: the visualisation goes to the part of the path before its first dot. [C45_overwrites_fails] C45 fails: two polycrystals saved as `run.1.pc` and `run.2.pc` share the visualisation file `run.xdmf`; the second save overwrites the first polycrystal's visualisation. Proved part: [C45_beside_partial] C45 (partial): the `.pc` file and the `.xdmf` file share their stem if the path has no extension `.pc`, or if its only dot is the one of the extension. Missing: paths with another dot, such as `./sample.pc`. Also proved in full: C45_beside_iff."
  },
  {
   "property": "C46",
   "status": "proved",
   "theorems": [
    "XRD.C46_validated",
    "XRD.C46_value",
    "XRD.C46_history"
   ],
   "note": "Proved in full. [C46_validated] C46: a call succeeds exactly for the documented names (any case, surrounding white space); any other name raises `ValueError` and leaves the selected device and the torch default alone. [C46_value] C46: which device a successful call returns: `cuda` exactly when CUDA is available and the name asks for it (explicitly, or automatically with CUDA seen available); never `cuda` without CUDA. [C46_history] C46: for every history of calls from import, whatever CUDA's availability does meanwhile, the selected device is the torch default and is the value returned by the last successful call (`cpu` before any); and it is `cuda` only if CUDA was available at some call."
  },
  {
   "property": "C47",
   "status": "proved",
   "theorems": [
    "XRD.C47_geometry",
    "XRD.C47_missing_key"
   ],
   "note": "Proved in full. [C47_geometry] C47: for every dictionary holding positive distance, pixel counts, pixel sizes, wavelength and beam sizes, any centre pixel and an acceptable rotation, `s3dxrd` succeeds. The beam runs along `+x` with the given wavelength and `y` polarization, inside the box of the given side lengths, centred on the origin; the detector is the plane `x = distance`, with axes `z` and `y`, the requested pixel sizes, number of pixels and extent, and normal opposite to the beam; the ray from the beam centre along the beam meets it at the requested centre pixel; the motion rotates by the step about the axis and does not translate. [C47_missing_key] C47: if a documented key is missing, `s3dxrd` raises `ValueError` naming the first missing one, whatever else the dictionary holds; it raises that error only then."
  },
  {
   "property": "C48",
   "status": "proved",
   "theorems": [
    "XRD.C48_volume",
    "XRD.C48_bins",
    "XRD.C48_orientations",
    "XRD.C48_succeeds",
    "XRD.C48_uniform"
   ],
   "note": "Proved in full. [C48_volume] C48 (every separation): for every bin separation in `(0, \u03c0]` there is a whole number `N` of bins per quarter turn, the bins have width `\u03c0/(2N)`, not more than the separation asked for, and the volumes of all bins add up to `\u03c0\u00b2` within `1e-5`, so the internal assertion never fires. [C48_bins] C48 (number of bins): for every separation in `(4e-8, \u03c0]` the three angles have `N`, `2N` and `4N` bins, `8N\u00b3` altogether, where `N` is the whole part of `\u03c0 / sep`; the bin centres are equidistant with the bins side by side starting at `1e-8`, and every bin has positive volume. (Below `4e-8` the offset `1e-8` exceeds half a bin; more than `10\u00b2\u00b3` bins would be needed.) [C48_orientations] C48 (sampled orientations): whenever `_sample_ODF` returns, it returns one matrix per coordinate, each of them a proper rotation, namely the rotation of a unit quaternion whose three angles lie within half a bin of the centre of the drawn bin. [C48_succeeds] C48 (success): for every separation in `(4e-8, \u03c0]` and every nonnegative density whose bin sum is 1 within 5% at every coordinate, sampling succeeds for every sequence of draws. [C48_uniform] the uniform density `1/\u03c0\u00b2` meets the hypotheses for every separation: sampling succeeds"
  },
  {
   "property": "C49",
   "status": "proved",
   "theorems": [
    "XRD.C49_powder"
   ],
   "note": "Proved in full. [C49_powder] C49: for every positive radius, every number of grains, every orientation sample and every symmetric feasible strain the powder sample is built. Every element has four valid node indices; its four corners are, in some order, the same four points for every grain, all at the distance `r` from the origin; its volume is nonzero, the same for all grains; grain `g` has the `g`-th random orientation, the strain given, and the phase given."
  },
  {
   "property": "C50",
   "status": "proved",
   "theorems": [
    "XRD.C50_watertight",
    "XRD.C50_points",
    "XRD.C50_volume"
   ],
   "note": "Proved in full. [C50_watertight] C50: for every `n \u2265 3` all indices of the facets are indices of points, every facet has three different corners, and every edge (two different corners of a facet) belongs to exactly two facets, counted with multiplicity: the surface is watertight. [C50_points] C50: the number of points per circle is at least 8 for every sample size, and all points lie in the closed cylinder, those of the circles on its rim. [C50_volume] C50: the surface encloses the prism of the given height over the regular polygon inscribed in the given circle: seen from the centre, its triangles span exactly the volume of that prism."
  },
  {
   "property": "C51",
   "status": "partial",
   "theorems": [
    "XRD.C51_covered_iff",
    "XRD.C51_covered_partial",
    "XRD.C51_within",
    "XRD.C51_leaving_at_end_fails",
    "XRD.C51_api_partial"
   ],
   "note": "False of the code as stated, with a proved counterexample: [C51_leaving_at_end_fails] C51 fails: a sphere that is in the beam at samples 0, 1 and 2 and has left it at the last sample 3 gets the single interval from sample 0 to sample 1; sample 2 is in no interval. Proved part: [C51_covered_partial] C51 (partial): for every mask of three or more samples, every candidate sample is covered by one of the returned intervals, provided the sphere is not a candidate at the last but one sample and no candidate at the last one. [C51_api_partial] C51 on the API: for every accepted motion, beam and spheres of positive radius, all returned intervals lie in `[0,1]`, and every sample time at which a sphere is a candidate lies in one of its intervals, unless the sphere is a candidate at the last but one sample and not at the last. Also proved in full: C51_covered_iff, C51_within."
  },
  {
   "property": "C52",
   "status": "partial",
   "theorems": [
    "XRD.C52_sampling_partial",
    "XRD.C52_step_too_large_fails",
    "XRD.C52_conservative_partial",
    "XRD.C52_masked_out_fails"
   ],
   "note": "False of the code as stated, with a proved counterexample: [C52_step_too_large_fails] C52 fails: the documented steps are exceeded. For a rotation of 2.5 degrees and a translation of 1.45 radii there are 3 samples; the step is 1.25 degrees and 0.725 radii. [C52_masked_out_fails] C52 fails: with a translation across the rotation axis a sphere whose centre is moved onto the very centre of the beam at the last sample is masked out there. Quarter turn about z with translation (30,0,0); the beam is the cube `[-10,10]\u00b3`. Proved part: [C52_sampling_partial] C52 (partial), sampling: there are at least 3 samples, the first at time 0 and the last at time 1; between consecutive samples no component of the translation moves a sphere by more than 3/4 of the smallest radius, and the rotation is at most 1.5 degrees. The documentation promises half the radius and 1 degree. [C52_conservative_partial] C52 (partial), conservative: let the translation be along the rotation axis (or zero), and let the hull equations of the moved beam be exact up to `\u03b5`. If a sphere touches the beam at a time `t`, with a margin for `\u03b5`, it is a candidate at that time."
  },
  {
   "property": "C53",
   "status": "proved",
   "theorems": [
    "XRD.C53_formula",
    "XRD.C53_unknown_atom",
    "XRD.C53_friedel",
    "XRD.C53_lattice_shift",
    "XRD.C53_additive",
    "XRD.C53_order"
   ],
   "note": "Proved in full. [C53_formula] **C53.** The batch of structure factors is, reflection by reflection and in the given order, the real and imaginary part of the sum over atoms and symmetry operations of site population \u00d7 temperature factor \u00d7 (f + f' + i f'') \u00d7 exp(2\u03c0i h\u00b7(R x + t)). [C53_unknown_atom] **C53.** An atom type missing from the form factor table is a `KeyError`, whatever else is asked for. [C53_friedel] **C53.** Friedel's law: without imaginary dispersion the structure factors of the inverted reflections are the complex conjugates. [C53_lattice_shift] **C53.** Moving every atom by its own lattice vector changes no structure factor, when the reflections and the rotation parts are integer. [C53_additive] **C53.** The structure factors of two groups of atoms together are the sums of the structure factors of each. [C53_order] **C53.** The order in which the atoms are listed does not matter."
  },
  {
   "property": "C54",
   "status": "proved",
   "theorems": [
    "XRD.C54_tensor_of_vector",
    "XRD.C54_vector_of_tensor"
   ],
   "note": "Proved in full. [C54_tensor_of_vector] C54: the tensor of the vector of a symmetric tensor is that tensor. [C54_vector_of_tensor] C54: the vector of the tensor of six components is those components, and the tensor is symmetric; anything but six components is rejected."
  },
  {
   "property": "C55",
   "status": "partial",
   "theorems": [
    "XRD.C55_returned_partial",
    "XRD.C55_total_partial",
    "XRD.C55_last_bin_lost_fails",
    "XRD.C55_bins",
    "XRD.C55_margin",
    "XRD.C55_total_iff"
   ],
   "note": "False of the code as stated, with a proved counterexample: [C55_last_bin_lost_fails] C55 fails: for a 4 by 4 pattern around a beam centre in its corner pixel, the light of the opposite corner pixel is lost: the returned histogram sums to 0. Proved part: [C55_returned_partial] C55, what is returned: everything except the intensity of the pixels nearest to the last bin. [C55_total_partial] C55 (partial): if every lit pixel is nearer to the centre than one and a half bins before the end of the bins, the returned histogram sums to the total of the pattern. Missing: patterns with intensity further out. Also proved in full: C55_bins, C55_margin, C55_total_iff."
  },
  {
   "property": "C56",
   "status": "proved",
   "theorems": [
    "XRD.C56_shape_from_n_pixels",
    "XRD.C56_shape_from_pixel_size",
    "XRD.C56_pixel_position",
    "XRD.C56_both_or_neither_rejected",
    "XRD.C56_one_number_for_both",
    "XRD.C56_accepts"
   ],
   "note": "Proved in full. [C56_shape_from_n_pixels] C56: with `n_pixels = (n_z, n_y)` the frame shape is `n_z` by `n_y` and the pixel sizes divide the sides equally. [C56_shape_from_pixel_size] C56: with pixel sizes given, every pixel origin is on the detector and the pixels cover it. [C56_pixel_position] C56: pixel `(i,j)` sits at `det_corner_0 + i pz zdhat + j py ydhat`, `zdhat` and `ydhat` being the unit vectors from `det_corner_0` to `det_corner_2` and `det_corner_1`. [C56_both_or_neither_rejected] C56: giving both or neither of `n_pixels` and `pixel_size` is a `ValueError`, whatever the other arguments. [C56_one_number_for_both] C56: one number for `n_pixels` or `pixel_size` means that number for both axes: the constructor does the same as for the pair with equal entries, on every input. [C56_accepts] C56: with positive pixel counts or sizes and corners that are not on one line, the detector is built; its sides are the distances between the corners, and the switches and kernel settings are the ones given."
  },
  {
   "property": "C57",
   "status": "partial",
   "theorems": [
    "XRD.C57_contained",
    "XRD.C57_interior_partial",
    "XRD.C57_interior_six_decimals",
    "XRD.C57_solver_point",
    "XRD.C57_rounding_margin",
    "XRD.C57_interior_margin",
    "XRD.C57_rounding_fails",
    "XRD.C57_singular_fails",
    "XRD.C57_moved_off_the_facets",
    "XRD.C57_corner_found"
   ],
   "note": "False of the code as stated, with a proved counterexample: [C57_rounding_fails] **C57 fails** as stated: for this element the facets are rounded past the interior point, the half-space intersection is asked to start from a point outside the half-spaces, and with qhull, which refuses such points, the call raises although beam and element overlap. [C57_singular_fails] **C57 fails** for a correct solver answer that lies on a single facet: the system that should push it inwards is singular and the call raises although beam and polyhedron overlap. Proved part: [C57_interior_partial] **C57** (partial). The half-space intersection only ever sees points strictly inside the beam and inside the polyhedron: replacing its behaviour at all other points changes no result, whatever the solver answers. What is missing: \"strictly inside the polyhedron\" is stated for the facet equations that are handed over if the solver found the point, and for the exact facets otherwise; the two differ by the rounding to six decimals (see `C57_rounding_fails`). Also proved in full: C57_contained, C57_interior_six_decimals, C57_solver_point, C57_rounding_margin, C57_interior_margin, C57_moved_off_the_facets, C57_corner_found."
  },
  {
   "property": "C58",
   "status": "proved",
   "theorems": [
    "XRD.C58_micro",
    "XRD.C58_nano",
    "XRD.C58_macro"
   ],
   "note": "Proved in full. [C58_micro] C58: for fewer than 10^15 peaks, no progress call of a micro rendering fails, and every printed bar is 40 wide. [C58_nano] C58: the same for a nano rendering, whatever batches the free memory leads to. [C58_macro] C58: the same for a macro rendering."
  },
  {
   "property": "C59",
   "status": "proved",
   "theorems": [
    "XRD.C59_constructor_broadcasts",
    "XRD.C59_constructor_rejects",
    "XRD.C59_lattice_matrix_of_own_phase"
   ],
   "note": "Proved in full. [C59_constructor_broadcasts] C59: a `(3,3)` orientation and strain are repeated for every element, an `(N,3,3)` one is used as it is; each element is given the lattice matrix of its own strain and its own phase, and elements of no phase get zero. [C59_constructor_rejects] C59: any other shape of orientation or strain, a batch of the wrong length, and several phases without a map raise `ValueError`. [C59_lattice_matrix_of_own_phase] C59: each element of a listed phase gets the lattice matrix of its own strain (in crystal coordinates) and of that phase's unit cell."
  },
  {
   "property": "C60",
   "status": "partial",
   "theorems": [
    "XRD.C60_fails_iff",
    "XRD.C60_other_counts_partial",
    "XRD.C60_single_reflection_fails"
   ],
   "note": "False of the code as stated, with a proved counterexample: [C60_single_reflection_fails] C60 is false: for a crystal that the constructor accepts and that has exactly one reflection during the rotation (one element, one plane, exactly one time in `[0,1]` at which the Laue condition holds), `diffract` raises `IndexError`. Proved part: [C60_other_counts_partial] C60 (partial): with any number of reflections other than one, `diffract` without detector returns a dictionary. Also proved in full: C60_fails_iff."
  },
  {
   "property": "C61",
   "status": "partial",
   "theorems": [
    "XRD.C61_lattice_lengths_iff",
    "XRD.C61_lattice_lengths_partial",
    "XRD.C61_lattice_lengths_fails"
   ],
   "note": "False of the code as stated, with a proved counterexample: [C61_lattice_lengths_fails] C61 is false in general: for a shear strain the squared length of a strained lattice vector is not the prescribed one. Proved part: [C61_lattice_lengths_partial] C61 (partial): for a strain without shear in the crystal frame the strained real-space lattice vectors have the squared length `|a|\u00b2 + 2 a\u00b7\u03b5 a` prescribed by the (Green-Lagrange) strain, `a` the unstrained lattice vector. Missing: strains with shear, for which the claim is false (`C61_lattice_lengths_fails`). Also proved in full: C61_lattice_lengths_iff."
  },
  {
   "property": "C62",
   "status": "partial",
   "theorems": [
    "XRD.C62_intersect_again",
    "XRD.C62_same_hits",
    "XRD.C62_render_again",
    "XRD.C62_other_detector_fails",
    "XRD.C62_other_frames_fails"
   ],
   "note": "False of the code as stated, with a proved counterexample: [C62_other_detector_fails] C62 (and the claim that a returned dictionary can be projected on another detector) fails: a peak that never meets the detector upstream of the sample is reported as one of its hits when the dictionary passed through another detector before. [C62_other_frames_fails] C62 (and the claim that a returned dictionary can be split into frames) fails: rendering in two frames the dictionary that a one-frame rendering returned leaves frame 1 empty, although the peak diffracts in the second half. Also proved in full: C62_intersect_again, C62_same_hits, C62_render_again."
  },
  {
   "property": "C63",
   "status": "proved",
   "theorems": [
    "XRD.C63_phase_setup_is_last_setup"
   ],
   "note": "Proved in full. [C63_phase_setup_is_last_setup] C63: whatever set-ups a phase went through before, after a set-up its Miller indices are those generated for its own unit cell and space group between the given limits, and it has one structure factor per Miller index if it has a structure file and none otherwise."
  },
  {
   "property": "C64",
   "status": "partial",
   "theorems": [
    "XRD.C64_sliver_fails",
    "XRD.C64_macro_nan_iff",
    "XRD.C64_macro_finite_partial"
   ],
   "note": "False of the code as stated, with a proved counterexample: [C64_sliver_fails] C64 fails: the projection of the sliver spans eight pixels, no pixel corner lies in it, all clip lengths are zero, and the normalisation divides zero by zero. Proved part: [C64_macro_finite_partial] C64, for elements projecting on whole pixels that are seen by the rays that are traced: the projection stays inside one pixel, or both the samples drawn contain a point, and the pixel corners contain a corner, whose line along the scattered direction has a chord longer than `10\u207b\u00b9\u00b2` in the illuminated part. Then macro rendering returns finite pixels. Missing: slender elements that no pixel corner sees, see `C64_sliver_fails`. Also proved in full: C64_macro_nan_iff."
  },
  {
   "property": "C65",
   "status": "partial",
   "theorems": [
    "XRD.C65_macro_fails_iff",
    "XRD.C65_overhang_fails",
    "XRD.C65_missing_rays_fails",
    "XRD.C65_rays_exactly",
    "XRD.C65_macro_no_failure_partial",
    "XRD.C65_rays_in_their_pixels_partial"
   ],
   "note": "False of the code as stated, with a proved counterexample: [C65_overhang_fails] C65 fails: the peak hits the detector, its element overhangs it; when one of the sampled points of the element lies two pixels outside, macro rendering raises `IndexError`. [C65_missing_rays_fails] C65 fails, second part: rays of sampled points that miss the detector by less than two pixels are added to pixels of the box. Here no sampled ray hits the detector and the whole volume is distributed over the box. Proved part: [C65_macro_no_failure_partial] C65, for elements whose illuminated part projects on whole pixels of the detector: macro rendering of the hits does not fail, whatever points the sampler draws in the hulls. Missing: elements that overhang the detector, see `C65_overhang_fails`. [C65_rays_in_their_pixels_partial] C65, second part: with two to four pixels in the box, the part of the volume given to a pixel is the part of the clip lengths contributed by those sampled rays that hit this very pixel. Also proved in full: C65_macro_fails_iff, C65_rays_exactly."
  },
  {
   "property": "C66",
   "status": "proved",
   "theorems": [
    "XRD.C66_nano_never_creates_intensity"
   ],
   "note": "Proved in full. [C66_nano_never_creates_intensity] C66: a nano rendering that succeeds has non-negative pixels, its pixel total is at most the sum of intensity times volume over the hits, and every frame holds at most the power of its own hits."
  },
  {
   "property": "C67",
   "status": "partial",
   "theorems": [
    "XRD.C67_nano_succeeds_iff",
    "XRD.C67_nano_succeeds_partial",
    "XRD.C67_torch_cat_fails"
   ],
   "note": "False of the code as stated, with a proved counterexample: [C67_torch_cat_fails] C67 is false in general: two peaks with first dark rings at 36/17 and 1/10 pixels in the same batch. The first kernel has 18 samples per side, the second is padded to 19, and `torch.cat` raises RuntimeError. Proved part: [C67_nano_succeeds_partial] C67, restricted: a nano rendering returns an image when all first dark rings are within two pixels, and also when no free memory is reported (every peak is then its own batch). Missing: mixed batches with larger rings, for which the claim is false (`C67_torch_cat_fails`). Also proved in full: C67_nano_succeeds_iff."
  },
  {
   "property": "C68",
   "status": "proved",
   "theorems": [
    "XRD.C68_from_odf"
   ],
   "note": "Proved in full. [C68_from_odf] C68: whatever mesh the mesher returns and whatever is drawn, if `polycrystal_from_odf` returns a sample then its mesh is the mesher's answer for the cylinder of the given height and radius (with at least 8 points per circle), every element has its own orientation, a proper rotation, the strain of the strain field at the mean of its four corners, and the single phase given."
  },
  {
   "property": "C69",
   "status": "proved",
   "theorems": [
    "XRD.C69_equivalent",
    "XRD.C69_absence"
   ],
   "note": "Proved in full. [C69_equivalent] **C69.** Symmetry-equivalent reflections `h` and `h R` have the same squared structure factor, the quantity that enters the intensity. [C69_absence] **C69.** Systematic absences: a reflection that a symmetry operation maps to itself while its translation part shifts the phase by a fraction of a turn has structure factor zero."
  },
  {
   "property": "C70",
   "status": "proved",
   "theorems": [
    "XRD.C70_region"
   ],
   "note": "Proved in full. [C70_region] **C70.** When the facet equations of the polyhedron have at most six decimals and qhull is faithful, a returned hull describes exactly the points that lie both in the polyhedron and in the beam."
  },
  {
   "property": "C71",
   "status": "proved",
   "theorems": [
    "XRD.C71_samples_inside",
    "XRD.C71_sample_count",
    "XRD.C71_strictly_inside",
    "XRD.C71_probabilities",
    "XRD.C71_tetrahedron_equal"
   ],
   "note": "Proved in full. [C71_samples_inside] C71: every sample lies in the convex hull of the points, for all values of the draws. [C71_sample_count] C71: the number of samples. [C71_strictly_inside] C71: a sample is strictly inside every facet of the hull when the draws give the centre a positive weight. [C71_probabilities] C71: the probabilities are non-negative and add up to one, for a polyhedron with some volume. [C71_tetrahedron_equal] C71: the four parts of a tetrahedron are chosen with equal probability."
  },
  {
   "property": "C72",
   "status": "partial",
   "theorems": [
    "XRD.C72_peaks_in_another_frame",
    "XRD.C72_hits_and_micro_image_in_another_frame",
    "XRD.C72_all_images_in_another_frame_partial",
    "XRD.C72_nano_image_fails"
   ],
   "note": "False of the code as stated, with a proved counterexample: [C72_nano_image_fails] C72 is false of the `nano` images: the renderer takes the distance from the laboratory origin to the first detector corner for the distance from sample to detector. Two peaks that make the renderer raise RuntimeError are rendered without error once the experiment (detector and source points) is turned and shifted so that this corner is half as far from the origin. Proved part: [C72_all_images_in_another_frame_partial] C72, proved part for the other renderers: the image of `macro` (given the moved polyhedra and sample points) is the same in both frames, and so are those of `nano` and `auto` if the move keeps the distance of the first detector corner from the laboratory origin, for example a rotation about the origin. Missing: other moves, for which the `nano` image changes (`C72_nano_image_fails`). Also proved in full: C72_peaks_in_another_frame, C72_hits_and_micro_image_in_another_frame."
  },
  {
   "property": "C73",
   "status": "partial",
   "theorems": [
    "XRD.C73_second_part_iff",
    "XRD.C73_first_part",
    "XRD.C73_second_part_partial",
    "XRD.C73_second_part_fails"
   ],
   "note": "False of the code as stated, with a proved counterexample: [C73_second_part_fails] C73, what is missing from `C73_second_part_partial`: a crystal, beam and motion for which the second half of the scan reports peaks although the whole scan reports none. Proved part: [C73_second_part_partial] C73, proved part: the second part of a scan. The crystal is scanned with the motion `m` of angle `w` and translation `T`; and, after being moved by the first part (angle `l\u00b7w`, translation `l\u00b7T`), with the second part of it (angle `(1-l)\u00b7w`, translation `(1-l)\u00b7T`, rotation centre moved along). Each peak of the whole scan later than `l` is a peak of the second part and each peak of the second part is a peak of the whole scan, with the same values in all columns but time, `G0` and running number; provided the reflection is not one that would satisfy the Laue condition half a turn after the start of the other scan. Missing: those reflections, for which the claim is false (`C73_second_part_fails`). Also proved in full: C73_second_part_iff, C73_first_part."
  },
  {
   "property": "C74",
   "status": "proved",
   "theorems": [
    "XRD.C74_part_of_sample"
   ],
   "note": "Proved in full. [C74_part_of_sample] C74: a sample made of some of the elements (any increasing list `js` of element numbers, the nodes kept) with the orientations, strains and phase numbers of those elements can be built whenever the whole sample can; moved by the same history of motions and scanned with the same beam, motion and Bragg limits, it reports exactly the peaks the whole sample reports for those elements, in the same order and with the same values in every column but the element number and the running number. If the limits come from a detector, some node has to be in the beam."
  },
  {
   "property": "C75",
   "status": "partial",
   "theorems": [
    "XRD.C75_mesh_owns_its_data",
    "XRD.C75_beam_owns_its_data",
    "XRD.C75_polycrystal_owns_its_data_partial",
    "XRD.C75_kept_orientation_fails",
    "XRD.C75_motion_owns_its_data_partial",
    "XRD.C75_kept_translation_fails",
    "XRD.C75_kept_axis_inverse_fails",
    "XRD.C75_detector_owns_its_data_partial",
    "XRD.C75_kept_corner_fails",
    "XRD.C75_construction_by_value"
   ],
   "note": "False of the code as stated, with a proved counterexample: [C75_kept_orientation_fails] C75 (polycrystals, the missing part is false). When orientations are passed as an `(N,3,3)` float64 array on the default device, a later write `Us` into that array replaces the polycrystal's lab orientations, with which `diffract` computes, while the sample orientations and the strained lattices (`_eB`), computed from the old orientations, stay. [C75_kept_translation_fails] C75 (motions, the missing part is false). When the translation is a float64 array on the default device, a later write into that array changes the translation of the motion. [C75_kept_axis_inverse_fails] C75 (motions, the missing part is false, second form). The rotation axis array `[0,0,1]` is later overwritten with `[1,0,0]`. The motion still rotates about `[0,0,1]`, but `inverse` now rotates about `-[1,0,0]`: it succeeds and does not undo the motion. [C75_kept_corner_fails] C75 (detectors, the missing part is false). When the first corner is a float64 array on the default device, a later write into that array moves this corner, from which pixel positions and ray intersections are computed, and nothing else: the axes, the normal and the sizes remain those of the old corners. Proved part: [C75_polycrystal_owns_its_data_partial] C75 (polycrystals, partial). A polycrystal built from a mesh and the caller's arrays shares nothing with the mesh it was given, its two meshes share nothing with each other, no call writes into a caller's array, and an edit by the caller of any array other than a kept one changes nothing: in every such script the mesh, the polycrystal and the caller's arrays are what plain values would be. Missing for the full property: edits of the arrays that were passed as `(N,3,3)` float64 orientations or strains, or as float64 phase map, on the default device (`C75_kept_orientation_fails`). [C75_motion_owns_its_data_partial] C75 (motions, partial). Constructing a motion leaves the caller's arrays alone; later edits of arrays it did not keep change neither the motion nor what `inverse` returns. Missing: edits of the float64 arrays on the default device that were passed as axis, angle, translation or origin (`C75_kept_translation_fails`, `C75_kept_axis_inverse_fails`). [C75_detector_owns_its_data_partial] C75 (detectors, partial). Constructing a detector leaves the caller's arrays alone, and later edits of arrays it did not keep do not change it. Missing: edits of corners passed as float64 arrays on the default device (`C75_kept_corner_fails`). Also proved in full: C75_mesh_owns_its_data, C75_beam_owns_its_data, C75_construction_by_value."
  },
  {
   "property": "C76",
   "status": "partial",
   "theorems": [
    "XRD.C76_ray_point_sound",
    "XRD.C76_ray_point_complete",
    "XRD.C76_pixel_coords_sound",
    "XRD.C76_pixel_coords_complete",
    "XRD.C76_bragg_angle",
    "XRD.C76_bragg_angle_domain",
    "XRD.C76_path_length_fails"
   ],
   "note": "False of the code as stated, with a proved counterexample: [C76_path_length_fails] C76 is false for the path length helper: whatever the detector, the ray and the hull, the call raises (unless Qhull already fails on the hull's points, when it returns zero): no path length is ever returned. The direction is passed to the clipping routine with an extra axis. Also proved in full: C76_ray_point_sound, C76_ray_point_complete, C76_pixel_coords_sound, C76_pixel_coords_complete, C76_bragg_angle, C76_bragg_angle_domain."
  },
  {
   "property": "C77",
   "status": "partial",
   "theorems": [
    "XRD.C77_smallest_spheres_partial",
    "XRD.C77_within_circumsphere",
    "XRD.C77_spheres_unbounded_fails",
    "XRD.C77_smallest_iff"
   ],
   "note": "False of the code as stated, with a proved counterexample: [C77_spheres_unbounded_fails] C77 (the missing part is false). The radius of the bounding sphere is not within any fixed factor of that of the smallest ball containing the element: for every `K` there is a mesh of one element of nonzero volume which lies in a ball of radius `r'` while its bounding sphere has radius at least `K r'`, and a centre further than `K r'` from all four vertices. Proved part: [C77_smallest_spheres_partial] C77 (partial). For every element of every mesh that can be built, with vertices `t`, bounding sphere centre `c` and radius `r`: either `c` is a point of the element and `r` is at most 1.0001 times the radius of any ball that contains the element, or `c` is outside the element and the sphere is 1.0001 times the sphere through all four vertices. Missing: in the second case the radius is not the smallest, see `C77_spheres_unbounded_fails`. Also proved in full: C77_within_circumsphere, C77_smallest_iff."
  },
  {
   "property": "C78",
   "status": "proved",
   "theorems": [
    "XRD.C78_smaller_beam_filters",
    "XRD.C78_beam_tiles"
   ],
   "note": "Proved in full. [C78_smaller_beam_filters] C78: with a smaller beam of the same direction, wavelength and polarization, `diffract` succeeds or fails in the same way, leaves the polycrystal in the same state, and reports exactly those rows of the larger beam's table, in order, whose source point is inside the smaller beam (only the running number in the last column differs). [C78_beam_tiles] C78: tiling a beam. Two smaller beams with disjoint insides give together, up to order and running number, exactly the peaks of the large beam, except the peaks whose source point is inside neither of them (if the two tile the large beam, those are the ones with the source point on the common boundary)."
  },
  {
   "property": "C79",
   "status": "partial",
   "theorems": [
    "XRD.C79_inside_reported_partial",
    "XRD.C79_well_centred_partial",
    "XRD.C79_element_inside_fails",
    "XRD.C79_reported_iff"
   ],
   "note": "False of the code as stated, with a proved counterexample: [C79_element_inside_fails] C79 is false of the code: an element, all of whose vertices stay strictly inside the beam `b` during the whole scan, and which has a reflection that the larger beam `b'` of the same direction, wavelength and polarization shows, contributes no peak with `b`. The element is flat: the centre of its bounding sphere lies outside it, and outside `b`. Proved part: [C79_inside_reported_partial] C79 (partial). Take any peak that some beam `b'` of the same direction, wavelength and polarization shows, of element `e` at time `t`. If at that time the four vertices of the element are strictly inside the beam `b`, and the centre of the element's bounding sphere is a point of the element, then `b` shows the same peak. Missing: elements that do not contain the centre of their bounding sphere, for which the claim is false (`C79_element_inside_fails`). [C79_well_centred_partial] C79 (partial), in terms of the element alone: it is enough that the centre of the sphere through the four vertices of the element, where they are when `diffract` is called, is a point of the element (the crystal may have been moved any number of times before). Missing: flat elements, see `C79_element_inside_fails`. Also proved in full: C79_reported_iff."
  },
  {
   "property": "C80",
   "status": "partial",
   "theorems": [
    "XRD.C80_micro_shift_partial",
    "XRD.C80_micro_shift_fails"
   ],
   "note": "False of the code as stated, with a proved counterexample: [C80_micro_shift_fails] C80 fails without the restriction: a hit exactly halfway between two pixels is rounded to the even one, so that moving the detector by one pixel moves the whole spot by two; a pixel that was lit is dark after the move. Proved part: [C80_micro_shift_partial] C80 (partial: only when no hit lies exactly halfway between two pixels, or the move is by an even number of pixels): moving the detector in its own plane by whole pixels moves the micro image by the same number of pixels, away from the edges."
  },
  {
   "property": "C81",
   "status": "partial",
   "theorems": [
    "XRD.C81_backward_partial",
    "XRD.C81_inverse_scan_partial",
    "XRD.C81_backward_fails",
    "XRD.C81_backward_iff"
   ],
   "note": "False of the code as stated, with a proved counterexample: [C81_backward_fails] C81, what is missing from `C81_backward_partial`: a crystal, beam and motion for which the scan reports no peaks although the same scan run backwards reports some. Proved part: [C81_backward_partial] C81, proved part: a scan run backwards. The crystal is scanned with the motion `m` of angle `w` and translation `T` about `o`; and, after being moved by the whole of `m`, with the reversed motion (opposite axis, same angle, opposite translation, rotation centre carried along). The tables hold the same events at mirrored times `t \u2194 1 - t`, with the same values in all columns but time, `G0` and running number; provided the reflection is not one that would satisfy the Laue condition half a turn after the start of the other scan. Missing: those reflections, for which the claim is false (`C81_backward_fails`). [C81_inverse_scan_partial] C81, proved part, in terms of `inverse()`: if the translation of the motion is along its rotation axis (in particular if there is none), the motion returned by `inverse()` gives the backward scan of the moved crystal: the same events at mirrored times, with the same exception as in `C81_backward_partial`. Also proved in full: C81_backward_iff."
  },
  {
   "property": "C82",
   "status": "partial",
   "theorems": [
    "XRD.C82_mesh",
    "XRD.C82_peaks",
    "XRD.C82_hits",
    "XRD.C82_micro_partial",
    "XRD.C82_micro_dark",
    "XRD.C82_micro_fails"
   ],
   "note": "False of the code as stated, with a proved counterexample: [C82_micro_fails] C82, limit: for every experiment there is a unit of length so large that, with all lengths expressed in it, the `micro` image of the very same experiment is completely black, whatever it was before. Proved part: [C82_micro_partial] C82 (partial): the images in another unit of length. With lengths `L \u2265 1` times larger, every pixel of the `micro` images of the same diffraction is `L\u00b3` times as bright, up to `L\u00b3 \u00b7 10\u207b\u2076` per hit. Missing: equality; false because contributions below the fixed threshold `10\u207b\u2076` are dropped, see `C82_micro_fails`. Also proved in full: C82_mesh, C82_peaks, C82_hits, C82_micro_dark."
  },
  {
   "property": "C83",
   "status": "proved",
   "theorems": [
    "XRD.C83_smallest_angle",
    "XRD.C83_zero_iff_mean",
    "XRD.C83_single_crystal",
    "XRD.C83_turned_sample"
   ],
   "note": "Proved in full. [C83_smallest_angle] C83: the misorientation reported for an element is the smallest angle of a rotation taking the mean orientation into the orientation of that element: some rotation by this angle does it, none by a smaller angle does. [C83_zero_iff_mean] C83: the misorientation of an element is zero exactly when it has the mean orientation. [C83_single_crystal] C83: in a single crystal, where all elements have the same orientation, all misorientations are zero. [C83_turned_sample] C83: turning the whole sample does not change its misorientations (when its mean orientation is unique)."
  },
  {
   "property": "C84",
   "status": "proved",
   "theorems": [
    "XRD.C84_shows_sample",
    "XRD.C84_refused_iff",
    "XRD.C84_interrupted_save",
    "XRD.C84_completed_save",
    "XRD.C84_unchecked_map"
   ],
   "note": "Proved in full. [C84_shows_sample] C84: the visualisation file of a polycrystal, after any history of transformations, shows the sample as it was constructed: the nodes and elements of the given mesh, and per element the six components of the given strain, the Euler angles of the given orientation, the misorientation and the given phase index; provided there is one phase index per element. [C84_refused_iff] C84: the visualisation is refused (with a `ValueError`, and no other error) exactly when the phase map given to the constructor has another length than the mesh has elements. [C84_interrupted_save] C84: a save whose visualisation is refused raises `ValueError`, but its `.pc` file is complete: it loads back as the object that was saved (its phase map as a tensor), and no other file has changed. [C84_completed_save] C84: a save that raises nothing has written what the saving model of C44 and C45 says, so their guarantees hold for it. [C84_unchecked_map] C84: the length of the phase map is not checked by the constructor: a polycrystal of one element with two phase indices is built, and then cannot be saved with its visualisation."
  },
  {
   "property": "C85",
   "status": "partial",
   "theorems": [
    "XRD.C85_dictionary_iff",
    "XRD.C85_writes_data_partial",
    "XRD.C85_wrong_length_refused",
    "XRD.C85_dictionary_fails",
    "XRD.C85_interrupted_fails"
   ],
   "note": "False of the code as stated, with a proved counterexample: [C85_dictionary_fails] C85, limit: saving changes the dictionary it is given, putting every value into a list; so saving the same data twice fails: for every mesh that does not have exactly one element, and every nonempty data that can be saved, the second identical call raises. [C85_interrupted_fails] C85, limit: if some value is not a sequence the call raises `TypeError`, but the values before it have already been changed. Proved part: [C85_writes_data_partial] C85 (partial): saving a mesh with element data that has one entry per element writes exactly the nodes, the elements and that data. Missing: that the caller's dictionary is left alone; false, see `C85_dictionary_fails`. Also proved in full: C85_dictionary_iff, C85_wrong_length_refused."
  },
  {
   "property": "C86",
   "status": "partial",
   "theorems": [
    "XRD.C86_surface_near_boundary",
    "XRD.C86_inside_cube",
    "XRD.C86_volumes",
    "XRD.C86_missed_refused",
    "XRD.C86_failures_are_valueErrors",
    "XRD.C86_seen",
    "XRD.C86_small_ball_fails",
    "XRD.C86_radius_fails",
    "XRD.C86_bounding_radius_fails"
   ],
   "note": "False of the code as stated, with a proved counterexample: [C86_small_ball_fails] C86, limit: a ball around the origin whose radius is below a tenth of the bounding radius (`\u221a3/19` of it) is not found, whatever the requested element size above a fifth of the bounding radius: no sample is taken at the origin. [C86_radius_fails] C86, limit: `max_cell_circumradius` only limits the volume of the elements, and a volume limit is no limit of their radius: for every volume limit and every number `K` there is a mesh respecting the limit whose element has a radius above `K`. [C86_bounding_radius_fails] C86, limit: `bounding_radius` does not bound the distance of the nodes from the origin: for every correct marching cubes and mesher, the mesh of the ball of radius 1 around `(17, 17, 17)` with bounding radius 19 has a node at a distance above 27. Also proved in full: C86_surface_near_boundary, C86_inside_cube, C86_volumes, C86_missed_refused, C86_failures_are_valueErrors, C86_seen."
  },
  {
   "property": "C87",
   "status": "partial",
   "theorems": [
    "XRD.C87_contains_deep",
    "XRD.C87_contains_near",
    "XRD.C87_box",
    "XRD.C87_micrometre_beam_in_metres_fails",
    "XRD.C87_contains_outside_fails"
   ],
   "note": "False of the code as stated, with a proved counterexample: [C87_micrometre_beam_in_metres_fails] **C87** fails: a cubic beam of side one micrometre, given in metres, is built without complaint, contains no point at all although its vertices span a cube around the origin, and no sample ever produces a peak in it. [C87_contains_outside_fails] **C87** fails: a beam can contain points outside the hull of its vertices: one with sides at 6/10\u2077 reaches to 10/10\u2077. Also proved in full: C87_contains_deep, C87_contains_near, C87_box."
  },
  {
   "property": "C88",
   "status": "proved",
   "theorems": [
    "XRD.C88_lengths_do_not_matter",
    "XRD.C88_reversed_polarization",
    "XRD.C88_diffract_same_peaks",
    "XRD.C88_render_same_image"
   ],
   "note": "Proved in full. [C88_lengths_do_not_matter] **C88** Only the direction of the propagation vector and of the polarisation vector matter: multiplying either by a positive number gives exactly the same beam object, or exactly the same error. [C88_reversed_polarization] **C88** Reversing the polarisation vector is accepted in exactly the same cases, and changes nothing else in the beam. [C88_diffract_same_peaks] **C88** Diffracting with the reversed polarisation vector gives, for every polycrystal, motion, Bragg bounds and detector, the same error or exactly the same peak table (every column of every row, in the same order), and the same polycrystal. [C88_render_same_image] **C88** and every rendering of the two dictionaries is the same image: for every method, with the intersection of the beam with a tetrahedron depending on the half-spaces of the beam only (`Beam._intersect` reads nothing else)."
  },
  {
   "property": "C89",
   "status": "partial",
   "theorems": [
    "XRD.C89_accepted_iff_partial",
    "XRD.C89_tolerance_depends_on_unit_fails",
    "XRD.C89_metres_fails"
   ],
   "note": "False of the code as stated, with a proved counterexample: [C89_tolerance_depends_on_unit_fails] **C89** fails: the tolerance is on the angle times the wave number, so it depends on the unit of the wavelength. Whatever tolerance below one on the cosine a user has in mind, some beam whose polarisation violates it is accepted (even one polarised along its propagation direction), and whatever positive tolerance, some beam within it is rejected. [C89_metres_fails] **C89** In particular one and the same pair of vectors is accepted with the wavelength given in Angstrom and rejected with it given in metres. Proved part: [C89_accepted_iff_partial] **C89** A beam is accepted exactly if its wavelength is not zero, its vertices are the extreme points of their hull, neither vector is zero, and the cosine of the angle between the vectors is at most `1e-8 |wavelength| / 2 pi`."
  },
  {
   "property": "C90",
   "status": "proved",
   "theorems": [
    "XRD.C90_circumcentre",
    "XRD.C90_accepts_iff",
    "XRD.C90_never_five",
    "XRD.C90_same_as_mesh",
    "XRD.C90_contained_iff"
   ],
   "note": "Proved in full. [C90_circumcentre] **C90** The helper returns the circumcentre: a point of the affine hull of the given points with the same distance to all of them, and no other point equidistant to them is closer. [C90_accepts_iff] **C90** It succeeds exactly for a non-empty, affinely independent list of points. [C90_never_five] **C90** So it never accepts five or more points, whatever they are: `LinAlgError`. [C90_same_as_mesh] **C90** For the four corners of a tetrahedron of non-zero volume it returns the centre the mesh computes as the circumsphere of that tetrahedron. [C90_contained_iff] **C90** The interval helper answers whether the value lies in one of the closed intervals."
  },
  {
   "property": "C91",
   "status": "partial",
   "theorems": [
    "XRD.C91_verbose_block_partial",
    "XRD.C91_not_restored_fails",
    "XRD.C91_restored_iff"
   ],
   "note": "False of the code as stated, with a proved counterexample: [C91_not_restored_fails] **C91** fails: a verbose block around code that leaves the loggers alone does not restore them: a user who enabled xfab logging finds it disabled afterwards. Proved part: [C91_verbose_block_partial] **C91** Only the eight xfab loggers are ever touched; inside a verbose block they are all enabled, and after it all disabled, whatever the body did. A block that is not verbose changes nothing. Also proved in full: C91_restored_iff."
  },
  {
   "property": "C92",
   "status": "proved",
   "theorems": [
    "XRD.C92_coarser_frames"
   ],
   "note": "Proved in full. [C92_coarser_frames] C92, for every method: rendering with `k\u00b7n` frames and adding up the groups of `k` consecutive frames gives the rendering with `n` frames; one rendering raises, or contains NaN, exactly if the other does. The sampled points of a hull are taken to be the same in both renderings."
  },
  {
   "property": "C93",
   "status": "partial",
   "theorems": [
    "XRD.C93_superposition_partial",
    "XRD.C93_no_peaks_no_light",
    "XRD.C93_nano_superposition_fails"
   ],
   "note": "False of the code as stated, with a proved counterexample: [C93_nano_superposition_fails] C93 is false for `nano` in general: two peaks that render alone but not together (the two kernels have an even and an odd number of samples and cannot be stacked). Proved part: [C93_superposition_partial] C93 (partial): superposition. Let a table consist of the peaks of two others, in any order, from the same beam and motion. Then by every method its image is the sum of their images: it renders exactly if both render, contains NaN exactly if one of them does, and otherwise is the pixelwise sum; for `nano`, and for the small grains of `auto`, provided the first dark ring of every hit is within two pixels. Missing: larger rings, for which the claim is false (`C93_nano_superposition_fails`). Also proved in full: C93_no_peaks_no_light."
  },
  {
   "property": "C94",
   "status": "partial",
   "theorems": [
    "XRD.C94_brightness_macro_nano",
    "XRD.C94_brightness_micro_partial",
    "XRD.C94_brightness_auto_partial",
    "XRD.C94_micro_fails",
    "XRD.C94_structure_factors_off",
    "XRD.C94_brightness_micro_iff"
   ],
   "note": "False of the code as stated, with a proved counterexample: [C94_micro_fails] C94 is false for `micro`: with a millionth of the structure factor the image is completely black, not a millionth as bright. Proved part: [C94_brightness_micro_partial] C94 (partial), `micro`: the image is multiplied by `c \u2265 1` up to `c \u00b7 10\u207b\u2076` per hit and pixel, and never by less. Missing: equality; false because contributions below the fixed threshold `10\u207b\u2076` are dropped (`C94_micro_fails`). [C94_brightness_auto_partial] C94, `auto`, when no hit has a volume between the two limits (so that nothing is rendered by `micro`). Also proved in full: C94_brightness_macro_nano, C94_structure_factors_off, C94_brightness_micro_iff."
  },
  {
   "property": "C95",
   "status": "proved",
   "theorems": [
    "XRD.C95_image_depends_only_on"
   ],
   "note": "Proved in full. [C95_image_depends_only_on] C95: two tables with the same beam and motion whose rows agree on the columns of `imageColumns` (element, time, wave vector, source, volume, Scherrer width, and the intensity factors that are switched on) render to the same image by every method, or raise the same error, whatever the other columns contain."
  },
  {
   "property": "C96",
   "status": "proved",
   "theorems": [
    "XRD.C96_phase_order"
   ],
   "note": "Proved in full. [C96_phase_order] C96: list the phases in any other order, add phases, and renumber the elements accordingly. Then the polycrystal can be built from the one description exactly if it can from the other; and after any history of motions, for every beam, scan and Bragg limits (given or from a detector), `diffract` succeeds for the one exactly if it does for the other, and reports the same peaks: the tables agree up to the order of the rows, the phase number and the running number."
  },
  {
   "property": "C97",
   "status": "partial",
   "theorems": [
    "XRD.C97_lists_the_largest",
    "XRD.C97_returns_the_memory",
    "XRD.C97_report_returns_the_memory",
    "XRD.C97_succeeds_iff",
    "XRD.C97_cpu_total_iff",
    "XRD.C97_gpu_heading",
    "XRD.C97_cpu_total_fails"
   ],
   "note": "False of the code as stated, with a proved counterexample: [C97_cpu_total_fails] C97: with the default limit the printed \"total\" of the CPU tensors leaves out every tensor below the fifth: six tensors of one byte are reported as five bytes. Also proved in full: C97_lists_the_largest, C97_returns_the_memory, C97_report_returns_the_memory, C97_succeeds_iff, C97_cpu_total_iff, C97_gpu_heading."
  },
  {
   "property": "C98",
   "status": "partial",
   "theorems": [
    "XRD.C98_equivalent_orientations_partial",
    "XRD.C98_sheared_fails"
   ],
   "note": "False of the code as stated, with a proved counterexample: [C98_sheared_fails] C98 is false of sheared elements: a cubic crystal with a shear strain (given in the laboratory frame), and the same crystal with the same strain but its orientation described by a symmetry-equivalent one. The first reports a peak; of the second no reported peak even has a diffraction vector of the same length (Bragg angle). Proved part: [C98_equivalent_orientations_partial] C98: compose the orientation of every element with a symmetry operation of the lattice of its phase (a rotation that maps the reciprocal lattice to itself and under which the intensities of the reflections are the same). If the strain of every element is hydrostatic (or zero), the polycrystal can be built from the one description exactly if it can from the other, and after any history of motions, for every beam, scan and Bragg limits, `diffract` succeeds for the one exactly if it does for the other and reports the same peaks, up to the order, the running numbers and the names of the planes, which are exchanged by the symmetry. Missing: strained elements, for which it is false (`C98_sheared_fails`)."
  },
  {
   "property": "C99",
   "status": "proved",
   "theorems": [
    "XRD.C99_element_order",
    "XRD.C99_node_numbers"
   ],
   "note": "Proved in full. [C99_element_order] C99: list the elements of the mesh in another order, together with their orientations, strains and phase numbers. The mesh can be built from the one list exactly if it can from the other, likewise the polycrystal; and after any history of motions, for every beam, scan, Bragg limits and detector, `diffract` succeeds for the one exactly if it does for the other and reports the same peaks, up to their order, the running numbers and the numbers of the elements, which are those of the new order. [C99_node_numbers] C99: number the nodes of the mesh in another way. The mesh can be built with the one numbering exactly if it can with the other, likewise the polycrystal; and after any history of motions `diffract` succeeds for the one exactly if it does for the other and reports exactly the same dictionary."
  },
  {
   "property": "C100",
   "status": "partial",
   "theorems": [
    "XRD.C100_node_order_partial",
    "XRD.C100_tied_sides_fails"
   ],
   "note": "False of the code as stated, with a proved counterexample: [C100_tied_sides_fails] C100 is false of elements with two longest sides: one element, its nodes listed in two orders; both samples can be built and both show peaks, but every peak of the one comes from another height than every peak of the other. Proved part: [C100_node_order_partial] C100: list the four nodes of each element in another order. The mesh can be built from the one list exactly if it can from the other. If in every element the longest side is unique and the two other nodes are not equally far from its middle, the polycrystal can be built from the one exactly if it can from the other, and after any history of motions `diffract` succeeds for the one exactly if it does for the other and reports exactly the same dictionary. Missing: elements with ties, for which it is false (`C100_tied_sides_fails`)."
  },
  {
   "property": "C101",
   "status": "partial",
   "theorems": [
    "XRD.C101_sample",
    "XRD.C101_peaks",
    "XRD.C101_hits",
    "XRD.C101_images",
    "XRD.C101_one_unit",
    "XRD.C101_beam_iff",
    "XRD.C101_beam_fails"
   ],
   "note": "False of the code as stated, with a proved counterexample: [C101_beam_fails] C101 fails for beams near the tolerance: the same beam, with the same polarisation a nanoradian off, is accepted with its wavelength in one unit and rejected in a unit a hundred times larger. Also proved in full: C101_sample, C101_peaks, C101_hits, C101_images, C101_one_unit, C101_beam_iff."
  },
  {
   "property": "C102",
   "status": "partial",
   "theorems": [
    "XRD.C102_batches_fit_estimate_partial",
    "XRD.C102_padding_fails",
    "XRD.C102_kernels_bounded"
   ],
   "note": "False of the code as stated, with a proved counterexample: [C102_padding_fails] C102 is false of the real use of memory: the kernels of a batch are all padded to the size of the largest one, which the estimate ignores. With 724000 bytes free, one broad and twenty sharp peaks are put in one batch in whatever order, and its kernels alone take 895000 bytes or more. Proved part: [C102_batches_fit_estimate_partial] C102: how `nano` divides the work. If the rendering succeeds, the image is the sum over batches that together hold every hit exactly once; all batches but those of a single peak have a sum of reserved bytes within the free memory reported when the call began; each batch is as long as that budget allows; and the kernels of a batch are all of the same size. Also proved in full: C102_kernels_bounded."
  },
  {
   "property": "C103",
   "status": "proved",
   "theorems": [
    "XRD.C103_number_of_crystals",
    "XRD.C103_request",
    "XRD.C103_rejected"
   ],
   "note": "Proved in full. [C103_number_of_crystals] C103: if the mesher fills the cylinder with elements not larger than asked, a sample built by `polycrystal_from_odf` has no element larger than 2.95 times the volume per crystal that was asked for, its elements fill the prism over a regular polygon with at least 8 corners inscribed in the given circle, and there are at least three tenths of the number of crystals asked for. [C103_request] C103: what the mesher is asked for. The largest element has `4.2\u00b3 / (8\u03c0)` (2.948) times the volume of the cylinder per crystal, and the circles have as many points as fit with the edge length `c` of a cube of six times that volume, but at least 8. [C103_rejected] C103: impossible requests are rejected before anything is meshed: no crystals (`ZeroDivisionError`), a negative volume per crystal (`TypeError`, for instance a negative number of crystals) and a cylinder without volume (`ZeroDivisionError`). So a sample is only ever returned for a positive volume per crystal."
  },
  {
   "property": "C104",
   "status": "proved",
   "theorems": [
    "XRD.C104_friedel_pairs",
    "XRD.C104_law_of_code"
   ],
   "note": "Proved in full. [C104_friedel_pairs] C104: Friedel pairs. Let the rotation axis be perpendicular to the beam, and let the phases obey Friedel's law (with every plane the opposite plane is set up, with the same intensity). Scan the sample; then turn it by half a turn about the rotation axis (two quarter turns) and scan it again. Then `diffract` succeeds for the one exactly if it does for the other; every peak of the one scan whose element is illuminated also after the half turn has its Friedel mate in the other: the opposite plane of the same element at the same time, with scattering vector and diffracted ray mirrored in the plane perpendicular to the axis and with the same intensity columns; and if the half turn maps the beam to itself the tables are in one-to-one correspondence by Friedel pairs. [C104_law_of_code] C104, the law of the phases: if the reflection generator lists with every plane the opposite plane, and the structure factors are those the code computes from a cif file whose atoms have no anomalous dispersion (or there is no cif file), a newly built phase obeys Friedel's law."
  },
  {
   "property": "C105",
   "status": "partial",
   "theorems": [
    "XRD.C105_micro_resized",
    "XRD.C105_hits_resized",
    "XRD.C105_macro_resized_partial",
    "XRD.C105_macro_resized_fails"
   ],
   "note": "False of the code as stated, with a proved counterexample: [C105_macro_resized_fails] C105 fails for macro rendering without the restriction: the centre of an element hits the larger detector beyond the edge of the smaller one, so that on the smaller detector nothing at all is drawn, also not the part of the element that projects well inside it. Proved part: [C105_macro_resized_partial] C105 for macro rendering (partial: only when every element that hits the larger detector projects completely inside the smaller one; see `C105_macro_resized_fails`): the image on the smaller detector is the part of the image on the larger one. Also proved in full: C105_micro_resized, C105_hits_resized."
  },
  {
   "property": "C106",
   "status": "partial",
   "theorems": [
    "XRD.C106_warning",
    "XRD.C106_reasons_partial",
    "XRD.C106_reasons_fails",
    "XRD.C106_reasons_right_iff"
   ],
   "note": "False of the code as stated, with a proved counterexample: [C106_reasons_fails] C106 (fails): a hit with an infinite Lorentz factor is not always counted as one. The two peaks of this sample leave along the polarization direction and along the rotation axis: the polarization factor is zero, the Lorentz factor infinite, their product NaN, and the warning names two peaks with NaN intensity and none with an infinite Lorentz factor. Proved part: [C106_reasons_partial] C106 (part): the message attributes the infinite intensities to the Lorentz factor. If the enabled structure and polarization factors of the hits are positive this is right: the number given is the number of hits with an infinite Lorentz factor. Without the hypothesis it is false (`C106_reasons_fails`). Also proved in full: C106_warning, C106_reasons_right_iff."
  },
  {
   "property": "C107",
   "status": "proved",
   "theorems": [
    "XRD.C107_refined_mesh",
    "XRD.C107_bisect",
    "XRD.C107_scattered_power"
   ],
   "note": "Proved in full. [C107_refined_mesh] C107: dividing the elements of a sample into smaller ones, every piece with the orientation, strain and phase of the element it came from, gives a sample that can be built whenever the original can; moved by the same history of motions and scanned with the same beam, motion and Bragg limits, the finer sample scatters the same total power into every reflection: for every weight `w` of a peak computed from the reflection, its time, direction, angles and factors (any columns but those that tell the pieces apart), the sum of `w` times the scattering volume over all peaks is the same \u2014 provided that at every moment of the scan each piece is lit (its bounding-sphere centre is in the beam) exactly when its element is. [C107_bisect] C107: cutting a tetrahedron through one of its edges, at any point of the edge, divides its volume. [C107_scattered_power] C107 for the power scattered into one family of reflections: structure factor times Lorentz and polarization factors times volume, summed over the peaks of the phase and Miller indices given."
  },
  {
   "property": "C108",
   "status": "partial",
   "theorems": [
    "XRD.C108_textbook",
    "XRD.C108_point",
    "XRD.C108_rows",
    "XRD.C108_rows_times",
    "XRD.C108_rotate_rows_partial",
    "XRD.C108_rotate_rows_times",
    "XRD.C108_columns_raise",
    "XRD.C108_columns_partial",
    "XRD.C108_columns_fails",
    "XRD.C108_point_times",
    "XRD.C108_one_column_fails"
   ],
   "note": "False of the code as stated, with a proved counterexample: [C108_columns_fails] C108 fails as stated: three points given in the documented shape `(3,N)` are silently moved to wrong places, and one point given as a column comes back as an array of shape `(3,3)`. [C108_one_column_fails] C108: an array of one column `(N,1)` is not rejected: each of its numbers is taken as the three coordinates of a point. So a single point given as a column (the documented shape `(3,N)` with `N = 1`) comes back as three points on the diagonal that were moved. Proved part: [C108_rotate_rows_partial] C108 for `rotate` on rows with one common time: the rows are the turned directions; the shape `(N,3)` is kept exactly if `N \u2260 1` (one row comes back with shape `(3,)`). [C108_columns_partial] C108: three points given as columns are moved rightly exactly if the array of the moved columns happens to be the array of the moved rows. Also proved in full: C108_textbook, C108_point, C108_rows, C108_rows_times, C108_rotate_rows_times, C108_columns_raise, C108_point_times."
  },
  {
   "property": "C109",
   "status": "proved",
   "theorems": [
    "XRD.C109_spacing_shows_strain",
    "XRD.C109_strain_from_spacing"
   ],
   "note": "Proved in full. [C109_spacing_shows_strain] **C109** Whatever a program did with the crystal before, each peak shows the present strain of its element exactly: the interplanar distance Bragg's law gives for its `2theta` is the distance of the plane `hkl` in the unstrained cell times `\u221a(1 + 2 n\u00b7\u03b5 n)`, `\u03b5` the element's present strain and `n` the direction of the peak's `G0` columns. [C109_strain_from_spacing] **C109**, inverted: the strain along the diffraction vector is computed from the two distances; it is positive exactly when the peak's distance is larger than that of the unstrained cell, negative exactly when it is smaller, and the linear formula `(d - d\u2080) / d\u2080` never exceeds it, being equal only without strain along that direction."
  },
  {
   "property": "C110",
   "status": "proved",
   "theorems": [
    "XRD.C110_hits_on_rings"
   ],
   "note": "Proved in full. [C110_hits_on_rings] **C110** Whatever a program did with the crystal before, every hit on a detector lies on the Debye-Scherrer cone of its `2theta` column: seen from its source point, along the beam it is at `|P - S| cos 2\u03b8` and off the beam axis by `|P - S| sin 2\u03b8`. On a detector whose sides are orthogonal to the beam, at distance `L` of its plane from the source, the hit is on the ring of radius `L tan 2\u03b8`."
  },
  {
   "property": "C111",
   "status": "proved",
   "theorems": [
    "XRD.C111_same_grains",
    "XRD.C111_position_does_not_matter"
   ],
   "note": "Proved in full. [C111_same_grains] C111: samples built from the same orientations, strains and phases on any two meshes with the same number of elements have the same grains, and keep them as long as they are turned alike, whatever the translations and centres of rotation. [C111_position_does_not_matter] **C111** Two crystals with the same grains, wherever their elements are and whatever their shapes, in the same beam, turned alike (axis and angle), whatever the translation and centre of the rotation: `diffract` fails for one exactly if it fails for the other, with the same exception; and every peak of the first appears for the second, with the same entry in all columns but those of place and size, at the source point of the second, if that point is in the beam."
  },
  {
   "property": "C112",
   "status": "proved",
   "theorems": [
    "XRD.C112_rows_handed_over",
    "XRD.C112_facet_order"
   ],
   "note": "Proved in full. [C112_rows_handed_over] C112: the half-spaces handed to qhull are the facet equations rounded to six decimals, each once and in dictionary order, then the half-spaces of the beam. [C112_facet_order] **C112** Two versions of scipy that differ only in the order in which `ConvexHull` lists its facets and in how often it repeats a facet (as it does for facets it splits into triangles) clip every polyhedron to the beam alike: the same exception, no overlap for both, or the same points and volume and the same facets."
  },
  {
   "property": "C113",
   "status": "proved",
   "theorems": [
    "XRD.C113_twice_at_most",
    "XRD.C113_table_size"
   ],
   "note": "Proved in full. [C113_twice_at_most] **C113** Whatever the crystal, the beam and the motion, a lattice plane of an element is reported at most twice for each time the plane is listed in the phase. [C113_table_size] C113: the number of peaks is at most twice the sum, over the phases, of the number of elements of the phase times the number of its listed planes."
  },
  {
   "property": "C114",
   "status": "proved",
   "theorems": [
    "XRD.C114_ensure_numpy",
    "XRD.C114_ensure_torch",
    "XRD.C114_round_trip"
   ],
   "note": "Proved in full. [C114_ensure_numpy] **C114** `ensure_numpy` returns an array with the values of its argument, whatever kind of argument it is, leaves every existing array as it was, and always a new one: whatever is later written into the result, no array that existed before changes. [C114_ensure_torch] **C114** `ensure_torch` returns a tensor with the values of its argument and leaves every existing array as it was. Writing into the result changes an array that existed before exactly if the argument already was a double precision array in the memory of the default device, and then that array is the argument itself. [C114_round_trip] C114: `ensure_numpy(ensure_torch(a))` is a new array with the values of `a`; and converting a tensor that `ensure_torch` returned once more gives the very same tensor."
  },
  {
   "property": "C115",
   "status": "proved",
   "theorems": [
    "XRD.C115_two_theta_of_cell",
    "XRD.C115_ring_radius",
    "XRD.C115_same_ring",
    "XRD.C115_on_ring_iff"
   ],
   "note": "Proved in full. [C115_two_theta_of_cell] **C115** Whatever a program did with the crystal before, a peak of an element without strain has exactly the scattering angle Bragg's law gives for its plane of the unit cell: the angle depends on the wavelength, the cell and `hkl`, and not on the orientation of the element, its place, the motion or the time. [C115_ring_radius] **C115**, on a detector: when the sides of the detector are orthogonal to the beam, every hit of an element without strain lies on the ring of radius `L tan (2 arcsin (\u03bb / 2d))` around the beam axis through its source point, `L` being the distance from the source point to the detector plane along the beam. [C115_same_ring] **C115**, sharpness: take any two crystals made with the same cell library, whatever was done with them before, of any orientation, at any place, in any two beams of the same wavelength and any two motions. Peaks of the same plane of equal unit cells, from elements without strain, have the same scattering angle. [C115_on_ring_iff] **C115**, exactly: for an element of any symmetric strain, the peak is on the ring of its plane of the unstrained cell if and only if the strain along its diffraction vector is zero (the plane of the unstrained cell being able to diffract at the wavelength at all)."
  },
  {
   "property": "C116",
   "status": "partial",
   "theorems": [
    "XRD.C116_hits_transposed",
    "XRD.C116_micro_transposed",
    "XRD.C116_macro_transposed",
    "XRD.C116_nano_transposed_partial",
    "XRD.C116_first_ring_changes_sign",
    "XRD.C116_nano_transposed_fails",
    "XRD.C116_auto_transposed_partial"
   ],
   "note": "False of the code as stated, with a proved counterexample: [C116_nano_transposed_fails] **C116** is false of nano images in general: a single peak that hits the corner of pixel (140, 140) of a detector, whose first dark ring is at 36/17 pixels there. The image has light in pixel (143, 123); on the detector with exchanged sides, row 123 is dark. Proved part: [C116_nano_transposed_partial] **C116**, restricted: its nano images are the transposed nano images when, seen from both detectors, the first dark ring of every hit is below half a pixel. Missing: larger rings, for which the claim is false (`C116_nano_transposed_fails`). [C116_auto_transposed_partial] **C116**, restricted: its `auto` images are the transposed `auto` images when, seen from both detectors, the first dark ring of every hit with a volume below the micro limit is below half a pixel. Missing: larger rings. Also proved in full: C116_hits_transposed, C116_micro_transposed, C116_macro_transposed, C116_first_ring_changes_sign."
  },
  {
   "property": "C117",
   "status": "proved",
   "theorems": [
    "XRD.C117_range_in_parts",
    "XRD.C117_narrower_range",
    "XRD.C117_detector_narrows"
   ],
   "note": "Proved in full. [C117_range_in_parts] C117, the range in parts: if a program computes the peaks with Bragg angles from `lo` to `mid` and then, with the same sample, those from `mid` to `hi`, then the computation for the whole range from `lo` to `hi` succeeds too, and its table holds exactly the rows of the two tables, each as often as there, up to the order and the running numbers. [C117_narrower_range] C117, a narrower range: every peak computed with narrower Bragg limits is computed with the wider ones, with the same row but for the running number (and as often). [C117_detector_narrows] C117, with a detector: naming a detector when diffracting only drops peaks."
  },
  {
   "property": "C118",
   "status": "proved",
   "theorems": [
    "XRD.C118_first_frames_micro",
    "XRD.C118_first_frames_macro",
    "XRD.C118_first_frames_nano_small_rings",
    "XRD.C118_first_frames_auto_small_rings"
   ],
   "note": "Proved in full. [C118_first_frames_micro] C118, micro: the crystal is scanned with a motion and the scan is rendered with `n` frames; and it is scanned with the first `k` n-ths of that motion and rendered with `k` frames. Both renderings succeed and the first `k` frames of the one are the frames of the other. [C118_first_frames_macro] C118, macro: the same for the projected volumes, whenever both renderings give images. [C118_first_frames_nano_small_rings] C118, nano: if the first dark rings of all hits of the scan are within two pixels, both renderings succeed and the first `k` frames of the one are the frames of the other. (The kernels of larger rings depend on the other peaks of their batch: C30, C67.) [C118_first_frames_auto_small_rings] C118, auto: the same for automatic rendering, whenever both renderings give images and the first dark rings of the hits with volumes below the micro limit are within two pixels."
  },
  {
   "property": "C119",
   "status": "proved",
   "theorems": [
    "XRD.C119_micro_pixels"
   ],
   "note": "Proved in full. [C119_micro_pixels] C119: `micro` never fails, and the pixel `(i, j)` of frame `f` is the sum of the light of the hits of that frame, contributions up to a millionth being dropped."
  },
  {
   "property": "C120",
   "status": "proved",
   "theorems": [
    "XRD.C120_macro_point_spread"
   ],
   "note": "Proved in full. [C120_macro_point_spread] C120: a `macro` image is the image that the same detector would record without point spread, every pixel of it spread out by a bell with sum 1 that is cut off at its reach and at the edge of the detector; one fails, or has NaN, exactly if the other does."
  },
  {
   "property": "C121",
   "status": "proved",
   "theorems": [
    "XRD.C121_micro_progress",
    "XRD.C121_macro_progress",
    "XRD.C121_nano_progress"
   ],
   "note": "Proved in full. [C121_micro_progress] C121, micro: the fractions of the progress reports grow to one, and the reports count the batches. [C121_macro_progress] C121, macro: the `k`-th report of `n` says that `k` of the `n` peaks are done, and shows the fraction `k / n`. [C121_nano_progress] C121, nano: the fractions grow to one; the `k`-th report numbers its batch, says how many peaks are in it, and shows the share of the peaks that are in this and the earlier batches."
  },
  {
   "property": "C122",
   "status": "proved",
   "theorems": [
    "XRD.C122_silent",
    "XRD.C122_verbose",
    "XRD.C122_one_bar"
   ],
   "note": "Proved in full. [C122_silent] C122: with `verbose=False`, or when nothing is passed and the dictionary says so, a rendering prints nothing. [C122_verbose] C122: otherwise printing never fails (for fewer than 10^15 hits), the output is complete lines, and it is empty exactly if no peak hits the detector and the number of frames is not corrected. [C122_one_bar] C122, the bar: rendering with `micro` or `macro` redraws its progress on one line, which it ends when all is done: the output has one line break, its last character."
  },
  {
   "property": "C123",
   "status": "proved",
   "theorems": [
    "XRD.C123_auto_reach",
    "XRD.C123_macro_reach",
    "XRD.C123_micro_reach",
    "XRD.C123_nano_reach"
   ],
   "note": "Proved in full. [C123_auto_reach] C123 for `auto`: let a pixel be farther from every hit of the frame with a volume below the micro limit than the reach of `nano`, and farther from every hit between the limits than the reach of `micro`. Then it shows exactly what the macro image of the large elements shows. [C123_macro_reach] C123 for `macro`: a pixel is dark in a frame if it is more than the largest kernel radius above, below, left or right of the pixel rectangle around the projection of the illuminated part of the element of every hit of that frame. [C123_micro_reach] C123 for `micro`: a pixel is dark in a frame if every hit of that frame arrives farther from it, in rows or in columns, than the reach: the light depends on the width of the point spread only, not on the largest kernel radius. [C123_nano_reach] C123: in a `nano` image a pixel is dark in a frame if every hit of that frame arrives farther from it, in rows or in columns, than the reach: however broad the peaks are."
  }
 ]
}