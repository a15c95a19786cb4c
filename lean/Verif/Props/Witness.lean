import Verif.Props.MacroBlock
import Verif.Props.Covariance
import Verif.Props.Polycrystal
import Verif.Props.Exact4
import Verif.Props.SplitFails

/-! Concrete cases for theorems whose own file cannot hold one (the scenes are built later in the import order): each example
instantiates the theorem it names on data that meet all its hypotheses. -/

namespace XRD
open V3 M3 Fl Spec
open scoped Classical

/-! ### C24, C27: a table with a peak for each of the three methods -/

noncomputable def threeRows : List (List Fl) := [imgRow 0 0 0 (1/2) 2 0, imgRow 1 1 1 (1/4) (1/2) 0, imgRow 2 2 2 (3/4) (1/10000) 0]

/-- volumes 2, 1/2 and 1/10000 with the default limits (pixel side 1): one peak for each method -/
example : (∀ r ∈ (imgDict threeRows).peaks, r.length = 25) ∧ (1/1000 : ℝ) ≤ macroLimit (imgDet 1 1 (1/10)) none ∧
    (withVolume (imgDict threeRows) fun v => macroLimit (imgDet 1 1 (1/10)) none ≤ v).peaks = [imgRow 0 0 0 (1/2) 2 0] ∧
    (withVolume (imgDict threeRows) fun v => 1/1000 ≤ v ∧ v < macroLimit (imgDet 1 1 (1/10)) none).peaks = [imgRow 1 1 1 (1/4) (1/2) 0] ∧
    (withVolume (imgDict threeRows) fun v => v < 1/1000).peaks = [imgRow 2 2 2 (3/4) (1/10000) 0] := by
  have hm : macroLimit (imgDet 1 1 (1/10)) none = 1 := by
    show min (1:ℝ) 1 ^ 3 = 1; norm_num
  have v1 : val peakColumns (imgRow 0 0 0 (1/2) 2 0) "volumes" = 2 := rfl
  have v2 : val peakColumns (imgRow 1 1 1 (1/4) (1/2) 0) "volumes" = 1/2 := rfl
  have v3 : val peakColumns (imgRow 2 2 2 (3/4) (1/10000) 0) "volumes" = 1/10000 := rfl
  refine ⟨?_, ?_, ?_, ?_, ?_⟩
  · intro r hr
    simp only [imgDict, threeRows, List.mem_cons, List.not_mem_nil, or_false] at hr
    rcases hr with rfl | rfl | rfl <;> rfl
  · rw [hm]; norm_num
  all_goals
    simp only [withVolume, imgDict, threeRows, hm, List.filter_cons, v1, v2, v3, List.filter_nil]
    norm_num

/-! ### C35: the element of MacroBlock lies inside the beam and projects well inside the detector -/

/-- `C35_macro_total_full_elements_partial` applies, and the image carries the whole power of the peak, 75/8 -/
example : ∃ t, (imgDet 1 1 (1/10)).render blockEnv (imgDict [blockRow]) (oneTet block) 1 .macro none (1/1000) =
    .ok (some t, (imgDet 1 1 (1/10)).peaksIntersection (imgDict [blockRow]) 1) ∧
    total2 (imgDet 1 1 (1/10)).nz (imgDet 1 1 (1/10)).ny (t 0) = 75/8 := by
  obtain ⟨t, ht⟩ := block_renders
  refine ⟨t, ht, ?_⟩
  have hvol : tetVolume block = 75/8 := by
    rw [tetVolume_eq]
    have : signedVolume block = 75/8 := by
      simp [signedVolume, block, V3.cross, V3.dot]; norm_num
    rw [this]; norm_num
  have hcols : ((imgDet 1 1 (1/10)).peaksIntersection (imgDict [blockRow]) 1).columns = hitColumns := rfl
  have hvs : ([block.a, block.b, block.c, block.d].map fun p => (imgDict [blockRow]).motion.call1 p (val hitColumns blockHit "diffraction_times")) = blockPts := by
    have : val hitColumns blockHit "diffraction_times" = 0 := rfl
    rw [this]
    simp only [List.map_cons, List.map_nil, C06_identity_at_time_zero]
    rfl
  have key := C35_macro_total_full_elements_partial (imgDet 1 1 (1/10)) (by show (0:ℝ) < 1; norm_num) (by show (0:ℝ) < 1; norm_num)
    (by show (0:ℝ) < 1; norm_num) (by show (0:ℤ) ≤ 13; norm_num) blockEnv plainHull_beamHull (imgDict [blockRow]) rfl
    (by intro r hr; have : r = blockRow := by simpa [imgDict] using hr
        rw [this]; rfl) norm_ez (oneTet block) 1 none (1/1000) t _ ht 13 (by show (13:ℤ) ≤ _; norm_num) (by
      rw [block_hits]
      intro r hr
      rw [List.mem_singleton] at hr
      subst hr
      refine ⟨0, block, blockPts, ?_, rfl, ?_, ?_, by rw [hvol]; norm_num, ?_, ?_⟩
      · show (0:ℝ) = _; simp
      · rw [hcols]; exact hvs.symm
      · rw [hvol]; rfl
      · intro v hv
        exact demoBeam_contains (block_inside v hv).2.2.2.2.2
      · refine ⟨by simp [blockPts], ?_⟩
        intro v hv
        obtain ⟨hx, y1, y2, z1, z2, -⟩ := block_inside v hv
        have hk : kOut hitColumns blockHit = ⟨1, 0, 0⟩ := by rw [kOut_eq]; rfl
        rw [hcols, hk, imgDet_intersect' _ _ _ hx]
        refine ⟨_, _, rfl, rfl, ?_, ?_, ?_, ?_⟩
        · show ((13:ℕ):ℝ) ≤ (v.z + 100) / 1; push_cast; linarith
        · show (v.z + 100) / 1 + ((13:ℕ):ℝ) + 1 ≤ 200 / 1; push_cast; linarith
        · show ((13:ℕ):ℝ) ≤ (v.y + 100) / 1; push_cast; linarith
        · show (v.y + 100) / 1 + ((13:ℕ):ℝ) + 1 ≤ 200 / 1; push_cast; linarith)
  have h0 := key 0 (by norm_num)
  rw [h0, hcols, block_hits]
  have hf : val hitColumns blockHit "frame" = 0 := by
    show ((frameOf 1 0 : ℤ) : ℝ) = 0
    simp [frameOf]
  have hI : val hitColumns blockHit "intensity_factors" = 1 := rfl
  have hV : val hitColumns blockHit "volumes" = 75/8 := rfl
  simp only [List.filter_cons, hf, List.filter_nil]
  simp [power, hI, hV]
  show (1:ℝ) * 1 = 1
  norm_num

/-! ### C10, C12, C20, C59, C63: the scene's polycrystal -/

/-- `C59_constructor_broadcasts`, `C10_transform_invariants` and `C20_constructor_accepts_iff_feasible`: their hypotheses hold of the
scene, and an unfeasible strain is refused. -/
example : Polycrystal.new sceneX sceneMesh (.one 1) (.one 0) (.one scenePhase) (some [0]) = .ok scenePoly ∧
    (∀ e ∈ sceneMesh.enod, ∀ i ∈ e.toList, i < sceneMesh.coord.length) ∧ norm demoZ.axis = 1 ∧
    (¬ ∃ p, Polycrystal.new sceneX sceneMesh (.many [1]) (.many [⟨⟨-1, 0, 0⟩, ⟨0, 0, 0⟩, ⟨0, 0, 0⟩⟩]) (.one scenePhase) (some [0]) = .ok p) := by
  refine ⟨scenePoly_new, ?_, norm_ez, ?_⟩
  · intro e he i hi
    have he' : e = ⟨0, 1, 2, 3⟩ := by simpa [sceneMesh, TetraMesh.ofData] using he
    subst he'
    have : sceneMesh.coord.length = 4 := rfl
    rw [this]
    simp [Q4.toList] at hi; omega
  · have h := C20_constructor_accepts_iff_feasible sceneX sceneMesh [1] [⟨⟨-1, 0, 0⟩, ⟨0, 0, 0⟩, ⟨0, 0, 0⟩⟩] (.one scenePhase) [0] rfl rfl
      (le_refl _) (by
        intro e he
        rw [List.mem_singleton] at he
        subst he
        simp [Spec.Symmetric, M3.tr]) (by
        intro u hu
        rw [List.mem_singleton] at hu
        subst hu
        exact isRot_one)
    rw [h]
    push Not
    refine ⟨0, 0, ⟨⟨-1, 0, 0⟩, ⟨0, 0, 0⟩, ⟨0, 0, 0⟩⟩, by simp, by simp [PhasesArg.toList], rfl, ?_⟩
    intro hf
    have := hf ⟨1, 0, 0⟩ (by intro e; have := congrArg V3.x e; simp at this)
    simp [M3.mulVec, V3.dot, nsq] at this

/-- `C12_transform_rotates_diffraction_vectors`: a peak of the scene and the peak of the same element and reflection after `transform`. -/
example : ∃ (b' : Beam) (m' : Motion) (d1 d2 : PeaksDict) (p1 p2 : Polycrystal) (row1 row2 : List Fl),
    (∀ ph ∈ scenePoly.phases, ph.Fresh) ∧
    scenePoly.diffract sceneX demoBeam demoZ 0 (Real.pi / 2) none = .ok (d1, p1) ∧
    (scenePoly.transform ⟨⟨0, 0, 1⟩, 1, ⟨1, 2, 3⟩, ⟨4, 5, 6⟩⟩ 1).diffract sceneX b' m' 0 (Real.pi / 2) none = .ok (d2, p2) ∧
    row1 ∈ d1.peaks ∧ row2 ∈ d2.peaks ∧ Has d1.columns row1 "grain_index" (fin 0) ∧ Has d2.columns row2 "grain_index" (fin 0) ∧
    HasV d1.columns row1 "h" "k" "l" ⟨1, 0, 0⟩ ∧ HasV d2.columns row2 "h" "k" "l" ⟨1, 0, 0⟩ ∧
    HasV d1.columns row1 "G0_x" "G0_y" "G0_z" ⟨-3/5, 4/5, 1⟩ ∧
    HasV d2.columns row2 "G0_x" "G0_y" "G0_z" (Spec.rotate ⟨0, 0, 1⟩ 1 ⟨-3/5, 4/5, 1⟩) := by
  have hb : Built scenePoly := ⟨sceneX, _, _, sceneMesh, .one 1, .one 0, .one scenePhase, some [0], scenePoly, [], sceneMesh_new, scenePoly_new,
    by simp, rfl⟩
  obtain ⟨⟨b', m', hset⟩, -⟩ := moved_setup_exists demoBeam_new demoZ_new ⟨⟨0, 0, 1⟩, 1, ⟨1, 2, 3⟩, ⟨4, 5, 6⟩⟩ norm_ez 1
  have h2 : Real.sqrt 2 / 2 ≤ 1 := by
    have : Real.sqrt 2 ≤ 2 := by rw [Real.sqrt_le_left (by norm_num)]; norm_num
    linarith
  obtain ⟨d, p1, hd, -, row, hrow, hG, hg, hh⟩ := scene_diffract none 0 (Real.pi / 2) 0 (Real.pi / 2) rfl (by rw [Real.sin_zero]; positivity)
    (by rw [Real.sin_pi_div_two]; exact h2)
  obtain ⟨d', hd', hc, hrows⟩ := (C72_peaks_in_another_frame sceneX scenePoly hb _ norm_ez 1 _ _ _ _ hset 0 (Real.pi / 2) none none .none).2 d p1 hd
  obtain ⟨row', hrow', hev⟩ : ∃ row' ∈ d'.peaks, EventMoved d.columns (fun v => (⟨⟨0, 0, 1⟩, 1, ⟨1, 2, 3⟩, ⟨4, 5, 6⟩⟩ : Motion).rotate1 v 1)
      (fun q => (⟨⟨0, 0, 1⟩, 1, ⟨1, 2, 3⟩, ⟨4, 5, 6⟩⟩ : Motion).call1 q 1) row row' := by
    obtain ⟨i, hi, e⟩ := List.getElem_of_mem hrow
    have hl := hrows.length_eq
    have hi' : i < d'.peaks.length := by omega
    refine ⟨d'.peaks[i], List.getElem_mem _, ?_⟩
    have := (List.forall₂_iff_get.mp hrows).2 i hi hi'
    simp only [List.get_eq_getElem] at this
    rwa [e] at this
  obtain ⟨-, hsame, g0, -, -, -, hg0, hg0', -⟩ := hev
  have hfr : ∀ ph ∈ scenePoly.phases, ph.Fresh := polyOf_fresh sceneB
  have hk' : HasV d'.columns row' "h" "k" "l" ⟨1, 0, 0⟩ := by
    rw [hc]
    obtain ⟨a, b, c⟩ := hh
    exact ⟨(hsame "h" (by decide) _).mpr a, (hsame "k" (by decide) _).mpr b, (hsame "l" (by decide) _).mpr c⟩
  have hge : Has d'.columns row' "grain_index" (fin 0) := by rw [hc]; exact (hsame "grain_index" (by decide) _).mpr hg
  have hG' : HasV d'.columns row' "G0_x" "G0_y" "G0_z" ((⟨⟨0, 0, 1⟩, 1, ⟨1, 2, 3⟩, ⟨4, 5, 6⟩⟩ : Motion).rotate1 g0 1) := by rw [hc]; exact hg0'
  refine ⟨b', m', d, d', p1, _, row, row', hfr, hd, hd', hrow, hrow', hg, hge, hh, hk', hG, ?_⟩
  have := C12_transform_rotates_diffraction_vectors sceneX (by intro h cell sg cif; simp [sceneX, xOf]) scenePoly hfr
    ⟨⟨0, 0, 1⟩, 1, ⟨1, 2, 3⟩, ⟨4, 5, 6⟩⟩ norm_ez 1 _ _ _ _ _ _ _ _ _ _ _ _ _ _ hd hd' row row' hrow hrow' _ _ _ _ hg hge hh hk' hG hG'
  rw [this] at hG'
  simpa using hG'

/-! ### C33, C36, C45 -/

/-- `C36_clip_right_iff` on the block: its hull is one, and a ray along `x` through its middle has a positive clipped length -/
example : IsHull (tetraHull block.a block.b block.c block.d) blockPts ∧ norm (⟨1, 0, 0⟩ : V3) = 1 ∧
    ∃ a b : ℝ, (∀ t : ℝ, meanV blockPts + t • (⟨1, 0, 0⟩ : V3) ∈ convexHull ℝ {v | v ∈ blockPts} ↔ a ≤ t ∧ t ≤ b) ∧ a + 1 / 10 ^ 12 < b := by
  have hu : norm (⟨1, 0, 0⟩ : V3) = 1 := by rw [norm_eq_one]; simp [nsq, V3.dot]
  refine ⟨block_hull.2, hu, ?_⟩
  obtain ⟨s, t, hst, hs, ht⟩ := block_ray_centre
  obtain ⟨a, b, hab, -⟩ := C36_clip_value (tetraHull block.a block.b block.c block.d) blockPts block_hull.2 (by simp [blockPts])
    (meanV blockPts) ⟨1, 0, 0⟩ hu
  have hno : ∀ e ∈ (tetraHull block.a block.b block.c block.d).equations, e.n.dot (⟨1, 0, 0⟩ : V3) = 0 →
      e.n.dot (meanV blockPts) + e.d ≤ 0 := by
    intro e he h0
    have hm : meanV blockPts ∈ convexHull ℝ {v : V3 | v ∈ blockPts} := mean_in_hull (by simp [blockPts])
    exact ((block_hull.2.faces _).mpr hm) e he
  refine ⟨a, b, fun τ => ?_, ?_⟩
  · rw [← hab τ, ← block_hull.2.faces]
    constructor
    · intro h e he _; exact h e he
    · intro h e he
      by_cases h0 : e.n.dot (⟨1, 0, 0⟩ : V3) = 0
      · have := hno e he h0
        have hz : e.n.dot (meanV blockPts + τ • (⟨1, 0, 0⟩ : V3)) = e.n.dot (meanV blockPts) := by
          rw [dot_line, h0]; ring
        rw [hz]; exact this
      · exact h e he h0
  · have h1 := (hab s).mp (fun e he _ => ((block_hull.2.faces _).mpr hs) e he)
    have h2 := (hab t).mp (fun e he _ => ((block_hull.2.faces _).mpr ht) e he)
    linarith [h1.1, h2.2]

/-- `C33_grid_centre_iff` separates radius 8 from radius 17/2 -/
example : (∃ i < Detector.axisLen 8, Detector.axisAt 8 i = 0) ∧ ¬ ∃ i < Detector.axisLen (17/2), Detector.axisAt (17/2) i = 0 := by
  refine ⟨(C33_grid_centre_iff 8 (by norm_num)).1.mpr ⟨8, by norm_num⟩, ?_⟩
  rw [(C33_grid_centre_iff (17/2) (by norm_num)).1]
  rintro ⟨n, hn⟩
  have : (17:ℝ) = ((2 * n : ℕ) : ℝ) := by push_cast; linarith
  have h : 17 = 2 * n := by exact_mod_cast this
  omega

end XRD
