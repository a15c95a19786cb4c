import Verif.Props.MacroFails
import Verif.Props.Sample

/-! A concrete scene that meets the hypotheses of `C64_macro_finite_partial`, `C65_macro_no_failure_partial` and
`C65_rays_in_their_pixels_partial`: an element of several pixels, seen by pixel corners. -/

namespace XRD
open V3 M3 Fl Spec
open scoped Classical

/-- an element that projects on five by five pixels, centred on `(0, -1/8, -1/8)` -/
noncomputable def block : Tet := ⟨⟨-1, -3/2, -3/2⟩, ⟨-1, 9/4, -3/2⟩, ⟨-1, -3/2, 9/4⟩, ⟨3, 1/4, 1/4⟩⟩
noncomputable def blockPts : List V3 := [block.a, block.b, block.c, block.d]
noncomputable def blockRow : List Fl := imgRow 0 (-1/8) (-1/8) 0 (75/8) 0
noncomputable def blockHit : List Fl := imgHit 1 0 (-1/8) (-1/8) 0 (75/8) 0

/-- a sampler that repeats the centroid of the hull -/
noncomputable def meanSampler (H : Hull) (n : ℕ) : List V3 := if H.points = [] then [] else List.replicate n (meanV H.points)

theorem meanSampler_inside : SamplesInside meanSampler := by
  intro H n s hs
  unfold meanSampler at hs
  split_ifs at hs with h
  · simp at hs
  · rw [List.eq_of_mem_replicate hs]; exact mean_in_hull h

noncomputable def blockEnv : RenderEnv := ⟨fun x => x, fun _ => [], 1, plainHull, meanSampler⟩

theorem block_mesh : TetraMesh.new blockPts [⟨0, 1, 2, 3⟩] = .ok (oneTet block) := by
  apply oneTet_new
  simp [signedVolume, block, V3.cross, V3.dot]; norm_num

theorem block_hits : ((imgDet 1 1 (1/10)).peaksIntersection (imgDict [blockRow]) 1).peaks = [blockHit] := by
  unfold blockRow
  rw [imgDict_kept 1 1 (1/10) 1 0 (-1/8) (-1/8) 0 _ 0 (by rw [abs_of_neg] <;> norm_num) (by rw [abs_of_neg] <;> norm_num) [] (by simp)]
  rfl

theorem block_inside (v : V3) (h : v ∈ blockPts) :
    v.x ≤ 100 ∧ -3/2 ≤ v.y ∧ v.y ≤ 9/4 ∧ -3/2 ≤ v.z ∧ v.z ≤ 9/4 ∧ nsq v < 100 := by
  simp only [blockPts, block, List.mem_cons, List.not_mem_nil, or_false] at h
  rcases h with rfl | rfl | rfl | rfl <;> simp [nsq, V3.dot] <;> norm_num

theorem block_onPixels : OnPixels (imgDet 1 1 (1/10)) blockPts ⟨1, 0, 0⟩ := by
  refine ⟨by simp [blockPts], ?_⟩
  intro v hv
  obtain ⟨hx, y1, y2, z1, z2, -⟩ := block_inside v hv
  rw [imgDet_intersect' _ _ _ hx]
  have e : ⌊((imgDet 1 1 (1/10)).zmax / (imgDet 1 1 (1/10)).pz)⌋ = 200 := by
    show ⌊(200:ℝ) / 1⌋ = 200; norm_num
  have e' : ⌊((imgDet 1 1 (1/10)).ymax / (imgDet 1 1 (1/10)).py)⌋ = 200 := by
    show ⌊(200:ℝ) / 1⌋ = 200; norm_num
  refine ⟨_, _, rfl, rfl, by linarith, ?_, by linarith, ?_⟩
  · rw [e]; show (v.z + 100) / 1 < _; push_cast; linarith
  · rw [e']; show (v.y + 100) / 1 < _; push_cast; linarith

theorem block_comb (wa wb wc wd : ℝ) (h1 : 0 ≤ wa) (h2 : 0 ≤ wb) (h3 : 0 ≤ wc) (h4 : 0 ≤ wd) (h5 : wa + wb + wc + wd = 1) (p : V3)
    (hp : p = wa • block.a + wb • block.b + wc • block.c + wd • block.d) : p ∈ convexHull ℝ {v : V3 | v ∈ blockPts} := by
  rw [hp]
  have := (convex_convexHull ℝ {v : V3 | v ∈ blockPts}).sum_mem (t := Finset.univ)
    (w := ![wa, wb, wc, wd]) (z := ![block.a, block.b, block.c, block.d])
    (by intro i _; fin_cases i <;> simpa) (by simp [Fin.sum_univ_four, h5])
    (by intro i _; fin_cases i <;> exact subset_convexHull ℝ _ (by simp [blockPts]))
  rw [Fin.sum_univ_four] at this
  simpa using this

theorem block_hull : plainHull demoBeam blockPts = some (tetraHull block.a block.b block.c block.d) ∧
    IsHull (tetraHull block.a block.b block.c block.d) blockPts := by
  have h : dot (cross (block.b - block.a) (block.c - block.a)) (block.d - block.a) ≠ 0 := by
    simp [block, V3.cross, V3.dot]; norm_num
  refine ⟨?_, tetraHull_isHull _ _ _ _ h⟩
  unfold blockPts plainHull
  simp only
  rw [if_pos h]

theorem block_mean : meanV blockPts = ⟨0, -1/8, -1/8⟩ := by
  unfold meanV blockPts
  ext <;> simp [block] <;> norm_num

theorem block_ray_centre : LongChord blockPts (meanV blockPts) ⟨1, 0, 0⟩ := by
  refine ⟨-1, 0, by norm_num, ?_, ?_⟩
  · apply block_comb (4/15) (11/30) (11/30) 0 (by norm_num) (by norm_num) (by norm_num) (by norm_num) (by norm_num)
    rw [block_mean]; ext <;> simp [block] <;> norm_num
  · apply block_comb (1/4) (1/4) (1/4) (1/4) (by norm_num) (by norm_num) (by norm_num) (by norm_num) (by norm_num)
    rw [block_mean]; ext <;> simp [block] <;> norm_num

theorem block_ray_corner : LongChord blockPts ((imgDet 1 1 (1/10)).pixelCoordinate 100 100) ⟨1, 0, 0⟩ := by
  have e : (imgDet 1 1 (1/10)).pixelCoordinate 100 100 = ⟨100, 0, 0⟩ := by
    unfold Detector.pixelCoordinate imgDet; ext <;> simp
  rw [e]
  refine ⟨-101, -99, by norm_num, ?_, ?_⟩
  · apply block_comb (1/5) (2/5) (2/5) 0 (by norm_num) (by norm_num) (by norm_num) (by norm_num) (by norm_num)
    ext <;> simp [block] <;> norm_num
  · apply block_comb (1/6) (1/6) (1/6) (1/2) (by norm_num) (by norm_num) (by norm_num) (by norm_num) (by norm_num)
    ext <;> simp [block] <;> norm_num

/-- the hypotheses of `C64_macro_finite_partial` hold in the scene with the block, which has one hit; so its image is finite -/
theorem block_renders : ∃ t, (imgDet 1 1 (1/10)).render blockEnv (imgDict [blockRow]) (oneTet block) 1 .macro none (1/1000) =
    .ok (some t, (imgDet 1 1 (1/10)).peaksIntersection (imgDict [blockRow]) 1) := by
  refine C64_macro_finite_partial _ _ _ _ _ _ _ _ _ _ _ _ (imgDet_new 1 1 (1/10) (by norm_num)) (by simp [V3.dot]) blockEnv meanSampler_inside
    (imgDict [blockRow]) rfl (by intro r hr; have : r = blockRow := by simpa [imgDict] using hr
                                 rw [this]; rfl) (oneTet block) 1 none (1/1000) ?_
  rw [show max (1:ℤ) 1 = 1 from rfl, block_hits]
  intro r hr
  rw [List.mem_singleton] at hr
  subst hr
  refine ⟨blockPts, ⟨1, 0, 0⟩, oneTet_moved block _ 1 _ _ _ _, ?_, ?_⟩
  · show _ = kOut hitColumns blockHit
    rw [kOut_eq]; rfl
  · intro H hH
    have hH' : plainHull demoBeam blockPts = some H := hH
    rw [block_hull.1] at hH'
    cases hH'
    have hp : (tetraHull block.a block.b block.c block.d).points = blockPts := rfl
    rw [hp, ex_unit]
    refine ⟨block_hull.2, block_onPixels, Or.inr ⟨?_, 100, 100, block_ray_corner⟩⟩
    intro n hn
    refine ⟨meanV blockPts, ?_, block_ray_centre⟩
    show meanV blockPts ∈ meanSampler (tetraHull block.a block.b block.c block.d) n
    unfold meanSampler
    rw [hp, if_neg (by simp [blockPts])]
    exact List.mem_replicate.mpr ⟨by omega, rfl⟩

example : ∃ (D : Detector) (mesh : TetraMesh), Detector.new ⟨100, -100, -100⟩ ⟨100, 100, -100⟩ ⟨100, -100, 100⟩ .absent (.both 1) 1 (1/10) 13 true true true = .ok D ∧
    TetraMesh.new blockPts [⟨0, 1, 2, 3⟩] = .ok mesh ∧ (D.peaksIntersection (imgDict [blockRow]) 1).peaks ≠ [] ∧
    ∃ t, D.render blockEnv (imgDict [blockRow]) mesh 1 .macro none (1/1000) = .ok (some t, D.peaksIntersection (imgDict [blockRow]) 1) :=
  ⟨imgDet 1 1 (1/10), oneTet block, imgDet_new 1 1 (1/10) (by norm_num), block_mesh, by rw [block_hits]; simp, block_renders⟩

/-- an element that projects on two pixels -/
noncomputable def duo : Tet := ⟨⟨-1, 1/4, -1/2⟩, ⟨-1, 3/4, -1/2⟩, ⟨-1, 1/4, 1/2⟩, ⟨1, 1/2, 0⟩⟩
noncomputable def duoPts : List V3 := [duo.a, duo.b, duo.c, duo.d]

theorem duo_inside (v : V3) (h : v ∈ duoPts) : v.x ≤ 100 ∧ 1/4 ≤ v.y ∧ v.y ≤ 3/4 ∧ -1/2 ≤ v.z ∧ v.z ≤ 1/2 := by
  simp only [duoPts, duo, List.mem_cons, List.not_mem_nil, or_false] at h
  rcases h with rfl | rfl | rfl | rfl <;> norm_num

theorem duo_onPixels : OnPixels (imgDet 1 1 (1/10)) duoPts ⟨1, 0, 0⟩ := by
  refine ⟨by simp [duoPts], ?_⟩
  intro v hv
  obtain ⟨hx, y1, y2, z1, z2⟩ := duo_inside v hv
  rw [imgDet_intersect' _ _ _ hx]
  have e : ⌊((imgDet 1 1 (1/10)).zmax / (imgDet 1 1 (1/10)).pz)⌋ = 200 := by
    show ⌊(200:ℝ) / 1⌋ = 200; norm_num
  have e' : ⌊((imgDet 1 1 (1/10)).ymax / (imgDet 1 1 (1/10)).py)⌋ = 200 := by
    show ⌊(200:ℝ) / 1⌋ = 200; norm_num
  refine ⟨_, _, rfl, rfl, by linarith, ?_, by linarith, ?_⟩
  · rw [e]; show (v.z + 100) / 1 < _; push_cast; linarith
  · rw [e']; show (v.y + 100) / 1 < _; push_cast; linarith

/-- the hypotheses of `C65_rays_in_their_pixels_partial`: a box of two pixels and a finite projection -/
example : ∃ (H : Hull) (r0 r1 q0 q1 : ℤ) (pr : Frame), IsHull H duoPts ∧ SamplesInside blockEnv.sample ∧
    OnPixels (imgDet 1 1 (1/10)) H.points ⟨1, 0, 0⟩ ∧ (imgDet 1 1 (1/10)).boundingBox H.points ⟨1, 0, 0⟩ = some (r0, r1, q0, q1) ∧
    1 < (r1 - r0) * (q1 - q0) ∧ (r1 - r0) * (q1 - q0) ≤ 4 ∧
    (imgDet 1 1 (1/10)).projectHull blockEnv H ⟨1, 0, 0⟩ (r0, r1, q0, q1) = .ok (some pr) := by
  have h : dot (cross (duo.b - duo.a) (duo.c - duo.a)) (duo.d - duo.a) ≠ 0 := by
    simp [duo, V3.cross, V3.dot]; norm_num
  have hi : IsHull (tetraHull duo.a duo.b duo.c duo.d) duoPts := tetraHull_isHull _ _ _ _ h
  have hpz : (imgDet 1 1 (1/10)).pz = 1 := rfl
  have hpy : (imgDet 1 1 (1/10)).py = 1 := rfl
  have hon : OnPixels (imgDet 1 1 (1/10)) (tetraHull duo.a duo.b duo.c duo.d).points ⟨1, 0, 0⟩ := by rw [hi.points]; exact duo_onPixels
  obtain ⟨a, n, c, m, z0, z1, y0, y1, hb, hn, hm, -, -, za, zn, yc, ym, v1, v2, v3, v4, hd, hin⟩ :=
    onPixels_box (by rw [hpz]; norm_num) (by rw [hpy]; norm_num) hon
  rw [hi.points] at v1 v2 v3 v4 hin
  rw [hpz] at za zn
  rw [hpy] at yc ym
  have hm1 : m = 1 := by
    obtain ⟨w3, hw3, x3⟩ := v3
    obtain ⟨w4, hw4, x4⟩ := v4
    obtain ⟨a1, a2, a3, -⟩ := duo_inside w3 hw3
    obtain ⟨b1, b2, b3, -⟩ := duo_inside w4 hw4
    rw [imgDet_intersect' _ _ _ a1] at x3
    rw [imgDet_intersect' _ _ _ b1] at x4
    simp only [fin.injEq] at x3 x4
    have f3 : ⌊y0 / 1⌋ = 100 := by rw [Int.floor_eq_iff]; push_cast; constructor <;> linarith
    have f4 : ⌊y1 / 1⌋ = 100 := by rw [Int.floor_eq_iff]; push_cast; constructor <;> linarith
    omega
  have hn2 : n = 2 := by
    obtain ⟨w1, hw1, x1⟩ := v1
    obtain ⟨w2, hw2, x2⟩ := v2
    obtain ⟨a1, a2, a3, a4, a5⟩ := duo_inside w1 hw1
    obtain ⟨b1, b2, b3, b4, b5⟩ := duo_inside w2 hw2
    rw [imgDet_intersect' _ _ _ a1] at x1
    rw [imgDet_intersect' _ _ _ b1] at x2
    obtain ⟨-, zd, yd, e1, -, c1, -⟩ := hin duo.a (subset_convexHull ℝ _ (by simp [duoPts]))
    obtain ⟨-, zd', yd', e1', -, -, c1', -⟩ := hin duo.c (subset_convexHull ℝ _ (by simp [duoPts]))
    rw [imgDet_intersect' _ _ _ (by simp [duo]; norm_num)] at e1 e1'
    simp only [fin.injEq, duo] at x1 x2 e1 e1'
    have f1 : ⌊z0 / 1⌋ = 99 := by rw [Int.floor_eq_iff]; push_cast; constructor <;> linarith
    have f2 : ⌊z1 / 1⌋ = 100 := by rw [Int.floor_eq_iff]; push_cast; constructor <;> linarith
    omega
  subst hm1 hn2
  have hl : LongChord duoPts (meanV duoPts) ⟨1, 0, 0⟩ := by
    have comb : ∀ wa wb wc wd : ℝ, 0 ≤ wa → 0 ≤ wb → 0 ≤ wc → 0 ≤ wd → wa + wb + wc + wd = 1 → ∀ p : V3,
        p = wa • duo.a + wb • duo.b + wc • duo.c + wd • duo.d → p ∈ convexHull ℝ {v : V3 | v ∈ duoPts} := by
      intro wa wb wc wd h1 h2 h3 h4 h5 p hp
      rw [hp]
      have := (convex_convexHull ℝ {v : V3 | v ∈ duoPts}).sum_mem (t := Finset.univ)
        (w := ![wa, wb, wc, wd]) (z := ![duo.a, duo.b, duo.c, duo.d])
        (by intro i _; fin_cases i <;> simpa) (by simp [Fin.sum_univ_four, h5])
        (by intro i _; fin_cases i <;> exact subset_convexHull ℝ _ (by simp [duoPts]))
      rw [Fin.sum_univ_four] at this
      simpa using this
    have hm : meanV duoPts = ⟨-1/2, 7/16, -1/8⟩ := by
      unfold meanV duoPts
      ext <;> simp [duo] <;> norm_num
    rw [hm]
    refine ⟨-1/2, 0, by norm_num, comb (1/4) (3/8) (3/8) 0 (by norm_num) (by norm_num) (by norm_num) (by norm_num) (by norm_num) _ ?_,
      comb (1/4) (1/4) (1/4) (1/4) (by norm_num) (by norm_num) (by norm_num) (by norm_num) (by norm_num) _ ?_⟩
    · ext <;> simp [duo] <;> norm_num
    · ext <;> simp [duo] <;> norm_num
  have hpos := clipLength_pos hi (by rw [norm_eq_one]; simp [nsq, V3.dot]) hl
  have hpr := projectHull_small (by rw [hpz]; norm_num) (by rw [hpy]; norm_num) (show SamplesInside blockEnv.sample from meanSampler_inside) hon hb (by norm_num) (by norm_num)
  rw [if_neg] at hpr
  · exact ⟨_, _, _, _, _, _, hi, meanSampler_inside, hon, hb, by push_cast; ring_nf; norm_num, by push_cast; ring_nf; norm_num, hpr⟩
  have hsm : blockEnv.sample (tetraHull duo.a duo.b duo.c duo.d) (7 * (2 * 1)) = List.replicate 14 (meanV duoPts) := by
    show meanSampler (tetraHull duo.a duo.b duo.c duo.d) 14 = List.replicate 14 (meanV duoPts)
    unfold meanSampler
    rw [hi.points, if_neg (by simp [duoPts])]
  rw [hsm, ex_unit, List.map_replicate, List.sum_replicate]
  simp only [nsmul_eq_mul]
  push_cast
  have := hpos
  intro h0
  linarith

end XRD
