import Verif.Props.MacroSafe

/-! Concrete scenes for C64 and C65: a sliver that no pixel corner sees, an element that overhangs the detector, and examples that
meet the hypotheses of the theorems in `Props/MacroSafe.lean`. -/

namespace XRD
open V3 M3 Fl Spec
open scoped Classical

/-! ### A sliver -/

/-- a slender element, half a pixel wide and seven pixels high, centred on `(0, 1/2, 31/8)` -/
noncomputable def sliver : Tet := ⟨⟨-1/4, 1/4, 1/4⟩, ⟨-1/4, 3/4, 1/4⟩, ⟨-1/4, 1/4, 29/4⟩, ⟨3/4, 3/4, 31/4⟩⟩
noncomputable def sliverPts : List V3 := [sliver.a, sliver.b, sliver.c, sliver.d]
noncomputable def sliverRow : List Fl := imgRow 0 (1/2) (31/8) 0 (7/12) 0
noncomputable def sliverHit : List Fl := imgHit 1 0 (1/2) (31/8) 0 (7/12) 0

theorem sliver_volume : tetVolume sliver = 7 / 12 := by
  rw [tetVolume_eq]
  have : signedVolume sliver = 7 / 12 := by
    simp [signedVolume, sliver, V3.cross, V3.dot]; norm_num
  rw [this]; norm_num

theorem sliver_mesh : TetraMesh.new sliverPts [⟨0, 1, 2, 3⟩] = .ok (oneTet sliver) := by
  apply oneTet_new
  simp [signedVolume, sliver, V3.cross, V3.dot]; norm_num

theorem sliver_hits : ((imgDet 1 1 (1/10)).peaksIntersection (imgDict [sliverRow]) 1).peaks = [sliverHit] := by
  unfold sliverRow
  rw [imgDict_kept 1 1 (1/10) 1 0 (1/2) (31/8) 0 _ 0 (by norm_num [abs_of_pos]) (by norm_num [abs_of_pos]) [] (by simp)]
  rfl

theorem sliver_inside (v : V3) (h : v ∈ sliverPts) :
    v.x ≤ 100 ∧ 1/4 ≤ v.y ∧ v.y ≤ 3/4 ∧ 1/4 ≤ v.z ∧ v.z ≤ 31/4 ∧ nsq v < 100 := by
  simp only [sliverPts, sliver, List.mem_cons, List.not_mem_nil, or_false] at h
  rcases h with rfl | rfl | rfl | rfl <;> simp [nsq, V3.dot] <;> norm_num

theorem sliver_onPixels : OnPixels (imgDet 1 1 (1/10)) sliverPts ⟨1, 0, 0⟩ := by
  refine ⟨by simp [sliverPts], ?_⟩
  intro v hv
  obtain ⟨hx, y1, y2, z1, z2, -⟩ := sliver_inside v hv
  rw [imgDet_intersect' _ _ _ hx]
  have e : ⌊((imgDet 1 1 (1/10)).zmax / (imgDet 1 1 (1/10)).pz)⌋ = 200 := by
    show ⌊(200:ℝ) / 1⌋ = 200; norm_num
  have e' : ⌊((imgDet 1 1 (1/10)).ymax / (imgDet 1 1 (1/10)).py)⌋ = 200 := by
    show ⌊(200:ℝ) / 1⌋ = 200; norm_num
  refine ⟨_, _, rfl, rfl, by linarith, ?_, by linarith, ?_⟩
  · rw [e]; show (v.z + 100) / 1 < _; push_cast; linarith
  · rw [e']; show (v.y + 100) / 1 < _; push_cast; linarith

/-- C64 fails: the projection of the sliver spans eight pixels, no pixel corner lies in it, all clip lengths are zero, and the
normalisation divides zero by zero. -/
theorem C64_sliver_fails (env : RenderEnv) (hh : BeamHull env.hull) (hf : ∀ b vs H, env.hull b vs = some H → Facets H) :
    ∃ (D : Detector) (d : PeaksDict) (mesh : TetraMesh) (out : PeaksDict),
      Detector.new ⟨100, -100, -100⟩ ⟨100, 100, -100⟩ ⟨100, -100, 100⟩ .absent (.both 1) 1 (1/10) 13 true true true = .ok D ∧
      TetraMesh.new sliverPts [⟨0, 1, 2, 3⟩] = .ok mesh ∧ out.peaks ≠ [] ∧
      D.render env d mesh 1 .macro none (1/1000) = .ok (none, out) := by
  set D := imgDet 1 1 (1/10) with hD
  have hsol : Solid sliverPts := by
    refine ⟨sliver.a, by simp [sliverPts], sliver.b, by simp [sliverPts], sliver.c, by simp [sliverPts], sliver.d, by simp [sliverPts], ?_⟩
    simp [sliver, V3.cross, V3.dot]; norm_num
  obtain ⟨H, hH, hi⟩ := hh (imgDict [sliverRow]).beam sliverPts rfl (fun v hv => demoBeam_contains (sliver_inside v hv).2.2.2.2.2) hsol
  have hfac := hf _ _ _ hH
  have hmoved : IsMoved (imgDict [sliverRow]) (oneTet sliver) hitColumns sliverHit sliverPts := oneTet_moved sliver _ 1 _ _ _ _
  have hon : OnPixels D H.points ⟨1, 0, 0⟩ := by rw [hi.points]; exact sliver_onPixels
  have hpz : D.pz = 1 := rfl
  have hpy : D.py = 1 := rfl
  obtain ⟨a, n, c, m, z0, z1, y0, y1, hb, hn, hm, -, -, za, zn, yc, ym, v1, v2, v3, v4, hd, hin⟩ :=
    onPixels_box (by rw [hpz]; norm_num) (by rw [hpy]; norm_num) hon
  rw [hi.points] at v1 v2 v3 v4 hin
  rw [hpz] at za zn
  rw [hpy] at yc ym
  have hcc : c = 100 ∧ m = 1 := by
    obtain ⟨w3, hw3, x3⟩ := v3
    obtain ⟨w4, hw4, x4⟩ := v4
    obtain ⟨a1, a2, a3, -⟩ := sliver_inside w3 hw3
    obtain ⟨b1, b2, b3, -⟩ := sliver_inside w4 hw4
    rw [imgDet_intersect' _ _ _ a1] at x3
    rw [imgDet_intersect' _ _ _ b1] at x4
    simp only [fin.injEq] at x3 x4
    have f3 : ⌊y0 / 1⌋ = 100 := by rw [Int.floor_eq_iff]; push_cast; constructor <;> linarith
    have f4 : ⌊y1 / 1⌋ = 100 := by rw [Int.floor_eq_iff]; push_cast; constructor <;> linarith
    omega
  obtain ⟨rfl, rfl⟩ := hcc
  have hn8 : 8 ≤ n := by
    have q1 := hin sliver.a (subset_convexHull ℝ _ (by simp [sliverPts]))
    have q2 := hin sliver.d (subset_convexHull ℝ _ (by simp [sliverPts]))
    obtain ⟨-, zd, yd, e1, -, b1, -⟩ := q1
    obtain ⟨-, zd', yd', e1', -, -, b1', -⟩ := q2
    rw [imgDet_intersect' _ _ _ (by simp [sliver]; norm_num)] at e1 e1'
    simp only [fin.injEq, sliver] at e1 e1'
    have f1 : ⌊z0 / 1⌋ < 101 := by rw [Int.floor_lt]; push_cast; linarith
    have f2 : 107 ≤ ⌊z1 / 1⌋ := by rw [Int.le_floor]; push_cast; linarith
    omega
  have hu : (1 / V3.norm ⟨1, 0, 0⟩) • (⟨1, 0, 0⟩ : V3) = ⟨1, 0, 0⟩ := by
    have : V3.norm ⟨1, 0, 0⟩ = 1 := by rw [norm_eq_one]; simp [nsq, V3.dot]
    rw [this]; ext <;> simp
  have hclip : ∀ i, Detector.clipLength H.equations (D.pixelCoordinate i 100) ⟨1, 0, 0⟩ = 0 := by
    intro i
    have hpc : (D.pixelCoordinate i 100).y = 0 := by
      show (-100:ℝ) + _ + _ = 0
      simp [hD, imgDet]
    have hmiss : ∀ t : ℝ, D.pixelCoordinate i 100 + t • (⟨1, 0, 0⟩ : V3) ∉ convexHull ℝ {v : V3 | v ∈ sliverPts} := by
      intro t ht
      have := halfspace_hull (vs := sliverPts) (n := ⟨0, -1, 0⟩) (c := 0) (M := -1/4) (fun v hv => by
        have := (sliver_inside v hv).2.1
        simp [V3.dot]; linarith) _ ht
      simp [V3.dot, hpc] at this
      norm_num at this
    rcases C36_clip_length_partial H sliverPts hi (D.pixelCoordinate i 100) ⟨1, 0, 0⟩ (by rw [norm_eq_one]; simp [nsq, V3.dot]) (by
      intro e he h0
      exfalso
      have hn := hi.unit e he
      have hx : e.n.x = 0 := by simpa [V3.dot] using h0
      obtain ⟨p, hp, q, hq, r, hr, hne, e1, e2, e3⟩ := hfac e he
      rw [hi.points] at hp hq hr
      have hyz : e.n.y = 0 ∧ e.n.z = 0 := by
        simp only [sliverPts, sliver, List.mem_cons, List.not_mem_nil, or_false] at hp hq hr
        rcases hp with rfl | rfl | rfl | rfl <;> rcases hq with rfl | rfl | rfl | rfl <;> rcases hr with rfl | rfl | rfl | rfl <;>
          first
          | (exfalso; apply hne; ext <;> (simp only [V3.cross, V3.sub_x, V3.sub_y, V3.sub_z, V3.zero_x, V3.zero_y, V3.zero_z]; ring1))
          | (simp only [V3.dot, hx] at e1 e2 e3; constructor <;> linarith)
      have : nsq e.n = 0 := by simp [nsq, V3.dot, hx, hyz.1, hyz.2]
      rw [norm_eq_one.mp hn] at this
      norm_num at this) with ⟨s, t, h1, h2, -⟩ | ⟨-, h2⟩
    · have := (h1 s).mpr ⟨le_rfl, by have : (0:ℝ) < 1 / 10 ^ 12 := by norm_num
                                     linarith⟩
      exact absurd this (hmiss s)
    · exact h2
  have hproj : D.projectHull env H ⟨1, 0, 0⟩ ((a:ℤ), ((a + n : ℕ):ℤ), ((100:ℕ):ℤ), ((100 + 1 : ℕ):ℤ)) = .ok none := by
    have k1 : ((((a + n : ℕ):ℤ) - (a:ℤ)).toNat) = n := by omega
    have k2 : ((((100 + 1 : ℕ):ℤ) - ((100:ℕ):ℤ)).toNat) = 1 := by omega
    unfold Detector.projectHull
    simp only [k1, k2, hu]
    rw [if_neg (by omega), if_neg (by omega), if_pos]
    apply Finset.sum_eq_zero; intro i _
    apply Finset.sum_eq_zero; intro j hj
    have : j = 0 := by simpa using hj
    subst this
    split_ifs
    · simp only [Int.toNat_natCast, Nat.add_zero]; exact hclip _
    · rfl
  have hadd : macroAdd D env (imgDict [sliverRow]).beam (oneTet sliver) (imgDict [sliverRow]).motion sliverHit = .ok none := by
    unfold macroAdd Detector.macroPeak
    rw [movedVertices_of hmoved, hH]
    have hk : (⟨rcol sliverHit 13, rcol sliverHit 14, rcol sliverHit 15⟩ : V3) = ⟨1, 0, 0⟩ := rfl
    simp only [hk, hb, hproj]
  refine ⟨D, imgDict [sliverRow], oneTet sliver, D.peaksIntersection (imgDict [sliverRow]) 1, imgDet_new 1 1 (1/10) (by norm_num), sliver_mesh, ?_, ?_⟩
  · rw [hD, sliver_hits]; simp
  · rw [render_macro, show max (1:ℤ) 1 = 1 from rfl, renderMacro_eq (by
      rw [hD, sliver_hits]
      intro r hr
      rw [List.mem_singleton] at hr
      subst hr
      exact ⟨0, by show ((frameOf 1 0 : ℤ) : ℝ) = _; unfold frameOf; simp, by norm_num⟩), hD, sliver_hits, ← hD]
    rw [if_neg, if_pos]
    · rfl
    · exact ⟨sliverHit, by simp, hadd⟩
    · rintro ⟨r, hr, h⟩
      rw [List.mem_singleton] at hr
      subst hr
      rw [hadd] at h; cases h

/-- the assumptions on the environment can be met -/
example : ∃ env : RenderEnv, BeamHull env.hull ∧ ∀ b vs H, env.hull b vs = some H → Facets H :=
  ⟨⟨fun x => x, fun _ => [], 1, plainHull, fun _ _ => []⟩, plainHull_beamHull, plainHull_facets⟩

/-! ### An element that overhangs the detector -/

/-- detector of four by four pixels of side 1 with its corner at `(100, 0, 0)` -/
noncomputable def edgeDet : Detector :=
  ⟨⟨100, 0, 0⟩, ⟨100, 4, 0⟩, ⟨100, 0, 4⟩, 4, 4, 1, 1, ⟨0, 0, 1⟩, ⟨0, 1, 0⟩, ⟨-1, 0, 0⟩, 1, 1/10, 13, true, true, true⟩

theorem edgeDet_new : Detector.new ⟨100, 0, 0⟩ ⟨100, 4, 0⟩ ⟨100, 0, 4⟩ .absent (.both 1) 1 (1/10) 13 true true true = .ok edgeDet := by
  have e1 : ((⟨100, 0, 4⟩ : V3) - ⟨100, 0, 0⟩) = ⟨0, 0, 4⟩ := by ext <;> simp
  have e2 : ((⟨100, 4, 0⟩ : V3) - ⟨100, 0, 0⟩) = ⟨0, 4, 0⟩ := by ext <;> simp
  have n1 : norm (⟨0, 0, 4⟩ : V3) = 4 := by
    unfold V3.norm nsq V3.dot; simp only; rw [show (0:ℝ) * 0 + 0 * 0 + 4 * 4 = 4 ^ 2 by norm_num]; exact Real.sqrt_sq (by norm_num)
  have n2 : norm (⟨0, 4, 0⟩ : V3) = 4 := by
    unfold V3.norm nsq V3.dot; simp only; rw [show (0:ℝ) * 0 + 4 * 4 + 0 * 0 = 4 ^ 2 by norm_num]; exact Real.sqrt_sq (by norm_num)
  have n3 : norm (⟨-1, 0, 0⟩ : V3) = 1 := by rw [norm_eq_one]; simp [nsq, V3.dot]
  have s1 : (1 / (4:ℝ)) • (⟨0, 0, 4⟩ : V3) = ⟨0, 0, 1⟩ := by ext <;> simp
  have s2 : (1 / (4:ℝ)) • (⟨0, 4, 0⟩ : V3) = ⟨0, 1, 0⟩ := by ext <;> simp
  have s3 : (1 / (1:ℝ)) • (⟨-1, 0, 0⟩ : V3) = ⟨-1, 0, 0⟩ := by ext <;> simp
  have c : cross (⟨0, 0, 1⟩ : V3) ⟨0, 1, 0⟩ = ⟨-1, 0, 0⟩ := by ext <;> simp [V3.cross]
  have c0 : (⟨-1, 0, 0⟩ : V3) ≠ 0 := by intro h; have := congrArg V3.x h; simp at this
  unfold Detector.new
  simp only [e1, e2, n1, n2, s1, s2, c, n3, s3, pixelSizes, if_neg c0]
  rw [if_neg (by push Not; exact ⟨one_pos, one_pos⟩)]
  rfl

theorem edgeDet_intersect {v : V3} (hx : v.x ≤ 100) : edgeDet.intersect ⟨1, 0, 0⟩ v = (fin v.z, fin v.y, fin 0) := by
  unfold Detector.intersect edgeDet
  have n1 : norm (⟨-1, 0, 0⟩ : V3) = 1 := by rw [norm_eq_one]; simp [nsq, V3.dot]
  have n2 : norm (⟨1, 0, 0⟩ : V3) = 1 := by rw [norm_eq_one]; simp [nsq, V3.dot]
  have d1 : V3.dot ((⟨100, 0, 0⟩ : V3) - v) ⟨-1, 0, 0⟩ = v.x - 100 := by simp [V3.dot]
  have d2 : V3.dot (⟨1, 0, 0⟩ : V3) ⟨-1, 0, 0⟩ = -1 := by simp [V3.dot]
  simp only [n1, n2, d1, d2]
  rw [Fl.div_fin_ne (show (-1:ℝ) ≠ 0 by norm_num)]
  have hs : (v.x - 100) / -1 = 100 - v.x := by ring
  rw [hs]
  have hl : ¬ Fl.Lt (fin (100 - v.x)) (fin 0) := by simp; linarith
  simp only [Detector.alongRay, if_neg hl, Detector.project]
  simp only [Fl.mul_fin, Fl.add_fin, Fl.sub_fin, Fl.div_fin_ne (show (1:ℝ) ≠ 0 by norm_num), Fl.neg_fin]
  refine Prod.ext ?_ (Prod.ext ?_ ?_)
  · simp only; congr 1; ring
  · simp only; congr 1; ring
  · simp only
    have : ((1:ℝ) / 1 * -(-1 / 1) + 0 / 1 * -(0 / 1) + 0 / 1 * -(0 / 1)) = 1 := by norm_num
    rw [this]
    rw [Fl.arccos_fin (by norm_num) le_rfl, Real.arccos_one, Fl.mul_fin, zero_mul]

/-- an element centred on `(0, 1, 1/20)`, with one corner two and a half pixels below the detector -/
noncomputable def over : Tet := ⟨⟨-1/4, 1/4, 9/10⟩, ⟨-1/4, 7/4, 9/10⟩, ⟨3/4, 3/4, 9/10⟩, ⟨-1/4, 5/4, -5/2⟩⟩
noncomputable def overPts : List V3 := [over.a, over.b, over.c, over.d]
noncomputable def overRow : List Fl := imgRow 0 1 (1/20) 0 (17/20) 0
noncomputable def overHit : List Fl := overRow ++ [fin (1/20), fin 1, fin 0, fin ((frameOf 1 0 : ℤ) : ℝ), fin 1]

theorem over_volume : tetVolume over = 17 / 20 := by
  rw [tetVolume_eq]
  have : |signedVolume over| = 17 / 20 := by
    simp [signedVolume, over, V3.cross, V3.dot]; norm_num [abs_of_pos, abs_of_neg]
  rw [this]

theorem over_mesh : TetraMesh.new overPts [⟨0, 1, 2, 3⟩] = .ok (oneTet over) := by
  apply oneTet_new
  simp [signedVolume, over, V3.cross, V3.dot]; norm_num

theorem over_inside (v : V3) (h : v ∈ overPts) : v.x ≤ 100 ∧ nsq v < 100 := by
  simp only [overPts, over, List.mem_cons, List.not_mem_nil, or_false] at h
  rcases h with rfl | rfl | rfl | rfl <;> simp [nsq, V3.dot] <;> norm_num

theorem over_hits : (edgeDet.peaksIntersection (imgDict [overRow]) 1).peaks = [overHit] := by
  have hri : edgeDet.rowIntersect overRow = [fin (1/20), fin 1, fin 0] := by
    unfold Detector.rowIntersect
    have h1 : vecAt overRow 13 = some ⟨1, 0, 0⟩ := rfl
    have h2 : vecAt overRow 16 = some ⟨0, 1, 1/20⟩ := rfl
    rw [h1, h2]
    simp only
    rw [edgeDet_intersect (by norm_num)]
  have hint : edgeDet.rowIntensity overRow = fin 1 := by
    rw [rowIntensity_spec]
    have h1 : overRow.getD 5 nan = fin 1 := rfl
    have h2 : overRow.getD 20 nan = fin 1 := rfl
    have h3 : overRow.getD 19 nan = fin 1 := rfl
    rw [h1, h2, h3]
    unfold Spec.intensity edgeDet
    simp
  have h30 : row30 edgeDet 1 overRow = overHit := by
    unfold row30; rw [hri, hint]; rfl
  rw [peaksIntersection_rows _ _ _ (by
    intro r hr
    have : r = overRow := by simpa [imgDict] using hr
    rw [this]; rfl)]
  have hp : (imgDict [overRow]).peaks = [overRow] := rfl
  rw [hp, List.filter_cons, if_pos, List.filter_nil, List.map_cons, h30]
  · rfl
  rw [hri, hint]
  simp only [decide_eq_true_eq]
  refine ⟨⟨?_, ?_, ?_, ?_⟩, ?_, ?_⟩
  · simp
  · simp [edgeDet]; norm_num
  · simp
  · simp [edgeDet]
  · simp
  · simp

theorem over_moved : IsMoved (imgDict [overRow]) (oneTet over) hitColumns overHit overPts := by
  refine ⟨0, over, ?_, rfl, ?_⟩
  · show (0:ℝ) = _; simp
  · have : val hitColumns overHit "diffraction_times" = 0 := rfl
    rw [this]
    simp only [List.map_cons, List.map_nil, C06_identity_at_time_zero]
    rfl

theorem over_box : edgeDet.boundingBox overPts ⟨1, 0, 0⟩ = some (((0:ℕ):ℤ), ((0 + 1:ℕ):ℤ), ((0:ℕ):ℤ), ((0 + 2:ℕ):ℤ)) := by
  have i1 : edgeDet.intersect ⟨1, 0, 0⟩ over.a = (fin (9/10), fin (1/4), fin 0) := edgeDet_intersect (by simp [over]; norm_num)
  have i2 : edgeDet.intersect ⟨1, 0, 0⟩ over.b = (fin (9/10), fin (7/4), fin 0) := edgeDet_intersect (by simp [over]; norm_num)
  have i3 : edgeDet.intersect ⟨1, 0, 0⟩ over.c = (fin (9/10), fin (3/4), fin 0) := edgeDet_intersect (by simp [over]; norm_num)
  have i4 : edgeDet.intersect ⟨1, 0, 0⟩ over.d = (fin (-5/2), fin (5/4), fin 0) := edgeDet_intersect (by simp [over]; norm_num)
  have zm : edgeDet.zmax = 4 := rfl
  have ym : edgeDet.ymax = 4 := rfl
  have pz : edgeDet.pz = 1 := rfl
  have py : edgeDet.py = 1 := rfl
  unfold Detector.boundingBox overPts
  simp only [List.map_cons, List.map_nil, i1, i2, i3, i4, Detector.finites, Detector.minL, Detector.maxL, List.foldl_cons, List.foldl_nil, zm, ym,
    Detector.pixelIndex, pz, py]
  have q1 : max (min (min (min (9/10:ℝ) (9/10)) (9/10)) (-5/2)) 0 = 0 := by norm_num
  have q2 : min (max (max (max (9/10:ℝ) (9/10)) (9/10)) (-5/2)) 4 = 9/10 := by norm_num
  have q3 : max (min (min (min (1/4:ℝ) (7/4)) (3/4)) (5/4)) 0 = 1/4 := by norm_num
  have q4 : min (max (max (max (1/4:ℝ) (7/4)) (3/4)) (5/4)) 4 = 7/4 := by norm_num
  rw [q1, q2, q3, q4, if_neg (by norm_num)]
  have p1 : Detector.pyInt ((0:ℝ) / 1) = 0 := by rw [pyInt_nonneg (by norm_num)]; norm_num
  have p2 : Detector.pyInt ((9/10:ℝ) / 1) = 0 := by rw [pyInt_nonneg (by norm_num), Int.floor_eq_iff]; norm_num
  have p3 : Detector.pyInt ((1/4:ℝ) / 1) = 0 := by rw [pyInt_nonneg (by norm_num), Int.floor_eq_iff]; norm_num
  have p4 : Detector.pyInt ((7/4:ℝ) / 1) = 1 := by rw [pyInt_nonneg (by norm_num), Int.floor_eq_iff]; norm_num
  have p5 : Detector.pyInt ((4:ℝ) / 1) = 4 := by rw [pyInt_nonneg (by norm_num), Int.floor_eq_iff]; norm_num
  rw [p1, p2, p3, p4, p5]
  rfl

theorem over_x {s : V3} (h : s ∈ convexHull ℝ {v : V3 | v ∈ overPts}) : s.x ≤ 100 := by
  have := halfspace_hull (vs := overPts) (n := ⟨1, 0, 0⟩) (c := 0) (M := 100) (fun v hv => by
    have := (over_inside v hv).1
    simp [V3.dot]; linarith) _ h
  simpa [V3.dot] using this

theorem over_y {s : V3} (h : s ∈ convexHull ℝ {v : V3 | v ∈ overPts}) : 1/4 ≤ s.y ∧ s.y ≤ 7/4 := by
  have hy : ∀ v ∈ overPts, 1/4 ≤ v.y ∧ v.y ≤ 7/4 := by
    intro v hv
    simp only [overPts, over, List.mem_cons, List.not_mem_nil, or_false] at hv
    rcases hv with rfl | rfl | rfl | rfl <;> norm_num
  have h1 := halfspace_hull (vs := overPts) (n := ⟨0, 1, 0⟩) (c := 0) (M := 7/4) (fun v hv => by
    have := (hy v hv).2
    simp [V3.dot]; linarith) _ h
  have h2 := halfspace_hull (vs := overPts) (n := ⟨0, -1, 0⟩) (c := 0) (M := -1/4) (fun v hv => by
    have := (hy v hv).1
    simp [V3.dot]; linarith) _ h
  simp [V3.dot] at h1 h2
  constructor <;> linarith

theorem over_hull {env : RenderEnv} (hh : BeamHull env.hull) : ∃ H, env.hull (imgDict [overRow]).beam overPts = some H ∧ IsHull H overPts := by
  have hsol : Solid overPts := by
    refine ⟨over.a, by simp [overPts], over.b, by simp [overPts], over.c, by simp [overPts], over.d, by simp [overPts], ?_⟩
    simp [over, V3.cross, V3.dot]; norm_num
  exact hh (imgDict [overRow]).beam overPts rfl (fun v hv => demoBeam_contains (over_inside v hv).2) hsol

theorem ex_unit : (1 / V3.norm ⟨1, 0, 0⟩) • (⟨1, 0, 0⟩ : V3) = ⟨1, 0, 0⟩ := by
  have : V3.norm ⟨1, 0, 0⟩ = 1 := by rw [norm_eq_one]; simp [nsq, V3.dot]
  rw [this]; ext <;> simp

/-- C65 fails: the peak hits the detector, its element overhangs it; when one of the sampled points of the element lies two pixels
outside, macro rendering raises `IndexError`. -/
theorem C65_overhang_fails (env : RenderEnv) (hh : BeamHull env.hull)
    (hs : ∀ H, H.points = overPts → ∃ s ∈ env.sample H 14, s ∈ convexHull ℝ {v : V3 | v ∈ overPts} ∧ s.z ≤ -2) :
    ∃ (D : Detector) (d : PeaksDict) (mesh : TetraMesh),
      Detector.new ⟨100, 0, 0⟩ ⟨100, 4, 0⟩ ⟨100, 0, 4⟩ .absent (.both 1) 1 (1/10) 13 true true true = .ok D ∧
      TetraMesh.new overPts [⟨0, 1, 2, 3⟩] = .ok mesh ∧ (D.peaksIntersection d 1).peaks ≠ [] ∧
      D.render env d mesh 1 .macro none (1/1000) = .error .indexError := by
  obtain ⟨H, hH, hi⟩ := over_hull hh
  obtain ⟨s, hsm, hin, hz⟩ := hs H hi.points
  have hproj : edgeDet.projectHull env H ⟨1, 0, 0⟩ (((0:ℕ):ℤ), ((0 + 1:ℕ):ℤ), ((0:ℕ):ℤ), ((0 + 2:ℕ):ℤ)) = .error .indexError := by
    unfold Detector.projectHull
    simp only [ex_unit]
    rw [if_neg (by decide), if_pos (by decide), if_pos]
    refine ⟨_, List.mem_map.mpr ⟨s, hsm, rfl⟩, Or.inl ?_⟩
    unfold Detector.sampleEntry
    rw [edgeDet_intersect (over_x hin)]
    have p1 : edgeDet.pz = 1 := rfl
    have hc : ⌈s.z / 1⌉ ≤ -2 := by rw [Int.ceil_le]; push_cast; linarith
    have e : Detector.pyInt (s.z / 1) = ⌈s.z / 1⌉ := by
      unfold Detector.pyInt; rw [if_neg (by push Not; linarith)]
    simp only [p1, e]
    unfold wrapIdx
    rw [if_neg (by push_cast; omega), if_neg (by push_cast; omega)]
  have hadd : macroAdd edgeDet env (imgDict [overRow]).beam (oneTet over) (imgDict [overRow]).motion overHit = .error .indexError := by
    unfold macroAdd Detector.macroPeak
    rw [movedVertices_of over_moved, hH]
    have hk : (⟨rcol overHit 13, rcol overHit 14, rcol overHit 15⟩ : V3) = ⟨1, 0, 0⟩ := rfl
    simp only [hk, hi.points, over_box, hproj]
  refine ⟨edgeDet, imgDict [overRow], oneTet over, edgeDet_new, over_mesh, ?_, ?_⟩
  · rw [over_hits]; simp
  · rw [render_macro, show max (1:ℤ) 1 = 1 from rfl, renderMacro_eq (by
      rw [over_hits]
      intro r hr
      rw [List.mem_singleton] at hr
      subst hr
      exact ⟨0, by show ((frameOf 1 0 : ℤ) : ℝ) = _; unfold frameOf; simp, by norm_num⟩), over_hits]
    rw [if_pos ⟨overHit, by simp, hadd⟩]
    rfl

/-- such samples exist: a sampler that draws the outer corner -/
example : ∃ env : RenderEnv, BeamHull env.hull ∧
    ∀ H, H.points = overPts → ∃ s ∈ env.sample H 14, s ∈ convexHull ℝ {v : V3 | v ∈ overPts} ∧ s.z ≤ -2 :=
  ⟨⟨fun x => x, fun _ => [], 1, plainHull, fun _ n => List.replicate n over.d⟩, plainHull_beamHull, fun _ _ =>
    ⟨over.d, by simp, subset_convexHull ℝ _ (by simp [overPts]), by simp [over]; norm_num⟩⟩

/-- C65 fails, second part: rays of sampled points that miss the detector by less than two pixels are added to pixels of the box.
Here no sampled ray hits the detector and the whole volume is distributed over the box. -/
theorem C65_missing_rays_fails (env : RenderEnv) (hh : BeamHull env.hull)
    (hs : ∀ H, H.points = overPts → (∀ s ∈ env.sample H 14, s ∈ convexHull ℝ {v : V3 | v ∈ overPts} ∧ -2 < s.z ∧ s.z < 0) ∧
      ∃ s ∈ env.sample H 14, LongChord overPts s ⟨1, 0, 0⟩) :
    ∃ (D : Detector) (H : Hull) (pr : Frame),
      Detector.new ⟨100, 0, 0⟩ ⟨100, 4, 0⟩ ⟨100, 0, 4⟩ .absent (.both 1) 1 (1/10) 13 true true true = .ok D ∧
      env.hull demoBeam overPts = some H ∧ (∀ s ∈ env.sample H 14, ¬ D.contains (D.intersect ⟨1, 0, 0⟩ s).1 (D.intersect ⟨1, 0, 0⟩ s).2.1) ∧
      D.boundingBox H.points ⟨1, 0, 0⟩ = some (0, 1, 0, 2) ∧ D.projectHull env H ⟨1, 0, 0⟩ (0, 1, 0, 2) = .ok (some pr) ∧
      pr 0 0 + pr 0 1 = 17 / 20 := by
  obtain ⟨H, hH, hi⟩ := over_hull hh
  obtain ⟨hall, s0, hs0, hl⟩ := hs H hi.points
  have hvol : H.volume = 17 / 20 := by
    rw [hi.volume _ _ _ _ rfl]
    simp [over, V3.cross, V3.dot]; norm_num [abs_of_pos, abs_of_neg]
  have ent : ∀ s ∈ env.sample H 14, ∃ j, j < 2 ∧
      edgeDet.sampleEntry H ⟨1, 0, 0⟩ 0 1 0 2 s = (some 0, some j, Detector.clipLength H.equations s ⟨1, 0, 0⟩) := by
    intro s hsm
    obtain ⟨hin, h1, h2⟩ := hall s hsm
    obtain ⟨y1, y2⟩ := over_y hin
    unfold Detector.sampleEntry
    rw [edgeDet_intersect (over_x hin)]
    have p1 : edgeDet.pz = 1 := rfl
    have p2 : edgeDet.py = 1 := rfl
    have e : Detector.pyInt (s.z / 1) = ⌈s.z / 1⌉ := by
      unfold Detector.pyInt; rw [if_neg (by push Not; linarith)]
    have c1 : -2 < ⌈s.z / 1⌉ := by rw [Int.lt_ceil]; push_cast; linarith
    have c2 : ⌈s.z / 1⌉ ≤ 0 := by rw [Int.ceil_le]; push_cast; linarith
    have ey : Detector.pyInt (s.y / 1) = ⌊s.y / 1⌋ := pyInt_nonneg (by linarith)
    have d1 : 0 ≤ ⌊s.y / 1⌋ := by rw [Int.le_floor]; push_cast; linarith
    have d2 : ⌊s.y / 1⌋ < 2 := by rw [Int.floor_lt]; push_cast; linarith
    refine ⟨⌊s.y / 1⌋.toNat, by omega, ?_⟩
    simp only [p1, p2, e, ey]
    refine Prod.ext ?_ (Prod.ext ?_ rfl)
    · unfold wrapIdx
      simp only
      by_cases hc : ⌈s.z / 1⌉ = 0
      · rw [hc, if_pos (by norm_num)]; rfl
      · have : ⌈s.z / 1⌉ = -1 := by omega
        rw [this, if_neg (by norm_num), if_pos (by norm_num)]; rfl
    · unfold wrapIdx
      simp only
      rw [if_pos (by push_cast; omega)]
      congr 1
      omega
  have hpos := clipLength_pos hi (by rw [norm_eq_one]; simp [nsq, V3.dot]) hl
  have hok : ∃ pr, edgeDet.projectHull env H ⟨1, 0, 0⟩ (((0:ℕ):ℤ), ((0 + 1:ℕ):ℤ), ((0:ℕ):ℤ), ((0 + 2:ℕ):ℤ)) = .ok (some pr) := by
    unfold Detector.projectHull
    simp only [ex_unit]
    rw [if_neg (by decide), if_pos (by decide), if_neg]
    · rw [if_neg]
      · exact ⟨_, rfl⟩
      · rintro ⟨h0, -⟩
        obtain ⟨j, hj, hq⟩ := ent s0 hs0
        have nn : ∀ i j : ℕ, 0 ≤ ((((env.sample H 14).map fun p => edgeDet.sampleEntry H ⟨1, 0, 0⟩ 0 1 0 2 p).filter fun e : Option ℕ × Option ℕ × ℝ =>
            e.1 = some i ∧ e.2.1 = some j).map fun e => e.2.2).sum := by
          intro i j
          apply List.sum_nonneg
          intro x hx
          obtain ⟨e, he, rfl⟩ := List.mem_map.mp hx
          obtain ⟨p, hp, rfl⟩ := List.mem_map.mp (List.mem_filter.mp he).1
          obtain ⟨j', -, hq'⟩ := ent p hp
          rw [hq']; exact clipLength_nonneg _ _ _
        have h1 := (Finset.sum_eq_zero_iff_of_nonneg (fun i _ => Finset.sum_nonneg fun j _ => nn i j)).mp h0 0 (by decide)
        have h2 := (Finset.sum_eq_zero_iff_of_nonneg (fun j _ => nn 0 j)).mp h1 j (Finset.mem_range.mpr hj)
        have h3 : Detector.clipLength H.equations s0 ⟨1, 0, 0⟩ ≤ ((((env.sample H 14).map fun p => edgeDet.sampleEntry H ⟨1, 0, 0⟩ 0 1 0 2 p).filter
            fun e : Option ℕ × Option ℕ × ℝ => e.1 = some 0 ∧ e.2.1 = some j).map fun e => e.2.2).sum := by
          apply List.single_le_sum
          · intro x hx
            obtain ⟨e, he, rfl⟩ := List.mem_map.mp hx
            obtain ⟨p, hp, rfl⟩ := List.mem_map.mp (List.mem_filter.mp he).1
            obtain ⟨j', -, hq'⟩ := ent p hp
            rw [hq']; exact clipLength_nonneg _ _ _
          · refine List.mem_map.mpr ⟨_, List.mem_filter.mpr ⟨List.mem_map.mpr ⟨s0, hs0, rfl⟩, ?_⟩, ?_⟩
            · rw [hq]; simp
            · rw [hq]
        rw [h2] at h3
        linarith
    · rintro ⟨e, he, hn⟩
      obtain ⟨p, hp, rfl⟩ := List.mem_map.mp he
      obtain ⟨j', -, hq'⟩ := ent p hp
      have : edgeDet.sampleEntry H ⟨1, 0, 0⟩ (((0:ℕ):ℤ)) ((((0 + 1:ℕ):ℤ) - ((0:ℕ):ℤ)).toNat) (((0:ℕ):ℤ)) ((((0 + 2:ℕ):ℤ) - ((0:ℕ):ℤ)).toNat) p =
          edgeDet.sampleEntry H ⟨1, 0, 0⟩ 0 1 0 2 p := rfl
      rw [this, hq'] at hn
      simp at hn
  obtain ⟨pr, hpr⟩ := hok
  have htot := projectHull_total (le_refl 1) (by norm_num) hpr
  refine ⟨edgeDet, H, pr, edgeDet_new, hH, ?_, ?_, hpr, ?_⟩
  · intro s hsm
    obtain ⟨hin, -, h2⟩ := hall s hsm
    rw [edgeDet_intersect (over_x hin)]
    rintro ⟨h0, -⟩
    simp at h0
    linarith
  · rw [hi.points]; exact over_box
  · rw [← hvol, ← htot]
    simp [Finset.sum_range_succ]

/-- such samples exist -/
example : ∃ env : RenderEnv, BeamHull env.hull ∧
    ∀ H, H.points = overPts → (∀ s ∈ env.sample H 14, s ∈ convexHull ℝ {v : V3 | v ∈ overPts} ∧ -2 < s.z ∧ s.z < 0) ∧
      ∃ s ∈ env.sample H 14, LongChord overPts s ⟨1, 0, 0⟩ := by
  have mem : ∀ wa wb wc wd : ℝ, 0 ≤ wa → 0 ≤ wb → 0 ≤ wc → 0 ≤ wd → wa + wb + wc + wd = 1 →
      wa • over.a + wb • over.b + wc • over.c + wd • over.d ∈ convexHull ℝ {v : V3 | v ∈ overPts} := by
    intro wa wb wc wd h1 h2 h3 h4 h5
    have := (convex_convexHull ℝ {v : V3 | v ∈ overPts}).sum_mem (t := Finset.univ)
      (w := ![wa, wb, wc, wd]) (z := ![over.a, over.b, over.c, over.d])
      (by intro i _; fin_cases i <;> simpa) (by simp [Fin.sum_univ_four, h5])
      (by intro i _; fin_cases i <;> exact subset_convexHull ℝ _ (by simp [overPts]))
    rw [Fin.sum_univ_four] at this
    simpa using this
  have m1 : (⟨0, 17/16, -4/5⟩ : V3) ∈ convexHull ℝ {v : V3 | v ∈ overPts} := by
    have := mem (1/8) (1/8) (1/4) (1/2) (by norm_num) (by norm_num) (by norm_num) (by norm_num) (by norm_num)
    convert this using 1
    ext <;> simp [over] <;> norm_num
  refine ⟨⟨fun x => x, fun _ => [], 1, plainHull, fun _ n => List.replicate n ⟨0, 17/16, -4/5⟩⟩, plainHull_beamHull, fun _ _ => ⟨?_, ?_⟩⟩
  · intro s hsm
    obtain rfl := List.eq_of_mem_replicate hsm
    exact ⟨m1, by norm_num, by norm_num⟩
  · refine ⟨⟨0, 17/16, -4/5⟩, by simp, -1/4, 0, by norm_num, ?_, by simpa using m1⟩
    have := mem (7/24) (5/24) 0 (1/2) (by norm_num) (by norm_num) (by norm_num) (by norm_num) (by norm_num)
    convert this using 1
    ext <;> simp [over] <;> norm_num

end XRD
