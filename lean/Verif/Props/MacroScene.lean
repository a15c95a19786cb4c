import Verif.Props.MacroTotal

/-! A concrete scene for macro rendering: one element in front of the detector of `Props/ImgScene.lean`; counterexamples for C35
and C24. -/

namespace XRD
open V3 M3 Fl Spec
open scoped Classical

/-- a ray along `x` from any point before the detector -/
theorem imgDet_intersect' (p sg th : ℝ) {v : V3} (hx : v.x ≤ 100) :
    (imgDet p sg th).intersect ⟨1, 0, 0⟩ v = (fin (v.z + 100), fin (v.y + 100), fin 0) := by
  unfold Detector.intersect imgDet
  have n1 : norm (⟨-1, 0, 0⟩ : V3) = 1 := by rw [norm_eq_one]; simp [nsq, V3.dot]
  have n2 : norm (⟨1, 0, 0⟩ : V3) = 1 := by rw [norm_eq_one]; simp [nsq, V3.dot]
  have d1 : V3.dot ((⟨100, -100, -100⟩ : V3) - v) ⟨-1, 0, 0⟩ = v.x - 100 := by simp [V3.dot]
  have d2 : V3.dot (⟨1, 0, 0⟩ : V3) ⟨-1, 0, 0⟩ = -1 := by simp [V3.dot]
  simp only [n1, n2, d1, d2]
  rw [Fl.div_fin_ne (show (-1:ℝ) ≠ 0 by norm_num)]
  have hs : (v.x - 100) / -1 = 100 - v.x := by ring
  rw [hs]
  have hl : ¬ Fl.Lt (fin (100 - v.x)) (fin 0) := by simp; linarith
  simp only [Detector.alongRay, if_neg hl, Detector.project]
  simp only [Fl.mul_fin, Fl.add_fin, Fl.sub_fin, Fl.div_fin_ne (show (1:ℝ) ≠ 0 by norm_num), Fl.neg_fin]
  refine Prod.ext ?_ (Prod.ext ?_ ?_)
  · simp only; congr 1; ring
  · simp only; congr 1; ring
  · simp only
    have : ((1:ℝ) / 1 * -(-1 / 1) + 0 / 1 * -(0 / 1) + 0 / 1 * -(0 / 1)) = 1 := by norm_num
    rw [this]
    rw [Fl.arccos_fin (by norm_num) le_rfl, Real.arccos_one, Fl.mul_fin, zero_mul]

/-- the mesh of a single element -/
noncomputable def oneTet (e : Tet) : TetraMesh := TetraMesh.ofData [e.a, e.b, e.c, e.d] [⟨0, 1, 2, 3⟩]

theorem oneTet_new (e : Tet) (h : signedVolume e ≠ 0) : TetraMesh.new [e.a, e.b, e.c, e.d] [⟨0, 1, 2, 3⟩] = .ok (oneTet e) := by
  unfold TetraMesh.new
  rw [if_pos, if_pos]
  · rfl
  · intro t ht
    have : t = e := by simpa [elements, Q4.map] using ht
    rw [this]; exact h
  · intro q hq i hi
    have : q = ⟨0, 1, 2, 3⟩ := by simpa using hq
    subst this
    simp [Q4.toList] at hi
    simp; omega

theorem oneTet_moved (e : Tet) (rows : List (List Fl)) (n : ℤ) (y z vol fw : ℝ) :
    IsMoved (imgDict rows) (oneTet e) hitColumns (imgHit n 0 y z 0 vol fw) [e.a, e.b, e.c, e.d] := by
  refine ⟨0, e, ?_, rfl, ?_⟩
  · show (0:ℝ) = _; simp
  · have : val hitColumns (imgHit n 0 y z 0 vol fw) "diffraction_times" = 0 := rfl
    rw [this]
    simp only [List.map_cons, List.map_nil, C06_identity_at_time_zero]

/-- a projection that stays inside one pixel -/
theorem box_one {D : Detector} (hz : 0 < D.pz) (hy : 0 < D.py) {points : List V3} {k : V3} {i j : ℕ} (hne : points ≠ [])
    (hi : ((i:ℝ) + 1) ≤ D.zmax / D.pz) (hj : ((j:ℝ) + 1) ≤ D.ymax / D.py)
    (h : ∀ v ∈ points, ∃ zd yd : ℝ, (D.intersect k v).1 = fin zd ∧ (D.intersect k v).2.1 = fin yd ∧
      i ≤ zd / D.pz ∧ zd / D.pz < i + 1 ∧ j ≤ yd / D.py ∧ yd / D.py < j + 1) :
    D.boundingBox points k = some ((i:ℤ), (i:ℤ) + 1, (j:ℤ), (j:ℤ) + 1) := by
  have hz' : ∀ x ∈ Detector.finites ((points.map fun v => D.intersect k v).map (·.1)), (i:ℝ) ≤ x / D.pz ∧ x / D.pz < i + 1 := by
    intro x hx
    rw [mem_finites] at hx
    obtain ⟨q, hq, h1⟩ := List.mem_map.mp hx
    obtain ⟨v, hvm, rfl⟩ := List.mem_map.mp hq
    obtain ⟨zd, yd, e1, e2, i1, i2, i3, i4⟩ := h v hvm
    rw [e1] at h1
    cases h1
    exact ⟨i1, i2⟩
  have hy' : ∀ x ∈ Detector.finites ((points.map fun v => D.intersect k v).map (·.2.1)), (j:ℝ) ≤ x / D.py ∧ x / D.py < j + 1 := by
    intro x hx
    rw [mem_finites] at hx
    obtain ⟨q, hq, h1⟩ := List.mem_map.mp hx
    obtain ⟨v, hvm, rfl⟩ := List.mem_map.mp hq
    obtain ⟨zd, yd, e1, e2, i1, i2, i3, i4⟩ := h v hvm
    rw [e2] at h1
    cases h1
    exact ⟨i3, i4⟩
  obtain ⟨v, hvm⟩ := List.exists_mem_of_ne_nil _ hne
  obtain ⟨zd, yd, e1, e2, -⟩ := h v hvm
  have hmz : zd ∈ Detector.finites ((points.map fun v => D.intersect k v).map (·.1)) := by
    rw [mem_finites]; exact List.mem_map.mpr ⟨D.intersect k v, List.mem_map.mpr ⟨v, hvm, rfl⟩, e1⟩
  have hmy : yd ∈ Detector.finites ((points.map fun v => D.intersect k v).map (·.2.1)) := by
    rw [mem_finites]; exact List.mem_map.mpr ⟨D.intersect k v, List.mem_map.mpr ⟨v, hvm, rfl⟩, e2⟩
  have ax : ∀ {p M lo hi : ℝ} {i : ℕ}, 0 < p → (i:ℝ) + 1 ≤ M / p → (i:ℝ) ≤ lo / p → hi / p < i + 1 → lo ≤ hi →
      max lo 0 = lo ∧ min hi M = hi ∧ Detector.pyInt (lo / p) = i ∧ min (Detector.pyInt (hi / p) + 1) (Detector.pyInt (M / p)) = (i:ℤ) + 1 := by
    intro p M lo hi i hp hM h1 h2 hle
    have hi0 : (0:ℝ) ≤ i := by positivity
    have hlh : lo / p ≤ hi / p := by gcongr
    have e1 : ⌊lo / p⌋ = (i:ℤ) := Int.floor_eq_iff.mpr ⟨by exact_mod_cast h1, by push_cast; linarith⟩
    have e2 : ⌊hi / p⌋ = (i:ℤ) := Int.floor_eq_iff.mpr ⟨by push_cast; linarith, by push_cast; linarith⟩
    have e3 : (i:ℤ) + 1 ≤ ⌊M / p⌋ := by rw [Int.le_floor]; push_cast; exact hM
    have hlo : 0 ≤ lo := by
      by_contra hc; push Not at hc
      have := div_neg_of_neg_of_pos hc hp; linarith
    have hhi : hi ≤ M := by
      have : hi / p ≤ M / p := by linarith
      exact (div_le_div_iff_of_pos_right hp).mp this
    refine ⟨max_eq_left hlo, min_eq_left hhi, ?_, ?_⟩
    · rw [pyInt_nonneg (by linarith), e1]
    · rw [pyInt_nonneg (by linarith), pyInt_nonneg (by linarith), e2]; exact min_eq_left e3
  unfold Detector.boundingBox
  simp only
  cases hzs : Detector.finites ((points.map fun v => D.intersect k v).map (·.1)) with
  | nil => rw [hzs] at hmz; simp at hmz
  | cons z zs =>
    cases hys : Detector.finites ((points.map fun v => D.intersect k v).map (·.2.1)) with
    | nil => rw [hys] at hmy; simp at hmy
    | cons y ys =>
      rw [hzs] at hz'
      rw [hys] at hy'
      simp only
      obtain ⟨z1, z2, z3, z4⟩ := ax hz hi (hz' _ (minL_mem z zs)).1 (hz' _ (maxL_mem z zs)).2 (minL_le_maxL z zs)
      obtain ⟨y1, y2, y3, y4⟩ := ax hy hj (hy' _ (minL_mem y ys)).1 (hy' _ (maxL_mem y ys)).2 (minL_le_maxL y ys)
      rw [z1, z2, y1, y2, if_neg (by push Not; exact ⟨minL_le_maxL _ _, minL_le_maxL _ _⟩)]
      unfold Detector.pixelIndex
      simp only [z3, z4, y3, y4]

/-- a contribution to a single pixel never fails -/
theorem macroAdd_one {D : Detector} {env : RenderEnv} {b : Beam} {mesh : TetraMesh} {m : Motion} {row : List Fl} {H : Hull} {i j : ℕ}
    (hH : env.hull b (Detector.movedVertices mesh m row) = some H)
    (hb : D.boundingBox H.points ⟨rcol row 13, rcol row 14, rcol row 15⟩ = some ((i:ℤ), (i:ℤ) + 1, (j:ℤ), (j:ℤ) + 1)) :
    ∃ f, macroAdd D env b mesh m row = .ok (some f) := by
  have hp : D.projectHull env H ⟨rcol row 13, rcol row 14, rcol row 15⟩ ((i:ℤ), (i:ℤ) + 1, (j:ℤ), (j:ℤ) + 1) =
      .ok (some fun i j => if i = 0 ∧ j = 0 then H.volume else 0) := by
    unfold Detector.projectHull
    have e1 : ((i:ℤ) + 1 - i).toNat = 1 := by omega
    have e2 : ((j:ℤ) + 1 - j).toNat = 1 := by omega
    simp only [e1, e2]
    rw [if_pos (by norm_num)]
  unfold macroAdd Detector.macroPeak
  rw [hH]
  simp only [hb, hp]
  exact ⟨_, rfl⟩

/-- a needle shaped element along the beam direction, of volume `16 / 10⁵` and centre `(0, 3/200, 3/200)` -/
noncomputable def needle : Tet := ⟨⟨-3/20, 1/200, 1/200⟩, ⟨-3/20, 9/200, 1/200⟩, ⟨-3/20, 1/200, 9/200⟩, ⟨9/20, 1/200, 1/200⟩⟩

theorem needle_volume : tetVolume needle = 16 / 10 ^ 5 := by
  rw [tetVolume_eq]
  have : signedVolume needle = 16 / 10 ^ 5 := by
    simp [signedVolume, needle, V3.cross, V3.dot]; norm_num
  rw [this]; norm_num

theorem needle_mesh : TetraMesh.new [needle.a, needle.b, needle.c, needle.d] [⟨0, 1, 2, 3⟩] = .ok (oneTet needle) := by
  apply oneTet_new
  simp [signedVolume, needle, V3.cross, V3.dot]; norm_num

/-- the peak of the element: direction `x`, time 0, source at its centre -/
noncomputable def needleRow : List Fl := imgRow 0 (3/200) (3/200) 0 (16 / 10 ^ 5) 0
noncomputable def needleHit : List Fl := imgHit 1 0 (3/200) (3/200) 0 (16 / 10 ^ 5) 0

theorem needle_hits (p sg th : ℝ) : ((imgDet p sg th).peaksIntersection (imgDict [needleRow]) 1).peaks = [needleHit] := by
  unfold needleRow
  rw [imgDict_kept p sg th 1 0 (3/200) (3/200) 0 _ 0 (by norm_num [abs_of_pos]) (by norm_num [abs_of_pos]) [] (by simp)]
  rfl

theorem needle_len : ∀ r ∈ (imgDict [needleRow]).peaks, r.length = 25 := by
  intro r hr
  have : r = needleRow := by simpa [imgDict] using hr
  rw [this]; rfl

theorem needle_inside (v : V3) (h : v ∈ [needle.a, needle.b, needle.c, needle.d]) :
    v.x ≤ 100 ∧ 1/200 ≤ v.y ∧ v.y ≤ 9/200 ∧ 1/200 ≤ v.z ∧ v.z ≤ 9/200 ∧ nsq v < 100 := by
  simp only [needle, List.mem_cons, List.not_mem_nil, or_false] at h
  rcases h with rfl | rfl | rfl | rfl <;> simp [nsq, V3.dot] <;> norm_num

theorem needle_kOut : kOut hitColumns needleHit = ⟨1, 0, 0⟩ := rfl

/-- the macro image of the needle on a detector with pixel size `p`, for `p = 1/2` and `p = 1/20` -/
theorem needle_macro (env : RenderEnv) (hh : BeamHull env.hull) (q : ℕ) (hq : q = 2 ∨ q = 20) (mi : ℝ) (ml : Option ℝ) :
    ∃ t out, (imgDet (1 / q) 1 (1/10)).render env (imgDict [needleRow]) (oneTet needle) 1 .macro ml mi = .ok (some t, out) ∧
      out = (imgDet (1 / q) 1 (1/10)).peaksIntersection (imgDict [needleRow]) 1 ∧
      total2 (imgDet (1 / q) 1 (1/10)).nz (imgDet (1 / q) 1 (1/10)).ny (t 0) = (1 / q) * (1 / q) * power out.columns out.peaks := by
  set D := imgDet (1 / q) 1 (1/10) with hD
  have hq0 : (0:ℝ) < q := by rcases hq with rfl | rfl <;> norm_num
  have hpz : D.pz = 1 / q := rfl
  have hpy : D.py = 1 / q := rfl
  have hzm : D.zmax = 200 := rfl
  have hym : D.ymax = 200 := rfl
  have hp0 : 0 < D.pz := by rw [hpz]; positivity
  have hp1 : 0 < D.py := by rw [hpy]; positivity
  have hproj : ∀ v ∈ [needle.a, needle.b, needle.c, needle.d], D.intersect ⟨1, 0, 0⟩ v = (fin (v.z + 100), fin (v.y + 100), fin 0) :=
    fun v hv => imgDet_intersect' _ _ _ (needle_inside v hv).1
  have hdiv : ∀ x : ℝ, x / (1 / (q:ℝ)) = x * q := by intro x; field_simp
  have hfrac : ∀ x : ℝ, 1/200 ≤ x → x ≤ 9/200 → ((100 * q : ℕ):ℝ) ≤ (x + 100) * q ∧ (x + 100) * q < ((100 * q : ℕ):ℝ) + 1 := by
    intro x h1 h2
    push_cast
    have : x * q < 1 := by
      rcases hq with rfl | rfl <;> push_cast <;> linarith
    constructor <;> nlinarith
  have hsol : Solid [needle.a, needle.b, needle.c, needle.d] := by
    refine ⟨needle.a, by simp, needle.b, by simp, needle.c, by simp, needle.d, by simp, ?_⟩
    simp [needle, V3.cross, V3.dot]; norm_num
  obtain ⟨H, hH, hi⟩ := hh (imgDict [needleRow]).beam [needle.a, needle.b, needle.c, needle.d] rfl
    (fun v hv => demoBeam_contains (needle_inside v hv).2.2.2.2.2) hsol
  have hmoved : IsMoved (imgDict [needleRow]) (oneTet needle) hitColumns needleHit [needle.a, needle.b, needle.c, needle.d] :=
    oneTet_moved needle _ 1 _ _ _ _
  have hbox : D.boundingBox H.points ⟨rcol needleHit 13, rcol needleHit 14, rcol needleHit 15⟩ =
      some (((100 * q : ℕ):ℤ), ((100 * q : ℕ):ℤ) + 1, ((100 * q : ℕ):ℤ), ((100 * q : ℕ):ℤ) + 1) := by
    rw [hi.points]
    apply box_one hp0 hp1 (by simp)
    · rw [hzm, hpz, hdiv]; push_cast
      rcases hq with rfl | rfl <;> norm_num
    · rw [hym, hpy, hdiv]; push_cast
      rcases hq with rfl | rfl <;> norm_num
    · intro v hv
      obtain ⟨-, y1, y2, z1, z2, -⟩ := needle_inside v hv
      refine ⟨v.z + 100, v.y + 100, ?_, ?_, ?_⟩
      · show (D.intersect ⟨1, 0, 0⟩ v).1 = _; rw [hproj v hv]
      · show (D.intersect ⟨1, 0, 0⟩ v).2.1 = _; rw [hproj v hv]
      · rw [hpz, hpy, hdiv, hdiv]
        exact ⟨(hfrac _ z1 z2).1, (hfrac _ z1 z2).2, (hfrac _ y1 y2).1, (hfrac _ y1 y2).2⟩
  obtain ⟨g, hg⟩ := macroAdd_one (D := D) (env := env) (b := (imgDict [needleRow]).beam) (m := (imgDict [needleRow]).motion)
    (mesh := oneTet needle) (row := needleHit) (by rw [movedVertices_of hmoved]; exact hH) hbox
  have hren : ∃ t, D.render env (imgDict [needleRow]) (oneTet needle) 1 .macro ml mi =
      .ok (some t, D.peaksIntersection (imgDict [needleRow]) 1) := by
    rw [render_macro, show max (1:ℤ) 1 = 1 from rfl, renderMacro_eq (by
      rw [hD, needle_hits]
      intro r hr
      rw [List.mem_singleton] at hr
      subst hr
      exact ⟨0, by show ((frameOf 1 0 : ℤ) : ℝ) = _; unfold frameOf; simp, by norm_num⟩), hD, needle_hits, ← hD]
    rw [if_neg, if_neg]
    · exact ⟨_, rfl⟩
    · rintro ⟨r, hr, h⟩
      rw [List.mem_singleton] at hr
      subst hr
      rw [hg] at h; cases h
    · rintro ⟨r, hr, h⟩
      rw [List.mem_singleton] at hr
      subst hr
      rw [hg] at h; cases h
  obtain ⟨t, ht⟩ := hren
  refine ⟨t, _, ht, rfl, ?_⟩
  have hc : (D.peaksIntersection (imgDict [needleRow]) 1).columns = hitColumns := rfl
  have := C35_macro_total_full_elements_partial D hp0 hp1 (by show (0:ℝ) < 1; norm_num) (by show (0:ℤ) ≤ 13; norm_num) env hh
    (imgDict [needleRow]) rfl needle_len (by show norm (⟨0, 0, 1⟩ : V3) = 1; exact norm_ez) (oneTet needle) 1 ml mi t _ ht 13 (le_refl _)
    (by
      rw [hc, hD, needle_hits, ← hD]
      intro r hr
      rw [List.mem_singleton] at hr
      subst hr
      refine ⟨0, needle, _, by show (0:ℝ) = _; simp, rfl, rfl, ?_, ?_, ?_, ?_⟩
      · rw [needle_volume]; rfl
      · rw [needle_volume]; norm_num
      · intro v hv
        have e : val hitColumns needleHit "diffraction_times" = 0 := rfl
        rw [e] at hv
        simp only [List.map_cons, List.map_nil, C06_identity_at_time_zero] at hv
        exact demoBeam_contains (needle_inside v hv).2.2.2.2.2
      · refine ⟨by simp, ?_⟩
        intro v hv
        have e : val hitColumns needleHit "diffraction_times" = 0 := rfl
        rw [e] at hv
        simp only [List.map_cons, List.map_nil, C06_identity_at_time_zero] at hv
        obtain ⟨-, y1, y2, z1, z2, -⟩ := needle_inside v hv
        rw [needle_kOut, hproj v hv, hpz, hpy, hzm, hym]
        obtain ⟨a1, a2⟩ := hfrac _ z1 z2
        obtain ⟨b1, b2⟩ := hfrac _ y1 y2
        push_cast at a1 a2 b1 b2
        refine ⟨_, _, rfl, rfl, ?_, ?_, ?_, ?_⟩
        all_goals (simp only [hdiv])
        all_goals (push_cast; rcases hq with rfl | rfl <;> push_cast at * <;> linarith)) 0 (by decide)
  rw [this, hpz, hpy]
  congr 2
  rw [hc, hD, needle_hits]
  rw [List.filter_cons, if_pos]
  · rfl
  · have : val hitColumns needleHit "frame" = 0 := by
      show ((frameOf 1 0 : ℤ) : ℝ) = _; unfold frameOf; simp
    simp [this]

theorem needle_power (p sg th : ℝ) : power ((imgDet p sg th).peaksIntersection (imgDict [needleRow]) 1).columns
    ((imgDet p sg th).peaksIntersection (imgDict [needleRow]) 1).peaks = 16 / 10 ^ 5 := by
  rw [needle_hits]
  unfold power
  have a : val hitColumns needleHit "intensity_factors" = 1 := rfl
  have b : val hitColumns needleHit "volumes" = 16 / 10 ^ 5 := rfl
  have hc : ((imgDet p sg th).peaksIntersection (imgDict [needleRow]) 1).columns = hitColumns := rfl
  simp only [hc, List.map_cons, List.map_nil, List.sum_cons, List.sum_nil, a, b]; norm_num

/-- C35 fails: on a detector with pixels of side 1/2 an element well inside the beam, projecting on the middle of the detector, is
rendered with a quarter of `intensity × volume`. -/
theorem C35_pixel_area_fails (env : RenderEnv) (hh : BeamHull env.hull) :
    ∃ (D : Detector) (d : PeaksDict) (mesh : TetraMesh) (t : Stack) (out : PeaksDict),
      Detector.new ⟨100, -100, -100⟩ ⟨100, 100, -100⟩ ⟨100, -100, 100⟩ .absent (.both (1/2)) 1 (1/10) 13 true true true = .ok D ∧
      D.render env d mesh 1 .macro none (1/1000) = .ok (some t, out) ∧
      0 < power out.columns out.peaks ∧ total2 D.nz D.ny (t 0) = 1 / 4 * power out.columns out.peaks := by
  obtain ⟨t, out, h1, rfl, h2⟩ := needle_macro env hh 2 (Or.inl rfl) (1/1000) none
  have e : (1:ℝ) / ((2:ℕ):ℝ) = 1/2 := by norm_num
  rw [e] at h1 h2
  refine ⟨_, _, _, t, _, imgDet_new (1/2) 1 (1/10) (by norm_num), h1, ?_, ?_⟩
  · rw [needle_power]; norm_num
  · rw [h2]; ring

/-- C24 fails with the default limits on a detector with pixels of side 1/20: the macro limit `(1/20)³` is below the micro limit
`0.1³`, and a peak with a volume between them is rendered twice, by `macro` and by `nano`. -/
theorem C24_rendered_twice_fails (env : RenderEnv) (hh : BeamHull env.hull) (ha : IsArgsort env.argsortDesc) :
    ∃ (D : Detector) (d : PeaksDict) (mesh : TetraMesh) (t tma tna : Stack) (out : PeaksDict),
      Detector.new ⟨100, -100, -100⟩ ⟨100, 100, -100⟩ ⟨100, -100, 100⟩ .absent (.both (1/20)) 1 (1/10) 13 true true true = .ok D ∧
      d.peaks.length = 1 ∧ D.render env d mesh 1 .auto none ((1/10) ^ 3) = .ok (some t, out) ∧
      D.render env d mesh 1 .macro none ((1/10) ^ 3) = .ok (some tma, out) ∧
      D.render env d mesh 1 .nano none ((1/10) ^ 3) = .ok (some tna, out) ∧
      (∀ f i j, t f i j = tma f i j + tna f i j) ∧ 0 < total2 D.nz D.ny (tma 0) ∧ 0 < total2 D.nz D.ny (tna 0) := by
  obtain ⟨tma, out, h1, rfl, h2⟩ := needle_macro env hh 20 (Or.inr rfl) ((1/10) ^ 3) none
  have e : (1:ℝ) / ((20:ℕ):ℝ) = 1/20 := by norm_num
  rw [e] at h1 h2
  set D := imgDet (1/20) 1 (1/10) with hD
  have hc : (D.peaksIntersection (imgDict [needleRow]) 1).columns = hitColumns := rfl
  have hv : val (imgDict [needleRow]).columns needleRow "volumes" = 16 / 10 ^ 5 := rfl
  have hframe : val hitColumns needleHit "frame" = 0 := by
    show ((frameOf 1 0 : ℤ) : ℝ) = _; unfold frameOf; simp
  have hnz : D.nz = 4000 := by rw [hD]; unfold Detector.nz imgDet; norm_num
  have hny : D.ny = 4000 := by rw [hD]; unfold Detector.ny imgDet; norm_num
  obtain ⟨tna, o, h3, rfl, mass, h4, h5⟩ := C33_nano_centred_on_hits_partial D (by show (0:ℝ) < 1; norm_num) (by show (0:ℤ) ≤ 13; norm_num)
    (by show (0:ℝ) ≤ 1/10; norm_num) env ha (imgDict [needleRow]) (oneTet needle) 1 none ((1/10) ^ 3) rfl needle_len
    (by
      intro r hr
      have : r = needleRow := by simpa [imgDict] using hr
      rw [this, hv]; norm_num) 200
    (by have : ((D.maxRadius : ℤ) : ℝ) = 13 := by show (((13:ℤ)):ℝ) = 13; norm_num
        rw [this]; norm_num)
    (by
      rw [show max (1:ℤ) 1 = 1 from rfl, hc, hD, needle_hits, ← hD]
      intro r hr
      rw [List.mem_singleton] at hr
      subst hr
      have a : val hitColumns needleHit "zd" = 3/200 + 100 := rfl
      have b : val hitColumns needleHit "yd" = 3/200 + 100 := rfl
      have c : val hitColumns needleHit "scherrer_fwhm" = 0 := rfl
      have dz : D.pz = 1/20 := rfl
      have dy : D.py = 1/20 := rfl
      rw [a, b, hnz, hny, dz, dy]
      refine ⟨?_, by norm_num, by norm_num, by norm_num, by norm_num⟩
      unfold firstZeroPixels
      rw [c]; norm_num)
  rw [show max (1:ℤ) 1 = 1 from rfl] at h3 h4 h5
  have key : ∀ (pr : ℝ → Prop), (∀ v, v = 16 / 10 ^ 5 → pr v) → withVolume (imgDict [needleRow]) pr = imgDict [needleRow] := by
    intro pr hpr
    unfold withVolume
    have : (imgDict [needleRow]).peaks.filter (fun r => pr (val (imgDict [needleRow]).columns r "volumes")) = [needleRow] := by
      show [needleRow].filter _ = _
      rw [List.filter_cons, if_pos (by simpa using hpr _ hv)]; rfl
    rw [this]; rfl
  have hlim : macroLimit D none = (1/20) ^ 3 := by
    show (min D.py D.pz) ^ 3 = _
    have dz : D.pz = 1/20 := rfl
    have dy : D.py = 1/20 := rfl
    rw [dz, dy, min_self]
  have kmid : (D.peaksIntersection (withVolume (imgDict [needleRow]) fun v => (1/10) ^ 3 ≤ v ∧ v < macroLimit D none) (max 1 1)).peaks = [] := by
    have : (withVolume (imgDict [needleRow]) fun v => (1/10) ^ 3 ≤ v ∧ v < macroLimit D none).peaks = [] := by
      apply List.filter_eq_nil_iff.mpr
      intro r hr
      have : r = needleRow := by simpa [imgDict] using hr
      rw [this, hv, hlim]; norm_num
    unfold Detector.peaksIntersection
    rw [this]; rfl
  have hmicro : D.render env (withVolume (imgDict [needleRow]) fun v => (1/10) ^ 3 ≤ v ∧ v < macroLimit D none) (oneTet needle) 1 .micro none ((1/10) ^ 3) =
      .ok (some fun _ _ _ => 0, D.peaksIntersection (withVolume (imgDict [needleRow]) fun v => (1/10) ^ 3 ≤ v ∧ v < macroLimit D none) 1) := by
    rw [render_micro, kmid]
    unfold Detector.renderMicro
    rw [show chunks (Detector.microBatchSize env.freeGb) ([] : List (List Fl)) = [] by
      unfold chunks
      rw [List.length_nil, Nat.zero_add, Nat.div_eq_of_lt (by have := microBatchSize_pos env.freeGb; omega)]; rfl]
    rfl
  have hauto : D.render env (imgDict [needleRow]) (oneTet needle) 1 .auto none ((1/10) ^ 3) =
      .ok (some (fun f i j => tma f i j + 0 + tna f i j), D.peaksIntersection (imgDict [needleRow]) 1) := by
    rw [auto_split D env (imgDict [needleRow]) rfl needle_len (oneTet needle) 1 none ((1/10) ^ 3)]
    refine ⟨some tma, fun _ _ _ => 0, tna, D.peaksIntersection (imgDict [needleRow]) 1, _,
      D.peaksIntersection (imgDict [needleRow]) 1, ?_, hmicro, ?_, rfl, rfl⟩
    · rw [key _ (by intro v hv; rw [hv, hlim]; norm_num)]; exact h1
    · rw [key _ (by intro v hv; rw [hv]; norm_num)]; exact h3
  refine ⟨D, imgDict [needleRow], oneTet needle, _, tma, tna, _, imgDet_new (1/20) 1 (1/10) (by norm_num), rfl, hauto, h1, h3, ?_, ?_, ?_⟩
  · intro f i j; simp
  · rw [h2, hD, needle_power]; norm_num
  · have h6 := (h5 0 (by decide)).1
    rw [h6, hc, hD, needle_hits]
    rw [List.filter_cons, if_pos (by simp [hframe])]
    rw [hc, hD, needle_hits, ← hD] at h4
    have h7 := (h4 needleHit (by simp)).1
    have a : val hitColumns needleHit "intensity_factors" = 1 := rfl
    have b : val hitColumns needleHit "volumes" = 16 / 10 ^ 5 := rfl
    have c : D.threshold = 1/10 := rfl
    rw [a, b, c] at h7
    have : (0:ℝ) < (1 - 1/10) * (1 * (16 / 10 ^ 5)) := by norm_num
    simp only [List.filter_nil, List.map_cons, List.map_nil, List.sum_cons, List.sum_nil, add_zero]
    linarith

end XRD
