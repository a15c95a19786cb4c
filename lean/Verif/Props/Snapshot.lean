import Verif.Props.Rerender
import Verif.Props.World

/-! Property C41: is a peaks dictionary a snapshot? -/

namespace XRD
open V3 M3 Fl Spec
open scoped Classical

/-- C41 (partial): with `micro` and `nano`, the image of a dictionary does not depend on what happens after `diffract`
returned.  Missing: `macro` and `auto`, see `C41_macro_follows_transform_fails`. -/
theorem C41_micro_nano_partial (x : Xfab) (w : World) (i : ℕ) (a : World.DiffractArgs) (d : PeaksDict) (_hd : (w.diffract x i a).1 = .ok d)
    (hist : List World.Op) (D : Detector) (env : RenderEnv) (frames : ℤ) (method : Detector.Method) (hm : method = .micro ∨ method = .nano)
    (ml : Option ℝ) (mi : ℝ) :
    D.render env d (((w.diffract x i a).2.run x hist).meshOf i) frames method ml mi =
      D.render env d ((w.diffract x i a).2.meshOf i) frames method ml mi := by
  rcases hm with rfl | rfl <;> rfl

theorem renderMacro_nil (D : Detector) (env : RenderEnv) (b : Beam) (mesh mesh' : TetraMesh) (m : Motion) (n : ℕ) :
    D.renderMacro env b mesh m [] n = D.renderMacro env b mesh' m [] n := by
  rw [renderMacro_eq (by simp), renderMacro_eq (by simp)]
  simp

/-- C41 (partial): with `auto`, if no element is as large as the macro limit. -/
theorem C41_auto_partial (x : Xfab) (w : World) (i : ℕ) (a : World.DiffractArgs) (d : PeaksDict) (_hd : (w.diffract x i a).1 = .ok d)
    (hlen : ∀ r ∈ d.peaks, r.length = 25) (hcol : d.columns = peakColumns)
    (hist : List World.Op) (D : Detector) (env : RenderEnv) (frames : ℤ) (ml : Option ℝ) (mi : ℝ)
    (hv : ∀ r ∈ d.peaks, val d.columns r "volumes" < ml.getD ((min D.py D.pz) ^ 3)) :
    D.render env d (((w.diffract x i a).2.run x hist).meshOf i) frames .auto ml mi =
      D.render env d ((w.diffract x i a).2.meshOf i) frames .auto ml mi := by
  have hn : (if frames < 1 then 1 else frames) = max frames 1 := by split_ifs <;> omega
  have hnil : ((D.peaksIntersection d (max frames 1)).peaks.filter fun r => rcol r 21 ≥ ml.getD ((min D.py D.pz) ^ 3)) = [] := by
    rw [List.filter_eq_nil_iff]
    intro r hr
    simp only [decide_eq_true_eq, ge_iff_le, not_le]
    obtain ⟨q, hq, -, -, -, h⟩ := hitRows (le_max_right _ _) hlen r hr
    rw [h, ← val21 hcol]; exact hv q hq
  unfold Detector.render
  simp only [hn, hnil]
  rw [renderMacro_nil D env d.beam _ ((w.diffract x i a).2.meshOf i)]

theorem meshOf_run (x : Xfab) (i : ℕ) (hist : List World.Op) (h : ∀ m t, World.Op.transform i m t ∉ hist) (w : World) :
    (w.run x hist).meshOf i = w.meshOf i := by
  induction hist generalizing w with
  | nil => rfl
  | cons op hist ih =>
    have ih' := ih (fun m t hm => h m t (List.mem_cons_of_mem _ hm)) (World.step x w op)
    show ((World.step x w op).run x hist).meshOf i = _
    rw [ih']
    cases op with
    | diffract j a =>
      show ((w.diffract x j a).2.crystal i).body.meshLab = _
      unfold World.diffract World.meshOf
      split <;> rfl
    | transform j m t =>
      have hj : j ≠ i := by
        rintro rfl
        exact h m t List.mem_cons_self
      show ((w.transform j m t).crystal i).body.meshLab = _
      unfold World.transform World.meshOf
      simp [Function.update_of_ne (Ne.symm hj)]

/-- C41 (partial): with any method, as long as the same polycrystal is not transformed. -/
theorem C41_untouched_partial (x : Xfab) (w : World) (i : ℕ) (a : World.DiffractArgs) (d : PeaksDict) (_hd : (w.diffract x i a).1 = .ok d)
    (hist : List World.Op) (h : ∀ m t, World.Op.transform i m t ∉ hist) (D : Detector) (env : RenderEnv) (frames : ℤ)
    (method : Detector.Method) (ml : Option ℝ) (mi : ℝ) :
    D.render env d (((w.diffract x i a).2.run x hist).meshOf i) frames method ml mi =
      D.render env d ((w.diffract x i a).2.meshOf i) frames method ml mi := by
  rw [meshOf_run x i hist h]

/-! ### the counterexample -/

/-- a detector above the sample, in the plane `z = 4`, with the default kernel -/
noncomputable def topDet : Detector :=
  ⟨⟨-100, -100, 4⟩, ⟨100, -100, 4⟩, ⟨-100, 100, 4⟩, 200, 200, 8, 8, ⟨0, 1, 0⟩, ⟨1, 0, 0⟩, ⟨0, 0, -1⟩, 1, 1/50, 2, false, false, true⟩

theorem topDet_new : Detector.new ⟨-100, -100, 4⟩ ⟨100, -100, 4⟩ ⟨-100, 100, 4⟩ .absent (.both 8) 1 (1/50) 2
    false false true = .ok topDet := by
  have e1 : ((⟨-100, 100, 4⟩ : V3) - ⟨-100, -100, 4⟩) = ⟨0, 200, 0⟩ := by ext <;> simp; norm_num
  have e2 : ((⟨100, -100, 4⟩ : V3) - ⟨-100, -100, 4⟩) = ⟨200, 0, 0⟩ := by ext <;> simp; norm_num
  have n1 : norm (⟨0, 200, 0⟩ : V3) = 200 := by
    unfold V3.norm nsq V3.dot; simp only; rw [show (0:ℝ) * 0 + 200 * 200 + 0 * 0 = 200 ^ 2 by norm_num]; exact Real.sqrt_sq (by norm_num)
  have n2 : norm (⟨200, 0, 0⟩ : V3) = 200 := by
    unfold V3.norm nsq V3.dot; simp only; rw [show (200:ℝ) * 200 + 0 * 0 + 0 * 0 = 200 ^ 2 by norm_num]; exact Real.sqrt_sq (by norm_num)
  have n3 : norm (⟨0, 0, -1⟩ : V3) = 1 := by rw [norm_eq_one]; simp [nsq, V3.dot]
  have s1 : (1 / (200:ℝ)) • (⟨0, 200, 0⟩ : V3) = ⟨0, 1, 0⟩ := by ext <;> simp
  have s2 : (1 / (200:ℝ)) • (⟨200, 0, 0⟩ : V3) = ⟨1, 0, 0⟩ := by ext <;> simp
  have s3 : (1 / (1:ℝ)) • (⟨0, 0, -1⟩ : V3) = ⟨0, 0, -1⟩ := by ext <;> simp
  have c : cross (⟨0, 1, 0⟩ : V3) ⟨1, 0, 0⟩ = ⟨0, 0, -1⟩ := by ext <;> simp [V3.cross]
  have c0 : (⟨0, 0, -1⟩ : V3) ≠ 0 := by intro h; have := congrArg V3.z h; simp at this
  unfold Detector.new
  simp only [e1, e2, n1, n2, s1, s2, c, n3, s3, pixelSizes, if_neg c0]
  rw [if_neg (by push Not; norm_num)]
  rfl

theorem topDet_below {v : V3} (h : v.z ≤ 4) : (topDet.intersect ⟨0, 0, 1⟩ v).1 = fin (v.y + 100) ∧ (topDet.intersect ⟨0, 0, 1⟩ v).2.1 = fin (v.x + 100) := by
  have d2 : (⟨0, 0, 1⟩ : V3).dot topDet.normal = -1 := by simp [V3.dot, topDet]
  have d1 : (topDet.c0 - v).dot topDet.normal = v.z - 4 := by simp [V3.dot, topDet]
  have hs : topDet.sOf ⟨0, 0, 1⟩ v = 4 - v.z := by unfold Detector.sOf; rw [d1, d2]; ring
  obtain ⟨h1, h2⟩ := Detector.intersect_val (D := topDet) (ray := ⟨0, 0, 1⟩) (src := v) (by rw [d2]; norm_num) (by rw [hs]; linarith)
  rw [h1, h2]
  constructor <;> congr 1 <;> simp [V3.dot, topDet]

theorem topDet_above {v : V3} (h : 4 < v.z) : (topDet.intersect ⟨0, 0, 1⟩ v).1 = nan ∧ (topDet.intersect ⟨0, 0, 1⟩ v).2.1 = nan := by
  have d2 : (⟨0, 0, 1⟩ : V3).dot topDet.normal = -1 := by simp [V3.dot, topDet]
  have d1 : (topDet.c0 - v).dot topDet.normal = v.z - 4 := by simp [V3.dot, topDet]
  unfold Detector.intersect
  simp only [d1, d2]
  rw [Fl.div_fin_ne (show (-1:ℝ) ≠ 0 by norm_num)]
  have hl : Fl.Lt (fin ((v.z - 4) / -1)) (fin 0) := by
    simp only [Fl.lt_fin]
    rw [show (v.z - 4) / -1 = -(v.z - 4) by ring]; linarith
  simp only [Detector.alongRay, if_pos hl, Detector.project]
  exact ⟨rfl, rfl⟩

/-- `mathlib` half angle values -/
theorem cos_sin_tangent : Real.cos (2 * Real.arctan (1/2)) = 3/5 ∧ Real.sin (2 * Real.arctan (1/2)) = 4/5 := by
  have hc : Real.cos (Real.arctan (1/2)) ^ 2 = 4/5 := by rw [Real.cos_sq_arctan]; norm_num
  have hs : Real.sin (Real.arctan (1/2)) = 1/2 * Real.cos (Real.arctan (1/2)) := by
    have := Real.tan_arctan (1/2)
    rw [Real.tan_eq_sin_div_cos, div_eq_iff (Real.cos_arctan_pos _).ne'] at this
    exact this
  constructor
  · rw [Real.cos_two_mul, hc]; norm_num
  · rw [Real.sin_two_mul, hs]; nlinarith

theorem demoZ_at {t : ℝ} (ht : demoZ.angle * t = 2 * Real.arctan (1/2)) (p : V3) :
    demoZ.call1 p t = ⟨3/5 * p.x - 4/5 * p.y, 4/5 * p.x + 3/5 * p.y, p.z⟩ := by
  obtain ⟨hc, hs⟩ := cos_sin_tangent
  rw [C06_motion_is_rotation_then_translation _ _ _ _ _ _ demoZ_new norm_ez]
  have ht' : t * (Real.pi / 2) = 2 * Real.arctan (1/2) := by rw [← ht]; show _ = Real.pi / 2 * t; ring
  unfold Spec.move Spec.rotate
  rw [ht', hc, hs]
  ext <;> simp [V3.cross, V3.dot] <;> ring

theorem demoZ_rot {t : ℝ} (ht : demoZ.angle * t = 2 * Real.arctan (1/2)) : demoZ.rotate1 ⟨-3/5, 4/5, 1⟩ t = ⟨-1, 0, 1⟩ := by
  obtain ⟨hc, hs⟩ := cos_sin_tangent
  unfold Motion.rotate1
  rw [show demoZ.axis = ⟨0, 0, 1⟩ from rfl, rotMat_eq_spec (norm_eq_one.mp norm_ez), ht]
  unfold Spec.rotate
  rw [hc, hs]
  ext <;> simp [V3.cross, V3.dot, demoZ] <;> norm_num

/-- upwards by 5 while turning by a quarter -/
noncomputable def liftZ : Motion := ⟨⟨0, 0, 1⟩, Real.pi / 2, ⟨0, 0, 5⟩, 0⟩
theorem liftZ_new : Motion.new ⟨0, 0, 1⟩ (Real.pi / 2) ⟨0, 0, 5⟩ 0 = .ok liftZ := by
  have hpi : 0 < Real.pi / 2 ∧ Real.pi / 2 < Real.pi := ⟨by positivity, by linarith [Real.pi_pos]⟩
  have := demoZ_new
  unfold Motion.new at this ⊢
  split_ifs at this ⊢ <;> first | rfl | cases this
theorem liftZ_at (p : V3) : liftZ.call1 p 1 = ⟨-p.y, p.x, p.z + 5⟩ := by
  rw [C06_motion_is_rotation_then_translation _ _ _ _ _ _ liftZ_new norm_ez]
  unfold Spec.move Spec.rotate
  rw [_root_.one_mul, Real.cos_pi_div_two, Real.sin_pi_div_two]
  ext <;> simp [V3.cross, V3.dot]

/-- the bounding sphere centre of the scene's element is below the detector -/
theorem scene_sphere_z : (sceneMesh.espherecentroids.getD 0 0).z ≤ 3 := by
  have hs : sceneMesh.espherecentroids.getD 0 0 = (sphereOf ⟨⟨0, 0, 0⟩, ⟨1, 0, 0⟩, ⟨0, 2, 0⟩, ⟨0, 0, 3⟩⟩).1 := rfl
  rw [hs]
  set t : Tet := ⟨⟨0, 0, 0⟩, ⟨1, 0, 0⟩, ⟨0, 2, 0⟩, ⟨0, 0, 3⟩⟩ with ht
  have h3 : (sphere4 t).1.z ≤ 3 := by
    simp only [sphere4, ht, norm_sq]
    norm_num [nsq, V3.dot, M3.inv, mulVec, M3.det, V3.cross]
  have hij : ∀ k : ℕ, pairTable.getD k (0, 1) ∈ pairTable := by
    intro k
    by_cases hk : k < 6
    · interval_cases k <;> decide
    · rw [List.getD_eq_default _ _ (by simp [pairTable]; omega)]; decide
  have main : ∀ ij ∈ pairTable, ∀ b : Bool,
      (sphere2 (t.get ij.1) (t.get ij.2)).1.z ≤ 3 ∧
      (sphere3 (t.get ij.1) (t.get ij.2) (if b then t.get (([0, 1, 2, 3].filter fun k => k ≠ ij.1 ∧ k ≠ ij.2).getD 0 0)
        else t.get (([0, 1, 2, 3].filter fun k => k ≠ ij.1 ∧ k ≠ ij.2).getD 1 0))).1.z ≤ 3 := by
    intro ij hij b
    simp only [pairTable, List.mem_cons, List.not_mem_nil, or_false] at hij
    rcases hij with rfl | rfl | rfl | rfl | rfl | rfl <;> cases b <;>
      simp [sphere2, sphere3, ht, Q4.get, norm_sq, nsq, V3.dot, V3.cross] <;> norm_num
  have hm := main _ (hij (argmax (sidesOf t)))
  unfold sphereOf
  dsimp only
  split_ifs with h1 h2 h4
  all_goals first | exact (hm true).1 | exact h3 | skip
  · simpa using (hm true).2
  · simpa using (hm false).2

/-- what the counterexample uses of a row -/
structure UpRow (r : List Fl) (t : ℝ) : Prop where
  len : r.length = 25
  grain : r[0]? = some (fin 0)
  sf : r.getD 5 nan = fin 1
  time : r[6]? = some (fin t)
  dir : r[13]? = some (fin 0) ∧ r[14]? = some (fin 0) ∧ r[15]? = some (fin 1)
  src : ∃ s, vecAt r 16 = some s ∧ s.z ≤ 3 ∧ |s.x| ≤ 100 ∧ |s.y| ≤ 100
  vol : r[21]? = some (fin 1)

theorem UpRow.rowIntersect {r : List Fl} {t : ℝ} (h : UpRow r t) : ∃ z y a, topDet.rowIntersect r = [fin z, fin y, a] ∧
    0 ≤ z ∧ z ≤ 200 ∧ 0 ≤ y ∧ y ≤ 200 := by
  obtain ⟨s, hs, hz, hx, hy⟩ := h.src
  have hd : vecAt r 13 = some ⟨0, 0, 1⟩ := by
    unfold vecAt; rw [h.dir.1, h.dir.2.1, h.dir.2.2]
  obtain ⟨h1, h2⟩ := topDet_below (v := s) (by linarith)
  rw [abs_le] at hx hy
  refine ⟨s.y + 100, s.x + 100, (topDet.intersect ⟨0, 0, 1⟩ s).2.2, ?_, by linarith, by linarith, by linarith, by linarith⟩
  unfold Detector.rowIntersect
  rw [hd, hs]
  simp only [h1, h2]

theorem UpRow.intensity {r : List Fl} {t : ℝ} (h : UpRow r t) : topDet.rowIntensity r = fin 1 := by
  rw [rowIntensity_spec, h.sf]
  unfold Spec.intensity topDet
  simp

theorem UpRow.hits {d : PeaksDict} {t : ℝ} (h : ∀ r ∈ d.peaks, UpRow r t) : (topDet.peaksIntersection d 1).peaks = d.peaks.map (row30 topDet 1) := by
  rw [peaksIntersection_rows _ _ _ (fun r hr => (h r hr).len), List.filter_eq_self.mpr]
  intro r hr
  obtain ⟨z, y, a, hi, h1, h2, h3, h4⟩ := (h r hr).rowIntersect
  rw [hi, (h r hr).intensity]
  simp only [decide_eq_true_eq]
  refine ⟨⟨?_, ?_, ?_, ?_⟩, ?_, ?_⟩ <;> simp [topDet] <;> linarith

theorem UpRow.cols {r : List Fl} {t : ℝ} (h : UpRow r t) : rcol (row30 topDet 1 r) 0 = 0 ∧ rcol (row30 topDet 1 r) 6 = t ∧
    rcol (row30 topDet 1 r) 13 = 0 ∧ rcol (row30 topDet 1 r) 14 = 0 ∧ rcol (row30 topDet 1 r) 15 = 1 ∧ rcol (row30 topDet 1 r) 21 = 1 ∧
    rcol (row30 topDet 1 r) 28 = 0 ∧ rcol (row30 topDet 1 r) 29 = 1 := by
  have hl := h.len
  have hl3 := rowIntersect_length topDet r
  have g : ∀ j, j < 25 → (row30 topDet 1 r)[j]? = r[j]? := by
    intro j hj
    unfold row30
    rw [List.append_assoc, List.append_assoc, List.getElem?_append_left (by omega)]
  have g28 : (row30 topDet 1 r)[28]? = some (Detector.rowFrame 1 r) := by
    unfold row30
    rw [List.getElem?_append_left (by simp [hl, hl3]), List.getElem?_append_right (by simp [hl, hl3])]
    simp [hl, hl3]
  have g29 : (row30 topDet 1 r)[29]? = some (topDet.rowIntensity r) := by
    unfold row30
    rw [List.getElem?_append_right (by simp [hl, hl3])]
    simp [hl, hl3]
  have hfr : Detector.rowFrame 1 r = fin 0 := by
    unfold Detector.rowFrame
    rw [List.getD_eq_getElem?_getD, h.time]
    simp [frameOf]
  refine ⟨?_, ?_, ?_, ?_, ?_, ?_, ?_, ?_⟩ <;> unfold rcol
  · rw [g 0 (by norm_num), h.grain]
  · rw [g 6 (by norm_num), h.time]
  · rw [g 13 (by norm_num), h.dir.1]
  · rw [g 14 (by norm_num), h.dir.2.1]
  · rw [g 15 (by norm_num), h.dir.2.2]
  · rw [g 21 (by norm_num), h.vol]
  · rw [g28, hfr]
  · rw [g29, h.intensity]

/-- the element at the time of the peak -/
noncomputable def upTet : List V3 := [⟨0, 0, 0⟩, ⟨3/5, 4/5, 0⟩, ⟨-8/5, 6/5, 0⟩, ⟨0, 0, 3⟩]

theorem sceneTet_volume : tetVolume ⟨⟨0, 0, 0⟩, ⟨1, 0, 0⟩, ⟨0, 2, 0⟩, ⟨0, 0, 3⟩⟩ = 1 := by
  rw [tetVolume_eq]
  have : signedVolume ⟨⟨0, 0, 0⟩, ⟨1, 0, 0⟩, ⟨0, 2, 0⟩, ⟨0, 0, 3⟩⟩ = 1 := by
    simp [signedVolume, V3.cross, V3.dot]; norm_num
  rw [this]; norm_num

theorem up_moved {t : ℝ} (ht : demoZ.angle * t = 2 * Real.arctan (1/2)) :
    ([⟨0, 0, 0⟩, ⟨1, 0, 0⟩, ⟨0, 2, 0⟩, ⟨0, 0, 3⟩] : List V3).map (fun p => demoZ.call1 p t) = upTet := by
  simp only [List.map_cons, List.map_nil, demoZ_at ht, upTet]
  norm_num

theorem up_inside (v : V3) (h : v ∈ upTet) : v.z ≤ 4 ∧ -8/5 ≤ v.x ∧ v.x ≤ 3/5 ∧ 0 ≤ v.y ∧ v.y ≤ 6/5 ∧ nsq v < 100 := by
  simp only [upTet, List.mem_cons, List.not_mem_nil, or_false] at h
  rcases h with rfl | rfl | rfl | rfl <;> simp [nsq, V3.dot] <;> norm_num

theorem up_before (env : RenderEnv) (hh : BeamHull env.hull) (d : PeaksDict) {t : ℝ} (ht : demoZ.angle * t = 2 * Real.arctan (1/2))
    (hcol : d.columns = peakColumns) (hb : d.beam = demoBeam) (hm : d.motion = demoZ) (hr : ∀ r ∈ d.peaks, UpRow r t) (hne : d.peaks ≠ []) :
    ∃ s, topDet.render env d sceneMesh 1 .macro none (1/1000) = .ok (some s, topDet.peaksIntersection d 1) ∧ 0 < total2 topDet.nz topDet.ny (s 0) := by
  have hits := UpRow.hits hr
  have hc : (topDet.peaksIntersection d 1).columns = hitColumns := by show d.columns ++ _ = _; rw [hcol]; rfl
  have hsol : Solid upTet := by
    refine ⟨⟨0, 0, 0⟩, by simp [upTet], ⟨3/5, 4/5, 0⟩, by simp [upTet], ⟨-8/5, 6/5, 0⟩, by simp [upTet], ⟨0, 0, 3⟩, by simp [upTet], ?_⟩
    simp [V3.cross, V3.dot]; norm_num
  obtain ⟨H, hH, hi⟩ := hh demoBeam upTet (by rfl) (fun v hv => demoBeam_contains (up_inside v hv).2.2.2.2.2) hsol
  have hbox : topDet.boundingBox H.points ⟨0, 0, 1⟩ = some (((12 : ℕ):ℤ), ((12 : ℕ):ℤ) + 1, ((12 : ℕ):ℤ), ((12 : ℕ):ℤ) + 1) := by
    rw [hi.points]
    have p1 : topDet.pz = 8 := rfl
    have p2 : topDet.py = 8 := rfl
    have p3 : topDet.zmax = 200 := rfl
    have p4 : topDet.ymax = 200 := rfl
    apply box_one (by rw [p1]; norm_num) (by rw [p2]; norm_num) (by simp [upTet]) (by rw [p1, p3]; norm_num) (by rw [p2, p4]; norm_num)
    intro v hv
    obtain ⟨z1, x1, x2, y1, y2, -⟩ := up_inside v hv
    obtain ⟨h1, h2⟩ := topDet_below z1
    refine ⟨_, _, h1, h2, ?_⟩
    rw [p1, p2]
    push_cast
    refine ⟨?_, ?_, ?_, ?_⟩ <;> linarith
  have hmv : ∀ r ∈ d.peaks, IsMoved d sceneMesh hitColumns (row30 topDet 1 r) upTet := by
    intro r hrm
    obtain ⟨c0, c6, -⟩ := (hr r hrm).cols
    refine ⟨0, ⟨⟨0, 0, 0⟩, ⟨1, 0, 0⟩, ⟨0, 2, 0⟩, ⟨0, 0, 3⟩⟩, ?_, rfl, ?_⟩
    · rw [rcol_eq _ "grain_index" (j := 0) (by decide), c0]; simp
    · rw [rcol_eq _ "diffraction_times" (j := 6) (by decide), c6, hm, up_moved ht]
  have hadd : ∀ r ∈ (topDet.peaksIntersection d 1).peaks, ∃ g, macroAdd topDet env d.beam sceneMesh d.motion r = .ok (some g) := by
    intro r hrm
    rw [hits] at hrm
    obtain ⟨q, hq, rfl⟩ := List.mem_map.mp hrm
    obtain ⟨c0, c6, c13, c14, c15, -⟩ := (hr q hq).cols
    exact macroAdd_one (H := H) (i := 12) (j := 12) (by rw [movedVertices_of (hmv q hq), hb]; exact hH) (by rw [c13, c14, c15]; exact hbox)
  have hren : ∃ s, topDet.render env d sceneMesh 1 .macro none (1/1000) = .ok (some s, topDet.peaksIntersection d 1) := by
    rw [render_macro, show max (1:ℤ) 1 = 1 from rfl, renderMacro_eq (by
      intro r hrm
      rw [hits] at hrm
      obtain ⟨q, hq, rfl⟩ := List.mem_map.mp hrm
      exact ⟨0, by rw [(hr q hq).cols.2.2.2.2.2.2.1]; simp, by norm_num⟩)]
    rw [if_neg, if_neg]
    · exact ⟨_, rfl⟩
    · rintro ⟨r, hrm, h⟩
      obtain ⟨g, hg⟩ := hadd r hrm
      rw [hg] at h; cases h
    · rintro ⟨r, hrm, h⟩
      obtain ⟨g, hg⟩ := hadd r hrm
      rw [hg] at h; cases h
  obtain ⟨s, hs⟩ := hren
  refine ⟨s, hs, ?_⟩
  have := C35_macro_total_partial topDet (by show (0:ℝ) < 8; norm_num) (by show (0:ℝ) < 8; norm_num) (by show (0:ℝ) < 1; norm_num) (by show (0:ℤ) ≤ 2; norm_num) env
    d hcol (fun r hrm => (hr r hrm).len) sceneMesh 1 none (1/1000) s _ hs 2 (le_refl _) (fun _ => 1)
    (by
      rw [hc, hits]
      intro r hrm
      obtain ⟨q, hq, rfl⟩ := List.mem_map.mp hrm
      obtain ⟨c0, c6, c13, c14, c15, -⟩ := (hr q hq).cols
      refine ⟨upTet, H, hmv q hq, by rw [hb]; exact hH, ?_, ?_⟩
      · rw [hi.volume _ _ _ _ rfl]
        simp [V3.cross, V3.dot]; norm_num
      · rw [hi.points, kOut_eq, c13, c14, c15]
        refine ⟨by simp [upTet], ?_⟩
        intro v hv
        obtain ⟨z1, x1, x2, y1, y2, -⟩ := up_inside v hv
        obtain ⟨h1, h2⟩ := topDet_below z1
        refine ⟨_, _, h1, h2, ?_⟩
        have p1 : topDet.pz = 8 := rfl
        have p2 : topDet.py = 8 := rfl
        have p3 : topDet.zmax = 200 := rfl
        have p4 : topDet.ymax = 200 := rfl
        rw [p1, p2, p3, p4]
        push_cast
        refine ⟨?_, ?_, ?_, ?_⟩ <;> linarith) 0 (by decide)
  rw [this, hc, hits]
  have p1 : topDet.pz = 8 := rfl
  have p2 : topDet.py = 8 := rfl
  rw [p1, p2]
  obtain ⟨q0, L, hq0⟩ := List.exists_cons_of_ne_nil hne
  have hv : ∀ q ∈ d.peaks, val hitColumns (row30 topDet 1 q) "intensity_factors" * 1 = 1 := by
    intro q hq
    obtain ⟨-, -, -, -, -, -, -, c29⟩ := (hr q hq).cols
    rw [rcol_eq _ "intensity_factors" (j := 29) (by decide), c29, _root_.one_mul]
  rw [List.filter_eq_self.mpr]
  · rw [List.map_map, List.map_congr_left (g := fun _ => (1:ℝ)) (by intro q hq; exact hv q hq)]
    rw [hq0]
    simp only [List.map_cons, List.sum_cons]
    have : 0 ≤ (L.map fun _ => (1:ℝ)).sum := List.sum_nonneg (by intro x hx; obtain ⟨_, -, rfl⟩ := List.mem_map.mp hx; norm_num)
    linarith
  · intro r hrm
    obtain ⟨q, hq, rfl⟩ := List.mem_map.mp hrm
    rw [rcol_eq _ "frame" (j := 28) (by decide), (hr q hq).cols.2.2.2.2.2.2.1]
    simp

/-- after lifting the sample behind the detector the same dictionary gives an empty image -/
theorem up_after (env : RenderEnv) (hh : BeamHull env.hull) (d : PeaksDict) {t : ℝ} (ht : demoZ.angle * t = 2 * Real.arctan (1/2))
    (hb : d.beam = demoBeam) (hm : d.motion = demoZ) (hr : ∀ r ∈ d.peaks, UpRow r t) :
    ∃ s, topDet.render env d (sceneMesh.update liftZ 1) 1 .macro none (1/1000) = .ok (some s, topDet.peaksIntersection d 1) ∧
      ∀ f i j, s f i j = 0 := by
  have hits := UpRow.hits hr
  have hmv : ∀ q ∈ d.peaks, Detector.movedVertices (sceneMesh.update liftZ 1) demoZ (row30 topDet 1 q) = [⟨0, 0, 5⟩, ⟨-4/5, 3/5, 5⟩, ⟨-6/5, -8/5, 5⟩, ⟨0, 0, 8⟩] := by
    intro q hq
    obtain ⟨c0, c6, -⟩ := (hr q hq).cols
    unfold Detector.movedVertices
    rw [c0, c6, Int.floor_zero]
    show ([liftZ.call1 ⟨0, 0, 0⟩ 1, liftZ.call1 ⟨1, 0, 0⟩ 1, liftZ.call1 ⟨0, 2, 0⟩ 1, liftZ.call1 ⟨0, 0, 3⟩ 1] : List V3).map (fun p => demoZ.call1 p t) = _
    simp only [List.map_cons, List.map_nil, demoZ_at ht, liftZ_at]
    norm_num
  have hin : ∀ v ∈ ([⟨0, 0, 5⟩, ⟨-4/5, 3/5, 5⟩, ⟨-6/5, -8/5, 5⟩, ⟨0, 0, 8⟩] : List V3), 4 < v.z ∧ nsq v < 100 := by
    intro v hv
    simp only [List.mem_cons, List.not_mem_nil, or_false] at hv
    rcases hv with rfl | rfl | rfl | rfl <;> simp [nsq, V3.dot] <;> norm_num
  have hsol : Solid [⟨0, 0, 5⟩, ⟨-4/5, 3/5, 5⟩, ⟨-6/5, -8/5, 5⟩, ⟨0, 0, 8⟩] := by
    refine ⟨⟨0, 0, 5⟩, by simp, ⟨-4/5, 3/5, 5⟩, by simp, ⟨-6/5, -8/5, 5⟩, by simp, ⟨0, 0, 8⟩, by simp, ?_⟩
    simp [V3.cross, V3.dot]; norm_num
  obtain ⟨H, hH, hi⟩ := hh demoBeam _ (by rfl) (fun v hv => demoBeam_contains (hin v hv).2) hsol
  have hbox : topDet.boundingBox H.points ⟨0, 0, 1⟩ = none := by
    rw [hi.points]
    unfold Detector.boundingBox
    simp only [List.map_cons, List.map_nil, (topDet_above (hin _ (by simp : (⟨0, 0, 5⟩ : V3) ∈ _)).1).1,
      (topDet_above (hin (⟨-4/5, 3/5, 5⟩ : V3) (by simp)).1).1, (topDet_above (hin (⟨-6/5, -8/5, 5⟩ : V3) (by simp)).1).1,
      (topDet_above (hin (⟨0, 0, 8⟩ : V3) (by simp)).1).1]
    rfl
  have hadd : ∀ r ∈ (topDet.peaksIntersection d 1).peaks, macroAdd topDet env d.beam (sceneMesh.update liftZ 1) d.motion r = .ok (some fun _ _ => 0) := by
    intro r hrm
    rw [hits] at hrm
    obtain ⟨q, hq, rfl⟩ := List.mem_map.mp hrm
    obtain ⟨c0, c6, c13, c14, c15, -⟩ := (hr q hq).cols
    unfold macroAdd Detector.macroPeak
    rw [hm, hb, hmv q hq, hH]
    simp only [c13, c14, c15, hbox]
  have hframe : ∀ r ∈ (topDet.peaksIntersection d 1).peaks, ∃ k : ℕ, rcol r 28 = k ∧ k < (1:ℤ).toNat := by
    intro r hrm
    rw [hits] at hrm
    obtain ⟨q, hq, rfl⟩ := List.mem_map.mp hrm
    exact ⟨0, by rw [(hr q hq).cols.2.2.2.2.2.2.1]; simp, by norm_num⟩
  rw [render_macro, show max (1:ℤ) 1 = 1 from rfl, renderMacro_eq hframe, if_neg, if_neg]
  · refine ⟨_, rfl, ?_⟩
    intro f i j
    split_ifs
    · unfold conv2d
      split_ifs
      · apply Finset.sum_eq_zero; intro a _
        apply Finset.sum_eq_zero; intro b _
        split_ifs
        · beta_reduce; rw [List.sum_eq_zero, MulZeroClass.zero_mul]
          intro x hx
          obtain ⟨r, hrm, rfl⟩ := List.mem_map.mp hx
          unfold macroVal
          rw [hadd r (List.mem_filter.mp hrm).1]
        · rfl
      · rfl
    · rfl
  · rintro ⟨r, hrm, h⟩
    rw [hadd r hrm] at h; cases h
  · rintro ⟨r, hrm, h⟩
    rw [hadd r hrm] at h; cases h

/-- C41 fails: `transform` after `diffract` changes the macro image of the dictionary that `diffract` returned; here from a
nonempty image to an empty one. -/
theorem C41_macro_follows_transform_fails (env : RenderEnv) (hh : BeamHull env.hull) :
    ∃ (x : Xfab) (w : World) (a : World.DiffractArgs) (d : PeaksDict) (D : Detector) (m : Motion) (s s' : Stack) (out out' : PeaksDict),
      Polycrystal.new x sceneMesh (.one 1) (.one 0) (.one scenePhase) (some [0]) = .ok (w.crystal 0).body ∧
      Detector.new ⟨-100, -100, 4⟩ ⟨100, -100, 4⟩ ⟨-100, 100, 4⟩ .absent (.both 8) 1 (1/50) 2 false false true = .ok D ∧
      Motion.new ⟨0, 0, 1⟩ (Real.pi / 2) ⟨0, 0, 5⟩ 0 = .ok m ∧
      (w.diffract x 0 a).1 = .ok d ∧
      D.render env d ((w.diffract x 0 a).2.meshOf 0) 1 .macro none (1/1000) = .ok (some s, out) ∧
      D.render env d (((w.diffract x 0 a).2.run x [.transform 0 m 1]).meshOf 0) 1 .macro none (1/1000) = .ok (some s', out') ∧
      0 < total2 D.nz D.ny (s 0) ∧ ∀ f i j, s' f i j = 0 := by
  have h2 : Real.sqrt 2 / 2 ≤ 1 := by
    have : Real.sqrt 2 ≤ 2 := by rw [Real.sqrt_le_left (by norm_num)]; norm_num
    linarith
  set c : Crystal := ⟨.torch, [0], [⟨[1, 1, 1, 90, 90, 90], "P1", none, [⟨1, 0, 0⟩], none⟩], [1], [sceneB],
          [sceneMesh.espherecentroids.getD 0 0], [scenePoly.meshVolumes.getD 0 0]⟩ with hcdef
  obtain ⟨d, hd, hcol, ⟨hb, hm⟩, t, ht, hpk⟩ := tangent_scene 1 sceneB (sceneMesh.espherecentroids.getD 0 0) (scenePoly.meshVolumes.getD 0 0)
    ⟨[1, 1, 1, 90, 90, 90], "P1", none, [⟨1, 0, 0⟩], none⟩ rfl rfl demoZ rfl norm_ez rfl rfl scene_sphere scene_roots
  rw [← hcdef] at hd hpk
  have hG0 : c.G0 0 ⟨1, 0, 0⟩ = ⟨-3/5, 4/5, 1⟩ := by
    ext <;> simp [hcdef, Crystal.G0, getG, HKL.toV, sceneB, mulVec, vecMul, V3.dot]
  have hvol : c.volumes.getD 0 0 = 1 := sceneTet_volume
  have hup : ∀ k : ℕ, UpRow (row24 c demoBeam demoZ 0 0 ⟨1, 0, 0⟩ 1 t ++ [fin (k : ℝ)]) t := by
    intro k
    have hK : demoZ.rotate1 (c.G0 0 ⟨1, 0, 0⟩) t + demoBeam.waveVector = ⟨0, 0, 1⟩ := by
      rw [hG0, demoZ_rot ht]; ext <;> simp [demoBeam]
    have hsrc : demoZ.call1 (c.sphereCentroids.getD 0 0) t = demoZ.call1 (sceneMesh.espherecentroids.getD 0 0) t := rfl
    have hbound := scene_sphere
    have hz3 := scene_sphere_z
    set S := sceneMesh.espherecentroids.getD 0 0 with hS
    have hx : S.x ^ 2 < 100 ∧ S.y ^ 2 < 100 := by
      unfold nsq V3.dot at hbound
      constructor <;> nlinarith [mul_self_nonneg S.x, mul_self_nonneg S.y, mul_self_nonneg S.z]
    have bx : |S.x| ≤ 10 := abs_le_of_sq_le_sq (by nlinarith) (by norm_num)
    have by' : |S.y| ≤ 10 := abs_le_of_sq_le_sq (by nlinarith) (by norm_num)
    rw [abs_le] at bx by'
    refine ⟨rfl, ?_, rfl, rfl, ?_, ?_, ?_⟩
    · simp [row24]
    · refine ⟨?_, ?_, ?_⟩
      · show some (fin (demoZ.rotate1 (c.G0 0 ⟨1, 0, 0⟩) t + demoBeam.waveVector).x) = _; rw [hK]
      · show some (fin (demoZ.rotate1 (c.G0 0 ⟨1, 0, 0⟩) t + demoBeam.waveVector).y) = _; rw [hK]
      · show some (fin (demoZ.rotate1 (c.G0 0 ⟨1, 0, 0⟩) t + demoBeam.waveVector).z) = _; rw [hK]
    · refine ⟨demoZ.call1 S t, rfl, ?_, ?_, ?_⟩
      · rw [demoZ_at ht]; exact hz3
      · rw [demoZ_at ht, abs_le]; constructor <;> simp only <;> linarith
      · rw [demoZ_at ht, abs_le]; constructor <;> simp only <;> linarith
    · show some (fin (c.volumes.getD 0 0)) = _; rw [hvol]
  have hall : ∀ r ∈ d.peaks, UpRow r t := by
    rw [hpk]
    intro r hr
    simp only [List.mem_cons, List.not_mem_nil, or_false] at hr
    rcases hr with rfl | rfl
    · exact hup 0
    · exact hup 1
  have hw : (sceneWorld.diffract sceneX 0 ⟨demoBeam, demoZ, 0, Real.pi / 2, none⟩).1 = .ok d := by
    unfold World.diffract
    have hl : (sceneWorld.view 0).limits demoBeam 0 (Real.pi / 2) none = .ok (0, Real.pi / 2) := rfl
    simp only [hl]
    have hset : scenePhase.setup sceneX demoBeam.wavelength 0 (Real.pi / 2) = ⟨[1, 1, 1, 90, 90, 90], "P1", none, [⟨1, 0, 0⟩], none⟩ :=
      scene_setup 0 (Real.pi / 2) (by rw [Real.sin_zero]; positivity) (by rw [Real.sin_pi_div_two]; exact h2)
    rw [← hd]
    congr 1
    have hph : World.setup sceneX sceneWorld.phase demoBeam.wavelength 0 (Real.pi / 2) (sceneWorld.crystal 0).refs 0 =
        ⟨[1, 1, 1, 90, 90, 90], "P1", none, [⟨1, 0, 0⟩], none⟩ := by
      rw [← hset]; rfl
    rw [hcdef, ← hph]
    rfl
  obtain ⟨s, hs1, hs2⟩ := up_before env hh d ht hcol hb hm hall (by rw [hpk]; simp)
  obtain ⟨s', ha1, ha2⟩ := up_after env hh d ht hb hm hall
  refine ⟨sceneX, sceneWorld, ⟨demoBeam, demoZ, 0, Real.pi / 2, none⟩, d, topDet, liftZ, s, s', topDet.peaksIntersection d 1, topDet.peaksIntersection d 1, scenePoly_new, topDet_new, liftZ_new, hw, ?_, ?_, hs2, ha2⟩
  · exact hs1
  · exact ha1

/-- the hypotheses of the partial theorems are met: a diffraction that returns a dictionary, followed by a transform of another
polycrystal -/
example : ∃ d, (sceneWorld.diffract sceneX 1 ⟨demoBeam, demoZ, 0, Real.pi / 2, none⟩).1 = .ok d ∧
    ∀ m t, World.Op.transform 1 m t ∉ [World.Op.transform 0 liftZ 1, .diffract 1 ⟨demoBeam, demoZ, 0, Real.pi / 2, none⟩] := by
  have hf : sceneWorld.Fresh := fun r _ => rfl
  have h2 : Real.sqrt 2 / 2 ≤ 1 := by
    have : Real.sqrt 2 ≤ 2 := by rw [Real.sqrt_le_left (by norm_num)]; norm_num
    linarith
  obtain ⟨d, p', hd, -⟩ := scene_diffract none 0 (Real.pi / 2) 0 (Real.pi / 2) rfl
    (by rw [Real.sin_zero]; positivity) (by rw [Real.sin_pi_div_two]; exact h2)
  refine ⟨d, ?_, by intro m t; simp⟩
  rw [C40_object_level_agrees _ _ hf]
  have hv : sceneWorld.view 1 = scenePoly := rfl
  rw [hv, hd]
  rfl

end XRD
