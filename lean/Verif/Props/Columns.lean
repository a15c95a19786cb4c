import Verif.Props.Bright

/-! Property C95: which columns of a table of peaks the image depends on. -/

namespace XRD
open V3 M3 Fl Spec
open scoped Classical

/-- the columns an image may depend on: element, time, scattered wave vector, source, volume, Scherrer width and the intensity factors
that are switched on -/
def Spec.imageColumns (D : Detector) : List String :=
  ["grain_index", "diffraction_times", "K_out_x", "K_out_y", "K_out_z", "Source_x", "Source_y", "Source_z", "volumes", "scherrer_fwhm"] ++
  (if D.useStructureFactor then ["structure_factors"] else []) ++ (if D.usePolarization then ["polarization_factors"] else []) ++
  if D.useLorentz then ["lorentz_factors"] else []

/-- two rows agree on the named columns -/
def Spec.AgreeOn (names : List String) (r r' : List Fl) : Prop :=
  ∀ name ∈ names, r[peakColumns.idxOf name]? = r'[peakColumns.idxOf name]?

/-- the columns of a hit that a renderer reads -/
def hitUsed : List ℕ := [0, 6, 13, 14, 15, 21, 23, 25, 26, 27, 28, 29]

/-- a map of rows that keeps the columns a renderer reads -/
structure KeepsUsed (g : List Fl → List Fl) : Prop where
  col : ∀ r, ∀ j ∈ hitUsed, rcol (g r) j = rcol r j
  nil : g [] = []

variable {g : List Fl → List Fl} {D : Detector}

theorem KeepsUsed.fz (hg : KeepsUsed g) (r : List Fl) : D.firstZero (g r) = D.firstZero r := by
  unfold Detector.firstZero; rw [hg.col r 23 (by decide), hg.col r 27 (by decide)]

theorem KeepsUsed.mem (hg : KeepsUsed g) (r : List Fl) : D.airyMemory (g r) = D.airyMemory r := by
  unfold Detector.airyMemory; rw [hg.fz]

theorem KeepsUsed.micro (hg : KeepsUsed g) (r : List Fl) : D.microDeposits (g r) = D.microDeposits r := by
  unfold Detector.microDeposits
  rw [hg.col r 25 (by decide), hg.col r 26 (by decide), hg.col r 28 (by decide), hg.col r 29 (by decide), hg.col r 21 (by decide)]

theorem KeepsUsed.macroPeak (hg : KeepsUsed g) (env : RenderEnv) (b : Beam) (mesh : TetraMesh) (m : Motion) (r : List Fl) (t : Option Frame) :
    D.macroPeak env b mesh m (g r) t = D.macroPeak env b mesh m r t := by
  unfold Detector.macroPeak Detector.movedVertices
  rw [hg.col r 0 (by decide), hg.col r 6 (by decide), hg.col r 13 (by decide), hg.col r 14 (by decide), hg.col r 15 (by decide), hg.col r 29 (by decide)]

theorem KeepsUsed.filter (hg : KeepsUsed g) (P : List (List Fl)) {j : ℕ} (hj : j ∈ hitUsed) (p : ℝ → Prop) [DecidablePred p] :
    (P.map g).filter (fun r => decide (p (rcol r j))) = (P.filter fun r => decide (p (rcol r j))).map g := by
  rw [List.filter_map]
  congr 1
  apply List.filter_congr
  intro r _
  simp only [Function.comp, hg.col r j hj]

theorem KeepsUsed.macroPeaks (hg : KeepsUsed g) (env : RenderEnv) (b : Beam) (mesh : TetraMesh) (m : Motion) (P : List (List Fl)) (t : Option Frame) :
    D.macroPeaks env b mesh m t (P.map g) = D.macroPeaks env b mesh m t P := by
  induction P generalizing t with
  | nil => rfl
  | cons r P ih =>
    rw [List.map_cons, Detector.macroPeaks, Detector.macroPeaks, hg.macroPeak]
    cases D.macroPeak env b mesh m r t with
    | error e => rfl
    | ok t' => exact ih t'

theorem KeepsUsed.macroFrames (hg : KeepsUsed g) (env : RenderEnv) (b : Beam) (mesh : TetraMesh) (m : Motion) (P : List (List Fl)) (fs : List ℕ) :
    D.macroFrames env b mesh m (P.map g) fs = D.macroFrames env b mesh m P fs := by
  induction fs with
  | nil => rfl
  | cons f fs ih =>
    rw [Detector.macroFrames, Detector.macroFrames, ih, hg.filter P (j := 28) (by decide) (fun x => x = (f:ℝ)), hg.macroPeaks]

theorem KeepsUsed.renderMacro (hg : KeepsUsed g) (env : RenderEnv) (b : Beam) (mesh : TetraMesh) (m : Motion) (P : List (List Fl)) (n : ℕ) :
    D.renderMacro env b mesh m (P.map g) n = D.renderMacro env b mesh m P n := by
  unfold Detector.renderMacro; rw [hg.macroFrames]

theorem KeepsUsed.renderMicro (hg : KeepsUsed g) (fr : ℝ) (P : List (List Fl)) (n : ℕ) :
    D.renderMicro fr (P.map g) n = D.renderMicro fr P n := by
  rw [renderMicro_eq, renderMicro_eq, List.flatMap_map]
  have : (fun r => D.microDeposits (g r)) = D.microDeposits := funext fun r => hg.micro r
  rw [this]

theorem KeepsUsed.nanoBatch (hg : KeepsUsed g) (j1 : ℝ → ℝ) (n : ℕ) (t : Stack) (P : List (List Fl)) :
    D.nanoBatch j1 n t (P.map g) = D.nanoBatch j1 n t P := by
  unfold Detector.nanoBatch
  have h1 : (P.map g).map D.firstZero = P.map D.firstZero := by
    rw [List.map_map]; exact List.map_congr_left fun r _ => hg.fz r
  rw [h1]
  cases D.airyKernels j1 (P.map D.firstZero) with
  | error e => rfl
  | ok ks =>
    simp only
    congr 1
    funext f
    have h2 : (P.map g).zip ks = (P.zip ks).map fun rk => (g rk.1, rk.2) := by
      rw [List.zip_map_left]; rfl
    rw [h2, List.filter_map, List.map_map]
    have h3 : ((fun rk : List Fl × Kernel => decide (rcol rk.1 28 = (f:ℝ))) ∘ fun rk : List Fl × Kernel => (g rk.1, rk.2)) =
        fun rk => decide (rcol rk.1 28 = (f:ℝ)) := by
      funext rk; simp only [Function.comp, hg.col rk.1 28 (by decide)]
    rw [h3]
    have h4 : ((fun rk : List Fl × Kernel => (Detector.scaleKernel rk.2 (rcol rk.1 29 * rcol rk.1 21), rcol rk.1 25 / D.pz, rcol rk.1 26 / D.py)) ∘
        fun rk : List Fl × Kernel => (g rk.1, rk.2)) =
        fun rk => (Detector.scaleKernel rk.2 (rcol rk.1 29 * rcol rk.1 21), rcol rk.1 25 / D.pz, rcol rk.1 26 / D.py) := by
      funext rk
      simp only [Function.comp, hg.col rk.1 29 (by decide), hg.col rk.1 21 (by decide), hg.col rk.1 25 (by decide), hg.col rk.1 26 (by decide)]
    rw [h4]

theorem KeepsUsed.nanoLoop (hg : KeepsUsed g) (j1 : ℝ → ℝ) (n : ℕ) (t : Stack) (bs : List (List (List Fl))) :
    D.nanoLoop j1 n t (bs.map (List.map g)) = D.nanoLoop j1 n t bs := by
  induction bs generalizing t with
  | nil => rfl
  | cons b bs ih =>
    rw [List.map_cons, Detector.nanoLoop, Detector.nanoLoop, hg.nanoBatch]
    cases D.nanoBatch j1 n t b with
    | error e => rfl
    | ok t' => exact ih t'

theorem KeepsUsed.nanoBatches (hg : KeepsUsed g) (a : ℝ) (P : List (List Fl)) :
    D.nanoBatches a (P.map g) = (D.nanoBatches a P).map (List.map g) := by
  rw [nanoBatches_eq, batchesBy_congr _ (fun r => D.airyMemory (id r)) _ P (fun r _ => hg.mem r)]
  have := nanoBatches_eq D a id P
  rw [List.map_id] at this
  rw [this]
  simp

theorem KeepsUsed.renderNano (hg : KeepsUsed g) (env : RenderEnv) (P : List (List Fl)) (n : ℕ) :
    D.renderNano env (P.map g) n = D.renderNano env P n := by
  unfold Detector.renderNano
  have h1 : (P.map g).map D.airyMemory = P.map D.airyMemory := by
    rw [List.map_map]; exact List.map_congr_left fun r _ => hg.mem r
  have h2 : ((env.argsortDesc (P.map D.airyMemory)).map fun i => (P.map g).getD i []) =
      ((env.argsortDesc (P.map D.airyMemory)).map fun i => P.getD i []).map g := by
    rw [List.map_map]
    apply List.map_congr_left
    intro i _
    simp only [Function.comp, List.getD_eq_getElem?_getD, List.getElem?_map]
    cases P[i]? with
    | none => exact hg.nil.symm
    | some r => rfl
  rw [h1, h2, hg.nanoBatches, hg.nanoLoop]
  by_cases he : P = []
  · rw [if_pos he, if_pos (by rw [he]; rfl)]
  · rw [if_neg he, if_neg (by simpa using he)]

/-! ### blanking -/

/-- the row with everything a renderer does not read replaced by NaN -/
def blank (r : List Fl) : List Fl := r.mapIdx fun j x => if j ∈ hitUsed then x else nan

theorem blank_keeps : KeepsUsed blank := by
  constructor
  · intro r j hj
    unfold rcol blank
    rw [List.getElem?_mapIdx]
    cases r[j]? with
    | none => rfl
    | some x => simp [hj]
  · rfl

theorem blank_eq {r r' : List Fl} (hl : r.length = r'.length) (h : ∀ j ∈ hitUsed, r[j]? = r'[j]?) : blank r = blank r' := by
  apply List.ext_getElem?
  intro j
  unfold blank
  rw [List.getElem?_mapIdx, List.getElem?_mapIdx]
  by_cases hj : j ∈ hitUsed
  · rw [h j hj]
  · by_cases hlt : j < r.length
    · rw [List.getElem?_eq_getElem hlt, List.getElem?_eq_getElem (hl ▸ hlt)]
      simp [hj]
    · rw [List.getElem?_eq_none (by omega), List.getElem?_eq_none (by omega)]

/-- rows that agree on the columns of the image hit alike -/
theorem agree_hit {r r' : List Fl} (n : ℤ) (hl : r.length = 25) (hl' : r'.length = 25) (h : AgreeOn (imageColumns D) r r') :
    D.rowIntersect r = D.rowIntersect r' ∧ D.rowIntensity r = D.rowIntensity r' ∧ blank (row30 D n r) = blank (row30 D n r') := by
  have c : ∀ name j, name ∈ imageColumns D → peakColumns.idxOf name = j → r[j]? = r'[j]? := by
    intro name j hn hj; rw [← hj]; exact h name hn
  have c0 := c "grain_index" 0 (by simp [imageColumns]) rfl
  have c6 := c "diffraction_times" 6 (by simp [imageColumns]) rfl
  have c13 := c "K_out_x" 13 (by simp [imageColumns]) rfl
  have c14 := c "K_out_y" 14 (by simp [imageColumns]) rfl
  have c15 := c "K_out_z" 15 (by simp [imageColumns]) rfl
  have c16 := c "Source_x" 16 (by simp [imageColumns]) rfl
  have c17 := c "Source_y" 17 (by simp [imageColumns]) rfl
  have c18 := c "Source_z" 18 (by simp [imageColumns]) rfl
  have c21 := c "volumes" 21 (by simp [imageColumns]) rfl
  have c23 := c "scherrer_fwhm" 23 (by simp [imageColumns]) rfl
  have hI : D.rowIntersect r = D.rowIntersect r' := by
    unfold Detector.rowIntersect vecAt
    rw [c13, c14, c15, c16, c17, c18]
  have hF : D.rowIntensity r = D.rowIntensity r' := by
    unfold Detector.rowIntensity
    simp only [List.getD_eq_getElem?_getD]
    have e5 : D.useStructureFactor = true → r[5]? = r'[5]? := fun e => c "structure_factors" 5 (by simp [imageColumns, e]) rfl
    have e20 : D.usePolarization = true → r[20]? = r'[20]? := fun e => c "polarization_factors" 20 (by simp [imageColumns, e]) rfl
    have e19 : D.useLorentz = true → r[19]? = r'[19]? := fun e => c "lorentz_factors" 19 (by simp [imageColumns, e]) rfl
    split_ifs <;> simp_all
  have hR : Detector.rowFrame n r = Detector.rowFrame n r' := by
    unfold Detector.rowFrame; rw [List.getD_eq_getElem?_getD, List.getD_eq_getElem?_getD, c6]
  refine ⟨hI, hF, blank_eq (by unfold row30; simp [hl, hl', hI]) ?_⟩
  intro j hj
  unfold row30
  rw [← hI, ← hF, ← hR]
  simp only [List.append_assoc]
  by_cases hj25 : j < 25
  · rw [List.getElem?_append_left (by omega), List.getElem?_append_left (by omega)]
    simp only [hitUsed, List.mem_cons, List.not_mem_nil, or_false] at hj
    rcases hj with rfl | rfl | rfl | rfl | rfl | rfl | rfl | rfl | rfl | rfl | rfl | rfl <;> first | assumption | omega
  · rw [List.getElem?_append_right (show r.length ≤ j by omega), List.getElem?_append_right (show r'.length ≤ j by omega), hl, hl']

theorem agree_hits {n : ℤ} {P P' : List (List Fl)} (h : List.Forall₂ (AgreeOn (imageColumns D)) P P') (hl : ∀ r ∈ P, r.length = 25)
    (hl' : ∀ r ∈ P', r.length = 25) :
    ((P.filter fun row => D.contains ((D.rowIntersect row).getD 0 nan) ((D.rowIntersect row).getD 1 nan) ∧
      (D.rowIntensity row).IsFinite ∧ (fin 0).Lt (D.rowIntensity row)).map (row30 D n)).map blank =
    ((P'.filter fun row => D.contains ((D.rowIntersect row).getD 0 nan) ((D.rowIntersect row).getD 1 nan) ∧
      (D.rowIntensity row).IsFinite ∧ (fin 0).Lt (D.rowIntensity row)).map (row30 D n)).map blank := by
  induction h with
  | nil => rfl
  | cons ha _ ih =>
    obtain ⟨h1, h2, h3⟩ := agree_hit n (hl _ List.mem_cons_self) (hl' _ List.mem_cons_self) ha
    have ih := ih (fun r hr => hl r (List.mem_cons_of_mem _ hr)) (fun r hr => hl' r (List.mem_cons_of_mem _ hr))
    rw [List.filter_cons, List.filter_cons, h1, h2]
    split_ifs
    · rw [List.map_cons, List.map_cons, List.map_cons, List.map_cons, h3, ih]
    · exact ih

/-- C95: two tables with the same beam and motion whose rows agree on the columns of `imageColumns` (element, time, wave vector, source,
volume, Scherrer width, and the intensity factors that are switched on) render to the same image by every method, or raise the same
error, whatever the other columns contain. -/
theorem C95_image_depends_only_on (D : Detector) (env : RenderEnv) (d d' : PeaksDict) (hb : d'.beam = d.beam) (hm : d'.motion = d.motion)
    (hlen : ∀ r ∈ d.peaks, r.length = 25) (hlen' : ∀ r ∈ d'.peaks, r.length = 25)
    (h : List.Forall₂ (AgreeOn (imageColumns D)) d.peaks d'.peaks) (mesh : TetraMesh) (frames : ℤ) (method : Detector.Method)
    (ml : Option ℝ) (mi : ℝ) :
    (D.render env d' mesh frames method ml mi).map Prod.fst = (D.render env d mesh frames method ml mi).map Prod.fst := by
  have key : ∀ n, (D.peaksIntersection d n).peaks.map blank = (D.peaksIntersection d' n).peaks.map blank := by
    intro n
    rw [peaksIntersection_rows D d n hlen, peaksIntersection_rows D d' n hlen']
    exact agree_hits h hlen hlen'
  have hmap : ∀ {α β γ : Type} (x : Except PyErr α) (u : α → β) (v : β → γ), (x.map u).map v = x.map (v ∘ u) := by
    intro α β γ x u v; cases x <;> rfl
  have hg := blank_keeps
  unfold Detector.render
  simp only
  generalize (if frames < 1 then 1 else frames) = n
  have k := key n
  generalize D.peaksIntersection d n = o at k ⊢
  generalize D.peaksIntersection d' n = o' at k ⊢
  cases method with
  | «macro» =>
    simp only [hmap]
    rw [hb, hm, ← hg.renderMacro env d.beam mesh d.motion o.peaks, ← hg.renderMacro env d.beam mesh d.motion o'.peaks, k]
    rfl
  | micro =>
    simp only [hmap]
    rw [← hg.renderMicro env.freeGb o.peaks, ← hg.renderMicro env.freeGb o'.peaks, k]
    rfl
  | nano =>
    simp only [hmap]
    rw [← hg.renderNano env o.peaks, ← hg.renderNano env o'.peaks, k]
    rfl
  | auto =>
    simp only
    have f1 : ∀ (p : ℝ → Prop) [DecidablePred p], (o.peaks.filter fun r => decide (p (rcol r 21))).map blank = (o'.peaks.filter fun r => decide (p (rcol r 21))).map blank := by
      intro p _
      rw [← hg.filter o.peaks (by decide) p, ← hg.filter o'.peaks (by decide) p, k]
    rw [hb, hm]
    rw [← hg.renderMacro env d.beam mesh d.motion (o.peaks.filter _), ← hg.renderMacro env d.beam mesh d.motion (o'.peaks.filter _),
      @f1 (fun x => x ≥ ml.getD ((min D.py D.pz) ^ 3)) _,
      ← hg.renderMicro env.freeGb (o.peaks.filter _), ← hg.renderMicro env.freeGb (o'.peaks.filter _),
      @f1 (fun x => ¬ (x ≥ ml.getD ((min D.py D.pz) ^ 3)) ∧ ¬ (x < mi)) _,
      ← hg.renderNano env (o.peaks.filter _), ← hg.renderNano env (o'.peaks.filter _),
      @f1 (fun x => x < mi) _]
    generalize D.renderMacro env d.beam mesh d.motion _ _ = A
    generalize D.renderMicro env.freeGb _ _ = B
    generalize D.renderNano env _ _ = C
    cases A with
    | error e => rfl
    | ok a =>
      cases B with
      | error e => rfl
      | ok b => cases C <;> rfl
  | other => rfl

/-- a case: a hit and the same hit with other Miller indices, phase, `G` vectors and peak index -/
example (env : RenderEnv) (mesh : TetraMesh) (ml : Option ℝ) (mi : ℝ) (method : Detector.Method) :
    ((imgDet 1 1 (1/10)).peaksIntersection (imgDict [imgRow 0 0 0 (1/2) 1 0]) 1).peaks.length = 1 ∧
    imgRow 0 0 0 (1/2) 1 0 ≠ (((imgRow 0 0 0 (1/2) 1 0).set 2 (fin 7)).set 8 nan).set 24 (fin 3) ∧
    ((imgDet 1 1 (1/10)).render env (imgDict [(((imgRow 0 0 0 (1/2) 1 0).set 2 (fin 7)).set 8 nan).set 24 (fin 3)]) mesh 1 method ml mi).map Prod.fst =
      ((imgDet 1 1 (1/10)).render env (imgDict [imgRow 0 0 0 (1/2) 1 0]) mesh 1 method ml mi).map Prod.fst := by
  refine ⟨?_, ?_, ?_⟩
  · rw [imgDict_kept 1 1 _ 1 0 0 0 (1/2) 1 0 (by norm_num) (by norm_num) _ (by simp)]; rfl
  · intro h
    have := congrArg (fun l => l[8]?) h
    simp [imgRow] at this
  · apply C95_image_depends_only_on _ env (imgDict [imgRow 0 0 0 (1/2) 1 0]) (imgDict [(((imgRow 0 0 0 (1/2) 1 0).set 2 (fin 7)).set 8 nan).set 24 (fin 3)]) rfl rfl
    · intro r hr; have : r = imgRow 0 0 0 (1/2) 1 0 := by simpa [imgDict] using hr
      rw [this]; rfl
    · intro r hr; have : r = (((imgRow 0 0 0 (1/2) 1 0).set 2 (fin 7)).set 8 nan).set 24 (fin 3) := by simpa [imgDict] using hr
      rw [this]; rfl
    · refine List.Forall₂.cons ?_ List.Forall₂.nil
      intro name hn
      simp only [imageColumns, imgDet, if_true, List.mem_append, List.mem_cons, List.not_mem_nil, or_false] at hn
      rcases hn with ((((rfl | rfl | rfl | rfl | rfl | rfl | rfl | rfl | rfl | rfl) | rfl) | rfl) | rfl) <;> rfl

/-- C94: with structure factors switched off they do not matter at all: every image is unchanged, by every method. -/
theorem C94_structure_factors_off (D : Detector) (hD : D.useStructureFactor = false) (env : RenderEnv) (c : ℝ) (d : PeaksDict)
    (hlen : ∀ r ∈ d.peaks, r.length = 25) (mesh : TetraMesh) (frames : ℤ) (method : Detector.Method) (ml : Option ℝ) (mi : ℝ) :
    (D.render env (brighter c d) mesh frames method ml mi).map Prod.fst = (D.render env d mesh frames method ml mi).map Prod.fst := by
  apply C95_image_depends_only_on D env d (brighter c d) rfl rfl hlen
  · intro r hr
    rw [brighter_peaks] at hr
    obtain ⟨q, hq, rfl⟩ := List.mem_map.mp hr
    rw [br5_length]; exact hlen q hq
  · rw [brighter_peaks, List.forall₂_map_right_iff]
    apply List.forall₂_same.mpr
    intro r _ name hn
    have : peakColumns.idxOf name ≠ 5 := by
      have hn' : name ∈ ["grain_index", "diffraction_times", "K_out_x", "K_out_y", "K_out_z", "Source_x", "Source_y", "Source_z", "volumes",
          "scherrer_fwhm", "polarization_factors", "lorentz_factors"] := by
        unfold imageColumns at hn
        rw [hD] at hn
        split_ifs at hn <;> simp at hn ⊢ <;> tauto
      simp only [List.mem_cons, List.not_mem_nil, or_false] at hn'
      rcases hn' with rfl | rfl | rfl | rfl | rfl | rfl | rfl | rfl | rfl | rfl | rfl | rfl <;> decide
    exact (br5_get this).symm

end XRD
