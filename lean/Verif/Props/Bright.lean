import Verif.Props.Superpose
import Verif.Props.Units

/-! Property C94: brightness.  Multiplying all structure factors by a number multiplies the image by it. -/

namespace XRD
open V3 M3 Fl Spec
open scoped Classical

/-- the table with its column `structure_factors` multiplied by `c` -/
noncomputable def Spec.brighter (c : ℝ) (d : PeaksDict) : PeaksDict :=
  { d with peaks := d.peaks.map fun r => r.set (peakColumns.idxOf "structure_factors") (fin c * r.getD (peakColumns.idxOf "structure_factors") nan) }

/-- One rendering is `c` times another: it succeeds exactly if the other does, contains NaN exactly if the other does, and otherwise every
pixel is multiplied by `c`. -/
def Spec.ScaledImage (c : ℝ) (R R' : Except PyErr (Option Stack × PeaksDict)) : Prop :=
  ∀ t', (∃ o', R' = .ok (t', o')) ↔ ∃ t o, R = .ok (t, o) ∧ t' = t.map fun t f i j => c * t f i j

variable {c : ℝ}

theorem fl_scale_assoc (hc : 0 < c) (a b : Fl) : (fin c * a) * b = fin c * (a * b) := by
  have key : ∀ s : ℝ, infSign (c * s) = fin c * infSign s := by
    intro s
    unfold infSign
    by_cases h1 : 0 < s
    · rw [if_pos h1, if_pos (by positivity), fl_scale_pinf hc]
    · by_cases h2 : s < 0
      · rw [if_neg h1, if_pos h2, if_neg (by nlinarith), if_pos (by nlinarith), fl_scale_ninf hc]
      · have : s = 0 := le_antisymm (not_lt.mp h1) (not_lt.mp h2)
        subst this
        simp
  cases b with
  | fin r => exact fl_scale_mulr hc a r
  | nan => simp
  | pinf =>
    cases a with
    | fin r => exact key r
    | nan => simp
    | pinf => rw [fl_scale_pinf hc]; exact (fl_scale_pinf hc).symm
    | ninf => rw [fl_scale_ninf hc]; exact (fl_scale_ninf hc).symm
  | ninf =>
    cases a with
    | fin r =>
      show infSign (-(c * r)) = fin c * infSign (-r)
      rw [← key]; congr 1; ring
    | nan => simp
    | pinf => rw [fl_scale_pinf hc]; exact (fl_scale_ninf hc).symm
    | ninf => rw [fl_scale_ninf hc]; exact (fl_scale_pinf hc).symm

/-- the row with its structure factor multiplied -/
noncomputable def br5 (c : ℝ) (r : List Fl) : List Fl := r.set 5 (fin c * r.getD 5 nan)
/-- a hit with its structure factor and intensity multiplied -/
noncomputable def br (c : ℝ) (r : List Fl) : List Fl := (r.set 5 (fin c * r.getD 5 nan)).set 29 (fin c * r.getD 29 nan)

theorem br5_get {r : List Fl} {j : ℕ} (hj : j ≠ 5) : (br5 c r)[j]? = r[j]? := by
  unfold br5; rw [List.getElem?_set_ne (Ne.symm hj)]

theorem br5_getD {r : List Fl} {j : ℕ} (hj : j ≠ 5) (x : Fl) : (br5 c r).getD j x = r.getD j x := by
  rw [List.getD_eq_getElem?_getD, List.getD_eq_getElem?_getD, br5_get hj]

theorem br5_length (r : List Fl) : (br5 c r).length = r.length := by unfold br5; simp

theorem br5_five {r : List Fl} (hl : r.length = 25) : (br5 c r).getD 5 nan = fin c * r.getD 5 nan := by
  unfold br5; rw [List.getD_eq_getElem?_getD, List.getElem?_set_self (by omega)]; rfl

theorem br5_intersect (D : Detector) (r : List Fl) : D.rowIntersect (br5 c r) = D.rowIntersect r := by
  unfold Detector.rowIntersect vecAt
  simp only [br5_get (show 13 ≠ 5 by norm_num), br5_get (show 13 + 1 ≠ 5 by norm_num), br5_get (show 13 + 2 ≠ 5 by norm_num),
    br5_get (show 16 ≠ 5 by norm_num), br5_get (show 16 + 1 ≠ 5 by norm_num), br5_get (show 16 + 2 ≠ 5 by norm_num)]

theorem br5_frame (n : ℤ) (r : List Fl) : Detector.rowFrame n (br5 c r) = Detector.rowFrame n r := by
  unfold Detector.rowFrame; rw [br5_getD (by norm_num)]

theorem br5_intensity (hc : 0 < c) {D : Detector} (hD : D.useStructureFactor = true) {r : List Fl} (hl : r.length = 25) :
    D.rowIntensity (br5 c r) = fin c * D.rowIntensity r := by
  unfold Detector.rowIntensity
  simp only [hD, if_true, br5_five hl, br5_getD (show 20 ≠ 5 by norm_num), br5_getD (show 19 ≠ 5 by norm_num)]
  have h1 : fin 1 * (fin c * r.getD 5 nan) = fin c * (fin 1 * r.getD 5 nan) := fl_scale_mull hc _ _
  rw [h1]
  split_ifs <;> simp only [fl_scale_assoc hc]

theorem br5_row30 (hc : 0 < c) {D : Detector} (hD : D.useStructureFactor = true) (n : ℤ) {r : List Fl} (hl : r.length = 25) :
    row30 D n (br5 c r) = br c (row30 D n r) := by
  have hl3 := rowIntersect_length D r
  have g5 : (row30 D n r).getD 5 nan = r.getD 5 nan := by
    unfold row30
    rw [List.getD_eq_getElem?_getD, List.append_assoc, List.append_assoc, List.getElem?_append_left (by omega), List.getD_eq_getElem?_getD]
  have g29 : (row30 D n r).getD 29 nan = D.rowIntensity r := by
    unfold row30
    rw [List.getD_eq_getElem?_getD, List.getElem?_append_right (by simp [hl, hl3])]
    simp [hl, hl3]
  unfold br
  rw [g5, g29]
  unfold row30
  rw [br5_intersect, br5_frame, br5_intensity hc hD hl]
  rw [List.append_assoc, List.append_assoc, List.append_assoc, List.append_assoc]
  rw [List.set_append_left _ _ (by omega)]
  rw [List.set_append_right _ _ (by simp [hl])]
  simp only [List.length_set, hl]
  rw [List.set_append_right _ _ (by simp [hl3]), List.set_append_right _ _ (by simp [hl3])]
  simp only [hl3, List.length_singleton]
  rfl

theorem brighter_peaks (c : ℝ) (d : PeaksDict) : (brighter c d).peaks = d.peaks.map (br5 c) := rfl

/-- the brighter table hits at the same places with `c` times the intensity -/
theorem brighter_hits (hc : 0 < c) {D : Detector} (hD : D.useStructureFactor = true) {d : PeaksDict} (hlen : ∀ r ∈ d.peaks, r.length = 25) (n : ℤ) :
    (D.peaksIntersection (brighter c d) n).peaks = (D.peaksIntersection d n).peaks.map (br c) := by
  rw [peaksIntersection_rows D d n hlen, peaksIntersection_rows D (brighter c d) n (by
    intro r hr
    rw [brighter_peaks] at hr
    obtain ⟨q, hq, rfl⟩ := List.mem_map.mp hr
    rw [br5_length]; exact hlen q hq), brighter_peaks, List.filter_map, List.map_map, List.map_map]
  have hf : (d.peaks.filter ((fun row => decide (D.contains ((D.rowIntersect row).getD 0 nan) ((D.rowIntersect row).getD 1 nan) ∧
      (D.rowIntensity row).IsFinite ∧ (fin 0).Lt (D.rowIntensity row))) ∘ br5 c)) =
      d.peaks.filter fun row => D.contains ((D.rowIntersect row).getD 0 nan) ((D.rowIntersect row).getD 1 nan) ∧
      (D.rowIntensity row).IsFinite ∧ (fin 0).Lt (D.rowIntensity row) := by
    apply List.filter_congr
    intro q hq
    rw [Function.comp, decide_eq_decide, br5_intersect, br5_intensity hc hD (hlen q hq), isFinite_mul]
    have e2 : (fin 0).Lt (fin c * D.rowIntensity q) ↔ (fin 0).Lt (D.rowIntensity q) := by
      cases D.rowIntensity q with
      | fin x =>
        show (0:ℝ) < c * x ↔ (0:ℝ) < x
        exact mul_pos_iff_of_pos_left hc
      | pinf => rw [fl_scale_pinf hc]
      | ninf => rw [fl_scale_ninf hc]
      | nan => simp
    rw [e2]
    have : (fin c).IsFinite := trivial
    tauto
  rw [hf]
  apply List.map_congr_left
  intro q hq
  exact br5_row30 hc hD n (hlen q (List.mem_filter.mp hq).1)

/-- the columns of a brighter hit -/
theorem br_cols {D : Detector} {d : PeaksDict} {n : ℤ} (hn : 1 ≤ n) (hlen : ∀ r ∈ d.peaks, r.length = 25) {r : List Fl}
    (hr : r ∈ (D.peaksIntersection d n).peaks) : (∀ j, j ≠ 5 → j ≠ 29 → (br c r)[j]? = r[j]?) ∧ rcol (br c r) 29 = c * rcol r 29 := by
  obtain ⟨q, hq, rfl, -, hI, -⟩ := hitRows hn hlen r hr
  have hl : (row30 D n q).length = 30 := by
    unfold row30; simp [hlen q hq, rowIntersect_length]
  refine ⟨?_, ?_⟩
  · intro j h5 h29
    unfold br
    rw [List.getElem?_set_ne (Ne.symm h29), List.getElem?_set_ne (Ne.symm h5)]
  · have : ∃ x, (row30 D n q)[29]? = some (fin x) := by
      unfold rcol at hI
      split at hI
      · rename_i x hx; exact ⟨x, hx⟩
      · exact absurd hI (lt_irrefl _)
    obtain ⟨x, hx⟩ := this
    unfold rcol br
    rw [List.getElem?_set_self (by rw [List.length_set]; omega), List.getD_eq_getElem?_getD, hx]
    rfl

/-! ### macro -/

theorem macroAdd_bright {D : Detector} {env : RenderEnv} {b : Beam} {mesh : TetraMesh} {m : Motion} {r r' : List Fl}
    (h : ∀ j, j ≠ 5 → j ≠ 29 → rcol r' j = rcol r j) (h29 : rcol r' 29 = c * rcol r 29) :
    macroAdd D env b mesh m r' = (macroAdd D env b mesh m r).map (Option.map fun t i j => c * t i j) := by
  unfold macroAdd Detector.macroPeak Detector.movedVertices
  rw [h 0 (by norm_num) (by norm_num), h 6 (by norm_num) (by norm_num), h 13 (by norm_num) (by norm_num), h 14 (by norm_num) (by norm_num),
    h 15 (by norm_num) (by norm_num), h29]
  generalize env.hull b _ = H
  cases H with
  | none => simp [Except.map]
  | some hull =>
    simp only
    generalize D.boundingBox hull.points _ = B
    cases B with
    | none => simp [Except.map]
    | some box =>
      simp only
      generalize D.projectHull env hull _ box = P
      cases P with
      | error e => rfl
      | ok pr =>
        cases pr with
        | none => rfl
        | some pr =>
          simp only [Except.map, Option.map_some]
          congr 2
          funext i j
          split_ifs <;> ring

theorem bright_macro (hc : 0 < c) {D : Detector} (hD : D.useStructureFactor = true) (env : RenderEnv) (d : PeaksDict)
    (hlen : ∀ r ∈ d.peaks, r.length = 25) (mesh : TetraMesh) (frames : ℤ) (ml : Option ℝ) (mi : ℝ) :
    ScaledImage c (D.render env d mesh frames .macro ml mi) (D.render env (brighter c d) mesh frames .macro ml mi) := by
  set n := max frames 1 with hn
  have hn1 : 1 ≤ n := le_max_right _ _
  have hfr : ∀ r ∈ (D.peaksIntersection d n).peaks, ∃ k : ℕ, rcol r 28 = k ∧ k < n.toNat := by
    intro r hr
    obtain ⟨q, -, -, ⟨k, hk, h0, h1⟩, -⟩ := hitRows hn1 hlen r hr
    refine ⟨k.toNat, ?_, by omega⟩
    rw [hk]; exact_mod_cast (Int.toNat_of_nonneg h0).symm
  have hcol : ∀ r ∈ (D.peaksIntersection d n).peaks, ∀ j, j ≠ 5 → j ≠ 29 → rcol (br c r) j = rcol r j :=
    fun r hr j h5 h29 => rcol_congr ((br_cols hn1 hlen hr).1 j h5 h29)
  have hfr' : ∀ r ∈ (D.peaksIntersection d n).peaks.map (br c), ∃ k : ℕ, rcol r 28 = k ∧ k < n.toNat := by
    intro r hr
    obtain ⟨q, hq, rfl⟩ := List.mem_map.mp hr
    rw [hcol q hq 28 (by norm_num) (by norm_num)]
    exact hfr q hq
  intro t'
  rw [render_macro, render_macro, ← hn, brighter_hits hc hD hlen]
  show (∃ o', (D.renderMacro env d.beam mesh d.motion _ _).map _ = _) ↔ _
  rw [renderMacro_eq hfr, renderMacro_eq hfr']
  set A := macroAdd D env d.beam mesh d.motion with hA
  have hadd : ∀ r ∈ (D.peaksIntersection d n).peaks, A (br c r) = (A r).map (Option.map fun t i j => c * t i j) :=
    fun r hr => macroAdd_bright (hcol r hr) (br_cols hn1 hlen hr).2
  have herr : (∃ r ∈ (D.peaksIntersection d n).peaks.map (br c), A r = .error .indexError) ↔
      ∃ r ∈ (D.peaksIntersection d n).peaks, A r = .error .indexError := by
    simp only [List.mem_map, exists_exists_and_eq_and]
    refine exists_congr fun r => and_congr_right fun hr => ?_
    rw [hadd r hr]
    cases A r <;> simp [Except.map]
  have hnan : (∃ r ∈ (D.peaksIntersection d n).peaks.map (br c), A r = .ok none) ↔
      ∃ r ∈ (D.peaksIntersection d n).peaks, A r = .ok none := by
    simp only [List.mem_map, exists_exists_and_eq_and]
    refine exists_congr fun r => and_congr_right fun hr => ?_
    rw [hadd r hr]
    cases A r <;> simp [Except.map]
  have hval : ∀ r ∈ (D.peaksIntersection d n).peaks, ∀ i j, macroVal D env d.beam mesh d.motion (br c r) i j =
      c * macroVal D env d.beam mesh d.motion r i j := by
    intro r hr i j
    unfold macroVal
    rw [← hA, hadd r hr]
    cases A r with
    | error e => simp [Except.map]
    | ok v => cases v <;> simp [Except.map]
  have hsum : ∀ f i j, ((((D.peaksIntersection d n).peaks.map (br c)).filter fun r => rcol r 28 = (f : ℝ)).map fun r => macroVal D env d.beam mesh d.motion r i j).sum =
      c * (((D.peaksIntersection d n).peaks.filter fun r => rcol r 28 = (f : ℝ)).map fun r => macroVal D env d.beam mesh d.motion r i j).sum := by
    intro f i j
    rw [List.filter_map, List.map_map, ← List.sum_map_mul_left]
    have : (D.peaksIntersection d n).peaks.filter ((fun r => decide (rcol r 28 = (f:ℝ))) ∘ br c) =
        (D.peaksIntersection d n).peaks.filter fun r => rcol r 28 = (f:ℝ) := by
      apply List.filter_congr
      intro r hr
      rw [Function.comp, decide_eq_decide, hcol r hr 28 (by norm_num) (by norm_num)]
    rw [this]
    congr 1
    apply List.map_congr_left
    intro r hr
    exact hval r (List.mem_filter.mp hr).1 i j
  simp only [herr, hnan, hsum]
  by_cases e1 : ∃ r ∈ (D.peaksIntersection d n).peaks, A r = .error .indexError
  · rw [if_pos e1, if_pos e1]; simp [Except.map]
  rw [if_neg e1, if_neg e1]
  by_cases e2 : ∃ r ∈ (D.peaksIntersection d n).peaks, A r = .ok none
  · rw [if_pos e2, if_pos e2]; simp [Except.map, eq_comm]
  rw [if_neg e2, if_neg e2]
  simp only [Except.map, Except.ok.injEq, Prod.mk.injEq]
  have e : (fun f => if f < n.toNat then conv2d D.nz D.ny D.gaussKernel fun i j =>
      c * (((D.peaksIntersection d n).peaks.filter fun r => rcol r 28 = (f : ℝ)).map fun r => macroVal D env d.beam mesh d.motion r i j).sum
      else fun _ _ => 0 : Stack) = fun f i j =>
      c * (if f < n.toNat then conv2d D.nz D.ny D.gaussKernel fun i j =>
        (((D.peaksIntersection d n).peaks.filter fun r => rcol r 28 = (f : ℝ)).map fun r => macroVal D env d.beam mesh d.motion r i j).sum else fun _ _ => 0) i j := by
    funext f i j
    by_cases hf : f < n.toNat
    · rw [if_pos hf, if_pos hf, conv2d_smul]
    · rw [if_neg hf, if_neg hf]; simp
  rw [e]
  constructor
  · rintro ⟨o, h, -⟩
    exact ⟨_, _, ⟨rfl, rfl⟩, h.symm⟩
  · rintro ⟨t, o, ⟨h1, -⟩, h⟩
    rw [← h1] at h
    exact ⟨_, h.symm, rfl⟩

/-! ### nano -/

theorem kernelAdd_bright (h w : ℕ) (k : Kernel) (c x cz cy : ℝ) (i j : ℕ) :
    kernelAdd h w (Detector.scaleKernel k (c * x), cz, cy) i j = c * kernelAdd h w (Detector.scaleKernel k x, cz, cy) i j := by
  rw [kernelAdd_eq, kernelAdd_eq, Finset.mul_sum]
  apply Finset.sum_congr rfl
  intro a _
  rw [Finset.mul_sum]
  apply Finset.sum_congr rfl
  intro b _
  unfold cornerSum corners
  simp only [Detector.scaleKernel, List.map_cons, List.map_nil, List.sum_cons, List.sum_nil, mul_add, mul_ite, MulZeroClass.mul_zero]
  congr 1
  · apply if_congr Iff.rfl _ rfl; ring
  congr 1
  · apply if_congr Iff.rfl _ rfl; ring
  congr 1
  · apply if_congr Iff.rfl _ rfl; ring
  congr 1
  · apply if_congr Iff.rfl _ rfl; ring

theorem bright_nano (hc : 0 < c) {D : Detector} (hD : D.useStructureFactor = true) (env : RenderEnv) (hs : IsArgsort env.argsortDesc) (d : PeaksDict)
    (hlen : ∀ r ∈ d.peaks, r.length = 25) (mesh : TetraMesh) (frames : ℤ) (ml : Option ℝ) (mi : ℝ) :
    ScaledImage c (D.render env d mesh frames .nano ml mi) (D.render env (brighter c d) mesh frames .nano ml mi) := by
  set n := max frames 1 with hn
  have hn1 : 1 ≤ n := le_max_right _ _
  set P := (D.peaksIntersection d n).peaks with hP
  have hcol : ∀ r ∈ P, ∀ j, j ≠ 5 → j ≠ 29 → rcol (br c r) j = rcol r j :=
    fun r hr j h5 h29 => rcol_congr ((br_cols hn1 hlen hr).1 j h5 h29)
  have hfz : ∀ r ∈ P, D.firstZero (br c r) = D.firstZero r := by
    intro r hr
    unfold Detector.firstZero
    rw [hcol r hr 23 (by norm_num) (by norm_num), hcol r hr 27 (by norm_num) (by norm_num)]
  have hmem : ∀ r ∈ P, D.airyMemory (br c r) = D.airyMemory r := by
    intro r hr; unfold Detector.airyMemory; rw [hfz r hr]
  have hkey : (P.map (br c)).map D.airyMemory = P.map D.airyMemory := by
    rw [List.map_map]
    exact List.map_congr_left fun r hr => hmem r hr
  have hsorted : sortedRows env.argsortDesc D.airyMemory (P.map (br c)) = (sortedRows env.argsortDesc D.airyMemory P).map (br c) := by
    unfold sortedRows
    rw [hkey, List.map_map]
    apply List.map_congr_left
    intro i hi
    have : i < P.length := by
      have := (hs (P.map D.airyMemory)).mem_iff.mp hi
      simpa using this
    simp [this]
  set M := sortedRows env.argsortDesc D.airyMemory P with hM
  have hMP : ∀ r ∈ M, r ∈ P := fun r hr => (sortedRows_perm hs D.airyMemory P).mem_iff.mp hr
  have hb : D.nanoBatches (env.freeGb * 1024 ^ 3) (M.map (br c)) = (D.nanoBatches (env.freeGb * 1024 ^ 3) M).map (List.map (br c)) := by
    rw [nanoBatches_eq, batchesBy_congr _ (fun a => D.airyMemory (id a)) _ M (fun r hr => hmem r (hMP r hr))]
    have := nanoBatches_eq D (env.freeGb * 1024 ^ 3) id M
    rw [List.map_id] at this
    rw [this]
    simp
  set bs := D.nanoBatches (env.freeGb * 1024 ^ 3) M with hbs
  have hflat : bs.flatten = M := nanoBatches_flatten _ _ _
  have hin : ∀ b ∈ bs, ∀ r ∈ b, r ∈ P := by
    intro b hb' r hr
    apply hMP
    rw [← hflat]
    exact List.mem_flatten.mpr ⟨b, hb', hr⟩
  intro t'
  rw [render_nano, render_nano, ← hn, brighter_hits hc hD hlen, renderNano_eq hs, renderNano_eq hs, ← hP, hsorted, ← hM, hb, ← hbs]
  have hpm := nanoPairs_map (D := D) (j1 := env.j1) (br c) id bs (fun b hb' r hr => hfz r (hin b hb' r hr))
  have hid : bs.map (List.map id) = bs := by simp
  rw [hid] at hpm
  rcases hpm with ⟨e, h1, h2⟩ | ⟨qks, h0, h1, h2⟩
  · rw [h1, h2]; simp [Except.map]
  · rw [h1, h2]
    have hqk : ∀ qk ∈ qks, qk.1 ∈ P := by
      intro qk hq
      apply hMP
      rw [← hflat, ← h0]
      exact List.mem_map.mpr ⟨qk, hq, rfl⟩
    have hcs : ∀ f i j, cornerSum D.nz D.ny (allCorners (nanoAdd D (qks.map fun qk => (br c qk.1, qk.2)) f)) i j =
        c * cornerSum D.nz D.ny (allCorners (nanoAdd D (qks.map fun qk => (id qk.1, qk.2)) f)) i j := by
      intro f i j
      rw [cornerSum_allCorners, cornerSum_allCorners]
      unfold nanoAdd
      rw [List.filter_map, List.filter_map, List.map_map, List.map_map, List.map_map, List.map_map, ← List.sum_map_mul_left]
      have hfil : qks.filter ((fun rk : List Fl × Kernel => decide (rcol rk.1 28 = (f:ℝ))) ∘ fun qk => (br c qk.1, qk.2)) =
          qks.filter ((fun rk : List Fl × Kernel => decide (rcol rk.1 28 = (f:ℝ))) ∘ fun qk => (id qk.1, qk.2)) := by
        apply List.filter_congr
        intro qk hq
        simp only [Function.comp, id]
        rw [hcol _ (hqk qk hq) 28 (by norm_num) (by norm_num)]
      rw [hfil]
      congr 1
      apply List.map_congr_left
      intro qk hq
      have hq' := hqk qk (List.mem_filter.mp hq).1
      simp only [Function.comp, id]
      rw [hcol _ hq' 25 (by norm_num) (by norm_num), hcol _ hq' 26 (by norm_num) (by norm_num), hcol _ hq' 21 (by norm_num) (by norm_num),
        (br_cols hn1 hlen hq').2, _root_.mul_assoc c, kernelAdd_bright]
    simp only [Except.map, Except.ok.injEq, Prod.mk.injEq, hcs]
    have e : (fun f => if f < n.toNat then conv2d D.nz D.ny D.gaussKernel fun i j =>
        c * cornerSum D.nz D.ny (allCorners (nanoAdd D (qks.map fun qk => (id qk.1, qk.2)) f)) i j else fun _ _ => 0 : Stack) = fun f i j =>
        c * (if f < n.toNat then conv2d D.nz D.ny D.gaussKernel fun i j =>
          cornerSum D.nz D.ny (allCorners (nanoAdd D (qks.map fun qk => (id qk.1, qk.2)) f)) i j else fun _ _ => 0) i j := by
      funext f i j
      by_cases hf : f < n.toNat
      · rw [if_pos hf, if_pos hf, conv2d_smul]
      · rw [if_neg hf, if_neg hf]; simp
    rw [e]
    constructor
    · rintro ⟨o, h, -⟩
      exact ⟨_, _, ⟨rfl, rfl⟩, h.symm⟩
    · rintro ⟨t, o, ⟨h1, -⟩, h⟩
      rw [← h1] at h
      exact ⟨_, h.symm, rfl⟩

/-! ### micro -/

/-- one row, `c ≥ 1` times as bright -/
theorem micro_row_bright (hc : 1 ≤ c) {D : Detector} {r r' : List Fl} (hcol : ∀ j, j ≠ 5 → j ≠ 29 → rcol r' j = rcol r j) (h29 : rcol r' 29 = c * rcol r 29)
    {k : ℤ} {n f i j : ℕ} (hk : rcol r 28 = k) (h0 : 0 ≤ k) (h1 : k < n)
    (hi : i < D.nz) (hj : j < D.ny) (hI : 0 ≤ rcol r 29 * rcol r 21) :
    c * stackOf n D.nz D.ny (D.microDeposits r) f i j ≤ stackOf n D.nz D.ny (D.microDeposits r') f i j ∧
      stackOf n D.nz D.ny (D.microDeposits r') f i j ≤ c * (stackOf n D.nz D.ny (D.microDeposits r) f i j + 1 / 10 ^ 6) := by
  have hc0 : 0 < c := by linarith
  have hk' : rcol r' 28 = k := by rw [hcol 28 (by norm_num) (by norm_num)]; exact hk
  rw [stackOf_microDeposits hk h0 h1 hi hj, stackOf_microDeposits hk' h0 h1 hi hj]
  rw [hcol 25 (by norm_num) (by norm_num), hcol 26 (by norm_num) (by norm_num), hcol 21 (by norm_num) (by norm_num), h29]
  have hS0 := window_sum_nonneg D (rcol r 25 / D.pz) (rcol r 26 / D.py) D.microRadius
  generalize ((Detector.window D.microRadius).map (D.microW (rcol r 25 / D.pz) (rcol r 26 / D.py))).sum = S at hS0 ⊢
  have hv : ∀ o, 0 ≤ D.microW (rcol r 25 / D.pz) (rcol r 26 / D.py) o / (S + 1 / 10 ^ 12) * (rcol r 29 * rcol r 21) := by
    intro o
    have := (microW_pos D (rcol r 25 / D.pz) (rcol r 26 / D.py) o).le
    exact mul_nonneg (div_nonneg this (by positivity)) hI
  have hv' : ∀ o, D.microW (rcol r 25 / D.pz) (rcol r 26 / D.py) o / (S + 1 / 10 ^ 12) * (c * rcol r 29 * rcol r 21)
      = c * (D.microW (rcol r 25 / D.pz) (rcol r 26 / D.py) o / (S + 1 / 10 ^ 12) * (rcol r 29 * rcol r 21)) := by
    intro o; ring
  simp only [hv']
  generalize hg : (fun o => D.microW (rcol r 25 / D.pz) (rcol r 26 / D.py) o / (S + 1 / 10 ^ 12) * (rcol r 29 * rcol r 21)) = g at hv
  simp only [congrFun hg] at hv ⊢
  have hmul : ∀ (l : List (ℤ × ℤ)) (u : ℤ × ℤ → ℝ), c * (l.map u).sum = (l.map fun o => c * u o).sum :=
    fun l u => (List.sum_map_mul_left l u c).symm
  constructor
  · rw [hmul]
    apply List.sum_le_sum
    intro o _
    have := hv o
    split_ifs with c1 c2 c2
    · exact le_rfl
    · exact absurd ⟨c1.1, c1.2.1, c1.2.2.1, by nlinarith [c1.2.2.2]⟩ c2
    · nlinarith
    · simp
  · rw [mul_add, hmul]
    refine sum_le_of_one (window_nodup _) ((i : ℤ) - roundEven (rcol r 25 / D.pz), (j : ℤ) - roundEven (rcol r 26 / D.py)) (by positivity) ?_ ?_
    · intro o _ hne
      rw [if_neg, if_neg]
      · simp
      · rintro ⟨-, g1, g2, -⟩; apply hne; ext <;> dsimp only <;> omega
      · rintro ⟨-, g1, g2, -⟩; apply hne; ext <;> dsimp only <;> omega
    · have := hv ((i : ℤ) - roundEven (rcol r 25 / D.pz), (j : ℤ) - roundEven (rcol r 26 / D.py))
      have hp6 : (0 : ℝ) ≤ c * (1 / 10 ^ 6) := by positivity
      split_ifs with c1 c2 c2
      · linarith
      · rw [not_and, not_and, not_and] at c2
        have := c2 c1.1 c1.2.1 c1.2.2.1
        rw [not_lt] at this
        rw [MulZeroClass.mul_zero, zero_add]
        exact mul_le_mul_of_nonneg_left this (by positivity)
      · nlinarith
      · simpa using hp6

/-! ### C94 -/

/-- C94, `macro` and `nano`: with the structure factors enabled, multiplying all of them by `c > 0` multiplies the image by `c`. -/
theorem C94_brightness_macro_nano (hc : 0 < c) (D : Detector) (hD : D.useStructureFactor = true) (env : RenderEnv) (hs : IsArgsort env.argsortDesc)
    (d : PeaksDict) (hlen : ∀ r ∈ d.peaks, r.length = 25) (mesh : TetraMesh) (frames : ℤ) (method : Detector.Method)
    (hm : method = .macro ∨ method = .nano) (ml : Option ℝ) (mi : ℝ) :
    ScaledImage c (D.render env d mesh frames method ml mi) (D.render env (brighter c d) mesh frames method ml mi) := by
  rcases hm with rfl | rfl
  · exact bright_macro hc hD env d hlen mesh frames ml mi
  · exact bright_nano hc hD env hs d hlen mesh frames ml mi

/-- C94 (partial), `micro`: the image is multiplied by `c ≥ 1` up to `c · 10⁻⁶` per hit and pixel, and never by less.
Missing: equality; false because contributions below the fixed threshold `10⁻⁶` are dropped (`C94_micro_fails`). -/
theorem C94_brightness_micro_partial (hc : 1 ≤ c) (D : Detector) (hD : D.useStructureFactor = true) (env : RenderEnv)
    (d : PeaksDict) (hlen : ∀ r ∈ d.peaks, r.length = 25) (hcol : d.columns = peakColumns) (hvol : ∀ r ∈ d.peaks, 0 ≤ val d.columns r "volumes")
    (mesh : TetraMesh) (frames : ℤ) (ml : Option ℝ) (mi : ℝ) :
    ∃ t t' out out', D.render env d mesh frames .micro ml mi = .ok (some t, out) ∧
      D.render env (brighter c d) mesh frames .micro ml mi = .ok (some t', out') ∧ out'.peaks.length = out.peaks.length ∧
      ∀ f i j : ℕ, i < D.nz → j < D.ny → c * t f i j ≤ t' f i j ∧ t' f i j ≤ c * (t f i j + out.peaks.length * (1 / 10 ^ 6)) := by
  have hc0 : 0 < c := by linarith
  have hlen' : ∀ r ∈ (brighter c d).peaks, r.length = 25 := by
    intro r hr
    rw [brighter_peaks] at hr
    obtain ⟨q, hq, rfl⟩ := List.mem_map.mp hr
    rw [br5_length]; exact hlen q hq
  have hn1 : 1 ≤ max frames 1 := le_max_right _ _
  refine ⟨_, _, _, _, render_micro_ok hlen, render_micro_ok hlen', ?_, ?_⟩
  · rw [brighter_hits hc0 hD hlen, List.length_map]
  · intro f i j hi hj
    rw [brighter_hits hc0 hD hlen]
    have hrows := hitRows (D := D) (d := d) hn1 hlen
    have hbr : ∀ r ∈ (D.peaksIntersection d (max frames 1)).peaks, (∀ j, j ≠ 5 → j ≠ 29 → (br c r)[j]? = r[j]?) ∧ rcol (br c r) 29 = c * rcol r 29 :=
      fun r hr => br_cols hn1 hlen hr
    have hv : ∀ r ∈ (D.peaksIntersection d (max frames 1)).peaks, 0 ≤ rcol r 21 := by
      intro r hr
      obtain ⟨q, hq, -, -, -, e⟩ := hrows r hr
      rw [e, ← val21 hcol]
      exact hvol q hq
    generalize (D.peaksIntersection d (max frames 1)).peaks = l at hrows hbr hv ⊢
    rw [stackOf_flatMap, stackOf_flatMap, List.map_map]
    induction l with
    | nil => simp
    | cons r l ih =>
      obtain ⟨q, hq, -, ⟨k, hk, h0, h1⟩, hI, -⟩ := hrows r List.mem_cons_self
      obtain ⟨g1, g2⟩ := ih (fun r hr => hrows r (List.mem_cons_of_mem _ hr)) (fun r hr => hbr r (List.mem_cons_of_mem _ hr))
        fun r hr => hv r (List.mem_cons_of_mem _ hr)
      have hb := hbr r List.mem_cons_self
      obtain ⟨g3, g4⟩ := micro_row_bright (n := (max frames 1).toNat) (f := f) hc (fun j h5 h29 => rcol_congr (hb.1 j h5 h29)) hb.2 hk h0
        (by omega) hi hj (mul_nonneg hI.le (hv r List.mem_cons_self))
      simp only [List.map_cons, List.sum_cons, List.length_cons, Function.comp] at g1 g2 ⊢
      push_cast
      constructor
      · linarith
      · linarith

theorem withVolume_brighter (c : ℝ) (d : PeaksDict) (hcol : d.columns = peakColumns) (p : ℝ → Prop) :
    withVolume (brighter c d) p = brighter c (withVolume d p) := by
  have hb : brighter c d = { d with peaks := d.peaks.map (br5 c) } := rfl
  have hb' : brighter c (withVolume d p) = { withVolume d p with peaks := (withVolume d p).peaks.map (br5 c) } := rfl
  rw [hb, hb']
  unfold withVolume
  simp only [PeaksDict.mk.injEq, and_true]
  rw [List.filter_map]
  congr 1
  apply List.filter_congr
  intro r _
  rw [Function.comp, decide_eq_decide, val21 hcol, val21 hcol, rcol_congr (br5_get (show 21 ≠ 5 by norm_num))]

/-- C94, `auto`, when no hit has a volume between the two limits (so that nothing is rendered by `micro`). -/
theorem C94_brightness_auto_partial (hc : 0 < c) (D : Detector) (hD : D.useStructureFactor = true) (env : RenderEnv) (hs : IsArgsort env.argsortDesc)
    (d : PeaksDict) (hlen : ∀ r ∈ d.peaks, r.length = 25) (hcol : d.columns = peakColumns) (mesh : TetraMesh) (frames : ℤ)
    (ml : Option ℝ) (mi : ℝ) (hmid : ∀ r ∈ d.peaks, val d.columns r "volumes" < mi ∨ macroLimit D ml ≤ val d.columns r "volumes") :
    ScaledImage c (D.render env d mesh frames .auto ml mi) (D.render env (brighter c d) mesh frames .auto ml mi) := by
  have hlen' : ∀ r ∈ (brighter c d).peaks, r.length = 25 := by
    intro r hr
    rw [brighter_peaks] at hr
    obtain ⟨q, hq, rfl⟩ := List.mem_map.mp hr
    rw [br5_length]; exact hlen q hq
  have hl : ∀ p : ℝ → Prop, ∀ r ∈ (withVolume d p).peaks, r.length = 25 := fun p r hr => hlen r (List.mem_filter.mp hr).1
  have sp := auto_split D env d hcol hlen mesh frames ml mi
  have sp' := auto_split D env (brighter c d) hcol hlen' mesh frames ml mi
  rw [withVolume_brighter c d hcol, withVolume_brighter c d hcol, withVolume_brighter c d hcol] at sp'
  have hempty : (withVolume d fun v => mi ≤ v ∧ v < macroLimit D ml).peaks = [] := by
    unfold withVolume
    rw [List.filter_eq_nil_iff]
    intro r hr
    simp only [decide_eq_true_eq, not_and, not_lt]
    intro h
    rcases hmid r hr with h' | h'
    · linarith
    · exact h'
  have hempty' : (brighter c (withVolume d fun v => mi ≤ v ∧ v < macroLimit D ml)).peaks = [] := by
    rw [brighter_peaks, hempty]; rfl
  obtain ⟨m1, om1, hm1, -, z1⟩ := C93_no_peaks_no_light D env _ hempty mesh frames .micro (by decide) ml mi
  obtain ⟨m2, om2, hm2, -, z2⟩ := C93_no_peaks_no_light D env _ hempty' mesh frames .micro (by decide) ml mi
  have jma := bright_macro hc hD env (withVolume d fun v => macroLimit D ml ≤ v) (hl _) mesh frames ml mi
  have jna := bright_nano hc hD env hs (withVolume d fun v => v < mi) (hl _) mesh frames ml mi
  intro t'
  constructor
  · rintro ⟨o', h⟩
    obtain ⟨tma, tmi, tna, o1, o2, o3, h1, h2, h3, rfl, -⟩ := (sp' _ _).mp h
    obtain ⟨a, oa, ga, ea⟩ := (jma _).mp ⟨_, h1⟩
    obtain ⟨b, ob, gb, eb⟩ := (jna _).mp ⟨_, h3⟩
    rw [hm2] at h2
    obtain ⟨h2, -⟩ := Prod.mk.inj (Except.ok.inj h2)
    rw [Option.some.injEq] at h2
    subst h2
    cases b with
    | none => cases eb
    | some b =>
      rw [Option.map_some, Option.some.injEq] at eb
      refine ⟨_, _, (sp _ _).mpr ⟨a, m1, b, _, _, _, ga, hm1, gb, rfl, rfl⟩, ?_⟩
      rw [ea, eb]
      cases a with
      | none => rfl
      | some a =>
        simp only [Option.map_some, Option.some.injEq]
        funext f i j
        rw [z1, z2]; ring
  · rintro ⟨t, o, h, rfl⟩
    obtain ⟨tma, tmi, tna, o1, o2, o3, h1, h2, h3, rfl, -⟩ := (sp _ _).mp h
    obtain ⟨oa, ga⟩ := (jma _).mpr ⟨_, _, h1, rfl⟩
    obtain ⟨ob, gb⟩ := (jna _).mpr ⟨_, _, h3, rfl⟩
    rw [hm1] at h2
    obtain ⟨h2, -⟩ := Prod.mk.inj (Except.ok.inj h2)
    rw [Option.some.injEq] at h2
    subst h2
    refine ⟨_, (sp' _ _).mpr ⟨_, m2, _, _, _, _, ga, hm2, gb, ?_, rfl⟩⟩
    cases tma with
    | none => rfl
    | some a =>
      simp only [Option.map_some, Option.some.injEq]
      funext f i j
      rw [z1, z2]; ring

/-- a case: a peak on the detector rendered by `nano`, three times as bright -/
example (j1 : ℝ → ℝ) (s : List ℝ → List ℕ) (hs : IsArgsort s) (hull : Beam → List V3 → Option Hull) (sample : Hull → ℕ → List V3)
    (mesh : TetraMesh) : ∃ t o o', o.peaks.length = 1 ∧
      nanoDet.render ⟨j1, s, 1, hull, sample⟩ (imgDict [dotRow]) mesh 1 .nano none 1 = .ok (some t, o) ∧
      nanoDet.render ⟨j1, s, 1, hull, sample⟩ (brighter 3 (imgDict [dotRow])) mesh 1 .nano none 1 = .ok (some fun f i j => 3 * t f i j, o') := by
  have hh : (nanoDet.peaksIntersection (imgDict [dotRow]) 1).peaks = [imgHit 1 1 (-40) (-40) (1/2) 1 (widthFor (1/10))] := by
    unfold dotRow nanoDet
    rw [imgDict_kept 1 1 _ 1 1 (-40) (-40) (1/2) 1 (widthFor (1/10)) (by norm_num [abs_le]) (by norm_num [abs_le]) _ (by simp)]
    rfl
  obtain ⟨t, o, ht⟩ := nano_single nanoDet ⟨j1, s, 1, hull, sample⟩ hs (imgDict [dotRow]) mesh 1 none 1 _ hh
  have ho : o = nanoDet.peaksIntersection (imgDict [dotRow]) 1 := by
    rw [render_nano] at ht
    cases hr : nanoDet.renderNano ⟨j1, s, 1, hull, sample⟩ (nanoDet.peaksIntersection (imgDict [dotRow]) (max 1 1)).peaks (max (1:ℤ) 1).toNat with
    | error e => rw [hr] at ht; cases ht
    | ok a => rw [hr] at ht; exact (Prod.mk.inj (Except.ok.inj ht)).2.symm
  have H := (C94_brightness_macro_nano (c := 3) (by norm_num) nanoDet rfl ⟨j1, s, 1, hull, sample⟩ hs (imgDict [dotRow]) (by
    intro r hr; have : r = dotRow := by simpa [imgDict] using hr
    rw [this]; rfl) mesh 1 .nano (Or.inr rfl) none 1 (some fun f i j => 3 * t f i j)).mpr ⟨some t, o, ht, rfl⟩
  obtain ⟨o', ho'⟩ := H
  exact ⟨t, o, o', by rw [ho, hh]; rfl, ht, ho'⟩

/-- C94 is false for `micro`: with a millionth of the structure factor the image is completely black, not a millionth as bright. -/
theorem C94_micro_fails (env : RenderEnv) (mesh : TetraMesh) (ml : Option ℝ) (mi : ℝ) :
    ∃ (D : Detector) (d : PeaksDict) (t : Stack) (o o' : PeaksDict),
      Detector.new ⟨100, -100, -100⟩ ⟨100, 100, -100⟩ ⟨100, -100, 100⟩ .absent (.both 1) 1 (1 / 10) 13 true true true = .ok D ∧
      D.useStructureFactor = true ∧
      D.render env d mesh 1 .micro ml mi = .ok (some t, o) ∧ 1 / 2 < total 1 D.nz D.ny t ∧
      D.render env (brighter (1 / 10 ^ 6) d) mesh 1 .micro ml mi = .ok (some fun _ _ _ => 0, o') := by
  set D := imgDet 1 1 (1/10) with hDdef
  set d := imgDict [imgRow 0 0 0 (1/2) 1 0] with hd
  have hlen : ∀ r ∈ d.peaks, r.length = 25 := by
    intro r hr
    have : r = imgRow 0 0 0 (1/2) 1 0 := by simpa [hd, imgDict] using hr
    rw [this]; rfl
  have hh : (D.peaksIntersection d 1).peaks = [imgHit 1 0 0 0 (1/2) 1 0] := by
    rw [hd, hDdef, imgDict_kept 1 1 _ 1 0 0 0 (1/2) 1 0 (by norm_num) (by norm_num) _ (by simp)]
    rfl
  have hD : D.useStructureFactor = true := rfl
  have hsq : Real.sqrt ((7 / 10) ^ 2 + (1:ℝ) ^ 2) < 4 / 3 := by rw [Real.sqrt_lt' (by norm_num)]; norm_num
  have hnz : ((D.nz : ℕ) : ℝ) = 200 := by
    have : D.nz = 200 := by rw [hDdef]; unfold Detector.nz imgDet; norm_num
    rw [this]; norm_num
  have hny : ((D.ny : ℕ) : ℝ) = 200 := by
    have : D.ny = 200 := by rw [hDdef]; unfold Detector.ny imgDet; norm_num
    rw [this]; norm_num
  obtain ⟨t, out, ht, htot⟩ := C25_micro_keeps_interior_intensity D env d mesh 1 ml mi rfl hlen (by
      intro r hr
      have : r = imgRow 0 0 0 (1/2) 1 0 := by simpa [hd, imgDict] using hr
      rw [this]
      show (0:ℝ) ≤ 1; norm_num) (11/2) (by
      show max 3 (3 * Real.sqrt ((7 / 10) ^ 2 + (1:ℝ) ^ 2) + 1) + 1 / 2 ≤ 11/2
      have : max 3 (3 * Real.sqrt ((7 / 10) ^ 2 + (1:ℝ) ^ 2) + 1) ≤ 5 := max_le (by norm_num) (by linarith)
      linarith) (by
      rw [show max (1:ℤ) 1 = 1 from rfl, hh]
      intro r hr
      rw [List.mem_singleton] at hr
      subst hr
      have v1 : val hitColumns (imgHit 1 0 0 0 (1/2) 1 0) "zd" = 0 + 100 := rfl
      have v2 : val hitColumns (imgHit 1 0 0 0 (1/2) 1 0) "yd" = 0 + 100 := rfl
      have p1 : D.pz = 1 := rfl
      have p2 : D.py = 1 := rfl
      rw [v1, v2, p1, p2, hnz, hny]
      norm_num)
  have hout : out = D.peaksIntersection d 1 := by
    rw [render_micro_ok hlen] at ht
    exact (Prod.mk.inj (Except.ok.inj ht)).2.symm
  obtain ⟨o', ho'⟩ := C82_micro_dark D env (brighter (1 / 10 ^ 6) d) mesh 1 ml mi (by
      intro r hr
      rw [brighter_peaks] at hr
      obtain ⟨q, hq, rfl⟩ := List.mem_map.mp hr
      rw [br5_length]; exact hlen q hq) (by
      rw [show max (1:ℤ) 1 = 1 from rfl, brighter_hits (by norm_num) hD hlen, hh]
      intro r hr
      rw [List.map_singleton, List.mem_singleton] at hr
      subst hr
      have hb := br_cols (c := 1 / 10 ^ 6) (le_refl 1) hlen (show imgHit 1 0 0 0 (1/2) 1 0 ∈ (D.peaksIntersection d 1).peaks by rw [hh]; simp)
      rw [rcol_eq _ "intensity_factors" (j := 29) rfl, rcol_eq _ "volumes" (j := 21) rfl, hb.2, rcol_congr (hb.1 21 (by norm_num) (by norm_num))]
      have v1 : rcol (imgHit 1 0 0 0 (1/2) 1 0) 29 = 1 := rfl
      have v2 : rcol (imgHit 1 0 0 0 (1/2) 1 0) 21 = 1 := rfl
      rw [v1, v2]
      norm_num)
  refine ⟨D, d, t, out, o', imgDet_new 1 1 (1/10) (by norm_num), hD, ht, ?_, ho'⟩
  refine lt_of_lt_of_le ?_ htot
  rw [hout]
  have hcols : (D.peaksIntersection d 1).columns = hitColumns := rfl
  rw [hcols, hh]
  have hpow : power hitColumns [imgHit 1 0 0 0 (1/2) 1 0] = 1 := by
    unfold power
    simp only [List.map_singleton, List.sum_singleton]
    have v1 : val hitColumns (imgHit 1 0 0 0 (1/2) 1 0) "intensity_factors" = 1 := rfl
    have v2 : val hitColumns (imgHit 1 0 0 0 (1/2) 1 0) "volumes" = 1 := rfl
    rw [v1, v2]; norm_num
  rw [hpow]
  norm_num

end XRD
