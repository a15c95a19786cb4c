import Verif.Lemmas.Stale
import Verif.Props.MacroScene

/-! Property C62: rendering again. -/

namespace XRD
open V3 M3 Fl Spec
open scoped Classical

theorem getD_append_lt {r s : List Fl} {j : ℕ} (h : j < r.length) : (r ++ s).getD j nan = r.getD j nan := by
  rw [List.getD_eq_getElem?_getD, List.getD_eq_getElem?_getD, List.getElem?_append_left h]

/-- a row that was already intersected, intersected once more -/
noncomputable def row35 (D : Detector) (n : ℤ) (r : List Fl) : List Fl :=
  r ++ D.rowIntersect r ++ [Detector.rowFrame n r] ++ [D.rowIntensity r]

/-- intersection of an intersected table reads the old columns 25, 26 and 29 -/
theorem peaksIntersection_30 (D : Detector) (d : PeaksDict) (n : ℤ) (hlen : ∀ r ∈ d.peaks, r.length = 30) :
    (D.peaksIntersection d n).peaks = (d.peaks.filter fun r => D.contains (r.getD 25 nan) (r.getD 26 nan) ∧
      Fl.IsFinite (r.getD 29 nan) ∧ Fl.Lt (fin 0) (r.getD 29 nan)).map (row35 D n) := by
  unfold Detector.peaksIntersection
  simp only
  generalize d.peaks = l at hlen
  induction l with
  | nil => rfl
  | cons r l ih =>
    have ih' := ih (fun q hq => hlen q (List.mem_cons_of_mem _ hq))
    have hr := hlen r List.mem_cons_self
    have e25 : (r ++ D.rowIntersect r).getD 25 nan = r.getD 25 nan := getD_append_lt (by omega)
    have e26 : (r ++ D.rowIntersect r).getD 26 nan = r.getD 26 nan := getD_append_lt (by omega)
    have ef : Detector.rowFrame n (r ++ D.rowIntersect r) = Detector.rowFrame n r := by
      unfold Detector.rowFrame; rw [getD_append_lt (by omega)]
    have ei : D.rowIntensity (r ++ D.rowIntersect r ++ [Detector.rowFrame n r]) = D.rowIntensity r := by
      unfold Detector.rowIntensity
      rw [List.append_assoc, getD_append_lt (by omega), getD_append_lt (by omega), getD_append_lt (by omega)]
    have e29 : (r ++ D.rowIntersect r ++ [Detector.rowFrame n r] ++ [D.rowIntensity r]).getD 29 nan = r.getD 29 nan := by
      rw [List.append_assoc, List.append_assoc, getD_append_lt (by omega)]
    rw [List.map_cons, List.filter_cons, List.filter_cons, e25, e26]
    by_cases hc : D.contains (r.getD 25 nan) (r.getD 26 nan)
    · rw [if_pos (by simp only [decide_eq_true_eq]; exact hc), List.map_cons, List.map_cons, List.filter_cons, ef, ei, e29]
      by_cases hi : Fl.IsFinite (r.getD 29 nan) ∧ Fl.Lt (fin 0) (r.getD 29 nan)
      · rw [if_pos (by simp only [decide_eq_true_eq]; exact hi), if_pos (by simp only [decide_eq_true_eq]; exact ⟨hc, hi⟩), List.map_cons, ih']
        rfl
      · rw [if_neg (by simp only [decide_eq_true_eq]; exact hi), if_neg (by simp only [decide_eq_true_eq]; exact fun h => hi h.2), ih']
    · rw [if_neg (by simp only [decide_eq_true_eq]; exact hc), if_neg (by simp only [decide_eq_true_eq]; exact fun h => hc h.1), ih']

theorem hits_30 (D : Detector) (d : PeaksDict) (n : ℤ) (hlen : ∀ r ∈ d.peaks, r.length = 25) :
    ∀ r ∈ (D.peaksIntersection d n).peaks, r.length = 30 ∧ D.contains (r.getD 25 nan) (r.getD 26 nan) ∧
      Fl.IsFinite (r.getD 29 nan) ∧ Fl.Lt (fin 0) (r.getD 29 nan) := by
  intro r hr
  rw [peaksIntersection_rows D d n hlen] at hr
  obtain ⟨q, hq, rfl⟩ := List.mem_map.mp hr
  obtain ⟨hq, hc⟩ := List.mem_filter.mp hq
  simp only [decide_eq_true_eq] at hc
  have hl := hlen q hq
  have hl3 := rowIntersect_length D q
  have g : ∀ j s, (q ++ D.rowIntersect q ++ [Detector.rowFrame n q] ++ [D.rowIntensity q]).getD (25 + j) s =
      (D.rowIntersect q ++ [Detector.rowFrame n q] ++ [D.rowIntensity q]).getD j s := by
    intro j s
    rw [List.append_assoc, List.append_assoc, List.getD_eq_getElem?_getD, List.getElem?_append_right (by omega),
      List.getD_eq_getElem?_getD, List.append_assoc, hl]
    congr 2; omega
  obtain ⟨z, y, w, hz⟩ : ∃ z y w, D.rowIntersect q = [z, y, w] := by
    match D.rowIntersect q, hl3 with
    | [z, y, w], _ => exact ⟨z, y, w, rfl⟩
  refine ⟨by simp [row30, hl, hl3], ?_⟩
  unfold row30
  rw [g 0, g 1, g 4, hz]
  rw [hz] at hc
  exact hc

theorem take_row35 (D : Detector) (n : ℤ) {r : List Fl} (h : r.length = 30) : (row35 D n r).take 30 = r := by
  unfold row35
  rw [List.append_assoc, List.append_assoc, List.take_append_of_le_length (by omega), List.take_of_length_le (by omega)]

/-- C62, intersecting again: an intersected table given to any detector keeps its rows, in order, with their 30 columns; the
hits are selected by the recorded coordinates. -/
theorem C62_intersect_again (D D' : Detector) (d : PeaksDict) (hlen : ∀ r ∈ d.peaks, r.length = 25) (n m : ℤ) :
    ((D'.peaksIntersection (D.peaksIntersection d n) m).peaks.map fun r => r.take 30) =
      (D.peaksIntersection d n).peaks.filter fun r => D'.contains (r.getD 25 nan) (r.getD 26 nan) := by
  have h := hits_30 D d n hlen
  rw [peaksIntersection_30 D' _ m (fun r hr => (h r hr).1), List.map_map]
  rw [List.map_congr_left (f := (fun r => List.take 30 r) ∘ row35 D' m) (g := id)
    (fun r hr => take_row35 D' m (h r (List.mem_filter.mp hr).1).1), List.map_id]
  apply List.filter_congr
  intro r hr
  rw [decide_eq_decide]
  exact ⟨fun x => x.1, fun x => ⟨x, (h r hr).2.2⟩⟩

/-- C62, same detector: intersecting again selects the same hits, with unchanged columns. -/
theorem C62_same_hits (D : Detector) (d : PeaksDict) (hlen : ∀ r ∈ d.peaks, r.length = 25) (n m : ℤ) :
    ((D.peaksIntersection (D.peaksIntersection d n) m).peaks.map fun r => r.take 30) = (D.peaksIntersection d n).peaks := by
  rw [C62_intersect_again D D d hlen, List.filter_eq_self.mpr]
  intro r hr
  simp only [decide_eq_true_eq]
  exact (hits_30 D d n hlen r hr).2.1

/-- images of two tables with the same 30 columns -/
theorem images_take {D : Detector} {env : RenderEnv} {mesh : TetraMesh} {b : Beam} {m : Motion} {P P' : List (List Fl)}
    (h : (P'.map fun r => r.take 30) = P) (n : ℕ) : D.renderMacro env b mesh m P' n = D.renderMacro env b mesh m P n ∧
      D.renderMicro env.freeGb P' n = D.renderMicro env.freeGb P n ∧ D.renderNano env P' n = D.renderNano env P n := by
  rw [← h]
  exact ⟨(renderMacro_keeps keepsCols_take D env b mesh m P' n).symm, (renderMicro_keeps keepsCols_take.scal D env.freeGb P' n).symm,
    (renderNano_keeps keepsCols_take.scal D env P' n).symm⟩

theorem filter_take (P : List (List Fl)) (p : ℝ → Prop) :
    ((P.filter fun r => p (rcol r 21)).map fun r => r.take 30) = ((P.map fun r => r.take 30).filter fun r => p (rcol r 21)) := by
  rw [List.filter_map]
  congr 1
  apply List.filter_congr
  intro r _
  simp only [Function.comp, keepsCols_take.cols r 21 (by norm_num)]

/-- C62: rendering the dictionary that a rendering returned, with the same detector and number of frames and with any method,
gives the image (or the error) that the original dictionary gives. -/
theorem C62_render_again (D : Detector) (env : RenderEnv) (d : PeaksDict) (hlen : ∀ r ∈ d.peaks, r.length = 25) (mesh : TetraMesh) (frames : ℤ)
    (method method' : Detector.Method) (ml ml' : Option ℝ) (mi mi' : ℝ) (t : Option Stack) (out : PeaksDict)
    (hr : D.render env d mesh frames method ml mi = .ok (t, out)) :
    (D.render env out mesh frames method' ml' mi').map Prod.fst = (D.render env d mesh frames method' ml' mi').map Prod.fst := by
  have hn : (if frames < 1 then 1 else frames) = max frames 1 := by split_ifs <;> omega
  have hout : out = D.peaksIntersection d (max frames 1) := by
    unfold Detector.render at hr
    simp only [hn] at hr
    cases method with
    | «macro» =>
      simp only at hr
      cases h : D.renderMacro env d.beam mesh d.motion (D.peaksIntersection d (max frames 1)).peaks (max frames 1).toNat with
      | error e => rw [h] at hr; cases hr
      | ok s => rw [h] at hr; simp only [Except.map, Except.ok.injEq, Prod.mk.injEq] at hr; exact hr.2.symm
    | micro =>
      simp only at hr
      cases h : D.renderMicro env.freeGb (D.peaksIntersection d (max frames 1)).peaks (max frames 1).toNat with
      | error e => rw [h] at hr; cases hr
      | ok s => rw [h] at hr; simp only [Except.map, Except.ok.injEq, Prod.mk.injEq] at hr; exact hr.2.symm
    | nano =>
      simp only at hr
      cases h : D.renderNano env (D.peaksIntersection d (max frames 1)).peaks (max frames 1).toNat with
      | error e => rw [h] at hr; cases hr
      | ok s => rw [h] at hr; simp only [Except.map, Except.ok.injEq, Prod.mk.injEq] at hr; exact hr.2.symm
    | auto =>
      simp only at hr
      split at hr
      · cases hr
      · split at hr
        · cases hr
        · split at hr
          · cases hr
          · simp only [Except.ok.injEq, Prod.mk.injEq] at hr; exact hr.2.symm
    | other => cases hr
  subst hout
  have hs := C62_same_hits D d hlen (max frames 1) (max frames 1)
  obtain ⟨i1, i2, i3⟩ := images_take (D := D) (env := env) (mesh := mesh) (b := d.beam) (m := d.motion) hs (max frames 1).toNat
  set P' := (D.peaksIntersection (D.peaksIntersection d (max frames 1)) (max frames 1)).peaks with hP'
  set P := (D.peaksIntersection d (max frames 1)).peaks with hP
  have hb : (D.peaksIntersection d (max frames 1)).beam = d.beam := rfl
  have hm : (D.peaksIntersection d (max frames 1)).motion = d.motion := rfl
  unfold Detector.render
  simp only [hn, hb, hm, ← hP', ← hP]
  cases method' with
  | «macro» =>
    simp only [i1]
    cases D.renderMacro env d.beam mesh d.motion P (max frames 1).toNat <;> rfl
  | micro =>
    simp only [i2]
    cases D.renderMicro env.freeGb P (max frames 1).toNat <;> rfl
  | nano =>
    simp only [i3]
    cases D.renderNano env P (max frames 1).toNat <;> rfl
  | auto =>
    simp only
    obtain ⟨a1, -, -⟩ := images_take (D := D) (env := env) (mesh := mesh) (b := d.beam) (m := d.motion) (P' := P'.filter fun r => rcol r 21 ≥ ml'.getD (min D.py D.pz ^ 3))
      (P := P.filter fun r => rcol r 21 ≥ ml'.getD (min D.py D.pz ^ 3)) (by rw [filter_take P' (fun v => v ≥ ml'.getD (min D.py D.pz ^ 3)), hs]) (max frames 1).toNat
    obtain ⟨-, a2, -⟩ := images_take (D := D) (env := env) (mesh := mesh) (b := d.beam) (m := d.motion)
      (P' := P'.filter fun r => ¬ (rcol r 21 ≥ ml'.getD (min D.py D.pz ^ 3)) ∧ ¬ (rcol r 21 < mi'))
      (P := P.filter fun r => ¬ (rcol r 21 ≥ ml'.getD (min D.py D.pz ^ 3)) ∧ ¬ (rcol r 21 < mi'))
      (by
        have := filter_take P' (fun v => ¬ (v ≥ ml'.getD (min D.py D.pz ^ 3)) ∧ ¬ (v < mi'))
        rw [hs] at this
        convert this) (max frames 1).toNat
    obtain ⟨-, -, a3⟩ := images_take (D := D) (env := env) (mesh := mesh) (b := d.beam) (m := d.motion)
      (P' := P'.filter fun r => rcol r 21 < mi') (P := P.filter fun r => rcol r 21 < mi')
      (by rw [filter_take P' (fun v => v < mi'), hs]) (max frames 1).toNat
    rw [a1]
    cases D.renderMacro env d.beam mesh d.motion (P.filter fun r => rcol r 21 ≥ ml'.getD (min D.py D.pz ^ 3)) (max frames 1).toNat with
    | error e => rfl
    | ok s1 =>
      simp only
      rw [show (D.renderMicro env.freeGb (P'.filter fun r => decide (¬ (rcol r 21 ≥ ml'.getD (min D.py D.pz ^ 3)) ∧ ¬ (rcol r 21 < mi'))) (max frames 1).toNat) = _ from a2]
      cases D.renderMicro env.freeGb (P.filter fun r => decide (¬ (rcol r 21 ≥ ml'.getD (min D.py D.pz ^ 3)) ∧ ¬ (rcol r 21 < mi'))) (max frames 1).toNat with
      | error e => rfl
      | ok s2 =>
        simp only
        rw [a3]
        cases D.renderNano env (P.filter fun r => rcol r 21 < mi') (max frames 1).toNat <;> rfl
  | other => rfl

/-- a detector upstream of the sample -/
noncomputable def upDet : Detector :=
  ⟨⟨-100, -100, -100⟩, ⟨-100, 100, -100⟩, ⟨-100, -100, 100⟩, 200, 200, 1, 1, ⟨0, 0, 1⟩, ⟨0, 1, 0⟩, ⟨-1, 0, 0⟩, 1, 1/10, 13, true, true, true⟩

theorem upDet_new : Detector.new ⟨-100, -100, -100⟩ ⟨-100, 100, -100⟩ ⟨-100, -100, 100⟩ .absent (.both 1) 1 (1/10) 13
    true true true = .ok upDet := by
  have e1 : ((⟨-100, -100, 100⟩ : V3) - ⟨-100, -100, -100⟩) = ⟨0, 0, 200⟩ := by ext <;> simp; norm_num
  have e2 : ((⟨-100, 100, -100⟩ : V3) - ⟨-100, -100, -100⟩) = ⟨0, 200, 0⟩ := by ext <;> simp; norm_num
  have n1 : norm (⟨0, 0, 200⟩ : V3) = 200 := by
    unfold V3.norm nsq V3.dot; simp only; rw [show (0:ℝ) * 0 + 0 * 0 + 200 * 200 = 200 ^ 2 by norm_num]; exact Real.sqrt_sq (by norm_num)
  have n2 : norm (⟨0, 200, 0⟩ : V3) = 200 := by
    unfold V3.norm nsq V3.dot; simp only; rw [show (0:ℝ) * 0 + 200 * 200 + 0 * 0 = 200 ^ 2 by norm_num]; exact Real.sqrt_sq (by norm_num)
  have n3 : norm (⟨-1, 0, 0⟩ : V3) = 1 := by rw [norm_eq_one]; simp [nsq, V3.dot]
  have s1 : (1 / (200:ℝ)) • (⟨0, 0, 200⟩ : V3) = ⟨0, 0, 1⟩ := by ext <;> simp
  have s2 : (1 / (200:ℝ)) • (⟨0, 200, 0⟩ : V3) = ⟨0, 1, 0⟩ := by ext <;> simp
  have s3 : (1 / (1:ℝ)) • (⟨-1, 0, 0⟩ : V3) = ⟨-1, 0, 0⟩ := by ext <;> simp
  have c : cross (⟨0, 0, 1⟩ : V3) ⟨0, 1, 0⟩ = ⟨-1, 0, 0⟩ := by ext <;> simp [V3.cross]
  have c0 : (⟨-1, 0, 0⟩ : V3) ≠ 0 := by intro h; have := congrArg V3.x h; simp at this
  unfold Detector.new
  simp only [e1, e2, n1, n2, s1, s2, c, n3, s3, pixelSizes, if_neg c0]
  rw [if_neg (by push Not; exact ⟨one_pos, one_pos⟩)]
  rfl

/-- C62 (and the claim that a returned dictionary can be projected on another detector) fails: a peak that never meets the
detector upstream of the sample is reported as one of its hits when the dictionary passed through another detector before. -/
theorem C62_other_detector_fails : ∃ (D D' : Detector) (d : PeaksDict),
    Detector.new ⟨100, -100, -100⟩ ⟨100, 100, -100⟩ ⟨100, -100, 100⟩ .absent (.both 1) 1 (1/10) 13 true true true = .ok D ∧
    Detector.new ⟨-100, -100, -100⟩ ⟨-100, 100, -100⟩ ⟨-100, -100, 100⟩ .absent (.both 1) 1 (1/10) 13 true true true = .ok D' ∧
    (D'.peaksIntersection d 1).peaks = [] ∧ (D'.peaksIntersection (D.peaksIntersection d 1) 1).peaks ≠ [] := by
  refine ⟨imgDet 1 1 (1/10), upDet, imgDict [needleRow], imgDet_new 1 1 (1/10) one_pos, upDet_new, ?_, ?_⟩
  · rw [peaksIntersection_rows _ _ _ needle_len]
    rw [List.map_eq_nil_iff, List.filter_eq_nil_iff]
    intro r hr
    have : r = needleRow := by simpa [imgDict] using hr
    subst this
    simp only [decide_eq_true_eq]
    rintro ⟨⟨h1, -⟩, -⟩
    have hri : (upDet.rowIntersect needleRow).getD 0 nan = nan := by
      unfold Detector.rowIntersect
      have h1 : vecAt needleRow 13 = some ⟨1, 0, 0⟩ := rfl
      have h2 : vecAt needleRow 16 = some ⟨0, 3/200, 3/200⟩ := rfl
      rw [h1, h2]
      simp only [List.getD_cons_zero]
      unfold Detector.intersect
      have d1 : V3.dot (upDet.c0 - ⟨0, 3/200, 3/200⟩) upDet.normal = 100 := by simp [V3.dot, upDet]
      have d2 : V3.dot (⟨1, 0, 0⟩ : V3) upDet.normal = -1 := by simp [V3.dot, upDet]
      simp only [d1, d2]
      rw [Fl.div_fin_ne (show (-1:ℝ) ≠ 0 by norm_num)]
      have hl : Fl.Lt (fin ((100:ℝ) / -1)) (fin 0) := by simp; norm_num
      simp only [Detector.alongRay, if_pos hl, Detector.project]
      rfl
    rw [hri] at h1
    exact h1
  · intro h
    have h2 := C62_intersect_again (imgDet 1 1 (1/10)) upDet (imgDict [needleRow]) needle_len 1 1
    rw [h, needle_hits, List.map_nil] at h2
    have := (List.filter_eq_nil_iff.mp h2.symm) needleHit (by simp)
    apply this
    simp only [decide_eq_true_eq]
    have a : needleHit.getD 25 nan = fin (3/200 + 100) := rfl
    have b : needleHit.getD 26 nan = fin (3/200 + 100) := rfl
    rw [a, b]
    refine ⟨?_, ?_, ?_, ?_⟩ <;> simp [upDet] <;> norm_num

/-- a peak in the second half of the rotation -/
theorem late_hit (n : ℤ) : ((imgDet 1 1 (1/10)).peaksIntersection (imgDict [imgRow 0 0 0 (3/4) 2 0]) n).peaks = [imgHit n 0 0 0 (3/4) 2 0] := by
  rw [imgDict_kept 1 1 (1/10) n 0 0 0 (3/4) 2 0 (by norm_num) (by norm_num) [] (by simp)]; rfl

/-- C62 (and the claim that a returned dictionary can be split into frames) fails: rendering in two frames the dictionary that a
one-frame rendering returned leaves frame 1 empty, although the peak diffracts in the second half. -/
theorem C62_other_frames_fails (env : RenderEnv) (mesh : TetraMesh) : ∃ (D : Detector) (d : PeaksDict) (t1 t2 t2' : Stack) (out o2 o2' : PeaksDict),
    Detector.new ⟨100, -100, -100⟩ ⟨100, 100, -100⟩ ⟨100, -100, 100⟩ .absent (.both 1) 1 (1/10) 13 true true true = .ok D ∧
    D.render env d mesh 1 .micro none (1/1000) = .ok (some t1, out) ∧
    D.render env d mesh 2 .micro none (1/1000) = .ok (some t2, o2) ∧
    D.render env out mesh 2 .micro none (1/1000) = .ok (some t2', o2') ∧
    1 < total2 D.nz D.ny (t2 1) ∧ ∀ i j, t2' 1 i j = 0 := by
  set D := imgDet 1 1 (1/10) with hD
  set d := imgDict [imgRow 0 0 0 (3/4) 2 0] with hd
  have hlen : ∀ r ∈ d.peaks, r.length = 25 := by
    intro r hr; simp only [hd, imgDict, List.mem_singleton] at hr; subst hr; rfl
  have hn : D.nz = 200 := by rw [hD]; unfold Detector.nz imgDet; norm_num
  have hny : D.ny = 200 := by rw [hD]; unfold Detector.ny imgDet; norm_num
  have hfr : frameOf 2 (3/4) = 1 := by
    unfold frameOf
    rw [if_neg (by norm_num)]
    have e0 : decide (((0:ℕ):ℝ) / ((2:ℤ):ℝ) < 3/4) = true := by norm_num
    have e1 : decide (((1:ℕ):ℝ) / ((2:ℤ):ℝ) < 3/4) = true := by simp; norm_num
    have e2 : decide (((2:ℕ):ℝ) / ((2:ℤ):ℝ) < 3/4) = false := by simp; norm_num
    have : (List.range ((2:ℤ).toNat + 1)).map (fun i : ℕ => (i : ℝ) / ((2:ℤ):ℝ)) =
      [((0:ℕ):ℝ) / ((2:ℤ):ℝ), ((1:ℕ):ℝ) / ((2:ℤ):ℝ), ((2:ℕ):ℝ) / ((2:ℤ):ℝ)] := rfl
    simp only [this, List.filter_cons, e0, e1, e2, List.filter_nil, if_true]
    rfl
  have hf1 : frameOf 1 (3/4) = 0 := by unfold frameOf; simp
  have h1 := render_micro_ok (D := D) (env := env) (mesh := mesh) (frames := 1) (ml := none) (mi := 1/1000) hlen
  have h2 := render_micro_ok (D := D) (env := env) (mesh := mesh) (frames := 2) (ml := none) (mi := 1/1000) hlen
  rw [show max (1:ℤ) 1 = 1 from rfl] at h1
  rw [show max (2:ℤ) 1 = 2 from rfl, show (2:ℤ).toNat = 2 from rfl, hD, hd, late_hit, ← hD, ← hd] at h2
  have hzero : ∀ (f : ℤ) (k : ℕ) (r : List Fl), rcol r 28 = ((f : ℤ) : ℝ) → 0 ≤ f → f < 2 → k ≠ f.toNat →
      ∀ i j, stackOf 2 D.nz D.ny ([r].flatMap D.microDeposits) k i j = 0 := by
    intro f k r hr h0 h2 hk i j
    by_contra hne
    obtain ⟨dep, hdm, ht⟩ := stackOf_ne_zero hne
    obtain ⟨q, hq, hdq⟩ := List.mem_flatMap.mp hdm
    rw [List.mem_singleton] at hq; subst hq
    have hff : dep.f = f := by
      unfold Detector.microDeposits at hdq
      obtain ⟨o, -, rfl⟩ := List.mem_map.mp (List.mem_filter.mp hdq).1
      simp only [hr]
      unfold Detector.pyInt
      rw [if_pos (by exact_mod_cast h0)]; simp
    unfold Deposit.target at ht
    rw [hff, wrapIdx_of_lt h0 (by exact_mod_cast h2)] at ht
    revert ht
    cases wrapIdx dep.z D.nz <;> cases wrapIdx dep.y D.ny <;> simp
    intro h; exact absurd h.symm hk
  have hlate : rcol (imgHit 2 0 0 0 (3/4) 2 0) 28 = ((1:ℤ):ℝ) := by
    show ((frameOf 2 (3/4) : ℤ) : ℝ) = _; rw [hfr]
  obtain ⟨tt, oo, k1, k2⟩ := C25_micro_keeps_interior_intensity D env d mesh 2
    none (1/1000) rfl hlen
    (by
      intro r hr; simp only [hd, imgDict, List.mem_singleton] at hr; subst hr
      show (0:ℝ) ≤ 2; norm_num) 10
    (by
      have : Real.sqrt ((7 / 10) ^ 2 + D.sigma ^ 2) ≤ 2 := by
        rw [Real.sqrt_le_left (by norm_num)]; simp [hD, imgDet]; norm_num
      have h7 : max 3 (3 * Real.sqrt ((7 / 10) ^ 2 + D.sigma ^ 2) + 1) ≤ 7 := max_le (by norm_num) (by linarith)
      linarith)
    (by
      intro r hr
      rw [show max (2:ℤ) 1 = 2 from rfl, hD, hd, late_hit, List.mem_singleton] at hr
      subst hr
      rw [hn, hny]
      have a : val hitColumns (imgHit 2 0 0 0 (3/4) 2 0) "zd" = 0 + 100 := rfl
      have b : val hitColumns (imgHit 2 0 0 0 (3/4) 2 0) "yd" = 0 + 100 := rfl
      rw [a, b]
      simp [hD, imgDet]; norm_num)
  rw [h2] at k1
  simp only [Except.ok.injEq, Prod.mk.injEq, Option.some.injEq] at k1
  obtain ⟨rfl, rfl⟩ := k1
  have h3 : D.render env (D.peaksIntersection d 1) mesh 2 .micro none (1/1000) = .ok (some (stackOf 2 D.nz D.ny ([imgHit 1 0 0 0 (3/4) 2 0].flatMap D.microDeposits)),
      D.peaksIntersection (D.peaksIntersection d 1) 2) := by
    rw [render_micro, show max (2:ℤ) 1 = 2 from rfl, show (2:ℤ).toNat = 2 from rfl]
    have e := C62_same_hits D d hlen 1 2
    have := (images_take (D := D) (env := env) (mesh := mesh) (b := d.beam) (m := d.motion) e 2).2.1
    rw [this, hD, hd, late_hit, ← hD, ← hd, renderMicro_eq, if_neg]
    · rfl
    · rintro ⟨dep, hdm, ht⟩
      obtain ⟨q, hq, hdq⟩ := List.mem_flatMap.mp hdm
      rw [List.mem_singleton] at hq; subst hq
      unfold Detector.microDeposits at hdq
      obtain ⟨hm, hp⟩ := List.mem_filter.mp hdq
      obtain ⟨o, -, rfl⟩ := List.mem_map.mp hm
      simp only [decide_eq_true_eq] at hp
      have hf0 : Detector.pyInt (rcol (imgHit 1 0 0 0 (3/4) 2 0) 28) = 0 := by
        have : rcol (imgHit 1 0 0 0 (3/4) 2 0) 28 = 0 := by
          show ((frameOf 1 (3/4) : ℤ) : ℝ) = _; rw [hf1]; simp
        rw [this]; unfold Detector.pyInt; simp
      unfold Deposit.target at ht
      simp only [hf0] at ht
      rw [wrapIdx_of_lt (le_refl _) (by norm_num), wrapIdx_of_lt hp.1 hp.2.1, wrapIdx_of_lt hp.2.2.1 hp.2.2.2.1] at ht
      cases ht
  refine ⟨D, d, _, _, _, _, _, _, imgDet_new 1 1 (1/10) one_pos, h1, h2, h3, ?_, ?_⟩
  · have hpow : power (D.peaksIntersection d 2).columns (D.peaksIntersection d 2).peaks = 2 := by
      rw [hD, hd, late_hit]
      have hc : ((imgDet 1 1 (1/10)).peaksIntersection (imgDict [imgRow 0 0 0 (3/4) 2 0]) 2).columns = hitColumns := rfl
      rw [hc]
      unfold power
      have a : val hitColumns (imgHit 2 0 0 0 (3/4) 2 0) "intensity_factors" = 1 := rfl
      have b : val hitColumns (imgHit 2 0 0 0 (3/4) 2 0) "volumes" = 2 := rfl
      simp only [List.map_cons, List.map_nil, List.sum_cons, List.sum_nil, a, b]; norm_num
    have hlen1 : (D.peaksIntersection d 2).peaks.length = 1 := by rw [hD, hd, late_hit]; rfl
    rw [hpow, hlen1, show (max (2:ℤ) 1).toNat = 2 from rfl] at k2
    unfold total at k2
    rw [Finset.sum_range_succ, Finset.sum_range_one] at k2
    have h0 : ∑ i ∈ Finset.range D.nz, ∑ j ∈ Finset.range D.ny, stackOf 2 D.nz D.ny ([imgHit 2 0 0 0 (3/4) 2 0].flatMap D.microDeposits) 0 i j = 0 := by
      apply Finset.sum_eq_zero; intro i _
      apply Finset.sum_eq_zero; intro j _
      exact hzero 1 0 _ hlate (by norm_num) (by norm_num) (by decide) i j
    rw [h0] at k2
    unfold total2
    norm_num at k2 ⊢
    linarith
  · intro i j
    exact hzero 0 1 _ (by show ((frameOf 1 (3/4) : ℤ) : ℝ) = _; rw [hf1]) (by norm_num) (by norm_num) (by decide) i j

/-- the hypotheses of `C62_same_hits` and `C62_render_again` are met by a rendering with a hit -/
example (env : RenderEnv) (mesh : TetraMesh) : (∀ r ∈ (imgDict [needleRow]).peaks, r.length = 25) ∧
    ((imgDet 1 1 (1/10)).peaksIntersection (imgDict [needleRow]) 1).peaks = [needleHit] ∧
    ∃ t out, (imgDet 1 1 (1/10)).render env (imgDict [needleRow]) mesh 1 .micro none (1/1000) = .ok (t, out) :=
  ⟨needle_len, needle_hits 1 1 (1/10), _, _, render_micro_ok needle_len⟩

end XRD
