import Verif.Model.Render
import Verif.Lemmas.Conv

/-! Closed form of the `macro` rendering: contributions of single peaks, added up per frame. -/

namespace XRD
open V3 M3 Fl
open Classical

/-- what one peak adds to an empty frame -/
noncomputable def macroAdd (D : Detector) (env : RenderEnv) (b : Beam) (mesh : TetraMesh) (m : Motion) (row : List Fl) : Except PyErr (Option Frame) :=
  D.macroPeak env b mesh m row (some fun _ _ => 0)

/-- the same, zero when it fails -/
noncomputable def macroVal (D : Detector) (env : RenderEnv) (b : Beam) (mesh : TetraMesh) (m : Motion) (row : List Fl) : Frame :=
  match macroAdd D env b mesh m row with
  | .ok (some c) => c
  | _ => fun _ _ => 0

theorem projectHull_error {D : Detector} {env : RenderEnv} {hull : Hull} {k : V3} {box : ℤ × ℤ × ℤ × ℤ} {e : PyErr}
    (h : D.projectHull env hull k box = .error e) : e = .indexError := by
  unfold Detector.projectHull at h
  simp only at h
  split_ifs at h <;> first | (cases h; rfl) | cases h

theorem macroPeak_eq (D : Detector) (env : RenderEnv) (b : Beam) (mesh : TetraMesh) (m : Motion) (row : List Fl) (t : Option Frame) :
    D.macroPeak env b mesh m row t = match macroAdd D env b mesh m row with
      | .error e => .error e
      | .ok none => .ok none
      | .ok (some c) => .ok (t.map fun t i j => t i j + c i j) := by
  have hz : ∀ t : Option Frame, t = t.map fun t i j => t i j + (0:ℝ) := by
    intro t; cases t with
    | none => rfl
    | some t => simp
  unfold macroAdd Detector.macroPeak
  cases env.hull b (Detector.movedVertices mesh m row) with
  | none => simp only; rw [← hz]
  | some hull =>
    simp only
    cases D.boundingBox hull.points ⟨rcol row 13, rcol row 14, rcol row 15⟩ with
    | none => simp only; rw [← hz]
    | some box =>
      simp only
      cases D.projectHull env hull ⟨rcol row 13, rcol row 14, rcol row 15⟩ box with
      | error e => rfl
      | ok pr =>
        cases pr with
        | none => rfl
        | some pr =>
          cases t with
          | none => rfl
          | some t =>
            simp only [Option.map_some]
            congr 2
            funext i j
            split_ifs <;> simp

theorem macroAdd_error {D : Detector} {env : RenderEnv} {b : Beam} {mesh : TetraMesh} {m : Motion} {row : List Fl} {e : PyErr}
    (h : macroAdd D env b mesh m row = .error e) : e = .indexError := by
  unfold macroAdd Detector.macroPeak at h
  split at h
  · cases h
  · simp only at h
    split at h
    · cases h
    · split at h
      · rename_i heq
        cases h
        exact projectHull_error heq
      · cases h
      · cases h

theorem macroPeaks_eq (D : Detector) (env : RenderEnv) (b : Beam) (mesh : TetraMesh) (m : Motion) (rows : List (List Fl)) (t : Option Frame) :
    D.macroPeaks env b mesh m t rows =
      if ∃ r ∈ rows, macroAdd D env b mesh m r = .error .indexError then .error .indexError
      else if ∃ r ∈ rows, macroAdd D env b mesh m r = .ok none then .ok none
      else .ok (t.map fun t i j => t i j + (rows.map fun r => macroVal D env b mesh m r i j).sum) := by
  induction rows generalizing t with
  | nil =>
    rw [Detector.macroPeaks]
    simp
  | cons r rs ih =>
    rw [Detector.macroPeaks, macroPeak_eq]
    cases hr : macroAdd D env b mesh m r with
    | error e =>
      have := macroAdd_error hr; subst this
      rw [if_pos ⟨r, List.mem_cons_self, hr⟩]
    | ok c =>
      cases c with
      | none =>
        simp only [ih]
        by_cases h1 : ∃ r ∈ rs, macroAdd D env b mesh m r = .error .indexError
        · rw [if_pos h1, if_pos]
          obtain ⟨q, hq, h⟩ := h1
          exact ⟨q, List.mem_cons_of_mem _ hq, h⟩
        · have h3 : ¬ ∃ q ∈ r :: rs, macroAdd D env b mesh m q = .error .indexError := by
            rintro ⟨q, hq, h⟩
            rcases List.mem_cons.mp hq with rfl | hq
            · rw [hr] at h; cases h
            · exact h1 ⟨q, hq, h⟩
          rw [if_neg h1, if_neg h3, if_pos (show ∃ q ∈ r :: rs, macroAdd D env b mesh m q = .ok none from ⟨r, List.mem_cons_self, hr⟩)]
          simp
      | some c =>
        simp only [ih]
        have e1 : (∃ q ∈ r :: rs, macroAdd D env b mesh m q = .error .indexError) ↔ ∃ q ∈ rs, macroAdd D env b mesh m q = .error .indexError := by
          constructor
          · rintro ⟨q, hq, h⟩
            rcases List.mem_cons.mp hq with rfl | hq
            · rw [hr] at h; cases h
            · exact ⟨q, hq, h⟩
          · rintro ⟨q, hq, h⟩; exact ⟨q, List.mem_cons_of_mem _ hq, h⟩
        have e2 : (∃ q ∈ r :: rs, macroAdd D env b mesh m q = .ok none) ↔ ∃ q ∈ rs, macroAdd D env b mesh m q = .ok none := by
          constructor
          · rintro ⟨q, hq, h⟩
            rcases List.mem_cons.mp hq with rfl | hq
            · rw [hr] at h; cases h
            · exact ⟨q, hq, h⟩
          · rintro ⟨q, hq, h⟩; exact ⟨q, List.mem_cons_of_mem _ hq, h⟩
        have e3 : macroVal D env b mesh m r = c := by unfold macroVal; rw [hr]
        simp only [e1, e2]
        congr 2
        cases t with
        | none => rfl
        | some t =>
          simp only [Option.map_some, List.map_cons, List.sum_cons, e3]
          congr 2
          funext i j
          ring

/-- rows of one frame -/
noncomputable def frameRows (peaks : List (List Fl)) (f : ℕ) : List (List Fl) := peaks.filter fun r => rcol r 28 = (f : ℝ)

theorem macroFrames_eq (D : Detector) (env : RenderEnv) (b : Beam) (mesh : TetraMesh) (m : Motion) (peaks : List (List Fl)) (fs : List ℕ) :
    D.macroFrames env b mesh m peaks fs =
      if ∃ f ∈ fs, ∃ r ∈ frameRows peaks f, macroAdd D env b mesh m r = .error .indexError then .error .indexError
      else .ok (fs.map fun f => if ∃ r ∈ frameRows peaks f, macroAdd D env b mesh m r = .ok none then none
        else some (conv2d D.nz D.ny D.gaussKernel fun i j => ((frameRows peaks f).map fun r => macroVal D env b mesh m r i j).sum)) := by
  induction fs with
  | nil => simp [Detector.macroFrames]
  | cons f fs ih =>
    rw [Detector.macroFrames, macroPeaks_eq]
    change (match (if ∃ r ∈ frameRows peaks f, macroAdd D env b mesh m r = .error .indexError then _ else _ : Except PyErr (Option Frame)) with | .error e => _ | .ok t => _) = _
    by_cases h1 : ∃ r ∈ frameRows peaks f, macroAdd D env b mesh m r = .error .indexError
    · rw [if_pos h1, if_pos ⟨f, List.mem_cons_self, h1⟩]
    · rw [if_neg h1, ih]
      by_cases h2 : ∃ f ∈ fs, ∃ r ∈ frameRows peaks f, macroAdd D env b mesh m r = .error .indexError
      · obtain ⟨g, hg, h⟩ := h2
        rw [if_pos (show ∃ f ∈ fs, ∃ r ∈ frameRows peaks f, macroAdd D env b mesh m r = .error .indexError from ⟨g, hg, h⟩),
          if_pos (show ∃ f' ∈ f :: fs, ∃ r ∈ frameRows peaks f', macroAdd D env b mesh m r = .error .indexError from ⟨g, List.mem_cons_of_mem _ hg, h⟩)]
        split_ifs <;> rfl
      · have h3 : ¬ ∃ f' ∈ f :: fs, ∃ r ∈ frameRows peaks f', macroAdd D env b mesh m r = .error .indexError := by
          rintro ⟨g, hg, h⟩
          rcases List.mem_cons.mp hg with rfl | hg
          · exact h1 h
          · exact h2 ⟨g, hg, h⟩
        rw [if_neg h2, if_neg h3, List.map_cons]
        change (match (if ∃ r ∈ frameRows peaks f, macroAdd D env b mesh m r = .ok none then _ else _ : Except PyErr (Option Frame)) with | .error e => _ | .ok t => _) = _
        by_cases h4 : ∃ r ∈ frameRows peaks f, macroAdd D env b mesh m r = .ok none
        · rw [if_pos h4, if_pos h4]; rfl
        · rw [if_neg h4, if_neg h4]
          simp only [Option.map_some, _root_.zero_add]
          rfl

/-- closed form of a macro rendering of peaks with frames in range -/
theorem renderMacro_eq {D : Detector} {env : RenderEnv} {b : Beam} {mesh : TetraMesh} {m : Motion} {peaks : List (List Fl)} {n : ℕ}
    (hf : ∀ r ∈ peaks, ∃ k : ℕ, rcol r 28 = k ∧ k < n) :
    D.renderMacro env b mesh m peaks n =
      if ∃ r ∈ peaks, macroAdd D env b mesh m r = .error .indexError then .error .indexError
      else if ∃ r ∈ peaks, macroAdd D env b mesh m r = .ok none then .ok none
      else .ok (some fun f => if f < n then conv2d D.nz D.ny D.gaussKernel fun i j =>
        ((peaks.filter fun r => rcol r 28 = (f : ℝ)).map fun r => macroVal D env b mesh m r i j).sum else fun _ _ => 0) := by
  have hex : ∀ P : List Fl → Prop, (∃ f ∈ List.range n, ∃ r ∈ frameRows peaks f, P r) ↔ ∃ r ∈ peaks, P r := by
    intro P
    constructor
    · rintro ⟨f, -, r, hr, h⟩
      exact ⟨r, (List.mem_filter.mp hr).1, h⟩
    · rintro ⟨r, hr, h⟩
      obtain ⟨k, hk, hkn⟩ := hf r hr
      exact ⟨k, List.mem_range.mpr hkn, r, List.mem_filter.mpr ⟨hr, by simpa using hk⟩, h⟩
  unfold Detector.renderMacro
  rw [macroFrames_eq]
  by_cases h1 : ∃ r ∈ peaks, macroAdd D env b mesh m r = .error .indexError
  · rw [if_pos h1, if_pos ((hex _).mpr h1)]
  · rw [if_neg h1, if_neg (fun h => h1 ((hex _).mp h))]
    simp only
    by_cases h2 : ∃ r ∈ peaks, macroAdd D env b mesh m r = .ok none
    · rw [if_pos h2, if_pos]
      obtain ⟨f, hfm, h⟩ := (hex _).mpr h2
      refine List.mem_map.mpr ⟨f, hfm, ?_⟩
      rw [if_pos h]
    · have h2' : ∀ f ∈ List.range n, ¬ ∃ r ∈ frameRows peaks f, macroAdd D env b mesh m r = .ok none := fun f hfm h => h2 ((hex _).mp ⟨f, hfm, h⟩)
      rw [if_neg h2, if_neg]
      · congr 2
        funext f
        by_cases hfn : f < n
        · rw [if_pos hfn, List.getElem?_map, List.getElem?_range hfn]
          simp only [Option.map_some, Option.join_some]
          rw [if_neg (h2' f (List.mem_range.mpr hfn))]
          rfl
        · rw [if_neg hfn, List.getElem?_map, List.getElem?_eq_none (by simpa using hfn)]
          rfl
      · intro hmem
        obtain ⟨f, hfm, h⟩ := List.mem_map.mp hmem
        rw [if_neg (h2' f hfm)] at h
        cases h

theorem macroAdd_congr {D : Detector} {env : RenderEnv} {b : Beam} {mesh : TetraMesh} {m : Motion} {r r' : List Fl}
    (h : ∀ j, j ≠ 28 → rcol r j = rcol r' j) : macroAdd D env b mesh m r = macroAdd D env b mesh m r' := by
  unfold macroAdd Detector.macroPeak Detector.movedVertices
  rw [h 0 (by norm_num), h 6 (by norm_num), h 13 (by norm_num), h 14 (by norm_num), h 15 (by norm_num), h 29 (by norm_num)]

end XRD
