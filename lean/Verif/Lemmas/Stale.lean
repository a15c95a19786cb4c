import Verif.Lemmas.Nano
import Verif.Lemmas.Macro
import Verif.Lemmas.Image

/-! The renderers read only the first 30 columns of a row. -/

namespace XRD
open V3 M3 Fl
open scoped Classical

/-- a change of rows that keeps the first 30 columns -/
structure KeepsCols (f : List Fl → List Fl) : Prop where
  cols : ∀ r j, j < 30 → rcol (f r) j = rcol r j
  nil : f [] = []

/-- a change of rows that keeps the columns from 19 (Lorentz factor) to 29 -/
structure KeepsScal (f : List Fl → List Fl) : Prop where
  cols : ∀ r j, 19 ≤ j ∧ j < 30 → rcol (f r) j = rcol r j
  nil : f [] = []

theorem KeepsCols.scal {f : List Fl → List Fl} (h : KeepsCols f) : KeepsScal f := ⟨fun r j hj => h.cols r j hj.2, h.nil⟩

theorem keepsCols_take : KeepsCols (fun r : List Fl => r.take 30) := by
  constructor
  · intro r j hj
    unfold rcol
    rw [List.getElem?_take, if_pos hj]
  · rfl

theorem renderMicro_keeps {f : List Fl → List Fl} (hf : KeepsScal f) (D : Detector) (g : ℝ) (rows : List (List Fl)) (n : ℕ) :
    D.renderMicro g (rows.map f) n = D.renderMicro g rows n := by
  have h1 : (rows.map f).flatMap D.microDeposits = rows.flatMap D.microDeposits := by
    rw [List.flatMap_map]
    congr 1
    funext r
    unfold Detector.microDeposits
    rw [hf.cols r 25 (by norm_num), hf.cols r 26 (by norm_num), hf.cols r 28 (by norm_num), hf.cols r 29 (by norm_num), hf.cols r 21 (by norm_num)]
  rw [renderMicro_eq, renderMicro_eq, h1]

theorem firstZero_keeps {f : List Fl → List Fl} (hf : KeepsScal f) (D : Detector) (r : List Fl) : D.firstZero (f r) = D.firstZero r := by
  unfold Detector.firstZero
  rw [hf.cols r 23 (by norm_num), hf.cols r 27 (by norm_num)]

theorem airyMemory_keeps {f : List Fl → List Fl} (hf : KeepsScal f) (D : Detector) (r : List Fl) : D.airyMemory (f r) = D.airyMemory r := by
  unfold Detector.airyMemory
  rw [firstZero_keeps hf]

theorem nanoBatch_keeps {f : List Fl → List Fl} (hf : KeepsScal f) (D : Detector) (j1 : ℝ → ℝ) (n : ℕ) (t : Stack) (rows : List (List Fl)) :
    D.nanoBatch j1 n t (rows.map f) = D.nanoBatch j1 n t rows := by
  unfold Detector.nanoBatch
  rw [List.map_map, show D.firstZero ∘ f = D.firstZero from funext fun r => firstZero_keeps hf D r]
  cases D.airyKernels j1 (rows.map D.firstZero) with
  | error e => rfl
  | ok ks =>
    simp only
    congr 1
    funext fr
    congr 2
    rw [List.zip_map_left, List.filter_map, List.map_map]
    have e1 : ∀ rk : List Fl × Kernel, rcol (f rk.1) 28 = rcol rk.1 28 := fun rk => hf.cols _ _ (by norm_num)
    have e2 : ∀ rk : List Fl × Kernel, rcol (f rk.1) 29 = rcol rk.1 29 := fun rk => hf.cols _ _ (by norm_num)
    have e3 : ∀ rk : List Fl × Kernel, rcol (f rk.1) 21 = rcol rk.1 21 := fun rk => hf.cols _ _ (by norm_num)
    have e4 : ∀ rk : List Fl × Kernel, rcol (f rk.1) 25 = rcol rk.1 25 := fun rk => hf.cols _ _ (by norm_num)
    have e5 : ∀ rk : List Fl × Kernel, rcol (f rk.1) 26 = rcol rk.1 26 := fun rk => hf.cols _ _ (by norm_num)
    simp only [Function.comp_def, Prod.map_fst, Prod.map_snd, e1, e2, e3, e4, e5, id]

theorem nanoLoop_keeps {f : List Fl → List Fl} (hf : KeepsScal f) (D : Detector) (j1 : ℝ → ℝ) (n : ℕ) (bs : List (List (List Fl))) (t : Stack) :
    D.nanoLoop j1 n t (bs.map (List.map f)) = D.nanoLoop j1 n t bs := by
  induction bs generalizing t with
  | nil => rfl
  | cons b bs ih =>
    rw [List.map_cons, Detector.nanoLoop, Detector.nanoLoop, nanoBatch_keeps hf]
    cases D.nanoBatch j1 n t b with
    | error e => rfl
    | ok t' => exact ih t'

theorem renderNano_keeps {f : List Fl → List Fl} (hf : KeepsScal f) (D : Detector) (env : RenderEnv) (rows : List (List Fl)) (n : ℕ) :
    D.renderNano env (rows.map f) n = D.renderNano env rows n := by
  unfold Detector.renderNano
  have h0 : (rows.map f = []) ↔ rows = [] := by simp
  by_cases hr : rows = []
  · rw [if_pos hr, if_pos (h0.mpr hr)]
  rw [if_neg hr, if_neg (fun h => hr (h0.mp h))]
  rw [List.map_map, show D.airyMemory ∘ f = D.airyMemory from funext fun r => airyMemory_keeps hf D r]
  have h1 : (fun i => (rows.map f).getD i []) = fun i => f (rows.getD i []) := by
    funext i
    rw [List.getD_eq_getElem?_getD, List.getD_eq_getElem?_getD, List.getElem?_map]
    cases rows[i]? with
    | none => simp [hf.nil]
    | some r => rfl
  rw [h1]
  obtain ⟨idx, hidx⟩ : ∃ idx, idx = env.argsortDesc (rows.map D.airyMemory) := ⟨_, rfl⟩
  rw [← hidx, show (idx.map fun i => f (rows.getD i [])) = (idx.map fun i => rows.getD i []).map f by rw [List.map_map]; rfl]
  have h2 := nanoBatches_eq D (env.freeGb * 1024 ^ 3) f (idx.map fun i => rows.getD i [])
  have h3 := nanoBatches_eq D (env.freeGb * 1024 ^ 3) id (idx.map fun i => rows.getD i [])
  simp only [airyMemory_keeps hf] at h2
  simp only [List.map_id_fun, id, List.map_id_fun', List.map_id] at h3
  rw [h2, ← h3, nanoLoop_keeps hf]

theorem renderMacro_keeps {f : List Fl → List Fl} (hf : KeepsCols f) (D : Detector) (env : RenderEnv) (b : Beam) (mesh : TetraMesh) (m : Motion)
    (rows : List (List Fl)) (n : ℕ) : D.renderMacro env b mesh m (rows.map f) n = D.renderMacro env b mesh m rows n := by
  have hp : ∀ r t, D.macroPeak env b mesh m (f r) t = D.macroPeak env b mesh m r t := by
    intro r t
    unfold Detector.macroPeak Detector.movedVertices
    rw [hf.cols r 0 (by norm_num), hf.cols r 6 (by norm_num), hf.cols r 13 (by norm_num), hf.cols r 14 (by norm_num), hf.cols r 15 (by norm_num),
      hf.cols r 29 (by norm_num)]
  have hps : ∀ (l : List (List Fl)) t, D.macroPeaks env b mesh m t (l.map f) = D.macroPeaks env b mesh m t l := by
    intro l
    induction l with
    | nil => intro t; rfl
    | cons r l ih =>
      intro t
      rw [List.map_cons, Detector.macroPeaks, Detector.macroPeaks, hp]
      cases D.macroPeak env b mesh m r t with
      | error e => rfl
      | ok t' => exact ih t'
  have hfr : ∀ fs : List ℕ, D.macroFrames env b mesh m (rows.map f) fs = D.macroFrames env b mesh m rows fs := by
    intro fs
    induction fs with
    | nil => rfl
    | cons k fs ih =>
      rw [Detector.macroFrames, Detector.macroFrames, ih]
      have : (rows.map f).filter (fun r => decide (rcol r 28 = (k : ℝ))) = (rows.filter fun r => decide (rcol r 28 = (k : ℝ))).map f := by
        rw [List.filter_map]
        congr 1
        apply List.filter_congr
        intro r _
        simp only [Function.comp, hf.cols r 28 (by norm_num)]
      rw [this, hps]
  unfold Detector.renderMacro
  rw [hfr]

end XRD
