import Verif.Lemmas.Turn
import Verif.Lemmas.Stale

/-! Behaviour of the detector and the renderers when the whole experiment is moved rigidly. -/

namespace XRD
open V3 M3 Fl
open scoped Classical

section
variable {Q : M3} {f : V3 → V3}

theorem turn_sOf (h : AffRot f Q) (D : Detector) (ray src : V3) : (D.turned Q f).sOf (Q.mulVec ray) (f src) = D.sOf ray src := by
  unfold Detector.sOf Detector.turned
  dsimp only
  rw [h.sub, turn_dot h.1, turn_dot h.1]

/-- a transversal ray: all three intersection columns are unchanged -/
theorem turn_intersect (h : AffRot f Q) (D : Detector) {ray src : V3} (hd : ray.dot D.normal ≠ 0) :
    (D.turned Q f).intersect (Q.mulVec ray) (f src) = D.intersect ray src := by
  have hQ := h.1
  have hn : D.normal ≠ 0 := by rintro e; rw [e] at hd; simp [V3.dot] at hd
  have hr : ray ≠ 0 := by rintro rfl; simp [V3.dot] at hd
  have hn' : D.normal.norm ≠ 0 := fun e => hn (V3.norm_eq_zero.mp e)
  have hr' : ray.norm ≠ 0 := fun e => hr (V3.norm_eq_zero.mp e)
  have hc : ∀ (n r : V3), n.norm ≠ 0 → r.norm ≠ 0 →
      (fin r.x / fin r.norm) * (-(fin n.x / fin n.norm)) + (fin r.y / fin r.norm) * (-(fin n.y / fin n.norm))
        + (fin r.z / fin r.norm) * (-(fin n.z / fin n.norm)) = fin (-(r.dot n) / (r.norm * n.norm)) := by
    intro n r h1 h2
    rw [div_fin_ne h2, div_fin_ne h2, div_fin_ne h2, div_fin_ne h1, div_fin_ne h1, div_fin_ne h1]
    simp only [neg_fin, mul_fin, add_fin]
    congr 1
    simp only [V3.dot]
    field_simp
    ring
  have hdd : (Q.mulVec ray).dot (Q.mulVec D.normal) ≠ 0 := by rwa [turn_dot hQ]
  have e3 : ((D.turned Q f).intersect (Q.mulVec ray) (f src)).2.2 = (D.intersect ray src).2.2 := by
    unfold Detector.intersect Detector.turned
    dsimp only
    rw [hc _ _ (by rwa [turn_norm hQ]) (by rwa [turn_norm hQ]), hc _ _ hn' hr', turn_dot hQ, turn_norm hQ, turn_norm hQ]
  by_cases hs : 0 ≤ D.sOf ray src
  · have hs' : 0 ≤ (D.turned Q f).sOf (Q.mulVec ray) (f src) := by rwa [turn_sOf h]
    obtain ⟨a1, a2⟩ := Detector.intersect_val hd hs
    obtain ⟨b1, b2⟩ := Detector.intersect_val (D := D.turned Q f) hdd hs'
    have e : f src + D.sOf ray src • Q.mulVec ray - f D.c0 = Q.mulVec (src + D.sOf ray src • ray - D.c0) := by
      rw [← mulVec_smul, ← h.add_vec, h.sub]
    rw [turn_sOf h] at b1 b2
    refine Prod.ext ?_ (Prod.ext ?_ e3)
    · rw [a1, b1]
      show fin ((f src + D.sOf ray src • Q.mulVec ray - f D.c0).dot (Q.mulVec D.zdhat)) = _
      rw [e, turn_dot hQ]
    · rw [a2, b2]
      show fin ((f src + D.sOf ray src • Q.mulVec ray - f D.c0).dot (Q.mulVec D.ydhat)) = _
      rw [e, turn_dot hQ]
  · have hnan : ∀ (D : Detector) (ray src : V3), ray.dot D.normal ≠ 0 → ¬ 0 ≤ D.sOf ray src →
        (D.intersect ray src).1 = nan ∧ (D.intersect ray src).2.1 = nan := by
      intro D ray src hd hs
      have e : ∀ a b : ℝ, Detector.alongRay a b (fin ((D.c0 - src).dot D.normal) / fin (ray.dot D.normal)) = nan := by
        intro a b
        rw [Fl.div_fin_ne hd]
        unfold Detector.alongRay
        rw [if_pos (by simpa [Detector.sOf] using lt_of_not_ge hs)]
      unfold Detector.intersect
      simp only [e, Detector.project]
      simp
    obtain ⟨a1, a2⟩ := hnan D ray src hd hs
    obtain ⟨b1, b2⟩ := hnan (D.turned Q f) (Q.mulVec ray) (f src) hdd (by rwa [turn_sOf h])
    exact Prod.ext (by rw [a1, b1]) (Prod.ext (by rw [a2, b2]) e3)

/-- a ray parallel to the detector plane never gets coordinates inside the detector -/
theorem parallel_not_contained (D : Detector) {ray src : V3} (hd : ray.dot D.normal = 0) (y : Fl) : ¬ D.contains (D.intersect ray src).1 y := by
  rintro ⟨h1, h2, -, -⟩
  exact (Detector.intersect_finite (isFinite_of_between h1 h2)).1 hd

theorem turn_vecAt {row : List Fl} {a g k s : V3} (h7 : vecAt row 7 = some a) (h10 : vecAt row 10 = some g) (h13 : vecAt row 13 = some k)
    (h16 : vecAt row 16 = some s) :
    vecAt (turnRow Q f row) 7 = some (Q.mulVec a) ∧ vecAt (turnRow Q f row) 10 = some (Q.mulVec g) ∧
    vecAt (turnRow Q f row) 13 = some (Q.mulVec k) ∧ vecAt (turnRow Q f row) 16 = some (f s) ∧
    (turnRow Q f row).length = row.length ∧
    (∀ j, (j < 7 ∨ 19 ≤ j) → (turnRow Q f row)[j]? = row[j]?) := by
  have hl : 19 ≤ row.length := by
    unfold vecAt at h16
    split at h16
    · rename_i h1 h2 h3
      have := (List.getElem?_eq_some_iff.mp h3).1
      omega
    · cases h16
  have hl7 : (row.take 7).length = 7 := by simp; omega
  unfold turnRow
  rw [h7, h10, h13, h16]
  dsimp only
  refine ⟨?_, ?_, ?_, ?_, ?_, ?_⟩
  · unfold vecAt; simp [List.getElem?_append, hl7]
  · unfold vecAt; simp [List.getElem?_append, hl7]
  · unfold vecAt; simp [List.getElem?_append, hl7]
  · unfold vecAt; simp [List.getElem?_append, hl7]
  · simp only [List.length_append, hl7, List.length_drop, List.length_cons, List.length_nil]; omega
  · intro j hj
    rcases hj with hj | hj
    · rw [List.append_assoc, List.getElem?_append_left (by omega), List.getElem?_take, if_pos hj]
    · rw [List.getElem?_append_right (by simp only [List.length_append, hl7, List.length_cons, List.length_nil]; omega), List.getElem?_drop]
      congr 1
      simp only [List.length_append, hl7, List.length_cons, List.length_nil]; omega

/-- A row with finite vectors in columns 7 to 18. -/
def VecRow (row : List Fl) : Prop :=
  ∃ a g k s, vecAt row 7 = some a ∧ vecAt row 10 = some g ∧ vecAt row 13 = some k ∧ vecAt row 16 = some s

theorem turn_scal (row : List Fl) (j : ℕ) (hj : j < 7 ∨ 19 ≤ j) : (turnRow Q f row)[j]? = row[j]? := by
  by_cases hv : VecRow row
  · obtain ⟨a, g, k, s, h7, h10, h13, h16⟩ := hv
    exact (turn_vecAt h7 h10 h13 h16).2.2.2.2.2 j hj
  · unfold turnRow
    split
    · rename_i a g k s h7 h10 h13 h16
      exact absurd ⟨a, g, k, s, h7, h10, h13, h16⟩ hv
    · rfl

theorem turn_len (row : List Fl) : (turnRow Q f row).length = row.length := by
  by_cases hv : VecRow row
  · obtain ⟨a, g, k, s, h7, h10, h13, h16⟩ := hv
    exact (turn_vecAt h7 h10 h13 h16).2.2.2.2.1
  · unfold turnRow
    split
    · rename_i a g k s h7 h10 h13 h16
      exact absurd ⟨a, g, k, s, h7, h10, h13, h16⟩ hv
    · rfl

theorem turn_getD (row : List Fl) (j : ℕ) (hj : j < 7 ∨ 19 ≤ j) : (turnRow Q f row).getD j nan = row.getD j nan := by
  rw [List.getD_eq_getElem?_getD, List.getD_eq_getElem?_getD, turn_scal row j hj]

theorem turn_keepsScal : KeepsScal (turnRow Q f) :=
  ⟨fun r j hj => by unfold rcol; rw [turn_scal r j (Or.inr hj.1)], rfl⟩

/-- the hits of the moved experiment are the moved hits -/
theorem turn_peaksIntersection (h : AffRot f Q) (D : Detector) (d : PeaksDict) (b' : Beam) (n : ℤ)
    (hd : ∀ row ∈ d.peaks, VecRow row ∧ row.length = 25) :
    (D.turned Q f).peaksIntersection (d.turned Q f b') n = (D.peaksIntersection d n).turned Q f b' := by
  unfold Detector.peaksIntersection PeaksDict.turned
  dsimp only
  congr 1
  generalize hP : d.peaks = P at hd
  clear hP
  have key : ∀ row ∈ P, turnRow Q f row ++ (D.turned Q f).rowIntersect (turnRow Q f row) = turnRow Q f (row ++ D.rowIntersect row) ∨
      (¬ (D.turned Q f).contains ((turnRow Q f row ++ (D.turned Q f).rowIntersect (turnRow Q f row)).getD 25 nan)
          ((turnRow Q f row ++ (D.turned Q f).rowIntersect (turnRow Q f row)).getD 26 nan) ∧
        ¬ D.contains ((row ++ D.rowIntersect row).getD 25 nan) ((row ++ D.rowIntersect row).getD 26 nan)) := by
    intro row hr
    obtain ⟨⟨a, g, k, s, h7, h10, h13, h16⟩, hl⟩ := hd row hr
    obtain ⟨-, -, t13, t16, tl, -⟩ := turn_vecAt (Q := Q) (f := f) h7 h10 h13 h16
    have e1 : D.rowIntersect row = [(D.intersect k s).1, (D.intersect k s).2.1, (D.intersect k s).2.2] := by
      unfold Detector.rowIntersect; rw [h13, h16]
    have e2 : (D.turned Q f).rowIntersect (turnRow Q f row) = [((D.turned Q f).intersect (Q.mulVec k) (f s)).1,
        ((D.turned Q f).intersect (Q.mulVec k) (f s)).2.1, ((D.turned Q f).intersect (Q.mulVec k) (f s)).2.2] := by
      unfold Detector.rowIntersect; rw [t13, t16]
    by_cases hk : k.dot D.normal = 0
    · right
      have hk' : (Q.mulVec k).dot (D.turned Q f).normal = 0 := by
        show (Q.mulVec k).dot (Q.mulVec D.normal) = 0
        rwa [turn_dot h.1]
      have g1 : (turnRow Q f row ++ (D.turned Q f).rowIntersect (turnRow Q f row)).getD 25 nan
          = ((D.turned Q f).intersect (Q.mulVec k) (f s)).1 := by
        rw [e2, List.getD_eq_getElem?_getD, List.getElem?_append_right (by omega), tl, hl]; rfl
      have g2 : (row ++ D.rowIntersect row).getD 25 nan = (D.intersect k s).1 := by
        rw [e1, List.getD_eq_getElem?_getD, List.getElem?_append_right (by omega), hl]; rfl
      rw [g1, g2]
      exact ⟨parallel_not_contained _ hk' _, parallel_not_contained _ hk _⟩
    · left
      rw [e1, e2, turn_intersect h D hk, turnRow_append (by omega)]
  have stage1 : ∀ L : List (List Fl), (∀ row ∈ L, row ∈ P) →
      ((L.map (turnRow Q f)).map fun row => row ++ (D.turned Q f).rowIntersect row).filter
        (fun row => decide ((D.turned Q f).contains (row.getD 25 nan) (row.getD 26 nan)))
      = ((L.map fun row => row ++ D.rowIntersect row).filter fun row => decide (D.contains (row.getD 25 nan) (row.getD 26 nan))).map
        (turnRow Q f) := by
    intro L hL
    induction L with
    | nil => rfl
    | cons row L ih =>
      have ih' := ih fun r hr => hL r (List.mem_cons_of_mem _ hr)
      simp only [List.map_cons, List.filter_cons]
      rcases key row (hL row List.mem_cons_self) with e | ⟨n1, n2⟩
      · rw [e]
        have g1 : (turnRow Q f (row ++ D.rowIntersect row)).getD 25 nan = (row ++ D.rowIntersect row).getD 25 nan := turn_getD _ _ (by omega)
        have g2 : (turnRow Q f (row ++ D.rowIntersect row)).getD 26 nan = (row ++ D.rowIntersect row).getD 26 nan := turn_getD _ _ (by omega)
        rw [g1, g2]
        by_cases hc : D.contains ((row ++ D.rowIntersect row).getD 25 nan) ((row ++ D.rowIntersect row).getD 26 nan)
        · have hc' : (D.turned Q f).contains ((row ++ D.rowIntersect row).getD 25 nan) ((row ++ D.rowIntersect row).getD 26 nan) := hc
          rw [if_pos (by simpa using hc'), if_pos (by simpa using hc), List.map_cons, ih']
        · have hc' : ¬ (D.turned Q f).contains ((row ++ D.rowIntersect row).getD 25 nan) ((row ++ D.rowIntersect row).getD 26 nan) := hc
          rw [if_neg (by simpa using hc'), if_neg (by simpa using hc), ih']
      · rw [if_neg (by simpa using n1), if_neg (by simpa using n2), ih']
  have hlen : ∀ row ∈ (P.map fun row => row ++ D.rowIntersect row).filter fun row => decide (D.contains (row.getD 25 nan) (row.getD 26 nan)),
      19 ≤ row.length := by
    intro row hr
    obtain ⟨r, hr', rfl⟩ := List.mem_map.mp (List.mem_filter.mp hr).1
    rw [List.length_append, (hd r hr').2]; omega
  rw [stage1 P fun _ h => h]
  generalize ((P.map fun row => row ++ D.rowIntersect row).filter fun row => decide (D.contains (row.getD 25 nan) (row.getD 26 nan))) = L at hlen
  have st2 : (L.map (turnRow Q f)).map (fun row => row ++ [Detector.rowFrame n row])
      = (L.map fun row => row ++ [Detector.rowFrame n row]).map (turnRow Q f) := by
    rw [List.map_map, List.map_map]
    apply List.map_congr_left
    intro row hr
    simp only [Function.comp]
    rw [turnRow_append (hlen row hr)]
    unfold Detector.rowFrame
    rw [turn_getD row 6 (by omega)]
  have hlen2 : ∀ row ∈ L.map fun row => row ++ [Detector.rowFrame n row], 19 ≤ row.length := by
    intro row hr
    obtain ⟨r, hr', rfl⟩ := List.mem_map.mp hr
    have := hlen r hr'
    rw [List.length_append]; omega
  rw [st2]
  generalize (L.map fun row => row ++ [Detector.rowFrame n row]) = L2 at hlen2
  have st3 : (L2.map (turnRow Q f)).map (fun row => row ++ [(D.turned Q f).rowIntensity row])
      = (L2.map fun row => row ++ [D.rowIntensity row]).map (turnRow Q f) := by
    rw [List.map_map, List.map_map]
    apply List.map_congr_left
    intro row hr
    simp only [Function.comp]
    rw [turnRow_append (hlen2 row hr)]
    unfold Detector.rowIntensity
    rw [turn_getD row 5 (by omega), turn_getD row 20 (by omega), turn_getD row 19 (by omega)]
    rfl
  rw [st3, List.filter_map]
  congr 1
  apply List.filter_congr
  intro row _
  simp only [Function.comp, turn_getD row 29 (Or.inr (by norm_num))]

/-! ### rendering -/

theorem turn_renderMicro (D : Detector) (g : ℝ) (peaks : List (List Fl)) (n : ℕ) :
    (D.turned Q f).renderMicro g (peaks.map (turnRow Q f)) n = D.renderMicro g peaks n := by
  rw [renderMicro_keeps turn_keepsScal, renderMicro_eq, renderMicro_eq]
  rfl

theorem turn_nanoLoop (D : Detector) (hc : (f D.c0).norm = D.c0.norm) (j1 : ℝ → ℝ) (n : ℕ) (bs : List (List (List Fl))) (t : Stack) :
    (D.turned Q f).nanoLoop j1 n t bs = D.nanoLoop j1 n t bs := by
  have hz : (D.turned Q f).firstZero = D.firstZero := by
    funext row
    unfold Detector.firstZero Detector.turned
    dsimp only
    rw [hc]
  have hk : (D.turned Q f).airyKernels = D.airyKernels := by
    funext j1 zs
    have h1 : ∀ k r, (D.turned Q f).airyRadiusLoop k r = D.airyRadiusLoop k r := by
      intro k
      induction k with
      | zero => intro r; rfl
      | succ k ih => intro r; unfold Detector.airyRadiusLoop; rw [ih]; rfl
    have h2 : (D.turned Q f).airyRadius = D.airyRadius := by
      funext zs
      unfold Detector.airyRadius
      dsimp only
      rw [h1]
    have h3 : (D.turned Q f).gaussKernel = D.gaussKernel := by
      have : ∀ k r, (D.turned Q f).gaussRadiusLoop k r = D.gaussRadiusLoop k r := by
        intro k
        induction k with
        | zero => intro r; rfl
        | succ k ih => intro r; unfold Detector.gaussRadiusLoop; rw [ih]; rfl
      have h4 : (D.turned Q f).gaussRadius = D.gaussRadius := by
        unfold Detector.gaussRadius; rw [this]; rfl
      unfold Detector.gaussKernel
      dsimp only
      rw [h4]; rfl
    have h5 : (D.turned Q f).airyKernel = D.airyKernel := by
      funext j r z
      unfold Detector.airyKernel
      rw [h3]; rfl
    unfold Detector.airyKernels
    rw [h2, h5]
    rfl
  induction bs generalizing t with
  | nil => rfl
  | cons b bs ih =>
    have hb : (D.turned Q f).nanoBatch j1 n t b = D.nanoBatch j1 n t b := by
      unfold Detector.nanoBatch
      rw [hk, hz]
      rfl
    unfold Detector.nanoLoop
    rw [hb]
    cases D.nanoBatch j1 n t b with
    | error e => rfl
    | ok t' => exact ih t'

theorem turned_gaussKernel (D : Detector) : (D.turned Q f).gaussKernel = D.gaussKernel := by
  have : ∀ k r, (D.turned Q f).gaussRadiusLoop k r = D.gaussRadiusLoop k r := by
    intro k
    induction k with
    | zero => intro r; rfl
    | succ k ih => intro r; unfold Detector.gaussRadiusLoop; rw [ih]; rfl
  have h4 : (D.turned Q f).gaussRadius = D.gaussRadius := by
    unfold Detector.gaussRadius; rw [this]; rfl
  unfold Detector.gaussKernel
  dsimp only
  rw [h4]; rfl

theorem turn_renderNano (D : Detector) (hc : (f D.c0).norm = D.c0.norm) (env : RenderEnv) (peaks : List (List Fl)) (n : ℕ) :
    (D.turned Q f).renderNano env (peaks.map (turnRow Q f)) n = D.renderNano env peaks n := by
  rw [renderNano_keeps turn_keepsScal]
  have hz : (D.turned Q f).airyMemory = D.airyMemory := by
    funext row
    unfold Detector.airyMemory Detector.firstZero Detector.turned
    dsimp only
    rw [hc]
  have hbt : ∀ avail l, (D.turned Q f).nanoBatches avail l = D.nanoBatches avail l := by
    intro avail l
    have h2 := nanoBatches_eq (D.turned Q f) avail id l
    have h3 := nanoBatches_eq D avail id l
    rw [hz] at h2
    rw [List.map_id] at h2 h3
    rw [h2, h3]
  unfold Detector.renderNano
  rw [hz]
  simp only [hbt, turn_nanoLoop D hc, turned_gaussKernel]
  rfl

/-! ### macro -/

/-- a hull moved with the experiment -/
noncomputable def Hull.turned (H : Hull) (Q : M3) (f : V3 → V3) : Hull :=
  ⟨H.points.map f, H.equations.map fun e => ⟨Q.mulVec e.n, e.d - (Q.mulVec e.n).dot (f 0)⟩, H.volume⟩

theorem aff_dot (h : AffRot f Q) (n p : V3) : (Q.mulVec n).dot (f p) = n.dot p + (Q.mulVec n).dot (f 0) := by
  have e : f p = Q.mulVec p + f 0 := by
    obtain ⟨-, s, hs⟩ := h
    rw [hs, hs, mulVec_zero]; ext <;> simp
  rw [e, dot_add_right, turn_dot h.1]

theorem turn_clipLength (h : AffRot f Q) (H : Hull) (hu : ∀ e ∈ H.equations, nsq e.n = 1) (p u : V3) :
    Detector.clipLength (H.turned Q f).equations (f p) (Q.mulVec u) = Detector.clipLength H.equations p u := by
  have hf : ∀ (P : ℝ → Prop), Detector.planeTimes ((H.turned Q f).equations.filter fun e => decide (P (e.n.dot (Q.mulVec u)))) (f p) (Q.mulVec u)
      = Detector.planeTimes (H.equations.filter fun e => decide (P (e.n.dot u))) p u := by
    intro P
    unfold Detector.planeTimes Hull.turned
    dsimp only
    rw [List.filter_map, List.map_map]
    have : ((fun e : HalfSpace => decide (P (e.n.dot (Q.mulVec u)))) ∘ fun e : HalfSpace => (⟨Q.mulVec e.n, e.d - (Q.mulVec e.n).dot (f 0)⟩ : HalfSpace))
        = fun e => decide (P (e.n.dot u)) := by
      funext e
      simp only [Function.comp, turn_dot h.1]
    rw [this]
    apply List.map_congr_left
    intro e he
    have hn := hu e (List.mem_filter.mp he).1
    simp only [Function.comp]
    rw [turn_dot h.1, V3.dot_comm (f p), aff_dot h e.n p, dot_smul_right, dot_smul_right, V3.dot_self, V3.dot_self, turn_nsq h.1, hn, V3.dot_comm p]
    congr 1
    ring
  unfold Detector.clipLength
  rw [hf (fun x => x < 0), hf (fun x => x > 0)]

/-- The external inputs of the moved experiment: the same free memory, sorting and Bessel function, the moved hulls, and the moved
sample points. -/
structure RenderEnv.Turned (env env' : RenderEnv) (b b' : Beam) (Q : M3) (f : V3 → V3) : Prop where
  j1 : env'.j1 = env.j1
  sort : env'.argsortDesc = env.argsortDesc
  free : env'.freeGb = env.freeGb
  hull : ∀ vs, env'.hull b' (vs.map f) = (env.hull b vs).map fun H => H.turned Q f
  unit : ∀ vs H, env.hull b vs = some H → ∀ e ∈ H.equations, nsq e.n = 1
  sample : ∀ vs H, env.hull b vs = some H → ∀ k, env'.sample (H.turned Q f) k = (env.sample H k).map f

theorem turn_pixelCoordinate (h : AffRot f Q) (D : Detector) (i j : ℕ) : (D.turned Q f).pixelCoordinate i j = f (D.pixelCoordinate i j) := by
  unfold Detector.pixelCoordinate Detector.turned
  dsimp only
  rw [h.add_vec, h.add_vec, mulVec_smul, mulVec_smul]

theorem turn_boundingBox (h : AffRot f Q) (D : Detector) (vs : List V3) {k : V3} (hk : k.dot D.normal ≠ 0) :
    (D.turned Q f).boundingBox (vs.map f) (Q.mulVec k) = D.boundingBox vs k := by
  unfold Detector.boundingBox
  dsimp only
  have : (vs.map f).map (fun v => (D.turned Q f).intersect (Q.mulVec k) v) = vs.map fun v => D.intersect k v := by
    rw [List.map_map]
    exact List.map_congr_left fun v _ => turn_intersect h D hk
  rw [this]
  rfl

theorem turn_projectHull (h : AffRot f Q) (D : Detector) {env env' : RenderEnv} (H : Hull) (hu : ∀ e ∈ H.equations, nsq e.n = 1)
    (hs : ∀ k, env'.sample (H.turned Q f) k = (env.sample H k).map f) {k : V3} (hk : k.dot D.normal ≠ 0) (box : ℤ × ℤ × ℤ × ℤ) :
    (D.turned Q f).projectHull env' (H.turned Q f) (Q.mulVec k) box = D.projectHull env H k box := by
  have hQ := h.1
  have hku : ((1 / k.norm) • k).dot D.normal ≠ 0 := by
    rw [dot_smul_left]
    refine mul_ne_zero (one_div_ne_zero fun e => hk ?_) hk
    rw [V3.norm_eq_zero.mp e]; simp [V3.dot]
  have e1 : ∀ r0 nr q0 nq p, (D.turned Q f).sampleEntry (H.turned Q f) (Q.mulVec ((1 / k.norm) • k)) r0 nr q0 nq (f p)
      = D.sampleEntry H ((1 / k.norm) • k) r0 nr q0 nq p := by
    intro r0 nr q0 nq p
    unfold Detector.sampleEntry
    rw [turn_intersect h D hku, turn_clipLength h H hu]
    rfl
  have e2 : ∀ i j, Detector.clipLength (H.turned Q f).equations ((D.turned Q f).pixelCoordinate i j) (Q.mulVec ((1 / k.norm) • k))
      = Detector.clipLength H.equations (D.pixelCoordinate i j) ((1 / k.norm) • k) := by
    intro i j
    rw [turn_pixelCoordinate h, turn_clipLength h H hu]
  have e3 : (1 / (Q.mulVec k).norm) • Q.mulVec k = Q.mulVec ((1 / k.norm) • k) := by rw [turn_norm hQ, mulVec_smul]
  unfold Detector.projectHull
  dsimp only
  rw [e3, hs]
  simp only [List.map_map, Function.comp_def, e1, e2]
  rfl

theorem rcol_vecAt {row : List Fl} {i : ℕ} {v : V3} (h : vecAt row i = some v) : (⟨rcol row i, rcol row (i + 1), rcol row (i + 2)⟩ : V3) = v := by
  unfold vecAt at h
  split at h
  · rename_i h1 h2 h3
    unfold rcol
    rw [h1, h2, h3]
    exact Option.some.inj h
  · cases h

/-- conditions on a row for the macro method -/
def MacroRow (D : Detector) (mesh : TetraMesh) (row : List Fl) : Prop :=
  VecRow row ∧ (∀ k, vecAt row 13 = some k → k.dot D.normal ≠ 0) ∧ ⌊rcol row 0⌋.toNat < mesh.enod.length

theorem turn_movedVertices (h : AffRot f Q) {mesh mesh' : TetraMesh} (m : Motion) (he : mesh'.enod = mesh.enod) (hc : mesh'.coord = mesh.coord.map f)
    (hwf : ∀ e ∈ mesh.enod, ∀ i ∈ e.toList, i < mesh.coord.length) {row : List Fl} (hr : ⌊rcol row 0⌋.toNat < mesh.enod.length) :
    Detector.movedVertices mesh' (m.turned Q f) (turnRow Q f row) = (Detector.movedVertices mesh m row).map f := by
  unfold Detector.movedVertices
  have c0 : rcol (turnRow Q f row) 0 = rcol row 0 := by unfold rcol; rw [turn_scal row 0 (by omega)]
  have c6 : rcol (turnRow Q f row) 6 = rcol row 6 := by unfold rcol; rw [turn_scal row 6 (by omega)]
  rw [c0, c6, he, hc, List.map_map, List.map_map, List.map_map]
  apply List.map_congr_left
  intro i hi
  have hmem : mesh.enod.getD ⌊rcol row 0⌋.toNat ⟨0, 0, 0, 0⟩ ∈ mesh.enod := by
    rw [List.getD_eq_getElem?_getD, List.getElem?_eq_getElem hr]
    exact List.getElem_mem _
  have hlt := hwf _ hmem i hi
  simp only [Function.comp]
  rw [List.getD_eq_getElem?_getD, List.getElem?_map, List.getElem?_eq_getElem hlt, List.getD_eq_getElem?_getD, List.getElem?_eq_getElem hlt]
  exact turn_call1 h m _ _

theorem turn_macroPeak (h : AffRot f Q) (D : Detector) {env env' : RenderEnv} {b b' : Beam} (henv : env.Turned env' b b' Q f)
    {mesh mesh' : TetraMesh} (m : Motion) (he : mesh'.enod = mesh.enod) (hc : mesh'.coord = mesh.coord.map f)
    (hwf : ∀ e ∈ mesh.enod, ∀ i ∈ e.toList, i < mesh.coord.length) {row : List Fl} (hr : MacroRow D mesh row) (t : Option Frame) :
    (D.turned Q f).macroPeak env' b' mesh' (m.turned Q f) (turnRow Q f row) t = D.macroPeak env b mesh m row t := by
  obtain ⟨⟨a, g, k, s, h7, h10, h13, h16⟩, hk, hel⟩ := hr
  obtain ⟨-, -, t13, -, -, -⟩ := turn_vecAt (Q := Q) (f := f) h7 h10 h13 h16
  have hk := hk k h13
  have c29 : rcol (turnRow Q f row) 29 = rcol row 29 := by unfold rcol; rw [turn_scal row 29 (by omega)]
  unfold Detector.macroPeak
  rw [turn_movedVertices h m he hc hwf hel, henv.hull]
  cases hH : env.hull b (Detector.movedVertices mesh m row) with
  | none => rfl
  | some H =>
    simp only [Option.map_some]
    have k1 : (⟨rcol (turnRow Q f row) 13, rcol (turnRow Q f row) 14, rcol (turnRow Q f row) 15⟩ : V3) = Q.mulVec k := rcol_vecAt t13
    have k2 : (⟨rcol row 13, rcol row 14, rcol row 15⟩ : V3) = k := rcol_vecAt h13
    rw [k1, k2]
    have : (H.turned Q f).points = H.points.map f := rfl
    rw [this, turn_boundingBox h D _ hk]
    cases D.boundingBox H.points k with
    | none => rfl
    | some box =>
      dsimp only
      rw [turn_projectHull h D H (henv.unit _ H hH) (henv.sample _ H hH) hk, c29]
      rfl

theorem turn_renderMacro (h : AffRot f Q) (D : Detector) {env env' : RenderEnv} {b b' : Beam} (henv : env.Turned env' b b' Q f)
    {mesh mesh' : TetraMesh} (m : Motion) (he : mesh'.enod = mesh.enod) (hc : mesh'.coord = mesh.coord.map f)
    (hwf : ∀ e ∈ mesh.enod, ∀ i ∈ e.toList, i < mesh.coord.length) {rows : List (List Fl)} (hr : ∀ row ∈ rows, MacroRow D mesh row) (n : ℕ) :
    (D.turned Q f).renderMacro env' b' mesh' (m.turned Q f) (rows.map (turnRow Q f)) n = D.renderMacro env b mesh m rows n := by
  have hps : ∀ (l : List (List Fl)), (∀ row ∈ l, row ∈ rows) → ∀ t,
      (D.turned Q f).macroPeaks env' b' mesh' (m.turned Q f) t (l.map (turnRow Q f)) = D.macroPeaks env b mesh m t l := by
    intro l
    induction l with
    | nil => intro _ t; rfl
    | cons r l ih =>
      intro hl t
      rw [List.map_cons, Detector.macroPeaks, Detector.macroPeaks, turn_macroPeak h D henv m he hc hwf (hr r (hl r List.mem_cons_self))]
      cases D.macroPeak env b mesh m r t with
      | error e => rfl
      | ok t' => exact ih (fun x hx => hl x (List.mem_cons_of_mem _ hx)) t'
  have hfr : ∀ fs : List ℕ, (D.turned Q f).macroFrames env' b' mesh' (m.turned Q f) (rows.map (turnRow Q f)) fs = D.macroFrames env b mesh m rows fs := by
    intro fs
    induction fs with
    | nil => rfl
    | cons k fs ih =>
      rw [Detector.macroFrames, Detector.macroFrames, ih]
      have : (rows.map (turnRow Q f)).filter (fun r => decide (rcol r 28 = (k : ℝ))) = (rows.filter fun r => decide (rcol r 28 = (k : ℝ))).map (turnRow Q f) := by
        rw [List.filter_map]
        congr 1
        apply List.filter_congr
        intro r _
        have c28 : rcol (turnRow Q f r) 28 = rcol r 28 := by unfold rcol; rw [turn_scal r 28 (by omega)]
        simp only [Function.comp, c28]
      rw [this, hps _ fun r hr => (List.mem_filter.mp hr).1, turned_gaussKernel]
      rfl
  unfold Detector.renderMacro
  rw [hfr]

end
end XRD
