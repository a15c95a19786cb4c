import Verif.Lemmas.Nano
import Verif.Props.ImgScene
import Verif.Props.Deposit
import Verif.Props.Psf

/-! Properties C27, C30, C33, C66 of the `nano` rendering method. -/

namespace XRD
open V3 M3 Fl Spec
open scoped Classical

/-- `torch.argsort` returns each position exactly once -/
def Spec.IsArgsort (s : List ℝ → List ℕ) : Prop := ∀ l, (s l).Perm (List.range l.length)

theorem render_nano (D : Detector) (env : RenderEnv) (d : PeaksDict) (mesh : TetraMesh) (frames : ℤ) (ml : Option ℝ) (mi : ℝ) :
    D.render env d mesh frames .nano ml mi =
      (D.renderNano env (D.peaksIntersection d (max frames 1)).peaks (max frames 1).toNat).map
        fun t => (some t, D.peaksIntersection d (max frames 1)) := by
  have : (if frames < 1 then 1 else frames) = max frames 1 := by split_ifs <;> omega
  unfold Detector.render
  simp only [this]

theorem nanoPairs_fst {D : Detector} {j1 : ℝ → ℝ} {bs : List (List (List Fl))} {rks : List (List Fl × Kernel)}
    (h : nanoPairs D j1 bs = .ok rks) : rks.map Prod.fst = bs.flatten := by
  induction bs generalizing rks with
  | nil => simp only [nanoPairs, Except.ok.injEq] at h; subst h; rfl
  | cons b bs ih =>
    rw [nanoPairs] at h
    cases hk : D.airyKernels j1 (b.map D.firstZero) with
    | error e => rw [hk] at h; cases h
    | ok ks =>
      rw [hk] at h
      simp only at h
      cases hr : nanoPairs D j1 bs with
      | error e => rw [hr] at h; cases h
      | ok rest =>
        rw [hr] at h
        have h' : rks = b.zip ks ++ rest := (Except.ok.inj h).symm
        rw [h', List.map_append, List.flatten_cons, ih hr, List.map_fst_zip]
        rw [airyKernels_length hk]; simp

/-- the rows in the order of the loop -/
def sortedRows (s : List ℝ → List ℕ) (key : List Fl → ℝ) (peaks : List (List Fl)) : List (List Fl) :=
  (s (peaks.map key)).map fun i => peaks.getD i []

theorem map_getD_range (l : List (List Fl)) : (List.range l.length).map (fun i => l.getD i []) = l := by
  apply List.ext_getElem
  · simp
  · intro i h1 h2
    simp [h2]

theorem sortedRows_perm {s : List ℝ → List ℕ} (hs : IsArgsort s) (key : List Fl → ℝ) (peaks : List (List Fl)) :
    (sortedRows s key peaks).Perm peaks := by
  have h := (hs (peaks.map key)).map fun i => peaks.getD i []
  rw [List.length_map, map_getD_range] at h
  exact h

theorem renderNano_eq {D : Detector} {env : RenderEnv} (hs : IsArgsort env.argsortDesc) (peaks : List (List Fl)) (n : ℕ) :
    D.renderNano env peaks n = (nanoPairs D env.j1 (D.nanoBatches (env.freeGb * 1024 ^ 3)
      (sortedRows env.argsortDesc D.airyMemory peaks))).map fun rks => fun f =>
        if f < n then conv2d D.nz D.ny D.gaussKernel fun i j => cornerSum D.nz D.ny (allCorners (nanoAdd D rks f)) i j
        else fun _ _ => 0 := by
  unfold Detector.renderNano
  by_cases he : peaks = []
  · rw [if_pos he]
    have : sortedRows env.argsortDesc D.airyMemory peaks = [] := by
      have := sortedRows_perm hs D.airyMemory peaks
      rw [he] at this ⊢
      exact List.perm_nil.mp this
    rw [this, Detector.nanoBatches, nanoPairs]
    show Except.ok _ = Except.ok _
    congr 1
    funext f i j
    beta_reduce
    split_ifs
    · have e : (fun i j => cornerSum D.nz D.ny (allCorners (nanoAdd D [] f)) i j) = fun _ _ => (0:ℝ) := by
        funext i j; simp [nanoAdd, allCorners, cornerSum]
      rw [e, conv2d_zero]
    · rfl
  · rw [if_neg he, nanoLoop_eq]
    unfold sortedRows
    cases nanoPairs D env.j1 (D.nanoBatches (env.freeGb * 1024 ^ 3) ((env.argsortDesc (peaks.map D.airyMemory)).map fun i => peaks.getD i [])) with
    | error e => rfl
    | ok rks =>
      show Except.ok _ = Except.ok _
      congr 1
      funext f i j
      by_cases hf : f < n
      · simp only [if_pos hf]
        congr 1
        funext i j
        simp
      · simp only [if_neg hf]

/-- C30: whatever the reported free memory, if the rendering succeeds it is the point spread of the deposition of one kernel per
peak that hits the detector, each at the hit position of its own peak, scaled with its intensity times volume, in its own
frame; every peak is processed exactly once (`rks` lists the peaks in some order). -/
theorem C30_every_peak_exactly_once (D : Detector) (env : RenderEnv) (hs : IsArgsort env.argsortDesc) (d : PeaksDict)
    (hcol : d.columns = peakColumns) (mesh : TetraMesh) (frames : ℤ) (ml : Option ℝ) (mi : ℝ) (t : Stack) (out : PeaksDict)
    (h : D.render env d mesh frames .nano ml mi = .ok (some t, out)) :
    out = D.peaksIntersection d (max frames 1) ∧
    ∃ rks : List (List Fl × Kernel), (rks.map Prod.fst).Perm out.peaks ∧
      ∀ f < (max frames 1).toNat, t f = conv2d D.nz D.ny D.gaussKernel (depositKernels D.nz D.ny (fun _ _ => 0)
        ((rks.filter fun rk => val out.columns rk.1 "frame" = (f : ℝ)).map fun rk =>
          (⟨rk.2.size, fun i j => rk.2.val i j * (val out.columns rk.1 "intensity_factors" * val out.columns rk.1 "volumes")⟩,
            val out.columns rk.1 "zd" / D.pz, val out.columns rk.1 "yd" / D.py))) := by
  rw [render_nano, renderNano_eq hs] at h
  set n := max frames 1 with hn
  cases hp : nanoPairs D env.j1 (D.nanoBatches (env.freeGb * 1024 ^ 3) (sortedRows env.argsortDesc D.airyMemory (D.peaksIntersection d n).peaks)) with
  | error e => rw [hp] at h; cases h
  | ok rks =>
    rw [hp] at h
    have h' := Except.ok.inj h
    simp only [Prod.mk.injEq, Option.some.injEq] at h'
    obtain ⟨ht, ho⟩ := h'
    refine ⟨ho.symm, rks, ?_, ?_⟩
    · rw [nanoPairs_fst hp, nanoBatches_flatten, ← ho]
      exact sortedRows_perm hs _ _
    · intro f hf
      have hc : out.columns = hitColumns := by rw [← ho]; show d.columns ++ _ = _; rw [hcol]; rfl
      rw [← ht]
      simp only [if_pos hf]
      congr 1
      funext i j
      rw [depositKernels_eq, zero_add, hc]
      simp only [rcol_eq _ "frame" (j := 28) rfl, rcol_eq _ "intensity_factors" (j := 29) rfl, rcol_eq _ "volumes" (j := 21) rfl,
        rcol_eq _ "zd" (j := 25) rfl, rcol_eq _ "yd" (j := 26) rfl]
      rfl

/-! ### C27 for nano -/

theorem nanoAdd_sum (D : Detector) (n : ℕ) (rks : List (List Fl × Kernel)) (hf : ∀ rk ∈ rks, ∃ k : ℕ, rcol rk.1 28 = k ∧ k < n) (i j : ℕ) :
    ∑ f ∈ Finset.range n, cornerSum D.nz D.ny (allCorners (nanoAdd D rks f)) i j =
      (rks.map fun rk => kernelAdd D.nz D.ny (Detector.scaleKernel rk.2 (rcol rk.1 29 * rcol rk.1 21), rcol rk.1 25 / D.pz,
        rcol rk.1 26 / D.py) i j).sum := by
  simp only [cornerSum_allCorners]
  induction rks with
  | nil => simp [nanoAdd]
  | cons rk rks ih =>
    rw [List.map_cons, List.sum_cons, ← ih fun q hq => hf q (List.mem_cons_of_mem _ hq)]
    obtain ⟨k, hk, hkn⟩ := hf rk List.mem_cons_self
    have e : ∀ f : ℕ, ((nanoAdd D (rk :: rks) f).map fun q => kernelAdd D.nz D.ny q i j).sum =
        (if f = k then kernelAdd D.nz D.ny (Detector.scaleKernel rk.2 (rcol rk.1 29 * rcol rk.1 21), rcol rk.1 25 / D.pz,
        rcol rk.1 26 / D.py) i j else 0) + ((nanoAdd D rks f).map fun q => kernelAdd D.nz D.ny q i j).sum := by
      intro f
      unfold nanoAdd
      by_cases hfk : f = k
      · rw [if_pos hfk, List.filter_cons, if_pos (by simp [hk, hfk])]; simp
      · rw [if_neg hfk, List.filter_cons, if_neg (by simp [hk]; exact fun h => hfk h.symm)]; simp
    simp only [e, Finset.sum_add_distrib]
    congr 1
    rw [Finset.sum_ite_eq' (Finset.range n) k]
    rw [if_pos (Finset.mem_range.mpr hkn)]

theorem firstZero_congr {D : Detector} {r r' : List Fl} (h : ∀ j, j ≠ 28 → r[j]? = r'[j]?) : D.firstZero r = D.firstZero r' := by
  unfold Detector.firstZero
  rw [rcol_congr (h 23 (by norm_num)), rcol_congr (h 27 (by norm_num))]

theorem airyMemory_congr {D : Detector} {r r' : List Fl} (h : ∀ j, j ≠ 28 → r[j]? = r'[j]?) : D.airyMemory r = D.airyMemory r' := by
  unfold Detector.airyMemory
  rw [firstZero_congr h]

theorem nanoPairs_map {D : Detector} {j1 : ℝ → ℝ} (g g' : List Fl → List Fl) (bs : List (List (List Fl)))
    (hg : ∀ b ∈ bs, ∀ q ∈ b, D.firstZero (g q) = D.firstZero (g' q)) :
    (∃ e, nanoPairs D j1 (bs.map (List.map g)) = .error e ∧ nanoPairs D j1 (bs.map (List.map g')) = .error e) ∨
    ∃ qks : List (List Fl × Kernel), qks.map Prod.fst = bs.flatten ∧
      nanoPairs D j1 (bs.map (List.map g)) = .ok (qks.map fun qk => (g qk.1, qk.2)) ∧
      nanoPairs D j1 (bs.map (List.map g')) = .ok (qks.map fun qk => (g' qk.1, qk.2)) := by
  induction bs with
  | nil => exact Or.inr ⟨[], rfl, rfl, rfl⟩
  | cons b bs ih =>
    have hb : (b.map g').map D.firstZero = (b.map g).map D.firstZero := by
      rw [List.map_map, List.map_map]
      apply List.map_congr_left
      intro q hq
      exact (hg b List.mem_cons_self q hq).symm
    simp only [List.map_cons, nanoPairs, hb]
    cases hk : D.airyKernels j1 ((b.map g).map D.firstZero) with
    | error e => exact Or.inl ⟨e, rfl, rfl⟩
    | ok ks =>
      simp only
      rcases ih (fun c hc => hg c (List.mem_cons_of_mem _ hc)) with ⟨e, h1, h2⟩ | ⟨qks, h0, h1, h2⟩
      · left; exact ⟨e, by rw [h1]; rfl, by rw [h2]; rfl⟩
      · right
        have hl := airyKernels_length hk
        simp only [List.length_map] at hl
        refine ⟨b.zip ks ++ qks, ?_, ?_, ?_⟩
        · rw [List.map_append, h0, List.map_fst_zip (by omega), List.flatten_cons]
        · rw [h1]
          show Except.ok _ = Except.ok _
          rw [List.map_append, List.zip_map_left]
          rfl
        · rw [h2]
          show Except.ok _ = Except.ok _
          rw [List.map_append, List.zip_map_left]
          rfl

/-- C27, nano: adding up the frames gives the integrated image (and one rendering fails exactly if the other does). -/
theorem C27_nano_frames_sum (D : Detector) (env : RenderEnv) (hs : IsArgsort env.argsortDesc) (d : PeaksDict) (mesh : TetraMesh)
    (frames : ℤ) (ml : Option ℝ) (mi : ℝ) (hlen : ∀ r ∈ d.peaks, r.length = 25) :
    (∃ e, D.render env d mesh frames .nano ml mi = .error e ∧ D.render env d mesh 1 .nano ml mi = .error e) ∨
    ∃ t t1 o o1, D.render env d mesh frames .nano ml mi = .ok (some t, o) ∧ D.render env d mesh 1 .nano ml mi = .ok (some t1, o1) ∧
      ∀ i j, ∑ f ∈ Finset.range (max frames 1).toNat, t f i j = t1 0 i j := by
  rw [render_nano, render_nano, renderNano_eq hs, renderNano_eq hs]
  set n := max frames 1 with hn
  have hn1 : 1 ≤ n := le_max_right _ _
  rw [show max (1:ℤ) 1 = 1 from rfl, show (1:ℤ).toNat = 1 from rfl]
  rw [peaksIntersection_rows D d n hlen, peaksIntersection_rows D d 1 hlen]
  set L := d.peaks.filter fun row => D.contains ((D.rowIntersect row).getD 0 nan) ((D.rowIntersect row).getD 1 nan) ∧
      Fl.IsFinite (D.rowIntensity row) ∧ Fl.Lt (fin 0) (D.rowIntensity row) with hL
  have hL25 : ∀ q ∈ L, q.length = 25 := fun q hq => hlen q (List.mem_filter.mp hq).1
  -- the sorted rows
  have hkey : (L.map (row30 D n)).map D.airyMemory = (L.map (row30 D 1)).map D.airyMemory := by
    rw [List.map_map, List.map_map]
    apply List.map_congr_left
    intro q hq
    exact airyMemory_congr (row30_cols D n (hL25 q hq)).1
  have hsorted : ∀ m : ℤ, sortedRows env.argsortDesc D.airyMemory (L.map (row30 D m)) =
      ((env.argsortDesc ((L.map (row30 D m)).map D.airyMemory)).map fun i => L.getD i []).map (row30 D m) := by
    intro m
    unfold sortedRows
    rw [List.map_map (f := fun i => L.getD i []) (g := row30 D m)]
    apply List.map_congr_left
    intro i hi
    have : i < L.length := by
      have := (hs ((L.map (row30 D m)).map D.airyMemory)).mem_iff.mp hi
      simpa using this
    simp [this]
  rw [hsorted n, hsorted 1, hkey]
  set M := (env.argsortDesc ((L.map (row30 D 1)).map D.airyMemory)).map fun i => L.getD i [] with hM
  have hMm : ∀ q ∈ M, q ∈ L := by
    intro q hq
    obtain ⟨i, hi, rfl⟩ := List.mem_map.mp hq
    have : i < L.length := by
      have := (hs ((L.map (row30 D 1)).map D.airyMemory)).mem_iff.mp hi
      simpa using this
    rw [List.getD_eq_getElem?_getD, List.getElem?_eq_getElem this]
    exact List.getElem_mem this
  -- the same batches
  have hbatch : batchesBy (fun a => D.airyMemory (row30 D n a)) (env.freeGb * 1024 ^ 3) M =
      batchesBy (fun a => D.airyMemory (row30 D 1 a)) (env.freeGb * 1024 ^ 3) M := by
    have : ∀ l : List (List Fl), (∀ q ∈ l, q ∈ L) → batchesBy (fun a => D.airyMemory (row30 D n a)) (env.freeGb * 1024 ^ 3) l =
        batchesBy (fun a => D.airyMemory (row30 D 1 a)) (env.freeGb * 1024 ^ 3) l := by
      intro l
      induction hk : l.length using Nat.strong_induction_on generalizing l with
      | _ k ih =>
        intro hl
        cases l with
        | nil => simp [batchesBy]
        | cons r rs =>
          rw [batchesBy, batchesBy]
          have e : ∀ i : ℕ, (((r :: rs).take (i + 1)).map fun a => D.airyMemory (row30 D n a)) =
              (((r :: rs).take (i + 1)).map fun a => D.airyMemory (row30 D 1 a)) := by
            intro i
            apply List.map_congr_left
            intro q hq
            exact airyMemory_congr (row30_cols D n (hL25 q (hl q (List.mem_of_mem_take hq)))).1
          simp only [e]
          congr 1
          refine ih _ ?_ _ rfl ?_
          · rw [← hk, List.length_drop, List.length_cons]
            have : ∀ x : ℕ, 1 ≤ max 1 x := fun x => le_max_left _ _
            have := this (List.filter (fun i => decide ((List.map (fun a => D.airyMemory (row30 D 1 a)) (List.take (i + 1) (r :: rs))).sum ≤
              env.freeGb * 1024 ^ 3)) (List.range (rs.length + 1))).length
            simp only [List.length_cons] at *
            omega
          · intro q hq; exact hl q (List.mem_of_mem_drop hq)
    exact this M hMm
  rw [nanoBatches_eq, nanoBatches_eq, hbatch]
  set bs := batchesBy (fun a => D.airyMemory (row30 D 1 a)) (env.freeGb * 1024 ^ 3) M with hbs
  have hflat : bs.flatten = M := batchesBy_flatten _ _ _
  have hmem : ∀ b ∈ bs, ∀ q ∈ b, q ∈ L := by
    intro b hb q hq
    apply hMm
    rw [← hflat]
    exact List.mem_flatten.mpr ⟨b, hb, hq⟩
  rcases nanoPairs_map (D := D) (j1 := env.j1) (row30 D n) (row30 D 1) bs (fun b hb q hq =>
    firstZero_congr (row30_cols D n (hL25 q (hmem b hb q hq))).1) with ⟨e, h1, h2⟩ | ⟨qks, h0, h1, h2⟩
  · left; exact ⟨e, by rw [h1]; rfl, by rw [h2]; rfl⟩
  · right
    have hqk : ∀ qk ∈ qks, qk.1 ∈ L := by
      intro qk hq
      apply hMm
      rw [← hflat, ← h0]
      exact List.mem_map.mpr ⟨qk, hq, rfl⟩
    refine ⟨_, _, _, _, by rw [h1]; rfl, by rw [h2]; rfl, ?_⟩
    intro i j
    simp only
    rw [if_pos (show 0 < 1 by norm_num)]
    have e1 : ∑ f ∈ Finset.range n.toNat, (if f < n.toNat then conv2d D.nz D.ny D.gaussKernel fun i j =>
        cornerSum D.nz D.ny (allCorners (nanoAdd D (qks.map fun qk => (row30 D n qk.1, qk.2)) f)) i j else fun _ _ => 0) i j =
        ∑ f ∈ Finset.range n.toNat, conv2d D.nz D.ny D.gaussKernel (fun i j =>
        cornerSum D.nz D.ny (allCorners (nanoAdd D (qks.map fun qk => (row30 D n qk.1, qk.2)) f)) i j) i j := by
      apply Finset.sum_congr rfl
      intro f hf
      rw [if_pos (Finset.mem_range.mp hf)]
    rw [e1, ← conv2d_sum]
    congr 1
    funext i j
    have hframe : ∀ rk ∈ qks.map (fun qk => (row30 D n qk.1, qk.2)), ∃ k : ℕ, rcol rk.1 28 = k ∧ k < n.toNat := by
      intro rk hrk
      obtain ⟨qk, hq, rfl⟩ := List.mem_map.mp hrk
      have hl := hL25 _ (hqk qk hq)
      have hl3 := rowIntersect_length D qk.1
      obtain ⟨k, hk, hk0, hk1⟩ := rowFrame_range hn1 qk.1
      refine ⟨k.toNat, ?_, by omega⟩
      have : ((k.toNat : ℕ) : ℝ) = (k : ℝ) := by exact_mod_cast Int.toNat_of_nonneg hk0
      rw [this]
      unfold rcol row30
      rw [List.getElem?_append_left (by simp [hl, hl3]), List.getElem?_append_right (by simp [hl, hl3])]
      simp [hl, hl3, hk]
    have hframe1 : ∀ rk ∈ qks.map (fun qk => (row30 D 1 qk.1, qk.2)), ∃ k : ℕ, rcol rk.1 28 = k ∧ k < 1 := by
      intro rk hrk
      obtain ⟨qk, hq, rfl⟩ := List.mem_map.mp hrk
      refine ⟨0, ?_, by norm_num⟩
      rw [(row30_cols D 1 (hL25 _ (hqk qk hq))).2]; simp
    rw [nanoAdd_sum D n.toNat _ hframe]
    have := nanoAdd_sum D 1 _ hframe1 i j
    rw [Finset.sum_range_one] at this
    rw [this, List.map_map, List.map_map]
    congr 1
    apply List.map_congr_left
    intro qk hq
    have hc := (row30_cols D n (hL25 _ (hqk qk hq))).1
    simp only [Function.comp]
    rw [rcol_congr (hc 29 (by norm_num)), rcol_congr (hc 21 (by norm_num)), rcol_congr (hc 25 (by norm_num)), rcol_congr (hc 26 (by norm_num))]

end XRD
