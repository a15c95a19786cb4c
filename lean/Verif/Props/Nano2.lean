import Verif.Lemmas.Moment
import Verif.Props.Nano

/-! Properties C30 (partial), C33 (partial) and C66 of the `nano` rendering method. -/

namespace XRD
open V3 M3 Fl Spec
open scoped Classical

/-- first dark ring of a peak in pixels, from its Scherrer width (radians), the distance of the detector corner from the origin and
the incidence angle (degrees) -/
noncomputable def Spec.firstZeroPixels (D : Detector) (cols : List String) (row : List Fl) : ℝ :=
  val cols row "scherrer_fwhm" * (D.c0.norm / Real.cos (val cols row "incident_angle" * Real.pi / 180)) / D.pz * (11861 / 10000)

theorem firstZero_eq (D : Detector) (row : List Fl) : D.firstZero row = firstZeroPixels D hitColumns row := by
  unfold firstZeroPixels Detector.firstZero
  rw [rcol_eq _ "scherrer_fwhm" (j := 23) rfl, rcol_eq _ "incident_angle" (j := 27) rfl]

/-! ### C66 -/

theorem sum_over_frames {α : Type} (n : ℕ) (l : List α) (fr : α → ℝ) (g : α → ℝ) (hf : ∀ a ∈ l, ∃ k : ℕ, fr a = k ∧ k < n) :
    ∑ f ∈ Finset.range n, ((l.filter fun a => fr a = (f : ℝ)).map g).sum = (l.map g).sum := by
  induction l with
  | nil => simp
  | cons a l ih =>
    rw [List.map_cons, List.sum_cons, ← ih fun q hq => hf q (List.mem_cons_of_mem _ hq)]
    obtain ⟨k, hk, hkn⟩ := hf a List.mem_cons_self
    have e : ∀ f : ℕ, (((a :: l).filter fun a => fr a = (f : ℝ)).map g).sum =
        (if f = k then g a else 0) + ((l.filter fun a => fr a = (f : ℝ)).map g).sum := by
      intro f
      by_cases hfk : f = k
      · rw [if_pos hfk, List.filter_cons, if_pos (by simp [hk, hfk])]; simp
      · rw [if_neg hfk, List.filter_cons, if_neg (by simp [hk]; exact fun h => hfk h.symm)]; simp
    simp only [e, Finset.sum_add_distrib]
    congr 1
    rw [Finset.sum_ite_eq' (Finset.range n) k, if_pos (Finset.mem_range.mpr hkn)]

theorem kernelSum_scale (k : Kernel) (c : ℝ) : kernelSum (Detector.scaleKernel k c) = kernelSum k * c := by
  unfold kernelSum Detector.scaleKernel
  simp only
  rw [Finset.sum_mul]
  apply Finset.sum_congr rfl; intro a _
  rw [Finset.sum_mul]

/-- C66: a nano rendering that succeeds has non-negative pixels, its pixel total is at most the sum of intensity times volume
over the hits, and every frame holds at most the power of its own hits. -/
theorem C66_nano_never_creates_intensity (D : Detector) (hs : 0 < D.sigma) (hm : 0 ≤ D.maxRadius) (env : RenderEnv)
    (ha : IsArgsort env.argsortDesc) (d : PeaksDict) (mesh : TetraMesh) (frames : ℤ)
    (ml : Option ℝ) (mi : ℝ) (hcol : d.columns = peakColumns) (hlen : ∀ r ∈ d.peaks, r.length = 25)
    (hvol : ∀ r ∈ d.peaks, 0 ≤ val d.columns r "volumes") (t : ℕ → ℕ → ℕ → ℝ) (out : PeaksDict)
    (h : D.render env d mesh frames .nano ml mi = .ok (some t, out)) :
    (∀ f i j, 0 ≤ t f i j) ∧
    (∀ f < (max frames 1).toNat, total2 D.nz D.ny (t f) ≤ power out.columns (out.peaks.filter fun r => val out.columns r "frame" = (f : ℝ))) ∧
    total (max frames 1).toNat D.nz D.ny t ≤ power out.columns out.peaks := by
  rw [render_nano, renderNano_eq ha] at h
  set n := max frames 1 with hn
  have hn1 : 1 ≤ n := le_max_right _ _
  cases hp : nanoPairs D env.j1 (D.nanoBatches (env.freeGb * 1024 ^ 3) (sortedRows env.argsortDesc D.airyMemory (D.peaksIntersection d n).peaks)) with
  | error e => rw [hp] at h; cases h
  | ok rks =>
    rw [hp] at h
    have h' := Except.ok.inj h
    simp only [Prod.mk.injEq, Option.some.injEq] at h'
    obtain ⟨ht, ho⟩ := h'
    have hperm : (rks.map Prod.fst).Perm out.peaks := by
      rw [nanoPairs_fst hp, nanoBatches_flatten, ← ho]; exact sortedRows_perm ha _ _
    have hc : out.columns = hitColumns := by rw [← ho]; show d.columns ++ _ = _; rw [hcol]; rfl
    have hrow : ∀ rk ∈ rks, (∃ k : ℕ, rcol rk.1 28 = k ∧ k < n.toNat) ∧ 0 ≤ rcol rk.1 29 * rcol rk.1 21 := by
      intro rk hrk
      have hmem : rk.1 ∈ (D.peaksIntersection d n).peaks := by
        rw [ho]; exact hperm.mem_iff.mp (List.mem_map.mpr ⟨rk, hrk, rfl⟩)
      obtain ⟨q, hq, -, ⟨k, hk, h0, h1⟩, hi, hv⟩ := hitRows hn1 hlen rk.1 hmem
      refine ⟨⟨k.toNat, ?_, by omega⟩, mul_nonneg hi.le ?_⟩
      · rw [hk]; exact_mod_cast (Int.toNat_of_nonneg h0).symm
      · have := hvol q hq
        rw [hcol] at this
        rw [hv]
        have e : val peakColumns q "volumes" = rcol q 21 := rfl
        rw [← e]; exact this
    have hsub := nanoPairs_subUnit hs hm hp
    have hg : ∀ a < D.gaussKernel.size, ∀ b < D.gaussKernel.size, 0 ≤ D.gaussKernel.val a b := by
      obtain ⟨r, hr, -, -, -, hpos, -⟩ := C28_point_spread_kernel D hs hm
      rw [hr]; exact fun a ha b hb => (hpos a ha b hb).le
    -- the deposited frames
    have hks : ∀ f, ∀ k ∈ nanoAdd D rks f, ∀ a < k.1.size, ∀ b < k.1.size, 0 ≤ k.1.val a b := by
      intro f k hk a hka b hkb
      obtain ⟨rk, hrk, rfl⟩ := List.mem_map.mp hk
      have hrk' := (List.mem_filter.mp hrk).1
      exact mul_nonneg ((hsub rk hrk').1 a hka b hkb) (hrow rk hrk').2
    have hdep : ∀ f, (∀ i j, 0 ≤ cornerSum D.nz D.ny (allCorners (nanoAdd D rks f)) i j) ∧
        total2 D.nz D.ny (fun i j => cornerSum D.nz D.ny (allCorners (nanoAdd D rks f)) i j) ≤
          ((nanoAdd D rks f).map fun k => kernelSum k.1).sum := by
      intro f
      obtain ⟨c1, c2⟩ := C31_deposit_never_creates D.nz D.ny (fun _ _ => 0) (nanoAdd D rks f) (hks f)
      have e : depositKernels D.nz D.ny (fun _ _ => 0) (nanoAdd D rks f) =
          fun i j => cornerSum D.nz D.ny (allCorners (nanoAdd D rks f)) i j := by
        funext i j; rw [depositKernels_eq, zero_add]
      rw [e] at c1 c2
      refine ⟨c1, c2.trans ?_⟩
      simp [total2]
    have hmass : ∀ f : ℕ, ((nanoAdd D rks f).map fun k => kernelSum k.1).sum ≤
        power out.columns (out.peaks.filter fun r => val out.columns r "frame" = (f : ℝ)) := by
      intro f
      rw [hc]
      have e1 : power hitColumns (out.peaks.filter fun r => val hitColumns r "frame" = (f : ℝ)) =
          ((rks.filter fun rk => rcol rk.1 28 = (f : ℝ)).map fun rk => rcol rk.1 29 * rcol rk.1 21).sum := by
        unfold power
        rw [← ((hperm.filter _).map _).sum_eq, List.filter_map, List.map_map]
        simp only [rcol_eq _ "frame" (j := 28) rfl, rcol_eq _ "intensity_factors" (j := 29) rfl, rcol_eq _ "volumes" (j := 21) rfl]
        rfl
      rw [e1]
      unfold nanoAdd
      rw [List.map_map]
      apply List.sum_le_sum
      intro rk hrk
      have hrk' := (List.mem_filter.mp hrk).1
      simp only [Function.comp, kernelSum_scale]
      have := (hsub rk hrk').2
      have h2 := (hrow rk hrk').2
      nlinarith
    have hframe : ∀ f < n.toNat, total2 D.nz D.ny (t f) ≤ power out.columns (out.peaks.filter fun r => val out.columns r "frame" = (f : ℝ)) := by
      intro f hf
      rw [← ht]
      simp only [if_pos hf]
      exact ((C29_detector_point_spread D hs hm D.nz D.ny _ (fun i _ j _ => (hdep f).1 i j)).2.1.trans (hdep f).2).trans (hmass f)
    refine ⟨?_, hframe, ?_⟩
    · intro f i j
      rw [← ht]
      by_cases hf : f < n.toNat
      · simp only [if_pos hf]
        exact conv2d_nonneg hg (fun i _ j _ => (hdep f).1 i j) i j
      · simp only [if_neg hf]; exact le_rfl
    · refine (Finset.sum_le_sum fun f hf => hframe f (Finset.mem_range.mp hf)).trans (le_of_eq ?_)
      rw [hc]
      unfold power
      refine sum_over_frames n.toNat out.peaks (fun r => val hitColumns r "frame") _ ?_
      intro r hr
      obtain ⟨rk, hrk, rfl⟩ := List.mem_map.mp (hperm.mem_iff.mpr hr)
      rw [rcol_eq _ "frame" (j := 28) rfl]
      exact (hrow rk hrk).1

/-! ### closed form for peaks with first zero within two pixels -/

/-- what a peak adds to its frame before the point spread -/
noncomputable def smallAdd (D : Detector) (j1 : ℝ → ℝ) (r : List Fl) (i j : ℕ) : ℝ :=
  kernelAdd D.nz D.ny (Detector.scaleKernel (smallKernel D j1 (D.firstZero r)) (rcol r 29 * rcol r 21), rcol r 25 / D.pz, rcol r 26 / D.py) i j

theorem renderNano_small {D : Detector} (hs : 0 < D.sigma) (hm : 0 ≤ D.maxRadius) {env : RenderEnv} (ha : IsArgsort env.argsortDesc)
    {peaks : List (List Fl)} (hz : ∀ r ∈ peaks, D.firstZero r ≤ 2) (n : ℕ) :
    D.renderNano env peaks n = .ok fun f => if f < n then conv2d D.nz D.ny D.gaussKernel fun i j =>
      ((peaks.filter fun r => rcol r 28 = (f : ℝ)).map fun r => smallAdd D env.j1 r i j).sum else fun _ _ => 0 := by
  rw [renderNano_eq ha]
  have hperm := sortedRows_perm ha D.airyMemory peaks
  set S := sortedRows env.argsortDesc D.airyMemory peaks
  obtain ⟨rks, h1, h2, h3⟩ := nanoPairs_small hs hm env.j1 (bs := D.nanoBatches (env.freeGb * 1024 ^ 3) S) (by
    intro b hb r hr
    apply hz
    apply hperm.mem_iff.mp
    rw [← nanoBatches_flatten D (env.freeGb * 1024 ^ 3) S]
    exact List.mem_flatten.mpr ⟨b, hb, hr⟩)
  rw [nanoBatches_flatten] at h2
  rw [h1]
  show Except.ok _ = Except.ok _
  congr 1
  funext f
  beta_reduce
  by_cases hf : f < n
  · rw [if_pos hf, if_pos hf]
    congr 1
    funext i j
    rw [cornerSum_allCorners]
    have e : ((nanoAdd D rks f).map fun k => kernelAdd D.nz D.ny k i j) =
        (S.filter fun r => rcol r 28 = (f : ℝ)).map fun r => smallAdd D env.j1 r i j := by
      unfold nanoAdd
      rw [← h2, List.filter_map, List.map_map, List.map_map]
      apply List.map_congr_left
      intro rk hrk
      simp only [Function.comp, smallAdd]
      exact kernelAdd_small (h3 rk (List.mem_filter.mp hrk).1) _ _ _ _ _
    rw [e]
    exact ((hperm.filter _).map _).sum_eq
  · rw [if_neg hf, if_neg hf]

/-- C30, restricted to peaks whose first dark ring is within two pixels: the rendering succeeds and does not depend on the
reported free memory, on the sorting of equal keys or on the order of the peaks.  Missing: larger rings, for which the claim is
false (`C30_depends_on_memory_fails`). -/
theorem C30_memory_and_order_independent_partial (D : Detector) (hs : 0 < D.sigma) (hm : 0 ≤ D.maxRadius) (env env' : RenderEnv)
    (hj : env.j1 = env'.j1) (ha : IsArgsort env.argsortDesc) (ha' : IsArgsort env'.argsortDesc) (d d' : PeaksDict)
    (hp : d.peaks.Perm d'.peaks) (hcol : d.columns = peakColumns)
    (mesh mesh' : TetraMesh) (frames : ℤ) (ml ml' : Option ℝ) (mi mi' : ℝ)
    (hz : ∀ r ∈ (D.peaksIntersection d (max frames 1)).peaks, firstZeroPixels D (D.peaksIntersection d (max frames 1)).columns r ≤ 2) :
    ∃ t out out', D.render env d mesh frames .nano ml mi = .ok (some t, out) ∧
      D.render env' d' mesh' frames .nano ml' mi' = .ok (some t, out') := by
  have hq : (D.peaksIntersection d (max frames 1)).peaks.Perm (D.peaksIntersection d' (max frames 1)).peaks := by
    unfold Detector.peaksIntersection
    simp only
    exact ((((((hp.map _).filter _).map _).map _).filter _))
  have hc : (D.peaksIntersection d (max frames 1)).columns = hitColumns := by show d.columns ++ _ = _; rw [hcol]; rfl
  rw [hc] at hz
  simp only [← firstZero_eq] at hz
  rw [render_nano, render_nano, renderNano_small hs hm ha hz, renderNano_small hs hm ha' (fun r hr => hz r (hq.mem_iff.mpr hr))]
  refine ⟨_, _, D.peaksIntersection d' (max frames 1), rfl, ?_⟩
  show Except.ok _ = Except.ok _
  congr 3
  funext f
  rw [hj]
  split_ifs
  · congr 1
    funext i j
    exact (((hq.filter _).map _).sum_eq).symm
  · rfl

/-! ### C33 -/

theorem smallKernel_facts {D : Detector} (hs : 0 < D.sigma) (hm : 0 ≤ D.maxRadius) (hth : 0 ≤ D.threshold) (j1 : ℝ → ℝ) (fz : ℝ) :
    Centred (smallKernel D j1 fz) ∧ SubUnit (smallKernel D j1 fz) ∧ 1 - D.threshold ≤ kernelSum (smallKernel D j1 fz) ∧
      ((smallKernel D j1 fz).size / 2 : ℕ) ≤ max 128 D.maxRadius.toNat := by
  obtain ⟨n, hn, hR⟩ := smallRadius_nat D
  have hn128 : n ≤ 128 := by
    have : smallRadius D ≤ 128 := by
      unfold smallRadius Detector.airyRadius
      simp only
      split_ifs with h
      · exact le_rfl
      · push Not at h; exact h
    rw [hR] at this; exact_mod_cast this
  have hcen := airyKernel_centred hs hm j1 n fz
  have htot := airyKernel_total hs hm j1 n fz
  have hsub := airyKernel_subUnit hs hm j1 n fz
  have hsize : (D.airyKernel j1 n fz).size / 2 ≤ max 128 D.maxRadius.toNat := by
    unfold Detector.airyKernel
    split_ifs
    · obtain ⟨r, hr, hle, -⟩ := C28_point_spread_kernel D hs hm
      show D.gaussKernel.size / 2 ≤ _
      rw [hr]
      have : r ≤ D.maxRadius.toNat := by omega
      omega
    · show Detector.axisLen n / 2 ≤ _
      rw [axisLen_nat]; omega
  unfold smallKernel
  rw [hR]
  set k := D.airyKernel j1 n fz
  refine ⟨crop_centred hcen _, crop_subUnit hsub _, ?_, ?_⟩
  · obtain ⟨r, hr, -, -⟩ := hcen
    rcases Nat.eq_zero_or_pos r with h0 | h0
    · have e : kernelSum (k.crop D.threshold) = kernelSum k := by
        have hc : k.size / 2 = 0 := by omega
        have h1 : (k.crop D.threshold).size = k.size := by
          unfold Kernel.crop; simp only [hc]
          have := cropSearch_ge k D.threshold 1 0
          omega
        unfold kernelSum
        rw [h1]
        apply Finset.sum_congr rfl; intro a _
        apply Finset.sum_congr rfl; intro b _
        unfold Kernel.crop; simp only [hc]
        congr 1 <;> omega
      rw [e, htot]; linarith
    · obtain ⟨m, hm1, hm2, hm3, -, -, -, hm7⟩ := C32_smallest_sufficient_window k D.threshold (by omega) hsub.1
      rw [hm7]
      rcases hm3 with rfl | h3
      · have : windowMass k (k.size / 2) = kernelSum k := by
          unfold windowMass kernelSum
          have : (Finset.range k.size).filter (fun i : ℕ => |(i : ℤ) - (k.size / 2 : ℕ)| ≤ ((k.size / 2 : ℕ) : ℤ)) = Finset.range k.size := by
            apply Finset.filter_true_of_mem
            intro i hi
            rw [Finset.mem_range] at hi
            rw [abs_le]; omega
          rw [this]
        rw [this, htot]; linarith
      · exact h3
  · have : (k.crop D.threshold).size ≤ k.size := by unfold Kernel.crop; simp only; omega
    omega

theorem sum_list_comm {α : Type} (l : List α) (s : Finset ℕ) (g : α → ℕ → ℝ) :
    ∑ i ∈ s, (l.map fun a => g a i).sum = (l.map fun a => ∑ i ∈ s, g a i).sum := by
  induction l with
  | nil => simp
  | cons a l ih => simp only [List.map_cons, List.sum_cons, Finset.sum_add_distrib, ih]

/-- moments of a sum of images -/
theorem total2_list {α : Type} (h w : ℕ) (l : List α) (φ : ℕ → ℕ → ℝ) (g : α → ℕ → ℕ → ℝ) :
    total2 h w (fun i j => φ i j * (l.map fun a => g a i j).sum) = (l.map fun a => total2 h w fun i j => φ i j * g a i j).sum := by
  unfold total2
  rw [← sum_list_comm]
  apply Finset.sum_congr rfl; intro i _
  rw [← sum_list_comm]
  apply Finset.sum_congr rfl; intro j _
  rw [List.sum_map_mul_left]

/-- C33, restricted to peaks whose first dark ring is within two pixels and that are away from the border: each peak contributes a
mass between `(1 - threshold) I V` and `I V` whose centre of mass is exactly the hit position.  Missing: larger rings, for
which the claim is false (`C33_even_grid_fails`). -/
theorem C33_nano_centred_on_hits_partial (D : Detector) (hs : 0 < D.sigma) (hm : 0 ≤ D.maxRadius) (hth : 0 ≤ D.threshold) (env : RenderEnv)
    (ha : IsArgsort env.argsortDesc) (d : PeaksDict) (mesh : TetraMesh) (frames : ℤ) (ml : Option ℝ) (mi : ℝ)
    (hcol : d.columns = peakColumns) (hlen : ∀ r ∈ d.peaks, r.length = 25) (hvol : ∀ r ∈ d.peaks, 0 ≤ val d.columns r "volumes")
    (B : ℝ) (hB : max 128 (D.maxRadius : ℝ) + D.maxRadius + 2 ≤ B)
    (hz : ∀ r ∈ (D.peaksIntersection d (max frames 1)).peaks, firstZeroPixels D (D.peaksIntersection d (max frames 1)).columns r ≤ 2 ∧
      B ≤ val hitColumns r "zd" / D.pz ∧ val hitColumns r "zd" / D.pz + B < D.nz ∧
      B ≤ val hitColumns r "yd" / D.py ∧ val hitColumns r "yd" / D.py + B < D.ny) :
    ∃ t out, D.render env d mesh frames .nano ml mi = .ok (some t, out) ∧ out = D.peaksIntersection d (max frames 1) ∧
      ∃ mass : List Fl → ℝ,
        (∀ r ∈ out.peaks, (1 - D.threshold) * (val out.columns r "intensity_factors" * val out.columns r "volumes") ≤ mass r ∧
          mass r ≤ val out.columns r "intensity_factors" * val out.columns r "volumes") ∧
        ∀ f < (max frames 1).toNat,
          total2 D.nz D.ny (t f) = ((out.peaks.filter fun r => val out.columns r "frame" = (f : ℝ)).map mass).sum ∧
          total2 D.nz D.ny (fun i j => i * t f i j) =
            ((out.peaks.filter fun r => val out.columns r "frame" = (f : ℝ)).map fun r => val out.columns r "zd" / D.pz * mass r).sum ∧
          total2 D.nz D.ny (fun i j => j * t f i j) =
            ((out.peaks.filter fun r => val out.columns r "frame" = (f : ℝ)).map fun r => val out.columns r "yd" / D.py * mass r).sum := by
  set n := max frames 1 with hn
  have hn1 : 1 ≤ n := le_max_right _ _
  have hc : (D.peaksIntersection d n).columns = hitColumns := by show d.columns ++ _ = _; rw [hcol]; rfl
  have hz2 : ∀ r ∈ (D.peaksIntersection d n).peaks, D.firstZero r ≤ 2 := by
    intro r hr; rw [firstZero_eq, ← hc]; exact (hz r hr).1
  refine ⟨_, _, by rw [render_nano, ← hn, renderNano_small hs hm ha hz2]; rfl, rfl, ?_⟩
  rw [hc]
  simp only [rcol_eq _ "frame" (j := 28) rfl, rcol_eq _ "intensity_factors" (j := 29) rfl, rcol_eq _ "volumes" (j := 21) rfl,
    rcol_eq _ "zd" (j := 25) rfl, rcol_eq _ "yd" (j := 26) rfl] at hz ⊢
  set P := (D.peaksIntersection d n).peaks with hP
  refine ⟨fun r => kernelSum (smallKernel D env.j1 (D.firstZero r)) * (rcol r 29 * rcol r 21), ?_, ?_⟩
  · intro r hr
    obtain ⟨q, hq, -, -, hi, hv⟩ := hitRows hn1 hlen r hr
    have hv0 : 0 ≤ rcol r 29 * rcol r 21 := by
      refine mul_nonneg hi.le ?_
      have := hvol q hq
      rw [hcol] at this
      rw [hv]
      exact this
    obtain ⟨-, h2, h3, -⟩ := smallKernel_facts hs hm hth env.j1 (D.firstZero r)
    constructor
    · exact mul_le_mul_of_nonneg_right h3 hv0
    · have := h2.2; nlinarith
  · intro f hf
    simp only [if_pos hf]
    -- one peak
    have hhalf : ∀ r, (((smallKernel D env.j1 (D.firstZero r)).size / 2 : ℕ) : ℝ) ≤ max 128 (D.maxRadius : ℝ) := by
      intro r
      obtain ⟨-, -, -, h4⟩ := smallKernel_facts hs hm hth env.j1 (D.firstZero r)
      rcases le_max_iff.mp h4 with h | h
      · exact le_max_of_le_left (by exact_mod_cast h)
      · apply le_max_of_le_right
        have : (((smallKernel D env.j1 (D.firstZero r)).size / 2 : ℕ) : ℤ) ≤ D.maxRadius := by omega
        have h2 : ((((smallKernel D env.j1 (D.firstZero r)).size / 2 : ℕ) : ℤ) : ℝ) ≤ (D.maxRadius : ℝ) := Int.cast_le.mpr this
        rw [Int.cast_natCast] at h2; exact h2

    have hmr : (0:ℝ) ≤ D.maxRadius := by exact_mod_cast hm
    have one : ∀ r ∈ P, total2 D.nz D.ny (fun i j => smallAdd D env.j1 r i j) = kernelSum (smallKernel D env.j1 (D.firstZero r)) * (rcol r 29 * rcol r 21) ∧
        total2 D.nz D.ny (fun i j => i * smallAdd D env.j1 r i j) =
          rcol r 25 / D.pz * (kernelSum (smallKernel D env.j1 (D.firstZero r)) * (rcol r 29 * rcol r 21)) ∧
        total2 D.nz D.ny (fun i j => j * smallAdd D env.j1 r i j) =
          rcol r 26 / D.py * (kernelSum (smallKernel D env.j1 (D.firstZero r)) * (rcol r 29 * rcol r 21)) := by
      intro r hr
      obtain ⟨⟨ρ, hρ, hsz, hsy⟩, -, -, -⟩ := smallKernel_facts hs hm hth env.j1 (D.firstZero r)
      have hh := hhalf r
      obtain ⟨-, b1, b2, b3, b4⟩ := hz r hr
      have := kernelAdd_affine (h := D.nz) (w := D.ny) (k := Detector.scaleKernel (smallKernel D env.j1 (D.firstZero r)) (rcol r 29 * rcol r 21))
        (cz := rcol r 25 / D.pz) (cy := rcol r 26 / D.py) (r := ρ) (by
          have hsz : (Detector.scaleKernel (smallKernel D env.j1 (D.firstZero r)) (rcol r 29 * rcol r 21)).size =
            (smallKernel D env.j1 (D.firstZero r)).size := rfl
          unfold FitsInside
          simp only [hsz]
          refine ⟨?_, ?_, ?_, ?_⟩ <;> linarith) hρ
        (fun a ha b hb => by show _ * _ = _ * _; rw [hsz a ha b hb]) (fun a ha b hb => by show _ * _ = _ * _; rw [hsy a ha b hb])
      rw [kernelSum_scale] at this
      exact this
    -- support
    have hsupp : ∀ i < D.nz, ∀ j < D.ny, ((P.filter fun r => rcol r 28 = (f : ℝ)).map fun r => smallAdd D env.j1 r i j).sum ≠ 0 →
        D.maxRadius ≤ i ∧ i + D.maxRadius < D.nz ∧ D.maxRadius ≤ j ∧ j + D.maxRadius < D.ny := by
      intro i hi j hj hne
      obtain ⟨r, hr, hne⟩ : ∃ r ∈ P, smallAdd D env.j1 r i j ≠ 0 := by
        by_contra hcon
        push Not at hcon
        apply hne
        apply List.sum_eq_zero
        intro x hx
        obtain ⟨r, hr, rfl⟩ := List.mem_map.mp hx
        exact hcon r (List.mem_filter.mp hr).1
      obtain ⟨s1, s2⟩ := kernelAdd_support hne
      have hh := hhalf r
      have hsz : (Detector.scaleKernel (smallKernel D env.j1 (D.firstZero r)) (rcol r 29 * rcol r 21)).size =
            (smallKernel D env.j1 (D.firstZero r)).size := rfl
      rw [hsz, abs_le] at s1 s2
      obtain ⟨-, b1, b2, b3, b4⟩ := hz r hr
      refine ⟨?_, ?_, ?_, ?_⟩
      · have : (D.maxRadius : ℝ) ≤ (i : ℝ) := by linarith [s1.1]
        exact_mod_cast this
      · have : (i : ℝ) + (D.maxRadius : ℝ) < (D.nz : ℝ) := by linarith [s1.2]
        exact_mod_cast this
      · have : (D.maxRadius : ℝ) ≤ (j : ℝ) := by linarith [s2.1]
        exact_mod_cast this
      · have : (j : ℝ) + (D.maxRadius : ℝ) < (D.ny : ℝ) := by linarith [s2.2]
        exact_mod_cast this
    obtain ⟨ρ, hρ, hρm, -, -, -, hone, hsym, -⟩ := C28_point_spread_kernel D hs hm
    have hconv := fun α β γ : ℝ => conv_affine (h := D.nz) (w := D.ny) (r := ρ) hρ (by unfold kernelSum; rw [hρ]; exact hone)
      (fun a ha b hb => (hsym a ha b hb).2.1) (fun a ha b hb => (hsym a ha b hb).2.2)
      (fun i j => ((P.filter fun r => rcol r 28 = (f : ℝ)).map fun r => smallAdd D env.j1 r i j).sum)
      (fun i hi j hj hne => by have := hsupp i hi j hj hne; omega) α β γ
    refine ⟨?_, ?_, ?_⟩
    · have h1 := hconv 1 0 0
      simp only [MulZeroClass.zero_mul, _root_.add_zero, _root_.one_mul] at h1
      have h2 := total2_list D.nz D.ny (P.filter fun r => rcol r 28 = (f : ℝ)) (fun _ _ => 1) (fun r i j => smallAdd D env.j1 r i j)
      simp only [_root_.one_mul] at h2
      refine h1.trans (h2.trans ?_)
      congr 1
      apply List.map_congr_left
      intro r hr
      exact (one r (List.mem_filter.mp hr).1).1
    · have h1 := hconv 0 1 0
      simp only [MulZeroClass.zero_mul, _root_.add_zero, _root_.zero_add, _root_.one_mul] at h1
      have h2 := total2_list D.nz D.ny (P.filter fun r => rcol r 28 = (f : ℝ)) (fun i _ => (i : ℝ)) (fun r i j => smallAdd D env.j1 r i j)
      refine h1.trans (h2.trans ?_)
      congr 1
      apply List.map_congr_left
      intro r hr
      exact (one r (List.mem_filter.mp hr).1).2.1
    · have h1 := hconv 0 0 1
      simp only [MulZeroClass.zero_mul, _root_.add_zero, _root_.zero_add, _root_.one_mul] at h1
      have h2 := total2_list D.nz D.ny (P.filter fun r => rcol r 28 = (f : ℝ)) (fun _ j => (j : ℝ)) (fun r i j => smallAdd D env.j1 r i j)
      refine h1.trans (h2.trans ?_)
      congr 1
      apply List.map_congr_left
      intro r hr
      exact (one r (List.mem_filter.mp hr).1).2.2

/-! ### the hypotheses of C30, C33 and C66 are met: two peaks with a ring of about one pixel in the middle of a 400 × 400 pixel detector -/

noncomputable def smallDet : Detector := imgDet (1/2) 1 (1/10)
noncomputable def smallRows : List (List Fl) := [imgRow 0 0 0 (1/2) 2 (1/400), imgRow 1 (3/2) (-5/4) (1/4) 3 (1/400)]
theorem smallRows_hits : (smallDet.peaksIntersection (imgDict smallRows) 3).peaks =
    [imgHit 3 0 0 0 (1/2) 2 (1/400), imgHit 3 1 (3/2) (-5/4) (1/4) 3 (1/400)] := by
  unfold smallRows smallDet
  rw [imgDict_kept _ _ _ _ _ _ _ _ _ _ (by norm_num) (by norm_num) _ (by intro r hr; rw [List.mem_singleton] at hr; subst hr; rfl),
    imgDict_kept _ _ _ _ _ _ _ _ _ _ (by norm_num) (by norm_num [abs_of_pos, abs_of_neg]) _ (by simp)]
  rfl

theorem smallRows_len : ∀ r ∈ (imgDict smallRows).peaks, r.length = 25 := by
  intro r hr
  have : r = imgRow 0 0 0 (1/2) 2 (1/400) ∨ r = imgRow 1 (3/2) (-5/4) (1/4) 3 (1/400) := by simpa [imgDict, smallRows] using hr
  rcases this with rfl | rfl <;> rfl

theorem smallRows_vol : ∀ r ∈ (imgDict smallRows).peaks, 0 ≤ val (imgDict smallRows).columns r "volumes" := by
  intro r hr
  have : r = imgRow 0 0 0 (1/2) 2 (1/400) ∨ r = imgRow 1 (3/2) (-5/4) (1/4) 3 (1/400) := by simpa [imgDict, smallRows] using hr
  rcases this with rfl | rfl
  · show (0:ℝ) ≤ 2; norm_num
  · show (0:ℝ) ≤ 3; norm_num

theorem smallDet_firstZero (n : ℤ) (g y z t v : ℝ) : 1 / 2 < firstZeroPixels smallDet hitColumns (imgHit n g y z t v (1/400)) ∧
    firstZeroPixels smallDet hitColumns (imgHit n g y z t v (1/400)) ≤ 2 := by
  unfold firstZeroPixels
  have a : val hitColumns (imgHit n g y z t v (1/400)) "scherrer_fwhm" = 1/400 := rfl
  have b : val hitColumns (imgHit n g y z t v (1/400)) "incident_angle" = 0 := rfl
  have c : smallDet.c0 = ⟨100, -100, -100⟩ := rfl
  have e : smallDet.pz = 1/2 := rfl
  rw [a, b, c, e]
  have h1 : norm (⟨100, -100, -100⟩ : V3) ≤ 190 := by
    unfold V3.norm nsq V3.dot; simp only; rw [Real.sqrt_le_left (by norm_num)]; norm_num
  have h2 : 150 ≤ norm (⟨100, -100, -100⟩ : V3) := by
    unfold V3.norm nsq V3.dot; simp only; apply Real.le_sqrt_of_sq_le; norm_num
  simp only [zero_mul, zero_div, Real.cos_zero, div_one]
  constructor <;> linarith

/-- C33 applies to it; hence the image has the centre of mass of the two hits -/
example (j1 : ℝ → ℝ) (freeGb : ℝ) (hull : Beam → List V3 → Option Hull) (sample : Hull → ℕ → List V3) (mesh : TetraMesh) :
    ∃ t out, smallDet.render ⟨j1, fun l => List.range l.length, freeGb, hull, sample⟩ (imgDict smallRows) mesh 3 .nano none (1/1000) =
        .ok (some t, out) ∧ 4 ≤ total 3 smallDet.nz smallDet.ny t ∧ total 3 smallDet.nz smallDet.ny t ≤ 5 := by
  have hn : smallDet.nz = 400 := by unfold Detector.nz smallDet imgDet; norm_num
  have hny : smallDet.ny = 400 := by unfold Detector.ny smallDet imgDet; norm_num
  have hS : IsArgsort fun l : List ℝ => List.range l.length := fun l => List.Perm.refl _
  obtain ⟨t, out, h1, h2, mass, h3, h4⟩ := C33_nano_centred_on_hits_partial smallDet (by show (0:ℝ) < 1; norm_num) (by show (0:ℤ) ≤ 13; norm_num)
    (by show (0:ℝ) ≤ 1/10; norm_num) ⟨j1, fun l => List.range l.length, freeGb, hull, sample⟩ hS (imgDict smallRows) mesh 3 none (1/1000)
    rfl smallRows_len smallRows_vol 143 (by show max (128:ℝ) ((13:ℤ):ℝ) + ((13:ℤ):ℝ) + 2 ≤ 143; norm_num) (by
      intro r hr
      rw [show max (3:ℤ) 1 = 3 from rfl, smallRows_hits] at hr
      have hp : smallDet.pz = 1/2 := rfl
      have hp' : smallDet.py = 1/2 := rfl
      simp only [List.mem_cons, List.not_mem_nil, or_false] at hr
      rw [hn, hny, hp, hp']
      rcases hr with rfl | rfl
      · refine ⟨(smallDet_firstZero _ _ _ _ _ _).2, ?_, ?_, ?_, ?_⟩
        · show (143:ℝ) ≤ (0 + 100) / (1/2); norm_num
        · show (0 + 100 : ℝ) / (1/2) + 143 < _; norm_num
        · show (143:ℝ) ≤ (0 + 100) / (1/2); norm_num
        · show (0 + 100 : ℝ) / (1/2) + 143 < _; norm_num
      · refine ⟨(smallDet_firstZero _ _ _ _ _ _).2, ?_, ?_, ?_, ?_⟩
        · show (143:ℝ) ≤ (-5/4 + 100) / (1/2); norm_num
        · show (-5/4 + 100 : ℝ) / (1/2) + 143 < _; norm_num
        · show (143:ℝ) ≤ (3/2 + 100) / (1/2); norm_num
        · show (3/2 + 100 : ℝ) / (1/2) + 143 < _; norm_num)
  rw [show max (3:ℤ) 1 = 3 from rfl] at h2 h4
  have hc : out.columns = hitColumns := by rw [h2]; rfl
  have ht : total 3 smallDet.nz smallDet.ny t = (out.peaks.map mass).sum := by
    have e : total 3 smallDet.nz smallDet.ny t = ∑ f ∈ Finset.range 3, total2 smallDet.nz smallDet.ny (t f) := rfl
    rw [e, ← sum_over_frames 3 out.peaks (fun r => val out.columns r "frame") mass]
    · exact Finset.sum_congr rfl fun f hf => (h4 f (Finset.mem_range.mp hf)).1
    · intro a ha
      rw [h2, smallRows_hits] at ha
      rw [hc]
      simp only [List.mem_cons, List.not_mem_nil, or_false] at ha
      rcases ha with rfl | rfl
      · obtain ⟨g1, g2⟩ := frameOf_range (n := 3) (by norm_num) (1/2)
        refine ⟨(frameOf 3 (1/2)).toNat, ?_, by omega⟩
        show ((frameOf 3 (1/2) : ℤ) : ℝ) = _
        exact_mod_cast (Int.toNat_of_nonneg g1).symm
      · obtain ⟨g1, g2⟩ := frameOf_range (n := 3) (by norm_num) (1/4)
        refine ⟨(frameOf 3 (1/4)).toNat, ?_, by omega⟩
        show ((frameOf 3 (1/4) : ℤ) : ℝ) = _
        exact_mod_cast (Int.toNat_of_nonneg g1).symm
  refine ⟨t, out, h1, ?_⟩
  have hP : out.peaks = [imgHit 3 0 0 0 (1/2) 2 (1/400), imgHit 3 1 (3/2) (-5/4) (1/4) 3 (1/400)] := by rw [h2, smallRows_hits]
  have m1 := h3 (imgHit 3 0 0 0 (1/2) 2 (1/400)) (by rw [hP]; simp)
  have m2 := h3 (imgHit 3 1 (3/2) (-5/4) (1/4) 3 (1/400)) (by rw [hP]; simp)
  rw [hc] at m1 m2
  have i1 : val hitColumns (imgHit 3 0 0 0 (1/2) 2 (1/400)) "intensity_factors" = 1 := rfl
  have i2 : val hitColumns (imgHit 3 1 (3/2) (-5/4) (1/4) 3 (1/400)) "intensity_factors" = 1 := rfl
  have v1 : val hitColumns (imgHit 3 0 0 0 (1/2) 2 (1/400)) "volumes" = 2 := rfl
  have v2 : val hitColumns (imgHit 3 1 (3/2) (-5/4) (1/4) 3 (1/400)) "volumes" = 3 := rfl
  have th : smallDet.threshold = 1/10 := rfl
  rw [i1, v1, th] at m1
  rw [i2, v2, th] at m2
  rw [ht, hP]
  simp only [List.map_cons, List.map_nil, List.sum_cons, List.sum_nil]
  constructor <;> linarith [m1.1, m1.2, m2.1, m2.2]

/-- C30 applies to it: the reversed table rendered with no free memory gives the same image -/
example (j1 : ℝ → ℝ) (hull : Beam → List V3 → Option Hull) (sample : Hull → ℕ → List V3) (mesh : TetraMesh) :
    ∃ t out out', smallDet.render ⟨j1, fun l => List.range l.length, 0, hull, sample⟩ (imgDict smallRows) mesh 3 .nano none (1/1000) =
        .ok (some t, out) ∧ smallDet.render ⟨j1, fun l => (List.range l.length).reverse, 16, hull, sample⟩
          (imgDict smallRows.reverse) mesh 3 .nano none (1/1000) = .ok (some t, out') := by
  refine C30_memory_and_order_independent_partial smallDet (by show (0:ℝ) < 1; norm_num) (by show (0:ℤ) ≤ 13; norm_num)
    ⟨j1, fun l => List.range l.length, 0, hull, sample⟩ ⟨j1, fun l => (List.range l.length).reverse, 16, hull, sample⟩ rfl
    (fun l => List.Perm.refl _) (fun l => List.reverse_perm _) (imgDict smallRows) (imgDict smallRows.reverse) (List.reverse_perm _).symm rfl
    mesh mesh 3 none none (1/1000) (1/1000) ?_
  intro r hr
  rw [show max (3:ℤ) 1 = 3 from rfl, smallRows_hits] at hr
  simp only [List.mem_cons, List.not_mem_nil, or_false] at hr
  rcases hr with rfl | rfl
  · exact (smallDet_firstZero _ _ _ _ _ _).2
  · exact (smallDet_firstZero _ _ _ _ _ _).2

end XRD
