import Verif.Props.NanoMemory
import Verif.Props.Psf
import Verif.Props.Bright

/-! Property C123: how far from its point of arrival a peak of a `nano` image can light pixels, and how large its kernels can be. -/

namespace XRD.Spec
open XRD
/-- the largest distance, in pixels, at which a `nano` peak may light a pixel: 128 pixels (or the largest kernel radius if it is larger)
for the kernel itself, one for the bilinear distribution, and the largest kernel radius for the point spread -/
noncomputable def nanoReach (D : Detector) : ℝ := max 128 (D.maxRadius : ℝ) + 1 + D.maxRadius
end XRD.Spec

namespace XRD
open V3 M3 Fl Spec
open scoped Classical

theorem airyRadius_le (D : Detector) (zs : List ℝ) : D.airyRadius zs ≤ 128 := by
  unfold Detector.airyRadius
  simp only
  split_ifs with h
  · exact le_refl _
  · exact not_lt.mp h

/-- nominal size of a cropped kernel -/
theorem nominal_le {D : Detector} (hs : 0 < D.sigma) (hm : 0 ≤ D.maxRadius) (j1 : ℝ → ℝ) {R : ℝ} (hR : R ≤ 128) (fz : ℝ) (th : ℝ) :
    2 * cropSearch (D.airyKernel j1 R fz) th 1 ((D.airyKernel j1 R fz).size / 2) + 1 ≤ 2 * max 128 D.maxRadius.toNat + 1 := by
  have hsz : (D.airyKernel j1 R fz).size ≤ 2 * max 128 D.maxRadius.toNat + 1 := by
    unfold Detector.airyKernel
    split_ifs
    · obtain ⟨r, h1, h2, -⟩ := C28_point_spread_kernel D hs hm
      show D.gaussKernel.size ≤ _
      rw [h1]
      have := le_max_right 128 D.maxRadius.toNat
      omega
    · show Detector.axisLen R ≤ _
      have : Detector.axisLen R ≤ 257 := by
        unfold Detector.axisLen
        rw [Nat.ceil_le]; push_cast; linarith
      have := le_max_left 128 D.maxRadius.toNat
      omega
  have := le_max_left 128 D.maxRadius.toNat
  by_cases hc : 1 ≤ (D.airyKernel j1 R fz).size / 2
  · have := cropSearch_le (D.airyKernel j1 R fz) th 1 _ hc
    omega
  · have e : cropSearch (D.airyKernel j1 R fz) th 1 ((D.airyKernel j1 R fz).size / 2) = 1 := by
      rw [cropSearch, dif_neg (by omega)]
    rw [e]; omega

theorem foldl_max_le {α : Type} (g : α → ℕ) (L : ℕ) : ∀ (l : List α) (m : ℕ), m ≤ L → (∀ a ∈ l, g a ≤ L) → l.foldl (fun m a => max m (g a)) m ≤ L := by
  intro l
  induction l with
  | nil => intro m h _; exact h
  | cons a l ih =>
    intro m h hl
    rw [List.foldl_cons]
    exact ih _ (max_le h (hl a List.mem_cons_self)) fun b hb => hl b (List.mem_cons_of_mem _ hb)

theorem airyKernels_size_le {D : Detector} (hs : 0 < D.sigma) (hm : 0 ≤ D.maxRadius) {j1 : ℝ → ℝ} {zs : List ℝ} {ks : List Kernel}
    (h : D.airyKernels j1 zs = .ok ks) : ∀ k ∈ ks, k.size ≤ 2 * max 128 D.maxRadius.toNat + 1 := by
  unfold Detector.airyKernels at h
  dsimp only at h
  split_ifs at h with hne
  obtain rfl := Except.ok.inj h
  intro k hk
  rw [List.mem_map] at hk
  obtain ⟨q, hq, rfl⟩ := hk
  have hq' := hq
  rw [List.mem_map] at hq
  obtain ⟨k0, hk0, rfl⟩ := hq
  rw [List.mem_map] at hk0
  obtain ⟨z, hz, rfl⟩ := hk0
  have hn := nominal_le hs hm j1 (airyRadius_le D zs) z D.threshold
  have hc := crop_size_le (D.airyKernel j1 (D.airyRadius zs) z) D.threshold
  have hM : (((zs.map fun fz => D.airyKernel j1 (D.airyRadius zs) fz).map fun k => (k.crop D.threshold, 2 * cropSearch k D.threshold 1 (k.size / 2) + 1)).foldl
      (fun m k => max m k.2) 0) ≤ 2 * max 128 D.maxRadius.toNat + 1 := by
    apply foldl_max_le (fun k : Kernel × ℕ => k.2) _ _ _ (Nat.zero_le _)
    intro a ha
    obtain ⟨k1, hk1, rfl⟩ := List.mem_map.mp ha
    obtain ⟨z1, -, rfl⟩ := List.mem_map.mp hk1
    exact nominal_le hs hm j1 (airyRadius_le D zs) z1 D.threshold
  split_ifs with hlt
  · show _ + 2 * _ ≤ _
    simp only at hlt ⊢
    omega
  · exact hc.trans hn

/-- every corner of a kernel centred at (`cz`, `cy`) is near -/
theorem corner_near {k : Kernel} {L : ℕ} (hk : k.size ≤ 2 * L + 1) {cz cy : ℝ} {c : ℤ × ℤ × ℝ} (hc : c ∈ (kernelSamples k cz cy).flatMap corners) :
    |cz - c.1| ≤ L + 1 ∧ |cy - c.2.1| ≤ L + 1 := by
  obtain ⟨s, hs, hc⟩ := List.mem_flatMap.mp hc
  unfold kernelSamples at hs
  obtain ⟨a, ha, hs⟩ := List.mem_flatMap.mp hs
  obtain ⟨b, hb, rfl⟩ := List.mem_map.mp hs
  rw [List.mem_range] at ha hb
  have near : ∀ (x : ℝ) (a : ℕ), a < k.size → ∀ n : ℤ, (n = ⌊x + ((a : ℝ) - ((k.size / 2 : ℕ) : ℝ))⌋ ∨ n = ⌊x + ((a : ℝ) - ((k.size / 2 : ℕ) : ℝ))⌋ + 1) →
      |x - n| ≤ L + 1 := by
    intro x a ha n hn
    have b1 : (a : ℝ) - ((k.size / 2 : ℕ) : ℝ) ≤ L := by
      have : a ≤ k.size / 2 + L := by omega
      have : (a : ℝ) ≤ ((k.size / 2 : ℕ) : ℝ) + L := by exact_mod_cast this
      linarith
    have b2 : -(L:ℝ) ≤ (a : ℝ) - ((k.size / 2 : ℕ) : ℝ) := by
      have : k.size / 2 ≤ a + L := by omega
      have : ((k.size / 2 : ℕ) : ℝ) ≤ a + L := by exact_mod_cast this
      linarith
    have f1 := Int.floor_le (x + ((a : ℝ) - ((k.size / 2 : ℕ) : ℝ)))
    have f2 := Int.lt_floor_add_one (x + ((a : ℝ) - ((k.size / 2 : ℕ) : ℝ)))
    rw [abs_le]
    rcases hn with rfl | rfl
    · constructor <;> linarith
    · push_cast
      constructor <;> linarith
  unfold corners at hc
  simp only [List.mem_cons, List.not_mem_nil, or_false] at hc
  rcases hc with rfl | rfl | rfl | rfl
  · exact ⟨near _ a ha _ (Or.inl rfl), near _ b hb _ (Or.inl rfl)⟩
  · exact ⟨near _ a ha _ (Or.inl rfl), near _ b hb _ (Or.inr rfl)⟩
  · exact ⟨near _ a ha _ (Or.inr rfl), near _ b hb _ (Or.inl rfl)⟩
  · exact ⟨near _ a ha _ (Or.inr rfl), near _ b hb _ (Or.inr rfl)⟩

theorem conv2d_dark {h w : ℕ} {k : Kernel} {r : ℕ} (hk : k.size = 2 * r + 1) {t : Frame} {i j : ℕ}
    (ht : ∀ i' j' : ℕ, |(i' : ℝ) - i| ≤ r → |(j' : ℝ) - j| ≤ r → t i' j' = 0) : conv2d h w k t i j = 0 := by
  have near : ∀ i a : ℕ, a < k.size → k.size / 2 ≤ i + a → |((i + a - k.size / 2 : ℕ) : ℝ) - i| ≤ r := by
    intro i a ha hle
    have e : k.size / 2 = r := by omega
    rw [e] at hle ⊢
    rw [Nat.cast_sub hle]
    push_cast
    have : a ≤ 2 * r := by omega
    have h1 : (a : ℝ) ≤ 2 * r := by exact_mod_cast this
    have h0 : (0:ℝ) ≤ a := Nat.cast_nonneg _
    rw [abs_le]; constructor <;> linarith
  unfold conv2d
  split_ifs
  · apply Finset.sum_eq_zero; intro a ha
    apply Finset.sum_eq_zero; intro b hb
    rw [Finset.mem_range] at ha hb
    split_ifs with hin
    · rw [ht _ _ (near i a ha hin.1) (near j b hb hin.2.2.1), zero_mul]
    · rfl
  · rfl

theorem nanoPairs_size_le {D : Detector} (hs : 0 < D.sigma) (hm : 0 ≤ D.maxRadius) {j1 : ℝ → ℝ} {bs : List (List (List Fl))} {rks : List (List Fl × Kernel)}
    (h : nanoPairs D j1 bs = .ok rks) : ∀ rk ∈ rks, rk.2.size ≤ 2 * max 128 D.maxRadius.toNat + 1 := by
  induction bs generalizing rks with
  | nil => simp only [nanoPairs, Except.ok.injEq] at h; subst h; simp
  | cons b bs ih =>
    rw [nanoPairs] at h
    cases hk : D.airyKernels j1 (b.map D.firstZero) with
    | error e => rw [hk] at h; cases h
    | ok ks =>
      rw [hk] at h
      simp only at h
      cases hr : nanoPairs D j1 bs with
      | error e => rw [hr] at h; cases h
      | ok rest =>
        rw [hr] at h
        have h' : rks = b.zip ks ++ rest := (Except.ok.inj h).symm
        intro rk hrk
        rw [h'] at hrk
        rcases List.mem_append.mp hrk with h1 | h1
        · exact airyKernels_size_le hs hm hk _ (List.of_mem_zip (a := rk.1) (b := rk.2) h1).2
        · exact ih hr rk h1

/-- C123: in a `nano` image a pixel is dark in a frame if every hit of that frame arrives farther from it, in rows or in columns, than the reach:
however broad the peaks are. -/
theorem C123_nano_reach (D : Detector) (hs : 0 < D.sigma) (hm : 0 ≤ D.maxRadius) (env : RenderEnv) (ha : IsArgsort env.argsortDesc)
    (d : PeaksDict) (hcol : d.columns = peakColumns) (mesh : TetraMesh) (frames : ℤ) (ml : Option ℝ) (mi : ℝ) (t : Stack) (out : PeaksDict)
    (h : D.render env d mesh frames .nano ml mi = .ok (some t, out)) (f i j : ℕ)
    (hfar : ∀ r ∈ out.peaks, val out.columns r "frame" = (f : ℝ) →
      nanoReach D < |val out.columns r "zd" / D.pz - i| ∨ nanoReach D < |val out.columns r "yd" / D.py - j|) :
    t f i j = 0 := by
  rw [render_nano, renderNano_eq ha] at h
  set n := max frames 1 with hn
  cases hp : nanoPairs D env.j1 (D.nanoBatches (env.freeGb * 1024 ^ 3) (sortedRows env.argsortDesc D.airyMemory (D.peaksIntersection d n).peaks)) with
  | error e => rw [hp] at h; cases h
  | ok rks =>
    rw [hp] at h
    have h' := Except.ok.inj h
    simp only [Prod.mk.injEq, Option.some.injEq] at h'
    obtain ⟨ht, ho⟩ := h'
    have hc : out.columns = hitColumns := by rw [← ho]; show d.columns ++ _ = _; rw [hcol]; rfl
    have hsize := nanoPairs_size_le hs hm hp
    have hrow : ∀ rk ∈ rks, rk.1 ∈ out.peaks := by
      intro rk hrk
      have h1 : rk.1 ∈ rks.map Prod.fst := List.mem_map.mpr ⟨rk, hrk, rfl⟩
      rw [nanoPairs_fst hp, nanoBatches_flatten] at h1
      rw [← ho]
      exact (sortedRows_perm ha _ _).mem_iff.mp h1
    obtain ⟨r, hr1, hr2, -⟩ := C28_point_spread_kernel D hs hm
    rw [← ht]
    beta_reduce
    split_ifs with hf
    · apply conv2d_dark hr1
      intro i' j' hi hj
      unfold cornerSum
      apply List.sum_eq_zero
      intro y hy
      obtain ⟨c, hcm, rfl⟩ := List.mem_map.mp hy
      rw [if_neg]
      rintro ⟨-, e1, e2⟩
      unfold allCorners nanoAdd at hcm
      obtain ⟨q, hq, hcq⟩ := List.mem_flatMap.mp hcm
      obtain ⟨rk, hrk, rfl⟩ := List.mem_map.mp hq
      rw [List.mem_filter] at hrk
      obtain ⟨hrk, hfr⟩ := hrk
      simp only [decide_eq_true_eq] at hfr
      have hk : (Detector.scaleKernel rk.2 (rcol rk.1 29 * rcol rk.1 21)).size ≤ 2 * max 128 D.maxRadius.toNat + 1 := hsize rk hrk
      obtain ⟨n1, n2⟩ := corner_near hk hcq
      simp only at n1 n2
      rw [e1] at n1
      rw [e2] at n2
      have hL : ((max 128 D.maxRadius.toNat : ℕ) : ℝ) = max 128 (D.maxRadius : ℝ) := by
        have : ((D.maxRadius.toNat : ℕ) : ℝ) = (D.maxRadius : ℝ) := by
          have := Int.toNat_of_nonneg hm
          exact_mod_cast congrArg (Int.cast : ℤ → ℝ) this
        push_cast
        rw [this]
      have hrR : (r : ℝ) ≤ D.maxRadius := by exact_mod_cast hr2
      have hfa := hfar rk.1 (hrow rk hrk)
      rw [hc, rcol_eq _ "frame" (j := 28) rfl, rcol_eq _ "zd" (j := 25) rfl, rcol_eq _ "yd" (j := 26) rfl] at hfa
      rw [hL] at n1 n2
      unfold nanoReach at hfa
      push_cast at n1 n2
      rcases hfa hfr with g | g
      · have := abs_sub_le (rcol rk.1 25 / D.pz) (i' : ℝ) (i : ℝ)
        linarith
      · have := abs_sub_le (rcol rk.1 26 / D.py) (j' : ℝ) (j : ℝ)
        linarith
    · rfl

/-- a case: a peak that arrives near the first corner leaves the pixel of the opposite corner dark -/
example (j1 : ℝ → ℝ) (s : List ℝ → List ℕ) (hs : IsArgsort s) (hull : Beam → List V3 → Option Hull) (sample : Hull → ℕ → List V3)
    (mesh : TetraMesh) : ∃ t o, o.peaks.length = 1 ∧
      nanoDet.render ⟨j1, s, 1, hull, sample⟩ (imgDict [imgRow 1 (-90) (-90) (1/2) 1 (widthFor (1/10))]) mesh 1 .nano none 1 = .ok (some t, o) ∧
      t 0 199 0 = 0 := by
  have hh : (nanoDet.peaksIntersection (imgDict [imgRow 1 (-90) (-90) (1/2) 1 (widthFor (1/10))]) 1).peaks =
      [imgHit 1 1 (-90) (-90) (1/2) 1 (widthFor (1/10))] := by
    unfold nanoDet
    rw [imgDict_kept 1 1 _ 1 1 (-90) (-90) (1/2) 1 (widthFor (1/10)) (by norm_num [abs_le]) (by norm_num [abs_le]) _ (by simp)]
    rfl
  obtain ⟨t, o, ht⟩ := nano_single nanoDet ⟨j1, s, 1, hull, sample⟩ hs (imgDict [imgRow 1 (-90) (-90) (1/2) 1 (widthFor (1/10))]) mesh 1 none 1 _ hh
  have ho : o = nanoDet.peaksIntersection (imgDict [imgRow 1 (-90) (-90) (1/2) 1 (widthFor (1/10))]) 1 := by
    rw [render_nano] at ht
    cases hr : nanoDet.renderNano ⟨j1, s, 1, hull, sample⟩ (nanoDet.peaksIntersection (imgDict [imgRow 1 (-90) (-90) (1/2) 1 (widthFor (1/10))])
      (max 1 1)).peaks (max (1:ℤ) 1).toNat with
    | error e => rw [hr] at ht; cases ht
    | ok a => rw [hr] at ht; exact (Prod.mk.inj (Except.ok.inj ht)).2.symm
  refine ⟨t, o, by rw [ho, hh]; rfl, ht, ?_⟩
  apply C123_nano_reach nanoDet nanoDet_sigma nanoDet_max ⟨j1, s, 1, hull, sample⟩ hs _ rfl mesh 1 none 1 t o ht
  intro r hr _
  rw [ho, hh, List.mem_singleton] at hr
  subst hr
  left
  have hc : o.columns = hitColumns := by rw [ho]; rfl
  have e : val o.columns (imgHit 1 1 (-90) (-90) (1/2) 1 (widthFor (1/10))) "zd" = -90 + 100 := by
    rw [hc, rcol_eq _ "zd" (j := 25) rfl]; rfl
  have hp : nanoDet.pz = 1 := rfl
  have hm : nanoDet.maxRadius = 13 := rfl
  rw [e, hp]
  unfold nanoReach
  rw [hm]
  norm_num [abs_of_neg]

/-- C102, what the padding can cost at most: the kernels of a batch never take more than `8 (2 m + 1)²` bytes each, `m` being 128 or the largest
kernel radius if it is larger, however many or broad the peaks. -/
theorem C102_kernels_bounded (D : Detector) (hs : 0 < D.sigma) (hm : 0 ≤ D.maxRadius) (j1 : ℝ → ℝ) (b : List (List Fl)) (ks : List Kernel)
    (h : D.airyKernels j1 (b.map D.firstZero) = .ok ks) :
    kernelBytes ks ≤ 8 * (2 * max 128 (D.maxRadius : ℝ) + 1) ^ 2 * b.length := by
  have hl : ks.length = b.length := by rw [airyKernels_length h]; simp
  have hT : ((D.maxRadius.toNat : ℕ) : ℝ) = (D.maxRadius : ℝ) := by
    have := Int.toNat_of_nonneg hm
    exact_mod_cast congrArg (Int.cast : ℤ → ℝ) this
  unfold kernelBytes
  rw [← hl]
  have := List.sum_le_card_nsmul (ks.map fun k => 8 * (k.size : ℝ) ^ 2) (8 * (2 * max 128 (D.maxRadius : ℝ) + 1) ^ 2) (by
    intro x hx
    obtain ⟨k, hk, rfl⟩ := List.mem_map.mp hx
    have h1 : (k.size : ℝ) ≤ ((2 * max 128 D.maxRadius.toNat + 1 : ℕ) : ℝ) := Nat.cast_le.mpr (airyKernels_size_le hs hm h k hk)
    push_cast at h1
    rw [hT] at h1
    have h0 : (0:ℝ) ≤ k.size := Nat.cast_nonneg _
    gcongr)
  rw [List.length_map, nsmul_eq_mul] at this
  linarith

end XRD
