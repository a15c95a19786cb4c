import Verif.Props.NanoFails

/-! Property C102: the batches of the `nano` method and the free memory. -/

namespace XRD.Spec
open XRD V3
/-- The number of bytes the code reserves for a peak: 3 (safety) × 4 (buffers) × 8 bytes for every entry of a square kernel that reaches four
first zeros of the Airy pattern, and three widths of the point spread, from its centre. -/
noncomputable def reservedBytes (D : Detector) (cols : List String) (row : List Fl) : ℝ :=
  96 * (2 * (⌈max (4 * firstZeroPixels D cols row) (3 * D.sigma)⌉ : ℝ) + 1) ^ 2
/-- bytes of the kernels of a batch, as double precision numbers -/
noncomputable def kernelBytes (ks : List Kernel) : ℝ := (ks.map fun k => 8 * (k.size : ℝ) ^ 2).sum
/-- `bs` is a greedy division into batches: each is as long as possible for the budget, but has at least one member. -/
def Greedy {α : Type} (cost : α → ℝ) (budget : ℝ) (bs : List (List α)) : Prop :=
  ∀ (pre : List (List α)) (b : List α) (post : List (List α)), bs = pre ++ b :: post →
    b ≠ [] ∧ (b.length = 1 ∨ (b.map cost).sum ≤ budget) ∧ ∀ (c : List α) (rest : List (List α)) (a : α) (as : List α), post = c :: rest → c = a :: as →
      budget < (b.map cost).sum + cost a
end XRD.Spec

namespace XRD
open V3 M3 Fl Spec
open scoped Classical

theorem airyMemory_eq (D : Detector) (row : List Fl) : D.airyMemory row = reservedBytes D hitColumns row := by
  unfold Detector.airyMemory reservedBytes
  rw [firstZero_eq]; ring

/-- positive costs: the number of affordable prefixes is the length of the longest affordable prefix -/
theorem affordable {α : Type} {cost : α → ℝ} (hc : ∀ a, 0 < cost a) (budget : ℝ) (l : List α) :
    ∃ m ≤ l.length, ((List.range l.length).filter fun i : ℕ => ((l.take (i + 1)).map cost).sum ≤ budget).length = m ∧
      (∀ i < m, ((l.take (i + 1)).map cost).sum ≤ budget) ∧ ∀ i, m ≤ i → i < l.length → budget < ((l.take (i + 1)).map cost).sum := by
  have hmono : ∀ i, i + 1 < l.length → ((l.take (i + 1)).map cost).sum < ((l.take (i + 2)).map cost).sum := by
    intro i hi
    rw [List.take_succ_eq_append_getElem (by omega : i + 1 < l.length), List.map_append, List.sum_append]
    simp [hc]
  have key : ∀ n ≤ l.length, ∃ m ≤ n, ((List.range n).filter fun i : ℕ => ((l.take (i + 1)).map cost).sum ≤ budget).length = m ∧
      (∀ i < m, ((l.take (i + 1)).map cost).sum ≤ budget) ∧ ∀ i, m ≤ i → i < n → budget < ((l.take (i + 1)).map cost).sum := by
    intro n
    induction n with
    | zero => intro _; exact ⟨0, le_refl _, by simp, by simp, by omega⟩
    | succ n ih =>
      intro hn
      obtain ⟨m, hm, h1, h2, h3⟩ := ih (by omega)
      rw [List.range_succ, List.filter_append, List.length_append, h1]
      by_cases hb : ((l.take (n + 1)).map cost).sum ≤ budget
      · have hmn : m = n := by
          by_contra hne
          have h4 := h3 (n - 1) (by omega) (by omega)
          have h5 := hmono (n - 1) (by omega)
          rw [show n - 1 + 2 = n + 1 by omega] at h5
          linarith
        subst hmn
        refine ⟨m + 1, le_refl _, by rw [List.filter_cons_of_pos (by simpa only [decide_eq_true_eq] using hb)]; simp, ?_, by omega⟩
        intro i hi
        rcases Nat.lt_succ_iff_lt_or_eq.mp hi with h | rfl
        · exact h2 i h
        · exact hb
      · refine ⟨m, by omega, by rw [List.filter_cons_of_neg (by simpa only [decide_eq_true_eq] using hb)]; simp, h2, ?_⟩
        intro i hi hin
        rcases Nat.lt_succ_iff_lt_or_eq.mp hin with h | rfl
        · exact h3 i hi h
        · exact not_le.mp hb
  exact key l.length le_rfl

theorem batchesBy_greedy {α : Type} {cost : α → ℝ} (hc : ∀ a, 0 < cost a) (budget : ℝ) (l : List α) :
    Greedy cost budget (batchesBy cost budget l) := by
  induction hn : l.length using Nat.strong_induction_on generalizing l with
  | _ n ih =>
    cases l with
    | nil => intro pre b post h; rw [batchesBy] at h; exact absurd h (by simp)
    | cons r rs =>
      rw [batchesBy]
      obtain ⟨m, hm, h1, h2, h3⟩ := affordable hc budget (r :: rs)
      rw [h1]
      have hrec := ih ((r :: rs).drop (max 1 m)).length (by rw [← hn, List.length_drop, List.length_cons]; have := le_max_left 1 m; omega) _ rfl
      have hflat := batchesBy_flatten cost budget ((r :: rs).drop (max 1 m))
      generalize hX : batchesBy cost budget ((r :: rs).drop (max 1 m)) = X at hrec hflat
      intro pre b post h
      cases pre with
      | cons q pre =>
        rw [List.cons_append] at h
        exact hrec pre b post (List.cons.inj h).2
      | nil =>
        rw [List.nil_append] at h
        obtain ⟨rfl, rfl⟩ := List.cons.inj h
        have h1m : 1 ≤ max 1 m := le_max_left _ _
        refine ⟨?_, ?_, ?_⟩
        · intro h0
          have := congrArg List.length h0
          simp only [List.length_take, List.length_cons, List.length_nil] at this
          omega
        · by_cases hm1 : m ≤ 1
          · left; rw [max_eq_left hm1]; simp
          · right
            rw [max_eq_right (by omega)]
            have := h2 (m - 1) (by omega)
            rwa [show m - 1 + 1 = m by omega] at this
        · rintro c rest a as rfl rfl
          have hd : (r :: rs).drop (max 1 m) = a :: (as ++ rest.flatten) := by rw [← hflat]; rfl
          have hlt : max 1 m < (r :: rs).length := by
            by_contra hge
            rw [List.drop_eq_nil_of_le (by omega)] at hd
            cases hd
          have hget : (r :: rs)[max 1 m] = a := by
            have := List.drop_eq_getElem_cons hlt
            rw [hd] at this
            exact (List.cons.inj this).1.symm
          have := h3 (max 1 m) (le_max_right _ _) hlt
          rw [List.take_succ_eq_append_getElem hlt, hget, List.map_append, List.sum_append] at this
          simpa using this

theorem nanoBatches_greedy (D : Detector) (hs : 0 ≤ D.sigma) (budget : ℝ) (l : List (List Fl)) :
    Greedy (reservedBytes D hitColumns) budget (D.nanoBatches budget l) := by
  have h := nanoBatches_eq D budget (fun a : List Fl => a) l
  simp only [List.map_id_fun', id_eq, List.map_id_fun, List.map_id] at h
  rw [h]
  have e : (fun a => D.airyMemory a) = reservedBytes D hitColumns := by funext a; exact airyMemory_eq D a
  rw [e]
  refine batchesBy_greedy (fun a => ?_) budget l
  rw [← airyMemory_eq]
  exact airyMemory_pos D hs a

/-- the pairs batch by batch -/
theorem nanoPairs_batches {D : Detector} {j1 : ℝ → ℝ} {bs : List (List (List Fl))} {rks : List (List Fl × Kernel)}
    (h : nanoPairs D j1 bs = .ok rks) : ∃ kss : List (List Kernel), List.Forall₂ (fun b ks => D.airyKernels j1 (b.map D.firstZero) = .ok ks) bs kss ∧
      rks = (List.zipWith List.zip bs kss).flatten := by
  induction bs generalizing rks with
  | nil => simp only [nanoPairs, Except.ok.injEq] at h; subst h; exact ⟨[], .nil, rfl⟩
  | cons b bs ih =>
    rw [nanoPairs] at h
    cases hk : D.airyKernels j1 (b.map D.firstZero) with
    | error e => rw [hk] at h; cases h
    | ok ks =>
      rw [hk] at h
      simp only at h
      cases hr : nanoPairs D j1 bs with
      | error e => rw [hr] at h; cases h
      | ok rest =>
        rw [hr] at h
        have h' : rks = b.zip ks ++ rest := (Except.ok.inj h).symm
        obtain ⟨kss, h1, h2⟩ := ih hr
        exact ⟨ks :: kss, .cons hk h1, by rw [h', h2]; rfl⟩

/-- all kernels of a batch have the same size -/
theorem airyKernels_sizes {D : Detector} {j1 : ℝ → ℝ} {zs : List ℝ} {ks : List Kernel} (h : D.airyKernels j1 zs = .ok ks) :
    ∀ k ∈ ks, ∀ k' ∈ ks, k.size = k'.size := by
  unfold Detector.airyKernels at h
  dsimp only at h
  split_ifs at h with hne
  obtain rfl := Except.ok.inj h
  push Not at hne
  exact hne

/-- C102: how `nano` divides the work.  If the rendering succeeds, the image is the sum over batches that together hold every hit exactly once;
all batches but those of a single peak have a sum of reserved bytes within the free memory reported when the call began; each
batch is as long as that budget allows; and the kernels of a batch are all of the same size. -/
theorem C102_batches_fit_estimate_partial (D : Detector) (hsg : 0 ≤ D.sigma) (env : RenderEnv) (hs : IsArgsort env.argsortDesc) (d : PeaksDict)
    (hcol : d.columns = peakColumns) (mesh : TetraMesh) (frames : ℤ) (ml : Option ℝ) (mi : ℝ) (t : Stack) (out : PeaksDict)
    (h : D.render env d mesh frames .nano ml mi = .ok (some t, out)) :
    ∃ bs : List (List (List Fl × Kernel)), (bs.flatten.map Prod.fst).Perm out.peaks ∧
      Greedy (fun rk => reservedBytes D out.columns rk.1) (env.freeGb * 1024 ^ 3) bs ∧
      (∀ b ∈ bs, ∀ rk ∈ b, ∀ rk' ∈ b, rk.2.size = rk'.2.size) ∧
      ∀ f < (max frames 1).toNat, t f = conv2d D.nz D.ny D.gaussKernel (depositKernels D.nz D.ny (fun _ _ => 0)
        ((bs.flatten.filter fun rk => val out.columns rk.1 "frame" = (f : ℝ)).map fun rk =>
          (⟨rk.2.size, fun i j => rk.2.val i j * (val out.columns rk.1 "intensity_factors" * val out.columns rk.1 "volumes")⟩,
            val out.columns rk.1 "zd" / D.pz, val out.columns rk.1 "yd" / D.py))) := by
  rw [render_nano, renderNano_eq hs] at h
  set n := max frames 1 with hn
  cases hp : nanoPairs D env.j1 (D.nanoBatches (env.freeGb * 1024 ^ 3) (sortedRows env.argsortDesc D.airyMemory (D.peaksIntersection d n).peaks)) with
  | error e => rw [hp] at h; cases h
  | ok rks =>
    rw [hp] at h
    have h' := Except.ok.inj h
    simp only [Prod.mk.injEq, Option.some.injEq] at h'
    obtain ⟨ht, ho⟩ := h'
    have hc : out.columns = hitColumns := by rw [← ho]; show d.columns ++ _ = _; rw [hcol]; rfl
    obtain ⟨kss, hk, hr⟩ := nanoPairs_batches hp
    obtain ⟨B, hB⟩ : ∃ B, B = D.nanoBatches (env.freeGb * 1024 ^ 3) (sortedRows env.argsortDesc D.airyMemory (D.peaksIntersection d n).peaks) := ⟨_, rfl⟩
    rw [← hB] at hk hr hp
    have hfst : ∀ {B : List (List (List Fl))} {kss : List (List Kernel)},
        List.Forall₂ (fun b ks => D.airyKernels env.j1 (b.map D.firstZero) = .ok ks) B kss →
        (List.zipWith List.zip B kss).map (List.map Prod.fst) = B := by
      intro B kss hk
      induction hk with
      | nil => rfl
      | @cons b ks B kss h1 h2 ih =>
        simp only [List.zipWith_cons_cons, List.map_cons, ih]
        rw [List.map_fst_zip]
        rw [airyKernels_length h1]; simp
    refine ⟨List.zipWith List.zip B kss, ?_, ?_, ?_, ?_⟩
    · rw [← hr, nanoPairs_fst hp, hB, nanoBatches_flatten, ← ho]
      exact sortedRows_perm hs _ _
    · have hg : Greedy (reservedBytes D hitColumns) (env.freeGb * 1024 ^ 3) B := by rw [hB]; exact nanoBatches_greedy D hsg _ _
      have hf := hfst hk
      rw [hc]
      rw [← hf] at hg
      generalize List.zipWith List.zip B kss = Z at hg
      intro pre b post hZ
      have e : Z.map (List.map Prod.fst) = pre.map (List.map Prod.fst) ++ b.map Prod.fst :: post.map (List.map Prod.fst) := by rw [hZ]; simp
      obtain ⟨g1, g2, g3⟩ := hg _ _ _ e
      have es : (b.map Prod.fst).map (reservedBytes D hitColumns) = b.map fun rk => reservedBytes D hitColumns rk.1 := by
        rw [List.map_map]; rfl
      rw [es] at g2 g3
      rw [List.length_map] at g2
      refine ⟨fun h0 => g1 (by rw [h0]; rfl), g2, ?_⟩
      rintro c rest a as rfl rfl
      exact g3 _ _ a.1 (as.map Prod.fst) (by rw [List.map_cons]) (by rw [List.map_cons])
    · intro b hb rk hrk rk' hrk'
      have : ∀ {B : List (List (List Fl))} {kss : List (List Kernel)},
          List.Forall₂ (fun b ks => D.airyKernels env.j1 (b.map D.firstZero) = .ok ks) B kss →
          ∀ b ∈ List.zipWith List.zip B kss, ∀ rk ∈ b, ∀ rk' ∈ b, rk.2.size = rk'.2.size := by
        intro B kss hk
        induction hk with
        | nil => intro b hb; cases hb
        | @cons b ks B kss h1 h2 ih =>
          intro c hc rk hrk rk' hrk'
          rw [List.zipWith_cons_cons] at hc
          rcases List.mem_cons.mp hc with rfl | hc
          · exact airyKernels_sizes h1 _ (List.of_mem_zip hrk).2 _ (List.of_mem_zip hrk').2
          · exact ih c hc rk hrk rk' hrk'
      exact this hk b hb rk hrk rk' hrk'
    · intro f hf
      rw [← hr, ← ht]
      simp only [if_pos hf]
      congr 1
      funext i j
      rw [depositKernels_eq, zero_add, hc]
      simp only [rcol_eq _ "frame" (j := 28) rfl, rcol_eq _ "intensity_factors" (j := 29) rfl, rcol_eq _ "volumes" (j := 21) rfl,
        rcol_eq _ "zd" (j := 25) rfl, rcol_eq _ "yd" (j := 26) rfl]
      rfl

/-- such renderings exist: the mixed table below, without free memory (every peak its own batch) -/
example (env : RenderEnv) (ha : IsArgsort env.argsortDesc) (h0 : env.freeGb ≤ 0) (mesh : TetraMesh) :
    ∃ t out, nanoDet.render env (imgDict [imgRow 0 0 0 (1/2) 1 (widthFor 10), imgRow 1 40 40 (1/2) 1 (widthFor (1/10))]) mesh 3 .nano none 0 =
      .ok (some t, out) :=
  C67_nano_succeeds_partial nanoDet nanoDet_sigma nanoDet_max env ha _ rfl mesh 3 none 0 (Or.inr h0)

/-! ### the estimate is too small -/

theorem wide_entry {j1 : ℝ → ℝ} (hj : BesselFacts j1) : (1:ℝ) / 10 ^ 13 < (nanoDet.airyKernel j1 ((40:ℕ):ℝ) 10).val 76 67 := by
  have hlen : Detector.axisLen ((40:ℕ):ℝ) = 81 := axisLen_nat 40
  have hv : (1:ℝ) / 10000 ≤ Detector.airyProfile j1 nanoDet.sigma 10
      (Real.sqrt (Detector.axisAt ((40:ℕ):ℝ) 76 ^ 2 + Detector.axisAt ((40:ℕ):ℝ) 67 ^ 2)) := by
    have e : Real.sqrt (Detector.axisAt ((40:ℕ):ℝ) 76 ^ 2 + Detector.axisAt ((40:ℕ):ℝ) 67 ^ 2) = 45 := by
      unfold Detector.axisAt
      rw [show (-((40:ℕ):ℝ) + (76:ℕ)) ^ 2 + (-((40:ℕ):ℝ) + (67:ℕ)) ^ 2 = 45 ^ 2 by norm_num]
      exact Real.sqrt_sq (by norm_num)
    have hsg : nanoDet.sigma = 1 := rfl
    rw [e, hsg]
    unfold Detector.airyProfile
    simp only []
    rw [if_neg (show ¬ (10:ℝ) < 1 by norm_num), if_neg (show ¬ (45:ℝ) = 0 by norm_num),
      show (38317:ℝ) / 10000 * 45 / 10 = 38317 / 10000 * 9 / 2 by norm_num,
      if_neg (show ¬ |(38317:ℝ) / 10000 * 9 / 2| < 1 / 10 ^ 8 by rw [abs_of_pos (by norm_num)]; norm_num)]
    have h1 := hj.at1
    have h2 : (1:ℝ) / 100 ≤ |j1 (38317 / 10000 * 9 / 2)| ^ 2 := by nlinarith
    rw [sq_abs] at h2
    rw [div_pow, mul_pow, le_div_iff₀ (by norm_num)]
    norm_num at h2 ⊢
    linarith
  refine lt_of_lt_of_le ?_ (airyKernel_entry hj (by norm_num) (by rw [hlen]; norm_num) (by rw [hlen]; norm_num) (by norm_num) hv)
  rw [hlen]; norm_num

theorem wide_size {j1 : ℝ → ℝ} (hj : BesselFacts j1) : 73 ≤ (cropKernel nanoDet j1 ((40:ℕ):ℝ) 10).size := by
  have hlen : Detector.axisLen ((40:ℕ):ℝ) = 81 := axisLen_nat 40
  have hent := wide_entry hj
  obtain ⟨k, hk⟩ : ∃ k, k = nanoDet.airyKernel j1 ((40:ℕ):ℝ) 10 := ⟨_, rfl⟩
  have hksz : k.size = 81 := by
    rw [hk]; unfold Detector.airyKernel; rw [if_neg (by norm_num)]; exact hlen
  have hsub : SubUnit k := by rw [hk]; exact airyKernel_subUnit nanoDet_sigma nanoDet_max j1 _ _
  have hth : nanoDet.threshold = 1 / 10 ^ 13 := rfl
  have hm9 : 35 < cropSearch k nanoDet.threshold 1 (k.size / 2) :=
    cropSearch_gt hsub (a := 76) (b := 67) (m := 35) (by omega) (by omega) (by left; rw [hksz]; norm_num) (by rw [hth, hk]; exact hent) (by omega)
  have hm12 := cropSearch_le k nanoDet.threshold 1 (k.size / 2) (by omega)
  unfold cropKernel
  rw [← hk]
  unfold Kernel.crop
  dsimp only
  omega

/-- one peak with its first dark ring at 10 pixels, and twenty at a tenth of a pixel -/
noncomputable def mixedRows : List (List Fl) := imgRow 0 0 0 (1/2) 1 (widthFor 10) :: List.replicate 20 (imgRow 1 40 40 (1/2) 1 (widthFor (1/10)))
noncomputable def mixedHits : List (List Fl) := imgHit 1 0 0 0 (1/2) 1 (widthFor 10) :: List.replicate 20 (imgHit 1 1 40 40 (1/2) 1 (widthFor (1/10)))

theorem mixed_hits : (nanoDet.peaksIntersection (imgDict mixedRows) 1).peaks = mixedHits := by
  have hl : ∀ n, ∀ r ∈ List.replicate n (imgRow 1 40 40 (1/2) 1 (widthFor (1/10))), r.length = 25 := by
    intro n r hr; rw [List.eq_of_mem_replicate hr]; rfl
  unfold mixedRows mixedHits nanoDet
  rw [imgDict_kept 1 1 _ 1 0 0 0 (1/2) 1 _ (by norm_num) (by norm_num) _ (hl 20)]
  congr 1
  have : ∀ n, ((imgDet 1 1 (1 / 10 ^ 13)).peaksIntersection (imgDict (List.replicate n (imgRow 1 40 40 (1/2) 1 (widthFor (1/10))))) 1).peaks =
      List.replicate n (imgHit 1 1 40 40 (1/2) 1 (widthFor (1/10))) := by
    intro n
    induction n with
    | zero => rfl
    | succ n ih =>
      rw [List.replicate_succ, imgDict_kept 1 1 _ 1 1 40 40 (1/2) 1 _ (by norm_num [abs_of_pos]) (by norm_num [abs_of_pos]) _ (hl n), ih]
      rfl
  exact this 20

theorem mixed_fz : ∀ r ∈ mixedHits, nanoDet.firstZero r = 10 ∨ nanoDet.firstZero r = 1 / 10 := by
  intro r hr
  rcases List.mem_cons.mp hr with rfl | hr
  · exact Or.inl (nanoDet_firstZero _ _ _ _ _ _ _)
  · rw [List.eq_of_mem_replicate hr]; exact Or.inr (nanoDet_firstZero _ _ _ _ _ _ _)

theorem mixed_bytes : (mixedHits.map (reservedBytes nanoDet hitColumns)).sum = 723936 := by
  have hs : nanoDet.sigma = 1 := rfl
  have h1 : reservedBytes nanoDet hitColumns (imgHit 1 0 0 0 (1/2) 1 (widthFor 10)) = 629856 := by
    unfold reservedBytes
    rw [← firstZero_eq, nanoDet_firstZero, hs, show max (4 * 10 : ℝ) (3 * 1) = (40 : ℤ) by norm_num, Int.ceil_intCast]
    norm_num
  have h2 : reservedBytes nanoDet hitColumns (imgHit 1 1 40 40 (1/2) 1 (widthFor (1/10))) = 4704 := by
    unfold reservedBytes
    rw [← firstZero_eq, nanoDet_firstZero, hs, show max (4 * (1 / 10) : ℝ) (3 * 1) = (3 : ℤ) by norm_num, Int.ceil_intCast]
    norm_num
  unfold mixedHits
  rw [List.map_cons, List.map_replicate, List.sum_cons, List.sum_replicate, h1, h2]
  norm_num

theorem batch_all {D : Detector} (hs : 0 ≤ D.sigma) {budget : ℝ} {l : List (List Fl)} (hl : l ≠ [])
    (h : (l.map (reservedBytes D hitColumns)).sum ≤ budget) : D.nanoBatches budget l = [l] := by
  have hg := nanoBatches_greedy D hs budget l
  have hf := nanoBatches_flatten D budget l
  have hpos : ∀ r, 0 < reservedBytes D hitColumns r := fun r => by rw [← airyMemory_eq]; exact airyMemory_pos D hs r
  cases hb : D.nanoBatches budget l with
  | nil => rw [hb] at hf; exact absurd hf.symm hl
  | cons b bs =>
    rw [hb] at hf hg
    cases bs with
    | nil => rw [List.flatten_cons, List.flatten_nil, List.append_nil] at hf; rw [hf]
    | cons c bs =>
      exfalso
      obtain ⟨hc, -, -⟩ := hg [b] c bs rfl
      obtain ⟨a, as, rfl⟩ := List.exists_cons_of_ne_nil hc
      obtain ⟨-, -, h3⟩ := hg [] b ((a :: as) :: bs) rfl
      have h4 := h3 _ _ a as rfl rfl
      rw [← hf] at h
      simp only [List.flatten_cons, List.map_append, List.sum_append, List.map_cons, List.sum_cons] at h
      have h5 : ∀ l : List (List Fl), 0 ≤ (l.map (reservedBytes D hitColumns)).sum :=
        fun l => List.sum_nonneg fun x hx => by obtain ⟨r, -, rfl⟩ := List.mem_map.mp hx; exact (hpos r).le
      have := h5 as
      have := h5 bs.flatten
      linarith

theorem maxL_eq {c z : ℝ} {zs : List ℝ} (h1 : ∀ x ∈ z :: zs, x ≤ c) (h2 : c ∈ z :: zs) : Detector.maxL z zs = c := by
  apply le_antisymm
  · exact maxL_le (h1 z List.mem_cons_self) fun x hx => h1 x (List.mem_cons_of_mem _ hx)
  · have key : ∀ (zs : List ℝ) (a : ℝ), a ≤ Detector.maxL a zs ∧ ∀ x ∈ zs, x ≤ Detector.maxL a zs := by
      intro zs
      induction zs with
      | nil => intro a; exact ⟨le_refl _, by simp⟩
      | cons y ys ih =>
        intro a
        have e : Detector.maxL a (y :: ys) = Detector.maxL (max a y) ys := rfl
        rw [e]
        obtain ⟨i1, i2⟩ := ih (max a y)
        refine ⟨(le_max_left _ _).trans i1, ?_⟩
        intro x hx
        rcases List.mem_cons.mp hx with rfl | hx
        · exact (le_max_right _ _).trans i1
        · exact i2 x hx
    rcases List.mem_cons.mp h2 with rfl | h2
    · exact (key zs _).1
    · exact (key zs z).2 c h2

/-- C102 is false of the real use of memory: the kernels of a batch are all padded to the size of the largest one, which the estimate ignores.
With 724000 bytes free, one broad and twenty sharp peaks are put in one batch in whatever order, and its kernels alone take 895000 bytes
or more. -/
theorem C102_padding_fails (j1 : ℝ → ℝ) (hj : BesselFacts j1) (rows : List (List Fl))
    (hr : rows.Perm (nanoDet.peaksIntersection (imgDict mixedRows) 1).peaks) :
    nanoDet.nanoBatches 724000 rows = [rows] ∧
    ∃ ks, nanoDet.airyKernels j1 (rows.map nanoDet.firstZero) = .ok ks ∧ 895000 ≤ kernelBytes ks := by
  rw [mixed_hits] at hr
  have hne : rows ≠ [] := by
    rintro rfl
    have := hr.length_eq
    simp [mixedHits] at this
  refine ⟨batch_all nanoDet_sigma.le hne ?_, ?_⟩
  · rw [(hr.map _).sum_eq, mixed_bytes]; norm_num
  · have hz : ∀ z ∈ rows.map nanoDet.firstZero, z ≤ 10 := by
      intro z hz
      obtain ⟨r, h1, rfl⟩ := List.mem_map.mp hz
      rcases mixed_fz r (hr.mem_iff.mp h1) with h | h <;> rw [h]
      norm_num
    have h10 : (10 : ℝ) ∈ rows.map nanoDet.firstZero :=
      List.mem_map.mpr ⟨imgHit 1 0 0 0 (1/2) 1 (widthFor 10), hr.mem_iff.mpr List.mem_cons_self, nanoDet_firstZero _ _ _ _ _ _ _⟩
    have hR : nanoDet.airyRadius (rows.map nanoDet.firstZero) = ((40 : ℕ) : ℝ) := by
      generalize rows.map nanoDet.firstZero = zs at hz h10
      cases zs with
      | nil => cases h10
      | cons z zs =>
        apply nanoDet_radius
        · rw [maxL_eq hz h10]; norm_num
        · norm_num
    obtain ⟨M, hM⟩ := airyKernels_nat nanoDet_sigma nanoDet_max j1 hR
    refine ⟨_, hM, ?_⟩
    have hsame := airyKernels_sizes hM
    have hbig : ∀ k ∈ ((rows.map nanoDet.firstZero).map fun z => if (cropKernel nanoDet j1 ((40:ℕ):ℝ) z).size < M then
      (cropKernel nanoDet j1 ((40:ℕ):ℝ) z).pad ((M - (cropKernel nanoDet j1 ((40:ℕ):ℝ) z).size) / 2) else cropKernel nanoDet j1 ((40:ℕ):ℝ) z), 73 ≤ k.size := by
      intro k hk
      rw [hsame k hk _ (List.mem_map.mpr ⟨10, h10, rfl⟩)]
      have := wide_size hj
      split_ifs
      · show 73 ≤ _ + 2 * _
        omega
      · exact this
    have hlen : ((rows.map nanoDet.firstZero).map fun z => if (cropKernel nanoDet j1 ((40:ℕ):ℝ) z).size < M then
      (cropKernel nanoDet j1 ((40:ℕ):ℝ) z).pad ((M - (cropKernel nanoDet j1 ((40:ℕ):ℝ) z).size) / 2) else cropKernel nanoDet j1 ((40:ℕ):ℝ) z).length = 21 := by
      rw [List.length_map, List.length_map, hr.length_eq]; simp [mixedHits]
    generalize ((rows.map nanoDet.firstZero).map fun z => if (cropKernel nanoDet j1 ((40:ℕ):ℝ) z).size < M then
      (cropKernel nanoDet j1 ((40:ℕ):ℝ) z).pad ((M - (cropKernel nanoDet j1 ((40:ℕ):ℝ) z).size) / 2) else cropKernel nanoDet j1 ((40:ℕ):ℝ) z) = ks at hbig hlen
    unfold kernelBytes
    have h8 : ∀ x ∈ ks.map (fun k => 8 * (k.size : ℝ) ^ 2), (42632 : ℝ) ≤ x := by
      intro x hx
      obtain ⟨k, hk, rfl⟩ := List.mem_map.mp hx
      have : (73 : ℝ) ≤ k.size := by exact_mod_cast hbig k hk
      nlinarith
    have := List.card_nsmul_le_sum _ _ h8
    rw [List.length_map, hlen, nsmul_eq_mul] at this
    refine le_trans ?_ this
    norm_num

end XRD
