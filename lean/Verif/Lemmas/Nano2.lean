import Verif.Lemmas.Nano
import Verif.Props.Deposit
import Verif.Props.Psf

/-! Lemmas about the Airy kernels of the nano renderer. -/

namespace XRD
open V3 M3 Fl Spec
open scoped Classical

/-! ### non-negative kernels of total at most one -/

/-- entries non-negative, sum at most one -/
def SubUnit (k : Kernel) : Prop := (∀ a < k.size, ∀ b < k.size, 0 ≤ k.val a b) ∧ kernelSum k ≤ 1

theorem kernelSum_eq (k : Kernel) : kernelSum k = k.total := rfl

theorem kernelSum_nonneg {k : Kernel} (hk : ∀ a < k.size, ∀ b < k.size, 0 ≤ k.val a b) : 0 ≤ kernelSum k :=
  Finset.sum_nonneg fun a ha => Finset.sum_nonneg fun b hb => hk a (Finset.mem_range.mp ha) b (Finset.mem_range.mp hb)

theorem normalise_subUnit {k : Kernel} (hk : ∀ a < k.size, ∀ b < k.size, 0 ≤ k.val a b) : SubUnit k.normalise := by
  have h0 : 0 ≤ k.total := kernelSum_nonneg hk
  constructor
  · intro a ha b hb
    exact div_nonneg (hk a ha b hb) h0
  · rw [kernelSum_eq]
    by_cases h : k.total = 0
    · unfold Kernel.normalise Kernel.total
      simp only
      rw [show (∑ i ∈ Finset.range k.size, ∑ j ∈ Finset.range k.size, k.val i j) = 0 from h]
      simp
    · rw [normalise_total h]

theorem airyProfile_nonneg (j1 : ℝ → ℝ) (s fz r : ℝ) : 0 ≤ Detector.airyProfile j1 s fz r := by
  unfold Detector.airyProfile
  dsimp only
  split_ifs <;> positivity

theorem airyKernel_subUnit {D : Detector} (hs : 0 < D.sigma) (hm : 0 ≤ D.maxRadius) (j1 : ℝ → ℝ) (R fz : ℝ) :
    SubUnit (D.airyKernel j1 R fz) := by
  unfold Detector.airyKernel
  split_ifs
  · obtain ⟨r, hr, -, -, -, hp, -⟩ := C28_point_spread_kernel D hs hm
    apply normalise_subUnit
    rw [hr]
    exact fun a ha b hb => (hp a ha b hb).le
  · apply normalise_subUnit
    intro a _ b _
    exact airyProfile_nonneg _ _ _ _

theorem crop_size_le (k : Kernel) (th : ℝ) : (k.crop th).size ≤ 2 * cropSearch k th 1 (k.size / 2) + 1 := by
  unfold Kernel.crop; simp only; omega

theorem cropSearch_ge (k : Kernel) (th : ℝ) (l r : ℕ) : l ≤ cropSearch k th l r := by
  induction hn : r - l using Nat.strong_induction_on generalizing l r with
  | _ n ih =>
    rw [cropSearch]
    dsimp only
    split_ifs with h1 h2
    · exact ih ((l + r) / 2 - l) (by omega) _ _ rfl
    · have := ih (r - ((l + r) / 2 + 1)) (by omega) _ _ rfl
      omega
    · exact le_rfl

theorem cropSearch_le (k : Kernel) (th : ℝ) (l r : ℕ) (h : l ≤ r) : cropSearch k th l r ≤ r := by
  induction hn : r - l using Nat.strong_induction_on generalizing l r with
  | _ n ih =>
    rw [cropSearch]
    dsimp only
    split_ifs with h1 h2
    · have := ih ((l + r) / 2 - l) (by omega) l ((l + r) / 2) (by omega) rfl
      omega
    · exact ih (r - ((l + r) / 2 + 1)) (by omega) ((l + r) / 2 + 1) r (by omega) rfl
    · omega

theorem crop_entries {k : Kernel} {th : ℝ} {a : ℕ} (ha : a < (k.crop th).size) :
    k.size / 2 - cropSearch k th 1 (k.size / 2) + a < k.size := by
  unfold Kernel.crop at ha; simp only at ha; omega

theorem crop_subUnit {k : Kernel} (hk : SubUnit k) (th : ℝ) : SubUnit (k.crop th) := by
  constructor
  · intro a ha b hb
    exact hk.1 _ (crop_entries ha) _ (crop_entries hb)
  · refine le_trans ?_ hk.2
    set m := k.size / 2 - cropSearch k th 1 (k.size / 2) with hmdef
    have hm : (k.crop th).size + m ≤ k.size := by
      unfold Kernel.crop; simp only; omega
    have key : ∀ (f : ℕ → ℝ), (∀ a < k.size, 0 ≤ f a) →
        ∑ a ∈ Finset.range (k.crop th).size, f (m + a) ≤ ∑ a ∈ Finset.range k.size, f a := by
      intro f hf
      have : ∑ a ∈ Finset.range (k.crop th).size, f (m + a) = ∑ a ∈ Finset.Ico m ((k.crop th).size + m), f a := by
        rw [Finset.sum_Ico_eq_sum_range]
        have : (k.crop th).size + m - m = (k.crop th).size := by omega
        rw [this]
      rw [this]
      apply Finset.sum_le_sum_of_subset_of_nonneg
      · intro a ha; simp only [Finset.mem_Ico, Finset.mem_range] at *; omega
      · intro a ha _; exact hf a (Finset.mem_range.mp ha)
    unfold kernelSum
    calc ∑ a ∈ Finset.range (k.crop th).size, ∑ b ∈ Finset.range (k.crop th).size, (k.crop th).val a b
        = ∑ a ∈ Finset.range (k.crop th).size, ∑ b ∈ Finset.range (k.crop th).size, k.val (m + a) (m + b) := rfl
      _ ≤ ∑ a ∈ Finset.range (k.crop th).size, ∑ b ∈ Finset.range k.size, k.val (m + a) b := by
          apply Finset.sum_le_sum
          intro a ha
          exact key _ fun b hb => hk.1 _ (by have := Finset.mem_range.mp ha; omega) b hb
      _ ≤ ∑ a ∈ Finset.range k.size, ∑ b ∈ Finset.range k.size, k.val a b :=
          key (fun a => ∑ b ∈ Finset.range k.size, k.val a b) fun a ha => Finset.sum_nonneg fun b hb => hk.1 a ha b (Finset.mem_range.mp hb)

theorem kernelSum_pad (k : Kernel) (p : ℕ) : kernelSum (k.pad p) = kernelSum k := by
  unfold kernelSum
  show ∑ a ∈ Finset.range (k.size + 2 * p), ∑ b ∈ Finset.range (k.size + 2 * p), _ = _
  apply sum_pad
  · intro a ha
    apply Finset.sum_eq_zero
    intro b _
    show (if _ then _ else _) = (0:ℝ)
    rw [if_neg (by rintro ⟨h1, h2, -⟩; exact ha ⟨h1, h2⟩)]
  · intro a ha
    apply sum_pad
    · intro b hb
      show (if _ then _ else _) = (0:ℝ)
      rw [if_neg (by rintro ⟨-, -, h1, h2⟩; exact hb ⟨h1, h2⟩)]
    · intro b hb
      show (if _ then _ else _) = _
      rw [if_pos (by omega)]
      congr 1 <;> omega

theorem pad_subUnit {k : Kernel} (hk : SubUnit k) (p : ℕ) : SubUnit (k.pad p) := by
  constructor
  · intro a ha b hb
    have hv : (k.pad p).val a b = if p ≤ a ∧ a < p + k.size ∧ p ≤ b ∧ b < p + k.size then k.val (a - p) (b - p) else 0 := rfl
    rw [hv]
    split_ifs with h
    · exact hk.1 _ (by omega) _ (by omega)
    · exact le_rfl
  · rw [kernelSum_pad]; exact hk.2

/-- every kernel of a batch -/
theorem airyKernels_subUnit {D : Detector} (hs : 0 < D.sigma) (hm : 0 ≤ D.maxRadius) {j1 : ℝ → ℝ} {zs : List ℝ} {ks : List Kernel}
    (h : D.airyKernels j1 zs = .ok ks) : ∀ k ∈ ks, SubUnit k := by
  unfold Detector.airyKernels at h
  dsimp only at h
  split_ifs at h
  simp only [Except.ok.injEq] at h
  subst h
  intro k hk
  simp only [List.map_map, List.mem_map, Function.comp] at hk
  obtain ⟨z, -, rfl⟩ := hk
  have := crop_subUnit (airyKernel_subUnit hs hm j1 (D.airyRadius zs) z) D.threshold
  split_ifs
  · exact pad_subUnit this _
  · exact this

theorem nanoPairs_subUnit {D : Detector} (hs : 0 < D.sigma) (hm : 0 ≤ D.maxRadius) {j1 : ℝ → ℝ} {bs : List (List (List Fl))}
    {rks : List (List Fl × Kernel)} (h : nanoPairs D j1 bs = .ok rks) : ∀ rk ∈ rks, SubUnit rk.2 := by
  induction bs generalizing rks with
  | nil => simp only [nanoPairs, Except.ok.injEq] at h; subst h; simp
  | cons b bs ih =>
    rw [nanoPairs] at h
    cases hk : D.airyKernels j1 (b.map D.firstZero) with
    | error e => rw [hk] at h; cases h
    | ok ks =>
      rw [hk] at h
      simp only at h
      cases hr : nanoPairs D j1 bs with
      | error e => rw [hr] at h; cases h
      | ok rest =>
        rw [hr] at h
        have h' : rks = b.zip ks ++ rest := (Except.ok.inj h).symm
        intro rk hrk
        rw [h'] at hrk
        rcases List.mem_append.mp hrk with hrk | hrk
        · exact airyKernels_subUnit hs hm hk _ (List.of_mem_zip (a := rk.1) (b := rk.2) hrk).2
        · exact ih hr rk hrk

/-! ### peaks whose first zero is within two pixels -/

/-- sampling radius of a batch of such peaks -/
noncomputable def smallRadius (D : Detector) : ℝ := D.airyRadius []

theorem maxL_le {a : ℝ} {l : List ℝ} {c : ℝ} (ha : a ≤ c) (hl : ∀ x ∈ l, x ≤ c) : Detector.maxL a l ≤ c := by
  unfold Detector.maxL
  induction l generalizing a with
  | nil => exact ha
  | cons x l ih =>
    rw [List.foldl_cons]
    exact ih (max_le ha (hl x List.mem_cons_self)) fun y hy => hl y (List.mem_cons_of_mem _ hy)

theorem airyRadius_small {D : Detector} {zs : List ℝ} (h : ∀ z ∈ zs, z ≤ 2) : D.airyRadius zs = smallRadius D := by
  unfold smallRadius Detector.airyRadius
  cases zs with
  | nil => rfl
  | cons z zs =>
    have := maxL_le (h z List.mem_cons_self) fun y hy => h y (List.mem_cons_of_mem _ hy)
    have e : max (4 * Detector.maxL z zs) 8 = max (4 * 0) (8:ℝ) := by
      rw [max_eq_right (by linarith), max_eq_right (by norm_num)]
    simp only [e]

theorem airyRadiusLoop_nat (D : Detector) (fuel n : ℕ) : ∃ m : ℕ, n ≤ m ∧ D.airyRadiusLoop fuel n = m := by
  induction fuel generalizing n with
  | zero => exact ⟨n, le_rfl, rfl⟩
  | succ fuel ih =>
    rw [Detector.airyRadiusLoop]
    split_ifs
    · exact ⟨n, le_rfl, rfl⟩
    · obtain ⟨m, hm, he⟩ := ih (n * 2)
      refine ⟨m, by omega, ?_⟩
      rw [← he]; push_cast; rfl
    · exact ⟨n, le_rfl, rfl⟩

theorem smallRadius_nat (D : Detector) : ∃ n : ℕ, 8 ≤ n ∧ smallRadius D = n := by
  unfold smallRadius Detector.airyRadius
  obtain ⟨m, hm, he⟩ := airyRadiusLoop_nat D 5 8
  have : max (4 * (0:ℝ)) 8 = ((8:ℕ):ℝ) := by norm_num
  simp only [this, he]
  split_ifs
  · exact ⟨128, by norm_num, by norm_num⟩
  · exact ⟨m, hm, rfl⟩

/-- the cropped kernel of such a peak -/
noncomputable def smallKernel (D : Detector) (j1 : ℝ → ℝ) (fz : ℝ) : Kernel := (D.airyKernel j1 (smallRadius D) fz).crop D.threshold

theorem axisLen_nat (n : ℕ) : Detector.axisLen n = 2 * n + 1 := by
  unfold Detector.axisLen
  have : (2 * (n:ℝ) + 1) = ((2 * n + 1 : ℕ) : ℝ) := by push_cast; ring
  rw [this, Nat.ceil_natCast]

/-- odd side, reflections -/
def Centred (k : Kernel) : Prop := ∃ r, k.size = 2 * r + 1 ∧
  (∀ a < 2 * r + 1, ∀ b < 2 * r + 1, k.val (2 * r - a) b = k.val a b) ∧ (∀ a < 2 * r + 1, ∀ b < 2 * r + 1, k.val a (2 * r - b) = k.val a b)

theorem normalise_centred {k : Kernel} (h : Centred k) : Centred k.normalise := by
  obtain ⟨r, h0, h1, h2⟩ := h
  refine ⟨r, h0, fun a ha b hb => ?_, fun a ha b hb => ?_⟩
  · show _ / _ = _ / _; rw [h1 a ha b hb]
  · show _ / _ = _ / _; rw [h2 a ha b hb]

theorem crop_centred {k : Kernel} (h : Centred k) (th : ℝ) : Centred (k.crop th) := by
  obtain ⟨r, h0, h1, h2⟩ := h
  have hc : k.size / 2 = r := by omega
  set m := cropSearch k th 1 r with hm
  have hm1 : 1 ≤ m := cropSearch_ge _ _ _ _
  have hm2 : 1 ≤ r → m ≤ r := fun hr => cropSearch_le _ _ _ _ hr
  have hv : ∀ i j, (k.crop th).val i j = k.val (r - m + i) (r - m + j) := by
    intro i j; unfold Kernel.crop; simp only [hc]; rfl
  rcases Nat.eq_zero_or_pos r with hr | hr
  · refine ⟨0, ?_, ?_, ?_⟩
    · unfold Kernel.crop; simp only [hc]; omega
    · intro a ha b hb; congr 1; omega
    · intro a ha b hb; congr 1; omega
  · have hmr := hm2 hr
    refine ⟨m, ?_, ?_, ?_⟩
    · unfold Kernel.crop; simp only [hc, ← hm]; omega
    · intro a ha b hb
      rw [hv, hv, ← h1 (r - m + a) (by omega) _ (by omega)]
      congr 1; omega
    · intro a ha b hb
      rw [hv, hv, ← h2 (r - m + a) (by omega) (r - m + b) (by omega)]
      congr 1; omega

theorem pad_centred {k : Kernel} (h : Centred k) (p : ℕ) : Centred (k.pad p) := by
  obtain ⟨r, h0, h1, h2⟩ := h
  have hv : ∀ i j, (k.pad p).val i j = if p ≤ i ∧ i < p + k.size ∧ p ≤ j ∧ j < p + k.size then k.val (i - p) (j - p) else 0 := fun i j => rfl
  refine ⟨r + p, ?_, ?_, ?_⟩
  · show k.size + 2 * p = _; omega
  · intro a ha b hb
    rw [hv, hv]
    by_cases hc : p ≤ a ∧ a < p + k.size ∧ p ≤ b ∧ b < p + k.size
    · rw [if_pos hc, if_pos (by omega), ← h1 (a - p) (by omega) (b - p) (by omega)]
      congr 1; omega
    · rw [if_neg hc, if_neg (by omega)]
  · intro a ha b hb
    rw [hv, hv]
    by_cases hc : p ≤ a ∧ a < p + k.size ∧ p ≤ b ∧ b < p + k.size
    · rw [if_pos hc, if_pos (by omega), ← h2 (a - p) (by omega) (b - p) (by omega)]
      congr 1; omega
    · rw [if_neg hc, if_neg (by omega)]

theorem airyKernel_centred {D : Detector} (hs : 0 < D.sigma) (hm : 0 ≤ D.maxRadius) (j1 : ℝ → ℝ) (n : ℕ) (fz : ℝ) :
    Centred (D.airyKernel j1 n fz) := by
  unfold Detector.airyKernel
  split_ifs
  · obtain ⟨r, hr, -, -, -, -, -, hp, -⟩ := C28_point_spread_kernel D hs hm
    exact normalise_centred ⟨r, hr, fun a ha b hb => (hp a ha b hb).2.1, fun a ha b hb => (hp a ha b hb).2.2⟩
  · apply normalise_centred
    refine ⟨n, axisLen_nat n, ?_, ?_⟩
    · intro a ha b hb
      have : Detector.axisAt n (2 * n - a) = - Detector.axisAt n a := by
        unfold Detector.axisAt; rw [Nat.cast_sub (by omega)]; push_cast; ring
      simp only [this, neg_sq]
    · intro a ha b hb
      have : Detector.axisAt n (2 * n - b) = - Detector.axisAt n b := by
        unfold Detector.axisAt; rw [Nat.cast_sub (by omega)]; push_cast; ring
      simp only [this, neg_sq]

theorem airyKernel_total {D : Detector} (hs : 0 < D.sigma) (hm : 0 ≤ D.maxRadius) (j1 : ℝ → ℝ) (n : ℕ) (fz : ℝ) :
    kernelSum (D.airyKernel j1 n fz) = 1 := by
  rw [kernelSum_eq]
  unfold Detector.airyKernel
  split_ifs
  · obtain ⟨r, hr, -, -, -, -, hp, -⟩ := C28_point_spread_kernel D hs hm
    apply normalise_total
    unfold Kernel.total
    rw [hr, hp]; norm_num
  · apply normalise_total
    apply ne_of_gt
    unfold Kernel.total
    rw [axisLen_nat n]
    apply Finset.sum_pos' (fun a _ => Finset.sum_nonneg fun b _ => airyProfile_nonneg _ _ _ _)
    refine ⟨n, Finset.mem_range.mpr (by show n < 2 * n + 1; omega), ?_⟩
    apply Finset.sum_pos' (fun b _ => airyProfile_nonneg _ _ _ _)
    refine ⟨n, Finset.mem_range.mpr (by show n < 2 * n + 1; omega), ?_⟩
    simp only [Detector.axisAt]
    have : Real.sqrt ((-(n:ℝ) + n) ^ 2 + (-(n:ℝ) + n) ^ 2) = 0 := by simp
    rw [this]
    unfold Detector.airyProfile
    have h1 : |(1:ℝ) / 10 ^ 10| < 1 / 10 ^ 8 := by rw [abs_of_pos (by norm_num)]; norm_num
    simp only [if_pos h1]
    split_ifs <;> positivity

theorem foldl_max_ge (l : List (Kernel × ℕ)) (m : ℕ) : m ≤ l.foldl (fun m k => max m k.2) m ∧
    ∀ k ∈ l, k.2 ≤ l.foldl (fun m k => max m k.2) m := by
  induction l generalizing m with
  | nil => simp
  | cons a l ih =>
    rw [List.foldl_cons]
    obtain ⟨i1, i2⟩ := ih (max m a.2)
    refine ⟨by omega, ?_⟩
    intro k hk
    rcases List.mem_cons.mp hk with rfl | hk
    · omega
    · exact i2 k hk

theorem foldl_max_odd (l : List (Kernel × ℕ)) (m : ℕ) (h : ∀ k ∈ l, k.2 % 2 = 1) (hm : m = 0 ∨ m % 2 = 1) :
    l.foldl (fun m k => max m k.2) m = 0 ∨ l.foldl (fun m k => max m k.2) m % 2 = 1 := by
  induction l generalizing m with
  | nil => simpa using hm
  | cons a l ih =>
    rw [List.foldl_cons]
    apply ih _ fun k hk => h k (List.mem_cons_of_mem _ hk)
    have := h a List.mem_cons_self
    omega

/-- the cropped kernel of a peak in a batch with sampling radius `R` -/
noncomputable def cropKernel (D : Detector) (j1 : ℝ → ℝ) (R fz : ℝ) : Kernel := (D.airyKernel j1 R fz).crop D.threshold

/-- kernels of a batch with an integer sampling radius: never an error; up to zero padding the cropped kernels -/
theorem airyKernels_nat {D : Detector} (hs : 0 < D.sigma) (hm : 0 ≤ D.maxRadius) (j1 : ℝ → ℝ) {zs : List ℝ} {n : ℕ}
    (hR : D.airyRadius zs = n) :
    ∃ M : ℕ, D.airyKernels j1 zs = .ok (zs.map fun z => if (cropKernel D j1 n z).size < M then
      (cropKernel D j1 n z).pad ((M - (cropKernel D j1 n z).size) / 2) else cropKernel D j1 n z) := by
  unfold Detector.airyKernels
  simp only [hR, List.map_map]
  set sized : List (Kernel × ℕ) := zs.map ((fun k => (k.crop D.threshold, 2 * cropSearch k D.threshold 1 (k.size / 2) + 1)) ∘
      fun fz => D.airyKernel j1 n fz) with hsz
  set M := sized.foldl (fun m k => max m k.2) 0 with hM
  refine ⟨M, ?_⟩
  have hodd : ∀ k ∈ sized, k.2 % 2 = 1 := by
    intro k hk
    obtain ⟨z, -, rfl⟩ := List.mem_map.mp hk
    simp only [Function.comp]; omega
  have hMo := foldl_max_odd sized 0 hodd (Or.inl rfl)
  have hall : ∀ k ∈ sized.map (fun k : Kernel × ℕ => if k.1.size < M then k.1.pad ((M - k.1.size) / 2) else k.1), k.size = M := by
    intro k hk
    obtain ⟨q, hq, rfl⟩ := List.mem_map.mp hk
    have hqM := (foldl_max_ge sized 0).2 q hq
    obtain ⟨z, hz, rfl⟩ := List.mem_map.mp hq
    have hle := crop_size_le (D.airyKernel j1 n z) D.threshold
    obtain ⟨r, hr, -, -⟩ := crop_centred (k := D.airyKernel j1 n z) (airyKernel_centred hs hm j1 n z) D.threshold
    simp only [Function.comp] at *
    rw [← hM] at hqM hMo
    split_ifs with hlt
    · show _ + 2 * _ = _
      omega
    · omega
  rw [if_neg]
  · rfl
  · rintro ⟨k, hk, k', hk', hne⟩
    exact hne ((hall k (by rw [hsz, List.map_map]; exact hk)).trans (hall k' (by rw [hsz, List.map_map]; exact hk')).symm)

/-- kernels of a batch of such peaks: never an error; up to zero padding the cropped kernels -/
theorem airyKernels_small {D : Detector} (hs : 0 < D.sigma) (hm : 0 ≤ D.maxRadius) (j1 : ℝ → ℝ) {zs : List ℝ} (h : ∀ z ∈ zs, z ≤ 2) :
    ∃ M : ℕ, D.airyKernels j1 zs = .ok (zs.map fun z => if (smallKernel D j1 z).size < M then
      (smallKernel D j1 z).pad ((M - (smallKernel D j1 z).size) / 2) else smallKernel D j1 z) := by
  obtain ⟨n, hn, hR⟩ := smallRadius_nat D
  have := airyKernels_nat hs hm j1 (zs := zs) (n := n) (by rw [airyRadius_small h, hR])
  unfold cropKernel at this
  unfold smallKernel
  rw [hR]
  exact this

theorem zip_map_snd (l : List (List Fl)) (g : List Fl → Kernel) : ∀ q ∈ l.zip (l.map g), q.2 = g q.1 := by
  induction l with
  | nil => simp
  | cons a l ih =>
    intro q hq
    simp only [List.map_cons, List.zip_cons_cons, List.mem_cons] at hq
    rcases hq with rfl | hq
    · rfl
    · exact ih q hq

/-- rows and kernels of batches with integer sampling radii -/
theorem nanoPairs_nat {D : Detector} (hs : 0 < D.sigma) (hm : 0 ≤ D.maxRadius) (j1 : ℝ → ℝ) (R : List (List Fl) → ℕ) {bs : List (List (List Fl))}
    (h : ∀ b ∈ bs, D.airyRadius (b.map D.firstZero) = R b) :
    ∃ rks, nanoPairs D j1 bs = .ok rks ∧ rks.map Prod.fst = bs.flatten ∧
      ∀ rk ∈ rks, ∃ b ∈ bs, rk.1 ∈ b ∧ (rk.2 = cropKernel D j1 (R b) (D.firstZero rk.1) ∨ ∃ p, rk.2 = (cropKernel D j1 (R b) (D.firstZero rk.1)).pad p) := by
  induction bs with
  | nil => exact ⟨[], rfl, rfl, by simp⟩
  | cons b bs ih =>
    obtain ⟨rest, h1, h2, h3⟩ := ih fun c hc => h c (List.mem_cons_of_mem _ hc)
    obtain ⟨M, hM⟩ := airyKernels_nat hs hm j1 (zs := b.map D.firstZero) (h b List.mem_cons_self)
    refine ⟨b.zip _ ++ rest, by rw [nanoPairs, hM, h1]; rfl, ?_, ?_⟩
    · rw [List.map_append, h2, List.flatten_cons, List.map_fst_zip (by simp)]
    · intro rk hrk
      rcases List.mem_append.mp hrk with hrk | hrk
      · rw [List.map_map] at hrk
        refine ⟨b, List.mem_cons_self, (List.of_mem_zip (a := rk.1) (b := rk.2) hrk).1, ?_⟩
        have := zip_map_snd _ _ _ hrk
        simp only [Function.comp] at this
        split_ifs at this
        · right; exact ⟨_, this⟩
        · left; exact this
      · obtain ⟨c, hc, hcc⟩ := h3 rk hrk
        exact ⟨c, List.mem_cons_of_mem _ hc, hcc⟩

/-- rows and kernels of all batches of such peaks -/
theorem nanoPairs_small {D : Detector} (hs : 0 < D.sigma) (hm : 0 ≤ D.maxRadius) (j1 : ℝ → ℝ) {bs : List (List (List Fl))}
    (h : ∀ b ∈ bs, ∀ r ∈ b, D.firstZero r ≤ 2) :
    ∃ rks, nanoPairs D j1 bs = .ok rks ∧ rks.map Prod.fst = bs.flatten ∧
      ∀ rk ∈ rks, rk.2 = smallKernel D j1 (D.firstZero rk.1) ∨ ∃ p, rk.2 = (smallKernel D j1 (D.firstZero rk.1)).pad p := by
  induction bs with
  | nil => exact ⟨[], rfl, rfl, by simp⟩
  | cons b bs ih =>
    obtain ⟨rest, h1, h2, h3⟩ := ih fun c hc => h c (List.mem_cons_of_mem _ hc)
    obtain ⟨M, hM⟩ := airyKernels_small hs hm j1 (zs := b.map D.firstZero) (by
      intro z hz; obtain ⟨r, hr, rfl⟩ := List.mem_map.mp hz; exact h b List.mem_cons_self r hr)
    refine ⟨b.zip _ ++ rest, by rw [nanoPairs, hM, h1]; rfl, ?_, ?_⟩
    · rw [List.map_append, h2, List.flatten_cons, List.map_fst_zip (by simp)]
    · intro rk hrk
      rcases List.mem_append.mp hrk with hrk | hrk
      · rw [List.map_map] at hrk
        have := zip_map_snd _ _ _ hrk
        simp only [Function.comp] at this
        split_ifs at this
        · right; exact ⟨_, this⟩
        · left; exact this
      · exact h3 rk hrk

theorem kernelAdd_small {D : Detector} {j1 : ℝ → ℝ} {rk : List Fl × Kernel}
    (h : rk.2 = smallKernel D j1 (D.firstZero rk.1) ∨ ∃ p, rk.2 = (smallKernel D j1 (D.firstZero rk.1)).pad p) (c cz cy : ℝ) (i j : ℕ) :
    kernelAdd D.nz D.ny (Detector.scaleKernel rk.2 c, cz, cy) i j =
      kernelAdd D.nz D.ny (Detector.scaleKernel (smallKernel D j1 (D.firstZero rk.1)) c, cz, cy) i j := by
  rcases h with h | ⟨p, h⟩
  · rw [h]
  · rw [h, kernelAdd_pad]

end XRD
