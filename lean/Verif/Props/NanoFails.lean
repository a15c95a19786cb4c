import Verif.Props.Nano2
import Mathlib.Analysis.Complex.ExponentialBounds

/-! Counterexamples for the `nano` rendering method: C30, C33, C67. -/

namespace XRD
open V3 M3 Fl Spec
open scoped Classical

/-- Facts about the Bessel function `J1` used in the counterexamples: `|J1(x)| ≤ |x| / 2`, and lower bounds at two points
(`J1(17.24265) ≈ -0.131`, `J1(16.60403) ≈ -0.026`). -/
structure Spec.BesselFacts (j1 : ℝ → ℝ) : Prop where
  le : ∀ x, |2 * j1 x| ≤ |x|
  at1 : 1 / 10 ≤ |j1 (38317 / 10000 * 9 / 2)|
  at2 : 1 / 100 ≤ |j1 (38317 / 10000 * (156 / 17) / (36 / 17))|

/-- the facts are consistent -/
example : BesselFacts fun x => min (|x| / 2) 1 := by
  refine ⟨fun x => ?_, ?_, ?_⟩
  · have h0 : 0 ≤ min (|x| / 2) 1 := le_min (by positivity) (by norm_num)
    rw [abs_of_nonneg (by positivity)]
    have := min_le_left (|x| / 2) 1
    linarith
  · norm_num [abs_of_pos]
  · norm_num [abs_of_pos]

theorem airyProfile_le {j1 : ℝ → ℝ} (hj : BesselFacts j1) (s fz r : ℝ) : Detector.airyProfile j1 s fz r ≤ 1 := by
  have ha : ∀ x : ℝ, (2 * j1 x / x) ^ 2 ≤ 1 := by
    intro x
    rw [← sq_abs, abs_div]
    by_cases hx : x = 0
    · rw [hx]; simp
    · have hx' : 0 < |x| := abs_pos.mpr hx
      have : |2 * j1 x| / |x| ≤ 1 := (div_le_one hx').mpr (hj.le x)
      have h0 : 0 ≤ |2 * j1 x| / |x| := by positivity
      nlinarith
  have he : Real.exp (-(r ^ 2) / (2 * s ^ 2)) ≤ 1 := by
    rw [Real.exp_le_one_iff]
    apply div_nonpos_of_nonpos_of_nonneg
    · nlinarith [sq_nonneg r]
    · positivity
  have he0 := Real.exp_pos (-(r ^ 2) / (2 * s ^ 2))
  have key : ∀ a : ℝ, a ≤ 1 → (if fz < s then a * Real.exp (-(r ^ 2) / (2 * s ^ 2)) else a) ≤ 1 := by
    intro a h1
    split_ifs
    · rcases le_total a 0 with h | h
      · nlinarith
      · nlinarith
    · exact h1
  unfold Detector.airyProfile
  dsimp only
  apply key
  by_cases hx : |if r = 0 then 1 / 10 ^ 10 else 38317 / 10000 * r / fz| < 1 / 10 ^ 8
  · rw [if_pos hx]
  · rw [if_neg hx]; exact ha _

/-! ### the detector of the counterexamples -/

/-- 200 × 200 pixels, unit point spread, very small threshold -/
noncomputable def nanoDet : Detector := imgDet 1 1 (1 / 10 ^ 13)

theorem nanoDet_nz : nanoDet.nz = 200 := by unfold nanoDet Detector.nz imgDet; norm_num
theorem nanoDet_ny : nanoDet.ny = 200 := by unfold nanoDet Detector.ny imgDet; norm_num
theorem nanoDet_sigma : 0 < nanoDet.sigma := by show (0:ℝ) < 1; norm_num
theorem nanoDet_max : 0 ≤ nanoDet.maxRadius := by show (0:ℤ) ≤ 13; norm_num
theorem nanoDet_new : Detector.new ⟨100, -100, -100⟩ ⟨100, 100, -100⟩ ⟨100, -100, 100⟩ .absent (.both 1) 1 (1 / 10 ^ 13) 13
    true true true = .ok nanoDet := imgDet_new 1 1 _ (by norm_num)

theorem exp32 : Real.exp (-32) < 1 / 10 ^ 13 / 2 := by
  rw [Real.exp_neg]
  have h : (2.7:ℝ) ^ 32 ≤ Real.exp 32 := by
    have := Real.exp_one_gt_d9
    have e : Real.exp 32 = Real.exp 1 ^ 32 := by rw [← Real.exp_nat_mul]; norm_num
    rw [e]
    exact pow_le_pow_left₀ (by norm_num) (by linarith) 32
  have h2 : (2 * 10 ^ 13 : ℝ) < (2.7:ℝ) ^ 32 := by norm_num
  have h3 : (2 * 10 ^ 13 : ℝ) < Real.exp 32 := lt_of_lt_of_le h2 h
  rw [show (1:ℝ) / 10 ^ 13 / 2 = (2 * 10 ^ 13)⁻¹ by norm_num]
  exact inv_strictAnti₀ (by norm_num) h3

theorem exp25 : (1:ℝ) / 10 ^ 13 / 2 ≤ Real.exp (-25) := by
  rw [Real.exp_neg]
  have h : Real.exp 25 ≤ (2.8:ℝ) ^ 25 := by
    have := Real.exp_one_lt_d9
    have e : Real.exp 25 = Real.exp 1 ^ 25 := by rw [← Real.exp_nat_mul]; norm_num
    rw [e]
    exact pow_le_pow_left₀ (Real.exp_pos 1).le (by linarith) 25
  have h2 : (2.8:ℝ) ^ 25 ≤ (2 * 10 ^ 13 : ℝ) := by norm_num
  rw [show (1:ℝ) / 10 ^ 13 / 2 = (2 * 10 ^ 13)⁻¹ by norm_num]
  exact inv_anti₀ (Real.exp_pos _) (h.trans h2)

/-- its point spread kernel has radius 8 -/
theorem nanoDet_psf : nanoDet.gaussKernel.size = 17 ∧ ∀ a < 17, ∀ b < 17, 0 < nanoDet.gaussKernel.val a b := by
  obtain ⟨r, h1, h2, h3, h4, h5, -⟩ := C28_point_spread_kernel nanoDet nanoDet_sigma nanoDet_max
  have hs : nanoDet.sigma = 1 := rfl
  have ht : nanoDet.threshold = 1 / 10 ^ 13 := rfl
  have hm : nanoDet.maxRadius = 13 := rfl
  rw [hs, ht] at h3 h4
  rw [hm] at h2 h3
  have hr8 : r ≤ 8 := by
    by_contra hc
    have := h4 8 (by norm_num) (by omega)
    have e := exp32
    norm_num at this e
    linarith
  have hr : r = 8 := by
    rcases h3 with h3 | ⟨-, h3⟩
    · omega
    · by_contra hc
      have h7 : r ≤ 7 := by omega
      have h7' : (r:ℝ) ≤ 7 := by exact_mod_cast h7
      have h0 : (0:ℝ) ≤ r := by positivity
      have : Real.exp (-25) ≤ Real.exp (-(r:ℝ) ^ 2 / (2 * 1 ^ 2)) := by
        apply Real.exp_le_exp.mpr
        nlinarith
      have e := exp25
      linarith
  subst hr
  exact ⟨h1, h5⟩

theorem nanoDet_radius {z : ℝ} {zs : List ℝ} {R : ℝ} (h : max (4 * Detector.maxL z zs) 8 = R) (hR : R ≤ 128) :
    nanoDet.airyRadius (z :: zs) = R := by
  have h8 : 8 ≤ R := by rw [← h]; exact le_max_right _ _
  unfold Detector.airyRadius
  simp only [h]
  have : nanoDet.airyRadiusLoop 5 R = R := by
    rw [Detector.airyRadiusLoop, if_pos hR, if_pos]
    have hs : nanoDet.sigma = 1 := rfl
    have ht : nanoDet.threshold = 1 / 10 ^ 13 := rfl
    rw [gaussTail_eq nanoDet_sigma, hs, ht]
    refine lt_of_le_of_lt ?_ exp32
    apply Real.exp_le_exp.mpr
    nlinarith
  rw [this, if_neg (by linarith)]

/-- Scherrer width for which the first zero is `z` pixels -/
noncomputable def widthFor (z : ℝ) : ℝ := z / (norm (⟨100, -100, -100⟩ : V3) * (11861 / 10000))

theorem nanoDet_firstZero (n : ℤ) (g y zz t vol z : ℝ) : nanoDet.firstZero (imgHit n g y zz t vol (widthFor z)) = z := by
  have hn : norm (⟨100, -100, -100⟩ : V3) ≠ 0 := by
    unfold V3.norm
    have : (0:ℝ) < nsq (⟨100, -100, -100⟩ : V3) := by simp [nsq, V3.dot]; norm_num
    exact (Real.sqrt_pos.mpr this).ne'
  unfold Detector.firstZero
  have h1 : rcol (imgHit n g y zz t vol (widthFor z)) 23 = widthFor z := rfl
  have h2 : rcol (imgHit n g y zz t vol (widthFor z)) 27 = 0 := rfl
  have h3 : nanoDet.c0 = ⟨100, -100, -100⟩ := rfl
  have h4 : nanoDet.pz = 1 := rfl
  rw [h1, h2, h3, h4]
  unfold widthFor
  simp only [zero_mul, zero_div, Real.cos_zero]
  field_simp

/-! ### convolution: near and far pixels -/

theorem conv_far {h w r : ℕ} {k : Kernel} (hs : k.size = 2 * r + 1) {t : Frame} {i j : ℕ}
    (ht : ∀ i' < h, ∀ j' < w, i ≤ i' + r → i' ≤ i + r → t i' j' = 0) : conv2d h w k t i j = 0 := by
  by_cases hij : i < h ∧ j < w
  · rw [conv2d_eq h w k t hij.1 hij.2]
    have hr : k.size / 2 = r := by omega
    apply Finset.sum_eq_zero; intro i' hi'
    apply Finset.sum_eq_zero; intro j' hj'
    split_ifs with h1 h2
    · rw [ht i' (Finset.mem_range.mp hi') j' (Finset.mem_range.mp hj') (by omega) (by omega)]; simp
    · rfl
    · rfl
  · unfold conv2d; rw [if_neg hij]

theorem conv_near {h w r : ℕ} {k : Kernel} (hs : k.size = 2 * r + 1) (hk : ∀ a < 2 * r + 1, ∀ b < 2 * r + 1, 0 < k.val a b) {t : Frame}
    (ht : ∀ i j, 0 ≤ t i j) {i j i' j' : ℕ} (hi : i < h) (hj : j < w) (hi' : i' < h) (hj' : j' < w) (h1 : i ≤ i' + r) (h2 : i' ≤ i + r)
    (h3 : j ≤ j' + r) (h4 : j' ≤ j + r) (hpos : 0 < t i' j') : 0 < conv2d h w k t i j := by
  rw [conv2d_eq h w k t hi hj]
  have hr : k.size / 2 = r := by omega
  rw [hr, hs]
  have nn : ∀ a b, 0 ≤ (if i ≤ a + r ∧ a + r - i < 2 * r + 1 then
        if j ≤ b + r ∧ b + r - j < 2 * r + 1 then t a b * k.val (a + r - i) (b + r - j) else 0 else 0) := by
    intro a b
    split_ifs with c1 c2
    · exact mul_nonneg (ht _ _) (hk _ c1.2 _ c2.2).le
    · exact le_rfl
    · exact le_rfl
  apply Finset.sum_pos' (fun a _ => Finset.sum_nonneg fun b _ => nn a b)
  refine ⟨i', Finset.mem_range.mpr hi', ?_⟩
  apply Finset.sum_pos' (fun b _ => nn i' b)
  refine ⟨j', Finset.mem_range.mpr hj', ?_⟩
  rw [if_pos (by omega), if_pos (by omega)]
  exact mul_pos hpos (hk _ (by omega) _ (by omega))

/-- a sample outside the window that holds more than the threshold is kept by the crop -/
theorem cropSearch_gt {k : Kernel} (hk : SubUnit k) {th : ℝ} {m a b : ℕ} (ha : a < k.size) (hb : b < k.size)
    (hout : m < ((a : ℤ) - (k.size / 2 : ℕ)).natAbs ∨ m < ((b : ℤ) - (k.size / 2 : ℕ)).natAbs) (hv : th < k.val a b) (hm : m < k.size / 2) :
    m < cropSearch k th 1 (k.size / 2) := by
  obtain ⟨c1, c2, c3, -⟩ := cropSearch_spec hk.1 th 1 (k.size / 2) (by omega)
  by_contra hc
  push Not at hc
  rcases c3 with c3 | c3
  · omega
  · have h1 := c3.trans (windowMass_mono hk.1 hc)
    have h2 : windowMass k m + k.val a b ≤ kernelSum k := by
      unfold windowMass kernelSum
      rw [← Finset.sum_product', ← Finset.sum_product']
      set W := ((Finset.range k.size).filter (fun i : ℕ => |(i : ℤ) - (k.size / 2 : ℕ)| ≤ m)) ×ˢ ((Finset.range k.size).filter (fun i : ℕ => |(i : ℤ) - (k.size / 2 : ℕ)| ≤ m))
      have hnot : (a, b) ∉ W := by
        intro hab
        simp only [W, Finset.mem_product, Finset.mem_filter, Finset.mem_range] at hab
        have := hab.1.2; have := hab.2.2
        rw [abs_le] at *
        omega
      rw [_root_.add_comm, ← Finset.sum_insert (f := fun x : ℕ × ℕ => k.val x.1 x.2) hnot]
      apply Finset.sum_le_sum_of_subset_of_nonneg
      · intro x hx
        rcases Finset.mem_insert.mp hx with rfl | hx
        · simp [ha, hb]
        · simp only [W, Finset.mem_product, Finset.mem_filter] at hx
          simp only [Finset.mem_product]; exact ⟨hx.1.1, hx.2.1⟩
      · intro x hx _
        simp only [Finset.mem_product, Finset.mem_range] at hx
        exact hk.1 _ hx.1 _ hx.2
    have := hk.2
    linarith

/-- lower bound for a normalised entry -/
theorem airyKernel_entry {D : Detector} {j1 : ℝ → ℝ} (hj : BesselFacts j1) {R fz : ℝ} (hfz : 1 / 2 ≤ fz) {a b : ℕ}
    (ha : a < Detector.axisLen R) (hb : b < Detector.axisLen R) {v : ℝ} (hv0 : 0 < v)
    (hv : v ≤ Detector.airyProfile j1 D.sigma fz (Real.sqrt (Detector.axisAt R a ^ 2 + Detector.axisAt R b ^ 2))) :
    v / (Detector.axisLen R : ℝ) ^ 2 ≤ (D.airyKernel j1 R fz).val a b := by
  unfold Detector.airyKernel
  rw [if_neg (by linarith)]
  show _ ≤ _ / Kernel.total _
  set k : Kernel := ⟨Detector.axisLen R, fun i j => Detector.airyProfile j1 D.sigma fz (Real.sqrt (Detector.axisAt R i ^ 2 + Detector.axisAt R j ^ 2))⟩ with hk
  have hle : k.total ≤ (Detector.axisLen R : ℝ) ^ 2 := by
    unfold Kernel.total
    calc ∑ i ∈ Finset.range k.size, ∑ j ∈ Finset.range k.size, k.val i j ≤ ∑ i ∈ Finset.range k.size, ∑ j ∈ Finset.range k.size, (1:ℝ) :=
          Finset.sum_le_sum fun i _ => Finset.sum_le_sum fun j _ => airyProfile_le hj _ _ _
      _ = (Detector.axisLen R : ℝ) ^ 2 := by simp [hk]; ring
  have hpos : 0 < k.total := by
    unfold Kernel.total
    apply Finset.sum_pos' (fun a _ => Finset.sum_nonneg fun b _ => airyProfile_nonneg _ _ _ _)
    refine ⟨a, Finset.mem_range.mpr ha, ?_⟩
    apply Finset.sum_pos' (fun b _ => airyProfile_nonneg _ _ _ _)
    exact ⟨b, Finset.mem_range.mpr hb, lt_of_lt_of_le hv0 hv⟩
  exact div_le_div₀ (hv0.le.trans hv) hv hpos hle

/-! ### batches of two peaks -/

theorem one_batch {D : Detector} {avail : ℝ} {x y : List Fl} (hx : D.airyMemory x ≤ avail) (hxy : D.airyMemory x + D.airyMemory y ≤ avail) :
    D.nanoBatches avail [x, y] = [[x, y]] := by
  have h2 : D.nanoBatchSize avail [x, y] = 2 := by
    unfold Detector.nanoBatchSize
    have : (List.range [x, y].length) = [0, 1] := rfl
    rw [this, List.filter_cons, if_pos (by simpa using hx), List.filter_cons, if_pos (by simpa using hxy)]
    rfl
  rw [Detector.nanoBatches, h2]
  simp [Detector.nanoBatches]

theorem two_batches {D : Detector} {x y : List Fl} (hx : 0 < D.airyMemory x) (hy : 0 < D.airyMemory y) :
    D.nanoBatches 0 [x, y] = [[x], [y]] := by
  have h2 : D.nanoBatchSize 0 [x, y] = 1 := by
    unfold Detector.nanoBatchSize
    have : (List.range [x, y].length) = [0, 1] := rfl
    rw [this, List.filter_cons, if_neg (by simpa using hx), List.filter_cons, if_neg (by simp; linarith)]
    rfl
  have h1 : D.nanoBatchSize 0 [y] = 1 := by
    unfold Detector.nanoBatchSize
    have : (List.range [y].length) = [0] := rfl
    rw [this, List.filter_cons, if_neg (by simpa using hy)]
    rfl
  rw [Detector.nanoBatches, h2]
  simp only [List.take_succ_cons, List.take_zero, List.drop_succ_cons, List.drop_zero]
  rw [Detector.nanoBatches, h1]
  simp [Detector.nanoBatches]

theorem airyMemory_pos (D : Detector) (hs : 0 ≤ D.sigma) (r : List Fl) : 0 < D.airyMemory r := by
  unfold Detector.airyMemory
  have : (0:ℤ) ≤ ⌈max (4 * D.firstZero r) (3 * D.sigma)⌉ := Int.ceil_nonneg (le_max_of_le_right (by linarith))
  have h : (0:ℝ) ≤ (⌈max (4 * D.firstZero r) (3 * D.sigma)⌉ : ℝ) := by exact_mod_cast this
  positivity

theorem frameOf_one (t : ℝ) : frameOf 1 t = 0 := by
  have := frameOf_range (n := 1) le_rfl t
  omega

/-- up to padding -/
def UpToPad (k K : Kernel) : Prop := k = K ∨ ∃ p, k = K.pad p

theorem kernelAdd_upToPad {h w : ℕ} {k K : Kernel} (hk : UpToPad k K) (c cz cy : ℝ) (i j : ℕ) :
    kernelAdd h w (Detector.scaleKernel k c, cz, cy) i j = kernelAdd h w (Detector.scaleKernel K c, cz, cy) i j := by
  rcases hk with rfl | ⟨p, rfl⟩
  · rfl
  · rw [kernelAdd_pad]

/-- the image in frame 0 of a list of pairs, all of frame 0 -/
theorem nanoAdd_zero {D : Detector} {rks : List (List Fl × Kernel)} (hf : ∀ rk ∈ rks, rcol rk.1 28 = 0) (i j : ℕ) :
    cornerSum D.nz D.ny (allCorners (nanoAdd D rks 0)) i j = (rks.map fun rk =>
      kernelAdd D.nz D.ny (Detector.scaleKernel rk.2 (rcol rk.1 29 * rcol rk.1 21), rcol rk.1 25 / D.pz, rcol rk.1 26 / D.py) i j).sum := by
  rw [cornerSum_allCorners]
  unfold nanoAdd
  rw [List.filter_eq_self.mpr, List.map_map]
  · rfl
  · intro rk hrk
    simp [hf rk hrk]

/-! ### C30 fails for larger rings -/

noncomputable def ringRows : List (List Fl) := [imgRow 0 (-60) (-60) (1/2) 1 (widthFor 3), imgRow 1 40 40 (1/2) 1 (widthFor 2)]
noncomputable def hitA : List Fl := imgHit 1 0 (-60) (-60) (1/2) 1 (widthFor 3)
noncomputable def hitB : List Fl := imgHit 1 1 40 40 (1/2) 1 (widthFor 2)

theorem ring_hits : (nanoDet.peaksIntersection (imgDict ringRows) 1).peaks = [hitA, hitB] := by
  unfold ringRows nanoDet
  rw [imgDict_kept 1 1 _ 1 0 (-60) (-60) (1/2) 1 (widthFor 3) (by norm_num [abs_le]) (by norm_num [abs_le]) _ (by
    intro r hr; simp only [List.mem_singleton] at hr; subst hr; rfl)]
  rw [imgDict_kept 1 1 _ 1 1 40 40 (1/2) 1 (widthFor 2) (by norm_num [abs_le]) (by norm_num [abs_le]) _ (by simp)]
  rfl

theorem hitA_fz : nanoDet.firstZero hitA = 3 := nanoDet_firstZero _ _ _ _ _ _ _
theorem hitB_fz : nanoDet.firstZero hitB = 2 := nanoDet_firstZero _ _ _ _ _ _ _

theorem hitAB_ne : hitA ≠ hitB := by
  intro h
  have := congrArg (fun r => rcol r 0) h
  simp [hitA, hitB, imgHit, imgRow, rcol] at this

theorem perm_two {α : Type} {l : List α} {a b : α} (h : l.Perm [a, b]) : l = [a, b] ∨ l = [b, a] := by
  have hl := h.length_eq
  match l, hl with
  | [x, y], _ =>
    have hx : x ∈ [a, b] := h.mem_iff.mp List.mem_cons_self
    simp only [List.mem_cons, List.not_mem_nil, or_false] at hx
    rcases hx with rfl | rfl
    · left
      have := (List.perm_cons x).mp h
      rw [List.perm_singleton.mp this]
    · right
      have := (List.perm_cons x).mp (h.trans (List.Perm.swap x a []))
      rw [List.perm_singleton.mp this]

/-- the image of the two peaks in given batches -/
theorem ring_image {j1 : ℝ → ℝ} {bs : List (List (List Fl))} (R : List (List Fl) → ℕ) (hmem : ∀ b ∈ bs, ∀ r ∈ b, r = hitA ∨ r = hitB)
    (hB : hitB ∈ bs.flatten) (hR : ∀ b ∈ bs, nanoDet.airyRadius (b.map nanoDet.firstZero) = R b) :
    ∃ rks, nanoPairs nanoDet j1 bs = .ok rks ∧ (∀ rk ∈ rks, rcol rk.1 28 = 0) ∧ (∀ rk ∈ rks, SubUnit rk.2) ∧ (∀ rk ∈ rks, rk.1 = hitA ∨ rk.1 = hitB) ∧
      (∃ rk ∈ rks, rk.1 = hitB) ∧ ∀ rk ∈ rks, ∃ b ∈ bs, rk.1 ∈ b ∧ UpToPad rk.2 (cropKernel nanoDet j1 (R b) (nanoDet.firstZero rk.1)) := by
  obtain ⟨rks, h1, h2, h3⟩ := nanoPairs_nat nanoDet_sigma nanoDet_max j1 R hR
  have hrow : ∀ rk ∈ rks, rk.1 = hitA ∨ rk.1 = hitB := by
    intro rk hrk
    have : rk.1 ∈ bs.flatten := by rw [← h2]; exact List.mem_map.mpr ⟨rk, hrk, rfl⟩
    obtain ⟨b, hb, hr⟩ := List.mem_flatten.mp this
    exact hmem b hb _ hr
  refine ⟨rks, h1, ?_, nanoPairs_subUnit nanoDet_sigma nanoDet_max h1, hrow, ?_, h3⟩
  · intro rk hrk
    rcases hrow rk hrk with h | h <;> rw [h]
    · show ((frameOf 1 (1/2) : ℤ) : ℝ) = 0; rw [frameOf_one]; simp
    · show ((frameOf 1 (1/2) : ℤ) : ℝ) = 0; rw [frameOf_one]; simp
  · rw [← h2] at hB
    obtain ⟨rk, hrk, he⟩ := List.mem_map.mp hB
    exact ⟨rk, hrk, he⟩

theorem cropKernel_size_le {D : Detector} (hs : 0 < D.sigma) (hm : 0 ≤ D.maxRadius) (j1 : ℝ → ℝ) (n : ℕ) {fz : ℝ} (hz : 1 / 2 ≤ fz) :
    ∃ r, (cropKernel D j1 n fz).size = 2 * r + 1 ∧ r ≤ n := by
  obtain ⟨r, hr, -, -⟩ := crop_centred (airyKernel_centred hs hm j1 n fz) D.threshold
  refine ⟨r, hr, ?_⟩
  have h1 : (cropKernel D j1 n fz).size ≤ (D.airyKernel j1 n fz).size := by
    unfold cropKernel Kernel.crop; simp only; omega
  have h2 : (D.airyKernel j1 n fz).size = 2 * n + 1 := by
    unfold Detector.airyKernel; rw [if_neg (by linarith)]; exact axisLen_nat n
  have h3 : (cropKernel D j1 n fz).size = 2 * r + 1 := hr
  omega

/-- one rendered frame -/
noncomputable def nanoImg (rks : List (List Fl × Kernel)) : Stack := fun f => if f < 1 then conv2d nanoDet.nz nanoDet.ny nanoDet.gaussKernel
  fun i j => cornerSum nanoDet.nz nanoDet.ny (allCorners (nanoAdd nanoDet rks f)) i j else fun _ _ => 0

theorem kernelAdd_nonneg {h w : ℕ} {k : Kernel} (hk : ∀ a < k.size, ∀ b < k.size, 0 ≤ k.val a b) (cz cy : ℝ) (i j : ℕ) :
    0 ≤ kernelAdd h w (k, cz, cy) i j := by
  rw [kernelAdd_eq]
  apply Finset.sum_nonneg; intro a ha
  apply Finset.sum_nonneg; intro b hb
  unfold cornerSum
  apply List.sum_nonneg
  intro x hx
  obtain ⟨c, hc, rfl⟩ := List.mem_map.mp hx
  split_ifs
  · exact corners_nonneg (hk a (Finset.mem_range.mp ha) b (Finset.mem_range.mp hb)) c hc
  · exact le_rfl

theorem scale_nonneg {k : Kernel} (hk : ∀ a < k.size, ∀ b < k.size, 0 ≤ k.val a b) {c : ℝ} (hc : 0 ≤ c) :
    ∀ a < (Detector.scaleKernel k c).size, ∀ b < (Detector.scaleKernel k c).size, 0 ≤ (Detector.scaleKernel k c).val a b :=
  fun a ha b hb => mul_nonneg (hk a ha b hb) hc

/-- the entry nine pixels below the centre -/
theorem ring_entry {j1 : ℝ → ℝ} (hj : BesselFacts j1) : (1:ℝ) / 10 ^ 13 < (nanoDet.airyKernel j1 ((12:ℕ):ℝ) 2).val 21 12 := by
  have hlen : Detector.axisLen ((12:ℕ):ℝ) = 25 := axisLen_nat 12
  have hv : (1:ℝ) / 10000 ≤ Detector.airyProfile j1 nanoDet.sigma 2
      (Real.sqrt (Detector.axisAt ((12:ℕ):ℝ) 21 ^ 2 + Detector.axisAt ((12:ℕ):ℝ) 12 ^ 2)) := by
    have e : Real.sqrt (Detector.axisAt ((12:ℕ):ℝ) 21 ^ 2 + Detector.axisAt ((12:ℕ):ℝ) 12 ^ 2) = 9 := by
      unfold Detector.axisAt
      rw [show (-((12:ℕ):ℝ) + (21:ℕ)) ^ 2 + (-((12:ℕ):ℝ) + (12:ℕ)) ^ 2 = 9 ^ 2 by norm_num]
      exact Real.sqrt_sq (by norm_num)
    have hsg : nanoDet.sigma = 1 := rfl
    rw [e, hsg]
    unfold Detector.airyProfile
    simp only []
    rw [if_neg (show ¬ (2:ℝ) < 1 by norm_num), if_neg (show ¬ (9:ℝ) = 0 by norm_num),
      if_neg (show ¬ |(38317:ℝ) / 10000 * 9 / 2| < 1 / 10 ^ 8 by rw [abs_of_pos (by norm_num)]; norm_num)]
    have h1 := hj.at1
    have h2 : (1:ℝ) / 100 ≤ |j1 (38317 / 10000 * 9 / 2)| ^ 2 := by nlinarith
    rw [sq_abs] at h2
    rw [div_pow, mul_pow, le_div_iff₀ (by norm_num)]
    norm_num at h2 ⊢
    linarith
  refine lt_of_lt_of_le ?_ (airyKernel_entry hj (by norm_num) (by rw [hlen]; norm_num) (by rw [hlen]; norm_num) (by norm_num) hv)
  rw [hlen]; norm_num

theorem ring_lit {j1 : ℝ → ℝ} (hj : BesselFacts j1) :
    0 < kernelAdd nanoDet.nz nanoDet.ny (Detector.scaleKernel (cropKernel nanoDet j1 ((12:ℕ):ℝ) 2) 1, 140, 140) 149 140 := by
  have hlen : Detector.axisLen ((12:ℕ):ℝ) = 25 := axisLen_nat 12
  have hent := ring_entry hj
  obtain ⟨k, hk⟩ : ∃ k, k = nanoDet.airyKernel j1 ((12:ℕ):ℝ) 2 := ⟨_, rfl⟩
  have hksz : k.size = 25 := by
    rw [hk]; unfold Detector.airyKernel; rw [if_neg (by norm_num)]; exact hlen
  have hsub : SubUnit k := by rw [hk]; exact airyKernel_subUnit nanoDet_sigma nanoDet_max j1 _ _
  have hth : nanoDet.threshold = 1 / 10 ^ 13 := rfl
  have hm9 : 8 < cropSearch k nanoDet.threshold 1 (k.size / 2) :=
    cropSearch_gt hsub (a := 21) (b := 12) (m := 8) (by omega) (by omega) (by left; rw [hksz]; norm_num) (by rw [hth, hk]; exact hent) (by omega)
  have hm12 := cropSearch_le k nanoDet.threshold 1 (k.size / 2) (by omega)
  obtain ⟨m, hm⟩ : ∃ m, m = cropSearch k nanoDet.threshold 1 (k.size / 2) := ⟨_, rfl⟩
  rw [← hm] at hm9 hm12
  have hcc : cropKernel nanoDet j1 ((12:ℕ):ℝ) 2 = k.crop nanoDet.threshold := by unfold cropKernel; rw [hk]
  rw [hcc]
  have hcs : (k.crop nanoDet.threshold).size = 2 * m + 1 := by
    unfold Kernel.crop; simp only [← hm]; omega
  have hcv : ∀ i j, (k.crop nanoDet.threshold).val i j = k.val (k.size / 2 - m + i) (k.size / 2 - m + j) := by
    intro i j; unfold Kernel.crop; simp only [← hm]
  have hnn := (crop_subUnit hsub nanoDet.threshold).1
  generalize k.crop nanoDet.threshold = q at hcs hcv hnn
  have hss : (Detector.scaleKernel q 1).size = 2 * m + 1 := hcs
  have hhalf : (Detector.scaleKernel q 1).size / 2 = m := by omega
  refine lt_of_lt_of_le ?_ (kernelAdd_ge (a := m + 9) (b := m) (scale_nonneg hnn zero_le_one)
    (by omega) (by omega) (by rw [nanoDet_nz]; norm_num) (by rw [nanoDet_ny]; norm_num) (by rw [hhalf]; push_cast; ring) (by rw [hhalf]; push_cast; ring))
  show 0 < q.val (m + 9) m * 1
  rw [hcv, mul_one]
  have i1 : k.size / 2 - m + (m + 9) = 21 := by omega
  have i2 : k.size / 2 - m + m = 12 := by omega
  rw [i1, i2, hk]
  exact lt_trans (by norm_num) hent

/-- C30 is false in general: two peaks with first dark rings at 3 and 2 pixels on a detector with threshold `1e-13`.  With 1 GB
of free memory they share a batch (sampling radius 12) and pixel (157, 140) is lit; without free memory they are rendered in
two batches (radii 12 and 8) and the same pixel is exactly zero. -/
theorem C30_depends_on_memory_fails (j1 : ℝ → ℝ) (hj : BesselFacts j1) (s : List ℝ → List ℕ) (hs : IsArgsort s) (hull : Beam → List V3 → Option Hull)
    (sample : Hull → ℕ → List V3) (mesh : TetraMesh) (ml : Option ℝ) (mi : ℝ) :
    ∃ (D : Detector) (d : PeaksDict) (t t' : Stack) (o o' : PeaksDict),
      Detector.new ⟨100, -100, -100⟩ ⟨100, 100, -100⟩ ⟨100, -100, 100⟩ .absent (.both 1) 1 (1 / 10 ^ 13) 13 true true true = .ok D ∧
      D.render ⟨j1, s, 1, hull, sample⟩ d mesh 1 .nano ml mi = .ok (some t, o) ∧
      D.render ⟨j1, s, 0, hull, sample⟩ d mesh 1 .nano ml mi = .ok (some t', o') ∧ 0 < t 0 157 140 ∧ t' 0 157 140 = 0 := by
  have hAm : nanoDet.airyMemory hitA ≤ 60000 := by
    unfold Detector.airyMemory
    rw [hitA_fz]
    have : max (4 * (3:ℝ)) (3 * nanoDet.sigma) = ((12:ℤ):ℝ) := by
      have hs : nanoDet.sigma = 1 := rfl
      rw [hs]; norm_num
    rw [this, Int.ceil_intCast]; norm_num
  have hBm : nanoDet.airyMemory hitB ≤ 60000 := by
    unfold Detector.airyMemory
    rw [hitB_fz]
    have : max (4 * (2:ℝ)) (3 * nanoDet.sigma) = ((8:ℤ):ℝ) := by
      have hs : nanoDet.sigma = 1 := rfl
      rw [hs]; norm_num
    rw [this, Int.ceil_intCast]; norm_num
  have hpA := airyMemory_pos nanoDet nanoDet_sigma.le hitA
  have hpB := airyMemory_pos nanoDet nanoDet_sigma.le hitB
  set S := sortedRows s nanoDet.airyMemory [hitA, hitB] with hS
  have hS2 : S = [hitA, hitB] ∨ S = [hitB, hitA] := perm_two (sortedRows_perm hs _ _)
  have hb1 : nanoDet.nanoBatches (1 * 1024 ^ 3) S = [S] := by
    rcases hS2 with h | h <;> rw [h]
    · exact one_batch (by linarith [show (60000:ℝ) ≤ 1 * 1024 ^ 3 by norm_num]) (by linarith [show (120000:ℝ) ≤ 1 * 1024 ^ 3 by norm_num])
    · exact one_batch (by linarith [show (60000:ℝ) ≤ 1 * 1024 ^ 3 by norm_num]) (by linarith [show (120000:ℝ) ≤ 1 * 1024 ^ 3 by norm_num])
  have hb0 : nanoDet.nanoBatches (0 * 1024 ^ 3) S = [[hitA], [hitB]] ∨ nanoDet.nanoBatches (0 * 1024 ^ 3) S = [[hitB], [hitA]] := by
    rw [zero_mul]
    rcases hS2 with h | h <;> rw [h]
    · left; exact two_batches hpA hpB
    · right; exact two_batches hpB hpA
  have hRS : nanoDet.airyRadius (S.map nanoDet.firstZero) = (12:ℕ) := by
    rcases hS2 with h | h <;> rw [h]
    · simp only [List.map_cons, List.map_nil, hitA_fz, hitB_fz]
      exact nanoDet_radius (by unfold Detector.maxL; norm_num) (by norm_num)
    · simp only [List.map_cons, List.map_nil, hitA_fz, hitB_fz]
      exact nanoDet_radius (by unfold Detector.maxL; norm_num) (by norm_num)
  have hRA : nanoDet.airyRadius ([hitA].map nanoDet.firstZero) = (12:ℕ) := by
    simp only [List.map_cons, List.map_nil, hitA_fz]
    exact nanoDet_radius (by unfold Detector.maxL; norm_num) (by norm_num)
  have hRB : nanoDet.airyRadius ([hitB].map nanoDet.firstZero) = (8:ℕ) := by
    simp only [List.map_cons, List.map_nil, hitB_fz]
    exact nanoDet_radius (by unfold Detector.maxL; norm_num) (by norm_num)
  have hSm : ∀ r ∈ S, r = hitA ∨ r = hitB := by
    intro r hr
    rcases hS2 with h | h <;> rw [h] at hr <;> simp only [List.mem_cons, List.not_mem_nil, or_false] at hr <;> tauto
  have hSB : hitB ∈ S := by rcases hS2 with h | h <;> rw [h] <;> simp
  obtain ⟨psz, ppos⟩ := nanoDet_psf
  -- one batch
  obtain ⟨rks, e1, e2, e3, e4, ⟨rkB, hrkB, hB⟩, e5⟩ := ring_image (j1 := j1) (bs := [S]) (fun _ => 12)
    (by intro b hb r hr; rw [List.mem_singleton] at hb; subst hb; exact hSm r hr) (by simpa using hSB)
    (by intro b hb; rw [List.mem_singleton] at hb; subst hb; exact hRS)
  -- two batches
  obtain ⟨rks', f1, f2, f3, f4, -, f5⟩ := ring_image (j1 := j1) (bs := nanoDet.nanoBatches (0 * 1024 ^ 3) S)
    (fun b => if b = [hitB] then 8 else 12)
    (by
      intro b hb r hr
      have : r ∈ (nanoDet.nanoBatches (0 * 1024 ^ 3) S).flatten := List.mem_flatten.mpr ⟨b, hb, hr⟩
      rw [nanoBatches_flatten] at this
      exact hSm r this)
    (by rw [nanoBatches_flatten]; exact hSB)
    (by
      intro b hb
      have hne : ([hitA] : List (List Fl)) ≠ [hitB] := by simpa using hitAB_ne
      have : b = [hitA] ∨ b = [hitB] := by
        rcases hb0 with h | h <;> rw [h] at hb <;> simp only [List.mem_cons, List.not_mem_nil, or_false] at hb <;> tauto
      rcases this with rfl | rfl
      · rw [if_neg hne]; exact hRA
      · rw [if_pos rfl]; exact hRB)
  refine ⟨nanoDet, imgDict ringRows, nanoImg rks, nanoImg rks', nanoDet.peaksIntersection (imgDict ringRows) 1,
    nanoDet.peaksIntersection (imgDict ringRows) 1, nanoDet_new, ?_, ?_, ?_, ?_⟩
  · rw [render_nano, show max (1:ℤ) 1 = 1 from rfl, ring_hits, renderNano_eq (by exact hs)]
    show Except.map _ (Except.map _ (nanoPairs nanoDet j1 (nanoDet.nanoBatches (1 * 1024 ^ 3) S))) = _
    rw [hb1, e1]; rfl
  · rw [render_nano, show max (1:ℤ) 1 = 1 from rfl, ring_hits, renderNano_eq (by exact hs)]
    show Except.map _ (Except.map _ (nanoPairs nanoDet j1 (nanoDet.nanoBatches (0 * 1024 ^ 3) S))) = _
    rw [f1]; rfl
  · -- lit
    have hIV : ∀ rk ∈ rks, rcol rk.1 29 * rcol rk.1 21 = 1 := by
      intro rk hrk
      rcases e4 rk hrk with h | h <;> rw [h]
      · show (1:ℝ) * 1 = 1; norm_num
      · show (1:ℝ) * 1 = 1; norm_num
    have nn1 : ∀ rk ∈ rks, ∀ i j, 0 ≤ kernelAdd nanoDet.nz nanoDet.ny
        (Detector.scaleKernel rk.2 (rcol rk.1 29 * rcol rk.1 21), rcol rk.1 25 / nanoDet.pz, rcol rk.1 26 / nanoDet.py) i j := by
      intro rk hrk i j
      rw [hIV rk hrk]
      exact kernelAdd_nonneg (scale_nonneg (e3 rk hrk).1 zero_le_one) _ _ _ _
    have nn : ∀ i j, 0 ≤ cornerSum nanoDet.nz nanoDet.ny (allCorners (nanoAdd nanoDet rks 0)) i j := by
      intro i j
      rw [nanoAdd_zero e2]
      apply List.sum_nonneg
      intro x hx
      obtain ⟨rk, hrk, rfl⟩ := List.mem_map.mp hx
      exact nn1 rk hrk i j
    refine conv_near (r := 8) psz ppos nn (i := 157) (j := 140) (i' := 149) (j' := 140) (by rw [nanoDet_nz]; norm_num)
      (by rw [nanoDet_ny]; norm_num) (by rw [nanoDet_nz]; norm_num) (by rw [nanoDet_ny]; norm_num) (by norm_num) (by norm_num) (by norm_num) (by norm_num) ?_
    rw [nanoAdd_zero e2]
    refine lt_of_lt_of_le ?_ (List.single_le_sum (by
      intro x hx
      obtain ⟨rk, hrk, rfl⟩ := List.mem_map.mp hx
      exact nn1 rk hrk _ _) _ (List.mem_map.mpr ⟨rkB, hrkB, rfl⟩))
    obtain ⟨-, -, -, hpad⟩ := e5 rkB hrkB
    rw [kernelAdd_upToPad hpad, hIV rkB hrkB, hB, hitB_fz]
    have hzd : rcol hitB 25 / nanoDet.pz = 140 := by show (40 + 100 : ℝ) / 1 = 140; norm_num
    have hyd : rcol hitB 26 / nanoDet.py = 140 := by show (40 + 100 : ℝ) / 1 = 140; norm_num
    rw [hzd, hyd]
    exact ring_lit hj
  · -- dark
    refine conv_far (r := 8) psz ?_
    intro i' hi' j' hj' h1 h2
    rw [nanoAdd_zero f2]
    apply List.sum_eq_zero
    intro x hx
    obtain ⟨rk, hrk, rfl⟩ := List.mem_map.mp hx
    obtain ⟨b, hb, hrb, hpad⟩ := f5 rk hrk
    rw [kernelAdd_upToPad hpad]
    by_contra hne
    obtain ⟨a, ha, c, hc, -, s1, -⟩ := kernelAdd_sample hne
    have h1' : (149:ℝ) ≤ i' := by exact_mod_cast (show 149 ≤ i' by omega)
    rcases f4 rk hrk with h | h
    · rw [h] at s1 ha
      have hzd : rcol hitA 25 / nanoDet.pz = 40 := by show (-60 + 100 : ℝ) / 1 = 40; norm_num
      rw [hzd] at s1
      have hn : (if b = [hitB] then 8 else 12 : ℕ) ≤ 12 := by split_ifs <;> norm_num
      obtain ⟨r, hr, hrn⟩ := cropKernel_size_le nanoDet_sigma nanoDet_max j1 (if b = [hitB] then 8 else 12) (fz := nanoDet.firstZero hitA) (by rw [hitA_fz]; norm_num)
      have ha' : a < 2 * r + 1 := by rw [← hr]; exact ha
      have : (a:ℝ) ≤ 24 := by exact_mod_cast (show a ≤ 24 by omega)
      rw [abs_lt] at s1
      have hp : (0:ℝ) ≤ (((Detector.scaleKernel (cropKernel nanoDet j1 ((if b = [hitB] then 8 else 12 : ℕ):ℝ) (nanoDet.firstZero hitA)) (rcol hitA 29 * rcol hitA 21)).size / 2 : ℕ) : ℝ) := by positivity
      linarith [s1.2]
    · rw [h] at s1 ha hrb
      have hzd : rcol hitB 25 / nanoDet.pz = 140 := by show (40 + 100 : ℝ) / 1 = 140; norm_num
      rw [hzd] at s1
      have hbB : b = [hitB] := by
        have : b = [hitA] ∨ b = [hitB] := by
          rcases hb0 with h | h <;> rw [h] at hb <;> simp only [List.mem_cons, List.not_mem_nil, or_false] at hb <;> tauto
        rcases this with rfl | rfl
        · rw [List.mem_singleton] at hrb; exact absurd hrb.symm hitAB_ne
        · rfl
      rw [if_pos hbB] at s1 ha
      obtain ⟨r, hr, hrn⟩ := cropKernel_size_le nanoDet_sigma nanoDet_max j1 8 (fz := nanoDet.firstZero hitB) (by rw [hitB_fz]; norm_num)
      have hsz : (Detector.scaleKernel (cropKernel nanoDet j1 ((8:ℕ):ℝ) (nanoDet.firstZero hitB)) (rcol hitB 29 * rcol hitB 21)).size = 2 * r + 1 := hr
      rw [hsz] at ha s1
      have hh : (2 * r + 1) / 2 = r := by omega
      rw [hh, abs_lt] at s1
      have : (a:ℝ) ≤ r + 8 := by exact_mod_cast (show a ≤ r + 8 by omega)
      linarith [s1.2]

/-! ### C33 fails when four times the first zero is not an integer -/

/-- sampling radius of a batch whose largest first zero is `36/17` -/
theorem even_len : Detector.axisLen (144 / 17) = 18 := by
  unfold Detector.axisLen
  rw [show (2:ℝ) * (144 / 17) + 1 = 305 / 17 by norm_num]
  rw [Nat.ceil_eq_iff (by norm_num)]
  norm_num

theorem even_entry {j1 : ℝ → ℝ} (hj : BesselFacts j1) : (1:ℝ) / 10 ^ 13 < (nanoDet.airyKernel j1 (144 / 17) (36 / 17)).val 0 12 := by
  have hlen := even_len
  have hv : (1:ℝ) / 1000000 ≤ Detector.airyProfile j1 nanoDet.sigma (36 / 17)
      (Real.sqrt (Detector.axisAt (144 / 17) 0 ^ 2 + Detector.axisAt (144 / 17) 12 ^ 2)) := by
    have e : Real.sqrt (Detector.axisAt (144 / 17) 0 ^ 2 + Detector.axisAt (144 / 17) 12 ^ 2) = 156 / 17 := by
      unfold Detector.axisAt
      rw [show (-(144 / 17) + ((0:ℕ):ℝ)) ^ 2 + (-(144 / 17) + ((12:ℕ):ℝ)) ^ 2 = (156 / 17) ^ 2 by norm_num]
      exact Real.sqrt_sq (by norm_num)
    have hsg : nanoDet.sigma = 1 := rfl
    rw [e, hsg]
    unfold Detector.airyProfile
    simp only []
    rw [if_neg (show ¬ (36 / 17:ℝ) < 1 by norm_num), if_neg (show ¬ (156 / 17:ℝ) = 0 by norm_num),
      if_neg (show ¬ |(38317:ℝ) / 10000 * (156 / 17) / (36 / 17)| < 1 / 10 ^ 8 by rw [abs_of_pos (by norm_num)]; norm_num)]
    have h1 := hj.at2
    have h2 : (1:ℝ) / 10000 ≤ |j1 (38317 / 10000 * (156 / 17) / (36 / 17))| ^ 2 := by nlinarith
    rw [sq_abs] at h2
    rw [div_pow, mul_pow, le_div_iff₀ (by norm_num)]
    norm_num at h2 ⊢
    linarith
  refine lt_of_lt_of_le ?_ (airyKernel_entry hj (by norm_num) (by rw [hlen]; norm_num) (by rw [hlen]; norm_num) (by norm_num) hv)
  rw [hlen]; norm_num

/-- the whole even-sized kernel is kept -/
theorem even_crop {j1 : ℝ → ℝ} (hj : BesselFacts j1) :
    cropSearch (nanoDet.airyKernel j1 (144 / 17) (36 / 17)) nanoDet.threshold 1 9 = 9 ∧
    (nanoDet.airyKernel j1 (144 / 17) (36 / 17)).size = 18 ∧
    (cropKernel nanoDet j1 (144 / 17) (36 / 17)).size = 18 ∧
    (cropKernel nanoDet j1 (144 / 17) (36 / 17)).val 0 12 = (nanoDet.airyKernel j1 (144 / 17) (36 / 17)).val 0 12 := by
  have hent := even_entry hj
  obtain ⟨k, hk⟩ : ∃ k, k = nanoDet.airyKernel j1 (144 / 17) (36 / 17) := ⟨_, rfl⟩
  have hksz : k.size = 18 := by
    rw [hk]; unfold Detector.airyKernel; rw [if_neg (by norm_num)]; exact even_len
  have hsub : SubUnit k := by rw [hk]; exact airyKernel_subUnit nanoDet_sigma nanoDet_max j1 _ _
  have hth : nanoDet.threshold = 1 / 10 ^ 13 := rfl
  have h9 : k.size / 2 = 9 := by omega
  have hm9 : 8 < cropSearch k nanoDet.threshold 1 (k.size / 2) :=
    cropSearch_gt hsub (a := 0) (b := 12) (m := 8) (by omega) (by omega) (by left; rw [hksz]; norm_num) (by rw [hth, hk]; exact hent) (by omega)
  have hm12 := cropSearch_le k nanoDet.threshold 1 (k.size / 2) (by omega)
  have hm : cropSearch k nanoDet.threshold 1 (k.size / 2) = 9 := by omega
  rw [← hk]
  refine ⟨by rw [h9] at hm; exact hm, hksz, ?_, ?_⟩
  · unfold cropKernel Kernel.crop; rw [← hk]; simp only [hm]; omega
  · unfold cropKernel Kernel.crop; rw [← hk]; simp only [hm]; rw [h9]

noncomputable def evenRow : List Fl := imgRow 0 40 40 (1/2) 1 (widthFor (36 / 17))
noncomputable def evenHit : List Fl := imgHit 1 0 40 40 (1/2) 1 (widthFor (36 / 17))

theorem even_hits (rows : List (List Fl)) (hl : ∀ r ∈ rows, r.length = 25) : (nanoDet.peaksIntersection (imgDict (evenRow :: rows)) 1).peaks =
    evenHit :: (nanoDet.peaksIntersection (imgDict rows) 1).peaks :=
  imgDict_kept 1 1 _ 1 0 40 40 (1/2) 1 (widthFor (36 / 17)) (by norm_num [abs_le]) (by norm_num [abs_le]) _ hl

theorem even_radius : nanoDet.airyRadius [36 / 17] = 144 / 17 := nanoDet_radius (by unfold Detector.maxL; norm_num) (by norm_num)

theorem airyKernels_one (D : Detector) (j1 : ℝ → ℝ) (z : ℝ) : ∃ k, D.airyKernels j1 [z] = .ok [k] ∧
    UpToPad k (cropKernel D j1 (D.airyRadius [z]) z) := by
  unfold Detector.airyKernels
  simp only [List.map_cons, List.map_nil]
  rw [if_neg]
  · refine ⟨_, rfl, ?_⟩
    split_ifs
    · right; exact ⟨_, rfl⟩
    · left; rfl
  · push Not
    intro k hk k' hk'
    rw [List.mem_singleton] at hk hk'
    rw [hk, hk']

theorem perm_one {s : List ℝ → List ℕ} (hs : IsArgsort s) (key : List Fl → ℝ) (r : List Fl) : sortedRows s key [r] = [r] :=
  List.perm_singleton.mp (sortedRows_perm hs key [r])

/-- one peak is one batch -/
theorem single_batch (D : Detector) (a : ℝ) (r : List Fl) : D.nanoBatches a [r] = [[r]] := by
  have h1 : 1 ≤ D.nanoBatchSize a [r] := le_max_left _ _
  rw [Detector.nanoBatches, List.take_of_length_le (by simpa using h1), List.drop_of_length_le (by simpa using h1), Detector.nanoBatches]

/-- C33 is false in general: a single peak that hits exactly the corner of pixel (140, 140) and whose first dark ring is at
36/17 pixels.  Its kernel is sampled on an even grid (radius 144/17, 18 samples) but deposited as if it were centred on a sample:
the image has light 17 rows above the hit and none at all 17 rows below it. -/
theorem C33_even_grid_fails (j1 : ℝ → ℝ) (hj : BesselFacts j1) (s : List ℝ → List ℕ) (hs : IsArgsort s) (freeGb : ℝ)
    (hull : Beam → List V3 → Option Hull) (sample : Hull → ℕ → List V3) (mesh : TetraMesh) (ml : Option ℝ) (mi : ℝ) :
    ∃ (D : Detector) (d : PeaksDict) (t : Stack) (o : PeaksDict) (r : List Fl),
      Detector.new ⟨100, -100, -100⟩ ⟨100, 100, -100⟩ ⟨100, -100, 100⟩ .absent (.both 1) 1 (1 / 10 ^ 13) 13 true true true = .ok D ∧
      D.render ⟨j1, s, freeGb, hull, sample⟩ d mesh 1 .nano ml mi = .ok (some t, o) ∧ o.peaks = [r] ∧
      val o.columns r "zd" / D.pz = 140 ∧ val o.columns r "yd" / D.py = 140 ∧
      0 < t 0 (140 - 17) 143 ∧ ∀ j, t 0 (140 + 17) j = 0 := by
  obtain ⟨psz, ppos⟩ := nanoDet_psf
  have hfz : nanoDet.firstZero evenHit = 36 / 17 := nanoDet_firstZero _ _ _ _ _ _ _
  obtain ⟨k, hk, hpad⟩ := airyKernels_one nanoDet j1 (36 / 17)
  rw [even_radius] at hpad
  have hpairs : nanoPairs nanoDet j1 [[evenHit]] = .ok [(evenHit, k)] := by
    unfold nanoPairs
    simp only [List.map_cons, List.map_nil, hfz, hk, nanoPairs]
    rfl
  have hp : (nanoDet.peaksIntersection (imgDict [evenRow]) 1).peaks = [evenHit] := even_hits [] (by simp)
  have hzd : rcol evenHit 25 / nanoDet.pz = 140 := by show (40 + 100 : ℝ) / 1 = 140; norm_num
  have hyd : rcol evenHit 26 / nanoDet.py = 140 := by show (40 + 100 : ℝ) / 1 = 140; norm_num
  have hiv : rcol evenHit 29 * rcol evenHit 21 = 1 := by show (1:ℝ) * 1 = 1; norm_num
  have hf0 : ∀ rk ∈ [(evenHit, k)], rcol rk.1 28 = 0 := by
    intro rk hrk; rw [List.mem_singleton] at hrk; subst hrk
    show ((frameOf 1 (1/2) : ℤ) : ℝ) = 0; rw [frameOf_one]; simp
  have himg : ∀ i j, cornerSum nanoDet.nz nanoDet.ny (allCorners (nanoAdd nanoDet [(evenHit, k)] 0)) i j =
      kernelAdd nanoDet.nz nanoDet.ny (Detector.scaleKernel (cropKernel nanoDet j1 (144 / 17) (36 / 17)) 1, 140, 140) i j := by
    intro i j
    rw [nanoAdd_zero hf0]
    simp only [List.map_cons, List.map_nil, List.sum_cons, List.sum_nil, _root_.add_zero]
    rw [hzd, hyd, hiv, kernelAdd_upToPad hpad]
  obtain ⟨-, -, c2, c3⟩ := even_crop hj
  have hent := even_entry hj
  rw [← c3] at hent
  have hnn : ∀ a < (cropKernel nanoDet j1 (144 / 17) (36 / 17)).size, ∀ b < (cropKernel nanoDet j1 (144 / 17) (36 / 17)).size,
      0 ≤ (cropKernel nanoDet j1 (144 / 17) (36 / 17)).val a b :=
    (crop_subUnit (airyKernel_subUnit nanoDet_sigma nanoDet_max j1 _ _) _).1
  generalize hq : cropKernel nanoDet j1 (144 / 17) (36 / 17) = q at *
  have hss : (Detector.scaleKernel q 1).size = 18 := c2
  have hhalf : (Detector.scaleKernel q 1).size / 2 = 9 := by omega
  refine ⟨nanoDet, imgDict [evenRow], nanoImg [(evenHit, k)], nanoDet.peaksIntersection (imgDict [evenRow]) 1, evenHit, nanoDet_new, ?_, hp,
    ?_, ?_, ?_, ?_⟩
  · rw [render_nano, show max (1:ℤ) 1 = 1 from rfl, hp, renderNano_eq (by exact hs)]
    show Except.map _ (Except.map _ (nanoPairs nanoDet j1 (nanoDet.nanoBatches (freeGb * 1024 ^ 3) (sortedRows s nanoDet.airyMemory [evenHit])))) = _
    rw [perm_one hs, single_batch, hpairs]; rfl
  · exact hzd
  · exact hyd
  · refine conv_near (r := 8) psz ppos (fun i j => ?_) (i := 123) (j := 143) (i' := 131) (j' := 143) (by rw [nanoDet_nz]; norm_num)
      (by rw [nanoDet_ny]; norm_num) (by rw [nanoDet_nz]; norm_num) (by rw [nanoDet_ny]; norm_num) (by norm_num) (by norm_num) (by norm_num) (by norm_num) ?_
    · rw [himg]; exact kernelAdd_nonneg (scale_nonneg hnn zero_le_one) _ _ _ _
    · rw [himg]
      refine lt_of_lt_of_le ?_ (kernelAdd_ge (a := 0) (b := 12) (scale_nonneg hnn zero_le_one)
        (by omega) (by omega) (by rw [nanoDet_nz]; norm_num) (by rw [nanoDet_ny]; norm_num) (by rw [hhalf]; norm_num) (by rw [hhalf]; norm_num))
      show 0 < q.val 0 12 * 1
      rw [mul_one]
      exact lt_trans (by norm_num) hent
  · intro j
    refine conv_far (r := 8) psz ?_
    intro i' hi' j' hj' h1 h2
    rw [himg]
    by_contra hne
    obtain ⟨a, ha, c, hc, -, s1, -⟩ := kernelAdd_sample hne
    rw [hhalf, abs_lt] at s1
    rw [hss] at ha
    have h1' : (149:ℝ) ≤ i' := by exact_mod_cast (show 149 ≤ i' by omega)
    have : (a:ℝ) ≤ 17 := by exact_mod_cast (show a ≤ 17 by omega)
    have e9 : ((9:ℕ):ℝ) = 9 := by norm_num
    rw [e9] at s1
    linarith [s1.2]

/-! ### C67 -/

/-- C67, restricted: a nano rendering returns an image when all first dark rings are within two pixels, and also when no free memory
is reported (every peak is then its own batch).  Missing: mixed batches with larger rings, for which the claim is false
(`C67_torch_cat_fails`). -/
theorem C67_nano_succeeds_partial (D : Detector) (hs : 0 < D.sigma) (hm : 0 ≤ D.maxRadius) (env : RenderEnv) (ha : IsArgsort env.argsortDesc)
    (d : PeaksDict) (hcol : d.columns = peakColumns) (mesh : TetraMesh) (frames : ℤ) (ml : Option ℝ) (mi : ℝ)
    (hz : (∀ r ∈ (D.peaksIntersection d (max frames 1)).peaks, firstZeroPixels D (D.peaksIntersection d (max frames 1)).columns r ≤ 2) ∨
      env.freeGb ≤ 0) :
    ∃ t out, D.render env d mesh frames .nano ml mi = .ok (some t, out) := by
  rcases hz with hz | hz
  · have hc : (D.peaksIntersection d (max frames 1)).columns = hitColumns := by show d.columns ++ _ = _; rw [hcol]; rfl
    rw [hc] at hz
    simp only [← firstZero_eq] at hz
    rw [render_nano, renderNano_small hs hm ha hz]
    exact ⟨_, _, rfl⟩
  · have hb : ∀ rows : List (List Fl), D.nanoBatches (env.freeGb * 1024 ^ 3) rows = rows.map fun r => [r] := by
      intro rows
      induction rows with
      | nil => rw [Detector.nanoBatches]; rfl
      | cons r rs ih =>
        have h1 : D.nanoBatchSize (env.freeGb * 1024 ^ 3) (r :: rs) = 1 := by
          unfold Detector.nanoBatchSize
          rw [List.filter_eq_nil_iff.mpr]
          · rfl
          · intro i _
            simp only [decide_eq_true_eq, not_le]
            have h2 : env.freeGb * 1024 ^ 3 ≤ 0 := by nlinarith
            refine lt_of_le_of_lt h2 ?_
            rw [List.take_succ_cons, List.map_cons, List.sum_cons]
            have h3 := airyMemory_pos D hs.le r
            have h4 : 0 ≤ ((rs.take i).map D.airyMemory).sum := by
              apply List.sum_nonneg
              intro x hx
              obtain ⟨q, -, rfl⟩ := List.mem_map.mp hx
              exact (airyMemory_pos D hs.le q).le
            linarith
        rw [Detector.nanoBatches, h1, List.take_succ_cons, List.take_zero, List.drop_succ_cons, List.drop_zero, ih, List.map_cons]
    have hpairs : ∀ rows : List (List Fl), ∃ rks, nanoPairs D env.j1 (rows.map fun r => [r]) = .ok rks := by
      intro rows
      induction rows with
      | nil => exact ⟨[], rfl⟩
      | cons r rs ih =>
        obtain ⟨rks, h⟩ := ih
        obtain ⟨k, hk, -⟩ := airyKernels_one D env.j1 (D.firstZero r)
        refine ⟨(r, k) :: rks, ?_⟩
        rw [List.map_cons, nanoPairs]
        simp only [List.map_cons, List.map_nil, hk, h]
        rfl
    obtain ⟨rks, h⟩ := hpairs (sortedRows env.argsortDesc D.airyMemory (D.peaksIntersection d (max frames 1)).peaks)
    rw [render_nano, renderNano_eq ha, hb, h]
    exact ⟨_, _, rfl⟩

noncomputable def dotRow : List Fl := imgRow 1 (-40) (-40) (1/2) 1 (widthFor (1/10))
noncomputable def dotHit : List Fl := imgHit 1 1 (-40) (-40) (1/2) 1 (widthFor (1/10))

theorem torch_cat_error (j1 : ℝ → ℝ) (hj : BesselFacts j1) (s : List ℝ → List ℕ) (hs : IsArgsort s)
    (hull : Beam → List V3 → Option Hull) (sample : Hull → ℕ → List V3) (mesh : TetraMesh) (ml : Option ℝ) (mi : ℝ) :
    nanoDet.render ⟨j1, s, 1, hull, sample⟩ (imgDict [evenRow, dotRow]) mesh 1 .nano ml mi = .error .runtimeError := by
  have hp : (nanoDet.peaksIntersection (imgDict [evenRow, dotRow]) 1).peaks = [evenHit, dotHit] := by
    rw [even_hits [dotRow] (by intro r hr; rw [List.mem_singleton] at hr; subst hr; rfl)]
    unfold dotRow nanoDet
    rw [imgDict_kept 1 1 _ 1 1 (-40) (-40) (1/2) 1 (widthFor (1/10)) (by norm_num [abs_le]) (by norm_num [abs_le]) _ (by simp)]
    rfl
  have hfz : nanoDet.firstZero evenHit = 36 / 17 := nanoDet_firstZero _ _ _ _ _ _ _
  have hfd : nanoDet.firstZero dotHit = 1 / 10 := nanoDet_firstZero _ _ _ _ _ _ _
  have hAm : nanoDet.airyMemory evenHit ≤ 60000 := by
    unfold Detector.airyMemory
    rw [hfz]
    have hs : nanoDet.sigma = 1 := rfl
    have : ⌈max (4 * (36 / 17:ℝ)) (3 * nanoDet.sigma)⌉ = 9 := by
      rw [hs, max_eq_left (by norm_num), Int.ceil_eq_iff]; norm_num
    rw [this]; norm_num
  have hBm : nanoDet.airyMemory dotHit ≤ 60000 := by
    unfold Detector.airyMemory
    rw [hfd]
    have hs : nanoDet.sigma = 1 := rfl
    have : ⌈max (4 * (1 / 10:ℝ)) (3 * nanoDet.sigma)⌉ = 3 := by
      rw [hs, max_eq_right (by norm_num), Int.ceil_eq_iff]; norm_num
    rw [this]; norm_num
  set S := sortedRows s nanoDet.airyMemory [evenHit, dotHit] with hS
  have hS2 : S = [evenHit, dotHit] ∨ S = [dotHit, evenHit] := perm_two (sortedRows_perm hs _ _)
  have hb1 : nanoDet.nanoBatches (1 * 1024 ^ 3) S = [S] := by
    rcases hS2 with h | h <;> rw [h]
    · exact one_batch (by linarith [show (60000:ℝ) ≤ 1 * 1024 ^ 3 by norm_num]) (by linarith [show (120000:ℝ) ≤ 1 * 1024 ^ 3 by norm_num])
    · exact one_batch (by linarith [show (60000:ℝ) ≤ 1 * 1024 ^ 3 by norm_num]) (by linarith [show (120000:ℝ) ≤ 1 * 1024 ^ 3 by norm_num])
  obtain ⟨c1, c2, c3, -⟩ := even_crop hj
  -- the odd kernel
  have hodd : ∀ R : ℝ, ∃ m, m ≤ 8 ∧ cropSearch (nanoDet.airyKernel j1 R (1/10)) nanoDet.threshold 1 ((nanoDet.airyKernel j1 R (1/10)).size / 2) = m ∧
      ((nanoDet.airyKernel j1 R (1/10)).crop nanoDet.threshold).size = 2 * m + 1 := by
    intro R
    have hsz : (nanoDet.airyKernel j1 R (1/10)).size = 17 := by
      unfold Detector.airyKernel; rw [if_pos (by norm_num)]; exact nanoDet_psf.1
    have hle := cropSearch_le (nanoDet.airyKernel j1 R (1/10)) nanoDet.threshold 1 ((nanoDet.airyKernel j1 R (1/10)).size / 2) (by omega)
    refine ⟨_, by omega, rfl, ?_⟩
    unfold Kernel.crop
    simp only
    omega
  obtain ⟨m, hm8, hm1, hm2⟩ := hodd (144 / 17)
  have c1' : cropSearch (nanoDet.airyKernel j1 (144 / 17) (36 / 17)) nanoDet.threshold 1 ((nanoDet.airyKernel j1 (144 / 17) (36 / 17)).size / 2) = 9 := by
    rw [c2]; exact c1
  have hcat : nanoDet.airyKernels j1 (S.map nanoDet.firstZero) = .error .runtimeError := by
    have key : ∀ a b : List Fl, (a = evenHit ∧ b = dotHit ∨ a = dotHit ∧ b = evenHit) → nanoDet.airyKernels j1 ([a, b].map nanoDet.firstZero) = .error .runtimeError := by
      intro a b hab
      have hR : nanoDet.airyRadius ([a, b].map nanoDet.firstZero) = 144 / 17 := by
        rcases hab with ⟨rfl, rfl⟩ | ⟨rfl, rfl⟩ <;> simp only [List.map_cons, List.map_nil, hfz, hfd]
        · exact nanoDet_radius (by unfold Detector.maxL; norm_num) (by norm_num)
        · exact nanoDet_radius (by unfold Detector.maxL; norm_num) (by norm_num)
      unfold Detector.airyKernels
      simp only [hR]
      have h19 : ∀ l : List (Kernel × ℕ), (∃ x ∈ l, x.2 = 19) → (∀ x ∈ l, x.2 ≤ 19) → l.foldl (fun m k => max m k.2) 0 = 19 := by
        intro l ⟨x, hx, h1⟩ h2
        have g1 := (foldl_max_ge l 0).2 x hx
        have g2 : ∀ (l : List (Kernel × ℕ)) (m : ℕ), m ≤ 19 → (∀ x ∈ l, x.2 ≤ 19) → l.foldl (fun m k => max m k.2) m ≤ 19 := by
          intro l
          induction l with
          | nil => intro m hm _; exact hm
          | cons y l ih =>
            intro m hm h
            exact ih _ (max_le hm (h y List.mem_cons_self)) fun x hx => h x (List.mem_cons_of_mem _ hx)
        have := g2 l 0 (by norm_num) h2
        omega
      have hc3 : ((nanoDet.airyKernel j1 (144 / 17) (36 / 17)).crop nanoDet.threshold).size = 18 := c3
      rcases hab with ⟨rfl, rfl⟩ | ⟨rfl, rfl⟩ <;> simp only [List.map_cons, List.map_nil, hfz, hfd, c1', hm1]
      · rw [h19 _ ⟨_, List.mem_cons_self, by norm_num⟩ (by simp; omega)]
        rw [if_pos]
        refine ⟨_, List.mem_cons_self, _, List.mem_cons_of_mem _ List.mem_cons_self, ?_⟩
        rw [if_pos (by omega), if_pos (by omega)]
        unfold Kernel.pad
        simp only
        omega
      · rw [h19 _ ⟨_, List.mem_cons_of_mem _ List.mem_cons_self, by norm_num⟩ (by simp; omega)]
        rw [if_pos]
        refine ⟨_, List.mem_cons_self, _, List.mem_cons_of_mem _ List.mem_cons_self, ?_⟩
        rw [if_pos (by omega), if_pos (by omega)]
        unfold Kernel.pad
        simp only
        omega
    rcases hS2 with h | h <;> rw [h]
    · exact key _ _ (Or.inl ⟨rfl, rfl⟩)
    · exact key _ _ (Or.inr ⟨rfl, rfl⟩)
  rw [render_nano, show max (1:ℤ) 1 = 1 from rfl, hp, renderNano_eq (by exact hs)]
  show Except.map _ (Except.map _ (nanoPairs nanoDet j1 (nanoDet.nanoBatches (1 * 1024 ^ 3) S))) = _
  rw [hb1]
  unfold nanoPairs
  rw [hcat]
  rfl

/-- C67 is false in general: two peaks with first dark rings at 36/17 and 1/10 pixels in the same batch.  The first kernel has 18
samples per side, the second is padded to 19, and `torch.cat` raises RuntimeError. -/
theorem C67_torch_cat_fails (j1 : ℝ → ℝ) (hj : BesselFacts j1) (s : List ℝ → List ℕ) (hs : IsArgsort s)
    (hull : Beam → List V3 → Option Hull) (sample : Hull → ℕ → List V3) (mesh : TetraMesh) (ml : Option ℝ) (mi : ℝ) :
    ∃ (D : Detector) (d : PeaksDict),
      Detector.new ⟨100, -100, -100⟩ ⟨100, 100, -100⟩ ⟨100, -100, 100⟩ .absent (.both 1) 1 (1 / 10 ^ 13) 13 true true true = .ok D ∧
      D.render ⟨j1, s, 1, hull, sample⟩ d mesh 1 .nano ml mi = .error .runtimeError :=
  ⟨nanoDet, imgDict [evenRow, dotRow], nanoDet_new, torch_cat_error j1 hj s hs hull sample mesh ml mi⟩

end XRD
