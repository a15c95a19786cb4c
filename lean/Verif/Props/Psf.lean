import Verif.Lemmas.Conv
import Mathlib.Algebra.BigOperators.Field

/-! Properties C28 (the point spread kernel) and C29 (the convolution). -/

namespace XRD
open V3 M3 Fl Spec
open scoped Classical

theorem gaussRadiusLoop_spec (D : Detector) (fuel : ℕ) (r : ℤ) (hf : D.maxRadius < r + fuel) :
    r ≤ D.gaussRadiusLoop fuel r ∧ (D.gaussRadiusLoop fuel r ≤ max r (D.maxRadius + 1)) ∧
    (∀ m, r ≤ m → m < D.gaussRadiusLoop fuel r → m ≤ D.maxRadius ∧ ¬ gaussTail D.sigma m < D.threshold / 2) ∧
    (D.maxRadius < D.gaussRadiusLoop fuel r ∨ gaussTail D.sigma (D.gaussRadiusLoop fuel r) < D.threshold / 2) := by
  induction fuel generalizing r with
  | zero =>
    simp only [Detector.gaussRadiusLoop]
    refine ⟨le_refl _, le_max_left _ _, ?_, Or.inl (by simpa using hf)⟩
    intro m h1 h2; omega
  | succ fuel ih =>
    rw [Detector.gaussRadiusLoop]
    split_ifs with h1 h2
    · refine ⟨le_refl _, le_max_left _ _, ?_, Or.inr h2⟩
      intro m h3 h4; omega
    · obtain ⟨a1, a2, a3, a4⟩ := ih (r + 1) (by push_cast at hf; omega)
      refine ⟨by omega, by omega, ?_, a4⟩
      intro m hm hm2
      rcases eq_or_lt_of_le hm with rfl | hm
      · exact ⟨h1, h2⟩
      · exact a3 m (by omega) hm2
    · refine ⟨le_refl _, le_max_left _ _, ?_, Or.inl (by omega)⟩
      intro m h3 h4; omega

theorem gaussTail_eq {s : ℝ} (hs : 0 < s) (r : ℝ) : gaussTail s r = Real.exp (-(r ^ 2) / (2 * s ^ 2)) := by
  unfold gaussTail; rw [if_neg hs.ne']

theorem gaussRadius_nonneg (D : Detector) (hm : 0 ≤ D.maxRadius) : 0 ≤ D.gaussRadius := by
  unfold Detector.gaussRadius
  have := (gaussRadiusLoop_spec D D.maxRadius.toNat 1 (by omega)).1
  omega

theorem normalise_total {k : Kernel} (h : k.total ≠ 0) : k.normalise.total = 1 := by
  unfold Kernel.normalise Kernel.total
  simp only
  simp_rw [← Finset.sum_div]
  exact div_self h

theorem total_pos {k : Kernel} (hs : 0 < k.size) (hk : ∀ a < k.size, ∀ b < k.size, 0 < k.val a b) : 0 < k.total := by
  unfold Kernel.total
  apply Finset.sum_pos
  · intro a ha
    apply Finset.sum_pos
    · intro b hb; exact hk a (Finset.mem_range.mp ha) b (Finset.mem_range.mp hb)
    · exact ⟨0, Finset.mem_range.mpr hs⟩
  · exact ⟨0, Finset.mem_range.mpr hs⟩

/-- C28: for a positive width and a non-negative maximum the point spread kernel has side `2r+1`, `r` at most the maximum and
otherwise the first radius from 1 on whose Gaussian value is below half the threshold; its entries are positive, sum to one
and are symmetric under transposition and both reflections.  The search stops (its exit condition holds). -/
theorem C28_point_spread_kernel (D : Detector) (hs : 0 < D.sigma) (hm : 0 ≤ D.maxRadius) :
    ∃ r : ℕ, D.gaussKernel.size = 2 * r + 1 ∧ (r : ℤ) ≤ D.maxRadius ∧
      ((r : ℤ) = D.maxRadius ∨ (1 ≤ r ∧ Real.exp (-((r : ℝ) ^ 2) / (2 * D.sigma ^ 2)) < D.threshold / 2)) ∧
      (∀ m : ℕ, 1 ≤ m → m < r → D.threshold / 2 ≤ Real.exp (-((m : ℝ) ^ 2) / (2 * D.sigma ^ 2))) ∧
      (∀ i < 2 * r + 1, ∀ j < 2 * r + 1, 0 < D.gaussKernel.val i j) ∧
      ∑ i ∈ Finset.range (2 * r + 1), ∑ j ∈ Finset.range (2 * r + 1), D.gaussKernel.val i j = 1 ∧
      (∀ i < 2 * r + 1, ∀ j < 2 * r + 1, D.gaussKernel.val i j = D.gaussKernel.val j i ∧
        D.gaussKernel.val (2 * r - i) j = D.gaussKernel.val i j ∧ D.gaussKernel.val i (2 * r - j) = D.gaussKernel.val i j) ∧
      (∀ i < 2 * r + 1, ∀ j < 2 * r + 1, D.gaussKernel.val i j = D.gaussKernel.val r r *
        Real.exp (-(((i : ℝ) - r) ^ 2 + ((j : ℝ) - r) ^ 2) / (2 * D.sigma ^ 2))) := by
  obtain ⟨l1, l2, l3, l4⟩ := gaussRadiusLoop_spec D D.maxRadius.toNat 1 (by omega)
  have hr0 := gaussRadius_nonneg D hm
  obtain ⟨r, hr⟩ := Int.eq_ofNat_of_zero_le hr0
  have hr' : min (D.gaussRadiusLoop D.maxRadius.toNat 1) D.maxRadius = r := hr
  have hsz : D.gaussKernel.size = 2 * r + 1 := by
    unfold Detector.gaussKernel; simp only [hr, Kernel.normalise]; omega
  set raw : Kernel := ⟨2 * r + 1, fun i j => Real.exp (-(((i : ℝ) - r) ^ 2 + ((j : ℝ) - r) ^ 2) / (2 * D.sigma ^ 2))⟩ with hraw
  have hk : D.gaussKernel = raw.normalise := by
    unfold Detector.gaussKernel
    simp only [hr]
    have : (2 * (r : ℤ) + 1).toNat = 2 * r + 1 := by omega
    rw [hraw]
    congr 2
  have hpos : 0 < raw.total := total_pos (by simp [hraw]) fun a _ b _ => Real.exp_pos _
  have hv : ∀ i j, D.gaussKernel.val i j = raw.val i j / raw.total := by intro i j; rw [hk]; rfl
  refine ⟨r, hsz, ?_, ?_, ?_, ?_, ?_, ?_, ?_⟩
  · rw [← hr']; exact min_le_right _ _
  · rcases le_or_gt D.maxRadius (D.gaussRadiusLoop D.maxRadius.toNat 1) with h | h
    · left; omega
    · right
      have he : D.gaussRadiusLoop D.maxRadius.toNat 1 = r := by omega
      rw [he] at l4 l1 h
      rcases l4 with l4 | l4
      · omega
      · refine ⟨by omega, ?_⟩
        rw [gaussTail_eq hs] at l4
        exact_mod_cast l4
  · intro m h1 h2
    have := (l3 m (by omega) (by omega)).2
    rw [gaussTail_eq hs] at this
    push Not at this
    exact_mod_cast this
  · intro i _ j _
    rw [hv]; exact div_pos (Real.exp_pos _) hpos
  · have := normalise_total hpos.ne'
    rw [← hk] at this
    unfold Kernel.total at this
    rw [hsz] at this
    exact this
  · intro i hi j hj
    simp only [hv]
    have e1 : ((2 * r - i : ℕ) : ℝ) - r = -((i : ℝ) - r) := by
      rw [Nat.cast_sub (by omega)]; push_cast; ring
    have e2 : ((2 * r - j : ℕ) : ℝ) - r = -((j : ℝ) - r) := by
      rw [Nat.cast_sub (by omega)]; push_cast; ring
    simp only [hraw, e1, e2, neg_sq]
    refine ⟨?_, trivial, trivial⟩
    rw [add_comm]
  · intro i hi j hj
    simp only [hv]
    have : raw.val r r = 1 := by simp [hraw]
    rw [this]
    simp only [hraw]
    ring

/-- the default detector settings -/
example : 0 < (⟨⟨1, 0, 0⟩, ⟨1, 1, 0⟩, ⟨1, 0, 1⟩, 1, 1, 1/2, 1/2, ⟨0, 0, 1⟩, ⟨0, 1, 0⟩, ⟨-1, 0, 0⟩, 1, 2/100, 13, true, true, true⟩ : Detector).sigma ∧
    0 ≤ (⟨⟨1, 0, 0⟩, ⟨1, 1, 0⟩, ⟨1, 0, 1⟩, 1, 1, 1/2, 1/2, ⟨0, 0, 1⟩, ⟨0, 1, 0⟩, ⟨-1, 0, 0⟩, 1, 2/100, 13, true, true, true⟩ : Detector).maxRadius := by
  norm_num

/-- C29: convolution with any non-negative normalised kernel of odd side: the image keeps its shape, each pixel receives from
each lit pixel the kernel value at their distance, non-negative images stay non-negative, the total does not increase, and is
kept when every lit pixel is at least the kernel radius away from the border. -/
theorem C29_convolution (h w r : ℕ) (k : Kernel) (hs : k.size = 2 * r + 1) (hk : ∀ a < 2 * r + 1, ∀ b < 2 * r + 1, 0 ≤ k.val a b)
    (h1 : ∑ a ∈ Finset.range (2 * r + 1), ∑ b ∈ Finset.range (2 * r + 1), k.val a b = 1) (t : ℕ → ℕ → ℝ)
    (ht : ∀ i < h, ∀ j < w, 0 ≤ t i j) :
    (∀ i j, ¬ (i < h ∧ j < w) → conv2d h w k t i j = 0) ∧
    (∀ i j, 0 ≤ conv2d h w k t i j) ∧
    (∀ i < h, ∀ j < w, conv2d h w k t i j = ∑ i' ∈ Finset.range h, ∑ j' ∈ Finset.range w,
      (if |(i' : ℤ) - i| ≤ r ∧ |(j' : ℤ) - j| ≤ r then t i' j' * k.val (r + i' - i) (r + j' - j) else 0)) ∧
    total2 h w (conv2d h w k t) ≤ total2 h w t ∧
    ((∀ i < h, ∀ j < w, t i j ≠ 0 → r ≤ i ∧ i + r < h ∧ r ≤ j ∧ j + r < w) → total2 h w (conv2d h w k t) = total2 h w t) := by
  have hr : k.size / 2 = r := by omega
  have hk' : ∀ a < k.size, ∀ b < k.size, 0 ≤ k.val a b := by rw [hs]; exact hk
  have htot : k.total = 1 := by unfold Kernel.total; rw [hs]; exact h1
  refine ⟨?_, conv2d_nonneg hk' ht, ?_, ?_, ?_⟩
  · intro i j hij; unfold conv2d; rw [if_neg hij]
  · intro i hi j hj
    rw [conv2d_eq h w k t hi hj, hr, hs]
    apply Finset.sum_congr rfl; intro i' _
    apply Finset.sum_congr rfl; intro j' _
    by_cases ha : i ≤ i' + r ∧ i' + r - i < 2 * r + 1
    · by_cases hb : j ≤ j' + r ∧ j' + r - j < 2 * r + 1
      · rw [if_pos ha, if_pos hb, if_pos (by simp only [abs_le]; omega), Nat.add_comm r i', Nat.add_comm r j']
      · rw [if_pos ha, if_neg hb, if_neg (by simp only [abs_le]; omega)]
    · rw [if_neg ha, if_neg (by simp only [abs_le]; omega)]
  · rw [total2_conv2d]
    unfold total2
    apply Finset.sum_le_sum; intro i' hi'
    apply Finset.sum_le_sum; intro j' hj'
    have h2 := convShare_le (h := h) (w := w) hk' i' j'
    rw [htot] at h2
    have h3 := ht i' (Finset.mem_range.mp hi') j' (Finset.mem_range.mp hj')
    nlinarith
  · intro hin
    rw [total2_conv2d]
    unfold total2
    apply Finset.sum_congr rfl; intro i' hi'
    apply Finset.sum_congr rfl; intro j' hj'
    by_cases hz : t i' j' = 0
    · rw [hz, zero_mul]
    · obtain ⟨a1, a2, a3, a4⟩ := hin i' (Finset.mem_range.mp hi') j' (Finset.mem_range.mp hj') hz
      rw [convShare_eq hs a1 a2 a3 a4, htot, mul_one]

/-- the detector's own kernel meets the hypotheses: applying its point spread never increases the total -/
theorem C29_detector_point_spread (D : Detector) (hs : 0 < D.sigma) (hm : 0 ≤ D.maxRadius) (h w : ℕ) (t : ℕ → ℕ → ℝ)
    (ht : ∀ i < h, ∀ j < w, 0 ≤ t i j) :
    (∀ i j, 0 ≤ conv2d h w D.gaussKernel t i j) ∧ total2 h w (conv2d h w D.gaussKernel t) ≤ total2 h w t ∧
    ((∀ i < h, ∀ j < w, t i j ≠ 0 → D.maxRadius ≤ i ∧ i + D.maxRadius < h ∧ D.maxRadius ≤ j ∧ j + D.maxRadius < w) →
      total2 h w (conv2d h w D.gaussKernel t) = total2 h w t) := by
  obtain ⟨r, a1, a2, -, -, a5, a6, -⟩ := C28_point_spread_kernel D hs hm
  obtain ⟨-, b2, -, b4, b5⟩ := C29_convolution h w r D.gaussKernel a1 (fun a ha b hb => (a5 a ha b hb).le) a6 t ht
  refine ⟨b2, b4, fun hin => b5 fun i hi j hj hne => ?_⟩
  obtain ⟨c1, c2, c3, c4⟩ := hin i hi j hj hne
  refine ⟨?_, ?_, ?_, ?_⟩ <;> omega

end XRD
