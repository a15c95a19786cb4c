import Verif.Props.Psf

/-! The exact extent of C29: when the point spread keeps the total. -/

namespace XRD
open V3 M3 Fl Spec
open scoped Classical

theorem shift_sum_lt (h r i' : ℕ) (u : ℕ → ℝ) (hu : ∀ a < 2 * r + 1, 0 < u a) (hb : ¬ (r ≤ i' ∧ i' + r < h)) :
    ∑ i ∈ Finset.range h, (if i ≤ i' + r ∧ i' + r - i < 2 * r + 1 then u (i' + r - i) else 0) < ∑ a ∈ Finset.range (2 * r + 1), u a := by
  rw [← Finset.sum_filter]
  have hinj : Set.InjOn (fun i => i' + r - i) (((Finset.range h).filter fun i => i ≤ i' + r ∧ i' + r - i < 2 * r + 1 : Finset ℕ) : Set ℕ) := by
    intro a ha b hb hab
    simp only [Finset.coe_filter, Finset.mem_range, Set.mem_setOf_eq] at ha hb
    simp only at hab
    omega
  rw [← Finset.sum_image (f := u) hinj]
  obtain ⟨c, hc, hn⟩ : ∃ c, c < 2 * r + 1 ∧ ∀ i, i < h → i ≤ i' + r → i' + r - i ≠ c := by
    by_cases h1 : i' < r
    · exact ⟨2 * r, by omega, by intro i _ _; omega⟩
    · exact ⟨0, by omega, by intro i hi _; omega⟩
  refine Finset.sum_lt_sum_of_subset (i := c) ?_ (Finset.mem_range.mpr hc) ?_ (hu c hc) (fun a ha _ => (hu a (Finset.mem_range.mp ha)).le)
  · intro a ha
    obtain ⟨i, hi, rfl⟩ := Finset.mem_image.mp ha
    simp only [Finset.mem_filter, Finset.mem_range] at hi
    exact Finset.mem_range.mpr hi.2.2
  · intro ha
    obtain ⟨i, hi, he⟩ := Finset.mem_image.mp ha
    simp only [Finset.mem_filter, Finset.mem_range] at hi
    exact hn i hi.1 hi.2.1 he

theorem convShare_lt {h w r : ℕ} {k : Kernel} (hs : k.size = 2 * r + 1) (hk : ∀ a < 2 * r + 1, ∀ b < 2 * r + 1, 0 < k.val a b) {i' j' : ℕ}
    (hi : i' < h) (hb : ¬ (r ≤ i' ∧ i' + r < h ∧ r ≤ j' ∧ j' + r < w)) : convShare h w k i' j' < k.total := by
  have hr : k.size / 2 = r := by omega
  unfold convShare Kernel.total
  rw [hr, hs]
  have hrow : ∀ a < 2 * r + 1, 0 < ∑ b ∈ Finset.range (2 * r + 1), k.val a b := fun a ha =>
    Finset.sum_pos (fun b hb => hk a ha b (Finset.mem_range.mp hb)) ⟨0, Finset.mem_range.mpr (by omega)⟩
  have hle : ∀ i, (i ≤ i' + r ∧ i' + r - i < 2 * r + 1) → (∑ j ∈ Finset.range w, (if j ≤ j' + r ∧ j' + r - j < 2 * r + 1 then
      k.val (i' + r - i) (j' + r - j) else 0)) ≤ ∑ b ∈ Finset.range (2 * r + 1), k.val (i' + r - i) b := fun i hc =>
    shift_sum_le w (2 * r + 1) r j' (fun b => k.val (i' + r - i) b) (fun b hb => (hk _ hc.2 b hb).le)
  by_cases h1 : r ≤ i' ∧ i' + r < h
  · have h2 : ¬ (r ≤ j' ∧ j' + r < w) := fun h2 => hb ⟨h1.1, h1.2, h2.1, h2.2⟩
    rw [← shift_sum_eq h r i' (fun a => ∑ b ∈ Finset.range (2 * r + 1), k.val a b) h1.1 h1.2]
    refine Finset.sum_lt_sum (fun i _ => ?_) ⟨i', Finset.mem_range.mpr hi, ?_⟩
    · split_ifs with hc
      · exact hle i hc
      · exact le_refl _
    · have hc : i' ≤ i' + r ∧ i' + r - i' < 2 * r + 1 := by omega
      rw [if_pos hc, if_pos hc]
      exact shift_sum_lt w r j' (fun b => k.val (i' + r - i') b) (fun b hb => hk _ hc.2 b hb) h2
  · refine lt_of_le_of_lt (Finset.sum_le_sum fun i _ => ?_) (shift_sum_lt h r i' (fun a => ∑ b ∈ Finset.range (2 * r + 1), k.val a b) hrow h1)
    split_ifs with hc
    · exact hle i hc
    · exact le_refl _

/-- **C29**, exact: for a normalised kernel with only positive weights the total of a non-negative frame is kept if and only if every lit
pixel is at least the kernel radius away from the border. -/
theorem C29_total_kept_iff (h w r : ℕ) (k : Kernel) (hs : k.size = 2 * r + 1) (hk : ∀ a < 2 * r + 1, ∀ b < 2 * r + 1, 0 < k.val a b)
    (h1 : ∑ a ∈ Finset.range (2 * r + 1), ∑ b ∈ Finset.range (2 * r + 1), k.val a b = 1) (t : ℕ → ℕ → ℝ)
    (ht : ∀ i < h, ∀ j < w, 0 ≤ t i j) :
    total2 h w (conv2d h w k t) = total2 h w t ↔ ∀ i < h, ∀ j < w, t i j ≠ 0 → r ≤ i ∧ i + r < h ∧ r ≤ j ∧ j + r < w := by
  refine ⟨?_, (C29_convolution h w r k hs (fun a ha b hb => (hk a ha b hb).le) h1 t ht).2.2.2.2⟩
  intro heq i hi j hj hne
  by_contra hb
  have htot : k.total = 1 := by unfold Kernel.total; rw [hs]; exact h1
  have hk' : ∀ a < k.size, ∀ b < k.size, 0 ≤ k.val a b := by rw [hs]; exact fun a ha b hb => (hk a ha b hb).le
  have hle : ∀ i' ∈ Finset.range h, ∀ j' ∈ Finset.range w, t i' j' * convShare h w k i' j' ≤ t i' j' := by
    intro i' hi' j' hj'
    have h2 := convShare_le (h := h) (w := w) hk' i' j'
    rw [htot] at h2
    have h3 := ht i' (Finset.mem_range.mp hi') j' (Finset.mem_range.mp hj')
    nlinarith
  have hlt : t i j * convShare h w k i j < t i j := by
    have h2 := convShare_lt (w := w) hs hk hi hb
    rw [htot] at h2
    have h3 := lt_of_le_of_ne (ht i hi j hj) (Ne.symm hne)
    nlinarith
  have : total2 h w (conv2d h w k t) < total2 h w t := by
    rw [total2_conv2d]
    unfold total2
    refine Finset.sum_lt_sum (fun i' hi' => Finset.sum_le_sum (hle i' hi')) ⟨i, Finset.mem_range.mpr hi, ?_⟩
    exact Finset.sum_lt_sum (hle i (Finset.mem_range.mpr hi)) ⟨j, Finset.mem_range.mpr hj, hlt⟩
  exact absurd heq this.ne

/-- **C29** The detector's own point spread, exact: with the radius its kernel has (at most the configured maximum), the total of a
non-negative frame is kept if and only if every lit pixel is at least that radius away from the border. -/
theorem C29_detector_total_kept_iff (D : Detector) (hs : 0 < D.sigma) (hm : 0 ≤ D.maxRadius) :
    ∃ r : ℕ, D.gaussKernel.size = 2 * r + 1 ∧ (r : ℤ) ≤ D.maxRadius ∧ ∀ (h w : ℕ) (t : ℕ → ℕ → ℝ), (∀ i < h, ∀ j < w, 0 ≤ t i j) →
      (total2 h w (conv2d h w D.gaussKernel t) = total2 h w t ↔
        ∀ i < h, ∀ j < w, t i j ≠ 0 → r ≤ i ∧ i + r < h ∧ r ≤ j ∧ j + r < w) := by
  obtain ⟨r, a1, a2, a3, a4, a5, a6, -⟩ := C28_point_spread_kernel D hs hm
  exact ⟨r, a1, by omega, fun h w t ht => C29_total_kept_iff h w r D.gaussKernel a1 a5 a6 t ht⟩

example : ∃ t : ℕ → ℕ → ℝ, (∀ i < 5, ∀ j < 5, 0 ≤ t i j) ∧ total2 5 5 t = 1 ∧
    total2 5 5 (conv2d 5 5 ⟨3, fun _ _ => 1 / 9⟩ t) < 1 := by
  refine ⟨fun i j => if i = 0 ∧ j = 0 then 1 else 0, ?_, ?_, ?_⟩
  · intro i _ j _; dsimp only; split_ifs <;> norm_num
  · simp [total2, Finset.sum_range_succ]
  · have hk := C29_convolution 5 5 1 ⟨3, fun _ _ => 1 / 9⟩ rfl (by intros; norm_num) (by norm_num)
      (fun i j => if i = 0 ∧ j = 0 then 1 else 0) (by intro i _ j _; split_ifs <;> norm_num)
    have h1 : total2 5 5 (fun i j => if i = 0 ∧ j = 0 then (1:ℝ) else 0) = 1 := by simp [total2, Finset.sum_range_succ]
    have h2 := C29_total_kept_iff 5 5 1 ⟨3, fun _ _ => 1 / 9⟩ rfl (by intros; norm_num) (by norm_num)
      (fun i j => if i = 0 ∧ j = 0 then 1 else 0) (by intro i _ j _; split_ifs <;> norm_num)
    rw [h1] at hk h2
    refine lt_of_le_of_ne hk.2.2.2.1 (fun he => ?_)
    have := h2.mp he 0 (by norm_num) 0 (by norm_num) (by simp)
    omega

end XRD
