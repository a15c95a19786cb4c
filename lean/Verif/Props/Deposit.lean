import Verif.Lemmas.Deposit

/-! Properties C31 (sub-pixel deposition) and C32 (kernel cropping). -/

namespace XRD
open V3 M3 Fl Spec
open scoped Classical

/-! ### C31 -/

/-- sum of the entries of a kernel -/
noncomputable def Spec.kernelSum (k : Kernel) : ℝ := ∑ a ∈ Finset.range k.size, ∑ b ∈ Finset.range k.size, k.val a b

/-- the support of a kernel centred at `(cz, cy)`, enlarged by one pixel, lies in the frame -/
def Spec.FitsInside (h w : ℕ) (k : Kernel × ℝ × ℝ) : Prop :=
  ((k.1.size / 2 : ℕ) : ℝ) ≤ k.2.1 ∧ k.2.1 + ((k.1.size / 2 : ℕ) : ℝ) + 1 < h ∧
  ((k.1.size / 2 : ℕ) : ℝ) ≤ k.2.2 ∧ k.2.2 + ((k.1.size / 2 : ℕ) : ℝ) + 1 < w

theorem allCorners_integral (h w : ℕ) (ks : List (Kernel × ℝ × ℝ)) (g : ℤ × ℤ × ℝ → ℝ) :
    ((allCorners ks).map g).sum = (ks.map fun k => ∑ a ∈ Finset.range k.1.size, ∑ b ∈ Finset.range k.1.size,
      ((corners (k.2.1 + ((a : ℝ) - ((k.1.size / 2 : ℕ) : ℝ)), k.2.2 + ((b : ℝ) - ((k.1.size / 2 : ℕ) : ℝ)), k.1.val a b)).map g).sum).sum := by
  unfold allCorners
  rw [sum_flatMap]
  congr 1
  apply List.map_congr_left
  intro k _
  rw [sum_flatMap, sum_kernelSamples]

theorem deposit_integral (h w : ℕ) (t : Frame) (ks : List (Kernel × ℝ × ℝ)) (φ : ℕ → ℕ → ℝ) :
    ∑ i ∈ Finset.range h, ∑ j ∈ Finset.range w, φ i j * depositKernels h w t ks i j =
      ∑ i ∈ Finset.range h, ∑ j ∈ Finset.range w, φ i j * t i j +
      ((allCorners ks).map fun c => if inFrame h w c then φ c.1.toNat c.2.1.toNat * c.2.2 else 0).sum := by
  rw [← cornerSum_integral]
  simp only [depositKernels_eq, mul_add, Finset.sum_add_distrib]

theorem fits_sampleIn {h w : ℕ} {k : Kernel × ℝ × ℝ} (hk : FitsInside h w k) {a b : ℕ} (ha : a < k.1.size) (hb : b < k.1.size) (v : ℝ) :
    sampleIn h w (k.2.1 + ((a : ℝ) - ((k.1.size / 2 : ℕ) : ℝ)), k.2.2 + ((b : ℝ) - ((k.1.size / 2 : ℕ) : ℝ)), v) := by
  obtain ⟨h1, h2, h3, h4⟩ := hk
  have ha' : (a : ℝ) ≤ 2 * ((k.1.size / 2 : ℕ) : ℝ) := by
    have : a ≤ 2 * (k.1.size / 2) := by omega
    exact_mod_cast this
  have hb' : (b : ℝ) ≤ 2 * ((k.1.size / 2 : ℕ) : ℝ) := by
    have : b ≤ 2 * (k.1.size / 2) := by omega
    exact_mod_cast this
  have ha0 : (0:ℝ) ≤ a := Nat.cast_nonneg _
  have hb0 : (0:ℝ) ≤ b := Nat.cast_nonneg _
  refine ⟨?_, ?_, ?_, ?_⟩ <;> simp only <;> linarith

/-- C31: depositing non-negative kernels changes pixels upwards only and adds in total at most the kernels' sums. -/
theorem C31_deposit_never_creates (h w : ℕ) (t : ℕ → ℕ → ℝ) (ks : List (Kernel × ℝ × ℝ))
    (hk : ∀ k ∈ ks, ∀ a < k.1.size, ∀ b < k.1.size, 0 ≤ k.1.val a b) :
    (∀ i j, t i j ≤ depositKernels h w t ks i j) ∧
    total2 h w (depositKernels h w t ks) ≤ total2 h w t + (ks.map fun k => kernelSum k.1).sum := by
  constructor
  · intro i j
    rw [depositKernels_eq]
    have : 0 ≤ cornerSum h w (allCorners ks) i j := by
      unfold cornerSum
      apply List.sum_nonneg
      intro x hx
      obtain ⟨c, hc, rfl⟩ := List.mem_map.mp hx
      split_ifs
      · unfold allCorners at hc
        obtain ⟨k, hk1, hc⟩ := List.mem_flatMap.mp hc
        obtain ⟨s, hs, hc⟩ := List.mem_flatMap.mp hc
        refine corners_nonneg ?_ c hc
        unfold kernelSamples at hs
        obtain ⟨a, ha, hs⟩ := List.mem_flatMap.mp hs
        obtain ⟨b, hb, rfl⟩ := List.mem_map.mp hs
        exact hk k hk1 a (List.mem_range.mp ha) b (List.mem_range.mp hb)
      · exact le_refl _
    linarith
  · have e := deposit_integral h w t ks (fun _ _ => 1)
    simp only [one_mul] at e
    unfold total2
    rw [e, allCorners_integral h w]
    apply add_le_add_right
    apply List.sum_le_sum
    intro k hk1
    unfold kernelSum
    apply Finset.sum_le_sum; intro a ha
    apply Finset.sum_le_sum; intro b hb
    exact corners_sum_le h w (hk k hk1 a (Finset.mem_range.mp ha) b (Finset.mem_range.mp hb))

/-- C31: kernels that fit inside the frame are deposited completely, and every sample keeps its (sub-pixel) position in the
intensity-weighted mean: the first moments of the added image are those of the samples. -/
theorem C31_deposit_conserves (h w : ℕ) (t : ℕ → ℕ → ℝ) (ks : List (Kernel × ℝ × ℝ)) (hk : ∀ k ∈ ks, FitsInside h w k) :
    total2 h w (depositKernels h w t ks) = total2 h w t + (ks.map fun k => kernelSum k.1).sum ∧
    total2 h w (fun i j => i * depositKernels h w t ks i j) = total2 h w (fun i j => i * t i j) +
      (ks.map fun k => ∑ a ∈ Finset.range k.1.size, ∑ b ∈ Finset.range k.1.size,
        (k.2.1 + ((a : ℝ) - ((k.1.size / 2 : ℕ) : ℝ))) * k.1.val a b).sum ∧
    total2 h w (fun i j => j * depositKernels h w t ks i j) = total2 h w (fun i j => j * t i j) +
      (ks.map fun k => ∑ a ∈ Finset.range k.1.size, ∑ b ∈ Finset.range k.1.size,
        (k.2.2 + ((b : ℝ) - ((k.1.size / 2 : ℕ) : ℝ))) * k.1.val a b).sum := by
  have main : ∀ α β γ : ℝ, ∑ i ∈ Finset.range h, ∑ j ∈ Finset.range w, (α + β * (i : ℝ) + γ * (j : ℝ)) * depositKernels h w t ks i j =
      ∑ i ∈ Finset.range h, ∑ j ∈ Finset.range w, (α + β * (i : ℝ) + γ * (j : ℝ)) * t i j +
      (ks.map fun k => ∑ a ∈ Finset.range k.1.size, ∑ b ∈ Finset.range k.1.size,
        (α + β * (k.2.1 + ((a : ℝ) - ((k.1.size / 2 : ℕ) : ℝ))) + γ * (k.2.2 + ((b : ℝ) - ((k.1.size / 2 : ℕ) : ℝ)))) * k.1.val a b).sum := by
    intro α β γ
    rw [deposit_integral h w t ks (fun i j => α + β * (i : ℝ) + γ * (j : ℝ)), allCorners_integral h w]
    congr 2
    apply List.map_congr_left
    intro k hk1
    apply Finset.sum_congr rfl; intro a ha
    apply Finset.sum_congr rfl; intro b hb
    exact corners_affine (fits_sampleIn (hk k hk1) (Finset.mem_range.mp ha) (Finset.mem_range.mp hb) _) α β γ
  refine ⟨?_, ?_, ?_⟩
  · have := main 1 0 0
    simp only [zero_mul, add_zero, one_mul] at this
    exact this
  · have := main 0 1 0
    simp only [zero_mul, add_zero, zero_add, one_mul] at this
    exact this
  · have := main 0 0 1
    simp only [zero_mul, zero_add, one_mul] at this
    exact this

/-- C31: in particular a kernel of odd side that is symmetric under reflection is deposited with its centre of mass exactly at
the requested sub-pixel position. -/
theorem C31_centre_of_mass (h w r : ℕ) (t : ℕ → ℕ → ℝ) (k : Kernel) (cz cy : ℝ) (hf : FitsInside h w (k, cz, cy))
    (hs : k.size = 2 * r + 1)
    (hz : ∀ a < 2 * r + 1, ∀ b < 2 * r + 1, k.val (2 * r - a) b = k.val a b) (hy : ∀ a < 2 * r + 1, ∀ b < 2 * r + 1, k.val a (2 * r - b) = k.val a b) :
    total2 h w (fun i j => i * depositKernels h w t [(k, cz, cy)] i j) = total2 h w (fun i j => i * t i j) + cz * kernelSum k ∧
    total2 h w (fun i j => j * depositKernels h w t [(k, cz, cy)] i j) = total2 h w (fun i j => j * t i j) + cy * kernelSum k := by
  obtain ⟨-, c2, c3⟩ := C31_deposit_conserves h w t [(k, cz, cy)] (by simpa using hf)
  have hr : k.size / 2 = r := by omega
  simp only [List.map_cons, List.map_nil, List.sum_cons, List.sum_nil, add_zero, hr] at c2 c3
  rw [hs] at c2 c3
  have reflect : ∀ f : ℕ → ℝ, (∀ a < 2 * r + 1, f (2 * r - a) = -f a) → ∑ a ∈ Finset.range (2 * r + 1), f a = 0 := by
    intro f hfa
    have h1 := Finset.sum_range_reflect f (2 * r + 1)
    have h2 : ∑ a ∈ Finset.range (2 * r + 1), f (2 * r + 1 - 1 - a) = -∑ a ∈ Finset.range (2 * r + 1), f a := by
      rw [← Finset.sum_neg_distrib]
      apply Finset.sum_congr rfl
      intro a ha
      exact hfa a (Finset.mem_range.mp ha)
    linarith
  have cast_sub : ∀ a < 2 * r + 1, ((2 * r - a : ℕ) : ℝ) - r = -((a : ℝ) - r) := by
    intro a ha; rw [Nat.cast_sub (by omega)]; push_cast; ring
  have m1 : ∑ a ∈ Finset.range (2 * r + 1), ∑ b ∈ Finset.range (2 * r + 1), ((a : ℝ) - r) * k.val a b = 0 := by
    apply reflect (fun a => ∑ b ∈ Finset.range (2 * r + 1), ((a : ℝ) - r) * k.val a b)
    intro a ha
    rw [← Finset.sum_neg_distrib]
    apply Finset.sum_congr rfl
    intro b hb
    rw [cast_sub a ha, hz a ha b (Finset.mem_range.mp hb)]; ring
  have m2 : ∑ a ∈ Finset.range (2 * r + 1), ∑ b ∈ Finset.range (2 * r + 1), ((b : ℝ) - r) * k.val a b = 0 := by
    apply Finset.sum_eq_zero
    intro a ha
    apply reflect (fun b => ((b : ℝ) - r) * k.val a b)
    intro b hb
    rw [cast_sub b hb, hy a (Finset.mem_range.mp ha) b hb]; ring
  constructor
  · rw [c2]
    simp only [add_mul, Finset.sum_add_distrib, m1, add_zero]
    unfold kernelSum; rw [hs]; simp only [Finset.mul_sum]
  · rw [c3]
    simp only [add_mul, Finset.sum_add_distrib, m2, add_zero]
    unfold kernelSum; rw [hs]; simp only [Finset.mul_sum]

/-- a one-pixel kernel deposited between four pixels of a 10 × 10 frame -/
example : total2 10 10 (depositKernels 10 10 (fun _ _ => 0) [(⟨1, fun _ _ => 3⟩, 5 / 2, 7 / 2)]) = 3 := by
  rw [(C31_deposit_conserves 10 10 (fun _ _ => 0) [(⟨1, fun _ _ => 3⟩, 5 / 2, 7 / 2)] (by
    intro k hk; simp only [List.mem_singleton] at hk; subst hk
    unfold FitsInside; norm_num)).1]
  simp [total2, kernelSum]

/-! ### C32 -/

/-- the share of a kernel inside the square of half-width `m` around its centre -/
noncomputable def Spec.windowMass (k : Kernel) (m : ℕ) : ℝ :=
  ∑ i ∈ (Finset.range k.size).filter (fun i : ℕ => |(i : ℤ) - (k.size / 2 : ℕ)| ≤ m),
    ∑ j ∈ (Finset.range k.size).filter (fun j : ℕ => |(j : ℤ) - (k.size / 2 : ℕ)| ≤ m), k.val i j

theorem windowSum_eq (k : Kernel) (m : ℕ) : k.windowSum m = windowMass k m := by
  unfold Kernel.windowSum windowMass
  have : Finset.Ico (k.size / 2 - m) (min (k.size / 2 + m + 1) k.size) =
      (Finset.range k.size).filter (fun i : ℕ => |(i : ℤ) - (k.size / 2 : ℕ)| ≤ m) := by
    ext i
    simp only [Finset.mem_Ico, Finset.mem_filter, Finset.mem_range, abs_le]
    omega
  rw [this]

theorem windowMass_mono {k : Kernel} (hk : ∀ a < k.size, ∀ b < k.size, 0 ≤ k.val a b) {m m' : ℕ} (h : m ≤ m') :
    windowMass k m ≤ windowMass k m' := by
  unfold windowMass
  have hsub : (Finset.range k.size).filter (fun i : ℕ => |(i : ℤ) - (k.size / 2 : ℕ)| ≤ m) ⊆
      (Finset.range k.size).filter (fun i : ℕ => |(i : ℤ) - (k.size / 2 : ℕ)| ≤ m') := by
    intro i hi
    simp only [Finset.mem_filter, Finset.mem_range] at *
    refine ⟨hi.1, hi.2.trans ?_⟩
    exact_mod_cast h
  have hr : ∀ i ∈ (Finset.range k.size).filter (fun i : ℕ => |(i : ℤ) - (k.size / 2 : ℕ)| ≤ m'), i < k.size := by
    intro i hi; exact Finset.mem_range.mp (Finset.mem_filter.mp hi).1
  calc _ ≤ ∑ i ∈ (Finset.range k.size).filter (fun i : ℕ => |(i : ℤ) - (k.size / 2 : ℕ)| ≤ m),
        ∑ j ∈ (Finset.range k.size).filter (fun j : ℕ => |(j : ℤ) - (k.size / 2 : ℕ)| ≤ m'), k.val i j := by
        apply Finset.sum_le_sum
        intro i hi
        apply Finset.sum_le_sum_of_subset_of_nonneg hsub
        intro j hj _
        exact hk i (hr i (hsub hi)) j (hr j hj)
    _ ≤ _ := by
        apply Finset.sum_le_sum_of_subset_of_nonneg hsub
        intro i hi _
        exact Finset.sum_nonneg fun j hj => hk i (hr i hi) j (hr j hj)

theorem cropSearch_spec {k : Kernel} (hk : ∀ a < k.size, ∀ b < k.size, 0 ≤ k.val a b) (th : ℝ) (left right : ℕ) (hlr : left ≤ right) :
    left ≤ cropSearch k th left right ∧ cropSearch k th left right ≤ right ∧
    (cropSearch k th left right = right ∨ 1 - th ≤ windowMass k (cropSearch k th left right)) ∧
    ∀ m, left ≤ m → m < cropSearch k th left right → windowMass k m < 1 - th := by
  induction hn : right - left using Nat.strong_induction_on generalizing left right with
  | _ n ih =>
    rw [cropSearch]
    dsimp only
    split_ifs with h1 h2
    · obtain ⟨a1, a2, a3, a4⟩ := ih ((left + right) / 2 - left) (by omega) left ((left + right) / 2) (by omega) rfl
      refine ⟨a1, by omega, ?_, a4⟩
      rcases a3 with a3 | a3
      · right; rw [a3, ← windowSum_eq]; exact h2
      · exact Or.inr a3
    · obtain ⟨a1, a2, a3, a4⟩ := ih (right - ((left + right) / 2 + 1)) (by omega) ((left + right) / 2 + 1) right (by omega) rfl
      refine ⟨by omega, a2, a3, ?_⟩
      intro m hm hm2
      rcases le_or_gt m ((left + right) / 2) with h | h
      · refine lt_of_le_of_lt (windowMass_mono hk h) ?_
        rw [← windowSum_eq]; push Not at h2; exact h2
      · exact a4 m (by omega) hm2
    · refine ⟨le_refl _, hlr, Or.inl (by omega), ?_⟩
      intro m hm hm2; omega

/-- C32: a non-negative kernel is cropped to the smallest centred window (half-width at least 1) that holds at least
`1 - threshold`, or to its full half-width if no smaller window does; the crop contains exactly the samples of that window. -/
theorem C32_smallest_sufficient_window (k : Kernel) (th : ℝ) (hs : 2 ≤ k.size) (hk : ∀ a < k.size, ∀ b < k.size, 0 ≤ k.val a b) :
    ∃ m, 1 ≤ m ∧ m ≤ k.size / 2 ∧ (m = k.size / 2 ∨ 1 - th ≤ windowMass k m) ∧
      (∀ m', 1 ≤ m' → m' < m → windowMass k m' < 1 - th) ∧
      (k.crop th).size = min (2 * m + 1) (k.size - (k.size / 2 - m)) ∧
      (∀ i j, (k.crop th).val i j = k.val (k.size / 2 - m + i) (k.size / 2 - m + j)) ∧
      kernelSum (k.crop th) = windowMass k m := by
  obtain ⟨a1, a2, a3, a4⟩ := cropSearch_spec hk th 1 (k.size / 2) (by omega)
  refine ⟨_, a1, a2, a3, a4, ?_, fun i j => rfl, ?_⟩
  · unfold Kernel.crop; simp only; omega
  · rw [← windowSum_eq]
    unfold kernelSum Kernel.crop Kernel.windowSum
    simp only
    set m := cropSearch k th 1 (k.size / 2)
    rw [Finset.sum_Ico_eq_sum_range]
    apply Finset.sum_congr rfl
    intro i _
    rw [Finset.sum_Ico_eq_sum_range]

/-- a 5 × 5 kernel with everything in the centre is cropped to 3 × 3 -/
example : ∃ k : Kernel, 2 ≤ k.size ∧ (∀ a < k.size, ∀ b < k.size, 0 ≤ k.val a b) ∧ k.val 2 2 = 1 := by
  refine ⟨⟨5, fun i j => if i = 2 ∧ j = 2 then 1 else 0⟩, by norm_num, ?_, by simp⟩
  intro a _ b _
  simp only
  split_ifs <;> norm_num

end XRD
