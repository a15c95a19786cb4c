import Verif.Model.Render
import Verif.SpecImage

/-! Lemmas about the convolution. -/

namespace XRD
open V3 M3 Fl Spec
open scoped Classical

theorem conv_reindex (h s r i : ℕ) (g : ℕ → ℕ → ℝ) :
    ∑ a ∈ Finset.range s, (if r ≤ i + a ∧ i + a - r < h then g (i + a - r) a else 0) =
    ∑ i' ∈ Finset.range h, (if i ≤ i' + r ∧ i' + r - i < s then g i' (i' + r - i) else 0) := by
  rw [← Finset.sum_filter, ← Finset.sum_filter]
  apply Finset.sum_nbij' (fun a => i + a - r) (fun i' => i' + r - i)
  · intro a ha; simp only [Finset.mem_filter, Finset.mem_range] at *; omega
  · intro a ha; simp only [Finset.mem_filter, Finset.mem_range] at *; omega
  · intro a ha; simp only [Finset.mem_filter, Finset.mem_range] at *; omega
  · intro a ha; simp only [Finset.mem_filter, Finset.mem_range] at *; omega
  · intro a ha
    simp only [Finset.mem_filter, Finset.mem_range] at ha
    have : i + a - r + r - i = a := by omega
    rw [this]

theorem shift_sum_le (h s r i' : ℕ) (u : ℕ → ℝ) (hu : ∀ a < s, 0 ≤ u a) :
    ∑ i ∈ Finset.range h, (if i ≤ i' + r ∧ i' + r - i < s then u (i' + r - i) else 0) ≤ ∑ a ∈ Finset.range s, u a := by
  rw [← Finset.sum_filter]
  have hinj : Set.InjOn (fun i => i' + r - i) (((Finset.range h).filter fun i => i ≤ i' + r ∧ i' + r - i < s : Finset ℕ) : Set ℕ) := by
    intro a ha b hb hab
    simp only [Finset.coe_filter, Finset.mem_range, Set.mem_setOf_eq] at ha hb
    simp only at hab
    omega
  rw [← Finset.sum_image (f := u) hinj]
  apply Finset.sum_le_sum_of_subset_of_nonneg
  · intro a ha
    obtain ⟨i, hi, rfl⟩ := Finset.mem_image.mp ha
    simp only [Finset.mem_filter, Finset.mem_range] at hi
    exact Finset.mem_range.mpr hi.2.2
  · intro a ha _
    exact hu a (Finset.mem_range.mp ha)

theorem shift_sum_eq (h r i' : ℕ) (u : ℕ → ℝ) (h0 : r ≤ i') (h1 : i' + r < h) :
    ∑ i ∈ Finset.range h, (if i ≤ i' + r ∧ i' + r - i < 2 * r + 1 then u (i' + r - i) else 0) = ∑ a ∈ Finset.range (2 * r + 1), u a := by
  rw [← Finset.sum_filter]
  apply Finset.sum_nbij' (fun i => i' + r - i) (fun a => i' + r - a)
  · intro a ha; simp only [Finset.mem_filter, Finset.mem_range] at *; omega
  · intro a ha; simp only [Finset.mem_filter, Finset.mem_range] at *; omega
  · intro a ha; simp only [Finset.mem_filter, Finset.mem_range] at *; omega
  · intro a ha; simp only [Finset.mem_filter, Finset.mem_range] at *; omega
  · intro a _; rfl

/-- `conv2d` as a sum over the source pixels -/
theorem conv2d_eq (h w : ℕ) (k : Kernel) (t : Frame) {i j : ℕ} (hi : i < h) (hj : j < w) :
    conv2d h w k t i j = ∑ i' ∈ Finset.range h, ∑ j' ∈ Finset.range w,
      (if i ≤ i' + k.size / 2 ∧ i' + k.size / 2 - i < k.size then
        if j ≤ j' + k.size / 2 ∧ j' + k.size / 2 - j < k.size then t i' j' * k.val (i' + k.size / 2 - i) (j' + k.size / 2 - j) else 0
      else 0) := by
  unfold conv2d
  rw [if_pos ⟨hi, hj⟩]
  set r := k.size / 2 with hr
  have e1 : ∀ a, (∑ b ∈ Finset.range k.size, if r ≤ i + a ∧ i + a - r < h ∧ r ≤ j + b ∧ j + b - r < w then
      t (i + a - r) (j + b - r) * k.val a b else 0) =
      if r ≤ i + a ∧ i + a - r < h then ∑ j' ∈ Finset.range w, (if j ≤ j' + r ∧ j' + r - j < k.size then
        t (i + a - r) j' * k.val a (j' + r - j) else 0) else 0 := by
    intro a
    by_cases hc : r ≤ i + a ∧ i + a - r < h
    · rw [if_pos hc, ← conv_reindex w k.size r j (fun j' b => t (i + a - r) j' * k.val a b)]
      apply Finset.sum_congr rfl
      intro b _
      simp [hc.1, hc.2]
    · rw [if_neg hc]
      apply Finset.sum_eq_zero
      intro b _
      rw [if_neg]; rintro ⟨h1, h2, -⟩; exact hc ⟨h1, h2⟩
  simp only [e1]
  rw [conv_reindex h k.size r i (fun i' a => ∑ j' ∈ Finset.range w, (if j ≤ j' + r ∧ j' + r - j < k.size then
        t i' j' * k.val a (j' + r - j) else 0))]
  apply Finset.sum_congr rfl
  intro i' _
  split_ifs with hc
  · rfl
  · simp

theorem conv2d_nonneg {h w : ℕ} {k : Kernel} {t : Frame} (hk : ∀ a < k.size, ∀ b < k.size, 0 ≤ k.val a b)
    (ht : ∀ i < h, ∀ j < w, 0 ≤ t i j) (i j : ℕ) : 0 ≤ conv2d h w k t i j := by
  unfold conv2d
  split_ifs
  · apply Finset.sum_nonneg; intro a ha
    apply Finset.sum_nonneg; intro b hb
    split_ifs with hc
    · exact mul_nonneg (ht _ hc.2.1 _ hc.2.2.2) (hk a (Finset.mem_range.mp ha) b (Finset.mem_range.mp hb))
    · exact le_refl _
  · exact le_refl _

/-- the share of the source pixel `(i', j')` that stays in the frame -/
noncomputable def convShare (h w : ℕ) (k : Kernel) (i' j' : ℕ) : ℝ :=
  ∑ i ∈ Finset.range h, (if i ≤ i' + k.size / 2 ∧ i' + k.size / 2 - i < k.size then
    ∑ j ∈ Finset.range w, (if j ≤ j' + k.size / 2 ∧ j' + k.size / 2 - j < k.size then
      k.val (i' + k.size / 2 - i) (j' + k.size / 2 - j) else 0) else 0)

theorem total2_conv2d (h w : ℕ) (k : Kernel) (t : Frame) :
    total2 h w (conv2d h w k t) = ∑ i' ∈ Finset.range h, ∑ j' ∈ Finset.range w, t i' j' * convShare h w k i' j' := by
  unfold total2
  have e : ∀ i ∈ Finset.range h, ∀ j ∈ Finset.range w, conv2d h w k t i j = _ := fun i hi j hj =>
    conv2d_eq h w k t (Finset.mem_range.mp hi) (Finset.mem_range.mp hj)
  rw [Finset.sum_congr rfl fun i hi => Finset.sum_congr rfl fun j hj => e i hi j hj]
  -- move the source sums outside
  have step1 : ∀ i ∈ Finset.range h, (∑ j ∈ Finset.range w, ∑ i' ∈ Finset.range h, ∑ j' ∈ Finset.range w,
      (if i ≤ i' + k.size / 2 ∧ i' + k.size / 2 - i < k.size then
        if j ≤ j' + k.size / 2 ∧ j' + k.size / 2 - j < k.size then t i' j' * k.val (i' + k.size / 2 - i) (j' + k.size / 2 - j) else 0
      else 0)) = ∑ i' ∈ Finset.range h, ∑ j' ∈ Finset.range w, t i' j' * (if i ≤ i' + k.size / 2 ∧ i' + k.size / 2 - i < k.size then
    ∑ j ∈ Finset.range w, (if j ≤ j' + k.size / 2 ∧ j' + k.size / 2 - j < k.size then
      k.val (i' + k.size / 2 - i) (j' + k.size / 2 - j) else 0) else 0) := by
    intro i _
    rw [Finset.sum_comm]
    apply Finset.sum_congr rfl; intro i' _
    rw [Finset.sum_comm]
    apply Finset.sum_congr rfl; intro j' _
    split_ifs with hc
    · rw [Finset.mul_sum]
      apply Finset.sum_congr rfl; intro j _
      split_ifs <;> simp
    · simp
  rw [Finset.sum_congr rfl step1, Finset.sum_comm]
  apply Finset.sum_congr rfl; intro i' _
  rw [Finset.sum_comm]
  apply Finset.sum_congr rfl; intro j' _
  unfold convShare
  rw [Finset.mul_sum]

theorem convShare_le {h w : ℕ} {k : Kernel} (hk : ∀ a < k.size, ∀ b < k.size, 0 ≤ k.val a b) (i' j' : ℕ) :
    convShare h w k i' j' ≤ k.total := by
  unfold convShare Kernel.total
  refine le_trans ?_ (shift_sum_le h k.size (k.size / 2) i' (fun a => ∑ b ∈ Finset.range k.size, k.val a b) ?_)
  · apply Finset.sum_le_sum
    intro i _
    split_ifs with hc
    · exact shift_sum_le w k.size (k.size / 2) j' (fun b => k.val (i' + k.size / 2 - i) b) (fun b hb => hk _ hc.2 b hb)
    · exact le_refl _
  · intro a ha
    exact Finset.sum_nonneg fun b hb => hk a ha b (Finset.mem_range.mp hb)

theorem convShare_eq {h w r : ℕ} {k : Kernel} (hs : k.size = 2 * r + 1) {i' j' : ℕ} (hi : r ≤ i') (hi2 : i' + r < h) (hj : r ≤ j')
    (hj2 : j' + r < w) : convShare h w k i' j' = k.total := by
  have hr : k.size / 2 = r := by omega
  unfold convShare Kernel.total
  rw [hr, hs, ← shift_sum_eq h r i' (fun a => ∑ b ∈ Finset.range (2 * r + 1), k.val a b) hi hi2]
  apply Finset.sum_congr rfl
  intro i _
  split_ifs with hc
  · exact shift_sum_eq w r j' (fun b => k.val (i' + r - i) b) hj hj2
  · rfl

theorem conv2d_add (h w : ℕ) (k : Kernel) (s t : Frame) (i j : ℕ) :
    conv2d h w k (fun i j => s i j + t i j) i j = conv2d h w k s i j + conv2d h w k t i j := by
  unfold conv2d
  split_ifs
  · rw [← Finset.sum_add_distrib]
    apply Finset.sum_congr rfl; intro a _
    rw [← Finset.sum_add_distrib]
    apply Finset.sum_congr rfl; intro b _
    split_ifs
    · ring
    · simp
  · simp

theorem conv2d_zero (h w : ℕ) (k : Kernel) (i j : ℕ) : conv2d h w k (fun _ _ => 0) i j = 0 := by
  unfold conv2d; simp

theorem conv2d_sum {ι : Type} (h w : ℕ) (k : Kernel) (s : Finset ι) (t : ι → Frame) (i j : ℕ) :
    conv2d h w k (fun i j => ∑ f ∈ s, t f i j) i j = ∑ f ∈ s, conv2d h w k (t f) i j := by
  induction s using Finset.induction_on with
  | empty => simp [conv2d_zero]
  | insert a s ha ih =>
    rw [Finset.sum_insert ha, ← ih, ← conv2d_add]
    congr 1
    funext i j
    rw [Finset.sum_insert ha]

theorem conv2d_smul (h w : ℕ) (k : Kernel) (c : ℝ) (t : Frame) (i j : ℕ) :
    conv2d h w k (fun i j => c * t i j) i j = c * conv2d h w k t i j := by
  unfold conv2d
  split_ifs
  · rw [Finset.mul_sum]
    apply Finset.sum_congr rfl; intro a _
    rw [Finset.mul_sum]
    apply Finset.sum_congr rfl; intro b _
    split_ifs
    · ring
    · simp
  · simp

end XRD
