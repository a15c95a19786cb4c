import Verif.Lemmas.Nano2

/-! First moments of convolutions and depositions. -/

namespace XRD
open V3 M3 Fl Spec
open scoped Classical

theorem cond_sum_comm (h w : ℕ) (P : ℕ → ℕ → Prop) (Q : ℕ → ℕ → Prop) [∀ a b, Decidable (P a b)] [∀ a b, Decidable (Q a b)] (F : ℕ → ℕ → ℕ → ℕ → ℝ) :
    ∑ i ∈ Finset.range h, ∑ j ∈ Finset.range w, ∑ i' ∈ Finset.range h, ∑ j' ∈ Finset.range w,
      (if P i i' then if Q j j' then F i j i' j' else 0 else 0) =
    ∑ i' ∈ Finset.range h, ∑ j' ∈ Finset.range w, ∑ i ∈ Finset.range h,
      (if P i i' then ∑ j ∈ Finset.range w, (if Q j j' then F i j i' j' else 0) else 0) := by
  have step1 : ∀ i ∈ Finset.range h, (∑ j ∈ Finset.range w, ∑ i' ∈ Finset.range h, ∑ j' ∈ Finset.range w,
      (if P i i' then if Q j j' then F i j i' j' else 0 else 0)) = ∑ i' ∈ Finset.range h, ∑ j' ∈ Finset.range w,
      (if P i i' then ∑ j ∈ Finset.range w, (if Q j j' then F i j i' j' else 0) else 0) := by
    intro i _
    rw [Finset.sum_comm]
    apply Finset.sum_congr rfl; intro i' _
    rw [Finset.sum_comm]
    apply Finset.sum_congr rfl; intro j' _
    split_ifs with hc
    · rfl
    · simp
  rw [Finset.sum_congr rfl step1, Finset.sum_comm]
  apply Finset.sum_congr rfl; intro i' _
  rw [Finset.sum_comm]

/-- moments about the centre of a centred kernel vanish -/
theorem centred_moments {k : Kernel} {r : ℕ}
    (hz : ∀ a < 2 * r + 1, ∀ b < 2 * r + 1, k.val (2 * r - a) b = k.val a b)
    (hy : ∀ a < 2 * r + 1, ∀ b < 2 * r + 1, k.val a (2 * r - b) = k.val a b) :
    ∑ a ∈ Finset.range (2 * r + 1), ∑ b ∈ Finset.range (2 * r + 1), ((a : ℝ) - r) * k.val a b = 0 ∧
    ∑ a ∈ Finset.range (2 * r + 1), ∑ b ∈ Finset.range (2 * r + 1), ((b : ℝ) - r) * k.val a b = 0 := by
  have reflect : ∀ f : ℕ → ℝ, (∀ a < 2 * r + 1, f (2 * r - a) = -f a) → ∑ a ∈ Finset.range (2 * r + 1), f a = 0 := by
    intro f hfa
    have h1 := Finset.sum_range_reflect f (2 * r + 1)
    have h2 : ∑ a ∈ Finset.range (2 * r + 1), f (2 * r + 1 - 1 - a) = -∑ a ∈ Finset.range (2 * r + 1), f a := by
      rw [← Finset.sum_neg_distrib]
      apply Finset.sum_congr rfl
      intro a ha
      exact hfa a (Finset.mem_range.mp ha)
    linarith
  have cast_sub : ∀ a < 2 * r + 1, ((2 * r - a : ℕ) : ℝ) - r = -((a : ℝ) - r) := by
    intro a ha; rw [Nat.cast_sub (by omega)]; push_cast; ring
  constructor
  · apply reflect (fun a => ∑ b ∈ Finset.range (2 * r + 1), ((a : ℝ) - r) * k.val a b)
    intro a ha
    rw [← Finset.sum_neg_distrib]
    apply Finset.sum_congr rfl
    intro b hb
    rw [cast_sub a ha, hz a ha b (Finset.mem_range.mp hb)]; ring
  · apply Finset.sum_eq_zero
    intro a ha
    apply reflect (fun b => ((b : ℝ) - r) * k.val a b)
    intro b hb
    rw [cast_sub b hb, hy a (Finset.mem_range.mp ha) b hb]; ring

/-- convolution with a centred kernel of total one keeps total and first moments of an interior image -/
theorem conv_affine {h w r : ℕ} {k : Kernel} (hs : k.size = 2 * r + 1) (h1 : kernelSum k = 1)
    (hz : ∀ a < 2 * r + 1, ∀ b < 2 * r + 1, k.val (2 * r - a) b = k.val a b)
    (hy : ∀ a < 2 * r + 1, ∀ b < 2 * r + 1, k.val a (2 * r - b) = k.val a b) (t : Frame)
    (ht : ∀ i < h, ∀ j < w, t i j ≠ 0 → r ≤ i ∧ i + r < h ∧ r ≤ j ∧ j + r < w) (α β γ : ℝ) :
    ∑ i ∈ Finset.range h, ∑ j ∈ Finset.range w, (α + β * i + γ * j) * conv2d h w k t i j =
      ∑ i ∈ Finset.range h, ∑ j ∈ Finset.range w, (α + β * i + γ * j) * t i j := by
  have hr : k.size / 2 = r := by omega
  have e : ∀ i ∈ Finset.range h, ∀ j ∈ Finset.range w, (α + β * i + γ * j) * conv2d h w k t i j =
      ∑ i' ∈ Finset.range h, ∑ j' ∈ Finset.range w,
      (if i ≤ i' + r ∧ i' + r - i < 2 * r + 1 then
        if j ≤ j' + r ∧ j' + r - j < 2 * r + 1 then (α + β * i + γ * j) * (t i' j' * k.val (i' + r - i) (j' + r - j)) else 0
      else 0) := by
    intro i hi j hj
    rw [conv2d_eq h w k t (Finset.mem_range.mp hi) (Finset.mem_range.mp hj), hr, hs, Finset.mul_sum]
    apply Finset.sum_congr rfl; intro i' _
    rw [Finset.mul_sum]
    apply Finset.sum_congr rfl; intro j' _
    split_ifs <;> simp
  rw [Finset.sum_congr rfl fun i hi => Finset.sum_congr rfl fun j hj => e i hi j hj]
  rw [cond_sum_comm h w (fun i i' => i ≤ i' + r ∧ i' + r - i < 2 * r + 1) (fun j j' => j ≤ j' + r ∧ j' + r - j < 2 * r + 1)
    (fun i j i' j' => (α + β * i + γ * j) * (t i' j' * k.val (i' + r - i) (j' + r - j)))]
  apply Finset.sum_congr rfl; intro i' hi'
  apply Finset.sum_congr rfl; intro j' hj'
  by_cases h0 : t i' j' = 0
  · simp [h0]
  obtain ⟨b1, b2, b3, b4⟩ := ht i' (Finset.mem_range.mp hi') j' (Finset.mem_range.mp hj') h0
  have inner : ∀ i, i ≤ i' + r → i' + r - i < 2 * r + 1 → (∑ j ∈ Finset.range w, if j ≤ j' + r ∧ j' + r - j < 2 * r + 1 then
      (α + β * i + γ * j) * (t i' j' * k.val (i' + r - i) (j' + r - j)) else 0) =
      ∑ b ∈ Finset.range (2 * r + 1), (α + β * ((i' : ℝ) + r - ((i' + r - i : ℕ) : ℝ)) + γ * ((j' : ℝ) + r - b)) * (t i' j' * k.val (i' + r - i) b) := by
    intro i hi1 _
    rw [← shift_sum_eq w r j' (fun b => (α + β * ((i' : ℝ) + r - ((i' + r - i : ℕ) : ℝ)) + γ * ((j' : ℝ) + r - b)) * (t i' j' * k.val (i' + r - i) b)) b3 b4]
    apply Finset.sum_congr rfl
    intro j _
    split_ifs with hc
    · rw [Nat.cast_sub hi1, Nat.cast_sub hc.1]; push_cast; ring
    · rfl
  have outer : (∑ i ∈ Finset.range h, if i ≤ i' + r ∧ i' + r - i < 2 * r + 1 then (∑ j ∈ Finset.range w, if j ≤ j' + r ∧ j' + r - j < 2 * r + 1 then
      (α + β * i + γ * j) * (t i' j' * k.val (i' + r - i) (j' + r - j)) else 0) else 0) =
      ∑ a ∈ Finset.range (2 * r + 1), ∑ b ∈ Finset.range (2 * r + 1),
        (α + β * ((i' : ℝ) + r - a) + γ * ((j' : ℝ) + r - b)) * (t i' j' * k.val a b) := by
    rw [← shift_sum_eq h r i' (fun a => ∑ b ∈ Finset.range (2 * r + 1),
        (α + β * ((i' : ℝ) + r - a) + γ * ((j' : ℝ) + r - b)) * (t i' j' * k.val a b)) b1 b2]
    apply Finset.sum_congr rfl
    intro i _
    split_ifs with hc
    · exact inner i hc.1 hc.2
    · rfl
  rw [outer]
  obtain ⟨m1, m2⟩ := centred_moments hz hy
  have h1' : ∑ a ∈ Finset.range (2 * r + 1), ∑ b ∈ Finset.range (2 * r + 1), k.val a b = 1 := by
    unfold kernelSum at h1; rw [hs] at h1; exact h1
  have split : ∀ a ∈ Finset.range (2 * r + 1), ∀ b ∈ Finset.range (2 * r + 1),
      (α + β * ((i' : ℝ) + r - a) + γ * ((j' : ℝ) + r - b)) * (t i' j' * k.val a b) =
      (α + β * i' + γ * j') * t i' j' * k.val a b + (-(β * t i' j')) * (((a : ℝ) - r) * k.val a b) +
        (-(γ * t i' j')) * (((b : ℝ) - r) * k.val a b) := by
    intro a _ b _; ring
  rw [Finset.sum_congr rfl fun a ha => Finset.sum_congr rfl fun b hb => split a ha b hb]
  simp only [Finset.sum_add_distrib, ← Finset.mul_sum]
  simp only [← Finset.mul_sum] at m1 m2
  rw [m1, m2, h1']; ring

/-- affine moments of one deposited kernel -/
theorem kernelAdd_affine {h w r : ℕ} {k : Kernel} {cz cy : ℝ} (hf : FitsInside h w (k, cz, cy)) (hs : k.size = 2 * r + 1)
    (hz : ∀ a < 2 * r + 1, ∀ b < 2 * r + 1, k.val (2 * r - a) b = k.val a b)
    (hy : ∀ a < 2 * r + 1, ∀ b < 2 * r + 1, k.val a (2 * r - b) = k.val a b) :
    total2 h w (fun i j => kernelAdd h w (k, cz, cy) i j) = kernelSum k ∧
    total2 h w (fun i j => i * kernelAdd h w (k, cz, cy) i j) = cz * kernelSum k ∧
    total2 h w (fun i j => j * kernelAdd h w (k, cz, cy) i j) = cy * kernelSum k := by
  have e : ∀ i j, kernelAdd h w (k, cz, cy) i j = depositKernels h w (fun _ _ => 0) [(k, cz, cy)] i j := by
    intro i j; rw [depositKernels_eq, zero_add]; rfl
  have c1 := (C31_deposit_conserves h w (fun _ _ => 0) [(k, cz, cy)] (by simpa using hf)).1
  obtain ⟨c2, c3⟩ := C31_centre_of_mass h w r (fun _ _ => 0) k cz cy hf hs hz hy
  simp only [e]
  refine ⟨?_, ?_, ?_⟩
  · rw [c1]; simp [total2]
  · rw [c2]; simp [total2]
  · rw [c3]; simp [total2]

/-- a deposited kernel lights only pixels less than one pixel away from a sample -/
theorem kernelAdd_sample {h w : ℕ} {k : Kernel} {cz cy : ℝ} {i j : ℕ} (hne : kernelAdd h w (k, cz, cy) i j ≠ 0) :
    ∃ a < k.size, ∃ b < k.size, k.val a b ≠ 0 ∧ |(i : ℝ) - (cz + ((a : ℝ) - ((k.size / 2 : ℕ) : ℝ)))| < 1 ∧
      |(j : ℝ) - (cy + ((b : ℝ) - ((k.size / 2 : ℕ) : ℝ)))| < 1 := by
  rw [kernelAdd_eq] at hne
  obtain ⟨a, ha, hne⟩ := Finset.exists_ne_zero_of_sum_ne_zero hne
  obtain ⟨b, hb, hne⟩ := Finset.exists_ne_zero_of_sum_ne_zero hne
  rw [Finset.mem_range] at ha hb
  set s : ℝ × ℝ × ℝ := (cz + ((a : ℝ) - ((k.size / 2 : ℕ) : ℝ)), cy + ((b : ℝ) - ((k.size / 2 : ℕ) : ℝ)), k.val a b) with hsd
  obtain ⟨x, hx, hx0, hxv⟩ : ∃ c ∈ corners s, (c.1 = (i : ℤ) ∧ c.2.1 = (j : ℤ)) ∧ c.2.2 ≠ 0 := by
    by_contra hcon
    push Not at hcon
    apply hne
    unfold cornerSum
    apply List.sum_eq_zero
    intro y hy
    obtain ⟨c, hc, rfl⟩ := List.mem_map.mp hy
    have := hcon c hc
    split_ifs with hq
    · exact this ⟨hq.2.1, hq.2.2⟩
    · rfl
  have fl1 := Int.floor_le s.1
  have fl2 := Int.lt_floor_add_one s.1
  have fl3 := Int.floor_le s.2.1
  have fl4 := Int.lt_floor_add_one s.2.1
  have hx1 : (x.1 : ℝ) = i := by exact_mod_cast hx0.1
  have hx2 : (x.2.1 : ℝ) = j := by exact_mod_cast hx0.2
  have hs1 : s.1 = cz + ((a : ℝ) - ((k.size / 2 : ℕ) : ℝ)) := rfl
  have hs2 : s.2.1 = cy + ((b : ℝ) - ((k.size / 2 : ℕ) : ℝ)) := rfl
  have hs3 : s.2.2 = k.val a b := rfl
  refine ⟨a, ha, b, hb, ?_, ?_⟩
  · intro h0
    rw [h0] at hs3
    unfold corners at hx
    simp only [List.mem_cons, List.not_mem_nil, or_false, hs3, zero_mul] at hx
    rcases hx with rfl | rfl | rfl | rfl <;> exact hxv rfl
  rw [← hs1, ← hs2, ← hx1, ← hx2, abs_lt, abs_lt]
  unfold corners at hx
  simp only [List.mem_cons, List.not_mem_nil, or_false] at hx
  have pos1 : s.1 - ⌊s.1⌋ ≠ 0 → 0 < s.1 - ⌊s.1⌋ := fun h => lt_of_le_of_ne (by linarith) (Ne.symm h)
  have pos2 : s.2.1 - ⌊s.2.1⌋ ≠ 0 → 0 < s.2.1 - ⌊s.2.1⌋ := fun h => lt_of_le_of_ne (by linarith) (Ne.symm h)
  rcases hx with rfl | rfl | rfl | rfl <;> simp only [Int.cast_add, Int.cast_one, ne_eq, mul_eq_zero, not_or] at hxv ⊢
  · refine ⟨⟨?_, ?_⟩, ⟨?_, ?_⟩⟩ <;> linarith
  · have := pos2 hxv.2.2
    refine ⟨⟨?_, ?_⟩, ⟨?_, ?_⟩⟩ <;> linarith
  · have := pos1 hxv.2.1
    refine ⟨⟨?_, ?_⟩, ⟨?_, ?_⟩⟩ <;> linarith
  · have := pos1 hxv.2.1
    have := pos2 hxv.2.2
    refine ⟨⟨?_, ?_⟩, ⟨?_, ?_⟩⟩ <;> linarith

/-- a deposited kernel lights only pixels near its centre -/
theorem kernelAdd_support {h w : ℕ} {k : Kernel} {cz cy : ℝ} {i j : ℕ} (hne : kernelAdd h w (k, cz, cy) i j ≠ 0) :
    |(i : ℝ) - cz| ≤ ((k.size / 2 : ℕ) : ℝ) + 1 ∧ |(j : ℝ) - cy| ≤ ((k.size / 2 : ℕ) : ℝ) + 1 := by
  obtain ⟨a, ha, b, hb, -, h1, h2⟩ := kernelAdd_sample hne
  have ha' : (a : ℝ) ≤ 2 * ((k.size / 2 : ℕ) : ℝ) := by
    have : a ≤ 2 * (k.size / 2) := by omega
    exact_mod_cast this
  have hb' : (b : ℝ) ≤ 2 * ((k.size / 2 : ℕ) : ℝ) := by
    have : b ≤ 2 * (k.size / 2) := by omega
    exact_mod_cast this
  have ha0 : (0:ℝ) ≤ a := by positivity
  have hb0 : (0:ℝ) ≤ b := by positivity
  rw [abs_lt] at h1 h2
  rw [abs_le, abs_le]
  refine ⟨⟨?_, ?_⟩, ⟨?_, ?_⟩⟩ <;> linarith [h1.1, h1.2, h2.1, h2.2]

/-- a sample exactly on a pixel of the frame gives that pixel its full value -/
theorem kernelAdd_ge {h w : ℕ} {k : Kernel} {cz cy : ℝ} (hk : ∀ a < k.size, ∀ b < k.size, 0 ≤ k.val a b) {a b i j : ℕ} (ha : a < k.size)
    (hb : b < k.size) (hi : i < h) (hj : j < w) (hz : cz + ((a : ℝ) - ((k.size / 2 : ℕ) : ℝ)) = i)
    (hy : cy + ((b : ℝ) - ((k.size / 2 : ℕ) : ℝ)) = j) : k.val a b ≤ kernelAdd h w (k, cz, cy) i j := by
  rw [kernelAdd_eq]
  have nn : ∀ a' < k.size, ∀ b' < k.size, 0 ≤ cornerSum h w (corners (cz + ((a' : ℝ) - ((k.size / 2 : ℕ) : ℝ)), cy + ((b' : ℝ) - ((k.size / 2 : ℕ) : ℝ)), k.val a' b')) i j := by
    intro a' ha' b' hb'
    unfold cornerSum
    apply List.sum_nonneg
    intro x hx
    obtain ⟨c, hc, rfl⟩ := List.mem_map.mp hx
    split_ifs
    · exact corners_nonneg (hk a' ha' b' hb') c hc
    · exact le_rfl
  refine le_trans ?_ (Finset.single_le_sum (f := fun a' : ℕ => ∑ b ∈ Finset.range k.size, cornerSum h w (corners (cz + ((a' : ℝ) - ((k.size / 2 : ℕ) : ℝ)), cy + ((b : ℝ) - ((k.size / 2 : ℕ) : ℝ)), k.val a' b)) i j) (fun a' ha' => Finset.sum_nonneg fun b' hb' => nn a' (Finset.mem_range.mp ha') b' (Finset.mem_range.mp hb'))
    (Finset.mem_range.mpr ha))
  refine le_trans ?_ (Finset.single_le_sum (f := fun b' : ℕ => cornerSum h w (corners (cz + ((a : ℝ) - ((k.size / 2 : ℕ) : ℝ)), cy + ((b' : ℝ) - ((k.size / 2 : ℕ) : ℝ)), k.val a b')) i j) (fun b' hb' => nn a ha b' (Finset.mem_range.mp hb'))
    (Finset.mem_range.mpr hb))
  simp only [hz, hy]
  have hin : inFrame h w ((i : ℤ), (j : ℤ), k.val a b) := by
    unfold inFrame; simp only; omega
  unfold cornerSum corners
  simp only [Int.floor_natCast, Int.cast_natCast, sub_self, sub_zero, mul_one, List.map_cons, List.map_nil, List.sum_cons, List.sum_nil]
  rw [if_pos ⟨hin, trivial, trivial⟩]
  simp

end XRD
