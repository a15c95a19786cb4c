import Verif.Model.Diffractogram
import Verif.SpecImage

/-! C55: the diffractogram. -/

namespace XRD
open Diffractogram
open Classical

theorem argminIdx_spec : ∀ l : List ℝ, l ≠ [] → argminIdx l < l.length ∧ ∀ k < l.length, l.getD (argminIdx l) 0 ≤ l.getD k 0 := by
  intro l
  induction l with
  | nil => intro h; exact absurd rfl h
  | cons x l ih =>
    intro _
    cases l with
    | nil => simp [argminIdx]
    | cons y ys =>
      obtain ⟨h1, h2⟩ := ih (by simp)
      unfold argminIdx
      split_ifs with h
      · refine ⟨by simp, fun k hk => ?_⟩
        cases k with
        | zero => exact le_refl _
        | succ k =>
          have := h2 k (by simpa using hk)
          simpa using le_trans h this
      · push Not at h
        refine ⟨by simpa using h1, fun k hk => ?_⟩
        cases k with
        | zero => simpa using h.le
        | succ k => simpa using h2 k (by simpa using hk)

/-- number of bins -/
theorem bins_length (m n : ℕ) (b : ℝ) : (binCentres m n b).length = ⌈((max m n + 1 : ℕ) : ℝ) / b⌉₊ := by simp [binCentres]

theorem bins_pos (m n : ℕ) {b : ℝ} (hb : 0 < b) : 0 < (binCentres m n b).length := by
  rw [bins_length, Nat.ceil_pos]; positivity

/-- the bin of a pixel is a valid index and a nearest bin -/
theorem binIndex_spec (m n : ℕ) (cz cy : ℝ) {b : ℝ} (hb : 0 < b) (i j : ℕ) :
    binIndex m n cz cy b i j < (binCentres m n b).length ∧
    ∀ k < (binCentres m n b).length, |(binIndex m n cz cy b i j : ℝ) * b - radius cz cy i j| ≤ |(k : ℝ) * b - radius cz cy i j| := by
  have hne : (binCentres m n b).map (fun c => |c - radius cz cy i j|) ≠ [] := by
    intro h
    have := congrArg List.length h
    rw [List.length_map] at this
    have := bins_pos m n hb
    simp_all
  obtain ⟨h1, h2⟩ := argminIdx_spec _ hne
  rw [List.length_map] at h1 h2
  have hget : ∀ k < (binCentres m n b).length, ((binCentres m n b).map fun c => |c - radius cz cy i j|).getD k 0 = |(k : ℝ) * b - radius cz cy i j| := by
    intro k hk
    rw [bins_length] at hk
    rw [List.getD_eq_getElem?_getD, List.getElem?_map]
    unfold binCentres
    rw [List.getElem?_map, List.getElem?_range hk]
    rfl
  refine ⟨h1, fun k hk => ?_⟩
  have := h2 k hk
  rw [hget k hk, hget _ h1] at this
  exact this

theorem clipLoop_spec (h : ℕ → ℝ) : ∀ (k clip : ℕ),
    clipLoop h k clip = clip ∨ (clipLoop h k clip ≤ k ∧ ∀ i, clipLoop h k clip ≤ i → i ≤ k → h i = 0) := by
  intro k
  induction k with
  | zero => intro clip; left; rfl
  | succ k ih =>
    intro clip
    unfold clipLoop
    split_ifs with hk
    · left; rfl
    · push Not at hk
      right
      rcases ih (k + 1) with h1 | ⟨h1, h2⟩
      · rw [h1]
        exact ⟨le_refl _, fun i hi hi' => by rw [le_antisymm hi' hi]; exact hk⟩
      · refine ⟨by omega, fun i hi hi' => ?_⟩
        rcases Nat.lt_or_ge i (k + 1) with hlt | hge
        · exact h2 i hi (by omega)
        · rw [le_antisymm hi' hge]; exact hk

/-- sum of a list over a range -/
theorem diffr_range_sum (f : ℕ → ℝ) (n : ℕ) : ((List.range n).map f).sum = ∑ k ∈ Finset.range n, f k := by
  induction n with
  | zero => simp
  | succ n ih => rw [List.range_succ, List.map_append, List.sum_append, ih, Finset.sum_range_succ]; simp

/-- C55, what is returned: everything except the intensity of the pixels nearest to the last bin. -/
theorem C55_returned_partial (m n : ℕ) (P : ℕ → ℕ → ℝ) (cz cy b : ℝ) (hb : 0 < b) :
    (diffractogram m n P cz cy b).1.length = (diffractogram m n P cz cy b).2.length ∧
    (diffractogram m n P cz cy b).2.sum =
      (∑ i ∈ Finset.range m, ∑ j ∈ Finset.range n, P i j) -
      histogram m n P cz cy b ((binCentres m n b).length - 1) := by
  set len := (binCentres m n b).length with hlen
  have hpos : 0 < len := bins_pos m n hb
  set h := histogram m n P cz cy b with hh
  have htot : ∑ k ∈ Finset.range len, h k = ∑ i ∈ Finset.range m, ∑ j ∈ Finset.range n, P i j := by
    rw [hh]; unfold histogram
    rw [Finset.sum_comm]
    apply Finset.sum_congr rfl; intro i _
    rw [Finset.sum_comm]
    apply Finset.sum_congr rfl; intro j _
    rw [Finset.sum_ite_eq, if_pos (Finset.mem_range.mpr (binIndex_spec m n cz cy hb i j).1)]
  have hsplit : ∑ k ∈ Finset.range len, h k = ∑ k ∈ Finset.range (len - 1), h k + h (len - 1) := by
    conv_lhs => rw [show len = (len - 1) + 1 by omega, Finset.sum_range_succ]
  constructor
  · unfold diffractogram
    simp only [List.length_take, List.length_map, List.length_range, ← hlen]
    omega
  · unfold diffractogram
    dsimp only
    rw [← hlen, ← hh, diffr_range_sum, ← htot, hsplit, add_sub_cancel_right]
    apply Finset.sum_subset
    · intro k hk
      rw [Finset.mem_range] at hk ⊢
      exact lt_of_lt_of_le hk (min_le_right _ _)
    · intro k hk hk'
      rw [Finset.mem_range] at hk hk'
      rcases clipLoop_spec h (len - 1) (len - 1) with h1 | ⟨h1, h2⟩
      · rw [h1] at hk'; omega
      · exact h2 k (by omega) (by omega)

/-- C55 (partial): if every lit pixel is nearer to the centre than one and a half bins before the end of the bins, the returned
histogram sums to the total of the pattern.  Missing: patterns with intensity further out. -/
theorem C55_total_partial (m n : ℕ) (P : ℕ → ℕ → ℝ) (cz cy b : ℝ) (hb : 0 < b)
    (hin : ∀ i < m, ∀ j < n, P i j ≠ 0 →
      Real.sqrt (((i : ℝ) - cz) ^ 2 + ((j : ℝ) - cy) ^ 2) < ((⌈((max m n + 1 : ℕ) : ℝ) / b⌉₊ : ℝ) - 3 / 2) * b) :
    (diffractogram m n P cz cy b).2.sum = ∑ i ∈ Finset.range m, ∑ j ∈ Finset.range n, P i j := by
  rw [(C55_returned_partial m n P cz cy b hb).2, sub_eq_self]
  unfold histogram
  apply Finset.sum_eq_zero; intro i hi
  apply Finset.sum_eq_zero; intro j hj
  rw [Finset.mem_range] at hi hj
  split_ifs with hk
  · by_contra hP
    have hr := hin i hi j hj hP
    have hr' : radius cz cy i j < ((binCentres m n b).length - 3 / 2) * b := by rw [bins_length]; exact hr
    obtain ⟨h1, h2⟩ := binIndex_spec m n cz cy hb i j
    rw [hk] at h1 h2
    generalize (binCentres m n b).length = L at *
    have hr0 : 0 ≤ radius cz cy i j := Real.sqrt_nonneg _
    have hL : 2 ≤ L := by
      by_contra hL
      have : L ≤ 1 := by omega
      have h3 : (L : ℝ) ≤ 1 := by exact_mod_cast this
      nlinarith
    obtain ⟨q, rfl⟩ : ∃ q, L = q + 2 := ⟨L - 2, by omega⟩
    have := h2 q (by omega)
    have e : ((q + 2 - 1 : ℕ) : ℝ) = q + 1 := by push_cast [show q + 2 - 1 = q + 1 by omega]; ring
    rw [e] at this
    push_cast at hr'
    rw [abs_of_nonneg (by nlinarith)] at this
    rcases abs_cases ((q : ℝ) * b - radius cz cy i j) with ⟨h, -⟩ | ⟨h, -⟩ <;> rw [h] at this <;> nlinarith
  · rfl

/-- C55 fails: for a 4 by 4 pattern around a beam centre in its corner pixel, the light of the opposite corner pixel is lost: the
returned histogram sums to 0. -/
theorem C55_last_bin_lost_fails :
    let P : ℕ → ℕ → ℝ := fun i j => if i = 3 ∧ j = 3 then 1 else 0
    ∑ i ∈ Finset.range 4, ∑ j ∈ Finset.range 4, P i j = 1 ∧ (diffractogram 4 4 P 0 0 1).2.sum = 0 := by
  intro P
  have htot : ∑ i ∈ Finset.range 4, ∑ j ∈ Finset.range 4, P i j = 1 := by
    simp [P, Finset.sum_range_succ]
  refine ⟨htot, ?_⟩
  rw [(C55_returned_partial 4 4 P 0 0 1 one_pos).2, htot]
  have hlen : (binCentres 4 4 (1:ℝ)).length = 5 := by
    rw [bins_length]; norm_num
  have hidx : binIndex 4 4 0 0 1 3 3 = 4 := by
    obtain ⟨h1, h2⟩ := binIndex_spec 4 4 0 0 one_pos 3 3
    rw [hlen] at h1 h2
    have hr : radius 0 0 3 3 = Real.sqrt 18 := by unfold radius; norm_num
    have h4 : 4 ≤ Real.sqrt 18 := by rw [Real.le_sqrt' (by norm_num)]; norm_num
    have h5 : Real.sqrt 18 ≤ 43/10 := by rw [Real.sqrt_le_left (by norm_num)]; norm_num
    have := h2 4 (by norm_num)
    rw [hr] at this
    generalize binIndex 4 4 0 0 1 3 3 = k at *
    by_contra hk
    have hk3 : k ≤ 3 := by omega
    have hk3' : (k : ℝ) ≤ 3 := by exact_mod_cast hk3
    rw [abs_of_nonpos (by push_cast; linarith), abs_of_nonpos (by push_cast; linarith)] at this
    push_cast at this
    linarith
  rw [hlen]
  unfold histogram
  have : ∀ i ∈ Finset.range 4, ∀ j ∈ Finset.range 4, (if binIndex 4 4 0 0 1 i j = 5 - 1 then P i j else 0) = P i j := by
    intro i _ j _
    split_ifs with h
    · rfl
    · by_cases hp : i = 3 ∧ j = 3
      · obtain ⟨rfl, rfl⟩ := hp; exact absurd hidx h
      · simp [P, hp]
  rw [Finset.sum_congr rfl (fun i hi => Finset.sum_congr rfl (this i hi)), htot, sub_self]

/-- the hypothesis of the partial theorem is met by a pattern lit next to the centre -/
example : ∀ i < 10, ∀ j < 10, (fun i j : ℕ => if i = 5 ∧ j = 6 then (1:ℝ) else 0) i j ≠ 0 →
    Real.sqrt (((i : ℝ) - 5) ^ 2 + ((j : ℝ) - 5) ^ 2) < ((⌈((max 10 10 + 1 : ℕ) : ℝ) / 1⌉₊ : ℝ) - 3 / 2) * 1 := by
  intro i _ j _ h
  have hij : i = 5 ∧ j = 6 := by by_contra hc; simp [hc] at h
  obtain ⟨rfl, rfl⟩ := hij
  norm_num

end XRD
