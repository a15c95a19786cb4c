import Verif.Props.Diffractogram

/-! C55: the single bins of the diffractogram, and where it is cut. -/

namespace XRD.Spec
/-- distance of the pixel `(i, j)` from the centre -/
noncomputable def pixelRadius (cz cy : ℝ) (i j : ℕ) : ℝ := Real.sqrt (((i : ℝ) - cz) ^ 2 + ((j : ℝ) - cy) ^ 2)
/-- the light in the ring of radius `k·b` and width `b`: the outer edge belongs to the ring -/
noncomputable def ringLight (m n : ℕ) (P : ℕ → ℕ → ℝ) (cz cy b : ℝ) (k : ℕ) : ℝ :=
  open Classical in
  ∑ i ∈ Finset.range m, ∑ j ∈ Finset.range n,
    if (k - 1 / 2) * b < pixelRadius cz cy i j ∧ pixelRadius cz cy i j ≤ (k + 1 / 2) * b then P i j else 0
end XRD.Spec

namespace XRD
open Diffractogram Spec
open Classical

theorem argminIdx_strict : ∀ l : List ℝ, ∀ k < argminIdx l, l.getD (argminIdx l) 0 < l.getD k 0 := by
  intro l
  induction l with
  | nil => intro k hk; simp [argminIdx] at hk
  | cons x l ih =>
    cases l with
    | nil => intro k hk; simp [argminIdx] at hk
    | cons y ys =>
      intro k hk
      unfold argminIdx at hk ⊢
      split_ifs at hk ⊢ with h
      · omega
      · rw [List.getD_cons_succ]
        cases k with
        | zero => rw [List.getD_cons_zero]; exact not_le.mp h
        | succ k => rw [List.getD_cons_succ]; exact ih k (by omega)

theorem binCentres_getD (m n : ℕ) (b r : ℝ) {k : ℕ} (hk : k < (binCentres m n b).length) :
    ((binCentres m n b).map fun c => |c - r|).getD k 0 = |k * b - r| := by
  rw [bins_length] at hk
  rw [List.getD_eq_getElem?_getD, List.getElem?_map]
  unfold binCentres
  rw [List.getElem?_map, List.getElem?_range hk]
  rfl

/-- which pixels fall into a bin that is not the last one -/
theorem binIndex_iff (m n : ℕ) (cz cy : ℝ) {b : ℝ} (hb : 0 < b) (i j : ℕ) {k : ℕ} (hk : k + 1 < (binCentres m n b).length) :
    binIndex m n cz cy b i j = k ↔ (k - 1 / 2) * b < pixelRadius cz cy i j ∧ pixelRadius cz cy i j ≤ (k + 1 / 2) * b := by
  have hr0 : 0 ≤ pixelRadius cz cy i j := Real.sqrt_nonneg _
  set L := binCentres m n b with hL
  have hne : (L.map fun c => |c - pixelRadius cz cy i j|) ≠ [] := by
    intro h; rw [List.map_eq_nil_iff] at h; rw [h] at hk; simp at hk
  obtain ⟨h1, h2⟩ := argminIdx_spec _ hne
  have h3 := argminIdx_strict (L.map fun c => |c - pixelRadius cz cy i j|)
  have hidx : binIndex m n cz cy b i j = argminIdx (L.map fun c => |c - pixelRadius cz cy i j|) := rfl
  rw [← hidx] at h1 h2 h3
  rw [List.length_map] at h1 h2
  generalize binIndex m n cz cy b i j = q at *
  have e : ∀ k < L.length, (L.map fun c => |c - pixelRadius cz cy i j|).getD k 0 = |(k:ℝ) * b - pixelRadius cz cy i j| :=
    fun k hk => binCentres_getD m n b _ hk
  generalize pixelRadius cz cy i j = r at *
  -- squares instead of absolute values
  have sq : ∀ p q : ℕ, |(p:ℝ) * b - r| ≤ |(q:ℝ) * b - r| ↔ 0 ≤ ((q:ℝ) - p) * (((q:ℝ) + p) * b - 2 * r) := by
    intro p q
    rw [← sq_le_sq]
    have : ((q:ℝ) * b - r) ^ 2 - ((p:ℝ) * b - r) ^ 2 = b * (((q:ℝ) - p) * (((q:ℝ) + p) * b - 2 * r)) := by ring
    constructor
    · intro h
      have h' : 0 ≤ b * (((q:ℝ) - p) * (((q:ℝ) + p) * b - 2 * r)) := by rw [← this]; linarith
      exact nonneg_of_mul_nonneg_right h' hb
    · intro h
      have := mul_nonneg hb.le h
      linarith
  constructor
  · rintro rfl
    constructor
    · rcases Nat.eq_zero_or_pos q with h0 | h0
      · subst h0; push_cast; nlinarith
      · have h4 := h3 (q - 1) (by omega)
        rw [e q (by omega), e (q - 1) (by omega), ← not_le, sq, not_le] at h4
        rw [Nat.cast_sub h0] at h4
        push_cast at h4
        nlinarith
    · have h4 := h2 (q + 1) hk
      rw [e q (by omega), e (q + 1) hk, sq] at h4
      push_cast at h4
      nlinarith
  · rintro ⟨a1, a2⟩
    rcases lt_trichotomy q k with h | h | h
    · exfalso
      have h4 := h2 k (by omega)
      rw [e q h1, e k (by omega), sq] at h4
      have hqk : (q : ℝ) + 1 ≤ k := by exact_mod_cast h
      have : ((k:ℝ) + q) * b - 2 * r < 0 := by nlinarith
      nlinarith
    · exact h
    · exfalso
      have h4 := h3 k h
      rw [e q h1, e k (by omega), ← not_le, sq, not_le] at h4
      have hqk : (k : ℝ) + 1 ≤ q := by exact_mod_cast h
      have : 0 ≤ ((q:ℝ) + k) * b - 2 * r := by nlinarith
      nlinarith

theorem histogram_ring (m n : ℕ) (P : ℕ → ℕ → ℝ) (cz cy : ℝ) {b : ℝ} (hb : 0 < b) {k : ℕ} (hk : k + 1 < (binCentres m n b).length) :
    histogram m n P cz cy b k = ringLight m n P cz cy b k := by
  unfold histogram ringLight
  refine Finset.sum_congr rfl fun i _ => Finset.sum_congr rfl fun j _ => ?_
  simp only [binIndex_iff m n cz cy hb i j hk]

/-- **C55** Every returned bin is at its radius and holds the light of its ring. -/
theorem C55_bins (m n : ℕ) (P : ℕ → ℕ → ℝ) (cz cy b : ℝ) (hb : 0 < b) (k : ℕ) (hk : k < (diffractogram m n P cz cy b).2.length) :
    (diffractogram m n P cz cy b).1[k]? = some (k * b) ∧ (diffractogram m n P cz cy b).2[k]? = some (ringLight m n P cz cy b k) := by
  have hk1 : k < min (clipLoop (histogram m n P cz cy b) ((binCentres m n b).length - 1) ((binCentres m n b).length - 1) + m / 10)
      ((binCentres m n b).length - 1) := by
    unfold diffractogram at hk; simpa using hk
  have hkl : k + 1 < (binCentres m n b).length := by omega
  unfold diffractogram
  dsimp only
  constructor
  · rw [List.getElem?_take_of_lt hk1, List.getElem?_eq_getElem (by omega)]
    simp [binCentres]
  · rw [List.getElem?_map, List.getElem?_range hk1, Option.map_some, histogram_ring m n P cz cy hb hkl]

theorem clipLoop_at (h : ℕ → ℝ) (k0 : ℕ) (h0 : k0 = 0 ∨ h k0 ≠ 0) : ∀ k clip, k0 ≤ k → (∀ j, k0 < j → j ≤ k → h j = 0) →
    clipLoop h k clip = if k = k0 then clip else k0 + 1 := by
  intro k
  induction k with
  | zero => intro clip hk _; rw [if_pos (by omega)]; rfl
  | succ k ih =>
    intro clip hk hz
    unfold clipLoop
    by_cases e : k + 1 = k0
    · rw [if_pos e]
      rcases h0 with h0 | h0
      · omega
      · rw [if_pos (by rw [e]; exact h0)]
    · rw [if_neg (by rw [hz (k + 1) (by omega) le_rfl]; simp), ih (k + 1) (by omega) fun j h1 h2 => hz j h1 (by omega), if_neg e]
      split_ifs with h
      · rw [h]
      · rfl

/-- **C55** Where the diffractogram is cut: after the last ring with light follow as many empty bins as a tenth of the number of rows of the
pattern, but the very last bin is never returned. -/
theorem C55_margin (m n : ℕ) (P : ℕ → ℕ → ℝ) (cz cy b : ℝ) (hb : 0 < b) (k0 : ℕ) (hk0 : k0 + 1 < ⌈((max m n + 1 : ℕ) : ℝ) / b⌉₊)
    (hlight : ringLight m n P cz cy b k0 ≠ 0) (hdark : ∀ i < m, ∀ j < n, P i j ≠ 0 → pixelRadius cz cy i j ≤ (k0 + 1 / 2) * b) :
    (diffractogram m n P cz cy b).2.length = min (k0 + 1 + m / 10) (⌈((max m n + 1 : ℕ) : ℝ) / b⌉₊ - 1) := by
  rw [← bins_length m n b] at hk0 ⊢
  have hz : ∀ k, k0 < k → k ≤ (binCentres m n b).length - 1 → histogram m n P cz cy b k = 0 := by
    intro k h1 h2
    unfold histogram
    refine Finset.sum_eq_zero fun i hi => Finset.sum_eq_zero fun j hj => ?_
    split_ifs with hq
    · by_contra hP
      have hr := hdark i (Finset.mem_range.mp hi) j (Finset.mem_range.mp hj) hP
      obtain ⟨-, h4⟩ := argminIdx_spec ((binCentres m n b).map fun c => |c - pixelRadius cz cy i j|) (by
        intro h; rw [List.map_eq_nil_iff] at h; rw [h] at hk0; simp at hk0)
      have h5 := argminIdx_strict ((binCentres m n b).map fun c => |c - pixelRadius cz cy i j|)
      have hq' : argminIdx ((binCentres m n b).map fun c => |c - pixelRadius cz cy i j|) = k := hq
      rw [hq'] at h5
      have h6 := h5 k0 h1
      rw [binCentres_getD m n b _ (by omega), binCentres_getD m n b _ (by omega), ← sq_lt_sq] at h6
      have hkk : (k0 : ℝ) + 1 ≤ k := by exact_mod_cast h1
      generalize pixelRadius cz cy i j = r at *
      have h7 : 0 ≤ ((k:ℝ) + k0) * b - 2 * r := by nlinarith
      have h8 : 0 ≤ b * (((k:ℝ) - k0) * (((k:ℝ) + k0) * b - 2 * r)) := mul_nonneg hb.le (mul_nonneg (by linarith) h7)
      nlinarith
    · rfl
  have hl0 : histogram m n P cz cy b k0 ≠ 0 := by rwa [histogram_ring m n P cz cy hb hk0]
  have hc := clipLoop_at (histogram m n P cz cy b) k0 (Or.inr hl0) ((binCentres m n b).length - 1) ((binCentres m n b).length - 1) (by omega) hz
  have hlen : (diffractogram m n P cz cy b).2.length =
      min (clipLoop (histogram m n P cz cy b) ((binCentres m n b).length - 1) ((binCentres m n b).length - 1) + m / 10)
      ((binCentres m n b).length - 1) := by
    unfold diffractogram; simp
  rw [hlen, hc]
  split_ifs with h <;> omega

/-- not vacuous: one lit pixel next to the centre of a 10 by 10 pattern; two rings and one empty bin are returned -/
example : let P : ℕ → ℕ → ℝ := fun i j => if i = 5 ∧ j = 6 then (1:ℝ) else 0
    (diffractogram 10 10 P 5 5 1).2.length = 3 ∧ (diffractogram 10 10 P 5 5 1).2[1]? = some 1 := by
  intro P
  have hlit : pixelRadius 5 5 5 6 = 1 := by unfold pixelRadius; norm_num
  have hr : ringLight 10 10 P 5 5 1 1 = 1 := by
    unfold ringLight
    rw [Finset.sum_eq_single 5, Finset.sum_eq_single 6]
    · push_cast; rw [hlit]; norm_num [P]
    · intro j _ hj; simp [P, hj]
    · simp
    · intro i _ hi; simp [P, hi]
    · simp
  have hlen : (diffractogram 10 10 P 5 5 1).2.length = 3 := by
    rw [C55_margin 10 10 P 5 5 1 one_pos 1 (by norm_num) (by rw [hr]; exact one_ne_zero)]
    · norm_num
    · intro i _ j _ h
      have hij : i = 5 ∧ j = 6 := by by_contra hc; simp [P, hc] at h
      obtain ⟨rfl, rfl⟩ := hij
      push_cast
      rw [hlit]; norm_num
  exact ⟨hlen, by rw [(C55_bins 10 10 P 5 5 1 one_pos 1 (by rw [hlen]; norm_num)).2, hr]⟩

end XRD
