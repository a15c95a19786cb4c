import Verif.Model.Detector

/-! Model of `_diffractogram` (utils.py:819-869). -/

namespace XRD.Diffractogram
open Classical

/-- `np.argmin` of a nonempty array: the first index of the smallest entry -/
noncomputable def argminIdx : List ℝ → ℕ
  | [] => 0
  | [_] => 0
  | x :: y :: ys => if x ≤ (y :: ys).getD (argminIdx (y :: ys)) 0 then 0 else argminIdx (y :: ys) + 1

/-- `bin_centres` (utils.py:850-851): `np.arange(0, int(max_radius + 1), binsize)` -/
noncomputable def binCentres (m n : ℕ) (binsize : ℝ) : List ℝ :=
  (List.range ⌈((max m n + 1 : ℕ) : ℝ) / binsize⌉₊).map fun k : ℕ => (k : ℝ) * binsize

/-- `radius` of pixel `(i, j)` (utils.py:855) -/
noncomputable def radius (cz cy : ℝ) (i j : ℕ) : ℝ := Real.sqrt (((i : ℝ) - cz) ^ 2 + ((j : ℝ) - cy) ^ 2)

/-- `bin_index` of pixel `(i, j)` (utils.py:856) -/
noncomputable def binIndex (m n : ℕ) (cz cy binsize : ℝ) (i j : ℕ) : ℕ :=
  argminIdx ((binCentres m n binsize).map fun c => |c - radius cz cy i j|)

/-- `histogram[k]` after the double loop (utils.py:852-857) -/
noncomputable def histogram (m n : ℕ) (P : ℕ → ℕ → ℝ) (cz cy binsize : ℝ) (k : ℕ) : ℝ :=
  ∑ i ∈ Finset.range m, ∑ j ∈ Finset.range n, if binIndex m n cz cy binsize i j = k then P i j else 0

/-- the loop `for k in range(len(histogram) - 1, 0, -1)` (utils.py:859-863), from index `k` on -/
noncomputable def clipLoop (h : ℕ → ℝ) : ℕ → ℕ → ℕ
  | 0, clip => clip
  | k + 1, clip => if h (k + 1) ≠ 0 then clip else clipLoop h k (k + 1)

/-- `_diffractogram` (utils.py:819-865): bin centres and histogram, both cut at `clip_index` -/
noncomputable def diffractogram (m n : ℕ) (P : ℕ → ℕ → ℝ) (cz cy binsize : ℝ) : List ℝ × List ℝ :=
  let len := (binCentres m n binsize).length
  let h := histogram m n P cz cy binsize
  let clip := min (clipLoop h (len - 1) (len - 1) + m / 10) (len - 1)
  ((binCentres m n binsize).take clip, (List.range clip).map h)

end XRD.Diffractogram
