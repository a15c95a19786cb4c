import Verif.Model.Peaks
import Mathlib.Algebra.BigOperators.Intervals

/-! Vocabulary for statements about tables and images, independent of the model's helpers. -/

namespace XRD.Spec
open XRD

/-- the entry of `row` in the column called `name`, as a real number -/
def val (cols : List String) (row : List Fl) (name : String) : ℝ :=
  match row[cols.idxOf name]? with
  | some (Fl.fin x) => x
  | _ => 0

/-- sum of all pixels of an `n × h × w` image stack -/
noncomputable def total (n h w : ℕ) (t : ℕ → ℕ → ℕ → ℝ) : ℝ :=
  ∑ f ∈ Finset.range n, ∑ i ∈ Finset.range h, ∑ j ∈ Finset.range w, t f i j

/-- sum of all pixels of one `h × w` image -/
noncomputable def total2 (h w : ℕ) (t : ℕ → ℕ → ℝ) : ℝ := ∑ i ∈ Finset.range h, ∑ j ∈ Finset.range w, t i j

/-- `intensity × volume` summed over the rows of an intersected table -/
noncomputable def power (cols : List String) (rows : List (List Fl)) : ℝ :=
  (rows.map fun r => val cols r "intensity_factors" * val cols r "volumes").sum

end XRD.Spec
