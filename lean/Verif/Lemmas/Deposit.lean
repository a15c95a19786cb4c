import Verif.Lemmas.Image
import Verif.Lemmas.Conv
import Mathlib.Algebra.BigOperators.Field

/-! Lemmas about the bilinear deposition. -/

namespace XRD
open V3 M3 Fl Spec
open scoped Classical

/-- a corner lies in the frame -/
def inFrame (h w : ℕ) (c : ℤ × ℤ × ℝ) : Prop := 0 ≤ c.1 ∧ c.1 < (h : ℤ) ∧ 0 ≤ c.2.1 ∧ c.2.1 < (w : ℤ)

/-- what a list of corners adds to a pixel -/
noncomputable def cornerSum (h w : ℕ) (cs : List (ℤ × ℤ × ℝ)) (i j : ℕ) : ℝ :=
  (cs.map fun c => if inFrame h w c ∧ c.1 = (i : ℤ) ∧ c.2.1 = (j : ℤ) then c.2.2 else 0).sum

theorem sum_filter_map {α : Type} (l : List α) (p : α → Prop) [DecidablePred p] (g : α → ℝ) :
    ((l.filter fun a => p a).map g).sum = (l.map fun a => if p a then g a else 0).sum := by
  induction l with
  | nil => rfl
  | cons a l ih =>
    by_cases h : p a
    · rw [List.filter_cons, if_pos (by simpa using h)]; simp only [List.map_cons, List.sum_cons, ih, if_pos h]
    · rw [List.filter_cons, if_neg (by simpa using h)]; simp only [List.map_cons, List.sum_cons, ih, if_neg h, zero_add]

/-- all corners of the kernels of a deposition -/
noncomputable def allCorners (ks : List (Kernel × ℝ × ℝ)) : List (ℤ × ℤ × ℝ) :=
  ks.flatMap fun k => (kernelSamples k.1 k.2.1 k.2.2).flatMap corners

theorem depositKernels_eq (h w : ℕ) (t : Frame) (ks : List (Kernel × ℝ × ℝ)) (i j : ℕ) :
    depositKernels h w t ks i j = t i j + cornerSum h w (allCorners ks) i j := by
  unfold depositKernels cornerSum allCorners
  rw [sum_filter_map]
  congr 2
  apply List.map_congr_left
  intro c _
  exact if_congr Iff.rfl rfl rfl

theorem cornerSum_append (h w : ℕ) (a b : List (ℤ × ℤ × ℝ)) (i j : ℕ) :
    cornerSum h w (a ++ b) i j = cornerSum h w a i j + cornerSum h w b i j := by
  unfold cornerSum; simp

theorem allCorners_append (a b : List (Kernel × ℝ × ℝ)) : allCorners (a ++ b) = allCorners a ++ allCorners b := by
  unfold allCorners; simp

theorem allCorners_cons (a : Kernel × ℝ × ℝ) (b : List (Kernel × ℝ × ℝ)) :
    allCorners (a :: b) = (kernelSamples a.1 a.2.1 a.2.2).flatMap corners ++ allCorners b := by
  unfold allCorners; simp

/-- integrating a test function against the deposited image -/
theorem cornerSum_integral (h w : ℕ) (cs : List (ℤ × ℤ × ℝ)) (φ : ℕ → ℕ → ℝ) :
    ∑ i ∈ Finset.range h, ∑ j ∈ Finset.range w, φ i j * cornerSum h w cs i j =
      (cs.map fun c => if inFrame h w c then φ c.1.toNat c.2.1.toNat * c.2.2 else 0).sum := by
  induction cs with
  | nil => simp [cornerSum]
  | cons c cs ih =>
    rw [List.map_cons, List.sum_cons, ← ih]
    have : ∀ i j, φ i j * cornerSum h w (c :: cs) i j =
        φ i j * (if inFrame h w c ∧ c.1 = (i : ℤ) ∧ c.2.1 = (j : ℤ) then c.2.2 else 0) + φ i j * cornerSum h w cs i j := by
      intro i j; unfold cornerSum; rw [List.map_cons, List.sum_cons]; ring
    simp only [this, Finset.sum_add_distrib]
    congr 1
    by_cases hc : inFrame h w c
    · rw [if_pos hc]
      obtain ⟨h1, h2, h3, h4⟩ := hc
      rw [Finset.sum_eq_single c.1.toNat]
      · rw [Finset.sum_eq_single c.2.1.toNat]
        · rw [if_pos ⟨⟨h1, h2, h3, h4⟩, (Int.toNat_of_nonneg h1).symm, (Int.toNat_of_nonneg h3).symm⟩]
        · intro b _ hb; rw [if_neg, mul_zero]; rintro ⟨-, -, hh⟩; apply hb; omega
        · intro hh; exact absurd (Finset.mem_range.mpr (by omega)) hh
      · intro b _ hb
        apply Finset.sum_eq_zero; intro e _
        rw [if_neg, mul_zero]; rintro ⟨-, hh, -⟩; apply hb; omega
      · intro hh; exact absurd (Finset.mem_range.mpr (by omega)) hh
    · rw [if_neg hc]
      apply Finset.sum_eq_zero; intro i _
      apply Finset.sum_eq_zero; intro j _
      rw [if_neg, mul_zero]; rintro ⟨hh, -⟩; exact hc hh

theorem sum_flatMap {α β : Type} (l : List α) (g : α → List β) (f : β → ℝ) :
    ((l.flatMap g).map f).sum = (l.map fun a => ((g a).map f).sum).sum := by
  induction l with
  | nil => rfl
  | cons a l ih => simp [ih]

theorem list_range_sum (n : ℕ) (f : ℕ → ℝ) : ((List.range n).map f).sum = ∑ i ∈ Finset.range n, f i := by
  induction n with
  | zero => simp
  | succ n ih => rw [List.range_succ, Finset.sum_range_succ, ← ih]; simp

/-- sum over the samples of a kernel -/
theorem sum_kernelSamples (k : Kernel) (cz cy : ℝ) (f : ℝ × ℝ × ℝ → ℝ) :
    ((kernelSamples k cz cy).map f).sum = ∑ a ∈ Finset.range k.size, ∑ b ∈ Finset.range k.size,
      f (cz + ((a : ℝ) - ((k.size / 2 : ℕ) : ℝ)), cy + ((b : ℝ) - ((k.size / 2 : ℕ) : ℝ)), k.val a b) := by
  unfold kernelSamples
  rw [sum_flatMap, list_range_sum]
  apply Finset.sum_congr rfl
  intro a _
  rw [List.map_map, list_range_sum]
  rfl

theorem corners_nonneg {s : ℝ × ℝ × ℝ} (hs : 0 ≤ s.2.2) : ∀ c ∈ corners s, 0 ≤ c.2.2 := by
  have a1 := Int.fract_nonneg s.1
  have a2 := (Int.fract_lt_one s.1).le
  have b1 := Int.fract_nonneg s.2.1
  have b2 := (Int.fract_lt_one s.2.1).le
  unfold corners
  unfold Int.fract at *
  intro c hc
  simp only [List.mem_cons, List.not_mem_nil, or_false] at hc
  rcases hc with rfl | rfl | rfl | rfl
  · exact mul_nonneg hs (mul_nonneg (by linarith) (by linarith))
  · exact mul_nonneg hs (mul_nonneg (by linarith) (by linarith))
  · exact mul_nonneg hs (mul_nonneg (by linarith) (by linarith))
  · exact mul_nonneg hs (mul_nonneg (by linarith) (by linarith))

theorem corners_sum (s : ℝ × ℝ × ℝ) : ((corners s).map fun c => c.2.2).sum = s.2.2 := by
  unfold corners; simp; ring

theorem corners_sum_le (h w : ℕ) {s : ℝ × ℝ × ℝ} (hs : 0 ≤ s.2.2) :
    ((corners s).map fun c => if inFrame h w c then c.2.2 else 0).sum ≤ s.2.2 := by
  rw [← corners_sum s]
  apply List.sum_le_sum
  intro c hc
  split_ifs
  · exact le_refl _
  · exact corners_nonneg hs c hc

/-- a sample all of whose neighbours are in the frame -/
def sampleIn (h w : ℕ) (s : ℝ × ℝ × ℝ) : Prop := 0 ≤ s.1 ∧ s.1 + 1 < h ∧ 0 ≤ s.2.1 ∧ s.2.1 + 1 < w

theorem corners_inFrame {h w : ℕ} {s : ℝ × ℝ × ℝ} (hs : sampleIn h w s) : ∀ c ∈ corners s, inFrame h w c := by
  obtain ⟨h1, h2, h3, h4⟩ := hs
  have f1 : 0 ≤ ⌊s.1⌋ := Int.floor_nonneg.mpr h1
  have f2 : 0 ≤ ⌊s.2.1⌋ := Int.floor_nonneg.mpr h3
  have g1 : ⌊s.1⌋ + 1 < (h : ℤ) := by
    have := Int.floor_le s.1
    have : ((⌊s.1⌋ + 1 : ℤ) : ℝ) < ((h : ℤ) : ℝ) := by push_cast; linarith
    exact_mod_cast this
  have g2 : ⌊s.2.1⌋ + 1 < (w : ℤ) := by
    have := Int.floor_le s.2.1
    have : ((⌊s.2.1⌋ + 1 : ℤ) : ℝ) < ((w : ℤ) : ℝ) := by push_cast; linarith
    exact_mod_cast this
  unfold corners
  intro c hc
  simp only [List.mem_cons, List.not_mem_nil, or_false] at hc
  unfold inFrame
  rcases hc with rfl | rfl | rfl | rfl <;> simp only <;> omega

/-- bilinear weights reproduce affine functions -/
theorem corners_affine {h w : ℕ} {s : ℝ × ℝ × ℝ} (hs : sampleIn h w s) (α β γ : ℝ) :
    ((corners s).map fun c => if inFrame h w c then (α + β * (c.1.toNat : ℝ) + γ * (c.2.1.toNat : ℝ)) * c.2.2 else 0).sum =
      (α + β * s.1 + γ * s.2.1) * s.2.2 := by
  have e : ((corners s).map fun c => if inFrame h w c then (α + β * (c.1.toNat : ℝ) + γ * (c.2.1.toNat : ℝ)) * c.2.2 else 0) =
      ((corners s).map fun c : ℤ × ℤ × ℝ => (α + β * (c.1 : ℝ) + γ * (c.2.1 : ℝ)) * c.2.2) := by
    apply List.map_congr_left
    intro c hc
    have hin := corners_inFrame hs c hc
    have h1 : ((c.1.toNat : ℕ) : ℝ) = (c.1 : ℝ) := by exact_mod_cast Int.toNat_of_nonneg hin.1
    have h2 : ((c.2.1.toNat : ℕ) : ℝ) = (c.2.1 : ℝ) := by exact_mod_cast Int.toNat_of_nonneg hin.2.2.1
    rw [if_pos hin, h1, h2]
  rw [e]
  unfold corners
  simp only [List.map_cons, List.map_nil, List.sum_cons, List.sum_nil]
  push_cast
  ring

end XRD
