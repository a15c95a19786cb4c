import Verif.Props.Bright
import Verif.Props.Psf
import Verif.Props.MacroBlock

/-! Property C120: the point spread of a `macro` image. -/

namespace XRD
open V3 M3 Fl Spec
open scoped Classical

namespace Spec
/-- the same detector without point spread -/
def sharp (D : Detector) : Detector := { D with maxRadius := 0 }
/-- reach of the point spread: the first radius at which the bell has fallen below half the threshold, at most the given maximum -/
def IsReach (D : Detector) (r : ℕ) : Prop :=
  (r : ℤ) ≤ D.maxRadius ∧ ((r : ℤ) = D.maxRadius ∨ (1 ≤ r ∧ Real.exp (-((r : ℝ) ^ 2) / (2 * D.sigma ^ 2)) < D.threshold / 2)) ∧
    ∀ m : ℕ, 1 ≤ m → m < r → D.threshold / 2 ≤ Real.exp (-((m : ℝ) ^ 2) / (2 * D.sigma ^ 2))
/-- what a pixel passes on to the pixel `a` rows and `b` columns away: a bell cut off at the reach, with sum 1 -/
noncomputable def spread (D : Detector) (r : ℕ) (a b : ℤ) : ℝ :=
  if |a| ≤ r ∧ |b| ≤ r then
    Real.exp (-((a : ℝ) ^ 2 + (b : ℝ) ^ 2) / (2 * D.sigma ^ 2)) /
      ∑ a' ∈ Finset.Icc (-(r : ℤ)) r, ∑ b' ∈ Finset.Icc (-(r : ℤ)) r, Real.exp (-((a' : ℝ) ^ 2 + (b' : ℝ) ^ 2) / (2 * D.sigma ^ 2))
  else 0
end Spec

/-- a sum over a centred square, by the indices of the kernel -/
theorem sum_centred (r : ℕ) (g : ℤ → ℝ) : ∑ a ∈ Finset.Icc (-(r : ℤ)) r, g a = ∑ i ∈ Finset.range (2 * r + 1), g ((i : ℤ) - r) := by
  symm
  refine Finset.sum_nbij (fun i : ℕ => (i : ℤ) - r) ?_ ?_ ?_ ?_
  · intro i hi
    rw [Finset.mem_range] at hi
    rw [Finset.mem_Icc]; constructor <;> omega
  · intro i _ j _ h
    dsimp only at h; omega
  · intro a ha
    rw [Finset.mem_coe, Finset.mem_Icc] at ha
    refine ⟨(a + r).toNat, ?_, ?_⟩
    · rw [Finset.mem_coe, Finset.mem_range]; omega
    · dsimp only; omega
  · intros; rfl

theorem gaussKernel_spread (D : Detector) (hs : 0 < D.sigma) (hm : 0 ≤ D.maxRadius) :
    ∃ r : ℕ, IsReach D r ∧ D.gaussKernel.size = 2 * r + 1 ∧
      ∀ i < 2 * r + 1, ∀ j < 2 * r + 1, D.gaussKernel.val i j = spread D r ((i : ℤ) - r) ((j : ℤ) - r) := by
  obtain ⟨r, a1, a2, a3, a4, a5, a6, -, a8⟩ := C28_point_spread_kernel D hs hm
  refine ⟨r, ⟨a2, a3, a4⟩, a1, ?_⟩
  set Z := ∑ a' ∈ Finset.Icc (-(r : ℤ)) r, ∑ b' ∈ Finset.Icc (-(r : ℤ)) r, Real.exp (-((a' : ℝ) ^ 2 + (b' : ℝ) ^ 2) / (2 * D.sigma ^ 2)) with hZ
  have hZ1 : D.gaussKernel.val r r * Z = 1 := by
    rw [← a6, hZ, sum_centred, Finset.mul_sum]
    apply Finset.sum_congr rfl; intro i hi
    rw [sum_centred, Finset.mul_sum]
    apply Finset.sum_congr rfl; intro j hj
    rw [a8 i (Finset.mem_range.mp hi) j (Finset.mem_range.mp hj)]
    push_cast; rfl
  have hZ0 : Z ≠ 0 := by rintro h; rw [h, MulZeroClass.mul_zero] at hZ1; exact zero_ne_one hZ1
  intro i hi j hj
  unfold spread
  rw [if_pos (by rw [abs_le, abs_le]; omega), a8 i hi j hj, ← hZ, eq_div_iff hZ0, mul_right_comm, hZ1, _root_.one_mul]
  push_cast; rfl

theorem conv2d_spread {D : Detector} {r : ℕ} (hsz : D.gaussKernel.size = 2 * r + 1)
    (hv : ∀ i < 2 * r + 1, ∀ j < 2 * r + 1, D.gaussKernel.val i j = spread D r ((i : ℤ) - r) ((j : ℤ) - r)) (h w : ℕ) (t : Frame) {i j : ℕ} (hi : i < h) (hj : j < w) :
    conv2d h w D.gaussKernel t i j = ∑ i' ∈ Finset.range h, ∑ j' ∈ Finset.range w, t i' j' * spread D r ((i' : ℤ) - i) ((j' : ℤ) - j) := by
  rw [conv2d_eq h w _ t hi hj]
  have hr : D.gaussKernel.size / 2 = r := by omega
  rw [hr, hsz]
  apply Finset.sum_congr rfl; intro i' _
  apply Finset.sum_congr rfl; intro j' _
  by_cases c1 : i ≤ i' + r ∧ i' + r - i < 2 * r + 1
  · by_cases c2 : j ≤ j' + r ∧ j' + r - j < 2 * r + 1
    · rw [if_pos c1, if_pos c2, hv _ c1.2 _ c2.2]
      congr 2 <;> omega
    · rw [if_pos c1, if_neg c2]
      unfold spread; rw [if_neg, MulZeroClass.mul_zero]
      rw [abs_le, abs_le]; omega
  · rw [if_neg c1]
    unfold spread; rw [if_neg, MulZeroClass.mul_zero]
    rw [abs_le, abs_le]; omega

theorem conv2d_sharp {D : Detector} (hs : 0 < D.sigma) (h w : ℕ) (t : Frame) {i j : ℕ} (hi : i < h) (hj : j < w) :
    conv2d h w (sharp D).gaussKernel t i j = t i j := by
  obtain ⟨r, h1, h2, h3⟩ := gaussKernel_spread (sharp D) hs (le_refl _)
  have hr : r = 0 := by have := h1.1; show r = 0; have e : (sharp D).maxRadius = 0 := rfl; omega
  subst hr
  rw [conv2d_spread h2 h3 h w t hi hj]
  have hsp : ∀ a b : ℤ, spread (sharp D) 0 a b = if a = 0 ∧ b = 0 then 1 else 0 := by
    intro a b
    unfold spread
    simp only [Nat.cast_zero, abs_nonpos_iff]
    split_ifs with h
    · rw [h.1, h.2]; simp
    · rfl
  simp only [hsp]
  rw [Finset.sum_eq_single i, Finset.sum_eq_single j]
  · simp
  · intro j' _ hne; rw [if_neg, MulZeroClass.mul_zero]; rintro ⟨-, h⟩; apply hne; omega
  · intro hn; exact absurd (Finset.mem_range.mpr hj) hn
  · intro i' _ hne
    apply Finset.sum_eq_zero; intro j' _
    rw [if_neg, MulZeroClass.mul_zero]; rintro ⟨h, -⟩; apply hne; omega
  · intro hn; exact absurd (Finset.mem_range.mpr hi) hn

/-- the outcome of two macro renderings: the second is the first without its point spread -/
def Spec.Blurred (D : Detector) (r : ℕ) : Except PyErr (Option Stack × PeaksDict) → Except PyErr (Option Stack × PeaksDict) → Prop
  | .error e, .error e' => e = e'
  | .ok (none, o), .ok (none, o') => o = o'
  | .ok (some t, o), .ok (some t0, o') => o = o' ∧ ∀ f i j : ℕ, i < D.nz → j < D.ny →
      t f i j = ∑ i' ∈ Finset.range D.nz, ∑ j' ∈ Finset.range D.ny, t0 f i' j' * spread D r ((i' : ℤ) - i) ((j' : ℤ) - j)
  | _, _ => False

/-- C120: a `macro` image is the image that the same detector would record without point spread, every pixel of it spread out by a
bell with sum 1 that is cut off at its reach and at the edge of the detector; one fails, or has NaN, exactly if the other does. -/
theorem C120_macro_point_spread (D : Detector) (hs : 0 < D.sigma) (hm : 0 ≤ D.maxRadius) (env : RenderEnv) (d : PeaksDict)
    (hlen : ∀ r ∈ d.peaks, r.length = 25) (mesh : TetraMesh) (frames : ℤ) (ml : Option ℝ) (mi : ℝ) :
    ∃ r : ℕ, IsReach D r ∧
      Blurred D r (D.render env d mesh frames .macro ml mi) ((sharp D).render env d mesh frames .macro ml mi) := by
  obtain ⟨r, h1, h2, h3⟩ := gaussKernel_spread D hs hm
  refine ⟨r, h1, ?_⟩
  set n := max frames 1 with hn
  have hn1 : 1 ≤ n := le_max_right _ _
  have hfr : ∀ r ∈ (D.peaksIntersection d n).peaks, ∃ k : ℕ, rcol r 28 = k ∧ k < n.toNat := by
    intro r hr
    obtain ⟨q, -, -, ⟨k, hk, h0, h1⟩, -⟩ := hitRows hn1 hlen r hr
    refine ⟨k.toNat, ?_, by omega⟩
    rw [hk]; exact_mod_cast (Int.toNat_of_nonneg h0).symm
  rw [render_macro, render_macro, ← hn]
  have hpi : (sharp D).peaksIntersection d n = D.peaksIntersection d n := rfl
  rw [hpi, renderMacro_eq hfr, renderMacro_eq hfr]
  have hA : macroAdd (sharp D) env d.beam mesh d.motion = macroAdd D env d.beam mesh d.motion := rfl
  have hV : macroVal (sharp D) env d.beam mesh d.motion = macroVal D env d.beam mesh d.motion := rfl
  rw [hA, hV]
  split_ifs with c1 c2
  · exact rfl
  · exact rfl
  · refine ⟨rfl, ?_⟩
    intro f i j hi hj
    beta_reduce
    by_cases hf : f < n.toNat
    · rw [if_pos hf, if_pos hf, conv2d_spread h2 h3 _ _ _ hi hj]
      apply Finset.sum_congr rfl; intro i' hi'
      apply Finset.sum_congr rfl; intro j' hj'
      rw [show (sharp D).nz = D.nz from rfl, show (sharp D).ny = D.ny from rfl, conv2d_sharp hs _ _ _ (Finset.mem_range.mp hi') (Finset.mem_range.mp hj')]
    · rw [if_neg hf, if_neg hf]; simp

/-- C120 applied to the block, which is drawn: its image with a point spread of one pixel is the sharp image, spread out -/
example : ∃ (r : ℕ) (t t0 : Stack), 1 ≤ r ∧ IsReach (imgDet 1 1 (1/10)) r ∧
    (imgDet 1 1 (1/10)).render blockEnv (imgDict [blockRow]) (oneTet block) 1 .macro none (1/1000) =
      .ok (some t, (imgDet 1 1 (1/10)).peaksIntersection (imgDict [blockRow]) 1) ∧
    (sharp (imgDet 1 1 (1/10))).render blockEnv (imgDict [blockRow]) (oneTet block) 1 .macro none (1/1000) =
      .ok (some t0, (imgDet 1 1 (1/10)).peaksIntersection (imgDict [blockRow]) 1) ∧
    ∀ i j : ℕ, i < (imgDet 1 1 (1/10)).nz → j < (imgDet 1 1 (1/10)).ny →
      t 0 i j = ∑ i' ∈ Finset.range (imgDet 1 1 (1/10)).nz, ∑ j' ∈ Finset.range (imgDet 1 1 (1/10)).ny,
        t0 0 i' j' * spread (imgDet 1 1 (1/10)) r ((i' : ℤ) - i) ((j' : ℤ) - j) := by
  obtain ⟨r, hr, hb⟩ := C120_macro_point_spread (imgDet 1 1 (1/10)) (by show (0:ℝ) < 1; norm_num) (by show (0:ℤ) ≤ 13; norm_num) blockEnv
    (imgDict [blockRow]) (by intro r hr; have : r = blockRow := by simpa [imgDict] using hr
                             rw [this]; rfl) (oneTet block) 1 none (1/1000)
  obtain ⟨t, ht⟩ := block_renders
  rw [ht] at hb
  have hr1 : 1 ≤ r := by
    rcases hr.2.1 with h | h
    · have : (imgDet 1 1 (1/10)).maxRadius = 13 := rfl
      omega
    · exact h.1
  cases h0 : (sharp (imgDet 1 1 (1/10))).render blockEnv (imgDict [blockRow]) (oneTet block) 1 .macro none (1/1000) with
  | error e => rw [h0] at hb; exact hb.elim
  | ok v =>
    obtain ⟨t0, o⟩ := v
    rw [h0] at hb
    cases t0 with
    | none => exact hb.elim
    | some t0 =>
      obtain ⟨ho, hp⟩ := hb
      exact ⟨r, t, t0, hr1, hr, ht, by rw [← ho], fun i j hi hj => hp 0 i j hi hj⟩

end XRD
