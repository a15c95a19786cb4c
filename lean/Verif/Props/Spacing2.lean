import Verif.Props.Spacing
import Verif.Props.Limits

/-! Property C38 for strained crystals: the Bragg limits are applied to the unstrained lattice. -/

namespace XRD
open V3 M3 Fl Spec
open scoped Classical

/-- **C38** for strained elements, whatever happened to the crystal before: the limits hold for the Bragg angle the plane would have
without strain, so `sin θ √(1 + 2 n·ε n)`, not `sin θ`, is between the sines of the limits in use. -/
theorem C38_limits_of_strained (x : Xfab) (hx : ∀ h cell sg cif, (x.sfBatch h cell sg cif).length = h.length) (hgen : Spec.GenhklRange x)
    (p : Polycrystal) (hp : Program x p) (qh : Qhull) (vs : List V3) (dir pol : V3) (wl : ℝ) (b : Beam)
    (hb : Beam.new qh vs dir wl pol = .ok b) (hwl : 0 < wl) (a T o : V3) (w : ℝ) (m : Motion) (hm : Motion.new a w T o = .ok m)
    (ha : norm a = 1) (lo hi : ℝ) (det : Option Detector) (d : PeaksDict) (p' : Polycrystal)
    (hd : p.diffract x b m lo hi det = .ok (d, p')) (row : List Fl) (hrow : row ∈ d.peaks) (e : ℕ) (G0 : V3) (tt : ℝ)
    (he : Has d.columns row "grain_index" (fin e)) (hG : HasV d.columns row "G0_x" "G0_y" "G0_z" G0)
    (ht : Has d.columns row "2theta" (fin tt)) (hU : IsRot (p.orientationLab.getD e 0)) (hs : Symmetric (p.strainLab.getD e 0)) :
    ∃ lo' hi', p.limits b lo hi det = .ok (lo', hi') ∧
      Real.sin lo' ≤ Real.sin (tt / 2) * Real.sqrt (1 + 2 * strainAlong (p.strainLab.getD e 0) G0) ∧
      Real.sin (tt / 2) * Real.sqrt (1 + 2 * strainAlong (p.strainLab.getD e 0) G0) ≤ Real.sin hi' := by
  obtain ⟨lo', hi', hl, e', i, hkl, wt, t, G0', hev, -, -, k1, k2, k3, -⟩ :=
    C01_diffract x hx p hp b a T o w m hm ha lo hi det d p' hd row hrow
  have hcol : d.columns = peakColumns := by
    obtain ⟨_, _, _, rfl, hc⟩ := Polycrystal.diffract_ok hd
    exact diffract_columns hc
  obtain rfl : e = e' := by
    rw [hcol] at he k1
    have := Fl.fin.inj (Option.some.inj (((has_iff 0 rfl).mp he).symm.trans ((has_iff 0 rfl).mp k1)))
    exact_mod_cast this
  obtain ⟨ph, h1, h2, h3, h4⟩ := C109_spacing_shows_strain x hx p hp qh vs dir pol wl b hb hwl a T o w m hm ha lo hi det d p' hd row hrow
    e i hkl G0 tt he k2 k3 hG ht hU hs
  obtain ⟨ph', n, hph', hli⟩ := hev.plane
  obtain rfl : ph = ph' := by rw [h1] at hph'; exact Option.some.inj hph'
  obtain ⟨g1, g2⟩ := hgen _ _ _ _ _ (List.mem_of_getElem? hli.1)
  have hw : b.wavelength = wl := (Beam.new_ok hb).2.2.2.2.1
  rw [hw] at g1 g2
  refine ⟨lo', hi', hl, ?_⟩
  have hpi := Real.pi_pos
  have hr := Real.sqrt_pos.mpr h3
  set r := Real.sqrt (1 + 2 * strainAlong (p.strainLab.getD e 0) G0)
  unfold cellSpacing at h2 h4
  unfold braggSpacing at h4
  set N := norm ((x.formB ph.unitCell).mulVec ⟨hkl.h, hkl.k, hkl.l⟩)
  have hN : 0 < N := by
    by_contra hc
    have : 2 * Real.pi / N ≤ 0 := div_nonpos_of_nonneg_of_nonpos (by positivity) (not_lt.mp hc)
    linarith
  have hsn : Real.sin (tt / 2) ≠ 0 := by
    intro h0
    rw [h0] at h4
    have : 0 < 2 * Real.pi / N * r := by positivity
    rw [← h4] at this
    simp at this
  have key : Real.sin (tt / 2) * r = N / (4 * Real.pi) * wl := by
    field_simp at h4 ⊢
    linarith
  rw [key]
  rw [div_le_iff₀ hwl] at g1
  rw [le_div_iff₀ hwl] at g2
  exact ⟨g1, g2⟩

/-- **C38 fails** for strained crystals even without a detector: a crystal strained by one per cent returns a peak below the user's lower
Bragg limit. -/
theorem C38_strained_below_fails : ∃ (x : Xfab) (b : Beam) (m : Motion) (p p' : Polycrystal) (lo hi : ℝ) (d : PeaksDict) (row : List Fl)
    (tt : ℝ), Spec.GenhklRange x ∧ Program x p ∧ (∀ U ∈ p.orientationLab, IsRot U) ∧ (∀ s ∈ p.strainLab, Symmetric s ∧ Feasible s) ∧
      0 ≤ lo ∧ lo < hi ∧ hi ≤ Real.pi / 2 ∧ p.diffract x b m lo hi none = .ok (d, p') ∧ row ∈ d.peaks ∧
      Has d.columns row "2theta" (fin tt) ∧ tt / 2 < lo := by
  have hpi := Real.pi_pos
  have h2 : 1 < Real.sqrt 2 := by rw [Real.lt_sqrt (by norm_num)]; norm_num
  have h2' : Real.sqrt 2 < 3 / 2 := by rw [Real.sqrt_lt' (by norm_num)]; norm_num
  set lo := Real.arcsin (1005 / 1000 * Real.sqrt 2 / 2) with hlo
  have hsin : Real.sin lo = 1005 / 1000 * Real.sqrt 2 / 2 := Real.sin_arcsin (by linarith) (by linarith)
  obtain ⟨d, p', hd, hcol, row, hrow, hG, -⟩ := swollen_diffract lo (by rw [hsin]; linarith)
  have hx : ∀ h cell sg cif, ((xOf ((101 / 100 : ℝ) • sceneB)).sfBatch h cell sg cif).length = h.length := by intros; simp [xOf]
  obtain ⟨-, ⟨tt, G0, g1, g2, g3, g4, g5⟩, -, -⟩ := C04_diffract _ hx _ program_swollen _ _ _ _ _ _ demoBeam_new (by positivity) _ _ _ _ _
    demoZ_new norm_ez _ _ _ _ _ hd row hrow
  rw [hcol] at hG g2
  obtain rfl := hasV_unique g2 hG
  have hn : norm (⟨-3/5, 4/5, 1⟩ : V3) = Real.sqrt 2 := by unfold V3.norm; congr 1; norm_num [nsq, V3.dot]
  have hlt : tt / 2 < lo := by
    by_contra hc
    push Not at hc
    have := Real.sin_le_sin_of_le_of_le_pi_div_two (by have := (Real.arcsin_mem_Icc (1005 / 1000 * Real.sqrt 2 / 2)).1; linarith)
      (by linarith : tt / 2 ≤ Real.pi / 2) hc
    rw [hsin, g5, hn] at this
    have e : Real.sqrt 2 * (2 * Real.pi) / (4 * Real.pi) = Real.sqrt 2 / 2 := by field_simp; norm_num
    rw [e] at this
    linarith
  refine ⟨_, demoBeam, demoZ, swollenPoly, p', lo, Real.pi / 2, d, row, tt, ?_, program_swollen, ?_, ?_, Real.arcsin_nonneg.mpr (by positivity),
    Real.arcsin_lt_pi_div_two.mpr (by linarith), le_refl _, hd, hrow, g1, hlt⟩
  · intro cell lo hi sg h hh
    simp only [xOf] at hh ⊢
    split_ifs at hh with hc
    · simp only [List.mem_singleton] at hh
      subst hh
      simpa using hc
    · simp at hh
  · intro U hU
    have : U ∈ ([1] : List M3) := hU
    rw [List.mem_singleton] at this; subst this; exact M3.isRot_one
  · intro s hs
    have : s ∈ [swollen] := hs
    rw [List.mem_singleton] at this; subst this; exact swollen_feasible

end XRD
