import Verif.SpecHull
import Verif.Lemmas.Macro2
import Verif.Props.Auto
import Verif.Props.Mesh2

/-! Property C35: total intensity of macro rendering. -/

namespace XRD
open V3 M3 Fl Spec
open scoped Classical

/-- `vs` are the corners of the element the peak `r` comes from, moved to the time of the peak -/
def Spec.IsMoved (d : PeaksDict) (mesh : TetraMesh) (cols : List String) (r : List Fl) (vs : List V3) : Prop :=
  ∃ (g : ℕ) (t : Tet), val cols r "grain_index" = g ∧ (elements mesh.coord mesh.enod)[g]? = some t ∧
    vs = [t.a, t.b, t.c, t.d].map fun p => d.motion.call1 p (val cols r "diffraction_times")

/-- direction of a scattered beam -/
noncomputable def Spec.kOut (cols : List String) (r : List Fl) : V3 := ⟨val cols r "K_out_x", val cols r "K_out_y", val cols r "K_out_z"⟩

theorem movedVertices_of {d : PeaksDict} {mesh : TetraMesh} {r : List Fl} {vs : List V3} (h : IsMoved d mesh hitColumns r vs) :
    Detector.movedVertices mesh d.motion r = vs := by
  obtain ⟨g, t, h1, h2, rfl⟩ := h
  have e1 : val hitColumns r "grain_index" = rcol r 0 := rcol_eq r _ (by decide)
  have e2 : val hitColumns r "diffraction_times" = rcol r 6 := rcol_eq r _ (by decide)
  rw [e1] at h1
  unfold Detector.movedVertices
  rw [h1, Int.floor_natCast, Int.toNat_natCast, e2]
  unfold elements at h2
  rw [List.getElem?_map] at h2
  cases he : mesh.enod[g]? with
  | none => rw [he] at h2; cases h2
  | some e =>
    rw [he] at h2
    simp only [Option.map_some, Option.some.injEq] at h2
    rw [List.getD_eq_getElem?_getD, he, ← h2]
    rfl

theorem kOut_eq (r : List Fl) : kOut hitColumns r = ⟨rcol r 13, rcol r 14, rcol r 15⟩ := by
  unfold kOut
  rw [rcol_eq r "K_out_x" (j := 13) (by decide), rcol_eq r "K_out_y" (j := 14) (by decide), rcol_eq r "K_out_z" (j := 15) (by decide)]

theorem power_eq (rows : List (List Fl)) : power hitColumns rows = (rows.map fun r => rcol r 29 * rcol r 21).sum := by
  unfold power
  apply congrArg
  apply List.map_congr_left
  intro r _
  rw [rcol_eq r "intensity_factors" (j := 29) (by decide), rcol_eq r "volumes" (j := 21) (by decide)]

/-- C35, up to the area of a pixel: when the illuminated parts of all hits project well inside the detector, each frame contains
the sum over its peaks of `intensity × illuminated volume`, multiplied by the area of a pixel.  Missing: the factor should not
be there, see `C35_pixel_area_fails`. -/
theorem C35_macro_total_partial (D : Detector) (hz : 0 < D.pz) (hy : 0 < D.py) (hs : 0 < D.sigma) (hm : 0 ≤ D.maxRadius)
    (env : RenderEnv) (d : PeaksDict) (hcol : d.columns = peakColumns) (hlen : ∀ r ∈ d.peaks, r.length = 25) (mesh : TetraMesh)
    (frames : ℤ) (ml : Option ℝ) (mi : ℝ) (t : Stack) (out : PeaksDict)
    (hr : D.render env d mesh frames .macro ml mi = .ok (some t, out)) (B : ℕ) (hB : D.maxRadius ≤ B) (V : List Fl → ℝ)
    (hV : ∀ r ∈ out.peaks, ∃ vs H, IsMoved d mesh out.columns r vs ∧ env.hull d.beam vs = some H ∧ H.volume = V r ∧
      ProjectsInside D H.points (kOut out.columns r) B) :
    ∀ f < (max frames 1).toNat, total2 D.nz D.ny (t f) = D.pz * D.py *
      ((out.peaks.filter fun r => val out.columns r "frame" = (f : ℝ)).map fun r => val out.columns r "intensity_factors" * V r).sum := by
  intro f hf
  rw [render_macro] at hr
  set n := max frames 1 with hn
  have hn1 : 1 ≤ n := le_max_right _ _
  have hfr : ∀ r ∈ (D.peaksIntersection d n).peaks, ∃ k : ℕ, rcol r 28 = k ∧ k < n.toNat := by
    intro r hr
    obtain ⟨q, -, -, ⟨k, hk, h0, h1⟩, -⟩ := hitRows hn1 hlen r hr
    refine ⟨k.toNat, ?_, by omega⟩
    rw [hk]; exact_mod_cast (Int.toNat_of_nonneg h0).symm
  rw [renderMacro_eq hfr] at hr
  by_cases h1 : ∃ r ∈ (D.peaksIntersection d n).peaks, macroAdd D env d.beam mesh d.motion r = .error .indexError
  · rw [if_pos h1] at hr; cases hr
  by_cases h2 : ∃ r ∈ (D.peaksIntersection d n).peaks, macroAdd D env d.beam mesh d.motion r = .ok none
  · rw [if_neg h1, if_pos h2] at hr; cases hr
  rw [if_neg h1, if_neg h2] at hr
  simp only [Except.map, Except.ok.injEq, Prod.mk.injEq, Option.some.injEq] at hr
  obtain ⟨rfl, rfl⟩ := hr
  have hc : (D.peaksIntersection d n).columns = hitColumns := by show d.columns ++ _ = _; rw [hcol]; rfl
  rw [hc] at hV ⊢
  simp only [if_pos hf]
  have hframe : ∀ r : List Fl, val hitColumns r "frame" = rcol r 28 := fun r => rcol_eq r _ (by decide)
  have hint : ∀ r : List Fl, val hitColumns r "intensity_factors" = rcol r 29 := fun r => rcol_eq r _ (by decide)
  simp only [hframe, hint]
  set L := (D.peaksIntersection d n).peaks with hL
  have key : ∀ r ∈ L, (∀ i j, macroVal D env d.beam mesh d.motion r i j ≠ 0 → B ≤ i ∧ i + B < D.nz ∧ B ≤ j ∧ j + B < D.ny) ∧
      total2 D.nz D.ny (macroVal D env d.beam mesh d.motion r) = D.pz * D.py * (rcol r 29 * V r) := by
    intro r hr
    obtain ⟨vs, H, hmv, hH, hvol, hin⟩ := hV r hr
    rw [kOut_eq] at hin
    obtain ⟨a, m, c, q, hb, hm1, hq1, i1, i2, i3, i4⟩ := inside_box hz hy hin
    have hok : ∃ g, macroAdd D env d.beam mesh d.motion r = .ok (some g) := by
      cases hg : macroAdd D env d.beam mesh d.motion r with
      | error e =>
        have := macroAdd_error hg
        subst this
        exact absurd ⟨r, hr, hg⟩ h1
      | ok v =>
        cases v with
        | none => exact absurd ⟨r, hr, hg⟩ h2
        | some g => exact ⟨g, rfl⟩
    obtain ⟨g, hg⟩ := hok
    rw [← movedVertices_of hmv] at hH
    obtain ⟨p1, p2⟩ := macroVal_total hH hb hm1 hq1 (by omega) (by omega) hg
    refine ⟨?_, by rw [p2, hvol]⟩
    intro i j hne
    obtain ⟨b1, b2, b3, b4⟩ := p1 i j hne
    omega
  obtain ⟨rad, k1, k2, -, -, -, k3, -⟩ := C28_point_spread_kernel D hs hm
  have hktot : D.gaussKernel.total = 1 := by unfold Kernel.total; rw [k1]; exact k3
  have hinside : ∀ i j, (((L.filter fun r => rcol r 28 = (f : ℝ)).map fun r => macroVal D env d.beam mesh d.motion r i j).sum) ≠ 0 →
      rad ≤ i ∧ i + rad < D.nz ∧ rad ≤ j ∧ j + rad < D.ny := by
    intro i j hne
    by_contra hc'
    apply hne
    apply List.sum_eq_zero
    intro x hx
    obtain ⟨r, hr, rfl⟩ := List.mem_map.mp hx
    by_contra hx0
    obtain ⟨b1, b2, b3, b4⟩ := (key r (List.mem_filter.mp hr).1).1 i j hx0
    apply hc'
    omega
  rw [total2_conv_inside k1 hktot hinside, total2_list_sum]
  rw [List.map_congr_left (g := fun r => D.pz * D.py * (rcol r 29 * V r)) (fun r hr => (key r (List.mem_filter.mp hr).1).2)]
  rw [List.sum_map_mul_left]

/-- The same in terms of the table: elements entirely inside the beam, whose volume is recorded in the table. -/
theorem C35_macro_total_full_elements_partial (D : Detector) (hz : 0 < D.pz) (hy : 0 < D.py) (hs : 0 < D.sigma) (hm : 0 ≤ D.maxRadius)
    (env : RenderEnv) (hhull : BeamHull env.hull) (d : PeaksDict) (hcol : d.columns = peakColumns) (hlen : ∀ r ∈ d.peaks, r.length = 25)
    (hax : norm d.motion.axis = 1) (mesh : TetraMesh)
    (frames : ℤ) (ml : Option ℝ) (mi : ℝ) (t : Stack) (out : PeaksDict)
    (hr : D.render env d mesh frames .macro ml mi = .ok (some t, out)) (B : ℕ) (hB : D.maxRadius ≤ B)
    (hV : ∀ r ∈ out.peaks, ∃ g e vs, val out.columns r "grain_index" = (g : ℕ) ∧ (elements mesh.coord mesh.enod)[g]? = some e ∧
      vs = ([e.a, e.b, e.c, e.d].map fun p => d.motion.call1 p (val out.columns r "diffraction_times")) ∧
      val out.columns r "volumes" = tetVolume e ∧ 0 < tetVolume e ∧ (∀ v ∈ vs, d.beam.contains v) ∧
      ProjectsInside D vs (kOut out.columns r) B) :
    ∀ f < (max frames 1).toNat, total2 D.nz D.ny (t f) = D.pz * D.py *
      power out.columns (out.peaks.filter fun r => val out.columns r "frame" = (f : ℝ)) := by
  have hrig : ∀ (t : ℝ), RigidMap fun p => d.motion.call1 p t := by
    intro t
    obtain ⟨ho, -, hd⟩ := rotMat_isRot (norm_eq_one.mp hax) (d.motion.angle * t)
    constructor
    · intro p q
      unfold V3.dist
      rw [call1_sub, V3.norm_eq_iff, IsRot.nsq_mulVec ho]
    · intro p x y z
      simp only [call1_sub]
      have key : ∀ (M : M3) (u v s : V3),
          dot (cross (M.mulVec u) (M.mulVec v)) (M.mulVec s) = M.det * dot (cross u v) s := by
        intro M u v s
        simp only [mulVec, V3.dot, cross, det]; ring
      rw [key, hd, _root_.one_mul]
  intro f hf
  unfold power
  refine C35_macro_total_partial D hz hy hs hm env d hcol hlen mesh frames ml mi t out hr B hB (fun r => val out.columns r "volumes") ?_ f hf
  intro r hr'
  obtain ⟨g, e, vs, h1, h2, h3, h4, h5, h6, h7⟩ := hV r hr'
  set τ := val out.columns r "diffraction_times" with hτ
  have hvol : |dot (cross (d.motion.call1 e.b τ - d.motion.call1 e.a τ) (d.motion.call1 e.c τ - d.motion.call1 e.a τ)) (d.motion.call1 e.d τ - d.motion.call1 e.a τ)| / 6 = tetVolume e := by
    have := C15_volume_rigid_invariant _ (hrig τ) e.a e.b e.c e.d
    rw [show (⟨e.a, e.b, e.c, e.d⟩ : Tet) = e from rfl] at this
    rw [← this, tetVolume_eq]
    unfold signedVolume
    simp only
    rw [abs_mul, abs_of_pos (show (0:ℝ) < 1 / 6 by norm_num)]
    ring
  have hsolid : Solid vs := by
    refine ⟨d.motion.call1 e.a τ, by rw [h3]; simp, d.motion.call1 e.b τ, by rw [h3]; simp, d.motion.call1 e.c τ, by rw [h3]; simp,
      d.motion.call1 e.d τ, by rw [h3]; simp, ?_⟩
    intro h0
    rw [h0] at hvol
    simp at hvol
    linarith
  obtain ⟨H, hH, hi⟩ := hhull d.beam vs (by rw [h3]; rfl) h6 hsolid
  refine ⟨vs, H, ⟨g, e, h1, h2, h3⟩, hH, ?_, ?_⟩
  · rw [hi.volume _ _ _ _ h3, hvol, h4]
  · rw [hi.points]; exact h7

end XRD
