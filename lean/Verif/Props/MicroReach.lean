import Verif.Props.NanoReach

/-! Property C123 for `micro`. -/

namespace XRD.Spec
open XRD
/-- the largest distance, in pixels, at which a `micro` peak may light a pixel -/
noncomputable def microReach (D : Detector) : ℝ := max 3 (3 * Real.sqrt ((7 / 10) ^ 2 + D.sigma ^ 2) + 1) + 1 / 2
end XRD.Spec

namespace XRD
open V3 M3 Fl Spec
open scoped Classical

/-- C123 for `micro`: a pixel is dark in a frame if every hit of that frame arrives farther from it, in rows or in columns, than the reach: the light
depends on the width of the point spread only, not on the largest kernel radius. -/
theorem C123_micro_reach (D : Detector) (env : RenderEnv) (d : PeaksDict) (hcol : d.columns = peakColumns) (hlen : ∀ r ∈ d.peaks, r.length = 25)
    (mesh : TetraMesh) (frames : ℤ) (ml : Option ℝ) (mi : ℝ) (f i j : ℕ) :
    ∃ t out, D.render env d mesh frames .micro ml mi = .ok (some t, out) ∧
      ((∀ r ∈ out.peaks, val out.columns r "frame" = (f : ℝ) →
        microReach D < |val out.columns r "zd" / D.pz - i| ∨ microReach D < |val out.columns r "yd" / D.py - j|) → t f i j = 0) := by
  refine ⟨_, _, render_micro_ok hlen, ?_⟩
  have hc : (D.peaksIntersection d (max frames 1)).columns = hitColumns := by show d.columns ++ _ = _; rw [hcol]; rfl
  rw [hc]
  intro hfar
  unfold stackOf
  apply List.sum_eq_zero
  intro y hy
  obtain ⟨e, he, rfl⟩ := List.mem_map.mp hy
  rw [List.mem_filter] at he
  obtain ⟨he, ht⟩ := he
  simp only [decide_eq_true_eq] at ht
  obtain ⟨r, hr, he⟩ := List.mem_flatMap.mp he
  obtain ⟨q, hq, -, ⟨k, hk, h0, h1⟩, -⟩ := hitRows (by omega : 1 ≤ max frames 1) hlen r hr
  obtain ⟨-, ht', z0, y0, n1, n2⟩ := microDeposits_spec (n := (max frames 1).toNat) hk h0 (by omega) he
  rw [ht', Option.some.injEq] at ht
  simp only [Prod.mk.injEq] at ht
  obtain ⟨e1, e2, e3⟩ := ht
  have hR := microRadius_le D
  have c2 : (e.z : ℝ) = i := by
    have : e.z = (i : ℤ) := by omega
    rw [this]; simp
  have c3 : (e.y : ℝ) = j := by
    have : e.y = (j : ℤ) := by omega
    rw [this]; simp
  have hf : val hitColumns r "frame" = (f : ℝ) := by
    rw [rcol_eq _ "frame" (j := 28) rfl, hk]
    have : k = (f : ℤ) := by omega
    rw [this]; simp
  have := hfar r hr hf
  rw [rcol_eq _ "zd" (j := 25) rfl, rcol_eq _ "yd" (j := 26) rfl] at this
  unfold microReach at this
  rw [c2, abs_sub_comm] at n1
  rw [c3, abs_sub_comm] at n2
  rcases this with g | g <;> linarith

/-- a case: with a point spread of one pixel the light of a peak at (10, 10) stays within seven pixels -/
example (env : RenderEnv) (mesh : TetraMesh) : ∃ t out, out.peaks.length = 1 ∧
    (imgDet 1 1 (1/10)).render env (imgDict [imgRow 0 (-90) (-90) (1/2) 1 0]) mesh 1 .micro none 1 = .ok (some t, out) ∧ t 0 17 10 = 0 := by
  have hh : ((imgDet 1 1 (1/10)).peaksIntersection (imgDict [imgRow 0 (-90) (-90) (1/2) 1 0]) (max 1 1)).peaks =
      [imgHit 1 0 (-90) (-90) (1/2) 1 0] := by
    rw [show max (1:ℤ) 1 = 1 from rfl, imgDict_kept 1 1 _ 1 0 (-90) (-90) (1/2) 1 0 (by norm_num [abs_le]) (by norm_num [abs_le]) _ (by simp)]
    rfl
  have hlen : ∀ r ∈ (imgDict [imgRow 0 (-90) (-90) (1/2) 1 0]).peaks, r.length = 25 := by
    intro r hr
    have : r = imgRow 0 (-90) (-90) (1/2) 1 0 := by simpa [imgDict] using hr
    rw [this]; rfl
  obtain ⟨t, out, ht, hd⟩ := C123_micro_reach (imgDet 1 1 (1/10)) env (imgDict [imgRow 0 (-90) (-90) (1/2) 1 0]) rfl hlen mesh 1 none 1 0 17 10
  have ho : out = (imgDet 1 1 (1/10)).peaksIntersection (imgDict [imgRow 0 (-90) (-90) (1/2) 1 0]) (max 1 1) := by
    rw [render_micro_ok hlen] at ht
    exact (Prod.mk.inj (Except.ok.inj ht)).2.symm
  refine ⟨t, out, by rw [ho, hh]; rfl, ht, hd ?_⟩
  intro r hr _
  rw [ho, hh, List.mem_singleton] at hr
  subst hr
  left
  have e : val out.columns (imgHit 1 0 (-90) (-90) (1/2) 1 0) "zd" = -90 + 100 := by
    rw [show out.columns = hitColumns by rw [ho]; rfl, rcol_eq _ "zd" (j := 25) rfl]; rfl
  have hp : (imgDet 1 1 (1/10)).pz = 1 := rfl
  have hs : (imgDet 1 1 (1/10)).sigma = 1 := rfl
  rw [e, hp]
  unfold microReach
  rw [hs]
  have hsq : Real.sqrt ((7 / 10) ^ 2 + (1:ℝ) ^ 2) < 4 / 3 := by rw [Real.sqrt_lt' (by norm_num)]; norm_num
  have : max 3 (3 * Real.sqrt ((7 / 10) ^ 2 + (1:ℝ) ^ 2) + 1) ≤ 5 := max_le (by norm_num) (by linarith)
  have e2 : |(-90 + 100) / (1:ℝ) - ((17:ℕ):ℝ)| = 7 := by norm_num [abs_of_neg]
  rw [e2]
  linarith

end XRD
