import Verif.Props.MicroReach
import Verif.Props.Exact2
import Verif.Props.FirstFrames3

/-! Property C123 for `auto`. -/

namespace XRD
open V3 M3 Fl Spec
open scoped Classical

/-- C123 for `auto`: let a pixel be farther from every hit of the frame with a volume below the micro limit than the reach of `nano`, and farther
from every hit between the limits than the reach of `micro`.  Then it shows exactly what the macro image of the large elements shows. -/
theorem C123_auto_reach (D : Detector) (hs : 0 < D.sigma) (hm : 0 ≤ D.maxRadius) (env : RenderEnv) (ha : IsArgsort env.argsortDesc)
    (d : PeaksDict) (hcol : d.columns = peakColumns) (hlen : ∀ r ∈ d.peaks, r.length = 25) (mesh : TetraMesh) (frames : ℤ) (ml : Option ℝ) (mi : ℝ)
    (t : Stack) (out : PeaksDict) (h : D.render env d mesh frames .auto ml mi = .ok (some t, out)) :
    ∃ tma o1, D.render env (withVolume d fun v => macroLimit D ml ≤ v) mesh frames .macro ml mi = .ok (some tma, o1) ∧
      ∀ f i j : ℕ,
        (∀ r ∈ out.peaks, val out.columns r "frame" = (f : ℝ) → val out.columns r "volumes" < mi →
          nanoReach D < |val out.columns r "zd" / D.pz - i| ∨ nanoReach D < |val out.columns r "yd" / D.py - j|) →
        (∀ r ∈ out.peaks, val out.columns r "frame" = (f : ℝ) → mi ≤ val out.columns r "volumes" → val out.columns r "volumes" < macroLimit D ml →
          microReach D < |val out.columns r "zd" / D.pz - i| ∨ microReach D < |val out.columns r "yd" / D.py - j|) →
        t f i j = tma f i j := by
  obtain ⟨tma, tmi, tna, o1, o2, o3, h1, h2, h3, ht, ho⟩ := (C24_groups D env d hcol hlen mesh frames ml mi).1 (some t) out |>.1 h
  cases tma with
  | none => cases ht
  | some tma =>
    simp only [Option.map_some, Option.some.injEq] at ht
    refine ⟨tma, o1, h1, ?_⟩
    intro f i j hn hmi
    have hc : out.columns = hitColumns := by rw [ho]; show d.columns ++ _ = _; rw [hcol]; rfl
    rw [hc] at hn hmi
    have hl : ∀ p : ℝ → Prop, ∀ r ∈ (withVolume d p).peaks, r.length = 25 := fun p r hr => hlen r (List.mem_filter.mp hr).1
    have hhits : ∀ p : ℝ → Prop, ∀ r ∈ (D.peaksIntersection (withVolume d p) (max frames 1)).peaks, r ∈ out.peaks ∧ p (val hitColumns r "volumes") := by
      intro p r hr
      rw [hits_withVolume D hcol _ hlen, List.mem_filter] at hr
      rw [ho, rcol_eq _ "volumes" (j := 21) rfl]
      exact ⟨hr.1, by simpa using hr.2⟩
    have z1 : tmi f i j = 0 := by
      obtain ⟨t', out', ht', hd'⟩ := C123_micro_reach D env (withVolume d fun v => mi ≤ v ∧ v < macroLimit D ml) hcol (hl _) mesh frames ml mi f i j
      have e : (some tmi, o2) = (some t', out') := Except.ok.inj (h2.symm.trans ht')
      obtain ⟨e1, e2⟩ := Prod.mk.inj e
      cases e1
      apply hd'
      intro r hr hf
      have ho2 : out' = D.peaksIntersection (withVolume d fun v => mi ≤ v ∧ v < macroLimit D ml) (max frames 1) := by
        rw [render_micro_ok (hl _)] at ht'
        exact (Prod.mk.inj (Except.ok.inj ht')).2.symm
      have hc' : out'.columns = hitColumns := by rw [ho2]; show d.columns ++ _ = _; rw [hcol]; rfl
      rw [hc'] at hf ⊢
      rw [ho2] at hr
      obtain ⟨g1, g2, g3⟩ := hhits _ r hr
      exact hmi r g1 hf g2 g3
    have z2 : tna f i j = 0 := by
      have ho3 : o3 = D.peaksIntersection (withVolume d fun v => v < mi) (max frames 1) := by
        have h3' := h3
        rw [render_nano] at h3'
        cases hr : D.renderNano env (D.peaksIntersection (withVolume d fun v => v < mi) (max frames 1)).peaks (max frames 1).toNat with
        | error e => rw [hr] at h3'; cases h3'
        | ok a => rw [hr] at h3'; exact (Prod.mk.inj (Except.ok.inj h3')).2.symm
      apply C123_nano_reach D hs hm env ha (withVolume d fun v => v < mi) hcol mesh frames ml mi tna o3 h3
      intro r hr hf
      have hc' : o3.columns = hitColumns := by rw [ho3]; show d.columns ++ _ = _; rw [hcol]; rfl
      rw [hc'] at hf ⊢
      rw [ho3] at hr
      obtain ⟨g1, g2⟩ := hhits _ r hr
      exact hn r g1 hf g2
    rw [ht]
    simp only [z1, z2, _root_.add_zero]

/-- a case: the peak arrives at (10, 10); whatever its volume, pixel (199, 199) is out of its reach -/
example (j1 : ℝ → ℝ) (s : List ℝ → List ℕ) (hs : IsArgsort s) (hull : Beam → List V3 → Option Hull) (sample : Hull → ℕ → List V3)
    (mesh : TetraMesh) : ∃ ml mi t out tma o1,
      out.peaks = [imgHit 1 1 (-90) (-90) (1/2) 1 (widthFor (1/10))] ∧
      nanoDet.render ⟨j1, s, 1, hull, sample⟩ (imgDict [imgRow 1 (-90) (-90) (1/2) 1 (widthFor (1/10))]) mesh 1 .auto (some ml) mi = .ok (some t, out) ∧
      nanoDet.render ⟨j1, s, 1, hull, sample⟩ (withVolume (imgDict [imgRow 1 (-90) (-90) (1/2) 1 (widthFor (1/10))]) fun v => macroLimit nanoDet (some ml) ≤ v)
        mesh 1 .macro (some ml) mi = .ok (some tma, o1) ∧ t 0 199 199 = tma 0 199 199 := by
  have hh : (nanoDet.peaksIntersection (imgDict [imgRow 1 (-90) (-90) (1/2) 1 (widthFor (1/10))]) 1).peaks =
      [imgHit 1 1 (-90) (-90) (1/2) 1 (widthFor (1/10))] := by
    unfold nanoDet
    rw [imgDict_kept 1 1 _ 1 1 (-90) (-90) (1/2) 1 (widthFor (1/10)) (by norm_num [abs_le]) (by norm_num [abs_le]) _ (by simp)]
    rfl
  have hlen : ∀ r ∈ (imgDict [imgRow 1 (-90) (-90) (1/2) 1 (widthFor (1/10))]).peaks, r.length = 25 := by
    intro r hr
    have : r = imgRow 1 (-90) (-90) (1/2) 1 (widthFor (1/10)) := by simpa [imgDict] using hr
    rw [this]; rfl
  obtain ⟨ml, mi, hb⟩ := auto_between (imgDict [imgRow 1 (-90) (-90) (1/2) 1 (widthFor (1/10))]) rfl hlen nanoDet ⟨j1, s, 1, hull, sample⟩ mesh
  obtain ⟨-, t, out, ht⟩ := hb 1
  rw [Nat.cast_one] at ht
  obtain ⟨tma, o1, hma, hd⟩ := C123_auto_reach nanoDet nanoDet_sigma nanoDet_max ⟨j1, s, 1, hull, sample⟩ hs _ rfl hlen mesh 1 (some ml) mi t out ht
  have ho : out = nanoDet.peaksIntersection (imgDict [imgRow 1 (-90) (-90) (1/2) 1 (widthFor (1/10))]) 1 := by
    obtain ⟨-, -, -, -, -, -, -, -, -, -, e⟩ := (C24_groups nanoDet _ _ rfl hlen mesh 1 (some ml) mi).1 (some t) out |>.1 ht
    exact e
  have e : val out.columns (imgHit 1 1 (-90) (-90) (1/2) 1 (widthFor (1/10))) "zd" = -90 + 100 := by
    rw [show out.columns = hitColumns by rw [ho]; rfl, rcol_eq _ "zd" (j := 25) rfl]; rfl
  have hp : nanoDet.pz = 1 := rfl
  have hm : nanoDet.maxRadius = 13 := rfl
  have hsg : nanoDet.sigma = 1 := rfl
  have e2 : |(-90 + 100) / (1:ℝ) - ((199:ℕ):ℝ)| = 189 := by norm_num [abs_of_neg]
  refine ⟨ml, mi, t, out, tma, o1, by rw [ho, hh], ht, hma, hd 0 199 199 ?_ ?_⟩
  · intro r hr _ _
    rw [ho, hh, List.mem_singleton] at hr
    subst hr
    left
    rw [e, hp, e2]
    unfold nanoReach
    rw [hm]; norm_num
  · intro r hr _ _ _
    rw [ho, hh, List.mem_singleton] at hr
    subst hr
    left
    rw [e, hp, e2]
    unfold microReach
    rw [hsg]
    have hsq : Real.sqrt ((7 / 10) ^ 2 + (1:ℝ) ^ 2) < 4 / 3 := by rw [Real.sqrt_lt' (by norm_num)]; norm_num
    have : max 3 (3 * Real.sqrt ((7 / 10) ^ 2 + (1:ℝ) ^ 2) + 1) ≤ 5 := max_le (by norm_num) (by linarith)
    linarith

end XRD
