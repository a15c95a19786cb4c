import Verif.Props.AutoReach
import Verif.Props.MacroError
import Verif.Props.MacroScene

/-! Property C123 for `macro`. -/

namespace XRD
open V3 M3 Fl Spec
open scoped Classical

theorem macroVal_box {D : Detector} (hpz : 0 < D.pz) (hpy : 0 < D.py) {env : RenderEnv} {d : PeaksDict} {mesh : TetraMesh} {r : List Fl} {vs : List V3}
    (hmv : IsMoved d mesh hitColumns r vs) {i j : ℕ} (hne : macroVal D env d.beam mesh d.motion r i j ≠ 0) :
    ∃ H, ∃ r0 r1 q0 q1 : ℤ, env.hull d.beam vs = some H ∧ IsCutBox D H.points (kOut hitColumns r) r0 r1 q0 q1 ∧
      r0 ≤ i ∧ i < r1 ∧ q0 ≤ j ∧ j < q1 := by
  unfold macroVal macroAdd Detector.macroPeak at hne
  rw [movedVertices_of hmv] at hne
  cases hh : env.hull d.beam vs with
  | none => rw [hh] at hne; exact absurd rfl hne
  | some H =>
    rw [hh] at hne
    simp only at hne
    rw [← kOut_eq] at hne
    cases hb : D.boundingBox H.points (kOut hitColumns r) with
    | none => rw [hb] at hne; exact absurd rfl hne
    | some box =>
      obtain ⟨r0, r1, q0, q1⟩ := box
      rw [hb] at hne
      simp only at hne
      refine ⟨H, r0, r1, q0, q1, rfl, (boundingBox_iff hpz hpy _ _ _ _ _ _).1 hb, ?_⟩
      cases hp : D.projectHull env H (kOut hitColumns r) (r0, r1, q0, q1) with
      | error e => rw [hp] at hne; exact absurd rfl hne
      | ok x =>
        rw [hp] at hne
        cases x with
        | none => exact absurd rfl hne
        | some pr =>
          simp only at hne
          split_ifs at hne with hin
          · exact hin
          · exact absurd rfl hne

/-- C123 for `macro`: a pixel is dark in a frame if it is more than the largest kernel radius above, below, left or right of the pixel rectangle
around the projection of the illuminated part of the element of every hit of that frame. -/
theorem C123_macro_reach (D : Detector) (hs : 0 < D.sigma) (hm : 0 ≤ D.maxRadius) (hpz : 0 < D.pz) (hpy : 0 < D.py) (env : RenderEnv)
    (d : PeaksDict) (hcol : d.columns = peakColumns) (hlen : ∀ r ∈ d.peaks, r.length = 25) (mesh : TetraMesh) (frames : ℤ) (ml : Option ℝ) (mi : ℝ)
    (hmoved : ∀ r ∈ (D.peaksIntersection d (max frames 1)).peaks, ∃ vs, IsMoved d mesh (D.peaksIntersection d (max frames 1)).columns r vs)
    (t : Stack) (out : PeaksDict) (h : D.render env d mesh frames .macro ml mi = .ok (some t, out)) (f i j : ℕ)
    (hfar : ∀ r ∈ out.peaks, val out.columns r "frame" = (f : ℝ) → ∀ vs H, ∀ r0 r1 q0 q1 : ℤ, IsMoved d mesh out.columns r vs →
      env.hull d.beam vs = some H → IsCutBox D H.points (kOut out.columns r) r0 r1 q0 q1 →
      (i : ℤ) < r0 - D.maxRadius ∨ r1 + D.maxRadius ≤ i ∨ (j : ℤ) < q0 - D.maxRadius ∨ q1 + D.maxRadius ≤ j) :
    t f i j = 0 := by
  rw [render_macro] at h
  set n := max frames 1 with hn
  have hn1 : 1 ≤ n := le_max_right _ _
  have hfr : ∀ r ∈ (D.peaksIntersection d n).peaks, ∃ k : ℕ, rcol r 28 = k ∧ k < n.toNat := by
    intro r hr
    obtain ⟨q, -, -, ⟨k, hk, h0, h1⟩, -⟩ := hitRows hn1 hlen r hr
    refine ⟨k.toNat, ?_, by omega⟩
    rw [hk]; exact_mod_cast (Int.toNat_of_nonneg h0).symm
  rw [renderMacro_eq hfr] at h
  split_ifs at h with h1 h2
  · cases h
  · cases h
  have h' := Except.ok.inj h
  simp only [Prod.mk.injEq, Option.some.injEq] at h'
  obtain ⟨ht, ho⟩ := h'
  have hc : out.columns = hitColumns := by rw [← ho]; show d.columns ++ _ = _; rw [hcol]; rfl
  rw [ho] at hmoved
  rw [hc] at hfar hmoved
  obtain ⟨rr, hr1, hr2, -⟩ := C28_point_spread_kernel D hs hm
  rw [← ht]
  beta_reduce
  split_ifs with hf
  · apply conv2d_dark hr1
    intro i' j' hi hj
    apply List.sum_eq_zero
    intro y hy
    obtain ⟨r, hr, rfl⟩ := List.mem_map.mp hy
    rw [List.mem_filter] at hr
    obtain ⟨hr, hrf⟩ := hr
    rw [ho] at hr
    by_contra hne
    obtain ⟨vs, hmv⟩ := hmoved r hr
    obtain ⟨H, r0, r1, q0, q1, g1, g2, g3, g4, g5, g6⟩ := macroVal_box hpz hpy hmv hne
    have hfv : val hitColumns r "frame" = (f : ℝ) := by rw [rcol_eq _ "frame" (j := 28) rfl]; simpa using hrf
    have hi' : |((i' : ℤ) - i : ℤ)| ≤ (rr : ℤ) := by exact_mod_cast hi
    have hj' : |((j' : ℤ) - j : ℤ)| ≤ (rr : ℤ) := by exact_mod_cast hj
    rw [abs_le] at hi' hj'
    rcases hfar r hr hfv vs H r0 r1 q0 q1 hmv g1 g2 with q | q | q | q <;> omega
  · rfl

/-- the needle: one pixel, (200, 200), is hit; the theorem makes pixel (0, 0) of frame 0 dark -/
example (env : RenderEnv) (hh : BeamHull env.hull) (mi : ℝ) (ml : Option ℝ) :
    ∃ t out, (imgDet (1 / (2:ℕ)) 1 (1/10)).render env (imgDict [needleRow]) (oneTet needle) 1 .macro ml mi = .ok (some t, out) ∧
      out.peaks.length = 1 ∧ t 0 0 0 = 0 := by
  obtain ⟨t, out, h1, h2, -⟩ := needle_macro env hh 2 (Or.inl rfl) mi ml
  set D := imgDet (1 / (2:ℕ)) 1 (1/10) with hD
  have hpk : out.peaks = [needleHit] := by rw [h2, hD, needle_hits]
  have hcol : out.columns = hitColumns := by rw [h2]; rfl
  have hp : (0:ℝ) < 1 / (2:ℕ) := by norm_num
  have hm := oneTet_moved needle [needleRow] 1 (3/200) (3/200) (16 / 10 ^ 5) 0
  refine ⟨t, out, h1, by rw [hpk]; rfl, ?_⟩
  refine C123_macro_reach D (by show (0:ℝ) < 1; norm_num) (by show (0:ℤ) ≤ 13; norm_num) hp hp env (imgDict [needleRow]) rfl needle_len
    (oneTet needle) 1 ml mi ?_ t out h1 0 0 0 ?_
  · rw [show max (1:ℤ) 1 = 1 from rfl, ← h2, hpk, hcol]
    intro r hr
    rw [List.mem_singleton] at hr
    subst hr
    exact ⟨_, hm⟩
  · rw [hpk, hcol]
    intro r hr _ vs H r0 r1 q0 q1 hmv hH hb
    rw [List.mem_singleton] at hr
    subst hr
    left
    have hvs : vs = [needle.a, needle.b, needle.c, needle.d] := by
      exact (movedVertices_of hmv).symm.trans (movedVertices_of hm)
    subst hvs
    have hsol : Solid [needle.a, needle.b, needle.c, needle.d] := by
      refine ⟨needle.a, by simp, needle.b, by simp, needle.c, by simp, needle.d, by simp, ?_⟩
      simp [needle, V3.cross, V3.dot]; norm_num
    obtain ⟨H', hH', hi⟩ := hh (imgDict [needleRow]).beam _ rfl (fun v hv => demoBeam_contains (needle_inside v hv).2.2.2.2.2) hsol
    rw [hH'] at hH
    have e := Option.some.inj hH
    subst e
    have hbox := (boundingBox_iff hp hp _ _ _ _ _ _).2 hb
    have hfrac : ∀ x : ℝ, 1/200 ≤ x → x ≤ 9/200 → ((200:ℕ):ℝ) ≤ (x + 100) / (1 / (2:ℕ)) ∧ (x + 100) / (1 / (2:ℕ)) < ((200:ℕ):ℝ) + 1 := by
      intro x a b
      have : (x + 100) / (1 / ((2:ℕ):ℝ)) = (x + 100) * 2 := by push_cast; field_simp
      rw [this]; push_cast
      constructor <;> linarith
    have hone : D.boundingBox H'.points (kOut hitColumns needleHit) = some (((200:ℕ):ℤ), ((200:ℕ):ℤ) + 1, ((200:ℕ):ℤ), ((200:ℕ):ℤ) + 1) := by
      rw [hi.points, needle_kOut]
      apply box_one hp hp (by simp)
      · show ((200:ℕ):ℝ) + 1 ≤ 200 / (1 / ((2:ℕ):ℝ)); push_cast; norm_num
      · show ((200:ℕ):ℝ) + 1 ≤ 200 / (1 / ((2:ℕ):ℝ)); push_cast; norm_num
      · intro v hv
        obtain ⟨x1, y1, y2, z1, z2, -⟩ := needle_inside v hv
        have e := imgDet_intersect' (1 / ((2:ℕ):ℝ)) 1 (1/10) x1
        refine ⟨v.z + 100, v.y + 100, ?_, ?_, (hfrac _ z1 z2).1, (hfrac _ z1 z2).2, (hfrac _ y1 y2).1, (hfrac _ y1 y2).2⟩
        · rw [hD, e]
        · rw [hD, e]
    change D.boundingBox H'.points _ = _ at hbox
    rw [hone] at hbox
    cases hbox
    show ((0:ℕ):ℤ) < ((200:ℕ):ℤ) - 13
    norm_num

end XRD
