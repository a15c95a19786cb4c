import Verif.Props.Nano2
import Verif.Lemmas.Macro

/-! Properties C24 (automatic choice of the method) and C27 (frames add up) for the `macro` and `auto` methods. -/

namespace XRD
open V3 M3 Fl Spec
open scoped Classical

/-- the dictionary restricted to the peaks whose volume satisfies `p` -/
noncomputable def Spec.withVolume (d : PeaksDict) (p : ℝ → Prop) : PeaksDict :=
  { d with peaks := d.peaks.filter fun r => p (val d.columns r "volumes") }

/-- the volume above which `auto` uses `macro`: the argument, or the cube of the smaller pixel side -/
noncomputable def Spec.macroLimit (D : Detector) (ml : Option ℝ) : ℝ := ml.getD (min D.py D.pz ^ 3)

theorem render_macro (D : Detector) (env : RenderEnv) (d : PeaksDict) (mesh : TetraMesh) (frames : ℤ) (ml : Option ℝ) (mi : ℝ) :
    D.render env d mesh frames .macro ml mi =
      (D.renderMacro env d.beam mesh d.motion (D.peaksIntersection d (max frames 1)).peaks (max frames 1).toNat).map
        fun t => (t, D.peaksIntersection d (max frames 1)) := by
  have : (if frames < 1 then 1 else frames) = max frames 1 := by split_ifs <;> omega
  unfold Detector.render
  simp only [this]

theorem val21 {d : PeaksDict} (hcol : d.columns = peakColumns) (r : List Fl) : val d.columns r "volumes" = rcol r 21 := by
  rw [hcol]; unfold val rcol; rfl

theorem rcol21_row30 (D : Detector) (n : ℤ) {q : List Fl} (hl : q.length = 25) : rcol (row30 D n q) 21 = rcol q 21 := by
  unfold rcol row30
  rw [List.append_assoc, List.append_assoc, List.getElem?_append_left (by omega)]

theorem filter_iff {α : Type} {p q : α → Prop} [DecidablePred p] [DecidablePred q] (l : List α) (h : ∀ a ∈ l, p a ↔ q a) :
    (l.filter fun a => p a) = l.filter fun a => q a := by
  apply List.filter_congr
  intro a ha
  rw [decide_eq_decide]
  exact h a ha

/-- intersecting the restricted table restricts the hits -/
theorem hits_withVolume (D : Detector) {d : PeaksDict} (hcol : d.columns = peakColumns) (n : ℤ) (hlen : ∀ r ∈ d.peaks, r.length = 25) (p : ℝ → Prop) :
    (D.peaksIntersection (withVolume d p) n).peaks = (D.peaksIntersection d n).peaks.filter fun r => p (rcol r 21) := by
  rw [peaksIntersection_rows D d n hlen, peaksIntersection_rows D (withVolume d p) n (fun r hr => hlen r (List.mem_filter.mp hr).1), List.filter_map]
  congr 1
  show (d.peaks.filter _).filter _ = _
  rw [List.filter_filter, List.filter_filter]
  apply List.filter_congr
  intro q hq
  simp only [Function.comp, rcol21_row30 D n (hlen q hq), val21 hcol]
  rw [Bool.and_comm]

/-- the automatic image is the sum of three images -/
theorem auto_split (D : Detector) (env : RenderEnv) (d : PeaksDict) (hcol : d.columns = peakColumns)
    (hlen : ∀ r ∈ d.peaks, r.length = 25) (mesh : TetraMesh) (frames : ℤ) (ml : Option ℝ) (mi : ℝ) :
    ∀ t out, D.render env d mesh frames .auto ml mi = .ok (t, out) ↔
      ∃ tma tmi tna o1 o2 o3,
        D.render env (withVolume d fun v => macroLimit D ml ≤ v) mesh frames .macro ml mi = .ok (tma, o1) ∧
        D.render env (withVolume d fun v => mi ≤ v ∧ v < macroLimit D ml) mesh frames .micro ml mi = .ok (some tmi, o2) ∧
        D.render env (withVolume d fun v => v < mi) mesh frames .nano ml mi = .ok (some tna, o3) ∧
        t = tma.map (fun tma f i j => tma f i j + tmi f i j + tna f i j) ∧ out = D.peaksIntersection d (max frames 1) := by
  intro t out
  have hn : (if frames < 1 then 1 else frames) = max frames 1 := by split_ifs <;> omega
  set P := (D.peaksIntersection d (max frames 1)).peaks with hP
  have h1 : (D.peaksIntersection (withVolume d fun v => macroLimit D ml ≤ v) (max frames 1)).peaks =
      P.filter fun r => rcol r 21 ≥ ml.getD (min D.py D.pz ^ 3) := by
    rw [hits_withVolume D hcol _ hlen]; rfl
  have h2 : (D.peaksIntersection (withVolume d fun v => mi ≤ v ∧ v < macroLimit D ml) (max frames 1)).peaks =
      P.filter fun r => ¬ (rcol r 21 ≥ ml.getD (min D.py D.pz ^ 3)) ∧ ¬ (rcol r 21 < mi) := by
    rw [hits_withVolume D hcol _ hlen]
    refine @filter_iff _ (fun r => mi ≤ rcol r 21 ∧ rcol r 21 < macroLimit D ml) _ (fun r => Classical.propDecidable _) _ P fun r _ => ?_
    rw [ge_iff_le, not_le, not_lt]
    exact and_comm
  have h3 : (D.peaksIntersection (withVolume d fun v => v < mi) (max frames 1)).peaks = P.filter fun r => rcol r 21 < mi := by
    rw [hits_withVolume D hcol _ hlen]
  rw [render_macro, render_micro, render_nano, h1, h2, h3]
  unfold Detector.render
  simp only [hn]
  rw [← hP]
  have hb : (withVolume d fun v => macroLimit D ml ≤ v).beam = d.beam := rfl
  have hm : (withVolume d fun v => macroLimit D ml ≤ v).motion = d.motion := rfl
  rw [hb, hm]
  generalize (P.filter fun r => rcol r 21 ≥ ml.getD (min D.py D.pz ^ 3)) = A
  generalize (P.filter fun r => ¬ (rcol r 21 ≥ ml.getD (min D.py D.pz ^ 3)) ∧ ¬ (rcol r 21 < mi)) = B
  generalize (P.filter fun r => rcol r 21 < mi) = C
  cases D.renderMacro env d.beam mesh d.motion A (max frames 1).toNat with
  | error e => simp [Except.map]
  | ok ma =>
    simp only
    cases D.renderMicro env.freeGb B (max frames 1).toNat with
    | error e => simp [Except.map]
    | ok m1 =>
      simp only
      cases D.renderNano env C (max frames 1).toNat with
      | error e => simp [Except.map]
      | ok n1 =>
        have ef : (ma.map fun ma => fun f i j => 0 + n1 f i j + ma f i j + m1 f i j) = ma.map fun tma f i j => tma f i j + m1 f i j + n1 f i j := by
          congr 1
          funext ma f i j
          ring
        simp only [Except.map, Except.ok.injEq, Prod.mk.injEq, ef, Option.some.injEq]
        constructor
        · rintro ⟨h1, h2⟩
          exact ⟨ma, m1, n1, _, _, _, ⟨rfl, rfl⟩, ⟨rfl, rfl⟩, ⟨rfl, rfl⟩, h1.symm, h2.symm⟩
        · rintro ⟨a, b, c, _, _, _, ⟨rfl, -⟩, ⟨rfl, -⟩, ⟨rfl, -⟩, h1, h2⟩
          exact ⟨h1.symm, h2.symm⟩

/-- C24, when the micro limit does not exceed the macro limit: the rows split into three groups by volume, each row belongs to
exactly one, and the automatic image is the sum of the `macro`, `micro` and `nano` images of the three groups.  Missing: a micro
limit above the macro limit, for which the claim is false (`C24_rendered_twice_fails`). -/
theorem C24_auto_one_method_per_peak_partial (D : Detector) (env : RenderEnv) (d : PeaksDict) (hcol : d.columns = peakColumns)
    (hlen : ∀ r ∈ d.peaks, r.length = 25) (mesh : TetraMesh) (frames : ℤ) (ml : Option ℝ) (mi : ℝ) (hlim : mi ≤ macroLimit D ml) :
    d.peaks.Perm ((withVolume d fun v => macroLimit D ml ≤ v).peaks ++ (withVolume d fun v => mi ≤ v ∧ v < macroLimit D ml).peaks ++
      (withVolume d fun v => v < mi).peaks) ∧
    ∀ t out, D.render env d mesh frames .auto ml mi = .ok (t, out) ↔
      ∃ tma tmi tna o1 o2 o3,
        D.render env (withVolume d fun v => macroLimit D ml ≤ v) mesh frames .macro ml mi = .ok (tma, o1) ∧
        D.render env (withVolume d fun v => mi ≤ v ∧ v < macroLimit D ml) mesh frames .micro ml mi = .ok (some tmi, o2) ∧
        D.render env (withVolume d fun v => v < mi) mesh frames .nano ml mi = .ok (some tna, o3) ∧
        t = tma.map (fun tma f i j => tma f i j + tmi f i j + tna f i j) ∧ out = D.peaksIntersection d (max frames 1) := by
  constructor
  · unfold withVolume
    simp only
    have h1 := List.filter_append_perm (fun r => decide (macroLimit D ml ≤ val d.columns r "volumes")) d.peaks
    have h2 := List.filter_append_perm (fun r => decide (mi ≤ val d.columns r "volumes"))
      (d.peaks.filter fun r => !decide (macroLimit D ml ≤ val d.columns r "volumes"))
    rw [List.filter_filter, List.filter_filter] at h2
    refine (h1.symm.trans ((h2.symm.append_left _).trans ?_))
    rw [List.append_assoc]
    apply List.Perm.append_left
    have e1 : (d.peaks.filter fun r => (decide (mi ≤ val d.columns r "volumes")) && !decide (macroLimit D ml ≤ val d.columns r "volumes")) =
        d.peaks.filter fun r => mi ≤ val d.columns r "volumes" ∧ val d.columns r "volumes" < macroLimit D ml := by
      apply List.filter_congr
      intro r _
      rw [Bool.eq_iff_iff]
      simp
    have e2 : (d.peaks.filter fun r => !(decide (mi ≤ val d.columns r "volumes")) && !decide (macroLimit D ml ≤ val d.columns r "volumes")) =
        d.peaks.filter fun r => val d.columns r "volumes" < mi := by
      apply List.filter_congr
      intro r _
      rw [Bool.eq_iff_iff]
      simp
      intro h
      linarith
    rw [e1, e2]
    exact List.Perm.of_eq (by congr!)
  · exact auto_split D env d hcol hlen mesh frames ml mi

/-! ### C27 -/

/-- C27, macro: adding up the frames gives the integrated image; one rendering raises, or contains NaN, exactly if the other does.
The sampled points of a hull are taken to be the same in both renderings. -/
theorem C27_macro_frames_sum (D : Detector) (env : RenderEnv) (d : PeaksDict) (mesh : TetraMesh) (frames : ℤ)
    (ml : Option ℝ) (mi : ℝ) (hlen : ∀ r ∈ d.peaks, r.length = 25) :
    (∃ e, D.render env d mesh frames .macro ml mi = .error e ∧ D.render env d mesh 1 .macro ml mi = .error e) ∨
    (∃ o o1, D.render env d mesh frames .macro ml mi = .ok (none, o) ∧ D.render env d mesh 1 .macro ml mi = .ok (none, o1)) ∨
    ∃ t t1 o o1, D.render env d mesh frames .macro ml mi = .ok (some t, o) ∧ D.render env d mesh 1 .macro ml mi = .ok (some t1, o1) ∧
      ∀ i j, ∑ f ∈ Finset.range (max frames 1).toNat, t f i j = t1 0 i j := by
  rw [render_macro, render_macro]
  set n := max frames 1 with hn
  have hn1 : 1 ≤ n := le_max_right _ _
  have hfr : ∀ m : ℤ, 1 ≤ m → ∀ r ∈ (D.peaksIntersection d m).peaks, ∃ k : ℕ, rcol r 28 = k ∧ k < m.toNat := by
    intro m hm r hr
    obtain ⟨q, -, -, ⟨k, hk, h0, h1⟩, -⟩ := hitRows hm hlen r hr
    refine ⟨k.toNat, ?_, by omega⟩
    rw [hk]; exact_mod_cast (Int.toNat_of_nonneg h0).symm
  rw [show max (1:ℤ) 1 = 1 from rfl, renderMacro_eq (hfr n hn1), renderMacro_eq (hfr 1 le_rfl)]
  rw [peaksIntersection_rows D d n hlen, peaksIntersection_rows D d 1 hlen]
  set L := d.peaks.filter fun row => D.contains ((D.rowIntersect row).getD 0 nan) ((D.rowIntersect row).getD 1 nan) ∧
      Fl.IsFinite (D.rowIntensity row) ∧ Fl.Lt (fin 0) (D.rowIntensity row) with hL
  have hL25 : ∀ q ∈ L, q.length = 25 := fun q hq => hlen q (List.mem_filter.mp hq).1
  have hadd : ∀ q ∈ L, macroAdd D env d.beam mesh d.motion (row30 D n q) = macroAdd D env d.beam mesh d.motion (row30 D 1 q) := by
    intro q hq
    exact macroAdd_congr fun j hj => rcol_congr ((row30_cols D n (hL25 q hq)).1 j hj)
  have hval : ∀ q ∈ L, macroVal D env d.beam mesh d.motion (row30 D n q) = macroVal D env d.beam mesh d.motion (row30 D 1 q) := by
    intro q hq; unfold macroVal; rw [hadd q hq]
  have hex : ∀ v, (∃ r ∈ L.map (row30 D n), macroAdd D env d.beam mesh d.motion r = v) ↔
      ∃ r ∈ L.map (row30 D 1), macroAdd D env d.beam mesh d.motion r = v := by
    intro v
    constructor
    · rintro ⟨r, hr, h⟩
      obtain ⟨q, hq, rfl⟩ := List.mem_map.mp hr
      exact ⟨_, List.mem_map.mpr ⟨q, hq, rfl⟩, by rw [← hadd q hq]; exact h⟩
    · rintro ⟨r, hr, h⟩
      obtain ⟨q, hq, rfl⟩ := List.mem_map.mp hr
      exact ⟨_, List.mem_map.mpr ⟨q, hq, rfl⟩, by rw [hadd q hq]; exact h⟩
  simp only [hex]
  by_cases h1 : ∃ r ∈ L.map (row30 D 1), macroAdd D env d.beam mesh d.motion r = .error .indexError
  · left; rw [if_pos h1, if_pos h1]; exact ⟨_, rfl, rfl⟩
  · right
    rw [if_neg h1, if_neg h1]
    by_cases h2 : ∃ r ∈ L.map (row30 D 1), macroAdd D env d.beam mesh d.motion r = .ok none
    · left; rw [if_pos h2, if_pos h2]; exact ⟨_, _, rfl, rfl⟩
    · right
      rw [if_neg h2, if_neg h2]
      refine ⟨_, _, _, _, rfl, rfl, ?_⟩
      intro i j
      rw [if_pos (show 0 < (1:ℤ).toNat by decide)]
      have e1 : ∀ f ∈ Finset.range n.toNat, (if f < n.toNat then conv2d D.nz D.ny D.gaussKernel fun i j =>
          (((L.map (row30 D n)).filter fun r => rcol r 28 = (f : ℝ)).map fun r => macroVal D env d.beam mesh d.motion r i j).sum else fun _ _ => 0) i j =
          conv2d D.nz D.ny D.gaussKernel (fun i j =>
          (((L.map (row30 D n)).filter fun r => rcol r 28 = (f : ℝ)).map fun r => macroVal D env d.beam mesh d.motion r i j).sum) i j := by
        intro f hf
        rw [if_pos (Finset.mem_range.mp hf)]
      rw [Finset.sum_congr rfl e1, ← conv2d_sum]
      congr 1
      funext i j
      have hfn := hfr n hn1
      have hf1 := hfr 1 le_rfl
      rw [peaksIntersection_rows D d n hlen, ← hL] at hfn
      rw [peaksIntersection_rows D d 1 hlen, ← hL] at hf1
      rw [sum_over_frames n.toNat (L.map (row30 D n)) (fun r => rcol r 28) (fun r => macroVal D env d.beam mesh d.motion r i j) hfn]
      have := sum_over_frames 1 (L.map (row30 D 1)) (fun r => rcol r 28) (fun r => macroVal D env d.beam mesh d.motion r i j) hf1
      rw [Finset.sum_range_one] at this
      rw [this, List.map_map, List.map_map]
      congr 1
      apply List.map_congr_left
      intro q hq
      simp only [Function.comp, hval q hq]

/-- C27, auto -/
theorem C27_auto_frames_sum (D : Detector) (env : RenderEnv) (hs : IsArgsort env.argsortDesc) (d : PeaksDict) (hcol : d.columns = peakColumns)
    (mesh : TetraMesh) (frames : ℤ) (ml : Option ℝ) (mi : ℝ) (hlen : ∀ r ∈ d.peaks, r.length = 25) :
    (∃ e e1, D.render env d mesh frames .auto ml mi = .error e ∧ D.render env d mesh 1 .auto ml mi = .error e1) ∨
    (∃ o o1, D.render env d mesh frames .auto ml mi = .ok (none, o) ∧ D.render env d mesh 1 .auto ml mi = .ok (none, o1)) ∨
    ∃ t t1 o o1, D.render env d mesh frames .auto ml mi = .ok (some t, o) ∧ D.render env d mesh 1 .auto ml mi = .ok (some t1, o1) ∧
      ∀ i j, ∑ f ∈ Finset.range (max frames 1).toNat, t f i j = t1 0 i j := by
  have sp := auto_split D env d hcol hlen mesh frames ml mi
  have sp1 := auto_split D env d hcol hlen mesh 1 ml mi
  have hl : ∀ p : ℝ → Prop, ∀ r ∈ (withVolume d p).peaks, r.length = 25 := fun p r hr => hlen r (List.mem_filter.mp hr).1
  have err : ∀ n, (∀ t o, D.render env d mesh n .auto ml mi ≠ .ok (t, o)) → ∃ e, D.render env d mesh n .auto ml mi = .error e := by
    intro n h
    cases hr : D.render env d mesh n .auto ml mi with
    | error e => exact ⟨e, rfl⟩
    | ok v => exact absurd hr (h v.1 v.2)
  obtain ⟨m1, m2, q1, q2, hm1, hm2, hm⟩ := C27_micro_frames_sum D env (withVolume d fun v => mi ≤ v ∧ v < macroLimit D ml) mesh frames ml mi (hl _)
  rcases C27_nano_frames_sum D env hs (withVolume d fun v => v < mi) mesh frames ml mi (hl _) with ⟨e, hn1, hn2⟩ | ⟨n1, n2, p1, p2, hn1, hn2, hn⟩
  · left
    obtain ⟨x, hx⟩ := err frames (by
      intro t o h
      obtain ⟨_, _, _, _, _, _, -, -, h3, -⟩ := (sp t o).mp h
      rw [hn1] at h3; cases h3)
    obtain ⟨y, hy⟩ := err 1 (by
      intro t o h
      obtain ⟨_, _, _, _, _, _, -, -, h3, -⟩ := (sp1 t o).mp h
      rw [hn2] at h3; cases h3)
    exact ⟨x, y, hx, hy⟩
  · rcases C27_macro_frames_sum D env (withVolume d fun v => macroLimit D ml ≤ v) mesh frames ml mi (hl _) with
      ⟨e, ha1, ha2⟩ | ⟨r1, r2, ha1, ha2⟩ | ⟨a1, a2, r1, r2, ha1, ha2, ha⟩
    · left
      obtain ⟨x, hx⟩ := err frames (by
        intro t o h
        obtain ⟨_, _, _, _, _, _, h1, -⟩ := (sp t o).mp h
        rw [ha1] at h1; cases h1)
      obtain ⟨y, hy⟩ := err 1 (by
        intro t o h
        obtain ⟨_, _, _, _, _, _, h1, -⟩ := (sp1 t o).mp h
        rw [ha2] at h1; cases h1)
      exact ⟨x, y, hx, hy⟩
    · right; left
      exact ⟨_, _, (sp _ _).mpr ⟨_, _, _, _, _, _, ha1, hm1, hn1, rfl, rfl⟩, (sp1 _ _).mpr ⟨_, _, _, _, _, _, ha2, hm2, hn2, rfl, rfl⟩⟩
    · right; right
      refine ⟨_, _, _, _, (sp _ _).mpr ⟨_, _, _, _, _, _, ha1, hm1, hn1, rfl, rfl⟩, (sp1 _ _).mpr ⟨_, _, _, _, _, _, ha2, hm2, hn2, rfl, rfl⟩, ?_⟩
      intro i j
      simp only [Finset.sum_add_distrib, ha, hm, hn]

end XRD
