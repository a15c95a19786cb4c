import Verif.Props.Frames
import Verif.Props.NanoFails

/-! Property C93: superposition.  Rendering the union of two tables of peaks gives the sum of the two images. -/

namespace XRD
open V3 M3 Fl Spec
open scoped Classical

/-- One rendering is the sum of two others: it succeeds exactly if both do, contains NaN exactly if one of them does, and otherwise
every pixel of every frame is the sum of the two pixels. -/
def Spec.JointImage (R R1 R2 : Except PyErr (Option Stack × PeaksDict)) : Prop :=
  ∀ t, (∃ o, R = .ok (t, o)) ↔ ∃ t1 t2 o1 o2, R1 = .ok (t1, o1) ∧ R2 = .ok (t2, o2) ∧
    t = match t1, t2 with
      | some a, some b => some fun f i j => a f i j + b f i j
      | _, _ => none

theorem hits_perm (D : Detector) {d d1 d2 : PeaksDict} (hp : d.peaks.Perm (d1.peaks ++ d2.peaks)) (n : ℤ) :
    (D.peaksIntersection d n).peaks.Perm ((D.peaksIntersection d1 n).peaks ++ (D.peaksIntersection d2 n).peaks) := by
  have h : (D.peaksIntersection d n).peaks.Perm (D.peaksIntersection { d with peaks := d1.peaks ++ d2.peaks } n).peaks := by
    unfold Detector.peaksIntersection
    exact ((((((hp.map _).filter _).map _).map _).filter _))
  refine h.trans (List.Perm.of_eq ?_)
  unfold Detector.peaksIntersection
  simp only [List.map_append, List.filter_append]

theorem joint_micro (D : Detector) (env : RenderEnv) (d d1 d2 : PeaksDict) (hp : d.peaks.Perm (d1.peaks ++ d2.peaks))
    (hlen : ∀ r ∈ d.peaks, r.length = 25) (mesh : TetraMesh) (frames : ℤ) (ml : Option ℝ) (mi : ℝ) :
    JointImage (D.render env d mesh frames .micro ml mi) (D.render env d1 mesh frames .micro ml mi) (D.render env d2 mesh frames .micro ml mi) := by
  have hl1 : ∀ r ∈ d1.peaks, r.length = 25 := fun r hr => hlen r (hp.mem_iff.mpr (List.mem_append_left _ hr))
  have hl2 : ∀ r ∈ d2.peaks, r.length = 25 := fun r hr => hlen r (hp.mem_iff.mpr (List.mem_append_right _ hr))
  have e : stackOf (max frames 1).toNat D.nz D.ny ((D.peaksIntersection d (max frames 1)).peaks.flatMap D.microDeposits) =
      fun f i j => stackOf (max frames 1).toNat D.nz D.ny ((D.peaksIntersection d1 (max frames 1)).peaks.flatMap D.microDeposits) f i j +
        stackOf (max frames 1).toNat D.nz D.ny ((D.peaksIntersection d2 (max frames 1)).peaks.flatMap D.microDeposits) f i j := by
    rw [stackOf_perm ((hits_perm D hp (max frames 1)).flatMap_right D.microDeposits), List.flatMap_append]
    funext f i j
    rw [stackOf_append]
  intro t
  rw [render_micro_ok hlen, render_micro_ok hl1, render_micro_ok hl2, e]
  constructor
  · rintro ⟨o, h⟩
    obtain ⟨h1, h2⟩ := Prod.mk.inj (Except.ok.inj h)
    exact ⟨_, _, _, _, rfl, rfl, h1.symm⟩
  · rintro ⟨t1, t2, o1, o2, h1, h2, h⟩
    obtain ⟨g1, -⟩ := Prod.mk.inj (Except.ok.inj h1)
    obtain ⟨g2, -⟩ := Prod.mk.inj (Except.ok.inj h2)
    rw [← g1, ← g2] at h
    rw [h]
    exact ⟨_, rfl⟩

theorem joint_macro (D : Detector) (env : RenderEnv) (d d1 d2 : PeaksDict) (hp : d.peaks.Perm (d1.peaks ++ d2.peaks))
    (hb1 : d1.beam = d.beam) (hb2 : d2.beam = d.beam) (hm1 : d1.motion = d.motion) (hm2 : d2.motion = d.motion)
    (hlen : ∀ r ∈ d.peaks, r.length = 25) (mesh : TetraMesh) (frames : ℤ) (ml : Option ℝ) (mi : ℝ) :
    JointImage (D.render env d mesh frames .macro ml mi) (D.render env d1 mesh frames .macro ml mi) (D.render env d2 mesh frames .macro ml mi) := by
  have hl1 : ∀ r ∈ d1.peaks, r.length = 25 := fun r hr => hlen r (hp.mem_iff.mpr (List.mem_append_left _ hr))
  have hl2 : ∀ r ∈ d2.peaks, r.length = 25 := fun r hr => hlen r (hp.mem_iff.mpr (List.mem_append_right _ hr))
  set n := max frames 1 with hn
  have hn1 : 1 ≤ n := le_max_right _ _
  have hfr : ∀ c : PeaksDict, (∀ r ∈ c.peaks, r.length = 25) → ∀ r ∈ (D.peaksIntersection c n).peaks, ∃ k : ℕ, rcol r 28 = k ∧ k < n.toNat := by
    intro c hc r hr
    obtain ⟨q, -, -, ⟨k, hk, h0, h1⟩, -⟩ := hitRows hn1 hc r hr
    refine ⟨k.toNat, ?_, by omega⟩
    rw [hk]; exact_mod_cast (Int.toNat_of_nonneg h0).symm
  have hperm := hits_perm D hp n
  intro t
  rw [render_macro, render_macro, render_macro, ← hn, hb1, hb2, hm1, hm2, renderMacro_eq (hfr d hlen), renderMacro_eq (hfr d1 hl1),
    renderMacro_eq (hfr d2 hl2)]
  set A := macroAdd D env d.beam mesh d.motion with hA
  have hex : ∀ v, (∃ r ∈ (D.peaksIntersection d n).peaks, A r = v) ↔
      (∃ r ∈ (D.peaksIntersection d1 n).peaks, A r = v) ∨ ∃ r ∈ (D.peaksIntersection d2 n).peaks, A r = v := by
    intro v
    simp only [hperm.mem_iff, List.mem_append, or_and_right, exists_or]
  have hsum : ∀ f i j, (((D.peaksIntersection d n).peaks.filter fun r => rcol r 28 = (f : ℝ)).map fun r => macroVal D env d.beam mesh d.motion r i j).sum =
      (((D.peaksIntersection d1 n).peaks.filter fun r => rcol r 28 = (f : ℝ)).map fun r => macroVal D env d.beam mesh d.motion r i j).sum +
      (((D.peaksIntersection d2 n).peaks.filter fun r => rcol r 28 = (f : ℝ)).map fun r => macroVal D env d.beam mesh d.motion r i j).sum := by
    intro f i j
    rw [((hperm.filter _).map _).sum_eq, List.filter_append, List.map_append, List.sum_append]
  simp only [hex, hsum]
  by_cases e1 : ∃ r ∈ (D.peaksIntersection d1 n).peaks, A r = .error .indexError
  · rw [if_pos e1, if_pos (Or.inl e1)]
    simp [Except.map]
  by_cases e2 : ∃ r ∈ (D.peaksIntersection d2 n).peaks, A r = .error .indexError
  · rw [if_pos e2, if_pos (Or.inr e2)]
    simp [Except.map]
  rw [if_neg e1, if_neg e2, if_neg (not_or.mpr ⟨e1, e2⟩)]
  by_cases n1 : ∃ r ∈ (D.peaksIntersection d1 n).peaks, A r = .ok none
  · rw [if_pos n1, if_pos (Or.inl n1)]
    simp [Except.map]
    constructor
    · rintro rfl; split_ifs <;> simp
    · rintro ⟨t2, -, rfl⟩; rfl
  by_cases n2 : ∃ r ∈ (D.peaksIntersection d2 n).peaks, A r = .ok none
  · rw [if_neg n1, if_pos n2, if_pos (Or.inr n2)]
    simp [Except.map]
    exact eq_comm
  rw [if_neg n1, if_neg n2, if_neg (not_or.mpr ⟨n1, n2⟩)]
  simp only [Except.map, Except.ok.injEq, Prod.mk.injEq]
  have e : (fun f => if f < n.toNat then conv2d D.nz D.ny D.gaussKernel fun i j =>
      (((D.peaksIntersection d1 n).peaks.filter fun r => rcol r 28 = (f : ℝ)).map fun r => macroVal D env d.beam mesh d.motion r i j).sum +
      (((D.peaksIntersection d2 n).peaks.filter fun r => rcol r 28 = (f : ℝ)).map fun r => macroVal D env d.beam mesh d.motion r i j).sum
      else fun _ _ => 0 : Stack) = fun f i j =>
      (if f < n.toNat then conv2d D.nz D.ny D.gaussKernel fun i j =>
        (((D.peaksIntersection d1 n).peaks.filter fun r => rcol r 28 = (f : ℝ)).map fun r => macroVal D env d.beam mesh d.motion r i j).sum else fun _ _ => 0) i j +
      (if f < n.toNat then conv2d D.nz D.ny D.gaussKernel fun i j =>
        (((D.peaksIntersection d2 n).peaks.filter fun r => rcol r 28 = (f : ℝ)).map fun r => macroVal D env d.beam mesh d.motion r i j).sum else fun _ _ => 0) i j := by
    funext f i j
    by_cases hf : f < n.toNat
    · rw [if_pos hf, if_pos hf, if_pos hf, conv2d_add]
    · rw [if_neg hf, if_neg hf, if_neg hf]; simp
  constructor
  · rintro ⟨o, h, -⟩
    exact ⟨_, _, _, _, ⟨rfl, rfl⟩, ⟨rfl, rfl⟩, by rw [← h, e]⟩
  · rintro ⟨t1, t2, o1, o2, ⟨h1, -⟩, ⟨h2, -⟩, h⟩
    rw [← h1, ← h2] at h
    exact ⟨_, by rw [h, e], rfl⟩

theorem joint_nano (D : Detector) (hs : 0 < D.sigma) (hm : 0 ≤ D.maxRadius) (env : RenderEnv) (ha : IsArgsort env.argsortDesc)
    (d d1 d2 : PeaksDict) (hp : d.peaks.Perm (d1.peaks ++ d2.peaks)) (mesh : TetraMesh) (frames : ℤ) (ml : Option ℝ) (mi : ℝ)
    (hz : ∀ r ∈ (D.peaksIntersection d (max frames 1)).peaks, D.firstZero r ≤ 2) :
    JointImage (D.render env d mesh frames .nano ml mi) (D.render env d1 mesh frames .nano ml mi) (D.render env d2 mesh frames .nano ml mi) := by
  set n := max frames 1 with hn
  have hperm := hits_perm D hp n
  intro t
  rw [render_nano, render_nano, render_nano, ← hn, renderNano_small hs hm ha hz,
    renderNano_small hs hm ha (fun r hr => hz r (hperm.mem_iff.mpr (List.mem_append_left _ hr))),
    renderNano_small hs hm ha (fun r hr => hz r (hperm.mem_iff.mpr (List.mem_append_right _ hr)))]
  have hsum : ∀ f i j, (((D.peaksIntersection d n).peaks.filter fun r => rcol r 28 = (f : ℝ)).map fun r => smallAdd D env.j1 r i j).sum =
      (((D.peaksIntersection d1 n).peaks.filter fun r => rcol r 28 = (f : ℝ)).map fun r => smallAdd D env.j1 r i j).sum +
      (((D.peaksIntersection d2 n).peaks.filter fun r => rcol r 28 = (f : ℝ)).map fun r => smallAdd D env.j1 r i j).sum := by
    intro f i j
    rw [((hperm.filter _).map _).sum_eq, List.filter_append, List.map_append, List.sum_append]
  simp only [hsum, Except.map, Except.ok.injEq, Prod.mk.injEq]
  have e : (fun f => if f < n.toNat then conv2d D.nz D.ny D.gaussKernel fun i j =>
      (((D.peaksIntersection d1 n).peaks.filter fun r => rcol r 28 = (f : ℝ)).map fun r => smallAdd D env.j1 r i j).sum +
      (((D.peaksIntersection d2 n).peaks.filter fun r => rcol r 28 = (f : ℝ)).map fun r => smallAdd D env.j1 r i j).sum
      else fun _ _ => 0 : Stack) = fun f i j =>
      (if f < n.toNat then conv2d D.nz D.ny D.gaussKernel fun i j =>
        (((D.peaksIntersection d1 n).peaks.filter fun r => rcol r 28 = (f : ℝ)).map fun r => smallAdd D env.j1 r i j).sum else fun _ _ => 0) i j +
      (if f < n.toNat then conv2d D.nz D.ny D.gaussKernel fun i j =>
        (((D.peaksIntersection d2 n).peaks.filter fun r => rcol r 28 = (f : ℝ)).map fun r => smallAdd D env.j1 r i j).sum else fun _ _ => 0) i j := by
    funext f i j
    by_cases hf : f < n.toNat
    · rw [if_pos hf, if_pos hf, if_pos hf, conv2d_add]
    · rw [if_neg hf, if_neg hf, if_neg hf]; simp
  constructor
  · rintro ⟨o, h, -⟩
    exact ⟨_, _, _, _, ⟨rfl, rfl⟩, ⟨rfl, rfl⟩, by rw [← h, e]⟩
  · rintro ⟨t1, t2, o1, o2, ⟨h1, -⟩, ⟨h2, -⟩, h⟩
    rw [← h1, ← h2] at h
    exact ⟨_, by rw [h, e], rfl⟩

theorem withVolume_perm {d d1 d2 : PeaksDict} (hp : d.peaks.Perm (d1.peaks ++ d2.peaks)) (hc : d.columns = peakColumns)
    (hc1 : d1.columns = peakColumns) (hc2 : d2.columns = peakColumns) (p : ℝ → Prop) :
    (withVolume d p).peaks.Perm ((withVolume d1 p).peaks ++ (withVolume d2 p).peaks) := by
  unfold withVolume
  rw [hc, hc1, hc2]
  refine (hp.filter _).trans (List.Perm.of_eq ?_)
  rw [List.filter_append]

/-- C93 (partial): superposition.  Let a table consist of the peaks of two others, in any order, from the same beam and motion.
Then by every method its image is the sum of their images: it renders exactly if both render, contains NaN exactly if one of them
does, and otherwise is the pixelwise sum; for `nano`, and for the small grains of `auto`, provided the first dark ring of every hit is
within two pixels.  Missing: larger rings, for which the claim is false (`C93_nano_superposition_fails`). -/
theorem C93_superposition_partial (D : Detector) (hs : 0 < D.sigma) (hm : 0 ≤ D.maxRadius) (env : RenderEnv) (ha : IsArgsort env.argsortDesc)
    (d d1 d2 : PeaksDict) (hp : d.peaks.Perm (d1.peaks ++ d2.peaks)) (hc : d.columns = peakColumns) (hc1 : d1.columns = peakColumns)
    (hc2 : d2.columns = peakColumns) (hb1 : d1.beam = d.beam) (hb2 : d2.beam = d.beam) (hm1 : d1.motion = d.motion) (hm2 : d2.motion = d.motion)
    (hlen : ∀ r ∈ d.peaks, r.length = 25) (mesh : TetraMesh) (frames : ℤ) (method : Detector.Method) (ml : Option ℝ) (mi : ℝ)
    (hz : method = .nano ∨ method = .auto → ∀ r ∈ (D.peaksIntersection d (max frames 1)).peaks,
      (method = .auto → val (D.peaksIntersection d (max frames 1)).columns r "volumes" < mi) →
      firstZeroPixels D (D.peaksIntersection d (max frames 1)).columns r ≤ 2) :
    JointImage (D.render env d mesh frames method ml mi) (D.render env d1 mesh frames method ml mi) (D.render env d2 mesh frames method ml mi) := by
  have hcol : (D.peaksIntersection d (max frames 1)).columns = hitColumns := by show d.columns ++ _ = _; rw [hc]; rfl
  rw [hcol] at hz
  simp only [← firstZero_eq, rcol_eq _ "volumes" (j := 21) rfl] at hz
  have hl1 : ∀ r ∈ d1.peaks, r.length = 25 := fun r hr => hlen r (hp.mem_iff.mpr (List.mem_append_left _ hr))
  have hl2 : ∀ r ∈ d2.peaks, r.length = 25 := fun r hr => hlen r (hp.mem_iff.mpr (List.mem_append_right _ hr))
  cases method with
  | «macro» => exact joint_macro D env d d1 d2 hp hb1 hb2 hm1 hm2 hlen mesh frames ml mi
  | micro => exact joint_micro D env d d1 d2 hp hlen mesh frames ml mi
  | nano =>
    exact joint_nano D hs hm env ha d d1 d2 hp mesh frames ml mi fun r hr => hz (Or.inl rfl) r hr (by intro h; cases h)
  | auto =>
    have sp := auto_split D env d hc hlen mesh frames ml mi
    have sp1 := auto_split D env d1 hc1 hl1 mesh frames ml mi
    have sp2 := auto_split D env d2 hc2 hl2 mesh frames ml mi
    have hl : ∀ p : ℝ → Prop, ∀ r ∈ (withVolume d p).peaks, r.length = 25 := fun p r hr => hlen r (List.mem_filter.mp hr).1
    have jma := joint_macro D env _ _ _ (withVolume_perm hp hc hc1 hc2 fun v => macroLimit D ml ≤ v) hb1 hb2 hm1 hm2 (hl _) mesh frames ml mi
    have jmi := joint_micro D env _ _ _ (withVolume_perm hp hc hc1 hc2 fun v => mi ≤ v ∧ v < macroLimit D ml) (hl _) mesh frames ml mi
    have jna := joint_nano D hs hm env ha _ _ _ (withVolume_perm hp hc hc1 hc2 fun v => v < mi) mesh frames ml mi (by
      intro r hr
      rw [hits_withVolume D hc _ hlen] at hr
      obtain ⟨h1, h2⟩ := List.mem_filter.mp hr
      exact hz (Or.inr rfl) r h1 fun _ => of_decide_eq_true h2)
    intro t
    constructor
    · rintro ⟨o, h⟩
      obtain ⟨tma, tmi, tna, o1, o2, o3, h1, h2, h3, rfl, -⟩ := (sp t o).mp h
      obtain ⟨a1, a2, _, _, ga1, ga2, ga⟩ := (jma _).mp ⟨_, h1⟩
      obtain ⟨b1, b2, _, _, gb1, gb2, gb⟩ := (jmi _).mp ⟨_, h2⟩
      obtain ⟨c1, c2, _, _, gc1, gc2, gc⟩ := (jna _).mp ⟨_, h3⟩
      cases b1 with
      | none => cases gb
      | some b1 =>
        cases b2 with
        | none => cases gb
        | some b2 =>
          cases c1 with
          | none => cases gc
          | some c1 =>
            cases c2 with
            | none => cases gc
            | some c2 =>
              simp only [Option.some.injEq] at gb gc
              refine ⟨_, _, _, _, (sp1 _ _).mpr ⟨a1, b1, c1, _, _, _, ga1, gb1, gc1, rfl, rfl⟩,
                (sp2 _ _).mpr ⟨a2, b2, c2, _, _, _, ga2, gb2, gc2, rfl, rfl⟩, ?_⟩
              rw [ga, gb, gc]
              cases a1 with
              | none => rfl
              | some a1 =>
                cases a2 with
                | none => rfl
                | some a2 =>
                  simp only [Option.map_some, Option.some.injEq]
                  funext f i j
                  ring
    · rintro ⟨t1, t2, o1, o2, h1, h2, rfl⟩
      obtain ⟨a1, b1, c1, _, _, _, ga1, gb1, gc1, rfl, -⟩ := (sp1 _ _).mp h1
      obtain ⟨a2, b2, c2, _, _, _, ga2, gb2, gc2, rfl, -⟩ := (sp2 _ _).mp h2
      obtain ⟨oa, ha'⟩ := (jma _).mpr ⟨_, _, _, _, ga1, ga2, rfl⟩
      obtain ⟨ob, hb'⟩ := (jmi _).mpr ⟨_, _, _, _, gb1, gb2, rfl⟩
      obtain ⟨oc, hc'⟩ := (jna _).mpr ⟨_, _, _, _, gc1, gc2, rfl⟩
      refine ⟨_, (sp _ _).mpr ⟨_, _, _, _, _, _, ha', hb', hc', ?_, rfl⟩⟩
      cases a1 with
      | none => rfl
      | some a1 =>
        cases a2 with
        | none => rfl
        | some a2 =>
          simp only [Option.map_some, Option.some.injEq]
          funext f i j
          ring
  | other =>
    intro t
    simp [Detector.render]

/-- a case: two small peaks at different places and times, rendered together by `nano` -/
example (j1 : ℝ → ℝ) (s : List ℝ → List ℕ) (hs : IsArgsort s) (hull : Beam → List V3 → Option Hull) (sample : Hull → ℕ → List V3)
    (mesh : TetraMesh) : ∃ t t1 t2 o o1 o2,
      nanoDet.render ⟨j1, s, 1, hull, sample⟩ (imgDict [dotRow, imgRow 2 10 20 (3/4) 1 (widthFor (1/5))]) mesh 2 .nano none 1 = .ok (some t, o) ∧
      nanoDet.render ⟨j1, s, 1, hull, sample⟩ (imgDict [dotRow]) mesh 2 .nano none 1 = .ok (some t1, o1) ∧
      nanoDet.render ⟨j1, s, 1, hull, sample⟩ (imgDict [imgRow 2 10 20 (3/4) 1 (widthFor (1/5))]) mesh 2 .nano none 1 = .ok (some t2, o2) ∧
      o.peaks.length = 2 ∧ ∀ f i j, t f i j = t1 f i j + t2 f i j := by
  have hl1 : ∀ r ∈ [imgRow 2 10 20 (3/4) 1 (widthFor (1/5))], r.length = 25 := by
    intro r hr; rw [List.mem_singleton] at hr; subst hr; rfl
  have hh : (nanoDet.peaksIntersection (imgDict [dotRow, imgRow 2 10 20 (3/4) 1 (widthFor (1/5))]) 2).peaks =
      [imgHit 2 1 (-40) (-40) (1/2) 1 (widthFor (1/10)), imgHit 2 2 10 20 (3/4) 1 (widthFor (1/5))] := by
    unfold dotRow nanoDet
    rw [imgDict_kept 1 1 _ 2 1 (-40) (-40) (1/2) 1 (widthFor (1/10)) (by norm_num [abs_le]) (by norm_num [abs_le]) _ hl1,
      imgDict_kept 1 1 _ 2 2 10 20 (3/4) 1 (widthFor (1/5)) (by norm_num [abs_le]) (by norm_num [abs_le]) _ (by simp)]
    rfl
  have hz : ∀ r ∈ (nanoDet.peaksIntersection (imgDict [dotRow, imgRow 2 10 20 (3/4) 1 (widthFor (1/5))]) (max 2 1)).peaks, nanoDet.firstZero r ≤ 2 := by
    rw [show max (2:ℤ) 1 = 2 from rfl, hh]
    intro r hr
    simp only [List.mem_cons, List.not_mem_nil, or_false] at hr
    rcases hr with rfl | rfl
    · rw [nanoDet_firstZero]; norm_num
    · rw [nanoDet_firstZero]; norm_num
  have hlen : ∀ r ∈ (imgDict [dotRow, imgRow 2 10 20 (3/4) 1 (widthFor (1/5))]).peaks, r.length = 25 := by
    intro r hr
    simp only [imgDict, List.mem_cons, List.not_mem_nil, or_false] at hr
    rcases hr with rfl | rfl <;> rfl
  have J := C93_superposition_partial nanoDet nanoDet_sigma nanoDet_max ⟨j1, s, 1, hull, sample⟩ hs
    (imgDict [dotRow, imgRow 2 10 20 (3/4) 1 (widthFor (1/5))]) (imgDict [dotRow]) (imgDict [imgRow 2 10 20 (3/4) 1 (widthFor (1/5))])
    (List.Perm.refl _) rfl rfl rfl rfl rfl rfl rfl hlen mesh 2 .nano none 1 (by
      intro _ r hr _
      rw [show (nanoDet.peaksIntersection (imgDict [dotRow, imgRow 2 10 20 (3/4) 1 (widthFor (1/5))]) (max 2 1)).columns = hitColumns from rfl, ← firstZero_eq]
      exact hz r hr)
  have hr := renderNano_small nanoDet_sigma nanoDet_max (env := ⟨j1, s, 1, hull, sample⟩) hs hz 2
  obtain ⟨t, hren⟩ : ∃ t, nanoDet.render ⟨j1, s, 1, hull, sample⟩ (imgDict [dotRow, imgRow 2 10 20 (3/4) 1 (widthFor (1/5))]) mesh 2 .nano none 1 =
      .ok (some t, nanoDet.peaksIntersection (imgDict [dotRow, imgRow 2 10 20 (3/4) 1 (widthFor (1/5))]) 2) := by
    rw [render_nano, show (max (2:ℤ) 1).toNat = 2 from rfl, hr]; exact ⟨_, rfl⟩
  obtain ⟨t1, t2, o1, o2, h1, h2, h⟩ := (J _).mp ⟨_, hren⟩
  cases t1 with
  | none => cases h
  | some t1 =>
    cases t2 with
    | none => cases h
    | some t2 =>
      refine ⟨_, t1, t2, _, o1, o2, hren, h1, h2, ?_, ?_⟩
      · rw [hh]; rfl
      · intro f i j
        have := congrFun (congrFun (congrFun (Option.some.inj h) f) i) j
        exact this

/-- C93: a table without peaks renders to a black image, by every method. -/
theorem C93_no_peaks_no_light (D : Detector) (env : RenderEnv) (d : PeaksDict) (hd : d.peaks = []) (mesh : TetraMesh) (frames : ℤ)
    (method : Detector.Method) (hmeth : method ≠ .other) (ml : Option ℝ) (mi : ℝ) :
    ∃ t o, D.render env d mesh frames method ml mi = .ok (some t, o) ∧ o.peaks = [] ∧ ∀ f i j, t f i j = 0 := by
  have hp : ∀ n, (D.peaksIntersection d n).peaks = [] := by
    intro n; unfold Detector.peaksIntersection; rw [hd]; rfl
  have hnano : ∀ n, D.renderNano env [] n = .ok fun _ _ _ => 0 := by intro n; unfold Detector.renderNano; rw [if_pos rfl]
  have hmicro : ∀ g n, D.renderMicro g [] n = .ok fun _ _ _ => 0 := by
    intro g n
    rw [renderMicro_eq, if_neg (by simp)]
    congr 1
  have hmacro : ∀ n, D.renderMacro env d.beam mesh d.motion [] n = .ok (some fun _ _ _ => 0) := by
    intro n
    rw [renderMacro_eq (by simp), if_neg (by simp), if_neg (by simp)]
    congr 2
    funext f i j
    split_ifs
    · simp [conv2d_zero]
    · rfl
  have hn : (if frames < 1 then 1 else frames) = max frames 1 := by split_ifs <;> omega
  cases method with
  | «macro» => rw [render_macro, hp, hmacro]; exact ⟨_, _, rfl, hp _, fun _ _ _ => rfl⟩
  | micro => rw [render_micro, hp, hmicro]; exact ⟨_, _, rfl, hp _, fun _ _ _ => rfl⟩
  | nano => rw [render_nano, hp, hnano]; exact ⟨_, _, rfl, hp _, fun _ _ _ => rfl⟩
  | auto =>
    unfold Detector.render
    simp only [hn, hp, List.filter_nil, hmacro, hmicro, hnano]
    exact ⟨_, _, rfl, hp _, fun _ _ _ => by simp⟩
  | other => exact absurd rfl hmeth

/-- one peak alone always renders by `nano` -/
theorem nano_single (D : Detector) (env : RenderEnv) (hs : IsArgsort env.argsortDesc) (d : PeaksDict) (mesh : TetraMesh) (frames : ℤ)
    (ml : Option ℝ) (mi : ℝ) (r : List Fl) (h : (D.peaksIntersection d (max frames 1)).peaks = [r]) :
    ∃ t o, D.render env d mesh frames .nano ml mi = .ok (some t, o) := by
  obtain ⟨k, hk, -⟩ := airyKernels_one D env.j1 (D.firstZero r)
  rw [render_nano, renderNano_eq hs, h, perm_one hs, single_batch, nanoPairs]
  simp only [List.map_cons, List.map_nil, hk, nanoPairs]
  exact ⟨_, _, rfl⟩

/-- C93 is false for `nano` in general: two peaks that render alone but not together (the two kernels have an even and an odd number
of samples and cannot be stacked). -/
theorem C93_nano_superposition_fails (j1 : ℝ → ℝ) (hj : BesselFacts j1) (s : List ℝ → List ℕ) (hs : IsArgsort s)
    (hull : Beam → List V3 → Option Hull) (sample : Hull → ℕ → List V3) (mesh : TetraMesh) (ml : Option ℝ) (mi : ℝ) :
    ∃ (D : Detector) (d d1 d2 : PeaksDict),
      Detector.new ⟨100, -100, -100⟩ ⟨100, 100, -100⟩ ⟨100, -100, 100⟩ .absent (.both 1) 1 (1 / 10 ^ 13) 13 true true true = .ok D ∧
      d.peaks = d1.peaks ++ d2.peaks ∧
      (∃ t1 o1, D.render ⟨j1, s, 1, hull, sample⟩ d1 mesh 1 .nano ml mi = .ok (some t1, o1)) ∧
      (∃ t2 o2, D.render ⟨j1, s, 1, hull, sample⟩ d2 mesh 1 .nano ml mi = .ok (some t2, o2)) ∧
      D.render ⟨j1, s, 1, hull, sample⟩ d mesh 1 .nano ml mi = .error .runtimeError := by
  refine ⟨nanoDet, imgDict [evenRow, dotRow], imgDict [evenRow], imgDict [dotRow], nanoDet_new, rfl, ?_, ?_,
    torch_cat_error j1 hj s hs hull sample mesh ml mi⟩
  · exact nano_single _ _ hs _ _ _ _ _ evenHit (by
      rw [show max (1:ℤ) 1 = 1 from rfl, even_hits [] (by simp)]; rfl)
  · exact nano_single _ _ hs _ _ _ _ _ dotHit (by
      rw [show max (1:ℤ) 1 = 1 from rfl]
      unfold dotRow nanoDet
      rw [imgDict_kept 1 1 _ 1 1 (-40) (-40) (1/2) 1 (widthFor (1/10)) (by norm_num [abs_le]) (by norm_num [abs_le]) _ (by simp)]
      rfl)

end XRD
