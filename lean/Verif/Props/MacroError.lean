import Verif.Props.MacroNan
import Verif.Props.MacroFails

/-! Exact form of C65: when `macro` rendering raises. -/

namespace XRD
open V3 M3 Fl Spec
open scoped Classical

/-- conversion of a number to an integer: the fraction is dropped -/
noncomputable def Spec.towardZero (x : ℝ) : ℤ := if 0 ≤ x then ⌊x⌋ else ⌈x⌉

/-- `lo` and `hi` are the least and the largest finite coordinate of the rays from the points, `c` picking one of the two detector coordinates -/
def Spec.Extent (D : Detector) (c : Fl × Fl × Fl → Fl) (points : List V3) (k : V3) (lo hi : ℝ) : Prop :=
  (∃ v ∈ points, c (D.intersect k v) = fin lo) ∧ (∃ v ∈ points, c (D.intersect k v) = fin hi) ∧
  ∀ v ∈ points, ∀ x : ℝ, c (D.intersect k v) = fin x → lo ≤ x ∧ x ≤ hi

/-- the box of whole pixels (rows `r0 ≤ i < r1`, columns `q0 ≤ j < q1`) that remains of the rectangle around the projected points when it
is cut at the edges of the detector -/
def Spec.IsCutBox (D : Detector) (points : List V3) (k : V3) (r0 r1 q0 q1 : ℤ) : Prop :=
  ∃ z0 z1 y0 y1 : ℝ, Extent D (·.1) points k z0 z1 ∧ Extent D (·.2.1) points k y0 y1 ∧
    max z0 0 ≤ min z1 D.zmax ∧ max y0 0 ≤ min y1 D.ymax ∧
    r0 = ⌊max z0 0 / D.pz⌋ ∧ r1 = min (⌊min z1 D.zmax / D.pz⌋ + 1) ⌊D.zmax / D.pz⌋ ∧
    q0 = ⌊max y0 0 / D.py⌋ ∧ q1 = min (⌊min y1 D.ymax / D.py⌋ + 1) ⌊D.ymax / D.py⌋

/-- the ray from `s` along `u` ends in the box or within one height of the box below it and one width of the box left of it (where
negative indices count from the end), coordinates being rounded toward zero -/
def Spec.LandsNear (D : Detector) (r0 r1 q0 q1 : ℤ) (u s : V3) : Prop :=
  ∃ z y : ℝ, (D.intersect u s).1 = fin z ∧ (D.intersect u s).2.1 = fin y ∧
    r0 - (r1 - r0) ≤ towardZero (z / D.pz) ∧ towardZero (z / D.pz) < r1 ∧
    q0 - (q1 - q0) ≤ towardZero (y / D.py) ∧ towardZero (y / D.py) < q1

theorem extent_cons {D : Detector} {c : Fl × Fl × Fl → Fl} {points : List V3} {k : V3} {x : ℝ} {xs : List ℝ}
    (h : Detector.finites ((points.map fun v => D.intersect k v).map c) = x :: xs) (lo hi : ℝ) :
    Extent D c points k lo hi ↔ lo = Detector.minL x xs ∧ hi = Detector.maxL x xs := by
  have hm : ∀ t : ℝ, t ∈ x :: xs ↔ ∃ v ∈ points, c (D.intersect k v) = fin t := by
    intro t
    rw [← h, mem_finites, List.map_map, List.mem_map]
    rfl
  have lb : ∀ t ∈ x :: xs, Detector.minL x xs ≤ t ∧ t ≤ Detector.maxL x xs := by
    intro t ht
    rcases List.mem_cons.mp ht with rfl | ht
    · exact ⟨minL_le.1, le_maxL.1⟩
    · exact ⟨minL_le.2 _ ht, le_maxL.2 _ ht⟩
  constructor
  · rintro ⟨h1, h2, h3⟩
    obtain ⟨v, hv, e⟩ := (hm _).1 (minL_mem x xs)
    obtain ⟨w, hw, e'⟩ := (hm _).1 (maxL_mem x xs)
    exact ⟨le_antisymm (h3 v hv _ e).1 (lb _ ((hm _).2 h1)).1, le_antisymm (lb _ ((hm _).2 h2)).2 (h3 w hw _ e').2⟩
  · rintro ⟨rfl, rfl⟩
    exact ⟨(hm _).1 (minL_mem x xs), (hm _).1 (maxL_mem x xs), fun v hv t e => lb t ((hm _).2 ⟨v, hv, e⟩)⟩

theorem extent_nil {D : Detector} {c : Fl × Fl × Fl → Fl} {points : List V3} {k : V3}
    (h : Detector.finites ((points.map fun v => D.intersect k v).map c) = []) (lo hi : ℝ) : ¬ Extent D c points k lo hi := by
  rintro ⟨⟨v, hv, e⟩, -⟩
  have : lo ∈ Detector.finites ((points.map fun v => D.intersect k v).map c) := by
    rw [mem_finites, List.map_map, List.mem_map]
    exact ⟨v, hv, e⟩
  rw [h] at this
  cases this

/-- the box the code computes is the cut box -/
theorem boundingBox_iff {D : Detector} (hpz : 0 < D.pz) (hpy : 0 < D.py) (points : List V3) (k : V3) (r0 r1 q0 q1 : ℤ) :
    D.boundingBox points k = some (r0, r1, q0, q1) ↔ IsCutBox D points k r0 r1 q0 q1 := by
  unfold Detector.boundingBox
  simp only
  cases hz : Detector.finites ((points.map fun v => D.intersect k v).map (·.1)) with
  | nil =>
    simp only
    constructor
    · intro h; cases h
    · rintro ⟨z0, z1, y0, y1, h, -⟩
      exact absurd h (extent_nil hz _ _)
  | cons z zs =>
    cases hy : Detector.finites ((points.map fun v => D.intersect k v).map (·.2.1)) with
    | nil =>
      simp only
      constructor
      · intro h; cases h
      · rintro ⟨z0, z1, y0, y1, -, h, -⟩
        exact absurd h (extent_nil hy _ _)
    | cons y ys =>
      simp only
      have ez := extent_cons hz
      have ey := extent_cons hy
      constructor
      · intro h
        split_ifs at h with hc
        push Not at hc
        have a1 : 0 ≤ max (Detector.minL z zs) 0 / D.pz := div_nonneg (le_max_right _ _) hpz.le
        have a2 : 0 ≤ min (Detector.maxL z zs) D.zmax / D.pz := div_nonneg ((le_max_right _ _).trans hc.1) hpz.le
        have a3 : 0 ≤ max (Detector.minL y ys) 0 / D.py := div_nonneg (le_max_right _ _) hpy.le
        have a4 : 0 ≤ min (Detector.maxL y ys) D.ymax / D.py := div_nonneg ((le_max_right _ _).trans hc.2) hpy.le
        have a5 : 0 ≤ D.zmax / D.pz := div_nonneg (((le_max_right _ _).trans hc.1).trans (min_le_right _ _)) hpz.le
        have a6 : 0 ≤ D.ymax / D.py := div_nonneg (((le_max_right _ _).trans hc.2).trans (min_le_right _ _)) hpy.le
        simp only [Detector.pixelIndex, Option.some.injEq, Prod.mk.injEq, pyInt_nonneg a1, pyInt_nonneg a2, pyInt_nonneg a3,
          pyInt_nonneg a4, pyInt_nonneg a5, pyInt_nonneg a6] at h
        obtain ⟨rfl, rfl, rfl, rfl⟩ := h
        exact ⟨_, _, _, _, (ez _ _).2 ⟨rfl, rfl⟩, (ey _ _).2 ⟨rfl, rfl⟩, hc.1, hc.2, rfl, rfl, rfl, rfl⟩
      · rintro ⟨z0, z1, y0, y1, h1, h2, c1, c2, rfl, rfl, rfl, rfl⟩
        obtain ⟨rfl, rfl⟩ := (ez _ _).1 h1
        obtain ⟨rfl, rfl⟩ := (ey _ _).1 h2
        have a1 : 0 ≤ max (Detector.minL z zs) 0 / D.pz := div_nonneg (le_max_right _ _) hpz.le
        have a2 : 0 ≤ min (Detector.maxL z zs) D.zmax / D.pz := div_nonneg ((le_max_right _ _).trans c1) hpz.le
        have a3 : 0 ≤ max (Detector.minL y ys) 0 / D.py := div_nonneg (le_max_right _ _) hpy.le
        have a4 : 0 ≤ min (Detector.maxL y ys) D.ymax / D.py := div_nonneg ((le_max_right _ _).trans c2) hpy.le
        have a5 : 0 ≤ D.zmax / D.pz := div_nonneg (((le_max_right _ _).trans c1).trans (min_le_right _ _)) hpz.le
        have a6 : 0 ≤ D.ymax / D.py := div_nonneg (((le_max_right _ _).trans c2).trans (min_le_right _ _)) hpy.le
        rw [if_neg (by push Not; exact ⟨c1, c2⟩)]
        simp only [Detector.pixelIndex, pyInt_nonneg a1, pyInt_nonneg a2, pyInt_nonneg a3, pyInt_nonneg a4, pyInt_nonneg a5, pyInt_nonneg a6]

theorem wrapIdx_none {i : ℤ} {n : ℕ} : wrapIdx i n = none ↔ ¬ (-(n:ℤ) ≤ i ∧ i < n) := by
  unfold wrapIdx
  split_ifs with h1 h2
  · simp only [reduceCtorEq, false_iff, not_not]; omega
  · simp only [reduceCtorEq, false_iff, not_not]; omega
  · simp only [true_iff]; omega

/-- the projection raises exactly if a ray of a sampled point lands too far from a box of two to four pixels -/
theorem projectHull_error_iff (D : Detector) (env : RenderEnv) (H : Hull) (k : V3) (r0 r1 q0 q1 : ℤ) :
    D.projectHull env H k (r0, r1, q0, q1) = .error .indexError ↔
      (r1 - r0).toNat * (q1 - q0).toNat ≠ 1 ∧ (r1 - r0).toNat * (q1 - q0).toNat ≤ 4 ∧
      ∃ s ∈ env.sample H (7 * ((r1 - r0).toNat * (q1 - q0).toNat)),
        ((D.sampleEntry H ((1 / k.norm) • k) r0 (r1 - r0).toNat q0 (q1 - q0).toNat s).1 = none ∨
        (D.sampleEntry H ((1 / k.norm) • k) r0 (r1 - r0).toNat q0 (q1 - q0).toNat s).2.1 = none) := by
  unfold Detector.projectHull
  simp only
  by_cases h1 : (r1 - r0).toNat * (q1 - q0).toNat = 1
  · rw [if_pos h1]
    constructor
    · intro h; cases h
    · rintro ⟨h, -⟩; exact absurd h1 h
  rw [if_neg h1]
  by_cases h4 : (r1 - r0).toNat * (q1 - q0).toNat ≤ 4
  · rw [if_pos h4]
    split_ifs with he
    · refine ⟨fun _ => ⟨h1, h4, ?_⟩, fun _ => rfl⟩
      obtain ⟨e, hm, he⟩ := he
      obtain ⟨s, hs, rfl⟩ := List.mem_map.mp hm
      exact ⟨s, hs, he⟩
    all_goals
      constructor
      · intro h; cases h
      · rintro ⟨-, -, s, hs, h⟩
        exact absurd ⟨_, List.mem_map.mpr ⟨s, hs, rfl⟩, h⟩ he
  · rw [if_neg h4]
    constructor
    · intro h; split_ifs at h
    · rintro ⟨-, h, -⟩; exact absurd h h4

theorem sampleEntry_near (D : Detector) (H : Hull) (u : V3) (r0 r1 q0 q1 : ℤ) (s : V3) (hr : r0 ≤ r1) (hq : q0 ≤ q1) :
    ((D.sampleEntry H u r0 (r1 - r0).toNat q0 (q1 - q0).toNat s).1 = none ∨
      (D.sampleEntry H u r0 (r1 - r0).toNat q0 (q1 - q0).toNat s).2.1 = none) ↔ ¬ LandsNear D r0 r1 q0 q1 u s := by
  have e : ∀ x, Detector.pyInt x = towardZero x := fun x => rfl
  unfold Detector.sampleEntry LandsNear
  split
  · rename_i zd yd h1 h2
    simp only [e, wrapIdx_none]
    rw [h1, h2]
    constructor
    · rintro h ⟨z, y, e1, e2, g1, g2, g3, g4⟩
      cases e1; cases e2
      rcases h with h | h <;> omega
    · intro h
      by_contra hc
      push Not at hc
      exact h ⟨zd, yd, rfl, rfl, by omega, by omega, by omega, by omega⟩
  · rename_i hn
    refine ⟨fun _ => ?_, fun _ => Or.inl rfl⟩
    rintro ⟨z, y, e1, e2, -⟩
    exact hn z y e1 e2

theorem cutBox_order {D : Detector} (hpz : 0 < D.pz) (hpy : 0 < D.py) {points : List V3} {k : V3} {r0 r1 q0 q1 : ℤ}
    (h : IsCutBox D points k r0 r1 q0 q1) : r0 ≤ r1 ∧ q0 ≤ q1 := by
  obtain ⟨z0, z1, y0, y1, -, -, c1, c2, rfl, rfl, rfl, rfl⟩ := h
  have ax : ∀ {p a b m : ℝ}, 0 < p → a ≤ min b m → ⌊a / p⌋ ≤ min (⌊min b m / p⌋ + 1) ⌊m / p⌋ := by
    intro p a b m hp h
    have h1 : ⌊a / p⌋ ≤ ⌊min b m / p⌋ := Int.floor_mono (by gcongr)
    have h2 : ⌊a / p⌋ ≤ ⌊m / p⌋ := Int.floor_mono (by have := h.trans (min_le_right _ _); gcongr)
    omega
  exact ⟨ax hpz c1, ax hpy c2⟩

/-- C65, exactly: macro rendering succeeds unless for some hit the illuminated part of its element is drawn on a box of at most four, but
not one, pixels, and the ray of one of the sampled points lands neither in this box nor within the size of the box below and left of it.
Then, and only then, it raises, and the exception is an `IndexError`. -/
theorem C65_macro_fails_iff (D : Detector) (hpz : 0 < D.pz) (hpy : 0 < D.py) (env : RenderEnv)
    (d : PeaksDict) (hcol : d.columns = peakColumns) (hlen : ∀ r ∈ d.peaks, r.length = 25) (mesh : TetraMesh) (frames : ℤ) (ml : Option ℝ) (mi : ℝ)
    (h : ∀ r ∈ (D.peaksIntersection d (max frames 1)).peaks, ∃ vs, IsMoved d mesh (D.peaksIntersection d (max frames 1)).columns r vs) :
    ((∃ t, D.render env d mesh frames .macro ml mi = .ok (t, D.peaksIntersection d (max frames 1))) ∨
      D.render env d mesh frames .macro ml mi = .error .indexError) ∧
    (D.render env d mesh frames .macro ml mi = .error .indexError ↔
      ∃ r ∈ (D.peaksIntersection d (max frames 1)).peaks, ∃ vs H, ∃ r0 r1 q0 q1 : ℤ,
        IsMoved d mesh (D.peaksIntersection d (max frames 1)).columns r vs ∧ env.hull d.beam vs = some H ∧
        IsCutBox D H.points (kOut (D.peaksIntersection d (max frames 1)).columns r) r0 r1 q0 q1 ∧
        (r1 - r0) * (q1 - q0) ≠ 1 ∧ (r1 - r0) * (q1 - q0) ≤ 4 ∧
        ∃ s ∈ env.sample H (7 * ((r1 - r0) * (q1 - q0)).toNat), ¬ LandsNear D r0 r1 q0 q1
          ((1 / (kOut (D.peaksIntersection d (max frames 1)).columns r).norm) • kOut (D.peaksIntersection d (max frames 1)).columns r) s) := by
  rw [render_macro]
  set n := max frames 1 with hn
  have hn1 : 1 ≤ n := le_max_right _ _
  have hfr : ∀ r ∈ (D.peaksIntersection d n).peaks, ∃ k : ℕ, rcol r 28 = k ∧ k < n.toNat := by
    intro r hr
    obtain ⟨q, -, -, ⟨k, hk, h0, h1⟩, -⟩ := hitRows hn1 hlen r hr
    refine ⟨k.toNat, ?_, by omega⟩
    rw [hk]; exact_mod_cast (Int.toNat_of_nonneg h0).symm
  have hc : (D.peaksIntersection d n).columns = hitColumns := by show d.columns ++ _ = _; rw [hcol]; rfl
  rw [hc] at h ⊢
  have key : ∀ r ∈ (D.peaksIntersection d n).peaks, (macroAdd D env d.beam mesh d.motion r = .error .indexError ↔
      ∃ vs H, ∃ r0 r1 q0 q1 : ℤ, IsMoved d mesh hitColumns r vs ∧ env.hull d.beam vs = some H ∧
        IsCutBox D H.points (kOut hitColumns r) r0 r1 q0 q1 ∧ (r1 - r0) * (q1 - q0) ≠ 1 ∧ (r1 - r0) * (q1 - q0) ≤ 4 ∧
        ∃ s ∈ env.sample H (7 * ((r1 - r0) * (q1 - q0)).toNat), ¬ LandsNear D r0 r1 q0 q1 ((1 / (kOut hitColumns r).norm) • kOut hitColumns r) s) := by
    intro r hr
    obtain ⟨vs, hmv⟩ := h r hr
    have same : ∀ vs', IsMoved d mesh hitColumns r vs' → vs' = vs := fun vs' h' => (movedVertices_of h').symm.trans (movedVertices_of hmv)
    have pe : ∀ (H : Hull) (r0 r1 q0 q1 : ℤ), IsCutBox D H.points (kOut hitColumns r) r0 r1 q0 q1 →
        (D.projectHull env H (kOut hitColumns r) (r0, r1, q0, q1) = .error .indexError ↔
          (r1 - r0) * (q1 - q0) ≠ 1 ∧ (r1 - r0) * (q1 - q0) ≤ 4 ∧
          ∃ s ∈ env.sample H (7 * ((r1 - r0) * (q1 - q0)).toNat), ¬ LandsNear D r0 r1 q0 q1 ((1 / (kOut hitColumns r).norm) • kOut hitColumns r) s) := by
      intro H r0 r1 q0 q1 hbx
      obtain ⟨o1, o2⟩ := cutBox_order hpz hpy hbx
      rw [projectHull_error_iff]
      simp only [sampleEntry_near D H _ r0 r1 q0 q1 _ o1 o2]
      have eN : ((((r1 - r0).toNat * (q1 - q0).toNat : ℕ)) : ℤ) = (r1 - r0) * (q1 - q0) := by
        push_cast
        rw [Int.toNat_of_nonneg (by omega), Int.toNat_of_nonneg (by omega)]
      have eN' : ((r1 - r0) * (q1 - q0)).toNat = (r1 - r0).toNat * (q1 - q0).toNat := by rw [← eN, Int.toNat_natCast]
      rw [eN']
      have w1 : (r1 - r0).toNat * (q1 - q0).toNat ≠ 1 ↔ (r1 - r0) * (q1 - q0) ≠ 1 := by rw [← eN]; exact_mod_cast Iff.rfl
      have w2 : (r1 - r0).toNat * (q1 - q0).toNat ≤ 4 ↔ (r1 - r0) * (q1 - q0) ≤ 4 := by rw [← eN]; exact_mod_cast Iff.rfl
      rw [w1, w2]
    unfold macroAdd Detector.macroPeak
    rw [movedVertices_of hmv]
    cases hh : env.hull d.beam vs with
    | none =>
      constructor
      · intro e; cases e
      · rintro ⟨vs', H, r0, r1, q0, q1, h1, h2, -⟩
        rw [same vs' h1, hh] at h2; cases h2
    | some H =>
      simp only
      rw [← kOut_eq]
      cases hb : D.boundingBox H.points (kOut hitColumns r) with
      | none =>
        constructor
        · intro e; cases e
        · rintro ⟨vs', H', r0, r1, q0, q1, h1, h2, h3, -⟩
          rw [same vs' h1, hh] at h2; cases h2
          rw [(boundingBox_iff hpz hpy _ _ _ _ _ _).2 h3] at hb; cases hb
      | some box =>
        obtain ⟨r0, r1, q0, q1⟩ := box
        have hbx := (boundingBox_iff hpz hpy _ _ _ _ _ _).1 hb
        have hiff : D.projectHull env H (kOut hitColumns r) (r0, r1, q0, q1) = .error .indexError ↔ _ := pe H r0 r1 q0 q1 hbx
        have hrhs : (∃ vs H, ∃ r0 r1 q0 q1 : ℤ, IsMoved d mesh hitColumns r vs ∧ env.hull d.beam vs = some H ∧
            IsCutBox D H.points (kOut hitColumns r) r0 r1 q0 q1 ∧ (r1 - r0) * (q1 - q0) ≠ 1 ∧ (r1 - r0) * (q1 - q0) ≤ 4 ∧
            ∃ s ∈ env.sample H (7 * ((r1 - r0) * (q1 - q0)).toNat), ¬ LandsNear D r0 r1 q0 q1 ((1 / (kOut hitColumns r).norm) • kOut hitColumns r) s) ↔
            D.projectHull env H (kOut hitColumns r) (r0, r1, q0, q1) = .error .indexError := by
          rw [hiff]
          constructor
          · rintro ⟨vs', H', s0, s1, p0, p1, h1, h2, h3, h4⟩
            rw [same vs' h1, hh] at h2; cases h2
            have := (boundingBox_iff hpz hpy _ _ _ _ _ _).2 h3
            rw [hb] at this
            cases this
            exact h4
          · exact fun h4 => ⟨vs, H, r0, r1, q0, q1, hmv, hh, hbx, h4⟩
        rw [hrhs]
        simp only
        cases hp : D.projectHull env H (kOut hitColumns r) (r0, r1, q0, q1) with
        | error e => simp
        | ok x => cases x <;> simp
  rw [renderMacro_eq hfr]
  have hex : (∃ r ∈ (D.peaksIntersection d n).peaks, macroAdd D env d.beam mesh d.motion r = .error .indexError) ↔ _ :=
    exists_congr fun r => and_congr_right fun hr => key r hr
  rw [← hex]
  by_cases h1 : ∃ r ∈ (D.peaksIntersection d n).peaks, macroAdd D env d.beam mesh d.motion r = .error .indexError
  · rw [if_pos h1]
    exact ⟨Or.inr rfl, fun _ => h1, fun _ => rfl⟩
  · rw [if_neg h1]
    refine ⟨Or.inl ?_, fun he => ?_, fun he => absurd he h1⟩
    · split_ifs <;> exact ⟨_, rfl⟩
    · split_ifs at he <;> cases he

/-- the hypotheses of `C65_macro_fails_iff` hold in the scene of `C65_overhang_fails`, and so do the conditions for failure -/
example (env : RenderEnv) (hh : BeamHull env.hull)
    (hs : ∀ H, H.points = overPts → ∃ s ∈ env.sample H 14, s ∈ convexHull ℝ {v : V3 | v ∈ overPts} ∧ s.z ≤ -2) :
    edgeDet.render env (imgDict [overRow]) (oneTet over) 1 .macro none (1/1000) = .error .indexError := by
  have h := (C65_macro_fails_iff edgeDet one_pos one_pos env (imgDict [overRow]) rfl (by
    intro r hr
    have : r = overRow := by simpa [imgDict] using hr
    rw [this]; rfl) (oneTet over) 1 none (1/1000) (by
      rw [show max (1:ℤ) 1 = 1 from rfl, over_hits]
      intro r hr
      rw [List.mem_singleton] at hr
      subst hr
      exact ⟨overPts, over_moved⟩)).2
  obtain ⟨H, hH, hi⟩ := over_hull hh
  obtain ⟨s, hsm, hin, hz⟩ := hs H hi.points
  have hk : kOut hitColumns overHit = ⟨1, 0, 0⟩ := by rw [kOut_eq]; rfl
  rw [show max (1:ℤ) 1 = 1 from rfl, over_hits] at h
  have hc : (edgeDet.peaksIntersection (imgDict [overRow]) 1).columns = hitColumns := rfl
  rw [hc] at h
  refine h.2 ⟨overHit, List.mem_singleton.mpr rfl, overPts, H, 0, 1, 0, 2, over_moved, hH, ?_, by norm_num, by norm_num, s, hsm, ?_⟩
  · rw [hk, hi.points]
    exact (boundingBox_iff one_pos one_pos _ _ _ _ _ _).1 over_box
  · rw [hk, ex_unit]
    rintro ⟨z, y, e1, -, g1, -⟩
    rw [edgeDet_intersect (over_x hin)] at e1
    cases e1
    have p1 : edgeDet.pz = 1 := rfl
    rw [p1, div_one] at g1
    unfold towardZero at g1
    rw [if_neg (by push Not; linarith)] at g1
    have hc : ⌈s.z⌉ ≤ -2 := by rw [Int.ceil_le]; push_cast; linarith
    omega

end XRD
