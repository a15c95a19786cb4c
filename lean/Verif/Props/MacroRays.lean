import Verif.Props.MacroError

/-! Second part of C65, exactly: the pixels to which the rays of sampled points are added. -/

namespace XRD
open V3 M3 Fl Spec
open scoped Classical

/-- the ray from `s` along `u` ends, coordinates being rounded toward zero, in pixel (`i`, `j`) up to multiples of the height and the width of
the box of rows `r0 ≤ i < r1` and columns `q0 ≤ j < q1` -/
def Spec.WrapsOn (D : Detector) (r0 r1 q0 q1 : ℤ) (u s : V3) (i j : ℤ) : Prop :=
  ∃ z y : ℝ, (D.intersect u s).1 = fin z ∧ (D.intersect u s).2.1 = fin y ∧
    r1 - r0 ∣ towardZero (z / D.pz) - i ∧ q1 - q0 ∣ towardZero (y / D.py) - j

theorem wrapIdx_some {i : ℤ} {n k : ℕ} (hk : k < n) (h : -(n:ℤ) ≤ i ∧ i < n) : wrapIdx i n = some k ↔ (n:ℤ) ∣ i - k := by
  unfold wrapIdx
  split_ifs with h1 h2
  · rw [Option.some.injEq]
    constructor
    · intro e; exact ⟨0, by omega⟩
    · rintro ⟨c, hc⟩
      have : c = 0 := by nlinarith
      subst this; omega
  · rw [Option.some.injEq]
    constructor
    · intro e; exact ⟨-1, by omega⟩
    · rintro ⟨c, hc⟩
      have : c = -1 := by
        have h3 : c < 0 := by nlinarith
        have h4 : -2 < c := by nlinarith
        omega
      subst this; omega
  · omega

theorem total_entries (nr nq : ℕ) : ∀ es : List (Option ℕ × Option ℕ × ℝ), (∀ e ∈ es, ∃ i < nr, ∃ j < nq, e.1 = some i ∧ e.2.1 = some j) →
    ∑ i ∈ Finset.range nr, ∑ j ∈ Finset.range nq, ((es.filter fun e => e.1 = some i ∧ e.2.1 = some j).map fun e => e.2.2).sum = (es.map fun e => e.2.2).sum := by
  intro es
  induction es with
  | nil => intro _; simp
  | cons e es ih =>
    intro h
    obtain ⟨i', hi', j', hj', e1, e2⟩ := h e List.mem_cons_self
    rw [List.map_cons, List.sum_cons, ← ih fun q hq => h q (List.mem_cons_of_mem _ hq)]
    have : ∀ i j : ℕ, (((e :: es).filter fun e => e.1 = some i ∧ e.2.1 = some j).map fun e => e.2.2).sum =
        (if i = i' then if j = j' then e.2.2 else 0 else 0) + ((es.filter fun e => e.1 = some i ∧ e.2.1 = some j).map fun e => e.2.2).sum := by
      intro i j
      rw [List.filter_cons]
      by_cases hij : i = i' ∧ j = j'
      · obtain ⟨rfl, rfl⟩ := hij
        rw [if_pos (by simp [e1, e2]), List.map_cons, List.sum_cons, if_pos rfl, if_pos rfl]
      · rw [if_neg (by simp only [e1, e2, Option.some.injEq, decide_eq_true_eq]; exact fun h => hij ⟨h.1.symm, h.2.symm⟩)]
        have : (if i = i' then if j = j' then e.2.2 else 0 else 0) = 0 := by
          split_ifs with q1 q2
          · exact absurd ⟨q1, q2⟩ hij
          · rfl
          · rfl
        rw [this, _root_.zero_add]
    simp only [this, Finset.sum_add_distrib]
    congr 1
    have e3 : ∀ i ∈ Finset.range nr, (∑ j ∈ Finset.range nq, if i = i' then if j = j' then e.2.2 else 0 else 0) = if i = i' then e.2.2 else 0 := by
      intro i _
      split_ifs
      · rw [Finset.sum_ite_eq', if_pos (Finset.mem_range.mpr hj')]
      · simp
    rw [Finset.sum_congr rfl e3, Finset.sum_ite_eq', if_pos (Finset.mem_range.mpr hi')]

/-- C65, second part, exactly: when the illuminated part of an element is drawn on a box of two to four pixels, the part of the volume given to a
pixel is the part of the clip lengths contributed by the sampled rays that end in this pixel up to multiples of the size of the box. -/
theorem C65_rays_exactly (D : Detector) (hpz : 0 < D.pz) (hpy : 0 < D.py) (env : RenderEnv) (H : Hull) (k : V3) (r0 r1 q0 q1 : ℤ)
    (hb : IsCutBox D H.points k r0 r1 q0 q1) (h1 : 1 < (r1 - r0) * (q1 - q0)) (h4 : (r1 - r0) * (q1 - q0) ≤ 4) (pr : Frame)
    (hp : D.projectHull env H k (r0, r1, q0, q1) = .ok (some pr)) :
    ∀ i j : ℕ, r0 + i < r1 → q0 + j < q1 →
      pr i j * ((env.sample H (7 * ((r1 - r0) * (q1 - q0)).toNat)).map fun s => Detector.clipLength H.equations s ((1 / k.norm) • k)).sum =
        H.volume * (((env.sample H (7 * ((r1 - r0) * (q1 - q0)).toNat)).filter fun s =>
          WrapsOn D r0 r1 q0 q1 ((1 / k.norm) • k) s (r0 + i) (q0 + j)).map fun s => Detector.clipLength H.equations s ((1 / k.norm) • k)).sum := by
  obtain ⟨o1, o2⟩ := cutBox_order hpz hpy hb
  have eN : ((r1 - r0) * (q1 - q0)).toNat = (r1 - r0).toNat * (q1 - q0).toNat := by
    have : ((((r1 - r0).toNat * (q1 - q0).toNat : ℕ)) : ℤ) = (r1 - r0) * (q1 - q0) := by
      push_cast
      rw [Int.toNat_of_nonneg (by omega), Int.toNat_of_nonneg (by omega)]
    rw [← this, Int.toNat_natCast]
  rw [eN]
  have hne : (r1 - r0).toNat * (q1 - q0).toNat ≠ 1 := by rw [← eN]; omega
  have hle : (r1 - r0).toNat * (q1 - q0).toNat ≤ 4 := by rw [← eN]; omega
  set u := (1 / k.norm) • k with hu
  set pts := env.sample H (7 * ((r1 - r0).toNat * (q1 - q0).toNat)) with hpts
  unfold Detector.projectHull at hp
  simp only [← hu, ← hpts] at hp
  rw [if_neg hne, if_pos hle] at hp
  set es := pts.map fun p => D.sampleEntry H u r0 (r1 - r0).toNat q0 (q1 - q0).toNat p with hes
  by_cases herr : ∃ e ∈ es, e.1 = none ∨ e.2.1 = none
  · rw [if_pos herr] at hp; cases hp
  rw [if_neg herr] at hp
  have near : ∀ s ∈ pts, LandsNear D r0 r1 q0 q1 u s := by
    intro s hs
    by_contra hn
    exact herr ⟨_, List.mem_map.mpr ⟨s, hs, rfl⟩, (sampleEntry_near D H u r0 r1 q0 q1 s o1 o2).2 hn⟩
  have third : ∀ s ∈ pts, (D.sampleEntry H u r0 (r1 - r0).toNat q0 (q1 - q0).toNat s).2.2 = Detector.clipLength H.equations s u := by
    intro s hs
    obtain ⟨z, y, e1, e2, -⟩ := near s hs
    unfold Detector.sampleEntry
    rw [e1, e2]
  have sumall : (es.map fun e => e.2.2).sum = (pts.map fun s => Detector.clipLength H.equations s u).sum := by
    rw [hes, List.map_map]
    congr 1
    exact List.map_congr_left third
  have rng : ∀ e ∈ es, ∃ i < (r1 - r0).toNat, ∃ j < (q1 - q0).toNat, e.1 = some i ∧ e.2.1 = some j := by
    intro e he
    have a1 : e.1 ≠ none := fun h' => herr ⟨e, he, Or.inl h'⟩
    have a2 : e.2.1 ≠ none := fun h' => herr ⟨e, he, Or.inr h'⟩
    obtain ⟨s, hs, rfl⟩ := List.mem_map.mp he
    obtain ⟨z, y, e1, e2, -⟩ := near s hs
    unfold Detector.sampleEntry at a1 a2 ⊢
    rw [e1, e2] at a1 a2 ⊢
    obtain ⟨i, hi⟩ := Option.ne_none_iff_exists'.mp a1
    obtain ⟨j, hj⟩ := Option.ne_none_iff_exists'.mp a2
    exact ⟨i, wrapIdx_lt hi, j, wrapIdx_lt hj, hi, hj⟩
  rw [total_entries _ _ es rng, sumall] at hp
  split_ifs at hp with h0
  · simp at hp
  simp only [Except.ok.injEq, Option.some.injEq] at hp
  intro i j hi hj
  have hz : (pts.map fun s => Detector.clipLength H.equations s u).sum ≠ 0 := by
    intro e
    refine h0 ⟨e, ?_⟩
    rw [← eN]; omega
  rw [← hp]
  simp only
  rw [_root_.mul_assoc, _root_.mul_comm (H.volume) (List.sum _), ← _root_.mul_assoc, div_mul_cancel₀ _ hz, _root_.mul_comm]
  congr 1
  rw [hes, List.filter_map, List.map_map]
  have hf : pts.filter ((fun e : Option ℕ × Option ℕ × ℝ => decide (e.1 = some i ∧ e.2.1 = some j)) ∘
      fun p => D.sampleEntry H u r0 (r1 - r0).toNat q0 (q1 - q0).toNat p) = pts.filter fun s => decide (WrapsOn D r0 r1 q0 q1 u s (r0 + i) (q0 + j)) := by
    apply List.filter_congr
    intro s hs
    show decide _ = decide _
    rw [decide_eq_decide]
    obtain ⟨z, y, e1, e2, b1, b2, b3, b4⟩ := near s hs
    have ez : ∀ x, Detector.pyInt x = towardZero x := fun x => rfl
    beta_reduce
    unfold Detector.sampleEntry
    rw [e1, e2]
    simp only [ez]
    rw [wrapIdx_some (by omega) (by omega), wrapIdx_some (by omega) (by omega), Int.toNat_of_nonneg (by omega), Int.toNat_of_nonneg (by omega),
      show towardZero (z / D.pz) - r0 - i = towardZero (z / D.pz) - (r0 + i) by ring,
      show towardZero (y / D.py) - q0 - j = towardZero (y / D.py) - (q0 + j) by ring]
    constructor
    · exact fun h => ⟨z, y, e1, e2, h.1, h.2⟩
    · rintro ⟨z', y', e1', e2', g⟩
      rw [e1] at e1'; rw [e2] at e2'
      cases e1'; cases e2'
      exact g
  first
    | rw [hf]
    | (have hf' := hf; simp only [Function.comp_def] at hf' ⊢; rw [hf'])
  congr 1
  apply List.map_congr_left
  intro s hs
  exact third s (List.mem_filter.mp hs).1

/-- the hypotheses of `C65_rays_exactly` hold in the scene of `C65_missing_rays_fails`, with samplers as shown there: a box of two pixels -/
example (env : RenderEnv) (hh : BeamHull env.hull)
    (hs : ∀ H, H.points = overPts → (∀ s ∈ env.sample H 14, s ∈ convexHull ℝ {v : V3 | v ∈ overPts} ∧ -2 < s.z ∧ s.z < 0) ∧
      ∃ s ∈ env.sample H 14, LongChord overPts s ⟨1, 0, 0⟩) :
    ∃ (H : Hull) (pr : Frame), 0 < edgeDet.pz ∧ 0 < edgeDet.py ∧ IsCutBox edgeDet H.points ⟨1, 0, 0⟩ 0 1 0 2 ∧
      edgeDet.projectHull env H ⟨1, 0, 0⟩ (0, 1, 0, 2) = .ok (some pr) ∧ (1:ℤ) < (1 - 0) * (2 - 0) ∧ ((1:ℤ) - 0) * (2 - 0) ≤ 4 ∧
      pr 0 0 + pr 0 1 = 17 / 20 := by
  obtain ⟨D, H, pr, hD, -, -, hb, hp, hv⟩ := C65_missing_rays_fails env hh hs
  rw [edgeDet_new, Except.ok.injEq] at hD
  subst hD
  exact ⟨H, pr, one_pos, one_pos, (boundingBox_iff one_pos one_pos _ _ _ _ _ _).1 hb, hp, by norm_num, by norm_num, hv⟩

end XRD
