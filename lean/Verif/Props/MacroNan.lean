import Verif.Props.MacroBlock
import Verif.Props.Exact4

/-! Exact form of C64: when a `macro` image contains NaN. -/

namespace XRD
open V3 M3 Fl Spec
open scoped Classical

/-- the line through `p` along `u` has a part longer than `10⁻¹²` on the inner side of all planes it is not parallel to -/
def Spec.Seen (eqs : List HalfSpace) (p u : V3) : Prop :=
  ∃ s t : ℝ, s + 1 / 10 ^ 12 < t ∧ ∀ e ∈ eqs, e.n.dot u ≠ 0 → e.n.dot (p + s • u) + e.d ≤ 0 ∧ e.n.dot (p + t • u) + e.d ≤ 0

/-- the smallest box of pixels that the rays from the points hit: rows `r0 ≤ i < r1`, columns `q0 ≤ j < q1` -/
def Spec.IsBox (D : Detector) (points : List V3) (k : V3) (r0 r1 q0 q1 : ℤ) : Prop :=
  (∀ v ∈ points, ∃ i j : ℤ, HitsPixel D k v i j ∧ r0 ≤ i ∧ i < r1 ∧ q0 ≤ j ∧ j < q1) ∧
  (∃ v ∈ points, ∃ j, HitsPixel D k v r0 j) ∧ (∃ v ∈ points, ∃ j, HitsPixel D k v (r1 - 1) j) ∧
  (∃ v ∈ points, ∃ i, HitsPixel D k v i q0) ∧ (∃ v ∈ points, ∃ i, HitsPixel D k v i (q1 - 1))

/-- no traced ray sees the polyhedron: it covers two to four pixels and no sampled point's ray does, or it covers more and no ray from
a corner of one of its pixels does -/
def Spec.Unseen (D : Detector) (sample : Hull → ℕ → List V3) (H : Hull) (k : V3) : Prop :=
  ∃ r0 r1 q0 q1 : ℤ, IsBox D H.points k r0 r1 q0 q1 ∧
    ((1 < (r1 - r0) * (q1 - q0) ∧ (r1 - r0) * (q1 - q0) ≤ 4 ∧
        ∀ s ∈ sample H (7 * ((r1 - r0) * (q1 - q0)).toNat), ¬ Seen H.equations s ((1 / k.norm) • k)) ∨
      (4 < (r1 - r0) * (q1 - q0) ∧ ∀ i j : ℕ, r0 ≤ i → i < r1 → q0 ≤ j → j < q1 →
        ¬ Seen H.equations (D.pixelCoordinate i j) ((1 / k.norm) • k)))

theorem clip_seen {H : Hull} {vs : List V3} (hH : IsHull H vs) (hvs : vs ≠ []) {u : V3} (hu : norm u = 1) (p : V3) :
    Detector.clipLength H.equations p u = 0 ↔ ¬ Seen H.equations p u := by
  obtain ⟨a, b, h, hc⟩ := C36_clip_value H vs hH hvs p u hu
  rw [hc]
  constructor
  · rintro h0 ⟨s, t, hst, hin⟩
    obtain ⟨h1, -⟩ := (h s).1 fun e he hp => (hin e he hp).1
    obtain ⟨-, h2⟩ := (h t).1 fun e he hp => (hin e he hp).2
    have : (0:ℝ) < 1 / 10 ^ 12 := by positivity
    rw [if_pos (by linarith)] at h0
    linarith
  · intro hn
    rw [if_neg]
    intro hab
    have : (0:ℝ) < 1 / 10 ^ 12 := by positivity
    exact hn ⟨a, b, hab, fun e he hp => ⟨(h a).2 ⟨le_rfl, by linarith⟩ e he hp, (h b).2 ⟨by linarith, le_rfl⟩ e he hp⟩⟩

theorem hitsPixel_same {D : Detector} {k v : V3} {i j i' j' : ℤ} (h : HitsPixel D k v i j) (h' : HitsPixel D k v i' j') : i = i' ∧ j = j' := by
  obtain ⟨z, y, e1, e2, a1, a2, a3, a4⟩ := h
  obtain ⟨z', y', e1', e2', b1, b2, b3, b4⟩ := h'
  rw [e1] at e1'; cases e1'
  rw [e2] at e2'; cases e2'
  exact ⟨(Int.floor_eq_iff.mpr ⟨a1, a2⟩).symm.trans (Int.floor_eq_iff.mpr ⟨b1, b2⟩), (Int.floor_eq_iff.mpr ⟨a3, a4⟩).symm.trans (Int.floor_eq_iff.mpr ⟨b3, b4⟩)⟩

theorem isBox_unique {D : Detector} {points : List V3} {k : V3} {r0 r1 q0 q1 r0' r1' q0' q1' : ℤ} (h : IsBox D points k r0 r1 q0 q1)
    (h' : IsBox D points k r0' r1' q0' q1') : r0 = r0' ∧ r1 = r1' ∧ q0 = q0' ∧ q1 = q1' := by
  have half : ∀ {r0 r1 q0 q1 r0' r1' q0' q1' : ℤ}, IsBox D points k r0 r1 q0 q1 → IsBox D points k r0' r1' q0' q1' →
      r0' ≤ r0 ∧ r1 ≤ r1' ∧ q0' ≤ q0 ∧ q1 ≤ q1' := by
    rintro r0 r1 q0 q1 r0' r1' q0' q1' ⟨-, ⟨v1, m1, j1, g1⟩, ⟨v2, m2, j2, g2⟩, ⟨v3, m3, i3, g3⟩, v4, m4, i4, g4⟩ ⟨h', -⟩
    obtain ⟨a1, b1, e1, x1⟩ := h' v1 m1
    obtain ⟨a2, b2, e2, x2⟩ := h' v2 m2
    obtain ⟨a3, b3, e3, x3⟩ := h' v3 m3
    obtain ⟨a4, b4, e4, x4⟩ := h' v4 m4
    have u1 := hitsPixel_same g1 e1
    have u2 := hitsPixel_same g2 e2
    have u3 := hitsPixel_same g3 e3
    have u4 := hitsPixel_same g4 e4
    refine ⟨?_, ?_, ?_, ?_⟩ <;> omega
  have a := half h h'
  have b := half h' h
  refine ⟨?_, ?_, ?_, ?_⟩ <;> omega

/-- the box the code computes for points on the detector is the smallest box, and the projection is NaN exactly if nothing is seen -/
theorem projectHull_nan_iff {D : Detector} (hpz : 0 < D.pz) (hpy : 0 < D.py) {env : RenderEnv} (hs : SamplesInside env.sample)
    {H : Hull} {k : V3} (hH : IsHull H H.points) (h : OnPixels D H.points k) :
    ∃ a n c m : ℕ, D.boundingBox H.points k = some ((a:ℤ), ((a + n : ℕ):ℤ), (c:ℤ), ((c + m : ℕ):ℤ)) ∧
      (∃ pr, D.projectHull env H k ((a:ℤ), ((a + n : ℕ):ℤ), (c:ℤ), ((c + m : ℕ):ℤ)) = .ok pr ∧ (pr = none ↔ Unseen D env.sample H k)) := by
  obtain ⟨a, n, c, m, z0, z1, y0, y1, hb, hn, hm, -, -, za, zn, yc, ym, v1, v2, v3, v4, hd, hin⟩ := onPixels_box hpz hpy h
  refine ⟨a, n, c, m, hb, ?_⟩
  have hk : k ≠ 0 := by rintro rfl; apply hd; simp [V3.dot]
  have hu : norm ((1 / k.norm) • k) = 1 := norm_eq_one.mpr (nsq_unit hk)
  have hnm : 1 ≤ n * m := Nat.mul_pos hn hm
  have k1 : ((((a + n : ℕ):ℤ) - (a:ℤ)).toNat) = n := by omega
  have k2 : ((((c + m : ℕ):ℤ) - (c:ℤ)).toNat) = m := by omega
  have hv : ∀ v ∈ H.points, ∃ zd yd : ℝ, (D.intersect k v).1 = fin zd ∧ (D.intersect k v).2.1 = fin yd ∧ z0 ≤ zd ∧ zd ≤ z1 ∧ y0 ≤ yd ∧ yd ≤ y1 :=
    fun v hv => (hin v (subset_convexHull ℝ _ hv)).2
  have pix : ∀ v zd yd, (D.intersect k v).1 = fin zd → (D.intersect k v).2.1 = fin yd → HitsPixel D k v ⌊zd / D.pz⌋ ⌊yd / D.py⌋ :=
    fun v zd yd e1 e2 => ⟨zd, yd, e1, e2, Int.floor_le _, Int.lt_floor_add_one _, Int.floor_le _, Int.lt_floor_add_one _⟩
  have box : IsBox D H.points k (a:ℤ) ((a + n : ℕ):ℤ) (c:ℤ) ((c + m : ℕ):ℤ) := by
    refine ⟨?_, ?_, ?_, ?_, ?_⟩
    · intro v hvm
      obtain ⟨zd, yd, e1, e2, b1, b2, b3, b4⟩ := hv v hvm
      refine ⟨_, _, pix v zd yd e1 e2, ?_, ?_, ?_, ?_⟩
      · rw [za]; exact Int.floor_mono (by gcongr)
      · rw [zn]; have : ⌊zd / D.pz⌋ ≤ ⌊z1 / D.pz⌋ := Int.floor_mono (by gcongr)
        omega
      · rw [yc]; exact Int.floor_mono (by gcongr)
      · rw [ym]; have : ⌊yd / D.py⌋ ≤ ⌊y1 / D.py⌋ := Int.floor_mono (by gcongr)
        omega
    · obtain ⟨v, hvm, e⟩ := v1
      obtain ⟨zd, yd, e1, e2, -⟩ := hv v hvm
      exact ⟨v, hvm, _, by rw [za]; exact pix v z0 yd e e2⟩
    · obtain ⟨v, hvm, e⟩ := v2
      obtain ⟨zd, yd, e1, e2, -⟩ := hv v hvm
      exact ⟨v, hvm, _, by rw [zn, add_sub_cancel_right]; exact pix v z1 yd e e2⟩
    · obtain ⟨v, hvm, e⟩ := v3
      obtain ⟨zd, yd, e1, e2, -⟩ := hv v hvm
      exact ⟨v, hvm, _, by rw [yc]; exact pix v zd y0 e1 e⟩
    · obtain ⟨v, hvm, e⟩ := v4
      obtain ⟨zd, yd, e1, e2, -⟩ := hv v hvm
      exact ⟨v, hvm, _, by rw [ym, add_sub_cancel_right]; exact pix v zd y1 e1 e⟩
  have hun : Unseen D env.sample H k ↔ (1 < n * m ∧ n * m ≤ 4 ∧ ∀ s ∈ env.sample H (7 * (n * m)), ¬ Seen H.equations s ((1 / k.norm) • k)) ∨
      (4 < n * m ∧ ∀ i j : ℕ, i < n → j < m → ¬ Seen H.equations (D.pixelCoordinate (a + i) (c + j)) ((1 / k.norm) • k)) := by
    have eN : (((a + n : ℕ):ℤ) - (a:ℤ)) * (((c + m : ℕ):ℤ) - (c:ℤ)) = ((n * m : ℕ):ℤ) := by push_cast; ring
    constructor
    · rintro ⟨r0, r1, q0, q1, hb', hcase⟩
      obtain ⟨rfl, rfl, rfl, rfl⟩ := isBox_unique hb' box
      rw [eN, Int.toNat_natCast] at hcase
      rcases hcase with ⟨c1, c2, c3⟩ | ⟨c1, c2⟩
      · exact Or.inl ⟨by omega, by omega, c3⟩
      · refine Or.inr ⟨by omega, fun i j hi hj => ?_⟩
        have := c2 (a + i) (c + j) (by omega) (by omega) (by omega) (by omega)
        exact this
    · intro hcase
      refine ⟨_, _, _, _, box, ?_⟩
      rw [eN, Int.toNat_natCast]
      rcases hcase with ⟨c1, c2, c3⟩ | ⟨c1, c2⟩
      · exact Or.inl ⟨by omega, by omega, c3⟩
      · refine Or.inr ⟨by omega, fun i j h1 h2 h3 h4 => ?_⟩
        have := c2 (i - a) (j - c) (by omega) (by omega)
        rwa [show a + (i - a) = i by omega, show c + (j - c) = j by omega] at this
  rw [hun]
  have cs := fun p => clip_seen hH h.1 hu p
  by_cases h1 : n * m = 1
  · unfold Detector.projectHull
    simp only [k1, k2]
    rw [if_pos h1]
    refine ⟨_, rfl, ?_⟩
    constructor
    · intro e; cases e
    · rintro (⟨h, -⟩ | ⟨h, -⟩) <;> omega
  by_cases h4 : n * m ≤ 4
  · rw [projectHull_small hpz hpy hs h hb (by omega) h4]
    have hz : ((env.sample H (7 * (n * m))).map fun s => Detector.clipLength H.equations s ((1 / k.norm) • k)).sum = 0 ↔
        ∀ s ∈ env.sample H (7 * (n * m)), ¬ Seen H.equations s ((1 / k.norm) • k) := by
      have nn : ∀ l : List V3, (l.map fun s => Detector.clipLength H.equations s ((1 / k.norm) • k)).sum = 0 ↔
          ∀ s ∈ l, Detector.clipLength H.equations s ((1 / k.norm) • k) = 0 := by
        intro l
        induction l with
        | nil => simp
        | cons s l ih =>
          have p1 := clipLength_nonneg H.equations s ((1 / k.norm) • k)
          have p2 : 0 ≤ (l.map fun s => Detector.clipLength H.equations s ((1 / k.norm) • k)).sum :=
            List.sum_nonneg (by intro x hx; obtain ⟨q, -, rfl⟩ := List.mem_map.mp hx; exact clipLength_nonneg _ _ _)
          rw [List.map_cons, List.sum_cons, List.forall_mem_cons, ← ih]
          constructor
          · intro e; constructor <;> linarith
          · rintro ⟨e1, e2⟩; rw [e1, e2, add_zero]
      rw [nn]
      exact forall₂_congr fun s _ => cs s
    by_cases hz0 : ((env.sample H (7 * (n * m))).map fun s => Detector.clipLength H.equations s ((1 / k.norm) • k)).sum = 0
    · rw [if_pos hz0]
      exact ⟨_, rfl, fun _ => Or.inl ⟨by omega, h4, hz.1 hz0⟩, fun _ => rfl⟩
    · rw [if_neg hz0]
      refine ⟨_, rfl, ?_⟩
      constructor
      · intro e; cases e
      · rintro (⟨-, -, h⟩ | ⟨h, -⟩)
        · exact absurd (hz.2 h) hz0
        · omega
  · unfold Detector.projectHull
    simp only [k1, k2]
    rw [if_neg h1, if_neg h4]
    simp only [Int.toNat_natCast]
    have nn : ∀ i j : ℕ, 0 ≤ (if i < n ∧ j < m then Detector.clipLength H.equations (D.pixelCoordinate (a + i) (c + j)) ((1 / k.norm) • k) else 0) := by
      intro i j
      split_ifs
      · exact clipLength_nonneg _ _ _
      · exact le_rfl
    have hz : (∑ i ∈ Finset.range n, ∑ j ∈ Finset.range m,
        (if i < n ∧ j < m then Detector.clipLength H.equations (D.pixelCoordinate (a + i) (c + j)) ((1 / k.norm) • k) else 0)) = 0 ↔
        ∀ i j : ℕ, i < n → j < m → ¬ Seen H.equations (D.pixelCoordinate (a + i) (c + j)) ((1 / k.norm) • k) := by
      rw [Finset.sum_eq_zero_iff_of_nonneg (fun i _ => Finset.sum_nonneg fun j _ => nn i j)]
      constructor
      · intro hz i j hi hj
        have hz1 := hz i (Finset.mem_range.mpr hi)
        rw [Finset.sum_eq_zero_iff_of_nonneg (fun j _ => nn _ j)] at hz1
        have hz2 := hz1 j (Finset.mem_range.mpr hj)
        rw [if_pos ⟨hi, hj⟩] at hz2
        exact (cs _).1 hz2
      · intro h i hi
        apply Finset.sum_eq_zero
        intro j hj
        rw [if_pos ⟨Finset.mem_range.mp hi, Finset.mem_range.mp hj⟩]
        exact (cs _).2 (h i j (Finset.mem_range.mp hi) (Finset.mem_range.mp hj))
    by_cases hz0 : (∑ i ∈ Finset.range n, ∑ j ∈ Finset.range m,
        (if i < n ∧ j < m then Detector.clipLength H.equations (D.pixelCoordinate (a + i) (c + j)) ((1 / k.norm) • k) else 0)) = 0
    · rw [if_pos hz0]
      exact ⟨_, rfl, fun _ => Or.inr ⟨by omega, hz.1 hz0⟩, fun _ => rfl⟩
    · rw [if_neg hz0]
      refine ⟨_, rfl, ?_⟩
      constructor
      · intro e; cases e
      · rintro (⟨-, h, -⟩ | ⟨-, h⟩)
        · omega
        · exact absurd (hz.2 h) hz0

/-- C64, exactly, for elements whose illuminated part projects on whole pixels of the detector: macro rendering contains NaN if and only
if some hit's element covers more than one pixel and no traced ray sees it. -/
theorem C64_macro_nan_iff (D : Detector) (hpz : 0 < D.pz) (hpy : 0 < D.py) (env : RenderEnv) (hs : SamplesInside env.sample)
    (d : PeaksDict) (hcol : d.columns = peakColumns) (hlen : ∀ r ∈ d.peaks, r.length = 25) (mesh : TetraMesh) (frames : ℤ) (ml : Option ℝ) (mi : ℝ)
    (h : ∀ r ∈ (D.peaksIntersection d (max frames 1)).peaks, ∃ vs, IsMoved d mesh (D.peaksIntersection d (max frames 1)).columns r vs ∧
      ∀ H, env.hull d.beam vs = some H → IsHull H H.points ∧ OnPixels D H.points (kOut (D.peaksIntersection d (max frames 1)).columns r)) :
    ∃ t, D.render env d mesh frames .macro ml mi = .ok (t, D.peaksIntersection d (max frames 1)) ∧
      (t = none ↔ ∃ r ∈ (D.peaksIntersection d (max frames 1)).peaks, ∃ vs H,
        IsMoved d mesh (D.peaksIntersection d (max frames 1)).columns r vs ∧ env.hull d.beam vs = some H ∧
        Unseen D env.sample H (kOut (D.peaksIntersection d (max frames 1)).columns r)) := by
  rw [render_macro]
  set n := max frames 1 with hn
  have hn1 : 1 ≤ n := le_max_right _ _
  have hfr : ∀ r ∈ (D.peaksIntersection d n).peaks, ∃ k : ℕ, rcol r 28 = k ∧ k < n.toNat := by
    intro r hr
    obtain ⟨q, -, -, ⟨k, hk, h0, h1⟩, -⟩ := hitRows hn1 hlen r hr
    refine ⟨k.toNat, ?_, by omega⟩
    rw [hk]; exact_mod_cast (Int.toNat_of_nonneg h0).symm
  have hc : (D.peaksIntersection d n).columns = hitColumns := by show d.columns ++ _ = _; rw [hcol]; rfl
  rw [hc] at h ⊢
  have key : ∀ r ∈ (D.peaksIntersection d n).peaks, ∃ v, macroAdd D env d.beam mesh d.motion r = .ok v ∧
      (v = none ↔ ∃ vs H, IsMoved d mesh hitColumns r vs ∧ env.hull d.beam vs = some H ∧ Unseen D env.sample H (kOut hitColumns r)) := by
    intro r hr
    obtain ⟨vs, hmv, hH⟩ := h r hr
    unfold macroAdd Detector.macroPeak
    rw [movedVertices_of hmv]
    have same : ∀ vs', IsMoved d mesh hitColumns r vs' → vs' = vs := fun vs' h' => (movedVertices_of h').symm.trans (movedVertices_of hmv)
    cases hh : env.hull d.beam vs with
    | none =>
      refine ⟨_, rfl, ?_⟩
      constructor
      · intro e; cases e
      · rintro ⟨vs', H, h1, h2, -⟩
        rw [same vs' h1, hh] at h2; cases h2
    | some H =>
      obtain ⟨h1, h2⟩ := hH H hh
      obtain ⟨a, nn, c, m, hb, x, hx, hiff⟩ := projectHull_nan_iff hpz hpy hs h1 h2
      rw [kOut_eq] at hb hx
      simp only [hb, hx]
      have hiff' : x = none ↔ ∃ vs H, IsMoved d mesh hitColumns r vs ∧ env.hull d.beam vs = some H ∧ Unseen D env.sample H (kOut hitColumns r) := by
        rw [hiff]
        constructor
        · exact fun hu => ⟨vs, H, hmv, hh, hu⟩
        · rintro ⟨vs', H', g1, g2, g3⟩
          rw [same vs' g1, hh] at g2; cases g2; exact g3
      rw [← hiff']
      cases x with
      | none => exact ⟨_, rfl, by simp⟩
      | some f => exact ⟨_, rfl, by simp⟩
  rw [renderMacro_eq hfr, if_neg]
  · split_ifs with c1
    · refine ⟨_, rfl, fun _ => ?_, fun _ => rfl⟩
      obtain ⟨r, hr, he⟩ := c1
      obtain ⟨v, hv, hi⟩ := key r hr
      rw [hv] at he; cases he
      exact ⟨r, hr, hi.1 rfl⟩
    · refine ⟨_, rfl, fun e => absurd e (by simp), ?_⟩
      rintro ⟨r, hr, hu⟩
      obtain ⟨v, hv, hi⟩ := key r hr
      rw [hi.2 hu] at hv
      exact absurd ⟨r, hr, hv⟩ c1
  · rintro ⟨r, hr, he⟩
    obtain ⟨v, hv, -⟩ := key r hr
    rw [hv] at he; cases he

/-- the hypotheses of `C64_macro_nan_iff` hold in the scene with the block, whose one hit covers several pixels and is seen -/
example : ∃ t, (imgDet 1 1 (1/10)).render blockEnv (imgDict [blockRow]) (oneTet block) 1 .macro none (1/1000) =
    .ok (some t, (imgDet 1 1 (1/10)).peaksIntersection (imgDict [blockRow]) 1) ∧
    ¬ Unseen (imgDet 1 1 (1/10)) blockEnv.sample (tetraHull block.a block.b block.c block.d) ⟨1, 0, 0⟩ := by
  have hk : kOut hitColumns blockHit = ⟨1, 0, 0⟩ := by rw [kOut_eq]; rfl
  obtain ⟨t, ht, hiff⟩ := C64_macro_nan_iff (imgDet 1 1 (1/10)) (by show (0:ℝ) < 1; norm_num) (by show (0:ℝ) < 1; norm_num) blockEnv meanSampler_inside
    (imgDict [blockRow]) rfl (by intro r hr; have : r = blockRow := by simpa [imgDict] using hr
                                 rw [this]; rfl) (oneTet block) 1 none (1/1000) (by
      rw [show max (1:ℤ) 1 = 1 from rfl, block_hits]
      intro r hr
      rw [List.mem_singleton] at hr
      subst hr
      refine ⟨blockPts, oneTet_moved block _ 1 _ _ _ _, ?_⟩
      intro H hH
      have hH' : plainHull demoBeam blockPts = some H := hH
      rw [block_hull.1] at hH'
      cases hH'
      have hp : (tetraHull block.a block.b block.c block.d).points = blockPts := rfl
      have hk' : kOut ((imgDet 1 1 (1/10)).peaksIntersection (imgDict [blockRow]) 1).columns blockHit = ⟨1, 0, 0⟩ := hk
      rw [hp, hk']
      exact ⟨block_hull.2, block_onPixels⟩)
  obtain ⟨t', ht'⟩ := block_renders
  rw [show max (1:ℤ) 1 = 1 from rfl] at ht hiff
  rw [ht'] at ht
  have e := (Prod.mk.inj (Except.ok.inj ht)).1
  refine ⟨t', ht', ?_⟩
  intro hu
  have : t = none := hiff.2 ⟨blockHit, by rw [block_hits]; exact List.mem_singleton.mpr rfl, blockPts, _, oneTet_moved block _ 1 _ _ _ _,
    block_hull.1, by
      have hk' : kOut ((imgDet 1 1 (1/10)).peaksIntersection (imgDict [blockRow]) 1).columns blockHit = ⟨1, 0, 0⟩ := hk
      rw [hk']; exact hu⟩
  rw [this] at e; cases e

end XRD
