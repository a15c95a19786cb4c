import Verif.Props.Bright

/-! Property C119: what every pixel of a `micro` image is; and the exact form of C94 for `micro`. -/

namespace XRD
open V3 M3 Fl Spec
open scoped Classical

namespace Spec
variable (D : Detector) (cols : List String) (row : List Fl)

/-- where on the detector the ray of a hit arrives, in pixels -/
noncomputable def atZ : ℝ := val cols row "zd" / D.pz
noncomputable def atY : ℝ := val cols row "yd" / D.py
/-- variance of the bell: that of the point spread plus 0.7² -/
noncomputable def bellVar : ℝ := 49 / 100 + D.sigma ^ 2
/-- how many pixels from the pixel nearest to the hit the bell reaches: three standard deviations and at least three pixels -/
noncomputable def bellReach : ℤ := max 3 (⌊3 * Real.sqrt (bellVar D)⌋ + 1)
/-- height of the bell of a hit at the pixel `(i, j)` -/
noncomputable def bell (i j : ℤ) : ℝ :=
  Real.exp (-(((i : ℝ) - atZ D cols row) ^ 2 + ((j : ℝ) - atY D cols row) ^ 2) / (2 * bellVar D))
/-- sum of the heights of the bell over the square of pixels it reaches -/
noncomputable def bellTotal : ℝ :=
  ∑ i ∈ Finset.Icc (roundEven (atZ D cols row) - bellReach D) (roundEven (atZ D cols row) + bellReach D),
    ∑ j ∈ Finset.Icc (roundEven (atY D cols row) - bellReach D) (roundEven (atY D cols row) + bellReach D), bell D cols row i j
/-- light that a hit sends to the pixel `(i, j)`: its intensity times the illuminated volume, spread like the bell -/
noncomputable def glow (i j : ℤ) : ℝ :=
  if |i - roundEven (atZ D cols row)| ≤ bellReach D ∧ |j - roundEven (atY D cols row)| ≤ bellReach D then
    bell D cols row i j / (bellTotal D cols row + 1 / 10 ^ 12) * (val cols row "intensity_factors" * val cols row "volumes")
  else 0
end Spec

theorem window_toFinset (r : ℕ) : (Detector.window r).toFinset = Finset.Icc (-(r : ℤ)) r ×ˢ Finset.Icc (-(r : ℤ)) r := by
  ext o
  rw [List.mem_toFinset, mem_window, Finset.mem_product, Finset.mem_Icc, Finset.mem_Icc, abs_le, abs_le]

theorem microSigma_sq_bell (D : Detector) : D.microSigma ^ 2 = bellVar D := by
  unfold Detector.microSigma bellVar
  rw [Real.sq_sqrt (by positivity)]; norm_num

theorem microRadius_eq (D : Detector) : (D.microRadius : ℤ) = bellReach D := by
  unfold Detector.microRadius bellReach
  have h : D.microSigma = Real.sqrt (bellVar D) := by
    unfold Detector.microSigma bellVar; congr 1; norm_num
  rw [h]
  push_cast
  rw [Int.natCast_floor_eq_floor (by positivity)]

theorem microW_eq (D : Detector) (cols : List String) (row : List Fl) (o : ℤ × ℤ) :
    D.microW (atZ D cols row) (atY D cols row) o =
      bell D cols row (roundEven (atZ D cols row) + o.1) (roundEven (atY D cols row) + o.2) := by
  unfold Detector.microW bell
  rw [microSigma_sq_bell]

theorem microTotal_eq (D : Detector) (cols : List String) (row : List Fl) :
    ((Detector.window D.microRadius).map (D.microW (atZ D cols row) (atY D cols row))).sum = bellTotal D cols row := by
  rw [← List.sum_toFinset _ (window_nodup _), window_toFinset, Finset.sum_product, microRadius_eq]
  unfold bellTotal
  have shift : ∀ (a R : ℤ) (g : ℤ → ℝ), ∑ i ∈ Finset.Icc (-R) R, g (a + i) = ∑ i ∈ Finset.Icc (a - R) (a + R), g i := by
    intro a R g
    rw [show Finset.Icc (a - R) (a + R) = (Finset.Icc (-R) R).image (fun i => a + i) by
      rw [Finset.image_add_left_Icc]; rfl, Finset.sum_image (by intro x _ y _ h; simpa using h)]
  rw [← shift (roundEven (atZ D cols row)) (bellReach D) fun i => ∑ j ∈ _, bell D cols row i j]
  apply Finset.sum_congr rfl
  intro i _
  rw [← shift (roundEven (atY D cols row)) (bellReach D) fun j => bell D cols row _ j]
  exact Finset.sum_congr rfl fun j _ => microW_eq D cols row (i, j)

/-- one hit -/
theorem micro_hit_pixel {D : Detector} {row : List Fl} {k : ℤ} {n f i j : ℕ} (hk : rcol row 28 = k) (h0 : 0 ≤ k) (h1 : k < n)
    (hi : i < D.nz) (hj : j < D.ny) :
    stackOf n D.nz D.ny (D.microDeposits row) f i j =
      if val hitColumns row "frame" = (f : ℝ) ∧ glow D hitColumns row i j > 1 / 10 ^ 6 then glow D hitColumns row i j else 0 := by
  rw [stackOf_microDeposits hk h0 h1 hi hj]
  have e25 : rcol row 25 / D.pz = atZ D hitColumns row := by unfold atZ; rw [rcol_eq _ "zd" (j := 25) rfl]
  have e26 : rcol row 26 / D.py = atY D hitColumns row := by unfold atY; rw [rcol_eq _ "yd" (j := 26) rfl]
  rw [e25, e26, microTotal_eq, rcol_eq _ "frame" (j := 28) rfl, hk]
  have hkf : ((k : ℝ) = (f : ℝ)) ↔ k = f := by exact_mod_cast Iff.rfl
  rw [← List.sum_toFinset _ (window_nodup _), window_toFinset, microRadius_eq]
  simp only [microW_eq, hkf]
  have eI : rcol row 29 * rcol row 21 = val hitColumns row "intensity_factors" * val hitColumns row "volumes" := by
    rw [rcol_eq _ "intensity_factors" (j := 29) rfl, rcol_eq _ "volumes" (j := 21) rfl]
  rw [eI]
  set o : ℤ × ℤ := ((i : ℤ) - roundEven (atZ D hitColumns row), (j : ℤ) - roundEven (atY D hitColumns row)) with ho
  have o1 : roundEven (atZ D hitColumns row) + o.1 = i := by rw [ho]; simp
  have o2 : roundEven (atY D hitColumns row) + o.2 = j := by rw [ho]; simp
  by_cases hin : |(i : ℤ) - roundEven (atZ D hitColumns row)| ≤ bellReach D ∧ |(j : ℤ) - roundEven (atY D hitColumns row)| ≤ bellReach D
  · have hmem : o ∈ Finset.Icc (-bellReach D) (bellReach D) ×ˢ Finset.Icc (-bellReach D) (bellReach D) := by
      rw [Finset.mem_product, Finset.mem_Icc, Finset.mem_Icc, ← abs_le, ← abs_le]; exact hin
    rw [Finset.sum_eq_single o]
    · rw [o1, o2]
      have : glow D hitColumns row i j = bell D hitColumns row i j / (bellTotal D hitColumns row + 1 / 10 ^ 12) *
          (val hitColumns row "intensity_factors" * val hitColumns row "volumes") := by unfold glow; rw [if_pos hin]
      rw [this]
      simp
    · intro q _ hq
      rw [if_neg]
      rintro ⟨-, g1, g2, -⟩
      apply hq
      ext <;> rw [ho] <;> dsimp only <;> omega
    · exact fun h => absurd hmem h
  · have : glow D hitColumns row i j = 0 := by unfold glow; rw [if_neg hin]
    rw [this, if_neg (by rintro ⟨-, h⟩; norm_num at h)]
    apply Finset.sum_eq_zero
    intro q hq
    rw [Finset.mem_product, Finset.mem_Icc, Finset.mem_Icc, ← abs_le, ← abs_le] at hq
    rw [if_neg]
    rintro ⟨-, g1, g2, -⟩
    apply hin
    rw [show (i : ℤ) - roundEven (atZ D hitColumns row) = q.1 by omega, show (j : ℤ) - roundEven (atY D hitColumns row) = q.2 by omega]
    exact hq

/-- C119: `micro` never fails, and the pixel `(i, j)` of frame `f` is the sum of the light of the hits of that frame, contributions up to
a millionth being dropped. -/
theorem C119_micro_pixels (D : Detector) (env : RenderEnv) (d : PeaksDict) (hcol : d.columns = peakColumns) (hlen : ∀ r ∈ d.peaks, r.length = 25)
    (mesh : TetraMesh) (frames : ℤ) (ml : Option ℝ) (mi : ℝ) :
    ∃ t, D.render env d mesh frames .micro ml mi = .ok (some t, D.peaksIntersection d (max frames 1)) ∧
      ∀ f i j : ℕ, i < D.nz → j < D.ny →
        t f i j = (((D.peaksIntersection d (max frames 1)).peaks.filter fun r =>
            val (D.peaksIntersection d (max frames 1)).columns r "frame" = (f : ℝ) ∧
            glow D (D.peaksIntersection d (max frames 1)).columns r i j > 1 / 10 ^ 6).map
          fun r => glow D (D.peaksIntersection d (max frames 1)).columns r i j).sum := by
  have hcols : (D.peaksIntersection d (max frames 1)).columns = hitColumns := by
    show d.columns ++ _ = _; rw [hcol]; rfl
  refine ⟨_, render_micro_ok hlen, ?_⟩
  intro f i j hi hj
  rw [hcols, stackOf_flatMap]
  have hn1 : 1 ≤ max frames 1 := le_max_right _ _
  have hrows := hitRows (D := D) (d := d) hn1 hlen
  generalize (D.peaksIntersection d (max frames 1)).peaks = l at hrows ⊢
  induction l with
  | nil => simp
  | cons r l ih =>
    obtain ⟨q, -, -, ⟨k, hk, h0, h1⟩, -⟩ := hrows r List.mem_cons_self
    rw [List.map_cons, List.sum_cons, ih (fun r hr => hrows r (List.mem_cons_of_mem _ hr)), micro_hit_pixel hk h0 (by omega) hi hj, List.filter_cons]
    by_cases h : val hitColumns r "frame" = (f : ℝ) ∧ glow D hitColumns r i j > 1 / 10 ^ 6
    · rw [if_pos h, if_pos (by simpa using h), List.map_cons, List.sum_cons]
    · rw [if_neg h, if_neg (by simpa using h), zero_add]

/-- C119 applied to a hit in the middle of a pixel: that pixel gets more than a hundredth of its light -/
example (env : RenderEnv) (mesh : TetraMesh) (ml : Option ℝ) (mi : ℝ) : ∃ t,
    (imgDet 1 1 (1/10)).render env (imgDict [imgRow 0 0 0 (1/2) 1 0]) mesh 1 .micro ml mi =
      .ok (some t, (imgDet 1 1 (1/10)).peaksIntersection (imgDict [imgRow 0 0 0 (1/2) 1 0]) (max 1 1)) ∧ 1 / 100 < t 0 100 100 := by
  set D := imgDet 1 1 (1/10) with hD
  have hh : (D.peaksIntersection (imgDict [imgRow 0 0 0 (1/2) 1 0]) (max 1 1)).peaks = [imgHit 1 0 0 0 (1/2) 1 0] := by
    rw [hD, imgDict_kept 1 1 _ _ 0 0 0 (1/2) 1 0 (by norm_num) (by norm_num) _ (by simp)]
    rfl
  obtain ⟨t, ht, hp⟩ := C119_micro_pixels D env (imgDict [imgRow 0 0 0 (1/2) 1 0]) rfl (by
    intro r hr
    have : r = imgRow 0 0 0 (1/2) 1 0 := by simpa [imgDict] using hr
    rw [this]; rfl) mesh 1 ml mi
  refine ⟨t, ht, ?_⟩
  have hnz : D.nz = 200 := by rw [hD]; unfold Detector.nz imgDet; norm_num
  have hny : D.ny = 200 := by rw [hD]; unfold Detector.ny imgDet; norm_num
  rw [hp 0 100 100 (by omega) (by omega), hh]
  have hc : (D.peaksIntersection (imgDict [imgRow 0 0 0 (1/2) 1 0]) (max 1 1)).columns = hitColumns := rfl
  rw [hc]
  set r := imgHit 1 0 0 0 (1/2) 1 0 with hr
  have ez : atZ D hitColumns r = 100 := by
    unfold atZ
    have : val hitColumns r "zd" = 0 + 100 := rfl
    rw [this]; show (0 + 100 : ℝ) / 1 = 100; norm_num
  have ey : atY D hitColumns r = 100 := by
    unfold atY
    have : val hitColumns r "yd" = 0 + 100 := rfl
    rw [this]; show (0 + 100 : ℝ) / 1 = 100; norm_num
  have er : roundEven (100 : ℝ) = 100 := by
    have := abs_le.mp (roundEven_near 100)
    have h1 : ((99 : ℤ) : ℝ) < (roundEven 100 : ℝ) := by push_cast; linarith [this.1]
    have h2 : (roundEven 100 : ℝ) < ((101 : ℤ) : ℝ) := by push_cast; linarith [this.2]
    rw [Int.cast_lt] at h1 h2
    omega
  have hv : bellVar D = 149 / 100 := by unfold bellVar; show (49 / 100 + (1:ℝ) ^ 2) = _; norm_num
  have hR : bellReach D = 4 := by
    unfold bellReach
    rw [hv]
    have h1 : 1 ≤ Real.sqrt (149 / 100) := by rw [Real.one_le_sqrt]; norm_num
    have h2 : Real.sqrt (149 / 100) < 4 / 3 := by rw [Real.sqrt_lt' (by norm_num)]; norm_num
    have : ⌊3 * Real.sqrt (149 / 100)⌋ = 3 := by rw [Int.floor_eq_iff]; constructor <;> push_cast <;> linarith
    rw [this]; rfl
  have hb1 : ∀ i j, bell D hitColumns r i j ≤ 1 := by
    intro i j
    unfold bell
    rw [Real.exp_le_one_iff, hv]
    apply div_nonpos_of_nonpos_of_nonneg
    · have := sq_nonneg ((i : ℝ) - atZ D hitColumns r)
      have := sq_nonneg ((j : ℝ) - atY D hitColumns r)
      linarith
    · norm_num
  have hb0 : bell D hitColumns r 100 100 = 1 := by unfold bell; rw [ez, ey]; norm_num
  have hT : bellTotal D hitColumns r ≤ 81 := by
    unfold bellTotal
    rw [ez, ey, er, hR]
    have : ∀ i ∈ Finset.Icc ((100:ℤ) - 4) (100 + 4), ∑ j ∈ Finset.Icc ((100:ℤ) - 4) (100 + 4), bell D hitColumns r i j ≤ 9 := by
      intro i _
      refine (Finset.sum_le_card_nsmul _ _ 1 fun j _ => hb1 i j).trans ?_
      rw [show (Finset.Icc ((100:ℤ) - 4) (100 + 4)).card = 9 by rfl]; norm_num
    refine (Finset.sum_le_card_nsmul _ _ 9 this).trans ?_
    rw [show (Finset.Icc ((100:ℤ) - 4) (100 + 4)).card = 9 by rfl]; norm_num
  have hT0 : 0 ≤ bellTotal D hitColumns r :=
    Finset.sum_nonneg fun i _ => Finset.sum_nonneg fun j _ => (Real.exp_pos _).le
  have hg : 1 / 100 < glow D hitColumns r ((100 : ℕ) : ℤ) ((100 : ℕ) : ℤ) := by
    unfold glow
    rw [ez, ey, er, hR, if_pos (by norm_num)]
    have hI : val hitColumns r "intensity_factors" * val hitColumns r "volumes" = 1 := by
      show (1:ℝ) * 1 = 1; norm_num
    rw [hI, show (((100 : ℕ) : ℤ)) = 100 by rfl, hb0, mul_one, lt_div_iff₀ (by positivity)]
    linarith
  have hf : val hitColumns r "frame" = ((0 : ℕ) : ℝ) := by
    show ((frameOf 1 (1/2) : ℤ) : ℝ) = _
    unfold frameOf; norm_num
  rw [List.filter_cons, if_pos (by simp only [hf, decide_eq_true_eq]; exact ⟨trivial, lt_trans (by norm_num) hg⟩)]
  simpa using hg

/-! ### C94, exactly -/

theorem sum_eq_iff_of_le {α : Type} {l : List α} {a b : α → ℝ} (h : ∀ r ∈ l, a r ≤ b r) :
    (l.map a).sum = (l.map b).sum ↔ ∀ r ∈ l, a r = b r := by
  induction l with
  | nil => simp
  | cons r l ih =>
    have hl := fun q hq => h q (List.mem_cons_of_mem r hq)
    have h1 := h r List.mem_cons_self
    have h2 : (l.map a).sum ≤ (l.map b).sum := List.sum_le_sum hl
    simp only [List.map_cons, List.sum_cons, List.forall_mem_cons, ← ih hl]
    constructor
    · intro e; constructor <;> linarith
    · rintro ⟨e1, e2⟩; rw [e1, e2]

theorem cut_scaled_iff {α : Type} {c τ : ℝ} (hc : 0 < c) (hτ : 0 < τ) (l : List α) (v : α → ℝ) :
    (l.map fun r => if c * v r > τ then c * v r else 0).sum = c * (l.map fun r => if v r > τ then v r else 0).sum ↔
      ∀ r ∈ l, (c * v r > τ ↔ v r > τ) := by
  rw [show c * (l.map fun r => if v r > τ then v r else 0).sum = (l.map fun r => c * (if v r > τ then v r else 0)).sum from
    (List.sum_map_mul_left l _ c).symm]
  have one : ∀ r, (if c * v r > τ then c * v r else 0) = c * (if v r > τ then v r else 0) ↔ (c * v r > τ ↔ v r > τ) := by
    intro r
    by_cases h1 : c * v r > τ <;> by_cases h2 : v r > τ
    · simp [h1, h2]
    · have : c * v r ≠ 0 := by linarith
      simp only [h1, h2, if_true, if_false, MulZeroClass.mul_zero, this, iff_false, not_true]
    · have : c * v r ≠ 0 := (mul_pos hc (by linarith)).ne'
      simp only [h1, h2, if_true, if_false, this.symm, iff_true]
    · simp [h1, h2]
  rcases le_total c 1 with h | h
  · rw [sum_eq_iff_of_le]
    · exact forall₂_congr fun r _ => one r
    · intro r _
      split_ifs with h1 h2 h2
      · exact le_rfl
      · exfalso
        have : 0 < v r := by
          by_contra hv
          nlinarith
        nlinarith
      · exact (mul_pos hc (by linarith)).le
      · simp
  · rw [eq_comm, sum_eq_iff_of_le]
    · exact forall₂_congr fun r _ => eq_comm.trans (one r)
    · intro r _
      split_ifs with h1 h2 h2
      · exact le_rfl
      · exfalso; nlinarith
      · rw [MulZeroClass.mul_zero]; linarith
      · simp

theorem glow_br {c : ℝ} {D : Detector} {d : PeaksDict} {n : ℤ} (hn : 1 ≤ n) (hlen : ∀ r ∈ d.peaks, r.length = 25) {r : List Fl}
    (hr : r ∈ (D.peaksIntersection d n).peaks) (i j : ℤ) :
    glow D hitColumns (br c r) i j = c * glow D hitColumns r i j ∧ val hitColumns (br c r) "frame" = val hitColumns r "frame" := by
  obtain ⟨hb, h29⟩ := br_cols (c := c) hn hlen hr
  have e : ∀ j, j ≠ 5 → j ≠ 29 → rcol (br c r) j = rcol r j := fun j h5 h29 => rcol_congr (hb j h5 h29)
  have ez : atZ D hitColumns (br c r) = atZ D hitColumns r := by
    unfold atZ; rw [rcol_eq _ "zd" (j := 25) rfl, rcol_eq _ "zd" (j := 25) rfl, e 25 (by norm_num) (by norm_num)]
  have ey : atY D hitColumns (br c r) = atY D hitColumns r := by
    unfold atY; rw [rcol_eq _ "yd" (j := 26) rfl, rcol_eq _ "yd" (j := 26) rfl, e 26 (by norm_num) (by norm_num)]
  have eb : ∀ i j, bell D hitColumns (br c r) i j = bell D hitColumns r i j := by intro i j; unfold bell; rw [ez, ey]
  constructor
  · unfold glow bellTotal
    simp only [ez, ey, eb]
    rw [rcol_eq _ "intensity_factors" (j := 29) rfl, rcol_eq _ "intensity_factors" (j := 29) rfl, h29, rcol_eq _ "volumes" (j := 21) rfl,
      rcol_eq _ "volumes" (j := 21) rfl, e 21 (by norm_num) (by norm_num)]
    split_ifs <;> ring
  · rw [rcol_eq _ "frame" (j := 28) rfl, rcol_eq _ "frame" (j := 28) rfl, e 28 (by norm_num) (by norm_num)]

/-- C94, `micro`, exactly: a pixel becomes `c` times as bright if and only if multiplying by `c` moves no hit's light in that pixel
across the limit of a millionth. -/
theorem C94_brightness_micro_iff {c : ℝ} (hc : 0 < c) (D : Detector) (hD : D.useStructureFactor = true) (env : RenderEnv)
    (d : PeaksDict) (hcol : d.columns = peakColumns) (hlen : ∀ r ∈ d.peaks, r.length = 25) (mesh : TetraMesh) (frames : ℤ) (ml : Option ℝ) (mi : ℝ) :
    ∃ t t' out out', D.render env d mesh frames .micro ml mi = .ok (some t, out) ∧
      D.render env (brighter c d) mesh frames .micro ml mi = .ok (some t', out') ∧
      ∀ f i j : ℕ, i < D.nz → j < D.ny → (t' f i j = c * t f i j ↔
        ∀ r ∈ out.peaks, val out.columns r "frame" = (f : ℝ) →
          (c * glow D out.columns r i j > 1 / 10 ^ 6 ↔ glow D out.columns r i j > 1 / 10 ^ 6)) := by
  have hlen' : ∀ r ∈ (brighter c d).peaks, r.length = 25 := by
    intro r hr
    rw [brighter_peaks] at hr
    obtain ⟨q, hq, rfl⟩ := List.mem_map.mp hr
    rw [br5_length]; exact hlen q hq
  have hcols : (D.peaksIntersection d (max frames 1)).columns = hitColumns := by
    show d.columns ++ _ = _; rw [hcol]; rfl
  have hcols' : (D.peaksIntersection (brighter c d) (max frames 1)).columns = hitColumns := by
    show d.columns ++ _ = _; rw [hcol]; rfl
  obtain ⟨t, ht, hp⟩ := C119_micro_pixels D env d hcol hlen mesh frames ml mi
  obtain ⟨t', ht', hp'⟩ := C119_micro_pixels D env (brighter c d) hcol hlen' mesh frames ml mi
  refine ⟨t, t', _, _, ht, ht', ?_⟩
  intro f i j hi hj
  rw [hp f i j hi hj, hp' f i j hi hj, hcols, hcols', brighter_hits hc hD hlen]
  have hn1 : 1 ≤ max frames 1 := le_max_right _ _
  have hg := fun r hr => glow_br (c := c) (D := D) (d := d) hn1 hlen (r := r) hr i j
  generalize (D.peaksIntersection d (max frames 1)).peaks = l at hg ⊢
  set L := l.filter fun r => val hitColumns r "frame" = (f : ℝ) with hL
  have key := cut_scaled_iff hc (show (0:ℝ) < 1 / 10 ^ 6 by norm_num) L fun r => glow D hitColumns r i j
  have fil : ∀ (m : List (List Fl)) (p : List Fl → Bool) (g : List Fl → ℝ), ((m.filter p).map g).sum = (m.map fun r => if p r then g r else 0).sum := by
    intro m p g
    induction m with
    | nil => simp
    | cons r m ih => by_cases h : p r <;> simp [h, ih]
  have e1 : ((l.filter fun r => val hitColumns r "frame" = (f : ℝ) ∧ glow D hitColumns r i j > 1 / 10 ^ 6).map fun r => glow D hitColumns r i j).sum
      = (L.map fun r => if glow D hitColumns r i j > 1 / 10 ^ 6 then glow D hitColumns r i j else 0).sum := by
    rw [hL, fil, fil]
    congr 1; apply List.map_congr_left; intro r _
    by_cases h : val hitColumns r "frame" = (f : ℝ) <;> simp [h]
  have e2 : (((l.map (br c)).filter fun r => val hitColumns r "frame" = (f : ℝ) ∧ glow D hitColumns r i j > 1 / 10 ^ 6).map fun r => glow D hitColumns r i j).sum
      = (L.map fun r => if c * glow D hitColumns r i j > 1 / 10 ^ 6 then c * glow D hitColumns r i j else 0).sum := by
    rw [hL, fil, fil, List.map_map]
    congr 1; apply List.map_congr_left; intro r hr
    obtain ⟨h1, h2⟩ := hg r hr
    simp only [Function.comp, h1, h2]
    by_cases h : val hitColumns r "frame" = (f : ℝ) <;> simp [h]
  rw [e1, e2, key, hL]
  simp only [List.mem_filter, decide_eq_true_eq, and_imp]

end XRD
