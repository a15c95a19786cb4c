import Verif.Props.Split
import Verif.Props.Backward
import Verif.Props.Motion
import Mathlib.Data.List.NodupEquivFin

/-! Exact extents of partial properties: C02 (which events are missed), C03 (which events are reported twice), C05 (which motions are
rigid). -/

namespace XRD
open V3 M3 Fl Spec
open scoped Classical

/-! ### C02 -/

/-- a reflection that would satisfy the Laue condition after half a turn is found at no time -/
theorem not_found_of_half {b : Beam} {m : Motion} {G : V3} {t : ℝ} (ha : nsq m.axis = 1)
    (h : Elastic b.waveVector (rotate m.axis Real.pi G)) : ¬ Found b m G t := by
  rw [← degenerate_iff ha] at h
  unfold Found
  rw [laueRoots_nan h]
  simp [laueTime, keepTime]

/-- **C02**, exact extent: an event in `[0,1]` whose source point is inside the beam is reported if and only if the same diffraction
vector would not satisfy the Laue condition after exactly half a turn. -/
theorem C02_reported_iff (c : Crystal) (b : Beam) (a T o : V3) (w : ℝ) (m : Motion) (d : PeaksDict)
    (hm : Motion.new a w T o = .ok m) (ha : norm a = 1) (hc : ∀ ph ∈ c.phases, ph.Consistent)
    (hd : diffractCore c b m = .ok d)
    (e i n : ℕ) (ph : Phase) (hkl : HKL) (wt t : ℝ)
    (hmap : c.phaseMap[e]? = some (i : ℝ)) (hph : c.phases[i]? = some ph) (hu : UsablePlane ph n hkl wt)
    (ht0 : 0 ≤ t) (ht1 : t ≤ 1)
    (hlaue : Elastic b.waveVector (Spec.rotate a (t * w) (c.G0 e hkl)))
    (hill : b.contains (m.call1 (c.sphereCentroids.getD e 0) t)) :
    (∃ row ∈ d.peaks, Has d.columns row "grain_index" (fin e) ∧ Has d.columns row "phase_number" (fin i) ∧
      HasV d.columns row "h" "k" "l" hkl.toV ∧ Has d.columns row "diffraction_times" (fin t)) ↔
    ¬ Elastic b.waveVector (Spec.rotate a Real.pi (c.G0 e hkl)) := by
  constructor
  · rintro ⟨row, hrow, h1, -, h2, -⟩ hel
    obtain ⟨e', i', ph', n', hkl', wt', t', idx, -, hf, -, rfl⟩ := mem_diffract hc hd hrow
    rw [diffract_columns hd] at h1 h2
    have he : (e : ℝ) = e' := by
      have := (has_iff 0 rfl).mp h1
      simpa [row24] using this.symm
    have he' : e = e' := by exact_mod_cast he
    subst he'
    obtain ⟨g1, g2, g3⟩ := h2
    have k1 := (has_iff 2 rfl).mp g1
    have k2 := (has_iff 3 rfl).mp g2
    have k3 := (has_iff 4 rfl).mp g3
    have hG : c.G0 e hkl' = c.G0 e hkl := by
      have : hkl'.toV = hkl.toV := by
        ext
        · simpa [row24, HKL.toV] using k1
        · simpa [row24, HKL.toV] using k2
        · simpa [row24, HKL.toV] using k3
      unfold Crystal.G0; rw [this]
    rw [hG] at hf
    obtain ⟨rfl, -⟩ := Motion.new_ok hm
    exact not_found_of_half (m := ⟨a, w, T, o⟩) (norm_eq_one.mp ha) hel hf
  · exact C02_no_event_missed_partial c b a T o w m d hm ha hc hd e i n ph hkl wt t hmap hph hu ht0 ht1 hlaue hill

/-- both outcomes occur: the missed crystal and the tangent one -/
example : Elastic demoBeam.waveVector (Spec.rotate ⟨0, 0, 1⟩ Real.pi (missedCrystal.G0 0 ⟨1, 0, 0⟩)) := by
  rw [missed_G0, elastic_iff, ← rotMat_eq_spec (norm_eq_one.mp norm_ez), IsRot.nsq_mulVec (rotMat_isRot (norm_eq_one.mp norm_ez) _).1]
  simp [demoBeam, rotMat, crossMat2, crossMat, nsq, V3.dot, mulVec, vecMul]
  norm_num

/-! ### C03 -/

/-- a double root is found by both branches -/
theorem both_branches {f0 f1 f2 G : V3} {dω t : ℝ} (hd : 0 < dω) {pick : Fl × Fl → Fl} (hpick : pick = Prod.fst ∨ pick = Prod.snd)
    (h : keepTime (laueTime (pick (laueRoots f0 f1 f2 G)) dω) = some t)
    (hz : -(f0.dot G) * Real.sin (t * dω) + f1.dot G * Real.cos (t * dω) = 0) :
    (laueRoots f0 f1 f2 G).1 = (laueRoots f0 f1 f2 G).2 := by
  obtain ⟨hl, -, -, s, hs, ht⟩ := branch_sound hd hpick h
  by_cases hD : f2.dot G + nsq G / 2 - f0.dot G = 0
  · rw [laueRoots_nan hD]
  have hp : 0 < 1 + s ^ 2 := by positivity
  have hc : Real.cos (2 * Real.arctan s) = (1 - s ^ 2) / (1 + s ^ 2) := by
    rw [Real.cos_two_mul, Real.cos_sq_arctan]; field_simp; ring
  have hsn : Real.sin (2 * Real.arctan s) = 2 * s / (1 + s ^ 2) := by
    rw [Real.sin_two_mul]
    have h5 := Real.cos_sq_arctan s
    have h6 : Real.sin (Real.arctan s) = s * Real.cos (Real.arctan s) := by
      have := Real.tan_arctan s
      rw [Real.tan_eq_sin_div_cos, div_eq_iff (Real.cos_arctan_pos s).ne'] at this
      exact this
    rw [h6]
    have : 2 * (s * Real.cos (Real.arctan s)) * Real.cos (Real.arctan s) = 2 * s * Real.cos (Real.arctan s) ^ 2 := by ring
    rw [this, h5]; field_simp
  rw [ht] at hl hz
  have hq := (half_angle s _ _ _).mp hl
  rw [hc, hsn] at hz
  have hz' : -(f0.dot G) * (2 * s) + f1.dot G * (1 - s ^ 2) = 0 := by
    have : (-(f0.dot G) * (2 * s) + f1.dot G * (1 - s ^ 2)) / (1 + s ^ 2) = 0 := by rw [← hz]; ring
    rcases div_eq_zero_iff.mp this with h | h
    · exact h
    · exact absurd h hp.ne'
  have hroot : (f2.dot G + nsq G / 2 - f0.dot G) * s + f1.dot G = 0 := by
    have : ((f2.dot G + nsq G / 2 - f0.dot G) * s + f1.dot G) * (1 + s ^ 2) = 0 := by
      linear_combination hz' + s * hq
    rcases mul_eq_zero.mp this with h | h
    · exact h
    · exact absurd h hp.ne'
  have hss : s = -(f1.dot G / (f2.dot G + nsq G / 2 - f0.dot G)) := by
    rw [← neg_div, eq_div_iff hD]; linarith
  rw [laueRoots_ne hD] at hs ⊢
  simp only at hs ⊢
  set D := f2.dot G + nsq G / 2 - f0.dot G with hDdef
  split_ifs at hs ⊢ with hneg
  · rfl
  have h0 : Real.sqrt (f1.dot G / D * (f1.dot G / D) - (f2.dot G + nsq G / 2 + f0.dot G) / D) = 0 := by
    rcases hpick with rfl | rfl
    · have := Fl.fin.inj hs; linarith
    · have := Fl.fin.inj hs; linarith
  rw [h0]; norm_num

/-- the ten-column row of a grazing event occurs twice -/
theorem grazing_twice {c : Crystal} {b : Beam} {m : Motion} (ha : nsq m.axis = 1) (hw : 0 < m.angle)
    (hc : ∀ ph ∈ c.phases, ph.Consistent) {e i : ℕ} {ph : Phase} {n : ℕ} {hkl : HKL} {wt t : ℝ}
    (hr : Reflection c e i ph n hkl wt) (hf : Found b m (c.G0 e hkl) t)
    (hz : b.waveVector.dot (cross m.axis (m.rotate1 (c.G0 e hkl) t)) = 0) :
    List.Sublist [row10 c e i hkl wt t, row10 c e i hkl wt t] (allPhaseRows c b m) := by
  obtain ⟨h1, h2, h3⟩ := hr
  have hz' : -((rho0Factor b.waveVector m.axis).dot (c.G0 e hkl)) * Real.sin (t * m.angle) +
      (rho1Factor b.waveVector m.axis).dot (c.G0 e hkl) * Real.cos (t * m.angle) = 0 := by
    rw [laue_derivative ha, mul_comm t]; exact hz
  have heq : (laueRoots (rho0Factor b.waveVector m.axis) (rho1Factor b.waveVector m.axis) (rho2Factor b.waveVector m.axis) (c.G0 e hkl)).1 =
      (laueRoots (rho0Factor b.waveVector m.axis) (rho1Factor b.waveVector m.axis) (rho2Factor b.waveVector m.axis) (c.G0 e hkl)).2 := by
    rcases hf with h | h
    · exact both_branches hw (.inl rfl) h hz'
    · exact both_branches hw (.inr rfl) h hz'
  have hk : keepTime (laueTime (laueRoots (rho0Factor b.waveVector m.axis) (rho1Factor b.waveVector m.axis)
      (rho2Factor b.waveVector m.axis) (c.G0 e hkl)).1 m.angle) = some t := by
    rcases hf with h | h
    · exact h
    · rw [heq]; exact h
  have hi := (List.getElem?_eq_some_iff.mp h2).1
  have hcon := hc ph (List.mem_of_getElem? h2)
  obtain ⟨p, hp1, hp2⟩ := activePlanes_complete ph hcon h3
  obtain ⟨g, hg, hge⟩ := List.mem_iff_getElem.mp (mem_grainIndices.mpr h1)
  have hg' : (grainIndices c.phaseMap i)[g]? = some e := List.getElem?_eq_some_iff.mpr ⟨hg, hge⟩
  have hsub : List.Sublist [row10 c e i hkl wt t, row10 c e i hkl wt t] (phaseRows c b m i ph) := by
    have hrow : row10 c e i hkl wt t = (fun s : LaueSol =>
        [((((grainIndices c.phaseMap i).getD s.grain 0 : ℕ)) : ℝ), (i : ℝ), ((((activePlanes ph).1.map HKL.toV).getD s.plane 0)).x,
          ((((activePlanes ph).1.map HKL.toV).getD s.plane 0)).y, ((((activePlanes ph).1.map HKL.toV).getD s.plane 0)).z,
          (activePlanes ph).2.getD s.plane 0, s.time, s.G.x, s.G.y, s.G.z]) ⟨g, p, t, c.G0 e hkl⟩ := by
      unfold row10
      simp [List.getD_eq_getElem?_getD, hg', hp1, hp2, HKL.toV]
    have : List.Sublist [(⟨g, p, t, c.G0 e hkl⟩ : LaueSol), ⟨g, p, t, c.G0 e hkl⟩]
        (laueSolutions ((grainIndices c.phaseMap i).map fun e => (activePlanes ph).1.map fun p => getG (c.orientation.getD e 0) (c.eB.getD e 0) p.toV)
          (rho0Factor b.waveVector m.axis) (rho1Factor b.waveVector m.axis) (rho2Factor b.waveVector m.axis) m.angle) := by
      unfold laueSolutions
      refine List.Sublist.append (l₁ := [_]) (r₁ := [_]) ?_ ?_
      · rw [List.singleton_sublist, mem_laueBranch]
        refine ⟨_, by rw [List.getElem?_map, hg']; rfl, ?_, hk⟩
        simp only [List.getElem?_map, hp1, Option.map_some]; rfl
      · rw [List.singleton_sublist, mem_laueBranch]
        refine ⟨_, by rw [List.getElem?_map, hg']; rfl, ?_, by rw [← heq]; exact hk⟩
        simp only [List.getElem?_map, hp1, Option.map_some]; rfl
    have := this.map (fun s : LaueSol =>
        [((((grainIndices c.phaseMap i).getD s.grain 0 : ℕ)) : ℝ), (i : ℝ), ((((activePlanes ph).1.map HKL.toV).getD s.plane 0)).x,
          ((((activePlanes ph).1.map HKL.toV).getD s.plane 0)).y, ((((activePlanes ph).1.map HKL.toV).getD s.plane 0)).z,
          (activePlanes ph).2.getD s.plane 0, s.time, s.G.x, s.G.y, s.G.z])
    rw [hrow]
    exact this
  refine hsub.trans ?_
  unfold allPhaseRows
  have hsplit : List.range c.phases.length = (List.range c.phases.length).take i ++ i :: (List.range c.phases.length).drop (i + 1) := by
    conv_lhs => rw [← List.take_append_drop i (List.range c.phases.length)]
    rw [List.drop_eq_getElem_cons (by simpa using hi)]
    simp
  rw [hsplit, List.flatMap_append, List.flatMap_cons, h2]
  exact (List.sublist_append_left _ _).trans (List.sublist_append_right _ _)

/-- **C03**, exact extent: a reported peak is reported a second time, with the same element, phase, plane and time, if and only if its
diffraction vector touches the Ewald sphere at that time.  Assumes that no phase lists a plane twice. -/
theorem C03_reported_twice_iff (c : Crystal) (b : Beam) (a T o : V3) (w : ℝ) (m : Motion) (d : PeaksDict)
    (hm : Motion.new a w T o = .ok m) (ha : norm a = 1) (hc : ∀ ph ∈ c.phases, ph.Consistent)
    (hnd : ∀ ph ∈ c.phases, ph.miller.Nodup) (hd : diffractCore c b m = .ok d)
    (i : ℕ) (r : List Fl) (hi : d.peaks[i]? = some r) (G : V3) (hG : HasV d.columns r "Gx" "Gy" "Gz" G) :
    (∃ j r', j ≠ i ∧ d.peaks[j]? = some r' ∧ (∀ name ∈ ["grain_index", "phase_number", "h", "k", "l", "diffraction_times"],
      ∀ v, Has d.columns r name v ↔ Has d.columns r' name v)) ↔
    dot b.waveVector (cross a G) = 0 := by
  have hcol := diffract_columns hd
  constructor
  · rintro ⟨j, r', hji, hj, hsame⟩
    obtain ⟨e1, i1, ph1, n1, hkl1, w1, t1, idx1, R1, F1, B1, rfl⟩ := mem_diffract hc hd (List.mem_of_getElem? hi)
    obtain ⟨e2, i2, ph2, n2, hkl2, w2, t2, idx2, R2, F2, B2, rfl⟩ := mem_diffract hc hd (List.mem_of_getElem? hj)
    rw [hcol] at hG hsame
    have get : ∀ (k : ℕ) (nm : String), peakColumns[k]? = some nm → nm ∈ ["grain_index", "phase_number", "h", "k", "l", "diffraction_times"] →
        ∀ v, (row24 c b m e1 i1 hkl1 w1 t1 ++ [fin (idx1 : ℕ)])[k]? = some v → (row24 c b m e2 i2 hkl2 w2 t2 ++ [fin (idx2 : ℕ)])[k]? = some v := by
      intro k nm hk hnm v hv
      exact (has_iff k hk).mp ((hsame nm hnm v).mp ((has_iff k hk).mpr hv))
    have c0 := get 0 "grain_index" rfl (by simp) _ rfl
    have c1 := get 1 "phase_number" rfl (by simp) _ rfl
    have c2 := get 2 "h" rfl (by simp) _ rfl
    have c3 := get 3 "k" rfl (by simp) _ rfl
    have c4 := get 4 "l" rfl (by simp) _ rfl
    have c6 := get 6 "diffraction_times" rfl (by simp) _ rfl
    have h1 : ∀ (x : Fl) (k : ℕ) (nm : String), peakColumns[k]? = some nm → (row24 c b m e1 i1 hkl1 w1 t1 ++ [fin (idx1 : ℕ)])[k]? = some x →
        (row24 c b m e2 i2 hkl2 w2 t2 ++ [fin (idx2 : ℕ)])[k]? = some x →
        Has d.columns (row24 c b m e1 i1 hkl1 w1 t1 ++ [fin (idx1 : ℕ)]) nm x ∧ Has d.columns (row24 c b m e2 i2 hkl2 w2 t2 ++ [fin (idx2 : ℕ)]) nm x := by
      intro x k nm hk ha hb; rw [hcol]; exact ⟨⟨k, hk, ha⟩, ⟨k, hk, hb⟩⟩
    have key : ∀ (p q : ℕ) (rp rq : List Fl), p < q → d.peaks[p]? = some rp → d.peaks[q]? = some rq →
        (rp = row24 c b m e1 i1 hkl1 w1 t1 ++ [fin (idx1 : ℕ)] ∧ rq = row24 c b m e2 i2 hkl2 w2 t2 ++ [fin (idx2 : ℕ)] ∨
          rp = row24 c b m e2 i2 hkl2 w2 t2 ++ [fin (idx2 : ℕ)] ∧ rq = row24 c b m e1 i1 hkl1 w1 t1 ++ [fin (idx1 : ℕ)]) →
        ∀ G', HasV d.columns rp "Gx" "Gy" "Gz" G' → dot b.waveVector (cross a G') = 0 := by
      intro p q rp rq hpq hp hq hor G' hG'
      rcases hor with ⟨rfl, rfl⟩ | ⟨rfl, rfl⟩
      · exact C03_no_event_twice_partial c b a T o w m d hm ha hc hnd hd p q hpq _ _ hp hq _ _ _ hkl1.toV
          (h1 _ 0 _ rfl rfl c0) (h1 _ 1 _ rfl rfl c1) ⟨⟨(h1 _ 2 _ rfl rfl c2).1, (h1 _ 3 _ rfl rfl c3).1, (h1 _ 4 _ rfl rfl c4).1⟩,
            ⟨(h1 _ 2 _ rfl rfl c2).2, (h1 _ 3 _ rfl rfl c3).2, (h1 _ 4 _ rfl rfl c4).2⟩⟩ (h1 _ 6 _ rfl rfl c6) G' hG'
      · exact C03_no_event_twice_partial c b a T o w m d hm ha hc hnd hd p q hpq _ _ hp hq _ _ _ hkl1.toV
          (h1 _ 0 _ rfl rfl c0).symm (h1 _ 1 _ rfl rfl c1).symm ⟨⟨(h1 _ 2 _ rfl rfl c2).2, (h1 _ 3 _ rfl rfl c3).2, (h1 _ 4 _ rfl rfl c4).2⟩,
            ⟨(h1 _ 2 _ rfl rfl c2).1, (h1 _ 3 _ rfl rfl c3).1, (h1 _ 4 _ rfl rfl c4).1⟩⟩ (h1 _ 6 _ rfl rfl c6).symm G' hG'
    rcases lt_or_gt_of_ne hji with h | h
    · -- the other row comes first: its `G` is the same
      refine key j i _ _ h hj hi (.inr ⟨rfl, rfl⟩) G ?_
      have ee : e2 = e1 := by
        have : some (fin (e2 : ℝ)) = some (fin (e1 : ℝ)) := c0
        have := Fl.fin.inj (Option.some.inj this)
        exact_mod_cast this
      have tt : t2 = t1 := Fl.fin.inj (Option.some.inj c6)
      have hk : hkl2.toV = hkl1.toV := by
        ext
        · exact Fl.fin.inj (Option.some.inj c2)
        · exact Fl.fin.inj (Option.some.inj c3)
        · exact Fl.fin.inj (Option.some.inj c4)
      have hGG : c.G0 e2 hkl2 = c.G0 e1 hkl1 := by unfold Crystal.G0; rw [ee, hk]
      rw [hcol]
      obtain ⟨g1, g2, g3⟩ := hG
      have q1 := (has_iff 10 rfl).mp g1
      have q2 := (has_iff 11 rfl).mp g2
      have q3 := (has_iff 12 rfl).mp g3
      refine ⟨⟨10, rfl, ?_⟩, ⟨11, rfl, ?_⟩, ⟨12, rfl, ?_⟩⟩
      · rw [← q1]; simp [row24, hGG, tt]
      · rw [← q2]; simp [row24, hGG, tt]
      · rw [← q3]; simp [row24, hGG, tt]
    · exact key i j _ _ h hi hj (.inl ⟨rfl, rfl⟩) G (by rw [hcol]; exact hG)
  · intro hz
    obtain ⟨rfl, hw0, -⟩ := Motion.new_ok hm
    have hmem := List.mem_of_getElem? hi
    obtain ⟨e, p, ph, n, hkl, wt, t, idx, R, F, B, rfl⟩ := mem_diffract hc hd hmem
    rw [hcol] at hG
    have hGeq : G = (⟨a, w, T, o⟩ : Motion).rotate1 (c.G0 e hkl) t := by
      obtain ⟨g1, g2, g3⟩ := hG
      have q1 := (has_iff 10 rfl).mp g1
      have q2 := (has_iff 11 rfl).mp g2
      have q3 := (has_iff 12 rfl).mp g3
      ext
      · exact (Fl.fin.inj (Option.some.inj q1)).symm
      · exact (Fl.fin.inj (Option.some.inj q2)).symm
      · exact (Fl.fin.inj (Option.some.inj q3)).symm
    have htwo := grazing_twice (m := ⟨a, w, T, o⟩) (b := b) (norm_eq_one.mp ha) hw0 hc R F (by rw [← hGeq]; exact hz)
    have hrows : d.peaks.map List.dropLast = ((allPhaseRows c b ⟨a, w, T, o⟩).map (extendRow c b ⟨a, w, T, o⟩)).filter (illuminated b) := by
      unfold diffractCore at hd
      cases hp : computePeaks c b ⟨a, w, T, o⟩ with
      | error e => rw [hp] at hd; cases hd
      | ok rows =>
        rw [hp] at hd
        obtain rfl := Except.ok.inj hd
        obtain rfl := computePeaks_ok hp
        apply List.ext_getElem <;> simp
    have hext : extendRow c b ⟨a, w, T, o⟩ (row10 c e p hkl wt t) = row24 c b ⟨a, w, T, o⟩ e p hkl wt t := extendRow_row10 _ _ _ _ _ _ _ _
    have hill : illuminated b (row24 c b ⟨a, w, T, o⟩ e p hkl wt t) = true := by
      have : (row24 c b ⟨a, w, T, o⟩ e p hkl wt t) ∈ d.peaks.map List.dropLast := by
        rw [List.mem_map]; exact ⟨_, hmem, by simp⟩
      rw [hrows, List.mem_filter] at this
      exact this.2
    have hdup : (d.peaks.map List.dropLast).Duplicate (row24 c b ⟨a, w, T, o⟩ e p hkl wt t) := by
      rw [List.duplicate_iff_sublist, hrows]
      have := (htwo.map (extendRow c b ⟨a, w, T, o⟩)).filter (illuminated b)
      rw [List.map_cons, List.map_cons, List.map_nil, hext, List.filter_cons_of_pos (by simp [hill]), List.filter_cons_of_pos (by simp [hill]), List.filter_nil] at this
      exact this
    obtain ⟨x, y, hxy, hx, hy⟩ := List.duplicate_iff_exists_distinct_get.mp hdup
    have hlen : (d.peaks.map List.dropLast).length = d.peaks.length := by simp
    obtain ⟨z, hzi, hz2⟩ : ∃ z : Fin (d.peaks.map List.dropLast).length, (z : ℕ) ≠ i ∧
        (d.peaks.map List.dropLast).get z = row24 c b ⟨a, w, T, o⟩ e p hkl wt t := by
      by_cases hxi : (x : ℕ) = i
      · refine ⟨y, ?_, hy.symm⟩
        have : (x : ℕ) < y := hxy
        omega
      · exact ⟨x, hxi, hx.symm⟩
    have hzl : (z : ℕ) < d.peaks.length := lt_of_lt_of_eq z.2 hlen
    refine ⟨z, d.peaks[(z : ℕ)], hzi, List.getElem?_eq_getElem hzl, ?_⟩
    have hdrop : (d.peaks[(z : ℕ)]).dropLast = row24 c b ⟨a, w, T, o⟩ e p hkl wt t := by
      rw [← hz2]; simp
    obtain ⟨e', p', ph', n', hkl', wt', t', idx', -, -, -, hzr⟩ := mem_diffract hc hd (List.getElem_mem hzl)
    rw [hzr] at hdrop ⊢
    rw [List.dropLast_concat] at hdrop
    rw [hdrop, hcol]
    have hl24 : (row24 c b ⟨a, w, T, o⟩ e p hkl wt t).length = 24 := rfl
    intro name hname v
    simp only [List.mem_cons, List.not_mem_nil, or_false] at hname
    rcases hname with rfl | rfl | rfl | rfl | rfl | rfl
    · rw [has_iff 0 rfl, has_iff 0 rfl]; rfl
    · rw [has_iff 1 rfl, has_iff 1 rfl]; rfl
    · rw [has_iff 2 rfl, has_iff 2 rfl]; rfl
    · rw [has_iff 3 rfl, has_iff 3 rfl]; rfl
    · rw [has_iff 4 rfl, has_iff 4 rfl]; rfl
    · rw [has_iff 6 rfl, has_iff 6 rfl]; rfl

/-- the grazing event of `C03_no_event_twice_fails` is one of this kind -/
example : ∃ (c : Crystal) (d : PeaksDict) (r : List Fl) (G : V3), diffractCore c demoBeam demoZ = .ok d ∧ d.peaks[0]? = some r ∧
    HasV d.columns r "Gx" "Gy" "Gz" G ∧ dot demoBeam.waveVector (cross ⟨0, 0, 1⟩ G) = 0 := by
  obtain ⟨d, hd, t, ht⟩ := demo_tangent_peaks
  have hc : ∀ ph ∈ (demoCrystal ⟨-3/5, 4/5, 1⟩).phases, ph.Consistent := by
    intro ph hph
    simp [demoCrystal, crystalUB] at hph
    subst hph
    intro sf h; simp [demoPhase] at h
  have hnd : ∀ ph ∈ (demoCrystal ⟨-3/5, 4/5, 1⟩).phases, ph.miller.Nodup := by
    intro ph hph
    simp [demoCrystal, crystalUB] at hph
    subst hph
    simp [demoPhase]
  have h0 : d.peaks[0]? = some (row24 (demoCrystal ⟨-3/5, 4/5, 1⟩) demoBeam demoZ 0 0 ⟨1, 0, 0⟩ 1 t ++ [fin (0 : ℕ)]) := by rw [ht]; rfl
  have h1 : d.peaks[1]? = some (row24 (demoCrystal ⟨-3/5, 4/5, 1⟩) demoBeam demoZ 0 0 ⟨1, 0, 0⟩ 1 t ++ [fin (1 : ℕ)]) := by rw [ht]; rfl
  have hG : HasV d.columns (row24 (demoCrystal ⟨-3/5, 4/5, 1⟩) demoBeam demoZ 0 0 ⟨1, 0, 0⟩ 1 t ++ [fin (0 : ℕ)]) "Gx" "Gy" "Gz"
      (demoZ.rotate1 ((demoCrystal ⟨-3/5, 4/5, 1⟩).G0 0 ⟨1, 0, 0⟩) t) := by
    rw [diffract_columns hd]; exact ⟨⟨10, rfl, rfl⟩, ⟨11, rfl, rfl⟩, ⟨12, rfl, rfl⟩⟩
  refine ⟨_, d, _, _, hd, h0, hG, ?_⟩
  refine (C03_reported_twice_iff (demoCrystal ⟨-3/5, 4/5, 1⟩) demoBeam _ _ _ _ demoZ d demoZ_new norm_ez hc hnd hd 0 _ h0 _ hG).mp ⟨1, _, by norm_num, h1, ?_⟩
  intro name hname v
  rw [diffract_columns hd]
  simp only [List.mem_cons, List.not_mem_nil, or_false] at hname
  rcases hname with rfl | rfl | rfl | rfl | rfl | rfl
  · rw [has_iff 0 rfl, has_iff 0 rfl]; rfl
  · rw [has_iff 1 rfl, has_iff 1 rfl]; rfl
  · rw [has_iff 2 rfl, has_iff 2 rfl]; rfl
  · rw [has_iff 3 rfl, has_iff 3 rfl]; rfl
  · rw [has_iff 4 rfl, has_iff 4 rfl]; rfl
  · rw [has_iff 6 rfl, has_iff 6 rfl]; rfl

/-! ### C05 -/

theorem rotMat_columns (a : V3) (θ : ℝ) :
    nsq ((rotMat a θ).mulVec ⟨1, 0, 0⟩) + nsq ((rotMat a θ).mulVec ⟨0, 1, 0⟩) + nsq ((rotMat a θ).mulVec ⟨0, 0, 1⟩) =
      3 + 2 * nsq a * (1 - Real.cos θ) ^ 2 * (nsq a - 1) := by
  have hs : Real.sin θ ^ 2 = 1 - Real.cos θ ^ 2 := Real.sin_sq θ
  simp only [rotMat, crossMat2, crossMat, V3.dot, nsq, mulVec,
    M3.add_r0, M3.add_r1, M3.add_r2, M3.smul_r0, M3.smul_r1, M3.smul_r2, V3.add_x, V3.add_y, V3.add_z,
    M3.mul_r0, M3.mul_r1, M3.mul_r2, M3.one_r0, M3.one_r1, M3.one_r2, vecMul,
    V3.smul_x, V3.smul_y, V3.smul_z, V3.neg_x, V3.neg_y, V3.neg_z]
  linear_combination (2 * (a.x * a.x + a.y * a.y + a.z * a.z)) * hs

/-- **C05**, exact extent: an accepted motion is rigid at a time in `(0,1]` if and only if its rotation axis has exactly unit length (the
constructor accepts lengths that are close to one). -/
theorem C05_rigid_iff (a T o : V3) (w t : ℝ) (m : Motion) (hm : Motion.new a w T o = .ok m) (ht0 : 0 < t) (ht1 : t ≤ 1) :
    Spec.RigidMap (fun p => m.call1 p t) ↔ norm a = 1 := by
  refine ⟨?_, fun ha => C05_motion_is_rigid_partial a T o w t m hm ha⟩
  obtain ⟨rfl, hw0, hw1, hax⟩ := Motion.new_ok hm
  rintro ⟨hd, -⟩
  have key : ∀ v : V3, nsq ((rotMat a (w * t)).mulVec v) = nsq v := by
    intro v
    have h := hd (o + v) o
    have e1 : (⟨a, w, T, o⟩ : Motion).call1 (o + v) t - (⟨a, w, T, o⟩ : Motion).call1 o t = (rotMat a (w * t)).mulVec v := by
      unfold Motion.call1
      ext <;> simp [mulVec, V3.dot] <;> ring
    have e2 : o + v - o = v := by ext <;> simp
    unfold V3.dist at h
    rw [e1, e2] at h
    rw [← V3.norm_sq, ← V3.norm_sq, h]
  have hsum := rotMat_columns a (w * t)
  rw [key, key, key] at hsum
  have hcos : Real.cos (w * t) ≠ 1 := by
    intro h
    have hpos : 0 < w * t := by positivity
    have hlt : w * t < 2 * Real.pi := by nlinarith [Real.pi_pos]
    have := (Real.cos_eq_one_iff_of_lt_of_lt (by linarith [Real.pi_pos]) hlt).mp h
    linarith
  have hn0 : nsq a ≠ 0 := by
    intro h
    have : a = 0 := nsq_eq_zero.mp h
    subst this
    have h0 : norm (0 : V3) = 0 := by simp [V3.norm, nsq, V3.dot]
    unfold axisAccepted allclose at hax
    rw [h0] at hax
    norm_num at hax
  have h3 : nsq (⟨1, 0, 0⟩ : V3) + nsq ⟨0, 1, 0⟩ + nsq ⟨0, 0, 1⟩ = 3 := by norm_num [nsq, V3.dot]
  rw [h3] at hsum
  have : 2 * nsq a * (1 - Real.cos (w * t)) ^ 2 * (nsq a - 1) = 0 := by linarith
  have h1 : nsq a - 1 = 0 := by
    rcases mul_eq_zero.mp this with h | h
    · exfalso
      rcases mul_eq_zero.mp h with h | h
      · exact hn0 (by linarith)
      · exact hcos (by have := pow_eq_zero_iff (two_ne_zero) |>.mp h; linarith)
    · exact h
  rw [norm_eq_one]; linarith

/-! ### C73 and C81 -/

/-- the sample-frame vector of a reported peak does not satisfy the Laue condition after half a turn -/
theorem reported_not_half {x : Xfab} (hx : ∀ h cell sg cif, (x.sfBatch h cell sg cif).length = h.length) {p : Polycrystal}
    (hph : ∀ ph ∈ p.phases, ph.Fresh) {b : Beam} {m : Motion} (ha : nsq m.axis = 1) {lo hi : ℝ} {det : Option Detector} {d : PeaksDict} {p' : Polycrystal}
    (hd : p.diffract x b m lo hi det = .ok (d, p')) {row : List Fl} (hrow : row ∈ d.peaks) {g : V3}
    (hg : HasV d.columns row "G0_x" "G0_y" "G0_z" g) : ¬ Elastic b.waveVector (rotate m.axis Real.pi g) := by
  obtain ⟨lo', hi', hb, rfl, hc⟩ := Polycrystal.diffract_ok hd
  have hcons : ∀ ph ∈ (p.setupPhases x b.wavelength lo' hi').crystal.phases, ph.Consistent := by
    intro ph h
    obtain ⟨ph0, h0, rfl⟩ := List.mem_map.mp h
    exact Phase.setup_consistent hx (hph _ h0) _ _ _
  obtain ⟨e, i, ph, n, hkl, wt, t, idx, -, hf, -, rfl⟩ := mem_diffract hcons hc hrow
  rw [diffract_columns hc] at hg
  obtain ⟨g1, g2, g3⟩ := hg
  have q1 := (has_iff 7 rfl).mp g1
  have q2 := (has_iff 8 rfl).mp g2
  have q3 := (has_iff 9 rfl).mp g3
  have : g = (p.setupPhases x b.wavelength lo' hi').crystal.G0 e hkl := by
    ext
    · exact (Fl.fin.inj (Option.some.inj q1)).symm
    · exact (Fl.fin.inj (Option.some.inj q2)).symm
    · exact (Fl.fin.inj (Option.some.inj q3)).symm
  rw [this]
  exact fun h => not_found_of_half ha h hf

theorem hasV_unique {row : List Fl} {g g' : V3} (h : HasV peakColumns row "G0_x" "G0_y" "G0_z" g)
    (h' : HasV peakColumns row "G0_x" "G0_y" "G0_z" g') : g = g' := by
  obtain ⟨g1, g2, g3⟩ := h
  obtain ⟨k1, k2, k3⟩ := h'
  ext
  · exact Fl.fin.inj (Option.some.inj (((has_iff 7 rfl).mp g1).symm.trans ((has_iff 7 rfl).mp k1)))
  · exact Fl.fin.inj (Option.some.inj (((has_iff 8 rfl).mp g2).symm.trans ((has_iff 8 rfl).mp k2)))
  · exact Fl.fin.inj (Option.some.inj (((has_iff 9 rfl).mp g3).symm.trans ((has_iff 9 rfl).mp k3)))

/-- **C73**, exact extent: a peak of the whole scan later than `l` is seen by the second part if and only if its diffraction vector would
not satisfy the Laue condition half a turn after the start of the second part; and a peak of the second part is seen by the whole scan if
and only if its diffraction vector would not satisfy it half a turn after the start of the whole scan. -/
theorem C73_second_part_iff (x : Xfab) (hx : ∀ h cell sg cif, (x.sfBatch h cell sg cif).length = h.length) (p : Polycrystal)
    (hp : Built p) (hph : ∀ ph ∈ p.phases, ph.Fresh) (b : Beam) (a T o : V3) (ha : norm a = 1) (w l : ℝ) (hl0 : 0 < l) (hl1 : l < 1)
    (m m1 m2 : Motion) (hm : Motion.new a w T o = .ok m) (hm1 : Motion.new a (l * w) (l • T) o = .ok m1)
    (hm2 : Motion.new a ((1 - l) * w) ((1 - l) • T) (o + l • T) = .ok m2) (lo hi : ℝ)
    (d d2 : PeaksDict) (p' p2' : Polycrystal) (hd : p.diffract x b m lo hi none = .ok (d, p'))
    (hd2 : (p.transform m1 1).diffract x b m2 lo hi none = .ok (d2, p2')) :
    (∀ row ∈ d.peaks, ∀ t, Has d.columns row "diffraction_times" (fin t) → l ≤ t →
      ∀ g, HasV d.columns row "G0_x" "G0_y" "G0_z" g →
      ((∃ row2 ∈ d2.peaks, SameEventSecond d.columns l (rotate a (l * w)) row row2) ↔
        ¬ Elastic b.waveVector (rotate a (Real.pi + l * w) g))) ∧
    (∀ row2 ∈ d2.peaks, ∀ g, HasV d.columns row2 "G0_x" "G0_y" "G0_z" g →
      ((∃ row ∈ d.peaks, SameEventSecond d.columns l (rotate a (l * w)) row row2) ↔
        ¬ Elastic b.waveVector (rotate a (Real.pi - l * w) g))) := by
  have hn : nsq a = 1 := norm_eq_one.mp ha
  obtain ⟨-, hcol2, k1, k2⟩ := C73_second_part_partial x hx p hp hph b a T o ha w l hl0 hl1 m m1 m2 hm hm1 hm2 lo hi d d2 p' p2' hd hd2
  have e1 : m.axis = a := by rw [(Motion.new_ok hm).1]
  have e2 : m2.axis = a := by rw [(Motion.new_ok hm2).1]
  have hph2 : ∀ ph ∈ (p.transform m1 1).phases, ph.Fresh := hph
  have hcol : d.columns = peakColumns := by
    obtain ⟨_, _, _, rfl, hc⟩ := Polycrystal.diffract_ok hd
    exact diffract_columns hc
  constructor
  · intro row hrow t ht hlt g hg
    refine ⟨?_, k1 row hrow t ht hlt g hg⟩
    rintro ⟨row2, hr2, -, ⟨g', hg', hg2⟩, -⟩
    rw [hcol] at hg hg'
    obtain rfl := hasV_unique hg hg'
    have := reported_not_half hx hph2 (by rw [e2]; exact hn) hd2 hr2 (by rw [hcol2]; exact hg2)
    rwa [e2, rotate_rotate hn] at this
  · intro row2 hr2 g hg
    refine ⟨?_, k2 row2 hr2 g hg⟩
    rintro ⟨row, hrow, -, ⟨g', hg', hg2⟩, -⟩
    rw [hcol] at hg hg2
    obtain rfl := hasV_unique hg hg2
    have := reported_not_half hx hph (by rw [e1]; exact hn) hd hrow hg'
    rw [e1] at this
    rwa [rotate_rotate hn, sub_add_cancel]

/-- **C81**, exact extent: a peak of the forward scan is seen by the backward scan of the moved crystal, at the mirrored time, if and only
if its diffraction vector would not satisfy the Laue condition half a turn after the start of the backward scan; and conversely. -/
theorem C81_backward_iff (x : Xfab) (hx : ∀ h cell sg cif, (x.sfBatch h cell sg cif).length = h.length) (p : Polycrystal)
    (hp : Built p) (hph : ∀ ph ∈ p.phases, ph.Fresh) (b : Beam) (hk : b.waveVector ≠ 0) (a T o : V3) (ha : norm a = 1) (w : ℝ)
    (m m2 : Motion) (hm : Motion.new a w T o = .ok m) (hm2 : Motion.new (-a) w (-T) (o + T) = .ok m2) (lo hi : ℝ)
    (d d2 : PeaksDict) (p' p2' : Polycrystal) (hd : p.diffract x b m lo hi none = .ok (d, p'))
    (hd2 : (p.transform m 1).diffract x b m2 lo hi none = .ok (d2, p2')) :
    (∀ row ∈ d.peaks, ∀ g, HasV d.columns row "G0_x" "G0_y" "G0_z" g →
      ((∃ row2 ∈ d2.peaks, SameEventBack d.columns (rotate a w) row row2) ↔ ¬ Elastic b.waveVector (rotate a (w - Real.pi) g))) ∧
    (∀ row2 ∈ d2.peaks, ∀ g, HasV d.columns row2 "G0_x" "G0_y" "G0_z" g →
      ((∃ row ∈ d.peaks, SameEventBack d.columns (rotate a w) row row2) ↔ ¬ Elastic b.waveVector (rotate a (Real.pi - w) g))) := by
  have hn : nsq a = 1 := norm_eq_one.mp ha
  obtain ⟨hcol2, k1, k2⟩ := C81_backward_partial x hx p hp hph b hk a T o ha w m m2 hm hm2 lo hi d d2 p' p2' hd hd2
  have e1 : m.axis = a := by rw [(Motion.new_ok hm).1]
  have e2 : m2.axis = -a := by rw [(Motion.new_ok hm2).1]
  have hn2 : nsq (-a) = 1 := by rw [← hn]; simp [nsq, V3.dot]
  have hph2 : ∀ ph ∈ (p.transform m 1).phases, ph.Fresh := hph
  have hcol : d.columns = peakColumns := by
    obtain ⟨_, _, _, rfl, hc⟩ := Polycrystal.diffract_ok hd
    exact diffract_columns hc
  constructor
  · intro row hrow g hg
    refine ⟨?_, k1 row hrow g hg⟩
    rintro ⟨row2, hr2, -, ⟨g', hg', hg2⟩, -⟩
    rw [hcol] at hg hg'
    obtain rfl := hasV_unique hg hg'
    have := reported_not_half hx hph2 (by rw [e2]; exact hn2) hd2 hr2 (by rw [hcol2]; exact hg2)
    rwa [e2, rotate_neg hn, rotate_rotate hn, show -Real.pi + w = w - Real.pi by ring] at this
  · intro row2 hr2 g hg
    refine ⟨?_, k2 row2 hr2 g hg⟩
    rintro ⟨row, hrow, -, ⟨g', hg', hg2⟩, -⟩
    rw [hcol] at hg hg2
    obtain rfl := hasV_unique hg hg2
    have := reported_not_half hx hph (by rw [e1]; exact hn) hd hrow hg'
    rw [e1] at this
    rwa [rotate_rotate hn, sub_add_cancel]

end XRD
